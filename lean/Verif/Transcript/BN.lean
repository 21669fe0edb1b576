import Verif.Hash.Chunks
import Mathlib.Data.Nat.Bitwise

/-!
Model of `TranscriptBN128`, starky/src/transcript_bn128.rs (starky/src/transcript_bls12381.rs is the same text over
the other field), over an arbitrary Poseidon function `perm inputs state = outputs` (`hash_ex(.., 17)`: seventeen
outputs for sixteen inputs), an arbitrary splitting of a scalar into three Goldilocks elements and an
arbitrary encoding of a digest as a scalar.
-/

namespace Verif.TranscriptBN
variable {F G : Type*} [Zero F]

/-- starky/src/transcript_bn128.rs L14-20 -/
structure T (F G : Type*) where
  state : F
  pending : List F
  out : List F
  out3 : List G

/-- `new`, starky/src/transcript_bn128.rs L53-61 -/
def new : T F G := ⟨0, [], [], []⟩

/-- `update_state`, starky/src/transcript_bn128.rs L23-32.  `hash_ex` rejects more than sixteen inputs (never
reached: `pending` is flushed at sixteen); `self.out[0]` panics on an empty output (`none`). -/
def updateState (perm : List F → F → List F) (t : T F G) : Option (T F G) :=
  match perm (t.pending ++ List.replicate (16 - t.pending.length) 0) t.state with
  | [] => none
  | o :: os => some ⟨o, [], o :: os, []⟩

/-- `add_1`, starky/src/transcript_bn128.rs L33-41: `out` is cleared, `out3` is not. -/
def add1 (perm : List F → F → List F) (t : T F G) (e : F) : Option (T F G) :=
  if (t.pending ++ [e]).length = 16 then updateState perm ⟨t.state, t.pending ++ [e], [], t.out3⟩
  else some ⟨t.state, t.pending ++ [e], [], t.out3⟩

/-- `put`, starky/src/transcript_bn128.rs L89-102; `enc` is the match on the length (`none`: the panic). -/
def put (perm : List F → F → List F) (enc : List G → Option F) (t : T F G) (es : List (List G)) : Option (T F G) :=
  es.foldlM (fun t e => (enc e).bind fun x => add1 perm t x) t

/-- `get_fields253`, starky/src/transcript_bn128.rs L43-49 (the recursive call finds `out` nonempty). -/
def get253 (perm : List F → F → List F) (t : T F G) : Option (F × T F G) :=
  match t.out with
  | v :: rest => some (v, { t with out := rest })
  | [] => (updateState perm t).bind fun t' =>
    match t'.out with
    | v :: rest => some (v, { t' with out := rest })
    | [] => none

/-- `get_fields1`, starky/src/transcript_bn128.rs L70-87: pop `out3`; if it is empty pop `out` and split it
(L76-83), after an `update_state` if `out` is empty too (L85).  The recursion is unfolded: its depth is at most
three because `update_state` leaves a nonempty `out` and the split leaves a nonempty `out3`. -/
def get1 (perm : List F → F → List F) (split : F → List G) (t : T F G) : Option (G × T F G) :=
  match t.out3 with
  | v :: rest => some (v, { t with out3 := rest })
  | [] => (get253 perm t).bind fun r =>
    match split r.1 with
    | v :: rest => some (v, { r.2 with out3 := rest })
    | [] => none

/-- `k` successive `get_fields1` -/
def getMany (perm : List F → F → List F) (split : F → List G) : Nat → T F G → Option (List G × T F G)
  | 0, t => some ([], t)
  | k + 1, t => (get1 perm split t).bind fun r => (getMany perm split k r.2).map fun q => (r.1 :: q.1, q.2)

/-- `get_field`, starky/src/transcript_bn128.rs L63-68 -/
def getField (perm : List F → F → List F) (split : F → List G) (t : T F G) : Option (List G × T F G) :=
  getMany perm split 3 t

/-- the `n_fields` draws of `get_permutations`, starky/src/transcript_bn128.rs L107-110 -/
def draw253 (perm : List F → F → List F) : Nat → T F G → Option (List F × T F G)
  | 0, t => some ([], t)
  | k + 1, t => (get253 perm t).bind fun r => (draw253 perm k r.2).map fun q => (r.1 :: q.1, q.2)

/-- the three limbs of a scalar reduced to Goldilocks elements, starky/src/transcript_bn128.rs L78-82 and
starky/src/helper.rs L61-65, on canonical integers -/
def splitInt (v : Nat) : List Nat :=
  [(v &&& 0xFFFFFFFFFFFFFFFF) % 0xFFFFFFFF00000001, ((v >>> 64) &&& 0xFFFFFFFFFFFFFFFF) % 0xFFFFFFFF00000001,
   ((v >>> 128) &&& 0xFFFFFFFFFFFFFFFF) % 0xFFFFFFFF00000001]

/-- Public operations: `put`, `get_field`, a single `get_fields1`, the draws of `get_permutations`. -/
inductive Op (G : Type*)
  | put (es : List (List G))
  | field
  | single
  | perms (k : Nat)

/-- what an operation returns -/
inductive Res (F G : Type*)
  | none
  | elems (l : List G)
  | scalars (l : List F)

def stepOp (perm : List F → F → List F) (enc : List G → Option F) (split : F → List G) (t : T F G) :
    Op G → Option (Res F G × T F G)
  | .put es => (put perm enc t es).map fun t' => (.none, t')
  | .field => (getField perm split t).map fun r => (.elems r.1, r.2)
  | .single => (get1 perm split t).map fun r => (.elems [r.1], r.2)
  | .perms k => (draw253 perm k t).map fun r => (.scalars r.1, r.2)

def run (perm : List F → F → List F) (enc : List G → Option F) (split : F → List G) :
    List (Op G) → T F G → Option (List (Res F G) × T F G)
  | [], t => some ([], t)
  | op :: ops, t => (stepOp perm enc split t op).bind fun r =>
      (run perm enc split ops r.2).map fun q => (r.1 :: q.1, q.2)

/-! ### Specification -/

/-- Output after absorbing blocks of sixteen, the state being the first output element. -/
def absorbAll (perm : List F → F → List F) (o : List F) (blocks : List (List F)) : List F :=
  blocks.foldl (fun o b => perm b (o.headD 0)) o

/-- Output stream after output `o`: its elements, then those of the outputs after further zero blocks. -/
def stream (perm : List F → F → List F) (o : List F) (j : Nat) : Option F :=
  (absorbAll perm o (List.replicate (j / 17) (List.replicate 16 0)))[j % 17]?

/-- zero padding to a multiple of sixteen -/
def pad16 (l : List F) : List F := l ++ List.replicate ((l.length + 15) / 16 * 16 - l.length) 0

/-- Poseidon returns seventeen elements on sixteen inputs -/
def IsHash (perm : List F → F → List F) : Prop := ∀ l s, l.length = 16 → (perm l s).length = 17

structure Inv (t : T F G) : Prop where
  pend : t.pending.length < 16
  excl : t.pending = [] ∨ t.out = []

end Verif.TranscriptBN
