import Verif.Hash.Linear

/-!
Model of `TranscriptGL`, starky/src/transcript.rs, over an arbitrary twelve-element permutation.
-/

namespace Verif.TranscriptGL
open Verif.Linear
variable {F : Type*} [Zero F]

/-- starky/src/transcript.rs L8-13 -/
structure T (F : Type*) where
  state : List F
  pending : List F
  out : List F

/-- `new`, starky/src/transcript.rs L38-45 -/
def new : T F := ⟨List.replicate 4 0, [], []⟩

/-- `update_state`, starky/src/transcript.rs L16-25; `none` is the `Err` of Poseidon. -/
def updateState (perm : List F → List F) (t : T F) : Option (T F) :=
  (poseidonHash perm (t.pending ++ List.replicate (8 - t.pending.length) 0) t.state 12).map fun o =>
    ⟨o.take 4, [], o⟩

/-- `add_1`, starky/src/transcript.rs L26-33 -/
def add1 (perm : List F → List F) (t : T F) (e : F) : Option (T F) :=
  if (t.pending ++ [e]).length = 8 then updateState perm ⟨t.state, t.pending ++ [e], []⟩
  else some ⟨t.state, t.pending ++ [e], []⟩

/-- `put`, starky/src/transcript.rs L64-71 -/
def put (perm : List F → List F) (t : T F) (es : List (List F)) : Option (T F) :=
  es.foldlM (fun t e => e.foldlM (fun t x => add1 perm t x) t) t

/-- `get_fields1`, starky/src/transcript.rs L54-62.  The recursive call after `update_state` finds `out`
nonempty (twelve elements), so one unfolding is the whole function; a permutation with an empty output
would make the code loop forever (`none`). -/
def getFields1 (perm : List F → List F) (t : T F) : Option (F × T F) :=
  match t.out with
  | v :: rest => some (v, { t with out := rest })
  | [] => (updateState perm t).bind fun t' =>
    match t'.out with
    | v :: rest => some (v, { t' with out := rest })
    | [] => none

/-- `k` successive calls of `get_fields1`: `get_field` (starky/src/transcript.rs L47-52) is three of them,
`get_permutations` (L77-80) makes `n_fields` of them. -/
def getMany (perm : List F → List F) : Nat → T F → Option (List F × T F)
  | 0, t => some ([], t)
  | k + 1, t => (getFields1 perm t).bind fun r => (getMany perm k r.2).map fun q => (r.1 :: q.1, q.2)

/-- `get_field`, starky/src/transcript.rs L47-52: the three coefficients. -/
def getField (perm : List F → List F) (t : T F) : Option (List F × T F) := getMany perm 3 t

/-- Operations of the public interface. -/
inductive Op (F : Type*)
  | put (es : List (List F))
  | get (k : Nat)

/-- Run a history; collects the challenges. -/
def run (perm : List F → List F) : List (Op F) → T F → Option (List (List F) × T F)
  | [], t => some ([], t)
  | .put es :: ops, t => (put perm t es).bind fun t' => run perm ops t'
  | .get k :: ops, t => (getMany perm k t).bind fun r => (run perm ops r.2).map fun q => (r.1 :: q.1, q.2)

/-! ### Specification -/

/-- Output of the permutation after absorbing blocks of eight, starting from the capacity `cap`. -/
def absorbAll (perm : List F → List F) (cap : List F) (blocks : List (List F)) : List F :=
  blocks.foldl (fun o b => perm (b ++ o.take 4)) cap

/-- The infinite output stream after the permutation output `o`: its twelve elements, then the elements of
the outputs got by absorbing further zero blocks. -/
def stream (perm : List F → List F) (o : List F) (j : Nat) : Option F :=
  (absorbAll perm o (List.replicate (j / 12) (List.replicate 8 0)))[j % 12]?

/-- Invariant of reachable transcripts. -/
structure Inv (t : T F) : Prop where
  pend : t.pending.length < 8
  st : t.state.length = 4
  excl : t.pending = [] ∨ t.out = []

end Verif.TranscriptGL
