import Verif.Transcript.BN
import Verif.Transcript.Perms

/-!
# The transcript of the on-chain verifier circuit, starky/src/stark_verifier_circom_onchain.rs L33-187

The generator keeps a transcript of names (`Transcript`) and prints components; here the names, the printed statements, and how a
witness generator evaluates them.  `none` is a panic of the generator, or a circuit the circom compiler refuses.  The constraints are in
OnTranscriptProps.lean.
-/
namespace Verif.Gadget.On

/-- a name in the transcript: the literal `0`, an element of an input of the template (`root1`, `publics[3]`, …), `tcHahs_h.out[i]`,
`bn1togl3_c.out[e]` -/
inductive Sig (I : Type)
  | zero | input (a : I) | hash (h i : Nat) | limb (c e : Nat)
deriving DecidableEq

/-- a printed group of statements.  `hash h inp init`: `component tcHahs_h = PoseidonEx(16,17)`, its sixteen `inputs` and
`initialState`, L107-129; `split c s`: `component bn1togl3_c = BN1toGL3(); bn1togl3_c.in <== s`, L79-86; `assign d k s`:
`d[k] <== s`, L61-69; `n2b c s`: `component tcN2b_c = Num2Bits(255); tcN2b_c.in <== s`, L158-164; `bit i j c b`:
`ys[i][j] <== tcN2b_c.out[b]`, L165-177 -/
inductive Stmt (I O : Type)
  | hash (h : Nat) (inp : List (Sig I)) (init : Sig I) | split (c : Nat) (s : Sig I) | assign (d : O) (k : Nat) (s : Sig I)
  | n2b (c : Nat) (s : Sig I) | bit (i j c b : Nat)

/-- `Transcript`, starky/src/stark_verifier_circom_onchain.rs L33-45 (`h_cnt`, `bn1togl3Cnt`, `n2b_cnt` are the numbers of components
so far) -/
structure OT (I O : Type) where
  state : Sig I
  pending : List (Sig I)
  out : List (Sig I)
  out3 : List (Sig I)
  hCnt : Nat
  gCnt : Nat
  nCnt : Nat
  code : List (Stmt I O)

namespace OT
variable {I O : Type}

/-- `new`, stark_verifier_circom_onchain.rs L48-60 -/
def new : OT I O := ⟨.zero, [], [], [], 0, 0, 0, []⟩

/-- `updateState`, L105-130 -/
def updateState (t : OT I O) : OT I O :=
  ⟨.hash t.hCnt 0, [], (List.range 17).map (.hash t.hCnt), [], t.hCnt + 1, t.gCnt, t.nCnt,
    t.code ++ [.hash t.hCnt (t.pending ++ List.replicate (16 - t.pending.length) .zero) t.state]⟩

/-- `getFields253`, L96-104: the first output, after an `updateState` if there is none -/
def getFields253 (t : OT I O) : Option (Sig I × OT I O) :=
  let t := if t.out = [] then updateState t else t
  match t.out with
  | [] => none
  | s :: rest => some (s, { t with out := rest })

/-- `getFields1`, L71-95: the first limb left; else the next output is split by a component -/
def getFields1 (t : OT I O) : Option (Sig I × OT I O) :=
  match t.out3 with
  | s :: rest => some (s, { t with out3 := rest })
  | [] =>
    let t := if t.out = [] then updateState t else t
    match t.out with
    | [] => none
    | s :: rest => some (.limb t.gCnt 0,
        { t with out := rest, out3 := [.limb t.gCnt 1, .limb t.gCnt 2], gCnt := t.gCnt + 1, code := t.code ++ [.split t.gCnt s] })

/-- `getField`, L62-69 -/
def getField (t : OT I O) (d : O) : Option (OT I O) :=
  (getFields1 t).bind fun (s, t) =>
  let t := { t with code := t.code ++ [.assign d 0 s] }
  (getFields1 t).bind fun (s, t) =>
  let t := { t with code := t.code ++ [.assign d 1 s] }
  (getFields1 t).map fun (s, t) => { t with code := t.code ++ [.assign d 2 s] }

/-- `_add1`, L142-149: clears both queues -/
def add1 (t : OT I O) (a : Sig I) : OT I O :=
  let t := { t with out := [], out3 := [], pending := t.pending ++ [a] }
  if t.pending.length = 16 then updateState t else t

/-- `put`, L132-140: the elements `a[0]`, …, `a[l-1]` of an input, or (`l < 0`) the input itself -/
def put (t : OT I O) (as : List I) : OT I O := as.foldl (fun t a => add1 t (.input a)) t

/-- the first loop of `getPermutations`, L158-164: `k` outputs, each with a bit decomposition; the numbers of the components -/
def fields : Nat → OT I O → Option (List Nat × OT I O)
  | 0, t => some ([], t)
  | k + 1, t => (getFields253 t).bind fun (f, t) =>
    (fields k { t with nCnt := t.nCnt + 1, code := t.code ++ [.n2b t.nCnt f] }).map fun r => (t.nCnt :: r.1, r.2)

/-- the loop over `j`, L168-176, from `j` on, `k` iterations; `n2b[curField]` panics out of range -/
def row (n2b : List Nat) (i : Nat) : Nat → Nat → Perms.Cur → Option (List (Stmt I O) × Perms.Cur)
  | _, 0, c => some ([], c)
  | j, k + 1, c => (n2b[c.field]?).bind fun f =>
    (row n2b i (j + 1) k (if c.bit + 1 = 253 then ⟨c.field + 1, 0⟩ else ⟨c.field, c.bit + 1⟩)).map
      fun r => (.bit i j f c.bit :: r.1, r.2)

/-- the loop over `i`, L167-177, from `i` on, `k` iterations -/
def rows (n2b : List Nat) (nBits : Nat) : Nat → Nat → Perms.Cur → Option (List (Stmt I O))
  | _, 0, _ => some []
  | i, k + 1, c => (row n2b i 0 nBits c).bind fun r => (rows n2b nBits (i + 1) k r.2).map fun r' => r.1 ++ r'

/-- `getPermutations`, L151-178, for `verificationHashType = "BLS12381"` (`Num2Bits(255)`; the circuits of the repository are over
that field); `totalBits - 1` panics for no bits (and the product above 64 bits) -/
def getPermutations (t : OT I O) (n nBits : Nat) : Option (OT I O) :=
  (Perms.nFields 253 n nBits).bind fun m => (fields m t).bind fun (n2b, t) =>
  (rows n2b nBits 0 n ⟨0, 0⟩).map fun c => { t with code := t.code ++ c }

end OT

/-- the calls `stark_verifier` makes on the transcript, L1004-1035 -/
inductive Op (I O : Type)
  | put (as : List I) | getField (dst : O) | perms (n nBits : Nat)

/-- the transcript after a sequence of calls -/
def gen {I O : Type} : List (Op I O) → OT I O → Option (OT I O)
  | [], t => some t
  | .put as :: l, t => gen l (t.put as)
  | .getField d :: l, t => (t.getField d).bind (gen l)
  | .perms n b :: l, t => (t.getPermutations n b).bind (gen l)

/-! ### Evaluating the statements in order -/

/-- the values of the signals declared so far: the outputs of the hashes, the inputs of the splits, the assigned names, the inputs of the
bit decompositions, the bits of `ys` -/
structure Env (F O : Type) where
  hv : Nat → Option (List F)
  gv : Nat → Option F
  av : O → Nat → Option F
  nb : Nat → Option F
  ys : Nat → Nat → Option F

/-- nothing declared -/
def Env.empty {F O : Type} : Env F O := ⟨fun _ => none, fun _ => none, fun _ _ => none, fun _ => none, fun _ _ => none⟩

section
variable {F I O : Type} [Zero F] [DecidableEq O]

/-- the value of a name; `limb x e` is output `e` of a split of `x` -/
def Sig.val (limb : F → Nat → F) (inp : I → F) (env : Env F O) : Sig I → Option F
  | .zero => some 0
  | .input a => some (inp a)
  | .hash h i => (env.hv h).bind fun l => l[i]?
  | .limb c e => if 3 ≤ e then none else (env.gv c).map fun x => limb x e

/-- one statement: `<==` fixes the value of a signal that has none yet (a second assignment does not compile).  `perm` is the hash
(sixteen inputs, the initial state), `limb` and `bt` the outputs the witness generator gives `BN1toGL3` and `Num2Bits(255)`. -/
def run1 (perm : List F → F → List F) (limb bt : F → Nat → F) (inp : I → F) (env : Env F O) : Stmt I O → Option (Env F O)
  | .hash h is c =>
    if env.hv h ≠ none ∨ is.length ≠ 16 then none else
    (is.mapM (Sig.val limb inp env)).bind fun x => (Sig.val limb inp env c).map fun y =>
      { env with hv := Function.update env.hv h (some (perm x y)) }
  | .split c s => if env.gv c ≠ none then none else
    (Sig.val limb inp env s).map fun v => { env with gv := Function.update env.gv c (some v) }
  | .assign d k s => if env.av d k ≠ none then none else
    (Sig.val limb inp env s).map fun v => { env with av := Function.update env.av d (Function.update (env.av d) k (some v)) }
  | .n2b c s => if env.nb c ≠ none then none else
    (Sig.val limb inp env s).map fun v => { env with nb := Function.update env.nb c (some v) }
  | .bit i j c b => if env.ys i j ≠ none ∨ 255 ≤ b then none else
    (env.nb c).map fun x => { env with ys := Function.update env.ys i (Function.update (env.ys i) j (some (bt x b))) }

/-- the statements in order -/
def runs (perm : List F → F → List F) (limb bt : F → Nat → F) (inp : I → F) (env : Env F O) (l : List (Stmt I O)) : Option (Env F O) :=
  l.foldlM (run1 perm limb bt inp) env

end

/-! ### The native transcript under the same calls -/


/-- the same calls on `TranscriptBN128` / `TranscriptBLS128` (Transcript/BN.lean); `nin a` is what the native code passes to `put` for the
input `a` -/
def native {F G I O : Type} [Zero F] (perm : List F → F → List F) (enc : List G → Option F) (split : F → List G) (num : F → Nat)
    (nin : I → List G) : List (Op I O) → TranscriptBN.T F G → Option (List (O × List G) × List (List Nat))
  | [], _ => some ([], [])
  | .put as :: l, t => (TranscriptBN.put perm enc t (as.map nin)).bind (native perm enc split num nin l)
  | .getField d :: l, t => (TranscriptBN.getField perm split t).bind fun r =>
    (native perm enc split num nin l r.2).map fun q => ((d, r.1) :: q.1, q.2)
  | .perms n b :: l, t => (Perms.nFields 253 n b).bind fun m => (TranscriptBN.draw253 perm m t).bind fun r =>
    (Perms.permutations 253 (r.1.map num) n b).bind fun ys => (native perm enc split num nin l r.2).map fun q => (q.1, ys :: q.2)

end Verif.Gadget.On
