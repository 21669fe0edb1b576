import Verif.Transcript.GL
import Verif.Transcript.Perms

/-!
# The transcript of the verifier circuit, starky/src/stark_verifier_circom.rs L39-160

The generator keeps a transcript of names (`Transcript`) and prints the hashes; here the names, the printed statements, and
what the statements mean.  `none` is a panic of the generator, or a circuit the circom compiler refuses.
-/
namespace Verif.Circom

/-- a name in the transcript: the literal `0`, an element of an input of the template, `tcHahs_h[i]` -/
inductive TSig (I : Type)
  | zero | input (a : I) | hash (h i : Nat)
deriving DecidableEq

/-- a printed statement, stark_verifier_circom.rs L60-158.  `hash h inp cap`: `signal tcHahs_h[12] <== Poseidon(12)(inp, cap)`;
`assign dst k s`: `dst[k] <== s`; `n2b c s`: `component tcN2b_c = Num2Bits_strict(); tcN2b_c.in <== s`;
`bit i j c b`: `ys[i][j] <== tcN2b_c.out[b]`. -/
inductive TStmt (I O : Type)
  | hash (h : Nat) (inp cap : List (TSig I)) | assign (dst : O) (k : Nat) (s : TSig I) | n2b (c : Nat) (s : TSig I)
  | bit (i j c b : Nat)

/-- `Transcript`, stark_verifier_circom.rs L39-47 -/
structure CT (I O : Type) where
  state : List (TSig I)
  pending : List (TSig I)
  out : List (TSig I)
  hCnt : Nat
  n2bCnt : Nat
  code : List (TStmt I O)

namespace CT
variable {I O : Type}

/-- `new`, L50-59 -/
def new : CT I O := ⟨List.replicate 4 .zero, [], [], 0, 0, []⟩

/-- one hash: L75-90 and L109-122 -/
def flush (t : CT I O) : CT I O :=
  ⟨(List.range 4).map (.hash t.hCnt), [], (List.range 12).map (.hash t.hCnt), t.hCnt + 1, t.n2bCnt,
    t.code ++ [.hash t.hCnt t.pending t.state]⟩

/-- `getFields1`, L70-95: pads with `0` and hashes when there is no output left; takes the first output -/
def getFields1 (t : CT I O) : Option (TSig I × CT I O) :=
  let t := if t.out = [] then flush { t with pending := t.pending ++ List.replicate (8 - t.pending.length) .zero } else t
  match t.out with
  | [] => none
  | s :: rest => some (s, { t with out := rest })

/-- `_add1`, L106-124 -/
def add1 (t : CT I O) (a : TSig I) : CT I O :=
  let t := { t with out := [], pending := t.pending ++ [a] }
  if t.pending.length = 8 then flush t else t

/-- `put(a, l)` with `l ≥ 0`, L97-104: the elements `a[0]`, …, `a[l-1]` -/
def put (t : CT I O) (as : List I) : CT I O := as.foldl (fun t a => add1 t (.input a)) t

/-- `getField`, L61-68 -/
def getField (t : CT I O) (dst : O) : Option (CT I O) :=
  (getFields1 t).bind fun (s, t) =>
  let t := { t with code := t.code ++ [.assign dst 0 s] }
  (getFields1 t).bind fun (s, t) =>
  let t := { t with code := t.code ++ [.assign dst 1 s] }
  (getFields1 t).map fun (s, t) => { t with code := t.code ++ [.assign dst 2 s] }

/-- the first loop of `getPermutations`, L130-136: `k` fields, each with its bits; the numbers of the components -/
def fieldsC : Nat → CT I O → Option (List Nat × CT I O)
  | 0, t => some ([], t)
  | k + 1, t => (getFields1 t).bind fun (f, t) =>
    (fieldsC k { t with n2bCnt := t.n2bCnt + 1, code := t.code ++ [.n2b t.n2bCnt f] }).map fun r => (t.n2bCnt :: r.1, r.2)

/-- the loop over `j`, L140-149, from `j` on, `k` iterations; `n2b[curField]` panics out of range -/
def rowC (n2b : List Nat) (i : Nat) : Nat → Nat → Perms.Cur → Option (List (TStmt I O) × Perms.Cur)
  | _, 0, c => some ([], c)
  | j, k + 1, c => (n2b[c.field]?).bind fun f =>
    (rowC n2b i (j + 1) k (if c.bit + 1 = 63 then ⟨c.field + 1, 0⟩ else ⟨c.field, c.bit + 1⟩)).map
      fun r => (.bit i j f c.bit :: r.1, r.2)

/-- the loop over `i`, L139-150, from `i` on, `k` iterations -/
def rowsC (n2b : List Nat) (nBits : Nat) : Nat → Nat → Perms.Cur → Option (List (TStmt I O))
  | _, 0, _ => some []
  | i, k + 1, c => (rowC n2b i 0 nBits c).bind fun r => (rowsC n2b nBits (i + 1) k r.2).map fun r' => r.1 ++ r'

/-- `getPermutations`, L126-151; `totalBits - 1` panics for no bits (and the product above 64 bits) -/
def getPermutations (t : CT I O) (n nBits : Nat) : Option (CT I O) :=
  (Perms.nFields 63 n nBits).bind fun m => (fieldsC m t).bind fun (n2b, t) =>
  (rowsC n2b nBits 0 n ⟨0, 0⟩).map fun c => { t with code := t.code ++ c }

end CT

/-- the calls `stark_verifier` makes on the transcript, L1025-1058 -/
inductive COp (I O : Type)
  | put (as : List I) | getField (dst : O) | perms (n nBits : Nat)

/-- the printed statements of a sequence of calls -/
def genT {I O : Type} : List (COp I O) → CT I O → Option (CT I O)
  | [], t => some t
  | .put as :: l, t => genT l (t.put as)
  | .getField d :: l, t => (t.getField d).bind (genT l)
  | .perms n b :: l, t => (t.getPermutations n b).bind (genT l)

/-! ### What the statements mean -/

/-- the values of the signals declared so far: the hashes, the assigned names, the decomposed numbers, the bits of `ys` -/
structure TEnv (F O : Type) where
  hv : Nat → Option (List F)
  av : O → Nat → Option F
  nb : Nat → Option Nat
  ys : Nat → Nat → Option F

/-- nothing declared -/
def TEnv.empty {F O : Type} : TEnv F O := ⟨fun _ => none, fun _ _ => none, fun _ => none, fun _ _ => none⟩

section
variable {F I O : Type} [Zero F] [One F] [DecidableEq O]

/-- the value of a name -/
def TSig.val (inp : I → F) (env : TEnv F O) : TSig I → Option F
  | .zero => some 0
  | .input a => some (inp a)
  | .hash h i => (env.hv h).bind fun l => l[i]?

/-- one statement: `<==` fixes the value of a signal that has none yet (a second assignment does not compile).
`Poseidon(12)` is the template of poseidon.circom with eight inputs and four capacity elements, `Num2Bits_strict` that of
bitify.circom (neither is in the repository): the permutation `perm` of the native code, and the 64 bits of the integer
`num v` of the field element. -/
def runT (perm : List F → List F) (num : F → Nat) (inp : I → F) (env : TEnv F O) : TStmt I O → Option (TEnv F O)
  | .hash h is cs =>
    if env.hv h ≠ none ∨ is.length ≠ 8 ∨ cs.length ≠ 4 then none else
    (is.mapM (TSig.val inp env)).bind fun x => (cs.mapM (TSig.val inp env)).map fun y =>
      { env with hv := Function.update env.hv h (some (perm (x ++ y))) }
  | .assign d k s => if env.av d k ≠ none then none else
    (TSig.val inp env s).map fun v => { env with av := Function.update env.av d (Function.update (env.av d) k (some v)) }
  | .n2b c s => if env.nb c ≠ none then none else
    (TSig.val inp env s).map fun v => { env with nb := Function.update env.nb c (some (num v)) }
  | .bit i j c b => if env.ys i j ≠ none ∨ 64 ≤ b then none else
    (env.nb c).map fun x =>
      { env with ys := Function.update env.ys i (Function.update (env.ys i) j (some (if x.testBit b then 1 else 0))) }

/-- the statements in order -/
def runTs (perm : List F → List F) (num : F → Nat) (inp : I → F) (env : TEnv F O) (l : List (TStmt I O)) : Option (TEnv F O) :=
  l.foldlM (runT perm num inp) env

end

/-! ### The native transcript under the same calls -/

/-- what a call returns -/
inductive COut (O F : Type)
  | field (dst : O) (v : List F) | perms (n nBits : Nat) (ys : List Nat)

/-- the same calls on `TranscriptGL` (Transcript/GL.lean): the answers of `get_field` and `get_permutations` -/
def nativeT {F I O : Type} [Zero F] (perm : List F → List F) (num : F → Nat) (inp : I → F) :
    List (COp I O) → TranscriptGL.T F → Option (List (COut O F))
  | [], _ => some []
  | .put as :: l, t => (TranscriptGL.put perm t [as.map inp]).bind (nativeT perm num inp l)
  | .getField d :: l, t => (TranscriptGL.getField perm t).bind fun r => (nativeT perm num inp l r.2).map (.field d r.1 :: ·)
  | .perms n b :: l, t => (Perms.nFields 63 n b).bind fun m => (TranscriptGL.getMany perm m t).bind fun r =>
    (Perms.permutations 63 (r.1.map num) n b).bind fun ys => (nativeT perm num inp l r.2).map (.perms n b ys :: ·)

end Verif.Circom
