import Verif.Circom.Example
import Verif.Circom.TranscriptProps

/-!
# C110: the template `StarkVerifier`, starky/src/stark_verifier_circom.rs L806-1498

The meaning of the printed template over the Goldilocks field: a function of the inputs, since every signal is fixed by `<==`.
`none`: the generator panics or the text does not compile; `some b`: whether an assignment satisfies the constraints.
The templates of the circuit library (not in the repository) are assumed to be the functions of the native code with the same
purpose: `Poseidon`, `Num2Bits_strict` (Transcript.lean), `CMul`, `CMulAdd`, `CInv` (Code.lean, Query.lean), `MerkleHash`, `FFT(n, 3, 1)`,
`EvalPol`, `TreeSelector`, `roots`.
-/
set_option linter.unusedSectionVars false

namespace Verif.Circom
open Stark Codegen Fri FFT
open Verif.GL (F)
open Verif.Ext3 (K coord)

noncomputable local instance : DecidableEq K := Classical.decEq _

/-! ### Inputs -/

/-- the inputs of the template, L813-960: `vals t q` and `sib t q` are `s0_vals{t}[q]` and `s0_siblings{t}[q]`, `sRoot s`, `sVals s q`,
`sSib s q` are `s{s}_root`, `s{s}_vals[q]`, `s{s}_siblings[q]` -/
structure CIn where
  publics : List F
  root : Nat → List F
  rootC : List F
  evals : List (F × F × F)
  vals : Nat → Nat → List F
  valsC : Nat → List F
  sib : Nat → Nat → List (List F)
  sibC : Nat → List (List F)
  sRoot : Nat → List F
  sVals : Nat → Nat → List F
  sSib : Nat → Nat → List (List F)
  finalPol : List (F × F × F)

/-- what the generator is given: the configuration (`c.maxDegNbits` is `nBits`, `c.inNbits` is `nBitsExt`), the number of publics and
openings, the widths of the sections, the number of constants, and the parameters of `VerifyEvaluations` and `VerifyQuery`;
`mgF`, `shiftF` are `MG` and `SHIFT` -/
structure VPar where
  c : Cfg K
  nPub : Nat
  nEv : Nat
  width : Nat → Nat
  nConst : Nat
  lit : K → F
  nCm : Nat → Nat
  secs : Nat → List (Nat × Nat)
  qDeg : Nat
  base : Nat
  code : List (VInstr K)
  queryCode : List (VInstr K)
  mgF : Nat → F
  shiftF : F

/-! ### The transcript, L993-1029 -/

/-- the inputs the transcript reads -/
inductive TIn
  | pub (i : Nat) | root (t i : Nat) | ev (i k : Nat) | sroot (s i : Nat) | fin (j k : Nat)
deriving DecidableEq

/-- the signals it assigns: `challenges[i]`, `s{s}_specialX` -/
inductive TOut
  | chal (i : Nat) | special (s : Nat)
deriving DecidableEq

/-- element `k` of a triple -/
def comp (x : F × F × F) (k : Nat) : F := if k = 0 then x.1 else if k = 1 then x.2.1 else x.2.2

/-- the value of an input -/
def CIn.read (x : CIn) : TIn → F
  | .pub i => x.publics.getD i 0
  | .root t i => (x.root t).getD i 0
  | .ev i k => comp (x.evals.getD i 0) k
  | .sroot s i => (x.sRoot s).getD i 0
  | .fin j k => comp (x.finalPol.getD j 0) k

/-- `put("evals[i]", 3)` for `n` values from `i` on, L1006-1008 -/
def evOps : Nat → Nat → List (COp TIn TOut)
  | _, 0 => []
  | i, n + 1 => .put [.ev i 0, .ev i 1, .ev i 2] :: evOps (i + 1) n

/-- `put("finalPol[j]", 3)` for `n` values from `j` on, L1016-1018 -/
def finOps : Nat → Nat → List (COp TIn TOut)
  | _, 0 => []
  | j, n + 1 => .put [.fin j 0, .fin j 1, .fin j 2] :: finOps (j + 1) n

/-- the loop over the steps from `si` on, L1011-1020 -/
def friOps : Nat → List Nat → List (COp TIn TOut)
  | _, [] => []
  | si, [last] => .getField (.special si) :: finOps 0 (2 ^ last)
  | si, _ :: nb' :: rest =>
    .getField (.special si) :: .put ((List.range 4).map (.sroot (si + 1))) :: friOps (si + 1) (nb' :: rest)

/-- all calls, L993-1021 (`steps[0]` panics without steps) -/
def verOps (V : VPar) : Option (List (COp TIn TOut)) :=
  (V.c.steps.head?).map fun nb0 =>
  .put ((List.range V.nPub).map .pub) :: .put ((List.range 4).map (.root 1)) :: .getField (.chal 0) :: .getField (.chal 1) ::
  .put ((List.range 4).map (.root 2)) :: .getField (.chal 2) :: .getField (.chal 3) ::
  .put ((List.range 4).map (.root 3)) :: .getField (.chal 4) ::
  .put ((List.range 4).map (.root 4)) :: .getField (.chal 7) ::
  (evOps 0 V.nEv ++ .getField (.chal 5) :: .getField (.chal 6) :: (friOps 0 V.c.steps ++ [.perms V.c.nQueries nb0]))

/-- a signal of three elements -/
def trip (env : TEnv F TOut) (d : TOut) : Option (F × F × F) :=
  (env.av d 0).bind fun a => (env.av d 1).bind fun b => (env.av d 2).map fun c => (a, b, c)

/-! ### The library -/

/-- the number with binary digits `key[0]` (lowest), …, `key[n-1]` -/
def keyIdx (key : Nat → F) : Nat → Nat
  | 0 => 0
  | n + 1 => keyIdx key n + if key n = 1 then 2 ^ n else 0

/-- `MerkleHash(eSize, nLinears, nInputs)` (merklehash.circom): the root that merklehash.rs computes from the row and the path -/
def merkleHash (perm : List F → List F) (vals : List F) (sib : List (List F)) (key : Nat → F) : Option (List F) :=
  (Linear.hash perm vals 0).bind fun h => MerkleGL.rootFromProof perm sib (keyIdx key sib.length) h

/-- the elements of an array of triples given as `s_vals[q][i * 3 + e]` -/
def triples : List F → List (F × F × F)
  | a :: b :: c :: l => (a, b, c) :: triples l
  | _ => []

/-- `enable * (a[e] - b[e]) === 0` for three elements -/
def same3 (enable : F) (a b : F × F × F) : Bool :=
  decide (enable * (a.1 - b.1) = 0 ∧ enable * (a.2.1 - b.2.1) = 0 ∧ enable * (a.2.2 - b.2.2) = 0)

/-- `enable * (a[j] - b[j]) === 0` for four elements -/
def same4 (enable : F) (a b : List F) : Bool :=
  decide (enable * (a.getD 0 0 - b.getD 0 0) = 0 ∧ enable * (a.getD 1 0 - b.getD 1 0) = 0 ∧
    enable * (a.getD 2 0 - b.getD 2 0) = 0 ∧ enable * (a.getD 3 0 - b.getD 3 0) = 0)

/-! ### The checks -/

/-- `s{s}_lowValues[q].out`, L1246-1278 and L1387-1423: `TreeSelector` (treeselector.circom) picks the value whose number is the key -/
def lowValues (V : VPar) (x : CIn) (s q : Nat) (ys : Nat → F) : Option (F × F × F) :=
  (V.c.steps[s]?).bind fun nb =>
  match V.c.steps[s + 1]? with
  | some nb' => if nb < nb' then none else (triples (x.sVals (s + 1) q))[keyIdx (fun i => ys (i + nb')) (nb - nb')]?
  | none => x.finalPol[keyIdx ys nb]?

/-- `s{s}_sx[q][i]`, L1350-1353: `a` is the inverse of the shift, `pb` is `steps[s-1].nBits` -/
def sxAcc (mg : Nat → F) (a : F) (pb : Nat) (ys : Nat → F) : Nat → F
  | 0 => a * (ys 0 * ((mg pb)⁻¹ - 1) + 1)
  | i + 1 => sxAcc mg a pb ys i * (ys (i + 1) * ((mg (pb - (i + 1)))⁻¹ - 1) + 1)

/-- step `s ≥ 1` of query `q`, L1285-1385 and L1454-1466 (`nBits - 1` and the differences of the numbers of bits panic below zero) -/
noncomputable def stepCheck (perm : List F → List F) (V : VPar) (x : CIn) (env : TEnv F TOut) (enable : F) (ys : Nat → F) (s q : Nat) : Option Bool :=
  (V.c.steps[s - 1]?).bind fun pb => (V.c.steps[s]?).bind fun nb =>
  if nb = 0 ∨ pb < nb ∨ V.c.inNbits < pb then none else
  (merkleHash perm (x.sVals s q) (x.sSib s q) ys).bind fun root =>
  (ifftC V.c.mg ((triples (x.sVals s q)).map (dec3 extK))).bind fun pol =>
  (trip env (.special s)).bind fun sp =>
  let sx := sxAcc V.mgF (V.shiftF ^ 2 ^ (V.c.inNbits - pb))⁻¹ pb ys (nb - 1)
  let out := coords (evalPol pol (dec3 extK (sp.1 * sx, sp.2.1 * sx, sp.2.2 * sx)))
  (lowValues V x s q ys).map fun low => same3 enable low out && same4 enable root (x.sRoot s)

/-- step 0 of query `q`, L1036-1283; `out` is `verifyQueries[q].out`.  The comparisons (L1425-1452) are printed inside the loop over
the steps `s ≥ 1`: not at all when there is one step.  The trees of the second and third section are left out when empty. -/
def step0Check (perm : List F → List F) (V : VPar) (x : CIn) (enable : F) (ys : Nat → F) (q : Nat) (out : F × F × F) : Option Bool :=
  (merkleHash perm (x.vals 1 q) (x.sib 1 q) ys).bind fun r1 =>
  (if V.width 2 = 0 then some none else (merkleHash perm (x.vals 2 q) (x.sib 2 q) ys).map some).bind fun r2 =>
  (if V.width 3 = 0 then some none else (merkleHash perm (x.vals 3 q) (x.sib 3 q) ys).map some).bind fun r3 =>
  (merkleHash perm (x.vals 4 q) (x.sib 4 q) ys).bind fun r4 =>
  (merkleHash perm (x.valsC q) (x.sibC q) ys).bind fun rC =>
  (lowValues V x 0 q ys).map fun low =>
  if V.c.steps.length ≤ 1 then true else
  same4 enable r1 (x.root 1) && (match r2 with | some r => same4 enable r (x.root 2) | none => true) &&
  (match r3 with | some r => same4 enable r (x.root 3) | none => true) && same4 enable r4 (x.root 4) && same4 enable rC x.rootC &&
  same3 enable low out

/-- `verifyQueries[q]` and all steps of query `q`; `some false` when `VerifyQuery` has no solution -/
noncomputable def queryCheck (perm : List F → List F) (V : VPar) (x : CIn) (env : TEnv F TOut) (chal : List (F × F × F)) (enable : F) (nb0 q : Nat) :
    Option Bool :=
  ((List.range nb0).mapM (env.ys q)).bind fun bits =>
  let ys := fun j => bits.getD j 0
  (verifyQuery extK coords V.lit V.nCm V.secs V.mgF V.shiftF V.c.maxDegNbits nb0 V.queryCode ys chal x.evals (fun t => x.vals t q) (x.valsC q)).bind fun o =>
  match o with
  | none => some false
  | some out => (step0Check perm V x enable ys q out).bind fun b0 =>
    ((List.range' 1 (V.c.steps.length - 1)).mapM fun s => stepCheck perm V x env enable ys s q).map fun bs => b0 && bs.all id

/-- the degree of the last polynomial, L1469-1498 -/
noncomputable def degreeCheck (V : VPar) (x : CIn) (enable : F) : Option Bool :=
  (V.c.steps.getLast?).bind fun last =>
  if V.c.inNbits < V.c.maxDegNbits ∨ last < V.c.inNbits - V.c.maxDegNbits then none else
  (ifftC V.c.mg (x.finalPol.map (dec3 extK))).map fun pol =>
  (List.range' (2 ^ (last - (V.c.inNbits - V.c.maxDegNbits))) (2 ^ last - 2 ^ (last - (V.c.inNbits - V.c.maxDegNbits)))).all fun k =>
    same3 enable (coords (pol.getD k 0)) (0, 0, 0)

/-- the template, L806-1498 -/
noncomputable def starkVerifier (perm : List F → List F) (V : VPar) (x : CIn) (enable : F) : Option Bool :=
  (V.c.steps.head?).bind fun nb0 =>
  (verOps V).bind fun ops =>
  (genT ops CT.new).bind fun ct =>
  (runTs perm ZMod.val x.read .empty ct.code).bind fun env =>
  ((List.range 8).mapM fun i => trip env (.chal i)).bind fun chal =>
  (verifyEvaluations extK coords V.lit V.nCm V.c.maxDegNbits V.qDeg V.base V.code chal x.evals x.publics enable).bind fun b1 =>
  ((List.range V.c.nQueries).mapM (queryCheck perm V x env chal enable nb0)).bind fun bs =>
  (degreeCheck V x enable).map fun b2 => b1 && bs.all id && b2

/-! ### Sizes and the native proof -/

/-- the sizes of the inputs as declared, L813-960; the lists of three and four elements are sizes of signals too -/
structure CIn.Sized (V : VPar) (x : CIn) : Prop where
  publics : x.publics.length = V.nPub
  root : ∀ t, (x.root t).length = 4
  rootC : x.rootC.length = 4
  evals : x.evals.length = V.nEv
  vals : ∀ t q, (x.vals t q).length = V.width t
  valsC : ∀ q, (x.valsC q).length = V.nConst
  sib : ∀ t q, (x.sib t q).length = V.c.steps.headD 0 ∧ ∀ l ∈ x.sib t q, l.length = 4
  sibC : ∀ q, (x.sibC q).length = V.c.steps.headD 0 ∧ ∀ l ∈ x.sibC q, l.length = 4
  sRoot : ∀ s, (x.sRoot s).length = 4
  sVals : ∀ s pb nb, V.c.steps[s]? = some pb → V.c.steps[s + 1]? = some nb → ∀ q, (x.sVals (s + 1) q).length = 2 ^ (pb - nb) * 3
  sSib : ∀ s nb, V.c.steps[s + 1]? = some nb → ∀ q, (x.sSib (s + 1) q).length = nb ∧ ∀ l ∈ x.sSib (s + 1) q, l.length = 4
  finalPol : ∀ last, V.c.steps.getLast? = some last → x.finalPol.length = 2 ^ last

/-- the same data as a `StarkProof` (stark_gen.rs L178-188): public inputs are elements of the base field, openings of the extension -/
noncomputable def CIn.toProof (V : VPar) (x : CIn) : Proof F (List F) (List (List F)) K (Val F) where
  rootC := some x.rootC
  root1 := x.root 1
  root2 := x.root 2
  root3 := x.root 3
  root4 := x.root 4
  fri :=
    { queries := ⟨MerkleGL.zeroDigest, (List.range V.c.nQueries).map fun q =>
          [(x.vals 1 q, x.sib 1 q), (x.vals 2 q, x.sib 2 q), (x.vals 3 q, x.sib 3 q), (x.vals 4 q, x.sib 4 q), (x.valsC q, x.sibC q)]⟩ ::
        (List.range' 1 (V.c.steps.length - 1)).map fun s => ⟨x.sRoot s, (List.range V.c.nQueries).map fun q => [(x.sVals s q, x.sSib s q)]⟩
      last := x.finalPol.map (dec3 extK) }
  evals := x.evals.map fun v => .three v.1 v.2.1 v.2.2
  publics := x.publics.map .one

/-- `as_elements` by the dimension tag, f3g.rs -/
def Val.els : Val F → List F
  | .one g => [g]
  | .three a b c => [a, b, c]

/-- `stark_verify` on this proof and the constant root -/
noncomputable def native (perm : List F → List F) (workers : Nat) (V : VPar) (x : CIn) : Option (Bool × TranscriptGL.T F) :=
  starkVerify (glMT perm workers) (glTr perm) encK extK V.c Val.els (Val.val extK) TranscriptGL.new
    ⟨List.range' V.base V.qDeg, V.code, V.queryCode⟩ x.rootC (x.toProof V)

end Verif.Circom
