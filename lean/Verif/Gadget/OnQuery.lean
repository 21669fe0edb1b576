import Verif.Gadget.OnEvals
import Verif.Gadget.Poly
import Verif.FFT.Instances
import Verif.Stark.ProverAir

/-!
# C122: the template `VerifyQuery` of the on-chain circuit, starky/src/stark_verifier_circom_onchain.rs L534-720

`MapValues` (L722-808) is printed by the same code as in the recursive circuit: `Circom.mapValues`.
-/
set_option linter.unusedSectionVars false

namespace Verif.Gadget.OnCode
open Verif.GL (F)
open Verif.Ext3 (K coord)
open Stark Codegen Circom FFT

noncomputable local instance : DecidableEq K := Classical.decEq _

variable {r : Nat}

/-- `roots(k)`, stark-circuits/circuits/fft.circom L6-43, as a scalar of the circuit -/
def rootC (k : Nat) : ZMod r := ((rootsTab.getD k 0 : Nat) : ZMod r)

/-- the signals of the template besides its inputs and outputs -/
structure QuerySigs (r : Nat) where
  xacc : Nat → ZMod r
  X : ZMod r
  den1 : Fin 3 → ZMod r
  xd : Fin 3 → ZMod r
  wxi : Fin 3 → ZMod r
  den2 : Fin 3 → ZMod r
  xdw : Fin 3 → ZMod r
  tmp : Nat → Option (Val (ZMod r))

/-- `ys[0]*(49*roots(nb)-49) + 49`, L638, L668; `SHIFT` is 49 (starky/src/constant.rs L52) -/
def firstX (nb : Nat) (y : ZMod r) : ZMod r := y * (49 * rootC nb - 49) + 49

/-- `ys[i]*(roots(nb - i) - 1) + 1`, L642 -/
def factorX (nb i : Nat) (y : ZMod r) : ZMod r := y * (rootC (nb - i) - 1) + 1

/-- the three inputs of `den1inv` and `den2inv`, L679-681, L701-703 -/
def denIn (X : ZMod r) (c : Fin 3 → ZMod r) : Fin 3 → ZMod r := ![X - c 0 + (P : ZMod r), -c 1 + (P : ZMod r), -c 2 + (P : ZMod r)]

/-- a vector as three scalars -/
def t3 (f : Fin 3 → ZMod r) : S3 r := (f 0, f 1, f 2)

/-- the values of all names of the printed program -/
def qEnv (chal evals : List (S3 r)) (trees : Nat → List (Val (ZMod r))) (consts : List (ZMod r)) (σ : QuerySigs r) : Env (ZMod r) :=
  withTmp (queryEnv chal evals trees consts (t3 σ.xd) (t3 σ.xdw)) σ.tmp

/-- the constraints of the template, L534-720: `nBits` is `stark_struct.nBits`, `nb` is `steps[0].nBits`; `stmts` and `evalQ` are
printed for the query program -/
structure QuerySat (nBits nb : Nat) (secs : Nat → List (Nat × Nat)) (stmts : List (Stmt (ZMod r))) (evalQ : Sig (ZMod r)) (ys : Nat → ZMod r)
    (chal evals : List (S3 r)) (vals : Nat → List (ZMod r)) (consts : List (ZMod r)) (out : Fin 3 → ZMod r) (σ : QuerySigs r) : Prop where
  first : 1 < nb → GLMul (firstX nb (ys 0)) (factorX nb 1 (ys 1)) (σ.xacc 0)
  next : ∀ i, i + 2 < nb → GLMul (σ.xacc i) (factorX nb (i + 2) (ys (i + 2))) (σ.xacc (i + 1))
  x : σ.X = if 1 < nb then σ.xacc (nb - 2) else firstX nb (ys 0)
  divs : ∃ xi, chal[7]? = some xi ∧ GLCInv (denIn σ.X (f3 xi)) σ.den1 ∧ GLCMul ![rootC nBits, 0, 0] (f3 xi) σ.wxi
  div1 : GLCMul ![σ.X, 0, 0] σ.den1 σ.xd
  div2 : GLCInv (denIn σ.X σ.wxi) σ.den2 ∧ GLCMul ![σ.X, 0, 0] σ.den2 σ.xdw
  code : ∃ trees, mapValues secs vals = some trees ∧ (∀ s ∈ stmts, Sat (qEnv chal evals trees consts σ) s) ∧
    ∃ a b c, qEnv chal evals trees consts σ evalQ = some (.three a b c) ∧ GLCNorm ![a, b, c] out

/-! ### Proofs -/

theorem rootsTab_lt : ∀ k, rootsTab.getD k 0 < P := by
  have h : ∀ k < 33, rootsTab.getD k 0 < P := by decide +kernel
  intro k
  by_cases hk : k < 33
  · exact h k hk
  · have hl : rootsTab.length ≤ 33 := by decide
    rw [List.getD_eq_getElem?_getD, List.getElem?_eq_none (by omega)]
    decide

theorem rootC_out {k : Nat} (hk : k ≤ 32) : RI 0 1 (rootC k : ZMod r) (Roots.mg k) := by
  have := rootsTab_lt k
  refine ⟨(rootsTab.getD k 0 : Nat), by simp, by simpa using this, by rw [rootC]; push_cast; rfl, ?_⟩
  rw [← rootsTab_eq hk]
  push_cast
  rfl

theorem factorX_RI {nb i : Nat} (hk : nb - i ≤ 32) (b : Bool) :
    RI 0 1 (factorX nb i (if b then 1 else 0) : ZMod r) (if b then Roots.mg (nb - i) else 1) := by
  have hP : ((P : Nat) : ℤ) = 0xFFFFFFFF00000001 := rfl
  cases b
  · refine ⟨1, by simp, by rw [hP]; norm_num, by simp [factorX], by simp⟩
  · have := rootC_out (r := r) hk
    simpa [factorX] using this

theorem firstX_RI {nb : Nat} (hk : nb ≤ 32) (b : Bool) :
    RI 0 49 (firstX nb (if b then 1 else 0) : ZMod r) (if b then Roots.shift * Roots.mg nb else Roots.shift) := by
  have hP : ((P : Nat) : ℤ) = 0xFFFFFFFF00000001 := rfl
  cases b
  · exact ⟨49, by rw [hP]; norm_num, by rw [hP]; norm_num, by simp [firstX], by simp [Roots.shift]⟩
  · obtain ⟨z, h1, h2, h3, h4⟩ := rootC_out (r := r) hk
    refine ⟨49 * z, by rw [hP] at h1 ⊢; omega, by rw [hP] at h2 ⊢; omega, ?_, ?_⟩
    · simp [firstX, h3]
    · push_cast
      rw [h4]; simp [Roots.shift]

theorem mg_down {nb : Nat} (hnb : nb ≤ 32) : ∀ k ≤ nb, Roots.mg (nb - k) = Roots.mg nb ^ 2 ^ k
  | 0, _ => by simp
  | k + 1, h => by
    have := Roots.mg_sq (k := nb - (k + 1)) (by omega)
    rw [show nb - (k + 1) + 1 = nb - k by omega, mg_down hnb k (by omega)] at this
    rw [← this, ← pow_add, pow_succ]
    congr 1
    omega

/-- the first operand represents the point of the lowest bit -/
theorem first_val {nb : Nat} (idx : Nat) : (if idx.testBit 0 then Roots.shift * Roots.mg nb else Roots.shift) = Roots.shift * Roots.mg nb ^ (idx % 2 ^ 1) := by
  rw [show (1 : Nat) = 0 + 1 from rfl, mod_two_pow_succ']
  cases idx.testBit 0 <;> simp [Nat.mod_one]

theorem next_val {nb : Nat} (hnb : nb ≤ 32) (idx : Nat) {i : Nat} (hi : i < nb) : Roots.shift * Roots.mg nb ^ (idx % 2 ^ i) *
    (if idx.testBit i then Roots.mg (nb - i) else 1) = Roots.shift * Roots.mg nb ^ (idx % 2 ^ (i + 1)) := by
  rw [mod_two_pow_succ' idx i, mg_down hnb i hi.le]
  cases idx.testBit i <;> simp [pow_add, mul_assoc]

/-- the accumulated point of the query -/
theorem xacc_sound [Fact r.Prime] (hr : 2 ^ 250 < r) {nb : Nat} (hnb : nb ≤ 32) {idx : Nat} {ys : Nat → ZMod r}
    (hy : ∀ j < nb, ys j = if idx.testBit j then 1 else 0) {xa : Nat → ZMod r} (h0 : 1 < nb → GLMul (firstX nb (ys 0)) (factorX nb 1 (ys 1)) (xa 0))
    (hs : ∀ i, i + 2 < nb → GLMul (xa i) (factorX nb (i + 2) (ys (i + 2))) (xa (i + 1))) :
    ∀ i, i + 1 < nb → Out (xa i) (Roots.shift * Roots.mg nb ^ (idx % 2 ^ (i + 2)))
  | 0, h => by
    have h1 := h0 (by omega)
    rw [hy 0 (by omega), hy 1 (by omega)] at h1
    have := glMul_sound hr ((firstX_RI (by omega) _).rep (by omega) (by omega)) ((factorX_RI (by omega) _).rep (by omega) (by omega)) h1
    rwa [first_val, next_val hnb idx (by omega)] at this
  | i + 1, h => by
    have ih := xacc_sound hr hnb hy h0 hs i (by omega)
    have h1 := hs i (by omega)
    rw [hy (i + 2) (by omega)] at h1
    have := glMul_sound hr (ih.rep.mono (by norm_num)) ((factorX_RI (by omega) _).rep (by omega) (by omega)) h1
    rwa [next_val hnb idx (by omega)] at this

/-- the point of the query, reduced when there are at least two bits -/
theorem X_sound [Fact r.Prime] (hr : 2 ^ 250 < r) {nb : Nat} (hn0 : nb ≠ 0) (hnb : nb ≤ 32) {idx : Nat} (hidx : idx < 2 ^ nb) {ys : Nat → ZMod r}
    (hy : ∀ j < nb, ys j = if idx.testBit j then 1 else 0) {xa : Nat → ZMod r} {X : ZMod r}
    (h0 : 1 < nb → GLMul (firstX nb (ys 0)) (factorX nb 1 (ys 1)) (xa 0))
    (hs : ∀ i, i + 2 < nb → GLMul (xa i) (factorX nb (i + 2) (ys (i + 2))) (xa (i + 1)))
    (hX : X = if 1 < nb then xa (nb - 2) else firstX nb (ys 0)) :
    RI 0 49 X (Roots.shift * Roots.mg nb ^ idx) ∧ (1 < nb → Out X (Roots.shift * Roots.mg nb ^ idx)) := by
  by_cases h : 1 < nb
  · have := xacc_sound hr hnb hy h0 hs (nb - 2) (by omega)
    rw [show nb - 2 + 2 = nb by omega, Nat.mod_eq_of_lt hidx] at this
    rw [hX, if_pos h]
    exact ⟨(out_RI this).mono le_rfl (by omega), fun _ => this⟩
  · have h1 : nb = 1 := by omega
    subst h1
    rw [hX, if_neg h, hy 0 (by omega)]
    have := firstX_RI (r := r) (nb := 1) (by omega) (idx.testBit 0)
    rw [first_val, Nat.mod_eq_of_lt hidx] at this
    exact ⟨this, fun h' => absurd h' h⟩

theorem denIn_RI {hi : Nat} {X : ZMod r} {x : F} (hX : RI 0 hi X x) {c : Fin 3 → ZMod r} {v : K} (hc : Lift3 Out c v) :
    Lift3 (RI 1 (hi + 2)) (denIn X c) (algebraMap F K x - v) := by
  obtain ⟨d, h1, rfl⟩ := hc
  refine lift3_iff.mpr ⟨x - d 0, -d 1, -d 2, ?_, ?_, ?_, by rw [coord_subl]⟩
  · exact (hX.subp (out_RI (h1 0))).mono (by omega) (by omega)
  · exact (out_RI (h1 1)).negp.mono (by omega) (by omega)
  · exact (out_RI (h1 2)).negp.mono (by omega) (by omega)

theorem base_RI {lo hi : Nat} (h2 : hi ≠ 0) {X : ZMod r} {x : F} (hX : RI lo hi X x) : Lift3 (RI lo hi) ![X, 0, 0] (algebraMap F K x) := by
  have hP : ((P : Nat) : ℤ) = 0xFFFFFFFF00000001 := rfl
  have h0 : RI lo hi (0 : ZMod r) 0 := ⟨0, by rw [hP]; omega, by rw [hP]; omega, by simp, by simp⟩
  exact lift3_iff.mpr ⟨x, 0, 0, hX, h0, h0, coord_base' x⟩

theorem glCInv_ex [Fact r.Prime] (hr : 2 ^ 250 < r) {i : Fin 3 → ZMod r} {x : K} (hi : Lift3 Near i x) (h0 : x ≠ 0) : ∃ o, GLCInv i o := by
  obtain ⟨d0, d1, d2, hd⟩ := Ext3.coord_surj x⁻¹
  have hb : Lift3 Out (fun e => (canon ((![d0, d1, d2] : Fin 3 → F) e) : ZMod r)) x⁻¹ := ⟨![d0, d1, d2], fun e => canon_out _, hd.symm⟩
  obtain ⟨c1, d, c2, c3⟩ := glCMul_complete hr hi (out3_near hb)
  rw [mul_inv_cancel₀ h0] at c3
  rw [← coord_one] at c3
  obtain ⟨d0, d1, d2⟩ := Ext3.coord_inj c3
  refine ⟨_, _, c1, ?_, ?_, ?_, fun e => ?_⟩
  · rw [c2 0, d0, canon_one]
  · rw [c2 1, d1, canon_zero]
  · rw [c2 2, d2, canon_zero]
  · obtain ⟨c, h1, -⟩ := hb
    obtain ⟨n, n1, n2, -⟩ := h1 e
    exact (num2Bits_ex _ _).mpr ⟨n, n1, n2⟩

theorem mapOne_rep {vals : List (ZMod r)} {row : List F} (h : List.Forall₂ Out vals row) (pos dim : Nat) {w : Val (ZMod r)}
    (hw : mapOne vals (pos, dim) = some w) : ∃ v, extractVal extK row pos dim = some v ∧ RV 0 2 w v ∧ w.size = dim ∧ dim ≠ 0 := by
  have get : ∀ (i : Nat) g, vals[i]? = some g → ∃ x, row[i]? = some x ∧ Out g x := by
    intro i g hg
    obtain ⟨h1, h2⟩ := List.getElem?_eq_some_iff.mp hg
    have hl : i < row.length := by rw [← h.length_eq]; exact h1
    obtain ⟨g', g1, g2⟩ := pubs_get h i _ (List.getElem?_eq_getElem hl)
    rw [hg] at g1
    obtain rfl := Option.some.inj g1
    exact ⟨_, List.getElem?_eq_getElem hl, g2⟩
  unfold mapOne at hw
  unfold extractVal
  dsimp only at hw
  split_ifs at hw with h1 h2
  · obtain ⟨a, ha, rfl⟩ := Option.map_eq_some_iff.mp hw
    obtain ⟨x, x1, x2⟩ := get _ _ ha
    rw [if_pos h1, x1]
    exact ⟨_, rfl, ⟨x, out_RI x2, rfl⟩, h1.symm, by omega⟩
  · obtain ⟨a, ha, hw⟩ := Option.bind_eq_some_iff.mp hw
    obtain ⟨b, hb, hw⟩ := Option.bind_eq_some_iff.mp hw
    obtain ⟨c, hc, rfl⟩ := Option.map_eq_some_iff.mp hw
    obtain ⟨x, x1, x2⟩ := get _ _ ha
    obtain ⟨y, y1, y2⟩ := get _ _ hb
    obtain ⟨z, z1, z2⟩ := get _ _ hc
    rw [if_neg h1, if_pos h2, x1, y1, z1]
    exact ⟨_, rfl, lift3_iff.mpr ⟨x, y, z, out_RI x2, out_RI y2, out_RI z2, rfl⟩, h2.symm, by omega⟩

theorem query_leavesRep [Fact r.Prime] {lit : K → ZMod r} {nCm : Nat → Nat} {secs : Nat → List (Nat × Nat)} {ctx : VCtx F K}
    {chal evals : List (S3 r)} {consts : List (ZMod r)} {vals : Nat → List (ZMod r)} {trees : Nat → List (Val (ZMod r))}
    (hc : Reps3 chal ctx.challenge) (he : Reps3 evals ctx.evals) (hv : ∀ k, List.Forall₂ Out (vals k) (ctx.tree k))
    (hco : List.Forall₂ Out consts ctx.consts) (hm : mapValues secs vals = some trees) {xd xdw : Fin 3 → ZMod r} {v1 v2 : K}
    (h1 : ctx.xDiv = some v1) (h2 : ctx.xDivW = some v2) (hx1 : Lift3 Out xd v1) (hx2 : Lift3 Out xdw v2)
    {tmp : Nat → Option (Val (ZMod r))} {code : List (VInstr K)} (hlit : LitRep lit code) (ht : TreesOk nCm secs code) (hp : NoPublics code) :
    LeavesRep lit nCm ctx (withTmp (queryEnv chal evals trees consts (t3 xd) (t3 xdw)) tmp) code := by
  intro i hi x hx hty v hg
  unfold getRef at hg
  cases hrt : x.ty <;> simp only [hrt] at hg hty
  case tmp => exact absurd rfl hty
  case tree k =>
    obtain ⟨off, hk, hle, hs⟩ := ht i hi x hx k hrt
    obtain ⟨w, w1, w2⟩ := mapValues_get hm (t := k) (by omega) hs
    obtain ⟨v', h3, h4, h5, h6⟩ := mapOne_rep (hv k) _ _ w1
    rw [hg] at h3
    obtain rfl := Option.some.inj h3
    refine ⟨.tree k (x.id - off), w, ?_, w2, ?_, h4⟩
    · rcases hk with ⟨rfl, rfl⟩ | ⟨rfl, rfl⟩ | ⟨rfl, rfl⟩ | ⟨rfl, rfl⟩
      · simp only [ref, hrt, Nat.sub_zero]
      · simp only [ref, hrt]
        rw [if_neg (by omega)]
      · simp only [ref, hrt]
        rw [if_neg (by omega), Nat.sub_sub]
      · simp only [ref, hrt]
        rw [if_neg (by omega), Nat.sub_sub, Nat.sub_sub, Nat.add_assoc]
    · rw [leafDim, hrt]
      dsimp only
      rw [if_neg h6, h5]
  case const_ =>
    obtain ⟨y, hy, rfl⟩ := Option.map_eq_some_iff.mp hg
    obtain ⟨g, g1, g2⟩ := pubs_get hco _ _ hy
    exact ⟨.const_ x.id, .one g, by rw [ref, hrt], by simp [look, withTmp, queryEnv, g1], by rw [leafDim, hrt]; rfl, y, out_RI g2, rfl⟩
  case eval =>
    obtain ⟨g, g1, g2⟩ := reps3_get he _ _ hg
    exact ⟨.eval x.id, .three g.1 g.2.1 g.2.2, by rw [ref, hrt], by simp [look, withTmp, queryEnv, g1], by rw [leafDim, hrt]; rfl, out3_RV g2⟩
  case number =>
    exact ⟨.num (lit v), .one (lit v), by rw [ref, hrt]; simp [hg], rfl, by rw [leafDim, hrt]; rfl, hlit i hi x hx hrt v hg⟩
  case public_ => exact absurd hrt (hp i hi x hx).1
  case challenge =>
    obtain ⟨g, g1, g2⟩ := reps3_get hc _ _ hg
    exact ⟨.challenge x.id, .three g.1 g.2.1 g.2.2, by rw [ref, hrt], by simp [look, withTmp, queryEnv, g1], by rw [leafDim, hrt]; rfl, out3_RV g2⟩
  case xDivXSubXi =>
    rw [h1] at hg
    obtain rfl := Option.some.inj hg
    exact ⟨.xDiv, .three (xd 0) (xd 1) (xd 2), by rw [ref, hrt], rfl, by rw [leafDim, hrt]; rfl, rv_of_out hx1⟩
  case xDivXSubWXi =>
    rw [h2] at hg
    obtain rfl := Option.some.inj hg
    exact ⟨.xDivW, .three (xdw 0) (xdw 1) (xdw 2), by rw [ref, hrt], rfl, by rw [leafDim, hrt]; rfl, rv_of_out hx2⟩
  case x =>
    obtain ⟨g, g1, g2⟩ := reps3_get hc _ _ hg
    exact ⟨.challenge 7, .three g.1 g.2.1 g.2.2, by rw [ref, hrt], by simp [look, withTmp, queryEnv, g1], by rw [leafDim, hrt]; rfl, out3_RV g2⟩
  case Z => exact absurd hrt (hp i hi x hx).2
  case other => simp at hg

variable {lit : K → ZMod r} {nCm : Nat → Nat}

/-- what the setup has to meet: the program is printed, its result has three elements, the unreduced values are in range, the columns
of the trees are where `MapValues` puts them, and only declared names are used -/
structure QueryOk (lim : Nat × Nat) (lit : K → ZMod r) (nCm : Nat → Nat) (secs : Nat → List (Nat × Nat)) (code code' : List (VInstr K))
    (stmts : List (Stmt (ZMod r))) (evalQ : Sig (ZMod r)) : Prop where
  dims : setDims (fun _ => none) code = some code'
  three : ∀ last ∈ code'.getLast?, last.dest.dim = 3
  print : unrollCode lit nCm code' = some (stmts, evalQ)
  lits : LitRep lit code
  range : ∃ iv, ivals lim (fun _ => none) code' = some iv ∧ ∀ last ∈ code'.getLast?, ∀ p, iv last.dest.id = some p → p.1 ≤ lim.1 ∧ p.2 ≤ lim.2
  trees : TreesOk nCm secs code
  pubs : NoPublics code

/-- the inputs of the template are 64-bit numbers standing for the values the native verifier has: challenges, openings, rows of
the trees, constants, and the bits of the query -/
structure QueryIn (nb : Nat) (chal evals : List (S3 r)) (vals : Nat → List (ZMod r)) (consts : List (ZMod r)) (ys : Nat → ZMod r)
    (chalK evalsK : List K) (rows : Nat → List F) (constsF : List F) (idx : Nat) : Prop where
  chal : Reps3 chal chalK
  evals : Reps3 evals evalsK
  rows : ∀ k, List.Forall₂ Out (vals k) (rows k)
  consts : List.Forall₂ Out consts constsF
  bits : ∀ j < nb, ys j = if idx.testBit j then 1 else 0
  idx : idx < 2 ^ nb

theorem mgK_val (k : Nat) : algebraMap F K (Roots.mg k) = mgK k := rfl

theorem point_val (nb idx : Nat) : algebraMap F K (Roots.shift * Roots.mg nb ^ idx) = queryPoint mgK shiftK nb idx := by
  rw [map_mul, map_pow]; rfl

/-- **C122, soundness**: an assignment that satisfies the constraints of `VerifyQuery` exists only if the native verifier does not
divide by zero at this query, and then its output stands for the value the native verifier computes -/
theorem onQuery_sound [Fact r.Prime] (hr : 2 ^ 250 < r) {nBits nb : Nat} (hn0 : nb ≠ 0) (hnb : nb ≤ 32) (hnB : nBits ≤ 32)
    {secs : Nat → List (Nat × Nat)} {code code' : List (VInstr K)} {stmts : List (Stmt (ZMod r))} {evalQ : Sig (ZMod r)}
    (hok : QueryOk (2 ^ 50, 2 ^ 50) lit nCm secs code code' stmts evalQ) {chal evals : List (S3 r)} {vals : Nat → List (ZMod r)}
    {consts : List (ZMod r)} {ys : Nat → ZMod r} {chalK evalsK pubK : List K} {rows : Nat → List F} {constsF : List F} {idx : Nat}
    (hin : QueryIn nb chal evals vals consts ys chalK evalsK rows constsF idx) {v : K}
    (hx : executeCode extK (ctxQuery mgK shiftK nBits nb chalK evalsK pubK rows constsF idx) code = some v)
    {out : Fin 3 → ZMod r} {σ : QuerySigs r} (h : QuerySat nBits nb secs stmts evalQ ys chal evals vals consts out σ) :
    ¬(queryPoint mgK shiftK nb idx = chalK.getD 7 0 ∨ queryPoint mgK shiftK nb idx = chalK.getD 7 0 * mgK nBits) ∧ Lift3 Out out v := by
  obtain ⟨xi, x1, x2, x3⟩ := h.divs
  obtain ⟨xk, k1, k2⟩ := reps3_get' hin.chal _ _ x1
  have hxk : chalK.getD 7 0 = xk := by rw [List.getD_eq_getElem?_getD, k1]; rfl
  obtain ⟨hX, -⟩ := X_sound hr hn0 hnb hin.idx hin.bits h.first h.next h.x
  have hXb := base_RI (by omega) hX
  rw [point_val] at hXb
  obtain ⟨d1, d2⟩ := glCInv_sound hr (lift3_mono (fun _ _ h => h.rep (by omega) (by omega)) (denIn_RI hX k2)) x2
  rw [point_val] at d1 d2
  have e1 := glCMul_sound hr (lift3_mono (fun _ _ h => h.rep (by omega) (by omega)) hXb) (out3_rep d2) h.div1
  have w := glCMul_sound hr (lift3_mono (fun _ _ h => h.rep (by omega) (by omega)) (base_RI (by omega) (rootC_out (r := r) hnB))) (out3_rep k2) x3
  obtain ⟨f1, f2⟩ := glCInv_sound hr (lift3_mono (fun _ _ h => h.rep (by omega) (by omega)) (denIn_RI hX w)) h.div2.1
  rw [point_val] at f1 f2
  have e2 := glCMul_sound hr (lift3_mono (fun _ _ h => h.rep (by omega) (by omega)) hXb) (out3_rep f2) h.div2.2
  rw [mgK_val, mul_comm (mgK nBits) xk] at f1 e2
  refine ⟨?_, ?_⟩
  · rw [hxk]
    rintro (h | h)
    · exact d1 (sub_eq_zero.mpr h)
    · exact f1 (sub_eq_zero.mpr h)
  · obtain ⟨trees, m1, m2, a, b, c, m3, m4⟩ := h.code
    obtain ⟨iv, iv1, iv2⟩ := hok.range
    have hleaf := query_leavesRep (lit := lit) (nCm := nCm) (ctx := ctxQuery mgK shiftK nBits nb chalK evalsK pubK rows constsF idx) (tmp := σ.tmp)
      hin.chal hin.evals hin.rows hin.consts m1 rfl rfl (xd := σ.xd) (xdw := σ.xdw)
      (by rw [hxk, div_eq_mul_inv]; exact e1) (by rw [hxk, div_eq_mul_inv]; exact e2) hok.lits hok.trees hok.pubs
    obtain ⟨last, w, p, l1, l2, l3, l4, l5⟩ := onCode_sound hr hok.dims hok.print iv1 hleaf m2 hx
    rw [show qEnv chal evals trees consts σ evalQ = some w from l2] at m3
    obtain rfl := Option.some.inj m3
    obtain ⟨p1, p2⟩ := iv2 last l1 p l4
    exact glCNorm_sound hr (lift3_mono (fun _ _ h => h.rep p1 p2) l5) m4

/-! ### Existence of an assignment -/

/-- `GLMul` has an output when the first input is below `49p` -/
theorem glMul_ex49 [Fact r.Prime] (hr : 2 ^ 250 < r) {a b : ZMod r} {x y : F} (ha : RI 0 49 a x) (hb : Near b y) : ∃ o, GLMul a b o := by
  obtain ⟨u, hu0, hu, rfl, rfl⟩ := ha
  obtain ⟨v, hv0, hv, f, rfl⟩ := near_shift hb
  have e : (u : ZMod r) + 16 * (P : ZMod r) = ((u + 16 * (P : ℤ) : ℤ) : ZMod r) := by push_cast; rfl
  have hP : ((P : Nat) : ℤ) = 0xFFFFFFFF00000001 := rfl
  have h1 : 0 ≤ u + 16 * (P : ℤ) := by rw [hP] at hu0 ⊢; omega
  have h2 : u + 16 * (P : ℤ) ≤ 65 * (P : ℤ) := by rw [hP] at hu ⊢; omega
  obtain ⟨w, -⟩ := wit_red (r := r) hr (nb := 80) (by omega) (mul_nonneg h1 hv0) (by
    calc (u + 16 * (P : ℤ)) * v ≤ 65 * (P : ℤ) * (64 * (P : ℤ)) := mul_le_mul h2 hv.le hv0 (by positivity)
      _ < 2 ^ 80 * (P : ℤ) := by decide)
  refine ⟨_, _, _, ?_, w⟩
  rw [e, f]
  push_cast
  rfl

theorem xacc_exist [Fact r.Prime] (hr : 2 ^ 250 < r) {nb : Nat} (h1 : 1 < nb) (hnb : nb ≤ 32) {idx : Nat} {ys : Nat → ZMod r}
    (hy : ∀ j < nb, ys j = if idx.testBit j then 1 else 0) :
    ∃ xa : Nat → ZMod r, GLMul (firstX nb (ys 0)) (factorX nb 1 (ys 1)) (xa 0) ∧
      ∀ i, i + 2 < nb → GLMul (xa i) (factorX nb (i + 2) (ys (i + 2))) (xa (i + 1)) := by
  have hf := fun i (hi : i < nb) => (by rw [hy i hi]; exact ⟨_, factorX_RI (by omega) _⟩ : ∃ x, RI 0 1 (factorX nb i (ys i)) x)
  obtain ⟨y1, hy1⟩ := hf 1 h1
  have h0 : ∃ x, RI 0 49 (firstX nb (ys 0)) x := by rw [hy 0 (by omega)]; exact ⟨_, firstX_RI hnb _⟩
  obtain ⟨y0, hy0⟩ := h0
  obtain ⟨o, ho⟩ := glMul_ex49 hr hy0 (hy1.near (by omega) (by omega))
  have ho' := glMul_sound hr (hy0.rep (by omega) (by omega)) (hy1.rep (by omega) (by omega)) ho
  obtain ⟨f, f0, f1⟩ := seq_exists (fun _ z => ∃ x : F, Out z x) (fun i a b => i + 2 < nb → GLMul a (factorX nb (i + 2) (ys (i + 2))) b) o ⟨_, ho'⟩ (by
    rintro i a ⟨x, hx⟩
    by_cases hi : i + 2 < nb
    · obtain ⟨y, hy'⟩ := hf (i + 2) hi
      have := glMul_complete hr hx.near (hy'.near (by omega) (by omega))
      have hg : GLMul a (factorX nb (i + 2) (ys (i + 2))) _ := ⟨_, _, rfl, this.1⟩
      exact ⟨_, fun _ => hg, _, glMul_sound hr (hx.rep.mono (by norm_num)) (hy'.rep (by omega) (by omega)) hg⟩
    · exact ⟨a, fun h => absurd h hi, x, hx⟩)
  exact ⟨f, by rw [f0]; exact ho, fun i hi => (f1 i).2 hi⟩

theorem glCNorm_ex' [Fact r.Prime] (hr : 2 ^ 250 < r) {i : Fin 3 → ZMod r} {x : K} (hi : Lift3 (RI 16 1000) i x) : ∃ o, GLCNorm i o :=
  let ⟨o, h, _⟩ := glCNorm_ex hr hi
  ⟨o, h⟩

/-- **C122, completeness**: at every query where the native verifier does not divide by zero the constraints can be satisfied -/
theorem onQuery_complete [Fact r.Prime] (hr : 2 ^ 250 < r) {nBits nb : Nat} (hn1 : 1 < nb) (hnb : nb ≤ 32) (hnB : nBits ≤ 32)
    {secs : Nat → List (Nat × Nat)} {code code' : List (VInstr K)} {stmts : List (Stmt (ZMod r))} {evalQ : Sig (ZMod r)}
    (hok : QueryOk (16, 48) lit nCm secs code code' stmts evalQ) (hn : (code.map fun i => i.dest.id).Nodup)
    {chal evals : List (S3 r)} {vals : Nat → List (ZMod r)}
    {consts : List (ZMod r)} {ys : Nat → ZMod r} {chalK evalsK pubK : List K} {rows : Nat → List F} {constsF : List F} {idx : Nat}
    (hin : QueryIn nb chal evals vals consts ys chalK evalsK rows constsF idx) (h7 : 7 < chalK.length)
    {trees : Nat → List (Val (ZMod r))} (hm : mapValues secs vals = some trees) {v : K}
    (hx : executeCode extK (ctxQuery mgK shiftK nBits nb chalK evalsK pubK rows constsF idx) code = some v)
    (h0 : ¬(queryPoint mgK shiftK nb idx = chalK.getD 7 0 ∨ queryPoint mgK shiftK nb idx = chalK.getD 7 0 * mgK nBits)) :
    ∃ (out : Fin 3 → ZMod r) (σ : QuerySigs r), QuerySat nBits nb secs stmts evalQ ys chal evals vals consts out σ := by
  obtain ⟨xi, x1, x2⟩ := reps3_get hin.chal 7 _ (List.getElem?_eq_getElem h7)
  have hxk : chalK.getD 7 0 = chalK[7] := by rw [List.getD_eq_getElem?_getD, List.getElem?_eq_getElem h7]; rfl
  obtain ⟨xa, a0, as⟩ := xacc_exist hr hn1 hnb hin.bits
  obtain ⟨-, hX⟩ := X_sound hr (by omega) hnb hin.idx hin.bits (fun _ => a0) as rfl
  have hX := hX hn1
  generalize hXe : (if 1 < nb then xa (nb - 2) else firstX nb (ys 0)) = X at hX
  have hXb := base_RI (by omega) (out_RI hX)
  rw [point_val] at hXb
  obtain ⟨wxi, w1, w2⟩ := glCMul_ex hr (lift3_mono (fun _ _ h => h.near (by omega) (by omega)) (base_RI (by omega) (rootC_out (r := r) hnB)))
    (out3_near x2)
  have i1 := denIn_RI (out_RI hX) x2
  have i2 := denIn_RI (out_RI hX) w2
  rw [point_val] at i1 i2
  rw [mgK_val, mul_comm (mgK nBits)] at i2
  rw [hxk, not_or] at h0
  obtain ⟨o1, d1⟩ := glCInv_ex hr (lift3_mono (fun _ _ h => h.near (by omega) (by omega)) i1) (sub_ne_zero.mpr h0.1)
  obtain ⟨o2, d2⟩ := glCInv_ex hr (lift3_mono (fun _ _ h => h.near (by omega) (by omega)) i2) (sub_ne_zero.mpr h0.2)
  have e1 := (glCInv_sound hr (lift3_mono (fun _ _ h => h.rep (by omega) (by omega)) i1) d1).2
  have e2 := (glCInv_sound hr (lift3_mono (fun _ _ h => h.rep (by omega) (by omega)) i2) d2).2
  obtain ⟨xd, g1, g2⟩ := glCMul_ex hr (lift3_mono (fun _ _ h => h.near (by omega) (by omega)) hXb) (out3_near e1)
  obtain ⟨xdw, g3, g4⟩ := glCMul_ex hr (lift3_mono (fun _ _ h => h.near (by omega) (by omega)) hXb) (out3_near e2)
  rw [← div_eq_mul_inv] at g2 g4
  have hleaf := fun tmp => query_leavesRep (lit := lit) (nCm := nCm) (ctx := ctxQuery mgK shiftK nBits nb chalK evalsK pubK rows constsF idx)
    (tmp := tmp) hin.chal hin.evals hin.rows hin.consts hm rfl rfl (xd := xd) (xdw := xdw) (by rw [hxk]; exact g2) (by rw [hxk]; exact g4)
    hok.lits hok.trees hok.pubs
  obtain ⟨iv, iv1, iv2⟩ := hok.range
  obtain ⟨env', t1, t2⟩ := onCode_complete hr hok.dims hok.print iv1 (hleaf fun _ => none) (fun _ => rfl) hn hx
  have henv : env' = withTmp (queryEnv chal evals trees consts (t3 xd) (t3 xdw)) (fun i => env' (.tmp i)) := by
    funext s
    cases s <;> first | rfl | exact t1 _ (by simp)
  obtain ⟨last, w, p, l1, l2, l3, l4, l5⟩ := onCode_sound hr hok.dims hok.print (ivals_mono (by norm_num) (by norm_num) iv1)
    (by rw [henv]; exact hleaf _) t2 hx
  rw [hok.three last l1] at l3
  obtain ⟨a, b, c, rfl⟩ := size3 l3
  obtain ⟨p1, p2⟩ := iv2 last l1 p l4
  dsimp only at p1 p2
  obtain ⟨o, ho⟩ := glCNorm_ex' hr (lift3_mono (fun _ _ h => h.mono (by omega) (by omega)) l5)
  refine ⟨o, ⟨xa, X, o1, xd, wxi, o2, xdw, fun i => env' (.tmp i)⟩, ⟨fun _ => a0, as, hXe.symm, ⟨xi, x1, d1, w1⟩, g1, ⟨d2, g3⟩,
    trees, hm, ?_, a, b, c, ?_, ho⟩⟩
  · intro s hs
    have := t2 s hs
    rw [henv] at this
    exact this
  · have := l2
    rw [henv] at this
    exact this

/-- **C122**: for at least two bits, the constraints of `VerifyQuery` can be satisfied exactly when the native verifier does not divide
by zero; every satisfying assignment has the native value as output -/
theorem onQuery_iff [Fact r.Prime] (hr : 2 ^ 250 < r) {nBits nb : Nat} (hn1 : 1 < nb) (hnb : nb ≤ 32) (hnB : nBits ≤ 32)
    {secs : Nat → List (Nat × Nat)} {code code' : List (VInstr K)} {stmts : List (Stmt (ZMod r))} {evalQ : Sig (ZMod r)}
    (hok : QueryOk (16, 48) lit nCm secs code code' stmts evalQ) (hn : (code.map fun i => i.dest.id).Nodup)
    {chal evals : List (S3 r)} {vals : Nat → List (ZMod r)}
    {consts : List (ZMod r)} {ys : Nat → ZMod r} {chalK evalsK pubK : List K} {rows : Nat → List F} {constsF : List F} {idx : Nat}
    (hin : QueryIn nb chal evals vals consts ys chalK evalsK rows constsF idx) (h7 : 7 < chalK.length)
    {trees : Nat → List (Val (ZMod r))} (hm : mapValues secs vals = some trees) {v : K}
    (hx : executeCode extK (ctxQuery mgK shiftK nBits nb chalK evalsK pubK rows constsF idx) code = some v) :
    ((∃ out σ, QuerySat nBits nb secs stmts evalQ ys chal evals vals consts out σ) ↔
      ¬(queryPoint mgK shiftK nb idx = chalK.getD 7 0 ∨ queryPoint mgK shiftK nb idx = chalK.getD 7 0 * mgK nBits)) ∧
    ∀ out σ, QuerySat nBits nb secs stmts evalQ ys chal evals vals consts out σ → Lift3 Out out v := by
  have hok' : QueryOk (2 ^ 50, 2 ^ 50) lit nCm secs code code' stmts evalQ := by
    obtain ⟨iv, i1, i2⟩ := hok.range
    refine ⟨hok.dims, hok.three, hok.print, hok.lits, ⟨iv, ivals_mono (by norm_num) (by norm_num) i1, ?_⟩, hok.trees, hok.pubs⟩
    intro last hl p hp
    have := i2 last hl p hp
    dsimp only at this ⊢
    omega
  exact ⟨⟨fun ⟨out, σ, h⟩ => (onQuery_sound hr (by omega) hnb hnB hok' hin hx h).1, onQuery_complete hr hn1 hnb hnB hok hn hin h7 hm hx⟩,
    fun out σ h => (onQuery_sound hr (by omega) hnb hnB hok' hin hx h).2⟩

/-! ### Example -/

/-- `tmp0 := tree1_0 - eval0`; `tmp1 := tmp0 * xDivXSubXi + tree4_0`, where `tree4_0` is the second committed column -/
def exQ : List (VInstr K) :=
  [⟨.sub, { ty := .tmp, id := 0 }, [{ ty := .tree 1, id := 0, treePos := 0, dim := 1 }, { ty := .eval, id := 0 }]⟩,
   ⟨.muladd, { ty := .tmp, id := 1 }, [{ ty := .tmp, id := 0 }, { ty := .xDivXSubXi }, { ty := .tree 4, id := 1, treePos := 0, dim := 3 }]⟩]

/-- one column of one element in the first tree, one of three in the fourth -/
def exSecs (t : Nat) : List (Nat × Nat) := if t = 1 then [(0, 1)] else if t = 4 then [(0, 3)] else []

def exNCm (t : Nat) : Nat := if t = 1 then 1 else 0

theorem exQ_ok : ∃ code' stmts out, QueryOk (16, 48) (fun _ => (7 : ZMod r)) exNCm exSecs exQ code' stmts out := by
  refine ⟨_, _, _, rfl, ?_, rfl, ?_, ⟨_, rfl, ?_⟩, ?_, ?_⟩
  · intro last h
    obtain rfl := Option.some.inj h
    rfl
  · intro i hi x hx ht v hv
    simp only [exQ, List.mem_cons, List.not_mem_nil, or_false] at hi
    rcases hi with rfl | rfl <;> simp only [List.mem_cons, List.not_mem_nil, or_false] at hx
    · rcases hx with rfl | rfl <;> simp at ht
    · rcases hx with rfl | rfl | rfl <;> simp at ht
  · intro last h p hp
    obtain rfl := Option.some.inj h
    have hp : some (0, 2) = some p := hp
    obtain rfl := Option.some.inj hp
    decide
  · intro i hi x hx k ht
    simp only [exQ, List.mem_cons, List.not_mem_nil, or_false] at hi
    rcases hi with rfl | rfl <;> simp only [List.mem_cons, List.not_mem_nil, or_false] at hx
    · rcases hx with rfl | rfl
      · obtain rfl := VTy.tree.inj ht
        exact ⟨0, .inl ⟨rfl, rfl⟩, le_rfl, rfl⟩
      · simp at ht
    · rcases hx with rfl | rfl | rfl
      · simp at ht
      · simp at ht
      · obtain rfl := VTy.tree.inj ht
        exact ⟨1, .inr (.inr (.inr ⟨rfl, rfl⟩)), le_rfl, rfl⟩
  · intro i hi x hx
    simp only [exQ, List.mem_cons, List.not_mem_nil, or_false] at hi
    rcases hi with rfl | rfl <;> simp only [List.mem_cons, List.not_mem_nil, or_false] at hx
    · rcases hx with rfl | rfl <;> exact ⟨by simp, by simp⟩
    · rcases hx with rfl | rfl | rfl <;> exact ⟨by simp, by simp⟩

/-- non-vacuity of C122: all hypotheses hold of this program, of all challenges, openings and rows, and of query 5 in a domain of 8 -/
example (c : Fin 8 → Fin 3 → F) (e : Fin 3 → F) (t : F) (u : Fin 3 → F) :
    let K3 := fun x : Fin 3 → F => coord (x 0) (x 1) (x 2)
    let S := fun x : Fin 3 → F => ((canon (x 0), canon (x 1), canon (x 2)) : S3 Poseidon.blsMod)
    let x := queryPoint mgK shiftK 3 5
    ∃ stmts evalQ, ∀ out σ, QuerySat 2 3 exSecs stmts evalQ (fun j => if (5 : Nat).testBit j then 1 else 0) (List.ofFn fun i => S (c i)) [S e]
      (fun k => if k = 1 then [canon t] else if k = 4 then [canon (u 0), canon (u 1), canon (u 2)] else []) [] out σ →
      Lift3 Out out ((algebraMap F K t - K3 e) * (x / (x - K3 (c 7))) + K3 u) := by
  intro K3 S x
  obtain ⟨code', stmts, out, hok⟩ := exQ_ok (r := Poseidon.blsMod)
  have hS : ∀ x : Fin 3 → F, Lift3 Out (f3 (S x)) (K3 x) := fun x =>
    lift3_iff.mpr ⟨x 0, x 1, x 2, canon_out _, canon_out _, canon_out _, rfl⟩
  have hin : QueryIn 3 (List.ofFn fun i => S (c i)) [S e]
      (fun k => if k = 1 then [canon t] else if k = 4 then [canon (u 0), canon (u 1), canon (u 2)] else []) []
      (fun j => if (5 : Nat).testBit j then 1 else 0) (List.ofFn fun i => K3 (c i)) [K3 e]
      (fun k => if k = 1 then [t] else if k = 4 then [u 0, u 1, u 2] else []) [] 5 := by
    refine ⟨?_, .cons (hS _) .nil, ?_, .nil, fun _ _ => rfl, by norm_num⟩
    · rw [Reps3, List.forall₂_iff_get]
      refine ⟨by simp, fun i h1 h2 => ?_⟩
      rw [List.get_eq_getElem, List.get_eq_getElem, List.getElem_ofFn, List.getElem_ofFn]
      exact hS _
    · intro k
      split_ifs
      · exact .cons (canon_out _) .nil
      · exact .cons (canon_out _) (.cons (canon_out _) (.cons (canon_out _) .nil))
      · exact .nil
  refine ⟨stmts, out, fun o σ h => ((onQuery_iff bls_large (by norm_num) (by norm_num) (by norm_num) hok (by decide) hin (by simp)
    (trees := _) rfl (pubK := []) ?_).2 o σ h)⟩
  simp [executeCode, exQ, vStep, getRef, vApply, ctxQuery, Function.update, extractVal, extK, x, K3]

end Verif.Gadget.OnCode
