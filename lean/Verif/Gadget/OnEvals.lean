import Verif.Gadget.OnCodeMain

/-!
# C121: the template `VerifyEvaluations` of the on-chain circuit, starky/src/stark_verifier_circom_onchain.rs L416-532
-/
set_option linter.unusedSectionVars false

namespace Verif.Gadget.OnCode
open Verif.GL (F)
open Verif.Ext3 (K coord)
open Stark Codegen Circom

noncomputable local instance : DecidableEq K := Classical.decEq _

variable {r : Nat}

/-- three scalars, as Circom/Evals.lean writes a signal of three elements -/
abbrev S3 (r : Nat) := ZMod r × ZMod r × ZMod r

/-- the signals of the template besides its inputs -/
structure EvalSigs (r : Nat) where
  zMul : Nat → Fin 3 → ZMod r
  tmp : Nat → Option (Val (ZMod r))
  xAcc : Nat → Fin 3 → ZMod r
  qStep : Nat → Fin 3 → ZMod r
  qAcc : Nat → Fin 3 → ZMod r
  qZ : Fin 3 → ZMod r
  normC : Fin 3 → ZMod r

/-- the values of the names the printed program uses: inputs and `Z` as in the recursive circuit, and the temporaries -/
def withTmp (env : Env (ZMod r)) (tmp : Nat → Option (Val (ZMod r))) : Env (ZMod r)
  | .tmp i => tmp i
  | s => env s

/-- `Z`, L469-474 -/
def zOf (nBits : Nat) (σ : EvalSigs r) : S3 r := (σ.zMul (nBits - 1) 0 - 1 + (P : ZMod r), σ.zMul (nBits - 1) 1, σ.zMul (nBits - 1) 2)

/-- the values of all names of the printed program -/
def evalEnv (nBits : Nat) (chal evals : List (S3 r)) (publics : List (ZMod r)) (σ : EvalSigs r) : Env (ZMod r) :=
  withTmp (evalsEnv chal evals publics (zOf nBits σ)) σ.tmp

/-- the constraints of the template, L416-532: `nBits` is `stark_struct.nBits`, `base` the place of the first quotient opening, L505;
`stmts` and `out` are printed for the constraint program -/
structure EvalsSat (nBits qDeg base : Nat) (stmts : List (Stmt (ZMod r))) (out : Sig (ZMod r)) (chal evals : List (S3 r))
    (publics : List (ZMod r)) (enable : ZMod r) (σ : EvalSigs r) : Prop where
  z0 : ∃ xi, chal[7]? = some xi ∧ GLCMul (f3 xi) (f3 xi) (σ.zMul 0)
  zs : ∀ i, i + 1 < nBits → GLCMul (σ.zMul i) (σ.zMul i) (σ.zMul (i + 1))
  code : ∀ s ∈ stmts, Sat (evalEnv nBits chal evals publics σ) s
  acc0 : σ.xAcc 0 = ![1, 0, 0] ∧ ∃ e, evals[base + 0]? = some e ∧ σ.qAcc 0 = f3 e
  accs : ∀ i, i + 1 < qDeg → GLCMul (σ.xAcc i) (σ.zMul (nBits - 1)) (σ.xAcc (i + 1)) ∧
    (∃ e, evals[base + (i + 1)]? = some e ∧ GLCMul (σ.xAcc (i + 1)) (f3 e) (σ.qStep i)) ∧ ∀ k, σ.qAcc (i + 1) k = σ.qAcc i k + σ.qStep i k
  qz : GLCMul (σ.qAcc (qDeg - 1)) (f3 (zOf nBits σ)) σ.qZ
  final : ∃ a b c, evalEnv nBits chal evals publics σ out = some (.three a b c) ∧
    GLCNorm (fun k => ![a, b, c] k - σ.qZ k) σ.normC ∧ ∀ k, enable * σ.normC k = 0

/-! ### Specification -/

/-- the signals of three elements are 64-bit numbers standing for the native values -/
def Reps3 (l : List (S3 r)) (lk : List K) : Prop := List.Forall₂ (fun g v => Lift3 Out (f3 g) v) l lk

/-- the native check of the constraint at the challenge, stark_verify.rs L64-86 -/
def NativeEval (nBits qDeg base : Nat) (chal evals : List K) (res : K) : Prop :=
  ∃ qs, (List.range' base qDeg).mapM (fun i => evals[i]?) = some qs ∧
    res = recombine (chal.getD 7 0 ^ 2 ^ nBits) qs 1 0 * (chal.getD 7 0 ^ 2 ^ nBits - 1)

/-- the literals of the program are printed as numbers between `-p` and `2p` with their value -/
def LitRep (lit : K → ZMod r) (code : List (VInstr K)) : Prop :=
  ∀ i ∈ code, ∀ x ∈ i.src, x.ty = .number → ∀ v, x.value = some v → ∃ a : F, RI 1 2 (lit v) a ∧ algebraMap F K a = v

/-! ### Proofs -/

theorem reps3_get {l : List (S3 r)} {lk : List K} (h : Reps3 l lk) : ∀ (i : Nat) (v : K), lk[i]? = some v → ∃ g, l[i]? = some g ∧ Lift3 Out (f3 g) v := by
  induction h with
  | nil => intro i v hv; simp at hv
  | @cons a b l l' hab _ ih =>
    intro i v hv
    cases i with
    | zero => simp at hv; subst hv; exact ⟨a, rfl, hab⟩
    | succ i => simpa using ih i v (by simpa using hv)

theorem reps3_get' {l : List (S3 r)} {lk : List K} (h : Reps3 l lk) : ∀ (i : Nat) (g : S3 r), l[i]? = some g → ∃ v, lk[i]? = some v ∧ Lift3 Out (f3 g) v := by
  induction h with
  | nil => intro i v hv; simp at hv
  | @cons a b l l' hab _ ih =>
    intro i v hv
    cases i with
    | zero => simp at hv; subst hv; exact ⟨b, rfl, hab⟩
    | succ i => simpa using ih i v (by simpa using hv)

theorem pubs_get {l : List (ZMod r)} {lk : List F} (h : List.Forall₂ Out l lk) : ∀ (i : Nat) (v : F), lk[i]? = some v → ∃ g, l[i]? = some g ∧ Out g v := by
  induction h with
  | nil => intro i v hv; simp at hv
  | @cons a b l l' hab _ ih =>
    intro i v hv
    cases i with
    | zero => simp at hv; subst hv; exact ⟨a, rfl, hab⟩
    | succ i => simpa using ih i v (by simpa using hv)

theorem out3_rep {f : Fin 3 → ZMod r} {v : K} (h : Lift3 Out f v) : Lift3 (Rep (2 ^ 120)) f v :=
  lift3_mono (fun _ _ h => h.rep.mono (by norm_num)) h

theorem out3_near {f : Fin 3 → ZMod r} {v : K} (h : Lift3 Out f v) : Lift3 Near f v := lift3_mono (fun _ _ h => h.near) h

theorem out3_RV {g : S3 r} {v : K} (h : Lift3 Out (f3 g) v) : RV 0 2 (.three g.1 g.2.1 g.2.2) v := lift3_mono (fun _ _ h => out_RI h) h

/-- `Z` is the power of the challenge minus one -/
theorem zOf_RI {nBits : Nat} {σ : EvalSigs r} {v : K} (h : Lift3 Out (σ.zMul (nBits - 1)) v) : Lift3 (RI 0 3) (f3 (zOf nBits σ)) (v - 1) := by
  obtain ⟨c, h1, rfl⟩ := h
  refine lift3_iff.mpr ⟨c 0 - 1, c 1, c 2, ?_, (out_RI (h1 1)).mono le_rfl (by omega), (out_RI (h1 2)).mono le_rfl (by omega), ?_⟩
  · obtain ⟨n, a, b, d⟩ := h1 0
    have hP : ((P : Nat) : ℤ) = 0xFFFFFFFF00000001 := rfl
    refine ⟨(n : ℤ) - 1 + (P : ℤ), by rw [hP]; omega, by rw [hP]; omega, ?_, ?_⟩
    · show σ.zMul (nBits - 1) 0 - 1 + (P : ZMod r) = _
      rw [b]; push_cast; rfl
    · push_cast
      rw [gl_cast_P, add_zero, d]
  · rw [coord_subr, map_one]

theorem evals_leavesRep {lit : K → ZMod r} {nCm : Nat → Nat} (mg : Nat → K) {nBits : Nat} (hmg : mg nBits ^ 2 ^ nBits = 1)
    {chal evals : List (S3 r)} {publics : List (ZMod r)} {chalK evalsK : List K} {pubF : List F} (hc : Reps3 chal chalK)
    (he : Reps3 evals evalsK) (hp : List.Forall₂ Out publics pubF) {Z : S3 r} (hZ : Lift3 (RI 0 3) (f3 Z) (chalK.getD 7 0 ^ 2 ^ nBits - 1))
    {tmp : Nat → Option (Val (ZMod r))} {code : List (VInstr K)} (hlit : LitRep lit code) :
    LeavesRep lit nCm (ctxConstraint mg nBits chalK evalsK (pubF.map (algebraMap F K))) (withTmp (evalsEnv chal evals publics Z) tmp) code := by
  intro i hi x hx hty v hv
  unfold getRef ctxConstraint at hv
  cases ht : x.ty <;> simp only [ht] at hv hty
  case tmp => exact absurd rfl hty
  case tree k =>
    unfold extractVal at hv
    split_ifs at hv <;> simp at hv
  case const_ => simp at hv
  case eval =>
    obtain ⟨g, g1, g2⟩ := reps3_get he _ _ hv
    exact ⟨.eval x.id, .three g.1 g.2.1 g.2.2, by rw [ref, ht], by simp [look, withTmp, evalsEnv, g1], by rw [leafDim, ht]; rfl, out3_RV g2⟩
  case number =>
    exact ⟨.num (lit v), .one (lit v), by rw [ref, ht]; simp [hv], rfl, by rw [leafDim, ht]; rfl, hlit i hi x hx ht v hv⟩
  case public_ =>
    rw [List.getElem?_map] at hv
    obtain ⟨y, hy, rfl⟩ := Option.map_eq_some_iff.mp hv
    obtain ⟨g, g1, g2⟩ := pubs_get hp _ _ hy
    exact ⟨.public_ x.id, .one g, by rw [ref, ht], by simp [look, withTmp, evalsEnv, g1], by rw [leafDim, ht]; rfl, y, out_RI g2, rfl⟩
  case challenge =>
    obtain ⟨g, g1, g2⟩ := reps3_get hc _ _ hv
    exact ⟨.challenge x.id, .three g.1 g.2.1 g.2.2, by rw [ref, ht], by simp [look, withTmp, evalsEnv, g1], by rw [leafDim, ht]; rfl, out3_RV g2⟩
  case xDivXSubXi => simp at hv
  case xDivXSubWXi => simp at hv
  case x =>
    obtain ⟨g, g1, g2⟩ := reps3_get hc _ _ hv
    exact ⟨.challenge 7, .three g.1 g.2.1 g.2.2, by rw [ref, ht], by simp [look, withTmp, evalsEnv, g1], by rw [leafDim, ht]; rfl, out3_RV g2⟩
  case Z =>
    refine ⟨.Z, .three Z.1 Z.2.1 Z.2.2, by rw [ref, ht], rfl, by rw [leafDim, ht]; rfl, ?_⟩
    have h1 := Option.some.inj hv
    rw [mul_pow, hmg, mul_one, ite_self] at h1
    rw [← h1]
    exact hZ
  case other => simp at hv

theorem mapM_range {α : Type} (l : List α) : ∀ n b, b + n ≤ l.length → (List.range' b n).mapM (fun i => l[i]?) = some ((l.drop b).take n)
  | 0, b, _ => rfl
  | n + 1, b, hb => by
    have hb' : b < l.length := by omega
    rw [List.range'_succ, List.mapM_cons, List.getElem?_eq_getElem hb', mapM_range l n (b + 1) (by omega),
      List.drop_eq_getElem_cons hb', List.take_succ_cons]
    rfl

theorem recombine_next (xn : K) (l : List K) (base i : Nat) (h : base + (i + 1) < l.length) :
    recombine xn ((l.drop base).take (i + 1 + 1)) 1 0 = recombine xn ((l.drop base).take (i + 1)) 1 0 + xn ^ (i + 1) * l[base + (i + 1)] := by
  rw [List.take_succ (i := i + 1), List.getElem?_drop, List.getElem?_eq_getElem h, Option.toList_some, recombine_snoc, List.length_take,
    List.length_drop, one_mul, Nat.min_eq_left (by omega)]

theorem recombine_first (xn : K) (l : List K) (base : Nat) (h : base < l.length) : recombine xn ((l.drop base).take 1) 1 0 = l[base] := by
  rw [List.drop_eq_getElem_cons h, List.take_succ_cons, List.take_zero]
  simp [recombine]

/-- the powers of the challenge -/
theorem zMul_sound [Fact r.Prime] (hr : 2 ^ 250 < r) {nBits : Nat} {xi : Fin 3 → ZMod r} {v : K} (hxi : Lift3 Out xi v)
    {zM : Nat → Fin 3 → ZMod r} (h0 : GLCMul xi xi (zM 0)) (hs : ∀ i, i + 1 < nBits → GLCMul (zM i) (zM i) (zM (i + 1))) :
    ∀ i < nBits, Lift3 Out (zM i) (v ^ 2 ^ (i + 1))
  | 0, _ => by
    have := glCMul_sound hr (out3_rep hxi) (out3_rep hxi) h0
    rwa [zero_add, pow_one, sq]
  | i + 1, h => by
    have ih := zMul_sound hr hxi h0 hs i (by omega)
    have := glCMul_sound hr (out3_rep ih) (out3_rep ih) (hs i h)
    rwa [← pow_add, show 2 ^ (i + 1) + 2 ^ (i + 1) = 2 ^ (i + 1 + 1) by rw [pow_succ 2 (i + 1)]; omega] at this

theorem coord_one : coord 1 0 0 = (1 : K) := by rw [coord_base', map_one]

theorem one_out : Lift3 Out (![1, 0, 0] : Fin 3 → ZMod r) (1 : K) :=
  lift3_iff.mpr ⟨1, 0, 0, ⟨1, by norm_num, by simp, by simp⟩, ⟨0, by norm_num, by simp, by simp⟩, ⟨0, by norm_num, by simp, by simp⟩, coord_one⟩

theorem lift3_add {lo hi lo' hi' : Nat} {f g h : Fin 3 → ZMod r} {x y : K} (hf : Lift3 (RI lo hi) f x) (hg : Lift3 (RI lo' hi') g y)
    (e : ∀ k, h k = f k + g k) : Lift3 (RI (lo + lo') (hi + hi')) h (x + y) := by
  obtain ⟨c, h1, rfl⟩ := hf
  obtain ⟨d, h2, rfl⟩ := hg
  exact ⟨fun k => c k + d k, fun k => by rw [e]; exact (h1 k).add (h2 k), coord_add' _ _ _ _ _ _⟩

/-- the recombined quotient -/
theorem accs_sound [Fact r.Prime] (hr : 2 ^ 250 < r) {base qDeg : Nat} {evals : List (S3 r)} {evalsK : List K} (he : Reps3 evals evalsK)
    {xN : Fin 3 → ZMod r} {xn : K} (hxN : Lift3 Out xN xn) {xAcc qStep qAcc : Nat → Fin 3 → ZMod r}
    (h0 : xAcc 0 = ![1, 0, 0] ∧ ∃ e, evals[base + 0]? = some e ∧ qAcc 0 = f3 e)
    (hs : ∀ i, i + 1 < qDeg → GLCMul (xAcc i) xN (xAcc (i + 1)) ∧
      (∃ e, evals[base + (i + 1)]? = some e ∧ GLCMul (xAcc (i + 1)) (f3 e) (qStep i)) ∧ ∀ k, qAcc (i + 1) k = qAcc i k + qStep i k) :
    ∀ i < qDeg, base + i < evalsK.length ∧ Lift3 Out (xAcc i) (xn ^ i) ∧
      Lift3 (RI 0 (2 * (i + 1))) (qAcc i) (recombine xn ((evalsK.drop base).take (i + 1)) 1 0)
  | 0, _ => by
    obtain ⟨h1, e, h2, h3⟩ := h0
    obtain ⟨v, v1, v2⟩ := reps3_get' he _ _ h2
    obtain ⟨hlt, rfl⟩ := List.getElem?_eq_some_iff.mp v1
    refine ⟨hlt, by rw [h1, pow_zero]; exact one_out, ?_⟩
    rw [h3, recombine_first xn evalsK base hlt]
    exact lift3_mono (fun _ _ h => out_RI h) v2
  | i + 1, h => by
    obtain ⟨i1, i2, i3⟩ := accs_sound hr he hxN h0 hs i (by omega)
    obtain ⟨s1, ⟨e, s2, s3⟩, s4⟩ := hs i h
    obtain ⟨v, v1, v2⟩ := reps3_get' he _ _ s2
    obtain ⟨hlt, rfl⟩ := List.getElem?_eq_some_iff.mp v1
    have x1 := glCMul_sound hr (out3_rep i2) (out3_rep hxN) s1
    rw [← pow_succ] at x1
    have x2 := glCMul_sound hr (out3_rep x1) (out3_rep v2) s3
    refine ⟨hlt, x1, ?_⟩
    rw [recombine_next xn evalsK base i hlt]
    exact lift3_mono (fun _ _ h => h.mono (by omega) (by omega)) (lift3_add i3 (lift3_mono (fun _ _ h => out_RI h) x2) s4)

theorem sub_rep {lo hi lo' hi' : Nat} {f g : Fin 3 → ZMod r} {x y : K} (hf : Lift3 (RI lo hi) f x) (hg : Lift3 (RI lo' hi') g y) :
    Lift3 (RI (lo + hi') (hi + lo')) (fun k => f k - g k) (x - y) := by
  obtain ⟨c, h1, rfl⟩ := hf
  obtain ⟨d, h2, rfl⟩ := hg
  exact ⟨fun k => c k - d k, fun k => (h1 k).sub (h2 k), coord_sub' _ _ _ _ _ _⟩

theorem size3 {w : Val (ZMod r)} (h : w.size = 3) : ∃ a b c, w = .three a b c := by
  cases w with
  | one g => simp [Val.size] at h
  | three a b c => exact ⟨a, b, c, rfl⟩

variable {lit : K → ZMod r} {nCm : Nat → Nat}

/-- what the setup has to meet: the program is printed, its result has three elements, the unreduced values are in range, and so is
the number of pieces of the quotient -/
structure EvalsOk (lim : Nat × Nat) (lit : K → ZMod r) (nCm : Nat → Nat) (nBits qDeg : Nat) (code code' : List (VInstr K))
    (stmts : List (Stmt (ZMod r))) (out : Sig (ZMod r)) : Prop where
  nb0 : nBits ≠ 0
  qd0 : qDeg ≠ 0
  dims : setDims (fun _ => none) code = some code'
  three : ∀ last ∈ code'.getLast?, last.dest.dim = 3
  print : unrollCode lit nCm code' = some (stmts, out)
  lits : LitRep lit code
  range : ∃ iv, ivals lim (fun _ => none) code' = some iv ∧ ∀ last ∈ code'.getLast?, ∀ p, iv last.dest.id = some p → p.1 + 2 ≤ lim.1 ∧ p.2 ≤ lim.2
  pieces : 2 * qDeg ≤ lim.2

/-- **C121, soundness**: an assignment of the signals that satisfies the constraints of `VerifyEvaluations` with `enable` not zero exists
only if the native check succeeds; `chalK`, `evalsK`, `pubF` are the values the inputs stand for -/
theorem onEvals_sound [Fact r.Prime] (hr : 2 ^ 250 < r) (mg : Nat → K) {nBits qDeg base : Nat} (hmg : mg nBits ^ 2 ^ nBits = 1)
    {code code' : List (VInstr K)} {stmts : List (Stmt (ZMod r))} {out : Sig (ZMod r)}
    (hok : EvalsOk (2 ^ 50, 2 ^ 50) lit nCm nBits qDeg code code' stmts out) {chal evals : List (S3 r)} {publics : List (ZMod r)}
    {chalK evalsK : List K} {pubF : List F} (hc : Reps3 chal chalK) (he : Reps3 evals evalsK) (hp : List.Forall₂ Out publics pubF)
    {res : K} (hx : executeCode extK (ctxConstraint mg nBits chalK evalsK (pubF.map (algebraMap F K))) code = some res)
    {enable : ZMod r} (hen : enable ≠ 0) {σ : EvalSigs r} (h : EvalsSat nBits qDeg base stmts out chal evals publics enable σ) :
    NativeEval nBits qDeg base chalK evalsK res := by
  obtain ⟨xi, x1, x2⟩ := h.z0
  obtain ⟨xk, k1, k2⟩ := reps3_get' hc _ _ x1
  have hxk : chalK.getD 7 0 = xk := by rw [List.getD_eq_getElem?_getD, k1]; rfl
  have hz := zMul_sound hr k2 x2 h.zs (nBits - 1) (by have := hok.nb0; omega)
  rw [Nat.sub_add_cancel (by have := hok.nb0; omega)] at hz
  have hZ := zOf_RI hz
  obtain ⟨a1, a2, a3⟩ := accs_sound hr he hz h.acc0 h.accs (qDeg - 1) (by have := hok.qd0; omega)
  rw [Nat.sub_add_cancel (by have := hok.qd0; omega)] at a3
  obtain ⟨iv, iv1, iv2⟩ := hok.range
  obtain ⟨last, w, p, l1, l2, l3, l4, l5⟩ := onCode_sound hr hok.dims hok.print iv1
    (evals_leavesRep mg hmg hc he hp (by rw [hxk]; exact hZ) hok.lits) h.code hx
  obtain ⟨a, b, c, f1, f2, f3'⟩ := h.final
  rw [show evalEnv nBits chal evals publics σ out = some w from l2] at f1
  obtain rfl := Option.some.inj f1
  obtain ⟨p1, p2⟩ := iv2 last l1 p l4
  have hpc := hok.pieces
  dsimp only at p1 p2 hpc
  have q1 := glCMul_sound hr (lift3_mono (fun _ _ h => h.rep (by omega) (by omega)) a3) (lift3_mono (fun _ _ h => h.rep (by omega) (by omega)) hZ) h.qz
  have n1 := glCNorm_sound hr (lift3_mono (fun _ _ h => h.rep (by omega) (by omega)) (sub_rep l5 (lift3_mono (fun _ _ h => out_RI h) q1))) f2
  obtain ⟨cc, n2, n3⟩ := n1
  have hzero : ∀ k, cc k = 0 := by
    intro k
    have h0 : σ.normC k = 0 := (mul_eq_zero.mp (f3' k)).resolve_left hen
    have := n2 k
    rw [h0] at this
    simpa using out_small hr (n := 0) (by norm_num) (by simpa using this)
  rw [hzero 0, hzero 1, hzero 2, coord_base', map_zero] at n3
  refine ⟨_, mapM_range evalsK qDeg base (by have := hok.qd0; omega), ?_⟩
  rw [hxk]
  exact (sub_eq_zero.mp n3.symm)

/-! ### Existence of an assignment -/

theorem glCMul_ex [Fact r.Prime] (hr : 2 ^ 250 < r) {a b : Fin 3 → ZMod r} {x y : K} (ha : Lift3 Near a x) (hb : Lift3 Near b y) :
    ∃ o, GLCMul a b o ∧ Lift3 Out o (x * y) := by
  obtain ⟨h, -⟩ := glCMul_complete hr ha hb
  exact ⟨_, h, glCMul_sound hr (lift3_mono (fun _ _ h => h.rep.mono (by norm_num)) ha) (lift3_mono (fun _ _ h => h.rep.mono (by norm_num)) hb) h⟩

theorem seq_exists {α : Type} (Good : Nat → α → Prop) (R : Nat → α → α → Prop) (a0 : α) (h0 : Good 0 a0)
    (h : ∀ i a, Good i a → ∃ b, R i a b ∧ Good (i + 1) b) : ∃ f : Nat → α, f 0 = a0 ∧ ∀ i, Good i (f i) ∧ R i (f i) (f (i + 1)) := by
  choose! g g1 g2 using h
  let f : Nat → α := fun n => Nat.rec a0 (fun i a => g i a) n
  have hf : ∀ i, Good i (f i) := by
    intro i
    induction i with
    | zero => exact h0
    | succ i ih => exact g2 i _ ih
  exact ⟨f, rfl, fun i => ⟨hf i, g1 i _ (hf i)⟩⟩

theorem zMul_exists [Fact r.Prime] (hr : 2 ^ 250 < r) {xi : Fin 3 → ZMod r} {v : K} (hxi : Lift3 Out xi v) :
    ∃ zM : Nat → Fin 3 → ZMod r, GLCMul xi xi (zM 0) ∧ ∀ i, GLCMul (zM i) (zM i) (zM (i + 1)) := by
  obtain ⟨o, o1, o2⟩ := glCMul_ex hr (out3_near hxi) (out3_near hxi)
  obtain ⟨f, f0, f1⟩ := seq_exists (fun _ z => ∃ x : K, Lift3 Out z x) (fun _ a b => GLCMul a a b) o ⟨_, o2⟩ (by
    rintro i a ⟨x, hx⟩
    obtain ⟨b, b1, b2⟩ := glCMul_ex hr (out3_near hx) (out3_near hx)
    exact ⟨b, b1, _, b2⟩)
  exact ⟨f, by rw [f0]; exact o1, fun i => (f1 i).2⟩

theorem accs_exist [Fact r.Prime] (hr : 2 ^ 250 < r) {base qDeg : Nat} {evals : List (S3 r)} {evalsK : List K} (he : Reps3 evals evalsK)
    (hq0 : qDeg ≠ 0) (hlen : base + qDeg ≤ evalsK.length) {xN : Fin 3 → ZMod r} {xn : K} (hxN : Lift3 Out xN xn) :
    ∃ xAcc qStep qAcc : Nat → Fin 3 → ZMod r, (xAcc 0 = ![1, 0, 0] ∧ ∃ e, evals[base + 0]? = some e ∧ qAcc 0 = f3 e) ∧
    ∀ i, i + 1 < qDeg → GLCMul (xAcc i) xN (xAcc (i + 1)) ∧
      (∃ e, evals[base + (i + 1)]? = some e ∧ GLCMul (xAcc (i + 1)) (f3 e) (qStep i)) ∧ ∀ k, qAcc (i + 1) k = qAcc i k + qStep i k := by
  have hget : ∀ i < qDeg, ∃ e v, evals[base + i]? = some e ∧ Lift3 Out (f3 e) v := fun i hi => by
    obtain ⟨g, g1, g2⟩ := reps3_get he (base + i) _ (List.getElem?_eq_getElem (by omega))
    exact ⟨g, _, g1, g2⟩
  obtain ⟨e0, v0, e1, e2⟩ := hget 0 (by omega)
  obtain ⟨f, f0, f1⟩ := seq_exists (α := (Fin 3 → ZMod r) × (Fin 3 → ZMod r) × (Fin 3 → ZMod r))
    (fun i s => i < qDeg → ∃ x : K, Lift3 Out s.1 x)
    (fun i s t => i + 1 < qDeg → GLCMul s.1 xN t.1 ∧ (∃ e, evals[base + (i + 1)]? = some e ∧ GLCMul t.1 (f3 e) t.2.2) ∧
      ∀ k, t.2.1 k = s.2.1 k + t.2.2 k) (![1, 0, 0], f3 e0, 0) (fun _ => ⟨1, one_out⟩) (by
    intro i s hs
    by_cases hi : i + 1 < qDeg
    · obtain ⟨x, hx⟩ := hs (by omega)
      obtain ⟨b, b1, b2⟩ := glCMul_ex hr (out3_near hx) (out3_near hxN)
      obtain ⟨e, v, e3, e4⟩ := hget (i + 1) hi
      obtain ⟨c, c1, c2⟩ := glCMul_ex hr (out3_near b2) (out3_near e4)
      exact ⟨(b, fun k => s.2.1 k + c k, c), fun _ => ⟨b1, ⟨e, e3, c1⟩, fun _ => rfl⟩, fun _ => ⟨_, b2⟩⟩
    · exact ⟨s, fun h => absurd h hi, fun h => absurd h hi⟩)
  refine ⟨fun i => (f i).1, fun i => (f (i + 1)).2.2, fun i => (f i).2.1, ⟨by simp only [f0], e0, e1, by simp only [f0]⟩, fun i hi => (f1 i).2 hi⟩

theorem glCNorm_ex [Fact r.Prime] (hr : 2 ^ 250 < r) {i : Fin 3 → ZMod r} {x : K} (hi : Lift3 (RI 16 1000) i x) :
    ∃ o, GLCNorm i o ∧ (x = 0 → ∀ k, o k = 0) := by
  obtain ⟨c, h1, h2⟩ := hi
  choose z z1 z2 z3 z4 using h1
  have key : ∀ k, Red 10 (i k + 16 * (P : ZMod r)) (kWit (i k + 16 * (P : ZMod r))) (oWit (i k + 16 * (P : ZMod r))) ∧
      oWit (i k + 16 * (P : ZMod r)) = canon (c k) := by
    intro k
    have hP : ((P : Nat) : ℤ) = 0xFFFFFFFF00000001 := rfl
    have a1 := z1 k
    have a2 := z2 k
    have := glNorm_complete (r := r) hr (z := z k) (by rw [hP] at a1 ⊢; omega) (by rw [hP] at a2 ⊢; omega)
    rw [← z3 k, z4 k] at this
    exact this
  refine ⟨fun k => oWit (i k + 16 * (P : ZMod r)), ⟨_, fun k => (key k).1⟩, fun hx k => ?_⟩
  rw [hx] at h2
  obtain ⟨c0, c1, c2⟩ := Ext3.coord_eq_zero h2
  have : c k = 0 := by
    fin_cases k
    · exact c0
    · exact c1
    · exact c2
  show oWit (i k + 16 * (P : ZMod r)) = 0
  rw [(key k).2, this, canon_zero]

/-- **C121, completeness**: when the native check succeeds, or `enable` is zero, the constraints can be satisfied -/
theorem onEvals_complete [Fact r.Prime] (hr : 2 ^ 250 < r) (mg : Nat → K) {nBits qDeg base : Nat} (hmg : mg nBits ^ 2 ^ nBits = 1)
    {code code' : List (VInstr K)} {stmts : List (Stmt (ZMod r))} {out : Sig (ZMod r)}
    (hok : EvalsOk (16, 48) lit nCm nBits qDeg code code' stmts out) (hn : (code.map fun i => i.dest.id).Nodup)
    {chal evals : List (S3 r)} {publics : List (ZMod r)}
    {chalK evalsK : List K} {pubF : List F} (hc : Reps3 chal chalK) (he : Reps3 evals evalsK) (hp : List.Forall₂ Out publics pubF)
    (h7 : 7 < chalK.length) (hlen : base + qDeg ≤ evalsK.length)
    {res : K} (hx : executeCode extK (ctxConstraint mg nBits chalK evalsK (pubF.map (algebraMap F K))) code = some res)
    {enable : ZMod r} (h : enable = 0 ∨ NativeEval nBits qDeg base chalK evalsK res) :
    ∃ σ : EvalSigs r, EvalsSat nBits qDeg base stmts out chal evals publics enable σ := by
  obtain ⟨xi, x1, x2⟩ := reps3_get hc 7 _ (List.getElem?_eq_getElem h7)
  have hxk : chalK.getD 7 0 = chalK[7] := by rw [List.getD_eq_getElem?_getD, List.getElem?_eq_getElem h7]; rfl
  obtain ⟨zM, z0, zs⟩ := zMul_exists hr x2
  have hz := zMul_sound hr x2 z0 (fun i _ => zs i) (nBits - 1) (Nat.lt_succ_self _)
  rw [Nat.sub_add_cancel (by have := hok.nb0; omega)] at hz
  obtain ⟨xAcc, qStep, qAcc, a1, a2⟩ := accs_exist hr he hok.qd0 hlen hz
  obtain ⟨-, -, a3⟩ := accs_sound hr he hz a1 a2 (qDeg - 1) (by have := hok.qd0; omega)
  rw [Nat.sub_add_cancel (by have := hok.qd0; omega)] at a3
  let σ0 : EvalSigs r := ⟨zM, fun _ => none, xAcc, qStep, qAcc, 0, 0⟩
  have hZ : Lift3 (RI 0 3) (f3 (zOf nBits σ0)) (chalK[7] ^ 2 ^ nBits - 1) := zOf_RI (σ := σ0) hz
  have hpc := hok.pieces
  dsimp only at hpc
  obtain ⟨qZ, q1, q2⟩ := glCMul_ex hr (lift3_mono (fun _ _ h => h.near (by omega) (by omega)) a3)
    (lift3_mono (fun _ _ h => h.near (by omega) (by omega)) hZ)
  obtain ⟨iv, iv1, iv2⟩ := hok.range
  have hleaf := fun tmp => evals_leavesRep (lit := lit) (nCm := nCm) (tmp := tmp) mg hmg hc he hp (by rw [hxk]; exact hZ) hok.lits
  obtain ⟨env', t1, t2⟩ := onCode_complete hr hok.dims hok.print iv1 (hleaf fun _ => none) (fun _ => rfl) hn hx
  have henv : env' = withTmp (evalsEnv chal evals publics (zOf nBits σ0)) (fun i => env' (.tmp i)) := by
    funext s
    cases s <;> first | rfl | exact t1 _ (by simp)
  obtain ⟨last, w, p, l1, l2, l3, l4, l5⟩ := onCode_sound hr hok.dims hok.print (ivals_mono (by norm_num) (by norm_num) iv1)
    (by rw [henv]; exact hleaf _) t2 hx
  rw [hok.three last l1] at l3
  obtain ⟨a, b, c, rfl⟩ := size3 l3
  obtain ⟨p1, p2⟩ := iv2 last l1 p l4
  dsimp only at p1 p2
  obtain ⟨o, o1, o2⟩ := glCNorm_ex hr (lift3_mono (fun _ _ h => h.mono (by omega) (by omega)) (sub_rep l5 (lift3_mono (fun _ _ h => out_RI h) q2)))
  refine ⟨⟨zM, fun i => env' (.tmp i), xAcc, qStep, qAcc, qZ, o⟩, ⟨⟨xi, x1, z0⟩, fun i _ => zs i, ?_, a1, a2, q1, a, b, c, ?_, o1, ?_⟩⟩
  · intro s hs
    have := t2 s hs
    rw [henv] at this
    exact this
  · have := l2
    rw [henv] at this
    exact this
  · intro k
    rcases h with rfl | ⟨qs, n1, n2⟩
    · rw [zero_mul]
    · rw [mapM_range evalsK qDeg base hlen] at n1
      obtain rfl := Option.some.inj n1
      show enable * o k = 0
      rw [o2 (by rw [n2, hxk, sub_self]) k, mul_zero]

/-- **C121**: with `enable = 1` the constraints of `VerifyEvaluations` can be satisfied exactly when the native check succeeds -/
theorem onEvals_iff [Fact r.Prime] (hr : 2 ^ 250 < r) (mg : Nat → K) {nBits qDeg base : Nat} (hmg : mg nBits ^ 2 ^ nBits = 1)
    {code code' : List (VInstr K)} {stmts : List (Stmt (ZMod r))} {out : Sig (ZMod r)}
    (hok : EvalsOk (16, 48) lit nCm nBits qDeg code code' stmts out) (hn : (code.map fun i => i.dest.id).Nodup)
    {chal evals : List (S3 r)} {publics : List (ZMod r)}
    {chalK evalsK : List K} {pubF : List F} (hc : Reps3 chal chalK) (he : Reps3 evals evalsK) (hp : List.Forall₂ Out publics pubF)
    (h7 : 7 < chalK.length) (hlen : base + qDeg ≤ evalsK.length)
    {res : K} (hx : executeCode extK (ctxConstraint mg nBits chalK evalsK (pubF.map (algebraMap F K))) code = some res) :
    (∃ σ : EvalSigs r, EvalsSat nBits qDeg base stmts out chal evals publics 1 σ) ↔ NativeEval nBits qDeg base chalK evalsK res := by
  have hok' : EvalsOk (2 ^ 50, 2 ^ 50) lit nCm nBits qDeg code code' stmts out := by
    obtain ⟨iv, i1, i2⟩ := hok.range
    have hpc := hok.pieces
    refine ⟨hok.nb0, hok.qd0, hok.dims, hok.three, hok.print, hok.lits, ⟨iv, ivals_mono (by norm_num) (by norm_num) i1, ?_⟩, ?_⟩
    · intro last hl p hp
      have := i2 last hl p hp
      dsimp only at this ⊢
      omega
    · dsimp only at hpc ⊢
      omega
  exact ⟨fun ⟨σ, h⟩ => onEvals_sound hr mg hmg hok' hc he hp hx one_ne_zero h, fun h => onEvals_complete hr mg hmg hok hn hc he hp h7 hlen hx (.inr h)⟩

/-! ### Example -/

/-- `tmp0 := eval1 - eval0`; `tmp1 := tmp0 * x + public0`; `tmp2 := tmp1 * 7` -/
noncomputable def exOn : List (VInstr K) :=
  [⟨.sub, { ty := .tmp, id := 0 }, [{ ty := .eval, id := 1 }, { ty := .eval, id := 0 }]⟩,
   ⟨.muladd, { ty := .tmp, id := 1 }, [{ ty := .tmp, id := 0 }, { ty := .x }, { ty := .public_, id := 0 }]⟩,
   ⟨.mul, { ty := .tmp, id := 2 }, [{ ty := .tmp, id := 1 }, { ty := .number, value := some (algebraMap F K 7) }]⟩]

theorem seven : (algebraMap F K 7) = algebraMap F K ((7 : ℤ) : F) := by norm_num

theorem exOn_ok (nCm : Nat → Nat) {n : Nat} (hn : n ≠ 0) : ∃ code' stmts out, EvalsOk (16, 48) (fun _ => (7 : ZMod r)) nCm n 1 exOn code' stmts out := by
  refine ⟨_, _, _, hn, by decide, rfl, ?_, rfl, ?_, ⟨_, rfl, ?_⟩, by decide⟩
  · intro last h
    obtain rfl := Option.some.inj h
    rfl
  · intro i hi x hx ht v hv
    simp only [exOn, List.mem_cons, List.not_mem_nil, or_false] at hi
    rcases hi with rfl | rfl | rfl <;> simp only [List.mem_cons, List.not_mem_nil, or_false] at hx
    · rcases hx with rfl | rfl <;> simp at ht
    · rcases hx with rfl | rfl | rfl <;> simp at ht
    · rcases hx with rfl | rfl
      · simp at ht
      · obtain rfl := Option.some.inj hv
        have hP : ((P : Nat) : ℤ) = 0xFFFFFFFF00000001 := rfl
        exact ⟨((7 : ℤ) : F), ⟨7, by rw [hP]; norm_num, by rw [hP]; norm_num, by norm_num, rfl⟩, seven.symm⟩
  · intro last h p hp
    obtain rfl := Option.some.inj h
    have hp : some (0, 2) = some p := hp
    obtain rfl := Option.some.inj hp
    decide

/-- non-vacuity of C120 and C121: all hypotheses hold of this program and of all openings, challenges and publics -/
example (mg : Nat → K) {n : Nat} (hn0 : n ≠ 0) (hmg : mg n ^ 2 ^ n = 1) (nCm : Nat → Nat) (c : Fin 8 → Fin 3 → F) (e : Fin 3 → Fin 3 → F) (p : F) :
    let K3 := fun x : Fin 3 → F => coord (x 0) (x 1) (x 2)
    let S := fun x : Fin 3 → F => ((canon (x 0), canon (x 1), canon (x 2)) : S3 Poseidon.blsMod)
    ∃ stmts out, (∃ σ, EvalsSat n 1 2 stmts out (List.ofFn fun i => S (c i)) [S (e 0), S (e 1), S (e 2)] [canon p] 1 σ) ↔
      NativeEval n 1 2 (List.ofFn fun i => K3 (c i)) [K3 (e 0), K3 (e 1), K3 (e 2)]
        (((K3 (e 1) - K3 (e 0)) * K3 (c 7) + algebraMap F K p) * algebraMap F K 7) := by
  intro K3 S
  obtain ⟨code', stmts, out, hok⟩ := exOn_ok (r := Poseidon.blsMod) nCm hn0
  have hS : ∀ x : Fin 3 → F, Lift3 Out (f3 (S x)) (K3 x) := fun x =>
    lift3_iff.mpr ⟨x 0, x 1, x 2, canon_out _, canon_out _, canon_out _, rfl⟩
  refine ⟨stmts, out, onEvals_iff (pubF := [p]) bls_large mg hmg hok (by decide) ?_ ?_ ?_ (by simp) (by simp) ?_⟩
  · rw [Reps3, List.forall₂_iff_get]
    refine ⟨by simp, fun i h1 h2 => ?_⟩
    rw [List.get_eq_getElem, List.get_eq_getElem, List.getElem_ofFn, List.getElem_ofFn]
    exact hS _
  · exact .cons (hS _) (.cons (hS _) (.cons (hS _) .nil))
  · exact .cons (canon_out p) .nil
  · simp [executeCode, exOn, vStep, getRef, vApply, ctxConstraint, Function.update]

/-- the sum of two scalars, the product of two scalars, and the product of two scalars plus three elements are printed in forms that do
not compile -/
example (lit : K → ZMod r) (nCm : Nat → Nat) : ∀ op ∈ [IOp.add, IOp.mul], unrollOne lit nCm
    ⟨op, { ty := .tmp, id := 0, dim := 1 }, [{ ty := .public_, id := 0, dim := 1 }, { ty := .public_, id := 1, dim := 1 }]⟩ = none := by
  intro op h
  simp only [List.mem_cons, List.not_mem_nil, or_false] at h
  rcases h with rfl | rfl <;> rfl

end Verif.Gadget.OnCode
