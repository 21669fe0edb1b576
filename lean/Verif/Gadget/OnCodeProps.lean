import Verif.Gadget.OnCode
import Verif.Circom.CodeProps

/-!
# C120: the printed programs of the on-chain circuit compute what the native verifier computes
-/
set_option linter.unusedSectionVars false

namespace Verif.Gadget.OnCode
open Verif.GL (F)
open Verif.Ext3 (K coord)
open Stark Codegen Circom

variable {r : Nat}

noncomputable local instance : DecidableEq K := Classical.decEq _

theorem RI.mono {lo hi lo' hi' : Nat} {s : ZMod r} {x : F} (h : RI lo hi s x) (h1 : lo ≤ lo') (h2 : hi ≤ hi') : RI lo' hi' s x := by
  obtain ⟨z, a, b, c, d⟩ := h
  have hP : ((P : Nat) : ℤ) = 0xFFFFFFFF00000001 := rfl
  rw [hP] at a b
  refine ⟨z, ?_, ?_, c, d⟩ <;> rw [hP] <;> omega

theorem out_RI {s : ZMod r} {x : F} (h : Out s x) : RI 0 2 s x := by
  obtain ⟨n, a, b, c⟩ := h
  have hP : ((P : Nat) : ℤ) = 0xFFFFFFFF00000001 := rfl
  refine ⟨(n : ℤ), ?_, ?_, by rw [b]; push_cast; rfl, by rw [← c]; push_cast; rfl⟩ <;> rw [hP] <;> omega

theorem RI.rep {lo hi : Nat} {s : ZMod r} {x : F} (h : RI lo hi s x) (h1 : lo ≤ 2 ^ 50) (h2 : hi ≤ 2 ^ 50) : Rep (2 ^ 120) s x := by
  obtain ⟨z, a, b, c, d⟩ := h
  have hP : ((P : Nat) : ℤ) = 0xFFFFFFFF00000001 := rfl
  rw [hP] at a b
  exact ⟨z, by rw [abs_le]; omega, c, d⟩

theorem RI.near {lo hi : Nat} {s : ZMod r} {x : F} (h : RI lo hi s x) (h1 : lo ≤ 16) (h2 : hi ≤ 48) : Near s x := by
  obtain ⟨z, a, b, c, d⟩ := h
  have hP : ((P : Nat) : ℤ) = 0xFFFFFFFF00000001 := rfl
  rw [hP] at a b
  refine ⟨z, ?_, ?_, c, d⟩ <;> rw [hP] <;> omega

theorem RI.add {lo hi lo' hi' : Nat} {s t : ZMod r} {x y : F} (h : RI lo hi s x) (h' : RI lo' hi' t y) :
    RI (lo + lo') (hi + hi') (s + t) (x + y) := by
  obtain ⟨z, a, b, rfl, rfl⟩ := h
  obtain ⟨w, a', b', rfl, rfl⟩ := h'
  have hP : ((P : Nat) : ℤ) = 0xFFFFFFFF00000001 := rfl
  rw [hP] at a b a' b'
  refine ⟨z + w, ?_, ?_, by push_cast; rfl, by push_cast; rfl⟩ <;> rw [hP] <;> omega

theorem RI.sub {lo hi lo' hi' : Nat} {s t : ZMod r} {x y : F} (h : RI lo hi s x) (h' : RI lo' hi' t y) :
    RI (lo + hi') (hi + lo') (s - t) (x - y) := by
  obtain ⟨z, a, b, rfl, rfl⟩ := h
  obtain ⟨w, a', b', rfl, rfl⟩ := h'
  have hP : ((P : Nat) : ℤ) = 0xFFFFFFFF00000001 := rfl
  rw [hP] at a b a' b'
  refine ⟨z - w, ?_, ?_, by push_cast; rfl, by push_cast; rfl⟩ <;> rw [hP] <;> omega

theorem RI.subp {lo hi lo' hi' : Nat} {s t : ZMod r} {x y : F} (h : RI lo hi s x) (h' : RI lo' hi' t y) :
    RI (lo + (hi' - 1)) (hi + lo' + 1) (s - t + (P : ZMod r)) (x - y) := by
  obtain ⟨z, a, b, rfl, rfl⟩ := h
  obtain ⟨w, a', b', rfl, rfl⟩ := h'
  have hP : ((P : Nat) : ℤ) = 0xFFFFFFFF00000001 := rfl
  have e : ((z - w + (P : ℤ) : ℤ) : F) = (z : F) - (w : F) := by push_cast; rw [gl_cast_P, add_zero]
  rw [hP] at a b a' b'
  refine ⟨z - w + (P : ℤ), ?_, ?_, by push_cast; rfl, e⟩ <;> rw [hP] <;> omega

theorem RI.negp {lo hi : Nat} {t : ZMod r} {y : F} (h' : RI lo hi t y) : RI (hi - 1) (lo + 2) (-t + (P : ZMod r)) (-y) := by
  obtain ⟨w, a', b', rfl, rfl⟩ := h'
  have hP : ((P : Nat) : ℤ) = 0xFFFFFFFF00000001 := rfl
  have e : ((-w + (P : ℤ) : ℤ) : F) = - (w : F) := by push_cast; rw [gl_cast_P, add_zero]
  rw [hP] at a' b'
  refine ⟨-w + (P : ℤ), ?_, ?_, by push_cast; rfl, e⟩ <;> rw [hP] <;> omega

theorem coord_base' (a : F) : coord a 0 0 = algebraMap F K a := by simp [coord]
theorem coord_add' (a b c x y z : F) : coord (a + x) (b + y) (c + z) = coord a b c + coord x y z := by
  simp only [coord, map_add]; ring
theorem coord_sub' (a b c x y z : F) : coord (a - x) (b - y) (c - z) = coord a b c - coord x y z := by
  simp only [coord, map_sub]; ring
theorem coord_addl (a x y z : F) : coord (a + x) y z = algebraMap F K a + coord x y z := by simp only [coord, map_add]; ring
theorem coord_addr (a b c x : F) : coord (a + x) b c = coord a b c + algebraMap F K x := by simp only [coord, map_add]; ring
theorem coord_subl (a x y z : F) : coord (a - x) (-y) (-z) = algebraMap F K a - coord x y z := by
  simp only [coord, map_sub, map_neg]; ring
theorem coord_subr (a b c x : F) : coord (a - x) b c = coord a b c - algebraMap F K x := by simp only [coord, map_sub]; ring

theorem lift3_iff {R : ZMod r → F → Prop} {a b c : ZMod r} {v : K} :
    Lift3 R ![a, b, c] v ↔ ∃ x y z : F, R a x ∧ R b y ∧ R c z ∧ coord x y z = v := by
  constructor
  · rintro ⟨f, h, e⟩
    exact ⟨f 0, f 1, f 2, h 0, h 1, h 2, e⟩
  · rintro ⟨x, y, z, h1, h2, h3, e⟩
    refine ⟨![x, y, z], fun i => ?_, e⟩
    fin_cases i
    · exact h1
    · exact h2
    · exact h3

theorem lift3_mono {R R' : ZMod r → F → Prop} (h : ∀ s x, R s x → R' s x) {f : Fin 3 → ZMod r} {v : K} (hf : Lift3 R f v) : Lift3 R' f v := by
  obtain ⟨c, h1, h2⟩ := hf
  exact ⟨c, fun e => h _ _ (h1 e), h2⟩

/-- the three elements of a value, padded -/
def tri : Val (ZMod r) → ZMod r × ZMod r × ZMod r
  | .one g => (g, 0, 0)
  | .three a b c => (a, b, c)

theorem tri_lift {R : ZMod r → F → Prop} (h0 : R 0 0) {lo hi : Nat} (h : ∀ s x, RI lo hi s x → R s x) {w : Val (ZMod r)} {v : K}
    (hw : RV lo hi w v) : Lift3 R (f3 (tri w)) v := by
  cases w with
  | one g =>
    obtain ⟨x, h1, rfl⟩ := hw
    exact lift3_iff.mpr ⟨x, 0, 0, h _ _ h1, h0, h0, coord_base' x⟩
  | three a b c => exact lift3_mono h hw

theorem tri_rep {lo hi : Nat} (h1 : lo ≤ 2 ^ 50) (h2 : hi ≤ 2 ^ 50) {w : Val (ZMod r)} {v : K} (hw : RV lo hi w v) :
    Lift3 (Rep (2 ^ 120)) (f3 (tri w)) v :=
  tri_lift ⟨0, by simp, by simp, by simp⟩ (fun _ _ h => h.rep h1 h2) hw

theorem tri_near {lo hi : Nat} (h1 : lo ≤ 16) (h2 : hi ≤ 48) {w : Val (ZMod r)} {v : K} (hw : RV lo hi w v) :
    Lift3 Near (f3 (tri w)) v :=
  tri_lift ⟨0, by decide, by decide, by simp, by simp⟩ (fun _ _ h => h.near h1 h2) hw

theorem evalArg_tri {env : Env (ZMod r)} {s : Sig (ZMod r)} {w : Val (ZMod r)} (h : look env s = some w) :
    evalArg env (argOf w.size s) = some (tri w) := by
  cases w <;> simp [argOf, Val.size, evalArg, h, tri]

theorem rv_of_out {f : Fin 3 → ZMod r} {v : K} (h : Lift3 Out f v) : RV 0 2 (.three (f 0) (f 1) (f 2)) v := by
  obtain ⟨c, h1, h2⟩ := h
  exact lift3_iff.mpr ⟨c 0, c 1, c 2, out_RI (h1 0), out_RI (h1 1), out_RI (h1 2), h2⟩

theorem evalS_pE {env : Env (ZMod r)} : evalS env pE = some (P : ZMod r) := rfl

theorem vec3 (f : Fin 3 → ZMod r) : ![f 0, f 1, f 2] = f := by
  funext i; fin_cases i <;> rfl

/-- `GLMulAdd` with a third input between 0 and 48 p -/
theorem glMulAdd_total [Fact r.Prime] (hr : 2 ^ 250 < r) {a b c : ZMod r} {x y z : F} (ha : Near a x) (hb : Near b y) (hc : RI 0 48 c z) :
    ∃ o, GLMulAdd a b c o := by
  obtain ⟨u, hu0, hu, e, rfl⟩ := near_shift ha
  obtain ⟨v, hv0, hv, f, rfl⟩ := near_shift hb
  obtain ⟨w, hw0, hw, rfl, rfl⟩ := hc
  have e1 : ((u : ZMod r)) * (v : ZMod r) + (w : ZMod r) = ((u * v + w : ℤ) : ZMod r) := by push_cast; rfl
  have hw0 : 0 ≤ w := by simpa using hw0
  have := wit_red (r := r) (nb := 80) hr (by omega) (m := u * v + w) (add_nonneg (mul_nonneg hu0 hv0) hw0) (by
    calc u * v + w ≤ 64 * (P : ℤ) * (64 * (P : ℤ)) + 48 * (P : ℤ) := add_le_add (mul_le_mul hu.le hv.le hv0 (by positivity)) (by exact_mod_cast hw.le)
      _ < 2 ^ 80 * (P : ℤ) := by decide)
  refine ⟨oWit ((u * v + w : ℤ) : ZMod r), _, kWit ((u * v + w : ℤ) : ZMod r), rfl, ?_⟩
  rw [e, f, e1]
  exact this.1

variable {lit : K → ZMod r} {nCm : Nat → Nat} {ctx : VCtx F K}

/-- an operand as both sides see it -/
structure Opd (lit : K → ZMod r) (nCm : Nat → Nat) (env : Env (ZMod r)) (td : Nat → Option Nat) (iv : Nat → Option (Nat × Nat))
    (x : VNode K) (v : K) (s : Sig (ZMod r)) (w : Val (ZMod r)) (p : Nat × Nat) : Prop where
  dim : getDim td x = some (w.size, { x with dim := w.size })
  ref_ : ref lit nCm x = some s
  look_ : look env s = some w
  iv_ : ivRef iv x = some p
  val : RV p.1 p.2 w v

theorem size_cases (w : Val (ZMod r)) : w.size = 1 ∨ w.size = 3 := by cases w <;> simp [Val.size]

/-- one instruction: what a satisfied statement says, and that it can be satisfied -/
theorem step_core [Fact r.Prime] (hr : 2 ^ 250 < r) {lim : Nat × Nat} (hl : lim.1 ≤ 2 ^ 50 ∧ lim.2 ≤ 2 ^ 50) {env : Env (ZMod r)}
    {td : Nat → Option Nat} {iv : Nat → Option (Nat × Nat)} {i : VInstr K} (hd : i.dest.ty = .tmp) {vals : List K} {v : K}
    (hsrc : List.Forall₂ (fun x v => ∃ s w p, Opd lit nCm env td iv x v s w p) i.src vals) (hv : vApply i.op vals = some v) :
    ∃ d src', opDims td i.op i.src = some (d, src') ∧ ∀ x stmt, ivOne lim iv ⟨i.op, { i.dest with dim := d }, src'⟩ = some x →
      unrollOne lit nCm ⟨i.op, { i.dest with dim := d }, src'⟩ = some stmt → stmt.dest = .tmp i.dest.id ∧
      (∀ w, RhsRel env stmt.rhs w → w.size = d ∧ RV x.1 x.2 w v) ∧
      (lim.1 ≤ 16 → lim.2 ≤ 48 → ∃ w, RhsRel env stmt.rhs w ∧ w.isThree = stmt.three) := by
  obtain ⟨op, dest, src⟩ := i
  have hd' : ∀ d, ref lit nCm { dest with dim := d } = some (.tmp dest.id) := fun d => by
    rw [ref_dim, ref]
    rw [show dest.ty = .tmp from hd]
  dsimp only at hsrc hv ⊢
  cases op with
  | add =>
    cases hsrc with
    | nil => simp [vApply] at hv
    | @cons a x _ _ ha hsrc =>
    cases hsrc with
    | nil => simp [vApply] at hv
    | @cons b y _ _ hb hsrc =>
    obtain ⟨sa, wa, pa, ha⟩ := ha
    obtain ⟨sb, wb, pb, hb⟩ := hb
    have hv : x + y = v := by simpa [vApply] using hv
    subst hv
    refine ⟨_, _, by simp only [opDims, ha.dim, hb.dim, Option.bind_some, Option.map_some]; exact rfl, ?_⟩
    intro x' stmt hx hst
    have ra : ∀ d, ref lit nCm { a with dim := d } = some sa := fun d => ha.ref_
    have rb : ∀ d, ref lit nCm { b with dim := d } = some sb := fun d => hb.ref_
    have ia : ∀ d, ivRef iv { a with dim := d } = some pa := fun d => ha.iv_
    have ib : ∀ d, ivRef iv { b with dim := d } = some pb := fun d => hb.iv_
    have la := ha.look_
    have lb := hb.look_
    have va := ha.val
    have vb := hb.val
    simp only [ivOne, ia, ib, Option.bind_some, Option.map_some, Option.some.injEq] at hx
    subst hx
    simp only [unrollOne, hd', ra, rb, Option.bind_some] at hst
    rcases wa with a1 | ⟨a1, a2, a3⟩ <;> rcases wb with b1 | ⟨b1, b2, b3⟩
    · simp [Val.size] at hst
    · simp [Val.size] at hst
      subst hst
      refine ⟨rfl, fun w hw => ?_, fun _ _ => ⟨.three (a1 + b1) b2 b3, by simp [RhsRel, evalS, la, lb], rfl⟩⟩
      cases w with
      | one g => exact hw.elim
      | three c1 c2 c3 =>
        simp [RhsRel, evalS, la, lb] at hw
        obtain ⟨rfl, rfl, rfl⟩ := hw
        refine ⟨rfl, ?_⟩
        obtain ⟨u, hu, rfl⟩ := va
        obtain ⟨v1, v2, v3, h1, h2, h3, rfl⟩ := lift3_iff.mp vb
        exact lift3_iff.mpr ⟨u + v1, v2, v3, hu.add h1, h2.mono (by omega) (by omega), h3.mono (by omega) (by omega), coord_addl _ _ _ _⟩
    · simp [Val.size] at hst
      subst hst
      refine ⟨rfl, fun w hw => ?_, fun _ _ => ⟨.three (a1 + b1) a2 a3, by simp [RhsRel, evalS, la, lb], rfl⟩⟩
      cases w with
      | one g => exact hw.elim
      | three c1 c2 c3 =>
        simp [RhsRel, evalS, la, lb] at hw
        obtain ⟨rfl, rfl, rfl⟩ := hw
        refine ⟨rfl, ?_⟩
        obtain ⟨u, hu, rfl⟩ := vb
        obtain ⟨v1, v2, v3, h1, h2, h3, rfl⟩ := lift3_iff.mp va
        exact lift3_iff.mpr ⟨v1 + u, v2, v3, h1.add hu, h2.mono (by omega) (by omega), h3.mono (by omega) (by omega), coord_addr _ _ _ _⟩
    · simp [Val.size] at hst
      subst hst
      refine ⟨rfl, fun w hw => ?_, fun _ _ => ⟨.three (a1 + b1) (a2 + b2) (a3 + b3), by simp [RhsRel, evalS, la, lb], rfl⟩⟩
      cases w with
      | one g => exact hw.elim
      | three c1 c2 c3 =>
        simp [RhsRel, evalS, la, lb] at hw
        obtain ⟨rfl, rfl, rfl⟩ := hw
        refine ⟨rfl, ?_⟩
        obtain ⟨u1, u2, u3, g1, g2, g3, rfl⟩ := lift3_iff.mp va
        obtain ⟨v1, v2, v3, h1, h2, h3, rfl⟩ := lift3_iff.mp vb
        exact lift3_iff.mpr ⟨u1 + v1, u2 + v2, u3 + v3, g1.add h1, g2.add h2, g3.add h3, coord_add' _ _ _ _ _ _⟩
  | sub =>
    cases hsrc with
    | nil => simp [vApply] at hv
    | @cons a x _ _ ha hsrc =>
    cases hsrc with
    | nil => simp [vApply] at hv
    | @cons b y _ _ hb hsrc =>
    obtain ⟨sa, wa, pa, ha⟩ := ha
    obtain ⟨sb, wb, pb, hb⟩ := hb
    have hv : x - y = v := by simpa [vApply] using hv
    subst hv
    refine ⟨_, _, by simp only [opDims, ha.dim, hb.dim, Option.bind_some, Option.map_some]; exact rfl, ?_⟩
    intro x' stmt hx hst
    have ra : ∀ d, ref lit nCm { a with dim := d } = some sa := fun d => ha.ref_
    have rb : ∀ d, ref lit nCm { b with dim := d } = some sb := fun d => hb.ref_
    have ia : ∀ d, ivRef iv { a with dim := d } = some pa := fun d => ha.iv_
    have ib : ∀ d, ivRef iv { b with dim := d } = some pb := fun d => hb.iv_
    have la := ha.look_
    have lb := hb.look_
    have va := ha.val
    have vb := hb.val
    simp only [ivOne, ia, ib, Option.bind_some, Option.map_some, Option.some.injEq] at hx
    subst hx
    simp only [unrollOne, hd', ra, rb, Option.bind_some] at hst
    rcases wa with a1 | ⟨a1, a2, a3⟩ <;> rcases wb with b1 | ⟨b1, b2, b3⟩
    · simp [Val.size] at hst
      subst hst
      refine ⟨rfl, fun w hw => ?_, fun _ _ => ⟨.one (a1 - b1), by simp [RhsRel, evalS, la, lb], rfl⟩⟩
      cases w with
      | three c1 c2 c3 => exact hw.elim
      | one g =>
        simp [RhsRel, evalS, la, lb] at hw
        subst hw
        refine ⟨rfl, ?_⟩
        obtain ⟨u, hu, rfl⟩ := va
        obtain ⟨u', hu', rfl⟩ := vb
        simp only [Val.size, and_self, if_true]
        exact ⟨u - u', hu.sub hu', map_sub _ _ _⟩
    · simp [Val.size] at hst
      subst hst
      refine ⟨rfl, fun w hw => ?_, fun _ _ => ⟨.three (a1 - b1 + (P : ZMod r)) (-b2 + (P : ZMod r)) (-b3 + (P : ZMod r)), by simp [RhsRel, evalS, evalS_pE, la, lb], rfl⟩⟩
      cases w with
      | one g => exact hw.elim
      | three c1 c2 c3 =>
        simp [RhsRel, evalS, evalS_pE, la, lb] at hw
        obtain ⟨rfl, rfl, rfl⟩ := hw
        refine ⟨rfl, ?_⟩
        obtain ⟨u, hu, rfl⟩ := va
        obtain ⟨v1, v2, v3, h1, h2, h3, rfl⟩ := lift3_iff.mp vb
        simp [Val.size]
        exact lift3_iff.mpr ⟨u - v1, -v2, -v3, (hu.subp h1).mono (by omega) (by omega), h2.negp.mono (by omega) (by omega), h3.negp.mono (by omega) (by omega), coord_subl _ _ _ _⟩
    · simp [Val.size] at hst
      subst hst
      refine ⟨rfl, fun w hw => ?_, fun _ _ => ⟨.three (a1 - b1 + (P : ZMod r)) a2 a3, by simp [RhsRel, evalS, evalS_pE, la, lb], rfl⟩⟩
      cases w with
      | one g => exact hw.elim
      | three c1 c2 c3 =>
        simp [RhsRel, evalS, evalS_pE, la, lb] at hw
        obtain ⟨rfl, rfl, rfl⟩ := hw
        refine ⟨rfl, ?_⟩
        obtain ⟨u, hu, rfl⟩ := vb
        obtain ⟨v1, v2, v3, h1, h2, h3, rfl⟩ := lift3_iff.mp va
        simp [Val.size]
        exact lift3_iff.mpr ⟨v1 - u, v2, v3, (h1.subp hu).mono (by omega) (by omega), h2.mono (by omega) (by omega), h3.mono (by omega) (by omega), coord_subr _ _ _ _⟩
    · simp [Val.size] at hst
      subst hst
      refine ⟨rfl, fun w hw => ?_, fun _ _ => ⟨.three (a1 - b1 + (P : ZMod r)) (a2 - b2 + (P : ZMod r)) (a3 - b3 + (P : ZMod r)), by simp [RhsRel, evalS, evalS_pE, la, lb], rfl⟩⟩
      cases w with
      | one g => exact hw.elim
      | three c1 c2 c3 =>
        simp [RhsRel, evalS, evalS_pE, la, lb] at hw
        obtain ⟨rfl, rfl, rfl⟩ := hw
        refine ⟨rfl, ?_⟩
        obtain ⟨u1, u2, u3, g1, g2, g3, rfl⟩ := lift3_iff.mp va
        obtain ⟨v1, v2, v3, h1, h2, h3, rfl⟩ := lift3_iff.mp vb
        simp [Val.size]
        exact lift3_iff.mpr ⟨u1 - v1, u2 - v2, u3 - v3, (g1.subp h1).mono (by omega) (by omega), (g2.subp h2).mono (by omega) (by omega), (g3.subp h3).mono (by omega) (by omega), coord_sub' _ _ _ _ _ _⟩
  | mul =>
    cases hsrc with
    | nil => simp [vApply] at hv
    | @cons a x _ _ ha hsrc =>
    cases hsrc with
    | nil => simp [vApply] at hv
    | @cons b y _ _ hb hsrc =>
    obtain ⟨sa, wa, pa, ha⟩ := ha
    obtain ⟨sb, wb, pb, hb⟩ := hb
    have hv : x * y = v := by simpa [vApply] using hv
    subst hv
    refine ⟨_, _, by simp only [opDims, ha.dim, hb.dim, Option.bind_some, Option.map_some]; exact rfl, ?_⟩
    intro x' stmt hx hst
    have ra : ∀ d, ref lit nCm { a with dim := d } = some sa := fun d => ha.ref_
    have rb : ∀ d, ref lit nCm { b with dim := d } = some sb := fun d => hb.ref_
    have ia : ∀ d, ivRef iv { a with dim := d } = some pa := fun d => ha.iv_
    have ib : ∀ d, ivRef iv { b with dim := d } = some pb := fun d => hb.iv_
    have la := evalArg_tri ha.look_
    have lb := evalArg_tri hb.look_
    have va := ha.val
    have vb := hb.val
    simp only [ivOne, ia, ib, Option.bind_some] at hx
    split_ifs at hx with hlim
    obtain rfl := Option.some.inj hx
    obtain ⟨l1, l2, l3, l4⟩ := hlim
    simp only [unrollOne, hd', ra, rb, Option.bind_some] at hst
    split_ifs at hst with c1 c2
    obtain rfl := Option.some.inj hst
    have hmax : max wa.size wb.size = 3 := by
      rcases size_cases wa with h | h <;> rcases size_cases wb with h' | h' <;> simp [h, h'] at c1 ⊢
    refine ⟨rfl, fun w hw => ?_, fun h1 h2 => ?_⟩
    · cases w with
      | one g => exact hw.elim
      | three d1 d2 d3 =>
        obtain ⟨u, v, e1, e2, e3⟩ := hw
        rw [la] at e1
        rw [lb] at e2
        obtain rfl := Option.some.inj e1
        obtain rfl := Option.some.inj e2
        exact ⟨hmax.symm, rv_of_out (glCMul_sound hr (tri_rep (by omega) (by omega) va) (tri_rep (by omega) (by omega) vb) e3)⟩
    · obtain ⟨e1, -⟩ := glCMul_complete hr (tri_near (by omega) (by omega) va) (tri_near (by omega) (by omega) vb)
      generalize (fun e => oWit (kara (f3 (tri wa)) (f3 (tri wb)) e)) = o at e1
      exact ⟨.three (o 0) (o 1) (o 2), ⟨_, _, la, lb, by rw [vec3]; exact e1⟩, rfl⟩
  | copy =>
    cases hsrc with
    | nil => simp [vApply] at hv
    | @cons a x _ _ ha hsrc =>
    obtain ⟨sa, wa, pa, ha⟩ := ha
    have hv : x = v := by simpa [vApply] using hv
    subst hv
    refine ⟨_, _, by simp only [opDims, ha.dim, Option.map_some]; exact rfl, ?_⟩
    intro x' stmt hx hst
    have ra : ∀ d, ref lit nCm { a with dim := d } = some sa := fun d => ha.ref_
    have ia : ∀ d, ivRef iv { a with dim := d } = some pa := fun d => ha.iv_
    have la := ha.look_
    have va := ha.val
    simp only [ivOne, ia, Option.some.injEq] at hx
    subst hx
    simp only [unrollOne, hd', ra, Option.bind_some] at hst
    rcases wa with a1 | ⟨a1, a2, a3⟩
    · simp [Val.size] at hst
      subst hst
      refine ⟨rfl, fun w hw => ?_, fun _ _ => ⟨.one a1, by simp [RhsRel, evalS, la], rfl⟩⟩
      cases w with
      | three c1 c2 c3 => exact hw.elim
      | one g =>
        simp [RhsRel, evalS, la] at hw
        subst hw
        exact ⟨rfl, va⟩
    · simp [Val.size] at hst
      subst hst
      refine ⟨rfl, fun w hw => ?_, fun _ _ => ⟨.three a1 a2 a3, by simp [RhsRel, la], rfl⟩⟩
      cases w with
      | one g => exact hw.elim
      | three c1 c2 c3 =>
        simp [RhsRel, la] at hw
        obtain ⟨rfl, rfl, rfl⟩ := hw
        exact ⟨rfl, va⟩
  | muladd =>
    cases hsrc with
    | nil => simp [vApply] at hv
    | @cons a x _ _ ha hsrc =>
    cases hsrc with
    | nil => simp [vApply] at hv
    | @cons b y _ _ hb hsrc =>
    cases hsrc with
    | nil => simp [vApply] at hv
    | @cons c z _ _ hc hsrc =>
    obtain ⟨sa, wa, pa, ha⟩ := ha
    obtain ⟨sb, wb, pb, hb⟩ := hb
    obtain ⟨sc, wc, pc, hc⟩ := hc
    have hv : x * y + z = v := by simpa [vApply] using hv
    subst hv
    refine ⟨_, _, by simp only [opDims, ha.dim, hb.dim, hc.dim, Option.bind_some, Option.map_some]; exact rfl, ?_⟩
    intro x' stmt hx hst
    have ra : ∀ d, ref lit nCm { a with dim := d } = some sa := fun d => ha.ref_
    have rb : ∀ d, ref lit nCm { b with dim := d } = some sb := fun d => hb.ref_
    have rc : ∀ d, ref lit nCm { c with dim := d } = some sc := fun d => hc.ref_
    have ia : ∀ d, ivRef iv { a with dim := d } = some pa := fun d => ha.iv_
    have ib : ∀ d, ivRef iv { b with dim := d } = some pb := fun d => hb.iv_
    have ic : ∀ d, ivRef iv { c with dim := d } = some pc := fun d => hc.iv_
    have va := ha.val
    have vb := hb.val
    have vc := hc.val
    simp only [ivOne, ia, ib, ic, Option.bind_some] at hx
    split_ifs at hx with hlim
    obtain rfl := Option.some.inj hx
    obtain ⟨l1, l2, l3, l4, l5, l6, l7⟩ := hlim
    simp only [unrollOne, hd', ra, rb, rc, Option.bind_some] at hst
    split_ifs at hst with c1 c2
    · obtain rfl := Option.some.inj hst
      have la := ha.look_
      have lb := hb.look_
      have lc := hc.look_
      rcases wa with a1 | ⟨a1, a2, a3⟩ <;> rcases wb with b1 | ⟨b1, b2, b3⟩ <;> rcases wc with d1 | ⟨d1, d2, d3⟩ <;> simp [Val.size] at c1 c2
      obtain ⟨u, hu, rfl⟩ := va
      obtain ⟨u', hu', rfl⟩ := vb
      obtain ⟨u'', hu'', rfl⟩ := vc
      refine ⟨rfl, fun w hw => ?_, fun h1 h2 => ?_⟩
      · cases w with
        | three c1 c2 c3 => exact hw.elim
        | one g =>
          obtain ⟨v1, v2, v3, e1, e2, e3, e4⟩ := hw
          rw [la] at e1
          rw [lb] at e2
          rw [lc] at e3
          simp at e1 e2 e3
          subst e1 e2 e3
          refine ⟨rfl, _, out_RI (glMulAdd_sound hr (hu.rep (by omega) (by omega)) (hu'.rep (by omega) (by omega))
            (hu''.rep (by omega) (by omega)) e4), by rw [map_add, map_mul]⟩
      · obtain ⟨o, ho⟩ := glMulAdd_total hr (hu.near (by omega) (by omega)) (hu'.near (by omega) (by omega))
          (hu''.mono (lo' := 0) (hi' := 48) (l7 ⟨rfl, rfl⟩).le (by omega))
        exact ⟨.one o, ⟨_, _, _, la, lb, lc, ho⟩, rfl⟩
    · obtain rfl := Option.some.inj hst
      have la := evalArg_tri ha.look_
      have lb := evalArg_tri hb.look_
      have lc := evalArg_tri hc.look_
      have hmax : max (max wa.size wb.size) wc.size = 3 := by
        rcases size_cases wa with h | h <;> rcases size_cases wb with h' | h' <;> rcases size_cases wc with h'' | h'' <;> simp [h, h', h''] at c1 ⊢
      refine ⟨rfl, fun w hw => ?_, fun h1 h2 => ?_⟩
      · cases w with
        | one g => exact hw.elim
        | three d1 d2 d3 =>
          obtain ⟨u, v, w, e1, e2, e3, e4⟩ := hw
          rw [la] at e1
          rw [lb] at e2
          rw [lc] at e3
          obtain rfl := Option.some.inj e1
          obtain rfl := Option.some.inj e2
          obtain rfl := Option.some.inj e3
          exact ⟨hmax.symm, rv_of_out (glCMulAdd_sound hr (tri_rep (by omega) (by omega) va) (tri_rep (by omega) (by omega) vb)
            (tri_rep (by omega) (by omega) vc) e4)⟩
      · obtain ⟨e1, -⟩ := glCMulAdd_complete hr (tri_near (by omega) (by omega) va) (tri_near (by omega) (by omega) vb)
          (tri_near (by omega) (by omega) vc)
        generalize (fun e => oWit (kara (f3 (tri wa)) (f3 (tri wb)) e + f3 (tri wc) e + 16 * (P : ZMod r))) = o at e1
        exact ⟨.three (o 0) (o 1) (o 2), ⟨_, _, _, la, lb, lc, by rw [vec3]; exact e1⟩, rfl⟩

end Verif.Gadget.OnCode
