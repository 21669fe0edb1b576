import Verif.F3G.Lemmas

/-!
# Properties C09-C12 of the cubic extension (`/repo/starky/src/f3g.rs`)

Specification: the ring `K = F_p[x]/(x^3-x-1)` (`AdjoinRoot poly`), and the denotation `val` of a value by its
three coefficients.
-/
namespace Verif.Ext3
open Verif.GL (F MODULUS)

/-- The element of `F_p[x]/(x^3-x-1)` that a value stands for. -/
noncomputable def val (a : F3G) : K := coord a.c0 a.c1 a.c2

/-- Result dimension required by C09: 1 only if both operands have dimension 1. -/
def joinDim (a b : F3G) : Nat := if a.dim = 1 ∧ b.dim = 1 then 1 else 3

theorem val_inj {a b : F3G} (hd : a.dim = b.dim) (h : val a = val b) : a = b := by
  obtain ⟨h0, h1, h2⟩ := coord_inj h
  exact F3G.ext h0 h1 h2 hd

theorem val_surj (k : K) : ∃ a : F3G, a.dim = 3 ∧ val a = k := by
  obtain ⟨a, b, c, h⟩ := coord_surj k
  exact ⟨⟨a, b, c, 3⟩, rfl, h.symm⟩

private theorem wf3 (a b c : F) : WF ⟨a, b, c, 3⟩ := Or.inl rfl
private theorem wf1 (a : F) : WF ⟨a, 0, 0, 1⟩ := Or.inr ⟨rfl, rfl, rfl⟩

private theorem wf_cases {a : F3G} (h : WF a) :
    (∃ x y z, a = ⟨x, y, z, 3⟩) ∨ (∃ x, a = ⟨x, 0, 0, 1⟩) := by
  obtain ⟨x, y, z, d⟩ := a
  rcases h with h | ⟨h, h1, h2⟩
  · left; exact ⟨x, y, z, by simp_all⟩
  · right; exact ⟨x, by simp_all⟩

/-! ## C09 -/

/-- C09: addition is that of `F_p[x]/(x^3-x-1)` for every mixture of dimensions. -/
theorem add_spec {a b : F3G} (ha : WF a) (hb : WF b) :
    ∃ r, add a b = some r ∧ WF r ∧ r.dim = joinDim a b ∧ val r = val a + val b := by
  rcases wf_cases ha with ⟨x, y, z, rfl⟩ | ⟨x, rfl⟩ <;> rcases wf_cases hb with ⟨u, v, w, rfl⟩ | ⟨u, rfl⟩
  · exact ⟨_, rfl, wf3 _ _ _, rfl, by simp [val, coord]; ring⟩
  · exact ⟨_, rfl, wf3 _ _ _, rfl, by simp [val, coord, new]; ring⟩
  · exact ⟨_, rfl, wf3 _ _ _, rfl, by simp [val, coord, new]; ring⟩
  · exact ⟨_, rfl, wf1 _, rfl, by simp [val, coord, ofF]⟩

/-- C09: subtraction. -/
theorem sub_spec {a b : F3G} (ha : WF a) (hb : WF b) :
    ∃ r, sub a b = some r ∧ WF r ∧ r.dim = joinDim a b ∧ val r = val a - val b := by
  rcases wf_cases ha with ⟨x, y, z, rfl⟩ | ⟨x, rfl⟩ <;> rcases wf_cases hb with ⟨u, v, w, rfl⟩ | ⟨u, rfl⟩
  · exact ⟨_, rfl, wf3 _ _ _, rfl, by simp [val, coord]; ring⟩
  · exact ⟨_, rfl, wf3 _ _ _, rfl, by simp [val, coord, new]; ring⟩
  · exact ⟨_, rfl, wf3 _ _ _, rfl, by simp [val, coord, new]; ring⟩
  · exact ⟨_, rfl, wf1 _, rfl, by simp [val, coord, ofF]⟩

/-- C09: negation. -/
theorem neg_spec {a : F3G} (ha : WF a) :
    ∃ r, neg a = some r ∧ WF r ∧ r.dim = a.dim ∧ val r = - val a := by
  rcases wf_cases ha with ⟨x, y, z, rfl⟩ | ⟨x, rfl⟩
  · exact ⟨_, rfl, wf3 _ _ _, rfl, by simp [val, coord]; ring⟩
  · exact ⟨_, rfl, wf1 _, rfl, by simp [val, coord, ofF]⟩

private theorem val_mul33 (a b : F3G) : val (mul33 a b) = val a * val b := by
  simp only [val, coord_mul, mul33]
  congr 1 <;> ring

/-- C09: multiplication (Karatsuba, mixed dimensions included). -/
theorem mul_spec {a b : F3G} (ha : WF a) (hb : WF b) :
    ∃ r, mul a b = some r ∧ WF r ∧ r.dim = joinDim a b ∧ val r = val a * val b := by
  rcases wf_cases ha with ⟨x, y, z, rfl⟩ | ⟨x, rfl⟩ <;> rcases wf_cases hb with ⟨u, v, w, rfl⟩ | ⟨u, rfl⟩
  · exact ⟨_, rfl, wf3 _ _ _, rfl, val_mul33 _ _⟩
  · exact ⟨_, rfl, wf3 _ _ _, rfl, by simp [val, coord, new]; ring⟩
  · exact ⟨_, rfl, wf3 _ _ _, rfl, by simp [val, coord, new]; ring⟩
  · exact ⟨_, rfl, wf1 _, rfl, by simp [val, coord, ofF]⟩

/-- C09: squaring. -/
theorem square_spec {a : F3G} (ha : WF a) :
    ∃ r, square a = some r ∧ WF r ∧ r.dim = a.dim ∧ val r = val a ^ 2 := by
  rcases wf_cases ha with ⟨x, y, z, rfl⟩ | ⟨x, rfl⟩
  · refine ⟨_, rfl, wf3 _ _ _, rfl, ?_⟩
    rw [pow_two]; exact val_mul33 ⟨x, y, z, 3⟩ ⟨x, y, z, 3⟩
  · exact ⟨_, rfl, wf1 _, rfl, by simp [val, coord]; ring⟩

/-- C09: doubling. -/
theorem double_spec {a : F3G} (ha : WF a) :
    ∃ r, double a = some r ∧ WF r ∧ r.dim = a.dim ∧ val r = 2 * val a := by
  obtain ⟨r, h1, h2, h3, h4⟩ := add_spec ha ha
  refine ⟨r, h1, h2, ?_, by rw [h4]; ring⟩
  rw [h3]; rcases ha with h | ⟨h, _⟩ <;> simp [joinDim, h]

/-- C09: multiplication by a base-field scalar. -/
theorem mulScalar_spec {a : F3G} (ha : WF a) (b : F) :
    ∃ r, mulScalar a b = some r ∧ WF r ∧ r.dim = a.dim ∧ val r = val a * algebraMap F K b := by
  rcases wf_cases ha with ⟨x, y, z, rfl⟩ | ⟨x, rfl⟩
  · exact ⟨_, rfl, wf3 _ _ _, rfl, by simp [val, coord, new]; ring⟩
  · exact ⟨_, rfl, wf1 _, rfl, by simp [val, coord, ofF]⟩

/-- C09: constants and embedding. -/
theorem const_spec (v : F) : val (ofF v) = algebraMap F K v ∧ val ZERO = 0 ∧ val ONE = 1 ∧ val ZEROS = 0 ∧ val ONES = 1
    ∧ WF (ofF v) ∧ WF ZERO ∧ WF ONE ∧ WF ZEROS ∧ WF ONES := by
  refine ⟨?_, ?_, ?_, ?_, ?_, wf1 _, wf1 _, wf1 _, wf3 _ _ _, wf3 _ _ _⟩ <;>
    simp [val, coord, ofF, ZERO, ONE, ZEROS, ONES]

/-- The WF hypothesis is met by every value the API constructs and is preserved by every operation. -/
example : WF (new 5 7 9) ∧ WF (ofF 3) ∧ (new 5 7 9).dim ≠ (ofF 3).dim := by decide +kernel
example : mul (new 1 2 3) (new 4 5 (-1)) = some (new 17 23 18) := by decide +kernel

/-! ## C10 -/

theorem val_eq_zero_iff {a : F3G} (ha : WF a) : isZero a = true ↔ val a = 0 := by
  have h0 : (0 : K) = coord 0 0 0 := by simp [coord]
  rw [val, h0]
  rcases wf_cases ha with ⟨x, y, z, rfl⟩ | ⟨x, rfl⟩
  · simp only [isZero, eq', ZEROS]
    constructor
    · intro h; obtain ⟨h1, h2, h3⟩ := of_decide_eq_true h
      simp_all
    · intro h; obtain ⟨h1, h2, h3⟩ := coord_inj h; simp_all
  · simp only [isZero, eq', ZERO]
    constructor
    · intro h; simp at h; subst h; rfl
    · intro h; obtain ⟨h1, _, _⟩ := coord_inj h; simp_all

private theorem inv3_spec (a : F3G) : val (inv3 a) = (val a)⁻¹ := by
  by_cases h : val a = 0
  · have h0 : (0 : K) = coord 0 0 0 := by simp [coord]
    have h' := h
    rw [val, h0] at h'
    obtain ⟨h1, h2, h3⟩ := coord_inj h'
    rw [h, inv_zero]
    simp [val, inv3, h1, h2, h3, coord]
  · apply eq_inv_of_mul_eq_one_right
    have hn := nrm_ne_zero h
    have ht : inv3 a = ⟨(-(a.c0*a.c0) - a.c0*a.c2 - a.c0*a.c2 + a.c1*a.c2 + a.c1*a.c1 - a.c2*a.c2) * (nrm a.c0 a.c1 a.c2)⁻¹,
        (a.c1*a.c0 - a.c2*a.c2) * (nrm a.c0 a.c1 a.c2)⁻¹,
        (-(a.c1*a.c1) + a.c0*a.c2 + a.c2*a.c2) * (nrm a.c0 a.c1 a.c2)⁻¹, 3⟩ := rfl
    rw [ht, val, val, coord_mul]
    have h2 : (1 : K) = coord 1 0 0 := by simp [coord]
    rw [h2]
    have hd : nrm a.c0 a.c1 a.c2 * (nrm a.c0 a.c1 a.c2)⁻¹ = 1 := mul_inv_cancel₀ hn
    generalize (nrm a.c0 a.c1 a.c2)⁻¹ = t at hd
    simp only [nrm] at hd
    congr 1
    · linear_combination hd
    · ring
    · ring

/-- C10: `inv` never panics on API values, returns the multiplicative inverse, and `inv 0 = 0`. -/
theorem inv_spec {a : F3G} (ha : WF a) :
    ∃ r, inv a = some r ∧ WF r ∧ r.dim = a.dim ∧ (val a ≠ 0 → val a * val r = 1) ∧ (val a = 0 → r = a) := by
  have key : ∃ r, inv a = some r ∧ WF r ∧ r.dim = a.dim ∧ val r = (val a)⁻¹ := by
    rcases wf_cases ha with ⟨x, y, z, rfl⟩ | ⟨x, rfl⟩
    · exact ⟨_, rfl, wf3 _ _ _, rfl, inv3_spec _⟩
    · refine ⟨_, rfl, wf1 _, rfl, ?_⟩
      simp [val, coord, ofF]
  obtain ⟨r, h1, h2, h3, h4⟩ := key
  refine ⟨r, h1, h2, h3, fun h => by rw [h4, mul_inv_cancel₀ h], fun h => ?_⟩
  rw [h, inv_zero] at h4
  exact val_inj h3 (by rw [h4, h])

/-- C10 at the API level: multiplying by the inverse gives one. -/
theorem mul_inv_spec {a : F3G} (ha : WF a) (hz : isZero a = false) :
    ∃ i r, inv a = some i ∧ mul a i = some r ∧ (r = ONE ∨ r = ONES) := by
  have hne : val a ≠ 0 := fun h => by rw [(val_eq_zero_iff ha).2 h] at hz; cases hz
  obtain ⟨i, hi, wi, di, hm, _⟩ := inv_spec ha
  obtain ⟨r, hr, wr, dr, vr⟩ := mul_spec ha wi
  refine ⟨i, r, hi, hr, ?_⟩
  rw [hm hne] at vr
  obtain ⟨_, _, h1, _, h1s, _⟩ := const_spec 0
  rcases wr with hd | ⟨hd, _⟩
  · right; exact val_inj hd (by rw [vr, h1s])
  · left; exact val_inj hd (by rw [vr, h1])

/-- C10: division. -/
theorem div_spec {a b : F3G} (ha : WF a) (hb : WF b) (hz : isZero b = false) :
    ∃ q r, div a b = some q ∧ mul q b = some r ∧ val r = val a ∧ val q * val b = val a := by
  have hne : val b ≠ 0 := fun h => by rw [(val_eq_zero_iff hb).2 h] at hz; cases hz
  obtain ⟨i, hi, wi, di, hm, _⟩ := inv_spec hb
  obtain ⟨q, hq, wq, dq, vq⟩ := mul_spec ha wi
  obtain ⟨r, hr, wr, dr, vr⟩ := mul_spec wq hb
  have : val q * val b = val a := by rw [vq]; linear_combination val a * hm hne
  exact ⟨q, r, by simp [div, hi, hq], hr, by rw [vr, this], this⟩

/-- C10: no zero divisors. -/
theorem no_zero_divisors {a b r : F3G} (ha : WF a) (hb : WF b) (h : mul a b = some r) (hr : isZero r = true) :
    isZero a = true ∨ isZero b = true := by
  obtain ⟨r', h', wr, _, vr⟩ := mul_spec ha hb
  rw [h] at h'; cases h'
  rw [(val_eq_zero_iff wr).1 hr] at vr
  rw [val_eq_zero_iff ha, val_eq_zero_iff hb]
  exact mul_eq_zero.1 vr.symm

example : WF (new 0 1 0) ∧ isZero (new 0 1 0) = false := by decide +kernel

/-! ## C11 -/

theorem bitsLE_fold (e : Nat) : (bitsLE e).foldr (fun b n => 2 * n + b.toNat) 0 = e := by
  induction e using Nat.strongRecOn with
  | ind e ih =>
    rw [bitsLE]
    split
    · next h => simp [h]
    · next h =>
      rw [List.foldr_cons, ih (e / 2) (by omega)]
      rcases Nat.mod_two_eq_zero_or_one e with h2 | h2 <;> simp [h2] <;> omega

theorem bitsLE_last {e : Nat} (h : e ≠ 0) : ∃ l, bitsLE e = l ++ [true] := by
  induction e using Nat.strongRecOn with
  | ind e ih =>
    rw [bitsLE, dif_neg h]
    by_cases h2 : e / 2 = 0
    · refine ⟨[], ?_⟩
      rw [h2, bitsLE, dif_pos rfl]
      have : e = 1 := by omega
      simp [this]
    · obtain ⟨l, hl⟩ := ih (e / 2) (by omega) h2
      exact ⟨(e % 2 == 1) :: l, by rw [hl]; rfl⟩

private theorem exp_fold {x : F3G} (hx : WF x) (l : List Bool) (r : F3G) (n : Nat) (hr : WF r) (hd : r.dim = x.dim)
    (hv : val r = val x ^ n) :
    ∃ r', l.foldl (expStep x) (some r) = some r' ∧ WF r' ∧ r'.dim = x.dim ∧
      val r' = val x ^ (l.foldl (fun n b => 2 * n + b.toNat) n) := by
  induction l generalizing r n with
  | nil => exact ⟨r, rfl, hr, hd, hv⟩
  | cons b l ih =>
    obtain ⟨s, hs, ws, ds, vs⟩ := square_spec hr
    cases b with
    | false =>
      have : expStep x (some r) false = some s := by simp [expStep, hs]
      rw [List.foldl_cons, this]
      exact ih s (2 * n) ws (by rw [ds, hd]) (by rw [vs, hv, ← pow_mul, mul_comm])
    | true =>
      obtain ⟨m, hm, wm, dm, vm⟩ := mul_spec ws hx
      have : expStep x (some r) true = some m := by simp [expStep, hs, hm]
      rw [List.foldl_cons, this]
      refine ih m (2 * n + 1) wm ?_ (by rw [vm, vs, hv, ← pow_mul, mul_comm n 2, pow_succ])
      rw [dm, joinDim, ds, hd]
      rcases hx with h | ⟨h, _⟩ <;> simp [h]

/-- C11: `exp` is the power for every exponent; the dimension is that of the base except that the
zeroth power is the dimension-1 constant. -/
theorem exp_spec {x : F3G} (hx : WF x) (e : Nat) :
    ∃ r, exp x e = some r ∧ WF r ∧ val r = val x ^ e ∧ r.dim = if e = 0 then 1 else x.dim := by
  by_cases he : e = 0
  · subst he
    refine ⟨ONE, rfl, (const_spec 0).2.2.2.2.2.2.2.1, ?_, rfl⟩
    simp [(const_spec 0).2.2.1]
  · obtain ⟨l, hl⟩ := bitsLE_last he
    have hb := bitsLE_fold e
    rw [hl] at hb
    obtain ⟨r, hr, wr, dr, vr⟩ := exp_fold hx l.reverse x 1 hx rfl (by simp)
    refine ⟨r, ?_, wr, ?_, by rw [if_neg he, dr]⟩
    · rw [exp, if_neg he, hl, List.dropLast_concat, hr]
    · rw [vr, List.foldl_reverse]
      congr 1
      rw [← hb, List.foldr_append]
      simp

example : exp (new 0 1 0) 5 = some (new 1 1 1) := by decide +kernel

/-! ## C12 -/

/-- The sequence of canonical integers of the significant coefficients, constant coefficient first. -/
def intCoeffs (a : F3G) : List Nat := ([a.c0, a.c1, a.c2].take a.dim).map ZMod.val

/-- C12: `gt` on equal dimensions is the strict lexicographic order of the canonical integers,
constant coefficient first; on different dimensions it panics. -/
theorem gt_spec {a b : F3G} (ha : WF a) (hb : WF b) :
    (a.dim ≠ b.dim → gt a b = none) ∧
    (a.dim = b.dim → gt a b = some (decide (intCoeffs b < intCoeffs a))) := by
  refine ⟨fun h => by simp [gt, h], fun h => ?_⟩
  have vi : ∀ x y : F, x = y ↔ x.val = y.val := fun x y => ⟨fun h => h ▸ rfl, fun h => ZMod.val_injective _ h⟩
  rcases wf_cases ha with ⟨x, y, z, rfl⟩ | ⟨x, rfl⟩ <;> rcases wf_cases hb with ⟨u, v, w, rfl⟩ | ⟨u, rfl⟩
  · simp only [gt, fgt, intCoeffs]
    simp only [List.take, List.map, List.cons_lt_cons_iff, vi]
    simp
    generalize x.val = x
    generalize y.val = y
    generalize z.val = z
    generalize u.val = u
    generalize v.val = v
    generalize w.val = w
    by_cases h1 : u < x <;> by_cases h2 : u = x <;> by_cases h3 : v < y <;> by_cases h4 : v = y <;> by_cases h5 : w < z <;>
      grind
  · simp at h
  · simp at h
  · simp [gt, fgt, intCoeffs, List.cons_lt_cons_iff]

/-- `_eq` is equality of the denoted ring elements, whatever the dimensions. -/
theorem eq_spec {a b : F3G} (ha : WF a) (hb : WF b) : eq' a b = true ↔ val a = val b := by
  have key : val a = val b ↔ a.c0 = b.c0 ∧ a.c1 = b.c1 ∧ a.c2 = b.c2 :=
    ⟨fun h => coord_inj h, fun ⟨h0, h1, h2⟩ => by simp [val, h0, h1, h2]⟩
  rw [key]
  rcases wf_cases ha with ⟨x, y, z, rfl⟩ | ⟨x, rfl⟩ <;> rcases wf_cases hb with ⟨u, v, w, rfl⟩ | ⟨u, rfl⟩
  · simp [eq']
  · simp [eq']
  · simp only [eq']; simp; grind
  · simp [eq']

theorem intCoeffs_inj {a b : F3G} (ha : WF a) (hb : WF b) (hd : a.dim = b.dim) (h : intCoeffs a = intCoeffs b) : a = b := by
  have vi : ∀ x y : F, x.val = y.val → x = y := fun x y h => ZMod.val_injective _ h
  rcases wf_cases ha with ⟨x, y, z, rfl⟩ | ⟨x, rfl⟩ <;> rcases wf_cases hb with ⟨u, v, w, rfl⟩ | ⟨u, rfl⟩
  · simp [intCoeffs] at h
    simp [vi _ _ h.1, vi _ _ h.2.1, vi _ _ h.2.2]
  · simp at hd
  · simp at hd
  · simp [intCoeffs] at h
    simp [vi _ _ h]

/-- C12: on equal dimensions all comparisons succeed and are the corresponding comparisons of the
coefficient sequences; hence exactly one of `lt`, `_eq`, `gt` holds and the order is total. -/
theorem cmp_spec {a b : F3G} (ha : WF a) (hb : WF b) (hd : a.dim = b.dim) :
    geq a b = some (decide (intCoeffs b ≤ intCoeffs a)) ∧
    lt a b = some (decide (intCoeffs a < intCoeffs b)) ∧
    leq a b = some (decide (intCoeffs a ≤ intCoeffs b)) ∧
    (eq' a b = true ↔ a = b) := by
  have he : eq' a b = true ↔ a = b := by
    rw [eq_spec ha hb]
    exact ⟨fun h => val_inj hd h, fun h => h ▸ rfl⟩
  have hg := (gt_spec ha hb).2 hd
  have hge : geq a b = some (decide (intCoeffs b ≤ intCoeffs a)) := by
    unfold geq
    split
    · next h => rw [he.1 h]; simp
    · next h =>
      rw [hg]
      have hne : intCoeffs a ≠ intCoeffs b := fun hc => h (he.2 (intCoeffs_inj ha hb hd hc))
      simp only [Option.some.injEq, decide_eq_decide]
      exact ⟨le_of_lt, fun h' => lt_of_le_of_ne h' (Ne.symm hne)⟩
  refine ⟨hge, ?_, ?_, he⟩
  · rw [lt, hge]; simp [← not_le]
  · rw [leq, hg, Option.map_some]; congr 1; rw [← decide_not]; exact decide_eq_decide.2 not_lt

/-- C12: trichotomy at the API level. -/
theorem trichotomy {a b : F3G} (ha : WF a) (hb : WF b) (hd : a.dim = b.dim) :
    (lt a b = some true ∧ eq' a b = false ∧ gt a b = some false) ∨
    (lt a b = some false ∧ eq' a b = true ∧ gt a b = some false) ∨
    (lt a b = some false ∧ eq' a b = false ∧ gt a b = some true) := by
  obtain ⟨h1, h2, h3, h4⟩ := cmp_spec ha hb hd
  have hg := (gt_spec ha hb).2 hd
  rw [h2, hg]
  rcases lt_trichotomy (intCoeffs a) (intCoeffs b) with h | h | h
  · left
    have : eq' a b = false := by
      rw [Bool.eq_false_iff]; intro hc; rw [h4.1 hc] at h; exact lt_irrefl _ h
    simp [h, this, lt_asymm h]
  · right; left
    rw [h4.2 (intCoeffs_inj ha hb hd h)]; simp [h]
  · right; right
    have : eq' a b = false := by
      rw [Bool.eq_false_iff]; intro hc; rw [h4.1 hc] at h; exact lt_irrefl _ h
    simp [h, this, lt_asymm h]

/-- C12, different dimensions: equality is still decided, but `lt` panics exactly when the values differ and
`gt`/`leq` always panic (the code's `assert_eq!`, marked FIXME). -/
theorem cmp_mixed_dim {a b : F3G} (ha : WF a) (hb : WF b) (hd : a.dim ≠ b.dim) :
    gt a b = none ∧ leq a b = none ∧ (val a = val b → lt a b = some false) ∧ (val a ≠ val b → lt a b = none) := by
  have hg := (gt_spec ha hb).1 hd
  refine ⟨hg, by simp [leq, hg], fun h => ?_, fun h => ?_⟩
  · simp [lt, geq, (eq_spec ha hb).2 h]
  · have : eq' a b = false := by
      rw [Bool.eq_false_iff]; intro hc; exact h ((eq_spec ha hb).1 hc)
    simp [lt, geq, this, hg]

example : WF (new 1 2 3) ∧ WF (new 2 2 3) ∧ lt (new 1 2 3) (new 2 2 3) = some true ∧ gt (new 1 2 3) (ofF 1) = none := by
  decide +kernel

end Verif.Ext3
