import Verif.F5G.Lemmas
import Verif.F3G.Props

/-!
# Property C13: the quintic extension (`/repo/starky/src/f5g.rs`)

Specification ring: `K = F_p[x]/(x^5-3)`; `val` (in Lemmas) reads a value as `c0 + c1 x + .. + c4 x^4`.
-/
namespace Verif.Ext5
open Verif.GL (F MODULUS)

/-- Result dimension: 1 only if both operands have dimension 1. -/
def joinDim (a b : F5G) : Nat := if a.dim = 1 ∧ b.dim = 1 then 1 else 5

private theorem wf5 (a b c d e : F) : WF ⟨a, b, c, d, e, 5⟩ := Or.inl rfl
private theorem wf1 (a : F) : WF ⟨a, 0, 0, 0, 0, 1⟩ := Or.inr ⟨rfl, rfl, rfl, rfl, rfl⟩

private theorem wf_cases {a : F5G} (h : WF a) :
    (∃ x y z u v, a = ⟨x, y, z, u, v, 5⟩) ∨ (∃ x, a = ⟨x, 0, 0, 0, 0, 1⟩) := by
  obtain ⟨x, y, z, u, v, d⟩ := a
  rcases h with h | ⟨h, h1, h2, h3, h4⟩
  · left; exact ⟨x, y, z, u, v, by simp_all⟩
  · right; exact ⟨x, by simp_all⟩

/-- The specification really is the quotient by `x^5 - 3`: a field in which the five coordinates determine the
element. -/
theorem val_inj_surj : (∀ a b : F5G, a.dim = b.dim → val a = val b → a = b) ∧ (∀ k : K, ∃ a : F5G, a.dim = 5 ∧ val a = k) := by
  refine ⟨fun a b => val_inj, fun k => ?_⟩
  obtain ⟨a, b, c, d, e, h⟩ := coord_surj k
  exact ⟨⟨a, b, c, d, e, 5⟩, rfl, h.symm⟩

/-- C13: addition. -/
theorem add_spec {a b : F5G} (ha : WF a) (hb : WF b) :
    ∃ r, add a b = some r ∧ WF r ∧ r.dim = joinDim a b ∧ val r = val a + val b := by
  rcases wf_cases ha with ⟨x, y, z, p, q, rfl⟩ | ⟨x, rfl⟩ <;> rcases wf_cases hb with ⟨u, v, w, s, t, rfl⟩ | ⟨u, rfl⟩
  · exact ⟨_, rfl, wf5 _ _ _ _ _, rfl, by simp [val, coord]; ring⟩
  · exact ⟨_, rfl, wf5 _ _ _ _ _, rfl, by simp [val, coord, new]; ring⟩
  · exact ⟨_, rfl, wf5 _ _ _ _ _, rfl, by simp [val, coord, new]; ring⟩
  · exact ⟨_, rfl, wf1 _, rfl, by simp [val, coord, ofF]⟩

/-- C13: subtraction. -/
theorem sub_spec {a b : F5G} (ha : WF a) (hb : WF b) :
    ∃ r, sub a b = some r ∧ WF r ∧ r.dim = joinDim a b ∧ val r = val a - val b := by
  rcases wf_cases ha with ⟨x, y, z, p, q, rfl⟩ | ⟨x, rfl⟩ <;> rcases wf_cases hb with ⟨u, v, w, s, t, rfl⟩ | ⟨u, rfl⟩
  · exact ⟨_, rfl, wf5 _ _ _ _ _, rfl, by simp [val, coord]; ring⟩
  · exact ⟨_, rfl, wf5 _ _ _ _ _, rfl, by simp [val, coord, new]; ring⟩
  · exact ⟨_, rfl, wf5 _ _ _ _ _, rfl, by simp [val, coord, new]; ring⟩
  · exact ⟨_, rfl, wf1 _, rfl, by simp [val, coord, ofF]⟩

/-- C13: multiplication. -/
theorem mul_spec {a b : F5G} (ha : WF a) (hb : WF b) :
    ∃ r, mul a b = some r ∧ WF r ∧ r.dim = joinDim a b ∧ val r = val a * val b := by
  rcases wf_cases ha with ⟨x, y, z, p, q, rfl⟩ | ⟨x, rfl⟩ <;> rcases wf_cases hb with ⟨u, v, w, s, t, rfl⟩ | ⟨u, rfl⟩
  · exact ⟨_, rfl, wf5 _ _ _ _ _, rfl, val_mul55 _ _⟩
  · exact ⟨_, rfl, wf5 _ _ _ _ _, rfl, by simp [val, coord, new]; ring⟩
  · exact ⟨_, rfl, wf5 _ _ _ _ _, rfl, by simp [val, coord, new]; ring⟩
  · exact ⟨_, rfl, wf1 _, rfl, by simp [val, coord, ofF]⟩

/-- C13: squaring. -/
theorem square_spec {a : F5G} (ha : WF a) :
    ∃ r, square a = some r ∧ WF r ∧ r.dim = a.dim ∧ val r = val a ^ 2 := by
  rcases wf_cases ha with ⟨x, y, z, u, v, rfl⟩ | ⟨x, rfl⟩
  · refine ⟨_, rfl, wf5 _ _ _ _ _, rfl, ?_⟩
    rw [pow_two]; exact val_mul55 ⟨x, y, z, u, v, 5⟩ ⟨x, y, z, u, v, 5⟩
  · exact ⟨_, rfl, wf1 _, rfl, by simp [val, coord]; ring⟩

/-- C13: multiplication by a scalar. -/
theorem mulScalar_spec {a : F5G} (ha : WF a) (b : F) :
    ∃ r, mulScalar a b = some r ∧ WF r ∧ r.dim = a.dim ∧ val r = val a * algebraMap F K b := by
  rcases wf_cases ha with ⟨x, y, z, u, v, rfl⟩ | ⟨x, rfl⟩
  · exact ⟨_, rfl, wf5 _ _ _ _ _, rfl, by simp [val, coord, new]; ring⟩
  · exact ⟨_, rfl, wf1 _, rfl, by simp [val, coord, ofF]⟩

theorem const_spec (v : F) : val (ofF v) = algebraMap F K v ∧ val ZERO = 0 ∧ val ONE = 1 ∧ val ZEROS = 0 ∧ val ONES = 1
    ∧ WF (ofF v) ∧ WF ZERO ∧ WF ONE ∧ WF ZEROS ∧ WF ONES := by
  refine ⟨?_, ?_, ?_, ?_, ?_, wf1 _, wf1 _, wf1 _, wf5 _ _ _ _ _, wf5 _ _ _ _ _⟩ <;>
    simp [val, coord, ofF, ZERO, ONE, ZEROS, ONES]

/-- `_eq` is equality of denotations; `is_zero` is being the zero of the ring. -/
theorem eq_spec {a b : F5G} (ha : WF a) (hb : WF b) : eq' a b = true ↔ val a = val b := by
  have key : val a = val b ↔ a.c0 = b.c0 ∧ a.c1 = b.c1 ∧ a.c2 = b.c2 ∧ a.c3 = b.c3 ∧ a.c4 = b.c4 :=
    ⟨fun h => coord_inj h, fun ⟨h0, h1, h2, h3, h4⟩ => by simp [val, h0, h1, h2, h3, h4]⟩
  rw [key]
  rcases wf_cases ha with ⟨x, y, z, p, q, rfl⟩ | ⟨x, rfl⟩ <;> rcases wf_cases hb with ⟨u, v, w, s, t, rfl⟩ | ⟨u, rfl⟩
  · simp [eq']
  · simp [eq']
  · simp only [eq']; simp; grind
  · simp [eq']

theorem isZero_spec {a : F5G} (ha : WF a) : isZero a = true ↔ val a = 0 := by
  obtain ⟨_, h1, _, h2, _, _, w1, _, w2, _⟩ := const_spec 0
  unfold isZero
  split
  · rw [eq_spec ha w1, h1]
  · rw [eq_spec ha w2, h2]

private theorem inv5_eq (a : F5G) : inv5 a =
    let t1 := mul55 (frob1 a) (frob1 (frob1 a))
    let t2 := mul55 t1 (frob1 (frob1 t1))
    let t3 := (mul55 a t2).c0
    mul t2 (ofF (if t3 = 0 then 1 else t3)⁻¹) := by
  have h1 : mul (frob1 a) (frob1 (frob1 a)) = some (mul55 (frob1 a) (frob1 (frob1 a))) := rfl
  unfold inv5
  simp only [h1, Option.bind_some]
  have h2 : mul (mul55 (frob1 a) (frob1 (frob1 a))) (frob2 (mul55 (frob1 a) (frob1 (frob1 a)))) =
    some (mul55 (mul55 (frob1 a) (frob1 (frob1 a))) (frob1 (frob1 (mul55 (frob1 a) (frob1 (frob1 a)))))) := by
    rw [frob2_eq]; rfl
  rw [h2]
  rfl

private theorem norm_fixed {a : F5G} (hd : a.dim = 5) :
    frob1 (mul55 a (mul55 (mul55 (frob1 a) (frob1 (frob1 a))) (frob1 (frob1 (mul55 (frob1 a) (frob1 (frob1 a))))))) =
      mul55 a (mul55 (mul55 (frob1 a) (frob1 (frob1 a))) (frob1 (frob1 (mul55 (frob1 a) (frob1 (frob1 a)))))) := by
  have h5 := frob1_five hd
  apply val_inj (by rfl)
  simp only [frob1_mul, val_mul55]
  rw [h5]
  generalize val (frob1 (frob1 (frob1 (frob1 a)))) = d
  generalize val (frob1 (frob1 (frob1 a))) = c
  generalize val (frob1 (frob1 a)) = b
  generalize val (frob1 a) = e
  generalize val a = f
  clear h5 hd
  simp only [mul_assoc, mul_comm, mul_left_comm]

private theorem val_t2 (a : F5G) :
    val (mul55 (mul55 (frob1 a) (frob1 (frob1 a))) (frob1 (frob1 (mul55 (frob1 a) (frob1 (frob1 a)))))) =
    val (frob1 a) * val (frob1 (frob1 a)) * (val (frob1 (frob1 (frob1 a))) * val (frob1 (frob1 (frob1 (frob1 a))))) := by
  simp only [frob1_mul, val_mul55]

private theorem val_of_fixed {n : F5G} (h : frob1 n = n) : val n = algebraMap F K n.c0 := by
  obtain ⟨n1, n2, n3, n4⟩ := fixed_of_frob h
  rw [val, n1, n2, n3, n4]; simp [coord]

private theorem inv5_spec {a : F5G} (hd : a.dim = 5) :
    ∃ r, inv5 a = some r ∧ r.dim = 5 ∧ (val a ≠ 0 → val a * val r = 1) ∧ (val a = 0 → val r = 0) := by
  rw [inv5_eq]
  have hfix := norm_fixed hd
  have vt2 := val_t2 a
  simp only
  have dt2 : (mul55 (mul55 (frob1 a) (frob1 (frob1 a))) (frob1 (frob1 (mul55 (frob1 a) (frob1 (frob1 a)))))).dim = 5 := rfl
  generalize mul55 (mul55 (frob1 a) (frob1 (frob1 a))) (frob1 (frob1 (mul55 (frob1 a) (frob1 (frob1 a))))) = t2 at *
  have vN := val_of_fixed hfix
  rw [val_mul55] at vN
  generalize (mul55 a t2).c0 = n0 at *
  obtain ⟨r, hr, wr, dr, vr⟩ := mul_spec (a := t2) (b := ofF (if n0 = 0 then 1 else n0)⁻¹) (Or.inl dt2) (wf1 _)
  have dr5 : r.dim = 5 := by rw [dr, joinDim, if_neg]; rw [dt2]; rintro ⟨h, _⟩; cases h
  refine ⟨r, hr, dr5, fun hne => ?_, fun hz => ?_⟩
  · have h1 := frob1_ne hne
    have h2 := frob1_ne h1
    have h3 := frob1_ne h2
    have h4 := frob1_ne h3
    have hN0 : n0 ≠ 0 := by
      intro h0
      rw [h0, map_zero, vt2] at vN
      exact (mul_ne_zero hne (mul_ne_zero (mul_ne_zero h1 h2) (mul_ne_zero h3 h4))) vN
    rw [vr, ← mul_assoc, vN, if_neg hN0, (const_spec _).1, ← map_mul, mul_inv_cancel₀ hN0, map_one]
  · have : val (frob1 a) = 0 := by
      obtain ⟨h0, h1, h2, h3, h4⟩ := coord_eq_zero hz
      rw [frob1_eq]; simp [val, coord, h0, h1, h2, h3, h4]
    rw [vr, vt2, this]; simp

/-- C13: `inv` returns on every API value; `x * inv(x) = 1` for every nonzero `x` and `inv(0) = 0`. -/
theorem inv_spec {a : F5G} (ha : WF a) :
    ∃ r, inv a = some r ∧ WF r ∧ r.dim = a.dim ∧ (val a ≠ 0 → val a * val r = 1) ∧ (val a = 0 → r = a) := by
  by_cases hd : a.dim = 5
  · obtain ⟨r, hr, dr, h1, h2⟩ := inv5_spec hd
    refine ⟨r, by simp [inv, hd, hr], Or.inl dr, by rw [dr, hd], h1, fun h => ?_⟩
    exact val_inj (by rw [dr, hd]) (by rw [h2 h, h])
  · rcases wf_cases ha with ⟨x, y, z, u, v, rfl⟩ | ⟨x, rfl⟩
    · exact absurd rfl hd
    · refine ⟨_, rfl, wf1 _, rfl, fun h => ?_, fun h => ?_⟩
      · have hx : x ≠ 0 := by rintro rfl; simp [val, coord] at h
        have : val ⟨x, 0, 0, 0, 0, 1⟩ = algebraMap F K x := (const_spec x).1
        rw [this, (const_spec _).1, ← map_mul, mul_inv_cancel₀ hx, map_one]
      · obtain ⟨rfl, _⟩ := coord_eq_zero h
        simp [ofF]

/-- C13: division. -/
theorem div_spec {a b : F5G} (ha : WF a) (hb : WF b) (hz : isZero b = false) :
    ∃ q, div a b = some q ∧ WF q ∧ val q * val b = val a := by
  have hne : val b ≠ 0 := fun h => by rw [(isZero_spec hb).2 h] at hz; cases hz
  obtain ⟨i, hi, wi, di, hm, _⟩ := inv_spec hb
  obtain ⟨q, hq, wq, dq, vq⟩ := mul_spec ha wi
  exact ⟨q, by simp [div, hi, hq], wq, by rw [vq]; linear_combination val a * hm hne⟩

private theorem exp_fold {x : F5G} (hx : WF x) (l : List Bool) (r : F5G) (n : Nat) (hr : WF r)
    (hv : val r = val x ^ n) :
    ∃ r', l.foldl (expStep x) (some r) = some r' ∧ WF r' ∧
      val r' = val x ^ (l.foldl (fun n b => 2 * n + b.toNat) n) := by
  induction l generalizing r n with
  | nil => exact ⟨r, rfl, hr, hv⟩
  | cons b l ih =>
    obtain ⟨s, hs, ws, ds, vs⟩ := square_spec hr
    cases b with
    | false =>
      have : expStep x (some r) false = some s := by simp [expStep, hs]
      rw [List.foldl_cons, this]
      exact ih s (2 * n) ws (by rw [vs, hv, ← pow_mul, mul_comm])
    | true =>
      obtain ⟨m, hm, wm, dm, vm⟩ := mul_spec ws hx
      have : expStep x (some r) true = some m := by simp [expStep, hs, hm]
      rw [List.foldl_cons, this]
      exact ih m (2 * n + 1) wm (by rw [vm, vs, hv, ← pow_mul, mul_comm n 2, pow_succ])

/-- C13: exponentiation. -/
theorem exp_spec {x : F5G} (hx : WF x) (e : Nat) : ∃ r, exp x e = some r ∧ WF r ∧ val r = val x ^ e := by
  by_cases he : e = 0
  · subst he
    exact ⟨ONE, rfl, (const_spec 0).2.2.2.2.2.2.2.1, by simp [(const_spec 0).2.2.1]⟩
  · obtain ⟨l, hl⟩ := Ext3.bitsLE_last he
    have hb := Ext3.bitsLE_fold e
    rw [hl] at hb
    obtain ⟨r, hr, wr, vr⟩ := exp_fold hx l.reverse x 1 hx (by simp)
    refine ⟨r, ?_, wr, ?_⟩
    · rw [exp, if_neg he, hl, List.dropLast_concat, hr]
    · rw [vr, List.foldl_reverse]
      congr 1
      rw [← hb, List.foldr_append]
      simp

/-- C13, negation, the part that holds: dimension-1 values are negated. Missing: dimension 5, where the code
panics (`neg_panics`). -/
theorem neg_partial {a : F5G} (ha : WF a) (hd : a.dim = 1) :
    ∃ r, neg a = some r ∧ WF r ∧ r.dim = 1 ∧ val r = - val a := by
  rcases wf_cases ha with ⟨x, y, z, u, v, rfl⟩ | ⟨x, rfl⟩
  · cases hd
  · exact ⟨_, rfl, wf1 _, rfl, by simp [val, coord, ofF]⟩

/-- The code violates totality of negation: EVERY dimension-5 value makes `-x` panic. -/
theorem neg_panics {a : F5G} (hd : a.dim = 5) : neg a = none := by
  simp [neg, hd]

/-- The code violates totality of comparison: `lt` never returns when `gt` holds (for no recursion depth). -/
theorem lt_diverges {a b : F5G} (h : gt a b = some true) (fuel : Nat) : lt fuel a b = none := by
  induction fuel with
  | zero => rfl
  | succ n ih => rw [lt, h]; exact ih

/-- When `gt` is false, `lt` answers `true`, even for equal values: `lt` is never `some false`. -/
theorem lt_of_not_gt {a b : F5G} (h : gt a b = some false) (fuel : Nat) : lt (fuel + 1) a b = some (some true) := by
  rw [lt, h]

/-- Sequence of canonical integers of the significant coefficients. -/
def intCoeffs (a : F5G) : List Nat := (asElements a).map ZMod.val

/-- C13, order, the part that holds: on dimension-1 values `gt` is the order of the integers; on dimension 5, `gt`
implies the lexicographic order. Missing: the converse in dimension 5 (`gt_not_lexicographic`). -/
theorem gt_partial {a b : F5G} (ha : WF a) (hb : WF b) (hd : a.dim = b.dim) :
    (gt a b = some true → intCoeffs b < intCoeffs a) ∧
    (a.dim = 1 → gt a b = some (decide (intCoeffs b < intCoeffs a))) := by
  have vi : ∀ x y : F, x = y ↔ x.val = y.val := fun x y => ⟨fun h => h ▸ rfl, fun h => ZMod.val_injective _ h⟩
  rcases wf_cases ha with ⟨x, y, z, p, q, rfl⟩ | ⟨x, rfl⟩ <;> rcases wf_cases hb with ⟨u, v, w, s, t, rfl⟩ | ⟨u, rfl⟩
  · refine ⟨?_, fun h => by cases h⟩
    simp only [gt, fgt, intCoeffs, asElements]
    simp only [List.take, List.map, List.cons_lt_cons_iff, vi]
    simp
    generalize x.val = x
    generalize y.val = y
    generalize z.val = z
    generalize p.val = p
    generalize q.val = q
    generalize u.val = u
    generalize v.val = v
    generalize w.val = w
    generalize s.val = s
    generalize t.val = t
    intro h
    grind
  · cases hd
  · cases hd
  · simp [gt, fgt, intCoeffs, asElements, List.cons_lt_cons_iff]

/-- The code violates the lexicographic order: `(2,1,0,0,0)` and `(1,0,0,0,0)` are different but neither is `gt`
the other, so the order is not total. -/
theorem gt_not_lexicographic : ∃ a b : F5G, WF a ∧ WF b ∧ a.dim = b.dim ∧ intCoeffs b < intCoeffs a ∧
    gt a b = some false ∧ gt b a = some false ∧ eq' a b = false :=
  ⟨new 2 1 0 0 0, new 1 0 0 0 0, by decide +kernel, by decide +kernel, rfl, by decide +kernel, by decide +kernel, by decide +kernel,
    by decide +kernel⟩

example : WF (new 1 2 3 4 5) ∧ isZero (new 1 2 3 4 5) = false ∧ neg (new 1 2 3 4 5) = none ∧
    gt (new 1 2 3 4 6) (new 1 2 3 4 5) = some true ∧ WF (ofF 3) := by decide +kernel
example : mul (new 0 1 0 0 0) (new 0 0 0 0 1) = some (new 3 0 0 0 0) := by decide +kernel

end Verif.Ext5
