import Verif.F5G.Model
import Mathlib.RingTheory.AdjoinRoot
import Mathlib.FieldTheory.KummerPolynomial
import Mathlib.Tactic.LinearCombination
/-! # The quintic extension: helper lemmas -/
namespace Verif.Ext5
open Verif.GL (F MODULUS)
open Polynomial

/-- The modulus polynomial named in the code's documentation (f5g.rs L12). -/
noncomputable def poly : F[X] := X ^ 5 - C 3

/-- The specification ring `F_p[x]/(x^5-3)`. -/
abbrev K : Type := AdjoinRoot poly

noncomputable abbrev ξ : K := AdjoinRoot.root poly

/-- The element of `K` with given coordinates. -/
noncomputable def coord (a b c d e : F) : K :=
  algebraMap F K a + algebraMap F K b * ξ + algebraMap F K c * ξ ^ 2 + algebraMap F K d * ξ ^ 3 + algebraMap F K e * ξ ^ 4

theorem ξ_fifth : ξ ^ 5 = 3 := by
  have h : AdjoinRoot.mk poly poly = 0 := AdjoinRoot.mk_self
  have h2 : AdjoinRoot.mk poly poly = ξ ^ 5 - 3 := by
    conv_lhs => arg 2; rw [poly]
    simp only [map_sub, map_pow, AdjoinRoot.mk_X, AdjoinRoot.mk_C]
    rw [map_ofNat (AdjoinRoot.of poly) 3]
  rw [h2] at h
  linear_combination h

theorem coord_mul (a b c d e x y z u v : F) :
    coord a b c d e * coord x y z u v =
      coord (a*x + 3*(b*v + c*u + d*z + e*y)) (a*y + b*x + 3*(c*v + d*u + e*z)) (a*z + b*y + c*x + 3*(d*v + e*u))
        (a*u + b*z + c*y + d*x + 3*(e*v)) (a*v + b*u + c*z + d*y + e*x) := by
  simp only [coord, map_add, map_mul, map_ofNat]
  generalize algebraMap F K a = a
  generalize algebraMap F K b = b
  generalize algebraMap F K c = c
  generalize algebraMap F K d = d
  generalize algebraMap F K e = e
  generalize algebraMap F K x = x
  generalize algebraMap F K y = y
  generalize algebraMap F K z = z
  generalize algebraMap F K u = u
  generalize algebraMap F K v = v
  linear_combination ((b*v + c*u + d*z + e*y) + (c*v + d*u + e*z) * ξ + (d*v + e*u) * ξ ^ 2 + e*v*ξ^3) * ξ_fifth

/-- the primitive fifth root `3^((p-1)/5)` -/
def g : F := 1041288259238279555

theorem hp : (18446744069414584321 : F) = 0 := by
  have := ZMod.natCast_self MODULUS
  exact_mod_cast this

theorem g2 : g ^ 2 = 15820824984080659046 := by
  have h : ((Verif.GL.powMod MODULUS 1041288259238279555 2 : Nat) : F) = ((15820824984080659046 : Nat) : F) := by
    rw [show Verif.GL.powMod MODULUS 1041288259238279555 2 = 15820824984080659046 by decide +kernel]
  have h2 := Verif.GL.zmod_pow_eq MODULUS 1041288259238279555 2 15820824984080659046 (by norm_num) (by decide +kernel)
  exact_mod_cast h2
theorem g3 : g ^ 3 = 211587555138949697 := by
  have h2 := Verif.GL.zmod_pow_eq MODULUS 1041288259238279555 3 211587555138949697 (by norm_num) (by decide +kernel)
  exact_mod_cast h2
theorem g4 : g ^ 4 = 1373043270956696022 := by
  have h2 := Verif.GL.zmod_pow_eq MODULUS 1041288259238279555 4 1373043270956696022 (by norm_num) (by decide +kernel)
  exact_mod_cast h2
theorem g5 : g ^ 5 = 1 := by
  have h2 := Verif.GL.zmod_pow_eq MODULUS 1041288259238279555 5 1 (by norm_num) (by decide +kernel)
  exact_mod_cast h2

theorem natCast_ne {a b : Nat} (ha : a < MODULUS) (hb : b < MODULUS) (h : a ≠ b) : ((a : Nat) : F) ≠ ((b : Nat) : F) :=
  fun hc => h (Verif.GL.natCast_inj_of_lt ha hb hc)

theorem g_ne1 : g ≠ 1 := by
  have := natCast_ne (a := 1041288259238279555) (b := 1) (by norm_num) (by norm_num) (by norm_num)
  exact_mod_cast this
theorem g2_ne1 : g ^ 2 ≠ 1 := by
  rw [g2]
  have := natCast_ne (a := 15820824984080659046) (b := 1) (by norm_num) (by norm_num) (by norm_num)
  exact_mod_cast this
theorem g3_ne1 : g ^ 3 ≠ 1 := by
  rw [g3]
  have := natCast_ne (a := 211587555138949697) (b := 1) (by norm_num) (by norm_num) (by norm_num)
  exact_mod_cast this
theorem g4_ne1 : g ^ 4 ≠ 1 := by
  rw [g4]
  have := natCast_ne (a := 1373043270956696022) (b := 1) (by norm_num) (by norm_num) (by norm_num)
  exact_mod_cast this

theorem three_pow : (3 : F) ^ 3689348813882916864 = g := by
  have h2 := Verif.GL.zmod_pow_eq MODULUS 3 3689348813882916864 1041288259238279555 (by norm_num) (by decide +kernel)
  exact_mod_cast h2

/-- 3 is not a fifth power. -/
theorem not_fifth (b : F) : b ^ 5 ≠ 3 := by
  intro hb
  have hb0 : b ≠ 0 := by
    rintro rfl
    have := natCast_ne (a := 0) (b := 3) (by norm_num) (by norm_num) (by norm_num)
    apply this; push_cast; rw [← hb]; simp
  have h1 : b ^ (5 * 3689348813882916864) = 1 := ZMod.pow_card_sub_one_eq_one hb0
  rw [pow_mul, hb, three_pow] at h1
  exact g_ne1 h1

theorem poly_irreducible : Irreducible poly :=
  X_pow_sub_C_irreducible_of_prime (by norm_num) not_fifth

instance : Fact (Irreducible poly) := ⟨poly_irreducible⟩

theorem poly_monic : poly.Monic := monic_X_pow_sub_C _ (by norm_num)

theorem poly_natDegree : poly.natDegree = 5 := natDegree_X_pow_sub_C

theorem coord_surj (k : K) : ∃ a b c d e, k = coord a b c d e := by
  induction k using AdjoinRoot.induction_on with
  | ih p =>
    have h1 : AdjoinRoot.mk poly p = AdjoinRoot.mk poly (p %ₘ poly) := by
      rw [AdjoinRoot.mk_eq_mk]
      exact ⟨p /ₘ poly, by linear_combination -(modByMonic_add_div p poly)⟩
    have hd : (p %ₘ poly).natDegree < 5 := by
      have := natDegree_modByMonic_lt p poly_monic (by
        intro h; have := poly_natDegree; rw [h] at this; simp at this)
      rwa [poly_natDegree] at this
    generalize p %ₘ poly = q at h1 hd
    rw [h1]
    refine ⟨q.coeff 0, q.coeff 1, q.coeff 2, q.coeff 3, q.coeff 4, ?_⟩
    conv_lhs => rw [q.as_sum_range' 5 hd]
    simp only [Finset.sum_range_succ, Finset.sum_range_zero, zero_add, map_add, coord,
      ← C_mul_X_pow_eq_monomial, map_mul, map_pow, AdjoinRoot.mk_X, AdjoinRoot.mk_C]
    simp [AdjoinRoot.algebraMap_eq]

theorem coord_eq_zero {a b c d e : F} (h : coord a b c d e = 0) : a = 0 ∧ b = 0 ∧ c = 0 ∧ d = 0 ∧ e = 0 := by
  set q : F[X] := C a + C b * X + C c * X ^ 2 + C d * X ^ 3 + C e * X ^ 4 with hq
  have h1 : AdjoinRoot.mk poly q = 0 := by
    rw [← h]; simp [hq, coord, AdjoinRoot.mk_X, AdjoinRoot.algebraMap_eq]
  rw [AdjoinRoot.mk_eq_zero] at h1
  have hd : q.natDegree < poly.natDegree := by
    rw [poly_natDegree, hq]
    have : (C a + C b * X + C c * X ^ 2 + C d * X ^ 3 + C e * X ^ 4 : F[X]).natDegree ≤ 4 := by compute_degree
    omega
  have h0 : q = 0 := by
    by_contra hne
    exact absurd (natDegree_le_of_dvd h1 hne) (by omega)
  have e0 : q.coeff 0 = 0 := by rw [h0]; simp
  have e1 : q.coeff 1 = 0 := by rw [h0]; simp
  have e2 : q.coeff 2 = 0 := by rw [h0]; simp
  have e3 : q.coeff 3 = 0 := by rw [h0]; simp
  have e4 : q.coeff 4 = 0 := by rw [h0]; simp
  simp [hq, coeff_X, coeff_C] at e0 e1 e2 e3 e4
  exact ⟨e0, e1, e2, e3, e4⟩

theorem coord_inj {a b c d e x y z u v : F} (h : coord a b c d e = coord x y z u v) :
    a = x ∧ b = y ∧ c = z ∧ d = u ∧ e = v := by
  have : coord (a - x) (b - y) (c - z) (d - u) (e - v) = 0 := by
    have : coord (a - x) (b - y) (c - z) (d - u) (e - v) = coord a b c d e - coord x y z u v := by
      simp [coord]; ring
    rw [this, h, sub_self]
  obtain ⟨h1, h2, h3, h4, h5⟩ := coord_eq_zero this
  exact ⟨sub_eq_zero.1 h1, sub_eq_zero.1 h2, sub_eq_zero.1 h3, sub_eq_zero.1 h4, sub_eq_zero.1 h5⟩

/-- The element denoted by a value. -/
noncomputable def val (a : F5G) : K := coord a.c0 a.c1 a.c2 a.c3 a.c4

theorem val_mul55 (a b : F5G) : val (mul55 a b) = val a * val b := by
  simp only [val, coord_mul, mul55]

theorem val_inj {a b : F5G} (hd : a.dim = b.dim) (h : val a = val b) : a = b := by
  obtain ⟨h0, h1, h2, h3, h4⟩ := coord_inj h
  exact F5G.ext h0 h1 h2 h3 h4 hd

/-- `frob1` with symbolic powers of `g` -/
theorem frob1_eq (a : F5G) : frob1 a = ⟨a.c0, a.c1 * g, a.c2 * g ^ 2, a.c3 * g ^ 3, a.c4 * g ^ 4, 5⟩ := by
  simp only [frob1, g2, g3, g4]; rfl

theorem frob2_eq (a : F5G) : frob2 a = frob1 (frob1 a) := by
  simp only [frob1_eq, frob2]
  have h6 : g ^ 3 * g ^ 3 = g := by linear_combination g * g5
  have h8 : g ^ 4 * g ^ 4 = g ^ 3 := by linear_combination g ^ 3 * g5
  ext1
  · rfl
  · simp only; rw [← g2]; ring
  · simp only; rw [← g4]; ring
  · simp only; rw [mul_assign_helper h6]; rfl
  · simp only; rw [mul_assign_helper h8, ← g3]
  · rfl
where
  mul_assign_helper {x y z w : F} (h : y * z = w) : x * y * z = x * w := by rw [mul_assoc, h]

theorem frob1_mul (a b : F5G) : frob1 (mul55 a b) = mul55 (frob1 a) (frob1 b) := by
  simp only [frob1_eq, mul55]
  have := g5
  ext1
  · simp only; linear_combination (-3) * (a.c1 * b.c4 + a.c2 * b.c3 + a.c3 * b.c2 + a.c4 * b.c1) * g5
  · simp only; linear_combination (-3) * g * (a.c2 * b.c4 + a.c3 * b.c3 + a.c4 * b.c2) * g5
  · simp only; linear_combination (-3) * g ^ 2 * (a.c3 * b.c4 + a.c4 * b.c3) * g5
  · simp only; linear_combination (-3) * g ^ 3 * (a.c4 * b.c4) * g5
  · simp only; ring
  · rfl

theorem frob1_five {a : F5G} (h : a.dim = 5) : frob1 (frob1 (frob1 (frob1 (frob1 a)))) = a := by
  simp only [frob1_eq]
  ext1
  · rfl
  · simp only; linear_combination a.c1 * g5
  · simp only; linear_combination a.c2 * (g ^ 5 + 1) * g5
  · simp only; linear_combination a.c3 * (g ^ 10 + g ^ 5 + 1) * g5
  · simp only; linear_combination a.c4 * (g ^ 15 + g ^ 10 + g ^ 5 + 1) * g5
  · exact h.symm

theorem frob1_ne {a : F5G} (h : val a ≠ 0) : val (frob1 a) ≠ 0 := by
  have hg0 : g ≠ 0 := by
    intro h; have := g5; rw [h] at this; simp at this
  intro hc
  apply h
  rw [frob1_eq] at hc
  obtain ⟨h0, h1, h2, h3, h4⟩ := coord_eq_zero hc
  simp [hg0] at h0 h1 h2 h3 h4
  simp [val, coord, h0, h1, h2, h3, h4]

/-- The norm lies in the base field. -/
theorem fixed_of_frob {a : F5G} (h : frob1 a = a) : a.c1 = 0 ∧ a.c2 = 0 ∧ a.c3 = 0 ∧ a.c4 = 0 := by
  rw [frob1_eq] at h
  have h1 := congrArg F5G.c1 h
  have h2 := congrArg F5G.c2 h
  have h3 := congrArg F5G.c3 h
  have h4 := congrArg F5G.c4 h
  simp only at h1 h2 h3 h4
  have key : ∀ x k : F, k ≠ 1 → x * k = x → x = 0 := by
    intro x k hk h
    have : x * (k - 1) = 0 := by linear_combination h
    rcases mul_eq_zero.1 this with h | h
    · exact h
    · exact absurd (sub_eq_zero.1 h) hk
  exact ⟨key _ _ g_ne1 h1, key _ _ g2_ne1 h2, key _ _ g3_ne1 h3, key _ _ g4_ne1 h4⟩

end Verif.Ext5
