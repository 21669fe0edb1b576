import Verif.F3G.Model
import Mathlib.RingTheory.AdjoinRoot
import Mathlib.Algebra.Polynomial.SpecificDegree
import Mathlib.Tactic.LinearCombination
import Mathlib.Tactic.FieldSimp
/-! # The cubic extension: helper lemmas -/
namespace Verif.Ext3
open Verif.GL (F MODULUS)
open Polynomial

/-- The modulus polynomial named in the code's documentation (f3g.rs L11). -/
noncomputable def poly : F[X] := X ^ 3 - X - 1

/-- The specification ring `F_p[x]/(x^3-x-1)`. -/
abbrev K : Type := AdjoinRoot poly

/-- The class of `x`. -/
noncomputable abbrev ξ : K := AdjoinRoot.root poly

/-- The element of `K` with given coordinates. -/
noncomputable def coord (a b c : F) : K := algebraMap F K a + algebraMap F K b * ξ + algebraMap F K c * ξ ^ 2

theorem ξ_cubed : ξ ^ 3 = ξ + 1 := by
  have h : AdjoinRoot.mk poly poly = 0 := AdjoinRoot.mk_self
  have h2 : AdjoinRoot.mk poly poly = ξ ^ 3 - ξ - 1 := by
    conv_lhs => arg 2; rw [poly]
    simp [AdjoinRoot.mk_X]
  rw [h2] at h
  linear_combination h

theorem coord_mul (a b c x y z : F) :
    coord a b c * coord x y z =
      coord (a*x + b*z + c*y) (a*y + b*x + b*z + c*y + c*z) (a*z + b*y + c*x + c*z) := by
  simp only [coord, map_add, map_mul]
  generalize algebraMap F K a = a
  generalize algebraMap F K b = b
  generalize algebraMap F K c = c
  generalize algebraMap F K x = x
  generalize algebraMap F K y = y
  generalize algebraMap F K z = z
  linear_combination (b * z + c * y + c * z * ξ) * ξ_cubed

/-- representation-level `x^e mod f`, coefficients as Nats mod p -/
def mulN (m : Nat) (a b : Nat × Nat × Nat) : Nat × Nat × Nat :=
  ((a.1 * b.1 + a.2.1 * b.2.2 + a.2.2 * b.2.1) % m,
   (a.1 * b.2.1 + a.2.1 * b.1 + a.2.1 * b.2.2 + a.2.2 * b.2.1 + a.2.2 * b.2.2) % m,
   (a.1 * b.2.2 + a.2.1 * b.2.1 + a.2.2 * b.1 + a.2.2 * b.2.2) % m)

def powN (m : Nat) : Nat → Nat → (Nat × Nat × Nat) → (Nat × Nat × Nat) → (Nat × Nat × Nat)
  | 0, _, _, acc => acc
  | f+1, e, x, acc => powN m f (e / 2) (mulN m x x) (if e % 2 = 1 then mulN m acc x else acc)

def evN (r : F) (a : Nat × Nat × Nat) : F := a.1 + a.2.1 * r + a.2.2 * r ^ 2

theorem evN_mul (r : F) (hr : r ^ 3 = r + 1) (a b) : evN r (mulN MODULUS a b) = evN r a * evN r b := by
  simp only [evN, mulN, ZMod.natCast_mod, Nat.cast_add, Nat.cast_mul]
  generalize ((a.1 : Nat) : F) = a0
  generalize ((a.2.1 : Nat) : F) = a1
  generalize ((a.2.2 : Nat) : F) = a2
  generalize ((b.1 : Nat) : F) = b0
  generalize ((b.2.1 : Nat) : F) = b1
  generalize ((b.2.2 : Nat) : F) = b2
  linear_combination (-(a1 * b2 + a2 * b1 + a2 * b2 * r)) * hr

theorem evN_pow (r : F) (hr : r ^ 3 = r + 1) (f e x acc) (he : e < 2 ^ f) :
    evN r (powN MODULUS f e x acc) = evN r acc * evN r x ^ e := by
  induction f generalizing e x acc with
  | zero => simp at he; subst he; simp [powN]
  | succ f ih =>
    rw [powN, ih _ _ _ (by rw [pow_succ] at he; omega), evN_mul r hr]
    split
    · next h => 
      rw [evN_mul r hr]
      conv_rhs => rw [show e = 2 * (e/2) + 1 by omega]
      ring
    · next h =>
      conv_rhs => rw [show e = 2 * (e/2) by omega]
      ring

theorem pow_p_coords : powN MODULUS 64 MODULUS (0, 1, 0) (1, 0, 0) =
    (10615703402128488253, 10050274602728160328, 11746561000929144102) := by decide +kernel

/-- `x^3 - x - 1` has no root in `F_p`: such a root would satisfy `r^p = r`, and reducing `r^p` modulo the
cubic gives a quadratic coprime to the cubic. -/
theorem no_root (r : F) : r ^ 3 ≠ r + 1 := by
  intro hr
  have h1 := evN_pow r hr 64 MODULUS (0, 1, 0) (1, 0, 0) (by norm_num)
  rw [pow_p_coords] at h1
  have h2 : evN r (0, 1, 0) ^ MODULUS = r := by
    have : evN r (0, 1, 0) = r := by simp [evN]
    rw [this]; exact ZMod.pow_card r
  rw [h2] at h1
  have h3 : evN r (1, 0, 0) = 1 := by simp [evN]
  rw [h3, one_mul] at h1
  simp only [evN] at h1
  push_cast at h1
  have hq : (10615703402128488253 : F) + 10050274602728160327 * r + 11746561000929144102 * r ^ 2 = 0 := by
    linear_combination h1
  have hf : r ^ 3 - r - 1 = 0 := by linear_combination hr
  have hp : (18446744069414584321 : F) = 0 := by
    have := ZMod.natCast_self MODULUS
    exact_mod_cast this
  have : (1 : F) = 0 := by
    linear_combination (991315191999139912 + 15238614666038134874 * r + 11086490780951302402 * r ^ 2) * hq
      + (2549906194796835896 + 12909963218832731643 * r) * hf
      - (570480514972574959 + 9309588879490733367 * r + 15313689135103035685 * r ^ 2 + 15743894552913474338 * r ^ 3
         + 7059681630245326407 * r ^ 4) * hp
  exact one_ne_zero this

theorem poly_monic : poly.Monic := by
  unfold poly
  monicity!

theorem poly_natDegree : poly.natDegree = 3 := by
  unfold poly
  compute_degree!

theorem poly_irreducible : Irreducible poly := by
  rw [Polynomial.Monic.irreducible_iff_roots_eq_zero_of_degree_le_three poly_monic
    (by rw [poly_natDegree]; norm_num) (by rw [poly_natDegree])]
  rw [Multiset.eq_zero_iff_forall_notMem]
  intro r hr
  rw [mem_roots poly_monic.ne_zero, IsRoot.def] at hr
  apply no_root r
  have : r ^ 3 - r - 1 = 0 := by simpa [poly] using hr
  linear_combination this

instance : Fact (Irreducible poly) := ⟨poly_irreducible⟩

theorem coord_surj (k : K) : ∃ a b c, k = coord a b c := by
  induction k using AdjoinRoot.induction_on with
  | ih p =>
    have h1 : AdjoinRoot.mk poly p = AdjoinRoot.mk poly (p %ₘ poly) := by
      rw [AdjoinRoot.mk_eq_mk]
      exact ⟨p /ₘ poly, by linear_combination -(modByMonic_add_div p poly)⟩
    have hd : (p %ₘ poly).natDegree < 3 := by
      have := natDegree_modByMonic_lt p poly_monic (by
        intro h; have := poly_natDegree; rw [h] at this; simp at this)
      rwa [poly_natDegree] at this
    generalize p %ₘ poly = q at h1 hd
    rw [h1]
    refine ⟨q.coeff 0, q.coeff 1, q.coeff 2, ?_⟩
    conv_lhs => rw [q.as_sum_range' 3 hd]
    simp only [Finset.sum_range_succ, Finset.sum_range_zero, zero_add, map_add, coord,
      ← C_mul_X_pow_eq_monomial, map_mul, map_pow, AdjoinRoot.mk_X, AdjoinRoot.mk_C]
    simp [AdjoinRoot.algebraMap_eq]

theorem coord_eq_zero {a b c : F} (h : coord a b c = 0) : a = 0 ∧ b = 0 ∧ c = 0 := by
  set q : F[X] := C a + C b * X + C c * X ^ 2 with hq
  have h1 : AdjoinRoot.mk poly q = 0 := by
    rw [← h]; simp [hq, coord, AdjoinRoot.mk_X, AdjoinRoot.algebraMap_eq]
  rw [AdjoinRoot.mk_eq_zero] at h1
  have hd : q.natDegree < poly.natDegree := by
    rw [poly_natDegree, hq]
    have : (C a + C b * X + C c * X ^ 2 : F[X]).natDegree ≤ 2 := by compute_degree
    omega
  have h0 : q = 0 := by
    by_contra hne
    exact absurd (natDegree_le_of_dvd h1 hne) (by omega)
  have e0 : q.coeff 0 = 0 := by rw [h0]; simp
  have e1 : q.coeff 1 = 0 := by rw [h0]; simp
  have e2 : q.coeff 2 = 0 := by rw [h0]; simp
  simp [hq, coeff_X, coeff_C] at e0 e1 e2
  exact ⟨e0, e1, e2⟩

theorem coord_inj {a b c x y z : F} (h : coord a b c = coord x y z) : a = x ∧ b = y ∧ c = z := by
  have : coord (a - x) (b - y) (c - z) = 0 := by
    have : coord (a - x) (b - y) (c - z) = coord a b c - coord x y z := by
      simp [coord]; ring
    rw [this, h, sub_self]
  obtain ⟨h1, h2, h3⟩ := coord_eq_zero this
  exact ⟨sub_eq_zero.1 h1, sub_eq_zero.1 h2, sub_eq_zero.1 h3⟩

/-- The (negated) norm, the denominator `t` of `_inv`. -/
def nrm (a b c : F) : F := -(a*a*a) - a*a*c - a*a*c + b*a*c + b*a*c + b*a*c + b*a*b - a*c*c - b*b*b + b*c*c - c*c*c

theorem nrm_ne_zero {a b c : F} (h : coord a b c ≠ 0) : nrm a b c ≠ 0 := by
  obtain ⟨x, y, z, hi⟩ := coord_surj (coord a b c)⁻¹
  have h1 : coord a b c * coord x y z = 1 := by rw [← hi, mul_inv_cancel₀ h]
  rw [coord_mul] at h1
  have h2 : (1 : K) = coord 1 0 0 := by simp [coord]
  rw [h2] at h1
  obtain ⟨e0, e1, e2⟩ := coord_inj h1
  have h3 : nrm a b c * nrm x y z = - nrm (a*x + b*z + c*y) (a*y + b*x + b*z + c*y + c*z) (a*z + b*y + c*x + c*z) := by
    simp only [nrm]; ring
  rw [e0, e1, e2] at h3
  intro hn
  rw [hn] at h3
  simp [nrm] at h3
end Verif.Ext3
