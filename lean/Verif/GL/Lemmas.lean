import Verif.GL.Prime
import Mathlib.Tactic.FieldSimp
import Mathlib.Tactic.LinearCombination
import Mathlib.FieldTheory.Finite.Basic

/-! # Refinement lemmas: limb operations versus `ZMod MODULUS` -/
namespace Verif.GL

/-- `omega` after unfolding the numeric constants. -/
macro "gomega" : tactic =>
  `(tactic| ((try simp only [W, MODULUS, INV, R2] at *); omega))

/-- The value field. -/
abbrev F := ZMod MODULUS

theorem W_pos : 0 < W := by norm_num [W]

theorem subNoborrow_eq {a b : Nat} (ha : a < W) (hb : b ≤ a) : subNoborrow a b = a - b := by
  simp only [subNoborrow, sbb]; gomega

theorem reduce_of_lt {a : Nat} (h : a < MODULUS) : reduce a = a := by
  simp [reduce, isValid, h]

theorem reduce_of_ge {a : Nat} (h : MODULUS ≤ a) (hW : a < W) : reduce a = a - MODULUS := by
  have : ¬ a < MODULUS := by gomega
  simp only [reduce, isValid, this, decide_false, Bool.not_false, if_true]
  exact subNoborrow_eq hW h

theorem reduce_lt {a : Nat} (hW : a < W) : reduce a < MODULUS := by
  by_cases h : a < MODULUS
  · rw [reduce_of_lt h]; exact h
  · rw [reduce_of_ge (by gomega) hW]; gomega

theorem reduce_mod {a : Nat} (hW : a < W) : reduce a = a % MODULUS := by
  by_cases h : a < MODULUS
  · rw [reduce_of_lt h, Nat.mod_eq_of_lt h]
  · rw [reduce_of_ge (by gomega) hW]; gomega

/-- One Montgomery round: with `inv*p + 1 = q*w`, `r + (r*inv % w)*p` is divisible by `w`. -/
theorem mont_round {w p inv q : Nat} (h : inv * p + 1 = q * w) (r : Nat) :
    (r + (r * inv % w) * p) / w * w = r + (r * inv % w) * p := by
  apply Nat.div_mul_cancel
  rw [Nat.dvd_iff_mod_eq_zero]
  have : r + (r * inv % w) * p ≡ r + (r * inv) * p [MOD w] :=
    Nat.ModEq.add_left _ (Nat.ModEq.mul_right _ (Nat.mod_modEq _ _))
  have h2 : r + (r * inv) * p = r * q * w := by
    rw [mul_assoc r q w, ← h]; ring
  rw [h2] at this
  rw [this]; simp

/-- Two Montgomery rounds, constants abstracted. -/
theorem mont_two {w p inv q r0 r1 k0 c1 r1' hh k1 c3 : Nat} (hw : 0 < w)
    (h : inv * p + 1 = q * w)
    (h0 : r0 < w) (h1 : r1 < w)
    (hk0 : k0 = r0 * inv % w) (hc1 : c1 = (r0 + k0 * p) / w)
    (hr1' : r1' = (r1 + c1) % w) (hhh : hh = (r1 + c1) / w)
    (hk1 : k1 = r1' * inv % w) (hc3 : c3 = (r1' + k1 * p) / w) :
    hh + c3 ≤ p ∧ (hh + c3) * (w * w) = (r0 + r1 * w) + (k0 + k1 * w) * p := by
  have hk0W : k0 < w := by rw [hk0]; exact Nat.mod_lt _ hw
  have e1 : c1 * w = r0 + k0 * p := by rw [hc1, hk0]; exact mont_round h r0
  have e2 : r1' + w * hh = r1 + c1 := by rw [hr1', hhh]; exact Nat.mod_add_div _ _
  have hk1W : k1 < w := by rw [hk1]; exact Nat.mod_lt _ hw
  have e3 : c3 * w = r1' + k1 * p := by rw [hc3, hk1]; exact mont_round h r1'
  have e4 : (hh + c3) * (w * w) = (r0 + r1 * w) + (k0 + k1 * w) * p := by
    zify at e1 e2 e3 ⊢
    linear_combination e1 + w * e2 + w * e3
  refine ⟨?_, e4⟩
  have b1 : r0 + r1 * w < w * w := by nlinarith
  have b2 : k0 + k1 * w < w * w := by nlinarith
  by_contra hc
  have : (p + 1) * (w * w) ≤ (hh + c3) * (w * w) := Nat.mul_le_mul_right _ (by omega)
  rw [e4] at this
  have : (k0 + k1 * w) * p ≤ (w * w) * p := Nat.mul_le_mul_right _ b2.le
  nlinarith

theorem hINV : INV * MODULUS + 1 = 18446744065119617025 * W := by norm_num [INV, MODULUS, W]
theorem hMW : MODULUS < W := by norm_num [W, MODULUS]

/-- `montReduce` with the constants abstracted (keeps big literals out of proof terms). -/
def montReduceG (w p inv r0 r1 : Nat) : Nat :=
  let k := (r0 * inv) % w
  let c1 := (r0 + k * p + 0) / w
  let m1 := (r1 + k * 0 + c1) % w
  let m2 := (r1 + k * 0 + c1) / w
  let r2 := (0 + 0 + m2) % w
  let k := (m1 * inv) % w
  let c3 := (m1 + k * p + 0) / w
  (r2 + k * 0 + c3) % w

theorem montReduce_G (r0 r1 : Nat) : montReduce r0 r1 = reduce (montReduceG W MODULUS INV r0 r1) := rfl

theorem montReduceG_spec {w p inv q r0 r1 : Nat} (h : inv * p + 1 = q * w) (hpw : p < w)
    (h0 : r0 < w) (h1 : r1 < w) :
    montReduceG w p inv r0 r1 ≤ p ∧
    (montReduceG w p inv r0 r1 * (w * w)) % p = (r0 + r1 * w) % p := by
  have hw : 0 < w := by omega
  obtain ⟨k0, hk0⟩ : ∃ k0, k0 = r0 * inv % w := ⟨_, rfl⟩
  obtain ⟨c1, hc1⟩ : ∃ c1, c1 = (r0 + k0 * p) / w := ⟨_, rfl⟩
  obtain ⟨r1', hr1'⟩ : ∃ r1', r1' = (r1 + c1) % w := ⟨_, rfl⟩
  obtain ⟨hh, hhh⟩ : ∃ hh, hh = (r1 + c1) / w := ⟨_, rfl⟩
  obtain ⟨k1, hk1⟩ : ∃ k1, k1 = r1' * inv % w := ⟨_, rfl⟩
  obtain ⟨c3, hc3⟩ : ∃ c3, c3 = (r1' + k1 * p) / w := ⟨_, rfl⟩
  obtain ⟨hle, heq⟩ := mont_two hw h h0 h1 hk0 hc1 hr1' hhh hk1 hc3
  have hlt : hh + c3 < w := Nat.lt_of_le_of_lt hle hpw
  have hm : montReduceG w p inv r0 r1 = hh + c3 := by
    have hhW : hh < w := by omega
    simp only [montReduceG, Nat.mul_zero, Nat.add_zero, Nat.zero_add, ← hk0, ← hc1,
      ← hr1', ← hhh, ← hk1, ← hc3]
    rw [Nat.mod_eq_of_lt hhW, Nat.mod_eq_of_lt hlt]
  rw [hm]
  refine ⟨hle, ?_⟩
  rw [heq, Nat.add_mul_mod_self_right]

theorem montReduce_spec {r0 r1 : Nat} (h0 : r0 < W) (h1 : r1 < W) :
    montReduce r0 r1 < MODULUS ∧
    (montReduce r0 r1 * (W * W)) % MODULUS = (r0 + r1 * W) % MODULUS := by
  obtain ⟨hle, heq⟩ := montReduceG_spec hINV hMW h0 h1
  rw [montReduce_G]
  have hlt := Nat.lt_of_le_of_lt hle hMW
  refine ⟨reduce_lt hlt, ?_⟩
  rw [reduce_mod hlt, Nat.mod_mul_mod, heq]

/-- `2^128` in the field. -/
theorem natCast_W : ((W * W : Nat) : F) = (R : F) := by
  rw [ZMod.natCast_eq_natCast_iff']; decide +kernel

/-- the inverse of `R` as a field element -/
noncomputable def rinv : F := ((W * W : Nat) : F)⁻¹

theorem WW_ne : ((W * W : Nat) : F) ≠ 0 := by
  rw [Ne, ZMod.natCast_eq_zero_iff]; decide +kernel

/-- The field element denoted by a Montgomery limb. -/
noncomputable def toF (a : Nat) : F := (a : F) * rinv

theorem montReduce_cast {r0 r1 : Nat} (h0 : r0 < W) (h1 : r1 < W) :
    ((montReduce r0 r1 : Nat) : F) = ((r0 + r1 * W : Nat) : F) * rinv := by
  have := (montReduce_spec h0 h1).2
  rw [← ZMod.natCast_eq_natCast_iff'] at this
  rw [← this, rinv, Nat.cast_mul, mul_assoc, mul_inv_cancel₀ WW_ne, mul_one]


theorem rinv_R : (R : F) * rinv = 1 := by
  rw [← natCast_W, rinv, mul_inv_cancel₀ WW_ne]

theorem rinv_ne : rinv ≠ 0 := inv_ne_zero WW_ne

theorem natCast_inj_of_lt {a b : Nat} (ha : a < MODULUS) (hb : b < MODULUS)
    (h : (a : F) = (b : F)) : a = b := by
  rw [ZMod.natCast_eq_natCast_iff', Nat.mod_eq_of_lt ha, Nat.mod_eq_of_lt hb] at h
  exact h

theorem toF_inj {a b : Nat} (ha : a < MODULUS) (hb : b < MODULUS) (h : toF a = toF b) : a = b :=
  natCast_inj_of_lt ha hb (mul_right_cancel₀ rinv_ne h)

/-! ### multiplication -/

theorem mac0_fst (a b : Nat) : (mac 0 a b 0).1 = (a * b) % W := by
  simp only [mac, Nat.zero_add, Nat.add_zero]

theorem mac0_snd (a b : Nat) : (mac 0 a b 0).2 = (a * b) / W := by
  simp only [mac, Nat.zero_add, Nat.add_zero]

theorem mul_def (a b : Nat) : mul a b = montReduce ((a * b) % W) ((a * b) / W) := by
  rw [← mac0_fst, ← mac0_snd]; rfl

theorem mul_bounds {a b : Nat} (ha : a < W) (hb : b < W) : (a * b) % W < W ∧ (a * b) / W < W :=
  ⟨Nat.mod_lt _ W_pos, Nat.div_lt_of_lt_mul (Nat.mul_lt_mul'' ha hb)⟩

theorem mul_lt' {a b : Nat} (ha : a < W) (hb : b < W) : mul a b < MODULUS := by
  rw [mul_def]; exact (montReduce_spec (mul_bounds ha hb).1 (mul_bounds ha hb).2).1

theorem mul_cast {a b : Nat} (ha : a < W) (hb : b < W) :
    ((mul a b : Nat) : F) = (a : F) * (b : F) * rinv := by
  rw [mul_def, montReduce_cast (mul_bounds ha hb).1 (mul_bounds ha hb).2,
    mul_comm (a * b / W), Nat.mod_add_div, Nat.cast_mul]

theorem lt_W {a : Nat} (h : a < MODULUS) : a < W := Nat.lt_trans h hMW

theorem mul_lt {a b : Nat} (ha : a < MODULUS) (hb : b < MODULUS) : mul a b < MODULUS :=
  mul_lt' (lt_W ha) (lt_W hb)

theorem toF_mul {a b : Nat} (ha : a < MODULUS) (hb : b < MODULUS) :
    toF (mul a b) = toF a * toF b := by
  rw [toF, mul_cast (lt_W ha) (lt_W hb), toF, toF]; ring

theorem square_lt {a : Nat} (ha : a < MODULUS) : square a < MODULUS := mul_lt ha ha

theorem toF_square {a : Nat} (ha : a < MODULUS) : toF (square a) = toF a ^ 2 := by
  rw [square, toF_mul ha ha, pow_two]

theorem one_lt : one < MODULUS := by norm_num [one, R, MODULUS]
theorem toF_one : toF one = 1 := rinv_R
theorem zero_lt : zero < MODULUS := by norm_num [zero, MODULUS]
theorem toF_zero : toF 0 = 0 := by simp [toF]

/-! ### addition, subtraction -/

theorem addNocarry_eq {a b : Nat} (ha : a < MODULUS) (hb : b < MODULUS) :
    addNocarry a b = if a + b < W then a + b else a + b - MODULUS := by
  have hdef : addNocarry a b = if (a + b + 0) / W > 0 then ((a + b + 0) % W + R2) % W
      else (a + b + 0) % W := rfl
  rw [hdef]
  by_cases h : a + b < W
  · rw [if_pos h, if_neg (by gomega)]; gomega
  · rw [if_neg h, if_pos (by gomega)]; gomega

theorem addNocarry_lt {a b : Nat} (ha : a < MODULUS) (hb : b < MODULUS) : addNocarry a b < W := by
  rw [addNocarry_eq ha hb]; split
  · assumption
  · gomega

theorem add_eq {a b : Nat} (ha : a < MODULUS) (hb : b < MODULUS) :
    add a b = (a + b) % MODULUS := by
  rw [add, reduce_mod (addNocarry_lt ha hb), addNocarry_eq ha hb]
  split
  · rfl
  · rw [← Nat.mod_eq_sub_mod]; gomega

theorem p_pos : 0 < MODULUS := by norm_num [W, MODULUS]

theorem add_lt {a b : Nat} (ha : a < MODULUS) (hb : b < MODULUS) : add a b < MODULUS := by
  rw [add_eq ha hb]; exact Nat.mod_lt _ p_pos

theorem toF_add {a b : Nat} (ha : a < MODULUS) (hb : b < MODULUS) :
    toF (add a b) = toF a + toF b := by
  rw [toF, add_eq ha hb, ZMod.natCast_mod, toF, toF]; push_cast; ring

theorem mul2_eq {a : Nat} (ha : a < MODULUS) :
    mul2 a = if a + a < W then a + a else a + a - MODULUS := by
  simp only [mul2, Nat.shiftRight_eq_div_pow, Nat.shiftLeft_eq, Nat.or_zero]
  by_cases h : a + a < W
  · rw [if_pos h, if_neg (by gomega)]; gomega
  · rw [if_neg h, if_pos (by gomega)]; gomega

theorem double_eq {a : Nat} (ha : a < MODULUS) : double a = (a + a) % MODULUS := by
  have h1 : mul2 a < W := by
    rw [mul2_eq ha]; split
    · assumption
    · gomega
  rw [double, reduce_mod h1, mul2_eq ha]
  split
  · rfl
  · rw [← Nat.mod_eq_sub_mod]; gomega

theorem sub_eq {a b : Nat} (ha : a < MODULUS) (hb : b < MODULUS) :
    sub a b = if b ≤ a then a - b else a + MODULUS - b := by
  rw [sub]
  by_cases h : b ≤ a
  · rw [if_neg (by omega), if_pos h, subNoborrow_eq (lt_W ha) h]
  · rw [if_pos (by omega), if_neg h, subNoborrow_eq hMW hb.le]
    have h1 : MODULUS - b < MODULUS := by gomega
    rw [addNocarry_eq ha h1, if_pos (by gomega)]
    gomega

theorem sub_lt {a b : Nat} (ha : a < MODULUS) (hb : b < MODULUS) : sub a b < MODULUS := by
  rw [sub_eq ha hb]; split <;> gomega

theorem toF_sub {a b : Nat} (ha : a < MODULUS) (hb : b < MODULUS) :
    toF (sub a b) = toF a - toF b := by
  rw [toF, toF, toF, sub_eq ha hb]
  split
  · next h => rw [Nat.cast_sub h]; ring
  · rw [Nat.cast_sub (by gomega), Nat.cast_add, ZMod.natCast_self]; ring

theorem neg_eq {a : Nat} (ha : a < MODULUS) : neg a = if a = 0 then 0 else MODULUS - a := by
  rw [neg]
  by_cases h : a = 0
  · simp [h]
  · rw [if_pos h, if_neg h, subNoborrow_eq hMW ha.le]

theorem neg_lt {a : Nat} (ha : a < MODULUS) : neg a < MODULUS := by
  rw [neg_eq ha]; split <;> gomega

theorem toF_neg {a : Nat} (ha : a < MODULUS) : toF (neg a) = - toF a := by
  rw [toF, neg_eq ha]
  split
  · next h => simp [h, toF]
  · rw [Nat.cast_sub ha.le, ZMod.natCast_self, toF]; ring

/-! ### conversions -/

theorem asInt_lt {a : Nat} (ha : a < W) : asInt a < MODULUS := (montReduce_spec ha W_pos).1

theorem asInt_cast {a : Nat} (ha : a < W) : ((asInt a : Nat) : F) = toF a := by
  rw [asInt, intoRepr, montReduce_cast ha W_pos, toF]; simp

theorem asInt_val {a : Nat} (ha : a < W) : asInt a = (toF a).val := by
  rw [← asInt_cast ha, ZMod.val_natCast, Nat.mod_eq_of_lt (asInt_lt ha)]

theorem R2_lt : R2 < MODULUS := by norm_num [R2, MODULUS]

theorem toF_R2 : toF R2 = (R : F) := by
  have : ((R2 : Nat) : F) = (R : F) * (R : F) := by
    rw [← Nat.cast_mul, ZMod.natCast_eq_natCast_iff']; decide +kernel
  rw [toF, this, mul_assoc, rinv_R, mul_one]

theorem toF_mul_R2 {v : Nat} (hv : v < MODULUS) : toF (mul v R2) = (v : F) := by
  rw [toF_mul hv R2_lt, toF_R2, toF, mul_assoc, mul_comm rinv, rinv_R, mul_one]

end Verif.GL
