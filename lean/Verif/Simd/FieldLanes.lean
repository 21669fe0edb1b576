import Verif.Simd.Field

/-!
# What each packed operation computes in each lane
-/
namespace Verif.Simd

/-- the value that a shifted lane stands for -/
def uns (x : U64) : Nat := (x.toNat + 9223372036854775808) % 18446744073709551616

theorem uns_lt (x : U64) : uns x < 18446744073709551616 := Nat.mod_lt _ (by norm_num)
theorem canonV_lt {v : Nat} (h : v < 18446744073709551616) : canonV v < 18446744069414584321 := by unfold canonV; split_ifs <;> omega
theorem canonV_eq {v : Nat} (h : v < 18446744073709551616) : canonV v = v % 18446744069414584321 := by unfold canonV; split_ifs <;> omega
theorem canonV_le (v : Nat) : canonV v ≤ v := by unfold canonV; split_ifs <;> omega

theorem mulLo32_toNat {n : Nat} (a b : Reg n) (k : Fin n) : (mulLo32 a b k).toNat = ((a k).toNat % 4294967296) * ((b k).toNat % 4294967296) := by
  have h1 : (a k).toNat % 4294967296 ≤ 4294967295 := by omega
  have h2 : (b k).toNat % 4294967296 ≤ 4294967295 := by omega
  have h3 := Nat.mul_le_mul h1 h2
  simp only [mulLo32, BitVec.toNat_mul, BitVec.toNat_setWidth, lo32_toNat, Nat.reducePow]
  rw [Nat.mod_eq_of_lt (a := (a k).toNat % 4294967296) (by omega), Nat.mod_eq_of_lt (a := (b k).toNat % 4294967296) (by omega)]
  omega
theorem srl_toNat {n : Nat} (c : Nat) (a : Reg n) (k : Fin n) : (srl c a k).toNat = (a k).toNat / 2 ^ c := by
  simp only [srl, BitVec.toNat_ushiftRight, Nat.shiftRight_eq_div_pow]
theorem sll_toNat {n : Nat} (c : Nat) (a : Reg n) (k : Fin n) : (sll c a k).toNat = (a k).toNat * 2 ^ c % 18446744073709551616 := by
  simp only [sll, BitVec.toNat_shiftLeft, Nat.shiftLeft_eq, Nat.reducePow]
theorem add64_toNat {n : Nat} (a b : Reg n) (k : Fin n) : (add64 a b k).toNat = ((a k).toNat + (b k).toNat) % 18446744073709551616 := by
  simp only [add64, BitVec.toNat_add, Nat.reducePow]
theorem sub64_toNat {n : Nat} (a b : Reg n) (k : Fin n) :
    (sub64 a b k).toNat = (18446744073709551616 - (b k).toNat + (a k).toNat) % 18446744073709551616 := by
  simp only [sub64, BitVec.toNat_sub, Nat.reducePow]
theorem movehdup_lo {n : Nat} (a : Reg n) (k : Fin n) : (movehdup a k).toNat % 4294967296 = (a k).toNat / 4294967296 := by
  have := toNat_lt32 (hi32 (a k))
  have h := hi32_toNat (a k)
  simp only [movehdup, mk64_toNat]; omega
theorem andEps_toNat {n : Nat} (a : Reg n) (k : Fin n) : (and a (splat epsilon) k).toNat = (a k).toNat % 4294967296 := by
  simp only [and, splat, BitVec.toNat_and, epsilon_toNat]
  exact Nat.and_two_pow_sub_one_eq_mod _ 32

/-- the lanes after a blend that keeps the low halves of `a` and the high halves of `b` -/
theorem blend_low {n : Nat} (imm : Nat) (a b : Reg n) (k : Fin n) (h1 : imm.testBit (2 * k + 1) = true) (h0 : imm.testBit (2 * k) = false) :
    (blend32 imm a b k).toNat = (b k).toNat / 4294967296 * 4294967296 + (a k).toNat % 4294967296 := by
  simp only [blend32, h1, h0, if_true, Bool.false_eq_true, if_false, mk64_toNat, hi32_toNat, lo32_toNat]
theorem blend_high {n : Nat} (imm : Nat) (a b : Reg n) (k : Fin n) (h1 : imm.testBit (2 * k + 1) = false) (h0 : imm.testBit (2 * k) = true) :
    (blend32 imm a b k).toNat = (a k).toNat / 4294967296 * 4294967296 + (b k).toNat % 4294967296 := by
  simp only [blend32, h1, h0, if_true, Bool.false_eq_true, if_false, mk64_toNat, hi32_toNat, lo32_toNat]
theorem moveldup_hi {n : Nat} (a : Reg n) (k : Fin n) : (moveldup a k).toNat / 4294967296 = (a k).toNat % 4294967296 := by
  have := toNat_lt32 (lo32 (a k))
  have h := lo32_toNat (a k)
  simp only [moveldup, mk64_toNat]; omega

/-- the schoolbook product of two lanes from the products of their halves -/
theorem schoolbook {x y ll lh hl hh : Nat} (hx : x < 18446744073709551616) (hy : y < 18446744073709551616)
    (hll : ll = x % 4294967296 * (y % 4294967296)) (hlh : lh = x % 4294967296 * (y / 4294967296))
    (hhl : hl = x / 4294967296 * (y % 4294967296)) (hhh : hh = x / 4294967296 * (y / 4294967296)) :
    x * y = hh * 18446744073709551616 + (lh + hl) * 4294967296 + ll ∧
    ll ≤ 18446744065119617025 ∧ lh ≤ 18446744065119617025 ∧ hl ≤ 18446744065119617025 ∧ hh ≤ 18446744065119617025 := by
  have a1 : x % 4294967296 ≤ 4294967295 := by omega
  have a2 : y % 4294967296 ≤ 4294967295 := by omega
  have a3 : x / 4294967296 ≤ 4294967295 := by omega
  have a4 : y / 4294967296 ≤ 4294967295 := by omega
  refine ⟨?_, hll ▸ Nat.mul_le_mul a1 a2, hlh ▸ Nat.mul_le_mul a1 a4, hhl ▸ Nat.mul_le_mul a3 a2, hhh ▸ Nat.mul_le_mul a3 a4⟩
  have ex : x = x / 4294967296 * 4294967296 + x % 4294967296 := by omega
  have ey : y = y / 4294967296 * 4294967296 + y % 4294967296 := by omega
  subst hll hlh hhl hhh
  generalize x / 4294967296 = a at *
  generalize x % 4294967296 = b at *
  generalize y / 4294967296 = c at *
  generalize y % 4294967296 = d at *
  subst ex ey
  ring

/-- the value of a high and a low word, reduced as in `reduce128` -/
def red (h l : Nat) : Nat := (h * 18446744073709551616 + l) % 18446744069414584321

theorem red_eq (h l : Nat) : red h l = (l + h % 4294967296 * 4294967295 + (18446744069414584321 - h / 4294967296 % 18446744069414584321)) % 18446744069414584321 := by
  unfold red
  omega

namespace Avx2

theorem shift_uns (x : Reg 4) (k : Fin 4) : uns (shift x k) = (x k).toNat := by
  have := toNat_lt (x k)
  simp only [uns, shift, xor, splat, shift_toNat]; omega

theorem shift_toNat' (x : Reg 4) (k : Fin 4) : (shift x k).toNat = uns (x k) := by
  simp only [uns, shift, xor, splat, shift_toNat]

theorem shiftedOrder_uns (k : Fin 4) : ((shiftedOrder k).toNat + 9223372036854775808) % 18446744073709551616 = 18446744069414584321 := by
  simp only [shiftedOrder, splat, shift_toNat, order_toNat]

theorem canonicalizeS_uns (xs : Reg 4) (k : Fin 4) : uns (canonicalizeS xs k) = canonV (uns (xs k)) := by
  have hx := toNat_lt (xs k)
  have hu := uns_lt (xs k)
  have hd : uns (xs k) = ((xs k).toNat + 9223372036854775808) % 18446744073709551616 := rfl
  have hw : (andnot (cmpgt64 shiftedOrder xs) (splat epsilon) k).toNat = if uns (xs k) < 18446744069414584321 then 0 else 4294967295 := by
    simp only [andnot, cmpgt64, splat, slt_toNat, shiftedOrder_uns]
    rw [← hd]
    by_cases h : uns (xs k) < 18446744069414584321
    · simp [h]
    · simp [h, epsilon_toNat]
  show (((add64 xs (andnot (cmpgt64 shiftedOrder xs) (splat epsilon))) k).toNat + _) % _ = _
  rw [add64_toNat, hw]
  unfold canonV
  split_ifs <;> omega

theorem cmpgt64_srl (a b : Reg 4) (k : Fin 4) : (srl 32 (cmpgt64 a b) k).toNat = if uns (b k) < uns (a k) then 4294967295 else 0 := by
  rw [srl_toNat]
  simp only [cmpgt64, slt_toNat]
  unfold uns
  split_ifs with h1 h2 h2 <;> simp_all

theorem cmpgt32_srl (a b : Reg 4) (k : Fin 4) :
    (srl 32 (cmpgt32 a b) k).toNat = if uns (b k) / 4294967296 < uns (a k) / 4294967296 then 4294967295 else 0 := by
  have ha := toNat_lt (a k)
  have hb := toNat_lt (b k)
  rw [srl_toNat]
  simp only [cmpgt32, mk64_toNat, gt32, slt32_toNat, hi32_toNat]
  have e1 : ((b k).toNat / 4294967296 + 2147483648) % 4294967296 = uns (b k) / 4294967296 := by unfold uns; omega
  have e2 : ((a k).toNat / 4294967296 + 2147483648) % 4294967296 = uns (a k) / 4294967296 := by unfold uns; omega
  rw [e1, e2]
  have hl := toNat_lt32 (if decide (((lo32 (b k)).toNat + 2147483648) % 4294967296 < ((lo32 (a k)).toNat + 2147483648) % 4294967296) = true then
    BitVec.allOnes 32 else (0 : BitVec 32))
  generalize (if decide (((lo32 (b k)).toNat + 2147483648) % 4294967296 < ((lo32 (a k)).toNat + 2147483648) % 4294967296) = true then
    BitVec.allOnes 32 else (0 : BitVec 32)).toNat = z at *
  by_cases h : uns (b k) / 4294967296 < uns (a k) / 4294967296
  · simp only [h, decide_true, if_true, BitVec.toNat_allOnes]; omega
  · simp only [h, decide_false, Bool.false_eq_true, if_false]
    have : (0 : BitVec 32).toNat = 0 := rfl
    omega

theorem addNoDouble_uns (x ys : Reg 4) (k : Fin 4) (h : (x k).toNat + uns (ys k) < 18446744073709551616 + 18446744069414584321) :
    uns (addNoDouble x ys k) = if (x k).toNat + uns (ys k) < 18446744073709551616 then (x k).toNat + uns (ys k)
      else (x k).toNat + uns (ys k) - 18446744069414584321 := by
  have hx := toNat_lt (x k)
  have hy := toNat_lt (ys k)
  have hd : uns (ys k) = ((ys k).toNat + 9223372036854775808) % 18446744073709551616 := rfl
  have hr : uns (add64 x ys k) = ((x k).toNat + uns (ys k)) % 18446744073709551616 := by
    unfold uns; rw [add64_toNat]; omega
  show (((add64 (add64 x ys) (srl 32 (cmpgt64 ys (add64 x ys)))) k).toNat + _) % _ = _
  rw [add64_toNat, cmpgt64_srl, add64_toNat, hr]
  split_ifs <;> omega

theorem add_toNat (x y : Reg 4) (k : Fin 4) : (add x y k).toNat = ((x k).toNat + (y k).toNat) % 18446744069414584321 := by
  have hx := toNat_lt (x k)
  have hy := toNat_lt (y k)
  have hc := canonV_lt hy
  show (shift (canonicalizeS (addNoDouble x (canonicalizeS (shift y)))) k).toNat = _
  have e : uns (canonicalizeS (shift y) k) = canonV (y k).toNat := by rw [canonicalizeS_uns, shift_uns]
  rw [shift_toNat', canonicalizeS_uns, addNoDouble_uns _ _ _ (by omega), e]
  have hc' := canonV_eq hy
  have hr : (if (x k).toNat + canonV (y k).toNat < 18446744073709551616 then (x k).toNat + canonV (y k).toNat
    else (x k).toNat + canonV (y k).toNat - 18446744069414584321) < 18446744073709551616 := by split_ifs <;> omega
  rw [canonV_eq hr]
  split_ifs <;> omega

theorem sub_toNat (x y : Reg 4) (k : Fin 4) : (sub x y k).toNat =
    if canonV (y k).toNat ≤ (x k).toNat then (x k).toNat - canonV (y k).toNat else (x k).toNat + 18446744069414584321 - canonV (y k).toNat := by
  have hx := toNat_lt (x k)
  have hy := toNat_lt (y k)
  have hc := canonV_lt hy
  show (sub64 (sub64 (shift x) (canonicalizeS (shift y))) (srl 32 (cmpgt64 (canonicalizeS (shift y)) (shift x))) k).toNat = _
  have e : uns (canonicalizeS (shift y) k) = canonV (y k).toNat := by rw [canonicalizeS_uns, shift_uns]
  have e1 : (canonicalizeS (shift y) k).toNat = (canonV (y k).toNat + 9223372036854775808) % 18446744073709551616 := by
    have h := toNat_lt (canonicalizeS (shift y) k)
    rw [← e]; unfold uns; omega
  rw [sub64_toNat, sub64_toNat, cmpgt64_srl, e, shift_uns, e1, shift_toNat']
  unfold uns
  split_ifs <;> omega

theorem neg_toNat (y : Reg 4) (k : Fin 4) : (neg y k).toNat = 18446744069414584321 - canonV (y k).toNat := by
  have hy := toNat_lt (y k)
  have hc := canonV_lt hy
  have e : uns (canonicalizeS (shift y) k) = canonV (y k).toNat := by rw [canonicalizeS_uns, shift_uns]
  have e1 : (canonicalizeS (shift y) k).toNat = (canonV (y k).toNat + 9223372036854775808) % 18446744073709551616 := by
    have h := toNat_lt (canonicalizeS (shift y) k)
    rw [← e]; unfold uns; omega
  have h2 := shiftedOrder_uns k
  have h3 := toNat_lt (shiftedOrder k)
  show (sub64 shiftedOrder (canonicalizeS (shift y)) k).toNat = _
  rw [sub64_toNat, e1]
  omega

theorem addSmall_uns (xs y : Reg 4) (k : Fin 4) (h : (y k).toNat ≤ 18446744069414584320) :
    uns (addSmall xs y k) = if uns (xs k) + (y k).toNat < 18446744073709551616 then uns (xs k) + (y k).toNat
      else uns (xs k) + (y k).toNat - 18446744069414584321 := by
  have hx := uns_lt (xs k)
  have hx' := toNat_lt (xs k)
  have hd : uns (xs k) = ((xs k).toNat + 9223372036854775808) % 18446744073709551616 := rfl
  have hr : uns (add64 xs y k) = (uns (xs k) + (y k).toNat) % 18446744073709551616 := by
    unfold uns; rw [add64_toNat]; omega
  show (((add64 (add64 xs y) (srl 32 (cmpgt32 xs (add64 xs y)))) k).toNat + _) % _ = _
  rw [add64_toNat, cmpgt32_srl, hr, add64_toNat]
  split_ifs <;> omega

theorem subSmall_uns (xs y : Reg 4) (k : Fin 4) (h : (y k).toNat ≤ 18446744069414584320) :
    uns (subSmall xs y k) = if (y k).toNat ≤ uns (xs k) then uns (xs k) - (y k).toNat else uns (xs k) + 18446744069414584321 - (y k).toNat := by
  have hx := uns_lt (xs k)
  have hx' := toNat_lt (xs k)
  have hd : uns (xs k) = ((xs k).toNat + 9223372036854775808) % 18446744073709551616 := rfl
  have hr : uns (sub64 xs y k) = (18446744073709551616 - (y k).toNat + uns (xs k)) % 18446744073709551616 := by
    unfold uns; rw [sub64_toNat]; omega
  show (((sub64 (sub64 xs y) (srl 32 (cmpgt32 (sub64 xs y) xs))) k).toNat + _) % _ = _
  rw [sub64_toNat, cmpgt32_srl, hr, sub64_toNat]
  split_ifs <;> omega

theorem reduce128_toNat (h l : Reg 4) (k : Fin 4) : (reduce128 (h, l) k).toNat = red (h k).toNat (l k).toNat := by
  have hh := toNat_lt (h k)
  have hl := toNat_lt (l k)
  show (shift (canonicalizeS (addSmall (subSmall (shift l) (srl 32 h)) (mulLo32 h (splat epsilon)))) k).toNat = _
  have e1 : (srl 32 h k).toNat = (h k).toNat / 4294967296 := by rw [srl_toNat]; rfl
  have e2 : (mulLo32 h (splat epsilon) k).toNat = (h k).toNat % 4294967296 * 4294967295 := by
    rw [mulLo32_toNat]; simp only [splat, epsilon_toNat]
  have s1 := subSmall_uns (shift l) (srl 32 h) k (by rw [e1]; omega)
  rw [e1, shift_uns] at s1
  have s2 := addSmall_uns (subSmall (shift l) (srl 32 h)) (mulLo32 h (splat epsilon)) k (by rw [e2]; omega)
  rw [e2] at s2
  rw [shift_toNat', canonicalizeS_uns, canonV_eq (uns_lt _), s2, red_eq]
  generalize uns (subSmall (shift l) (srl 32 h) k) = u at *
  split_ifs at * <;> omega

theorem mul64_toNat (x y : Reg 4) (k : Fin 4) :
    ((mul64 x y).1 k).toNat * 18446744073709551616 + ((mul64 x y).2 k).toNat = (x k).toNat * (y k).toNat := by
  have m0 : Nat.testBit 0xaa (2 * k) = false := by revert k; decide
  have m1 : Nat.testBit 0xaa (2 * k + 1) = true := by revert k; decide
  obtain ⟨hm, b1, b2, b3, b4⟩ := schoolbook (toNat_lt (x k)) (toNat_lt (y k)) rfl rfl rfl rfl
  simp only [mul64]
  rw [blend_low 0xaa _ _ k m1 m0, moveldup_hi]
  simp only [add64_toNat, srl_toNat, andEps_toNat, mulLo32_toNat, movehdup_lo, Nat.reducePow]
  rw [hm]
  omega

theorem square64_toNat (x : Reg 4) (k : Fin 4) :
    ((square64 x).1 k).toNat * 18446744073709551616 + ((square64 x).2 k).toNat = (x k).toNat * (x k).toNat := by
  obtain ⟨hm, b1, b2, b3, b4⟩ := schoolbook (toNat_lt (x k)) (toNat_lt (x k)) rfl rfl rfl rfl
  have hc : (x k).toNat / 4294967296 * ((x k).toNat % 4294967296) = (x k).toNat % 4294967296 * ((x k).toNat / 4294967296) := Nat.mul_comm _ _
  simp only [square64]
  simp only [add64_toNat, srl_toNat, sll_toNat, mulLo32_toNat, movehdup_lo, Nat.reducePow]
  rw [hm, hc]
  omega

theorem mul_toNat (x y : Reg 4) (k : Fin 4) : (mul x y k).toNat = (x k).toNat * (y k).toNat % 18446744069414584321 := by
  show (reduce128 ((mul64 x y).1, (mul64 x y).2) k).toNat = _
  rw [reduce128_toNat, red, mul64_toNat]

theorem square_toNat (x : Reg 4) (k : Fin 4) : (square x k).toNat = (x k).toNat * (x k).toNat % 18446744069414584321 := by
  show (reduce128 ((square64 x).1, (square64 x).2) k).toNat = _
  rw [reduce128_toNat, red, square64_toNat]

end Avx2

namespace Avx512

theorem canonicalize_toNat (x : Reg 8) (k : Fin 8) : (canonicalize x k).toNat = canonV (x k).toNat := by
  have hx := toNat_lt (x k)
  have hm : cmpgeMask x (splat order) k = decide (18446744069414584321 ≤ (x k).toNat) := rfl
  show (if cmpgeMask x (splat order) k = true then x k - order else x k).toNat = _
  unfold canonV
  by_cases h : (x k).toNat < 18446744069414584321
  · rw [if_pos h, hm, if_neg (by simpa using h)]
  · rw [if_neg h, hm, if_pos (by simpa using h), BitVec.toNat_sub, order_toNat]; omega

theorem addNoDouble_toNat (x y : Reg 8) (k : Fin 8) (h : (x k).toNat + (y k).toNat < 18446744073709551616 + 18446744069414584321) :
    (addNoDouble x y k).toNat = if (x k).toNat + (y k).toNat < 18446744073709551616 then (x k).toNat + (y k).toNat
      else (x k).toNat + (y k).toNat - 18446744069414584321 := by
  have hx := toNat_lt (x k)
  have hy := toNat_lt (y k)
  simp only [addNoDouble, maskSub, cmpltMask, splat, BitVec.ult, add64_toNat, decide_eq_true_eq]
  by_cases h' : (x k).toNat + (y k).toNat < 18446744073709551616
  · rw [if_neg (by omega), if_pos h', add64_toNat]; omega
  · rw [if_pos (by omega), if_neg h', BitVec.toNat_sub, add64_toNat, order_toNat]; omega

theorem subNoDouble_toNat (x y : Reg 8) (k : Fin 8) (h : (y k).toNat < 18446744069414584321) :
    (subNoDouble x y k).toNat = if (y k).toNat ≤ (x k).toNat then (x k).toNat - (y k).toNat else (x k).toNat + 18446744069414584321 - (y k).toNat := by
  have hx := toNat_lt (x k)
  have hy := toNat_lt (y k)
  simp only [subNoDouble, maskAdd, cmpltMask, splat, BitVec.ult, decide_eq_true_eq]
  by_cases h' : (y k).toNat ≤ (x k).toNat
  · rw [if_neg (by omega), if_pos h', sub64_toNat]; omega
  · rw [if_pos (by omega), if_neg h', BitVec.toNat_add, sub64_toNat, order_toNat]; omega

theorem add_toNat (x y : Reg 8) (k : Fin 8) : (add x y k).toNat = ((x k).toNat + (y k).toNat) % 18446744069414584321 := by
  have hx := toNat_lt (x k)
  have hy := toNat_lt (y k)
  have hc := canonV_lt hy
  have hc' := canonV_eq hy
  have e := addNoDouble_toNat x (canonicalize y) k (by rw [canonicalize_toNat]; omega)
  rw [canonicalize_toNat] at e
  have hr := toNat_lt (addNoDouble x (canonicalize y) k)
  show (canonicalize (addNoDouble x (canonicalize y)) k).toNat = _
  rw [canonicalize_toNat, canonV_eq hr, e]
  split_ifs <;> omega

theorem sub_toNat (x y : Reg 8) (k : Fin 8) : (sub x y k).toNat =
    if canonV (y k).toNat ≤ (x k).toNat then (x k).toNat - canonV (y k).toNat else (x k).toNat + 18446744069414584321 - canonV (y k).toNat := by
  have hc := canonV_lt (toNat_lt (y k))
  rw [sub, subNoDouble_toNat _ _ _ (by rw [canonicalize_toNat]; exact hc), canonicalize_toNat]

theorem neg_toNat (y : Reg 8) (k : Fin 8) : (neg y k).toNat = 18446744069414584321 - canonV (y k).toNat := by
  have hc := canonV_lt (toNat_lt (y k))
  rw [neg, sub64_toNat, canonicalize_toNat]
  simp only [splat, order_toNat]
  omega

theorem reduce128_toNat (h l : Reg 8) (k : Fin 8) : (reduce128 (h, l) k).toNat = red (h k).toNat (l k).toNat := by
  have hh := toNat_lt (h k)
  have hl := toNat_lt (l k)
  show (canonicalize (addNoDouble (subNoDouble l (srl 32 h)) (mulLo32 h (splat epsilon))) k).toNat = _
  have e1 : (srl 32 h k).toNat = (h k).toNat / 4294967296 := by rw [srl_toNat]; rfl
  have e2 : (mulLo32 h (splat epsilon) k).toNat = (h k).toNat % 4294967296 * 4294967295 := by
    rw [mulLo32_toNat]; simp only [splat, epsilon_toNat]
  have s1 := subNoDouble_toNat l (srl 32 h) k (by rw [e1]; omega)
  rw [e1] at s1
  have hu := toNat_lt (subNoDouble l (srl 32 h) k)
  have s2 := addNoDouble_toNat (subNoDouble l (srl 32 h)) (mulLo32 h (splat epsilon)) k (by rw [e2]; omega)
  rw [e2] at s2
  rw [canonicalize_toNat, canonV_eq (toNat_lt _), s2, red_eq]
  generalize (subNoDouble l (srl 32 h) k).toNat = u at *
  split_ifs at * <;> omega

theorem mul64_toNat (x y : Reg 8) (k : Fin 8) :
    ((mul64 x y).1 k).toNat * 18446744073709551616 + ((mul64 x y).2 k).toNat = (x k).toNat * (y k).toNat := by
  have m0 : Nat.testBit 0b0101010101010101 (2 * k) = true := by revert k; decide
  have m1 : Nat.testBit 0b0101010101010101 (2 * k + 1) = false := by revert k; decide
  obtain ⟨hm, b1, b2, b3, b4⟩ := schoolbook (toNat_lt (x k)) (toNat_lt (y k)) rfl rfl rfl rfl
  simp only [mul64]
  rw [blend_high 0b0101010101010101 _ _ k m1 m0, moveldup_hi]
  simp only [add64_toNat, srl_toNat, andEps_toNat, mulLo32_toNat, movehdup_lo, Nat.reducePow]
  rw [hm]
  omega

theorem square64_toNat (x : Reg 8) (k : Fin 8) :
    ((square64 x).1 k).toNat * 18446744073709551616 + ((square64 x).2 k).toNat = (x k).toNat * (x k).toNat := by
  obtain ⟨hm, b1, b2, b3, b4⟩ := schoolbook (toNat_lt (x k)) (toNat_lt (x k)) rfl rfl rfl rfl
  have hc : (x k).toNat / 4294967296 * ((x k).toNat % 4294967296) = (x k).toNat % 4294967296 * ((x k).toNat / 4294967296) := Nat.mul_comm _ _
  simp only [square64]
  simp only [add64_toNat, srl_toNat, sll_toNat, mulLo32_toNat, movehdup_lo, Nat.reducePow]
  rw [hm, hc]
  omega

theorem mul_toNat (x y : Reg 8) (k : Fin 8) : (mul x y k).toNat = (x k).toNat * (y k).toNat % 18446744069414584321 := by
  show (reduce128 ((mul64 x y).1, (mul64 x y).2) k).toNat = _
  rw [reduce128_toNat, red, mul64_toNat]

theorem square_toNat (x : Reg 8) (k : Fin 8) : (square x k).toNat = (x k).toNat * (x k).toNat % 18446744069414584321 := by
  show (reduce128 ((square64 x).1, (square64 x).2) k).toNat = _
  rw [reduce128_toNat, red, square64_toNat]

end Avx512
end Verif.Simd
