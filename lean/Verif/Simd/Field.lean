import Verif.Simd.Intrinsics
import Verif.GL.Props

/-!
# The packed Goldilocks arithmetic, AVX2 (four lanes) and AVX-512 (eight lanes)

A lane holds the plain (non-Montgomery) integer of an `FrRepr`; every 64-bit pattern can occur.
-/
namespace Verif.Simd
open Verif.GL (MODULUS W)

/-- `GOLDILOCKS_FIELD_ORDER`, fields/src/arch/x86_64/avx2_field_gl.rs L299, avx512_field_gl.rs L257 -/
def order : U64 := 0xFFFFFFFF00000001#64
/-- `EPSILON`, avx2_field_gl.rs L297, avx512_field_gl.rs L255 -/
def epsilon : U64 := 4294967295#64
/-- `i64::MIN`, avx2_field_gl.rs L294 -/
def signBit : U64 := 0x8000000000000000#64

namespace Avx2

/-- `SHIFTED_FIELD_ORDER`, avx2_field_gl.rs L295-296 -/
def shiftedOrder : Reg 4 := splat (order ^^^ signBit)
/-- `shift`, avx2_field_gl.rs L303-306 -/
def shift (x : Reg 4) : Reg 4 := xor x (splat signBit)
/-- `canonicalize_s`, avx2_field_gl.rs L313-319 -/
def canonicalizeS (xs : Reg 4) : Reg 4 :=
  let mask := cmpgt64 shiftedOrder xs
  let wrapback := andnot mask (splat epsilon)
  add64 xs wrapback
/-- `add_no_double_overflow_64_64s_s`, avx2_field_gl.rs L324-330 -/
def addNoDouble (x ys : Reg 4) : Reg 4 :=
  let res := add64 x ys
  let mask := cmpgt64 ys res
  let wrapback := srl 32 mask
  add64 res wrapback
/-- `add`, avx2_field_gl.rs L333-338 -/
def add (x y : Reg 4) : Reg 4 :=
  let ys := shift y
  let ress := addNoDouble x (canonicalizeS ys)
  shift (canonicalizeS ress)
/-- `sub`, avx2_field_gl.rs L341-350 -/
def sub (x y : Reg 4) : Reg 4 :=
  let ys := canonicalizeS (shift y)
  let xs := shift x
  let mask := cmpgt64 ys xs
  let wrapback := srl 32 mask
  let res := sub64 xs ys
  sub64 res wrapback
/-- `neg`, avx2_field_gl.rs L353-356 -/
def neg (y : Reg 4) : Reg 4 := sub64 shiftedOrder (canonicalizeS (shift y))
/-- `mul64_64`, avx2_field_gl.rs L361-398: (high word, low word) -/
def mul64 (x y : Reg 4) : Reg 4 × Reg 4 :=
  let xhi := movehdup x
  let yhi := movehdup y
  let ll := mulLo32 x y
  let lh := mulLo32 x yhi
  let hl := mulLo32 xhi y
  let hh := mulLo32 xhi yhi
  let llhi := srl 32 ll
  let t0 := add64 hl llhi
  let t0lo := and t0 (splat epsilon)
  let t0hi := srl 32 t0
  let t1 := add64 lh t0lo
  let t2 := add64 hh t0hi
  let t1hi := srl 32 t1
  let reshi := add64 t2 t1hi
  let t1lo := moveldup t1
  let reslo := blend32 0xaa ll t1lo
  (reshi, reslo)
/-- `square64`, avx2_field_gl.rs L402-423 -/
def square64 (x : Reg 4) : Reg 4 × Reg 4 :=
  let xhi := movehdup x
  let ll := mulLo32 x x
  let lh := mulLo32 x xhi
  let hh := mulLo32 xhi xhi
  let llhi := srl 33 ll
  let t0 := add64 lh llhi
  let t0hi := srl 31 t0
  let reshi := add64 hh t0hi
  let lhlo := sll 33 lh
  let reslo := add64 ll lhlo
  (reshi, reslo)
/-- `add_small_64s_64_s`, avx2_field_gl.rs L428-440 -/
def addSmall (xs y : Reg 4) : Reg 4 :=
  let res := add64 xs y
  let mask := cmpgt32 xs res
  let wrapback := srl 32 mask
  add64 res wrapback
/-- `sub_small_64s_64_s`, avx2_field_gl.rs L445-457 -/
def subSmall (xs y : Reg 4) : Reg 4 :=
  let res := sub64 xs y
  let mask := cmpgt32 res xs
  let wrapback := srl 32 mask
  sub64 res wrapback
/-- `reduce128`, avx2_field_gl.rs L460-470 -/
def reduce128 (x : Reg 4 × Reg 4) : Reg 4 :=
  let lo0s := shift x.2
  let hihi := srl 32 x.1
  let lo1s := subSmall lo0s hihi
  let t1 := mulLo32 x.1 (splat epsilon)
  let lo2s := addSmall lo1s t1
  shift (canonicalizeS lo2s)
/-- `mul`, avx2_field_gl.rs L474-476 -/
def mul (x y : Reg 4) : Reg 4 := reduce128 (mul64 x y)
/-- `square`, avx2_field_gl.rs L480-482 -/
def square (x : Reg 4) : Reg 4 := reduce128 (square64 x)

end Avx2

namespace Avx512

/-- `canonicalize`, avx512_field_gl.rs L260-263 -/
def canonicalize (x : Reg 8) : Reg 8 :=
  let mask := cmpgeMask x (splat order)
  maskSub x mask x (splat order)
/-- `add_no_double_overflow_64_64`, avx512_field_gl.rs L266-271 -/
def addNoDouble (x y : Reg 8) : Reg 8 :=
  let res := add64 x y
  let mask := cmpltMask res y
  maskSub res mask res (splat order)
/-- `sub_no_double_overflow_64_64`, avx512_field_gl.rs L274-279 -/
def subNoDouble (x y : Reg 8) : Reg 8 :=
  let mask := cmpltMask x y
  let res := sub64 x y
  maskAdd res mask res (splat order)
/-- `add`, avx512_field_gl.rs L282-285 -/
def add (x y : Reg 8) : Reg 8 := canonicalize (addNoDouble x (canonicalize y))
/-- `sub`, avx512_field_gl.rs L288-290 -/
def sub (x y : Reg 8) : Reg 8 := subNoDouble x (canonicalize y)
/-- `neg`, avx512_field_gl.rs L293-295 -/
def neg (y : Reg 8) : Reg 8 := sub64 (splat order) (canonicalize y)
/-- `mul64_64`, avx512_field_gl.rs L300-337, with `LO_32_BITS_MASK` of L297 -/
def mul64 (x y : Reg 8) : Reg 8 × Reg 8 :=
  let xhi := movehdup x
  let yhi := movehdup y
  let ll := mulLo32 x y
  let lh := mulLo32 x yhi
  let hl := mulLo32 xhi y
  let hh := mulLo32 xhi yhi
  let llhi := srl 32 ll
  let t0 := add64 hl llhi
  let t0lo := and t0 (splat epsilon)
  let t0hi := srl 32 t0
  let t1 := add64 lh t0lo
  let t2 := add64 hh t0hi
  let t1hi := srl 32 t1
  let reshi := add64 t2 t1hi
  let t1lo := moveldup t1
  let reslo := blend32 0b0101010101010101 t1lo ll
  (reshi, reslo)
/-- `square64`, avx512_field_gl.rs L340-361 -/
def square64 (x : Reg 8) : Reg 8 × Reg 8 :=
  let xhi := movehdup x
  let ll := mulLo32 x x
  let lh := mulLo32 x xhi
  let hh := mulLo32 xhi xhi
  let llhi := srl 33 ll
  let t0 := add64 lh llhi
  let t0hi := srl 31 t0
  let reshi := add64 hh t0hi
  let lhlo := sll 33 lh
  let reslo := add64 ll lhlo
  (reshi, reslo)
/-- `reduce128`, avx512_field_gl.rs L364-372 -/
def reduce128 (x : Reg 8 × Reg 8) : Reg 8 :=
  let hihi := srl 32 x.1
  let lo1 := subNoDouble x.2 hihi
  let t1 := mulLo32 x.1 (splat epsilon)
  let lo2 := addNoDouble lo1 t1
  canonicalize lo2
/-- `mul`, avx512_field_gl.rs L375-377 -/
def mul (x y : Reg 8) : Reg 8 := reduce128 (mul64 x y)
/-- `square`, avx512_field_gl.rs L380-382 -/
def square (x : Reg 8) : Reg 8 := reduce128 (square64 x)

end Avx512

/-! ### Lane arithmetic -/

/-- the canonical value of a lane -/
def canonV (v : Nat) : Nat := if v < 18446744069414584321 then v else v - 18446744069414584321

theorem toNat_lt (x : U64) : x.toNat < 18446744073709551616 := x.isLt
theorem toNat_lt32 (x : BitVec 32) : x.toNat < 4294967296 := x.isLt

theorem order_toNat : order.toNat = 18446744069414584321 := rfl
theorem epsilon_toNat : epsilon.toNat = 4294967295 := rfl

theorem lo32_toNat (x : U64) : (lo32 x).toNat = x.toNat % 4294967296 := by
  simp [lo32]
theorem hi32_toNat (x : U64) : (hi32 x).toNat = x.toNat / 4294967296 := by
  have := toNat_lt x
  simp only [hi32, BitVec.toNat_setWidth, BitVec.toNat_ushiftRight, Nat.shiftRight_eq_div_pow, Nat.reducePow]
  omega
theorem mk64_toNat (h l : BitVec 32) : (mk64 h l).toNat = h.toNat * 4294967296 + l.toNat := by
  have := toNat_lt32 l
  simp only [mk64, BitVec.toNat_append]
  rw [Nat.shiftLeft_eq, Nat.mul_comm h.toNat, ← Nat.two_pow_add_eq_or_of_lt (by simpa using this), Nat.mul_comm]

theorem xor_sign (x : U64) : x ^^^ signBit = x + signBit := by
  apply BitVec.eq_of_toNat_eq
  have hx := toNat_lt x
  rw [BitVec.toNat_xor, BitVec.toNat_add]
  show x.toNat ^^^ 2 ^ 63 = (x.toNat + 9223372036854775808) % 2 ^ 64
  by_cases h : x.toNat < 2 ^ 63
  · rw [Nat.xor_comm]
    have : 2 ^ 63 ^^^ x.toNat = 2 ^ 63 + x.toNat := by
      rw [show (2 : Nat) ^ 63 = 2 ^ 63 * 1 by rfl, Nat.two_pow_add_eq_or_of_lt h]
      apply Nat.eq_of_testBit_eq
      intro i
      rw [Nat.testBit_xor, Nat.testBit_or, Nat.mul_one, Nat.testBit_two_pow]
      by_cases hi : 63 = i
      · subst hi; rw [Nat.testBit_lt_two_pow h]; rfl
      · simp [hi]
    rw [this]; omega
  · obtain ⟨y, hy⟩ : ∃ y, x.toNat = 2 ^ 63 + y := ⟨x.toNat - 2 ^ 63, by omega⟩
    have hyl : y < 2 ^ 63 := by omega
    have : (2 ^ 63 + y) ^^^ 2 ^ 63 = y := by
      have : 2 ^ 63 + y = 2 ^ 63 ^^^ y := by
        rw [show (2 : Nat) ^ 63 = 2 ^ 63 * 1 by rfl, Nat.two_pow_add_eq_or_of_lt hyl]
        apply Nat.eq_of_testBit_eq
        intro i
        rw [Nat.testBit_xor, Nat.testBit_or, Nat.mul_one, Nat.testBit_two_pow]
        by_cases hi : 63 = i
        · subst hi; rw [Nat.testBit_lt_two_pow hyl]; rfl
        · simp [hi]
      rw [this, Nat.xor_comm, ← Nat.xor_assoc, Nat.xor_self, Nat.zero_xor]
    rw [hy, this]; omega

theorem shift_toNat (x : U64) : (x ^^^ signBit).toNat = (x.toNat + 9223372036854775808) % 18446744073709551616 := by
  rw [xor_sign, BitVec.toNat_add]; rfl

theorem slt_toNat (x y : U64) : x.slt y = decide ((x.toNat + 9223372036854775808) % 18446744073709551616 < (y.toNat + 9223372036854775808) % 18446744073709551616) := by
  have hx := toNat_lt x
  have hy := toNat_lt y
  unfold BitVec.slt
  simp only [BitVec.toInt_eq_toNat_cond, decide_eq_decide]
  split_ifs <;> omega

theorem slt32_toNat (x y : BitVec 32) : x.slt y = decide ((x.toNat + 2147483648) % 4294967296 < (y.toNat + 2147483648) % 4294967296) := by
  have hx := toNat_lt32 x
  have hy := toNat_lt32 y
  unfold BitVec.slt
  simp only [BitVec.toInt_eq_toNat_cond, decide_eq_decide]
  split_ifs <;> omega

end Verif.Simd
