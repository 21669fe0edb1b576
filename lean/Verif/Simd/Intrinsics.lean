import Mathlib.Tactic.Ring
import Mathlib.Tactic.NormNum
import Mathlib.Data.Fin.VecNotation

/-!
# The x86 vector instructions that the packed field code uses

A vector register of `n` lanes of 64 bits is a function on `Fin n`; lane 0 is the one at the lowest address, so that `transmute` from `[u64; n]` is the
identity.  These definitions restate Intel's documentation of the intrinsics and are trusted; each cites the place where the code uses it.
-/
namespace Verif.Simd

/-- a 64-bit lane -/
abbrev U64 := BitVec 64
/-- `__m256i` (`n = 4`) and `__m512i` (`n = 8`), fields/src/arch/x86_64/avx2_field_gl.rs L24-36, avx512_field_gl.rs L20-38 -/
abbrev Reg (n : Nat) := Fin n → U64

variable {n : Nat}

/-- the low and the high 32 bits of a lane -/
def lo32 (x : U64) : BitVec 32 := x.setWidth 32
def hi32 (x : U64) : BitVec 32 := (x >>> 32).setWidth 32
/-- a lane from its two halves -/
def mk64 (hi lo : BitVec 32) : U64 := hi ++ lo

/-- the same value in every lane, `transmute([c; n])`, avx2_field_gl.rs L294-297, avx512_field_gl.rs L254-255 -/
def splat (c : U64) : Reg n := fun _ => c

/-- `_mm256_xor_si256`, avx2_field_gl.rs L305 -/
def xor (a b : Reg n) : Reg n := fun k => a k ^^^ b k
/-- `_mm256_and_si256`, `_mm512_and_si512`, avx2_field_gl.rs L384, avx512_field_gl.rs L323 -/
def and (a b : Reg n) : Reg n := fun k => a k &&& b k
/-- `_mm256_andnot_si256`: the complement of the first operand, avx2_field_gl.rs L317 -/
def andnot (a b : Reg n) : Reg n := fun k => ~~~ (a k) &&& b k
/-- `_mm256_add_epi64`, `_mm512_add_epi64`: modulo `2^64`, avx2_field_gl.rs L318, avx512_field_gl.rs L267 -/
def add64 (a b : Reg n) : Reg n := fun k => a k + b k
/-- `_mm256_sub_epi64`, `_mm512_sub_epi64`, avx2_field_gl.rs L347, avx512_field_gl.rs L276 -/
def sub64 (a b : Reg n) : Reg n := fun k => a k - b k
/-- `_mm256_srli_epi64`, `_mm512_srli_epi64`, avx2_field_gl.rs L327, avx512_field_gl.rs L319 -/
def srl (c : Nat) (a : Reg n) : Reg n := fun k => a k >>> c
/-- `_mm256_slli_epi64`, `_mm512_slli_epi64`, avx2_field_gl.rs L419, avx512_field_gl.rs L357 -/
def sll (c : Nat) (a : Reg n) : Reg n := fun k => a k <<< c
/-- `_mm256_cmpgt_epi64`: signed comparison, all ones where it holds, avx2_field_gl.rs L315 -/
def cmpgt64 (a b : Reg n) : Reg n := fun k => if (b k).slt (a k) then BitVec.allOnes 64 else 0
/-- one 32-bit comparison -/
def gt32 (a b : BitVec 32) : BitVec 32 := if b.slt a then BitVec.allOnes 32 else 0
/-- `_mm256_cmpgt_epi32`: signed comparison of each 32-bit half, avx2_field_gl.rs L435, L452 -/
def cmpgt32 (a b : Reg n) : Reg n := fun k => mk64 (gt32 (hi32 (a k)) (hi32 (b k))) (gt32 (lo32 (a k)) (lo32 (b k)))
/-- `_mm256_mul_epu32`, `_mm512_mul_epu32`: product of the low halves, avx2_field_gl.rs L373-376, avx512_field_gl.rs L312-315 -/
def mulLo32 (a b : Reg n) : Reg n := fun k => (lo32 (a k)).setWidth 64 * (lo32 (b k)).setWidth 64
/-- `_mm256_movehdup_ps`, `_mm512_movehdup_ps`: the high half in both halves, avx2_field_gl.rs L369-370, avx512_field_gl.rs L308-309 -/
def movehdup (a : Reg n) : Reg n := fun k => mk64 (hi32 (a k)) (hi32 (a k))
/-- `_mm256_moveldup_ps`, `_mm512_moveldup_ps`: the low half in both halves, avx2_field_gl.rs L394, avx512_field_gl.rs L333 -/
def moveldup (a : Reg n) : Reg n := fun k => mk64 (lo32 (a k)) (lo32 (a k))
/-- `_mm256_blend_epi32::<imm>(a, b)`, `_mm512_mask_blend_epi32(imm, a, b)`: 32-bit half number `j` is taken from `b` when bit `j` of the mask is set,
avx2_field_gl.rs L395, avx512_field_gl.rs L334 -/
def blend32 (imm : Nat) (a b : Reg n) : Reg n := fun k =>
  mk64 (if imm.testBit (2 * k + 1) then hi32 (b k) else hi32 (a k)) (if imm.testBit (2 * k) then lo32 (b k) else lo32 (a k))
/-- `_mm512_cmpge_epu64_mask`: unsigned, one bit per lane, avx512_field_gl.rs L261 -/
def cmpgeMask (a b : Reg n) : Fin n → Bool := fun k => (b k).ule (a k)
/-- `_mm512_cmplt_epu64_mask`, avx512_field_gl.rs L268, L275 -/
def cmpltMask (a b : Reg n) : Fin n → Bool := fun k => (a k).ult (b k)
/-- `_mm512_mask_sub_epi64(src, mask, a, b)`, avx512_field_gl.rs L262, L269 -/
def maskSub (src : Reg n) (m : Fin n → Bool) (a b : Reg n) : Reg n := fun k => if m k then a k - b k else src k
/-- `_mm512_mask_add_epi64(src, mask, a, b)`, avx512_field_gl.rs L277 -/
def maskAdd (src : Reg n) (m : Fin n → Bool) (a b : Reg n) : Reg n := fun k => if m k then a k + b k else src k

/-! ### Instructions that move lanes -/

/-- `_mm256_unpacklo_epi64` / `_mm256_unpacklo_pd` and the 512-bit forms: in each 128-bit group, the low lanes of `a` and `b`,
avx2_field_gl.rs L486, avx512_field_gl.rs L386 -/
def unpacklo (a b : Reg (2 * n)) : Reg (2 * n) := fun k =>
  if k.val % 2 = 0 then a k else b ⟨k - 1, by omega⟩
/-- `_mm256_unpackhi_epi64` / `_mm256_unpackhi_pd` and the 512-bit forms, avx2_field_gl.rs L487, avx512_field_gl.rs L387 -/
def unpackhi (a b : Reg (2 * n)) : Reg (2 * n) := fun k =>
  if h : k.val % 2 = 0 then a ⟨k + 1, by omega⟩ else b k
/-- `_mm256_inserti128_si256::<1>(x, lo128(y))`, avx2_field_gl.rs L493-496 -/
def insertHi (x y : Reg 4) : Reg 4 := ![x 0, x 1, y 0, y 1]
/-- one nibble of the constant of `_mm256_permute2x128_si256` / `_mm256_permute2f128_si256`: half 0 or 1 of `x`, 2 or 3 of `y` (bit 3 clears) -/
def sel128 (c : Nat) (x y : Reg 4) (i : Fin 2) : U64 :=
  if c.testBit 3 then 0 else
  match c % 4 with
  | 0 => ![x 0, x 1] i
  | 1 => ![x 2, x 3] i
  | 2 => ![y 0, y 1] i
  | _ => ![y 2, y 3] i
/-- `_mm256_permute2x128_si256::<imm>`, avx2_field_gl.rs L506; `_mm256_permute2f128_si256`, starky/src/arch/x86_64/avx2_poseidon_gl.rs L172-175 -/
def permute2x128 (imm : Nat) (x y : Reg 4) : Reg 4 :=
  ![sel128 (imm % 16) x y 0, sel128 (imm % 16) x y 1, sel128 (imm / 16 % 16) x y 0, sel128 (imm / 16 % 16) x y 1]
/-- `_mm512_permutex2var_epi64(x, idx, y)`: bits 0-2 of the index choose the lane, bit 3 the operand, avx512_field_gl.rs L398-399 -/
def permutex2var (x : Reg 8) (idx : Fin 8 → Nat) (y : Reg 8) : Reg 8 := fun k =>
  let i : Fin 8 := ⟨idx k % 8, by omega⟩
  if (idx k).testBit 3 then y i else x i
/-- `_mm512_shuffle_i64x2::<imm>(x, y)`: two 128-bit groups of `x`, then two of `y`, two bits of the constant each, avx512_field_gl.rs L405-406 -/
def shuffle64x2 (imm : Nat) (x y : Reg 8) : Reg 8 := fun k =>
  let g := imm / 4 ^ (k.val / 2) % 4
  let i : Fin 8 := ⟨2 * g + k.val % 2, by omega⟩
  if k.val < 4 then x i else y i

end Verif.Simd
