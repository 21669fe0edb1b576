import Verif.Simd.FieldLanes
import Mathlib.Tactic.FinCases

/-!
# The packed operations agree with the scalar field, lane by lane (C86, C87), and interleave as documented (C88)
-/
namespace Verif.Simd
open Verif.GL (P fromRepr intoRepr)

/-- a lane holds what `Fr::into_repr` returns for the field element `a`, fields/src/field_gl.rs L348-352 -/
def Holds (x : U64) (a : Nat) : Prop := a < P ∧ x.toNat = intoRepr a

/-- what an interleaving with blocks of `b` lanes puts in lane `k` of its first and of its second result: stacking the two vectors and transposing
the 2x2 matrices of blocks, fields/src/packed.rs L53-71 -/
def weave0 {n : Nat} (b : Nat) (x y : Nat → U64) (k : Fin n) : U64 :=
  if k.val % (2 * b) < b then x k else y (k.val - b)
def weave1 {n : Nat} (b : Nat) (x y : Nat → U64) (k : Fin n) : U64 :=
  if k.val % (2 * b) < b then x (k.val + b) else y k

/-- a register as a sequence, zero outside -/
def seq {n : Nat} (x : Reg n) (i : Nat) : U64 := if h : i < n then x ⟨i, h⟩ else 0

namespace Avx2
/-- `Div<GoldilocksField>`, avx2_field_gl.rs L128-136: the two `unwrap`s panic (`none`) on an invalid divisor or a missing inverse -/
def div (x : Reg 4) (r : U64) : Option (Reg 4) :=
  (fromRepr r.toNat).bind fun v => (GL.inverse v).map fun i => mul x (splat (BitVec.ofNat 64 (intoRepr i)))
/-- `interleave1`, avx2_field_gl.rs L485-489 -/
def interleave1 (x y : Reg 4) : Reg 4 × Reg 4 := (unpacklo (n := 2) x y, unpackhi (n := 2) x y)
/-- `interleave2`, avx2_field_gl.rs L492-509 -/
def interleave2 (x y : Reg 4) : Reg 4 × Reg 4 := (insertHi x y, permute2x128 0x31 x y)
/-- `interleave`, avx2_field_gl.rs L71-80; `none` is the panic -/
def interleave (x y : Reg 4) (blockLen : Nat) : Option (Reg 4 × Reg 4) :=
  match blockLen with
  | 1 => some (interleave1 x y)
  | 2 => some (interleave2 x y)
  | 4 => some (x, y)
  | _ => none
end Avx2

namespace Avx512
/-- `Div<GoldilocksField>`, avx512_field_gl.rs L141-148 -/
def div (x : Reg 8) (r : U64) : Option (Reg 8) :=
  (fromRepr r.toNat).bind fun v => (GL.inverse v).map fun i => mul x (splat (BitVec.ofNat 64 (intoRepr i)))
/-- `interleave1`, avx512_field_gl.rs L385-389 -/
def interleave1 (x y : Reg 8) : Reg 8 × Reg 8 := (unpacklo (n := 4) x y, unpackhi (n := 4) x y)
/-- `INTERLEAVE2_IDX_A`, avx512_field_gl.rs L391-392 (octal literals) -/
def idxA : Fin 8 → Nat := ![0o00, 0o01, 0o10, 0o11, 0o04, 0o05, 0o14, 0o15]
/-- `INTERLEAVE2_IDX_B`, avx512_field_gl.rs L393-394 -/
def idxB : Fin 8 → Nat := ![0o02, 0o03, 0o12, 0o13, 0o06, 0o07, 0o16, 0o17]
/-- `interleave2`, avx512_field_gl.rs L397-401 -/
def interleave2 (x y : Reg 8) : Reg 8 × Reg 8 := (permutex2var x idxA y, permutex2var x idxB y)
/-- `interleave4`, avx512_field_gl.rs L404-408 -/
def interleave4 (x y : Reg 8) : Reg 8 × Reg 8 := (shuffle64x2 0x44 x y, shuffle64x2 0xee x y)
/-- `interleave`, avx512_field_gl.rs L79-89 -/
def interleave (x y : Reg 8) (blockLen : Nat) : Option (Reg 8 × Reg 8) :=
  match blockLen with
  | 1 => some (interleave1 x y)
  | 2 => some (interleave2 x y)
  | 4 => some (interleave4 x y)
  | 8 => some (x, y)
  | _ => none
end Avx512

/-! ### Proofs -/

theorem holds_lt {x : U64} {a : Nat} (h : Holds x a) : x.toNat < 18446744069414584321 := by
  have := (GL.fromRepr_asInt h.1).1
  rw [h.2]; exact this

/-- a lane below the modulus is the representation of the field element that `from_repr` reads from it -/
theorem holds_iff (x : U64) (a : Nat) : Holds x a ↔ fromRepr x.toNat = some a := by
  constructor
  · intro h; rw [h.2]; exact (GL.fromRepr_asInt h.1).2
  · intro h; have := GL.asInt_fromRepr h; exact ⟨this.1, this.2.symm⟩

theorem holds_add {x y z : U64} {a b : Nat} (hx : Holds x a) (hy : Holds y b) (h : z.toNat = (x.toNat + y.toNat) % 18446744069414584321) :
    Holds z (GL.add a b) := by
  have := GL.asInt_add hx.1 hy.1
  refine ⟨this.1, ?_⟩
  rw [h, hx.2, hy.2]; exact this.2.symm

theorem holds_mul {x y z : U64} {a b : Nat} (hx : Holds x a) (hy : Holds y b) (h : z.toNat = x.toNat * y.toNat % 18446744069414584321) :
    Holds z (GL.mul a b) := by
  have := GL.asInt_mul hx.1 hy.1
  refine ⟨this.1, ?_⟩
  rw [h, hx.2, hy.2]; exact this.2.symm

theorem holds_sub {x y z : U64} {a b : Nat} (hx : Holds x a) (hy : Holds y b) (h : z.toNat =
    if canonV y.toNat ≤ x.toNat then x.toNat - canonV y.toNat else x.toNat + 18446744069414584321 - canonV y.toNat) :
    Holds z (GL.sub a b) := by
  have h1 := holds_lt hx
  have h2 := holds_lt hy
  obtain ⟨hl, he⟩ := GL.asInt_sub hx.1 hy.1
  refine ⟨hl, ?_⟩
  have hP : ((P : Nat) : Int) = 18446744069414584321 := by norm_num [P]
  have e1 : (GL.asInt a : Int) = x.toNat := by rw [hx.2]; rfl
  have e2 : (GL.asInt b : Int) = y.toNat := by rw [hy.2]; rfl
  rw [hP, e1, e2] at he
  show z.toNat = GL.asInt (GL.sub a b)
  have hc : canonV y.toNat = y.toNat := by unfold canonV; rw [if_pos h2]
  rw [hc] at h
  rw [h]
  generalize GL.asInt (GL.sub a b) = w at *
  split_ifs <;> omega

theorem holds_neg {x z : U64} {a : Nat} (hx : Holds x a) (h0 : x.toNat ≠ 0) (h : z.toNat = 18446744069414584321 - canonV x.toNat) :
    Holds z (GL.neg a) := by
  have h1 := holds_lt hx
  obtain ⟨hl, he⟩ := GL.asInt_neg hx.1
  refine ⟨hl, ?_⟩
  have hP : ((P : Nat) : Int) = 18446744069414584321 := by norm_num [P]
  have e1 : (GL.asInt a : Int) = x.toNat := by rw [hx.2]; rfl
  rw [hP, e1] at he
  show z.toNat = GL.asInt (GL.neg a)
  have hc : canonV x.toNat = x.toNat := by unfold canonV; rw [if_pos h1]
  rw [hc] at h
  rw [h]
  generalize GL.asInt (GL.neg a) = w at *
  omega

theorem holds_intoRepr {i : Nat} (hi : i < P) : Holds (BitVec.ofNat 64 (intoRepr i)) i := by
  refine ⟨hi, ?_⟩
  have : intoRepr i < P := (GL.fromRepr_asInt hi).1
  have hP : P = 18446744069414584321 := by norm_num [P]
  rw [BitVec.toNat_ofNat, Nat.mod_eq_of_lt]
  simp only [Nat.reducePow]
  omega

theorem inverse_lt {x : Nat} (hx : x < P) : ∃ y, GL.inverse x = some y ∧ y < P := by
  rw [GL.P_eq] at *
  obtain ⟨y, hy, hl, _⟩ := GL.inverse_isPow hx
  exact ⟨y, hy, hl⟩

/-- **C86, AVX2**: on lanes that hold field elements, `+`, `-`, `*` and `square` give the lanes that hold the scalar results. -/
theorem Avx2.ops_scalar (x y : Reg 4) (a b : Fin 4 → Nat) (hx : ∀ k, Holds (x k) (a k)) (hy : ∀ k, Holds (y k) (b k)) (k : Fin 4) :
    Holds (Avx2.add x y k) (GL.add (a k) (b k)) ∧ Holds (Avx2.sub x y k) (GL.sub (a k) (b k)) ∧
    Holds (Avx2.mul x y k) (GL.mul (a k) (b k)) ∧ Holds (Avx2.square x k) (GL.square (a k)) :=
  ⟨holds_add (hx k) (hy k) (Avx2.add_toNat x y k), holds_sub (hx k) (hy k) (Avx2.sub_toNat x y k),
    holds_mul (hx k) (hy k) (Avx2.mul_toNat x y k), holds_mul (hx k) (hx k) (Avx2.square_toNat x k)⟩

/-- **C86, AVX-512**. -/
theorem Avx512.ops_scalar (x y : Reg 8) (a b : Fin 8 → Nat) (hx : ∀ k, Holds (x k) (a k)) (hy : ∀ k, Holds (y k) (b k)) (k : Fin 8) :
    Holds (Avx512.add x y k) (GL.add (a k) (b k)) ∧ Holds (Avx512.sub x y k) (GL.sub (a k) (b k)) ∧
    Holds (Avx512.mul x y k) (GL.mul (a k) (b k)) ∧ Holds (Avx512.square x k) (GL.square (a k)) :=
  ⟨holds_add (hx k) (hy k) (Avx512.add_toNat x y k), holds_sub (hx k) (hy k) (Avx512.sub_toNat x y k),
    holds_mul (hx k) (hy k) (Avx512.mul_toNat x y k), holds_mul (hx k) (hx k) (Avx512.square_toNat x k)⟩

/-- **C86**: on arbitrary 64-bit lanes, also those at or above the modulus, addition, multiplication and squaring return the canonical
result, and `reduce` the canonical value of a 128-bit number. -/
theorem Avx2.ops_any (x y : Reg 4) (k : Fin 4) :
    (Avx2.add x y k).toNat = ((x k).toNat + (y k).toNat) % P ∧ (Avx2.mul x y k).toNat = (x k).toNat * (y k).toNat % P ∧
    (Avx2.square x k).toNat = (x k).toNat ^ 2 % P ∧ (Avx2.reduce128 (x, y) k).toNat = ((x k).toNat * 2 ^ 64 + (y k).toNat) % P := by
  have hP : P = 18446744069414584321 := by norm_num [P]
  rw [hP, pow_two]
  exact ⟨Avx2.add_toNat x y k, Avx2.mul_toNat x y k, Avx2.square_toNat x k, Avx2.reduce128_toNat x y k⟩

theorem Avx512.ops_any (x y : Reg 8) (k : Fin 8) :
    (Avx512.add x y k).toNat = ((x k).toNat + (y k).toNat) % P ∧ (Avx512.mul x y k).toNat = (x k).toNat * (y k).toNat % P ∧
    (Avx512.square x k).toNat = (x k).toNat ^ 2 % P ∧ (Avx512.reduce128 (x, y) k).toNat = ((x k).toNat * 2 ^ 64 + (y k).toNat) % P := by
  have hP : P = 18446744069414584321 := by norm_num [P]
  rw [hP, pow_two]
  exact ⟨Avx512.add_toNat x y k, Avx512.mul_toNat x y k, Avx512.square_toNat x k, Avx512.reduce128_toNat x y k⟩

/-- **C86, division**: dividing by a valid scalar gives in every lane the scalar quotient (`x / 0 = 0`, as in the scalar code); an invalid scalar panics. -/
theorem Avx2.div_scalar (x : Reg 4) (a : Fin 4 → Nat) (hx : ∀ k, Holds (x k) (a k)) (r : U64) :
    (∀ b, Holds r b → ∃ z, Avx2.div x r = some z ∧ ∀ k, ∃ q, GL.div (a k) b = some q ∧ Holds (z k) q) ∧ (P ≤ r.toNat → Avx2.div x r = none) := by
  refine ⟨fun b hb => ?_, fun h => ?_⟩
  · obtain ⟨i, hi, hl⟩ := inverse_lt hb.1
    refine ⟨_, by rw [Avx2.div, (holds_iff _ _).mp hb, Option.bind_some, hi, Option.map_some], fun k => ⟨GL.mul (a k) i, by rw [GL.div, hi]; rfl, ?_⟩⟩
    exact holds_mul (hx k) (holds_intoRepr hl) (Avx2.mul_toNat x _ k)
  · rw [Avx2.div]
    have : fromRepr r.toNat = none := by
      rw [← Option.not_isSome_iff_eq_none, GL.fromRepr_isSome]; omega
    rw [this]; rfl

theorem Avx512.div_scalar (x : Reg 8) (a : Fin 8 → Nat) (hx : ∀ k, Holds (x k) (a k)) (r : U64) :
    (∀ b, Holds r b → ∃ z, Avx512.div x r = some z ∧ ∀ k, ∃ q, GL.div (a k) b = some q ∧ Holds (z k) q) ∧ (P ≤ r.toNat → Avx512.div x r = none) := by
  refine ⟨fun b hb => ?_, fun h => ?_⟩
  · obtain ⟨i, hi, hl⟩ := inverse_lt hb.1
    refine ⟨_, by rw [Avx512.div, (holds_iff _ _).mp hb, Option.bind_some, hi, Option.map_some], fun k => ⟨GL.mul (a k) i, by rw [GL.div, hi]; rfl, ?_⟩⟩
    exact holds_mul (hx k) (holds_intoRepr hl) (Avx512.mul_toNat x _ k)
  · rw [Avx512.div]
    have : fromRepr r.toNat = none := by
      rw [← Option.not_isSome_iff_eq_none, GL.fromRepr_isSome]; omega
    rw [this]; rfl

-- the hypotheses are met by every register whose lanes are below the modulus, e.g. by the lanes p - 1, 1, 2, 0
example : ∃ a : Fin 4 → Nat, ∀ k, Holds ((![0xFFFFFFFF00000000#64, 1#64, 2#64, 0#64] : Reg 4) k) (a k) := by
  have h : ∀ k, ((![0xFFFFFFFF00000000#64, 1#64, 2#64, 0#64] : Reg 4) k).toNat < P := by decide
  refine ⟨fun k => (fromRepr ((![0xFFFFFFFF00000000#64, 1#64, 2#64, 0#64] : Reg 4) k).toNat).getD 0, fun k => (holds_iff _ _).mpr ?_⟩
  obtain ⟨v, hv⟩ := Option.isSome_iff_exists.mp ((GL.fromRepr_isSome _).mpr (h k))
  dsimp only
  rw [hv]; rfl
example : Avx2.mul (splat 0xFFFFFFFFFFFFFFFF#64) (splat 0xFFFFFFFF00000001#64) 2 = 0 := by decide +kernel
example : (Avx512.mul (splat 0xFFFFFFFFFFFFFFFF#64) (splat 0xFFFFFFFFFFFFFFFF#64) 2).toNat = 18446744056529682436 := by decide +kernel
example : (Avx2.div (splat 10#64) (5#64)).map (fun z => z 3) = some 2#64 := by decide +kernel

/-- **C87** (partial): `-x` is the lane of the scalar negation for every nonzero lane. -/
theorem Avx2.neg_scalar_partial (x : Reg 4) (a : Fin 4 → Nat) (hx : ∀ k, Holds (x k) (a k)) (k : Fin 4) (h0 : (x k).toNat ≠ 0) :
    Holds (Avx2.neg x k) (GL.neg (a k)) := holds_neg (hx k) h0 (Avx2.neg_toNat x k)
theorem Avx512.neg_scalar_partial (x : Reg 8) (a : Fin 8 → Nat) (hx : ∀ k, Holds (x k) (a k)) (k : Fin 8) (h0 : (x k).toNat ≠ 0) :
    Holds (Avx512.neg x k) (GL.neg (a k)) := holds_neg (hx k) h0 (Avx512.neg_toNat x k)

/-- **C87, what is missing**: negating a zero lane gives the modulus, which is no representation: `Fr::from_repr` of the result fails, while the scalar
negation of zero is zero. -/
theorem Avx2.neg_zero_invalid (x : Reg 4) (k : Fin 4) (h0 : (x k).toNat = 0) :
    (Avx2.neg x k).toNat = P ∧ fromRepr (Avx2.neg x k).toNat = none ∧ GL.neg GL.zero = GL.zero := by
  have e : (Avx2.neg x k).toNat = P := by rw [Avx2.neg_toNat, h0]; norm_num [canonV, P]
  refine ⟨e, ?_, rfl⟩
  rw [e, ← Option.not_isSome_iff_eq_none, GL.fromRepr_isSome]; omega
theorem Avx512.neg_zero_invalid (x : Reg 8) (k : Fin 8) (h0 : (x k).toNat = 0) :
    (Avx512.neg x k).toNat = P ∧ fromRepr (Avx512.neg x k).toNat = none ∧ GL.neg GL.zero = GL.zero := by
  have e : (Avx512.neg x k).toNat = P := by rw [Avx512.neg_toNat, h0]; norm_num [canonV, P]
  refine ⟨e, ?_, rfl⟩
  rw [e, ← Option.not_isSome_iff_eq_none, GL.fromRepr_isSome]; omega

/-- **C87**: the value of `-x` is right modulo the modulus on every 64-bit lane, and so is `x - y`; the latter is canonical when `x` is. -/
theorem Avx2.neg_sub_any (x y : Reg 4) (k : Fin 4) :
    ((Avx2.neg x k).toNat + (x k).toNat) % P = 0 ∧ ((Avx2.sub x y k).toNat + (y k).toNat) % P = (x k).toNat % P ∧
    ((x k).toNat < P → (Avx2.sub x y k).toNat < P) := by
  have hP : P = 18446744069414584321 := by norm_num [P]
  have h1 := canonV_eq (toNat_lt (x k))
  have h2 := canonV_eq (toNat_lt (y k))
  have h3 := canonV_lt (toNat_lt (x k))
  have h4 := canonV_lt (toNat_lt (y k))
  rw [hP, Avx2.neg_toNat, Avx2.sub_toNat]
  refine ⟨by omega, ?_, ?_⟩ <;> split_ifs <;> omega
theorem Avx512.neg_sub_any (x y : Reg 8) (k : Fin 8) :
    ((Avx512.neg x k).toNat + (x k).toNat) % P = 0 ∧ ((Avx512.sub x y k).toNat + (y k).toNat) % P = (x k).toNat % P ∧
    ((x k).toNat < P → (Avx512.sub x y k).toNat < P) := by
  have hP : P = 18446744069414584321 := by norm_num [P]
  have h1 := canonV_eq (toNat_lt (x k))
  have h2 := canonV_eq (toNat_lt (y k))
  have h3 := canonV_lt (toNat_lt (x k))
  have h4 := canonV_lt (toNat_lt (y k))
  rw [hP, Avx512.neg_toNat, Avx512.sub_toNat]
  refine ⟨by omega, ?_, ?_⟩ <;> split_ifs <;> omega

example : (Avx2.neg (splat 0#64) 1).toNat = 18446744069414584321 ∧ (Avx2.neg (splat 1#64) 1).toNat = 18446744069414584320 := by decide +kernel

/-- **C88, AVX2**: `interleave` transposes the blocks as documented for block lengths 1 and 2, does nothing for 4, and panics otherwise. -/
theorem Avx2.interleave_spec (x y : Reg 4) :
    (∀ b, b = 1 ∨ b = 2 → Avx2.interleave x y b = some (weave0 b (seq x) (seq y), weave1 b (seq x) (seq y))) ∧
    Avx2.interleave x y 4 = some (x, y) ∧ (∀ b, b ≠ 1 → b ≠ 2 → b ≠ 4 → Avx2.interleave x y b = none) := by
  refine ⟨?_, rfl, ?_⟩
  · rintro b (rfl | rfl)
    all_goals
      refine congrArg some (Prod.ext ?_ ?_) <;> (funext k; fin_cases k <;> rfl)
  · intro b h1 h2 h4
    unfold Avx2.interleave
    split <;> simp_all

/-- **C88, AVX-512**. -/
theorem Avx512.interleave_spec (x y : Reg 8) :
    (∀ b, b = 1 ∨ b = 2 ∨ b = 4 → Avx512.interleave x y b = some (weave0 b (seq x) (seq y), weave1 b (seq x) (seq y))) ∧
    Avx512.interleave x y 8 = some (x, y) ∧ (∀ b, b ≠ 1 → b ≠ 2 → b ≠ 4 → b ≠ 8 → Avx512.interleave x y b = none) := by
  refine ⟨?_, rfl, ?_⟩
  · rintro b (rfl | rfl | rfl)
    all_goals
      refine congrArg some (Prod.ext ?_ ?_) <;> (funext k; fin_cases k <;> rfl)
  · intro b h1 h2 h4 h8
    unfold Avx512.interleave
    split <;> simp_all

/-- **C88**: interleaving twice with the same block length restores the two vectors. -/
theorem Avx2.interleave_involution (x y : Reg 4) (b : Nat) (x' y' : Reg 4) (h : Avx2.interleave x y b = some (x', y')) :
    Avx2.interleave x' y' b = some (x, y) := by
  unfold Avx2.interleave at h ⊢
  split at h <;> simp only [Option.some.injEq, Prod.mk.injEq, reduceCtorEq] at h <;> obtain ⟨rfl, rfl⟩ := h
  all_goals
    refine congrArg some (Prod.ext ?_ ?_) <;> (funext k; fin_cases k <;> rfl)
theorem Avx512.interleave_involution (x y : Reg 8) (b : Nat) (x' y' : Reg 8) (h : Avx512.interleave x y b = some (x', y')) :
    Avx512.interleave x' y' b = some (x, y) := by
  unfold Avx512.interleave at h ⊢
  split at h <;> simp only [Option.some.injEq, Prod.mk.injEq, reduceCtorEq] at h <;> obtain ⟨rfl, rfl⟩ := h
  all_goals
    refine congrArg some (Prod.ext ?_ ?_) <;> (funext k; fin_cases k <;> rfl)

example : Avx2.interleave ![0, 1, 2, 3] ![10, 11, 12, 13] 1 = some (![0, 10, 2, 12], ![1, 11, 3, 13]) := by decide +kernel
example : Avx512.interleave ![0, 1, 2, 3, 4, 5, 6, 7] ![10, 11, 12, 13, 14, 15, 16, 17] 2 =
    some (![0, 1, 10, 11, 4, 5, 14, 15], ![2, 3, 12, 13, 6, 7, 16, 17]) := by decide +kernel

end Verif.Simd
