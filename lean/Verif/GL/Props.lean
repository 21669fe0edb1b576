import Verif.GL.Sqrt
import Mathlib.Data.Nat.Size

/-!
# Properties C01-C08 of the Goldilocks field (`/repo/fields/src/field_gl.rs`)

Elements are Montgomery limbs; `asInt` is the public accessor `as_int`. All specifications are plain
integer arithmetic modulo `P = 2^64 - 2^32 + 1`.
-/
namespace Verif.GL

/-- The modulus, independently of the code's constant. -/
abbrev P : Nat := 2 ^ 64 - 2 ^ 32 + 1

theorem P_eq : P = MODULUS := by norm_num [P, MODULUS]

private theorem asInt_of_toF {a n : Nat} (ha : a < MODULUS) (h : toF a = ((n : Nat) : F)) :
    asInt a = n % MODULUS := by
  rw [asInt_val (lt_W ha), h, ZMod.val_natCast]

private theorem toF_eq_asInt {a : Nat} (ha : a < MODULUS) : toF a = ((asInt a : Nat) : F) :=
  (asInt_cast (lt_W ha)).symm

/-- Every element obtainable through the arithmetic API is canonical (its limb is below the
modulus). This is the hypothesis `< P` used in the theorems below. -/
theorem elem_canonical {a : Nat} (h : Elem a) : a < P := by
  rw [P_eq]
  induction h with
  | zero => exact zero_lt
  | one => exact one_lt
  | generator => norm_num [GENERATOR, MODULUS]
  | root => exact ROOT_lt
  | @fromRepr r a h _ =>
    unfold fromRepr at h
    split at h
    · next hv =>
      have hv : r < MODULUS := by simpa [isValid] using hv
      cases h; exact mul_lt hv R2_lt
    · cases h
  | @fromRawRepr r a h =>
    unfold fromRawRepr at h
    split at h
    · next hv => cases h; simpa [isValid] using hv
    · cases h
  | add _ _ ha hb => exact add_lt ha hb
  | sub _ _ ha hb => exact sub_lt ha hb
  | neg _ ha => exact neg_lt ha
  | double _ ha => rw [double_eq ha]; exact Nat.mod_lt _ p_pos
  | mul _ _ ha hb => exact mul_lt ha hb
  | square _ ha => exact square_lt ha
  | inverse _ h ha =>
    obtain ⟨y, hy, hp⟩ := inverse_isPow ha
    rw [hy] at h; cases h; exact hp.1
  | exp e _ he ha => exact (exp_isPow ha he).1
  | pow e _ he ha => exact (pow_isPow ha he).1
  | @sqrt a b _ h ha =>
    by_cases h0 : toF a = 0
    · rw [sqrt_of_zero (legendre_zero ha h0)] at h
      rw [← Option.some.inj (Option.some.inj h)]; exact ha
    · have hl := legendre_nonzero ha h0
      by_cases h1 : toF a ^ 9223372034707292160 = 1
      · obtain ⟨y, hy, hlt, _⟩ := sqrt_residue ha h1
        rw [if_pos h1] at hl
        rw [sqrt_of_res hl hy] at h
        rw [← Option.some.inj (Option.some.inj h)]; exact hlt
      · rw [if_neg h1] at hl
        rw [sqrt_of_non hl] at h
        exact absurd (Option.some.inj h) (by simp)

example : Elem (mul one (add one GENERATOR)) := .mul .one (.add .one .generator)

/-! ## C01 arithmetic -/

/-- C01: addition. -/
theorem asInt_add {a b : Nat} (ha : a < P) (hb : b < P) :
    add a b < P ∧ asInt (add a b) = (asInt a + asInt b) % P := by
  rw [P_eq] at *
  refine ⟨add_lt ha hb, asInt_of_toF (add_lt ha hb) ?_⟩
  rw [toF_add ha hb, toF_eq_asInt ha, toF_eq_asInt hb, Nat.cast_add]

/-- C01: subtraction. -/
theorem asInt_sub {a b : Nat} (ha : a < P) (hb : b < P) :
    sub a b < P ∧ (asInt (sub a b) : Int) = ((asInt a : Int) - asInt b) % P := by
  rw [P_eq] at *
  refine ⟨sub_lt ha hb, ?_⟩
  have h1 : ((asInt (sub a b) : Int) : F) = (((asInt a : Int) - asInt b : Int) : F) := by
    push_cast
    rw [asInt_cast (lt_W (sub_lt ha hb)), toF_sub ha hb, asInt_cast (lt_W ha), asInt_cast (lt_W hb)]
  rw [ZMod.intCast_eq_intCast_iff'] at h1
  rw [← h1, Int.emod_eq_of_lt (by omega)]
  exact_mod_cast asInt_lt (lt_W (sub_lt ha hb))

/-- C01: negation. -/
theorem asInt_neg {a : Nat} (ha : a < P) :
    neg a < P ∧ (asInt (neg a) : Int) = (-(asInt a : Int)) % P := by
  rw [P_eq] at *
  refine ⟨neg_lt ha, ?_⟩
  have h1 : ((asInt (neg a) : Int) : F) = ((-(asInt a : Int) : Int) : F) := by
    push_cast
    rw [asInt_cast (lt_W (neg_lt ha)), toF_neg ha, asInt_cast (lt_W ha)]
  rw [ZMod.intCast_eq_intCast_iff'] at h1
  rw [← h1, Int.emod_eq_of_lt (by omega)]
  exact_mod_cast asInt_lt (lt_W (neg_lt ha))

/-- C01: doubling. -/
theorem asInt_double {a : Nat} (ha : a < P) :
    double a < P ∧ asInt (double a) = (2 * asInt a) % P := by
  rw [P_eq] at *
  have h : double a = add a a := by rw [double_eq ha, add_eq ha ha]
  rw [h, two_mul]
  have := asInt_add (a := a) (b := a) (by rw [P_eq]; exact ha) (by rw [P_eq]; exact ha)
  rwa [P_eq] at this

/-- C01: multiplication. -/
theorem asInt_mul {a b : Nat} (ha : a < P) (hb : b < P) :
    mul a b < P ∧ asInt (mul a b) = (asInt a * asInt b) % P := by
  rw [P_eq] at *
  refine ⟨mul_lt ha hb, asInt_of_toF (mul_lt ha hb) ?_⟩
  rw [toF_mul ha hb, toF_eq_asInt ha, toF_eq_asInt hb, Nat.cast_mul]

/-- C01: squaring. -/
theorem asInt_square {a : Nat} (ha : a < P) :
    square a < P ∧ asInt (square a) = (asInt a ^ 2) % P := by
  rw [pow_two]; exact asInt_mul ha ha

/-- C01: on canonical operands the `+=` inside `add_nocarry` / `mul2` never overflows a `u64`
(it would panic in a debug build): the sum before wrapping is below `2^64`. -/
theorem add_no_overflow {a b : Nat} (ha : a < P) (hb : b < P) (hc : 2 ^ 64 ≤ a + b) :
    (a + b) % 2 ^ 64 + R2 < 2 ^ 64 := by
  simp only [P, R2] at *; omega

example : (4294967296 : Nat) < P ∧ (18446744069414584320 : Nat) < P ∧
    2 ^ 64 ≤ 4294967296 + 18446744069414584320 ∧
    asInt (add 4294967296 18446744069414584320) =
      (asInt 4294967296 + asInt 18446744069414584320) % P := by decide +kernel

/-! ## C02 conversions -/

/-- C02: `from_repr` accepts exactly the integers below the modulus. -/
theorem fromRepr_isSome (v : Nat) : (fromRepr v).isSome = true ↔ v < P := by
  rw [P_eq]; unfold fromRepr isValid
  by_cases h : v < MODULUS <;> simp [h]

/-- C02: `From<u64>` panics exactly on arguments not below the modulus. -/
theorem fromU64_panics (v : Nat) : fromU64 v = none ↔ P ≤ v := by
  rw [fromU64, ← Option.not_isSome_iff_eq_none, fromRepr_isSome]; omega

/-- C02: integer → element → integer is the identity. -/
theorem asInt_fromRepr {v a : Nat} (h : fromRepr v = some a) : a < P ∧ asInt a = v := by
  have hv : v < P := (fromRepr_isSome v).1 (by rw [h]; rfl)
  rw [P_eq] at *
  have hd : fromRepr v = some (mul v R2) := by
    unfold fromRepr isValid; simp [hv]
  rw [hd] at h; cases h
  refine ⟨mul_lt hv R2_lt, ?_⟩
  rw [asInt_of_toF (mul_lt hv R2_lt) (toF_mul_R2 hv), Nat.mod_eq_of_lt hv]

/-- C02: element → integer → element is the identity. -/
theorem fromRepr_asInt {a : Nat} (ha : a < P) : asInt a < P ∧ fromRepr (asInt a) = some a := by
  have hv : asInt a < P := by
    have ha' : a < MODULUS := by rwa [P_eq] at ha
    rw [P_eq]; exact asInt_lt (lt_W ha')
  refine ⟨hv, ?_⟩
  obtain ⟨b, hb⟩ := Option.isSome_iff_exists.1 ((fromRepr_isSome _).2 hv)
  obtain ⟨hbl, hbe⟩ := asInt_fromRepr hb
  rw [hb]; congr 1
  rw [P_eq] at *
  apply toF_inj hbl ha
  rw [toF_eq_asInt hbl, toF_eq_asInt ha, hbe]

/-- C02: raw representation round trip. -/
theorem fromRawRepr_iff (r a : Nat) : fromRawRepr r = some a ↔ r < P ∧ intoRawRepr a = r := by
  rw [P_eq]; unfold fromRawRepr intoRawRepr isValid
  by_cases h : r < MODULUS <;> simp [h, eq_comm]

example : fromRepr 18446744069414584320 ≠ none ∧ fromRepr 18446744069414584321 = none := by
  decide +kernel

/-! ## C03 inversion -/

/-- C03: `x * inverse(x) = 1` for every nonzero element; `inverse` never returns `None`. -/
theorem inverse_spec {x : Nat} (hx : x < P) (h0 : asInt x ≠ 0) :
    ∃ y, inverse x = some y ∧ y < P ∧ (asInt x * asInt y) % P = 1 := by
  rw [P_eq] at *
  obtain ⟨y, hy, hl, he⟩ := inverse_isPow hx
  refine ⟨y, hy, hl, ?_⟩
  have hx0 : toF x ≠ 0 := by
    intro h; apply h0
    rw [asInt_val (lt_W hx), h, ZMod.val_zero]
  have : ((asInt x * asInt y : Nat) : F) = ((1 : Nat) : F) := by
    rw [Nat.cast_mul, asInt_cast (lt_W hx), asInt_cast (lt_W hl), he, pow_pm2_mul hx0, Nat.cast_one]
  rw [ZMod.natCast_eq_natCast_iff'] at this
  rw [this, Nat.mod_eq_of_lt (by norm_num)]

/-- C03: `inverse` of zero is `Some(0)`, not `None`. -/
theorem inverse_zero : inverse zero = some zero := by
  obtain ⟨y, hy, hl, he⟩ := inverse_isPow zero_lt
  rw [hy]; congr 1
  apply toF_inj hl zero_lt
  have h0 : toF zero = 0 := toF_zero
  rw [he, h0, zero_pow (by norm_num)]

/-- C03: division. `(a / b) * b = a` for nonzero `b`. -/
theorem div_spec {a b : Nat} (ha : a < P) (hb : b < P) (h0 : asInt b ≠ 0) :
    ∃ q, div a b = some q ∧ q < P ∧ (asInt q * asInt b) % P = asInt a := by
  obtain ⟨y, hy, hl, he⟩ := inverse_spec hb h0
  have hd : div a b = some (mul a y) := by rw [div, hy]; rfl
  obtain ⟨hml, hme⟩ := asInt_mul ha hl
  refine ⟨mul a y, hd, hml, ?_⟩
  rw [hme, Nat.mod_mul_mod, mul_assoc, mul_comm (asInt y), Nat.mul_mod, he, mul_one, Nat.mod_mod]
  exact Nat.mod_eq_of_lt (fromRepr_asInt ha).1

example : GENERATOR < P ∧ asInt GENERATOR = 7 ∧ (inverse GENERATOR).map asInt = some 2635249152773512046 := by
  decide +kernel

/-! ## C04 exponentiation -/

/-- C04: `Fr::exp` is the power function, for every base and every 64-bit exponent. -/
theorem asInt_exp {x e : Nat} (hx : x < P) (he : e < 2 ^ 64) :
    exp x e < P ∧ asInt (exp x e) = (asInt x ^ e) % P := by
  rw [P_eq] at *
  obtain ⟨hl, h⟩ := exp_isPow hx he
  refine ⟨hl, asInt_of_toF hl ?_⟩
  rw [h, toF_eq_asInt hx, Nat.cast_pow]

/-- C04: `pow` is the power function. -/
theorem asInt_pow {x e : Nat} (hx : x < P) (he : e < 2 ^ 64) :
    pow x e < P ∧ asInt (pow x e) = (asInt x ^ e) % P := by
  rw [P_eq] at *
  obtain ⟨hl, h⟩ := pow_isPow hx he
  refine ⟨hl, asInt_of_toF hl ?_⟩
  rw [h, toF_eq_asInt hx, Nat.cast_pow]

example : asInt (exp GENERATOR 3) = 343 ∧ asInt (pow GENERATOR 3) = 343 ∧ asInt (exp 0 0) = 1 := by
  decide +kernel

/-! ## C05 square roots -/

/-- `n` is a square modulo the modulus (specification). -/
def IsSquareMod (n : Nat) : Prop := ∃ s, s ^ 2 % P = n % P

private theorem isSquare_iff {x : Nat} (hx : x < MODULUS) :
    IsSquare (toF x) ↔ IsSquareMod (asInt x) := by
  unfold IsSquareMod; rw [P_eq]
  constructor
  · rintro ⟨s, hs⟩
    refine ⟨s.val, ?_⟩
    rw [← ZMod.natCast_eq_natCast_iff', asInt_cast (lt_W hx), hs]
    simp [pow_two]
  · rintro ⟨s, hs⟩
    refine ⟨(s : F), ?_⟩
    rw [← ZMod.natCast_eq_natCast_iff', asInt_cast (lt_W hx)] at hs
    rw [← hs, Nat.cast_pow, pow_two]

private theorem toF_zero_iff {x : Nat} (hx : x < MODULUS) : toF x = 0 ↔ asInt x = 0 := by
  rw [asInt_val (lt_W hx), ZMod.val_eq_zero]

/-- C05: the Legendre symbol is classified correctly. -/
theorem legendre_spec {x : Nat} (hx : x < P) :
    (legendre x = .zero ↔ asInt x = 0) ∧
    (legendre x = .residue ↔ asInt x ≠ 0 ∧ IsSquareMod (asInt x)) ∧
    (legendre x = .nonResidue ↔ ¬ IsSquareMod (asInt x)) := by
  rw [P_eq] at hx
  have hz := toF_zero_iff hx
  rw [← isSquare_iff hx]
  by_cases h0 : toF x = 0
  · rw [legendre_zero hx h0]; simp [h0, hz.1 h0]
  · have h0' : asInt x ≠ 0 := fun h => h0 (hz.2 h)
    rw [legendre_nonzero hx h0, euler h0]
    by_cases h1 : toF x ^ 9223372034707292160 = 1
    · rw [if_pos h1]; simp [h0', h1]
    · rw [if_neg h1]; simp [h0', h1]

/-- C05: `sqrt` terminates without panicking on every element; it returns `Some(r)` with
`r^2 = x` iff `x` is a square, `None` otherwise. -/
theorem sqrt_spec {x : Nat} (hx : x < P) :
    (IsSquareMod (asInt x) → ∃ r, sqrt x = some (some r) ∧ r < P ∧ asInt r ^ 2 % P = asInt x) ∧
    (¬ IsSquareMod (asInt x) → sqrt x = some none) := by
  have hx' : x < MODULUS := by rwa [P_eq] at hx
  obtain ⟨hl0, hl1, hl2⟩ := legendre_spec hx
  constructor
  · intro hs
    by_cases h0 : asInt x = 0
    · refine ⟨x, ?_, hx, ?_⟩
      · exact sqrt_of_zero (hl0.2 h0)
      · rw [h0]; norm_num
    · have ht : toF x ≠ 0 := fun h => h0 ((toF_zero_iff hx').1 h)
      have h1 := (euler ht).1 ((isSquare_iff hx').2 hs)
      obtain ⟨y, hy, hyl, hye⟩ := sqrt_residue hx' h1
      refine ⟨y, ?_, by rwa [P_eq], ?_⟩
      · exact sqrt_of_res (hl1.2 ⟨h0, hs⟩) hy
      · rw [P_eq, asInt_val (lt_W hyl), asInt_val (lt_W hx'), ← hye, ← ZMod.val_pow_eq]
  · intro hs; exact sqrt_of_non (hl2.2 hs)
where ZMod.val_pow_eq {a : F} : (a ^ 2).val = a.val ^ 2 % MODULUS := by
        rw [pow_two, ZMod.val_mul, pow_two]

example : asInt 3 ≠ 0 ∧ legendre GENERATOR = .nonResidue ∧
    (sqrt (square GENERATOR)).isSome = true := by decide +kernel

/-! ## C06 equality and order -/

/-- C06: `==` (limb comparison) decides equality of integer values. -/
theorem eq_iff_asInt {a b : Nat} (ha : a < P) (hb : b < P) : a = b ↔ asInt a = asInt b := by
  constructor
  · rintro rfl; rfl
  · intro h
    have h1 := (fromRepr_asInt ha).2
    have h2 := (fromRepr_asInt hb).2
    rw [h, h2] at h1; exact (Option.some.inj h1).symm

/-- C06: `is_zero`. -/
theorem isZero_iff {a : Nat} (ha : a < P) : isZero a = true ↔ asInt a = 0 := by
  have h0 : asInt 0 = 0 := by decide +kernel
  rw [isZero, beq_iff_eq]
  have := eq_iff_asInt ha (show (0 : Nat) < P by norm_num)
  rw [this, h0]

/-- C06: `Ord` is the order of the integer values (in particular a total order). -/
theorem cmp_spec (a b : Nat) : cmp a b = compare (asInt a) (asInt b) := by
  unfold cmp cmpRepr asInt
  split
  · rfl
  · next h =>
    have h : intoRepr a = intoRepr b := by simpa using h
    rw [h]; simp

/-- C06 fails for elements produced by the derived `Deserialize` (no range check): the limbs `0` and
`P` are different for `==`, yet `as_int` gives `0` for both. -/
theorem deserialize_not_canonical :
    ∃ v, v < 2 ^ 64 ∧ ¬ deserialize v < P ∧ deserialize v ≠ zero ∧
      asInt (deserialize v) = asInt zero :=
  ⟨P, by norm_num, by decide +kernel, by decide +kernel, by decide +kernel⟩

/-- Serialising and deserialising an element gives it back. -/
theorem deserialize_serialize (a : Nat) : deserialize (serialize a) = a := rfl

example : cmp GENERATOR one = .gt ∧ GENERATOR < one + 1 - 1 := by decide +kernel

/-! ## C07 representation utilities -/

theorem W_eq : W = 2 ^ 64 := by norm_num [W]

/-- C07 (violated by the code): `num_bits` is the bit length plus 64, for every representation. -/
theorem numBits_off_by_64 {a : Nat} (ha : a < 2 ^ 64) :
    numBits a = Nat.size a + 64 := by
  unfold numBits leadingZeros
  by_cases h : a = 0
  · subst h; simp
  · have h1 : Nat.log2 a < 64 := (Nat.log2_lt h).2 ha
    have h2 : Nat.size a = Nat.log2 a + 1 := by
      apply le_antisymm
      · rw [Nat.size_le]; exact Nat.lt_log2_self
      · rw [Nat.succ_le_iff, Nat.lt_size]; exact Nat.log2_self_le h
    rw [if_neg h, h2]; omega

/-- Negation of the `num_bits` clause of C07. -/
theorem numBits_ne_size : ∃ a, a < 2 ^ 64 ∧ numBits a ≠ Nat.size a :=
  ⟨1, by norm_num, by rw [numBits_off_by_64 (by norm_num)]; omega⟩

/-- C07 (the other clauses hold): shifts and halving are multiplication/division by powers of two on
64-bit values, parity tests are right. `num_bits` is missing, see `numBits_off_by_64`. -/
theorem repr_utils_partial {a : Nat} (ha : a < 2 ^ 64) (n : Nat) :
    div2 a = a / 2 ∧ shr a n = a / 2 ^ n ∧ shl a n = (a * 2 ^ n) % 2 ^ 64 ∧
    (isOdd a = true ↔ a % 2 = 1) ∧ (isEven a = true ↔ a % 2 = 0) := by
  refine ⟨?_, ?_, ?_, ?_, ?_⟩
  · rw [div2, Nat.or_zero, Nat.shiftRight_one]
  · unfold shr
    by_cases h1 : n ≥ 64 * 2
    · rw [if_pos h1, Nat.div_eq_of_lt]
      exact Nat.lt_of_lt_of_le ha (Nat.pow_le_pow_right (by norm_num) (by omega))
    · rw [if_neg h1]
      by_cases h2 : n ≥ 64
      · have : a / 2 ^ n = 0 := Nat.div_eq_of_lt
          (Nat.lt_of_lt_of_le ha (Nat.pow_le_pow_right (by norm_num) h2))
        simp [h2, this]
      · simp only [h2, if_false, Nat.or_zero]
        by_cases h3 : n > 0
        · rw [if_pos h3, Nat.shiftRight_eq_div_pow]
        · rw [if_neg h3, show n = 0 by omega]; simp
  · unfold shl
    have big : n ≥ 64 → (a * 2 ^ n) % 2 ^ 64 = 0 := by
      intro h
      rw [show n = 64 + (n - 64) by omega, pow_add, ← mul_assoc, mul_comm a, mul_assoc]
      exact Nat.mul_mod_right _ _
    by_cases h1 : n ≥ 64 * 2
    · rw [if_pos h1, big (by omega)]
    · rw [if_neg h1]
      by_cases h2 : n ≥ 64
      · rw [big h2]; simp [h2]
      · simp only [h2, if_false, Nat.or_zero]
        by_cases h3 : n > 0
        · rw [if_pos h3, Nat.shiftLeft_eq, W_eq]
        · rw [if_neg h3, show n = 0 by omega, pow_zero, mul_one, Nat.mod_eq_of_lt ha]
  · rw [isOdd, Nat.and_one_is_mod, beq_iff_eq]
  · rw [isEven, isOdd, Nat.and_one_is_mod]
    rcases Nat.mod_two_eq_zero_or_one a with h | h <;> simp [h]

example : shr 1023 3 = 127 ∧ shl 3 63 = 2 ^ 63 ∧ shr 5 64 = 0 := by decide +kernel

/-! ## C08 raw `u64` conversion -/

/-- C08 (negation): `Fr::from(u64::from(x))` is not `x` in general; already `x = 1` fails. -/
theorem toU64_not_inverse : ∃ x, x < P ∧ fromU64 (toU64 x) ≠ some x :=
  ⟨one, by decide +kernel, by decide +kernel⟩

/-- C08 (what holds): `u64::from` is inverse to `from_raw_repr`, and it never produces a value that
`Fr::from` would reject. -/
theorem toU64_raw_partial {x : Nat} (hx : x < P) :
    fromRawRepr (toU64 x) = some x ∧ (fromU64 (toU64 x)).isSome = true :=
  ⟨(fromRawRepr_iff _ _).2 ⟨hx, rfl⟩, (fromRepr_isSome _).2 hx⟩

example : toU64 one = 18446744065119617025 := rfl

end Verif.GL
