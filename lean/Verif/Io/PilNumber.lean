import Mathlib.Data.Int.ModEq
import Mathlib.Data.Nat.Digits.Defs
import Mathlib.Tactic.NormNum
import Mathlib.Tactic.Ring
import Mathlib.Tactic.Linarith

/-! # Numbers of PIL files (C58): `parse_pil_number` of `starky/src/types.rs` -/

namespace Verif.Io.PilNumber

/-- the modulus written in types.rs L228, L230 -/
def p : Nat := 18446744069414584321

/-- `char::to_digit(radix)` for `radix ≤ 16` (standard library, used by `from_str_radix`) -/
def toDigit (radix : Nat) (c : Char) : Option Nat :=
  let v := if 48 ≤ c.toNat ∧ c.toNat ≤ 57 then c.toNat - 48 else if 97 ≤ c.toNat ∧ c.toNat ≤ 102 then c.toNat - 87
    else if 65 ≤ c.toNat ∧ c.toNat ≤ 70 then c.toNat - 55 else radix
  if v < radix then some v else none

/-- values of `i128` -/
def InI128 (n : Int) : Prop := -2 ^ 127 ≤ n ∧ n < 2 ^ 127

instance (n : Int) : Decidable (InI128 n) := inferInstanceAs (Decidable (_ ∧ _))

/-- `checked_*` on `i128` -/
def checked (n : Int) : Option Int := if InI128 n then some n else none

/-- The digit loop of `i128::from_str_radix` (standard library): `result.checked_mul(radix)?.checked_add(digit)?`, or `checked_sub` for a negative number. -/
def digitsLoop (radix : Nat) (neg : Bool) : List Char → Int → Option Int
  | [], acc => some acc
  | c :: cs, acc => do
    let m ← checked (acc * radix)
    let d ← toDigit radix c
    let r ← checked (if neg then m - d else m + d)
    digitsLoop radix neg cs r

/-- `i128::from_str_radix` (standard library): an optional sign followed by at least one digit. -/
def fromStrRadix (radix : Nat) (s : List Char) : Option Int :=
  match s with
  | [] => none
  | ['+'] => none
  | ['-'] => none
  | '+' :: cs => digitsLoop radix false cs 0
  | '-' :: cs => digitsLoop radix true cs 0
  | cs => digitsLoop radix false cs 0

/-- `n as u64` for an `i128` -/
def asU64 (n : Int) : Nat := (n % 2 ^ 64).toNat

/-- types.rs L221-233 on the parsed integer: `if n < 0 { n += p }; n %= p; n as u64` (Rust's `%` truncates, `Int.tmod`) -/
def reduce (n : Int) : Nat :=
  let n := if n < 0 then n + p else n
  asU64 (n.tmod p)

/-- types.rs L221-233 `parse_pil_number`; `none` is a panic (`unwrap`). -/
def parsePilNumber (s : List Char) : Option Nat :=
  (match s with
    | '0' :: 'x' :: rest => fromStrRadix 16 rest
    | _ => fromStrRadix 10 s).map reduce

/-! ## Specification -/

/-- the digit character `c` in base `b` stands for `d` -/
def IsDigit (b : Nat) (c : Char) (d : Nat) : Prop :=
  d < b ∧ ((∃ k < 10, c = Char.ofNat (48 + k) ∧ d = k) ∨ (∃ k < 6, (c = Char.ofNat (97 + k) ∨ c = Char.ofNat (65 + k)) ∧ d = 10 + k))

/-- a nonempty string of base-`b` digits, most significant first, written for `n` -/
def IsUnsigned (b : Nat) (cs : List Char) (n : Nat) : Prop :=
  cs ≠ [] ∧ ∃ ds, List.Forall₂ (IsDigit b) cs ds ∧ n = Nat.ofDigits b ds.reverse

/-- a numeral: digits with an optional sign -/
def IsNumeral (b : Nat) (s : List Char) (n : Int) : Prop :=
  (∃ u, IsUnsigned b s u ∧ n = u) ∨ (∃ cs u, s = '+' :: cs ∧ IsUnsigned b cs u ∧ n = u) ∨ (∃ cs u, s = '-' :: cs ∧ IsUnsigned b cs u ∧ n = -u)

/-- the integer a PIL number denotes: hexadecimal after `0x`, decimal otherwise -/
def Denotes (s : List Char) (n : Int) : Prop :=
  if ['0', 'x'] <+: s then IsNumeral 16 (s.drop 2) n else IsNumeral 10 s n

/-! ## Proofs -/

theorem toNat_ofNat : ∀ n < 128, (Char.ofNat n).toNat = n := by decide +kernel

theorem eq_ofNat (c : Char) (n : Nat) (hn : n < 128) : c = Char.ofNat n ↔ c.toNat = n := by
  constructor
  · rintro rfl; exact toNat_ofNat n hn
  · rintro rfl; exact (Char.ofNat_toNat c).symm

theorem toDigit_iff (b : Nat) (c : Char) (d : Nat) : toDigit b c = some d ↔ IsDigit b c d := by
  have hs : IsDigit b c d ↔ d < b ∧ ((48 ≤ c.toNat ∧ c.toNat ≤ 57 ∧ d = c.toNat - 48) ∨ (97 ≤ c.toNat ∧ c.toNat ≤ 102 ∧ d = c.toNat - 87) ∨ (65 ≤ c.toNat ∧ c.toNat ≤ 70 ∧ d = c.toNat - 55)) := by
    unfold IsDigit
    refine and_congr_right fun _ => ?_
    constructor
    · rintro (⟨k, hk, h, rfl⟩ | ⟨k, hk, h | h, rfl⟩) <;> rw [eq_ofNat _ _ (by omega)] at h <;> omega
    · rintro (⟨h1, h2, rfl⟩ | ⟨h1, h2, rfl⟩ | ⟨h1, h2, rfl⟩)
      · exact Or.inl ⟨c.toNat - 48, by omega, (eq_ofNat _ _ (by omega)).mpr (by omega), rfl⟩
      · exact Or.inr ⟨c.toNat - 97, by omega, Or.inl ((eq_ofNat _ _ (by omega)).mpr (by omega)), by omega⟩
      · exact Or.inr ⟨c.toNat - 65, by omega, Or.inr ((eq_ofNat _ _ (by omega)).mpr (by omega)), by omega⟩
  rw [hs]
  simp only [toDigit]
  by_cases h1 : 48 ≤ c.toNat ∧ c.toNat ≤ 57
  · simp only [h1, and_self, if_true, true_and]
    split <;> simp only [Option.some.injEq, reduceCtorEq, false_iff] <;> omega
  by_cases h2 : 97 ≤ c.toNat ∧ c.toNat ≤ 102
  · simp only [h1, h2, and_self, if_true, if_false, true_and]
    split <;> simp only [Option.some.injEq, reduceCtorEq, false_iff] <;> omega
  by_cases h3 : 65 ≤ c.toNat ∧ c.toNat ≤ 70
  · simp only [h1, h2, h3, and_self, if_true, if_false, true_and]
    split <;> simp only [Option.some.injEq, reduceCtorEq, false_iff] <;> omega
  · simp only [h1, h2, h3, if_false, Nat.lt_irrefl, reduceCtorEq, false_iff]
    omega

/-- the value of a digit string continuing an accumulator -/
def accVal (b : Nat) (ds : List Nat) (a : Nat) : Nat := ds.foldl (fun a d => a * b + d) a

theorem accVal_eq (b : Nat) (ds : List Nat) (a : Nat) : accVal b ds a = a * b ^ ds.length + Nat.ofDigits b ds.reverse := by
  induction ds generalizing a with
  | nil => simp [accVal]
  | cons d ds ih =>
    rw [accVal, List.foldl_cons, ← accVal, ih, List.reverse_cons, Nat.ofDigits_append, List.length_reverse, List.length_cons, Nat.ofDigits_singleton]
    ring

theorem accVal_ge (b : Nat) (hb : 1 ≤ b) (ds : List Nat) (a : Nat) : a ≤ accVal b ds a := by
  rw [accVal_eq]
  have : 1 ≤ b ^ ds.length := Nat.one_le_pow _ _ hb
  exact le_trans (Nat.le_mul_of_pos_right _ this) (Nat.le_add_right _ _)

theorem checked_iff (n m : Int) : checked n = some m ↔ InI128 n ∧ m = n := by
  unfold checked
  split
  · rename_i h; simp [h, eq_comm]
  · rename_i h; simp [h]

/-- the signed accumulator -/
def sgn (neg : Bool) (n : Nat) : Int := if neg then -n else n

theorem sgn_range {neg : Bool} {n m : Nat} (h : n ≤ m) (hm : InI128 (sgn neg m)) : InI128 (sgn neg n) := by
  unfold InI128 sgn at *
  cases neg <;> simp only [if_true, if_false, Bool.false_eq_true] at * <;> omega

theorem digitsLoop_iff (b : Nat) (hb : b = 10 ∨ b = 16) (neg : Bool) (cs : List Char) (a : Nat) (n : Int) (ha : InI128 (sgn neg a)) :
    digitsLoop b neg cs (sgn neg a) = some n ↔ ∃ ds, List.Forall₂ (IsDigit b) cs ds ∧ n = sgn neg (accVal b ds a) ∧ InI128 n := by
  induction cs generalizing a with
  | nil =>
    rw [digitsLoop, Option.some.injEq]
    constructor
    · rintro rfl; exact ⟨[], List.Forall₂.nil, rfl, ha⟩
    · rintro ⟨ds, hds, h, -⟩; cases hds; exact h.symm
  | cons c cs ih =>
    have e1 : sgn neg a * b = sgn neg (a * b) := by unfold sgn; cases neg <;> simp
    have e2 : ∀ d : Nat, (if neg = true then sgn neg (a * b) - d else sgn neg (a * b) + d) = sgn neg (a * b + d) := by
      intro d; unfold sgn; cases neg
      · simp
      · simp; omega
    rw [digitsLoop]
    constructor
    · intro h
      obtain ⟨m, hm, h⟩ := Option.bind_eq_some_iff.mp h
      obtain ⟨d, hd, h⟩ := Option.bind_eq_some_iff.mp h
      obtain ⟨r, hr, h⟩ := Option.bind_eq_some_iff.mp h
      obtain ⟨-, rfl⟩ := (checked_iff _ _).mp hm
      obtain ⟨hr', rfl⟩ := (checked_iff _ _).mp hr
      rw [e1, e2] at h hr'
      obtain ⟨ds, h1, h2, h3⟩ := (ih _ hr').mp h
      exact ⟨d :: ds, List.Forall₂.cons ((toDigit_iff b c d).mp hd) h1, h2, h3⟩
    · rintro ⟨ds', hds, h2, h3⟩
      cases hds with | cons hd h1 => ?_
      rename_i d ds
      have hge := accVal_ge b (by omega) ds (a * b + d)
      have hv : accVal b (d :: ds) a = accVal b ds (a * b + d) := rfl
      rw [hv] at h2
      have hr : InI128 (sgn neg (a * b + d)) := sgn_range hge (h2 ▸ h3)
      have hm : InI128 (sgn neg (a * b)) := sgn_range (Nat.le_add_right _ d) hr
      refine Option.bind_eq_some_iff.mpr ⟨sgn neg (a * b), (checked_iff _ _).mpr ⟨by rw [e1]; exact hm, e1.symm⟩, ?_⟩
      refine Option.bind_eq_some_iff.mpr ⟨d, (toDigit_iff b c d).mpr hd, ?_⟩
      refine Option.bind_eq_some_iff.mpr ⟨sgn neg (a * b + d), (checked_iff _ _).mpr ⟨by rw [e2]; exact hr, (e2 d).symm⟩, ?_⟩
      exact (ih _ hr).mpr ⟨ds, h1, h2, h3⟩

theorem loop_iff (b : Nat) (hb : b = 10 ∨ b = 16) (neg : Bool) (cs : List Char) (hne : cs ≠ []) (n : Int) :
    digitsLoop b neg cs 0 = some n ↔ ∃ u, IsUnsigned b cs u ∧ n = sgn neg u ∧ InI128 n := by
  have h0 : (0 : Int) = sgn neg 0 := by unfold sgn; cases neg <;> rfl
  rw [h0, digitsLoop_iff b hb neg cs 0 n (by unfold InI128 sgn; cases neg <;> norm_num)]
  constructor
  · rintro ⟨ds, h1, h2, h3⟩
    exact ⟨_, ⟨hne, ds, h1, rfl⟩, by rw [h2, accVal_eq, Nat.zero_mul, Nat.zero_add], h3⟩
  · rintro ⟨u, ⟨-, ds, h1, rfl⟩, h2, h3⟩
    exact ⟨ds, h1, by rw [h2, accVal_eq, Nat.zero_mul, Nat.zero_add], h3⟩

theorem sign_not_digit (b : Nat) (c : Char) (hc : c = '+' ∨ c = '-') (cs : List Char) (u : Nat) : ¬ IsUnsigned b (c :: cs) u := by
  rintro ⟨-, ds, h, -⟩
  cases h with | cons hd _ => ?_
  obtain ⟨-, ⟨k, hk, h, -⟩ | ⟨k, hk, h, -⟩⟩ := hd
  · rcases hc with rfl | rfl <;> revert h <;> revert k <;> decide
  · rcases hc with rfl | rfl <;> revert h <;> revert k <;> decide

theorem fromStrRadix_iff (b : Nat) (hb : b = 10 ∨ b = 16) (s : List Char) (n : Int) :
    fromStrRadix b s = some n ↔ IsNumeral b s n ∧ InI128 n := by
  unfold IsNumeral
  unfold fromStrRadix
  split
  · simp [IsUnsigned]
  · constructor
    · intro h; exact absurd h (by simp)
    · rintro ⟨⟨u, h, -⟩ | ⟨cs, u, h, ⟨hne, -⟩, -⟩ | ⟨cs, u, h, -⟩, -⟩
      · exact absurd h (sign_not_digit _ _ (by decide) _ _)
      · exact absurd (List.cons.inj h).2.symm hne
      · exact absurd (List.cons.inj h).1 (by decide)
  · constructor
    · intro h; exact absurd h (by simp)
    · rintro ⟨⟨u, h, -⟩ | ⟨cs, u, h, -⟩ | ⟨cs, u, h, ⟨hne, -⟩, -⟩, -⟩
      · exact absurd h (sign_not_digit _ _ (by decide) _ _)
      · exact absurd (List.cons.inj h).1 (by decide)
      · exact absurd (List.cons.inj h).2.symm hne
  · rename_i cs hne
    rw [loop_iff b hb false cs (fun h => hne (by rw [h]))]
    constructor
    · rintro ⟨u, h1, h2, h3⟩; exact ⟨Or.inr (Or.inl ⟨cs, u, rfl, h1, h2⟩), h3⟩
    · rintro ⟨⟨u, h, -⟩ | ⟨cs', u, h, h1, h2⟩ | ⟨cs', u, h, -⟩, h3⟩
      · exact absurd h (sign_not_digit _ _ (by decide) _ _)
      · obtain rfl := (List.cons.inj h).2; exact ⟨u, h1, h2, h3⟩
      · exact absurd (List.cons.inj h).1 (by decide)
  · rename_i cs hne
    rw [loop_iff b hb true cs (fun h => hne (by rw [h]))]
    constructor
    · rintro ⟨u, h1, h2, h3⟩; exact ⟨Or.inr (Or.inr ⟨cs, u, rfl, h1, h2⟩), h3⟩
    · rintro ⟨⟨u, h, -⟩ | ⟨cs', u, h, -⟩ | ⟨cs', u, h, h1, h2⟩, h3⟩
      · exact absurd h (sign_not_digit _ _ (by decide) _ _)
      · exact absurd (List.cons.inj h).1 (by decide)
      · obtain rfl := (List.cons.inj h).2; exact ⟨u, h1, h2, h3⟩
  · rename_i h0 _ _ hp hm
    rw [loop_iff b hb false s h0]
    constructor
    · rintro ⟨u, h1, h2, h3⟩; exact ⟨Or.inl ⟨u, h1, h2⟩, h3⟩
    · rintro ⟨⟨u, h1, h2⟩ | ⟨cs', u, h, -⟩ | ⟨cs', u, h, -⟩, h3⟩
      · exact ⟨u, h1, h2, h3⟩
      · exact absurd h (hp cs')
      · exact absurd h (hm cs')

theorem reduce_ge (n : Int) (hn : -(p : Int) ≤ n) : (reduce n : Int) = n % p := by
  unfold reduce asU64
  dsimp only
  have hp : (0 : Int) < p := by norm_num [p]
  have key : ∀ m : Int, 0 ≤ m → (((m.tmod p) % 2 ^ 64).toNat : Int) = m % p := by
    intro m hm
    rw [Int.tmod_eq_emod_of_nonneg hm]
    have h1 := Int.emod_nonneg m hp.ne'
    have h2 := Int.emod_lt_of_pos m hp
    rw [Int.emod_eq_of_lt h1 (by have : (p : Int) < 2 ^ 64 := by norm_num [p]
                                 omega)]
    exact Int.toNat_of_nonneg h1
  split
  · rw [key _ (by omega), Int.add_emod_right]
  · exact key _ (by omega)

theorem parse_iff (s : List Char) (r : Nat) : parsePilNumber s = some r ↔ ∃ n, Denotes s n ∧ InI128 n ∧ r = reduce n := by
  unfold parsePilNumber Denotes
  rw [Option.map_eq_some_iff]
  split
  · rename_i rest
    have hpre : ['0', 'x'] <+: '0' :: 'x' :: rest := ⟨rest, rfl⟩
    simp only [hpre, if_true, fromStrRadix_iff 16 (Or.inr rfl), List.drop_succ_cons, List.drop_zero, and_assoc, eq_comm]
  · rename_i h
    have hpre : ¬ ['0', 'x'] <+: s := by rintro ⟨t, rfl⟩; exact h t rfl
    simp only [hpre, if_false, fromStrRadix_iff 10 (Or.inl rfl), and_assoc, eq_comm]

/-- **C58 (partial).** A string is accepted iff it denotes a 128-bit integer; for an integer that is not below `-p` the result is its canonical residue mod `p`.
Missing: integers below `-p`, for which the claim is false (`parsePil_below`). -/
theorem parsePil_partial (s : List Char) :
    ((parsePilNumber s).isSome ↔ ∃ n, Denotes s n ∧ InI128 n) ∧
    ∀ n, Denotes s n → InI128 n → -(p : Int) ≤ n → ∃ r : Nat, parsePilNumber s = some r ∧ (r : Int) = n % p := by
  constructor
  · rw [Option.isSome_iff_exists]
    simp only [parse_iff]
    constructor
    · rintro ⟨_, n, h1, h2, -⟩; exact ⟨n, h1, h2⟩
    · rintro ⟨n, h1, h2⟩; exact ⟨_, n, h1, h2, rfl⟩
  · intro n h1 h2 h3
    exact ⟨_, (parse_iff s _).mpr ⟨n, h1, h2, rfl⟩, reduce_ge n h3⟩

/-- **C58 is violated below `-p`**: every such integer that is not a multiple of `p` gives a word that stands for another field element. -/
theorem parsePil_below (s : List Char) (n : Int) (h : Denotes s n) (hn : InI128 n) (hlt : n < -p) (hm : ¬ (p : Int) ∣ n) :
    ∃ r, parsePilNumber s = some r ∧ ¬ (r : Int) ≡ n [ZMOD p] := by
  refine ⟨_, (parse_iff s _).mpr ⟨n, h, hn, rfl⟩, ?_⟩
  have hp : (0 : Int) < p := by norm_num [p]
  have hp64 : (p : Int) = 2 ^ 64 - (2 ^ 32 - 1) := by norm_num [p]
  have hneg : n < 0 := by omega
  set k := (-(n + p)) % p with hk
  have hk0 : 0 ≤ k := Int.emod_nonneg _ hp.ne'
  have hkp : k < p := Int.emod_lt_of_pos _ hp
  have hkne : k ≠ 0 := by
    intro h0
    apply hm
    have : (p : Int) ∣ -(n + p) := Int.dvd_of_emod_eq_zero (hk ▸ h0)
    have h2 := (Int.dvd_neg).mp this
    exact (Int.dvd_add_left (dvd_refl _)).mp h2
  have htm : (n + p).tmod p = -k := by
    rw [hk, ← Int.tmod_eq_emod_of_nonneg (by omega : 0 ≤ -(n + p)), Int.neg_tmod, neg_neg]
  have hr : (reduce n : Int) = 2 ^ 64 - k := by
    unfold reduce asU64
    rw [if_pos hneg]
    dsimp only
    rw [htm]
    have e : (-k) % 2 ^ 64 = 2 ^ 64 - k := by
      rw [Int.emod_eq_iff (by norm_num)]
      refine ⟨by omega, by omega, ⟨1, by ring⟩⟩
    rw [e]
    exact Int.toNat_of_nonneg (by omega)
  have hnk : n ≡ -k [ZMOD p] := by
    have h1 : k ≡ -(n + p) [ZMOD p] := Int.mod_modEq _ _
    have h2 := h1.neg
    rw [neg_neg] at h2
    have h3 : n + p ≡ n [ZMOD p] := by
      show (n + p) % p = n % p
      exact Int.add_emod_right _ _
    exact (h2.trans h3).symm
  rw [hr]
  intro hc
  have h1 := (hc.trans hnk)
  have h2 : (p : Int) ∣ 2 ^ 64 := by
    have := Int.modEq_iff_dvd.mp h1
    rw [show (-k - (2 ^ 64 - k) : Int) = -(2 ^ 64) by ring] at this
    exact (Int.dvd_neg).mp this
  rw [hp64] at h2
  revert h2
  norm_num

/-- `-1`, `+0x`-less decimal, hexadecimal, and an integer below `-p` -/
example : parsePilNumber "-1".toList = some (p - 1) ∧ parsePilNumber "0x1F".toList = some 31 ∧ parsePilNumber "18446744069414584322".toList = some 1 ∧
    parsePilNumber "".toList = none ∧ parsePilNumber "12a".toList = none ∧ parsePilNumber "-18446744069414584322".toList = some (2 ^ 64 - 1) := by
  decide +kernel

example : Denotes "-18446744069414584322".toList (-18446744069414584322) ∧ InI128 (-18446744069414584322) ∧ (-18446744069414584322 : Int) < -p ∧ ¬ (p : Int) ∣ -18446744069414584322 := by
  refine ⟨?_, by decide +kernel, by decide +kernel, by decide +kernel⟩
  have h := (fromStrRadix_iff 10 (Or.inl rfl) "-18446744069414584322".toList (-18446744069414584322)).mp (by decide +kernel)
  unfold Denotes
  rw [if_neg (by decide +kernel)]
  exact h.1

end Verif.Io.PilNumber
