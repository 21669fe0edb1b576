import Verif.Io.PilNumber
import Mathlib.Data.ZMod.Basic

/-! # Decimal text of integers: printing and the two parsers used for field elements -/

namespace Verif.Io.Text

open Verif.Io.PilNumber (toDigit)

/-- `to_string` of an unsigned integer (standard library / num-bigint): its decimal digits without leading zeros (`0` is `"0"`). -/
def dec (n : Nat) : List Char := Nat.toDigits 10 n

/-- the digit loop of `u64::from_str` (standard library): `checked_mul(10)?`, `checked_add(digit)?` -/
def u64Loop : List Char → Nat → Option Nat
  | [], acc => some acc
  | c :: cs, acc => do
    let d ← toDigit 10 c
    if acc * 10 + d < 2 ^ 64 then u64Loop cs (acc * 10 + d) else none

/-- `u64::from_str` (standard library): an optional `+` and at least one digit; `none` is an error (the callers `unwrap`). -/
def parseU64 (s : List Char) : Option Nat :=
  match s with
  | [] => none
  | ['+'] => none
  | '+' :: cs => u64Loop cs 0
  | cs => u64Loop cs 0

/-- The digit loop of `ff::PrimeField::from_str` in a ring of residues mod `m` -/
def fieldLoop (m : Nat) : List Char → Bool → ZMod m → Option (ZMod m)
  | [], _, res => some res
  | c :: cs, first, res => do
    let d ← toDigit 10 c
    if first = true ∧ d = 0 then none else fieldLoop m cs false (res * 10 + d)

/-- `ff::PrimeField::from_str` (default method of the trait, crate `ff_ce`): no empty string, no leading zero except `"0"`, only digits. -/
def fieldFromStr (m : Nat) (s : List Char) : Option (ZMod m) :=
  match s with
  | [] => none
  | ['0'] => some 0
  | cs => fieldLoop m cs true 0

theorem toDigit_digitChar : ∀ d < 10, toDigit 10 (Nat.digitChar d) = some d := by decide +kernel

theorem u64Loop_append (a b : List Char) (x : Nat) : u64Loop (a ++ b) x = (u64Loop a x).bind (u64Loop b) := by
  induction a generalizing x with
  | nil => rfl
  | cons c a ih =>
    rw [List.cons_append, u64Loop, u64Loop]
    cases toDigit 10 c with
    | none => rfl
    | some d =>
      dsimp only [bind, Option.bind]
      split
      · exact ih _
      · rfl

theorem u64Loop_dec (n : Nat) (h : n < 2 ^ 64) : u64Loop (dec n) 0 = some n := by
  unfold dec
  induction n using Nat.strong_induction_on with
  | _ n ih =>
    by_cases hn : n < 10
    · rw [Nat.toDigits_of_lt_base hn, u64Loop, toDigit_digitChar n hn]
      dsimp only [bind, Option.bind]
      rw [if_pos (by omega), u64Loop, Nat.zero_mul, Nat.zero_add]
    · have e : 10 * (n / 10) + n % 10 = n := Nat.div_add_mod n 10
      have hd : n % 10 < 10 := Nat.mod_lt _ (by norm_num)
      rw [← e, ← Nat.toDigits_append_toDigits (by norm_num) (by omega) hd, u64Loop_append, ih (n / 10) (by omega) (by omega), Nat.toDigits_of_lt_base hd]
      dsimp only [Option.bind]
      rw [u64Loop, toDigit_digitChar _ hd]
      dsimp only [bind, Option.bind]
      rw [if_pos (by omega), u64Loop]
      congr 1
      omega

theorem dec_head (n : Nat) (c : Char) (cs : List Char) (h : dec n = c :: cs) : c.isDigit :=
  Nat.isDigit_of_mem_toDigits (b := 10) (n := n) (by norm_num) (by norm_num) (by
    show c ∈ dec n
    rw [h]; exact List.mem_cons_self)

theorem parseU64_dec (n : Nat) (h : n < 2 ^ 64) : parseU64 (dec n) = some n := by
  unfold parseU64
  split
  · rename_i h0; exact absurd h0 Nat.toDigits_ne_nil
  · rename_i h0; exact absurd (dec_head n _ _ h0) (by decide)
  · rename_i cs _ h0; exact absurd (dec_head n _ _ h0) (by decide)
  · exact u64Loop_dec n h

theorem fieldLoop_append (m : Nat) (a b : List Char) (x : ZMod m) : fieldLoop m (a ++ b) false x = (fieldLoop m a false x).bind (fieldLoop m b false) := by
  induction a generalizing x with
  | nil => rfl
  | cons c a ih =>
    rw [List.cons_append, fieldLoop, fieldLoop]
    cases toDigit 10 c with
    | none => rfl
    | some d =>
      dsimp only [bind, Option.bind]
      split
      · rfl
      · exact ih _

theorem fieldLoop_append_true (m : Nat) (a b : List Char) (x : ZMod m) (ha : a ≠ []) : fieldLoop m (a ++ b) true x = (fieldLoop m a true x).bind (fieldLoop m b false) := by
  obtain ⟨c, a, rfl⟩ := List.exists_cons_of_ne_nil ha
  rw [List.cons_append, fieldLoop, fieldLoop]
  cases toDigit 10 c with
  | none => rfl
  | some d =>
    dsimp only [bind, Option.bind]
    split
    · rfl
    · exact fieldLoop_append m a b _

theorem fieldLoop_dec (m n : Nat) (h : 0 < n) : fieldLoop m (dec n) true 0 = some (n : ZMod m) := by
  unfold dec
  induction n using Nat.strong_induction_on with
  | _ n ih =>
    by_cases hn : n < 10
    · rw [Nat.toDigits_of_lt_base hn, fieldLoop, toDigit_digitChar n hn]
      dsimp only [bind, Option.bind]
      rw [if_neg (by omega), fieldLoop, zero_mul, zero_add]
    · have e : 10 * (n / 10) + n % 10 = n := Nat.div_add_mod n 10
      have hd : n % 10 < 10 := Nat.mod_lt _ (by norm_num)
      conv_lhs => rw [← e]
      rw [← Nat.toDigits_append_toDigits (by norm_num) (by omega) hd, fieldLoop_append_true _ _ _ _ Nat.toDigits_ne_nil, ih (n / 10) (by omega) (by omega), Nat.toDigits_of_lt_base hd]
      dsimp only [Option.bind]
      rw [fieldLoop, toDigit_digitChar _ hd]
      dsimp only [bind, Option.bind]
      rw [if_neg (by simp), fieldLoop]
      congr 1
      conv_rhs => rw [← e]
      push_cast
      ring

theorem fieldFromStr_dec (m n : Nat) : fieldFromStr m (dec n) = some (n : ZMod m) := by
  rcases Nat.eq_zero_or_pos n with rfl | hn
  · rw [dec, Nat.toDigits_zero, Nat.cast_zero]; rfl
  · unfold fieldFromStr
    split
    · rename_i h0; exact absurd h0 Nat.toDigits_ne_nil
    · rename_i h0
      have := Nat.ofDigitChars_ten_toDigits (n := n)
      unfold dec at h0
      rw [h0] at this
      rw [show Nat.ofDigitChars 10 ['0'] 0 = 0 by decide] at this
      omega
    · exact fieldLoop_dec m n hn

end Verif.Io.Text
