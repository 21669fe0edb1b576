import Mathlib.Data.Nat.Bitwise
import Mathlib.Data.Nat.Log
import Mathlib.Tactic.IntervalCases

/-!
# `log2_any` (`/repo/starky/src/helper.rs` L26-50): model and property C61
-/
namespace Verif.Helper

/-- `helper.rs` L26-50 `log2_any`. `usize` is a natural number below `2^64`; only `&`, `|` and comparisons are
used, so no overflow can occur. The mutable `val` is threaded through `v`, `v1`, .. -/
def log2Any (v : Nat) : Nat :=
  let b16 := decide ((v &&& 0xFFFF0000) ≠ 0)
  let v1 := if b16 then v &&& 0xFFFF0000 else v
  let b8 := decide ((v1 &&& 0xFF00FF00) ≠ 0)
  let v2 := if b8 then v1 &&& 0xFF00FF00 else v1
  let b4 := decide ((v2 &&& 0xF0F0F0F0) ≠ 0)
  let v3 := if b4 then v2 &&& 0xF0F0F0F0 else v2
  let b2 := decide ((v3 &&& 0xCCCCCCCC) ≠ 0)
  let v4 := if b2 then v3 &&& 0xCCCCCCCC else v3
  let b1 := decide ((v4 &&& 0xAAAAAAAA) ≠ 0)
  ((((if b16 then 16 else 0) ||| (if b8 then 8 else 0)) ||| (if b4 then 4 else 0)) ||| (if b2 then 2 else 0))
    ||| (if b1 then 1 else 0)

/-- Invariant: `t` is the top set bit of the original value; every set bit of the current one is at most `t` and
agrees with `t` on the index bits already processed (those `≥ k`). -/
private def Inv (k t v : Nat) : Prop := v.testBit t = true ∧ ∀ i, v.testBit i = true → i ≤ t ∧ i / 2 ^ k = t / 2 ^ k

private theorem step {k t v M : Nat} (ht : t < 32)
    (hM : ∀ i, i < 32 → M.testBit i = i.testBit k) (h : Inv (k + 1) t v) :
    (decide ((v &&& M) ≠ 0) = t.testBit k) ∧ Inv k t (if decide ((v &&& M) ≠ 0) then v &&& M else v) := by
  obtain ⟨h1, h2⟩ := h
  have same : ∀ i, i / 2 ^ (k+1) = t / 2 ^ (k+1) → i.testBit k = t.testBit k → i / 2 ^ k = t / 2 ^ k := by
    intro i hi hb
    have e1 := Nat.div_add_mod (i / 2 ^ k) 2
    have e2 := Nat.div_add_mod (t / 2 ^ k) 2
    rw [pow_succ, ← Nat.div_div_eq_div_mul, ← Nat.div_div_eq_div_mul] at hi
    rw [Nat.testBit_eq_decide_div_mod_eq, Nat.testBit_eq_decide_div_mod_eq] at hb
    have hb' := decide_eq_decide.1 hb
    omega
  by_cases hb : t.testBit k = true
  · have hv : (v &&& M).testBit t = true := by
      rw [Nat.testBit_and, h1, hM t ht, hb]; rfl
    have hne : (v &&& M) ≠ 0 := by
      intro h0; rw [h0] at hv; simp at hv
    refine ⟨by simp [hne, hb], ?_⟩
    rw [if_pos (by simpa using hne)]
    refine ⟨hv, fun i hi => ?_⟩
    rw [Nat.testBit_and, Bool.and_eq_true] at hi
    obtain ⟨l1, l2⟩ := h2 i hi.1
    refine ⟨l1, same i l2 ?_⟩
    rw [← hM i (by omega), hi.2, hb]
  · have hnb : ∀ i, v.testBit i = true → i.testBit k = false := by
      intro i hi
      obtain ⟨l1, l2⟩ := h2 i hi
      by_contra hc
      have hc : i.testBit k = true := by simpa using hc
      have hb : t.testBit k = false := by simpa using hb
      rw [pow_succ, ← Nat.div_div_eq_div_mul, ← Nat.div_div_eq_div_mul] at l2
      rw [Nat.testBit_eq_decide_div_mod_eq, decide_eq_true_eq] at hc
      rw [Nat.testBit_eq_decide_div_mod_eq, decide_eq_false_iff_not] at hb
      have : i / 2 ^ k ≤ t / 2 ^ k := Nat.div_le_div_right l1
      omega
    have h0 : (v &&& M) = 0 := by
      apply Nat.eq_of_testBit_eq
      intro i
      rw [Nat.testBit_and, Nat.zero_testBit]
      by_cases hi : v.testBit i = true
      · rw [hM i (by have := (h2 i hi).1; omega), hnb i hi]; simp
      · simp at hi; simp [hi]
    refine ⟨by simp [h0]; simpa using hb, ?_⟩
    rw [if_neg (by simp [h0])]
    exact ⟨h1, fun i hi => ⟨(h2 i hi).1, same i (h2 i hi).2 (by rw [hnb i hi]; simpa using hb)⟩⟩

/-- C61: `log2_any(n)` is `⌊log2 n⌋` for every `1 ≤ n < 2^32`. -/
theorem log2Any_eq {n : Nat} (h0 : 0 < n) (hn : n < 2 ^ 32) : 2 ^ log2Any n ≤ n ∧ n < 2 ^ (log2Any n + 1) := by
  obtain ⟨t, ht⟩ : ∃ t, t = Nat.log 2 n := ⟨_, rfl⟩
  have hl : 2 ^ t ≤ n := by rw [ht]; exact Nat.pow_log_le_self 2 (by omega)
  have hu : n < 2 ^ (t + 1) := by rw [ht]; exact Nat.lt_pow_succ_log_self (by norm_num) n
  have ht32 : t < 32 := by
    by_contra hc
    have : 2 ^ 32 ≤ 2 ^ t := Nat.pow_le_pow_right (by norm_num) (by omega)
    omega
  suffices log2Any n = t by rw [this]; exact ⟨hl, hu⟩
  have hi : Inv 5 t n := by
    have hle : ∀ i, n.testBit i = true → i ≤ t := by
      intro i hi
      by_contra hc
      have : n < 2 ^ i := lt_of_lt_of_le hu (Nat.pow_le_pow_right (by norm_num) (by omega))
      rw [Nat.testBit_lt_two_pow this] at hi
      cases hi
    refine ⟨?_, fun i hi => ⟨hle i hi, ?_⟩⟩
    · rw [Nat.testBit_eq_decide_div_mod_eq, decide_eq_true_eq]
      have h1 : n / 2 ^ t < 2 := by rw [Nat.div_lt_iff_lt_mul (by positivity)]; rw [pow_succ] at hu; omega
      have h2 : 0 < n / 2 ^ t := Nat.div_pos hl (by positivity)
      omega
    · have := hle i hi
      rw [Nat.div_eq_of_lt (by norm_num; omega), Nat.div_eq_of_lt (by norm_num; omega)]
  obtain ⟨e4, i4⟩ := step (M := 0xFFFF0000) ht32 (by decide) hi
  obtain ⟨e3, i3⟩ := step (M := 0xFF00FF00) ht32 (by decide) i4
  obtain ⟨e2, i2⟩ := step (M := 0xF0F0F0F0) ht32 (by decide) i3
  obtain ⟨e1, i1⟩ := step (M := 0xCCCCCCCC) ht32 (by decide) i2
  obtain ⟨e0, i0⟩ := step (M := 0xAAAAAAAA) ht32 (by decide) i1
  unfold log2Any
  simp only
  rw [e0, e1, e2, e3, e4]
  clear * - ht32
  revert ht32
  revert t
  decide

/-- C61: the result for `0` is `0`. -/
theorem log2Any_zero : log2Any 0 = 0 := by decide

/-- `log2_any(n-1)+1` is the exponent of a power of two (how the FFT uses it). -/
theorem log2Any_pred {k : Nat} (hk : 0 < k) (hk32 : k ≤ 32) : log2Any (2 ^ k - 1) + 1 = k := by
  have hp : 2 ≤ 2 ^ k := by calc 2 = 2 ^ 1 := rfl
    _ ≤ 2 ^ k := Nat.pow_le_pow_right (by norm_num) hk
  have hle : 2 ^ k ≤ 2 ^ 32 := Nat.pow_le_pow_right (by norm_num) hk32
  obtain ⟨h1, h2⟩ := log2Any_eq (n := 2 ^ k - 1) (by omega) (by omega)
  have a : log2Any (2 ^ k - 1) < k := (Nat.pow_lt_pow_iff_right (a := 2) (by norm_num)).1 (by omega)
  have b : k ≤ log2Any (2 ^ k - 1) + 1 := (Nat.pow_le_pow_iff_right (a := 2) (by norm_num)).1 (by omega)
  omega

theorem log2Any_pow {k : Nat} (hk : k < 32) : log2Any (2 ^ k) = k := by
  obtain ⟨h1, h2⟩ := log2Any_eq (n := 2 ^ k) (by positivity) (Nat.pow_lt_pow_right (by norm_num) hk)
  have a := (Nat.pow_le_pow_iff_right (a := 2) (by norm_num)).1 h1
  have b := (Nat.pow_lt_pow_iff_right (a := 2) (by norm_num)).1 h2
  omega

/-- Outside its domain the function is wrong: the bits above 31 are ignored (`log2_any(2^32) = 0`), so the
restriction `n < 2^32` of C61 is needed. -/
theorem log2Any_wrong_above : log2Any (2 ^ 32) = 0 ∧ log2Any (2 ^ 33 + 4) = 2 := by decide

example : log2Any 1000000 = 19 ∧ 0 < 1000000 ∧ 1000000 < 2 ^ 32 := by decide

end Verif.Helper
