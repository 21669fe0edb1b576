import Verif.FFT.Model
import Mathlib.RingTheory.RootsOfUnity.PrimitiveRoots
import Mathlib.RingTheory.RootsOfUnity.Lemmas
import Mathlib.Algebra.BigOperators.Intervals
import Mathlib.Tactic.LinearCombination
import Mathlib.Tactic.Ring
/-! # Serial FFT: helper lemmas -/
namespace Verif.FFT
open Finset

/-! ## bit reversal -/

theorem revBits_lt (k x : Nat) : revBits k x < 2 ^ k := by
  induction k generalizing x with
  | zero => simp [revBits]
  | succ k ih =>
    have := ih (x / 2)
    have h2 : x % 2 ≤ 1 := by omega
    rw [revBits, pow_succ]
    have : x % 2 * 2 ^ k ≤ 1 * 2 ^ k := Nat.mul_le_mul_right _ h2
    omega

theorem testBit_revBits (k x i : Nat) : (revBits k x).testBit i = (decide (i < k) && x.testBit (k - 1 - i)) := by
  induction k generalizing x i with
  | zero => simp [revBits]
  | succ k ih =>
    rw [revBits, mul_comm, Nat.testBit_two_pow_mul_add _ (revBits_lt k _), ih]
    by_cases h : i < k
    · rw [if_pos h]
      have : k + 1 - 1 - i = (k - 1 - i) + 1 := by omega
      rw [this, Nat.testBit_add_one]
      simp [h, Nat.lt_succ_of_lt h]
    · rw [if_neg h]
      by_cases h2 : i = k
      · subst h2; simp
      · have h3 : ¬ i < k + 1 := by omega
        simp only [h3, decide_false, Bool.false_and]
        apply Nat.testBit_lt_two_pow
        have : 2 ^ 1 ≤ 2 ^ (i - k) := Nat.pow_le_pow_right (by norm_num) (by omega)
        omega

theorem revBits_invol {k x : Nat} (hx : x < 2 ^ k) : revBits k (revBits k x) = x := by
  apply Nat.eq_of_testBit_eq
  intro i
  rw [testBit_revBits, testBit_revBits]
  by_cases h : i < k
  · have h2 : k - 1 - i < k := by omega
    have h3 : k - 1 - (k - 1 - i) = i := by omega
    simp [h, h2, h3]
  · have : x < 2 ^ i := lt_of_lt_of_le hx (Nat.pow_le_pow_right (by norm_num) (by omega))
    simp [h, Nat.testBit_lt_two_pow this]

theorem revIdx_eq {bits i : Nat} (hb : bits ≤ 32) (hi : i < 2 ^ bits) : revIdx bits i = revBits bits i := by
  have : i < 2 ^ 32 := lt_of_lt_of_le hi (Nat.pow_le_pow_right (by norm_num) hb)
  apply Nat.eq_of_testBit_eq
  intro j
  rw [revIdx, Nat.mod_eq_of_lt this, Nat.testBit_shiftRight, testBit_revBits, testBit_revBits]
  by_cases h : j < bits
  · have h1 : 32 - bits + j < 32 := by omega
    have h2 : 32 - 1 - (32 - bits + j) = bits - 1 - j := by omega
    simp [h, h1, h2]
  · have h1 : ¬ 32 - bits + j < 32 := by omega
    simp [h, h1]

/-- Splitting off the lowest bit of the argument. -/
theorem revBits_succ_add {k x b : Nat} (hb : b < 2) : revBits (k + 1) (2 * x + b) = b * 2 ^ k + revBits k x := by
  rw [revBits]
  have h1 : (2 * x + b) % 2 = b := by omega
  have h2 : (2 * x + b) / 2 = x := by omega
  rw [h1, h2]

variable {A : Type} [Field A]

/-! ## loops -/

theorem powersTable_get (w r : A) (n i : Nat) (h : i < n) : (powersTable w n r).getD i 0 = r * w ^ i := by
  induction n generalizing r i with
  | zero => omega
  | succ n ih =>
    cases i with
    | zero => simp [powersTable]
    | succ i =>
      simp only [powersTable, List.getD_cons_succ]
      rw [ih _ _ (by omega)]; ring

theorem butterflies_eq (winc : A) (h k : Nat) (old : Nat → A) (x : Nat) :
    butterflies winc h k old x =
      if k ≤ x ∧ x < k + h then old x + winc ^ (x - k) * old (x + h)
      else if k + h ≤ x ∧ x < k + h + h then old (x - h) - winc ^ (x - k - h) * old x
      else old x := by
  unfold butterflies
  have gen : ∀ m, m ≤ h → ∀ st, st = (List.range m).foldl (fun (st : (Nat → A) × A) j =>
    let t := st.2 * st.1 (k + j + h)
    let u := st.1 (k + j)
    (Function.update (Function.update st.1 (k + j) (u + t)) (k + j + h) (u - t), st.2 * winc)) (old, 1) →
    st.2 = winc ^ m ∧ ∀ x, st.1 x = 
      if k ≤ x ∧ x < k + m then old x + winc ^ (x - k) * old (x + h)
      else if k + h ≤ x ∧ x < k + h + m then old (x - h) - winc ^ (x - k - h) * old x
      else old x := by
    intro m
    induction m with
    | zero => 
      intro _ st hst; subst hst
      refine ⟨by simp, fun x => ?_⟩
      rw [if_neg (by omega), if_neg (by omega)]; rfl
    | succ m ih =>
      intro hm st hst
      rw [List.range_succ, List.foldl_append] at hst
      obtain ⟨ih1, ih2⟩ := ih (by omega) _ rfl
      generalize (List.range m).foldl _ (old, (1:A)) = st' at hst ih1 ih2
      simp only [List.foldl_cons, List.foldl_nil] at hst
      subst hst
      have e1 : st'.1 (k + m + h) = old (k + m + h) := by
        rw [ih2, if_neg (by omega), if_neg (by omega)]
      have e2 : st'.1 (k + m) = old (k + m) := by
        rw [ih2, if_neg (by omega), if_neg (by omega)]
      refine ⟨by simp only; rw [ih1]; ring, fun x => ?_⟩
      simp only
      rw [e1, e2, ih1]
      by_cases hx1 : x = k + m + h
      · subst hx1
        rw [Function.update_self, if_neg (by omega), if_pos (by omega)]
        rw [show k + m + h - h = k + m by omega, show k + m + h - k - h = m by omega]
      · rw [Function.update_of_ne hx1]
        by_cases hx2 : x = k + m
        · subst hx2
          rw [Function.update_self, if_pos (by omega), show k + m - k = m by omega]
        · rw [Function.update_of_ne hx2, ih2]
          split_ifs <;> first | rfl | omega
  exact (gen h le_rfl _ rfl).2 x

/-- One stage, read off pointwise: position `q*2^(s+1) + i`, `i < 2^s`, and its partner. -/
theorem stage_eq (winc : A) (s n : Nat) (old : Nat → A) (q i : Nat) (hq : q < n / 2 ^ (s + 1)) (hi : i < 2 ^ s) :
    stage winc (s + 1) n old (q * 2 ^ (s + 1) + i) =
        old (q * 2 ^ (s + 1) + i) + winc ^ i * old (q * 2 ^ (s + 1) + i + 2 ^ s) ∧
    stage winc (s + 1) n old (q * 2 ^ (s + 1) + i + 2 ^ s) =
        old (q * 2 ^ (s + 1) + i) - winc ^ i * old (q * 2 ^ (s + 1) + i + 2 ^ s) := by
  unfold stage
  have hm : 2 ^ (s + 1) / 2 = 2 ^ s := by rw [pow_succ]; omega
  rw [hm]
  generalize n / 2 ^ (s + 1) = cnt at hq
  set m := 2 ^ (s + 1) with hmdef
  have hm2 : m = 2 ^ s + 2 ^ s := by rw [hmdef, pow_succ]; ring
  set h := 2 ^ s
  have gen : ∀ c, ∀ x, (List.range c).foldl (fun b q => butterflies winc h (q * m) b) old x =
      if x / m < c then (if x % m < h then old x + winc ^ (x % m) * old (x + h) else old (x - h) - winc ^ (x % m - h) * old x)
      else old x := by
    intro c
    have hmpos : 0 < m := by positivity
    induction c with
    | zero => intro x; simp
    | succ c ih =>
      intro x
      rw [List.range_succ, List.foldl_append, List.foldl_cons, List.foldl_nil, butterflies_eq]
      have hx := Nat.div_add_mod x m
      have hr := Nat.mod_lt x hmpos
      by_cases hc : x / m = c
      · have hcm : m * (x / m) = c * m := by rw [hc, mul_comm]
        rw [if_pos (by omega : x / m < c + 1)]
        have ex : (List.range c).foldl (fun b q => butterflies winc h (q * m) b) old x = old x := by
          rw [ih, if_neg (by omega)]
        by_cases hlo : x % m < h
        · have ex2 : (List.range c).foldl (fun b q => butterflies winc h (q * m) b) old (x + h) = old (x + h) := by
            rw [ih, if_neg]
            have : x / m ≤ (x + h) / m := Nat.div_le_div_right (by omega)
            omega
          rw [if_pos (by omega), if_pos hlo, ex, ex2, show x - c * m = x % m by omega]
        · have ex2 : (List.range c).foldl (fun b q => butterflies winc h (q * m) b) old (x - h) = old (x - h) := by
            rw [ih, if_neg]
            have : c ≤ (x - h) / m := by
              rw [Nat.le_div_iff_mul_le hmpos]; omega
            omega
          rw [if_neg (by omega), if_pos (by omega), if_neg hlo, ex, ex2, show x - c * m - h = x % m - h by omega]
      · have hout : ¬ (c * m ≤ x ∧ x < c * m + h) ∧ ¬ (c * m + h ≤ x ∧ x < c * m + h + h) := by
          constructor
          · rintro ⟨h1, h2⟩
            apply hc
            rw [Nat.div_eq_iff hmpos]; constructor <;> omega
          · rintro ⟨h1, h2⟩
            apply hc
            rw [Nat.div_eq_iff hmpos]; constructor <;> omega
        rw [if_neg hout.1, if_neg hout.2, ih]
        have : x / m < c ↔ x / m < c + 1 := by omega
        simp only [this]
  have hmpos : 0 < m := by positivity
  have d1 : (q * m + i) / m = q := by
    rw [Nat.div_eq_iff hmpos]; constructor <;> omega
  have d2 : (q * m + i + h) / m = q := by
    rw [Nat.div_eq_iff hmpos]; constructor <;> omega
  have e1 : (q * m + i) % m = i := by
    have := Nat.div_add_mod (q * m + i) m
    rw [d1, mul_comm] at this; omega
  have e2 : (q * m + i + h) % m = i + h := by
    have := Nat.div_add_mod (q * m + i + h) m
    rw [d2, mul_comm] at this; omega
  constructor
  · rw [gen, d1, if_pos hq, e1, if_pos hi]
  · rw [gen, d2, if_pos hq, e2, if_neg (by omega)]
    rw [show q * m + i + h - h = q * m + i by omega, show i + h - h = i by omega]

theorem scatter_eq {bits : Nat} (hb : bits ≤ 32) (p : Nat → A) (x : Nat) (hx : x < 2 ^ bits) :
    scatter bits p (2 ^ bits) x = p (revBits bits x) := by
  unfold scatter
  have gen : ∀ m, m ≤ 2 ^ bits → ∀ x < 2 ^ bits,
      (List.range m).foldl (fun b i => Function.update b (revIdx bits i) (p i)) (fun _ => (0:A)) x =
        if revBits bits x < m then p (revBits bits x) else 0 := by
    intro m
    induction m with
    | zero => intro _ x hx; simp
    | succ m ih =>
      intro hm x hx
      rw [List.range_succ, List.foldl_append, List.foldl_cons, List.foldl_nil, revIdx_eq hb (by omega)]
      by_cases h : x = revBits bits m
      · subst h
        rw [Function.update_self, revBits_invol (by omega), if_pos (by omega)]
      · rw [Function.update_of_ne h, ih (by omega) x hx]
        have : revBits bits x ≠ m := by
          rintro rfl; exact h (revBits_invol hx).symm
        by_cases c : revBits bits x < m
        · simp [c, Nat.lt_succ_of_lt c]
        · have c2 : ¬ revBits bits x < m + 1 := by omega
          simp [c, c2]
  rw [gen _ le_rfl x hx, if_pos (revBits_lt _ _)]

theorem sum_range_two_mul (f : Nat → A) (n : Nat) :
    ∑ j ∈ range (2 * n), f j = ∑ j ∈ range n, (f (2 * j) + f (2 * j + 1)) := by
  induction n with
  | zero => simp
  | succ n ih =>
    rw [show 2 * (n + 1) = 2 * n + 1 + 1 by ring, sum_range_succ, sum_range_succ, ih, sum_range_succ]
    ring

/-- What the code needs from the root table up to `bits`: successive squares, and the top half negation. -/
structure Roots (w : Nat → A) (bits : Nat) : Prop where
  zero : w 0 = 1
  sq : ∀ s, s < bits → w (s + 1) ^ 2 = w s
  half : ∀ s, s < bits → w (s + 1) ^ 2 ^ s = -1

theorem stages_inv {w : Nat → A} {bits : Nat} (hw : Roots w bits) (hb : bits ≤ 32) (roots : Nat → List A)
    (hr : ∀ s, s < bits → (roots (s + 1)).getD 1 0 = w (s + 1)) (p : Nat → A) (m : Nat) (hm : m ≤ bits) :
    ∀ k < 2 ^ (bits - m), ∀ i < 2 ^ m,
      (List.range m).foldl (fun b s => stage ((roots (s + 1)).getD 1 0) (s + 1) (2 ^ bits) b) (scatter bits p (2 ^ bits))
        (k * 2 ^ m + i) =
      ∑ j ∈ range (2 ^ m), p (revBits (bits - m) k + j * 2 ^ (bits - m)) * w m ^ (i * j) := by
  induction m with
  | zero =>
    intro k hk i hi
    have hi0 : i = 0 := by omega
    subst hi0
    simp only [List.range_zero, List.foldl_nil, pow_zero, mul_one, add_zero, Nat.sub_zero]
    rw [scatter_eq hb p k (by simpa using hk)]
    simp
  | succ m ih =>
    intro k hk i hi
    have ih := ih (by omega)
    rw [List.range_succ, List.foldl_append, List.foldl_cons, List.foldl_nil, hr m (by omega)]
    generalize (List.range m).foldl _ (scatter bits p (2 ^ bits)) = old at ih ⊢
    have hbm : bits - m = bits - (m + 1) + 1 := by omega
    set d := bits - (m + 1) with hd
    have h2m : 2 ^ (m + 1) = 2 * 2 ^ m := by rw [pow_succ]; ring
    have hcnt : 2 ^ bits / 2 ^ (m + 1) = 2 ^ d := by
      rw [Nat.pow_div hm (by norm_num)]
    -- the two halves
    have ev : ∀ i < 2 ^ m, old (k * 2 ^ (m + 1) + i) =
        ∑ j ∈ range (2 ^ m), p (revBits d k + (2 * j) * 2 ^ d) * w (m + 1) ^ (2 * i * j) := by
      intro i hi
      have := ih (2 * k) (by rw [hbm, pow_succ]; omega) i hi
      rw [show 2 * k * 2 ^ m + i = k * 2 ^ (m + 1) + i by rw [h2m]; ring] at this
      rw [this]
      refine sum_congr rfl fun j _ => ?_
      rw [hbm, show 2 * k = 2 * k + 0 by rfl, revBits_succ_add (by norm_num), ← hw.sq m (by omega), ← pow_mul]
      rw [show 0 * 2 ^ d + revBits d k + j * 2 ^ (d + 1) = revBits d k + 2 * j * 2 ^ d by rw [pow_succ]; ring]
      rw [← mul_assoc 2 i j]
    have od : ∀ i < 2 ^ m, old (k * 2 ^ (m + 1) + i + 2 ^ m) =
        ∑ j ∈ range (2 ^ m), p (revBits d k + (2 * j + 1) * 2 ^ d) * w (m + 1) ^ (2 * i * j) := by
      intro i hi
      have := ih (2 * k + 1) (by rw [hbm, pow_succ]; omega) i hi
      rw [show (2 * k + 1) * 2 ^ m + i = k * 2 ^ (m + 1) + i + 2 ^ m by rw [h2m]; ring] at this
      rw [this]
      refine sum_congr rfl fun j _ => ?_
      rw [hbm, revBits_succ_add (by norm_num), ← hw.sq m (by omega), ← pow_mul]
      rw [show 1 * 2 ^ d + revBits d k + j * 2 ^ (d + 1) = revBits d k + (2 * j + 1) * 2 ^ d by rw [pow_succ]; ring]
      rw [← mul_assoc 2 i j]
    rw [h2m, sum_range_two_mul, sum_add_distrib, ← h2m]
    by_cases hlo : i < 2 ^ m
    · rw [(stage_eq (w (m + 1)) m (2 ^ bits) old k i (by rw [hcnt]; exact hk) hlo).1, ev i hlo, od i hlo]
      congr 1
      · refine sum_congr rfl fun j _ => ?_
        congr 2; ring
      · rw [mul_sum]
        refine sum_congr rfl fun j _ => ?_
        rw [show i * (2 * j + 1) = i + 2 * i * j by ring, pow_add]; ring
    · obtain ⟨i', rfl⟩ : ∃ i', i = i' + 2 ^ m := ⟨i - 2 ^ m, by omega⟩
      have hi' : i' < 2 ^ m := by omega
      rw [← add_assoc, (stage_eq (w (m + 1)) m (2 ^ bits) old k i' (by rw [hcnt]; exact hk) hi').2, ev i' hi', od i' hi',
        sub_eq_add_neg]
      have hh := hw.half m (by omega)
      congr 1
      · refine sum_congr rfl fun j _ => ?_
        rw [show (i' + 2 ^ m) * (2 * j) = 2 * i' * j + 2 ^ m * (2 * j) by ring, pow_add, pow_mul _ (2 ^ m), hh, pow_mul (-1 : A)]
        norm_num
      · rw [mul_sum, ← sum_neg_distrib]
        refine sum_congr rfl fun j _ => ?_
        rw [show (i' + 2 ^ m) * (2 * j + 1) = i' + 2 * i' * j + 2 ^ m * (2 * j + 1) by ring, pow_add, pow_mul _ (2 ^ m), hh,
          pow_add (-1 : A), pow_mul (-1 : A), pow_add]
        norm_num
        ring

end Verif.FFT
