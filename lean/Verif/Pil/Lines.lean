import Mathlib.Data.List.Count
import Mathlib.Tactic.Linarith

/-!
# C134: the line of an identity, recursion/src/pilcom/export.rs L372-396

A source is its bytes; 10 is the newline.
-/
namespace Verif.Pil.Lines

/-- `match_indices('\n').map(|(i, _)| i + 1)`, export.rs L385, for the bytes from position `k` on -/
def after (k : Nat) (src : List Nat) : List Nat := ((src.zipIdx k).filter fun x => x.1 = 10).map fun x => x.2 + 1

/-- `compute_line_starts`, export.rs L384-386 (its cache by the address of the source, L376-379, is not modelled) -/
def lineStarts (src : List Nat) : List Nat := 0 :: after 0 src

/-- `slice::binary_search` (standard library) on a strictly increasing slice: `Ok` of the position, or `Err` of where it belongs -/
def binarySearch (l : List Nat) (x : Nat) : Nat ⊕ Nat := if x ∈ l then .inl (l.countP (· < x)) else .inr (l.countP (· < x))

/-- `offset_to_line_col`, export.rs L390-396; `none` is a panic -/
def lineCol (offset : Nat) (starts : List Nat) : Option (Nat × Nat) :=
  let line := match binarySearch starts offset with
    | .inl line => line + 1
    | .inr next => next
  if line = 0 then none else do
    let s ← starts[line - 1]?
    if offset < s then none else some (line, offset - s)

theorem after_cons (k b : Nat) (src : List Nat) : after k (b :: src) = (if b = 10 then [k + 1] else []) ++ after (k + 1) src := by
  unfold after
  rw [List.zipIdx_cons, List.filter_cons]
  by_cases h : b = 10 <;> simp [h]

theorem after_gt (src : List Nat) : ∀ k, ∀ x ∈ after k src, k < x := by
  intro k x hx
  obtain ⟨⟨b, i⟩, h1, rfl⟩ := List.mem_map.mp hx
  have := List.le_snd_of_mem_zipIdx (List.mem_filter.mp h1).1
  simp only at this ⊢
  omega

theorem after_sorted (src : List Nat) : ∀ k, (after k src).Pairwise (· < ·) := by
  induction src with
  | nil => intro k; exact List.Pairwise.nil
  | cons b src ih =>
    intro k
    rw [after_cons]
    split
    · exact List.Pairwise.cons (after_gt src (k + 1)) (ih (k + 1))
    · exact ih (k + 1)

/-- the search gives the number of starts that are not after the offset -/
theorem countP_le {l : List Nat} (h : l.Pairwise (· < ·)) (x : Nat) : l.countP (· ≤ x) = l.countP (· < x) + if x ∈ l then 1 else 0 := by
  induction h with
  | nil => rfl
  | @cons a l ha hl ih =>
    rw [List.countP_cons, List.countP_cons, ih]
    rcases Nat.lt_trichotomy a x with h | h | h
    · have : ¬ x = a := by omega
      simp [List.mem_cons, this, h, h.le]
      split <;> omega
    · subst h
      have : a ∉ l := fun hm => absurd (ha a hm) (lt_irrefl _)
      simp [this]
    · have h1 : x ∉ l := fun hm => by have := ha x hm; omega
      have h2 : ¬ x = a := by omega
      simp [List.mem_cons, h1, h2]
      split_ifs <;> omega

theorem after_count (src : List Nat) : ∀ k off, (after k src).countP (· ≤ k + off) = (src.take off).count 10 := by
  induction src with
  | nil => intro k off; simp [after]
  | cons b src ih =>
    intro k off
    rw [after_cons, List.countP_append]
    cases off with
    | zero =>
      have : (after (k + 1) src).countP (· ≤ k + 0) = 0 := by
        rw [List.countP_eq_zero]
        intro x hx
        have := after_gt src (k + 1) x hx
        simp only [decide_eq_true_eq]
        omega
      rw [this]
      split <;> simp
    | succ off =>
      rw [show k + (off + 1) = k + 1 + off by omega, ih (k + 1) off, List.take_succ_cons, List.count_cons]
      by_cases h : b = 10
      · simp [h]
        omega
      · simp [h]

/-- the last start that is not after the offset is right after the last newline before it -/
theorem after_start (src : List Nat) : ∀ k off s0, ∃ st, (s0 :: after k src)[(src.take off).count 10]? = some st ∧
    ((st = s0 ∧ ∀ i < off, src[i]? ≠ some 10) ∨ ∃ m < off, src[m]? = some 10 ∧ st = k + m + 1 ∧ ∀ i, m < i → i < off → src[i]? ≠ some 10) := by
  induction src with
  | nil => intro k off s0; exact ⟨s0, by simp, Or.inl ⟨rfl, by simp⟩⟩
  | cons b src ih =>
    intro k off s0
    cases off with
    | zero => exact ⟨s0, by simp, Or.inl ⟨rfl, by simp⟩⟩
    | succ off =>
      rw [List.take_succ_cons, after_cons]
      by_cases h : b = 10
      · obtain ⟨st, h1, h2⟩ := ih (k + 1) off (k + 1)
        refine ⟨st, ?_, Or.inr ?_⟩
        · rw [h, List.count_cons_self, if_pos rfl, List.getElem?_cons_succ]
          exact h1
        · rcases h2 with ⟨rfl, h2⟩ | ⟨m, hm, h3, rfl, h4⟩
          · refine ⟨0, by omega, by simp [h], by omega, fun i hi hi' => ?_⟩
            obtain ⟨i, rfl⟩ := Nat.exists_eq_succ_of_ne_zero (by omega : i ≠ 0)
            rw [List.getElem?_cons_succ]
            exact h2 i (by omega)
          · refine ⟨m + 1, by omega, by simpa using h3, by omega, fun i hi hi' => ?_⟩
            obtain ⟨i, rfl⟩ := Nat.exists_eq_succ_of_ne_zero (by omega : i ≠ 0)
            rw [List.getElem?_cons_succ]
            exact h4 i (by omega) (by omega)
      · obtain ⟨st, h1, h2⟩ := ih (k + 1) off s0
        refine ⟨st, ?_, ?_⟩
        · rw [List.count_cons_of_ne (by simpa using h), if_neg h]
          exact h1
        · rcases h2 with ⟨rfl, h2⟩ | ⟨m, hm, h3, rfl, h4⟩
          · refine Or.inl ⟨rfl, fun i hi => ?_⟩
            cases i with
            | zero => simpa using h
            | succ i => rw [List.getElem?_cons_succ]; exact h2 i (by omega)
          · refine Or.inr ⟨m + 1, by omega, by simpa using h3, by omega, fun i hi hi' => ?_⟩
            obtain ⟨i, rfl⟩ := Nat.exists_eq_succ_of_ne_zero (by omega : i ≠ 0)
            rw [List.getElem?_cons_succ]
            exact h4 i (by omega) (by omega)

/-- **C134**: for every source and every offset: no panic; the line is one more than the number of newlines before the offset, and the column is the number of
bytes since the last newline before it, or since the beginning -/
theorem lineCol_eq (src : List Nat) (off : Nat) : ∃ col, lineCol off (lineStarts src) = some (1 + (src.take off).count 10, col) ∧ col ≤ off ∧
    (∀ i, off - col ≤ i → i < off → src[i]? ≠ some 10) ∧ (col = off ∨ src[off - col - 1]? = some 10 ∧ col < off) := by
  have hs : (lineStarts src).Pairwise (· < ·) := List.Pairwise.cons (after_gt src 0) (after_sorted src 0)
  have hline : (match binarySearch (lineStarts src) off with | .inl line => line + 1 | .inr next => next) = 1 + (src.take off).count 10 := by
    have h1 : (lineStarts src).countP (· ≤ off) = 1 + (src.take off).count 10 := by
      have := after_count src 0 off
      rw [Nat.zero_add] at this
      rw [lineStarts, List.countP_cons, this]
      simp
      omega
    rw [countP_le hs] at h1
    unfold binarySearch
    by_cases h : off ∈ lineStarts src
    · rw [if_pos h] at h1 ⊢
      exact h1
    · rw [if_neg h] at h1 ⊢
      exact h1
  obtain ⟨st, h1, h2⟩ := after_start src 0 off 0
  have hle : st ≤ off := by
    rcases h2 with ⟨rfl, -⟩ | ⟨m, hm, -, rfl, -⟩ <;> omega
  refine ⟨off - st, ?_, by omega, ?_, ?_⟩
  · unfold lineCol
    dsimp only
    rw [hline, if_neg (by omega), Nat.add_sub_cancel_left]
    show (((0 :: after 0 src)[(src.take off).count 10]?).bind _) = _
    rw [h1, Option.bind_some, if_neg (by omega)]
  · intro i hi hi'
    rcases h2 with ⟨rfl, h2⟩ | ⟨m, hm, -, rfl, h4⟩
    · exact h2 i hi'
    · exact h4 i (by omega) hi'
  · rcases h2 with ⟨rfl, -⟩ | ⟨m, hm, h3, rfl, -⟩
    · exact Or.inl rfl
    · refine Or.inr ⟨?_, by omega⟩
      rw [show off - (off - (0 + m + 1)) - 1 = m by omega]
      exact h3

/-- "ab", newline, newline, "c": at "c", at the second newline, at the first, past the end -/
example : lineCol 4 (lineStarts [97, 98, 10, 10, 99]) = some (3, 0) ∧ lineCol 3 (lineStarts [97, 98, 10, 10, 99]) = some (2, 0) ∧
    lineCol 2 (lineStarts [97, 98, 10, 10, 99]) = some (1, 2) ∧ lineCol 5 (lineStarts [97, 98, 10, 10, 99]) = some (3, 1) := by decide

end Verif.Pil.Lines
