import Mathlib.Data.List.Basic
import Mathlib.Tactic.Ring

/-! Lists cut in chunks, as Rust's `chunks` / rayon's `par_chunks` do. -/

namespace Verif

/-- Recursion of `chunks` on a bound of the length. -/
def chunksGo {α : Type*} (c : Nat) : Nat → List α → List (List α)
  | 0, _ => []
  | n + 1, l => if c = 0 ∨ l.isEmpty then [] else l.take c :: chunksGo c n (l.drop c)

/-- Rust `slice::chunks(c)` / rayon `par_chunks(c)` (used in starky/src/linearhash.rs L96,
starky/src/merklehash.rs L87 and L313-314): consecutive pieces of length `c`, the last one possibly
shorter.  Rust panics for `c = 0`; the callers below guard that case, here it gives no chunk. -/
def chunks {α : Type*} (c : Nat) (l : List α) : List (List α) := chunksGo c l.length l

variable {α β : Type*}

@[simp] theorem chunks_nil (c : Nat) : chunks c ([] : List α) = [] := rfl

@[simp] theorem chunks_zero (l : List α) : chunks 0 l = [] := by
  unfold chunks; cases l.length <;> simp [chunksGo]

theorem chunksGo_enough (c n m : Nat) (l : List α) (hn : l.length ≤ n) (hm : l.length ≤ m) :
    chunksGo c n l = chunksGo c m l := by
  induction n generalizing m l with
  | zero =>
    have : l = [] := List.length_eq_zero_iff.mp (by omega)
    subst this
    cases m <;> simp [chunksGo]
  | succ n ih =>
    cases m with
    | zero =>
      have : l = [] := List.length_eq_zero_iff.mp (by omega)
      subst this; simp [chunksGo]
    | succ m =>
      simp only [chunksGo]
      split_ifs with h
      · rfl
      · push Not at h
        have hc := h.1
        rw [ih m _ (by simp; omega) (by simp; omega)]

theorem chunks_ne_nil {c : Nat} (hc : c ≠ 0) {l : List α} (hl : l ≠ []) :
    chunks c l = l.take c :: chunks c (l.drop c) := by
  unfold chunks
  have : 0 < l.length := List.length_pos_iff.mpr hl
  obtain ⟨n, hn⟩ : ∃ n, l.length = n + 1 := ⟨l.length - 1, by omega⟩
  rw [hn]
  simp only [chunksGo]
  rw [if_neg (by simp [hc, hl]), chunksGo_enough c n (l.drop c).length _ (by simp; omega) le_rfl]

theorem chunks_short {c : Nat} (hc : c ≠ 0) {l : List α} (hl : l ≠ []) (h : l.length ≤ c) :
    chunks c l = [l] := by
  rw [chunks_ne_nil hc hl, List.take_of_length_le h, List.drop_of_length_le h, chunks_nil]

theorem chunks_append {c : Nat} (hc : c ≠ 0) (a : List α) (ha : a.length = c) (l : List α) :
    chunks c (a ++ l) = a :: chunks c l := by
  rw [chunks_ne_nil hc (by rintro h; simp at h; simp [h.1] at ha; omega)]
  simp [ha]

theorem chunks_flatten {c : Nat} (hc : c ≠ 0) (l : List α) : (chunks c l).flatten = l := by
  induction hn : l.length using Nat.strong_induction_on generalizing l with
  | _ n ih =>
    by_cases hl : l = []
    · simp [hl]
    · rw [chunks_ne_nil hc hl]
      have : 0 < l.length := List.length_pos_iff.mpr hl
      simp only [List.flatten_cons]
      rw [ih _ (by simp; omega) (l.drop c) rfl, List.take_append_drop]

theorem chunks_length {c : Nat} (hc : c ≠ 0) (l : List α) : (chunks c l).length = (l.length + c - 1) / c := by
  induction hn : l.length using Nat.strong_induction_on generalizing l with
  | _ n ih =>
    subst hn
    by_cases hl : l = []
    · subst hl; simp; symm; apply Nat.div_eq_of_lt; omega
    · rw [chunks_ne_nil hc hl]
      have hp : 0 < l.length := List.length_pos_iff.mpr hl
      rw [List.length_cons, ih (l.drop c).length (by simp; omega) _ rfl, List.length_drop]
      by_cases h : c ≤ l.length
      · have : l.length + c - 1 = (l.length - c + c - 1) + c := by omega
        rw [this, Nat.add_div_right _ (by omega)]
      · have h1 : l.length - c = 0 := by omega
        have h2 : l.length + c - 1 = (l.length - 1) + c := by omega
        rw [h1, h2, Nat.add_div_right _ (by omega), Nat.div_eq_of_lt (by omega), Nat.div_eq_of_lt (by omega)]

/-- every chunk is nonempty and has at most `c` elements -/
theorem mem_chunks {c : Nat} {l x : List α} (h : x ∈ chunks c l) : x ≠ [] ∧ x.length ≤ c := by
  induction hn : l.length using Nat.strong_induction_on generalizing l with
  | _ n ih =>
    by_cases hc : c = 0 ∨ l = []
    · rcases hc with rfl | rfl <;> simp at h
    · push Not at hc
      rw [chunks_ne_nil hc.1 hc.2] at h
      have : 0 < l.length := List.length_pos_iff.mpr hc.2
      have hc0 := hc.1
      rcases List.mem_cons.mp h with h | h
      · subst h
        refine ⟨?_, by simp⟩
        simp [List.take_eq_nil_iff, hc.1, hc.2]
      · exact ih _ (by simp; omega) h rfl

theorem chunks_getElem? {c : Nat} (hc : c ≠ 0) (l : List α) (i : Nat) :
    (chunks c l)[i]? = if i * c < l.length then some ((l.drop (i * c)).take c) else none := by
  induction i generalizing l with
  | zero =>
    by_cases hl : l = []
    · simp [hl]
    · rw [chunks_ne_nil hc hl]
      have : 0 < l.length := List.length_pos_iff.mpr hl
      simp [this]
  | succ i ih =>
    by_cases hl : l = []
    · simp [hl]
    · rw [chunks_ne_nil hc hl, List.getElem?_cons_succ, ih, List.length_drop, List.drop_drop]
      have : (i + 1) * c = i * c + c := by ring
      rw [this, Nat.add_comm c (i * c)]
      by_cases h : i * c + c < l.length
      · rw [if_pos (by omega), if_pos h]
      · rw [if_neg (by omega), if_neg h]

end Verif
