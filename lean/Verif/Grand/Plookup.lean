import Verif.Grand.Algebra

/-!
# Soundness of the plookup product (plain algebra)
-/
namespace Verif.Grand

variable {A : Type} [Field A]

/-- the next row of a table with `N` rows -/
def nxt (N i : Nat) : Nat := (i + 1) % N

theorem nxt_lt {N i : Nat} (h : 0 < N) : nxt N i < N := Nat.mod_lt _ h

/-- If the cyclically adjacent pairs of the sequence `h1 0, h2 0, h1 1, h2 1, …` are the pairs of equal elements of `f` and the
cyclically adjacent pairs of `t`, every element of `f` occurs in `t`.  (No order of the sequence is assumed.) -/
theorem pairs_subset {X : Type} {N : Nat} (hN : 0 < N) {f t h1 h2 : Nat → X}
    (h : (Multiset.range N).map (fun i => (h1 i, h2 i)) + (Multiset.range N).map (fun i => (h2 i, h1 (nxt N i))) =
      (Multiset.range N).map (fun i => (f i, f i)) + (Multiset.range N).map (fun i => (t i, t (nxt N i)))) :
    ∀ i < N, ∃ j < N, f i = t j := by
  intro i hi
  by_contra hno
  push Not at hno
  -- every pair starting with `f i` ends with it
  have hstep : ∀ p ∈ (Multiset.range N).map (fun i => (h1 i, h2 i)) + (Multiset.range N).map (fun i => (h2 i, h1 (nxt N i))),
      p.1 = f i → p.2 = f i := by
    intro p hp hp1
    rw [h, Multiset.mem_add, Multiset.mem_map, Multiset.mem_map] at hp
    rcases hp with ⟨k, _, rfl⟩ | ⟨k, hk, rfl⟩
    · exact hp1
    · exact absurd hp1.symm (hno k (Multiset.mem_range.mp hk))
  have s1 : ∀ k < N, h1 k = f i → h2 k = f i := fun k hk he =>
    hstep (h1 k, h2 k) (Multiset.mem_add.mpr (.inl (Multiset.mem_map_of_mem (fun i => (h1 i, h2 i)) (Multiset.mem_range.mpr hk)))) he
  have s2 : ∀ k < N, h2 k = f i → h1 (nxt N k) = f i := fun k hk he =>
    hstep (h2 k, h1 (nxt N k)) (Multiset.mem_add.mpr (.inr (Multiset.mem_map_of_mem (fun i => (h2 i, h1 (nxt N i))) (Multiset.mem_range.mpr hk)))) he
  -- the value occurs in the sequence
  have hocc : ∃ k < N, h2 k = f i := by
    have : (f i, f i) ∈ (Multiset.range N).map (fun i => (h1 i, h2 i)) + (Multiset.range N).map (fun i => (h2 i, h1 (nxt N i))) := by
      rw [h]
      exact Multiset.mem_add.mpr (.inl (Multiset.mem_map_of_mem (fun i => (f i, f i)) (Multiset.mem_range.mpr hi)))
    rw [Multiset.mem_add, Multiset.mem_map, Multiset.mem_map] at this
    rcases this with ⟨k, hk, he⟩ | ⟨k, hk, he⟩
    · exact ⟨k, Multiset.mem_range.mp hk, (Prod.mk.inj he).2⟩
    · exact ⟨k, Multiset.mem_range.mp hk, (Prod.mk.inj he).1⟩
  obtain ⟨k, hk, hk2⟩ := hocc
  -- hence everywhere
  have hall : ∀ m, h2 ((k + m) % N) = f i := by
    intro m
    induction m with
    | zero => rw [Nat.add_zero, Nat.mod_eq_of_lt hk]; exact hk2
    | succ m ih =>
      have := s1 _ (nxt_lt hN) (s2 _ (Nat.mod_lt _ hN) ih)
      rwa [nxt, Nat.mod_add_mod, Nat.add_assoc] at this
  have hall2 : ∀ j < N, h2 j = f i ∧ h1 j = f i := by
    have e2 : ∀ j < N, h2 j = f i := by
      intro j hj
      have := hall (j + N - k)
      have e : k + (j + N - k) = j + N := by omega
      rwa [e, Nat.add_mod_right, Nat.mod_eq_of_lt hj] at this
    intro j hj
    refine ⟨e2 j hj, ?_⟩
    have := s2 ((j + (N - 1)) % N) (Nat.mod_lt _ hN) (e2 _ (Nat.mod_lt _ hN))
    have e : j + (N - 1) + 1 = j + N := by omega
    rwa [nxt, Nat.mod_add_mod, e, Nat.add_mod_right, Nat.mod_eq_of_lt hj] at this
  have h0 : (t 0, t (nxt N 0)) ∈ (Multiset.range N).map (fun i => (h1 i, h2 i)) + (Multiset.range N).map (fun i => (h2 i, h1 (nxt N i))) := by
    rw [h]
    exact Multiset.mem_add.mpr (.inr (Multiset.mem_map_of_mem (fun i => (t i, t (nxt N i))) (Multiset.mem_range.mpr hN)))
  rw [Multiset.mem_add, Multiset.mem_map, Multiset.mem_map] at h0
  rcases h0 with ⟨j, hj, he⟩ | ⟨j, hj, he⟩
  · exact hno 0 hN ((hall2 j (Multiset.mem_range.mp hj)).2.symm.trans (Prod.mk.inj he).1)
  · exact hno 0 hN ((hall2 j (Multiset.mem_range.mp hj)).1.symm.trans (Prod.mk.inj he).1)

/-- The product of the plookup numerators and the product of the denominators agree only for few challenges unless every element of
`f` is in `t`. -/
theorem plookup_challenge [DecidableEq A] {N : Nat} (hN : 0 < N) (f t h1 h2 : Nat → A) (hno : ∃ i < N, ∀ j < N, f i ≠ t j) :
    ∃ B : Finset A, B.card ≤ (4 * N) ^ 2 + 1 ∧ ∀ β ∉ B, ∃ G : Finset A, G.card ≤ 2 * N ∧ ∀ γ,
      ∏ i ∈ Finset.range N, ((f i + γ) * (t i + t (nxt N i) * β + γ * (1 + β)) * (1 + β)) =
        ∏ i ∈ Finset.range N, ((h1 i + h2 i * β + γ * (1 + β)) * (h2 i + h1 (nxt N i) * β + γ * (1 + β))) → γ ∈ G := by
  have hne : (Multiset.range N).map (fun i => (h1 i, h2 i)) + (Multiset.range N).map (fun i => (h2 i, h1 (nxt N i))) ≠
      (Multiset.range N).map (fun i => (f i, f i)) + (Multiset.range N).map (fun i => (t i, t (nxt N i))) := by
    intro h
    obtain ⟨i, hi, hj⟩ := hno
    obtain ⟨j, hj1, hj2⟩ := pairs_subset hN h i hi
    exact hj j hj1 hj2
  obtain ⟨B, hB, h⟩ := pairs_challenge (n := 2 * N) (by simp; omega) (by simp; omega) hne
  refine ⟨insert (-1) B, (Finset.card_insert_le _ _).trans ?_, fun β hβ => ?_⟩
  · have : 2 * (2 * N) = 4 * N := by ring
    rw [this] at hB
    omega
  · rw [Finset.mem_insert, not_or] at hβ
    have hb : 1 + β ≠ 0 := fun h => hβ.1 (by linear_combination h)
    obtain ⟨G, hG, h⟩ := h β hβ.2
    refine ⟨G.image fun g => g / (1 + β), Finset.card_image_le.trans hG, fun γ hγ => ?_⟩
    rw [Finset.mem_image]
    refine ⟨γ * (1 + β), h _ ?_, by field_simp⟩
    have e : ∀ u : Nat → A, ((Multiset.range N).map u).prod = ∏ i ∈ Finset.range N, u i := fun u => rfl
    simp only [Multiset.map_add, Multiset.prod_add, Multiset.map_map, Function.comp_def, e]
    rw [← Finset.prod_mul_distrib, ← Finset.prod_mul_distrib]
    refine Eq.trans (Finset.prod_congr rfl fun i _ => ?_) (hγ.symm.trans (Finset.prod_congr rfl fun i _ => ?_)) <;> ring

end Verif.Grand
