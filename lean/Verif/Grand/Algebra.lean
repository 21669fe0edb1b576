import Mathlib.Algebra.Polynomial.Roots
import Mathlib.Algebra.BigOperators.Group.Finset.Basic
import Mathlib.Algebra.Order.BigOperators.Group.Finset
import Mathlib.Data.Multiset.Filter
import Mathlib.Data.Finset.Prod
import Mathlib.Tactic.Ring
import Mathlib.Tactic.FieldSimp
import Mathlib.Tactic.LinearCombination

/-!
# Grand products and random linear combinations

Plain algebra over a field, independent of the model: a cyclic running product certifies the equality of two products, and two
different multisets (of elements, of pairs, of tuples) are told apart by all challenges outside a small set.
-/
namespace Verif.Grand
open Polynomial

variable {A : Type} [Field A]

/-- A column `z` with `z 0 = 1` that is multiplied by `num i / den i` from each row to the (cyclically) next forces the two
products to be equal. -/
theorem running_product {N : Nat} (hN : 0 < N) (z num den : Nat → A) (h0 : z 0 = 1)
    (h : ∀ i < N, z ((i + 1) % N) * den i = z i * num i) : ∏ i ∈ Finset.range N, num i = ∏ i ∈ Finset.range N, den i := by
  have key : ∀ k, k < N → z k * ∏ i ∈ Finset.range k, den i = ∏ i ∈ Finset.range k, num i := by
    intro k
    induction k with
    | zero => intro _; simp [h0]
    | succ k ih =>
      intro hk
      have h1 := h k (by omega)
      rw [Nat.mod_eq_of_lt hk] at h1
      rw [Finset.prod_range_succ, Finset.prod_range_succ, ← ih (by omega)]
      linear_combination (∏ i ∈ Finset.range k, den i) * h1
  obtain ⟨n, rfl⟩ : ∃ n, N = n + 1 := ⟨N - 1, by omega⟩
  have h1 := h n (by omega)
  rw [Nat.mod_self, h0] at h1
  rw [Finset.prod_range_succ, Finset.prod_range_succ, ← key n (by omega)]
  linear_combination -(∏ i ∈ Finset.range n, den i) * h1

/-- product of `a + X` over a multiset -/
noncomputable def prodX (s : Multiset A) : A[X] := (s.map fun a => X - C (-a)).prod

theorem prodX_eval (s : Multiset A) (b : A) : (prodX s).eval b = (s.map fun a => a + b).prod := by
  unfold prodX
  rw [eval_multiset_prod, Multiset.map_map]
  congr 1
  exact Multiset.map_congr rfl fun a _ => by simp [add_comm]

theorem prodX_inj {s t : Multiset A} (h : prodX s = prodX t) : s = t := by
  have hr : ∀ s : Multiset A, (prodX s).roots = s.map Neg.neg := by
    intro s
    have := roots_multiset_prod_X_sub_C (s.map Neg.neg)
    rw [Multiset.map_map] at this
    exact this
  have : s.map Neg.neg = t.map Neg.neg := by rw [← hr, ← hr, h]
  exact Multiset.map_injective neg_injective this

theorem prodX_natDegree (s : Multiset A) : (prodX s).natDegree = Multiset.card s := by
  have := natDegree_multiset_prod_X_sub_C_eq_card (s.map Neg.neg)
  rw [Multiset.map_map, Multiset.card_map] at this
  exact this

/-- two different multisets of at most `n` elements have equal products `∏ (a + β)` for at most `n` values of `β` -/
theorem multiset_challenge [DecidableEq A] {s t : Multiset A} {n : Nat} (hs : Multiset.card s ≤ n) (ht : Multiset.card t ≤ n) (hne : s ≠ t) :
    ∃ B : Finset A, B.card ≤ n ∧ ∀ β, (s.map fun a => a + β).prod = (t.map fun a => a + β).prod → β ∈ B := by
  have h0 : prodX s - prodX t ≠ 0 := fun h => hne (prodX_inj (sub_eq_zero.mp h))
  refine ⟨(prodX s - prodX t).roots.toFinset, ?_, fun β hβ => ?_⟩
  · refine (Multiset.toFinset_card_le _).trans ((card_roots' _).trans ((natDegree_sub_le _ _).trans ?_))
    rw [prodX_natDegree, prodX_natDegree]
    exact max_le hs ht
  · rw [Multiset.mem_toFinset, mem_roots h0, IsRoot, eval_sub, prodX_eval, prodX_eval, hβ, sub_self]

/-- different multisets stay different under a map that is injective on their elements -/
theorem map_ne {X Y : Type} [DecidableEq X] [DecidableEq Y] {s t : Multiset X} {g : X → Y}
    (hg : ∀ p ∈ s + t, ∀ q ∈ s + t, g p = g q → p = q) (hne : s ≠ t) : s.map g ≠ t.map g := by
  intro h
  apply hne
  have hmem : ∀ x, x ∈ s ↔ x ∈ t := by
    intro x
    constructor <;> intro hx
    · have : g x ∈ t.map g := h ▸ Multiset.mem_map_of_mem g hx
      obtain ⟨y, hy, hxy⟩ := Multiset.mem_map.mp this
      rwa [hg x (Multiset.mem_add.mpr (.inl hx)) y (Multiset.mem_add.mpr (.inr hy)) hxy.symm]
    · have : g x ∈ s.map g := h ▸ Multiset.mem_map_of_mem g hx
      obtain ⟨y, hy, hxy⟩ := Multiset.mem_map.mp this
      rwa [hg x (Multiset.mem_add.mpr (.inr hx)) y (Multiset.mem_add.mpr (.inl hy)) hxy.symm]
  ext x
  by_cases hx : x ∈ s
  · have hs : Set.InjOn g {y | y ∈ s} := fun p hp q hq => hg p (Multiset.mem_add.mpr (.inl hp)) q (Multiset.mem_add.mpr (.inl hq))
    have ht : Set.InjOn g {y | y ∈ t} := fun p hp q hq => hg p (Multiset.mem_add.mpr (.inr hp)) q (Multiset.mem_add.mpr (.inr hq))
    rw [← Multiset.count_map_eq_count g s hs x hx, ← Multiset.count_map_eq_count g t ht x ((hmem x).mp hx), h]
  · rw [Multiset.count_eq_zero_of_notMem hx, Multiset.count_eq_zero_of_notMem fun h => hx ((hmem x).mpr h)]

/-- A family of maps `g c` in which two different points collide for at most `k` challenges: outside at most `k (2n)²` challenges,
no two elements of two multisets with at most `n` elements collide. -/
theorem collisions {X Y Ch : Type} [DecidableEq X] [DecidableEq Ch] {g : Ch → X → Y} (P : X → Prop) {k : Nat}
    (hg : ∀ p q, P p → P q → p ≠ q → ∃ B : Finset Ch, B.card ≤ k ∧ ∀ c, g c p = g c q → c ∈ B) {s t : Multiset X} {n : Nat}
    (hs : Multiset.card s ≤ n) (ht : Multiset.card t ≤ n) (hP : ∀ p ∈ s + t, P p) :
    ∃ B : Finset Ch, B.card ≤ (2 * n) ^ 2 * k ∧ ∀ c ∉ B, ∀ p ∈ s + t, ∀ q ∈ s + t, g c p = g c q → p = q := by
  classical
  have : ∀ x : X × X, ∃ B : Finset Ch, B.card ≤ k ∧ (P x.1 → P x.2 → x.1 ≠ x.2 → ∀ c, g c x.1 = g c x.2 → c ∈ B) := by
    intro x
    by_cases h : P x.1 ∧ P x.2 ∧ x.1 ≠ x.2
    · obtain ⟨B, h1, h2⟩ := hg x.1 x.2 h.1 h.2.1 h.2.2
      exact ⟨B, h1, fun _ _ _ => h2⟩
    · exact ⟨∅, by simp, fun a b c => absurd ⟨a, b, c⟩ h⟩
  choose B hB using this
  refine ⟨((s + t).toFinset ×ˢ (s + t).toFinset).biUnion B, ?_, fun c hc p hp q hq he => ?_⟩
  · refine (Finset.card_biUnion_le_card_mul _ _ k fun x _ => (hB x).1).trans ?_
    refine Nat.mul_le_mul_right _ ?_
    rw [Finset.card_product, sq]
    have : (s + t).toFinset.card ≤ 2 * n := (Multiset.toFinset_card_le _).trans (by rw [Multiset.card_add]; omega)
    exact Nat.mul_le_mul this this
  · by_contra hpq
    apply hc
    rw [Finset.mem_biUnion]
    exact ⟨(p, q), by simp only [Finset.mem_product, Multiset.mem_toFinset]; exact ⟨hp, hq⟩, (hB (p, q)).2 (hP p hp) (hP q hq) hpq c he⟩

/-- two different pairs have the same combination `a + β b` for at most one `β` -/
theorem pair_challenge [DecidableEq A] (p q : A × A) (h : p ≠ q) :
    ∃ B : Finset A, B.card ≤ 1 ∧ ∀ β, p.1 + β * p.2 = q.1 + β * q.2 → β ∈ B := by
  by_cases h2 : p.2 = q.2
  · refine ⟨∅, by simp, fun β hβ => absurd (Prod.ext ?_ h2) h⟩
    rw [h2] at hβ
    exact add_right_cancel hβ
  · refine ⟨{(q.1 - p.1) / (p.2 - q.2)}, by simp, fun β hβ => ?_⟩
    rw [Finset.mem_singleton, eq_div_iff (sub_ne_zero.mpr h2)]
    linear_combination hβ

/-- Horner's rule, the first element being the leading coefficient -/
def horner (u : A) (l : List A) : A := l.foldl (fun acc c => acc * u + c) 0

theorem horner_append (u : A) (l : List A) (a : A) : horner u (l ++ [a]) = horner u l * u + a := by simp [horner]

/-- two different tuples of the same length have the same combination for fewer than `length` values of `u` -/
theorem tuple_challenge [DecidableEq A] {m : Nat} (p q : List A) (hp : p.length = m) (hq : q.length = m) (h : p ≠ q) :
    ∃ B : Finset A, B.card ≤ m - 1 ∧ ∀ u, horner u p = horner u q → u ∈ B := by
  have hpoly : ∀ l : List A, ∃ P : A[X], (∀ u, P.eval u = horner u l) ∧ P.natDegree ≤ l.length - 1 ∧ ∀ k, k < l.length → P.coeff k = l.reverse.getD k 0 := by
    intro l
    induction l using List.reverseRecOn with
    | nil => exact ⟨0, by simp [horner], by simp, by simp⟩
    | append_singleton l a ih =>
      obtain ⟨P, h1, h2, h3⟩ := ih
      refine ⟨P * X + C a, fun u => by rw [horner_append]; simp [h1], ?_, fun k hk => ?_⟩
      · cases hl : l with
        | nil =>
          have : P = 0 := by
            have hd : P.natDegree = 0 := by rw [hl] at h2; simpa using h2
            rw [eq_C_of_natDegree_eq_zero hd]
            have := h1 0
            rw [eq_C_of_natDegree_eq_zero hd, hl] at this
            simp only [eval_C, horner, List.foldl_nil] at this
            rw [this, C_0]
          simp [this]
        | cons b l' =>
          rw [hl] at h2
          refine (natDegree_add_le _ _).trans (max_le ((natDegree_mul_le).trans ?_) (by simp))
          simp at h2 ⊢
          omega
      · cases k with
        | zero => simp
        | succ k =>
          simp only [coeff_add, coeff_mul_X, coeff_C_succ, add_zero, List.reverse_append, List.reverse_cons, List.reverse_nil, List.nil_append,
            List.singleton_append, List.getD_cons_succ]
          exact h3 k (by simpa using hk)
  obtain ⟨P, h1, h2, h3⟩ := hpoly p
  obtain ⟨Q, g1, g2, g3⟩ := hpoly q
  have hne : P - Q ≠ 0 := by
    intro h0
    apply h
    have hPQ : P = Q := sub_eq_zero.mp h0
    apply List.reverse_injective
    apply List.ext_getElem
    · simp [hp, hq]
    · intro k hk1 hk2
      have a := h3 k (by simpa using hk1)
      have b := g3 k (by simpa using hk2)
      rw [List.getD_eq_getElem?_getD, List.getElem?_eq_getElem hk1, Option.getD_some] at a
      rw [List.getD_eq_getElem?_getD, List.getElem?_eq_getElem hk2, Option.getD_some] at b
      rw [← a, ← b, hPQ]
  refine ⟨(P - Q).roots.toFinset, ?_, fun u hu => ?_⟩
  · refine (Multiset.toFinset_card_le _).trans ((card_roots' _).trans ((natDegree_sub_le _ _).trans ?_))
    rw [hp] at h2; rw [hq] at g2
    exact max_le h2 g2
  · rw [Multiset.mem_toFinset, mem_roots hne, IsRoot, eval_sub, h1, g1, hu, sub_self]

/-- Two different multisets of at most `n` pairs: outside at most `(2n)²` values of `β`, at most `n` values of `γ` make the products
`∏ (a + β b + γ)` equal. -/
theorem pairs_challenge [DecidableEq A] {s t : Multiset (A × A)} {n : Nat} (hs : Multiset.card s ≤ n) (ht : Multiset.card t ≤ n) (hne : s ≠ t) :
    ∃ B : Finset A, B.card ≤ (2 * n) ^ 2 ∧ ∀ β ∉ B, ∃ G : Finset A, G.card ≤ n ∧
      ∀ γ, (s.map fun p => p.1 + β * p.2 + γ).prod = (t.map fun p => p.1 + β * p.2 + γ).prod → γ ∈ G := by
  obtain ⟨B, hB, hinj⟩ := collisions (g := fun (β : A) (p : A × A) => p.1 + β * p.2) (fun _ => True) (k := 1)
    (fun p q _ _ h => pair_challenge p q h) hs ht (fun _ _ => trivial)
  refine ⟨B, by simpa using hB, fun β hβ => ?_⟩
  have hm := map_ne (hinj β hβ) hne
  obtain ⟨G, h1, h2⟩ := multiset_challenge (n := n) (by simpa using hs) (by simpa using ht) hm
  refine ⟨G, h1, fun γ hγ => h2 γ ?_⟩
  rw [Multiset.map_map, Multiset.map_map]
  exact hγ

end Verif.Grand
