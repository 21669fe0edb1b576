import Verif.Plonk.Place
import Mathlib.Algebra.BigOperators.Group.Finset.Basic
import Mathlib.Algebra.BigOperators.Ring.Finset
import Mathlib.Algebra.BigOperators.Group.List.Lemmas
import Mathlib.Data.Finset.Dedup
import Mathlib.Algebra.Field.ZMod
import Mathlib.Tactic.NormNum.Prime

/-!
# How many rows the gate placement needs, and how many are reserved

`NormalPlonkInfo::new` (recursion/src/compressor12/plonk_setup.rs L55-71) reserves `plonkN` rows; the placement loop (L271-343) uses a number of rows
that depends on the order and variety of the selector keys.
-/
set_option linter.unusedSectionVars false
set_option linter.unusedVariables false
namespace Verif.Plonk

variable {F : Type} [Field F] [DecidableEq F]

/-- the number of half rows, as a sum over any set of keys containing those used -/
theorem halves_eq (G : List (Gate F)) (S : Finset (Key F)) (hS : ∀ g ∈ G, g.key ∈ S) :
    halves G = ∑ k ∈ S, (uses G k + 1) / 2 := by
  unfold halves keys
  have e1 : ((G.map Gate.key).dedup.map fun k => (uses G k - 1) / 2 + 1).sum = ∑ k ∈ (G.map Gate.key).dedup.toFinset, ((uses G k - 1) / 2 + 1) := by
    rw [List.sum_toFinset _ (List.nodup_dedup _)]
  rw [e1]
  have hsub : (G.map Gate.key).dedup.toFinset ⊆ S := by
    intro k hk
    simp only [List.mem_toFinset, List.mem_dedup, List.mem_map] at hk
    obtain ⟨g, hg, rfl⟩ := hk
    exact hS g hg
  rw [← Finset.sum_subset hsub]
  · refine Finset.sum_congr rfl fun k hk => ?_
    simp only [List.mem_toFinset, List.mem_dedup, List.mem_map] at hk
    have : 0 < uses G k := by
      unfold uses
      rw [List.countP_pos_iff]
      obtain ⟨g, hg, e⟩ := hk
      exact ⟨g, hg, by simp [e]⟩
    omega
  · intro k _ hk
    simp only [List.mem_toFinset, List.mem_dedup, List.mem_map, not_exists, not_and] at hk
    have : uses G k = 0 := by
      unfold uses
      rw [List.countP_eq_zero]
      intro g hg
      simpa using hk g hg
    omega

theorem uses_append (G : List (Gate F)) (g : Gate F) (k : Key F) : uses (G ++ [g]) k = uses G k + if g.key = k then 1 else 0 := by
  unfold uses
  rw [List.countP_append]
  simp [List.countP_cons]

/-- one more gate needs a new half row iff its key was used an even number of times before -/
theorem halves_append (G : List (Gate F)) (g : Gate F) :
    halves (G ++ [g]) = halves G + if uses G g.key % 2 = 0 then 1 else 0 := by
  let S : Finset (Key F) := ((G ++ [g]).map Gate.key).toFinset
  have h1 : ∀ g' ∈ G ++ [g], g'.key ∈ S := fun g' hg' => by
    simp only [S, List.mem_toFinset]
    exact List.mem_map_of_mem hg'
  have hg : g.key ∈ S := h1 g (by simp)
  rw [halves_eq (G ++ [g]) S h1, halves_eq G S (fun g' hg' => h1 g' (by simp [hg'])),
    ← Finset.add_sum_erase S _ hg, ← Finset.add_sum_erase S (fun k => (uses G k + 1) / 2) hg]
  have e : ∑ k ∈ S.erase g.key, (uses (G ++ [g]) k + 1) / 2 = ∑ k ∈ S.erase g.key, (uses G k + 1) / 2 := by
    refine Finset.sum_congr rfl fun k hk => ?_
    rw [uses_append, if_neg (Finset.ne_of_mem_erase hk).symm, Nat.add_zero]
  rw [e, uses_append, if_pos rfl]
  split <;> omega

/-- number of rows with a single gate -/
def ones (m : List (Key F × ParRow)) : Nat := m.countP fun e => decide (e.2.nUsed = 1)

/-- the counting invariant -/
structure Cnt (r0 : Nat) (G : List (Gate F)) (st : PS F) : Prop where
  odd : ∀ k, (k ∈ st.part.map (·.1)) ↔ uses G k % 2 = 1
  bal : 2 * st.r = 2 * r0 + halves G + st.half.length + ones st.part
  few : st.half.length + ones st.part ≤ (keys G).length

theorem keys_append_le (G : List (Gate F)) (g : Gate F) : (keys G).length ≤ (keys (G ++ [g])).length := by
  unfold keys
  apply List.Subperm.length_le
  apply List.subperm_of_subset (List.nodup_dedup _)
  intro k hk
  simp only [List.mem_dedup, List.map_append, List.mem_append] at hk ⊢
  exact Or.inl hk

theorem removeKey_keys (m : List (Key F × ParRow)) (k k' : Key F) : k' ∈ (removeKey m k).map (·.1) ↔ k' ≠ k ∧ k' ∈ m.map (·.1) := by
  unfold removeKey
  simp only [List.mem_map, List.mem_filter, decide_eq_true_eq]
  constructor
  · rintro ⟨e, ⟨h1, h2⟩, rfl⟩
    exact ⟨h2, e, h1, rfl⟩
  · rintro ⟨h, e, h1, rfl⟩
    exact ⟨e, ⟨h1, h⟩, rfl⟩

/-- removing the entry of a key -/
theorem ones_remove (m : List (Key F × ParRow)) (k : Key F) (p : ParRow) (hn : (m.map (·.1)).Nodup) (hm : (k, p) ∈ m) :
    ones m = ones (removeKey m k) + if p.nUsed = 1 then 1 else 0 := by
  induction m with
  | nil => simp at hm
  | cons e m ih =>
    rw [List.map_cons, List.nodup_cons] at hn
    rcases List.mem_cons.mp hm with rfl | hm
    · have : removeKey ((k, p) :: m) k = m := by
        unfold removeKey
        rw [List.filter_cons_of_neg (by simp), List.filter_eq_self]
        intro e he
        simp only [decide_eq_true_eq]
        intro h
        apply hn.1
        show k ∈ m.map (·.1)
        rw [← h]
        exact List.mem_map_of_mem (f := (·.1)) he
      rw [this]
      unfold ones
      rw [List.countP_cons]
      simp
    · have hne : e.1 ≠ k := by
        intro h
        apply hn.1
        rw [h]
        exact List.mem_map_of_mem (f := (·.1)) hm
      have : removeKey (e :: m) k = e :: removeKey m k := by
        unfold removeKey
        rw [List.filter_cons_of_pos (by simpa using hne)]
      rw [this]
      have := ih hn.2 hm
      unfold ones at this ⊢
      rw [List.countP_cons, List.countP_cons]
      omega

theorem place_cnt {nUsed N r0 : Nat} {rows0 : Nat → Row F} {G : List (Gate F)} {st st' : PS F} {u : Nat → Nat} (h : Inv r0 rows0 G st u)
    (c : Cnt r0 G st) (g : Gate F) (hp : place nUsed N st g = some st') : Cnt r0 (G ++ [g]) st' := by
  have hkl := keys_append_le G g
  have hH := halves_append G g
  unfold place at hp
  cases hf : findKey st.part g.key with
  | some pr =>
    rw [hf] at hp
    simp only [] at hp
    have hmem := findKey_some hf
    obtain ⟨p1, p2, p3, p4⟩ := h.part_ok _ hmem
    simp only [] at p1 p2 p3 p4
    have hodd : uses G g.key % 2 = 1 := (c.odd _).mp (List.mem_map_of_mem (f := (·.1)) hmem)
    rw [if_neg (by omega)] at hH
    have hrem := ones_remove st.part g.key pr h.keys_nodup hmem
    have hoddnew : ∀ k, (k ∈ (removeKey st.part g.key).map (·.1)) ↔ uses (G ++ [g]) k % 2 = 1 := by
      intro k
      rw [removeKey_keys, c.odd, uses_append]
      by_cases hk : k = g.key
      · subst hk
        simp
        omega
      · rw [if_neg (fun e => hk e.symm)]
        simp [hk]
    have hb := c.bal
    have hfew := c.few
    rcases p4 with ⟨q, -⟩ | ⟨q, -⟩
    · rw [q] at hp hrem
      simp only [if_pos, Option.some.injEq] at hp
      subst hp
      refine ⟨hoddnew, ?_, ?_⟩
      · dsimp only
        rw [List.length_append, hH]
        simp at hrem ⊢
        omega
      · dsimp only
        rw [List.length_append]
        simp at hrem ⊢
        omega
    · rw [q] at hp hrem
      simp only [Nat.reduceAdd, Nat.reduceEqDiff, if_true, if_false, Option.some.injEq] at hp
      subst hp
      refine ⟨hoddnew, ?_, ?_⟩
      · dsimp only
        rw [hH]
        simp at hrem ⊢
        omega
      · dsimp only
        simp at hrem ⊢
        omega
  | none =>
    rw [hf] at hp
    simp only [] at hp
    have hnot : g.key ∉ st.part.map (·.1) := by
      intro hm
      obtain ⟨e, he, hk⟩ := List.mem_map.mp hm
      exact findKey_none hf e he hk
    have heven : uses G g.key % 2 = 0 := by
      have := (not_congr (c.odd g.key)).mp hnot
      omega
    rw [if_pos heven] at hH
    have hoddnew : ∀ k, (k = g.key ∨ k ∈ st.part.map (·.1)) ↔ uses (G ++ [g]) k % 2 = 1 := by
      intro k
      rw [c.odd, uses_append]
      by_cases hk : k = g.key
      · subst hk
        simp
        omega
      · rw [if_neg (fun e => hk e.symm)]
        simp [hk]
    have hb := c.bal
    have hfew := c.few
    cases hh : st.half with
    | cons pr half =>
      rw [hh] at hp hb hfew
      simp only [Option.some.injEq] at hp
      subst hp
      have hu : pr.nUsed = 2 := (h.half_ok pr (by rw [hh]; simp)).2.2.2
      have hones : ones ((g.key, (⟨pr.row, pr.nUsed + 1⟩ : ParRow)) :: st.part) = ones st.part := by
        unfold ones
        rw [List.countP_cons]
        simp [hu]
      simp only [List.length_cons] at hb hfew
      refine ⟨?_, ?_, ?_⟩
      · intro k
        simpa using hoddnew k
      · dsimp only
        rw [hones]
        omega
      · dsimp only
        rw [hones]
        omega
    | nil =>
      rw [hh] at hp hb hfew
      simp only [] at hp
      split at hp
      · simp only [Option.some.injEq] at hp
        subst hp
        have hones : ones ((g.key, (⟨st.r, 1⟩ : ParRow)) :: st.part) = ones st.part + 1 := by
          unfold ones
          rw [List.countP_cons]
          simp
        simp only [List.length_nil] at hb hfew
        refine ⟨?_, ?_, ?_⟩
        · intro k
          simpa using hoddnew k
        · dsimp only
          rw [hones, List.length_nil]
          omega
        · dsimp only
          rw [hones, List.length_nil]
          have hle : ones st.part ≤ st.part.length := List.countP_le_length
          -- the keys of the incomplete rows, and the new one, are distinct used keys
          have hsub : (g.key :: st.part.map (·.1)).Subperm (keys (G ++ [g])) := by
            apply List.subperm_of_subset
            · exact List.nodup_cons.mpr ⟨hnot, h.keys_nodup⟩
            · intro k hk
              unfold keys
              rw [List.mem_dedup]
              have : uses (G ++ [g]) k % 2 = 1 := (hoddnew k).mp (by simpa using hk)
              have hpos : 0 < uses (G ++ [g]) k := by omega
              unfold uses at hpos
              rw [List.countP_pos_iff] at hpos
              obtain ⟨g', hg', e⟩ := hpos
              simp only [decide_eq_true_eq] at e
              rw [← e]
              exact List.mem_map_of_mem hg'
          have := hsub.length_le
          simp only [List.length_cons, List.length_map] at this
          omega
      · simp at hp

theorem placeList_cnt {nUsed N r0 : Nat} {rows0 : Nat → Row F} (gs : List (Gate F)) {G : List (Gate F)} {st st' : PS F} {u : Nat → Nat}
    (h : Inv r0 rows0 G st u) (c : Cnt r0 G st) (hp : gs.foldlM (place nUsed N) st = some st') : Cnt r0 (G ++ gs) st' := by
  induction gs generalizing G st u with
  | nil =>
    simp only [List.foldlM_nil, pure, Option.some.injEq] at hp
    subst hp
    simpa using c
  | cons g gs ih =>
    rw [List.foldlM_cons] at hp
    obtain ⟨st1, h1, h2⟩ := Option.bind_eq_some_iff.mp hp
    obtain ⟨u1, i1⟩ := place_inv h g h1
    have := ih i1 (place_cnt h c g h1) h2
    simpa using this

/-- the capacity only matters when a new row is opened -/
theorem place_cap (a b : Nat) (st : PS F) (g : Gate F) :
    ∃ st1, place (st.r + 1) (st.r + 1) st g = some st1 ∧ st.r ≤ st1.r ∧
      (place a b st g = some st1 ∧ (st.r ≤ a → st.r ≤ b → st1.r ≤ a ∧ st1.r ≤ b) ∨ place a b st g = none ∧ ¬ (st1.r ≤ a ∧ st1.r ≤ b)) := by
  unfold place
  cases findKey st.part g.key with
  | some pr =>
    dsimp only
    split_ifs <;> exact ⟨_, rfl, le_rfl, Or.inl ⟨rfl, fun h1 h2 => ⟨h1, h2⟩⟩⟩
  | none =>
    dsimp only
    cases st.half with
    | cons pr half => exact ⟨_, rfl, le_rfl, Or.inl ⟨rfl, fun h1 h2 => ⟨h1, h2⟩⟩⟩
    | nil =>
      dsimp only
      rw [if_pos ⟨by omega, by omega⟩]
      refine ⟨_, rfl, by simp, ?_⟩
      split
      · exact Or.inl ⟨rfl, fun _ _ => ⟨by dsimp only; omega, by dsimp only; omega⟩⟩
      · exact Or.inr ⟨rfl, by dsimp only; omega⟩

/-- the unlimited run -/
theorem placeList_cap (gs : List (Gate F)) (st : PS F) : ∃ st1 : PS F, st.r ≤ st1.r ∧ ∀ a b, st.r ≤ a → st.r ≤ b →
    gs.foldlM (place a b) st = if st1.r ≤ a ∧ st1.r ≤ b then some st1 else none := by
  induction gs generalizing st with
  | nil => exact ⟨st, le_rfl, fun a b h1 h2 => by rw [if_pos ⟨h1, h2⟩]; rfl⟩
  | cons g gs ih =>
    obtain ⟨s1, e1, l1, -⟩ := place_cap 0 0 st g
    obtain ⟨s2, l2, e2⟩ := ih s1
    refine ⟨s2, l1.trans l2, fun a b h1 h2 => ?_⟩
    rw [List.foldlM_cons]
    obtain ⟨s1', e1', -, hh⟩ := place_cap a b st g
    rw [e1, Option.some.injEq] at e1'
    subst e1'
    rcases hh with ⟨e, hle⟩ | ⟨e, hn⟩
    · rw [e]
      exact e2 a b (hle h1 h2).1 (hle h1 h2).2
    · rw [e, if_neg (by omega)]
      rfl

theorem finish_total {r0 : Nat} {rows0 : Nat → Row F} {G : List (Gate F)} {st : PS F} {u : Nat → Nat} (i1 : Inv r0 rows0 G st u) :
    (st.part.foldlM (fun st e => finishPart st e.2) st).isSome := by
  have f0 : Fin1 r0 rows0 G st.part st u :=
    ⟨i1.le, fun e he => by
      obtain ⟨a, b, c, d⟩ := i1.part_ok e he
      exact ⟨a, b, c, by rcases d with d | d; exacts [Or.inl d.1, Or.inr d.1]⟩,
      fun p hp => by obtain ⟨a, b, c, _⟩ := i1.half_ok p hp; exact ⟨a, b, c⟩, i1.part_nodup, i1.full, i1.sem, i1.sel, i1.outside⟩
  obtain ⟨s2', u2, e1, f1, e2⟩ := finish_inv st.part f0
  rw [e1]
  rfl

/-- **The number of rows the placement needs.**  For every list of gates there is a number `R` of rows such that the placement succeeds exactly
when the signal map and the polynomials have `R` rows from `r0` on; and `R` lies between half the number of half rows, and that plus half
the number of distinct selector keys. -/
theorem rows_needed (r0 : Nat) (rows0 : Nat → Row F) (gates : List (Gate F)) :
    ∃ R, (∀ nUsed N, r0 ≤ nUsed → r0 ≤ N → ((placeAll nUsed N r0 rows0 gates).isSome ↔ r0 + R ≤ nUsed ∧ r0 + R ≤ N)) ∧
      halves gates ≤ 2 * R ∧ 2 * R ≤ halves gates + (keys gates).length := by
  obtain ⟨s1, l1, e1⟩ := placeList_cap gates { rows := rows0, r := r0, part := [], half := [] }
  simp only [] at l1 e1
  have hrun := e1 s1.r s1.r l1 l1
  rw [if_pos ⟨le_rfl, le_rfl⟩] at hrun
  obtain ⟨u1, i1⟩ := placeList_inv gates (inv_start r0 rows0) hrun
  have c0 : Cnt r0 [] ({ rows := rows0, r := r0, part := [], half := [] } : PS F) :=
    ⟨by simp [uses], by simp [halves, keys, ones], by simp [ones]⟩
  have c1 := placeList_cnt gates (inv_start r0 rows0) c0 hrun
  rw [List.nil_append] at i1 c1
  refine ⟨s1.r - r0, ?_, ?_, ?_⟩
  · intro nUsed N h1 h2
    unfold placeAll
    rw [e1 nUsed N h1 h2]
    have hft := finish_total i1
    by_cases hc : s1.r ≤ nUsed ∧ s1.r ≤ N
    · rw [if_pos hc]
      constructor
      · intro _
        omega
      · intro _
        obtain ⟨s2, e2⟩ := Option.isSome_iff_exists.mp hft
        simp [e2]
    · rw [if_neg hc]
      constructor
      · simp
      · intro h
        exact absurd ⟨by omega, by omega⟩ hc
  · have := c1.bal
    omega
  · have := c1.bal
    have := c1.few
    omega

/-- **The reserved rows suffice when all gates have the same selectors** (`_partial`: for several selectors they may not, see below; missing is
the claim for every list of gates). -/
theorem reserved_rows_suffice_partial (r0 : Nat) (rows0 : Nat → Row F) (gates : List (Gate F)) (M nUsed N : Nat)
    (hone : ∀ g ∈ gates, ∀ g' ∈ gates, g.key = g'.key) (hM : plonkN gates = some M) (hU : r0 + M ≤ nUsed) (hN : r0 + M ≤ N) :
    (placeAll nUsed N r0 rows0 gates).isSome := by
  obtain ⟨R, h1, h2, h3⟩ := rows_needed r0 rows0 gates
  rw [h1 nUsed N (by omega) (by omega)]
  have hk : (keys gates).length ≤ 1 := by
    unfold keys
    cases gates with
    | nil => simp
    | cons g gs =>
      have : ((g :: gs).map Gate.key).dedup.Subperm [g.key] := by
        apply List.subperm_of_subset (List.nodup_dedup _)
        intro k hk
        rw [List.mem_dedup, List.mem_map] at hk
        obtain ⟨g', hg', rfl⟩ := hk
        rw [hone g' hg' g (by simp)]
        simp
      exact this.length_le
  unfold plonkN at hM
  split at hM
  · simp at hM
  · simp only [Option.some.injEq] at hM
    omega

/-- **The rows reserved are never too many, and twice the reserved rows always suffice.** -/
theorem reserved_rows_bounds (r0 : Nat) (rows0 : Nat → Row F) (gates : List (Gate F)) (M nUsed N : Nat) (hM : plonkN gates = some M) :
    (r0 ≤ nUsed → r0 ≤ N → (placeAll nUsed N r0 rows0 gates).isSome → r0 + M ≤ nUsed ∧ r0 + M ≤ N) ∧
    (r0 + 2 * M ≤ nUsed → r0 + 2 * M ≤ N → (placeAll nUsed N r0 rows0 gates).isSome) := by
  obtain ⟨R, h1, h2, h3⟩ := rows_needed r0 rows0 gates
  have hk : (keys gates).length ≤ halves gates := by
    unfold halves
    generalize keys gates = l
    induction l with
    | nil => simp
    | cons k l ih => simp only [List.length_cons, List.map_cons, List.sum_cons]; omega
  unfold plonkN at hM
  split at hM
  · simp at hM
  · simp only [Option.some.injEq] at hM
    constructor
    · intro a b hs
      have := (h1 nUsed N a b).mp hs
      omega
    · intro a b
      rw [h1 nUsed N (by omega) (by omega)]
      omega

/-! ### Concrete cases -/

section Examples

instance prime97 : Fact (Nat.Prime 97) := ⟨by norm_num⟩

/-- a gate `s1 + s2 = s3` -/
def gAdd (a b c : Nat) : Gate (ZMod 97) := ⟨a, b, c, 0, 1, 1, -1, 0⟩
/-- a gate `s1 * s2 = s3` -/
def gMul (a b c : Nat) : Gate (ZMod 97) := ⟨a, b, c, 1, 0, 0, -1, 0⟩

/-- **The row count is violated**: one multiplication gate and one addition gate. One row is reserved, but the placement needs two and the
program stops with an index out of range. -/
theorem reserved_rows_violated : ∃ gates : List (Gate (ZMod 97)), plonkN gates = some 1 ∧
    ∀ N, 1 ≤ N → placeAll (1 + 1) (1 + N) 1 (fun _ => Row.zero) gates = none := by
  refine ⟨[gMul 1 2 3, gAdd 1 2 4], by decide +kernel, fun N hN => ?_⟩
  unfold placeAll
  rw [List.foldlM_cons]
  have e1 : place (1 + 1) (1 + N) ({ rows := fun _ => Row.zero, r := 1, part := [], half := [] } : PS (ZMod 97)) (gMul 1 2 3)
      = some { rows := Function.update (fun _ => Row.zero) 1 { (Row.zero.setC 0 (gMul 1 2 3).key).setSlot 0 (gMul 1 2 3) with
            gate := 1, poseidon := 0, partial_ := 0, cmuladd := 0, evpol := 0, fft := 0 }, r := 2, part := [((gMul 1 2 3).key, ⟨1, 1⟩)], half := [] } := by
    simp only [place, findKey]
    rw [if_pos ⟨by omega, by omega⟩]
  rw [e1]
  simp only [bind, Option.bind, List.foldlM_cons]
  have e2 : findKey [((gMul 1 2 3).key, (⟨1, 1⟩ : ParRow))] (gAdd 1 2 4).key = none := by decide +kernel
  simp [place, e2]

example : plonkN [gMul 1 2 3, gMul 3 4 5, gMul 6 7 8] = some 1 := by decide +kernel
example : (placeAll 2 2 1 (fun _ => Row.zero) [gMul 1 2 3, gMul 3 4 5, gMul 6 7 8]).isSome := by decide +kernel
example : (placeAll 3 3 1 (fun _ => Row.zero) [gMul 1 2 3, gAdd 3 4 5, gMul 6 7 8]).isSome := by decide +kernel
/-- with no gate the count underflows -/
example : plonkN ([] : List (Gate (ZMod 97))) = none := by decide +kernel

/-- `placeAll_spec` on a concrete circuit: three multiplications and an addition -/
example : ∃ st : PS (ZMod 97), placeAll 4 8 1 (fun _ => Row.zero) [gMul 1 2 3, gAdd 3 4 5, gMul 6 7 8, gMul 6 7 8] = some st ∧
    ∀ v : Nat → ZMod 97, (∀ ρ, 1 ≤ ρ → ρ < st.r → (st.rows ρ).NormalGates (fun c => cell v ((st.rows ρ).s c))) ↔
      ∀ g ∈ [gMul 1 2 3, gAdd 3 4 5, gMul 6 7 8, gMul 6 7 8], g.Holds v := by
  have h : (placeAll 4 8 1 (fun _ => Row.zero) [gMul 1 2 3, gAdd 3 4 5, gMul 6 7 8, gMul 6 7 8]).isSome := by decide +kernel
  obtain ⟨st, e⟩ := Option.isSome_iff_exists.mp h
  exact ⟨st, e, (placeAll_spec 4 8 1 _ _ st e).2.1⟩

end Examples

end Verif.Plonk
