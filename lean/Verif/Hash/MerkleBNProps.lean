import Verif.Hash.MerkleBN

/-! Property C28 of the BN128 / BLS12-381 Merkle trees: completeness holds (from height two), binding
is violated, for every hash function. -/

namespace Verif.MerkleBN
open Verif.Tree
open Verif.MerkleGL (Fail)
variable {E S : Type*}

theorem merkelize_layout (P : Par E S) (workers : Nat) (hwk : 0 < workers) (buff : List E) (width height : Nat)
    (hh : 2 ≤ height) (hb : buff.length = height * width) :
    ∃ L, merkelize P workers buff width height
      = ((layout 16 (nodeHash P) (some P.zero) height L).mapM id).map fun nodes => ⟨buff, width, height, nodes⟩ := by
  unfold merkelize
  by_cases h0 : width = 0
  · subst h0
    have : buff = [] := List.length_eq_zero_iff.mp (by omega)
    subst this
    rw [build_empty (by decide : 2 ≤ 16) _ _ _ _ _ hwk _ _ hh]
    exact ⟨_, rfl⟩
  · rw [build_eq (by decide : 2 ≤ 16) _ _ _ _ _ hwk (rowsPerThread_pos _ _ _) _ _ _ (by omega) hh hb]
    exact ⟨_, rfl⟩

theorem rootFromProof_ignores (P : Par E S) (mp : List (List S)) (hne : mp ≠ []) (idx idx' : Nat) (v v' : S) :
    rootFromProof P mp idx v = rootFromProof P mp idx' v' := by
  induction mp generalizing idx idx' v v' with
  | nil => exact absurd rfl hne
  | cons l mp ih =>
    rw [rootFromProof, rootFromProof]
    split_ifs
    · congr 1
      funext next
      cases mp with
      | nil => rfl
      | cons _ _ => exact ih (by simp) _ _ _ _
    · rfl

/-- C28, completeness: for 2 to 2^32 rows, when `merkelize` returns a tree, every index below the height
has an opening consisting of the row and a path, which `verify_group_proof` accepts against `root()`
(provided the digest conversion of the row hash does not panic); larger indices are an error. -/
theorem completeness [DecidableEq S] (P : Par E S) (workers : Nat) (hwk : 0 < workers) (buff : List E) (width height : Nat)
    (hh : 2 ≤ height) (h32 : height ≤ 2 ^ 32) (hb : buff.length = height * width) (t : MT E S)
    (ht : merkelize P workers buff width height = some t) :
    ∃ root, t.root = some root ∧
      (∀ idx < height, ∃ mp, getGroupProof t idx = .ok (row buff width idx, mp) ∧ mp ≠ [] ∧
        (P.fits (P.leafV (row buff width idx)) →
          verifyGroupProof P root mp idx (row buff width idx) = some true)) ∧
      (∀ idx, height ≤ idx → getGroupProof t idx = .error .error) := by
  obtain ⟨L, hL⟩ := merkelize_layout P workers hwk buff width height hh hb
  rw [hL, Option.map_eq_some_iff] at ht
  obtain ⟨nodes, h1, rfl⟩ := ht
  rw [mapM_id_eq] at h1
  have hlast := layout_getLast? (by decide : 2 ≤ 16) (nodeHash P) (some P.zero) height L
  rw [h1] at hlast
  have hroot : ∃ r, nodes.getLast? = some r ∧ rootOf 16 (nodeHash P) (some P.zero) height L = some r := by
    rw [List.getLast?_map] at hlast
    cases hg : nodes.getLast? with
    | none => rw [hg] at hlast; simp at hlast
    | some r => rw [hg] at hlast; simp at hlast; exact ⟨r, rfl, hlast.symm⟩
  obtain ⟨r, hr1, hr2⟩ := hroot
  refine ⟨r, hr1, ?_, ?_⟩
  · intro idx hidx
    obtain ⟨mp, r', h2, h3, h4, h5⟩ := path_complete P nodes height L [] idx height hidx le_rfl h32 (by simpa using h1)
    rw [hr2] at h3
    injection h3 with h3
    subst h3
    have hmem : L idx ∈ nodes.map some := by
      rw [← h1, layout_step (by decide) _ _ _ (by omega)]
      apply List.mem_append_left
      refine List.mem_map.mpr ⟨idx, ?_, by simp [padded, hidx]⟩
      have := le_nextN_mul (n := height) (show 2 ≤ 16 by decide)
      rw [List.mem_range]; omega
    obtain ⟨v, _, hv⟩ := List.mem_map.mp hmem
    refine ⟨mp, ?_, h4 (by omega), ?_⟩
    · unfold getGroupProof
      rw [if_neg (by simpa using hidx), getRow _ _ hb hidx]
      rw [List.length_nil] at h2
      rw [h2]
    · intro hfit
      unfold verifyGroupProof fromScalar
      rw [if_pos hfit, Option.bind_some, rootFromProof_ignores P mp (h4 (by omega)) idx idx _ v, h5 v hv.symm]
      simp
  · intro idx hidx
    unfold getGroupProof
    rw [if_pos hidx]

/-- C28, binding is violated for all hash functions: with a nonempty path, the verdict of
`verify_group_proof` does not depend on the row or on the index (as long as the row can be hashed). -/
theorem verify_ignores_row_and_index [DecidableEq S] (P : Par E S) (root : S) (mp : List (List S)) (hne : mp ≠ [])
    (idx idx' : Nat) (row row' : List E) (h : P.fits (P.leafV row)) (h' : P.fits (P.leafV row')) :
    verifyGroupProof P root mp idx row = verifyGroupProof P root mp idx' row' := by
  unfold verifyGroupProof fromScalar
  rw [if_pos h, if_pos h', Option.bind_some, Option.bind_some, rootFromProof_ignores P mp hne idx idx' _ _]

/-- C28, binding is violated: the honest path of any row of any tree with at least two rows also opens
every other row `fake` at every index. -/
theorem binding_violated [DecidableEq S] (P : Par E S) (workers : Nat) (hwk : 0 < workers) (buff : List E)
    (width height : Nat) (hh : 2 ≤ height) (h32 : height ≤ 2 ^ 32) (hb : buff.length = height * width) (t : MT E S)
    (ht : merkelize P workers buff width height = some t) (idx : Nat) (hidx : idx < height)
    (hfit : P.fits (P.leafV (row buff width idx))) :
    ∃ root mp, t.root = some root ∧ getGroupProof t idx = .ok (row buff width idx, mp) ∧
      ∀ (fake : List E) (idx' : Nat), P.fits (P.leafV fake) → verifyGroupProof P root mp idx' fake = some true := by
  obtain ⟨root, h1, h2, _⟩ := completeness P workers hwk buff width height hh h32 hb t ht
  obtain ⟨mp, h3, h4, h5⟩ := h2 idx hidx
  refine ⟨root, mp, h1, h3, ?_⟩
  intro fake idx' hf
  rw [verify_ignores_row_and_index P root mp h4 idx' idx fake _ hf hfit, h5 hfit]

/-- What an accepted opening with a nonempty path does bind: the last level of the path is a preimage of the
root. -/
theorem accepted_binds_last_level [DecidableEq S] (P : Par E S) (root : S) (mp : List (List S)) (level : List S)
    (idx : Nat) (row : List E) (h : verifyGroupProof P root (mp ++ [level]) idx row = some true) :
    P.pos (level.take 16) P.zero = root := by
  unfold verifyGroupProof at h
  rw [Option.map_eq_some_iff] at h
  obtain ⟨r, h1, h2⟩ := h
  rw [Option.bind_eq_some_iff] at h1
  obtain ⟨v, hv, h3⟩ := h1
  clear hv
  have e : root = r := by simpa using h2
  subst e
  clear h2
  induction mp generalizing idx v with
  | nil =>
    rw [List.nil_append, rootFromProof] at h3
    split_ifs at h3
    rw [Option.bind_eq_some_iff] at h3
    obtain ⟨x, hx1, hx2⟩ := h3
    unfold fromScalar at hx1
    split_ifs at hx1
    simp only [rootFromProof, Option.some.injEq] at hx1 hx2
    rw [hx1, hx2]
  | cons l mp ih =>
    rw [List.cons_append, rootFromProof] at h3
    split_ifs at h3
    rw [Option.bind_eq_some_iff] at h3
    obtain ⟨x, _, hx2⟩ := h3
    exact ih _ _ hx2

/-- C28: for a one-row matrix `root()` is the default node, whatever the row. -/
theorem height_one (P : Par E S) (workers : Nat) (hwk : 0 < workers) (buff : List E) (width : Nat) (hw : 0 < width)
    (hb : buff.length = width) (hfit : P.fits (P.leafB buff)) :
    ∃ t, merkelize P workers buff width 1 = some t ∧ t.root = some P.zero := by
  refine ⟨⟨buff, width, 1, P.leafB buff :: List.replicate 15 P.zero⟩, ?_, ?_⟩
  · unfold merkelize
    rw [build_one (by decide : 2 ≤ 16) _ _ _ _ _ hwk (rowsPerThread_pos _ _ _) _ _ hw hb, Option.bind_some]
    have : (fromScalar P.fits (P.leafB buff) :: List.replicate (16 - 1) (some P.zero)).mapM id
        = some (P.leafB buff :: List.replicate 15 P.zero) := by
      rw [mapM_id_eq]; simp [fromScalar, hfit]
    rw [this]; rfl
  · simp [MT.root, List.getLast?_cons]

/-- C27 for the arity-16 trees: the tree does not depend on the number of workers. -/
theorem worker_independent (P : Par E S) (w1 w2 : Nat) (h1 : 0 < w1) (h2 : 0 < w2) (buff : List E) (width height : Nat)
    (hh : 2 ≤ height) (hb : buff.length = height * width) :
    merkelize P w1 buff width height = merkelize P w2 buff width height := by
  unfold merkelize
  by_cases h0 : width = 0
  · subst h0
    have : buff = [] := List.length_eq_zero_iff.mp (by omega)
    subst this
    rw [build_empty (by decide : 2 ≤ 16) _ _ _ _ _ h1 _ _ hh, build_empty (by decide : 2 ≤ 16) _ _ _ _ _ h2 _ _ hh]
  · rw [build_eq (by decide : 2 ≤ 16) _ _ _ _ _ h1 (rowsPerThread_pos _ _ _) _ _ _ (by omega) hh hb,
      build_eq (by decide : 2 ≤ 16) _ _ _ _ _ h2 (rowsPerThread_pos _ _ _) _ _ _ (by omega) hh hb]

/-- A toy instance: sums as hashes. -/
def toy : Par Nat Nat := ⟨0, fun _ => true, fun l s => l.sum + s + 1, fun r => r.sum, fun r => r.sum⟩

/-- non-vacuity, and the attack in miniature: three rows `[1,2] [3,4] [5,6]`; the path of row 0 verifies for
row 0 and also for the row `[100, 200]` at index 7. -/
example : ∃ t root mp, merkelize toy 1 [1, 2, 3, 4, 5, 6] 2 3 = some t ∧ t.root = some root ∧
    getGroupProof t 0 = .ok ([1, 2], mp) ∧ verifyGroupProof toy root mp 0 [1, 2] = some true ∧
    verifyGroupProof toy root mp 7 [100, 200] = some true := by
  obtain ⟨L, hL⟩ := merkelize_layout toy 1 (by decide) [1, 2, 3, 4, 5, 6] 2 3 (by decide) (by decide)
  have ht : ∃ t, merkelize toy 1 [1, 2, 3, 4, 5, 6] 2 3 = some t := by
    unfold merkelize
    rw [build_eq (by decide : 2 ≤ 16) _ _ _ _ _ (by decide) (rowsPerThread_pos _ _ _) _ _ _ (by decide) (by decide) (by decide)]
    exact ⟨_, rfl⟩
  obtain ⟨t, ht⟩ := ht
  obtain ⟨root, mp, h1, h2, h3⟩ := binding_violated toy 1 (by decide) [1, 2, 3, 4, 5, 6] 2 3 (by decide) (by decide)
    (by decide) t ht 0 (by decide) rfl
  exact ⟨t, root, mp, ht, h1, h2, h3 _ _ rfl, h3 _ _ rfl⟩

end Verif.MerkleBN
