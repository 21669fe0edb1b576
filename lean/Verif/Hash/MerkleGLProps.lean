import Verif.Hash.MerkleGL

/-! Properties C25 (completeness), C26 (binding) and C27 (worker independence) of the Goldilocks Merkle
tree, for every twelve-element permutation. -/

set_option linter.unusedSectionVars false

namespace Verif.MerkleGL
open Verif.Linear Verif.Tree
variable {F : Type*} [Zero F]

/-- the root of the binary tree over the row digests (specification: `Tree.rootOf`) -/
def specRoot (perm : List F → List F) (buff : List F) (width height : Nat) : List F :=
  rootOf 2 (nodeHash perm) zeroDigest height fun i => digest perm (row buff width i) 0

theorem leafHash_eq {perm : List F → List F} (hp : IsState perm) (r : List F) : leafHash perm r = digest perm r 0 := by
  unfold leafHash; rw [hash_eq_digest hp]; rfl

theorem rowsPerThread_pos (workers width height : Nat) (hw : width < 2 ^ 21 + 8) :
    0 < rowsPerThread workers width height := by
  unfold rowsPerThread
  dsimp only
  have hm : max (width / 8) 1 ≤ 2 ^ 18 := max_le (by omega) (by norm_num)
  have hm1 : 1 ≤ max (width / 8) 1 := le_max_right _ _
  have hd : 1 ≤ maxOps / max (width / 8) 1 := by
    rw [Nat.le_div_iff_mul_le (by omega), one_mul]; exact hm
  have hn : 0 < (height - 1) / workers + 1 := Nat.succ_pos _
  split_ifs <;> omega

theorem rowsPerThread_zero (workers width height : Nat) (hw : 2 ^ 21 + 8 ≤ width) :
    rowsPerThread workers width height = 0 := by
  unfold rowsPerThread
  dsimp only
  have hm : 2 ^ 18 < max (width / 8) 1 := lt_of_lt_of_le (show 2 ^ 18 < width / 8 by omega) (le_max_left _ _)
  have h1 : maxOps / max (width / 8) 1 = 0 := Nat.div_eq_of_lt hm
  have h2 : minOps / max (width / 8) 1 = 0 := Nat.div_eq_of_lt (by unfold minOps; omega)
  rw [h1, h2]
  have hn : (height - 1) / workers + 1 > 0 := Nat.succ_pos _
  simp [hn]

theorem merkelize_eq {perm : List F → List F} (hp : IsState perm) (workers : Nat) (hwk : 0 < workers) (buff : List F)
    (width height : Nat) (hw : width < 2 ^ 21 + 8) (hh : 2 ≤ height) (hb : buff.length = height * width) :
    merkelize perm workers buff width height = some ⟨buff, width, height,
      layout 2 (nodeHash perm) zeroDigest height fun i => digest perm (row buff width i) 0⟩ := by
  unfold merkelize
  by_cases h0 : width = 0
  · subst h0
    have : buff = [] := List.length_eq_zero_iff.mp (by omega)
    subst this
    rw [build_empty (le_refl 2) _ _ _ _ _ hwk _ _ hh]
    simp [digest, row, pad4, zeroDigest]
  · rw [build_eq (le_refl 2) _ _ _ _ _ hwk (rowsPerThread_pos _ _ _ hw) _ _ _ (by omega) hh hb]
    simp only [leafHash_eq hp, Option.map_some]

/-- C25, completeness: for every matrix of at least two rows, every number of workers and every row
index, `merkelize` succeeds, `get_group_proof` returns that row together with a path, and
`verify_group_proof` accepts them against `root()`, which is the root of the zero-padded binary tree
over the row digests; an index outside the matrix is an error. -/
theorem completeness [DecidableEq F] {perm : List F → List F} (hp : IsState perm) (workers : Nat) (hwk : 0 < workers)
    (buff : List F) (width height : Nat) (hw : width < 2 ^ 21 + 8) (hh : 2 ≤ height)
    (hb : buff.length = height * width) :
    ∃ t, merkelize perm workers buff width height = some t ∧
      t.root = some (specRoot perm buff width height) ∧
      (∀ idx < height, ∃ mp, getGroupProof t idx = .ok (row buff width idx, mp) ∧
        verifyGroupProof perm (specRoot perm buff width height) mp idx (row buff width idx) = some true) ∧
      (∀ idx, height ≤ idx → getGroupProof t idx = .error .error) := by
  refine ⟨_, merkelize_eq hp workers hwk buff width height hw hh hb, ?_, ?_, ?_⟩
  · exact layout_getLast? (le_refl 2) _ _ _ _
  · intro idx hidx
    obtain ⟨mp, h1, h2⟩ := path_complete hp height (fun i => digest perm (row buff width i) 0)
      (fun i => digest_length hp _ 0) [] idx height hidx le_rfl
    refine ⟨mp, ?_, ?_⟩
    · unfold getGroupProof
      rw [if_neg (by simpa using hidx), getRow _ _ hb hidx]
      rw [List.length_nil, List.nil_append] at h1
      rw [h1]
    · unfold verifyGroupProof
      rw [hash_eq_digest hp, Option.bind_some, h2, Option.map_some]
      simp [specRoot]
  · intro idx hidx
    unfold getGroupProof
    rw [if_pos hidx]

/-- non-vacuity: three rows of five elements, odd level, identity permutation. -/
example : ∃ t, merkelize (fun s : List Nat => s) 3 [1, 2, 3, 4, 5, 6, 7, 8, 9, 10, 11, 12, 13, 14, 15] 5 3 = some t ∧
    t.height = 3 ∧ t.nodes.length = 7 :=
  ⟨_, merkelize_eq (fun _ h => h) 3 (by decide) _ 5 3 (by decide) (by decide) (by decide), rfl, by decide⟩

/-- C25: rows of more than `2^21 + 7` elements make the chunk length zero, and `merkelize` panics. -/
theorem merkelize_too_wide (perm : List F → List F) (workers : Nat) (buff : List F) (width height : Nat)
    (hw : 2 ^ 21 + 8 ≤ width) (hne : buff ≠ []) : merkelize perm workers buff width height = none := by
  unfold merkelize build leafPass
  rw [rowsPerThread_zero _ _ _ hw]
  simp [hne]

/-- C25: on a machine with a single CPU (no worker) `merkelize` panics (division by zero). -/
theorem merkelize_no_worker (perm : List F → List F) (buff : List F) (width height : Nat) :
    merkelize perm 0 buff width height = none := by
  simp [merkelize, build]

/-- C25 is violated for a one-row matrix: `root()` is the all-zero default node, and the honest opening
is accepted only if the row digest happens to be zero. -/
theorem height_one [DecidableEq F] {perm : List F → List F} (hp : IsState perm) (workers : Nat) (hwk : 0 < workers)
    (buff : List F) (width : Nat) (hw0 : 0 < width) (hw : width < 2 ^ 21 + 8) (hb : buff.length = width) :
    ∃ t, merkelize perm workers buff width 1 = some t ∧ t.root = some (List.replicate 4 0) ∧
      getGroupProof t 0 = .ok (buff, []) ∧
      verifyGroupProof perm (List.replicate 4 0) [] 0 buff = some (decide (List.replicate 4 0 = digest perm buff 0)) := by
  refine ⟨⟨buff, width, 1, [digest perm buff 0, zeroDigest]⟩, ?_, rfl, ?_, ?_⟩
  · unfold merkelize
    rw [build_one (le_refl 2) _ _ _ _ _ hwk (rowsPerThread_pos _ _ _ hw) _ _ hw0 hb, leafHash_eq hp]
    rfl
  · unfold getGroupProof
    rw [if_neg (by simp), getRow _ _ (by simpa using hb) (by simp)]
    simp [row, ← hb, genProof]
  · unfold verifyGroupProof
    rw [hash_eq_digest hp]
    rfl

/-- The violation, concretely: the one-row tree over `[1, 2, 3]` rejects its own opening. -/
theorem height_one_rejects :
    ∃ t : MT Nat, merkelize (fun s => s) 1 [1, 2, 3] 3 1 = some t ∧
      ∃ r v mp, t.root = some r ∧ getGroupProof t 0 = .ok (v, mp) ∧
        verifyGroupProof (fun s => s) r mp 0 v = some false := by
  obtain ⟨t, h1, h2, h3, h4⟩ := height_one (F := Nat) (perm := fun s => s) (fun _ h => h) 1 (by decide) [1, 2, 3] 3
    (by decide) (by decide) (by decide)
  refine ⟨t, h1, _, _, _, h2, h3, ?_⟩
  rw [h4]; decide +kernel

/-- C27: the node array (hence root and all proofs) does not depend on the number of workers. -/
theorem worker_independent {perm : List F → List F} (hp : IsState perm) (w1 w2 : Nat) (h1 : 0 < w1) (h2 : 0 < w2)
    (buff : List F) (width height : Nat) (hw : width < 2 ^ 21 + 8) (hh : 2 ≤ height)
    (hb : buff.length = height * width) :
    merkelize perm w1 buff width height = merkelize perm w2 buff width height := by
  rw [merkelize_eq hp w1 h1 buff width height hw hh hb, merkelize_eq hp w2 h2 buff width height hw hh hb]

/-- C27: one level computed in parallel chunks is that level computed sequentially: node `i` of the
output range is the hash of nodes `2i` and `2i+1` of the input range, for every worker count. -/
theorem level_worker_independent (H : List (List F) → List F) (w1 w2 : Nat) (h1 : 0 < w1) (h2 : 0 < w2)
    (nodes : List (List F)) (pIn nOps pOut : Nat) :
    merklizeLevel 2 H w1 nodes pIn nOps pOut = merklizeLevel 2 H w2 nodes pIn nOps pOut := by
  unfold merklizeLevel
  rw [if_neg (show ¬ w1 = 0 by omega), if_neg (show ¬ w2 = 0 by omega)]
  split_ifs with h
  · dsimp only
    have hb : ((nodes.drop pIn).take (nOps * 2)).length = nOps * 2 := by simp; omega
    have hm : ∀ w, max minOps ((nOps - 1) / (w * 2) + 1) ≠ 0 := fun w => by
      have := le_max_left minOps ((nOps - 1) / (w * 2) + 1)
      unfold minOps at *; omega
    rw [level_chunked (by decide) (hm _) H _ hb, level_chunked (by decide) (hm _) H _ hb]
  · rfl

example : (2 : Nat) ≤ 5 ∧ (List.range 15).length = 5 * 3 ∧ 3 < 2 ^ 21 + 8 := by decide

/-! ### Binding -/

/-- The eight-element inputs hashed along a path, leaf level first. -/
def pathInputs (perm : List F → List F) : List (List F) → Nat → List F → List (List F)
  | [], _, _ => []
  | sib :: mp, idx, value =>
    pairInput idx value sib ::
      pathInputs perm mp (idx / 2) ((perm (pairInput idx value sib ++ List.replicate 4 0)).take 4)

/-- `x` and `x'` are different inputs of the node hash with the same image. -/
def NodeCollision (perm : List F → List F) (x x' : List F) : Prop :=
  x.length = 8 ∧ x'.length = 8 ∧ x ≠ x' ∧
    (perm (x ++ List.replicate 4 0)).take 4 = (perm (x' ++ List.replicate 4 0)).take 4

/-- `r` and `r'` are different rows with the same row digest. -/
def RowCollision (perm : List F → List F) (r r' : List F) : Prop := r ≠ r' ∧ digest perm r 0 = digest perm r' 0

theorem pairInput_inj {idx : Nat} {v v' s s' : List F} (hl : v.length = v'.length) (hs : 4 ≤ s.length) (hs' : 4 ≤ s'.length)
    (h : pairInput idx v s = pairInput idx v' s') : v = v' := by
  unfold pairInput at h
  split_ifs at h
  · exact (List.append_inj h hl).1
  · exact (List.append_inj h (by simp; omega)).2

theorem path_binding {perm : List F → List F} (hp : IsState perm) (mp mp' : List (List F)) (hl : mp.length = mp'.length)
    (idx : Nat) (v v' r : List F) (hv : v.length = 4) (hv' : v'.length = 4) (hne : v ≠ v')
    (h : rootFromProof perm mp idx v = some r) (h' : rootFromProof perm mp' idx v' = some r) :
    ∃ p ∈ (pathInputs perm mp idx v).zip (pathInputs perm mp' idx v'), NodeCollision perm p.1 p.2 := by
  induction mp generalizing mp' idx v v' with
  | nil =>
    cases mp' with
    | nil => simp only [rootFromProof, Option.some.injEq] at h h'; exact absurd (h.trans h'.symm) hne
    | cons _ _ => simp at hl
  | cons s mp ih =>
    cases mp' with
    | nil => simp at hl
    | cons s' mp' =>
      rw [rootFromProof] at h h'
      split_ifs at h with hs
      split_ifs at h' with hs'
      have hin : (pairInput idx v s).length = 8 := by unfold pairInput; split_ifs <;> simp <;> omega
      have hin' : (pairInput idx v' s').length = 8 := by unfold pairInput; split_ifs <;> simp <;> omega
      rw [poseidonHash, if_pos ⟨hin, by simp⟩, Option.bind_some] at h
      rw [poseidonHash, if_pos ⟨hin', by simp⟩, Option.bind_some] at h'
      by_cases he : (perm (pairInput idx v s ++ List.replicate 4 0)).take 4
          = (perm (pairInput idx v' s' ++ List.replicate 4 0)).take 4
      · refine ⟨(pairInput idx v s, pairInput idx v' s'), by simp [pathInputs], hin, hin', ?_, he⟩
        intro hc
        exact hne (pairInput_inj (by omega) hs hs' hc)
      · obtain ⟨p, hp1, hp2⟩ := ih mp' (by simpa using hl) (idx / 2) _ _
          (by rw [List.length_take, hp _ (by simp [hin])]; rfl)
          (by rw [List.length_take, hp _ (by simp [hin'])]; rfl) he h h'
        exact ⟨p, by simp only [pathInputs, List.zip_cons_cons, List.mem_cons]; exact Or.inr hp1, hp2⟩

/-- C26, binding: two accepted openings of different rows at the same root and index with paths of the
same length exhibit a collision: either of the row hash (the two rows themselves) or of the node hash
(two inputs hashed at the same level of the two paths). The paths may be arbitrary. -/
theorem binding [DecidableEq F] {perm : List F → List F} (hp : IsState perm) (root : List F) (idx : Nat)
    (mp mp' : List (List F)) (row row' : List F) (hl : mp.length = mp'.length) (hne : row ≠ row')
    (h : verifyGroupProof perm root mp idx row = some true) (h' : verifyGroupProof perm root mp' idx row' = some true) :
    RowCollision perm row row' ∨
      ∃ p ∈ (pathInputs perm mp idx (digest perm row 0)).zip (pathInputs perm mp' idx (digest perm row' 0)),
        NodeCollision perm p.1 p.2 := by
  by_cases he : digest perm row 0 = digest perm row' 0
  · exact Or.inl ⟨hne, he⟩
  · right
    unfold verifyGroupProof at h h'
    rw [hash_eq_digest hp, Option.bind_some, Option.map_eq_some_iff] at h h'
    obtain ⟨r, h1, h2⟩ := h
    obtain ⟨r', h1', h2'⟩ := h'
    have e : root = r := by simpa using h2
    have e' : root = r' := by simpa using h2'
    rw [← e] at h1
    rw [← e'] at h1'
    exact path_binding hp mp mp' hl idx _ _ root (digest_length hp _ 0) (digest_length hp _ 0) he h1 h1'

/-- C26, so with a collision-free row hash and node hash an honest tree can only be opened to its rows
(by paths of the honest length). -/
theorem opens_only_rows [DecidableEq F] {perm : List F → List F} (hp : IsState perm) (workers : Nat) (hwk : 0 < workers)
    (buff : List F) (width height : Nat) (hw : width < 2 ^ 21 + 8) (hh : 2 ≤ height)
    (hb : buff.length = height * width) (idx : Nat) (hidx : idx < height)
    (hrow : ∀ r r', ¬ RowCollision perm r r') (hnode : ∀ x x', ¬ NodeCollision perm x x') :
    ∃ t mp root, merkelize perm workers buff width height = some t ∧ t.root = some root ∧
      getGroupProof t idx = .ok (row buff width idx, mp) ∧
      ∀ mp' r', mp'.length = mp.length → verifyGroupProof perm root mp' idx r' = some true → r' = row buff width idx := by
  obtain ⟨t, h1, h2, h3, _⟩ := completeness hp workers hwk buff width height hw hh hb
  obtain ⟨mp, h4, h5⟩ := h3 idx hidx
  refine ⟨t, mp, _, h1, h2, h4, ?_⟩
  intro mp' r' hl hv
  by_contra hne
  rcases binding hp _ idx mp' mp r' _ hl hne hv h5 with h | ⟨p, _, h⟩
  · exact hrow _ _ h
  · exact hnode _ _ h

/-- C26 needs the equal path lengths, which `verify_group_proof` does not check: from any accepted opening
with a nonempty path one gets another accepted opening, of the eight elements of the first node pair, with a
path shorter by one. -/
theorem interior_opening [DecidableEq F] {perm : List F → List F} (hp : IsState perm) (root : List F) (s : List F)
    (mp : List (List F)) (idx : Nat) (vals : List F) (h : verifyGroupProof perm root (s :: mp) idx vals = some true) :
    verifyGroupProof perm root mp (idx / 2) (pairInput idx (digest perm vals 0) s) = some true := by
  unfold verifyGroupProof at *
  rw [hash_eq_digest hp, Option.bind_some, rootFromProof] at h
  split_ifs at h with hs
  · have hin : (pairInput idx (digest perm vals 0) s).length = 8 := by
      have := digest_length hp vals 0
      unfold pairInput; split_ifs <;> simp <;> omega
    rw [poseidonHash, if_pos ⟨hin, by simp⟩, Option.bind_some] at h
    rw [hash_one_block hp _ (by omega) (by omega), Option.bind_some, hin]
    simpa using h
  · simp at h

/-- The index is only looked at modulo `2 ^ (path length)`. -/
theorem verify_idx_mod [DecidableEq F] (perm : List F → List F) (root : List F) (mp : List (List F)) (idx : Nat)
    (vals : List F) :
    verifyGroupProof perm root mp idx vals = verifyGroupProof perm root mp (idx % 2 ^ mp.length) vals := by
  have key : ∀ (mp : List (List F)) (idx : Nat) (v : List F),
      rootFromProof perm mp idx v = rootFromProof perm mp (idx % 2 ^ mp.length) v := by
    intro mp
    induction mp with
    | nil => intro idx v; rfl
    | cons s mp ih =>
      intro idx v
      have hbit : idx % 2 ^ (s :: mp).length &&& 1 = idx &&& 1 := by
        rw [Nat.and_one_is_mod, Nat.and_one_is_mod, List.length_cons, pow_succ, Nat.mod_mul_left_mod]
      have hdiv : idx % 2 ^ (s :: mp).length / 2 = idx / 2 % 2 ^ mp.length := by
        rw [List.length_cons, pow_succ, Nat.mod_mul_left_div_self]
      rw [rootFromProof, rootFromProof]
      unfold pairInput
      rw [hbit, hdiv]
      simp only [← ih]
  unfold verifyGroupProof
  congr 1
  congr 1
  funext h
  exact key mp idx h

/-- non-vacuity of the binding hypotheses: an accepted opening with a nonempty path, and a second accepted
opening of a different row (the row hash of the identity permutation collides). -/
example : verifyGroupProof (fun s : List Nat => s) [1, 2, 3, 4] [[9, 9, 9, 9]] 0 [1, 2, 3, 4, 5] = some true ∧
    verifyGroupProof (fun s : List Nat => s) [1, 2, 3, 4] [[7, 7, 7, 7]] 0 [1, 2, 3, 4, 6] = some true := by decide +kernel

end Verif.MerkleGL
