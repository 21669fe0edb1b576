import Verif.Hash.MerkleGL

/-!
Model of `MerkleTreeBN128` (starky/src/merklehash_bn128.rs) and of its copy `MerkleTreeBLS12381`
(starky/src/merklehash_bls12381.rs, same text up to type names), arity 16.

`S` is the type of scalars (raw representations of four 64-bit limbs); `fits s` says that the four
limbs are below the Goldilocks modulus, which is when `ElementDigest::from_scalar` (starky/src/digest.rs
L46-54, `FGL::from(limb)`) does not panic; a digest that exists is identified with the scalar that
`as_scalar` (starky/src/digest.rs L58-65) recovers from it (see `Verif.Digest`).  `pos` is the Poseidon
hash `poseidon.hash(inputs, init)` on at most sixteen inputs, an arbitrary function here.
-/

namespace Verif.MerkleBN
open Verif.Tree
open Verif.MerkleGL (Fail)
variable {E S : Type*}

/-- `ElementDigest::from_scalar`, starky/src/digest.rs L46-54; `none` is the panic of `FGL::from`. -/
def fromScalar (fits : S → Bool) (s : S) : Option S := if fits s then some s else none

/-- What the code base supplies: scalars, Poseidon, and the two row hashes (before conversion to a
digest): `leafB` used to build (`hash_element_array`) and `leafV` used to verify
(`hash_element_matrix`). -/
structure Par (E S : Type*) where
  zero : S
  fits : S → Bool
  pos : List S → S → S
  leafB : List E → S
  leafV : List E → S

/-- `hash_node`, starky/src/linearhash_bn128.rs L94-103, with the zero initial state of
starky/src/merklehash_bn128.rs L84; a child that already panicked (`none`) makes the level panic. -/
def nodeHash (P : Par E S) (l : List (Option S)) : Option S :=
  (l.mapM id).bind fun ss => fromScalar P.fits (P.pos ss P.zero)

/-- starky/src/merklehash_bn128.rs L17-24 -/
structure MT (E S : Type*) where
  elements : List E
  width : Nat
  height : Nat
  nodes : List S

/-- starky/src/merklehash_bn128.rs L179-189 -/
def rowsPerThread (workers width height : Nat) : Nat :=
  let n := (height - 1) / workers + 1
  let minPt := if width > 1 then minOps / ((width - 1) / (3 * 16) + 1) else 0
  let n := if n < minPt then minPt else n
  if n > maxOps then maxOps else n

/-- `merkelize`, starky/src/merklehash_bn128.rs L176-224; the call panics (`none`) as soon as one of the
nodes could not be computed. -/
def merkelize (P : Par E S) (workers : Nat) (buff : List E) (width height : Nat) : Option (MT E S) :=
  (build 16 (nodeHash P) (fun r => fromScalar P.fits (P.leafB r)) (some P.zero) workers
      (rowsPerThread workers width height) buff width height).bind fun nodes =>
    (nodes.mapM id).map fun nodes => ⟨buff, width, height, nodes⟩

/-- `merkle_gen_merkle_proof`, starky/src/merklehash_bn128.rs L89-106. -/
def genProof (nodes : List S) : Nat → Nat → Nat → Nat → Option (List (List S))
  | 0, _, _, _ => some []
  | fuel + 1, idx, offset, n =>
    if n ≤ 1 then some []
    else ((List.range 16).mapM fun i => nodes[offset + ((idx &&& 0xFFFFFFF0) + i)]?).bind fun sibs =>
      (genProof nodes fuel (idx >>> 4) (offset + nextN 16 n * 16) (nextN 16 n)).map fun rest => sibs :: rest

/-- `get_group_proof`, starky/src/merklehash_bn128.rs L226-239. -/
def getGroupProof (t : MT E S) (idx : Nat) : Except Fail (List E × List (List S)) :=
  if idx ≥ t.height then .error .error
  else
    match (List.range t.width).mapM (fun i => t.elements[t.width * idx + i]?),
        genProof t.nodes t.height idx 0 t.height with
    | some v, some mp => .ok (v, mp)
    | _, _ => .error .panic

/-- `merkle_calculate_root_from_proof`, starky/src/merklehash_bn128.rs L108-128.  As in the code, `value`
is only used when the path is exhausted, and the position `cur_idx` (commented out at L118) never. -/
def rootFromProof (P : Par E S) : List (List S) → Nat → S → Option S
  | [], _, value => some value
  | level :: mp, idx, _value =>
    if 16 ≤ level.length then
      (fromScalar P.fits (P.pos (level.take 16) P.zero)).bind fun next => rootFromProof P mp (idx >>> 4) next
    else none

/-- `verify_group_proof` with `calculate_root_from_group_proof`, starky/src/merklehash_bn128.rs L130-138
and L245-254. -/
def verifyGroupProof [DecidableEq S] (P : Par E S) (root : S) (mp : List (List S)) (idx : Nat) (vals : List E) :
    Option Bool :=
  ((fromScalar P.fits (P.leafV vals)).bind fun h => rootFromProof P mp idx h).map fun r => decide (root = r)

/-- `root()`, starky/src/merklehash_bn128.rs L256-258. -/
def MT.root (t : MT E S) : Option S := t.nodes.getLast?

/-! ### Lemmas -/

theorem rowsPerThread_pos (workers width height : Nat) : 0 < rowsPerThread workers width height := by
  unfold rowsPerThread
  dsimp only
  have hn : 0 < (height - 1) / workers + 1 := Nat.succ_pos _
  have : 0 < maxOps := by unfold maxOps; norm_num
  generalize (if width > 1 then minOps / ((width - 1) / (3 * 16) + 1) else 0) = m
  split_ifs <;> omega

theorem mapM_id_eq {A : Type*} (l : List (Option A)) (r : List A) : l.mapM id = some r ↔ l = r.map some := by
  induction l generalizing r with
  | nil => cases r <;> simp
  | cons x l ih =>
    rw [List.mapM_cons]
    cases x with
    | none => cases r <;> simp
    | some a =>
      cases r with
      | nil => simp [Option.bind_eq_some_iff]
      | cons b r =>
        simp only [id, Option.bind_eq_bind, Option.bind_some, List.map_cons, List.cons.injEq, Option.some.injEq]
        rw [Option.bind_eq_some_iff]
        constructor
        · rintro ⟨q, h1, h2⟩
          simp only [Option.pure_def, Option.some.injEq, List.cons.injEq] at h2
          exact ⟨h2.1, (ih r).mp (by rw [h1, h2.2])⟩
        · rintro ⟨rfl, h⟩
          exact ⟨r, (ih r).mpr h, rfl⟩

theorem and_mask (i : Nat) (h : i < 2 ^ 32) : i &&& 0xFFFFFFF0 = i / 16 * 16 := by
  have e : (0xFFFFFFF0 : Nat) = (2 ^ 28 - 1) <<< 4 := by decide
  have e2 : i / 16 * 16 = (i >>> 4) <<< 4 := by rw [Nat.shiftRight_eq_div_pow, Nat.shiftLeft_eq]
  rw [e, e2]
  apply Nat.eq_of_testBit_eq
  intro j
  rw [Nat.testBit_and, Nat.testBit_shiftLeft, Nat.testBit_shiftLeft, Nat.testBit_two_pow_sub_one, Nat.testBit_shiftRight]
  by_cases h4 : 4 ≤ j
  · have e3 : 4 + (j - 4) = j := by omega
    rw [e3]
    by_cases h32 : j < 32
    · simp [h4, show j - 4 < 28 by omega]
    · have : i.testBit j = false :=
        Nat.testBit_lt_two_pow (lt_of_lt_of_le h (Nat.pow_le_pow_right (by decide) (by omega)))
      simp [this]
  · simp [h4]

theorem mapM_some_range {A : Type*} (k : Nat) (f : Nat → Option A) (g : Nat → A) (h : ∀ i < k, f i = some (g i)) :
    (List.range k).mapM f = some ((List.range k).map g) := by
  induction k with
  | zero => rfl
  | succ k ih =>
    rw [List.range_succ, List.mapM_append, ih (fun i hi => h i (by omega))]
    simp [h k (by omega)]

/-- honest path: it exists, folding it from any value gives the root unless it is empty -/
theorem path_complete (P : Par E S) (nodes : List S) (n : Nat) (L : Nat → Option S) (pre : List (Option S)) (idx f : Nat)
    (hi : idx < n) (hf : n ≤ f) (h32 : n ≤ 2 ^ 32)
    (hn : pre ++ layout 16 (nodeHash P) (some P.zero) n L = nodes.map some) :
    ∃ mp r, genProof nodes f idx pre.length n = some mp ∧ rootOf 16 (nodeHash P) (some P.zero) n L = some r ∧
      (1 < n → mp ≠ []) ∧ ∀ v, L idx = some v → rootFromProof P mp idx v = some r := by
  induction n, L using level_induction (by decide : 2 ≤ 16) (nodeHash P) (some P.zero)
    generalizing pre idx f with
  | h1 n L h =>
    have hidx : idx = 0 := by omega
    subst hidx
    rw [layout_one _ _ _ _ h] at hn
    have hmem : L 0 ∈ nodes.map some := by rw [← hn]; simp
    obtain ⟨r, _, hr⟩ := List.mem_map.mp hmem
    refine ⟨[], r, ?_, ?_, by omega, ?_⟩
    · cases f with
      | zero => rfl
      | succ f => simp [genProof, h]
    · rw [rootOf_one _ _ _ _ h, hr]
    · intro v hv; rw [← hr] at hv; simpa [rootFromProof] using hv.symm
  | hs n L h ih =>
    obtain ⟨f, rfl⟩ : ∃ g, f = g + 1 := ⟨f - 1, by omega⟩
    have hlt := nextN_lt (show 2 ≤ 16 by decide) h
    have hle := le_nextN_mul (n := n) (show 2 ≤ 16 by decide)
    have hd := div_lt_nextN (ar := 16) hi
    rw [layout_step (by decide) _ _ _ h, ← List.append_assoc] at hn
    set cur := (List.range (nextN 16 n * 16)).map (padded (some P.zero) n L) with hcur
    have hcl : cur.length = nextN 16 n * 16 := by simp [hcur]
    obtain ⟨mp, r, hm1, hm2, _, hm3⟩ := ih (pre ++ cur) (idx / 16) f hd (by omega) (by omega) hn
    rw [List.length_append, hcl] at hm1
    -- the nodes of this level
    have hnode : ∀ i < nextN 16 n * 16, (nodes[pre.length + i]?).map some = some (padded (some P.zero) n L i) := by
      intro i hi'
      rw [← List.getElem?_map, ← hn, List.getElem?_append_left (by simp [hcl]; omega),
        List.getElem?_append_right (by omega), Nat.add_sub_cancel_left, hcur, List.getElem?_map,
        List.getElem?_range hi']
      rfl
    -- choose their values
    have hval : ∃ g : Nat → S, ∀ i < nextN 16 n * 16, nodes[pre.length + i]? = some (g i) ∧
        padded (some P.zero) n L i = some (g i) := by
      refine ⟨fun i => (padded (some P.zero) n L i).getD P.zero, fun i hi' => ?_⟩
      have := hnode i hi'
      obtain ⟨s, hs1, hs2⟩ := Option.map_eq_some_iff.mp this
      simp only [← hs2, Option.getD_some]; exact ⟨hs1, trivial⟩
    obtain ⟨g, hg⟩ := hval
    have hbase : idx / 16 * 16 + 16 ≤ nextN 16 n * 16 := by omega
    set lev := (List.range 16).map fun j => g (idx / 16 * 16 + j) with hlev
    have hsib : ((List.range 16).mapM fun i => nodes[pre.length + ((idx &&& 0xFFFFFFF0) + i)]?) = some lev := by
      rw [and_mask idx (by omega)]
      apply mapM_some_range
      intro i hi'
      exact (hg _ (by omega)).1
    have hpar : parents 16 (nodeHash P) (some P.zero) n L (idx / 16) = fromScalar P.fits (P.pos lev P.zero) := by
      unfold parents nodeHash
      have : ((List.range 16).map fun j => padded (some P.zero) n L (idx / 16 * 16 + j)) = lev.map some := by
        rw [hlev, List.map_map]
        apply List.map_congr_left
        intro j hj
        rw [List.mem_range] at hj
        exact (hg _ (by omega)).2
      rw [this, (mapM_id_eq _ _).mpr rfl, Option.bind_some]
    have hsome : ∃ v, parents 16 (nodeHash P) (some P.zero) n L (idx / 16) = some v := by
      -- this parent is the first-level node of the remaining layout
      have hmem : parents 16 (nodeHash P) (some P.zero) n L (idx / 16) ∈ nodes.map some := by
        rw [← hn]
        apply List.mem_append_right
        by_cases h1 : 1 < nextN 16 n
        · rw [layout_step (by decide) _ _ _ h1]
          apply List.mem_append_left
          refine List.mem_map.mpr ⟨idx / 16, ?_, ?_⟩
          · have := le_nextN_mul (n := nextN 16 n) (show 2 ≤ 16 by decide)
            rw [List.mem_range]; omega
          · simp [padded, hd]
        · rw [layout_one _ _ _ _ (by omega), show idx / 16 = 0 by omega]; simp
      obtain ⟨v, _, hv⟩ := List.mem_map.mp hmem
      exact ⟨v, hv.symm⟩
    obtain ⟨v', hv'⟩ := hsome
    refine ⟨lev :: mp, r, ?_, ?_, by simp, ?_⟩
    · rw [genProof, if_neg (by omega), hsib, Option.bind_some, Nat.shiftRight_eq_div_pow]
      rw [show idx / 2 ^ 4 = idx / 16 by rfl, hm1]; rfl
    · rw [rootOf_step (by decide) _ _ _ h, hm2]
    · intro v _
      rw [rootFromProof, if_pos (by simp [hlev]), List.take_of_length_le (by simp [hlev]), ← hpar, hv', Option.bind_some,
        Nat.shiftRight_eq_div_pow]
      exact hm3 v' hv'

theorem getRow (t : MT E S) (idx : Nat) (hb : t.elements.length = t.height * t.width) (hi : idx < t.height) :
    (List.range t.width).mapM (fun i => t.elements[t.width * idx + i]?) = some (row t.elements t.width idx) :=
  MerkleGL.getRow (F := E) ⟨t.elements, t.width, t.height, []⟩ idx hb hi

end Verif.MerkleBN
