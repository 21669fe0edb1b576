import Verif.Hash.TreeLemmas
import Verif.Hash.LinearProps
import Mathlib.Data.Nat.Bitwise

/-!
Model of `MerkleTreeGL`, starky/src/merklehash.rs (non-AVX512 code path), over an arbitrary
twelve-element permutation `perm`.  A digest `ElementDigest<4, FGL>` is a list of four elements.
-/

set_option linter.unusedSectionVars false

namespace Verif.MerkleGL
open Verif.Linear Verif.Tree
variable {F : Type*} [Zero F]

/-- How a call can fail: an `Err` result, or a panic. -/
inductive Fail | error | panic
  deriving DecidableEq

/-- The result of `unwrap()`ing the linear hash of the eight elements of two digests,
starky/src/merklehash.rs L126-131.  (`hash` never fails, `Linear.hash_spec`, so the default is
never used.) -/
def nodeHash (perm : List F → List F) (two : List (List F)) : List F := (hash perm two.flatten 0).getD []

/-- starky/src/merklehash.rs L319: row hash, `self.h.hash(batch, 0).unwrap()`. -/
def leafHash (perm : List F → List F) (r : List F) : List F := (hash perm r 0).getD []

/-- `ElementDigest::default()`, starky/src/digest.rs L77-82. -/
def zeroDigest : List F := List.replicate 4 0

/-- starky/src/merklehash.rs L38-45 (the hashers are stateless and left out). -/
structure MT (F : Type*) where
  elements : List F
  width : Nat
  height : Nat
  nodes : List (List F)

/-- starky/src/merklehash.rs L296-307: rows per thread. -/
def rowsPerThread (workers width height : Nat) : Nat :=
  let n := (height - 1) / workers + 1
  let div := max (width / 8) 1
  let n := if n > maxOps / div then maxOps / div else n
  if n < minOps / div then minOps / div else n

/-- `merkelize`, starky/src/merklehash.rs L293-346; `none` is a panic. -/
def merkelize (perm : List F → List F) (workers : Nat) (buff : List F) (width height : Nat) : Option (MT F) :=
  (build 2 (nodeHash perm) (leafHash perm) zeroDigest workers (rowsPerThread workers width height) buff width height).map
    fun nodes => ⟨buff, width, height, nodes⟩

/-- `merkle_gen_merkle_proof`, starky/src/merklehash.rs L64-76 (`fuel = n` suffices for the recursion
on the level size); `none` is an out-of-range access. -/
def genProof (nodes : List (List F)) : Nat → Nat → Nat → Nat → Option (List (List F))
  | 0, _, _, _ => some []
  | fuel + 1, idx, offset, n =>
    if n ≤ 1 then some []
    else (nodes[offset + (idx ^^^ 1)]?).bind fun sib =>
      (genProof nodes fuel (idx >>> 1) (offset + nextN 2 n * 2) (nextN 2 n)).map fun rest => sib :: rest

/-- `get_group_proof`, starky/src/merklehash.rs L425-438. -/
def getGroupProof (t : MT F) (idx : Nat) : Except Fail (List F × List (List F)) :=
  if idx ≥ t.height then .error .error
  else
    match (List.range t.width).mapM (fun i => t.elements[t.width * idx + i]?),
        genProof t.nodes t.height idx 0 t.height with
    | some v, some mp => .ok (v, mp)
    | _, _ => .error .panic

/-- One step of `merkle_calculate_root_from_proof`, starky/src/merklehash.rs L194-207: the eight
elements hashed at a level. -/
def pairInput (idx : Nat) (value sib : List F) : List F :=
  if idx &&& 1 = 0 then value ++ sib.take 4 else sib.take 4 ++ value

/-- `merkle_calculate_root_from_proof`, starky/src/merklehash.rs L184-211, recursion on the remaining
path; `none` is a panic (a path entry with fewer than four elements). -/
def rootFromProof (perm : List F → List F) : List (List F) → Nat → List F → Option (List F)
  | [], _, value => some value
  | sib :: mp, idx, value =>
    if 4 ≤ sib.length then
      (poseidonHash perm (pairInput idx value sib) (List.replicate 4 0) 4).bind fun next =>
        rootFromProof perm mp (idx / 2) next
    else none

/-- `verify_group_proof` with `calculate_root_from_group_proof`, starky/src/merklehash.rs L220-228 and
L444-453. -/
def verifyGroupProof [DecidableEq F] (perm : List F → List F) (root : List F) (mp : List (List F)) (idx : Nat)
    (vals : List F) : Option Bool :=
  ((hash perm vals 0).bind fun h => rootFromProof perm mp idx h).map fun r => decide (root = r)

/-- `root()`, starky/src/merklehash.rs L455-457. -/
def MT.root (t : MT F) : Option (List F) := t.nodes.getLast?

/-! ### Lemmas -/

theorem hashLen {perm : List F → List F} (hp : IsState perm) (xs : List F) : ((hash perm xs 0).getD []).length = 4 := by
  rw [hash_eq_digest hp]; exact digest_length hp xs 0

theorem nodeHash_pair {perm : List F → List F} (hp : IsState perm) (a b : List F) (ha : a.length = 4) (hb : b.length = 4) :
    nodeHash perm [a, b] = (perm (a ++ b ++ List.replicate 4 0)).take 4 := by
  unfold nodeHash
  have : [a, b].flatten = a ++ b := by simp
  rw [this, hash_one_block hp (a ++ b) (by simp; omega) (by simp; omega)]
  simp [ha, hb]

theorem xor_one (i : Nat) : i ^^^ 1 = if i % 2 = 0 then i + 1 else i - 1 := by
  split_ifs with h
  · exact Nat.xor_one_of_even (Nat.even_iff.mpr h)
  · exact Nat.xor_one_of_odd (Nat.odd_iff.mpr (by omega))

/-- at every level: the honest path exists, and folding it from the node gives the root -/
theorem path_complete {perm : List F → List F} (hp : IsState perm) (n : Nat) (L : Nat → List F)
    (hL : ∀ i, (L i).length = 4) (pre : List (List F)) (idx f : Nat) (hi : idx < n) (hf : n ≤ f) :
    ∃ mp, genProof (pre ++ layout 2 (nodeHash perm) zeroDigest n L) f idx pre.length n = some mp ∧
      rootFromProof perm mp idx (L idx) = some (rootOf 2 (nodeHash perm) zeroDigest n L) := by
  induction n, L using level_induction (by decide : 2 ≤ 2) (nodeHash perm) (zeroDigest (F := F))
    generalizing pre idx f with
  | h1 n L h =>
    refine ⟨[], ?_, ?_⟩
    · cases f with
      | zero => rfl
      | succ f => simp [genProof, h]
    · have : idx = 0 := by omega
      subst this
      rw [rootOf_one _ _ _ _ h]; rfl
  | hs n L h ih =>
    obtain ⟨f, rfl⟩ : ∃ g, f = g + 1 := ⟨f - 1, by omega⟩
    have hlt := nextN_lt (le_refl 2) h
    have hle := le_nextN_mul (n := n) (le_refl 2)
    have hd := div_lt_nextN (ar := 2) hi
    have hLp : ∀ i, (parents 2 (nodeHash perm) zeroDigest n L i).length = 4 := fun i => hashLen hp _
    set cur := (List.range (nextN 2 n * 2)).map (padded zeroDigest n L) with hcur
    have hcl : cur.length = nextN 2 n * 2 := by simp [hcur]
    obtain ⟨mp, hm1, hm2⟩ := ih hLp (pre ++ cur) (idx / 2) f (by omega) (by omega)
    rw [layout_step (le_refl 2) _ _ _ h, ← hcur, ← List.append_assoc]
    have hx : idx ^^^ 1 < nextN 2 n * 2 := by
      rw [xor_one]; split_ifs <;> omega
    have hsib : ((pre ++ cur) ++ layout 2 (nodeHash perm) zeroDigest (nextN 2 n) (parents 2 (nodeHash perm) zeroDigest n L))[pre.length + (idx ^^^ 1)]?
        = some (padded zeroDigest n L (idx ^^^ 1)) := by
      rw [List.getElem?_append_left (by simp [hcl]; omega), List.getElem?_append_right (by omega),
        Nat.add_sub_cancel_left, hcur, List.getElem?_map, List.getElem?_range hx]
      rfl
    rw [List.length_append, hcl] at hm1
    refine ⟨padded zeroDigest n L (idx ^^^ 1) :: mp, ?_, ?_⟩
    · rw [genProof, if_neg (by omega), hsib, Option.bind_some, Nat.shiftRight_one, hm1]; rfl
    · have hpl : ∀ i, (padded zeroDigest n L i).length = 4 := by
        intro i; unfold padded; split_ifs
        · exact hL i
        · simp [zeroDigest]
      have hin : (pairInput idx (L idx) (padded zeroDigest n L (idx ^^^ 1))).length = 8 := by
        unfold pairInput; split_ifs <;> simp [hL, hpl]
      rw [rootFromProof, if_pos (by rw [hpl]), poseidonHash, if_pos ⟨hin, by simp⟩, Option.bind_some,
        rootOf_step (le_refl 2) _ _ _ h, ← hm2]
      congr 1
      have hpa : parents 2 (nodeHash perm) zeroDigest n L (idx / 2)
          = nodeHash perm [padded zeroDigest n L (idx / 2 * 2), padded zeroDigest n L (idx / 2 * 2 + 1)] := rfl
      have hself : padded zeroDigest n L idx = L idx := by simp [padded, hi]
      rw [hpa, nodeHash_pair hp _ _ (hpl _) (hpl _)]
      unfold pairInput
      rw [List.take_of_length_le (l := padded zeroDigest n L (idx ^^^ 1)) (by rw [hpl]), xor_one, Nat.and_one_is_mod]
      by_cases hev : idx % 2 = 0
      · rw [if_pos hev, if_pos hev, show idx / 2 * 2 = idx by omega, hself]
      · rw [if_neg hev, if_neg hev, show idx / 2 * 2 = idx - 1 by omega, show idx - 1 + 1 = idx by omega, hself]

theorem rootFromProof_length {perm : List F → List F} (hp : IsState perm) (mp : List (List F)) (idx : Nat) (v r : List F)
    (hv : v.length = 4) (h : rootFromProof perm mp idx v = some r) : r.length = 4 := by
  induction mp generalizing idx v with
  | nil => simp only [rootFromProof, Option.some.injEq] at h; rw [← h]; exact hv
  | cons s mp ih =>
    rw [rootFromProof] at h
    split_ifs at h with hs
    have hin : (pairInput idx v s).length = 8 := by
      unfold pairInput; split_ifs <;> simp <;> omega
    rw [poseidonHash, if_pos ⟨hin, by simp⟩, Option.bind_some] at h
    exact ih _ _ (by rw [List.length_take, hp _ (by simp [hin])]; rfl) h

omit [Zero F] in
theorem getRow (t : MT F) (idx : Nat) (hb : t.elements.length = t.height * t.width) (hi : idx < t.height) :
    (List.range t.width).mapM (fun i => t.elements[t.width * idx + i]?) = some (row t.elements t.width idx) := by
  have key : ∀ k ≤ t.width, (List.range k).mapM (fun i => t.elements[t.width * idx + i]?)
      = some ((t.elements.drop (idx * t.width)).take k) := by
    intro k
    induction k with
    | zero => intro _; rfl
    | succ k ih =>
      intro hk
      have h1 : (idx + 1) * t.width ≤ t.height * t.width := Nat.mul_le_mul_right _ (by omega)
      have h2 : (idx + 1) * t.width = idx * t.width + t.width := by ring
      have h3 : t.width * idx = idx * t.width := Nat.mul_comm _ _
      rw [List.range_succ, List.mapM_append, ih (by omega)]
      have hlt : idx * t.width + k < t.elements.length := by omega
      simp only [List.mapM_cons, List.mapM_nil, h3, List.getElem?_eq_getElem hlt]
      rw [List.take_add_one, List.getElem?_drop, List.getElem?_eq_getElem hlt]
      rfl
  exact key t.width le_rfl

end Verif.MerkleGL
