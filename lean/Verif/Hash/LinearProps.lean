import Verif.Hash.Linear
import Mathlib.Data.List.Rotate

/-! Properties C24 of the linear hash, for every twelve-element permutation. -/

namespace Verif.Linear
variable {F : Type*} [Zero F]

/-- C24: `hash` never fails and its digest is the documented sponge digest: at most four elements are
returned zero-padded; otherwise chunks of `batch_size` (by default `max 8 (ceil (len / 4))`) are
digested separately and, if there are several, the digest of the concatenated digests is returned. -/
theorem hash_spec {perm : List F → List F} (hp : IsState perm) (xs : List F) (bs : Nat) :
    hash perm xs bs = some (digest perm xs bs) ∧ (digest perm xs bs).length = 4 :=
  ⟨hash_eq_digest hp xs bs, digest_length hp xs bs⟩

/-- non-vacuity: the identity and a rotation are admissible permutations, and the digest is
not constant. -/
example : IsState (fun s : List Nat => s.rotate 3) := by
  intro s h; simpa using h
example : hash (fun s : List Nat => s.rotate 3) [1, 2, 3, 4, 5, 6, 7, 8, 9] 0 = some [7, 9, 0, 0] := by decide +kernel

/-- C24: with the default batch size, an input of five to eight elements costs exactly one permutation
call on the zero-padded input with zero capacity. This is the node hash of the Merkle tree. -/
theorem hash_one_block {perm : List F → List F} (hp : IsState perm) (xs : List F) (h5 : 5 ≤ xs.length)
    (h8 : xs.length ≤ 8) :
    hash perm xs 0 = some ((perm (xs ++ List.replicate (8 - xs.length) 0 ++ List.replicate 4 0)).take 4) := by
  rw [hash_eq_digest hp]
  unfold digest
  dsimp only
  have hb : max 8 ((xs.length + 3) / 4) = 8 := by omega
  rw [if_pos rfl, hb, if_neg (by omega), if_pos h8]
  unfold digest1 sponge
  rw [if_neg (by omega)]
  have hp8 : pad8 xs = xs ++ List.replicate (8 - xs.length) 0 := by unfold pad8; congr 2; omega
  have hne : xs ++ List.replicate (8 - xs.length) (0 : F) ≠ [] := by
    intro h; simp at h; simp [h.1] at h5
  rw [hp8, chunks_short (by decide) hne (by simp; omega)]
  simp

/-- C24: `_hash` of more than four elements is the rate-eight sponge with zero padding. -/
theorem hashInner_spec {perm : List F → List F} (hp : IsState perm) (xs : List F) :
    hashInner perm xs = some (if xs.length ≤ 4 then xs ++ List.replicate (4 - xs.length) 0
      else (chunks 8 (pad8 xs)).foldl (fun st b => (perm (b ++ st)).take 4) (List.replicate 4 0)) := by
  rw [hashInner_eq hp]; rfl

/-- C24, length is not bound: appending zeros that stay inside the last padding block does not change
the digest (for `_hash`, at every length above four). -/
theorem hashInner_trailing_zeros {perm : List F → List F} (hp : IsState perm) (xs : List F) (k : Nat)
    (h : 4 < xs.length) (hk : (xs.length + k + 7) / 8 = (xs.length + 7) / 8) :
    hashInner perm (xs ++ List.replicate k 0) = hashInner perm xs := by
  rw [hashInner_eq hp, hashInner_eq hp]
  unfold digest1 sponge
  rw [if_neg (by simp; omega), if_neg (by omega)]
  have : pad8 (xs ++ List.replicate k (0 : F)) = pad8 xs := by
    unfold pad8
    rw [List.append_assoc, List.replicate_append_replicate]
    simp only [List.length_append, List.length_replicate]
    congr 2; omega
  rw [this]

/-- C24, length is not bound: the same for the public `hash` on five to eight elements and on at most
four elements. -/
theorem hash_trailing_zeros {perm : List F → List F} (hp : IsState perm) (xs : List F) (k : Nat)
    (h : (xs.length + k ≤ 4) ∨ (5 ≤ xs.length ∧ xs.length + k ≤ 8)) :
    hash perm (xs ++ List.replicate k 0) 0 = hash perm xs 0 := by
  rcases h with h | ⟨h5, h8⟩
  · rw [hash_eq_digest hp, hash_eq_digest hp]
    unfold digest
    dsimp only
    rw [if_pos rfl, if_pos rfl, if_pos (by simpa using h), if_pos (by omega)]
    unfold pad4
    rw [List.append_assoc, List.replicate_append_replicate]
    simp only [List.length_append, List.length_replicate]
    congr 3; omega
  · rw [hash_one_block hp _ (by simp; omega) (by simp; omega), hash_one_block hp _ h5 (by omega)]
    rw [List.append_assoc (as := xs), List.replicate_append_replicate]
    simp only [List.length_append, List.length_replicate]
    have : k + (8 - (xs.length + k)) = 8 - xs.length := by omega
    rw [this]

/-- Two inputs of different lengths with equal digests, whatever the permutation. -/
example {perm : List Nat → List Nat} (hp : IsState perm) :
    hash perm [1, 2, 3, 4, 5] 0 = hash perm [1, 2, 3, 4, 5, 0, 0] 0 :=
  (hash_trailing_zeros hp [1, 2, 3, 4, 5] 2 (by simp)).symm

/-- C24: short inputs (at most four elements) of equal length are hashed injectively. -/
theorem hash_short_inj {perm : List F → List F} {xs ys : List F} (hx : xs.length ≤ 4)
    (hl : xs.length = ys.length) (bs bs' : Nat) (h : hash perm xs bs = hash perm ys bs') : xs = ys := by
  unfold hash at h
  rw [if_pos hx, if_pos (by omega)] at h
  injection h with h
  exact (List.append_inj h hl).1

/-- C24: hashing a matrix is hashing the concatenation of its (equally long, nonempty) columns. -/
theorem hashElementMatrix_spec {perm : List F → List F} (hp : IsState perm) (cols : List (List F)) (w : Nat)
    (hw : 0 < w) (hne : cols ≠ []) (hc : ∀ c ∈ cols, c.length = w) (bs : Nat) :
    hashElementMatrix perm cols bs = some (digest perm cols.flatten bs) := by
  match cols, hne with
  | c :: cs, _ =>
    unfold hashElementMatrix
    have h0 := hc c (by simp)
    dsimp only
    rw [if_pos, hash_eq_digest hp]
    refine ⟨?_, by omega⟩
    rw [List.all_eq_true]
    intro d hd
    simp [hc d hd, h0]

example : hashElementMatrix (fun s : List Nat => s) [[1, 2, 3], [4, 5, 6]] 0 = some [1, 2, 3, 4] := by decide +kernel

end Verif.Linear
