import Verif.Simd.Linear

/-!
# The AVX-512 linear hash gives the scalar digests
-/
namespace Verif.Simd
open Verif.GL (F MODULUS)
open Verif.Poseidon (Res)
open Verif.Poseidon.Gl (permGl)
open Verif.Linear (poseidonHash pad4 pad8 batch digest digest1 sponge IsState)

theorem two512 : Two hashAvx512 permGl := by
  intro a b ca cb ha hb hca hcb
  obtain ⟨da, db, h1, h2, l1, l2, h3⟩ := avx512_two a b ca cb ha hb hca hcb
  unfold scalarHash poseidonHash at h1 h2
  rw [if_pos ⟨ha, hca⟩] at h1
  rw [if_pos ⟨hb, hcb⟩] at h2
  injection h1 with h1
  injection h2 with h2
  rw [h3 8, if_pos le_rfl, h1, h2, List.take_of_length_le (by simp [l1, l2])]

/-- **Two rows at once**: for all inputs of the same length and every batch size, the AVX-512 `hash` of the one followed by the other returns the two
digests that the scalar `hash` returns for each, and never panics. -/
theorem linear512 (a b : List F) (bs : Nat) (hab : a.length = b.length) :
    ∃ da db, Linear.hash permGl a bs = some da ∧ Linear.hash permGl b bs = some db ∧ hash2 hashAvx512 (a ++ b) bs = some (da, db) :=
  ⟨_, _, Linear.hash_eq_digest Poseidon.Gl.isState a bs, Linear.hash_eq_digest Poseidon.Gl.isState b bs, hash2_eq two512 Poseidon.Gl.isState a b bs hab⟩

example : ∃ da db, Linear.hash permGl (List.replicate 20 3) 7 = some da ∧ Linear.hash permGl (List.replicate 20 5) 7 = some db ∧
    hash2 hashAvx512 (List.replicate 20 3 ++ List.replicate 20 5) 7 = some (da, db) := linear512 _ _ 7 rfl

/-- **The matrix hash** of the AVX-512 code (which hashes the columns twice, side by side) is the scalar one, for every matrix and batch size: same digest,
same panics. -/
theorem matrix512 (cols : List (List F)) (bs : Nat) : hashElementMatrix2 hashAvx512 cols bs = Linear.hashElementMatrix permGl cols bs := by
  unfold hashElementMatrix2 Linear.hashElementMatrix
  cases cols with
  | nil => rfl
  | cons c cs =>
    dsimp only
    split_ifs with hc
    · rw [hash2_eq two512 Poseidon.Gl.isState _ _ bs rfl, Linear.hash_eq_digest Poseidon.Gl.isState]
      rfl
    · rfl

example : hashElementMatrix2 hashAvx512 [[1, 2], [3, 4]] 0 = some [1, 2, 3, 4] := by rw [matrix512]; decide +kernel

/-- **An odd number of elements is not hashed completely**: when the first half is a multiple of the batch size, the last element does not
influence the result.  (The callers in this repository only pass two rows of the same length.) -/
theorem odd_ignored (a b : List F) (x : F) (bs : Nat) (hbs : bs ≠ 0) (hab : a.length = b.length) (h4 : 4 < a.length) (hd : bs ∣ a.length) :
    hash2 hashAvx512 (a ++ (b ++ [x])) bs = hash2 hashAvx512 (a ++ b) bs := by
  have hm : (a ++ b).length / 2 = a.length := by rw [List.length_append]; omega
  have hm' : (a ++ (b ++ [x])).length / 2 = a.length := by simp only [List.length_append, List.length_singleton]; omega
  have hb : batch a.length bs = bs := by unfold batch; rw [if_neg hbs]
  have hz : (chunks bs a).zip (chunks bs (b ++ [x])) = (chunks bs a).zip (chunks bs b) := by
    obtain ⟨k, hk⟩ := hd
    have hs : chunks bs (b ++ [x]) = chunks bs b ++ chunks bs [x] := by
      rw [Tree.chunks_split hbs k (b ++ [x]), List.take_left' (by rw [← hab, hk]), List.drop_left' (by rw [← hab, hk])]
    have hl : (chunks bs a).length = (chunks bs b).length := by rw [chunks_length hbs, chunks_length hbs, hab]
    rw [hs]
    conv_lhs => rw [← List.append_nil (chunks bs a)]
    rw [List.zip_append hl, List.zip_nil_left, List.append_nil]
  unfold hash2
  simp only [hm, hm', List.take_left, List.drop_left, hb, if_neg (show ¬ a.length ≤ 4 by omega), hz]

example : hash2 hashAvx512 (List.replicate 8 1 ++ (List.replicate 8 2 ++ [7])) 8 = hash2 hashAvx512 (List.replicate 8 1 ++ (List.replicate 8 2 ++ [9])) 8 := by
  rw [odd_ignored _ _ 7 8 (by decide) (by simp) (by simp) (by simp), odd_ignored _ _ 9 8 (by decide) (by simp) (by simp) (by simp)]

/-! ### AVX2: the scalar code over the AVX2 hash -/

/-- the permutation of the AVX2 `Poseidon`, as far as four outputs are concerned -/
def permAvx2 (l : List F) : List F :=
  match hashAvx2 (l.take 8) (l.drop 8) 4 with
  | .ok r => r
  | _ => []

/-- with `permAvx2`, the call `self.h.hash(&inhashes, &st, 4)` of `LinearHash` (linearhash.rs L132, L141) and of `MerkleTreeGL` (merklehash.rs L208) is
the AVX2 one -/
theorem avx2_call (inp init : List F) : hashAvx2 inp init 4 = match poseidonHash permAvx2 inp init 4 with
    | some l => .ok l
    | none => .err := by
  unfold poseidonHash permAvx2
  by_cases hc : inp.length = 8 ∧ init.length = 4
  · rw [if_pos hc, List.take_left' hc.1, List.drop_left' hc.1, hashAvx2_eq inp init hc.1 hc.2, if_pos le_rfl]
    dsimp only
    rw [List.take_take]
    rfl
  · rw [if_neg hc, avx2_scalar _ _ _ le_rfl]
    unfold scalarHash poseidonHash
    rw [if_neg hc]

theorem poseidon_avx2 (inp init : List F) : poseidonHash permAvx2 inp init 4 = poseidonHash permGl inp init 4 := by
  unfold poseidonHash
  by_cases hc : inp.length = 8 ∧ init.length = 4
  · rw [if_pos hc, if_pos hc]
    unfold permAvx2
    rw [List.take_left' hc.1, List.drop_left' hc.1, hashAvx2_eq inp init hc.1 hc.2, if_pos le_rfl]
    dsimp only
    rw [List.take_take]
    rfl
  · rw [if_neg hc, if_neg hc]

theorem absorb_avx2 (xs inh st : List F) : Linear.absorb permAvx2 xs inh st = Linear.absorb permGl xs inh st := by
  induction xs generalizing inh st with
  | nil => rfl
  | cons v vs ih =>
    unfold Linear.absorb
    rw [poseidon_avx2]
    simp only [ih]

theorem hashInner_avx2 : Linear.hashInner permAvx2 = Linear.hashInner permGl := by
  funext xs
  unfold Linear.hashInner
  rw [absorb_avx2]
  simp only [poseidon_avx2]

/-- **The linear hash over the AVX2 Poseidon is the scalar one**, for every input and batch size. -/
theorem linear_avx2 (xs : List F) (bs : Nat) : Linear.hash permAvx2 xs bs = Linear.hash permGl xs bs := by
  unfold Linear.hash
  rw [hashInner_avx2]

example : ∃ d, Linear.hash permAvx2 (List.replicate 20 3) 7 = some d := by
  rw [linear_avx2]; exact ⟨_, Linear.hash_eq_digest Poseidon.Gl.isState _ _⟩

end Verif.Simd
