import Verif.Hash.Chunks
import Mathlib.Algebra.Ring.Basic
import Mathlib.Algebra.BigOperators.Group.List.Basic
import Mathlib.Data.Nat.Cast.Basic

/-!
Model of starky/src/linearhash_bn128.rs (and of its copy starky/src/linearhash_bls12381.rs) over an
arbitrary commutative ring `R` of scalars and an arbitrary Poseidon hash `pos inputs init`.
Goldilocks inputs are given by their integer values (`as_int`).  The arithmetic of the scalar field
itself comes from the external `ff` derive macro and is taken as ring arithmetic.
-/

set_option linter.unusedSectionVars false

namespace Verif.LinearBN
variable {R : Type*} [CommRing R]

/-- State of the packing loop of `hash_element_matrix`: `acc`, `accN`, `vals3`. -/
structure St (R : Type*) where
  acc : R
  accN : Nat
  vals3 : List R

/-- starky/src/linearhash_bn128.rs L31-45: one iteration of the packing loop. -/
def packStep (s : St R) (e : Nat) : St R :=
  let e : R := if s.accN = 1 then (e : R) * 2 ^ 64 else if s.accN = 2 then (e : R) * 2 ^ 128 else (e : R)
  if s.accN + 1 = 3 then ⟨0, 0, s.vals3 ++ [s.acc + e]⟩ else ⟨s.acc + e, s.accN + 1, s.vals3⟩

/-- starky/src/linearhash_bn128.rs L55-66: absorb the packed values sixteen at a time. -/
def absorb16 (pos : List R → R → R) : List R → List R → R → R
  | [], inh, st => if inh = [] then st else pos inh st
  | v :: vs, inh, st =>
    if (inh ++ [v]).length = 16 then absorb16 pos vs [] (pos (inh ++ [v]) st) else absorb16 pos vs (inh ++ [v]) st

/-- `hash_element_matrix`, starky/src/linearhash_bn128.rs L23-68. -/
def hashMatrix (pos : List R → R → R) (columns : List (List Nat)) : R :=
  let s := columns.flatten.foldl packStep ⟨0, 0, []⟩
  let vals3 := if s.accN > 0 then s.vals3 ++ [s.acc] else s.vals3
  match vals3 with
  | [] => 0
  | [v] => v
  | _ => absorb16 pos vals3 [] 0

/-- The integer with the given 64-bit digits, little endian, as a scalar: `to_bn128`
(starky/src/digest.rs L163-176) and `to_bn128_mont` (starky/src/linearhash_bn128.rs L72-91). -/
def pack (l : List Nat) : R := l.foldr (fun (e : Nat) (acc : R) => (e : R) + 2 ^ 64 * acc) 0

/-- `hash_element_array`, starky/src/linearhash_bn128.rs L105-131, before the conversion to a digest: at
most four elements are packed in one scalar; otherwise triples are packed and hashed sixteen at a time. -/
def hashArray (pos : List R → R → R) (vals : List Nat) : R :=
  if vals.length ≤ 4 then pack vals
  else (chunks 16 ((chunks 3 vals).map pack)).foldl (fun digest l => pos l digest) 0

/-! ### Lemmas -/

theorem pack_eq_short (a b c : Nat) : (pack [a] : R) = a ∧ (pack [a, b] : R) = a + b * 2 ^ 64 ∧
    (pack [a, b, c] : R) = a + b * 2 ^ 64 + c * 2 ^ 128 := by
  refine ⟨by simp [pack], by simp [pack]; ring, by simp only [pack, List.foldr]; ring⟩

theorem pack_loop (xs : List Nat) (done : List R) :
    (let s := xs.foldl packStep (⟨0, 0, done⟩ : St R)
     if s.accN > 0 then s.vals3 ++ [s.acc] else s.vals3) = done ++ (chunks 3 xs).map pack := by
  induction hn : xs.length using Nat.strong_induction_on generalizing xs done with
  | _ n ih =>
    match xs, hn with
    | [], _ => simp
    | [a], _ => rw [chunks_short (by decide) (by simp) (by simp)]; simp [packStep, pack_eq_short a 0 0]
    | [a, b], _ =>
      rw [chunks_short (by decide) (by simp) (by simp)]
      simp [packStep, pack_eq_short a b 0]
    | a :: b :: c :: xs, hn =>
      rw [chunks_ne_nil (by decide) (by simp)]
      have := ih xs.length (by simp at hn; omega) xs (done ++ [pack [a, b, c]]) rfl
      simp only [List.take_succ_cons, List.take_zero, List.drop_succ_cons, List.drop_zero, List.map_cons]
      rw [List.append_assoc] at this
      simp only [List.singleton_append] at this
      rw [← this]
      simp [packStep, (pack_eq_short a b c).2.2]

theorem absorb16_eq (pos : List R → R → R) (xs inh : List R) (st : R) (hi : inh.length < 16) :
    absorb16 pos xs inh st = (chunks 16 (inh ++ xs)).foldl (fun d l => pos l d) st := by
  induction xs generalizing inh st with
  | nil =>
    simp only [absorb16, List.append_nil]
    split_ifs with h
    · subst h; simp
    · rw [chunks_short (by decide) h (by omega)]; rfl
  | cons v vs ih =>
    simp only [absorb16]
    have e : inh ++ v :: vs = (inh ++ [v]) ++ vs := by simp
    split_ifs with h
    · rw [ih [] _ (by simp), e, chunks_append (by decide) _ h]; rfl
    · rw [ih _ _ (by simp only [List.length_append, List.length_cons, List.length_nil] at *; omega), e]

/-- The row hash used for verification, in closed form. -/
theorem hashMatrix_spec (pos : List R → R → R) (cols : List (List Nat)) :
    hashMatrix pos cols = match (chunks 3 cols.flatten).map (pack (R := R)) with
      | [] => 0
      | [v] => v
      | vs => (chunks 16 vs).foldl (fun d l => pos l d) 0 := by
  have h := pack_loop (R := R) cols.flatten []
  unfold hashMatrix
  dsimp only at h ⊢
  rw [List.nil_append] at h
  rw [h]
  generalize (chunks 3 cols.flatten).map (pack (R := R)) = vs
  match vs with
  | [] => rfl
  | [v] => rfl
  | a :: b :: vs => simp only []; rw [absorb16_eq _ _ _ _ (by simp)]; rfl

/-- C62: the row hash used to build a tree (`hash_element_array`) and the one used to verify an opening
(`hash_element_matrix`) agree on every row that does not have exactly four elements. -/
theorem row_hashes_agree (pos : List R → R → R) (row : List Nat) (h4 : row.length ≠ 4) :
    hashArray pos row = hashMatrix pos [row] := by
  rw [hashMatrix_spec]
  unfold hashArray
  have e : [row].flatten = row := by simp
  rw [e]
  split_ifs with h
  · by_cases h0 : row = []
    · subst h0; simp [pack]
    · rw [chunks_short (by decide) h0 (by omega)]; rfl
  · have hl : 2 ≤ ((chunks 3 row).map (pack (R := R))).length := by
      rw [List.length_map, chunks_length (by decide)]; omega
    generalize (chunks 3 row).map (pack (R := R)) = vs at *
    match vs, hl with
    | a :: b :: vs, _ => rfl

/-- C62, the exception: on four elements, building packs them in one scalar without hashing while verifying
hashes two packed scalars. -/
theorem row_hashes_differ_at_four (pos : List R → R → R) (a b c d : Nat) :
    hashArray pos [a, b, c, d] = (a : R) + b * 2 ^ 64 + c * 2 ^ 128 + d * 2 ^ 192 ∧
      hashMatrix pos [[a, b, c, d]] = pos [(a : R) + b * 2 ^ 64 + c * 2 ^ 128, d] 0 := by
  constructor
  · simp only [hashArray, List.length_cons, List.length_nil]
    norm_num [pack]; ring
  · rw [hashMatrix_spec]
    have : chunks 3 ([[a, b, c, d]] : List (List Nat)).flatten = [[a, b, c], [d]] := rfl
    rw [this]
    simp only [List.map_cons, List.map_nil, (pack_eq_short a b c).2.2, (pack_eq_short d 0 0).1]
    rw [chunks_short (by decide) (by simp) (by simp)]
    rfl

/-- The disagreement, concretely, in the integers with a toy hash. -/
example : hashArray (R := Int) (fun _ _ => 7) [1, 0, 0, 0] ≠ hashMatrix (fun _ _ => 7) [[1, 0, 0, 0]] := by
  rw [(row_hashes_differ_at_four _ 1 0 0 0).1, (row_hashes_differ_at_four _ 1 0 0 0).2]; norm_num

example : hashArray (R := Int) (fun l s => l.sum + 2 * s) [1, 2, 3, 4, 5] = 1 + 2 * 2 ^ 64 + 3 * 2 ^ 128 + (4 + 5 * 2 ^ 64) := by
  decide +kernel

end Verif.LinearBN
