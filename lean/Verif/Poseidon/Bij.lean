import Verif.Poseidon.CheckSound
import Mathlib.FieldTheory.Finite.Basic
import Mathlib.LinearAlgebra.Matrix.NonsingularInverse

/-!
# The Poseidon permutations are permutations
-/
namespace Verif.Poseidon
open Matrix

variable {F : Type} [CommRing F] {n : Nat}

theorem addC_bij (c : Nat → F) (k : Nat) : Function.Bijective (addC (t := n + 1) c k) := by
  constructor
  · intro x y h
    funext i
    have := congrFun h i
    simpa [addC] using this
  · intro y
    exact ⟨fun i => y i - c (k + i), by funext i; simp [addC]⟩

omit [CommRing F] in
theorem sboxAt_bij {σ : F → F} (hσ : Function.Bijective σ) (nf np i : Nat) : Function.Bijective (sboxAt (t := n + 1) σ nf np i) := by
  unfold sboxAt
  split
  · constructor
    · intro x y h
      funext j
      exact hσ.1 (congrFun h j)
    · intro y
      choose g hg using hσ.2
      exact ⟨fun j => g (y j), by funext j; exact hg _⟩
  · constructor
    · intro x y h
      funext j
      have := congrFun h j
      dsimp only at this
      by_cases hj : j.val = 0
      · rw [if_pos hj, if_pos hj] at this; exact hσ.1 this
      · rwa [if_neg hj, if_neg hj] at this
    · intro y
      choose g hg using hσ.2
      refine ⟨fun j => if j.val = 0 then g (y j) else y j, ?_⟩
      funext j
      by_cases hj : j.val = 0
      · simp only [hj, if_true]; exact hg _
      · simp only [hj, if_false]

theorem mix_bij (m : Nat → Nat → F) (N : Matrix (Fin (n + 1)) (Fin (n + 1)) F) (h : N * mat m = 1) : Function.Bijective (mix (t := n + 1) m) := by
  have h' : mat m * N = 1 := mul_eq_one_comm.mp h
  constructor
  · intro x y e
    rw [mix_eq, mix_eq] at e
    have := congrArg (fun v => N *ᵥ v) e
    simpa [mulVec_mulVec, h] using this
  · intro y
    exact ⟨N *ᵥ y, by rw [mix_eq, mulVec_mulVec, h', one_mulVec]⟩

/-- **The plain permutation is a bijection of the states** when the power map is one and the matrix is invertible. -/
theorem plainPerm_bij {σ : F → F} (hσ : Function.Bijective σ) (c : Nat → F) (m : Nat → Nat → F) (N : Matrix (Fin (n + 1)) (Fin (n + 1)) F)
    (h : N * mat m = 1) (nf np : Nat) : Function.Bijective (plainPerm (t := n + 1) σ c m nf np) := by
  have key : ∀ k, Function.Bijective (loop (plainRound (t := n + 1) σ c m nf np) k) := by
    intro k
    induction k with
    | zero => exact Function.bijective_id
    | succ k ih =>
      have : loop (plainRound (t := n + 1) σ c m nf np) (k + 1) =
          mix m ∘ sboxAt σ nf np k ∘ addC c (k * (n + 1)) ∘ loop (plainRound (t := n + 1) σ c m nf np) k := rfl
      rw [this]
      exact (mix_bij m N h).comp ((sboxAt_bij hσ nf np k).comp ((addC_bij c _).comp ih))
  exact key _

/-- powers that are invertible modulo `p - 1` -/
theorem pow_bij (p : Nat) [hp : Fact p.Prime] (k e q : Nat) (h : k * e = (p - 1) * q + 1) : Function.Bijective fun x : ZMod p => x ^ k := by
  rw [← Finite.injective_iff_bijective]
  have inv : ∀ x : ZMod p, (x ^ k) ^ e = x := by
    intro x
    rw [← pow_mul, h]
    by_cases hx : x = 0
    · subst hx; simp
    · rw [pow_succ, pow_mul, ZMod.pow_card_sub_one_eq_one hx, one_pow, one_mul]
  intro x y hxy
  have hxy' : x ^ k = y ^ k := hxy
  rw [← inv x, hxy', inv y]

theorem invOk_sound (p : Nat) [CharP F p] (mInv mo m : List (List Nat)) (h : invOk p mInv n mo = true) (ht : ∀ i < n + 1, ∀ j < n + 1, at2 mo j i = at2 m i j) :
    (mat (entry F mInv) * mat (entry F m) : Matrix (Fin (n + 1)) (Fin (n + 1)) F) = 1 := by
  simp only [invOk, Bool.and_eq_true, beq_iff_eq] at h
  obtain ⟨⟨⟨⟨h1, h2⟩, h3⟩, h4⟩, h5⟩ := h
  funext i j
  have := List.all_eq_true.mp h5 j (List.mem_range.mpr (by omega))
  rw [beq_iff_eq] at this
  have e := matVec_get p mInv (n + 1) h2 (mo.getD j []) (rect_get h4 j (by omega)) i (by omega) (F := F)
  rw [this] at e
  rw [Matrix.mul_apply]
  have e' : ((((List.range (n + 1)).map fun i => if i = j.val then 1 else 0).getD i 0 : Nat) : F) = (1 : Matrix (Fin (n + 1)) (Fin (n + 1)) F) i j := by
    rw [List.getD_eq_getElem?_getD, List.getElem?_map, List.getElem?_range (by omega)]
    simp only [Option.map_some, Option.getD_some, Matrix.one_apply, Fin.ext_iff]
    split <;> simp
  rw [← e', e]
  refine Finset.sum_congr rfl fun k _ => ?_
  show _ * ((at2 m k j : Nat) : F) = _
  rw [← ht k (by omega) j (by omega)]
  rfl

/-- **The optimized permutation is a bijection of the states**: any width whose tables pass both checks. -/
theorem optPerm_bij (p : Nat) [CharP F p] {σ : F → F} (hσ : Function.Bijective σ) (T : Table) (h np : Nat) (hh : 0 < h) (c m mInv : List (List Nat))
    (hk : T.check p n h np c m = true) (hi : invOk p mInv n T.m = true) : Function.Bijective (optPerm (t := n + 1) σ (T.opt F) h np) := by
  have hC := check_sound p T h np hh c m hk (F := F)
  have : optPerm (t := n + 1) σ (T.opt F) h np = plainPerm σ (flat F c) (entry F m) (2 * h) np := by
    funext x
    exact optPerm_eq_plain σ _ _ _ h np hh hC x
  rw [this]
  refine plainPerm_bij hσ _ _ (mat (entry F mInv)) (invOk_sound p mInv T.m m hi ?_) _ _
  simp only [Table.check, Bool.and_eq_true] at hk
  intro i hi j hj
  have := List.all_eq_true.mp hk.1.1.1.1.1.1.2 i (List.mem_range.mpr hi)
  have := List.all_eq_true.mp this j (List.mem_range.mpr hj)
  simpa using this

end Verif.Poseidon
