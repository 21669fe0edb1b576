import Verif.Poseidon.Model
import Mathlib.Data.Matrix.Mul
import Mathlib.LinearAlgebra.Matrix.Notation
import Mathlib.Tactic.LinearCombination

/-!
# When the optimized form of Poseidon computes the plain one

The identities between the tables (`Compat`) and the proof that they suffice, for every power map and every state.
-/
namespace Verif.Poseidon
open Matrix

variable {F : Type} [CommRing F] {n : Nat}

/-- rows and columns 1.. of the mixing matrix, 1 in the corner -/
def lowD (m : Nat → Nat → F) : Matrix (Fin (n + 1)) (Fin (n + 1)) F := fun i j => if i.val = 0 ∨ j.val = 0 then (if i.val = j.val then 1 else 0) else m i j

/-- the sparse matrix of partial round `r` -/
def sparse (s : Nat → F) (r : Nat) : Matrix (Fin (n + 1)) (Fin (n + 1)) F := fun i j =>
  if i.val = 0 then s (((n + 1) * 2 - 1) * r + j) else if j.val = 0 then s (((n + 1) * 2 - 1) * r + (n + 1) + i - 1) else if i = j then 1 else 0

/-- the mixing matrix -/
def mat (m : Nat → Nat → F) : Matrix (Fin (n + 1)) (Fin (n + 1)) F := fun i j => m i j

/-- a block of `n + 1` constants -/
def blk (c : Nat → F) (k : Nat) : Fin (n + 1) → F := fun i => c (k + i)

/-- **The identities between the optimized tables and the plain ones**; `e r` is the constant that the optimized state carries before partial
round `r`. -/
structure Compat (n : Nat) (K : Opt F) (c : Nat → F) (m : Nat → Nat → F) (h np : Nat) : Prop where
  trans : ∀ i j : Fin (n + 1), K.m j i = m i j
  start : ∀ i : Fin (n + 1), K.c i = c i
  first : ∀ r < h - 1, mat m *ᵥ blk K.c ((r + 1) * (n + 1)) = (blk c ((r + 1) * (n + 1)) : Fin (n + 1) → F)
  pre : ∀ i j : Fin (n + 1), K.p j i = (lowD m ^ np * mat m : Matrix (Fin (n + 1)) (Fin (n + 1)) F) i j
  chain : ∀ r, r + 1 < np → sparse K.s r * lowD m = (lowD m * sparse K.s (r + 1) : Matrix (Fin (n + 1)) (Fin (n + 1)) F)
  last : ∀ r, r + 1 = np → sparse K.s r * lowD m = (mat m : Matrix (Fin (n + 1)) (Fin (n + 1)) F)
  carry : ∃ e : Nat → Fin (n + 1) → F, (∀ r < np, e r 0 = 0) ∧ e np = 0 ∧ mat m *ᵥ blk K.c (h * (n + 1)) = blk c (h * (n + 1)) + e 0 ∧
    ∀ r < np, mat m *ᵥ (Function.update (e r) 0 (K.c ((h + 1) * (n + 1) + r))) = blk c ((h + r + 1) * (n + 1)) + e (r + 1)
  final : ∀ r < h - 1, mat m *ᵥ blk K.c ((h + 1) * (n + 1) + np + r * (n + 1)) = (blk c ((h + np + r + 1) * (n + 1)) : Fin (n + 1) → F)

theorem loop_succ {X : Type} (f : Nat → X → X) (k : Nat) (x : X) : loop f (k + 1) x = f k (loop f k x) := rfl

theorem mulT_eq (K : Nat → Nat → F) (m : Nat → Nat → F) (h : ∀ i j : Fin (n + 1), K j i = m i j) (x : Fin (n + 1) → F) : mulT K x = mat m *ᵥ x := by
  funext i
  simp only [mulT, mulVec, dotProduct, mat]
  exact Finset.sum_congr rfl fun j _ => by rw [h i j]

theorem mix_eq (m : Nat → Nat → F) (x : Fin (n + 1) → F) : mix m x = mat m *ᵥ x := mulT_eq (fun j i => m i j) m (fun _ _ => rfl) x

theorem addC_eq (c : Nat → F) (k : Nat) (x : Fin (n + 1) → F) : addC c k x = x + blk c k := rfl

theorem lowD_row (m : Nat → Nat → F) (k : Nat) (x : Fin (n + 1) → F) : ((lowD m ^ k) *ᵥ x) 0 = x 0 := by
  induction k generalizing x with
  | zero => simp
  | succ k ih =>
    rw [pow_succ, ← mulVec_mulVec, ih]
    simp [mulVec, dotProduct, lowD, Fin.sum_univ_succ]

theorem lowD_single (m : Nat → Nat → F) (a : F) : (lowD m : Matrix (Fin (n + 1)) (Fin (n + 1)) F) *ᵥ Pi.single 0 a = Pi.single 0 a := by
  funext i
  simp only [mulVec, dotProduct, Pi.single_apply, mul_ite, mul_zero, Finset.sum_ite_eq', Finset.mem_univ, if_true]
  by_cases hi : i = 0
  · simp [hi, lowD]
  · simp [hi, lowD]

theorem lowD_pow_single (m : Nat → Nat → F) (k : Nat) (a : F) :
    (lowD m ^ k : Matrix (Fin (n + 1)) (Fin (n + 1)) F) *ᵥ Pi.single 0 a = Pi.single 0 a := by
  induction k with
  | zero => rw [pow_zero, one_mulVec]
  | succ k ih => rw [pow_succ, ← mulVec_mulVec, lowD_single, ih]

theorem update_eq (x : Fin (n + 1) → F) (a : F) : Function.update x 0 a = x + Pi.single 0 (a - x 0) := by
  funext i
  by_cases hi : i = 0
  · subst hi; simp
  · simp [hi]

theorem lowD_update (m : Nat → Nat → F) (k : Nat) (x : Fin (n + 1) → F) (a : F) :
    Function.update ((lowD m ^ k) *ᵥ x) 0 a = (lowD m ^ k) *ᵥ Function.update x 0 a := by
  rw [update_eq, update_eq, mulVec_add, lowD_pow_single, lowD_row]

theorem partialOpt_eq (σ : F → F) (K : Opt F) (h r : Nat) (x : Fin (n + 1) → F) :
    partialOpt σ K h r x = sparse K.s r *ᵥ Function.update x 0 (σ (x 0) + K.c ((h + 1) * (n + 1) + r)) := by
  funext i
  simp only [partialOpt, mulVec, dotProduct, sparse]
  by_cases hi : i = 0
  · subst hi
    simp only [Fin.val_zero, if_true]
    refine Finset.sum_congr rfl fun j _ => ?_
    by_cases hj : j = 0
    · subst hj; simp
    · have : j.val ≠ 0 := fun h => hj (Fin.ext h)
      rw [if_neg this, Function.update_of_ne hj]
  · have hi' : i.val ≠ 0 := fun h => hi (Fin.ext h)
    simp only [hi', if_false]
    rw [Finset.sum_eq_add (0 : Fin (n + 1)) i (Ne.symm hi)]
    · rw [Function.update_self, Function.update_of_ne hi]
      simp only [Fin.val_zero, if_true, hi', if_false, one_mul]
      show _ + _ * (σ (x 0) + _) = _
      ring
    · intro j _ hj
      have : j.val ≠ 0 := fun h => hj.1 (Fin.ext h)
      rw [if_neg this, if_neg (Ne.symm hj.2), zero_mul]
    · simp
    · simp

theorem chain_pow {K : Opt F} {c : Nat → F} {m : Nat → Nat → F} {h np : Nat} (H : Compat n K c m h np) (k r : Nat) (hr : r + k + 1 = np) :
    sparse K.s r * lowD m ^ (k + 1) = (lowD m ^ k * mat m : Matrix (Fin (n + 1)) (Fin (n + 1)) F) := by
  induction k generalizing r with
  | zero => rw [pow_one, pow_zero, one_mul, H.last r (by omega)]
  | succ k ih =>
    rw [pow_succ' _ (k + 1), ← Matrix.mul_assoc, H.chain r (by omega), Matrix.mul_assoc, ih (r + 1) (by omega), ← Matrix.mul_assoc, ← pow_succ']

/-- the plain form after its first `i` rounds -/
theorem plain_full (σ : F → F) (c : Nat → F) (m : Nat → Nat → F) (h np i : Nat) (hi : i < h ∨ i ≥ h + np) (x : Fin (n + 1) → F) :
    plainRound σ c m (2 * h) np i x = mat m *ᵥ sboxAll σ (x + blk c (i * (n + 1))) := by
  unfold plainRound
  rw [mix_eq, sboxAt, if_pos (by omega), addC_eq]

theorem plain_part (σ : F → F) (c : Nat → F) (m : Nat → Nat → F) (h np i : Nat) (h1 : h ≤ i) (h2 : i < h + np) (x : Fin (n + 1) → F) :
    plainRound σ c m (2 * h) np i x = mat m *ᵥ Function.update (x + blk c (i * (n + 1))) 0 (σ ((x + blk c (i * (n + 1)) : Fin (n + 1) → F) 0)) := by
  unfold plainRound
  rw [mix_eq, sboxAt, if_neg (by omega), addC_eq]
  congr 1
  funext j
  by_cases hj : j = 0
  · subst hj; simp
  · have : j.val ≠ 0 := fun h => hj (Fin.ext h)
    rw [if_neg this, Function.update_of_ne hj]

/-- **The optimized permutation is the plain one**, for every power map, as soon as the tables satisfy the identities. -/
theorem optPerm_eq_plain (σ : F → F) (K : Opt F) (c : Nat → F) (m : Nat → Nat → F) (h np : Nat) (hh : 0 < h) (H : Compat n K c m h np)
    (x : Fin (n + 1) → F) : optPerm σ K h np x = plainPerm σ c m (2 * h) np x := by
  obtain ⟨e, e0, en, eh, er⟩ := H.carry
  set R := plainRound (t := n + 1) σ c m (2 * h) np with hR
  -- first full rounds
  have s1 : ∀ k ≤ h - 1, loop (fun r x => mulT K.m (addC K.c ((r + 1) * (n + 1)) (sboxAll σ x))) k (addC K.c 0 x) = loop R k x + blk c (k * (n + 1)) := by
    intro k
    induction k with
    | zero =>
      intro _
      simp only [loop, addC_eq]
      congr 1
      funext i
      simp [blk, H.start i]
    | succ k ih =>
      intro hk
      simp only [loop]
      rw [ih (by omega), mulT_eq _ m H.trans, addC_eq, mulVec_add, H.first k (by omega), hR, plain_full σ c m h np k (by omega)]
  -- the dense matrix
  have s2 : mulT K.p (addC K.c ((h - 1 + 1) * (n + 1)) (sboxAll σ (loop R (h - 1) x + blk c ((h - 1) * (n + 1))))) =
      (lowD m ^ np) *ᵥ (loop R h x + blk c (h * (n + 1)) + e 0) := by
    have hp : ∀ y : Fin (n + 1) → F, mulT K.p y = (lowD m ^ np * mat m) *ᵥ y := by
      intro y
      funext i
      simp only [mulT, mulVec, dotProduct]
      exact Finset.sum_congr rfl fun j _ => by rw [H.pre i j]
    rw [hp, ← mulVec_mulVec, addC_eq, mulVec_add, show h - 1 + 1 = h by omega, eh]
    congr 1
    have : loop R h x = R (h - 1) (loop R (h - 1) x) := by
      conv_lhs => rw [show h = h - 1 + 1 by omega]
      rfl
    rw [this, hR, plain_full σ c m h np (h - 1) (by omega), add_assoc]
  -- partial rounds
  have s3 : ∀ k ≤ np, loop (partialOpt σ K h) k ((lowD m ^ np) *ᵥ (loop R h x + blk c (h * (n + 1)) + e 0)) =
      (lowD m ^ (np - k)) *ᵥ (loop R (h + k) x + blk c ((h + k) * (n + 1)) + e k) := by
    intro k
    induction k with
    | zero => intro _; simp [loop]
    | succ k ih =>
      intro hk
      rw [loop_succ (partialOpt σ K h), ih (by omega), partialOpt_eq, lowD_row, lowD_update, mulVec_mulVec, show np - k = (np - (k + 1)) + 1 by omega,
        chain_pow H (np - (k + 1)) k (by omega), ← mulVec_mulVec]
      congr 1
      have hu : ∀ (w : Fin (n + 1) → F) (z cc : F), w 0 = w 0 → Function.update (w + e k) 0 (z + cc) = Function.update w 0 z + Function.update (e k) 0 cc := by
        intro w z cc _
        funext i
        by_cases hi : i = 0
        · subst hi; simp
        · simp [hi]
      rw [hu _ _ _ rfl, mulVec_add, er k (by omega)]
      rw [show h + (k + 1) = h + k + 1 by omega]
      rw [loop_succ R (h + k), hR, plain_part σ c m h np (h + k) (by omega) (by omega)]
      rw [← add_assoc]
      congr 4
      rw [Pi.add_apply, e0 k (by omega), add_zero]
  -- last full rounds
  have s4 : ∀ k ≤ h - 1, loop (fun r x => mulT K.m (addC K.c ((h + 1) * (n + 1) + np + r * (n + 1)) (sboxAll σ x))) k
      (loop R (h + np) x + blk c ((h + np) * (n + 1))) = loop R (h + np + k) x + blk c ((h + np + k) * (n + 1)) := by
    intro k
    induction k with
    | zero => intro _; rfl
    | succ k ih =>
      intro hk
      rw [loop_succ (fun r x => mulT K.m _), ih (by omega), mulT_eq _ m H.trans, addC_eq, mulVec_add, H.final k (by omega)]
      rw [show h + np + (k + 1) = h + np + k + 1 from rfl, loop_succ R (h + np + k), hR, plain_full σ c m h np (h + np + k) (by omega)]
  simp only [optPerm]
  rw [s1 (h - 1) le_rfl, s2, s3 np le_rfl, Nat.sub_self, pow_zero, one_mulVec, en, add_zero, s4 (h - 1) le_rfl, mulT_eq _ m H.trans]
  unfold plainPerm
  rw [← hR, show 2 * h + np = h + np + (h - 1) + 1 by omega]
  have : loop R (h + np + (h - 1) + 1) x = R (h + np + (h - 1)) (loop R (h + np + (h - 1)) x) := rfl
  rw [this, hR, plain_full σ c m h np (h + np + (h - 1)) (by omega)]

end Verif.Poseidon
