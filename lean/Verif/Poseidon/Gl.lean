import Verif.Poseidon.Bij
import Verif.GL.Prime
import Verif.Poseidon.GlConst
import Verif.Plonk.CustomProps
import Verif.Hash.LinearProps

/-!
# The native Poseidon over Goldilocks is the textbook permutation, which is the one of the circuit
-/
namespace Verif.Poseidon.Gl
open Verif.GL (F MODULUS)
open Verif.Plonk (CPOSEIDON)
open Verif.Plonk.Custom (mds mdsAt posRound Kind)

/-- the permutation of `Poseidon::hash`, starky/src/poseidon_opt.rs L80-200, on the state as a list: 8 full and 22 partial rounds -/
def permGl (l : List F) : List F := List.ofFn (optPerm pow7 (opt.opt F) 4 22 fun i : Fin 12 => l.getD i 0)

/-- the constants of round `j` of the circuit -/
def roundC (j k : Nat) : F := ((CPOSEIDON.getD (j * 12 + k) 0 : Nat) : F)

/-- **Specification**: the states of the textbook permutation (4 full, 22 partial, 4 full rounds; round constants of
recursion/src/compressor12/constants.rs, matrix of the circuit) -/
def textbook (x : Nat → F) : Nat → Nat → F
  | 0 => x
  | j + 1 => posRound (decide (j < 4 ∨ 26 ≤ j)) (roundC j) (textbook x j)

/-- the round constants, one round per row -/
def cRows : List (List Nat) := (List.range 31).map fun r => (CPOSEIDON.drop (12 * r)).take 12

theorem cRows_flatten : cRows.flatten = CPOSEIDON := by decide +kernel

/-- **The tables load and have the sizes that the code reads**: no constant reaches the modulus. -/
theorem tables_ok : opt.sized 11 4 22 = true ∧ opt.below MODULUS = true := by decide +kernel

theorem check_ok : opt.check MODULUS 11 4 22 cRows mds = true := by decide +kernel

theorem compat : Compat 11 (opt.opt F) (flat F cRows) (entry F mds) 4 22 := check_sound MODULUS opt 4 22 (by norm_num) cRows mds check_ok

theorem plain_textbook (x : Nat → F) (j : Nat) (hj : j ≤ 30) (i : Fin 12) :
    loop (plainRound pow7 (flat F cRows) (entry F mds) 8 22) j (fun i : Fin 12 => x i) i = textbook x j i := by
  induction j generalizing i with
  | zero => rfl
  | succ j ih =>
    rw [loop_succ]
    simp only [textbook, posRound, plainRound, mix, sboxAt, addC]
    rw [Finset.sum_range]
    refine Finset.sum_congr rfl fun k _ => ?_
    have hc : flat F cRows (j * 12 + k) = roundC j k := by
      simp only [flat, cRows_flatten]
      rfl
    have he : entry F mds i k = mdsAt i k := rfl
    by_cases hf : j < 4 ∨ 26 ≤ j
    · rw [if_pos (by omega), if_pos (by simp [hf]), he]
      simp only [sboxAll, addC]
      rw [pow7_eq, ih (by omega), hc]
    · rw [if_neg (by omega)]
      by_cases hk : k.val = 0
      · rw [if_pos hk, if_pos (Or.inr hk), he, pow7_eq, ih (by omega), hc]
      · rw [if_neg hk, if_neg (by simp [hf, hk]), he, ih (by omega), hc]

/-- **The optimized native permutation is the textbook one**, for every state. -/
theorem permGl_textbook (l : List F) : permGl l = (List.range 12).map (textbook (fun i => l.getD i 0) 30) := by
  unfold permGl
  rw [optPerm_eq_plain pow7 (opt.opt F) (flat F cRows) (entry F mds) 4 22 (by norm_num) compat]
  apply List.ext_getElem
  · simp
  · intro i h1 h2
    simp only [List.getElem_ofFn, List.getElem_map, List.getElem_range, plainPerm]
    exact plain_textbook (fun i => l.getD i 0) 30 le_rfl ⟨i, by simpa using h1⟩

/-- the permutation keeps twelve elements, which the linear hash and the Merkle tree (C24-C28) assume -/
theorem isState : Linear.IsState permGl := by intro s _; simp [permGl]

/-- **`Poseidon::hash`**: with 8 inputs and 4 capacity elements it returns the first `out` elements of the textbook permutation. -/
theorem hash_textbook (inp init : List F) (hi : inp.length = 8) (hs : init.length = 4) (out : Nat) :
    Linear.poseidonHash permGl inp init out = some (((List.range 12).map (textbook (fun i => (inp ++ init).getD i 0) 30)).take out) := by
  unfold Linear.poseidonHash
  rw [if_pos ⟨hi, hs⟩, permGl_textbook]

theorem sat_textbook (y : Nat → F) (hy : (Kind.poseidon12).Sat y) (j : Nat) (hj : j ≤ 30) (i : Nat) (hi : i < 12) : y (j * 12 + i) = textbook y j i := by
  induction j generalizing i with
  | zero => simp [textbook]
  | succ j ih =>
    rw [hy j (by omega) i hi]
    simp only [textbook, posRound]
    refine Finset.sum_congr rfl fun k hk => ?_
    have hk' := Finset.mem_range.mp hk
    rw [ih (by omega) k hk']
    rfl

theorem textbook_congr (x x' : Nat → F) (h : ∀ i < 12, x i = x' i) (j i : Nat) (hi : i < 12) : textbook x j i = textbook x' j i := by
  induction j generalizing i with
  | zero => exact h i hi
  | succ j ih =>
    simp only [textbook, posRound]
    refine Finset.sum_congr rfl fun k hk => ?_
    rw [ih k (Finset.mem_range.mp hk)]

/-- **The circuit computes the native hash**: signals that satisfy the `Poseidon12` gate of the recursion circuit carry, in the last state, the hash
of the first state. -/
theorem circuit_hash (y : Nat → F) (hy : (Kind.poseidon12).Sat y) :
    Linear.poseidonHash permGl ((List.range 8).map y) ((List.range 4).map fun i => y (8 + i)) 4 = some ((List.range 4).map fun i => y (360 + i)) := by
  rw [hash_textbook _ _ (by simp) (by simp)]
  refine congrArg some (List.ext_getElem (by simp) ?_)
  · intro i h1 h2
    have hi : i < 4 := by simpa using h2
    simp only [List.getElem_take, List.getElem_map, List.getElem_range]
    rw [show 360 + i = 30 * 12 + i by omega, sat_textbook y hy 30 le_rfl i (by omega)]
    apply textbook_congr _ _ _ _ _ (by omega)
    intro k hk
    rw [List.getD_eq_getElem?_getD]
    by_cases h8 : k < 8
    · rw [List.getElem?_append_left (by simpa using h8)]; simp [h8]
    · rw [List.getElem?_append_right (by simpa using h8)]
      simp only [List.length_map, List.length_range]
      rw [List.getElem?_map, List.getElem?_range (by omega)]
      simp only [Option.map_some, Option.getD_some]
      congr 1; omega

/-- **Every input can be hashed in the circuit**: the gate is satisfiable for every first state. -/
theorem circuit_complete (x : Nat → F) : ∃ y, (Kind.poseidon12).Sat y ∧ ∀ i < 12, y i = x i := by
  refine ⟨fun k => textbook x (k / 12) (k % 12), ?_, ?_⟩
  · intro j hj i hi
    show textbook x (((j + 1) * 12 + i) / 12) (((j + 1) * 12 + i) % 12) = _
    rw [show ((j + 1) * 12 + i) / 12 = j + 1 by omega, show ((j + 1) * 12 + i) % 12 = i by omega]
    simp only [textbook, posRound]
    refine Finset.sum_congr rfl fun k hk => ?_
    have hk' := Finset.mem_range.mp hk
    rw [show (j * 12 + k) / 12 = j by omega, show (j * 12 + k) % 12 = k by omega]
    rfl
  · intro i hi
    show textbook x (i / 12) (i % 12) = _
    rw [show i / 12 = 0 by omega, show i % 12 = i by omega]
    rfl

theorem inv_ok : invOk MODULUS mInv 11 opt.m = true := by decide +kernel

/-- `x ↦ x^7` permutes the field: 7 is invertible modulo `p - 1` -/
theorem pow7_bij : Function.Bijective (pow7 : F → F) := by
  have : (pow7 : F → F) = fun x => x ^ 7 := by funext x; exact pow7_eq x
  rw [this]
  exact pow_bij MODULUS 7 10540996611094048183 4 (by decide +kernel)

theorem optPerm_gl_bij : Function.Bijective (optPerm (t := 12) pow7 (opt.opt F) 4 22) :=
  optPerm_bij MODULUS pow7_bij opt 4 22 (by norm_num) cRows mds mInv check_ok inv_ok

/-- **No two states of twelve elements have the same image.** -/
theorem permGl_inj (l l' : List F) (hl : l.length = 12) (hl' : l'.length = 12) (h : permGl l = permGl l') : l = l' := by
  have := congrFun (optPerm_gl_bij.1 (List.ofFn_injective h))
  apply List.ext_getElem (by omega)
  intro i h1 h2
  have := this ⟨i, by omega⟩
  simpa [List.getD_eq_getElem?_getD, h1, h2] using this

/-- **Every state of twelve elements is an image.** -/
theorem permGl_surj (y : List F) (hy : y.length = 12) : ∃ l, l.length = 12 ∧ permGl l = y := by
  obtain ⟨x, hx⟩ := optPerm_gl_bij.2 fun i => y.getD i 0
  refine ⟨List.ofFn x, by simp, ?_⟩
  have : (fun i : Fin 12 => (List.ofFn x).getD i 0) = x := by
    funext i
    rw [List.getD_eq_getElem?_getD, List.getElem?_ofFn]
    simp
  unfold permGl
  rw [this, hx]
  apply List.ext_getElem
  · rw [List.length_ofFn, hy]
  · intro i h1 h2
    rw [List.getElem_ofFn]
    simp [List.getD_eq_getElem?_getD, h2]

/-- **Twelve outputs of `Poseidon::hash` determine its inputs.** -/
theorem hash_inj (inp inp' init init' : List F) (hi : inp.length = 8) (hs : init.length = 4)
    (h : Linear.poseidonHash permGl inp' init' 12 = Linear.poseidonHash permGl inp init 12) : inp = inp' ∧ init = init' := by
  have h1 : Linear.poseidonHash permGl inp init 12 = some ((permGl (inp ++ init)).take 12) := by unfold Linear.poseidonHash; rw [if_pos ⟨hi, hs⟩]
  have h2 := h.trans h1
  unfold Linear.poseidonHash at h2
  split at h2
  · next hc =>
    injection h2 with h2
    rw [List.take_of_length_le (by simp [permGl]), List.take_of_length_le (by simp [permGl])] at h2
    have := permGl_inj _ _ (by simp [hc.1, hc.2]) (by simp [hi, hs]) h2
    have := List.append_inj this.symm (by omega)
    exact this
  · cases h2

/-- the test vector `test_poseidon_opt_hash_all_0`, starky/src/poseidon_opt.rs L219-231 -/
example : Linear.poseidonHash permGl (List.replicate 8 0) (List.replicate 4 0) 4 =
    some [0x3c18a9786cb0b359, 0xc4055e3364a246c3, 0x7953db0ab48808f4, 0xc71603f33a1144ca] := by decide +kernel

end Verif.Poseidon.Gl
