import Verif.Gadget.GL
import Verif.Poseidon.Bls

/-!
# Poseidon in the circuit: poseidon.circom against poseidon_bls12381_opt.rs

The tables `POSEIDON_C`, `POSEIDON_S`, `POSEIDON_M`, `POSEIDON_P` of poseidon_constants.circom are number for number those of
poseidon_bls12381_constants_opt.rs for every width (compared outside Lean by a script); the model reads the tables of `Verif.Poseidon.Bls`.
-/
namespace Verif.Gadget
open Verif.Poseidon (Bls Opt loop addC sboxAll mulT partialOpt optPerm pow5)

section
variable {R : Type} [CommRing R] {t : Nat}

/-- `Sigma`, poseidon.circom L5-16 -/
def Sigma (i o : R) : Prop := ∃ in2 in4, in2 = i * i ∧ in4 = in2 * in2 ∧ o = in4 * i

/-- `Ark(t, C, r)`, poseidon.circom L18-25 -/
def Ark (c : Nat → R) (k : Nat) (i o : Fin t → R) : Prop := ∀ j : Fin t, o j = i j + c (j + k)

/-- `Mix(t, M)`, poseidon.circom L27-39 -/
def Mix (m : Nat → Nat → R) (i o : Fin t → R) : Prop := ∀ a : Fin t, o a = ∑ j : Fin t, m j a * i j

/-- `MixLast(t, M, s)`, poseidon.circom L41-50 -/
def MixLast (m : Nat → Nat → R) (s : Nat) (i : Fin t → R) (o : R) : Prop := o = ∑ j : Fin t, m j s * i j

/-- `MixS(t, S, r)`, poseidon.circom L52-66 -/
def MixS (s : Nat → R) (k : Nat) (i o : Fin t → R) : Prop :=
  ∀ a : Fin t, o a = if a.val = 0 then ∑ j : Fin t, s ((t * 2 - 1) * k + j) * i j else i a + i ⟨0, a.pos⟩ * s ((t * 2 - 1) * k + t + a - 1)

/-- the body of `PoseidonEx`, poseidon.circom L73-187, with `nRoundsF = 8`, `nRoundsP = np`, the tables `K` and the state
`x = (initialState, inputs)`; the functions are the output signals of the components -/
def PoseidonCore (K : Opt R) (np nOuts : Nat) (x : Fin t → R) (out : Nat → R) : Prop :=
  ∃ (ark sigmaF mix mixS : Nat → Fin t → R) (sigmaP : Nat → R),
    Ark K.c 0 x (ark 0) ∧
    (∀ k < 3, (∀ j, Sigma (if k = 0 then ark 0 j else mix (k - 1) j) (sigmaF k j)) ∧ Ark K.c ((k + 1) * t) (sigmaF k) (ark (k + 1)) ∧
      Mix K.m (ark (k + 1)) (mix k)) ∧
    (∀ j, Sigma (mix 2 j) (sigmaF 3 j)) ∧ Ark K.c (4 * t) (sigmaF 3) (ark 4) ∧ Mix K.p (ark 4) (mix 3) ∧
    (∀ k < np, (∀ j : Fin t, j.val = 0 → Sigma (if k = 0 then mix 3 j else mixS (k - 1) j) (sigmaP k)) ∧
      MixS K.s k (fun j => if j.val = 0 then sigmaP k + K.c ((4 + 1) * t + k) else if k = 0 then mix 3 j else mixS (k - 1) j) (mixS k)) ∧
    (∀ k < 3, (∀ j, Sigma (if k = 0 then mixS (np - 1) j else mix (4 + k - 1) j) (sigmaF (4 + k) j)) ∧
      Ark K.c ((4 + 1) * t + np + k * t) (sigmaF (4 + k)) (ark (4 + k + 1)) ∧ Mix K.m (ark (4 + k + 1)) (mix (4 + k))) ∧
    (∀ j, Sigma (mix 6 j) (sigmaF 7 j)) ∧
    ∀ i < nOuts, MixLast K.m i (sigmaF 7) (out i)

theorem sigma_iff (i o : R) : Sigma i o ↔ o = pow5 i := by
  constructor
  · rintro ⟨a, b, rfl, rfl, rfl⟩; rfl
  · rintro rfl; exact ⟨_, _, rfl, rfl, rfl⟩

theorem ark_iff (c : Nat → R) (k : Nat) (i o : Fin t → R) : Ark c k i o ↔ o = addC c k i := by
  simp only [Ark, funext_iff, addC, Nat.add_comm k]

theorem mix_iff (m : Nat → Nat → R) (i o : Fin t → R) : Mix m i o ↔ o = mulT m i := by
  simp only [Mix, funext_iff, mulT]

theorem sigmas_iff (i o : Fin t → R) : (∀ j, Sigma (i j) (o j)) ↔ o = sboxAll pow5 i := by
  simp only [sigma_iff, funext_iff, sboxAll]

/-- one full round -/
theorem round_iff (K : Opt R) (m : Nat → Nat → R) (k : Nat) (i s a o : Fin t → R) :
    ((∀ j, Sigma (i j) (s j)) ∧ Ark K.c k s a ∧ Mix m a o) ↔ s = sboxAll pow5 i ∧ a = addC K.c k s ∧ o = mulT m a := by
  rw [sigmas_iff, ark_iff, mix_iff]

/-- one partial round -/
theorem partial_sound (K : Opt R) (k : Nat) (x o : Fin t → R) (s : R) (hs : ∀ j : Fin t, j.val = 0 → Sigma (x j) s)
    (h : MixS K.s k (fun j => if j.val = 0 then s + K.c ((4 + 1) * t + k) else x j) o) : o = partialOpt pow5 K 4 k x := by
  funext a
  rw [h a, partialOpt]
  have e := fun (j : Fin t) hj => (sigma_iff _ _).mp (hs j hj)
  by_cases ha : a.val = 0
  · rw [if_pos ha, if_pos ha]
    refine Finset.sum_congr rfl fun j _ => ?_
    by_cases hj : j.val = 0
    · simp only [hj, if_true]; rw [e j hj]
    · simp only [hj, if_false]
  · rw [if_neg ha, if_neg ha]
    simp only [ha, if_false, if_true]
    rw [e ⟨0, a.pos⟩ rfl, mul_comm]

theorem partial_complete (K : Opt R) (k : Nat) (x : Fin t → R) (s : R) (hs : ∀ j : Fin t, j.val = 0 → s = pow5 (x j)) :
    (∀ j : Fin t, j.val = 0 → Sigma (x j) s) ∧
      MixS K.s k (fun j => if j.val = 0 then s + K.c ((4 + 1) * t + k) else x j) (partialOpt pow5 K 4 k x) := by
  refine ⟨fun j hj => (sigma_iff _ _).mpr (hs j hj), fun a => ?_⟩
  rw [partialOpt]
  by_cases ha : a.val = 0
  · rw [if_pos ha, if_pos ha]
    refine Finset.sum_congr rfl fun j _ => ?_
    by_cases hj : j.val = 0
    · simp only [hj, if_true]; rw [hs j hj]
    · simp only [hj, if_false]
  · rw [if_neg ha, if_neg ha]
    simp only [ha, if_false, if_true]
    rw [hs ⟨0, a.pos⟩ rfl, mul_comm]

/-- the round of the first half -/
def rnd (K : Opt R) (k : Nat) (x : Fin t → R) : Fin t → R := mulT K.m (addC K.c k (sboxAll pow5 x))

theorem optPerm_unroll (K : Opt R) (np : Nat) (x : Fin t → R) : optPerm pow5 K 4 np x =
    mulT K.m (sboxAll pow5 (rnd K ((4 + 1) * t + np + 2 * t) (rnd K ((4 + 1) * t + np + 1 * t) (rnd K ((4 + 1) * t + np + 0 * t)
      (loop (partialOpt pow5 K 4) np (mulT K.p (addC K.c (4 * t) (sboxAll pow5
        (rnd K ((2 + 1) * t) (rnd K ((1 + 1) * t) (rnd K ((0 + 1) * t) (addC K.c 0 x))))))))))))  := rfl

/-- **The circuit computes the optimized permutation**: its constraints hold for some assignment of the internal signals exactly when every output is the
element of the permuted state -/
theorem poseidonCore_iff (K : Opt R) {np : Nat} (hnp : 0 < np) {nOuts : Nat} (ho : nOuts ≤ t) (x : Fin t → R) (out : Nat → R) :
    PoseidonCore K np nOuts x out ↔ ∀ i (h : i < nOuts), out i = optPerm pow5 K 4 np x ⟨i, by omega⟩ := by
  rw [optPerm_unroll]
  constructor
  · rintro ⟨ark, sF, mx, mS, sP, h0, h1, h2, h3, h4, h5, h6, h7, h8⟩ i hi
    rw [ark_iff] at h0
    have R1 : ∀ k < 3, mx k = rnd K ((k + 1) * t) (if k = 0 then ark 0 else mx (k - 1)) := by
      intro k hk
      obtain ⟨a1, a2, a3⟩ := (round_iff K K.m ((k + 1) * t) (fun j => if k = 0 then ark 0 j else mx (k - 1) j) _ _ _).mp (h1 k hk)
      rw [a3, a2, a1, rnd]
      by_cases h : k = 0
      · simp [h]
      · simp [h]
    have M0 := R1 0 (by omega)
    have M1 := R1 1 (by omega)
    have M2 := R1 2 (by omega)
    rw [sigmas_iff] at h2 h7
    rw [ark_iff] at h3
    rw [mix_iff] at h4
    have B : ∀ k, k < np → mS k = loop (partialOpt pow5 K 4) (k + 1) (mx 3) := by
      intro k
      induction k with
      | zero =>
        intro hk
        obtain ⟨g1, g2⟩ := h5 0 hk
        simp only [if_true] at g1 g2
        exact partial_sound K 0 (mx 3) (mS 0) (sP 0) g1 g2
      | succ k ih =>
        intro hk
        obtain ⟨g1, g2⟩ := h5 (k + 1) hk
        simp only [Nat.add_one_ne_zero, if_false, Nat.add_sub_cancel] at g1 g2
        rw [loop, ← ih (by omega)]
        exact partial_sound K (k + 1) (mS k) (mS (k + 1)) (sP (k + 1)) g1 g2
    have B' := B (np - 1) (by omega)
    rw [show np - 1 + 1 = np by omega] at B'
    have R2 : ∀ k < 3, mx (4 + k) = rnd K ((4 + 1) * t + np + k * t) (if k = 0 then mS (np - 1) else mx (4 + k - 1)) := by
      intro k hk
      obtain ⟨a1, a2, a3⟩ := (round_iff K K.m ((4 + 1) * t + np + k * t) (fun j => if k = 0 then mS (np - 1) j else mx (4 + k - 1) j) _ _ _).mp (h6 k hk)
      rw [a3, a2, a1, rnd]
      by_cases h : k = 0
      · simp [h]
      · simp [h]
    have M4 := R2 0 (by omega)
    have M5 := R2 1 (by omega)
    have M6 := R2 2 (by omega)
    have := h8 i hi
    rw [MixLast] at this
    simp only [Nat.one_ne_zero, if_false, if_true, Nat.reduceAdd, Nat.reduceSub, OfNat.ofNat_ne_zero] at M0 M1 M2 M4 M5 M6
    rw [this, mulT, ← h0]
    simp only [Nat.reduceAdd]
    rw [← M0, ← M1, ← M2, ← h2, ← h3, ← h4, ← B', ← M4, ← M5, ← M6, ← h7]
  · intro h
    let y0 := addC K.c 0 x
    let m3 := mulT K.p (addC K.c (4 * t) (sboxAll pow5 (loop (fun k => rnd K ((k + 1) * t)) 3 y0)))
    let mS : Nat → Fin t → R := fun k => loop (partialOpt pow5 K 4) (k + 1) m3
    let mx : Nat → Fin t → R := fun k => if k < 3 then loop (fun k => rnd K ((k + 1) * t)) (k + 1) y0 else if k = 3 then m3
      else loop (fun k => rnd K ((4 + 1) * t + np + k * t)) (k - 3) (mS (np - 1))
    let sF : Nat → Fin t → R := fun k => sboxAll pow5 (if k = 0 then y0 else if k = 4 then mS (np - 1) else mx (k - 1))
    let ark : Nat → Fin t → R := fun k => if k = 0 then y0 else addC K.c (if k ≤ 4 then k * t else (4 + 1) * t + np + (k - 5) * t) (sF (k - 1))
    let sP : Nat → R := fun k => if ht : 0 < t then pow5 (if k = 0 then m3 ⟨0, ht⟩ else mS (k - 1) ⟨0, ht⟩) else 0
    have hmx3 : mx 3 = m3 := rfl
    refine ⟨ark, sF, mx, mS, sP, ?_, ?_, ?_, ?_, ?_, ?_, ?_, ?_, ?_⟩
    · rw [ark_iff]; rfl
    · intro k hk
      refine (round_iff K K.m ((k + 1) * t) (fun j => if k = 0 then ark 0 j else mx (k - 1) j) _ _ _).mpr ⟨?_, ?_, ?_⟩
      · interval_cases k <;> rfl
      · interval_cases k <;> rfl
      · interval_cases k <;> rfl
    · rw [sigmas_iff]; rfl
    · rw [ark_iff]; rfl
    · rw [mix_iff]; rfl
    · intro k hk
      cases k with
      | zero =>
        simp only [if_true]
        refine partial_complete K 0 (mx 3) (sP 0) fun j hj => ?_
        have : j = ⟨0, j.pos⟩ := Fin.ext hj
        simp only [sP, dif_pos j.pos, if_true, hmx3]
        rw [this]
      | succ k =>
        simp only [Nat.add_one_ne_zero, if_false, Nat.add_sub_cancel]
        refine partial_complete K (k + 1) (mS k) (sP (k + 1)) fun j hj => ?_
        have : j = ⟨0, j.pos⟩ := Fin.ext hj
        simp only [sP, dif_pos j.pos, Nat.add_one_ne_zero, if_false, Nat.add_sub_cancel]
        rw [this]
    · intro k hk
      refine (round_iff K K.m ((4 + 1) * t + np + k * t) (fun j => if k = 0 then mS (np - 1) j else mx (4 + k - 1) j) _ _ _).mpr ⟨?_, ?_, ?_⟩
      · interval_cases k <;> rfl
      · interval_cases k <;> rfl
      · interval_cases k <;> rfl
    · rw [sigmas_iff]; rfl
    · intro i hi
      rw [MixLast, h i hi]
      have e : mS (np - 1) = loop (partialOpt pow5 K 4) np m3 := by
        show loop (partialOpt pow5 K 4) (np - 1 + 1) m3 = _
        rw [show np - 1 + 1 = np by omega]
      have e7 : sF 7 = sboxAll pow5 (loop (fun k => rnd K ((4 + 1) * t + np + k * t)) 3 (mS (np - 1))) := rfl
      rw [e7, e]
      rfl

end

/-! ### The widths of the repository -/

/-- `N_ROUNDS_P`, poseidon.circom L73 -/
def nRoundsP : List Nat := [55, 55, 56, 56, 56, 56, 57, 57, 57, 57, 57, 57, 57, 57, 59, 59]

/-- `PoseidonEx(nInputs, nOuts)`, poseidon.circom L68-187 -/
def PoseidonEx (n nOuts : Nat) (inputs : Nat → Bls) (initialState : Bls) (out : Nat → Bls) : Prop :=
  PoseidonCore ((Verif.Poseidon.Bls.width (n + 1)).opt.opt Bls) (nRoundsP.getD (n + 1 - 2) 0) nOuts
    (fun j : Fin (n + 1) => if j.val > 0 then inputs (j - 1) else initialState) out

/-- `Poseidon(nInputs)`, poseidon.circom L189-199 -/
def PoseidonT (n : Nat) (inputs : Nat → Bls) (out : Bls) : Prop := ∃ o, PoseidonEx n 2 inputs 0 o ∧ out = o 1

theorem nRoundsP_eq {n : Nat} (h1 : 1 ≤ n) (h16 : n ≤ 16) : nRoundsP.getD (n + 1 - 2) 0 = (Verif.Poseidon.Bls.width (n + 1)).np ∧
    0 < nRoundsP.getD (n + 1 - 2) 0 := by
  interval_cases n <;> exact ⟨rfl, by decide⟩

theorem hashInner_len {R : Type} [Zero R] (perm : (t : Nat) → (Fin t → R) → Fin t → R) (inp : List R) (init : R) (out n : Nat) (hn : inp.length = n)
    (h1 : 1 ≤ n) (h16 : n ≤ 16) (ho : out ≤ n + 1) :
    Verif.Poseidon.hashInner perm inp init out = .ok ((List.ofFn (perm (n + 1) fun j => (init :: inp).getD j 0)).take out) := by
  subst hn
  unfold Verif.Poseidon.hashInner
  rw [if_neg (by omega)]
  simp only [List.length_ofFn]
  rw [if_pos ho]
  rfl

/-- **C115** `PoseidonEx` against the native `hash_ex`: for 1 to 16 inputs and any number of outputs up to the width, the constraints hold exactly for the
outputs the native function returns -/
theorem poseidonEx_iff {n nOuts : Nat} (h1 : 1 ≤ n) (h16 : n ≤ 16) (ho : nOuts ≤ n + 1) (inputs : Nat → Bls) (init : Bls) (out : Nat → Bls) :
    PoseidonEx n nOuts inputs init out ↔
      Verif.Poseidon.Bls.hashEx ((List.range n).map inputs) init nOuts = .ok ((List.range nOuts).map out) := by
  have hx : (fun j : Fin (n + 1) => (init :: (List.range n).map inputs).getD j 0) = fun j : Fin (n + 1) => if j.val > 0 then inputs (j - 1) else init := by
    funext j
    obtain ⟨j, hj⟩ := j
    cases j with
    | zero => rfl
    | succ j =>
      dsimp only
      rw [List.getD_cons_succ, List.getD_eq_getElem?_getD, List.getElem?_map, List.getElem?_range (by omega), if_pos (by omega), Nat.add_sub_cancel]
      rfl
  rw [PoseidonEx, poseidonCore_iff _ (nRoundsP_eq h1 h16).2 ho, (nRoundsP_eq h1 h16).1, Verif.Poseidon.Bls.hashEx,
    hashInner_len _ _ _ _ n (by simp) h1 h16 ho, hx]
  rw [show optPerm pow5 ((Verif.Poseidon.Bls.width (n + 1)).opt.opt Bls) 4 (Verif.Poseidon.Bls.width (n + 1)).np =
    Verif.Poseidon.Bls.optPermT (n + 1) from rfl]
  generalize Verif.Poseidon.Bls.optPermT (n + 1) (fun j : Fin (n + 1) => if j.val > 0 then inputs (j - 1) else init) = y
  rw [Verif.Poseidon.Res.ok.injEq]
  constructor
  · intro h
    apply List.ext_getElem
    · simp only [List.length_take, List.length_ofFn, List.length_map, List.length_range]; omega
    · intro i a b
      simp only [List.length_map, List.length_range] at b
      rw [List.getElem_take, List.getElem_ofFn, List.getElem_map, List.getElem_range, h i b]
  · intro h i hi
    have := congrArg (fun l => l[i]?) h
    rw [List.getElem?_take_of_lt hi, List.getElem?_ofFn, dif_pos (by omega), List.getElem?_map, List.getElem?_range hi] at this
    simpa using this.symm

/-- the second output of `PoseidonEx(n, 2)` -/
theorem poseidonEx_second {n : Nat} (h1 : 1 ≤ n) (h16 : n ≤ 16) (inputs : Nat → Bls) (init : Bls) (x : Bls) :
    (∃ o, PoseidonEx n 2 inputs init o ∧ x = o 1) ↔ Verif.Poseidon.Bls.hash ((List.range n).map inputs) init = some x := by
  unfold Verif.Poseidon.Bls.hash
  constructor
  · rintro ⟨o, h, rfl⟩
    rw [poseidonEx_iff h1 h16 (by omega)] at h
    rw [h]
    rfl
  · intro h
    have hl : ∃ a b, Verif.Poseidon.Bls.hashEx ((List.range n).map inputs) init 2 = .ok [a, b] := by
      rw [Verif.Poseidon.Bls.hashEx, hashInner_len _ _ _ _ n (by simp) h1 h16 (by omega)]
      obtain ⟨m, rfl⟩ : ∃ m, n = m + 1 := ⟨n - 1, by omega⟩
      exact ⟨_, _, by rw [List.ofFn_succ, List.ofFn_succ]; rfl⟩
    obtain ⟨a, b, hl⟩ := hl
    rw [hl] at h
    refine ⟨fun i => if i = 0 then a else b, ?_, ?_⟩
    · rw [poseidonEx_iff h1 h16 (by omega), hl]; rfl
    · simpa using h.symm

/-- **C115** `Poseidon` against the native `hash` with initial state zero -/
theorem poseidonT_iff {n : Nat} (h1 : 1 ≤ n) (h16 : n ≤ 16) (inputs : Nat → Bls) (out : Bls) :
    PoseidonT n inputs out ↔ Verif.Poseidon.Bls.hash ((List.range n).map inputs) 0 = some out := poseidonEx_second h1 h16 inputs 0 out

/-- a satisfied instance exists for every input: four inputs -/
example : ∃ out, PoseidonT 4 (fun i => ((7 * i + 1 : Nat) : Bls)) out := by
  have h := (Verif.Poseidon.Bls.hash_some_iff ((List.range 4).map fun i => ((7 * i + 1 : Nat) : Bls)) 0).mpr ⟨by decide, by decide⟩
  obtain ⟨o, ho⟩ := Option.isSome_iff_exists.mp h
  exact ⟨o, (poseidonT_iff (by norm_num) (by norm_num) _ _).mpr ho⟩

end Verif.Gadget
