import Verif.Fri.Model
import Verif.FFT.Props
import Mathlib.Algebra.Polynomial.Eval.Degree
set_option linter.unusedSectionVars false

namespace Verif.Fri
open FFT Finset Polynomial

variable {G A Root Path Tree T : Type} [Field A] [DecidableEq A]

/-- the values of a group: indices `y, y + n, y + 2n, ..` -/
def group (pol : List A) (nX n y : Nat) : List A := (List.range nX).map fun i => pol.getD (i * n + y) 0

theorem group_length (pol : List A) (nX n y : Nat) : (group pol nX n y).length = nX := by simp [group]

theorem group_get (pol : List A) {nX : Nat} (n y : Nat) {i : Nat} (h : i < nX) : (group pol nX n y).getD i 0 = pol.getD (i * n + y) 0 := by
  simp [group, h]

/-- `Roots` for all levels below -/
theorem Roots.mono {mg : Nat → A} {k k' : Nat} (h : Roots mg k) (hk : k' ≤ k) : Roots mg k' :=
  ⟨h.zero, fun s hs => h.sq s (by omega), fun s hs => h.half s (by omega)⟩

theorem list_ext_getD {l m : List A} (h : l.length = m.length) (hv : ∀ i < l.length, l.getD i 0 = m.getD i 0) : l = m := by
  apply List.ext_getElem h
  intro i h1 h2
  have := hv i h1
  rwa [List.getD_eq_getElem _ _ h1, List.getD_eq_getElem _ _ h2] at this

theorem ifftC_some {mg : Nat → A} {k : Nat} (hw : Roots mg k) (hk : k < 32) (p : List A) (hp : p.length = 2 ^ k) :
    ∃ c, ifftC mg p = some c ∧ c.length = 2 ^ k := by
  obtain ⟨l, r, h, hl, _⟩ := ifft_formula hw hk (fun _ => []) p hp
  exact ⟨l, by rw [ifftC, h]; rfl, by rw [hl, hp]⟩

theorem ifftC_unique {mg : Nat → A} {k : Nat} (hw : Roots mg k) (hk : k < 32) (h2 : (2 : A) ≠ 0) (p c : List A)
    (hp : p.length = 2 ^ k) (hc : c.length = 2 ^ k)
    (h : ∀ i < 2 ^ k, p.getD i 0 = ∑ j ∈ range (2 ^ k), c.getD j 0 * mg k ^ (i * j)) : ifftC mg p = some c := by
  obtain ⟨l, r, h1, h3, h4⟩ := fft_spec hw hk (fun _ => []) c hc
  obtain ⟨q, r2, h5, r3, h6⟩ := ifft_fft hw hk h2 (fun _ => []) (fun _ => []) c hc
  rw [h1] at h5
  obtain ⟨rfl, rfl⟩ := Prod.mk.inj (Option.some.inj h5)
  have : p = l := by
    apply list_ext_getD (by rw [hp, h3, hc])
    intro i hi
    rw [hp] at hi
    rw [h i hi, h4 i (by rw [hc]; exact hi), hc]
  rw [ifftC, this, h6]; rfl

theorem ifftC_values {mg : Nat → A} {k : Nat} (hw : Roots mg k) (hk : k < 32) (h2 : (2 : A) ≠ 0) (p : List A)
    (hp : p.length = 2 ^ k) :
    ∃ c, ifftC mg p = some c ∧ c.length = 2 ^ k ∧ ∀ i < 2 ^ k, p.getD i 0 = ∑ j ∈ range (2 ^ k), c.getD j 0 * mg k ^ (i * j) := by
  obtain ⟨c, r, h1, r2, h3⟩ := fft_ifft hw hk h2 (fun _ => []) (fun _ => []) p hp
  obtain ⟨l, r', h, hl, _⟩ := ifft_formula hw hk (fun _ => []) p hp
  rw [h1] at h
  obtain ⟨rfl, rfl⟩ := Prod.mk.inj (Option.some.inj h)
  obtain ⟨l, r4, h4, h5, h6⟩ := fft_spec hw hk (fun _ => []) c (by rw [hl, hp])
  rw [h3] at h4
  obtain ⟨rfl, rfl⟩ := Prod.mk.inj (Option.some.inj h4)
  refine ⟨c, by rw [ifftC, h1]; rfl, by rw [hl, hp], fun i hi => ?_⟩
  have := h6 i (by rw [hl, hp]; exact hi)
  rw [hl, hp] at this
  exact this

theorem sqN_eq (n : Nat) (s : A) : sqN n s = s ^ 2 ^ n := by
  induction n generalizing s with
  | zero => simp [sqN]
  | succ n ih => rw [sqN, ih, ← pow_two, ← pow_mul, pow_succ, mul_comm]

theorem foldGroup_eq {mg : Nat → A} {k : Nat} (hw : Roots mg k) (hk : k < 32) (pol : List A) (pol2N g : Nat) (sinv x : A) :
    ∃ c, ifftC mg (group pol (2 ^ k) pol2N g) = some c ∧ foldGroup mg pol pol2N (2 ^ k) g sinv x = some (evalPol c (x * sinv)) := by
  obtain ⟨c, hc, _⟩ := ifftC_some hw hk (group pol (2 ^ k) pol2N g) (group_length _ _ _ _)
  refine ⟨c, hc, ?_⟩
  unfold foldGroup
  rw [show (List.range (2 ^ k)).map (fun i => pol.getD (i * pol2N + g) 0) = group pol (2 ^ k) pol2N g from rfl, hc, Option.map_some,
    polMulAxi_spec, one_mul, mul_comm]

theorem layerLoop_eq {mg : Nat → A} {k : Nat} (hw : Roots mg k) (hk : k < 32) (pol : List A) (pol2N : Nat) (wi x : A) (n g : Nat)
    (sinv : A) :
    ∃ l, layerLoop mg pol pol2N (2 ^ k) wi x n g sinv = some l ∧ l.length = n ∧
      ∀ i < n, ∃ c, ifftC mg (group pol (2 ^ k) pol2N (g + i)) = some c ∧ l.getD i 0 = evalPol c (x * (sinv * wi ^ i)) := by
  induction n generalizing g sinv with
  | zero => exact ⟨[], rfl, rfl, by omega⟩
  | succ n ih =>
    obtain ⟨c, hc, hf⟩ := foldGroup_eq hw hk pol pol2N g sinv x
    obtain ⟨l, h1, h2, h3⟩ := ih (g + 1) (sinv * wi)
    refine ⟨_ :: l, by rw [layerLoop, hf, Option.bind_some, h1]; rfl, by simp [h2], ?_⟩
    intro i hi
    cases i with
    | zero => exact ⟨c, hc, by simp⟩
    | succ i =>
      obtain ⟨c', hc', hv⟩ := h3 i (by omega)
      refine ⟨c', by rw [← hc']; congr 2; omega, ?_⟩
      rw [List.getD_cons_succ, hv, pow_succ]
      congr 2; ring

theorem pow_div {a b : Nat} (h : b ≤ a) : 2 ^ a / 2 ^ b = 2 ^ (a - b) := Nat.pow_div h (by decide)

/-- A folding layer: never fails on power-of-two layers; entry `g` is the value the verifier computes from group `g`. -/
theorem layer_eq {mg : Nat → A} {polBits nb : Nat} (hw : Roots mg polBits) (hpb : polBits < 32) (hnb : nb ≤ polBits)
    (pol : List A) (hp : pol.length = 2 ^ polBits) (shift x : A) :
    ∃ l, layer mg false pol polBits nb shift⁻¹ x = some l ∧ l.length = 2 ^ nb ∧
      ∀ g < 2 ^ nb, ∃ c, ifftC mg (group pol (2 ^ (polBits - nb)) (2 ^ nb) g) = some c ∧
        l.getD g 0 = evalPol c (x * (shift * mg polBits ^ g)⁻¹) := by
  have e1 : pol.length / 2 ^ nb = 2 ^ (polBits - nb) := by rw [hp, pow_div hnb]
  have e2 : pol.length / 2 ^ (polBits - nb) = 2 ^ nb := by
    rw [hp, pow_div (by omega)]; congr 1; omega
  obtain ⟨l, h1, h2, h3⟩ := layerLoop_eq (Roots.mono hw (show polBits - nb ≤ polBits by omega)) (by omega) pol (2 ^ nb)
    (mg polBits)⁻¹ x (2 ^ nb) 0 shift⁻¹
  refine ⟨l, ?_, h2, fun g hg => ?_⟩
  · unfold layer
    simp only []
    rw [e1, if_neg (by positivity), if_neg (by simp), e2, h1]
  · obtain ⟨c, hc, hv⟩ := h3 g hg
    rw [Nat.zero_add] at hc
    refine ⟨c, hc, ?_⟩
    rw [hv, inv_pow, mul_inv]

theorem layer_first {mg : Nat → A} {polBits : Nat} (pol : List A) (hp : pol.length = 2 ^ polBits) (sinv x : A) :
    layer mg true pol polBits polBits sinv x = some pol := by
  unfold layer
  simp only []
  have : pol.length / 2 ^ polBits = 1 := by rw [hp]; exact Nat.div_self (by positivity)
  rw [this, if_neg (by decide), if_pos trivial, Nat.div_one]
  congr 1
  apply list_ext_getD (by simp)
  intro i hi
  have hi' : i < pol.length := by simpa using hi
  simp [hi']

/-- Folding of a polynomial: coefficient `k` is `Σ_{j<n} x^j p_{kn+j}`. -/
noncomputable def foldPoly (n : Nat) (x : A) (P : A[X]) : A[X] :=
  ∑ k ∈ range (P.natDegree + 1), monomial k (∑ j ∈ range n, x ^ j * P.coeff (k * n + j))

theorem foldPoly_coeff {n : Nat} (hn : 0 < n) (x : A) (P : A[X]) (k : Nat) :
    (foldPoly n x P).coeff k = ∑ j ∈ range n, x ^ j * P.coeff (k * n + j) := by
  unfold foldPoly
  rw [finsetSum_coeff]
  simp only [coeff_monomial]
  rw [Finset.sum_ite_eq' (range (P.natDegree + 1)) k]
  split_ifs with h
  · rfl
  · symm
    apply Finset.sum_eq_zero
    intro j _
    rw [coeff_eq_zero_of_natDegree_lt, mul_zero]
    have : k ≤ k * n := Nat.le_mul_of_pos_right k hn
    simp only [mem_range] at h
    omega

theorem foldPoly_natDegree {n : Nat} (hn : 0 < n) (x : A) (P : A[X]) {D : Nat} (h : P.natDegree ≤ D) :
    (foldPoly n x P).natDegree ≤ D / n := by
  apply natDegree_le_iff_coeff_eq_zero.mpr
  intro k hk
  rw [foldPoly_coeff hn]
  apply Finset.sum_eq_zero
  intro j _
  rw [coeff_eq_zero_of_natDegree_lt, mul_zero]
  have : D < k * n := (Nat.div_lt_iff_lt_mul hn).mp hk
  omega

theorem sum_block (f : Nat → A) (n m : Nat) : ∑ i ∈ range (m * n), f i = ∑ k ∈ range m, ∑ j ∈ range n, f (k * n + j) := by
  induction m with
  | zero => simp
  | succ m ih => rw [Nat.succ_mul, Finset.sum_range_add, ih, Finset.sum_range_succ]

theorem eval_block {n : Nat} (hn : 0 < n) (P : A[X]) (z : A) :
    P.eval z = ∑ j ∈ range n, z ^ j * ∑ k ∈ range (P.natDegree + 1), P.coeff (k * n + j) * (z ^ n) ^ k := by
  rw [eval_eq_sum_range' (n := (P.natDegree + 1) * n) (by
    have := Nat.le_mul_of_pos_right (P.natDegree + 1) hn; omega), sum_block, Finset.sum_comm]
  apply Finset.sum_congr rfl
  intro j _
  rw [Finset.mul_sum]
  apply Finset.sum_congr rfl
  intro k _
  rw [pow_add, ← pow_mul, mul_comm n k]; ring

theorem foldPoly_eval {n : Nat} (x : A) (P : A[X]) (y : A) :
    (foldPoly n x P).eval y = ∑ j ∈ range n, x ^ j * ∑ k ∈ range (P.natDegree + 1), P.coeff (k * n + j) * y ^ k := by
  unfold foldPoly
  rw [eval_finsetSum]
  simp only [eval_monomial, Finset.sum_mul, Finset.mul_sum]
  rw [Finset.sum_comm]
  apply Finset.sum_congr rfl
  intro j _
  apply Finset.sum_congr rfl
  intro k _
  ring

/-- The group of evaluations of `P` at the points `u ζ^i`, interpolated and evaluated at `x / u`, is the folded polynomial
at `u^n`. -/
theorem fold_value {mg : Nat → A} {k : Nat} (hw : Roots mg k) (hk : k < 32) (h2 : (2 : A) ≠ 0) (P : A[X]) (u x : A) (hu : u ≠ 0)
    (p : List A) (hp : p.length = 2 ^ k) (hv : ∀ i < 2 ^ k, p.getD i 0 = P.eval (u * mg k ^ i)) :
    ∃ c, ifftC mg p = some c ∧ evalPol c (x * u⁻¹) = (foldPoly (2 ^ k) x P).eval (u ^ 2 ^ k) := by
  have hζ : mg k ^ 2 ^ k = 1 := (Roots.primitive hw h2).pow_eq_one
  let c : List A := (List.range (2 ^ k)).map fun j =>
    u ^ j * ∑ m ∈ range (P.natDegree + 1), P.coeff (m * 2 ^ k + j) * (u ^ 2 ^ k) ^ m
  have hcl : c.length = 2 ^ k := by simp [c]
  have hcg : ∀ j < 2 ^ k, c.getD j 0 = u ^ j * ∑ m ∈ range (P.natDegree + 1), P.coeff (m * 2 ^ k + j) * (u ^ 2 ^ k) ^ m := by
    intro j hj; simp [c, hj]
  refine ⟨c, ifftC_unique hw hk h2 p c hp hcl ?_, ?_⟩
  · intro i hi
    rw [hv i hi, eval_block (n := 2 ^ k) (by positivity)]
    apply Finset.sum_congr rfl
    intro j hj
    rw [hcg j (mem_range.mp hj), mul_pow, mul_pow, ← pow_mul (mg k) i (2 ^ k), mul_comm i (2 ^ k), pow_mul (mg k), hζ, one_pow,
      mul_one, ← pow_mul]
    ring
  · rw [evalPol_spec, hcl, foldPoly_eval]
    apply Finset.sum_congr rfl
    intro j hj
    rw [hcg j (mem_range.mp hj), mul_pow, inv_pow]
    field_simp

theorem mg_pow_level {mg : Nat → A} {k : Nat} (hw : Roots mg k) (d : Nat) (hd : d ≤ k) : mg k ^ 2 ^ d = mg (k - d) := by
  induction d with
  | zero => simp
  | succ d ih =>
    rw [pow_succ, pow_mul, ih (by omega)]
    have := hw.sq (k - (d + 1)) (by omega)
    rw [show k - (d + 1) + 1 = k - d by omega] at this
    exact this

end Verif.Fri
