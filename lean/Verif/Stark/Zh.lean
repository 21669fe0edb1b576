import Verif.Stark.Model
import Verif.FFT.Props
import Verif.FFT.Instances

/-!
# `build_Zh_Inv` (C36) and `calculate_Z` (C38)
-/
namespace Verif.Stark
open FFT Finset

variable {A : Type} [Field A]

theorem sqTimes_eq (n : Nat) (s : A) : sqTimes n s = s ^ 2 ^ n := by
  induction n generalizing s with
  | zero => simp [sqTimes]
  | succ n ih => rw [sqTimes, ih, ← pow_two, ← pow_mul, pow_succ, mul_comm]

theorem zhLoop_spec (sn m : A) (n : Nat) : ∀ w, (zhLoop sn m n w).length = n ∧
    ∀ i < n, (zhLoop sn m n w).getD i 0 = (sn * (w * m ^ i) - 1)⁻¹ := by
  induction n with
  | zero => intro w; exact ⟨rfl, by omega⟩
  | succ n ih =>
    intro w
    obtain ⟨h1, h2⟩ := ih (w * m)
    refine ⟨by simp [zhLoop, h1], fun i hi => ?_⟩
    cases i with
    | zero => simp [zhLoop]
    | succ i => rw [zhLoop, List.getD_cons_succ, h2 i (by omega), pow_succ']; ring_nf

theorem Roots.pow_two {mg : Nat → A} {a b : Nat} (hw : Roots mg (a + b)) : mg (a + b) ^ 2 ^ a = mg b := by
  induction a with
  | zero => simp
  | succ a ih =>
    have hw' : Roots mg (a + b) := ⟨hw.zero, fun s hs => hw.sq s (by omega), fun s hs => hw.half s (by omega)⟩
    rw [show a + 1 + b = a + b + 1 by omega, _root_.pow_succ', pow_mul, hw.sq (a + b) (by omega), ih hw']

/-- C36: at the point `x = shift * w^(i + offset)` of the extended coset (`w` the root of order `2^(nBits + extend_bits)`),
the function returned by `build_Zh_Inv` is the inverse of `x^N - 1`, `N = 2^nBits`, whenever the coset avoids the
`N`-th roots of unity. -/
theorem zhInv_spec {mg : Nat → A} {nBits ext : Nat} (hw : Roots mg (nBits + ext)) (shift : A)
    (hsh : ∀ j, (shift * mg (nBits + ext) ^ j) ^ 2 ^ nBits ≠ 1) (offset i : Nat) :
    zhInv mg shift nBits ext offset i * ((shift * mg (nBits + ext) ^ (i + offset)) ^ 2 ^ nBits - 1) = 1 := by
  unfold zhInv
  dsimp only
  obtain ⟨h1, h2⟩ := zhLoop_spec (sqTimes nBits shift) (mg ext) (2 ^ ext) 1
  have hroot : mg ext ^ 2 ^ ext = 1 := by
    have hw0 : Roots mg (ext + 0) := ⟨hw.zero, fun s hs => hw.sq s (by omega), fun s hs => hw.half s (by omega)⟩
    have := Roots.pow_two hw0
    rwa [Nat.add_zero, hw.zero] at this
  rw [h1, h2 _ (Nat.mod_lt _ (by positivity)), sqTimes_eq, one_mul, ← pow_eq_pow_mod _ hroot]
  have he : shift ^ 2 ^ nBits * mg ext ^ (i + offset) = (shift * mg (nBits + ext) ^ (i + offset)) ^ 2 ^ nBits := by
    rw [mul_pow, ← pow_mul, mul_comm (i + offset), pow_mul, Roots.pow_two hw]
  rw [he]
  exact inv_mul_cancel₀ (sub_ne_zero.mpr (hsh _))

/-- C36 for the code's table, shift and field, without side condition, for every size up to `2^32`. -/
theorem zhInv_K {nBits ext : Nat} (h : nBits + ext ≤ 32) (offset i : Nat) :
    zhInv mgK shiftK nBits ext offset i * ((shiftK * mgK (nBits + ext) ^ (i + offset)) ^ 2 ^ nBits - 1) = 1 :=
  zhInv_spec (rootsK h) shiftK (fun j => Roots.coset_avoids_subgroup_ext (by omega) h j) offset i

/-- non-vacuity -/
example : zhInv mgK shiftK 10 1 2 5 * ((shiftK * mgK 11 ^ 7) ^ 1024 - 1) = 1 := zhInv_K (nBits := 10) (ext := 1) (by decide) 2 5

/-! ### C38 -/

theorem zLoop_spec (ps : List (A × A)) : ∀ z, (zLoop ps z).1.length = ps.length ∧
    (zLoop ps z).2 = z * (ps.map fun p => p.1 * p.2).prod ∧
    ∀ i < ps.length, (zLoop ps z).1.getD i 0 = z * ((ps.take i).map fun p => p.1 * p.2).prod := by
  induction ps with
  | nil => intro z; exact ⟨rfl, by simp [zLoop], by simp⟩
  | cons p ps ih =>
    intro z
    obtain ⟨h1, h2, h3⟩ := ih (z * (p.1 * p.2))
    obtain ⟨n, d⟩ := p
    refine ⟨by simp [zLoop, h1], by simp only [zLoop, h2, List.map_cons, List.prod_cons]; ring, fun i hi => ?_⟩
    cases i with
    | zero => simp [zLoop]
    | succ i =>
      simp only [zLoop, List.getD_cons_succ, List.take_succ_cons, List.map_cons, List.prod_cons]
      rw [h3 i (by simpa using hi)]; ring

theorem prod_zip_inv (num den : List A) (hl : num.length = den.length) :
    ((num.zip (den.map (·⁻¹))).map fun p => p.1 * p.2).prod = num.prod * (den.prod)⁻¹ := by
  induction num generalizing den with
  | nil => cases den with
    | nil => simp
    | cons => simp at hl
  | cons a num ih =>
    cases den with
    | nil => simp at hl
    | cons b den =>
      simp only [List.map_cons, List.zip_cons_cons, List.prod_cons, ih den (by simpa using hl), mul_inv]; ring

theorem calculateZ_ok [DecidableEq A] (num den : List A) (hl : num.length = den.length) (hne : num ≠ []) (hd : ∀ d ∈ den, d ≠ 0)
    (hp : num.prod = den.prod) :
    ∃ z, calculateZ num den = some z ∧ z.length = num.length ∧
      ∀ i < num.length, z.getD i 0 = (((num.zip (den.map (·⁻¹))).take i).map fun p => p.1 * p.2).prod := by
  have hprod : den.prod ≠ 0 := List.prod_ne_zero (fun h => hd 0 h rfl)
  obtain ⟨h1, h2, h3⟩ := zLoop_spec (num.zip (den.map (·⁻¹))) 1
  have hzl : (num.zip (den.map (·⁻¹))).length = num.length := by simp [hl]
  refine ⟨(zLoop (num.zip (den.map (·⁻¹))) 1).1, ?_, by rw [h1, hzl], fun i hi => by rw [h3 i (by omega), one_mul]⟩
  unfold calculateZ
  rw [if_neg (by simp [hl]), if_neg (by simpa using hne), batchInverse_spec den hd]
  dsimp only
  rw [h2, one_mul, prod_zip_inv num den hl, hp, mul_inv_cancel₀ hprod, if_pos rfl]

/-- C38: with nonzero denominators `calculate_Z` succeeds exactly when the two products agree, and then the returned
column starts at 1 and satisfies, on every row and cyclically (the last row links back to the first),
`z[i+1] * den[i] = z[i] * num[i]`. -/
theorem calculateZ_spec [DecidableEq A] (num den : List A) (hl : num.length = den.length) (hne : num ≠ []) (hd : ∀ d ∈ den, d ≠ 0) :
    ((∃ z, calculateZ num den = some z) ↔ num.prod = den.prod) ∧
      ∀ z, calculateZ num den = some z → z.length = num.length ∧ z.getD 0 0 = 1 ∧
        ∀ i < num.length, z.getD ((i + 1) % num.length) 0 * den.getD i 0 = z.getD i 0 * num.getD i 0 := by
  have hprod : den.prod ≠ 0 := List.prod_ne_zero (fun h => hd 0 h rfl)
  have hpos : 0 < num.length := List.length_pos_iff.mpr hne
  have hsucc : (∃ z, calculateZ num den = some z) → num.prod = den.prod := by
    rintro ⟨z, hz⟩
    unfold calculateZ at hz
    rw [if_neg (by simp [hl]), if_neg (by simpa using hne), batchInverse_spec den hd] at hz
    dsimp only at hz
    split_ifs at hz with h
    rw [(zLoop_spec _ 1).2.1, one_mul, prod_zip_inv num den hl] at h
    field_simp at h
    exact h
  refine ⟨⟨hsucc, fun h => (calculateZ_ok num den hl hne hd h).imp fun z hz => hz.1⟩, fun z hz => ?_⟩
  obtain ⟨z', h1, h2, h3⟩ := calculateZ_ok num den hl hne hd (hsucc ⟨z, hz⟩)
  rw [hz] at h1
  obtain rfl := Option.some.inj h1
  refine ⟨h2, by rw [h3 0 hpos]; simp, fun i hi => ?_⟩
  have hdi : den.getD i 0 ≠ 0 := by
    rw [List.getD_eq_getElem?_getD, List.getElem?_eq_getElem (by omega)]
    exact hd _ (List.getElem_mem _)
  have hzi : (num.zip (den.map (·⁻¹)))[i]? = some (num.getD i 0, (den.getD i 0)⁻¹) := by
    rw [List.getElem?_zip_eq_some]
    simp [List.getD_eq_getElem?_getD, List.getElem?_eq_getElem hi, List.getElem?_eq_getElem (show i < den.length by omega)]
  have hstep : (((num.zip (den.map (·⁻¹))).take (i + 1)).map fun p => p.1 * p.2).prod
      = z.getD i 0 * (num.getD i 0 * (den.getD i 0)⁻¹) := by
    rw [h3 i hi, List.take_add_one, hzi]; simp
  by_cases hlast : i + 1 < num.length
  · rw [Nat.mod_eq_of_lt hlast, h3 _ hlast, hstep]; field_simp
  · have he : i + 1 = num.length := by omega
    rw [he, Nat.mod_self, h3 0 hpos]
    have hall : (((num.zip (den.map (·⁻¹))).take (i + 1)).map fun p => p.1 * p.2).prod = 1 := by
      rw [List.take_of_length_le (by simp [hl]; omega), prod_zip_inv num den hl, hsucc ⟨z, hz⟩, mul_inv_cancel₀ hprod]
    rw [hall] at hstep
    simp only [List.take_zero, List.map_nil, List.prod_nil, one_mul]
    field_simp at hstep
    rw [hstep]

/-- C38: a zero denominator anywhere makes it panic, whatever the numerators. -/
theorem calculateZ_zero_den [DecidableEq A] (num den : List A) (h0 : (0 : A) ∈ den) : calculateZ num den = none := by
  unfold calculateZ
  split_ifs with h1 h2
  · rfl
  · rfl
  · dsimp only
    rw [batchInverse_zero den h0, (zLoop_spec _ 1).2.1, if_neg]
    obtain ⟨a, num, rfl⟩ := List.exists_cons_of_ne_nil (List.length_pos_iff.mp (Nat.pos_of_ne_zero h2))
    obtain ⟨b, den, rfl⟩ := List.exists_cons_of_ne_nil (List.ne_nil_of_mem h0)
    simp [List.replicate_succ]

/-- non-vacuity -/
example : calculateZ [(2 : ℚ), 3, 5] [5, 2, 3] = some [1, 2 / 5, 3 / 5] := by
  norm_num [calculateZ, batchInverse, prefixProds, backLoop, zLoop]
example : calculateZ [(2 : ℚ), 3, 5] [5, 2, 4] = none := by
  norm_num [calculateZ, batchInverse, prefixProds, backLoop, zLoop]

end Verif.Stark
