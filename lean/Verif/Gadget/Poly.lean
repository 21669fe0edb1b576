import Verif.Gadget.GLComplete
import Verif.FFT.Instances

/-!
# Polynomial evaluation and Fourier transform in the circuit: evalpol.circom and fft.circom
-/
set_option linter.unusedSectionVars false

namespace Verif.Gadget
open Verif.GL (F)

variable {r : Nat}

/-- `EvalPol(n)`, evalpol.circom L5-42; `cm (i - 1)` is the output of `cmul[i - 1]` -/
def EvalPol (n : Nat) (pol : Nat → Fin 3 → ZMod r) (x out : Fin 3 → ZMod r) : Prop :=
  ∃ cm : Nat → Fin 3 → ZMod r,
    (∀ i, 1 ≤ i → i < n → GLCMulAdd (if i = 1 then pol (n - 1) else cm (i - 2)) x (pol (n - i - 1)) (cm (i - 1))) ∧
    out = if n > 1 then cm (n - 2) else pol (n - 1)

/-- the function `roots`, fft.circom L6-43 -/
def rootsTab : List Nat := [
  1, 18446744069414584320, 281474976710656, 18446744069397807105, 17293822564807737345, 70368744161280, 549755813888, 17870292113338400769,
  13797081185216407910, 1803076106186727246, 11353340290879379826, 455906449640507599, 17492915097719143606, 1532612707718625687,
  16207902636198568418, 17776499369601055404, 6115771955107415310, 12380578893860276750, 9306717745644682924, 18146160046829613826,
  3511170319078647661, 17654865857378133588, 5416168637041100469, 16905767614792059275, 9713644485405565297, 5456943929260765144,
  17096174751763063430, 1213594585890690845, 6414415596519834757, 16116352524544190054, 9123114210336311365, 4614640910117430873,
  1753635133440165772]

/-- the variable `w`, fft.circom L55-63 -/
def fftW (nBits : Nat) (inv : Bool) : Nat := if inv then (inv1 (rootsTab.getD nBits 0)).toNat else rootsTab.getD nBits 0

/-- the variables `ws[i]`, fft.circom L57-66 -/
def fftWs (nBits : Nat) (inv : Bool) : Nat → Nat
  | 0 => if inv then (inv1 (2 ^ nBits)).toNat else 1
  | i + 1 => fftWs nBits inv i * fftW nBits inv % P

/-- the expression `sum[i][e]`, fft.circom L68-76; `inp j` is `in[j][e]` -/
def fftSum (nBits : Nat) (inv : Bool) (inp : Nat → ZMod r) (i : Nat) : ZMod r :=
  ∑ j ∈ Finset.range (2 ^ nBits), ((fftWs nBits inv ((i * j) % 2 ^ nBits) : Nat) : ZMod r) * inp j

/-- `FFT(nBits, inv)`, fft.circom L45-94 -/
def FFT (nBits : Nat) (inv : Bool) (inp out : Nat → Fin 3 → ZMod r) : Prop :=
  ∃ k : Nat → Fin 3 → ZMod r, ∀ i < 2 ^ nBits, ∀ e, Red (64 + nBits + 1) (fftSum nBits inv (fun j => inp j e) i) (k i e) (out i e)

/-! ### EvalPol -/

theorem Lift3.mono {R R' : ZMod r → F → Prop} (h : ∀ s x, R s x → R' s x) {s : Fin 3 → ZMod r} {x : Ext3.K} (hs : Lift3 R s x) : Lift3 R' s x := by
  obtain ⟨c, hc, e⟩ := hs
  exact ⟨c, fun i => h _ _ (hc i), e⟩

theorem out_rep120 {s : Fin 3 → ZMod r} {x : Ext3.K} (hs : Lift3 Out s x) : Lift3 (Rep (2 ^ 120)) s x :=
  hs.mono fun _ _ h => h.rep.mono (by norm_num)

/-- the partial sum after `i` steps of Horner's rule -/
theorem horner_step {n i : Nat} (hi : i + 1 < n) (a : Nat → Ext3.K) (ξ : Ext3.K) :
    (∑ j ∈ Finset.range (i + 1), a (n - 1 - i + j) * ξ ^ j) * ξ + a (n - (i + 1) - 1) = ∑ j ∈ Finset.range (i + 1 + 1), a (n - 1 - (i + 1) + j) * ξ ^ j := by
  rw [Finset.sum_range_succ' _ (i + 1), Finset.sum_mul]
  congr 1
  · refine Finset.sum_congr rfl fun j _ => ?_
    rw [show n - 1 - (i + 1) + (j + 1) = n - 1 - i + j by omega, pow_succ, mul_assoc]
  · rw [show n - (i + 1) - 1 = n - 1 - (i + 1) + 0 by omega, pow_zero, mul_one]

theorem evalPol_list (n : Nat) (a : Nat → Ext3.K) (ξ : Ext3.K) :
    FFT.evalPol ((List.range n).map a) ξ = ∑ j ∈ Finset.range n, a j * ξ ^ j := by
  rw [FFT.evalPol_spec]
  simp only [List.length_map, List.length_range]
  refine Finset.sum_congr rfl fun j hj => ?_
  rw [List.getD_eq_getElem?_getD, List.getElem?_map, List.getElem?_range (Finset.mem_range.mp hj)]
  rfl

/-- Soundness of `EvalPol`: with two or more coefficients, whatever the prover does, the outputs have 64 bits and stand for the value which the native
`eval_pol` computes from the coefficients and the point -/
theorem evalPol_sound [Fact r.Prime] (hr : 2 ^ 250 < r) {n : Nat} (hn : 1 < n) {pol : Nat → Fin 3 → ZMod r} {x out : Fin 3 → ZMod r} {a : Nat → Ext3.K} {ξ : Ext3.K}
    (hp : ∀ j < n, Lift3 (Rep (2 ^ 120)) (pol j) (a j)) (hx : Lift3 (Rep (2 ^ 120)) x ξ) (h : EvalPol n pol x out) :
    Lift3 Out out (FFT.evalPol ((List.range n).map a) ξ) := by
  obtain ⟨cm, hc, rfl⟩ := h
  rw [if_pos hn, evalPol_list]
  have key : ∀ i, i + 1 < n → Lift3 Out (cm i) (∑ j ∈ Finset.range (i + 1 + 1), a (n - 1 - (i + 1) + j) * ξ ^ j) := by
    intro i
    induction i with
    | zero =>
      intro hi
      have := hc 1 (le_refl _) hi
      rw [if_pos rfl] at this
      have := glCMulAdd_sound hr (hp _ (by omega)) hx (hp _ (by omega)) this
      rw [← horner_step hi]
      simpa using this
    | succ i ih =>
      intro hi
      have := hc (i + 1 + 1) (by omega) hi
      rw [if_neg (by omega)] at this
      have := glCMulAdd_sound hr (out_rep120 (ih (by omega))) hx (hp _ (by omega)) this
      rw [← horner_step hi]
      exact this
  have := key (n - 2) (by omega)
  rw [show n - 2 + 1 + 1 = n by omega, show n - 1 - (n - 2 + 1) = 0 by omega] at this
  simpa using this

/-- Completeness of `EvalPol`: for operands in the range the generator uses there is an assignment that meets the constraints, and its outputs are below
`p` -/
theorem evalPol_complete [Fact r.Prime] (hr : 2 ^ 250 < r) {n : Nat} (hn : 1 < n) {pol : Nat → Fin 3 → ZMod r} {x : Fin 3 → ZMod r} {a : Nat → Ext3.K} {ξ : Ext3.K}
    (hp : ∀ j < n, Lift3 Near (pol j) (a j)) (hx : Lift3 Near x ξ) :
    ∃ out, EvalPol n pol x out ∧ Lift3 (fun s y => s = canon y) out (FFT.evalPol ((List.range n).map a) ξ) := by
  let nxt : (Fin 3 → ZMod r) → (Fin 3 → ZMod r) → Fin 3 → ZMod r := fun u c e => oWit (kara u x e + c e + 16 * (P : ZMod r))
  let cm : Nat → Fin 3 → ZMod r := fun i => Nat.rec (nxt (pol (n - 1)) (pol (n - 2))) (fun i u => nxt u (pol (n - (i + 2) - 1))) i
  have key : ∀ i, i + 1 < n → GLCMulAdd (if i + 1 = 1 then pol (n - 1) else cm (i - 1)) x (pol (n - (i + 1) - 1)) (cm i) ∧
      Lift3 (fun s y => s = canon y) (cm i) (∑ j ∈ Finset.range (i + 1 + 1), a (n - 1 - (i + 1) + j) * ξ ^ j) := by
    intro i
    induction i with
    | zero =>
      intro hi
      rw [if_pos rfl]
      have := glCMulAdd_complete hr (hp (n - 1) (by omega)) hx (hp (n - (0 + 1) - 1) (by omega))
      refine ⟨this.1, ?_⟩
      rw [← horner_step hi]
      have h2 := this.2
      simp only [Nat.zero_add, Finset.sum_range_one, pow_zero, mul_one, Nat.sub_zero, Nat.add_zero] at h2 ⊢
      exact h2
    | succ i ih =>
      intro hi
      rw [if_neg (by omega)]
      have h1 : Lift3 Near (cm i) _ := (ih (by omega)).2.mono fun s y (h : s = canon y) => by rw [h]; exact (canon_out y).near
      have := glCMulAdd_complete hr h1 hx (hp (n - (i + 1 + 1) - 1) (by omega))
      refine ⟨this.1, ?_⟩
      rw [← horner_step hi]
      exact this.2
  refine ⟨cm (n - 2), ⟨cm, fun i h1 h2 => ?_, by rw [if_pos hn]⟩, ?_⟩
  · have := (key (i - 1) (by omega)).1
    rw [show i - 1 + 1 = i by omega, show i - 1 - 1 = i - 2 by omega] at this
    exact this
  · have := (key (n - 2) (by omega)).2
    rw [show n - 2 + 1 + 1 = n by omega, show n - 1 - (n - 2 + 1) = 0 by omega] at this
    rw [evalPol_list]
    simpa using this

/-- with one coefficient the template copies it (no reduction) -/
theorem evalPol_one (pol : Nat → Fin 3 → ZMod r) (x out : Fin 3 → ZMod r) : EvalPol 1 pol x out ↔ out = pol 0 := by
  constructor
  · rintro ⟨cm, -, h⟩; simpa using h
  · rintro rfl; exact ⟨fun _ => 0, fun i h1 h2 => by omega, by simp⟩

/-! ### FFT -/

/-- every entry of the table is the root of unity the native code uses -/
theorem rootsTab_eq {n : Nat} (hn : n ≤ 32) : ((rootsTab.getD n 0 : Nat) : F) = Roots.mg n := by
  have : ∀ d, d ≤ 32 → ((rootsTab.getD (32 - d) 0 : Nat) : F) = Roots.sqDown Roots.mgTop d := by
    intro d
    induction d with
    | zero => intro _; rw [Roots.sqDown, Roots.mgTop_val]; rfl
    | succ d ih =>
      intro hd
      rw [Roots.sqDown, ← ih (by omega), ← Nat.cast_mul]
      have : ∀ d < 32, rootsTab.getD (32 - (d + 1)) 0 % P = rootsTab.getD (32 - d) 0 * rootsTab.getD (32 - d) 0 % P := by decide +kernel
      exact (ZMod.natCast_eq_natCast_iff' _ _ _).mpr (this d (by omega))
  have := this (32 - n) (by omega)
  rwa [show 32 - (32 - n) = n by omega] at this

theorem inv1_cast {a : Nat} (h : (a : F) ≠ 0) : (((inv1 a).toNat : Nat) : F) = (a : F)⁻¹ ∧ (inv1 a).toNat < P := by
  obtain ⟨h1, h2, h3⟩ := inv1_spec a h
  have hz : (((inv1 a).toNat : ℤ)) = inv1 a := Int.toNat_of_nonneg h1
  have : Fact (Nat.Prime Verif.GL.MODULUS) := inferInstance
  refine ⟨eq_inv_of_mul_eq_one_left ?_, by have : ((inv1 a).toNat : ℤ) < P := by rw [hz]; exact h2
                                           exact_mod_cast this⟩
  rw [← h3]
  congr 1
  have : (((inv1 a).toNat : ℤ) : F) = (inv1 a : F) := by rw [hz]
  rw [← this, Int.cast_natCast]

/-- the root of unity of the transform -/
noncomputable def dir (nBits : Nat) (inv : Bool) : F := if inv then (Roots.mg nBits)⁻¹ else Roots.mg nBits

/-- the factor of the transform -/
noncomputable def scale (nBits : Nat) (inv : Bool) : F := if inv then ((2 ^ nBits : Nat) : F)⁻¹ else 1

theorem mg_pow {n : Nat} (hn : n ≤ 32) : Roots.mg n ^ 2 ^ n = 1 ∧ Roots.mg n ≠ 0 := by
  have h := (Roots.roots_mg (A := F) hn)
  have h1 : Roots.mg n ^ 2 ^ n = 1 := by
    have := (FFT.Roots.primitive h Roots.two_ne).pow_eq_one
    simpa using this
  refine ⟨h1, fun h0 => ?_⟩
  rw [h0, zero_pow (by positivity)] at h1
  exact zero_ne_one h1

theorem dir_pow {n : Nat} (hn : n ≤ 32) (inv : Bool) : dir n inv ^ 2 ^ n = 1 := by
  cases inv
  · exact (mg_pow hn).1
  · rw [dir, if_pos rfl, inv_pow, (mg_pow hn).1, inv_one]

theorem two_pow_ne (n : Nat) : ((2 ^ n : Nat) : F) ≠ 0 := by
  push_cast
  exact pow_ne_zero _ Roots.two_ne

theorem fftWs_spec {n : Nat} (hn : n ≤ 32) (inv : Bool) (i : Nat) :
    fftWs n inv i < P ∧ ((fftWs n inv i : Nat) : F) = scale n inv * dir n inv ^ i := by
  have hW : ((fftW n inv : Nat) : F) = dir n inv := by
    cases inv
    · exact rootsTab_eq hn
    · rw [fftW, if_pos rfl, dir, if_pos rfl, (inv1_cast _).1, rootsTab_eq hn]
      rw [rootsTab_eq hn]; exact (mg_pow hn).2
  induction i with
  | zero =>
    cases inv
    · exact ⟨by simp [fftWs, P], by simp [fftWs, scale]⟩
    · have := inv1_cast (two_pow_ne n)
      rw [fftWs, if_pos rfl, scale, if_pos rfl, pow_zero, mul_one]
      exact ⟨this.2, this.1⟩
  | succ i ih =>
    refine ⟨Nat.mod_lt _ (by decide), ?_⟩
    rw [fftWs, pow_succ, ← mul_assoc, ← ih.2, ← hW, ← Nat.cast_mul]
    exact ZMod.natCast_mod _ _

/-- the value of the transform at position `i` -/
noncomputable def fftVal (n : Nat) (inv : Bool) (a : Nat → F) (i : Nat) : F := ∑ j ∈ Finset.range (2 ^ n), scale n inv * dir n inv ^ (i * j) * a j

theorem dir_mod {n : Nat} (hn : n ≤ 32) (inv : Bool) (m : Nat) : dir n inv ^ (m % 2 ^ n) = dir n inv ^ m := by
  conv_rhs => rw [← Nat.div_add_mod m (2 ^ n), pow_add, pow_mul, dir_pow hn, one_pow, one_mul]

theorem fftSum_sound {n : Nat} (hn : n ≤ 32) (inv : Bool) {inp : Nat → ZMod r} {a : Nat → F} (hi : ∀ j < 2 ^ n, Rep (2 ^ 120) (inp j) (a j)) (i : Nat) :
    ∃ z : ℤ, |z| ≤ 2 ^ 249 ∧ fftSum n inv inp i = (z : ZMod r) ∧ (z : F) = fftVal n inv a i := by
  choose! z h1 h2 h3 using hi
  refine ⟨∑ j ∈ Finset.range (2 ^ n), (fftWs n inv ((i * j) % 2 ^ n) : ℤ) * z j, ?_, ?_, ?_⟩
  · refine (Finset.abs_sum_le_sum_abs _ _).trans ((Finset.sum_le_card_nsmul _ _ (2 ^ 64 * 2 ^ 120) fun j hj => ?_).trans ?_)
    · refine abs_mul_le' ?_ (h1 j (Finset.mem_range.mp hj))
      have := (fftWs_spec hn inv ((i * j) % 2 ^ n)).1
      rw [abs_of_nonneg (by positivity)]
      have hP : P < 2 ^ 64 := by decide
      exact_mod_cast (this.trans hP).le
    · rw [Finset.card_range, nsmul_eq_mul]
      have : (2 : ℤ) ^ n ≤ 2 ^ 32 := pow_le_pow_right₀ (by norm_num) hn
      push_cast
      calc (2 : ℤ) ^ n * (2 ^ 64 * 2 ^ 120) ≤ 2 ^ 32 * (2 ^ 64 * 2 ^ 120) := by nlinarith
        _ ≤ 2 ^ 249 := by norm_num
  · push_cast
    exact Finset.sum_congr rfl fun j hj => by rw [h2 j (Finset.mem_range.mp hj)]
  · push_cast
    refine Finset.sum_congr rfl fun j hj => ?_
    rw [h3 j (Finset.mem_range.mp hj), (fftWs_spec hn inv _).2, dir_mod hn]

/-- completeness for one column -/
theorem fft_col_complete [Fact r.Prime] (hr : 2 ^ 250 < r) {n : Nat} (hn : n ≤ 32) (inv : Bool) {inp : Nat → ZMod r} {a : Nat → F}
    (hi : ∀ j < 2 ^ n, Out (inp j) (a j)) (i : Nat) :
    Red (64 + n + 1) (fftSum n inv inp i) (kWit (fftSum n inv inp i)) (oWit (fftSum n inv inp i)) ∧ oWit (fftSum n inv inp i) = canon (fftVal n inv a i) := by
  choose! z h1 h2 h3 using hi
  have e : fftSum n inv inp i = ((∑ j ∈ Finset.range (2 ^ n), (fftWs n inv ((i * j) % 2 ^ n) : ℤ) * (z j : ℤ) : ℤ) : ZMod r) := by
    push_cast
    exact Finset.sum_congr rfl fun j hj => by rw [h2 j (Finset.mem_range.mp hj)]
  have f : ((∑ j ∈ Finset.range (2 ^ n), (fftWs n inv ((i * j) % 2 ^ n) : ℤ) * (z j : ℤ) : ℤ) : F) = fftVal n inv a i := by
    push_cast
    refine Finset.sum_congr rfl fun j hj => ?_
    rw [h3 j (Finset.mem_range.mp hj), (fftWs_spec hn inv _).2, dir_mod hn]
  rw [e, ← f]
  refine wit_red hr (by omega) (Finset.sum_nonneg fun j _ => by positivity) ?_
  have : ∑ j ∈ Finset.range (2 ^ n), (fftWs n inv ((i * j) % 2 ^ n) : ℤ) * (z j : ℤ) ≤ 2 ^ n * ((P : ℤ) * 2 ^ 64) := by
    refine (Finset.sum_le_card_nsmul _ _ ((P : ℤ) * 2 ^ 64) fun j hj => ?_).trans ?_
    · have g1 : ((fftWs n inv ((i * j) % 2 ^ n) : Nat) : ℤ) ≤ P := by exact_mod_cast (fftWs_spec hn inv ((i * j) % 2 ^ n)).1.le
      have g2 : ((z j : Nat) : ℤ) ≤ 2 ^ 64 := by exact_mod_cast (h1 j (Finset.mem_range.mp hj)).le
      exact mul_le_mul g1 g2 (by positivity) (by positivity)
    · rw [Finset.card_range, nsmul_eq_mul]; push_cast; exact le_refl _
  refine lt_of_le_of_lt this ?_
  rw [pow_add, pow_add]
  have h0 : (0 : ℤ) < 2 ^ n * ((P : ℤ) * 2 ^ 64) := by
    have : (0 : ℤ) < P := by decide
    positivity
  nlinarith

/-! The native transform, coordinate by coordinate -/

theorem coord_sum (s : Finset Nat) (u v w : Nat → F) :
    Ext3.coord (∑ j ∈ s, u j) (∑ j ∈ s, v j) (∑ j ∈ s, w j) = ∑ j ∈ s, Ext3.coord (u j) (v j) (w j) := by
  simp only [Ext3.coord, map_sum, Finset.sum_add_distrib, Finset.sum_mul]

theorem coord_smul (t u v w : F) : Ext3.coord (t * u) (t * v) (t * w) = algebraMap F Ext3.K t * Ext3.coord u v w := by
  simp only [Ext3.coord, map_mul]
  ring

/-- the native `fft` (`inv = false`) or `ifft` (`inv = true`) over the cubic extension -/
noncomputable def native (inv : Bool) (l : List Ext3.K) : Option (List Ext3.K) :=
  ((if inv then FFT.ifft FFT.mgK (fun _ => []) l else FFT.fft FFT.mgK (fun _ => []) l)).map (·.1)

theorem native_val {n : Nat} (hn : n < 32) (inv : Bool) (c : Nat → Fin 3 → F) :
    ∃ l, native inv ((List.range (2 ^ n)).map fun j => Ext3.coord (c j 0) (c j 1) (c j 2)) = some l ∧ l.length = 2 ^ n ∧
      ∀ i < 2 ^ n, l.getD i 0 = Ext3.coord (fftVal n inv (fun j => c j 0) i) (fftVal n inv (fun j => c j 1) i) (fftVal n inv (fun j => c j 2) i) := by
  have hlen : ((List.range (2 ^ n)).map fun j => Ext3.coord (c j 0) (c j 1) (c j 2)).length = 2 ^ n := by simp
  have hget : ∀ j < 2 ^ n, ((List.range (2 ^ n)).map fun j => Ext3.coord (c j 0) (c j 1) (c j 2)).getD j 0 = Ext3.coord (c j 0) (c j 1) (c j 2) := by
    intro j hj
    rw [List.getD_eq_getElem?_getD, List.getElem?_map, List.getElem?_range hj]; rfl
  have hv : ∀ i, Ext3.coord (fftVal n inv (fun j => c j 0) i) (fftVal n inv (fun j => c j 1) i) (fftVal n inv (fun j => c j 2) i) =
      ∑ j ∈ Finset.range (2 ^ n), algebraMap F Ext3.K (scale n inv * dir n inv ^ (i * j)) * Ext3.coord (c j 0) (c j 1) (c j 2) := by
    intro i
    rw [fftVal, fftVal, fftVal, coord_sum]
    exact Finset.sum_congr rfl fun j _ => coord_smul _ _ _ _
  cases inv with
  | false =>
    obtain ⟨l, r', e1, e2, e3⟩ := FFT.fft_spec_K hn (fun _ => []) _ hlen
    refine ⟨l, by rw [native, if_neg (by simp), e1]; rfl, by rw [e2, hlen], fun i hi => ?_⟩
    rw [e3 i (by rw [hlen]; exact hi), hv, hlen]
    refine Finset.sum_congr rfl fun j hj => ?_
    rw [hget j (Finset.mem_range.mp hj), scale, dir, if_neg (by simp), if_neg (by simp), one_mul, map_pow, FFT.mgK, mul_comm]
  | true =>
    obtain ⟨l, r', e1, e2, e3⟩ := FFT.ifft_formula (FFT.rootsK hn.le) hn (fun _ => []) _ hlen
    refine ⟨l, by rw [native, if_pos rfl, e1]; rfl, by rw [e2, hlen], fun i hi => ?_⟩
    rw [e3 i (by rw [hlen]; exact hi), hv, hlen, Finset.sum_mul]
    refine Finset.sum_congr rfl fun j hj => ?_
    rw [hget j (Finset.mem_range.mp hj), scale, dir, if_pos rfl, if_pos rfl, map_mul, map_inv₀, map_pow, map_inv₀, map_natCast, FFT.mgK]
    have hm0 : algebraMap F Ext3.K (Roots.mg n) ≠ 0 := (map_ne_zero _).mpr (mg_pow hn.le).2
    have hm1 : algebraMap F Ext3.K (Roots.mg n) ^ 2 ^ n = 1 := by rw [← map_pow, (mg_pow hn.le).1, map_one]
    have : algebraMap F Ext3.K (Roots.mg n) ^ ((2 ^ n - i) % 2 ^ n * j) = ((algebraMap F Ext3.K (Roots.mg n))⁻¹) ^ (i * j) := by
      rw [pow_mul, pow_mul]
      congr 1
      rw [inv_pow]
      apply eq_inv_of_mul_eq_one_left
      rw [← pow_add]
      by_cases h0 : i = 0
      · subst h0; simp
      · rw [Nat.mod_eq_of_lt (by omega), show 2 ^ n - i + i = 2 ^ n by omega, hm1]
    rw [this]
    ring

/-- Soundness of `FFT`: for every size the native transform supports, whatever the prover does, the outputs have 64 bits and stand for the values of the
native (inverse) transform -/
theorem fft_sound [Fact r.Prime] (hr : 2 ^ 250 < r) {n : Nat} (hn : n < 32) (inv : Bool) {inp out : Nat → Fin 3 → ZMod r} {a : Nat → Ext3.K}
    (hi : ∀ j < 2 ^ n, Lift3 (Rep (2 ^ 120)) (inp j) (a j)) (h : FFT n inv inp out) :
    ∃ l, native inv ((List.range (2 ^ n)).map a) = some l ∧ l.length = 2 ^ n ∧ ∀ i < 2 ^ n, Lift3 Out (out i) (l.getD i 0) := by
  choose! c hc e using hi
  obtain ⟨k, h⟩ := h
  obtain ⟨l, h1, h2, h3⟩ := native_val hn inv c
  refine ⟨l, ?_, h2, fun i hi => ⟨fun q => fftVal n inv (fun j => c j q) i, fun q => ?_, (h3 i hi).symm⟩⟩
  · rw [← h1]
    congr 1
    exact List.map_congr_left fun j hj => (e j (List.mem_range.mp hj)).symm
  · obtain ⟨z, z1, z2, z3⟩ := fftSum_sound hn.le inv (fun j hj => hc j hj q) i
    have := h i hi q
    rw [z2] at this
    dsimp only
    rw [← z3]
    exact red_sound hr (by omega) z1 this

/-- Completeness of `FFT`: for inputs of 64 bits the values the witness program assigns meet the constraints, and the outputs are the canonical values
of the native (inverse) transform -/
theorem fft_complete [Fact r.Prime] (hr : 2 ^ 250 < r) {n : Nat} (hn : n < 32) (inv : Bool) {inp : Nat → Fin 3 → ZMod r} {a : Nat → Ext3.K}
    (hi : ∀ j < 2 ^ n, Lift3 Out (inp j) (a j)) :
    FFT n inv inp (fun i e => oWit (fftSum n inv (fun j => inp j e) i)) ∧
    ∃ l, native inv ((List.range (2 ^ n)).map a) = some l ∧ l.length = 2 ^ n ∧
      ∀ i < 2 ^ n, Lift3 (fun s y => s = canon y) (fun e => oWit (fftSum n inv (fun j => inp j e) i)) (l.getD i 0) := by
  choose! c hc e using hi
  obtain ⟨l, h1, h2, h3⟩ := native_val hn inv c
  refine ⟨⟨fun i e => kWit (fftSum n inv (fun j => inp j e) i), fun i hi q => (fft_col_complete hr hn.le inv (fun j hj => hc j hj q) i).1⟩, l, ?_, h2,
    fun i hi => ⟨fun q => fftVal n inv (fun j => c j q) i, fun q => (fft_col_complete hr hn.le inv (fun j hj => hc j hj q) i).2, (h3 i hi).symm⟩⟩
  rw [← h1]
  congr 1
  exact List.map_congr_left fun j hj => (e j (List.mem_range.mp hj)).symm

/-! ### Examples -/

/-- a polynomial of four coefficients (1, 2, 3, 4 in the base field) at the point 5, in the BLS12-381 scalar field -/
example : ∃ out, EvalPol 4 (fun j e => if e = 0 then (((j + 1 : Nat) : F)).val else 0 : Nat → Fin 3 → ZMod Poseidon.blsMod) (fun e => if e = 0 then canon 5 else 0) out := by
  have hc : ∀ y : F, Lift3 Near (fun e => if e = 0 then (y.val : ZMod Poseidon.blsMod) else 0) (Ext3.coord y 0 0) := fun y => by
    refine ⟨![y, 0, 0], fun e => ?_, rfl⟩
    have h0 : Near (0 : ZMod Poseidon.blsMod) 0 := ⟨0, by decide, by decide, by simp, by simp⟩
    fin_cases e
    · exact (canon_out y).near
    · exact h0
    · exact h0
  obtain ⟨out, h, -⟩ := evalPol_complete bls_large (n := 4) (by norm_num) (fun j _ => hc (((j + 1 : Nat) : F))) (hc 5)
  exact ⟨out, h⟩

end Verif.Gadget
