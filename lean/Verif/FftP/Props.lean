import Verif.FftP.Lemmas2
import Verif.FFT.Instances

/-!
# C19, C20: the parallel FFT and interpolation compute what the serial ones do, for every number of workers
-/
namespace Verif.FftP
open Finset
open Verif.FFT (Roots revBits revBits_lt revBits_invol)

variable {A : Type} [Field A]

theorem exists_stages {mg : Nat → A} {nb : Nat} (hw : Roots mg nb) (hnb : nb ≤ 32) (p : Nat → A) :
    ∃ D, Stages mg nb D ∧ (∀ r < 2 ^ nb, D 0 r = p (revBits nb r)) ∧
      ∀ r < 2 ^ nb, D nb r = ∑ j ∈ range (2 ^ nb), p j * mg nb ^ (r * j) := by
  let roots : Nat → List A := fun s => [0, mg s]
  refine ⟨fun m => (List.range m).foldl (fun b s => FFT.stage ((roots (s + 1)).getD 1 0) (s + 1) (2 ^ nb) b)
    (FFT.scatter nb p (2 ^ nb)), ?_, ?_, ?_⟩
  · intro s hs L hL hlo
    beta_reduce
    rw [List.range_succ, List.foldl_append, List.foldl_cons, List.foldl_nil]
    generalize (List.range s).foldl _ _ = old
    have hq : L / 2 ^ (s + 1) < 2 ^ nb / 2 ^ (s + 1) := by
      rw [Nat.pow_div (by omega) (by norm_num), Nat.div_lt_iff_lt_mul (by positivity), ← pow_add]
      rwa [show nb - (s + 1) + (s + 1) = nb by omega]
    have := FFT.stage_eq (mg (s + 1)) s (2 ^ nb) old (L / 2 ^ (s + 1)) (L % 2 ^ (s + 1)) hq hlo
    rw [show L / 2 ^ (s + 1) * 2 ^ (s + 1) + L % 2 ^ (s + 1) = L by
      rw [mul_comm]; exact Nat.div_add_mod L _] at this
    exact this
  · intro r hr
    exact FFT.scatter_eq hnb p r hr
  · intro r hr
    have := FFT.stages_inv hw hnb roots (fun _ _ => rfl) p nb le_rfl 0 (by positivity) r hr
    simpa [revBits] using this

theorem chooseBlockBits_bounds {workers np nb : Nat} (hnb : 0 < nb) :
    0 < chooseBlockBits workers np nb ∧ chooseBlockBits workers np nb ≤ nb := by
  unfold chooseBlockBits
  simp only
  generalize Helper.log2Any _ = x
  split <;> split <;> omega

/-- The loop of `_fft` on a buffer whose column `k` is the bit-reversed `p` computes the DFT of `p` in `bin`. -/
theorem layers_dft {mg : Nat → A} {nb : Nat} (hw : Roots mg nb) (hnb : nb ≤ 32) {np k bb : Nat} (hk : k < np)
    (hbb : bb ≤ nb) (hbb0 : 0 < bb) (s : Bufs A) (p : Nat → A)
    (hb : ∀ r < 2 ^ nb, s.bin (r * np + k) = p (revBits nb r)) :
    ∀ r < 2 ^ nb, (layers mg np nb bb s).bin (r * np + k) = ∑ j ∈ range (2 ^ nb), p j * mg nb ^ (r * j) := by
  obtain ⟨D, hD, h0, hn⟩ := exists_stages hw hnb p
  intro r hr
  rw [layers_spec hw hD hk hbb hbb0 s (fun r hr => by rw [hb r hr, h0 r hr]) r hr, hn r hr]

theorem fftGen_run {mg : Nat → A} {nb : Nat} (hw : Roots mg nb) (hnb : nb ≤ 32) (hnb0 : 0 < nb) {workers np : Nat}
    (hwk : 0 < workers) (hnp : 0 < np) (inv : Bool) (src dst0 : Buf A) :
    ∃ out, fftGen mg workers inv src np nb dst0 = some out ∧ ∀ k < np, ∀ p : Nat → A,
      (∀ j < 2 ^ nb, p j = if inv then src ((2 ^ nb - j) % 2 ^ nb * np + k) * ((2 ^ nb : Nat) : A)⁻¹ else src (j * np + k)) →
      ∀ r < 2 ^ nb, out (r * np + k) = ∑ j ∈ range (2 ^ nb), p j * mg nb ^ (r * j) := by
  obtain ⟨hbb0, hbb⟩ := chooseBlockBits_bounds (workers := workers) (np := np) hnb0
  rw [fftGen, if_neg (by omega)]
  refine ⟨_, rfl, fun k hk p hp r hr => ?_⟩
  set bb := chooseBlockBits workers np nb with hbbdef
  set s0 : Bufs A := if nTransposes nb bb % 2 > 0 then ⟨dst0, fun _ => 0, true⟩ else ⟨fun _ => 0, dst0, false⟩ with hs0
  have hflag : s0.inIsOut = decide (nTransposes nb bb % 2 = 1) := by
    rw [hs0]
    rcases Nat.mod_two_eq_zero_or_one (nTransposes nb bb) with h | h <;> simp [h]
  generalize s0 = s at hflag ⊢
  have hfin := layers_flag mg (np := np) hbb hbb0
    (Bufs.swap { s with bout := if inv then invBitReverse np nb s.bout src else bitReverse np nb s.bout src })
  have hval := layers_dft hw hnb hk hbb hbb0
    (Bufs.swap { s with bout := if inv then invBitReverse np nb s.bout src else bitReverse np nb s.bout src }) p (by
      intro r hr
      have hr2 := revBits_lt nb r
      simp only [Bufs.swap]
      rw [hp _ hr2]
      cases inv
      · simp only [Bool.false_eq_true, if_false]
        rw [bitReverse, if_pos ((flat_lt hk).2 hr), flat_div hk, flat_mod hk, brCal_eq hnb hr]
      · simp only [if_true]
        rw [invBitReverse, if_pos ((flat_lt hk).2 hr), flat_div hk, flat_mod hk, brCal_eq hnb hr])
    r hr
  have hsw : ∀ b : Buf A, (Bufs.swap { s with bout := b }).inIsOut = !s.inIsOut := fun _ => rfl
  rw [hsw] at hfin
  have hfin' : (layers mg np nb bb (Bufs.swap (
      { s with bout := if inv then invBitReverse np nb s.bout src else bitReverse np nb s.bout src }))).inIsOut = true := by
    rw [hfin, hflag]; cases decide (nTransposes nb bb % 2 = 1) <;> rfl
  rw [Bufs.result, if_pos hfin', hval]

/-- C19: `fft_p::fft` computes, in every column, the discrete Fourier transform of that column, for every size `2^nb`
(`1 ≤ nb ≤ 32`), number of columns, number of workers, and whatever the destination buffer contained. -/
theorem fft_spec {mg : Nat → A} {nb : Nat} (hw : Roots mg nb) (hnb : nb ≤ 32) (hnb0 : 0 < nb) {workers np : Nat}
    (hwk : 0 < workers) (hnp : 0 < np) (src dst0 : Buf A) :
    ∃ out, fftGen mg workers false src np nb dst0 = some out ∧
      ∀ k < np, ∀ r < 2 ^ nb, out (r * np + k) = ∑ j ∈ range (2 ^ nb), src (j * np + k) * mg nb ^ (r * j) := by
  obtain ⟨out, h1, h2⟩ := fftGen_run hw hnb hnb0 hwk hnp false src dst0
  exact ⟨out, h1, fun k hk r hr => h2 k hk _ (fun j _ => by simp) r hr⟩

theorem pow_period {w : A} {n : Nat} (hwn : w ^ n = 1) {a b : Nat} (h : a % n = b % n) : w ^ a = w ^ b := by
  rw [pow_eq_pow_mod a hwn, pow_eq_pow_mod b hwn, h]

/-- The character sum behind the inverse transform. -/
theorem inv_sum {w : A} {n : Nat} (hw : IsPrimitiveRoot w n) (c : Nat → A) {r : Nat} (hr : r < n) :
    ∑ j ∈ range n, (∑ i ∈ range n, c i * w ^ ((n - j) % n * i)) * w ^ (r * j) = (n : A) * c r := by
  have hwn : w ^ n = 1 := hw.pow_eq_one
  have key : ∀ j < n, ∀ i < n, w ^ ((n - j) % n * i) * w ^ (r * j) = w ^ (j * (r + (n - i))) := by
    intro j hj i hi
    have h1 : w ^ ((n - j) % n * i) = w ^ ((n - i) * j) := by
      apply pow_period hwn
      have e : (n - j) * i + j * i = n * i := by rw [← add_mul]; congr 1; omega
      have e' : (n - i) * j + j * i = n * j := by rw [mul_comm j i, ← add_mul]; congr 1; omega
      rw [Nat.mod_mul_mod]
      have : (n - j) * i + j * i ≡ (n - i) * j + j * i [MOD n] := by
        rw [e, e']
        exact ((Nat.modEq_zero_iff_dvd.2 (Dvd.intro _ rfl))).trans (Nat.modEq_zero_iff_dvd.2 (Dvd.intro _ rfl)).symm
      exact Nat.ModEq.add_right_cancel' _ this
    rw [h1, ← pow_add]; congr 1; ring
  calc _ = ∑ j ∈ range n, ∑ i ∈ range n, c i * w ^ (j * (r + (n - i))) := by
        refine sum_congr rfl fun j hj => ?_
        rw [sum_mul]
        refine sum_congr rfl fun i hi => ?_
        rw [mul_assoc, key j (mem_range.1 hj) i (mem_range.1 hi)]
    _ = ∑ i ∈ range n, c i * ∑ j ∈ range n, w ^ (j * (r + (n - i))) := by
        rw [sum_comm]; exact sum_congr rfl fun i _ => by rw [mul_sum]
    _ = ∑ i ∈ range n, if i = r then (n : A) * c r else 0 := by
        refine sum_congr rfl fun i hi => ?_
        have hi := mem_range.1 hi
        rw [FFT.sum_pow_eq hw]
        by_cases h : i = r
        · subst h
          rw [if_pos rfl, if_pos (by rw [show i + (n - i) = n by omega]), mul_comm]
        · rw [if_neg h, if_neg, mul_zero]
          rintro ⟨q, hq⟩
          have h0 : q ≠ 0 := by rintro rfl; omega
          have h1 : q < 2 := by
            by_contra hc
            have : n * 2 ≤ n * q := Nat.mul_le_mul_left _ (by omega)
            omega
          have : q = 1 := by omega
          subst this; omega
    _ = _ := by rw [sum_ite_eq' (range n)]; simp [hr]

theorem two_pow_ne {h2 : (2 : A) ≠ 0} (nb : Nat) : ((2 ^ nb : Nat) : A) ≠ 0 := by
  push_cast; exact pow_ne_zero _ h2

/-- C19: `fft_p::ifft` inverts the transform in every column: if column `k` holds the values of the polynomial with
coefficients `c` on the domain, the result holds `c`. -/
theorem ifft_spec {mg : Nat → A} {nb : Nat} (hw : Roots mg nb) (h2 : (2 : A) ≠ 0) (hnb : nb ≤ 32) (hnb0 : 0 < nb)
    {workers np : Nat} (hwk : 0 < workers) (hnp : 0 < np) (src dst0 : Buf A) :
    ∃ out, fftGen mg workers true src np nb dst0 = some out ∧
      ∀ k < np, ∀ c : Nat → A, (∀ j < 2 ^ nb, src (j * np + k) = ∑ i ∈ range (2 ^ nb), c i * mg nb ^ (j * i)) →
        ∀ r < 2 ^ nb, out (r * np + k) = c r := by
  obtain ⟨out, h1, hout⟩ := fftGen_run hw hnb hnb0 hwk hnp true src dst0
  refine ⟨out, h1, fun k hk c hc r hr => ?_⟩
  rw [hout k hk _ (fun j _ => rfl) r hr]
  simp only [if_true]
  have hpos : 0 < 2 ^ nb := by positivity
  have := inv_sum (hw.primitive h2) c hr
  calc _ = (∑ j ∈ range (2 ^ nb), (∑ i ∈ range (2 ^ nb), c i * mg nb ^ ((2 ^ nb - j) % 2 ^ nb * i)) * mg nb ^ (r * j)) *
        ((2 ^ nb : Nat) : A)⁻¹ := by
        rw [sum_mul]
        refine sum_congr rfl fun j hj => ?_
        rw [hc _ (Nat.mod_lt _ hpos)]; ring
    _ = _ := by
        rw [this, mul_comm, ← mul_assoc, inv_mul_cancel₀ (two_pow_ne (h2 := h2) nb), one_mul]

/-- C19: the parallel FFT agrees, column by column, with the serial one (`fft.rs`). -/
theorem fft_eq_serial {mg : Nat → A} {nb : Nat} (hw : Roots mg nb) (hnb : nb < 32) (hnb0 : 0 < nb) {workers np : Nat}
    (hwk : 0 < workers) (hnp : 0 < np) (src dst0 : Buf A) (roots : Nat → List A) :
    ∃ out, fftGen mg workers false src np nb dst0 = some out ∧ ∀ k < np, ∃ l roots',
      FFT.fft mg roots ((List.range (2 ^ nb)).map fun j => src (j * np + k)) = some (l, roots') ∧ l.length = 2 ^ nb ∧
      ∀ r < 2 ^ nb, out (r * np + k) = l.getD r 0 := by
  obtain ⟨out, h1, hout⟩ := fft_spec hw hnb.le hnb0 hwk hnp src dst0
  refine ⟨out, h1, fun k hk => ?_⟩
  have hlen : ((List.range (2 ^ nb)).map fun j => src (j * np + k)).length = 2 ^ nb := by simp
  obtain ⟨l, r', e1, e2, e3⟩ := FFT.fft_spec hw hnb roots ((List.range (2 ^ nb)).map fun j => src (j * np + k)) hlen
  refine ⟨l, r', e1, by rw [e2, hlen], fun r hr => ?_⟩
  rw [hout k hk r hr, e3 r (by rw [hlen]; exact hr), hlen]
  refine sum_congr rfl fun j hj => ?_
  rw [List.getD_eq_getElem?_getD, List.getElem?_map, List.getElem?_range (mem_range.1 hj)]; rfl

/-- C19: the result does not depend on the number of workers nor on the previous contents of the destination. -/
theorem fft_worker_independent {mg : Nat → A} {nb : Nat} (hw : Roots mg nb) (hnb : nb ≤ 32) (hnb0 : 0 < nb)
    {w1 w2 np : Nat} (h1 : 0 < w1) (h2 : 0 < w2) (hnp : 0 < np) (inv : Bool) (src d1 d2 : Buf A) :
    ∃ o1 o2, fftGen mg w1 inv src np nb d1 = some o1 ∧ fftGen mg w2 inv src np nb d2 = some o2 ∧
      ∀ x < 2 ^ nb * np, o1 x = o2 x := by
  obtain ⟨o1, e1, f1⟩ := fftGen_run hw hnb hnb0 h1 hnp inv src d1
  obtain ⟨o2, e2, f2⟩ := fftGen_run hw hnb hnb0 h2 hnp inv src d2
  refine ⟨o1, o2, e1, e2, fun x hx => ?_⟩
  have hk : x % np < np := Nat.mod_lt _ hnp
  have hx' : x = x / np * np + x % np := by rw [mul_comm]; exact (Nat.div_add_mod x np).symm
  have hr : x / np < 2 ^ nb := by rw [Nat.div_lt_iff_lt_mul hnp]; exact hx
  rw [hx', f1 _ hk _ (fun _ _ => rfl) _ hr, f2 _ hk _ (fun _ _ => rfl) _ hr]

/-! ## C20 -/

theorem prepareBlock_eq (np : Nat) (start inc : A) (height : Nat) (b : Buf A) (r k : Nat) (hk : k < np) :
    prepareBlock np start inc height b (r * np + k) =
      if r < height then b (r * np + k) * (start * inc ^ r) else b (r * np + k) := by
  unfold prepareBlock
  have gen : ∀ m st, st = (List.range m).foldl (fun (st : Buf A × A) i =>
      ((List.range np).foldl (fun b j => Function.update b (i * np + j) (b (i * np + j) * st.2)) st.1,
        st.2 * inc)) (b, start) → st.2 = start * inc ^ m ∧ ∀ r, st.1 (r * np + k) =
      if r < m then b (r * np + k) * (start * inc ^ r) else b (r * np + k) := by
    intro m
    induction m with
    | zero => intro st hst; subst hst; simp
    | succ m ih =>
      intro st hst
      rw [List.range_succ, List.foldl_append] at hst
      obtain ⟨ih1, ih2⟩ := ih _ rfl
      generalize (List.range m).foldl _ (b, start) = st' at hst ih1 ih2
      simp only [List.foldl_cons, List.foldl_nil] at hst
      subst hst
      refine ⟨by simp only; rw [ih1]; ring, fun r => ?_⟩
      simp only
      have inner : ∀ t, t ≤ np → ∀ k < np, ∀ b' : Buf A, (List.range t).foldl (fun b j =>
          Function.update b (m * np + j) (b (m * np + j) * st'.2)) b' (r * np + k) =
          if r = m ∧ k < t then b' (r * np + k) * st'.2 else b' (r * np + k) := by
        intro t
        induction t with
        | zero => intro _ k _ b'; rw [if_neg (by omega)]; rfl
        | succ t iht =>
          intro ht k hk b'
          rw [List.range_succ, List.foldl_append, List.foldl_cons, List.foldl_nil]
          by_cases hx : r * np + k = m * np + t
          · rw [hx, Function.update_self]
            obtain ⟨rfl, rfl⟩ := (flat_inj hk (by omega)).1 hx
            rw [iht (by omega) k hk, if_neg (by omega), if_pos (by omega)]
          · rw [Function.update_of_ne hx, iht (by omega) k hk]
            rw [flat_inj hk (by omega)] at hx
            split_ifs <;> first | rfl | omega
      rw [inner np le_rfl k hk, ih2, ih1]
      by_cases hx : r = m
      · subst hx
        rw [if_pos ⟨rfl, hk⟩, if_neg (by omega), if_pos (by omega)]
      · rw [if_neg (by tauto)]
        split_ifs <;> first | rfl | omega
  exact (gen height _ rfl).2 r

theorem interpolatePrepare_eq (shift : A) {pt np nb : Nat} (hpt : 0 < pt) (b : Buf A) (r k : Nat) (hk : k < np) :
    interpolatePrepare shift pt np nb b (r * np + k) =
      if r < 2 ^ nb then b (r * np + k) * (((2 ^ nb : Nat) : A)⁻¹ * shift ^ r) else b (r * np + k) := by
  unfold interpolatePrepare
  simp only [flat_lt hk]
  split
  · next hr =>
    rw [parChunks_row _ _ _ _ _ _ hk, prepareBlock_eq _ _ _ _ _ _ _ hk]
    have hm : r % pt < pt := Nat.mod_lt _ hpt
    have hd : r / pt * pt + r % pt = r := by rw [mul_comm]; exact Nat.div_add_mod r pt
    rw [if_pos (by omega), show r / pt * (pt * np) + (r % pt * np + k) = (r / pt * pt + r % pt) * np + k by ring, hd,
      mul_assoc, ← pow_add, hd]
  · rfl

open Polynomial in
theorem interpolate_run {mg : Nat → A} {nb e : Nat} (hw : Roots mg (nb + e)) (h2 : (2 : A) ≠ 0) (hnb : nb + e ≤ 32)
    (hnb0 : 0 < nb) (shift : A) {workers np : Nat} (hwk : 0 < workers) (hnp : 0 < np)
    (hpt : perThread workers np (2 ^ nb) ≠ 0) (src dst0 : Buf A) :
    ∃ out, interpolate mg shift workers src np nb dst0 (nb + e) = some out ∧
      ∀ k < np, (nTransposes (nb + e) (chooseBlockBits workers np (nb + e)) % 2 = 1 →
          ∀ r, 2 ^ nb ≤ r → r < 2 ^ (nb + e) → dst0 (r * np + k) = 0) →
        ∀ P : A[X], P.natDegree < 2 ^ nb → (∀ i < 2 ^ nb, P.eval (mg nb ^ i) = src (i * np + k)) →
        ∀ r < 2 ^ (nb + e), out (r * np + k) = P.eval (shift * mg (nb + e) ^ r) := by
  have hwk' : Roots mg nb := ⟨hw.zero, fun s hs => hw.sq s (by omega), fun s hs => hw.half s (by omega)⟩
  obtain ⟨hbb0, hbb⟩ := chooseBlockBits_bounds (workers := workers) (np := np) hnb0
  obtain ⟨hbx0, hbx⟩ := chooseBlockBits_bounds (workers := workers) (np := np) (nb := nb + e) (by omega)
  rw [interpolate, if_neg (by omega), if_neg hpt]
  refine ⟨_, rfl, fun k hk hz P hdeg hP r hr => ?_⟩
  simp only
  set bb := chooseBlockBits workers np nb with hbbdef
  set bx := chooseBlockBits workers np (nb + e) with hbxdef
  set pt := perThread workers np (2 ^ nb) with hptdef
  set T1 := nTransposes nb bb with hT1
  set T2 := nTransposes (nb + e) bx with hT2
  set s0 : Bufs A := if (T1 + 1 + T2) % 2 > 0 then ⟨dst0, fun _ => 0, true⟩ else ⟨fun _ => 0, dst0, false⟩ with hs0
  have hflag : s0.inIsOut = decide ((T1 + 1 + T2) % 2 = 1) := by
    rw [hs0]
    rcases Nat.mod_two_eq_zero_or_one (T1 + 1 + T2) with h | h <;> simp [h]
  have htmp : ZeroRows np k (2 ^ nb) (2 ^ (nb + e)) s0.tmp := by
    intro r _ _
    rw [hs0]; split <;> rfl
  have hres : T2 % 2 = 1 → ZeroRows np k (2 ^ nb) (2 ^ (nb + e)) s0.result := by
    intro h r h1 h2
    have := hz h r h1 h2
    rw [hs0]; split <;> exact this
  clear_value s0
  -- after the reversal
  set s1 : Bufs A := Bufs.swap { s0 with bout := interpolateBitReverse np nb s0.bout src } with hs1
  have rev0 : ∀ b : Buf A, ZeroRows np k (2 ^ nb) (2 ^ (nb + e)) b →
      ZeroRows np k (2 ^ nb) (2 ^ (nb + e)) (interpolateBitReverse np nb b src) := by
    intro b h r h1 h2
    rw [interpolateBitReverse, if_neg (by rw [flat_lt hk]; omega)]
    exact h r h1 h2
  have htmp1 : ZeroRows np k (2 ^ nb) (2 ^ (nb + e)) s1.tmp := by
    rcases s0 with ⟨a, b, f⟩
    cases f
    · exact htmp
    · exact rev0 _ htmp
  have hres1 : T2 % 2 = 1 → ZeroRows np k (2 ^ nb) (2 ^ (nb + e)) s1.result := by
    intro h
    have := hres h
    rcases s0 with ⟨a, b, f⟩
    cases f
    · exact rev0 _ this
    · exact this
  have hflag1 : s1.inIsOut = !decide ((T1 + 1 + T2) % 2 = 1) := by rw [← hflag]; rfl
  have hbin1 : ∀ r < 2 ^ nb, s1.bin (r * np + k) =
      (fun j => src ((2 ^ nb - j) % 2 ^ nb * np + k)) (revBits nb r) := by
    intro r hr
    show interpolateBitReverse np nb s0.bout src (r * np + k) = _
    rw [interpolateBitReverse, if_pos ((flat_lt hk).2 hr), flat_div hk, flat_mod hk, brCal_eq (by omega) hr]
  clear_value s1
  -- first phase
  have hval2 := layers_dft hwk' (by omega) hk hbb hbb0 s1 (fun j => src ((2 ^ nb - j) % 2 ^ nb * np + k)) hbin1
  have hz2 := layers_zero mg (e := e) hk hbb s1
  have hflag2 := layers_flag mg (np := np) hbb hbb0 s1
  rw [hflag1] at hflag2
  set s2 := layers mg np nb bb s1 with hs2
  clear_value s2
  have hzbin : ZeroRows np k (2 ^ nb) (2 ^ (nb + e)) s2.bin := by
    rcases Nat.mod_two_eq_zero_or_one T2 with h | h
    · -- current input is the temporary
      have : s2.inIsOut = false := by
        rw [hflag2]
        rcases Nat.mod_two_eq_zero_or_one T1 with h' | h'
        · have : (T1 + 1 + T2) % 2 = 1 := by omega
          simp [← hT1, h', this]
        · have : (T1 + 1 + T2) % 2 = 0 := by omega
          simp [← hT1, h', this]
      have h := hz2.2 htmp1
      rw [Bufs.tmp, this] at h; exact h
    · have : s2.inIsOut = true := by
        rw [hflag2]
        rcases Nat.mod_two_eq_zero_or_one T1 with h' | h'
        · have : (T1 + 1 + T2) % 2 = 0 := by omega
          simp [← hT1, h', this]
        · have : (T1 + 1 + T2) % 2 = 1 := by omega
          simp [← hT1, h', this]
      have h := hz2.1 (hres1 h)
      rw [Bufs.result, this] at h; exact h
  -- the coefficients
  have hcoef : ∀ r < 2 ^ nb, s2.bin (r * np + k) = ((2 ^ nb : Nat) : A) * P.coeff r := by
    intro r hr
    rw [hval2 r hr, ← inv_sum (hwk'.primitive h2) P.coeff hr]
    refine sum_congr rfl fun j _ => ?_
    rw [← hP _ (Nat.mod_lt _ (by positivity)), eval_eq_sum_range' hdeg]
    congr 1
    exact sum_congr rfl fun i _ => by rw [pow_mul]
  have hprep : ∀ r < 2 ^ (nb + e), interpolatePrepare shift pt np nb s2.bin (r * np + k) = P.coeff r * shift ^ r := by
    intro r hr
    rw [interpolatePrepare_eq shift (by omega) _ _ _ hk]
    split
    · next h =>
      rw [hcoef r h]
      have := two_pow_ne (h2 := h2) nb
      field_simp
    · next h =>
      rw [hzbin r (by omega) hr, coeff_eq_zero_of_natDegree_lt (by omega), zero_mul]
  -- second phase
  set s3 : Bufs A := Bufs.swap ⟨interpolatePrepare shift pt np nb s2.bin,
    bitReverse np (nb + e) s2.bout (interpolatePrepare shift pt np nb s2.bin), s2.inIsOut⟩ with hs3
  have hbin3 : ∀ r < 2 ^ (nb + e), s3.bin (r * np + k) = (fun j => P.coeff j * shift ^ j) (revBits (nb + e) r) := by
    intro r hr
    show bitReverse np (nb + e) s2.bout _ (r * np + k) = _
    rw [bitReverse, if_pos ((flat_lt hk).2 hr), flat_div hk, flat_mod hk, brCal_eq (by omega) hr, hprep _ (revBits_lt _ _)]
  have hval4 := layers_dft hw hnb hk hbx hbx0 s3 (fun j => P.coeff j * shift ^ j) hbin3 r hr
  have hflag4 := layers_flag mg (np := np) hbx hbx0 s3
  have hf3 : s3.inIsOut = !s2.inIsOut := rfl
  have hout : (layers mg np (nb + e) bx s3).inIsOut = true := by
    rw [hflag4, hf3, hflag2]
    rcases Nat.mod_two_eq_zero_or_one T1 with h | h <;> rcases Nat.mod_two_eq_zero_or_one T2 with h' | h'
    · have : (T1 + 1 + T2) % 2 = 1 := by omega
      simp [← hT1, ← hT2, h, h', this]
    · have : (T1 + 1 + T2) % 2 = 0 := by omega
      simp [← hT1, ← hT2, h, h', this]
    · have : (T1 + 1 + T2) % 2 = 0 := by omega
      simp [← hT1, ← hT2, h, h', this]
    · have : (T1 + 1 + T2) % 2 = 1 := by omega
      simp [← hT1, ← hT2, h, h', this]
  rw [Bufs.result, if_pos hout, hval4]
  have hdeg2 : P.natDegree < 2 ^ (nb + e) := lt_of_lt_of_le hdeg (Nat.pow_le_pow_right (by norm_num) (by omega))
  rw [eval_eq_sum_range' hdeg2]
  refine sum_congr rfl fun j _ => ?_
  rw [mul_pow, ← pow_mul, mul_assoc]

open Polynomial in
/-- C20: `interpolate` writes, in every column `k`, the values on the coset `shift * <w'>` of the polynomial `P` of
degree `< 2^nb` that column `k` of the source samples on `<w>`, for every number of workers. The rows `≥ 2^nb` of the
destination buffer must be zero on entry when the second phase makes an odd number of transpositions; otherwise the
previous contents are irrelevant. -/
theorem interpolate_spec {mg : Nat → A} {nb e : Nat} (hw : Roots mg (nb + e)) (h2 : (2 : A) ≠ 0) (hnb : nb + e ≤ 32)
    (hnb0 : 0 < nb) (shift : A) {workers np : Nat} (hwk : 0 < workers) (hnp : 0 < np) (hnp2 : np ≤ 2 ^ 18)
    (src dst0 : Buf A) :
    ∃ out, interpolate mg shift workers src np nb dst0 (nb + e) = some out ∧
      ∀ k < np, (nTransposes (nb + e) (chooseBlockBits workers np (nb + e)) % 2 = 1 →
          ∀ r, 2 ^ nb ≤ r → r < 2 ^ (nb + e) → dst0 (r * np + k) = 0) →
        ∀ P : A[X], P.natDegree < 2 ^ nb → (∀ i < 2 ^ nb, P.eval (mg nb ^ i) = src (i * np + k)) →
        ∀ r < 2 ^ (nb + e), out (r * np + k) = P.eval (shift * mg (nb + e) ^ r) := by
  refine interpolate_run hw h2 hnb hnb0 shift hwk hnp ?_ src dst0
  have h1 : 0 < maxOps / np := Nat.div_pos hnp2 hnp
  unfold perThread
  simp only
  generalize maxOps / np = a at h1
  generalize minOps / np = b
  generalize (2 ^ nb - 1) / workers = c
  split <;> split <;> omega

/-- The number of transpositions of a phase is even (0 or 2) on machines with at most 512 workers and buffers of fewer
than `2^35` cells. -/
theorem nTransposes_even {workers np nb : Nat} (hnb : nb ≤ 32) (hnp : 0 < np) (hw0 : 0 < workers) (hw : workers ≤ 512)
    (hsz : 2 ^ nb * np < 2 ^ 35) : nTransposes nb (chooseBlockBits workers np nb) % 2 = 0 := by
  have hx : 2 ^ nb * np / (workers * 8) < 2 ^ 32 := by
    rw [Nat.div_lt_iff_lt_mul (by omega)]; omega
  unfold nTransposes
  split
  · next hlt =>
    have hb12 : 12 ≤ chooseBlockBits workers np nb := by
      unfold chooseBlockBits at hlt ⊢
      simp only at hlt ⊢
      generalize Helper.log2Any _ = x at hlt ⊢
      by_cases h1 : x < 12
      · simp only [h1, if_true] at hlt ⊢; norm_num at hlt ⊢; omega
      · by_cases h2 : x > 16
        · simp only [h1, h2, if_true, if_false] at hlt ⊢; omega
        · simp only [h1, h2, if_false] at hlt ⊢; omega
    have hup : nb ≤ 2 * chooseBlockBits workers np nb := by
      by_contra hc
      have hnb25 : 25 ≤ nb := by omega
      set x := 2 ^ nb * np / (workers * 8) with hxd
      have hxlow : 2 ^ (nb - 12) ≤ x := by
        rw [hxd, Nat.le_div_iff_mul_le (by omega)]
        calc 2 ^ (nb - 12) * (workers * 8) ≤ 2 ^ (nb - 12) * 2 ^ 12 := Nat.mul_le_mul_left _ (by omega)
          _ = 2 ^ nb * 1 := by rw [← pow_add, mul_one]; congr 1; omega
          _ ≤ _ := Nat.mul_le_mul_left _ hnp
      have hlog : nb - 12 ≤ Helper.log2Any x := by
        have h3 := (Helper.log2Any_eq (n := x) (by
          have : 0 < 2 ^ (nb - 12) := by positivity
          omega) hx).2
        have := (Nat.pow_lt_pow_iff_right (a := 2) (by norm_num)).1 (lt_of_le_of_lt hxlow h3)
        omega
      unfold chooseBlockBits at hc
      simp only [← hxd] at hc
      generalize Helper.log2Any x = y at hlog hc
      split at hc <;> split at hc <;> omega
    have h1 : (nb - 1) / chooseBlockBits workers np nb = 1 := by
      rw [Nat.div_eq_of_lt_le] <;> omega
    rw [h1]
  · rfl

open Polynomial in
/-- C20: on machines with at most 512 workers and buffers of fewer than `2^35` cells the result does not depend on what
the destination buffer contained before. -/
theorem interpolate_any_dst {mg : Nat → A} {nb e : Nat} (hw : Roots mg (nb + e)) (h2 : (2 : A) ≠ 0) (hnb : nb + e ≤ 32)
    (hnb0 : 0 < nb) (shift : A) {workers np : Nat} (hwk : 0 < workers) (hwk2 : workers ≤ 512) (hnp : 0 < np)
    (hnp2 : np ≤ 2 ^ 18) (hsz : 2 ^ (nb + e) * np < 2 ^ 35) (src dst0 : Buf A) :
    ∃ out, interpolate mg shift workers src np nb dst0 (nb + e) = some out ∧
      ∀ k < np, ∀ P : A[X], P.natDegree < 2 ^ nb → (∀ i < 2 ^ nb, P.eval (mg nb ^ i) = src (i * np + k)) →
        ∀ r < 2 ^ (nb + e), out (r * np + k) = P.eval (shift * mg (nb + e) ^ r) := by
  obtain ⟨out, h1, hout⟩ := interpolate_spec hw h2 hnb hnb0 shift hwk hnp hnp2 src dst0
  refine ⟨out, h1, fun k hk => hout k hk ?_⟩
  intro h
  rw [nTransposes_even hnb hnp hwk hwk2 hsz] at h
  omega

/-- C20: more than `2^18` columns make `interpolate` panic (chunks of zero rows). -/
theorem interpolate_panics (mg : Nat → A) {nb ne : Nat} (shift : A) {workers np : Nat} (hnp2 : 2 ^ 18 < np)
    (src dst0 : Buf A) : interpolate mg shift workers src np nb dst0 ne = none := by
  rw [interpolate]
  split
  · rfl
  · have h0 : maxOps / np = 0 := Nat.div_eq_of_lt hnp2
    have h1 : minOps / np = 0 := Nat.div_eq_of_lt (lt_trans (by norm_num [minOps]) hnp2)
    have : perThread workers np (2 ^ nb) = 0 := by
      unfold perThread; simp [h0, h1]
    rw [if_pos this]

/-! ## Instances: the code's field and table -/
open Verif.Ext3 (K)

open Polynomial in
/-- C20 for `F3G`. -/
theorem interpolate_K {nb e : Nat} (hnb : nb + e ≤ 32) (hnb0 : 0 < nb) {workers np : Nat} (hwk : 0 < workers)
    (hwk2 : workers ≤ 512) (hnp : 0 < np) (hnp2 : np ≤ 2 ^ 18) (hsz : 2 ^ (nb + e) * np < 2 ^ 35) (src dst0 : Buf K) :
    ∃ out, interpolate FFT.mgK FFT.shiftK workers src np nb dst0 (nb + e) = some out ∧
      ∀ k < np, ∀ P : K[X], P.natDegree < 2 ^ nb → (∀ i < 2 ^ nb, P.eval (FFT.mgK nb ^ i) = src (i * np + k)) →
        ∀ r < 2 ^ (nb + e), out (r * np + k) = P.eval (FFT.shiftK * FFT.mgK (nb + e) ^ r) :=
  interpolate_any_dst (FFT.rootsK hnb) FFT.two_neK hnb hnb0 _ hwk hwk2 hnp hnp2 hsz src dst0

/-- C19 for `F3G`. -/
theorem fft_K {nb : Nat} (hnb : nb ≤ 32) (hnb0 : 0 < nb) {workers np : Nat} (hwk : 0 < workers) (hnp : 0 < np)
    (src dst0 : Buf K) :
    ∃ out, fftGen FFT.mgK workers false src np nb dst0 = some out ∧
      ∀ k < np, ∀ r < 2 ^ nb, out (r * np + k) = ∑ j ∈ range (2 ^ nb), src (j * np + k) * FFT.mgK nb ^ (r * j) :=
  fft_spec (FFT.rootsK hnb) hnb hnb0 hwk hnp src dst0

/-- non-vacuity: 2^20 rows, 3 columns, 7 workers, a column sampling `X`. The destination is dirty. -/
example : ∃ out, interpolate FFT.mgK FFT.shiftK 7 (fun x => FFT.mgK 20 ^ (x / 3)) 3 20 (fun _ => 5) (20 + 1) = some out ∧
    out (10 * 3 + 2) = FFT.shiftK * FFT.mgK 21 ^ 10 := by
  obtain ⟨out, h1, h2⟩ := interpolate_K (nb := 20) (e := 1) (by norm_num) (by norm_num) (workers := 7) (np := 3)
    (by norm_num) (by norm_num) (by norm_num) (by norm_num) (by norm_num) (fun x => FFT.mgK 20 ^ (x / 3)) (fun _ => 5)
  refine ⟨out, h1, ?_⟩
  rw [h2 2 (by norm_num) Polynomial.X (by simp) (by
    intro i hi; simp only [Polynomial.eval_X]; congr 1; omega) 10 (by norm_num), Polynomial.eval_X]

end Verif.FftP
