import Verif.Stark.Model
import Verif.FFT.Instances
import Verif.FftP.Props
import Mathlib.Algebra.Polynomial.Eval.Degree

/-!
# Openings (C39) and quotient splitting (C40)
-/
namespace Verif.Stark
open FFT Finset Polynomial

variable {A : Type} [Field A]

theorem powList_spec (x : A) (n : Nat) : ∀ a, (powList x n a).length = n ∧ ∀ i < n, (powList x n a).getD i 0 = a * x ^ i := by
  induction n with
  | zero => intro a; exact ⟨rfl, by omega⟩
  | succ n ih =>
    intro a
    obtain ⟨h1, h2⟩ := ih (a * x)
    refine ⟨by simp [powList, h1], fun i hi => ?_⟩
    cases i with
    | zero => simp [powList]
    | succ i => rw [powList, List.getD_cons_succ, h2 i (by omega), pow_succ']; ring

theorem foldl_add_map (f : Nat → A) (n : Nat) : ((List.range n).map f).foldl (· + ·) 0 = ∑ k ∈ range n, f k := by
  induction n with
  | zero => simp
  | succ n ih => rw [List.range_succ, List.map_append, List.foldl_append, ih, sum_range_succ]; rfl

theorem Roots.pow_two' {mg : Nat → A} {a b : Nat} (hw : Roots mg (a + b)) : mg (a + b) ^ 2 ^ b = mg a := by
  induction b with
  | zero => simp
  | succ b ih =>
    have hw' : Roots mg (a + b) := ⟨hw.zero, fun s hs => hw.sq s (by omega), fun s hs => hw.half s (by omega)⟩
    rw [show a + (b + 1) = a + b + 1 by omega, pow_succ', pow_mul, hw.sq (a + b) (by omega), ih hw']

/-- C39: for a committed polynomial of degree below `N = 2^nbits` given by its values on the extended coset, and every point
`x`, the dot product the prover computes with the vector built for `x` is the value of the polynomial at `x`.  The code
uses it with `x = xi` and, for columns opened at the next row, `x = xi * w`. -/
theorem openEval_spec {mg : Nat → A} {nbits ext : Nat} (hw : Roots mg (nbits + ext)) (hlt : nbits < 32) (h2 : (2 : A) ≠ 0)
    (shift x : A) (hs : shift ≠ 0) (P : A[X]) (hdeg : P.natDegree < 2 ^ nbits) (val : Nat → A)
    (hval : ∀ j < 2 ^ (nbits + ext), val j = P.eval (shift * mg (nbits + ext) ^ j)) :
    ∃ l, lev mg shift x nbits = some l ∧ openEval l val nbits ext = P.eval x := by
  have hw' : Roots mg nbits := ⟨hw.zero, fun s hs => hw.sq s (by omega), fun s hs => hw.half s (by omega)⟩
  obtain ⟨p1, p2⟩ := powList_spec (x / shift) (2 ^ nbits) (1 : A)
  obtain ⟨l, r, h1, _, h4⟩ := ifft_formula hw' hlt (fun _ => []) (powList (x / shift) (2 ^ nbits) 1) p1
  rw [p1] at h4
  refine ⟨l, by rw [lev, h1]; rfl, ?_⟩
  have hprim := hw'.primitive h2
  have hn : ((2 ^ nbits : Nat) : A) ≠ 0 := by push_cast; exact pow_ne_zero _ h2
  unfold openEval
  rw [foldl_add_map]
  have hv : ∀ k ∈ range (2 ^ nbits), val (k * 2 ^ ext) * l.getD k 0 =
      ∑ i ∈ range (2 ^ nbits), P.coeff i * shift ^ i * (((2 ^ nbits : Nat) : A)⁻¹ *
        ((∑ j ∈ range (2 ^ nbits), (x / shift) ^ j * mg nbits ^ ((2 ^ nbits - k) % 2 ^ nbits * j)) * mg nbits ^ (i * k))) := by
    intro k hk
    have hk' := mem_range.mp hk
    rw [hval _ (by rw [pow_add]; exact (Nat.mul_lt_mul_right (by positivity)).mpr hk'), mul_comm k, pow_mul, Roots.pow_two' hw,
      h4 k hk', eval_eq_sum_range' hdeg, sum_mul]
    apply sum_congr rfl
    intro i hi
    have : ∑ j ∈ range (2 ^ nbits), (powList (x / shift) (2 ^ nbits) 1).getD j 0 * mg nbits ^ ((2 ^ nbits - k) % 2 ^ nbits * j) =
        ∑ j ∈ range (2 ^ nbits), (x / shift) ^ j * mg nbits ^ ((2 ^ nbits - k) % 2 ^ nbits * j) := by
      apply sum_congr rfl
      intro j hj
      rw [p2 j (mem_range.mp hj), one_mul]
    rw [this, mul_pow, ← pow_mul, mul_comm i k]
    ring
  rw [sum_congr rfl hv, sum_comm, eval_eq_sum_range' hdeg]
  apply sum_congr rfl
  intro i hi
  rw [← mul_sum, ← mul_sum, FftP.inv_sum hprim (fun j => (x / shift) ^ j) (mem_range.mp hi), div_pow]
  field_simp

/-- C39 with the code's constants and buffers: a column (of dimension 1 or 3, at `offset` in rows of `size` cells) whose rows of
the extended domain hold the values of `P` on the coset is opened to `P(x)`. -/
theorem openEval_K {nbits ext : Nat} (h : nbits + ext ≤ 32) (hlt : nbits < 32) (x : Ext3.K) (P : Ext3.K[X])
    (hdeg : P.natDegree < 2 ^ nbits) (buffer : List GL.F) (offset size dim : Nat)
    (hval : ∀ j < 2 ^ (nbits + ext),
      colVal (algebraMap GL.F Ext3.K) Ext3.coord buffer offset size dim j = P.eval (shiftK * mgK (nbits + ext) ^ j)) :
    ∃ l, lev mgK shiftK x nbits = some l ∧
      openEval l (colVal (algebraMap GL.F Ext3.K) Ext3.coord buffer offset size dim) nbits ext = P.eval x :=
  openEval_spec (rootsK h) hlt two_neK shiftK x
    ((map_ne_zero (algebraMap GL.F Ext3.K)).2 fun h => by have := Roots.shift_inv; rw [h, zero_mul] at this; exact zero_ne_one this)
    P hdeg _ hval

/-- non-vacuity: a constant-and-linear column, dimension 1, one column per row, 4 rows extended to 8. -/
example : ∃ l, lev mgK shiftK (Ext3.coord 3 4 5) 2 = some l ∧
    openEval l (colVal (algebraMap GL.F Ext3.K) Ext3.coord ((List.range 8).map fun j => Roots.shift * Roots.mg 3 ^ j) 0 1 1) 2 1
      = Ext3.coord 3 4 5 := by
  have := openEval_K (nbits := 2) (ext := 1) (by decide) (by decide) (Ext3.coord 3 4 5) X (by rw [natDegree_X]; decide)
    ((List.range 8).map fun j => Roots.shift * Roots.mg 3 ^ j) 0 1 1 (by
      intro j hj
      have hj' : j < 8 := hj
      rw [colVal, if_pos rfl, List.getD_eq_getElem?_getD, List.getElem?_map, Nat.mul_one, Nat.add_zero, List.getElem?_range hj']
      simp [shiftK, mgK])
  simpa using this

/-! ### C40 -/

/-- the `p`-th piece of length `N` of a polynomial -/
noncomputable def piece (N p : Nat) (P : A[X]) : A[X] := ∑ i ∈ range N, C (P.coeff (p * N + i)) * X ^ i

theorem piece_eval (N p : Nat) (P : A[X]) (x : A) : (piece N p P).eval x = ∑ i ∈ range N, P.coeff (p * N + i) * x ^ i := by
  unfold piece; rw [eval_finsetSum]; simp

theorem piece_natDegree {N : Nat} (hN : 0 < N) (p : Nat) (P : A[X]) : (piece N p P).natDegree < N := by
  have : (piece N p P).natDegree ≤ N - 1 := by
    unfold piece
    apply natDegree_sum_le_of_forall_le
    intro i hi
    exact (natDegree_C_mul_X_pow_le _ _).trans (by have := mem_range.mp hi; omega)
  omega

theorem sum_range_mul (N q : Nat) (f : Nat → A) : ∑ i ∈ range (q * N), f i = ∑ p ∈ range q, ∑ i ∈ range N, f (p * N + i) := by
  induction q with
  | zero => simp
  | succ q ih => rw [Nat.succ_mul, sum_range_add, ih, sum_range_succ]

theorem pieces_eval {N q : Nat} (P : A[X]) (hdeg : P.natDegree < q * N) (x : A) :
    P.eval x = ∑ p ∈ range q, (x ^ N) ^ p * (piece N p P).eval x := by
  rw [eval_eq_sum_range' hdeg, sum_range_mul]
  apply sum_congr rfl
  intro p _
  rw [piece_eval, mul_sum]
  apply sum_congr rfl
  intro i _
  rw [pow_add, mul_comm p N, pow_mul]; ring

theorem pieces_sum {N q : Nat} (hN : 0 < N) (P : A[X]) (hdeg : P.natDegree < q * N) :
    P = ∑ p ∈ range q, X ^ (p * N) * piece N p P := by
  ext n
  rw [finsetSum_coeff]
  have hterm : ∀ p ∈ range q, (X ^ (p * N) * piece N p P).coeff n = if n / N = p then P.coeff n else 0 := by
    intro p _
    rw [coeff_X_pow_mul', piece, finsetSum_coeff]
    by_cases hle : p * N ≤ n
    · rw [if_pos hle]
      by_cases hd : n / N = p
      · rw [if_pos hd]
        have hlt : n - p * N < N := by
          have := Nat.div_add_mod n N
          have h2 := Nat.mod_lt n hN
          rw [hd, mul_comm] at this; omega
        rw [sum_eq_single_of_mem (n - p * N) (mem_range.mpr hlt)]
        · simp [coeff_X_pow, Nat.add_sub_cancel' hle]
        · intro i _ hi; simp [coeff_X_pow, Ne.symm hi]
      · rw [if_neg hd]
        apply sum_eq_zero
        intro i hi
        have hi' := mem_range.mp hi
        have : n - p * N ≠ i := by
          rintro rfl
          apply hd
          rw [Nat.div_eq_iff_eq_mul_left_aux hN hle hi']
          trivial
        simp [coeff_X_pow, this]
    · rw [if_neg hle, if_neg]
      rintro rfl
      exact hle (Nat.div_mul_le_self n N)
  rw [sum_congr rfl hterm, sum_ite_eq]
  split_ifs with h
  · rfl
  · apply coeff_eq_zero_of_natDegree_lt
    rw [mem_range, not_lt] at h
    have := (Nat.le_div_iff_mul_le hN).mp h
    omega
where
  Nat.div_eq_iff_eq_mul_left_aux {n p N : Nat} (hN : 0 < N) (hle : p * N ≤ n) (hi : n - p * N < N) : (n / N = p) = True := by
    apply eq_true
    apply Nat.div_eq_of_lt_le hle
    rw [Nat.succ_mul]; omega

theorem qq2_get (qq1 : FftP.Buf A) {nBits qDeg qDim : Nat} (s : A) {i p k : Nat} (hp : p < qDeg) (hk : k < qDim) :
    qq2 qq1 nBits qDeg qDim s (i * (qDim * qDeg) + (qDim * p + k)) =
      if i < 2 ^ nBits then qq1 (p * 2 ^ nBits * qDim + i * qDim + k) * s ^ p else 0 := by
  have hlt : qDim * p + k < qDim * qDeg := by
    calc qDim * p + k < qDim * p + qDim := by omega
      _ = qDim * (p + 1) := by ring
      _ ≤ qDim * qDeg := Nat.mul_le_mul_left _ hp
  have h1 : (i * (qDim * qDeg) + (qDim * p + k)) / (qDim * qDeg) = i := by
    rw [Nat.add_comm, Nat.add_mul_div_right _ _ (by omega), Nat.div_eq_of_lt hlt, Nat.zero_add]
  have h2 : (i * (qDim * qDeg) + (qDim * p + k)) % (qDim * qDeg) = qDim * p + k := by
    rw [Nat.add_comm, Nat.add_mul_mod_self_right, Nat.mod_eq_of_lt hlt]
  have h3 : (qDim * p + k) / qDim = p := by
    rw [Nat.add_comm, Nat.add_mul_div_left _ _ (by omega), Nat.div_eq_of_lt hk, Nat.zero_add]
  have h4 : (i * (qDim * qDeg) + (qDim * p + k)) % qDim = k := by
    rw [show i * (qDim * qDeg) + (qDim * p + k) = k + qDim * (i * qDeg + p) by ring, Nat.add_mul_mod_self_left, Nat.mod_eq_of_lt hk]
  unfold qq2
  dsimp only
  rw [h1, h2, h3, h4]

/-- C40, prover: if column `k < q_dim` of `q_2ns` holds the values on the extended coset of a polynomial `P k` of degree below
`q_deg * N`, then `cm4_2ns` holds in column `q_dim * p + k` the values on the coset of polynomials `Q p k` of degree below `N`
with `P k = Σ_p X^(p N) Q p k`. -/
theorem splitQ_spec {mg : Nat → A} {nBits ext : Nat} (hw : Roots mg ext) (h2 : (2 : A) ≠ 0) (hext : ext ≤ 32)
    (hext0 : 0 < ext) (shift : A) (hs : shift ≠ 0) {workers qDeg qDim : Nat} (hwk : 0 < workers) (hqd : 0 < qDim) (hq : 0 < qDeg)
    (hfit : qDeg * 2 ^ nBits ≤ 2 ^ ext) (q2ns qq1d cm4d : FftP.Buf A) (P : Nat → A[X])
    (hdeg : ∀ k < qDim, (P k).natDegree < qDeg * 2 ^ nBits)
    (hval : ∀ k < qDim, ∀ j < 2 ^ ext, q2ns (j * qDim + k) = (P k).eval (shift * mg ext ^ j)) :
    ∃ out, splitQ mg shift workers nBits ext qDeg qDim q2ns qq1d cm4d = some out ∧ ∃ Q : Nat → Nat → A[X],
      (∀ p k, (Q p k).natDegree < 2 ^ nBits) ∧ (∀ k < qDim, P k = ∑ p ∈ range qDeg, X ^ (p * 2 ^ nBits) * Q p k) ∧
      ∀ k < qDim, ∀ p < qDeg, ∀ r < 2 ^ ext, out (r * (qDim * qDeg) + (qDim * p + k)) = (Q p k).eval (shift * mg ext ^ r) := by
  obtain ⟨qq1, e1, hqq1⟩ := FftP.ifft_spec hw h2 hext hext0 hwk hqd q2ns qq1d
  have hco : ∀ k < qDim, ∀ r < 2 ^ ext, qq1 (r * qDim + k) = (P k).coeff r * shift ^ r := by
    intro k hk
    apply hqq1 k hk (fun i => (P k).coeff i * shift ^ i)
    intro j hj
    rw [hval k hk j hj, eval_eq_sum_range' (lt_of_lt_of_le (hdeg k hk) hfit)]
    apply sum_congr rfl
    intro i _
    rw [mul_pow, ← pow_mul]; ring
  obtain ⟨out, e2, hout⟩ := FftP.fft_spec hw hext hext0 hwk (Nat.mul_pos hqd hq)
    (qq2 qq1 nBits qDeg qDim (shift⁻¹ ^ 2 ^ nBits)) cm4d
  refine ⟨out, ?_, fun p k => piece (2 ^ nBits) p (P k), fun p k => piece_natDegree (by positivity) p _,
    fun k hk => pieces_sum (by positivity) _ (hdeg k hk), fun k hk p hp r hr => ?_⟩
  · unfold splitQ
    rw [e1, Option.bind_some, if_neg (by omega), if_neg (by omega), e2]
  · have hlt : qDim * p + k < qDim * qDeg := by
      calc qDim * p + k < qDim * p + qDim := by omega
        _ = qDim * (p + 1) := by ring
        _ ≤ qDim * qDeg := Nat.mul_le_mul_left _ hp
    rw [hout _ hlt r hr, piece_eval]
    have hNle : 2 ^ nBits ≤ 2 ^ ext := le_trans (Nat.le_mul_of_pos_left _ hq) hfit
    rw [← sum_range_add_sum_Ico _ hNle]
    have htail : ∑ j ∈ Ico (2 ^ nBits) (2 ^ ext), qq2 qq1 nBits qDeg qDim (shift⁻¹ ^ 2 ^ nBits) (j * (qDim * qDeg) + (qDim * p + k)) *
        mg ext ^ (r * j) = 0 := by
      apply sum_eq_zero
      intro j hj
      rw [qq2_get _ _ hp hk, if_neg (by have := (mem_Ico.mp hj).1; omega), zero_mul]
    rw [htail, add_zero]
    apply sum_congr rfl
    intro i hi
    have hi' := mem_range.mp hi
    have hidx : p * 2 ^ nBits + i < 2 ^ ext := by
      calc p * 2 ^ nBits + i < p * 2 ^ nBits + 2 ^ nBits := by omega
        _ = (p + 1) * 2 ^ nBits := by ring
        _ ≤ qDeg * 2 ^ nBits := Nat.mul_le_mul_right _ hp
        _ ≤ _ := hfit
    rw [qq2_get _ _ hp hk, if_pos hi', show p * 2 ^ nBits * qDim + i * qDim + k = (p * 2 ^ nBits + i) * qDim + k by ring,
      hco k hk _ hidx, ← pow_mul, mul_comm (2 ^ nBits) p, pow_add shift, inv_pow, mul_pow, ← pow_mul]
    have : shift ^ (p * 2 ^ nBits) ≠ 0 := pow_ne_zero _ hs
    field_simp

theorem recombine_eq (xn : A) (es : List A) : ∀ acc q, recombine xn es acc q = q + acc * ∑ p ∈ range es.length, xn ^ p * es.getD p 0 := by
  induction es with
  | nil => intro acc q; simp [recombine]
  | cons e es ih =>
    intro acc q
    rw [recombine, ih, List.length_cons, sum_range_succ']
    simp only [List.getD_cons_succ, List.getD_cons_zero, pow_zero, one_mul, pow_succ', mul_add]
    have : ∑ p ∈ range es.length, xn * xn ^ p * es.getD p 0 = xn * ∑ p ∈ range es.length, xn ^ p * es.getD p 0 := by
      rw [mul_sum]; apply sum_congr rfl; intro i _; ring
    rw [this]; ring

/-- C40, verifier: recombining the openings at `x` of pieces `Q p` with `P = Σ_p X^(p N) Q p` gives `P(x)`. -/
theorem recombine_spec {N : Nat} (P : A[X]) (Q : List A[X]) (hPQ : P = ∑ p ∈ range Q.length, X ^ (p * N) * Q.getD p 0) (x : A) :
    recombine (x ^ N) (Q.map fun q => q.eval x) 1 0 = P.eval x := by
  rw [recombine_eq, hPQ, eval_finsetSum, zero_add, one_mul, List.length_map]
  apply sum_congr rfl
  intro p hp
  have hp' := mem_range.mp hp
  rw [List.getD_eq_getElem?_getD, List.getElem?_map, List.getD_eq_getElem?_getD, List.getElem?_eq_getElem hp']
  simp [← pow_mul, mul_comm]

/-- C40 end to end with the code's constants: for quotient columns of degree below `q_deg * N` (`q_deg * N` at most the extended
size), what the verifier recombines from the openings of the committed pieces is the quotient at the point. -/
theorem splitQ_K {nBits ext : Nat} (hext : ext ≤ 32) (hext0 : 0 < ext) {workers qDeg qDim : Nat} (hwk : 0 < workers) (hqd : 0 < qDim)
    (hq : 0 < qDeg) (hfit : qDeg * 2 ^ nBits ≤ 2 ^ ext) (q2ns qq1d cm4d : FftP.Buf Ext3.K) (P : Nat → Ext3.K[X])
    (hdeg : ∀ k < qDim, (P k).natDegree < qDeg * 2 ^ nBits)
    (hval : ∀ k < qDim, ∀ j < 2 ^ ext, q2ns (j * qDim + k) = (P k).eval (shiftK * mgK ext ^ j)) :
    ∃ out, splitQ mgK shiftK workers nBits ext qDeg qDim q2ns qq1d cm4d = some out ∧ ∃ Q : Nat → Nat → Ext3.K[X],
      (∀ p k, (Q p k).natDegree < 2 ^ nBits) ∧
      (∀ k < qDim, ∀ p < qDeg, ∀ r < 2 ^ ext, out (r * (qDim * qDeg) + (qDim * p + k)) = (Q p k).eval (shiftK * mgK ext ^ r)) ∧
      ∀ k < qDim, ∀ x, recombine (x ^ 2 ^ nBits) ((List.range qDeg).map fun p => (Q p k).eval x) 1 0 = (P k).eval x := by
  obtain ⟨out, e, Q, h1, h2, h3⟩ := splitQ_spec (rootsK hext) two_neK hext hext0 shiftK
    ((map_ne_zero (algebraMap GL.F Ext3.K)).2 fun h => by have := Roots.shift_inv; rw [h, zero_mul] at this; exact zero_ne_one this)
    hwk hqd hq hfit q2ns qq1d cm4d P hdeg hval
  refine ⟨out, e, Q, h1, h3, fun k hk x => ?_⟩
  have := recombine_spec (N := 2 ^ nBits) (P k) ((List.range qDeg).map fun p => Q p k) (by
    rw [List.length_map, List.length_range]
    refine (h2 k hk).trans (sum_congr rfl fun p hp => ?_)
    rw [List.getD_eq_getElem?_getD, List.getElem?_map, List.getElem?_range (mem_range.mp hp)]; rfl) x
  rw [List.map_map] at this
  exact this

/-- non-vacuity of `splitQ_K`: the quotient `X^5 + 7`, `N = 4`, two pieces. -/
example : ∃ out, splitQ mgK shiftK 3 2 3 2 1 (fun j => (X ^ 5 + C 7 : Ext3.K[X]).eval (shiftK * mgK 3 ^ j)) (fun _ => 0) (fun _ => 0) = some out := by
  obtain ⟨out, h, _⟩ := splitQ_K (nBits := 2) (ext := 3) (by decide) (by decide) (workers := 3) (qDeg := 2) (qDim := 1) (by decide) (by decide)
    (by decide) (by decide) (fun j => (X ^ 5 + C 7 : Ext3.K[X]).eval (shiftK * mgK 3 ^ j)) (fun _ => 0) (fun _ => 0) (fun _ => X ^ 5 + C 7)
    (fun _ _ => by rw [natDegree_X_pow_add_C]; decide) (fun k hk j _ => by have : k = 0 := by omega
                                                                           subst this; simp)
  exact ⟨out, h⟩

end Verif.Stark
