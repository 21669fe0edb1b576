import Verif.Io.R1csProps

/-!
# Tables of polynomials: model of `PolsArray::save` and `PolsArray::load`, starky/src/polsarray.rs

A cell is the canonical representative of a Goldilocks element (`as_int`; `FGL::from` of a 64-bit word is its residue, see `GL`).  All polynomials
have `n` rows.  `maxBuffer` is the constant `1024 * 1024 * 32`.  Words are little-endian (the code copies memory, so this is the byte order of an
x86 or ARM host).
-/
namespace Verif.Io.Pols
open Verif.Io

/-- `0xFFFFFFFF00000001` -/
def p : Nat := 0xFFFFFFFF00000001

/-! ### Saving -/

/-- state of `save`: buffer, fill position, bytes written -/
structure SS where
  buf : List Nat
  pos : Nat
  out : List Byte

/-- `writer.write_all` of the whole buffer, starky/src/polsarray.rs L197-203 and L208-215 -/
def flush (buf : List Nat) : List Byte := buf.flatMap (le 8)

/-- one value, starky/src/polsarray.rs L193-205 (the capacity of the buffer is its length) -/
def saveStep (st : SS) (v : Nat) : SS :=
  let buf := st.buf.set st.pos (v % p)
  if st.pos + 1 = buf.length then ⟨buf, 0, st.out ++ flush buf⟩ else ⟨buf, st.pos + 1, st.out⟩

/-- the values in the order of the two loops of `save`: row after row -/
def rowMajor (nPols n : Nat) (tbl : Nat → Nat → Nat) : List Nat := (List.range n).flatMap fun i => (List.range nPols).map fun j => tbl j i

/-- `save`, starky/src/polsarray.rs L185-218: the last buffer is written whole even if it is not full -/
def save (maxBuffer nPols n : Nat) (tbl : Nat → Nat → Nat) : List Byte :=
  let st := (rowMajor nPols n tbl).foldl saveStep ⟨List.replicate (min (nPols * n) maxBuffer) 0, 0, []⟩
  if 0 < st.pos then st.out ++ flush st.buf else st.out

/-! ### Loading -/

/-- state of `load`: unread bytes of the file, byte buffer, counters, table -/
structure LS where
  rest : List Byte
  buf : List Byte
  i : Nat
  j : Nat
  k : Nat
  tbl : Nat → Nat → Nat

/-- word `l` of the buffer, starky/src/polsarray.rs L162-167 -/
def word (buf : List Byte) (l : Nat) : Nat := unle ((buf.drop (8 * l)).take 8)

/-- one cell, starky/src/polsarray.rs L171-176 -/
def put (nPols : Nat) (st : LS) (l : Nat) : LS :=
  let tbl := fun a b => if a = st.i ∧ b = st.j then word st.buf l % p else st.tbl a b
  if st.i + 1 = nPols then { st with tbl := tbl, i := 0, j := st.j + 1 } else { st with tbl := tbl, i := st.i + 1 }

/-- one iteration, starky/src/polsarray.rs L146-180.  The operating system may return fewer bytes than asked for: `r` is the number it is willing to
return now. -/
def loadStep (nPols n : Nat) (st : LS) (r : Nat) : LS :=
  let want := min (st.buf.length / 8) (nPols * n - st.k)
  let rs := min r (min (want * 8) st.rest.length)
  let st := { st with buf := st.rest.take rs ++ st.buf.drop rs, rest := st.rest.drop rs }
  let st := (List.range (rs / 8)).foldl (put nPols) st
  { st with k := st.k + rs / 8 }

/-- the loop of `load`, starky/src/polsarray.rs L145-181, for the sizes that the operating system returns: `none` if it has not finished after
these reads -/
def loadLoop (nPols n : Nat) : List Nat → LS → Option LS
  | [], st => if st.k < nPols * n then none else some st
  | r :: reads, st => if st.k < nPols * n then loadLoop nPols n reads (loadStep nPols n st r) else some st

/-- `load` into the table `tbl0`, starky/src/polsarray.rs L135-183 -/
def load (maxBuffer nPols n : Nat) (file : List Byte) (tbl0 : Nat → Nat → Nat) (reads : List Nat) : Option (Nat → Nat → Nat) :=
  (loadLoop nPols n reads ⟨file, List.replicate (min (nPols * n) maxBuffer * 8) 0, 0, 0, 0, tbl0⟩).map (·.tbl)

/-! ### Saving: the file begins with the values -/

theorem flush_length (l : List Nat) : (flush l).length = l.length * 8 := by
  rw [flush, List.length_flatMap]
  simp only [le_length, List.map_const', List.sum_replicate]
  rfl

theorem save_inv (vs : List Nat) (st : SS) (done : List Nat) (hb : 0 < st.buf.length) (hp : st.pos < st.buf.length)
    (ho : st.out ++ flush (st.buf.take st.pos) = flush done) :
    let st' := vs.foldl saveStep st
    st'.pos < st'.buf.length ∧ st'.out ++ flush (st'.buf.take st'.pos) = flush (done ++ vs.map (· % p)) := by
  induction vs generalizing st done with
  | nil => simpa using ⟨hp, ho⟩
  | cons v vs ih =>
    have htake : (st.buf.set st.pos (v % p)).take (st.pos + 1) = st.buf.take st.pos ++ [v % p] := by
      rw [List.take_add_one, List.take_set_of_le (Nat.le_refl _), List.getElem?_set_self hp]
      rfl
    have hstep : 0 < (saveStep st v).buf.length ∧ (saveStep st v).pos < (saveStep st v).buf.length ∧
        (saveStep st v).out ++ flush ((saveStep st v).buf.take (saveStep st v).pos) = flush (done ++ [v % p]) := by
      unfold saveStep
      dsimp only
      split
      · rename_i h
        dsimp only
        rw [List.length_set] at h ⊢
        refine ⟨hb, hb, ?_⟩
        rw [List.take_zero, flush, flush, List.flatMap_nil, List.append_nil]
        have e : st.buf.set st.pos (v % p) = st.buf.take st.pos ++ [v % p] := by
          rw [← htake, h, List.take_of_length_le (by rw [List.length_set])]
        rw [e, List.flatMap_append, ← List.append_assoc]
        have := ho
        unfold flush at this
        rw [this, flush, List.flatMap_append]
      · dsimp only
        rw [List.length_set] at *
        refine ⟨hb, by omega, ?_⟩
        rw [htake, flush, List.flatMap_append, ← List.append_assoc]
        have := ho
        unfold flush at this
        rw [this, flush, List.flatMap_append]
    obtain ⟨h1, h2, h3⟩ := hstep
    have := ih (saveStep st v) (done ++ [v % p]) h1 h2 h3
    simpa using this

theorem rowMajor_length (nPols n : Nat) (tbl : Nat → Nat → Nat) : (rowMajor nPols n tbl).length = nPols * n := by
  rw [rowMajor, List.length_flatMap]
  simp only [List.length_map, List.length_range, List.map_const', List.sum_replicate]
  exact Nat.mul_comm _ _

theorem rowMajor_get (nPols n : Nat) (tbl : Nat → Nat → Nat) (q : Nat) (hq : q < nPols * n) : (rowMajor nPols n tbl)[q]? = some (tbl (q % nPols) (q / nPols)) := by
  have hP : 0 < nPols := by
    rcases Nat.eq_zero_or_pos nPols with h | h
    · subst h; simp at hq
    · exact h
  unfold rowMajor
  induction n with
  | zero => simp at hq
  | succ n ih =>
    rw [List.range_succ, List.flatMap_append]
    have hlen := rowMajor_length nPols n tbl
    unfold rowMajor at hlen
    by_cases h : q < nPols * n
    · rw [List.getElem?_append_left (by rw [hlen]; exact h), ih h]
    · have hq' : q - nPols * n < nPols := by
        rw [Nat.mul_succ] at hq
        omega
      have e : q = q - nPols * n + nPols * n := by omega
      rw [List.getElem?_append_right (by rw [hlen]; omega), hlen]
      simp only [List.flatMap_cons, List.flatMap_nil, List.append_nil]
      rw [List.getElem?_map, List.getElem?_range hq']
      have h1 : q % nPols = q - nPols * n := by
        conv_lhs => rw [e]
        rw [Nat.add_mul_mod_self_left, Nat.mod_eq_of_lt hq']
      have h2 : q / nPols = n := by
        conv_lhs => rw [e]
        rw [Nat.add_mul_div_left _ _ hP, Nat.div_eq_of_lt hq', Nat.zero_add]
      rw [h1, h2]
      rfl

/-- the saved file is the values row after row, possibly followed by stale words -/
theorem save_spec (maxBuffer nPols n : Nat) (tbl : Nat → Nat → Nat) (hm : 0 < maxBuffer) (ht : ∀ j i, tbl j i < p) :
    ∃ tail, save maxBuffer nPols n tbl = (rowMajor nPols n tbl).flatMap (le 8) ++ tail := by
  have hval : (rowMajor nPols n tbl).map (· % p) = rowMajor nPols n tbl := by
    conv_rhs => rw [← List.map_id (rowMajor nPols n tbl)]
    refine List.map_congr_left fun v hv => ?_
    simp only [rowMajor, List.mem_flatMap, List.mem_map] at hv
    obtain ⟨i, -, j, -, rfl⟩ := hv
    exact Nat.mod_eq_of_lt (ht j i)
  unfold save
  rcases Nat.eq_zero_or_pos (nPols * n) with h0 | h0
  · have : rowMajor nPols n tbl = [] := List.length_eq_zero_iff.mp (by rw [rowMajor_length, h0])
    rw [this]
    exact ⟨[], by simp⟩
  · obtain ⟨h1, h2⟩ := save_inv (rowMajor nPols n tbl) ⟨List.replicate (min (nPols * n) maxBuffer) 0, 0, []⟩ [] (by rw [List.length_replicate]; exact Nat.lt_min.mpr ⟨h0, hm⟩) (by rw [List.length_replicate]; exact Nat.lt_min.mpr ⟨h0, hm⟩) rfl
    dsimp only at h1 h2 ⊢
    rw [List.nil_append, hval] at h2
    split
    · rename_i hpos
      refine ⟨flush ((List.foldl saveStep ⟨List.replicate (min (nPols * n) maxBuffer) 0, 0, []⟩ (rowMajor nPols n tbl)).buf.drop
        (List.foldl saveStep ⟨List.replicate (min (nPols * n) maxBuffer) 0, 0, []⟩ (rowMajor nPols n tbl)).pos), ?_⟩
      have e : (rowMajor nPols n tbl).flatMap (le 8) = flush (rowMajor nPols n tbl) := rfl
      rw [e, ← h2, List.append_assoc]
      congr 1
      rw [flush, flush, flush, ← List.flatMap_append, List.take_append_drop]
    · rename_i hpos
      have hz : (List.foldl saveStep ⟨List.replicate (min (nPols * n) maxBuffer) 0, 0, []⟩ (rowMajor nPols n tbl)).pos = 0 := by omega
      rw [hz] at h2
      refine ⟨[], ?_⟩
      rw [List.append_nil]
      simpa [flush] using h2

/-! ### Loading -/

theorem word_flush (vs : List Nat) (tail : List Byte) (l : Nat) (hl : l < vs.length) (hv : ∀ v ∈ vs, v < 2 ^ 64) :
    word (flush vs ++ tail) l = vs.getD l 0 := by
  unfold word
  induction vs generalizing l with
  | nil => simp at hl
  | cons v vs ih =>
    have hv' : v < 256 ^ 8 := by rw [p64]; exact hv v (by simp)
    cases l with
    | zero =>
      rw [flush, List.flatMap_cons, Nat.mul_zero, List.drop_zero, List.append_assoc, List.take_left' (le_length _ _), unle_le_of_lt hv']
      rfl
    | succ l =>
      rw [flush, List.flatMap_cons, Nat.mul_succ, Nat.add_comm, ← List.drop_drop, List.append_assoc, List.drop_left' (le_length _ _)]
      exact ih l (by simpa using hl) fun v hv' => hv v (by simp [hv'])

/-- the cells written by `m` words -/
theorem puts_spec (nPols : Nat) (hP : 0 < nPols) (st : LS) (m : Nat) (hi : st.i = st.k % nPols) (hj : st.j = st.k / nPols) :
    let st' := (List.range m).foldl (put nPols) st
    st'.rest = st.rest ∧ st'.buf = st.buf ∧ st'.k = st.k ∧ st'.i = (st.k + m) % nPols ∧ st'.j = (st.k + m) / nPols ∧
      (∀ q, q < st.k → st'.tbl (q % nPols) (q / nPols) = st.tbl (q % nPols) (q / nPols)) ∧
      ∀ l < m, st'.tbl ((st.k + l) % nPols) ((st.k + l) / nPols) = word st.buf l % p := by
  induction m with
  | zero => simp [hi, hj]
  | succ m ih =>
    obtain ⟨h1, h2, h3, h4, h5, h6, h7⟩ := ih
    rw [List.range_succ, List.foldl_append, List.foldl_cons, List.foldl_nil]
    dsimp only at h1 h2 h3 h4 h5 h6 h7 ⊢
    generalize (List.range m).foldl (put nPols) st = s at *
    have hne : ∀ q, q < st.k + m → ¬ (q % nPols = s.i ∧ q / nPols = s.j) := by
      rintro q hq ⟨e1, e2⟩
      rw [h4] at e1
      rw [h5] at e2
      have a := Nat.div_add_mod q nPols
      have b := Nat.div_add_mod (st.k + m) nPols
      rw [e1, e2] at a
      omega
    have hmod : (s.i + 1 = nPols → (st.k + (m + 1)) % nPols = 0 ∧ (st.k + (m + 1)) / nPols = s.j + 1) ∧
        (s.i + 1 ≠ nPols → (st.k + (m + 1)) % nPols = s.i + 1 ∧ (st.k + (m + 1)) / nPols = s.j) := by
      have b := Nat.div_add_mod (st.k + m) nPols
      rw [← h4, ← h5] at b
      have hlt : s.i < nPols := by rw [h4]; exact Nat.mod_lt _ hP
      constructor
      · intro e
        have : st.k + (m + 1) = nPols * (s.j + 1) := by rw [Nat.mul_succ]; omega
        rw [this]
        exact ⟨Nat.mul_mod_right _ _, Nat.mul_div_cancel_left _ hP⟩
      · intro e
        have : st.k + (m + 1) = nPols * s.j + (s.i + 1) := by omega
        rw [this, Nat.mul_add_mod, Nat.mod_eq_of_lt (by omega), Nat.mul_add_div hP, Nat.div_eq_of_lt (by omega)]
        exact ⟨rfl, rfl⟩
    have htbl : ∀ a b, (put nPols s m).tbl a b = if a = s.i ∧ b = s.j then word s.buf m % p else s.tbl a b := by
      intro a b; unfold put; dsimp only; split <;> rfl
    have hput : (put nPols s m).rest = s.rest ∧ (put nPols s m).buf = s.buf ∧ (put nPols s m).k = s.k := by
      unfold put; dsimp only; split <;> exact ⟨rfl, rfl, rfl⟩
    have hij : (put nPols s m).i = (st.k + (m + 1)) % nPols ∧ (put nPols s m).j = (st.k + (m + 1)) / nPols := by
      unfold put; dsimp only
      split
      · rename_i e; exact ⟨(hmod.1 e).1.symm, (hmod.1 e).2.symm⟩
      · rename_i e; exact ⟨(hmod.2 e).1.symm, (hmod.2 e).2.symm⟩
    refine ⟨by rw [hput.1, h1], by rw [hput.2.1, h2], by rw [hput.2.2, h3], hij.1, hij.2, fun q hq => ?_, fun l hl => ?_⟩
    · rw [htbl, if_neg (hne q (by omega)), h6 q hq]
    · by_cases e : l = m
      · subst e
        rw [htbl, if_pos ⟨h4.symm, h5.symm⟩, h2]
      · rw [htbl, if_neg (hne _ (by omega)), h7 l (by omega)]

/-- the state while loading values `vs` -/
structure Inv (nPols n maxBuffer : Nat) (vs : List Nat) (tail : List Byte) (st : LS) : Prop where
  k : st.k ≤ vs.length
  rest : st.rest = flush (vs.drop st.k) ++ tail
  buf : st.buf.length = min (nPols * n) maxBuffer * 8
  i : st.i = st.k % nPols
  j : st.j = st.k / nPols
  tbl : ∀ q < st.k, st.tbl (q % nPols) (q / nPols) = vs.getD q 0 % p

theorem loadStep_inv {nPols n maxBuffer : Nat} {vs : List Nat} {tail : List Byte} {st : LS} (h : Inv nPols n maxBuffer vs tail st) (hP : 0 < nPols)
    (hlen : vs.length = nPols * n) (hv : ∀ v ∈ vs, v < 2 ^ 64) (r : Nat) (h8 : r % 8 = 0) :
    Inv nPols n maxBuffer vs tail (loadStep nPols n st r) ∧
      (0 < r → 0 < maxBuffer → st.k < nPols * n → st.k < (loadStep nPols n st r).k) := by
  obtain ⟨h1, h2, h3, h4, h5, h6⟩ := h
  -- number of words of this read
  have hrl : st.rest.length = (vs.length - st.k) * 8 + tail.length := by rw [h2, List.length_append, flush_length, List.length_drop]
  obtain ⟨c, hc⟩ : ∃ c, min r (min (min (st.buf.length / 8) (nPols * n - st.k) * 8) st.rest.length) = c * 8 := by
    have hw : min (st.buf.length / 8) (nPols * n - st.k) * 8 ≤ st.rest.length := by
      rw [hrl, hlen]; omega
    rw [Nat.min_eq_left hw]
    refine ⟨min (r / 8) (min (st.buf.length / 8) (nPols * n - st.k)), ?_⟩
    omega
  have hcle : c ≤ vs.length - st.k := by
    have : c * 8 ≤ min (st.buf.length / 8) (nPols * n - st.k) * 8 := by rw [← hc]; omega
    omega
  have hcbuf : c * 8 ≤ st.buf.length := by
    have : c * 8 ≤ min (st.buf.length / 8) (nPols * n - st.k) * 8 := by rw [← hc]; omega
    omega
  have htake : st.rest.take (c * 8) = flush ((vs.drop st.k).take c) := by
    have e : flush (vs.drop st.k) = flush ((vs.drop st.k).take c) ++ flush ((vs.drop st.k).drop c) := by
      rw [flush, flush, flush, ← List.flatMap_append, List.take_append_drop]
    rw [h2, e, List.append_assoc, List.take_left' (by rw [flush_length, List.length_take, List.length_drop]; omega)]
  have hdrop : st.rest.drop (c * 8) = flush (vs.drop (st.k + c)) ++ tail := by
    have e : flush (vs.drop st.k) = flush ((vs.drop st.k).take c) ++ flush ((vs.drop st.k).drop c) := by
      rw [flush, flush, flush, ← List.flatMap_append, List.take_append_drop]
    rw [h2, e, List.append_assoc, List.drop_left' (by rw [flush_length, List.length_take, List.length_drop]; omega), List.drop_drop]
  unfold loadStep
  dsimp only
  rw [hc, Nat.mul_div_cancel _ (by norm_num)]
  obtain ⟨p1, p2, p3, p4, p5, p6, p7⟩ := puts_spec nPols hP { st with buf := st.rest.take (c * 8) ++ st.buf.drop (c * 8), rest := st.rest.drop (c * 8) } c h4 h5
  dsimp only at p1 p2 p3 p4 p5 p6 p7
  generalize (List.range c).foldl (put nPols) { st with buf := st.rest.take (c * 8) ++ st.buf.drop (c * 8), rest := st.rest.drop (c * 8) } = s at *
  refine ⟨⟨by dsimp only; omega, ?_, ?_, ?_, ?_, ?_⟩, ?_⟩
  · dsimp only; rw [p1, hdrop, p3]
  · dsimp only
    rw [p2, List.length_append, List.length_take, List.length_drop, hrl, ← h3]
    omega
  · dsimp only; rw [p4, p3]
  · dsimp only; rw [p5, p3]
  · intro q hq
    dsimp only at hq ⊢
    rw [p3] at hq
    by_cases hqk : q < st.k
    · rw [p6 q hqk, h6 q hqk]
    · have hl := p7 (q - st.k) (by omega)
      rw [show st.k + (q - st.k) = q by omega] at hl
      rw [hl, htake, word_flush _ _ _ (by rw [List.length_take, List.length_drop]; omega)
        (fun v hv' => hv v (List.mem_of_mem_drop (List.mem_of_mem_take hv')))]
      rw [List.getD_eq_getElem?_getD, List.getElem?_take_of_lt (by omega), List.getElem?_drop, show st.k + (q - st.k) = q by omega,
        ← List.getD_eq_getElem?_getD]
  · intro hr hm hk
    rw [p3]
    have : 0 < c * 8 := by
      rw [← hc]
      have : 8 ≤ r := by omega
      have hb : 0 < st.buf.length / 8 := by rw [h3]; omega
      have : 0 < st.rest.length := by rw [hrl]; omega
      omega
    omega

/-- **Loading a saved table** (C47, `_partial`: the sizes returned by the operating system must be multiples of 8; see `load_short_read`): for every table, every
buffer size and every sequence of read sizes that are positive multiples of 8, long enough, the table is loaded as it was saved, whatever bytes follow. -/
theorem load_save_partial (maxBuffer nPols n : Nat) (hm : 0 < maxBuffer) (tbl tbl0 : Nat → Nat → Nat) (ht : ∀ j i, tbl j i < p) (extra : List Byte)
    (reads : List Nat) (h8 : ∀ r ∈ reads, 0 < r ∧ r % 8 = 0) (hlen : nPols * n ≤ reads.length) :
    ∃ tbl', load maxBuffer nPols n (save maxBuffer nPols n tbl ++ extra) tbl0 reads = some tbl' ∧ ∀ j < nPols, ∀ i < n, tbl' j i = tbl j i := by
  obtain ⟨tail, hs⟩ := save_spec maxBuffer nPols n tbl hm ht
  rcases Nat.eq_zero_or_pos (nPols * n) with h0 | h0
  · have hl : ∀ st, loadLoop nPols n reads st = some st := by
      intro st
      cases reads with
      | nil => rw [loadLoop, if_neg (by omega)]
      | cons r reads => rw [loadLoop, if_neg (by omega)]
    refine ⟨tbl0, by rw [load, hl]; rfl, fun j hj i hi => ?_⟩
    exact absurd (Nat.mul_pos (Nat.lt_of_le_of_lt (Nat.zero_le _) hj) (Nat.lt_of_le_of_lt (Nat.zero_le _) hi)) (by omega)
  have hP : 0 < nPols := Nat.pos_of_mul_pos_right h0
  have hv : ∀ v ∈ rowMajor nPols n tbl, v < 2 ^ 64 := by
    intro v hv
    simp only [rowMajor, List.mem_flatMap, List.mem_map] at hv
    obtain ⟨i, -, j, -, rfl⟩ := hv
    exact Nat.lt_of_lt_of_le (ht j i) (by norm_num [p])
  have loop : ∀ (reads : List Nat) (st : LS), (∀ r ∈ reads, 0 < r ∧ r % 8 = 0) → Inv nPols n maxBuffer (rowMajor nPols n tbl) (tail ++ extra) st →
      nPols * n - st.k ≤ reads.length → ∃ st', loadLoop nPols n reads st = some st' ∧ Inv nPols n maxBuffer (rowMajor nPols n tbl) (tail ++ extra) st' ∧
        nPols * n ≤ st'.k := by
    intro reads
    induction reads with
    | nil =>
      intro st _ hi hl
      simp only [List.length_nil] at hl
      exact ⟨st, by rw [loadLoop, if_neg (by omega)], hi, by omega⟩
    | cons r reads ih =>
      intro st h8 hi hl
      rw [loadLoop]
      by_cases hk : st.k < nPols * n
      · rw [if_pos hk]
        obtain ⟨a, b⟩ := loadStep_inv hi hP (rowMajor_length _ _ _) hv r (h8 r (by simp)).2
        have := b (h8 r (by simp)).1 hm hk
        refine ih _ (fun r hr => h8 r (by simp [hr])) a ?_
        rw [List.length_cons] at hl
        omega
      · rw [if_neg hk]
        exact ⟨st, rfl, hi, by omega⟩
  obtain ⟨st', e1, e2, e3⟩ := loop reads ⟨save maxBuffer nPols n tbl ++ extra, List.replicate (min (nPols * n) maxBuffer * 8) 0, 0, 0, 0, tbl0⟩ h8
    ⟨Nat.zero_le _, by rw [hs, List.append_assoc, List.drop_zero]; rfl, by simp, by simp, by simp, by simp⟩ (by simpa using hlen)
  refine ⟨st'.tbl, by rw [load, e1]; rfl, fun j hj i hi => ?_⟩
  have hq : i * nPols + j < nPols * n := by
    calc i * nPols + j < i * nPols + nPols := by omega
      _ = (i + 1) * nPols := by ring
      _ ≤ n * nPols := Nat.mul_le_mul_right _ hi
      _ = nPols * n := Nat.mul_comm _ _
  have h := e2.tbl (i * nPols + j) (by omega)
  have m1 : (i * nPols + j) % nPols = j := by rw [Nat.add_comm, Nat.add_mul_mod_self_right, Nat.mod_eq_of_lt hj]
  have m2 : (i * nPols + j) / nPols = i := by rw [Nat.add_comm, Nat.add_mul_div_right _ _ hP, Nat.div_eq_of_lt hj, Nat.zero_add]
  have hg := rowMajor_get nPols n tbl _ hq
  rw [m1, m2] at hg h
  rw [h, List.getD_eq_getElem?_getD, hg, Option.getD_some, Nat.mod_eq_of_lt (ht j i)]

/-- bytes consumed, counting -/
theorem loadLoop_count (nPols n : Nat) (reads : List Nat) (st st' : LS) (h : loadLoop nPols n reads st = some st') : nPols * n ≤ st'.k ∧ 8 * st'.k + st'.rest.length ≤ 8 * st.k + st.rest.length := by
  have hput : ∀ (m : Nat) (s : LS), ((List.range m).foldl (put nPols) s).rest = s.rest ∧ ((List.range m).foldl (put nPols) s).k = s.k := by
    intro m
    induction m with
    | zero => intro s; exact ⟨rfl, rfl⟩
    | succ m ih =>
      intro s
      rw [List.range_succ, List.foldl_append, List.foldl_cons, List.foldl_nil]
      obtain ⟨a, b⟩ := ih s
      unfold put
      dsimp only
      split <;> exact ⟨a, b⟩
  induction reads generalizing st with
  | nil =>
    rw [loadLoop] at h
    split at h
    · simp at h
    · simp only [Option.some.injEq] at h; subst h; omega
  | cons r reads ih =>
    rw [loadLoop] at h
    split at h
    · obtain ⟨h1, h2⟩ := ih _ h
      refine ⟨h1, Nat.le_trans h2 ?_⟩
      unfold loadStep
      dsimp only
      obtain ⟨a, b⟩ := hput (min r (min (min (st.buf.length / 8) (nPols * n - st.k) * 8) st.rest.length) / 8)
        { st with buf := st.rest.take (min r (min (min (st.buf.length / 8) (nPols * n - st.k) * 8) st.rest.length)) ++
                    st.buf.drop (min r (min (min (st.buf.length / 8) (nPols * n - st.k) * 8) st.rest.length)),
                  rest := st.rest.drop (min r (min (min (st.buf.length / 8) (nPols * n - st.k) * 8) st.rest.length)) }
      rw [a, b]
      dsimp only
      rw [List.length_drop]
      omega
    · simp only [Option.some.injEq] at h; subst h; omega

/-- **A truncated file never loads**: whatever the reads, `load` does not finish (it keeps reading zero bytes). -/
theorem load_truncated (maxBuffer nPols n : Nat) (file : List Byte) (tbl0 : Nat → Nat → Nat) (reads : List Nat) (h : file.length < nPols * n * 8) :
    load maxBuffer nPols n file tbl0 reads = none := by
  rw [load, Option.map_eq_none_iff]
  cases hl : loadLoop nPols n reads ⟨file, List.replicate (min (nPols * n) maxBuffer * 8) 0, 0, 0, 0, tbl0⟩ with
  | none => rfl
  | some st' =>
    obtain ⟨h1, h2⟩ := loadLoop_count _ _ _ _ _ hl
    dsimp only at h2
    omega

/-- **A short read loses bytes** (C47 violated): for a table of one cell saved in 8 bytes, if the first read returns 4 bytes then `load` never finishes. -/
theorem load_short_read (maxBuffer : Nat) (hm : 0 < maxBuffer) (v : Nat) (tbl0 : Nat → Nat → Nat) (reads : List Nat) :
    load maxBuffer 1 1 (save maxBuffer 1 1 fun _ _ => v) tbl0 (4 :: reads) = none := by
  obtain ⟨m, rfl⟩ : ∃ m, maxBuffer = m + 1 := ⟨maxBuffer - 1, by omega⟩
  have hs : (save (m + 1) 1 1 fun _ _ => v).length = 8 := by
    simp [save, rowMajor, saveStep, flush]
  rw [load, Option.map_eq_none_iff, loadLoop, if_pos (by norm_num)]
  cases hl : loadLoop 1 1 reads (loadStep 1 1 ⟨save (m + 1) 1 1 fun _ _ => v, List.replicate (min (1 * 1) (m + 1) * 8) 0, 0, 0, 0, tbl0⟩ 4) with
  | none => rfl
  | some st' =>
    obtain ⟨h1, h2⟩ := loadLoop_count _ _ _ _ _ hl
    unfold loadStep at h2
    simp [hs] at h2
    omega

/-- a table of two columns and three rows, with a buffer of four words, read in pieces of 8, 24 and more bytes -/
example : ∃ t, load 4 2 3 (save 4 2 3 fun j i => 10 * j + i + 1) (fun _ _ => 0) [8, 24, 80, 8, 8, 8] = some t ∧ t 1 2 = 13 := by
  obtain ⟨t, h1, h2⟩ := load_save_partial 4 2 3 (by norm_num) (fun j i => (10 * j + i + 1) % p) (fun _ _ => 0) (fun j i => Nat.mod_lt _ (by norm_num [p])) []
    [8, 24, 80, 8, 8, 8] (by decide) (by decide)
  have e : save 4 2 3 (fun j i => (10 * j + i + 1) % p) ++ [] = save 4 2 3 fun j i => 10 * j + i + 1 := by decide +kernel
  rw [e] at h1
  exact ⟨t, h1, by rw [h2 1 (by norm_num) 2 (by norm_num)]; decide +kernel⟩

end Verif.Io.Pols
