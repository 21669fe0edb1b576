import Verif.Poseidon.Check

/-!
# The checker is sound
-/
namespace Verif.Poseidon
open Matrix

variable {F : Type} [CommRing F] {n : Nat}

/-- a list as a vector -/
def vec (F : Type) [NatCast F] (n : Nat) (l : List Nat) : Fin n → F := fun i => ((l.getD i 0 : Nat) : F)

theorem dot_cast (k : Nat) (a b : List Nat) (ha : a.length = k) (hb : b.length = k) :
    ((dot a b : Nat) : F) = ∑ i : Fin k, ((a.getD i 0 : Nat) : F) * ((b.getD i 0 : Nat) : F) := by
  induction k generalizing a b with
  | zero =>
    rw [List.length_eq_zero_iff] at ha
    subst ha
    simp [dot]
  | succ k ih =>
    match a, b, ha, hb with
    | a :: as, b :: bs, ha, hb =>
      rw [Fin.sum_univ_succ]
      simp only [dot, Nat.cast_add, Nat.cast_mul]
      rw [ih as bs (by simpa using ha) (by simpa using hb)]
      simp

theorem rect_mem {w : Nat} {l : List (List Nat)} (h : rect w l = true) : ∀ r ∈ l, r.length = w := by
  induction l with
  | nil => simp
  | cons a l ih =>
    simp only [rect, Bool.and_eq_true, beq_iff_eq] at h
    intro r hr
    rcases List.mem_cons.mp hr with rfl | hr
    · exact h.1
    · exact ih h.2 r hr

theorem rect_get {w : Nat} {l : List (List Nat)} (h : rect w l = true) (i : Nat) (hi : i < l.length) : (l.getD i []).length = w := by
  rw [List.getD_eq_getElem?_getD, List.getElem?_eq_getElem hi, Option.getD_some]
  exact rect_mem h _ (List.getElem_mem hi)

theorem flatten_getD {w : Nat} {l : List (List Nat)} (h : rect w l = true) (r j : Nat) (hj : j < w) : l.flatten.getD (r * w + j) 0 = at2 l r j := by
  induction l generalizing r with
  | nil => simp [at2]
  | cons a l ih =>
    simp only [rect, Bool.and_eq_true, beq_iff_eq] at h
    rw [List.flatten_cons, List.getD_eq_getElem?_getD]
    cases r with
    | zero =>
      rw [List.getElem?_append_left (by omega)]
      simp [at2]
    | succ r =>
      rw [List.getElem?_append_right (by rw [h.1, Nat.succ_mul]; omega), show (r + 1) * w + j - a.length = r * w + j by rw [h.1, Nat.succ_mul]; omega,
        ← List.getD_eq_getElem?_getD, ih h.2 r]
      simp [at2]

theorem flatten_length {w : Nat} {l : List (List Nat)} (h : rect w l = true) : l.flatten.length = l.length * w := by
  induction l with
  | nil => simp
  | cons a l ih =>
    simp only [rect, Bool.and_eq_true, beq_iff_eq] at h
    rw [List.flatten_cons, List.length_append, ih h.2, h.1, List.length_cons, Nat.succ_mul]; omega

section
variable (p : Nat) [CharP F p]

theorem cast_mod (a : Nat) : ((a % p : Nat) : F) = (a : F) := (CharP.cast_eq_mod F p a).symm

theorem matVec_length (m : List (List Nat)) (x : List Nat) : (matVec p m x).length = m.length := by simp [matVec]

theorem matVec_get (m : List (List Nat)) (k : Nat) (hm : rect k m = true) (x : List Nat) (hx : x.length = k) (i : Nat) (hi : i < m.length) :
    (((matVec p m x).getD i 0 : Nat) : F) = ∑ j : Fin k, ((at2 m i j : Nat) : F) * ((x.getD j 0 : Nat) : F) := by
  have : (matVec p m x).getD i 0 = dot (m.getD i []) x % p := by
    simp [matVec, List.getD_eq_getElem?_getD, List.getElem?_eq_getElem hi]
  rw [this, cast_mod p, dot_cast k _ _ (rect_get hm i hi) hx]
  rfl

theorem matVec_vec (m : List (List Nat)) (hl : m.length = n + 1) (hm : rect (n + 1) m = true) (x : List Nat) (hx : x.length = n + 1) :
    vec F (n + 1) (matVec p m x) = mat (entry F m) *ᵥ vec F (n + 1) x := by
  funext i
  simp only [vec]
  rw [matVec_get p m (n + 1) hm x hx i (by omega)]
  rfl

theorem subMod_get (a b : List Nat) (i : Nat) (ha : i < a.length) (hb : i < b.length) (hlt : b.getD i 0 < p) :
    (((subMod p a b).getD i 0 : Nat) : F) = ((a.getD i 0 : Nat) : F) - ((b.getD i 0 : Nat) : F) := by
  have e : (subMod p a b).getD i 0 = (a.getD i 0 + (p - b.getD i 0)) % p := by
    simp [subMod, List.getD_eq_getElem?_getD, List.getElem?_eq_getElem ha, List.getElem?_eq_getElem hb, List.getElem?_zipWith]
  rw [e, cast_mod p, Nat.cast_add, Nat.cast_sub hlt.le, CharP.cast_eq_zero F p]
  ring

theorem subMod_vec (a b : List Nat) (ha : a.length = n + 1) (hb : b.length = n + 1) (hlt : ∀ x ∈ b, x < p) :
    vec F (n + 1) (subMod p a b) = vec F (n + 1) a - vec F (n + 1) b := by
  funext i
  simp only [vec, Pi.sub_apply]
  refine subMod_get p a b i (by omega) (by omega) (hlt _ ?_)
  rw [List.getD_eq_getElem?_getD, List.getElem?_eq_getElem (by omega), Option.getD_some]
  exact List.getElem_mem _

theorem subMod_length (a b : List Nat) (ha : a.length = n + 1) (hb : b.length = n + 1) : (subMod p a b).length = n + 1 := by
  simp [subMod, ha, hb]

theorem vec_cons_tail (q : Nat) (e : List Nat) (he : e.length = n + 1) :
    vec F (n + 1) (q :: e.tail) = Function.update (vec F (n + 1) e) 0 (q : F) := by
  match e, he with
  | a :: as, he =>
    funext i
    by_cases hi : i = 0
    · subst hi; simp [vec]
    · rw [Function.update_of_ne hi]
      obtain ⟨j, rfl⟩ := Fin.exists_succ_eq.mpr hi
      simp [vec]

theorem carryOk_sound (m : List (List Nat)) (hl : m.length = n + 1) (hm : rect (n + 1) m = true) (e : List Nat) (qs : List Nat)
    (rows : List (List Nat)) (he : e.length = n + 1) (hr : rect (n + 1) rows = true) (hp : ∀ r ∈ rows, ∀ x ∈ r, x < p) (h : carryOk p m e qs rows = true) :
    ∃ E : Nat → Fin (n + 1) → F, E 0 = vec F (n + 1) e ∧ (∀ r < qs.length, E r 0 = 0) ∧ E qs.length = 0 ∧
      ∀ r < qs.length, mat (entry F m) *ᵥ Function.update (E r) 0 ((qs.getD r 0 : Nat) : F) = vec F (n + 1) (rows.getD r []) + E (r + 1) := by
  induction qs generalizing e rows with
  | nil =>
    refine ⟨fun _ => vec F (n + 1) e, rfl, by simp, ?_, by simp⟩
    simp only [carryOk, List.all_eq_true, beq_iff_eq] at h
    funext i
    simp only [vec, Pi.zero_apply]
    have hi : i.val < e.length := by omega
    rw [List.getD_eq_getElem?_getD, List.getElem?_eq_getElem hi, Option.getD_some, h _ (List.getElem_mem hi), Nat.cast_zero]
  | cons q qs ih =>
    match rows, hr, hp, h with
    | [], _, _, h => simp [carryOk] at h
    | row :: rows, hr, hp, h =>
      simp only [carryOk, Bool.and_eq_true, beq_iff_eq, forceL_eq] at h
      obtain ⟨h0, h⟩ := h
      simp only [rect, Bool.and_eq_true, beq_iff_eq] at hr
      have hlen : (q :: e.tail).length = n + 1 := by simp [he]
      have hlm : (matVec p m (q :: e.tail)).length = n + 1 := by rw [matVec_length, hl]
      obtain ⟨E, E0, Ez, Ee, Es⟩ := ih _ rows (subMod_length p _ _ hlm hr.1) hr.2 (fun r hr' => hp r (by simp [hr'])) h
      refine ⟨fun k => match k with | 0 => vec F (n + 1) e | k + 1 => E k, rfl, ?_, Ee, ?_⟩
      · intro r hr'
        cases r with
        | zero =>
          match e, he, h0 with
          | a :: as, _, h0 => simp only [List.headD_cons] at h0; subst h0; simp [vec]
        | succ r => exact Ez r (by simpa using hr')
      · intro r hr'
        cases r with
        | zero =>
          simp only [List.getD_cons_zero]
          rw [← vec_cons_tail q e he, ← matVec_vec p m hl hm _ hlen, E0, subMod_vec p _ _ hlm hr.1 (hp row (by simp)), add_sub_cancel]
        | succ r =>
          simp only [List.getD_cons_succ]
          exact Es r (by simpa using hr')

theorem fullOk_sound (m : List (List Nat)) (hl : m.length = n + 1) (hm : rect (n + 1) m = true) (a b : List (List Nat)) (ha : rect (n + 1) a = true)
    (h : fullOk p m a b = true) (r : Nat) (hr : r < a.length) :
    mat (entry F m) *ᵥ vec F (n + 1) (a.getD r []) = vec F (n + 1) (b.getD r []) := by
  induction a generalizing b r with
  | nil => simp at hr
  | cons x a ih =>
    match b, h with
    | [], h => simp [fullOk] at h
    | y :: b, h =>
      simp only [fullOk, Bool.and_eq_true, beq_iff_eq] at h
      simp only [rect, Bool.and_eq_true, beq_iff_eq] at ha
      cases r with
      | zero => rw [List.getD_cons_zero, List.getD_cons_zero, ← matVec_vec p m hl hm x ha.1, h.1]
      | succ r =>
        rw [List.getD_cons_succ, List.getD_cons_succ]
        exact ih b ha.2 h.2 r (by simpa using hr)

/-- the minor -/
theorem minor_at (m : List (List Nat)) (hl : m.length = n + 1) (i j : Nat) (hi : i < n) : at2 (minor m) i j = at2 m (i + 1) (j + 1) := by
  match m, hl with
  | a :: l, hl =>
    have hi' : i < l.length := by simp at hl; omega
    simp [at2, minor, List.getD_eq_getElem?_getD, List.getElem?_map, List.getElem?_eq_getElem hi', List.getElem?_tail]

theorem minor_rect (m : List (List Nat)) (hm : rect (n + 1) m = true) : rect n (minor m) = true := by
  match m with
  | [] => rfl
  | a :: l =>
    simp only [rect, Bool.and_eq_true] at hm
    have := hm.2
    clear hm
    simp only [minor, List.tail_cons]
    induction l with
    | nil => rfl
    | cons b l ih =>
      simp only [rect, Bool.and_eq_true, beq_iff_eq, List.map_cons, List.length_tail] at this ⊢
      exact ⟨by omega, ih this.2⟩

theorem minor_length (m : List (List Nat)) (hl : m.length = n + 1) : (minor m).length = n := by simp [minor, hl]

theorem low_vec (m : List (List Nat)) (hl : m.length = n + 1) (hm : rect (n + 1) m = true) (x : List Nat) (hx : x.length = n + 1) :
    vec F (n + 1) (x.headD 0 :: matVec p (minor m) x.tail) = lowD (entry F m) *ᵥ vec F (n + 1) x := by
  match x, hx with
  | a :: as, hx =>
    funext i
    simp only [mulVec, dotProduct]
    rw [Fin.sum_univ_succ]
    by_cases hi : i = 0
    · subst hi
      simp [vec, lowD]
    · obtain ⟨j, rfl⟩ := Fin.exists_succ_eq.mpr hi
      simp only [vec, List.headD_cons, List.tail_cons, Fin.val_succ, List.getD_cons_succ]
      rw [matVec_get p (minor m) n (minor_rect m hm) as (by simpa using hx) j (by rw [minor_length m hl]; omega)]
      simp only [lowD, Fin.val_succ, Fin.val_zero, or_true, if_true, Nat.add_eq_zero_iff, one_ne_zero, and_false, if_false, zero_mul, zero_add,
        false_or, entry]
      refine Finset.sum_congr rfl fun k _ => ?_
      rw [minor_at m hl j k (by omega)]

theorem lowIter_sound (m : List (List Nat)) (hl : m.length = n + 1) (hm : rect (n + 1) m = true) (k : Nat) (x y : List Nat) (hx : x.length = n + 1)
    (h : lowIter p (minor m) k x (fun z => z == y) = true) : vec F (n + 1) y = (lowD (entry F m) ^ k) *ᵥ vec F (n + 1) x := by
  induction k generalizing x with
  | zero =>
    simp only [lowIter, beq_iff_eq] at h
    rw [pow_zero, one_mulVec, h]
  | succ k ih =>
    simp only [lowIter, forceL_eq] at h
    rw [ih _ (by simp [matVec_length, minor_length m hl]) h, low_vec p m hl hm x hx, mulVec_mulVec, ← pow_succ]

/-- the sparse matrix of a row of `S` -/
def sp (F : Type) [CommRing F] (n : Nat) (a : List Nat) : Matrix (Fin (n + 1)) (Fin (n + 1)) F := fun i j =>
  if i.val = 0 then ((a.getD j 0 : Nat) : F) else if j.val = 0 then ((a.getD (n + i) 0 : Nat) : F) else if i = j then 1 else 0

theorem sparse_sp (T : Table) (hs : rect (2 * n + 1) T.s = true) (r : Nat) : sparse (n := n) (T.opt F).s r = sp F n (T.s.getD r []) := by
  funext i j
  simp only [sparse, sp]
  have key : ∀ k < 2 * n + 1, (T.opt F).s (r * (2 * n + 1) + k) = (((T.s.getD r []).getD k 0 : Nat) : F) := by
    intro k hk
    simp only [Table.opt, Table.flatS]
    rw [flatten_getD hs r k hk]
    rfl
  have hw : ((n + 1) * 2 - 1) * r = r * (2 * n + 1) := by rw [Nat.mul_comm]; congr 1; omega
  by_cases hi : i.val = 0
  · rw [if_pos hi, if_pos hi, hw, key j (by omega)]
  · rw [if_neg hi, if_neg hi]
    by_cases hj : j.val = 0
    · rw [if_pos hj, if_pos hj, hw, show r * (2 * n + 1) + (n + 1) + i - 1 = r * (2 * n + 1) + (n + i) by omega, key _ (by omega)]
    · rw [if_neg hj, if_neg hj]

/-- the entries of `sp a * lowD` -/
theorem sp_mul_low (m mo : List (List Nat)) (hlo : mo.length = n + 1) (hmo : rect (n + 1) mo = true)
    (ht : ∀ i < n + 1, ∀ j < n + 1, at2 mo j i = at2 m i j) (a : List Nat) (ha : a.length = 2 * n + 1) :
    (sp F n a * lowD (entry F m) : Matrix (Fin (n + 1)) (Fin (n + 1)) F) 0 0 = ((a.headD 0 : Nat) : F) ∧
    (∀ j : Fin n, (sp F n a * lowD (entry F m) : Matrix (Fin (n + 1)) (Fin (n + 1)) F) 0 j.succ = (((matVec p (minor mo) (a.tail.take n)).getD j 0 : Nat) : F)) ∧
    (∀ i : Fin n, (sp F n a * lowD (entry F m) : Matrix (Fin (n + 1)) (Fin (n + 1)) F) i.succ 0 = (((a.tail.drop n).getD i 0 : Nat) : F)) ∧
    (∀ i j : Fin n, (sp F n a * lowD (entry F m) : Matrix (Fin (n + 1)) (Fin (n + 1)) F) i.succ j.succ = entry F m i.succ j.succ) := by
  refine ⟨?_, ?_, ?_, ?_⟩
  · rw [Matrix.mul_apply, Fin.sum_univ_succ]
    match a, ha with
    | x :: as, _ => simp [sp, lowD]
  · intro j
    rw [Matrix.mul_apply, Fin.sum_univ_succ, matVec_get p (minor mo) n (minor_rect mo hmo) _ (by simp [ha]; omega) j (by rw [minor_length mo hlo]; omega)]
    simp only [sp, lowD, Fin.val_zero, Fin.val_succ, true_or, if_true, Nat.add_eq_zero_iff, one_ne_zero, and_false, or_false, if_false, entry]
    have z : ((0 : Nat) = j.val + 1) = False := by simp
    simp only [z, if_false, mul_zero, zero_add]
    refine Finset.sum_congr rfl fun k _ => ?_
    rw [minor_at mo hlo j k (by omega), ht (k + 1) (by omega) (j + 1) (by omega), mul_comm]
    congr 2
    match a, ha with
    | x :: as, _ => simp [List.getD_eq_getElem?_getD, List.getElem?_take]
  · intro i
    rw [Matrix.mul_apply, Fin.sum_univ_succ]
    simp only [sp, lowD, Fin.val_zero, Fin.val_succ, or_true, if_true, Nat.add_eq_zero_iff, one_ne_zero, and_false, if_false, mul_one, mul_zero,
      Finset.sum_const_zero, add_zero]
    congr 1
    match a, ha with
    | x :: as, _ =>
      simp only [List.tail_cons, List.getD_eq_getElem?_getD, List.getElem?_drop]
      rw [show n + (i.val + 1) = (n + i.val) + 1 by omega, List.getElem?_cons_succ]
  · intro i j
    rw [Matrix.mul_apply, Fin.sum_univ_succ]
    simp only [sp, lowD, Fin.val_zero, Fin.val_succ, true_or, if_true, Nat.add_eq_zero_iff, one_ne_zero, and_false, or_false, if_false, Fin.succ_inj,
      ite_mul, one_mul, zero_mul, Finset.sum_ite_eq, Finset.mem_univ]
    have z : ((0 : Nat) = j.val + 1) = False := by simp
    simp only [z, if_false, if_true, mul_zero, zero_add]

/-- the entries of `lowD * sp b` -/
theorem low_mul_sp (m : List (List Nat)) (hl : m.length = n + 1) (hm : rect (n + 1) m = true) (b : List Nat) (hb : b.length = 2 * n + 1) :
    (lowD (entry F m) * sp F n b : Matrix (Fin (n + 1)) (Fin (n + 1)) F) 0 0 = ((b.headD 0 : Nat) : F) ∧
    (∀ j : Fin n, (lowD (entry F m) * sp F n b : Matrix (Fin (n + 1)) (Fin (n + 1)) F) 0 j.succ = (((b.tail.take n).getD j 0 : Nat) : F)) ∧
    (∀ i : Fin n, (lowD (entry F m) * sp F n b : Matrix (Fin (n + 1)) (Fin (n + 1)) F) i.succ 0 = (((matVec p (minor m) (b.tail.drop n)).getD i 0 : Nat) : F)) ∧
    (∀ i j : Fin n, (lowD (entry F m) * sp F n b : Matrix (Fin (n + 1)) (Fin (n + 1)) F) i.succ j.succ = entry F m i.succ j.succ) := by
  refine ⟨?_, ?_, ?_, ?_⟩
  · rw [Matrix.mul_apply, Fin.sum_univ_succ]
    match b, hb with
    | x :: as, _ => simp [sp, lowD]
  · intro j
    rw [Matrix.mul_apply, Fin.sum_univ_succ]
    simp only [sp, lowD, Fin.val_zero, Fin.val_succ, true_or, if_true, one_mul]
    rw [Finset.sum_eq_zero]
    · match b, hb with
      | x :: as, _ => simp [List.getD_eq_getElem?_getD, List.getElem?_take]
    · intro k _
      have z : ((0 : Nat) = k.val + 1) = False := by simp
      simp only [z, if_false, zero_mul]
  · intro i
    rw [Matrix.mul_apply, Fin.sum_univ_succ, matVec_get p (minor m) n (minor_rect m hm) _ (by simp [hb]; omega) i (by rw [minor_length m hl]; omega)]
    simp only [sp, lowD, Fin.val_zero, Fin.val_succ, or_true, if_true, Nat.add_eq_zero_iff, one_ne_zero, and_false, false_or, if_false, zero_mul,
      zero_add, entry]
    refine Finset.sum_congr rfl fun k _ => ?_
    rw [minor_at m hl i k (by omega)]
    congr 2
    match b, hb with
    | x :: as, _ =>
      simp only [List.tail_cons, List.getD_eq_getElem?_getD, List.getElem?_drop]
      rw [show n + (k.val + 1) = (n + k.val) + 1 by omega, List.getElem?_cons_succ]
  · intro i j
    rw [Matrix.mul_apply, Fin.sum_univ_succ]
    simp only [sp, lowD, Fin.val_zero, Fin.val_succ, or_true, if_true, Nat.add_eq_zero_iff, one_ne_zero, and_false, or_false, if_false, Fin.succ_inj,
      mul_ite, mul_one, mul_zero, Finset.sum_ite_eq', Finset.mem_univ, zero_mul, zero_add]

theorem mat_ext {A B : Matrix (Fin (n + 1)) (Fin (n + 1)) F} (h1 : A 0 0 = B 0 0) (h2 : ∀ j : Fin n, A 0 j.succ = B 0 j.succ)
    (h3 : ∀ i : Fin n, A i.succ 0 = B i.succ 0) (h4 : ∀ i j : Fin n, A i.succ j.succ = B i.succ j.succ) : A = B := by
  funext i j
  refine Fin.cases ?_ (fun i => ?_) i
  · exact Fin.cases h1 h2 j
  · exact Fin.cases (h3 i) (h4 i) j

theorem chainOk_sound (m mo : List (List Nat)) (hl : m.length = n + 1) (hm : rect (n + 1) m = true) (hlo : mo.length = n + 1)
    (hmo : rect (n + 1) mo = true) (ht : ∀ i < n + 1, ∀ j < n + 1, at2 mo j i = at2 m i j) (l : List (List Nat)) (hs : rect (2 * n + 1) l = true)
    (h : chainOk p n (minor m) (minor mo) (at2 m 0 0) (m.headD []).tail (mo.headD []).tail l = true) :
    (∀ r, r + 1 < l.length → sp F n (l.getD r []) * lowD (entry F m) = lowD (entry F m) * sp F n (l.getD (r + 1) [])) ∧
    (∀ r, r + 1 = l.length → sp F n (l.getD r []) * lowD (entry F m) = mat (entry F m)) := by
  induction l with
  | nil => exact ⟨by simp, by simp⟩
  | cons a l ih =>
    match l, ih, hs, h with
    | [], _, hs, h =>
      refine ⟨by simp, ?_⟩
      intro r hr
      have : r = 0 := by simpa using hr
      subst this
      simp only [chainOk, Bool.and_eq_true, beq_iff_eq] at h
      simp only [rect, Bool.and_eq_true, beq_iff_eq] at hs
      rw [List.getD_cons_zero]
      obtain ⟨q1, q2, q3, q4⟩ := sp_mul_low p m mo hlo hmo ht a hs.1 (F := F)
      apply mat_ext
      · rw [q1, h.1.1]; rfl
      · intro j
        rw [q2, h.1.2]
        match m with
        | x :: m => match x with
          | [] => simp [mat, entry, at2]
          | y :: x => simp [mat, entry, at2]
      · intro i
        rw [q3, h.2]
        have := ht (i + 1) (by omega) 0 (by omega)
        show _ = ((at2 m (i + 1) 0 : Nat) : F)
        rw [← this]
        congr 1
        match mo with
        | [] => simp [at2]
        | x :: mo => match x with
          | [] => simp [at2]
          | y :: x => simp [at2]
      · intro i j; rw [q4]; rfl
    | b :: l, ih, hs, h =>
      rw [chainOk] at h
      simp only [Bool.and_eq_true, beq_iff_eq] at h
      have hs' := hs
      rw [rect] at hs'
      simp only [Bool.and_eq_true, beq_iff_eq] at hs'
      obtain ⟨i1, i2⟩ := ih hs'.2 h.2
      refine ⟨?_, ?_⟩
      · intro r hr
        cases r with
        | zero =>
          rw [List.getD_cons_zero, List.getD_cons_succ, List.getD_cons_zero]
          obtain ⟨q1, q2, q3, q4⟩ := sp_mul_low p m mo hlo hmo ht a hs'.1 (F := F)
          obtain ⟨t1, t2, t3, t4⟩ := low_mul_sp p m hl hm b (rect_mem hs'.2 b (by simp)) (F := F)
          apply mat_ext
          · rw [q1, t1, h.1.1.1]
          · intro j; rw [q2, t2, h.1.1.2]
          · intro i; rw [q3, t3, h.1.2]
          · intro i j; rw [q4, t4]
        | succ r =>
          rw [List.getD_cons_succ, List.getD_cons_succ]
          exact i1 r (by simpa using hr)
      · intro r hr
        cases r with
        | zero => simp at hr
        | succ r =>
          rw [List.getD_cons_succ]
          exact i2 r (by simpa using hr)

theorem rect_of_mem {w : Nat} {l : List (List Nat)} (h : ∀ r ∈ l, r.length = w) : rect w l = true := by
  induction l with
  | nil => rfl
  | cons a l ih =>
    simp only [rect, Bool.and_eq_true, beq_iff_eq]
    exact ⟨h a (by simp), ih fun r hr => h r (by simp [hr])⟩

theorem blk_flat (c : List (List Nat)) (hc : rect (n + 1) c = true) (k : Nat) : blk (n := n) (flat F c) (k * (n + 1)) = vec F (n + 1) (c.getD k []) := by
  funext i
  simp only [blk, flat, vec]
  rw [flatten_getD hc k i (by omega)]
  rfl

/-- **Soundness of the checker** -/
theorem check_sound (T : Table) (h np : Nat) (hh : 0 < h) (c m : List (List Nat)) (hk : T.check p n h np c m = true) :
    Compat n (T.opt F) (flat F c) (entry F m) h np := by
  simp only [Table.check, Table.sized, Bool.and_eq_true, beq_iff_eq, decide_eq_true_eq, forceL_eq] at hk
  obtain ⟨⟨⟨⟨⟨⟨⟨⟨⟨⟨⟨⟨⟨⟨⟨⟨⟨⟨⟨⟨⟨⟨lcF, rcF⟩, lcP⟩, lcL⟩, rcL⟩, lm⟩, rm⟩, lp⟩, rp⟩, ls⟩, rs⟩, lc⟩, rc⟩, pc⟩, hl⟩, hm⟩, htr⟩, hst⟩, hfull⟩, hpre⟩, hchain⟩,
    hcarry⟩, hfinal⟩ := hk
  have ht : ∀ i < n + 1, ∀ j < n + 1, at2 T.m j i = at2 m i j := by
    intro i hi j hj
    have := List.all_eq_true.mp htr i (List.mem_range.mpr hi)
    have := List.all_eq_true.mp this j (List.mem_range.mpr hj)
    simpa using this
  have hpc : ∀ r ∈ c, ∀ x ∈ r, x < p := by
    intro r hr x hx
    have := List.all_eq_true.mp (List.all_eq_true.mp pc r hr) x hx
    simpa using this
  have lenF : T.cF.flatten.length = (h + 1) * (n + 1) := by rw [flatten_length rcF, lcF]
  -- blocks of C
  have cf : ∀ r, r < h + 1 → ∀ i < n + 1, (T.opt F).c (r * (n + 1) + i) = ((at2 T.cF r i : Nat) : F) := by
    intro r hr i hi
    simp only [Table.opt, Table.flatC]
    have : r * (n + 1) + i < (h + 1) * (n + 1) := by
      calc r * (n + 1) + i < r * (n + 1) + (n + 1) := by omega
        _ = (r + 1) * (n + 1) := by ring
        _ ≤ (h + 1) * (n + 1) := Nat.mul_le_mul_right _ (by omega)
    rw [List.getD_eq_getElem?_getD, List.getElem?_append_left (by omega), ← List.getD_eq_getElem?_getD, flatten_getD rcF r i hi]
  have cp : ∀ r, r < np → (T.opt F).c ((h + 1) * (n + 1) + r) = ((T.cP.getD r 0 : Nat) : F) := by
    intro r hr
    simp only [Table.opt, Table.flatC]
    rw [List.getD_eq_getElem?_getD, List.getElem?_append_right (by omega), lenF, Nat.add_sub_cancel_left, List.getElem?_append_left (by omega),
      ← List.getD_eq_getElem?_getD]
  have cl : ∀ r, ∀ i < n + 1, (T.opt F).c ((h + 1) * (n + 1) + np + r * (n + 1) + i) = ((at2 T.cL r i : Nat) : F) := by
    intro r i hi
    simp only [Table.opt, Table.flatC]
    rw [List.getD_eq_getElem?_getD, List.getElem?_append_right (by omega), lenF, List.getElem?_append_right (by omega), lcP,
      show (h + 1) * (n + 1) + np + r * (n + 1) + i - (h + 1) * (n + 1) - np = r * (n + 1) + i by omega,
      ← List.getD_eq_getElem?_getD, flatten_getD rcL r i hi]
  have bf : ∀ r, r < h + 1 → blk (n := n) (T.opt F).c (r * (n + 1)) = vec F (n + 1) (T.cF.getD r []) := by
    intro r hr
    funext i
    exact cf r hr i (by omega)
  refine ⟨?_, ?_, ?_, ?_, ?_, ?_, ?_, ?_⟩
  · intro i j
    show ((at2 T.m j i : Nat) : F) = ((at2 m i j : Nat) : F)
    rw [ht i (by omega) j (by omega)]
  · intro i
    have h1 := cf 0 (by omega) i (by omega)
    rw [Nat.zero_mul, Nat.zero_add] at h1
    rw [h1]
    simp only [flat]
    have h2 := flatten_getD rc 0 i (by omega)
    rw [Nat.zero_mul, Nat.zero_add] at h2
    rw [h2]
    have : T.cF.getD 0 [] = c.getD 0 [] := by
      rw [List.headD_eq_head?_getD, List.headD_eq_head?_getD] at hst
      rw [List.getD_eq_getElem?_getD, List.getD_eq_getElem?_getD, ← List.head?_eq_getElem?, ← List.head?_eq_getElem?, hst]
    simp only [at2, this]
  · intro r hr
    rw [bf (r + 1) (by omega), blk_flat c rc]
    have hlen : r < (T.cF.tail.take (h - 1)).length := by simp [lcF]; omega
    have hrect : rect (n + 1) (T.cF.tail.take (h - 1)) = true :=
      rect_of_mem fun x hx => rect_mem rcF x (List.mem_of_mem_tail (List.mem_of_mem_take hx))
    have := fullOk_sound p m hl hm _ _ hrect hfull r hlen (F := F)
    have e1 : (T.cF.tail.take (h - 1)).getD r [] = T.cF.getD (r + 1) [] := by
      simp [List.getD_eq_getElem?_getD, List.getElem?_take, hr, List.getElem?_tail]
    have e2 : c.tail.getD r [] = c.getD (r + 1) [] := by simp [List.getD_eq_getElem?_getD, List.getElem?_tail]
    rw [e1, e2] at this
    exact this
  · intro i j
    have hj : j.val < (List.zip T.m T.p).length := by simp [lm, lp]
    have := List.all_eq_true.mp hpre _ (List.getElem_mem hj)
    rw [List.getElem_zip] at this
    have hlow := lowIter_sound p m hl hm np _ _ (rect_mem rm _ (List.getElem_mem _)) this (F := F)
    have hi := congrFun hlow i
    have hjm : j.val < T.m.length := by omega
    have hjp : j.val < T.p.length := by omega
    show ((at2 T.p j i : Nat) : F) = _
    have e : at2 T.p j i = (T.p[j.val]).getD i 0 := by
      simp [at2, List.getD_eq_getElem?_getD, List.getElem?_eq_getElem hjp]
    rw [e]
    show vec F (n + 1) T.p[j.val] i = _
    rw [hi, Matrix.mul_apply]
    simp only [mulVec, dotProduct]
    refine Finset.sum_congr rfl fun k _ => ?_
    congr 1
    show _ = ((at2 m k j : Nat) : F)
    rw [← ht k (by omega) j (by omega)]
    simp [vec, at2, List.getD_eq_getElem?_getD, List.getElem?_eq_getElem hjm]
  · intro r hr
    rw [sparse_sp T rs, sparse_sp T rs]
    exact (chainOk_sound p m T.m hl hm lm rm ht T.s rs hchain).1 r (by omega)
  · intro r hr
    rw [sparse_sp T rs]
    exact (chainOk_sound p m T.m hl hm lm rm ht T.s rs hchain).2 r (by omega)
  · have hclen : (c.getD h []).length = n + 1 := rect_get rc h (by omega)
    have hFlen : (T.cF.getD h []).length = n + 1 := rect_get rcF h (by omega)
    have hml : (matVec p m (T.cF.getD h [])).length = n + 1 := by rw [matVec_length, hl]
    have hmemc : c.getD h [] ∈ c := by
      rw [List.getD_eq_getElem?_getD, List.getElem?_eq_getElem (by omega), Option.getD_some]
      exact List.getElem_mem _
    obtain ⟨E, E0, Ez, Ee, Es⟩ := carryOk_sound p m hl hm _ _ _ (subMod_length p _ _ hml hclen)
      (rect_of_mem fun x hx => rect_mem rc x (List.mem_of_mem_drop hx)) (fun r hr => hpc r (List.mem_of_mem_drop hr)) hcarry (F := F)
    rw [lcP] at Ez Ee Es
    refine ⟨E, Ez, Ee, ?_, ?_⟩
    · rw [bf h (by omega), blk_flat c rc, E0, subMod_vec p _ _ hml hclen (hpc _ hmemc), matVec_vec p m hl hm _ hFlen, add_sub_cancel]
    · intro r hr
      rw [cp r hr, Es r hr, blk_flat c rc]
      congr 2
      simp only [List.getD_eq_getElem?_getD, List.getElem?_drop]
      rw [show h + 1 + r = h + r + 1 by omega]
  · intro r hr
    have hb : blk (n := n) (T.opt F).c ((h + 1) * (n + 1) + np + r * (n + 1)) = vec F (n + 1) (T.cL.getD r []) := by
      funext i
      exact cl r i (by omega)
    rw [hb, blk_flat c rc, fullOk_sound p m hl hm _ _ rcL hfinal r (by omega)]
    congr 1
    simp only [List.getD_eq_getElem?_getD, List.getElem?_drop]
    rw [show h + np + 1 + r = h + np + r + 1 by omega]

end

end Verif.Poseidon
