import Verif.Fri.Lemmas
set_option linter.unusedSectionVars false

namespace Verif.Fri
open FFT Finset Polynomial

variable {G A Root Path Tree T : Type} [Field A] [DecidableEq A]

/-- the encoding is three elements and `from_vec` inverts it -/
structure EncOk (E : Enc G A) : Prop where
  three : ∀ a, ∃ x y z, E.enc a = [x, y, z] ∧ E.dec x y z = a

theorem flatten_row {α : Type} (L : List (List α)) (w i : Nat) (hL : ∀ l ∈ L, l.length = w) (hi : i < L.length) :
    (L.flatten.drop (i * w)).take w = L[i] := by
  induction L generalizing i with
  | nil => simp at hi
  | cons l L ih =>
    have hl : l.length = w := hL l (by simp)
    cases i with
    | zero => simp [← hl]
    | succ i =>
      have hd : (l ++ L.flatten).drop ((i + 1) * w) = L.flatten.drop (i * w) := by
        rw [Nat.succ_mul, Nat.add_comm (i * w) w, ← hl, List.drop_length_add_append]
      rw [List.flatten_cons, hd, ih i (fun l h => hL l (by simp [h])) (by simpa using hi)]
      rfl

theorem encs_length {E : Enc G A} (hE : EncOk E) (l : List A) : ((l.map E.enc).flatten).length = 3 * l.length := by
  induction l with
  | nil => simp
  | cons a l ih =>
    obtain ⟨x, y, z, h, _⟩ := hE.three a
    simp only [List.map_cons, List.flatten_cons, List.length_append, ih, h, List.length_cons, List.length_nil]
    omega

theorem split3_encs {E : Enc G A} (hE : EncOk E) (l : List A) : split3 E ((l.map E.enc).flatten) = some l := by
  induction l with
  | nil => rfl
  | cons a l ih =>
    obtain ⟨x, y, z, h, h'⟩ := hE.three a
    rw [List.map_cons, List.flatten_cons, h]
    show (split3 E ((l.map E.enc).flatten)).map (E.dec x y z :: ·) = _
    rw [ih, h']; rfl

theorem get3_encs {E : Enc G A} (hE : EncOk E) (l : List A) (j : Nat) (hj : j < l.length) :
    get3 E ((l.map E.enc).flatten) j = some (l.getD j 0) := by
  induction l generalizing j with
  | nil => simp at hj
  | cons a l ih =>
    obtain ⟨x, y, z, h, h'⟩ := hE.three a
    rw [List.map_cons, List.flatten_cons, h]
    cases j with
    | zero => simp [get3, h']
    | succ j =>
      rw [List.getD_cons_succ, ← ih j (by simpa using hj)]
      unfold get3
      have e : ∀ k, ([x, y, z] ++ (l.map E.enc).flatten)[(j + 1) * 3 + k]? = ((l.map E.enc).flatten)[j * 3 + k]? := by
        intro k
        rw [show (j + 1) * 3 + k = (j * 3 + k) + 3 by omega]
        rfl
      have e0 := e 0
      simp only [Nat.add_zero] at e0
      rw [e0, e 1, e 2]

theorem transposed_length {E : Enc G A} (hE : EncOk E) (pol : List A) (tb : Nat) :
    (transposed E pol tb).length = 3 * (pol.length / 2 ^ tb) * 2 ^ tb := by
  unfold transposed
  rw [List.length_flatten, List.map_map]
  have : ((List.range (2 ^ tb)).map (List.length ∘ fun i =>
      ((List.range (pol.length / 2 ^ tb)).map fun j => E.enc (pol.getD (j * 2 ^ tb + i) 0)).flatten)) =
      (List.range (2 ^ tb)).map fun _ => 3 * (pol.length / 2 ^ tb) := by
    apply List.map_congr_left
    intro i _
    have := encs_length hE ((List.range (pol.length / 2 ^ tb)).map fun j => pol.getD (j * 2 ^ tb + i) 0)
    rw [List.map_map, List.length_map, List.length_range] at this
    exact this
  rw [this]
  simp [mul_comm]

/-- row `i` of the transposed buffer is the encoded group `i` -/
theorem transposed_row {E : Enc G A} (hE : EncOk E) (pol : List A) (tb i : Nat) (hi : i < 2 ^ tb) :
    ((transposed E pol tb).drop (i * (3 * (pol.length / 2 ^ tb)))).take (3 * (pol.length / 2 ^ tb))
      = ((group pol (pol.length / 2 ^ tb) (2 ^ tb) i).map E.enc).flatten := by
  unfold transposed
  rw [flatten_row _ _ i _ (by simpa using hi)]
  · rw [List.getElem_map, List.getElem_range, group, List.map_map]; rfl
  · intro l hl
    obtain ⟨a, _, rfl⟩ := List.mem_map.mp hl
    have := encs_length hE ((List.range (pol.length / 2 ^ tb)).map fun j => pol.getD (j * 2 ^ tb + a) 0)
    rw [List.map_map, List.length_map, List.length_range] at this
    exact this

/-- Completeness of the Merkle tree on the sizes `Good`: an honest opening is the row, and verifies. -/
def MT.Complete (mt : MT G Root Path Tree) (Good : Nat → Nat → Prop) : Prop :=
  ∀ buff w h tree, Good w h → buff.length = w * h → mt.merkelize buff w h = some tree →
    ∀ idx < h, ∀ row path, mt.groupProof tree idx = some (row, path) →
      row = (buff.drop (idx * w)).take w ∧ mt.verify (mt.root tree) path idx row = some true

/-- The transcript absorbs a sequence of puts as one put, and index draws are in range and as many as asked. -/
structure Tr.Ok (tr : Tr G A T) : Prop where
  put_nil : ∀ t, tr.put [] t = some t
  put_append : ∀ es es' t, tr.put (es ++ es') t = (tr.put es t).bind fun t' => tr.put es' t'
  perms_lt : ∀ n nb t ys t', tr.perms n nb t = some (ys, t') → ys.length = n ∧ ∀ y ∈ ys, y < 2 ^ nb

theorem putLast_eq {tr : Tr G A T} (hT : tr.Ok) (E : Enc G A) (last : List A) (t : T) :
    putLast E tr last t = tr.put ((last.map fun e => (E.enc e).map fun g => [g]).flatten) t := by
  unfold putLast
  induction last generalizing t with
  | nil => exact (hT.put_nil t).symm
  | cons a l ih =>
    rw [List.foldlM_cons, List.map_cons, List.flatten_cons, hT.put_append]
    congr 1
    funext t'
    exact ih t'

theorem mapM_get {α β : Type} (f : α → Option β) (l : List α) (r : List β) (h : l.mapM f = some r) :
    r.length = l.length ∧ ∀ (i : Nat) (a : α), l[i]? = some a → ∃ b, r[i]? = some b ∧ f a = some b := by
  induction l generalizing r with
  | nil =>
    rw [List.mapM_nil] at h
    obtain rfl := Option.some.inj h
    exact ⟨rfl, by simp⟩
  | cons a l ih =>
    rw [List.mapM_cons] at h
    simp only [Option.pure_def, Option.bind_eq_bind, Option.bind_eq_some_iff, Option.some.injEq] at h
    obtain ⟨b, hb, bs, hbs, rfl⟩ := h
    obtain ⟨h1, h2⟩ := ih bs hbs
    refine ⟨by simp [h1], fun i x hx => ?_⟩
    cases i with
    | zero => exact ⟨b, by simp, by simp at hx; subst hx; exact hb⟩
    | succ i => simpa using h2 i x (by simpa using hx)

theorem allM_true (f : Nat → Option Bool) (l : List Nat) (h : ∀ i ∈ l, f i = some true) : allM f l = some true := by
  induction l with
  | nil => rfl
  | cons a l ih =>
    rw [allM, h a (by simp), Option.bind_some, if_pos rfl, ih (fun i hi => h i (by simp [hi]))]

theorem allM_true_iff (f : Nat → Option Bool) (l : List Nat) : allM f l = some true ↔ ∀ i ∈ l, f i = some true := by
  constructor
  · induction l with
    | nil => simp
    | cons a l ih =>
      intro h
      rw [allM] at h
      obtain ⟨b, hb, h2⟩ := Option.bind_eq_some_iff.mp h
      cases b with
      | false => simp at h2
      | true =>
        simp only [if_true] at h2
        intro i hi
        rcases List.mem_cons.mp hi with rfl | hi
        · exact hb
        · exact ih h2 i hi
  · exact allM_true f l

/-- the last layer of a run of the commit loop -/
def lastLayer (outs : List (StepOut A Tree)) (pol : List A) : List A := ((outs.getLast?).map StepOut.layer).getD pol

theorem lastLayer_cons (o : StepOut A Tree) (outs : List (StepOut A Tree)) (pol : List A) :
    lastLayer (o :: outs) pol = lastLayer outs o.layer := by
  unfold lastLayer
  cases outs with
  | nil => rfl
  | cons p ps => simp [List.getLast?_eq_some_getLast]

/-- steps decrease from `b` -/
def Decreasing : Nat → List Nat → Prop
  | _, [] => True
  | b, nb :: rest => nb ≤ b ∧ Decreasing nb rest

/-- tree sizes -/
def GoodSteps (Good : Nat → Nat → Prop) : List Nat → Prop
  | nb :: nb' :: rest => Good (3 * (2 ^ nb / 2 ^ nb')) (2 ^ nb') ∧ GoodSteps Good (nb' :: rest)
  | _ => True

/-- `P` evaluated over the coset -/
def Evals (mg : Nat → A) (P : A[X]) (shift : A) (k : Nat) (pol : List A) : Prop :=
  pol.length = 2 ^ k ∧ ∀ i < 2 ^ k, pol.getD i 0 = P.eval (shift * mg k ^ i)

theorem layer_fold {mg : Nat → A} {polBits nb : Nat} (hw : Roots mg polBits) (hpb : polBits < 32) (h2 : (2 : A) ≠ 0) (hnb : nb ≤ polBits)
    (P : A[X]) (pol : List A) (shift x : A) (hs : shift ≠ 0) (hP : Evals mg P shift polBits pol) (l : List A)
    (hl : layer mg false pol polBits nb shift⁻¹ x = some l) :
    Evals mg (foldPoly (2 ^ (polBits - nb)) x P) (sqN (polBits - nb) shift) nb l := by
  obtain ⟨l', h1, h3, h4⟩ := layer_eq hw hpb hnb pol hP.1 shift x
  rw [hl] at h1
  obtain rfl := Option.some.inj h1
  refine ⟨h3, fun g hg => ?_⟩
  obtain ⟨c, hc, hv⟩ := h4 g hg
  have hmg0 : mg polBits ≠ 0 := (Roots.primitive hw h2).ne_zero (by positivity)
  obtain ⟨c', hc', hv'⟩ := fold_value (Roots.mono hw (show polBits - nb ≤ polBits by omega)) (by omega) h2 P
    (shift * mg polBits ^ g) x (mul_ne_zero hs (pow_ne_zero _ hmg0)) (group pol (2 ^ (polBits - nb)) (2 ^ nb) g)
    (group_length _ _ _ _) (by
      intro i hi
      rw [group_get _ _ _ hi]
      have hlt : i * 2 ^ nb + g < 2 ^ polBits := by
        have : 2 ^ polBits = 2 ^ (polBits - nb) * 2 ^ nb := by rw [← pow_add]; congr 1; omega
        rw [this]
        calc i * 2 ^ nb + g < i * 2 ^ nb + 2 ^ nb := by omega
          _ = (i + 1) * 2 ^ nb := by ring
          _ ≤ _ := Nat.mul_le_mul_right _ hi
      rw [hP.2 _ hlt]
      congr 1
      have hlev := mg_pow_level hw nb hnb
      rw [← hlev, pow_add, ← pow_mul, mul_comm i (2 ^ nb)]
      ring)
  rw [hc] at hc'
  obtain rfl := Option.some.inj hc'
  rw [hv, hv', sqN_eq, mul_pow]
  congr 2
  have hlev := mg_pow_level hw (polBits - nb) (by omega)
  rw [show polBits - (polBits - nb) = nb by omega] at hlev
  rw [← hlev, ← pow_mul, ← pow_mul, mul_comm]

theorem sqN_ne_zero (n : Nat) {s : A} (h : s ≠ 0) : sqN n s ≠ 0 := by rw [sqN_eq]; exact pow_ne_zero _ h
theorem sqN_inv (n : Nat) (s : A) : sqN n s⁻¹ = (sqN n s)⁻¹ := by rw [sqN_eq, sqN_eq, inv_pow]

/-- final check of a polynomial -/
theorem finalCheck_evals {mg : Nat → A} {k : Nat} (hw : Roots mg k) (hk : k < 32) (h2 : (2 : A) ≠ 0) (P : A[X]) (shift : A)
    (last : List A) (hP : Evals mg P shift k last) (inNbits maxDegNbits : Nat) (hin : maxDegNbits ≤ inNbits)
    (hdeg : P.natDegree ≤ if k < inNbits - maxDegNbits then 0 else 2 ^ (k - (inNbits - maxDegNbits))) (hlt : P.natDegree < 2 ^ k) :
    finalCheck mg inNbits maxDegNbits k last = some true := by
  have hc : ifftC mg last = some ((List.range (2 ^ k)).map fun j => P.coeff j * shift ^ j) := by
    apply ifftC_unique hw hk h2 _ _ hP.1 (by simp)
    intro i hi
    rw [hP.2 i hi, eval_eq_sum_range' hlt]
    apply Finset.sum_congr rfl
    intro j hj
    have hj' := mem_range.mp hj
    simp only [List.getD_eq_getElem?_getD, List.getElem?_map, List.getElem?_range hj', Option.map_some, Option.getD_some]
    rw [mul_pow, ← pow_mul]; ring
  unfold finalCheck
  rw [if_neg (by omega)]
  simp only []
  rw [hc, Option.map_some]
  congr 1
  rw [List.all_eq_true]
  intro i hi
  rw [decide_eq_true_iff]
  intro hm
  have hi' : i < 2 ^ k := by simpa using hi
  simp only [List.getD_eq_getElem?_getD, List.getElem?_map, List.getElem?_range hi', Option.map_some, Option.getD_some]
  rw [coeff_eq_zero_of_natDegree_lt (by omega), zero_mul]

end Verif.Fri
