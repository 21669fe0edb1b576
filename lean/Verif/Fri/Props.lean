import Verif.Fri.Complete
set_option linter.unusedSectionVars false

/-!
C32 folding, C33 completeness, C34 the last-layer degree check and what acceptance means, C35 equality of query objects.
-/
namespace Verif.Fri
open FFT Finset Polynomial

variable {G A Root Path Tree T : Type} [Field A] [DecidableEq A]

/-! ## C32 -/

/-- C32, verifier side: every folding layer computed by the prover has, at every index `y`, the value the verifier
computes from the opened group `y` (`ifft`, then `eval_pol` at `x / (shift * w^y)`), for every layer contents. -/
theorem verifier_recomputes {mg : Nat → A} {polBits nb : Nat} (hw : Roots mg polBits) (hpb : polBits < 32) (hnb : nb ≤ polBits)
    (pol : List A) (hp : pol.length = 2 ^ polBits) (shift x : A) :
    ∃ l, layer mg false pol polBits nb shift⁻¹ x = some l ∧ l.length = 2 ^ nb ∧
      ∀ y < 2 ^ nb, ∃ c, ifftC mg (group pol (2 ^ (polBits - nb)) (2 ^ nb) y) = some c ∧
        evalPol c (x * (shift * mg polBits ^ y)⁻¹) = l.getD y 0 := by
  obtain ⟨l, h1, h2, h3⟩ := layer_eq hw hpb hnb pol hp shift x
  refine ⟨l, h1, h2, fun y hy => ?_⟩
  obtain ⟨c, hc, hv⟩ := h3 y hy
  exact ⟨c, hc, hv.symm⟩

/-- C32, polynomial side: if the layer holds the values of `P = Σ_j X^j P_j(X^n)` on the coset `shift * <w_polBits>`, the
next layer holds the values of `Σ_j x^j P_j` on the coset `shift^n * <w_nb>`, where `n = 2^(polBits - nb)`; here `P_j` has
coefficients `P.coeff (k n + j)`. -/
theorem layer_is_fold {mg : Nat → A} {polBits nb : Nat} (hw : Roots mg polBits) (hpb : polBits < 32) (h2 : (2 : A) ≠ 0)
    (hnb : nb ≤ polBits) (P : A[X]) (pol : List A) (hp : pol.length = 2 ^ polBits) (shift x : A) (hs : shift ≠ 0)
    (hP : ∀ i < 2 ^ polBits, pol.getD i 0 = P.eval (shift * mg polBits ^ i)) :
    ∃ (l : List A) (F : A[X]), layer mg false pol polBits nb shift⁻¹ x = some l ∧ l.length = 2 ^ nb ∧
      (∀ k, F.coeff k = ∑ j ∈ range (2 ^ (polBits - nb)), x ^ j * P.coeff (k * 2 ^ (polBits - nb) + j)) ∧
      ∀ g < 2 ^ nb, l.getD g 0 = F.eval (shift ^ 2 ^ (polBits - nb) * mg nb ^ g) := by
  obtain ⟨l, h1, h3, _⟩ := layer_eq hw hpb hnb pol hp shift x
  have h4 := layer_fold hw hpb h2 hnb P pol shift x hs ⟨hp, hP⟩ l h1
  refine ⟨l, _, h1, h3, fun k => foldPoly_coeff (by positivity) x P k, fun g hg => ?_⟩
  rw [h4.2 g hg, sqN_eq]

/-! ## C33 -/

/-- C33: for every configuration of decreasing steps starting at the input size (below `2^32`), every complete Merkle tree
scheme on the sizes used, every transcript, every polynomial of degree below `2^nBits` and every honest step-0
oracle, a proof returned by `prove` is accepted by `verify` run from the same transcript, and both end in the same
transcript state. -/
theorem completeness {mt : MT G Root Path Tree} {Good : Nat → Nat → Prop} (hC : mt.Complete Good) {tr : Tr G A T} (hT : tr.Ok)
    {E : Enc G A} (hE : EncOk E) (c : Cfg A) (h2 : (2 : A) ≠ 0) (hw : Roots c.mg c.inNbits) (hlt : c.inNbits < 32)
    (hin : c.maxDegNbits ≤ c.inNbits) (hs : c.shift ≠ 0) (hsi : c.shiftInv = c.shift⁻¹)
    (rest : List Nat) (hsteps : c.steps = c.inNbits :: rest) (hdec : Decreasing c.inNbits rest) (hgood : GoodSteps Good c.steps)
    (P : A[X]) (hdeg : P.natDegree < 2 ^ c.maxDegNbits) (pol : List A) (hlen : pol.length = 2 ^ c.inNbits)
    (hpol : ∀ i < 2 ^ c.inNbits, pol.getD i 0 = P.eval (c.shift * c.mg c.inNbits ^ i))
    (q0 : Nat → Q G Path) (cq : Q G Path → Nat → Option (List A)) (hcq : ∀ y < 2 ^ c.inNbits, cq (q0 y) y = some [pol.getD y 0])
    (t t' : T) (proof : FriProof G Root Path A) (hprove : prove mt tr E c pol q0 t = some (proof, t')) :
    verify mt tr E c proof cq t = some (true, t') := by
  unfold prove at hprove
  split_ifs at hprove with hbad
  obtain ⟨⟨outs, t1⟩, hloop, hprove⟩ := Option.bind_eq_some_iff.mp hprove
  rw [hsteps] at hprove
  simp only [List.head?_cons, Option.bind_some, List.tail_cons] at hprove
  obtain ⟨⟨ys, t2⟩, hperm, hprove⟩ := Option.bind_eq_some_iff.mp hprove
  obtain ⟨qs, hopen, hpr⟩ := Option.map_eq_some_iff.mp hprove
  obtain ⟨rfl, rfl⟩ := Prod.mk.inj hpr
  obtain ⟨hyl, hyb⟩ := hT.perms_lt _ _ _ _ _ hperm
  have hdec' : Decreasing c.inNbits c.steps := by rw [hsteps]; exact ⟨le_rfl, hdec⟩
  have hlb : lastBits c.inNbits c.steps = lastBits c.inNbits rest := by rw [hsteps]; rfl
  have hlble := lastBits_le hdec'
  have hdegle : P.natDegree ≤ 2 ^ c.maxDegNbits - 1 := by omega
  have hpos : 0 < 2 ^ c.maxDegNbits := by positivity
  have hmax : (2 ^ c.maxDegNbits - 1) / 2 ^ (c.inNbits - lastBits c.inNbits c.steps)
      ≤ maxDeg c.inNbits c.maxDegNbits (lastBits c.inNbits c.steps) := by
    generalize lastBits c.inNbits c.steps = b at *
    unfold maxDeg
    split_ifs with h
    · rw [Nat.div_eq_of_lt]
      have := Nat.pow_le_pow_right (show 0 < 2 by decide) (show c.maxDegNbits ≤ c.inNbits - b by omega)
      omega
    · rw [Nat.div_le_iff_le_mul_add_pred (by positivity), ← pow_add,
        show c.inNbits - b + (b - (c.inNbits - c.maxDegNbits)) = c.maxDegNbits by omega]
      omega
  have hDlt : 2 ^ c.maxDegNbits - 1 < 2 ^ c.inNbits := by
    have := Nat.pow_le_pow_right (show 0 < 2 by decide) hin
    omega
  rw [hsi] at hloop
  obtain ⟨h3, h4⟩ := loop_complete hC hT hE c h2 hin cq c.steps true pol c.inNbits c.shift t t1 outs ys
    (⟨mt.defaultRoot, ys.map q0⟩ :: qs) P (2 ^ c.maxDegNbits - 1) hloop hdec' hgood hlt hw (by rw [hsteps]; simp)
    ⟨hlen, hpol⟩ hs hdegle hDlt hmax hyl (by
      rw [hsteps]
      refine ⟨hyb, _, _, rfl, hopen, fun i y hy => ?_⟩
      have hylt := hyb y (List.mem_of_getElem? hy)
      unfold openedGroup
      simp only [List.getElem?_map, hy, Option.map_some, Option.bind_some, hcq y hylt, if_true]
      simp [group])
  have hql : qs.length = rest.length := by
    clear h3 h4 hloop hperm hbad
    have : ∀ (rest : List Nat) (outs : List (StepOut A Tree)) (ys : List Nat) (qs : List (Query G Root Path)),
        openLoop mt rest outs ys = some qs → qs.length = rest.length := by
      intro rest
      induction rest with
      | nil => intro outs ys qs h; rw [openLoop] at h; obtain rfl := Option.some.inj h; rfl
      | cons nb rest ih =>
        intro outs ys qs h
        cases outs with
        | nil => rw [openLoop] at h; simp at h
        | cons o outs =>
          obtain ⟨_, _, qs', _, rfl, h5, _⟩ := openLoop_cons h
          simp [ih _ _ _ h5]
    exact this _ _ _ _ hopen
  unfold verify
  rw [if_neg (by rw [hsteps]; simp [hql])]
  have h3' : challenges mt tr E ((outs.getLast?.map StepOut.layer).getD pol) c.steps qs t = some (outs.map StepOut.x, t1) := h3
  have h4' : checkLoop mt E c cq ((outs.getLast?.map StepOut.layer).getD pol) true c.steps (outs.map StepOut.x)
      (⟨mt.defaultRoot, ys.map q0⟩ :: qs) c.inNbits c.shift ys = some true := h4
  simp only [List.tail_cons, h3', Option.bind_some]
  rw [show c.steps.head? = some c.inNbits by rw [hsteps]; rfl]
  simp only [Option.bind_some, hperm, h4', Option.map_some]

/-! ## C34 -/

/-- What the degree check decides: for a last layer holding the values of a polynomial of degree below the layer size,
it accepts iff the degree is at most `maxDeg`. -/
theorem finalCheck_iff {mg : Nat → A} {k : Nat} (hw : Roots mg k) (hk : k < 32) (h2 : (2 : A) ≠ 0) (P : A[X]) (shift : A) (hs : shift ≠ 0)
    (last : List A) (hlen : last.length = 2 ^ k) (hv : ∀ i < 2 ^ k, last.getD i 0 = P.eval (shift * mg k ^ i))
    (inNbits maxDegNbits : Nat) (hin : maxDegNbits ≤ inNbits) (hlt : P.natDegree < 2 ^ k) :
    finalCheck mg inNbits maxDegNbits k last = some true ↔
      P.natDegree ≤ if k < inNbits - maxDegNbits then 0 else 2 ^ (k - (inNbits - maxDegNbits)) := by
  constructor
  · intro h
    have hc : ifftC mg last = some ((List.range (2 ^ k)).map fun j => P.coeff j * shift ^ j) := by
      apply ifftC_unique hw hk h2 _ _ hlen (by simp)
      intro i hi
      rw [hv i hi, eval_eq_sum_range' hlt]
      apply Finset.sum_congr rfl
      intro j hj
      have hj' := mem_range.mp hj
      simp only [List.getD_eq_getElem?_getD, List.getElem?_map, List.getElem?_range hj', Option.map_some, Option.getD_some]
      rw [mul_pow, ← pow_mul]; ring
    unfold finalCheck at h
    rw [if_neg (by omega)] at h
    simp only [] at h
    rw [hc, Option.map_some] at h
    have h' := Option.some.inj h
    rw [List.all_eq_true] at h'
    apply natDegree_le_iff_coeff_eq_zero.mpr
    intro i hi
    by_cases hik : i < 2 ^ k
    · have := h' i (by simpa using hik)
      rw [decide_eq_true_iff] at this
      have h0 := this (by omega)
      simp only [List.getD_eq_getElem?_getD, List.getElem?_map, List.getElem?_range hik, Option.map_some, Option.getD_some] at h0
      exact (mul_eq_zero.mp h0).resolve_right (pow_ne_zero _ hs)
    · exact coeff_eq_zero_of_natDegree_lt (by omega)
  · intro h
    exact finalCheck_evals hw hk h2 P shift last ⟨hlen, hv⟩ inNbits maxDegNbits hin h hlt

/-- C34, the part that holds: a last layer whose polynomial has degree above the bound `2^(k - (inNbits - maxDegNbits))` is
rejected. -/
theorem finalCheck_rejects_partial {mg : Nat → A} {k : Nat} (hw : Roots mg k) (hk : k < 32) (h2 : (2 : A) ≠ 0) (P : A[X]) (shift : A)
    (hs : shift ≠ 0) (last : List A) (hlen : last.length = 2 ^ k) (hv : ∀ i < 2 ^ k, last.getD i 0 = P.eval (shift * mg k ^ i))
    (inNbits maxDegNbits : Nat) (hin : maxDegNbits ≤ inNbits) (hge : inNbits - maxDegNbits ≤ k)
    (hlt : P.natDegree < 2 ^ k) (hdeg : 2 ^ (k - (inNbits - maxDegNbits)) < P.natDegree) :
    finalCheck mg inNbits maxDegNbits k last ≠ some true := by
  rw [Ne, finalCheck_iff hw hk h2 P shift hs last hlen hv inNbits maxDegNbits hin hlt, if_neg (by omega)]
  omega

/-- C34 is violated at the bound itself: the layer of `X^d`, `d = 2^(k - (inNbits - maxDegNbits))`, which has degree equal
to the (excluded) bound, is accepted whenever there is any blow-up. -/
theorem degree_bound_off_by_one {mg : Nat → A} {k : Nat} (hw : Roots mg k) (hk : k < 32) (h2 : (2 : A) ≠ 0) (shift : A) (hs : shift ≠ 0)
    (inNbits maxDegNbits : Nat) (hin : maxDegNbits < inNbits) (hge : inNbits - maxDegNbits ≤ k) :
    ∃ (P : A[X]) (last : List A), P.natDegree = 2 ^ (k - (inNbits - maxDegNbits)) ∧ last.length = 2 ^ k ∧
      (∀ i < 2 ^ k, last.getD i 0 = P.eval (shift * mg k ^ i)) ∧ finalCheck mg inNbits maxDegNbits k last = some true := by
  have hlt : 2 ^ (k - (inNbits - maxDegNbits)) < 2 ^ k := Nat.pow_lt_pow_right (by decide) (by omega)
  refine ⟨X ^ 2 ^ (k - (inNbits - maxDegNbits)), (List.range (2 ^ k)).map fun i =>
    (X ^ 2 ^ (k - (inNbits - maxDegNbits)) : A[X]).eval (shift * mg k ^ i), natDegree_X_pow _, by simp,
    fun i hi => by simp [hi], ?_⟩
  rw [finalCheck_iff hw hk h2 (X ^ 2 ^ (k - (inNbits - maxDegNbits))) shift hs _ (by simp) (fun i hi => by simp [hi]) inNbits maxDegNbits hin.le
    (by rw [natDegree_X_pow]; exact hlt), natDegree_X_pow, if_neg (by omega)]

/-- the bits of the layer a step reads -/
def bitsBefore (inNbits : Nat) (steps : List Nat) (si : Nat) : Nat := (inNbits :: steps).getD si 0

theorem checkLoop_accepts {mt : MT G Root Path Tree} {E : Enc G A} {c : Cfg A} {cq : Q G Path → Nat → Option (List A)} {last : List A}
    (steps : List Nat) : ∀ (first : Bool) (xs : List A) (qs : List (Query G Root Path)) (polBits : Nat) (shift : A) (ys : List Nat),
    Decreasing polBits steps → (∀ nb, steps.head? = some nb → ∀ y ∈ ys, y < 2 ^ nb) →
    checkLoop mt E c cq last first steps xs qs polBits shift ys = some true →
    (∀ (si nb : Nat), steps[si]? = some nb → ∀ i < c.nQueries, ∃ x y q g cf,
      xs[si]? = some x ∧ ys[i]? = some y ∧ qs[si]? = some q ∧
      openedGroup mt E cq (first && si == 0) q i (y % 2 ^ nb) = some (some g) ∧ ifftC c.mg g = some cf ∧
      expected E last (steps.drop (si + 1)) (qs.drop (si + 1)) i (y % 2 ^ nb) = some
        (evalPol cf (x * (shift ^ 2 ^ (polBits - bitsBefore polBits steps si) *
          c.mg (bitsBefore polBits steps si) ^ (y % 2 ^ nb))⁻¹))) ∧
    finalCheck c.mg c.inNbits c.maxDegNbits (lastBits polBits steps) last = some true := by
  induction steps with
  | nil =>
    intro first xs qs polBits shift ys _ _ h
    rw [checkLoop] at h
    exact ⟨by simp, h⟩
  | cons nb rest ih =>
    intro first xs qs polBits shift ys hdec hys h
    match xs, qs, h with
    | [], _, h => simp [checkLoop] at h
    | _ :: _, [], h => simp [checkLoop] at h
    | x :: xs, q :: qs, h =>
      rw [checkLoop.eq_def] at h
      simp only [] at h
      rw [if_neg (by have := hdec.1; omega)] at h
      obtain ⟨ok, hok, h⟩ := Option.bind_eq_some_iff.mp h
      cases ok with
      | false => simp at h
      | true =>
        simp only [Bool.not_true, Bool.false_eq_true, if_false] at h
        have hstep := (allM_true_iff _ _).mp hok
        have hys' : ∀ nb', rest.head? = some nb' → ∀ y ∈ (match (generalizing := false) rest with
            | nb' :: _ => ys.map (· % 2 ^ nb') | [] => ys), y < 2 ^ nb' := by
          intro nb' hnb' y hy
          match rest, hnb', hy with
          | _ :: _, hnb', hy =>
            simp only [List.head?_cons, Option.some.injEq] at hnb'
            subst hnb'
            obtain ⟨a, _, rfl⟩ := List.mem_map.mp hy
            exact Nat.mod_lt _ (by positivity)
        obtain ⟨hrec, hfin⟩ := ih false xs qs nb _ _ hdec.2 hys' h
        refine ⟨?_, hfin⟩
        intro si nb1 hsi i hi
        cases si with
        | zero =>
          simp only [List.getElem?_cons_zero, Option.some.injEq] at hsi
          subst hsi
          have h1 := hstep i (by simpa using hi)
          unfold checkOne at h1
          obtain ⟨y, hy, h1⟩ := Option.bind_eq_some_iff.mp h1
          obtain ⟨g?, hg, h1⟩ := Option.bind_eq_some_iff.mp h1
          have hylt := hys nb rfl y (List.mem_of_getElem? hy)
          cases g? with
          | none => simp at h1
          | some g =>
            simp only [] at h1
            obtain ⟨cf, hcf, h1⟩ := Option.bind_eq_some_iff.mp h1
            obtain ⟨e, he, h1⟩ := Option.map_eq_some_iff.mp h1
            rw [decide_eq_true_iff] at h1
            refine ⟨x, y, q, g, cf, rfl, hy, rfl, ?_, hcf, ?_⟩
            · rw [Nat.mod_eq_of_lt hylt]
              simpa using hg
            · rw [Nat.mod_eq_of_lt hylt]
              simp only [bitsBefore, List.getD_cons_zero, Nat.sub_self, pow_zero, pow_one]
              rw [h1]
              simpa using he
        | succ si =>
          obtain ⟨x', y, q', g, cf, h1, h3, h4, h5, h6, h7⟩ := hrec si nb1 (by simpa using hsi) i hi
          have hy0 : ∃ y0, ys[i]? = some y0 ∧ y % 2 ^ nb1 = y0 % 2 ^ nb1 := by
            match rest, hsi, h3, hdec with
            | nb' :: rest', hsi, h3, hdec =>
              simp only [List.getElem?_map] at h3
              obtain ⟨y0, hy0, hm⟩ := Option.map_eq_some_iff.mp h3
              refine ⟨y0, hy0, ?_⟩
              have hle : nb1 ≤ nb' := by
                have hmono : ∀ (l : List Nat) (b k v : Nat), Decreasing b l → l[k]? = some v → v ≤ b := by
                  intro l
                  induction l with
                  | nil => simp
                  | cons a l ih2 =>
                    intro b k v hd hk
                    cases k with
                    | zero => simp at hk; have := hd.1; omega
                    | succ k => exact le_trans (ih2 a k v hd.2 (by simpa using hk)) hd.1
                cases si with
                | zero => simp at hsi; omega
                | succ si => exact hmono rest' nb' si nb1 hdec.2.2 (by simpa using hsi)
              rw [← hm]
              exact Nat.mod_mod_of_dvd _ (Nat.pow_dvd_pow 2 hle)
          obtain ⟨y0, hy0, hym⟩ := hy0
          rw [hym] at h5 h7
          refine ⟨x', y0, q', g, cf, by simpa using h1, hy0, by simpa using h4, by simpa using h5, h6, ?_⟩
          have hb : bitsBefore polBits (nb :: rest) (si + 1) = bitsBefore nb rest si := by
            simp [bitsBefore]
          rw [hb]
          have hle : bitsBefore nb rest si ≤ nb := by
            have hmono : ∀ (l : List Nat) (b k : Nat), Decreasing b l → (b :: l).getD k 0 ≤ b := by
              intro l
              induction l with
              | nil => intro b k _; cases k <;> simp
              | cons a l ih2 =>
                intro b k hd
                cases k with
                | zero => simp
                | succ k => exact le_trans (ih2 a k hd.2) hd.1
            exact hmono rest nb si hdec.2
          have hsq : sqN (polBits - nb) shift ^ 2 ^ (nb - bitsBefore nb rest si) = shift ^ 2 ^ (polBits - bitsBefore nb rest si) := by
            have := hdec.1
            rw [sqN_eq, ← pow_mul, ← pow_add]; congr 2; omega
          rw [hsq] at h7
          simpa using h7

/-- `verify_accepts` in terms of the model's own functions: all query checks of all steps were made on the transcript's
challenges and indices and held — the group opened at step `si` for query `y` (authenticated against the step's root when
`si > 0`) folds, with challenge `si`, to the value the next opened group (or the last layer) has for `y` — and the last
layer passes the degree check. -/
theorem verify_accepts_steps {mt : MT G Root Path Tree} {tr : Tr G A T} (hT : tr.Ok) {E : Enc G A} {c : Cfg A} {proof : FriProof G Root Path A}
    {cq : Q G Path → Nat → Option (List A)} {t t' : T} (hdec : Decreasing c.inNbits c.steps)
    (h : verify mt tr E c proof cq t = some (true, t')) :
    ∃ nb0 xs t1 ys, c.steps.head? = some nb0 ∧ challenges mt tr E proof.last c.steps proof.queries.tail t = some (xs, t1) ∧
      tr.perms c.nQueries nb0 t1 = some (ys, t') ∧
      (∀ (si nb : Nat), c.steps[si]? = some nb → ∀ i < c.nQueries, ∃ x y q g cf,
        xs[si]? = some x ∧ ys[i]? = some y ∧ proof.queries[si]? = some q ∧
        openedGroup mt E cq (si == 0) q i (y % 2 ^ nb) = some (some g) ∧ ifftC c.mg g = some cf ∧
        expected E proof.last (c.steps.drop (si + 1)) (proof.queries.drop (si + 1)) i (y % 2 ^ nb) = some
          (evalPol cf (x * (c.shift ^ 2 ^ (c.inNbits - bitsBefore c.inNbits c.steps si) *
            c.mg (bitsBefore c.inNbits c.steps si) ^ (y % 2 ^ nb))⁻¹))) ∧
      finalCheck c.mg c.inNbits c.maxDegNbits (lastBits c.inNbits c.steps) proof.last = some true := by
  unfold verify at h
  split_ifs at h
  obtain ⟨⟨xs, t1⟩, hch, h⟩ := Option.bind_eq_some_iff.mp h
  simp only [] at h
  obtain ⟨nb0, hnb, h⟩ := Option.bind_eq_some_iff.mp h
  obtain ⟨⟨ys, t2⟩, hp, h⟩ := Option.bind_eq_some_iff.mp h
  simp only [] at h
  obtain ⟨b, hb, h⟩ := Option.map_eq_some_iff.mp h
  obtain ⟨rfl, rfl⟩ := Prod.mk.inj h
  obtain ⟨h1, h3⟩ := checkLoop_accepts c.steps true xs proof.queries c.inNbits c.shift ys hdec (by
    intro nb hnb' y hy
    rw [hnb] at hnb'
    obtain rfl := Option.some.inj hnb'
    exact (hT.perms_lt _ _ _ _ _ hp).2 y hy) hb
  exact ⟨nb0, xs, t1, ys, hnb, hch, hp, by simpa using h1, h3⟩

/-- What acceptance means, for every proof (honest or not): on the transcript's challenges `xs` and indices `ys`, every query
`i` of every step `si` carries a group `g` — at step 0 the answer of the caller's query check on the openings of that query, at
the later steps the decoding of a leaf that the Merkle verification accepts at index `y mod 2^nb` against the root of that
step — whose interpolation folds, with challenge `si`, to the value that the leaf of the next step has in the slot of `y` (after
the last step: to the value of the last polynomial at `y mod 2^nb`); and the interpolation of the last polynomial has no
coefficient above the bound. -/
theorem verify_accepts {mt : MT G Root Path Tree} {tr : Tr G A T} (hT : tr.Ok) {E : Enc G A} {c : Cfg A} {proof : FriProof G Root Path A}
    {cq : Q G Path → Nat → Option (List A)} {t t' : T} (hdec : Decreasing c.inNbits c.steps)
    (h : verify mt tr E c proof cq t = some (true, t')) :
    ∃ nb0 xs t1 ys, c.steps.head? = some nb0 ∧ challenges mt tr E proof.last c.steps proof.queries.tail t = some (xs, t1) ∧
      tr.perms c.nQueries nb0 t1 = some (ys, t') ∧
      (∀ (si nb : Nat), c.steps[si]? = some nb → ∀ i < c.nQueries, ∃ x y q qi g cf v,
        xs[si]? = some x ∧ ys[i]? = some y ∧ proof.queries[si]? = some q ∧ q.pols[i]? = some qi ∧
        (si = 0 → cq qi (y % 2 ^ nb) = some g ∧ g ≠ []) ∧
        (si ≠ 0 → ∃ leaf path, qi.head? = some (leaf, path) ∧ mt.verify q.root path (y % 2 ^ nb) leaf = some true ∧
          split3 E leaf = some g) ∧
        ifftC c.mg g = some cf ∧
        evalPol cf (x * (c.shift ^ 2 ^ (c.inNbits - bitsBefore c.inNbits c.steps si) *
            c.mg (bitsBefore c.inNbits c.steps si) ^ (y % 2 ^ nb))⁻¹) = v ∧
        (∀ nb', c.steps[si + 1]? = some nb' → ∃ q' qi' leaf' path', proof.queries[si + 1]? = some q' ∧ q'.pols[i]? = some qi' ∧
          qi'.head? = some (leaf', path') ∧ get3 E leaf' (y % 2 ^ nb / 2 ^ nb') = some v) ∧
        (c.steps[si + 1]? = none → proof.last[y % 2 ^ nb]? = some v)) ∧
      c.maxDegNbits ≤ c.inNbits ∧ ∃ cf, ifftC c.mg proof.last = some cf ∧
        ∀ i < cf.length, (if lastBits c.inNbits c.steps < c.inNbits - c.maxDegNbits then 0
          else 2 ^ (lastBits c.inNbits c.steps - (c.inNbits - c.maxDegNbits))) < i → cf.getD i 0 = 0 := by
  obtain ⟨nb0, xs, t1, ys, a1, a2, a3, a4, a5⟩ := verify_accepts_steps hT hdec h
  refine ⟨nb0, xs, t1, ys, a1, a2, a3, fun si nb hnb i hi => ?_, ?_⟩
  · obtain ⟨x, y, q, g, cf, b1, b2, b3, b4, b5, b6⟩ := a4 si nb hnb i hi
    unfold openedGroup at b4
    obtain ⟨qi, c1, b4⟩ := Option.bind_eq_some_iff.mp b4
    refine ⟨x, y, q, qi, g, cf, _, b1, b2, b3, c1, ?_, ?_, b5, rfl, ?_, ?_⟩
    · rintro rfl
      simp only [beq_self_eq_true, if_true] at b4
      obtain ⟨g', d1, d2⟩ := Option.map_eq_some_iff.mp b4
      split_ifs at d2 with hg
      obtain rfl := Option.some.inj d2
      exact ⟨d1, hg⟩
    · intro hsi
      rw [if_neg (by simpa using hsi)] at b4
      obtain ⟨⟨leaf, path⟩, d1, d2⟩ := Option.bind_eq_some_iff.mp b4
      obtain ⟨ok, d3, d4⟩ := Option.bind_eq_some_iff.mp d2
      split_ifs at d4 with hok
      obtain ⟨g', d5, d6⟩ := Option.map_eq_some_iff.mp d4
      obtain rfl := Option.some.inj d6
      exact ⟨leaf, path, d1, by rw [d3, hok], d5⟩
    · intro nb' hnb'
      have hd : c.steps.drop (si + 1) = nb' :: c.steps.drop (si + 1 + 1) := by
        obtain ⟨hl, he⟩ := List.getElem?_eq_some_iff.mp hnb'
        rw [← he]
        exact List.drop_eq_getElem_cons hl
      rw [hd] at b6
      unfold expected at b6
      dsimp only at b6
      obtain ⟨q', e1, b6⟩ := Option.bind_eq_some_iff.mp b6
      obtain ⟨qi', e2, b6⟩ := Option.bind_eq_some_iff.mp b6
      obtain ⟨⟨leaf', path'⟩, e3, b6⟩ := Option.bind_eq_some_iff.mp b6
      exact ⟨q', qi', leaf', path', by simpa [List.head?_drop] using e1, e2, e3, b6⟩
    · intro hnone
      rw [List.drop_eq_nil_of_le (by simpa using hnone)] at b6
      exact b6
  · unfold finalCheck at a5
    by_cases hlt : c.inNbits < c.maxDegNbits
    · rw [if_pos hlt] at a5
      simp at a5
    rw [if_neg hlt] at a5
    dsimp only at a5
    obtain ⟨cf, d1, d2⟩ := Option.map_eq_some_iff.mp a5
    refine ⟨by omega, cf, d1, fun i hi hgt => ?_⟩
    have := List.all_eq_true.mp d2 i (by simpa using hi)
    exact of_decide_eq_true this hgt

/-! ## C35 -/

/-- `a.iter().zip(b.iter()).map(eq).all()` -/
def zipAll {α : Type} (eq : α → α → Bool) (a b : List α) : Bool := (a.zip b).all fun p => eq p.1 p.2

/-- `PartialEq for Query`, starky/src/fri.rs L29-55: `==` on roots and value vectors, zipped comparison elsewhere. -/
def queryEq {G MB Root : Type} [DecidableEq G] [DecidableEq MB] [DecidableEq Root] (q q' : Query G Root (List (List MB))) : Bool :=
  decide (q.root = q'.root) && zipAll (zipAll fun e e' => decide (e.1 = e'.1) &&
    zipAll (zipAll fun x y => decide (x = y)) e.2 e'.2) q.pols q'.pols

theorem zipAll_iff {α : Type} {eq : α → α → Bool} {a b : List α} (hl : a.length = b.length)
    (heq : ∀ x ∈ a, ∀ y ∈ b, eq x y = true ↔ x = y) : zipAll eq a b = true ↔ a = b := by
  unfold zipAll
  induction a generalizing b with
  | nil =>
    have : b = [] := List.length_eq_zero_iff.mp hl.symm
    subst this; simp
  | cons x a ih =>
    match b, hl with
    | y :: b, hl =>
      have hih := ih (b := b) (by simpa using hl) (fun u hu v hv => heq u (by simp [hu]) v (by simp [hv]))
      rw [List.zip_cons_cons, List.all_cons, Bool.and_eq_true, hih, heq x (by simp) y (by simp), List.cons.injEq]

/-- same shape: all nested lengths agree -/
def SameShape {G MB Root : Type} (q q' : Query G Root (List (List MB))) : Prop :=
  q.pols.length = q'.pols.length ∧ ∀ a ∈ q.pols, ∀ b ∈ q'.pols, a.length = b.length ∧
    ∀ e ∈ a, ∀ e' ∈ b, e.2.length = e'.2.length ∧ ∀ m ∈ e.2, ∀ m' ∈ e'.2, m.length = m'.length

/-- C35, the part that holds: on query objects of one common shape, `==` is equality. -/
theorem queryEq_iff_partial {G MB Root : Type} [DecidableEq G] [DecidableEq MB] [DecidableEq Root]
    (q q' : Query G Root (List (List MB))) (hs : SameShape q q') : queryEq q q' = true ↔ q = q' := by
  unfold queryEq
  rw [Bool.and_eq_true, decide_eq_true_iff, zipAll_iff hs.1]
  · constructor
    · rintro ⟨h1, h2⟩; cases q; cases q'; simp_all
    · rintro rfl; exact ⟨rfl, rfl⟩
  · intro a ha b hb
    obtain ⟨h1, h2⟩ := hs.2 a ha b hb
    rw [zipAll_iff h1]
    intro e he e' he'
    obtain ⟨h3, h4⟩ := h2 e he e' he'
    rw [Bool.and_eq_true, decide_eq_true_iff, zipAll_iff h3]
    · constructor
      · rintro ⟨h5, h6⟩; exact Prod.ext h5 h6
      · rintro rfl; exact ⟨rfl, rfl⟩
    · intro m hm m' hm'
      rw [zipAll_iff (h4 m hm m' hm')]
      intro x _ y _
      exact decide_eq_true_iff

/-- C35 is violated by the code: a query object compares equal to the one with all its openings removed. -/
theorem queryEq_ignores_length {G MB Root : Type} [DecidableEq G] [DecidableEq MB] [DecidableEq Root]
    (q : Query G Root (List (List MB))) : queryEq q ⟨q.root, []⟩ = true := by
  simp [queryEq, zipAll]

example : queryEq (⟨(0 : Nat), [[([1], [[2]])]]⟩ : Query Nat Nat (List (List Nat))) ⟨0, []⟩ = true ∧
    (⟨(0 : Nat), [[([1], [[2]])]]⟩ : Query Nat Nat (List (List Nat))) ≠ ⟨0, []⟩ := by
  exact ⟨rfl, by simp⟩
example : SameShape (⟨(0 : Nat), [[([1], [[2]])]]⟩ : Query Nat Nat (List (List Nat))) ⟨0, [[([5], [[3]])]]⟩ := by
  simp [SameShape]

end Verif.Fri
