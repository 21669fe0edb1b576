import Verif.Fri.Lemmas2
set_option linter.unusedSectionVars false

namespace Verif.Fri
open FFT Finset Polynomial

variable {G A Root Path Tree T : Type} [Field A] [DecidableEq A]

def lastBits : Nat → List Nat → Nat
  | b, [] => b
  | _, nb :: rest => lastBits nb rest

theorem lastBits_le {b : Nat} {steps : List Nat} (h : Decreasing b steps) : lastBits b steps ≤ b := by
  induction steps generalizing b with
  | nil => exact le_rfl
  | cons nb rest ih => exact le_trans (ih h.2) h.1

/-- the bound of the final check -/
def maxDeg (inNbits maxDegNbits k : Nat) : Nat := if k < inNbits - maxDegNbits then 0 else 2 ^ (k - (inNbits - maxDegNbits))

/-- one step of the commit loop, opened up -/
theorem proveLoop_cons {mt : MT G Root Path Tree} {tr : Tr G A T} {E : Enc G A} {mg : Nat → A} {first : Bool} {nb : Nat} {rest : List Nat}
    {pol : List A} {polBits : Nat} {sinv : A} {t t' : T} {outs : List (StepOut A Tree)}
    (h : proveLoop mt tr E mg first (nb :: rest) pol polBits sinv t = some (outs, t')) :
    nb ≤ polBits ∧ ∃ x t1 pol2 t2 outs' tree?, tr.getField t = some (x, t1) ∧ layer mg first pol polBits nb sinv x = some pol2 ∧
      outs = ⟨x, pol2, tree?⟩ :: outs' ∧
      proveLoop mt tr E mg false rest pol2 nb (sqN (polBits - nb) sinv) t2 = some (outs', t') ∧
      (match rest with
       | nb' :: _ => ∃ tree, tree? = some tree ∧
          mt.merkelize (transposed E pol2 nb') (3 * (2 ^ nb / 2 ^ nb')) (2 ^ nb') = some tree ∧
          tr.put [mt.rootElems (mt.root tree)] t1 = some t2
       | [] => putLast E tr pol2 t1 = some t2) := by
  rw [proveLoop] at h
  split_ifs at h with hlt
  obtain ⟨⟨x, t1⟩, hx, h⟩ := Option.bind_eq_some_iff.mp h
  simp only [] at h
  obtain ⟨pol2, hl, h⟩ := Option.bind_eq_some_iff.mp h
  refine ⟨by omega, x, t1, pol2, ?_⟩
  cases rest with
  | nil =>
    simp only [] at h
    obtain ⟨t2, hp, h⟩ := Option.bind_eq_some_iff.mp h
    obtain ⟨⟨outs', t3⟩, h1, h2⟩ := Option.map_eq_some_iff.mp h
    obtain ⟨rfl, rfl⟩ := Prod.mk.inj h2
    exact ⟨t2, outs', none, hx, hl, rfl, h1, hp⟩
  | cons nb' rest =>
    simp only [] at h
    obtain ⟨tree, hm, h⟩ := Option.bind_eq_some_iff.mp h
    obtain ⟨t2, hp, h⟩ := Option.bind_eq_some_iff.mp h
    obtain ⟨⟨outs', t3⟩, h1, h2⟩ := Option.map_eq_some_iff.mp h
    obtain ⟨rfl, rfl⟩ := Prod.mk.inj h2
    exact ⟨t2, outs', some tree, hx, hl, rfl, h1, tree, rfl, hm, hp⟩

theorem openLoop_cons {mt : MT G Root Path Tree} {nb : Nat} {rest : List Nat} {o : StepOut A Tree} {outs : List (StepOut A Tree)}
    {ys : List Nat} {qs : List (Query G Root Path)} (h : openLoop mt (nb :: rest) (o :: outs) ys = some qs) :
    ∃ tree pols qs', o.tree = some tree ∧ qs = ⟨mt.root tree, pols⟩ :: qs' ∧
      openLoop mt rest outs (ys.map (· % 2 ^ nb)) = some qs' ∧
      ∀ (i y : Nat), ys[i]? = some y → ∃ r, pols[i]? = some [r] ∧ mt.groupProof tree (y % 2 ^ nb) = some r := by
  rw [openLoop] at h
  obtain ⟨tree, ht, h⟩ := Option.bind_eq_some_iff.mp h
  obtain ⟨pols, hp, h⟩ := Option.bind_eq_some_iff.mp h
  obtain ⟨qs', hq, rfl⟩ := Option.map_eq_some_iff.mp h
  refine ⟨tree, pols, qs', ht, rfl, hq, fun i y hy => ?_⟩
  obtain ⟨b, hb, hf⟩ := (mapM_get _ _ _ hp).2 i (y % 2 ^ nb) (by rw [List.getElem?_map, hy]; rfl)
  obtain ⟨r, hr, rfl⟩ := Option.map_eq_some_iff.mp hf
  exact ⟨r, hb, hr⟩

theorem ifftC_one {mg : Nat → A} (hw : Roots mg 0) (h2 : (2 : A) ≠ 0) (a : A) : ifftC mg [a] = some [a] := by
  apply ifftC_unique hw (by decide) h2 [a] [a] rfl rfl
  intro i hi
  have : i = 0 := by simpa using hi
  subst this
  simp

/-- the value the verifier computes at `y` is the next layer at `y` -/
theorem layer_value {mg : Nat → A} {polBits nb : Nat} (hw : Roots mg polBits) (hpb : polBits < 32) (h2 : (2 : A) ≠ 0) (hnb : nb ≤ polBits)
    (first : Bool) (hf : first = true → nb = polBits) (pol l : List A) (hp : pol.length = 2 ^ polBits) (shift x : A)
    (hl : layer mg first pol polBits nb shift⁻¹ x = some l) :
    l.length = 2 ^ nb ∧ ∀ y < 2 ^ nb, ∃ c, ifftC mg (group pol (2 ^ (polBits - nb)) (2 ^ nb) y) = some c ∧
      evalPol c (x * (shift * mg polBits ^ y)⁻¹) = l.getD y 0 := by
  cases first with
  | false =>
    obtain ⟨l', h1, h3, h4⟩ := layer_eq hw hpb hnb pol hp shift x
    rw [hl] at h1
    obtain rfl := Option.some.inj h1
    refine ⟨h3, fun y hy => ?_⟩
    obtain ⟨c, hc, hv⟩ := h4 y hy
    exact ⟨c, hc, hv.symm⟩
  | true =>
    obtain rfl := hf rfl
    rw [layer_first pol hp] at hl
    obtain rfl := Option.some.inj hl
    refine ⟨hp, fun y hy => ⟨[pol.getD y 0], ?_, ?_⟩⟩
    · have : group pol (2 ^ (nb - nb)) (2 ^ nb) y = [pol.getD y 0] := by simp [group]
      rw [this]
      exact ifftC_one (Roots.mono hw (Nat.zero_le _)) h2 _
    · rw [evalPol_spec]; simp

theorem layer_evals {mg : Nat → A} {polBits nb : Nat} (hw : Roots mg polBits) (hpb : polBits < 32) (h2 : (2 : A) ≠ 0) (hnb : nb ≤ polBits)
    (first : Bool) (hf : first = true → nb = polBits) (P : A[X]) (pol l : List A) (shift x : A) (hs : shift ≠ 0)
    (hP : Evals mg P shift polBits pol) (hl : layer mg first pol polBits nb shift⁻¹ x = some l) {D : Nat} (hD : P.natDegree ≤ D) :
    ∃ P', Evals mg P' (sqN (polBits - nb) shift) nb l ∧ P'.natDegree ≤ D / 2 ^ (polBits - nb) := by
  cases first with
  | false => exact ⟨_, layer_fold hw hpb h2 hnb P pol shift x hs hP l hl, foldPoly_natDegree (by positivity) x P hD⟩
  | true =>
    obtain rfl := hf rfl
    rw [layer_first pol hP.1] at hl
    obtain rfl := Option.some.inj hl
    exact ⟨P, by simpa [sqN] using hP, by simpa using hD⟩

theorem loop_complete {mt : MT G Root Path Tree} {Good : Nat → Nat → Prop} (hC : mt.Complete Good) {tr : Tr G A T} (hT : tr.Ok)
    {E : Enc G A} (hE : EncOk E) (c : Cfg A) (h2 : (2 : A) ≠ 0) (hin : c.maxDegNbits ≤ c.inNbits)
    (cq : Q G Path → Nat → Option (List A)) (steps : List Nat) :
    ∀ (first : Bool) (pol : List A) (polBits : Nat) (shift : A) (t t' : T) (outs : List (StepOut A Tree)) (ys : List Nat)
      (qall : List (Query G Root Path)) (P : A[X]) (D : Nat),
      proveLoop mt tr E c.mg first steps pol polBits shift⁻¹ t = some (outs, t') →
      Decreasing polBits steps → GoodSteps Good steps → polBits < 32 → Roots c.mg polBits →
      (first = true → steps.head? = some polBits) →
      Evals c.mg P shift polBits pol → shift ≠ 0 → P.natDegree ≤ D → D < 2 ^ polBits →
      D / 2 ^ (polBits - lastBits polBits steps) ≤ maxDeg c.inNbits c.maxDegNbits (lastBits polBits steps) →
      ys.length = c.nQueries →
      (match steps with
       | [] => True
       | nb :: rest => (∀ y ∈ ys, y < 2 ^ nb) ∧ ∃ q0 qs, qall = q0 :: qs ∧ openLoop mt rest outs ys = some qs ∧
          ∀ (i y : Nat), ys[i]? = some y →
            openedGroup mt E cq first q0 i y = some (some (group pol (2 ^ (polBits - nb)) (2 ^ nb) y))) →
      challenges mt tr E (lastLayer outs pol) steps qall.tail t = some (outs.map StepOut.x, t') ∧
      checkLoop mt E c cq (lastLayer outs pol) first steps (outs.map StepOut.x) qall polBits shift ys = some true := by
  induction steps with
  | nil =>
    intro first pol polBits shift t t' outs ys qall P D hpl _ _ hpb hw _ hP hs hD hDlt hfin hyl _
    rw [proveLoop] at hpl
    obtain ⟨rfl, rfl⟩ := Prod.mk.inj (Option.some.inj hpl)
    refine ⟨rfl, ?_⟩
    rw [checkLoop]
    show finalCheck c.mg c.inNbits c.maxDegNbits polBits pol = some true
    refine finalCheck_evals hw hpb h2 P shift pol hP _ _ hin ?_ (by omega)
    simp only [lastBits, Nat.sub_self, pow_zero, Nat.div_one] at hfin
    exact le_trans hD hfin
  | cons nb rest ih =>
    intro first pol polBits shift t t' outs ys qall P D hpl hdec hgood hpb hw hfirst hP hs hD hDlt hfin hyl hq
    obtain ⟨hyb, q0, qs, rfl, hopen, hgrp⟩ := hq
    have hf' : first = true → nb = polBits := fun h => by simpa using hfirst h
    obtain ⟨hnb, x, t1, pol2, t2, outs', tree?, hx, hlay, rfl, hpl', hmatch⟩ := proveLoop_cons hpl
    obtain ⟨hl2, hval⟩ := layer_value hw hpb h2 hnb first hf' pol pol2 hP.1 shift x hlay
    obtain ⟨P', hP', hD'⟩ := layer_evals hw hpb h2 hnb first hf' P pol pol2 shift x hs hP hlay hD
    rw [sqN_inv] at hpl'
    have hlast : lastLayer (⟨x, pol2, tree?⟩ :: outs') pol = lastLayer outs' pol2 := lastLayer_cons _ _ _
    rw [hlast]
    have hDlt' : D / 2 ^ (polBits - nb) < 2 ^ nb := by
      rw [Nat.div_lt_iff_lt_mul (by positivity), ← pow_add, show nb + (polBits - nb) = polBits by omega]; exact hDlt
    have hlb := lastBits_le hdec.2
    have hfin' : D / 2 ^ (polBits - nb) / 2 ^ (nb - lastBits nb rest) ≤ maxDeg c.inNbits c.maxDegNbits (lastBits nb rest) := by
      rw [Nat.div_div_eq_div_mul, ← pow_add, show polBits - nb + (nb - lastBits nb rest) = polBits - lastBits nb rest by omega]
      exact hfin
    have hwn := Roots.mono hw hnb
    have hIH := ih false pol2 nb (sqN (polBits - nb) shift) t2 t' outs'
      (match (generalizing := false) rest with | nb' :: _ => ys.map (· % 2 ^ nb') | [] => ys) qs P' (D / 2 ^ (polBits - nb)) hpl' hdec.2
    cases rest with
    | nil =>
      obtain ⟨hc1, hc2⟩ := hIH trivial (by omega) hwn (by simp) hP' (sqN_ne_zero _ hs) hD' hDlt' hfin' hyl trivial
      rw [proveLoop] at hpl'
      obtain ⟨rfl, rfl⟩ := Prod.mk.inj (Option.some.inj hpl')
      have hll : lastLayer ([] : List (StepOut A Tree)) pol2 = pol2 := rfl
      rw [hll] at *
      refine ⟨?_, ?_⟩
      · have hmatch' : putLast E tr pol2 t1 = some t2 := hmatch
        rw [putLast_eq hT] at hmatch'
        simp only [challenges, hx, Option.bind_some, hmatch', Option.map_some]
        rfl
      · show checkLoop mt E c cq pol2 first [nb] (x :: _) (q0 :: qs) polBits shift ys = some true
        rw [checkLoop, if_neg (by omega), allM_true]
        · exact hc2
        · intro i hi
          have hi' : i < ys.length := by rw [hyl]; simpa using hi
          unfold checkOne
          have hy : ys[i]? = some ys[i] := List.getElem?_eq_getElem hi'
          have hylt := hyb ys[i] (List.getElem_mem hi')
          rw [hy, Option.bind_some, hgrp i _ hy, Option.bind_some]
          obtain ⟨cc, hcc, hev⟩ := hval ys[i] hylt
          simp only [hcc, Option.bind_some, expected]
          rw [List.getElem?_eq_getElem (by rw [hl2]; exact hylt), Option.map_some, hev,
            List.getD_eq_getElem _ _ (by rw [hl2]; exact hylt)]
          simp
    | cons nb' rest' =>
      obtain ⟨tree, rfl, hmk, hput⟩ := hmatch
      obtain ⟨tree', pols, qs', htr, rfl, hopen', hpols⟩ := openLoop_cons hopen
      obtain rfl := Option.some.inj htr
      have hnb' : nb' ≤ nb := hdec.2.1
      have hdiv : 2 ^ nb / 2 ^ nb' = 2 ^ (nb - nb') := pow_div hnb'
      have hbl : (transposed E pol2 nb').length = 3 * (2 ^ nb / 2 ^ nb') * 2 ^ nb' := by
        rw [transposed_length hE, hl2]
      -- an opened row
      have hrow : ∀ (i y : Nat), ys[i]? = some y → ∃ path, pols[i]? = some
          [(((group pol2 (2 ^ (nb - nb')) (2 ^ nb') (y % 2 ^ nb')).map E.enc).flatten, path)] ∧
          mt.verify (mt.root tree) path (y % 2 ^ nb') (((group pol2 (2 ^ (nb - nb')) (2 ^ nb') (y % 2 ^ nb')).map E.enc).flatten)
            = some true := by
        intro i y hy
        obtain ⟨⟨row, path⟩, hr1, hr2⟩ := hpols i y hy
        have hlt : y % 2 ^ nb' < 2 ^ nb' := Nat.mod_lt _ (by positivity)
        obtain ⟨hrw, hver⟩ := hC _ _ _ _ hgood.1 hbl hmk _ hlt row path hr2
        have := transposed_row hE pol2 nb' (y % 2 ^ nb') hlt
        rw [hl2] at this
        rw [this, hdiv] at hrw
        exact ⟨path, by rw [hr1, hrw], by rw [← hrw]; exact hver⟩
      have hys' : ∀ (i y : Nat), (ys.map (· % 2 ^ nb'))[i]? = some y → ∃ y0, ys[i]? = some y0 ∧ y = y0 % 2 ^ nb' := by
        intro i y h
        rw [List.getElem?_map] at h
        obtain ⟨y0, h0, h1⟩ := Option.map_eq_some_iff.mp h
        exact ⟨y0, h0, h1.symm⟩
      obtain ⟨hc1, hc2⟩ := hIH hgood.2 (by omega) hwn (by simp) hP' (sqN_ne_zero _ hs) hD' hDlt' hfin'
        (by rw [List.length_map, hyl]) ⟨by
          intro y hy
          obtain ⟨a, _, rfl⟩ := List.mem_map.mp hy
          exact Nat.mod_lt _ (by positivity), _, _, rfl, hopen', by
          intro i y h
          obtain ⟨y0, h0, rfl⟩ := hys' i y h
          obtain ⟨path, hp1, hp2⟩ := hrow i y0 h0
          unfold openedGroup
          simp only [hp1, Option.bind_some, Bool.false_eq_true, if_false, List.head?_cons, hp2, if_true, split3_encs hE,
            Option.map_some]⟩
      refine ⟨?_, ?_⟩
      · rw [List.tail_cons, challenges, hx]
        simp only [Option.bind_some, List.head?_cons, hput, List.tail_cons]
        rw [List.tail_cons] at hc1
        rw [hc1]
        rfl
      · show checkLoop mt E c cq (lastLayer outs' pol2) first (nb :: nb' :: rest') (x :: outs'.map StepOut.x)
          (q0 :: ⟨mt.root tree, pols⟩ :: qs') polBits shift ys = some true
        rw [checkLoop, if_neg (by omega), allM_true]
        · simpa using hc2
        · intro i hi
          have hi' : i < ys.length := by rw [hyl]; simpa using hi
          unfold checkOne
          have hy : ys[i]? = some ys[i] := List.getElem?_eq_getElem hi'
          have hylt := hyb ys[i] (List.getElem_mem hi')
          rw [hy, Option.bind_some, hgrp i _ hy, Option.bind_some]
          obtain ⟨cc, hcc, hev⟩ := hval ys[i] hylt
          obtain ⟨path, hp1, _⟩ := hrow i _ hy
          have hj : ys[i] / 2 ^ nb' < 2 ^ (nb - nb') := by
            rw [Nat.div_lt_iff_lt_mul (by positivity), ← pow_add, show nb - nb' + nb' = nb by omega]; exact hylt
          simp only [hcc, Option.bind_some, expected, List.head?_cons, hp1]
          rw [get3_encs hE _ _ (by rw [group_length]; exact hj), Option.map_some, hev, group_get _ _ _ hj,
            Nat.div_add_mod']
          simp

end Verif.Fri
