import Verif.Stage.FullSteps

/-!
# The openings and the FRI polynomial on the buffers
-/
set_option linter.unusedSectionVars false

namespace Verif.Stage
open Verif.Codegen (NTy IOp Expr Label Op linearCode pilCodeGen)
open Verif.Stark FFT Fri
open Verif.GL (F)
open Verif.Ext3 (F3G K WF val ofF coord)
open Verif.Interp (Sec Info algF3 setWidth execInfo)
open Verif.Interp.Spec (nodeCol polCol)
open Verif.Map (secN sec2 Out Rel fixProverCode tgtOf)

noncomputable section

variable {R : Run} {U : Stark.Setup K} {T : Trace} {S : Full} {exps : List (Expr K)} {ids : List Nat} {fuelI fuel : Nat} {rest : List (Codegen.Code K) → List (Codegen.Instr K)}
  {cells : Nat → List F} {fixed : List F} {c : Ctx}

/-- the column of a committed polynomial, as `get_pol_ref` finds it -/
theorem evPol_cm {s : Info} {id : Nat} {col : Interp.Spec.Col} (h : nodeCol s .ns2 ({ ty := .cm, id := id } : Interp.Node F3G) = some col) (p : Bool) (c : Ctx) :
    evPol s c (.cm, p, id) = some (c.mem col.sec, col.pos, col.width, col.dim) := by
  unfold nodeCol at h
  obtain ⟨j, h1, h⟩ := Option.bind_eq_some_iff.mp h
  unfold polCol at h
  obtain ⟨q, h2, h⟩ := Option.bind_eq_some_iff.mp h
  split_ifs at h
  obtain rfl := Option.some.inj h
  unfold evPol
  rw [if_neg (by simp), if_pos rfl, show s.cm2ns[id]? = some j from h1, Option.bind_some, h2]
  rfl

/-- **The openings on the buffers.** -/
theorem evals_spec (H : Steps R U T S exps ids fuelI fuel rest) {ch' ev' xd xdw : List K} (hB : ExtBufs R U T S.info 4 cells fixed ch' ev' xd xdw c) {xi : K}
    (hxi : (c.mem .challenge)[7]? = some (lift3 xi)) {ch : List K} (hch : ch.getD 7 0 = xi) {evals : List K} (ho : openings R U T ch fixed cells = some evals) :
    evalsBuf S c = some (c.put .evals (evals.map lift3)) := by
  subst hch
  unfold openings at ho
  obtain ⟨l, hl, ho⟩ := Option.bind_eq_some_iff.mp ho
  obtain ⟨lp, hlp, ho⟩ := Option.bind_eq_some_iff.mp ho
  have hll := lev_length H.nb hl
  have hlpl := lev_length H.nb hlp
  unfold evalsBuf
  rw [hxi, Option.bind_some, lift3_val, hB.nbits, hl, Option.bind_some, hlp, Option.bind_some, H.evMap]
  have key : ∀ (ks : List EvKey) (evs : List K), (∀ k ∈ ks, KeyOk R T k) → (ks.mapM fun k =>
      let lv := if k.2.1 then lp else l
      if k.1 = .const_ then some (openEval lv (colVal (algebraMap F K) coord fixed k.2.2 T.nConst 1) R.nb R.ext)
      else if k.1 = .cm then (R.pos k.2.2).map fun c => openEval lv (colVal (algebraMap F K) coord (cells c.tree) c.pos (width4 R U T c.tree) c.dim) R.nb R.ext
      else none) = some evs → ks.mapM (evalOne S.info c (l.map lift3) (lp.map lift3)) = some (evs.map lift3) := by
    intro ks
    induction ks with
    | nil =>
      intro evs _ h
      obtain rfl := Option.some.inj h
      rfl
    | cons k ks ih =>
      intro evs hk h
      rw [List.mapM_cons] at h
      obtain ⟨v, h1, h⟩ := Option.bind_eq_some_iff.mp h
      obtain ⟨vs, h2, h⟩ := Option.bind_eq_some_iff.mp h
      obtain rfl := Option.some.inj h
      have hone : evalOne S.info c (l.map lift3) (lp.map lift3) k = some (lift3 v) := by
        dsimp only at h1
        obtain ⟨ty, p, id⟩ := k
        have hlv : (if p then lp.map lift3 else l.map lift3) = (if p then lp else l).map lift3 := by cases p <;> rfl
        have hlvl : (if p then lp else l).length = 2 ^ R.nb := by cases p <;> assumption
        unfold evalOne
        dsimp only at h1 ⊢
        rw [hB.nbits, hB.nbitsExt, Nat.add_sub_cancel_left, hlv]
        rcases hk _ (List.mem_cons_self ..) with ⟨e, hlt⟩ | ⟨e, hne⟩
        · dsimp only at e hlt
          subst e
          rw [if_pos rfl] at h1
          obtain rfl := Option.some.inj h1
          unfold evPol
          rw [if_pos rfl, Option.bind_some]
          dsimp only
          rw [H.lay.const_]
          exact eval_col hB.constMem hB.constSize (.inl rfl) hlt hlvl
        · dsimp only at e hne
          subst e
          rw [if_neg (by simp), if_pos rfl] at h1
          obtain ⟨cp, hcp, rfl⟩ := Option.map_eq_some_iff.mp h1
          obtain ⟨g1, g2, g3, g4⟩ := H.lay.dims _ _ hcp
          rw [evPol_cm (H.lay.col _ _ hcp), Option.bind_some]
          exact eval_col (hB.mem _ g2 g3) (hB.size _ g2 g3) g1 g4 hlvl
      rw [List.mapM_cons, hone, ih vs (fun k hk' => hk k (List.mem_cons_of_mem _ hk')) h2]
      rfl
  rw [key _ _ H.keys ho]
  rfl

/-- **Step 5 on the buffers**: the openings, the tables and the FRI polynomial. -/
theorem round5 (H : Steps R U T S exps ids fuelI fuel rest) {u dv ga be vc xi v1 v2 : K} {ch' ev' xd xdw : List K} (hB : ExtBufs R U T S.info 4 cells fixed ch' ev' xd xdw c)
    (hch : c.mem .challenge = [lift3 u, lift3 dv, lift3 ga, lift3 be, lift3 vc, Ext3.ZERO, Ext3.ZERO, Ext3.ZERO]) (hf : (c.mem .f_2ns).length = 2 ^ (R.nb + R.ext) * 3)
    {chx : List K} (hchx : chx.getD 7 0 = xi) {evals : List K} (ho : openings R U T chx fixed cells = some evals)
    {pol : List K} (hpol : friRows R U T [u, dv, ga, be, vc, v1, v2, xi] evals fixed cells = some pol) :
    ∃ c8 c9 c10 c11 c12 c13, setChal c 7 xi = some c8 ∧ evalsBuf S c8 = some c9 ∧ c9.mem .evals = evals.map lift3 ∧ setChal c9 5 v1 = some c10 ∧ setChal c10 6 v2 = some c11 ∧
      xDivBuf c11 = some c12 ∧ Interp.calcPar algF3 S.info S.zi S.step5.code S.step5.tmpUsed S.workers .step5 c12 = some c13 ∧ friPolBuf c13 = some pol ∧
      c13.mem .evals = evals.map lift3 ∧ c13.mem .publics = c.mem .publics := by
  obtain ⟨lit, tmpexps, nCols, hlit, hcodes⟩ := H.codes
  unfold codes2ns at hcodes
  obtain ⟨ctx, hgen, hcodes⟩ := Option.bind_eq_some_iff.mp hcodes
  obtain ⟨⟨k4, t4⟩, hfix, hcodes⟩ := Option.bind_eq_some_iff.mp hcodes
  obtain ⟨code4, hpush, hcodes⟩ := Option.bind_eq_some_iff.mp hcodes
  obtain ⟨fe, hfe, hcodes⟩ := Option.bind_eq_some_iff.mp hcodes
  obtain ⟨ctx5, hgen5, hcodes⟩ := Option.bind_eq_some_iff.mp hcodes
  obtain ⟨⟨k5, t5⟩, hfix5, hcodes⟩ := Option.map_eq_some_iff.mp hcodes
  have hs5 : S.step5 = ⟨k5, t5⟩ := (congrArg Prod.snd hcodes).symm
  -- the challenge
  have hset8 := setChal_some (c := c) (k := 7) (v := xi) (by rw [hch]; simp)
  generalize hc8 : c.put .challenge ((c.mem .challenge).set 7 (lift3 xi)) = c8 at hset8
  have hK8 : Kept [.challenge] c c8 := by rw [← hc8]; exact kept_put _ _ _
  have hch8 : c8.mem .challenge = [lift3 u, lift3 dv, lift3 ga, lift3 be, lift3 vc, Ext3.ZERO, Ext3.ZERO, lift3 xi] := by rw [← hc8, put_same, hch]; rfl
  have hB8 : ExtBufs R U T S.info 4 cells fixed [] [] xd xdw c8 := by
    have hm : ∀ x, x ≠ .challenge → c8.mem x = c.mem x := fun x hx => hK8.mem x (by simpa using hx)
    refine ⟨hK8.rest.1.trans hB.nbits, hK8.rest.2.1.trans hB.nbitsExt, fun t h1 h3 => ?_, hB.size, ?_, hB.constSize, ?_, fun i v hv => ?_, fun i v hv => by simp at hv, fun i v hv => by simp at hv, ?_, ?_, fun j => ?_⟩
    · rw [hm _ (by obtain rfl | rfl | rfl | rfl : t = 1 ∨ t = 2 ∨ t = 3 ∨ t = 4 := by omega
                   all_goals decide)]
      exact hB.mem t h1 h3
    · rw [hm _ (by decide)]; exact hB.constMem
    · rw [hm _ (by decide)]; exact hB.x
    · rw [hm _ (by decide)]; exact hB.publics i v hv
    · rw [hK8.rest.2.2.1, hB.xXi]
    · rw [hK8.rest.2.2.2.1, hB.xWXi]
    · rw [hK8.rest.2.2.2.2]; exact hB.Zi j
  have hev := evals_spec H hB8 (by rw [hch8]; rfl) hchx ho
  generalize hc9 : c8.put .evals (evals.map lift3) = c9 at hev
  have hK9 : Kept [.evals] c8 c9 := by rw [← hc9]; exact kept_put _ _ _
  have he9 : c9.mem .evals = evals.map lift3 := by rw [← hc9, put_same]
  have hch9 : c9.mem .challenge = [lift3 u, lift3 dv, lift3 ga, lift3 be, lift3 vc, Ext3.ZERO, Ext3.ZERO, lift3 xi] := by rw [hK9.mem _ (by decide), hch8]
  have hset10 := setChal_some (c := c9) (k := 5) (v := v1) (by rw [hch9]; simp)
  generalize hc10 : c9.put .challenge ((c9.mem .challenge).set 5 (lift3 v1)) = c10 at hset10
  have hK10 : Kept [.challenge] c9 c10 := by rw [← hc10]; exact kept_put _ _ _
  have hch10 : c10.mem .challenge = [lift3 u, lift3 dv, lift3 ga, lift3 be, lift3 vc, lift3 v1, Ext3.ZERO, lift3 xi] := by rw [← hc10, put_same, hch9]; rfl
  have hset11 := setChal_some (c := c10) (k := 6) (v := v2) (by rw [hch10]; simp)
  generalize hc11 : c10.put .challenge ((c10.mem .challenge).set 6 (lift3 v2)) = c11 at hset11
  have hK11 : Kept [.challenge] c10 c11 := by rw [← hc11]; exact kept_put _ _ _
  have hch11 : c11.mem .challenge = [lift3 u, lift3 dv, lift3 ga, lift3 be, lift3 vc, lift3 v1, lift3 v2, lift3 xi] := by rw [← hc11, put_same, hch10]; rfl
  have hK : Kept [.challenge, .evals] c c11 := (hK8.mono (by simp)).trans ((hK9.mono (by simp)).trans ((hK10.mono (by simp)).trans (hK11.mono (by simp))))
  have hm11 : ∀ x, x ≠ .challenge → x ≠ .evals → c11.mem x = c.mem x := fun x h1 h2 => hK.mem x (by simp [h1, h2])
  have he11 : c11.mem .evals = evals.map lift3 := by rw [hK11.mem _ (by decide), hK10.mem _ (by decide), he9]
  have hnb : c11.nbits = R.nb := hK.rest.1.trans hB.nbits
  have hne : c11.nbitsExt = R.nb + R.ext := hK.rest.2.1.trans hB.nbitsExt
  -- the tables
  obtain ⟨wxi, hw1, hw2, hw3, hw4⟩ := Ext3.mul_spec (a := lift3 xi) (b := ofF (Roots.mg R.nb)) (lift3_wf xi) (.inr ⟨rfl, rfl, rfl⟩)
  have hwv : val wxi = xi * mgK R.nb := by
    rw [hw4, lift3_val, show val (ofF (Roots.mg R.nb)) = mgK R.nb by simp [val, ofF, coord, mgK]]
  have hdiv : xDivBuf c11 = some { c11 with xXi := (xDivs R xi).flatMap encK.enc, xWXi := (xDivs R (xi * mgK R.nb)).flatMap encK.enc } := by
    unfold xDivBuf
    rw [hch11]
    rw [show ([lift3 u, lift3 dv, lift3 ga, lift3 be, lift3 vc, lift3 v1, lift3 v2, lift3 xi] : List F3G)[7]? = some (lift3 xi) from rfl, Option.bind_some, hnb, hw1, Option.bind_some, hne, xDivTab_spec R (lift3_wf xi) rfl, Option.bind_some, xDivTab_spec R hw2 (hw3.trans (joinDim3l rfl)), lift3_val, hwv]
    rfl
  generalize hc12 : ({ c11 with xXi := (xDivs R xi).flatMap encK.enc, xWXi := (xDivs R (xi * mgK R.nb)).flatMap encK.enc } : Ctx) = c12 at hdiv
  have hmem12 : c12.mem = c11.mem := by rw [← hc12]
  have hE : ExtBufs R U T S.info 4 cells fixed [u, dv, ga, be, vc, v1, v2, xi] evals (xDivs R (([u, dv, ga, be, vc, v1, v2, xi] : List K).getD 7 0))
      (xDivs R (([u, dv, ga, be, vc, v1, v2, xi] : List K).getD 7 0 * mgK R.nb)) c12 := by
    refine ⟨by rw [← hc12]; exact hnb, by rw [← hc12]; exact hne, fun t h1 h3 => ?_, hB.size, ?_, hB.constSize, ?_, fun i v hv => ?_, ?_, fun i v hv => ?_, ?_, ?_, fun j => ?_⟩
    · rw [hmem12, hm11 _ (by obtain rfl | rfl | rfl | rfl : t = 1 ∨ t = 2 ∨ t = 3 ∨ t = 4 := by omega
                             all_goals decide) (by obtain rfl | rfl | rfl | rfl : t = 1 ∨ t = 2 ∨ t = 3 ∨ t = 4 := by omega
                                                   all_goals decide)]
      exact hB.mem t h1 h3
    · rw [hmem12, hm11 _ (by decide) (by decide)]; exact hB.constMem
    · rw [hmem12, hm11 _ (by decide) (by decide)]; exact hB.x
    · rw [hmem12, hm11 _ (by decide) (by decide)]; exact hB.publics i v hv
    · rw [hmem12, hch11]
      exact rel_get (.cons (lift3_rel u) (.cons (lift3_rel dv) (.cons (lift3_rel ga) (.cons (lift3_rel be) (.cons (lift3_rel vc) (.cons (lift3_rel v1) (.cons (lift3_rel v2) (.cons (lift3_rel xi) .nil))))))))
    · rw [hmem12, he11]
      exact ⟨lift3 v, by rw [List.getElem?_map, hv]; rfl, lift3_rel v⟩
    · rw [← hc12]; rfl
    · rw [← hc12]; rfl
    · rw [← hc12]
      show c11.Zi j = _
      rw [hK.rest.2.2.2.2]; exact hB.Zi j
  obtain ⟨c13, g1, g2, g3⟩ := step5 H.set H.ex H.lay hlit hgen hfe hgen5 hfix5 hE (by rw [hmem12, hm11 _ (by decide) (by decide)]; exact hf) H.ext H.w1 H.w hpol
  have hK13 : Kept [.f_2ns] c12 c13 := calcPar_kept g1
  refine ⟨c8, c9, c10, c11, c12, c13, hset8, hev, he9, hset10, hset11, hdiv, by rw [hs5, H.zi]; exact g1, friPolBuf_spec (hK13.rest.2.1.trans hE.nbitsExt) (mapM_range_get hpol).1 g2, ?_, ?_⟩
  · rw [hK13.mem _ (by decide), hmem12, he11]
  · rw [hK13.mem _ (by decide), hmem12, hm11 _ (by decide) (by decide)]

end

end Verif.Stage
