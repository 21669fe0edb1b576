import Verif.Stage.FullLemmas

/-!
# The first three rounds on the buffers
-/
set_option linter.unusedSectionVars false

namespace Verif.Stage
open Codegen Codegen.Spec Verif.Stark FFT Fri Verif.Grand
open Verif.GL (F)
open Verif.Ext3 (F3G K WF val ofF coord)
open Verif.Interp (Sec Info algF3 setWidth)
open Verif.Interp.Spec (nodeCol)
open Verif.Map (secN sec2 Out inOf layN extSec CellsOk Hold Blank)

noncomputable section

variable {Root Path Tree : Type}

theorem put_same (c : Ctx) (x : Sec) (l : List F3G) : (c.put x l).mem x = l := by simp [Interp.Ctx.put]
theorem put_other (c : Ctx) {x y : Sec} (l : List F3G) (h : y ≠ x) : (c.put x l).mem y = c.mem y := if_neg h

/-- `extend_and_merkelize` of a section whose cells are known -/
theorem extMerk_spec {mt : MT F Root Path Tree} {S : Full} {t : Nat} {c : Ctx} {w nb ext : Nat} (hz : SizeOk S.fftWorkers nb ext w) (hnb : c.nbits = nb)
    (hne : c.nbitsExt = nb + ext) (hw : S.info.sectionsN (secN t) = w) {src dst : FftP.Buf F} (hm : c.mem (secN t) = (List.range (2 ^ nb * w)).map fun x => ofF (src x))
    (hl : (c.mem (sec2 t)).length = w * 2 ^ (nb + ext)) {b : FftP.Buf F} (hb : extendSec S.fftWorkers nb ext w src dst = some b) {tree : Tree}
    (ht : mt.merkelize (cellsOf b w (2 ^ (nb + ext))) w (2 ^ (nb + ext)) = some tree) :
    extMerk mt S t c = some (tree, c.put (sec2 t) ((cellsOf b w (2 ^ (nb + ext))).map ofF)) := by
  have hm' : c.mem (secN t) = ((List.range (2 ^ nb * w)).map src).map ofF := by rw [hm, List.map_map]; rfl
  obtain ⟨b', h1, h2⟩ := extendSec_congr hz (src' := bufOf ((List.range (2 ^ nb * w)).map src)) (dst' := S.dirty t) (fun x hx => by
    unfold bufOf
    rw [List.getD_eq_getElem?_getD, List.getElem?_map, List.getElem?_range hx]
    rfl) hb
  unfold extMerk
  dsimp only
  rw [hm', toBes_ofF, Option.bind_some, hnb, hne, hw, Nat.add_sub_cancel_left, h1, Option.bind_some, h2, ht, Option.bind_some, if_pos]
  rw [hl]
  simp [cellsOf]

variable {R : Run} {T : Trace} {S : Finset Nat} {l1 : Option Nat} {st st' : PilSt K} {a : Args} {cx : ArgCtx} {lims : List Lim} {fuel : Nat} {P : Progs}
  {q : Nat} {ce fe : Expr K} {fuelM : Nat} {o : Out} {lit : K → F3G}
  {TF : Trace} {ch4 ch : List K} {lim : Nat} {zi : Nat → Option F3G} {c : Ctx} {b2 b3 : FftP.Buf F}

/-- writing a section of the extended domain -/
theorem Sync.put (O : Circ R T S l1 st st' a cx lims fuel P q ce fe fuelM o lit) (hlim : lim ≤ R.nCm) (h : Sync R T o TF ch4 ch lim zi c) {t : Nat} (h1 : 1 ≤ t) (h3 : t ≤ 3) (l : List F) :
    Sync R T o TF ch4 ch lim zi (c.put (sec2 t) (l.map ofF)) := by
  have hm : ∀ x, x ≠ sec2 t → (c.put (sec2 t) (l.map ofF)).mem x = c.mem x := fun x hx => if_neg hx
  have hs : sec2 t = .cm1_2ns ∨ sec2 t = .cm2_2ns ∨ sec2 t = .cm3_2ns := by
    obtain rfl | rfl | rfl : t = 1 ∨ t = 2 ∨ t = 3 := by omega
    all_goals simp [sec2]
  have hne : ∀ x ∈ [Sec.cm1_n, .cm2_n, .cm3_n, .tmpexp_n, .const_n, .x_n, .publics, .challenge, .evals], x ≠ sec2 t := by
    intro x hx hh
    subst hh
    rcases hs with h | h | h <;> rw [h] at hx <;> simp at hx
  refine ⟨h.nbits, fun x hx => ?_, ⟨fun x hx => ?_, fun x hx w hw => ?_⟩, ?_, ?_, ?_, ?_, fun k v hv => ?_, h.Zi, fun k hk col hc r hr v hv => ?_⟩
  · rw [hm x (hne x (by simp at hx ⊢; tauto))]; exact h.len x hx
  · by_cases hxt : x = sec2 t
    · intro w hw
      rw [hxt, put_same] at hw
      obtain ⟨b, -, rfl⟩ := List.mem_map.mp hw
      exact ⟨b, rfl⟩
    · rw [hm x hxt]; exact h.cells.base x hx
  · rw [hm x (hne x (by rcases hx with rfl | rfl <;> simp))] at hw
    exact h.cells.ext x hx w hw
  · rw [hm _ (hne _ (by simp))]; exact h.const_
  · rw [hm _ (hne _ (by simp))]; exact h.x
  · rw [hm _ (hne _ (by simp))]; exact h.publics
  · rw [hm _ (hne _ (by simp))]; exact h.chalLen
  · rw [hm _ (hne _ (by simp))]; exact h.chal k v hv
  · have hsec := O.sec (k := k) (by omega) hc
    have hcol : col.sec ≠ sec2 t := hne _ (by rw [hsec]; split_ifs <;> simp)
    obtain ⟨cp, -, g2, g3, -⟩ := O.col (k := k) (by omega)
    obtain rfl := Option.some.inj (hc.symm.trans g2)
    refine Map.Hold.congr g3 (fun j hj => ?_) (h.done k hk _ hc r hr v hv)
    rw [hm _ hcol]

/-- What the first three rounds leave, from `c0` on. -/
structure Mid (c0 c : Ctx) (cells : Nat → List F) (ch : List K) : Prop where
  kept : Kept (nSecs ++ [.challenge, .cm1_2ns, .cm2_2ns, .cm3_2ns]) c0 c
  mem : ∀ t, 1 ≤ t → t ≤ 3 → c.mem (sec2 t) = (cells t).map ofF
  chal : c.mem .challenge = ch.map lift3 ++ List.replicate 4 Ext3.ZERO

/-- the sections of the trace do not depend on the challenges that are drawn later -/
theorem argTrace_ext {init2 init3 : FftP.Buf F} {u dv ga be : K} {nCm1 : Nat} (hcols : columns R T nCm1 P cx S init2 init3 u dv ga be = some (b2, b3)) {t : Nat} (h3 : t ≤ 3) (h1 : 1 ≤ t) (more : List K) :
    (argTrace R T nCm1 P cx S init2 init3).sec ([u, dv, ga, be] ++ more) t = (withCm T b2 b3).sec [u, dv, ga, be] t := by
  obtain ⟨h2, -⟩ := columns_split hcols
  obtain ⟨e1, e2, e3⟩ := withCm_sec T b2 b3 [u, dv, ga, be]
  obtain rfl | rfl | rfl : t = 1 ∨ t = 2 ∨ t = 3 := by omega
  · rw [e1]; rfl
  · rw [e2]
    show (cm2Of R T nCm1 P cx init2 u dv).getD _ = _
    rw [h2]; rfl
  · rw [e3]
    show ((columns R T nCm1 P cx S init2 init3 u dv ga be).map Prod.snd).getD _ = _
    rw [hcols]; rfl

theorem setupOf_info {i : Map.In K} {exps : List (Expr K)} {nConst workers : Nat} {U : Setup} (h : setupOf i o lit exps fuel nConst cx S zi workers = some U) :
    U.info = o.info nConst ∧ U.workers = workers ∧ U.zi = fun off j => zi (off + j) := by
  obtain ⟨k2, -, h⟩ := Option.bind_eq_some_iff.mp h
  obtain ⟨k3, -, h⟩ := Option.bind_eq_some_iff.mp h
  obtain ⟨k4, -, rfl⟩ := Option.map_eq_some_iff.mp h
  exact ⟨rfl, rfl, rfl⟩

set_option maxHeartbeats 1000000 in
/-- **The first three rounds on the buffers**, with the extension and the commitment of the three sections. -/
theorem rounds123 {mt : MT F Root Path Tree} (O : Circ R T S l1 st st' a cx lims fuel P q ce fe fuelM o lit) {init2 init3 : FftP.Buf F} {u dv ga be : K} {more : List K}
    (hcols : columns R T st.nCm P cx S init2 init3 u dv ga be = some (b2, b3)) {c0 : Ctx} (hstart : Start R T o zi c0)
    (side : ∀ n pc id col, cx.pu[n]? = some pc → id = pc.fExp ∨ id = pc.tExp → (layN (inOf st st' cx S q ce fe) o T.nConst (2 ^ R.nb) lit).col .exp id = some col →
      o.dim (st.nCm + 2 * n) = some col.dim)
    {workers : Nat} (hw1 : 1 ≤ workers) (hw : workers ≤ 2048) {U : Full}
    (hU : setupOf (inOf st st' cx S q ce fe) o lit st'.exps fuel T.nConst cx S zi workers = some U.toSetup) (hfw : U.fftWorkers = R.workers)
    (hsz : ∀ t, 1 ≤ t → t ≤ 3 → SizeOk R.workers R.nb R.ext (T.width t)) (hne : c0.nbitsExt = R.nb + R.ext) (hch : c0.mem .challenge = List.replicate 8 Ext3.ZERO)
    (hlen : ∀ t, 1 ≤ t → t ≤ 3 → (c0.mem (sec2 t)).length = T.width t * 2 ^ (R.nb + R.ext))
    {cells : Nat → List F} (hcells : ∀ t, 1 ≤ t → t ≤ 3 → extCells R (argTrace R T st.nCm P cx S init2 init3) ([u, dv, ga, be] ++ more) t = some (cells t))
    {tree : Nat → Tree} (htree : ∀ t, 1 ≤ t → t ≤ 3 → mt.merkelize (cells t) (T.width t) (2 ^ (R.nb + R.ext)) = some (tree t)) :
    ∃ c1 cn c2 c3 c4, extMerk mt U 1 c0 = some (tree 1, c1) ∧ round2 U.toSetup (lift3 u) (lift3 dv) c1 = some cn ∧ extMerk mt U 2 cn.1 = some (tree 2, c2) ∧
      round3 U.toSetup (lift3 ga) (lift3 be) (c2, cn.2) = some c3 ∧ extMerk mt U 3 c3 = some (tree 3, c4) ∧ Mid c0 c4 cells [u, dv, ga, be] := by
  obtain ⟨hinfo, -, -⟩ := setupOf_info hU
  have hsecs : CmSecs U.info := by
    obtain ⟨pols, hR⟩ := O.map.raw
    rw [hinfo]
    exact cmSecs_of hR T.nConst
  have hwid : ∀ t, 1 ≤ t → t ≤ 3 → U.info.sectionsN (secN t) = T.width t := by
    intro t h1 h3
    rw [hinfo, O.width t h1 h3]
    rfl
  have hsw : ∀ t, 1 ≤ t → t ≤ 3 → setWidth (o.info T.nConst) (secN t) = T.width t := by
    intro t h1 h3
    rw [O.width t h1 h3]
    obtain rfl | rfl | rfl : t = 1 ∨ t = 2 ∨ t = 3 := by omega
    all_goals rfl
  have hle := O.circ.layout.le
  have hcnt := O.circ.count
  obtain ⟨e1, -, -, -⟩ := genArgs_ctx O.circ.gen
  simp only [List.length_append] at hcnt
  -- the extension of a section
  have hext : ∀ (t : Nat) (c : Ctx), 1 ≤ t → t ≤ 3 → c.nbits = R.nb → c.nbitsExt = R.nb + R.ext → (c.mem (sec2 t)).length = T.width t * 2 ^ (R.nb + R.ext) →
      c.mem (secN t) = ((List.range (2 ^ R.nb * T.width t)).map fun x => ofF ((withCm T b2 b3).sec [u, dv, ga, be] t x)) →
      extMerk mt U t c = some (tree t, c.put (sec2 t) ((cells t).map ofF)) := by
    intro t c h1 h3 g1 g2 g3 g4
    have hc := hcells t h1 h3
    unfold extCells at hc
    obtain ⟨b, k1, k2⟩ := Option.map_eq_some_iff.mp hc
    rw [argTrace_ext hcols h3 h1] at k1
    have k2 : cellsOf b (T.width t) (2 ^ (R.nb + R.ext)) = cells t := k2
    have := extMerk_spec (mt := mt) (S := U) (t := t) (c := c) (w := T.width t) (by rw [hfw]; exact hsz t h1 h3) g1 g2 (hwid t h1 h3) g4 g3 (b := b) (by rw [hfw]; exact k1)
      (tree := tree t) (by rw [k2]; exact htree t h1 h3)
    rw [k2] at this
    exact this
  have hcols' : columns R T st.nCm P cx S init2 init3 (val (lift3 u)) (val (lift3 dv)) (val (lift3 ga)) (val (lift3 be)) = some (b2, b3) := by
    simp only [lift3_val]; exact hcols
  have hv4 : [val (lift3 u), val (lift3 dv), val (lift3 ga), val (lift3 be)] = [u, dv, ga, be] := by simp only [lift3_val]
  obtain ⟨X, hX⟩ := Map.exists_values st'.exps fun r => traceStore R (withCm T b2 b3) [val (lift3 u), val (lift3 dv), val (lift3 ga), val (lift3 be)] r
  have hS0 := hstart.sync O b2 b3 [val (lift3 u), val (lift3 dv), val (lift3 ga), val (lift3 be)]
  -- the first round
  have hm1 : c0.mem (secN 1) = ((List.range (2 ^ R.nb * T.width 1)).map fun x => ofF ((withCm T b2 b3).sec [u, dv, ga, be] 1 x)) := by
    rw [(withCm_sec _ _ _ _).1]
    have hl1 := hstart.len .cm1_n (by simp)
    have hw' : setWidth (o.info T.nConst) .cm1_n = T.width 1 := by
      rw [← hinfo]; exact hwid 1 (by omega) (by omega)
    rw [hw'] at hl1
    refine List.ext_getElem? fun x => ?_
    by_cases hx : x < 2 ^ R.nb * T.width 1
    · have hw0 : 0 < T.width 1 := by
        rcases Nat.eq_zero_or_pos (T.width 1) with h | h
        · rw [h] at hx; simp at hx
        · exact h
      have := hstart.cm1 (x / T.width 1) ((Nat.div_lt_iff_lt_mul hw0).mpr hx) (x % T.width 1) (Nat.mod_lt _ hw0)
      rw [Nat.div_add_mod'] at this
      rw [List.getElem?_map, List.getElem?_range hx, Option.map_some]
      exact this
    · have ha : (c0.mem .cm1_n)[x]? = none := List.getElem?_eq_none (by omega)
      have hb : ((List.range (2 ^ R.nb * T.width 1)).map fun x => ofF (T.cm1 x))[x]? = none := List.getElem?_eq_none (by simp; omega)
      exact ha.trans hb.symm
  have hx1 := hext 1 c0 (by omega) (by omega) hstart.nbits hne (hlen 1 (by omega) (by omega)) hm1
  generalize hc1 : c0.put (sec2 1) ((cells 1).map ofF) = c1 at hx1
  have hS1 := hS0.put O (by omega) (t := 1) (by omega) (by omega) (cells 1)
  rw [hc1] at hS1
  -- the second round
  obtain ⟨cC, r1, r2, r3, r4, r5⟩ := round2_spec O (lift3_wf u) (lift3_wf dv) hcols' hX hS1 side hw1 hw hU
  have hk2 := round2_kept hsecs r1
  dsimp only at hk2
  have hK1 : Kept [.cm1_2ns] c0 c1 := by rw [← hc1]; exact kept_put _ _ _
  have hK2 : Kept (nSecs ++ [.challenge, .cm1_2ns]) c0 cC :=
    (hK1.mono (by simp [nSecs])).trans (((kept_put c1 .challenge _).mono (by simp [nSecs])).trans (hk2.mono (by simp +contextual [nSecs])))
  have hx2 := hext 2 cC (by omega) (by omega) r2.nbits (by rw [hK2.rest.2.1]; exact hne) (by rw [hK2.mem _ (by simp [nSecs, sec2])]; exact hlen 2 (by omega) (by omega)) (by
    rw [hv4] at r4
    refine section_eq O (TF := withCm T b2 b3) rfl (by omega) (by omega) r4 (fun k cp hk hc ht => ?_) ?_
    · obtain ⟨cp', g1, -, -, g4, -⟩ := O.col hk
      obtain rfl := Option.some.inj (hc.symm.trans g1)
      by_contra hn
      rw [if_neg (by omega), if_neg hn] at g4
      omega
    · rw [← hsw 2 (by omega) (by omega)]
      exact r2.len (secN 2) (by decide))
  generalize hc2 : cC.put (sec2 2) ((cells 2).map ofF) = c2 at hx2
  have hS2 := r2.put O (by omega) (t := 2) (by omega) (by omega) (cells 2)
  rw [hc2] at hS2
  have hK3 : Kept [.cm2_2ns] cC c2 := by rw [← hc2]; exact kept_put _ _ _
  -- the third round
  obtain ⟨cH, s1, s2, s3, s4⟩ := round3_spec O (lift3_wf ga) (lift3_wf be) hcols' hX hS2 (fun ty id col hc r hr => by
    have hsame : ∀ j < col.dim, Interp.Spec.cell (c2.mem col.sec) col.width r (col.pos + j) = Interp.Spec.cell (cC.mem col.sec) col.width r (col.pos + j) := by
      intro j hj
      rw [hK3.mem _ (by rcases (O.lay hc).1 with h | h <;> rw [h] <;> simp)]
    rcases r3 ty id col hc r hr with h | h
    · exact .inl (Map.Blank.congr hsame h)
    · exact .inr (Map.Hold.congr (O.lay hc).2.1 hsame h)) hw1 hw hU
  have hk3 := round3_kept hsecs s1
  dsimp only at hk3
  have hK4 : Kept (nSecs ++ [.challenge, .cm1_2ns, .cm2_2ns]) c0 cH :=
    (hK2.mono (by simp +contextual [nSecs])).trans ((hK3.mono (by simp [nSecs])).trans (((kept_put c2 .challenge _).mono (by simp [nSecs])).trans (hk3.mono (by simp +contextual [nSecs]))))
  have hx3 := hext 3 cH (by omega) (by omega) s2.nbits (by rw [hK4.rest.2.1]; exact hne) (by rw [hK4.mem _ (by simp [nSecs, sec2])]; exact hlen 3 (by omega) (by omega)) (by
    rw [hv4] at s3
    refine section_eq O (TF := withCm T b2 b3) rfl (by omega) (by omega) s3 (fun k cp hk hc ht => hk) ?_
    rw [← hsw 3 (by omega) (by omega)]
    exact s2.len (secN 3) (by decide))
  refine ⟨c1, _, c2, cH, _, hx1, r1, hx2, s1, hx3, ?_, fun t h1 h3 => ?_, ?_⟩
  · exact (hK4.mono (by simp +contextual [nSecs])).trans ((kept_put cH (sec2 3) _).mono (by simp [nSecs, sec2]))
  · obtain rfl | rfl | rfl : t = 1 ∨ t = 2 ∨ t = 3 := by omega
    · rw [put_other _ _ (by decide), hk3.mem _ (by decide), put_other _ _ (by decide), hK3.mem _ (by decide), hk2.mem _ (by decide), put_other _ _ (by decide), ← hc1, put_same]
    · rw [put_other _ _ (by decide), hk3.mem _ (by decide), put_other _ _ (by decide), ← hc2, put_same]
    · rw [put_same]
  · rw [put_other _ _ (by decide), hk3.mem _ (by decide), put_same, hK3.mem _ (by decide), hk2.mem _ (by decide), put_same, hK1.mem _ (by decide), hch]
    rfl

end

end Verif.Stage
