import Verif.Stage.Run

/-!
# The steps between the runs: challenges, cleared buffers, columns of the arguments
-/
namespace Verif.Stage
open Codegen Codegen.Spec Verif.Stark FFT Fri Verif.Grand
open Verif.GL (F)
open Verif.Ext3 (F3G K WF val ofF coord)
open Verif.Interp (Sec Info algF3 cleared execInfo setWidth)
open Verif.Interp.Spec (Col cell readCol polCol nodeCol rowOf)
open Verif.Map (Hold Rel Same ApartCol CellsOk extSec MapOk inOf layN Out Lay Blank Fresh Frame KeepsCols secN InCol Provided Needed NoPoint ReadOk tagN Raw)

noncomputable section

variable {R : Run} {T : Trace} {S : Finset Nat} {l1 : Option Nat} {st st' : PilSt K} {a : Args} {cx : ArgCtx} {lims : List Lim} {fuel : Nat} {P : Progs}
  {q : Nat} {ce fe : Expr K} {fuelM : Nat} {o : Out} {lit : K → F3G}
  {TF : Trace} {ch4 ch : List K} {lim : Nat} {zi : Nat → Option F3G} {c : Ctx} {N : Nat} {X : NTy → Nat → Nat → K}

/-- `exp2pol` of an expression of an argument is the column in which the programs store it -/
theorem map_argCol {i : Map.In K} {nConst : Nat} (h : MapOk i fuelM o) {id : Nat} (hid : id ∈ i.argIds) :
    ∃ p col, o.st.exp2pol.lookup id = some p ∧ polCol (o.info nConst) p = some col ∧ (layN i o nConst N lit).col .exp id = some col := by
  obtain ⟨pols, hR⟩ := h.raw
  obtain ⟨r, hr, ho⟩ := Option.map_eq_some_iff.mp h.map
  obtain ⟨hE, hIm⟩ := Map.columns_exp2pol hr h.nCm2 (fun k hk => (h.ims k).mpr hk) h.nodup
  have hst : o.st.cmN = r.1.cmN ∧ o.st.tmpexps = r.1.tmpexps ∧ o.st.exp2pol = r.1.exp2pol := by rw [← ho]; exact ⟨rfl, rfl, rfl⟩
  obtain ⟨e1, e2, e3⟩ := hst
  have hhas : Map.HasCol i r.1 id := by
    obtain ⟨ds, es, -, -, -, -, -, -, g1, g2⟩ := Map.columns_tmps hr h.nCm2
    unfold Map.In.argIds at hid
    simp only [List.mem_append, List.mem_flatMap, List.mem_cons, List.not_mem_nil, or_false] at hid
    rcases hid with ⟨c, hc, rfl | rfl⟩ | ⟨c, hc, rfl | rfl⟩
    · exact (g1 c hc).1
    · exact (g1 c hc).2
    · exact (g2 c (by simp only [List.mem_append]; exact hc)).1
    · exact (g2 c (by simp only [List.mem_append]; exact hc)).2
  by_cases him : id ∈ i.imList
  · obtain ⟨n, hn⟩ := List.getElem?_of_mem him
    obtain ⟨p, p1, p2⟩ := hIm n id hn
    have hidx : i.imList.idxOf id = n := by
      obtain ⟨hn1, hn2⟩ := List.getElem?_eq_some_iff.mp hn
      rw [← hn2]
      exact h.nodup.idxOf_getElem n hn1
    have hcm : o.st.cmN[i.zBase + i.nZ + n]? = some p := by rw [e1]; exact p1
    obtain ⟨c, hc⟩ := hR.cmLen _ _ hcm
    have hn' := hR.nodeCm nConst (i.zBase + i.nZ + n)
    rw [hc, Option.map_some] at hn'
    refine ⟨p, ⟨secN c.tree, c.pos, c.dim, o.widthN c.tree⟩, by rw [e3]; exact p2, ?_, ?_⟩
    rotate_left
    · show ((Map.tgtOf i.imList i.im2cm o.st.tmpexps .n id).bind fun tk => nodeCol (o.info nConst) .n ({ ty := tk.1, id := tk.2 } : Interp.Node F3G)) = _
      unfold Map.tgtOf Map.In.im2cm
      rw [if_pos him, if_pos him, hidx, Option.map_some, Option.bind_some]
      exact hn'
    · have hn'' : ((o.info nConst).cmN[i.zBase + i.nZ + n]?).bind (polCol (o.info nConst)) = some _ := hn'
      rw [show (o.info nConst).cmN = o.st.cmN from rfl, hcm, Option.bind_some] at hn''
      exact hn''
  · rcases hhas with hh | ⟨j, hj⟩
    · exact absurd ((h.ims id).mp hh) him
    · rw [← e2] at hj
      obtain ⟨-, p, d, p1, p2, -⟩ := hR.tmp id j hj
      obtain ⟨p', d', y, -, -, -, -, -, -, -, -, -, hcol⟩ := hR.nodeTmp nConst hj
      refine ⟨p, ⟨.tmpexp_n, y.sectionPos, d', o.lay.n .tmpexp_n⟩, p2, ?_, ?_⟩
      rotate_left
      · show ((Map.tgtOf i.imList i.im2cm o.st.tmpexps .n id).bind fun tk => nodeCol (o.info nConst) .n ({ ty := tk.1, id := tk.2 } : Interp.Node F3G)) = _
        unfold Map.tgtOf
        rw [if_neg him, if_pos rfl, hj, Option.map_some, Option.bind_some]
        exact hcol
      · have hcol' : ((o.info nConst).tmpexpN[j]?).bind (polCol (o.info nConst)) = some _ := hcol
        rw [show (o.info nConst).tmpexpN = o.st.tmpexpN from rfl, p1, Option.bind_some] at hcol'
        exact hcol'

/-- after the clearing at the start of a run, every column that is not an input of the run is blank -/
theorem cleared_fresh (O : Circ R T S l1 st st' a cx lims fuel P q ce fe fuelM o lit) {stp : Interp.Step} (hst : stp = .step2prev ∨ stp = .step3prev ∨ stp = .step3)
    (h : ∀ ty id col, (layN (inOf st st' cx S q ce fe) o T.nConst (2 ^ R.nb) lit).col ty id = some col → col.sec ∈ (execInfo (o.info T.nConst) stp).inp →
      ∀ r < 2 ^ R.nb, Blank c.mem col r ∨ Hold c.mem col r (X ty id r)) :
    Fresh (layN (inOf st st' cx S q ce fe) o T.nConst (2 ^ R.nb) lit) X (cleared algF3 (execInfo (o.info T.nConst) stp) (2 ^ R.nb) c).mem := by
  obtain ⟨-, -, -, x4, x5, x6, -, -⟩ := exec_three (s := o.info T.nConst) hst
  intro ty id col hc r hr
  obtain ⟨g1, g2, g3, g4⟩ := O.lay hc
  have hr : r < 2 ^ R.nb := hr
  by_cases hin : col.sec ∈ (execInfo (o.info T.nConst) stp).inp
  · have he : ∀ j < col.dim, cell ((cleared algF3 (execInfo (o.info T.nConst) stp) (2 ^ R.nb) c).mem col.sec) col.width r (col.pos + j) = cell (c.mem col.sec) col.width r (col.pos + j) := by
      intro j _
      unfold cleared
      dsimp only
      rw [if_neg fun hh => hh.2 hin]
    rcases h ty id col hc hin r hr with hb | hb
    · exact .inl (Blank.congr he hb)
    · exact .inr (Hold.congr g2 he hb)
  · left
    intro hd
    have hout : col.sec ∈ (execInfo (o.info T.nConst) stp).out := by rcases g1 with g1 | g1 <;> rw [g1] <;> assumption
    have hlt : ∀ j < 3, cell ((cleared algF3 (execInfo (o.info T.nConst) stp) (2 ^ R.nb) c).mem col.sec) col.width r (col.pos + j) = some Ext3.ZERO := by
      intro j hj
      unfold cleared cell
      dsimp only
      rw [if_pos ⟨hout, hin⟩, x4, ← g4, List.getElem?_replicate, if_pos (by rw [Nat.mul_comm (2 ^ R.nb)]; exact Stark.cell_lt hr (by omega))]
      rfl
    exact ⟨hlt 1 (by omega), hlt 2 (by omega)⟩

/-- two challenges -/
theorem setChallenges_sync (O : Circ R T S l1 st st' a cx lims fuel P q ce fe fuelM o lit) (hlim : lim ≤ R.nCm) (hS : Sync R T o TF ch4 ch lim zi c) {k : Nat} (hk : k + 2 ≤ 4) {x y : F3G} (hx : WF x) (hy : WF y) {ch' : List K}
    (h : ∀ (j : Nat) (v : K), ch'[j]? = some v → (j = k ∧ v = val x) ∨ (j = k + 1 ∧ v = val y) ∨ (j < k ∧ ch[j]? = some v)) :
    ∃ c', setChallenges c k x y = some c' ∧ Sync R T o TF ch4 ch' lim zi c' ∧ ∀ t, t ≠ .challenge → c'.mem t = c.mem t := by
  have hl := hS.chalLen
  refine ⟨c.put .challenge (((c.mem .challenge).set k x).set (k + 1) y), ?_, ?_, fun t ht => if_neg ht⟩
  · unfold setChallenges Interp.setCell
    rw [if_pos (by omega), Option.bind_some, if_pos (by rw [List.length_set]; omega), Option.map_some]
  · have hm : ∀ t, t ≠ .challenge → (c.put .challenge (((c.mem .challenge).set k x).set (k + 1) y)).mem t = c.mem t := fun t ht => if_neg ht
    have hc : (c.put .challenge (((c.mem .challenge).set k x).set (k + 1) y)).mem .challenge = ((c.mem .challenge).set k x).set (k + 1) y := by simp [Interp.Ctx.put]
    refine ⟨hS.nbits, fun t ht => ?_, ⟨fun t ht => ?_, fun t ht w hw => ?_⟩, ?_, ?_, ?_, ?_, fun j v hv => ?_, hS.Zi, fun k' hk' col hcol r hr v hv => ?_⟩
    · rw [hm t (by rintro rfl; simp at ht)]; exact hS.len t ht
    · rw [hm t (by rintro rfl; exact ht (by unfold extSec; simp))]; exact hS.cells.base t ht
    · by_cases hch : t = .challenge
      · subst hch
        rw [hc] at hw
        rcases List.mem_or_eq_of_mem_set hw with hw | rfl
        · rcases List.mem_or_eq_of_mem_set hw with hw | rfl
          · exact hS.cells.ext _ (.inl rfl) w hw
          · exact hx
        · exact hy
      · rw [hm t hch] at hw
        exact hS.cells.ext t ht w hw
    · rw [hm _ (by simp)]; exact hS.const_
    · rw [hm _ (by simp)]; exact hS.x
    · rw [hm _ (by simp)]; exact hS.publics
    · rw [hc, List.length_set, List.length_set]; exact hl
    · rw [hc]
      rcases h j v hv with ⟨rfl, rfl⟩ | ⟨rfl, rfl⟩ | ⟨hj, hv'⟩
      · rw [List.getElem?_set_ne (by omega), List.getElem?_set_self (by omega), Option.map_some]
      · rw [List.getElem?_set_self (by rw [List.length_set]; omega), Option.map_some]
      · rw [List.getElem?_set_ne (by omega), List.getElem?_set_ne (by omega)]
        exact hS.chal j v hv'
    · have hh := hS.done k' hk' col hcol r hr v hv
      obtain ⟨cp, g1, g2, g3, g4, -⟩ := O.col (k := k') (by omega)
      obtain rfl := Option.some.inj (hcol.symm.trans g2)
      have hs := secN_three (t := cp.tree) (by rw [g4]; split_ifs <;> omega)
      refine Hold.congr g3 (fun j _ => ?_) hh
      rw [hm]
      rcases hs with h | h | h <;> simp [h]

/-- `set_pol` of the next column -/
theorem write_sync (O : Circ R T S l1 st st' a cx lims fuel P q ce fe fuelM o lit) (hS : Sync R T o TF ch4 ch lim zi c) (hst : ¬ lim < st.nCm) (hlim : lim < R.nCm) {p : Nat} (hp : o.st.cmN[lim]? = some p)
    {d : Nat} (hd : ∀ cp, R.pos lim = some cp → cp.dim = d) {pol : List F3G} (hw : AllWF pol) (h1 : d = 1 → ∀ x ∈ pol, x.dim = 1) {v : Nat → K} (hl : pol.map val = rows (2 ^ R.nb) v)
    (hv : ∀ r < 2 ^ R.nb, trCm R TF ch4 lim r = some (v r)) :
    ∃ c', setPol (o.info T.nConst) c p pol = some c' ∧ Sync R T o TF ch4 ch (lim + 1) zi c' ∧
      (∀ ty id col, (layN (inOf st st' cx S q ce fe) o T.nConst (2 ^ R.nb) lit).col ty id = some col → ∀ r, Same c.mem c'.mem col r) ∧
      c'.mem .cm1_n = c.mem .cm1_n := by
  obtain ⟨cp, g1, g2, g3, g4, g5, g6, p', g7, g8⟩ := O.col (k := lim) (by omega)
  obtain rfl := Option.some.inj (hp.symm.trans g7)
  have hs : secN cp.tree = .cm2_n ∨ secN cp.tree = .cm3_n := by
    rw [g4, if_neg hst]
    split_ifs
    · exact .inl rfl
    · exact .inr rfl
  have hsl : secN cp.tree ∈ [Sec.cm1_n, .cm2_n, .cm3_n, .tmpexp_n, .const_n, .x_n] := by rcases hs with h | h <;> rw [h] <;> simp
  have hsw : setWidth (o.info T.nConst) (secN cp.tree) = T.width cp.tree := by
    rw [g6]
    rcases hs with h | h <;> rw [h] <;> rfl
  have hpol : PolAt (o.info T.nConst) c (2 ^ R.nb) p ⟨secN cp.tree, cp.pos, cp.dim, T.width cp.tree⟩ := by
    refine ⟨g8, ?_, g3, g5, ?_⟩
    · dsimp only
      rw [hS.nbits]
      rcases hs with h | h <;> rw [h] <;> rfl
    · dsimp only
      rw [hS.len _ hsl, hsw]
  obtain ⟨c', w1, w2⟩ := setPol_wrote hpol (by dsimp only; unfold extSec; rcases hs with h | h <;> rw [h] <;> simp) hw (fun h => h1 ((hd cp g1).symm.trans h)) hl
  refine ⟨c', w1, ?_, ?_, ?_⟩
  · have ho : ∀ t, t ≠ .cm2_n → t ≠ .cm3_n → c'.mem t = c.mem t := fun t h2 h3 => w2.other t (by dsimp only; rcases hs with h | h <;> rw [h] <;> assumption)
    refine ⟨w2.nbits.trans hS.nbits, fun t ht => (w2.len t).trans (hS.len t ht), w2.cells hS.cells, ?_, ?_, ?_, ?_, ?_, w2.Zi.trans hS.Zi, fun k hk col hc r hr x hx => ?_⟩
    · rw [ho _ (by simp) (by simp)]; exact hS.const_
    · rw [ho _ (by simp) (by simp)]; exact hS.x
    · rw [ho _ (by simp) (by simp)]; exact hS.publics
    · rw [ho _ (by simp) (by simp)]; exact hS.chalLen
    · rw [ho _ (by simp) (by simp)]; exact hS.chal
    · by_cases hkl : k = lim
      · subst hkl
        obtain rfl := Option.some.inj (hc.symm.trans g2)
        obtain rfl : v r = x := Option.some.inj ((hv r hr).symm.trans hx)
        exact w2.hold r hr
      · have hk' : k < lim := by omega
        have hh := hS.done k hk' col hc r hr x hx
        obtain ⟨cq, q1, q2, q3, q4, q5, -⟩ := O.col (k := k) (by omega)
        have hap := O.two (k := k) (k' := lim) (by omega) (by omega) hkl hc g2
        obtain rfl := Option.some.inj (hc.symm.trans q2)
        exact Hold.congr q3 (w2.keep _ r q5 hap) hh
  · intro ty id col hc r
    refine w2.keep col r (O.lay hc).2.2.1 ?_
    have := O.apart hlim g2 hc
    rcases this with h | ⟨h, h'⟩
    · exact .inl h.symm
    · exact .inr ⟨h.symm, h'.symm⟩
  · exact w2.other _ (by dsimp only; rcases hs with h | h <;> rw [h] <;> simp)

end

end Verif.Stage
