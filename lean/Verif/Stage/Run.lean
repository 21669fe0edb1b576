import Verif.Stage.Inv

/-!
# One run of `calculate_exps_parallel` in the second or third round
-/
namespace Verif.Stage
open Codegen Codegen.Spec Verif.Stark FFT Fri Verif.Grand
open Verif.GL (F)
open Verif.Ext3 (F3G K WF val ofF coord)
open Verif.Interp (Sec Info algF3 cleared execInfo setWidth)
open Verif.Interp.Spec (Col cell readCol polCol nodeCol rowOf)
open Verif.Map (Hold Rel Same ApartCol CellsOk extSec MapOk inOf layN Out Lay Blank Fresh Frame KeepsCols secN InCol Provided Needed NoPoint ReadOk tagN Raw)

noncomputable section

variable {R : Run} {T : Trace} {S : Finset Nat} {l1 : Option Nat} {st st' : PilSt K} {a : Args} {cx : ArgCtx} {lims : List Lim} {fuel : Nat} {P : Progs}
  {q : Nat} {ce fe : Expr K} {fuelM : Nat} {o : Out} {lit : K → F3G}
  {TF : Trace} {ch4 ch : List K} {lim : Nat} {zi : Nat → Option F3G} {c : Ctx} {N : Nat} {X : NTy → Nat → Nat → K}

theorem trace_const {i k : Nat} {p : Bool} {v : K} (h : traceStore R TF ch i .const_ k p = some v) : k < TF.nConst ∧
    v = algebraMap F K (TF.fixed ((i + if p then 1 else 0) % 2 ^ R.nb * TF.nConst + k)) := by
  unfold traceStore at h
  dsimp only at h
  by_cases hk : k < TF.nConst
  swap
  · rw [if_neg hk] at h
    cases h
  rw [if_pos hk] at h
  refine ⟨hk, ?_⟩
  have hg : (cellsOf TF.fixed TF.nConst (2 ^ R.nb)).getD ((i + if p then 1 else 0) % 2 ^ R.nb * TF.nConst + k) 0 = TF.fixed ((i + if p then 1 else 0) % 2 ^ R.nb * TF.nConst + k) :=
    cellsOf_getD _ (Stark.cell_lt (Nat.mod_lt _ (by positivity)) hk)
  have := Option.some.inj h
  unfold colVal at this
  rw [if_pos rfl, hg] at this
  exact this.symm

theorem val_base (b : F) : val (ofF b) = algebraMap F K b := by simp [val, ofF, coord]

theorem rowOf_eq {i n : Nat} (p : Bool) (hi : i < n) : (i + if p then 1 else 0) % n = rowOf n 1 p i := by
  unfold rowOf
  cases p
  · simp [Nat.mod_eq_of_lt hi]
  · simp

/-- the buffers provide the values of the stage -/
theorem Sync.provided (O : Circ R T S l1 st st' a cx lims fuel P q ce fe fuelM o lit) {b2 b3 : FftP.Buf F} (hS : Sync R T o (withCm T b2 b3) ch4 ch lim zi c)
    (hch : ch <+: ch4) (hlim : lim ≤ R.nCm) {stp : Interp.Step} (hdom : (execInfo (o.info T.nConst) stp).dom = .n) (hcon : Sec.const_n ∈ (execInfo (o.info T.nConst) stp).inp)
    (hwid : (execInfo (o.info T.nConst) stp).width = setWidth (o.info T.nConst))
    (hin : ∀ k < lim, ∀ col, nodeCol (o.info T.nConst) .n ({ ty := .cm, id := k } : Interp.Node F3G) = some col → col.sec ∈ (execInfo (o.info T.nConst) stp).inp)
    {i : Nat} (hi : i < 2 ^ R.nb) {σ : Store K} (hσ : ∀ t k p v, σ t k p = some v → stageStore R (withCm T b2 b3) ch lim i t k p = some v)
    (hx : ∀ k p v, σ .x k p = some v → Sec.x_n ∈ (execInfo (o.info T.nConst) stp).inp) :
    Provided (o.info T.nConst) (execInfo (o.info T.nConst) stp) (2 ^ R.nb) 1 c i σ := by
  have hcm : ∀ k p v, σ .cm k p = some v → ∃ col, nodeCol (o.info T.nConst) .n ({ ty := .cm, id := k } : Interp.Node F3G) = some col ∧
      InCol (execInfo (o.info T.nConst) stp) col ∧ (readCol algF3 c.mem col (rowOf (2 ^ R.nb) 1 p i)).map val = some v := by
    intro k p v hv
    have h1 := hσ _ _ _ _ hv
    have hk : k < lim := by
      by_contra hk
      unfold stageStore at h1
      rw [if_pos ⟨rfl, by omega⟩] at h1
      cases h1
    have h2 := O.trace_le b2 b3 hch hlim i _ _ _ _ h1
    rw [trace_rows] at h2
    simp only [rowStore] at h2
    obtain ⟨cp, g1, g2, g3, g4, g5, g6, -⟩ := O.col (k := k) (by omega)
    have hh := hS.done k hk _ g2 ((i + if p then 1 else 0) % 2 ^ R.nb) (Nat.mod_lt _ (by positivity)) v h2
    obtain ⟨w, w1, w2⟩ := hh.read g3
    refine ⟨_, g2, ⟨hin k hk _ g2, g5, ?_⟩, ?_⟩
    · rw [hwid]
      dsimp only
      rw [g6]
      rcases secN_three (t := cp.tree) (by rw [g4]; split_ifs <;> omega) with h | h | h <;> rw [h] <;> rfl
    · rw [← rowOf_eq p hi, w1, Option.map_some, w2.val]
  have hco : ∀ k p v, σ .const_ k p = some v → k < T.nConst ∧ (readCol algF3 c.mem ⟨.const_n, k, 1, T.nConst⟩ (rowOf (2 ^ R.nb) 1 p i)).map val = some v := by
    intro k p v hv
    have h1 := hσ _ _ _ _ hv
    unfold stageStore at h1
    rw [if_neg (by simp)] at h1
    obtain ⟨h2, rfl⟩ := trace_const h1
    refine ⟨h2, ?_⟩
    have h3 := hS.const_ ((i + if p then 1 else 0) % 2 ^ R.nb) (Nat.mod_lt _ (by positivity)) k h2
    unfold readCol
    dsimp only
    rw [if_pos rfl]
    unfold cell
    rw [← rowOf_eq p hi, h3, Option.map_some]
    exact congrArg some (val_base _)
  refine ⟨fun t k p v hv => ?_, fun k p v hv => ?_, fun k p v hv => ?_, fun k p v hv => ?_, fun k p => ?_⟩
  · rw [hdom]
    have h1 := hσ _ _ _ _ hv
    have h1' : ∀ hne : t ≠ .cm, traceStore R (withCm T b2 b3) ch i t k p = some v := fun hne => by
      unfold stageStore at h1
      rwa [if_neg (by simp [hne])] at h1
    cases t <;> try (exfalso; have h2 := h1' (by simp); simp [traceStore] at h2; done)
    · obtain ⟨col, g1, -, g3⟩ := hcm k p v hv
      simp only [Map.rowEnv]
      rw [g1, Option.bind_some, g3]
    · obtain ⟨-, g⟩ := hco k p v hv
      exact g
    · have h2 := h1' (by simp)
      simp only [traceStore] at h2
      simp only [Map.rowEnv]
      rw [← List.getElem?_map, hS.publics]
      exact h2
    · have h2 := h1' (by simp)
      simp only [traceStore] at h2
      exact hS.chal k v h2
    · have h2 := h1' (by simp)
      obtain ⟨b, g1, g2⟩ := hS.x i hi
      simp only [traceStore, Option.some.injEq] at h2
      subst h2
      simp only [Map.rowEnv, nodeCol, Option.bind_some, readCol, cell, if_true, Nat.mul_one, Nat.add_zero]
      rw [g1, Option.map_some, val_base, g2]
  · rw [hdom]
    obtain ⟨col, g1, g2, -⟩ := hcm k p v hv
    exact ⟨col, g1, g2⟩
  · rw [hdom]
    obtain ⟨h1, -⟩ := hco k p v hv
    refine ⟨_, rfl, hcon, ?_, by rw [hwid]; rfl⟩
    dsimp only
    exact h1
  · rw [hdom]
    exact ⟨_, rfl, hx k p v hv, le_refl _, by rw [hwid]; rfl⟩
  · constructor
    · cases h : σ .xDivXSubXi k p with
      | none => rfl
      | some v =>
        have := hσ _ _ _ _ h
        simp [stageStore, traceStore] at this
    · cases h : σ .xDivXSubWXi k p with
      | none => rfl
      | some v =>
        have := hσ _ _ _ _ h
        simp [stageStore, traceStore] at this

theorem exec_three {s : Info} {stp : Interp.Step} (h : stp = .step2prev ∨ stp = .step3prev ∨ stp = .step3) : stp ≠ .step5 ∧ (execInfo s stp).dom = .n ∧
    Sec.const_n ∈ (execInfo s stp).inp ∧ (execInfo s stp).width = setWidth s ∧ Sec.cm3_n ∈ (execInfo s stp).out ∧ Sec.tmpexp_n ∈ (execInfo s stp).out ∧
    (∀ x ∈ (execInfo s stp).inp ++ (execInfo s stp).out, x ∈ [Sec.cm1_n, .cm2_n, .cm3_n, .tmpexp_n, .const_n, .x_n]) ∧
    (∀ x ∈ (execInfo s stp).out, x = .cm2_n ∨ x = .cm3_n ∨ x = .tmpexp_n) := by
  rcases h with rfl | rfl | rfl <;> refine ⟨by simp, rfl, ?_, rfl, ?_, ?_, ?_, ?_⟩ <;> simp [execInfo]

/-- One run of `calculate_exps_parallel`: the buffers still hold what they held, and the columns of the requested expressions hold their values. -/
theorem stage_run (O : Circ R T S l1 st st' a cx lims fuel P q ce fe fuelM o lit) {b2 b3 : FftP.Buf F} (hS : Sync R T o (withCm T b2 b3) ch4 ch lim zi c)
    (hch : ch <+: ch4) (hlim : lim ≤ R.nCm) {stp : Interp.Step} (hst : stp = .step2prev ∨ stp = .step3prev ∨ stp = .step3)
    (hin : ∀ k < lim, ∀ col, nodeCol (o.info T.nConst) .n ({ ty := .cm, id := k } : Interp.Node F3G) = some col → col.sec ∈ (execInfo (o.info T.nConst) stp).inp)
    {reqs : List Req} {t0 m nCols tU workers : Nat} {ctx : Codegen.Ctx K} {out : List (Interp.Instr F3G)}
    (hgen : genAll 0 st'.exps fuel reqs ⟨t0, [], []⟩ = some ctx)
    (hfix : Map.fixProverCode (layN (inOf st st' cx S q ce fe) o T.nConst (2 ^ R.nb) lit).tgt nCols lit ctx.tmpUsed (linearCode ctx) = some (out, tU)) (hm : tU ≤ m)
    (hreqs : ∀ r ∈ reqs, r.prime = false ∧ r.res = none ∧ r.muladd = false)
    {σ : Nat → Store K} (hσ : ∀ i < 2 ^ R.nb, ∀ t k p v, σ i t k p = some v → stageStore R (withCm T b2 b3) ch lim i t k p = some v)
    (hx : ∀ i < 2 ^ R.nb, ∀ k p v, σ i .x k p = some v → Sec.x_n ∈ (execInfo (o.info T.nConst) stp).inp)
    (hval : ∀ i < 2 ^ R.nb, ∀ r ∈ reqs, ∃ d e v, d < fuel ∧ st'.exps[r.id]? = some e ∧ Val (fieldOps K) st'.exps (σ i) d false e v)
    (hX : ∀ id r v, ExpVal (fieldOps K) st'.exps (traceStore R (withCm T b2 b3) ch4 r) false id v → X .exp id r = v)
    (hfresh : Fresh (layN (inOf st st' cx S q ce fe) o T.nConst (2 ^ R.nb) lit) X (cleared algF3 (execInfo (o.info T.nConst) stp) (2 ^ R.nb) c).mem)
    {ziF : Nat → Nat → Option F3G} (hzi : ∀ off j, ziF off j = zi (off + j)) (hw1 : 1 ≤ workers) (hw : workers ≤ 2048) :
    ∃ c', Interp.calcPar algF3 (o.info T.nConst) ziF out m workers stp c = some c' ∧ Sync R T o (withCm T b2 b3) ch4 ch lim zi c' ∧
      Fresh (layN (inOf st st' cx S q ce fe) o T.nConst (2 ^ R.nb) lit) X c'.mem ∧
      (∀ r ∈ reqs, ∀ col, (layN (inOf st st' cx S q ce fe) o T.nConst (2 ^ R.nb) lit).col .exp r.id = some col → ∀ i < 2 ^ R.nb, Hold c'.mem col i (X .exp r.id i)) ∧
      ∀ x, x ∉ (execInfo (o.info T.nConst) stp).out → c'.mem x = c.mem x := by
  obtain ⟨x1, x2, x3, x4, x5, x6, x7, x8⟩ := exec_three (s := o.info T.nConst) hst
  have C := O.circ
  have hN : 0 < 2 ^ R.nb := by positivity
  obtain ⟨hE, hops⟩ := Map.gen_expsOk (S := S) (q := q) (ce := ce) (fe := fe) C.gen C.sc C.bounds C.args (fun l hl => (C.l1c l hl).1) C.dims.num (Needed st'.exps reqs)
  have hnp := Map.gen_noPoint C.gen C.sc C.args O.noX (reqs := reqs) fun r hr => (hreqs r hr).1
  have hlen : ∀ t ∈ [Sec.cm3_n, Sec.tmpexp_n], 2 ^ R.nb * o.lay.n t ≤ ((cleared algF3 (execInfo (o.info T.nConst) stp) (2 ^ R.nb) c).mem t).length := by
    intro t ht
    have hl := hS.len t (by simp only [List.mem_cons, List.not_mem_nil, or_false] at ht ⊢; tauto)
    have hs : setWidth (o.info T.nConst) t = o.lay.n t := by
      simp only [List.mem_cons, List.not_mem_nil, or_false] at ht
      rcases ht with rfl | rfl <;> rfl
    unfold cleared
    dsimp only
    split_ifs
    · rw [List.length_replicate, x4, hs]
    · rw [hl, hs]
  obtain ⟨c', h1, h2, h3, h4, h5⟩ := Map.par_rows (L := layN (inOf st st' cx S q ce fe) o T.nConst (2 ^ R.nb) lit) (exps := st'.exps) (c := c) (X := X) (σ := σ)
    (T := tagN (inOf st st' cx S q ce fe) o T.nConst (2 ^ R.nb) lit) (workers := workers) (zi := ziF)
    (st := stp) x1 hgen hfix hm hreqs hops (Map.map_dimOk O.map hE (fun v => (O.litOk v).1) O.lit1) O.litOk x2.symm (by rw [show (layN (inOf st st' cx S q ce fe) o T.nConst (2 ^ R.nb) lit).N = 2 ^ R.nb from rfl, ← hS.nbits]; rfl)
    rfl hN (show 1 ≤ 2048 by omega) hw1 hw (fun off j => by rw [hS.Zi]; exact hzi off j) (fun x hx' => hS.len x (x7 x hx'))
    (Map.map_place O.map hlen fun id col hc => by unfold tagN; rw [hc])
    (fun ty id col hc => by
      obtain ⟨g1, -, -, g4⟩ := O.lay hc
      refine ⟨?_, g4⟩
      rcases g1 with g1 | g1 <;> rw [g1]
      · exact x5
      · exact x6)
    (Map.map_read O.map hE.cm hE.const_) hS.cells hfresh (fun i hi => hS.provided O hch hlim x2 x3 x4 hin hi (hσ i hi) (hx i hi)) hval
    (fun p id i v hn hi hv => by
      have hv' : ExpVal (fieldOps K) st'.exps (traceStore R (withCm T b2 b3) ch4 i) p id v :=
        ExpVal.mono (fun t k p v h => O.trace_le b2 b3 hch hlim i t k p v (hσ i hi t k p v h)) hv
      cases p
      · exact hX id i v hv'
      · exact hX id _ v (trace_next (Map.needed_closed _ _) hnp hn hv'))
  have h2 : KeepsCols (layN (inOf st st' cx S q ce fe) o T.nConst (2 ^ R.nb) lit) X (cleared algF3 (execInfo (o.info T.nConst) stp) (2 ^ R.nb) c).mem c'.mem := h2
  have h3 : Frame (layN (inOf st st' cx S q ce fe) o T.nConst (2 ^ R.nb) lit) (cleared algF3 (execInfo (o.info T.nConst) stp) (2 ^ R.nb) c) c' := h3
  have hd : ∀ ty id col, (layN (inOf st st' cx S q ce fe) o T.nConst (2 ^ R.nb) lit).col ty id = some col → col.dim = 1 ∨ col.dim = 3 := fun ty id col hc => (O.lay hc).2.1
  have hkeep : ∀ t, t ≠ .cm2_n → t ≠ .cm3_n → t ≠ .tmpexp_n → c'.mem t = c.mem t := fun t g1 g2 g3 => h4 t fun h => by
    rcases x8 t h with h | h | h
    · exact g1 h
    · exact g2 h
    · exact g3 h
  have hclen : ∀ t, (t ∈ [Sec.cm1_n, .cm2_n, .cm3_n, .tmpexp_n, .const_n, .x_n]) → ((cleared algF3 (execInfo (o.info T.nConst) stp) (2 ^ R.nb) c).mem t).length = (c.mem t).length := by
    intro t ht
    unfold cleared
    dsimp only
    split_ifs
    · rw [List.length_replicate, x4, hS.len t ht]
    · rfl
  refine ⟨c', h1, ?_, ?_, h5, h4⟩
  · refine ⟨h3.nbits.trans hS.nbits, fun t ht => ?_, ?_, fun r hr k hk => ?_, fun r hr => ?_, ?_, ?_, fun k v hv => ?_, h3.Zi.trans hS.Zi, fun k hk col hc r hr v hv => ?_⟩
    · rw [h3.len, hclen t ht, hS.len t ht]
    · refine frame_cells h3 h2 hd (fun t ht => ?_) (Map.cleared_cells hS.cells)
      have e : c'.mem t = c.mem t := by rcases ht with rfl | rfl <;> exact hkeep _ (by simp) (by simp) (by simp)
      rw [e]
      unfold cleared
      dsimp only
      rw [if_neg]
      rintro ⟨g, -⟩
      have := x8 t g
      rcases ht with rfl | rfl <;> simp at this
    · rw [hkeep .const_n (by simp) (by simp) (by simp)]; exact hS.const_ r hr k hk
    · rw [hkeep .x_n (by simp) (by simp) (by simp)]; exact hS.x r hr
    · rw [hkeep .publics (by simp) (by simp) (by simp)]; exact hS.publics
    · rw [hkeep .challenge (by simp) (by simp) (by simp)]; exact hS.chalLen
    · rw [hkeep .challenge (by simp) (by simp) (by simp)]; exact hS.chal k v hv
    · have hh := hS.done k hk col hc r hr v hv
      obtain ⟨cp, g1, g2, g3, g4, g5, -⟩ := O.col (k := k) (by omega)
      obtain rfl := Option.some.inj (hc.symm.trans g2)
      have hs := secN_three (t := cp.tree) (by rw [g4]; split_ifs <;> omega)
      have hsame := frame_same h3 (fun ty id col h => (O.lay h).2.2.1) (col := ⟨secN cp.tree, cp.pos, cp.dim, T.width cp.tree⟩) (r := r)
        (by rcases hs with h | h | h <;> simp [h]) g5 (fun ty id col' h => O.apart (by omega) hc h)
      refine Hold.congr g3 (fun j hj => ?_) hh
      rw [hsame j hj]
      unfold cleared
      dsimp only
      rw [if_neg]
      rintro ⟨-, h⟩
      exact h (hin k hk _ hc)
  · intro ty id col hc r hr
    rcases h2 ty id col r hc hr with hsame | hh
    · rcases hfresh ty id col hc r hr with hb | hb
      · exact .inl (Blank.congr hsame hb)
      · exact .inr (Hold.congr (hd ty id col hc) hsame hb)
    · exact .inr hh

end

end Verif.Stage
