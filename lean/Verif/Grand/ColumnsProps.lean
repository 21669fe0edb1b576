import Verif.Grand.ColumnsSat

/-!
# The computed columns satisfy the constraints
-/
set_option linter.unusedSectionVars false

namespace Verif.Grand
open Codegen Codegen.Spec Stark ImPols ImPols.Spec FFT Fri
open Verif.GL (F)
open Verif.Ext3 (K coord)

variable {R : Run} {T : Trace} {S : Finset Nat} {l1 : Option Nat} {st st' : PilSt K} {a : Args} {cx : ArgCtx} {lims : List Lim} {fuel : Nat} {P : Progs}

theorem columns_split {nCm1 : Nat} {init2 init3 : FftP.Buf F} {u dv ga be : K} {b2 b3 : FftP.Buf F}
    (h : columns R T nCm1 P cx S init2 init3 u dv ga be = some (b2, b3)) :
    cm2Of R T nCm1 P cx init2 u dv = some b2 ∧ ∃ z3, cm3Zs R (withCm T b2 init3) nCm1 P cx init3 u dv ga be = some z3 ∧
      cm3Of R (withCm T b2 z3) P S z3 u dv ga be = some b3 := by
  obtain ⟨b2', h1, h⟩ := Option.bind_eq_some_iff.mp h
  obtain ⟨z3, h2, h⟩ := Option.bind_eq_some_iff.mp h
  obtain ⟨b3', h3, h⟩ := Option.map_eq_some_iff.mp h
  obtain ⟨rfl, rfl⟩ := Prod.mk.inj h
  exact ⟨h1, z3, h2, h3⟩

theorem pairwise_of_get {α : Type} {Rel : α → α → Prop} {l : List α} (h : ∀ (i j : Nat) (x y : α), i < j → l[i]? = some x → l[j]? = some y → Rel x y) :
    l.Pairwise Rel := by
  rw [List.pairwise_iff_getElem]
  intro i j hi hj hij
  exact h i j _ _ hij (List.getElem?_eq_getElem hi) (List.getElem?_eq_getElem hj)

theorem ArgCircuit.count (C : ArgCircuit R T S l1 st st' a cx lims fuel P) :
    R.nCm = st.nCm + 2 * a.plookups.length + (cx.pu ++ cx.pe ++ cx.ci).length := by
  have h1 := (genArgs_ext C.gen).2
  obtain ⟨h2, h3, h4, -⟩ := genArgs_ctx C.gen
  rw [C.nCm, h1]
  simp only [List.length_append]
  omega

theorem idxGet {α : Type} {l : List α} {n : Nat} {x : α} (h : l[n]? = some x) : l.zipIdx[n]? = some (x, n) := by
  rw [List.getElem?_zipIdx, h]; simp

theorem idxBack {α : Type} {l : List α} {n : Nat} {x : α × Nat} (h : l.zipIdx[n]? = some x) : l[n]? = some x.1 ∧ x.2 = n := by
  rw [List.getElem?_zipIdx] at h
  obtain ⟨y, h1, h2⟩ := Option.map_eq_some_iff.mp h
  subst h2
  exact ⟨h1, by simp⟩

/-- the grand products -/
theorem zs_spec (C : ArgCircuit R T S l1 st st' a cx lims fuel P) {b2 init3 z3 : FftP.Buf F} {u dv ga be : K}
    (h : cm3Zs R (withCm T b2 init3) st.nCm P cx init3 u dv ga be = some z3) {n : Nat} {c : PCtx} (hc : (cx.pu ++ cx.pe ++ cx.ci)[n]? = some c) :
    ∃ (num den : Nat → K) (z : List K) (p : ColPos),
      (∀ i, ExpVal (fieldOps K) st'.exps (stageStore R (withCm T b2 init3) [u, dv, ga, be] (st.nCm + 2 * a.plookups.length) i) false c.num (num i)) ∧
      (∀ i, ExpVal (fieldOps K) st'.exps (stageStore R (withCm T b2 init3) [u, dv, ga, be] (st.nCm + 2 * a.plookups.length) i) false c.den (den i)) ∧
      calculateZ (rows (2 ^ R.nb) num) (rows (2 ^ R.nb) den) = some z ∧ 2 ^ R.nb ≤ z.length ∧
      R.pos (st.nCm + 2 * a.plookups.length + n) = some p ∧ ∀ r < 2 ^ R.nb, colB z3 p (T.width 3) r = z.getD r 0 := by
  obtain ⟨more, hsc, hall, -, hfr⟩ := genArgs_scoped C.gen C.sc (fun l hl => (C.l1c l hl).1) C.args C.bounds
  obtain ⟨c2, c3, ci, -, hg3, -, hP⟩ := genProgs_split C.progs
  obtain ⟨e1, -, -, hctx⟩ := genArgs_ctx C.gen
  have hcnt := C.count
  have hsc' : Scoped (withCm T b2 init3).nConst R.publics.length st'.exps (lims ++ more) := hsc
  have hcov : ∀ i, Covers (withCm T b2 init3).nConst R.publics.length
      (stageStore R (withCm T b2 init3) [u, dv, ga, be] (st.nCm + 2 * a.plookups.length) i) ⟨st.nCm + 2 * a.plookups.length, 4, false⟩ :=
    fun i => covers_stage (fun k hk r => C.has (T' := withCm T b2 init3) rfl [u, dv, ga, be] (by omega) r) (le_refl 4) i
  have hb3 : ∀ r ∈ reqs3 cx, Bnd (lims ++ more) r.id (st.nCm + 2 * a.plookups.length) 4 false := by
    intro r hr
    obtain ⟨-, c, hc, h | h⟩ := reqs3_mem hr
    · rw [h]; exact (hfr c hc).1
    · rw [h]; exact (hfr c hc).2.1
  obtain ⟨σs, hrun, hread⟩ := run_spec hsc' hcov (fun r hr => (reqs3_mem hr).1) hb3 C.fuel hg3
  have hmem := List.mem_of_getElem? hc
  obtain ⟨num, hnum⟩ := bnd_choose hsc' hcov (hfr c hmem).1
  obtain ⟨den, hden⟩ := bnd_choose hsc' hcov (hfr c hmem).2.1
  unfold cm3Zs at h
  rw [e1, hP] at h
  dsimp only at h
  rw [hrun, Option.bind_some] at h
  obtain ⟨ws, hws, hset⟩ := Option.bind_eq_some_iff.mp h
  have hcol : ∀ (j : Nat) (x : ColPos × List K), ws[j]? = some x → j < (cx.pu ++ cx.pe ++ cx.ci).length ∧ R.pos (st.nCm + 2 * a.plookups.length + j) = some x.1 := by
    intro j x hx
    obtain ⟨⟨cj, nj⟩, g1, g2⟩ := mapM_back hws hx
    obtain ⟨g3, g4⟩ := idxBack g1
    dsimp only at g3 g4
    subst g4
    dsimp only at g2
    unfold zCols at g2
    obtain ⟨p, g5, g2⟩ := Option.bind_eq_some_iff.mp g2
    obtain ⟨_, -, g2⟩ := Option.bind_eq_some_iff.mp g2
    obtain ⟨_, -, g2⟩ := Option.bind_eq_some_iff.mp g2
    obtain ⟨_, -, g2⟩ := Option.map_eq_some_iff.mp g2
    subst g2
    exact ⟨(List.getElem?_eq_some_iff.mp g3).1, g5⟩
  have hfit : ∀ x ∈ ws, x.1.pos + x.1.dim ≤ T.width 3 := by
    intro x hx
    obtain ⟨j, hj⟩ := List.getElem?_of_mem hx
    obtain ⟨g1, g2⟩ := hcol j x hj
    obtain ⟨p, q1, q2, q3⟩ := C.layout.third (st.nCm + 2 * a.plookups.length + j) (by omega) (by omega)
    obtain rfl : x.1 = p := Option.some.inj (g2.symm.trans q1)
    rw [← q2]
    exact (C.fit _ _ q1).2 (by omega)
  have hdis : (ws.map Prod.fst).Pairwise Disj := by
    refine pairwise_of_get fun i j x y hij hx hy => ?_
    rw [List.getElem?_map] at hx hy
    obtain ⟨x', hx', rfl⟩ := Option.map_eq_some_iff.mp hx
    obtain ⟨y', hy', rfl⟩ := Option.map_eq_some_iff.mp hy
    obtain ⟨g1, g2⟩ := hcol i x' hx'
    obtain ⟨g3, g4⟩ := hcol j y' hy'
    obtain ⟨p, q1, q2, q3⟩ := C.layout.third (st.nCm + 2 * a.plookups.length + i) (by omega) (by omega)
    obtain ⟨p', q1', q2', q3'⟩ := C.layout.third (st.nCm + 2 * a.plookups.length + j) (by omega) (by omega)
    obtain rfl : x'.1 = p := Option.some.inj (g2.symm.trans q1)
    obtain rfl : y'.1 = p' := Option.some.inj (g4.symm.trans q1')
    exact C.layout.disj _ _ _ _ (by omega) (by omega) q1 q1' (by omega)
  obtain ⟨-, hget⟩ := mapM_get hws
  obtain ⟨x, hx, hxw⟩ := hget n (c, n) (idxGet hc)
  dsimp only at hx
  unfold zCols at hx
  obtain ⟨p, g5, hx⟩ := Option.bind_eq_some_iff.mp hx
  have rn := readExp_rows (hread { id := c.num } (by unfold reqs3; exact List.mem_flatMap.mpr ⟨c, hmem, by simp⟩) num fun i _ => hnum i) 3
  have rd := readExp_rows (hread { id := c.den } (by unfold reqs3; exact List.mem_flatMap.mpr ⟨c, hmem, by simp⟩) den fun i _ => hden i) 3
  dsimp only at rn rd
  rw [rn, rd, Option.bind_some, Option.bind_some, stored_three_rows, stored_three_rows] at hx
  obtain ⟨z, hz, hx⟩ := Option.map_eq_some_iff.mp hx
  subst hx
  have hxm := List.mem_of_getElem? hxw
  obtain ⟨q, q1, q2, q3⟩ := C.layout.third (st.nCm + 2 * a.plookups.length + n) (by omega) (by have := (List.getElem?_eq_some_iff.mp hc).1; omega)
  obtain rfl : p = q := Option.some.inj (g5.symm.trans q1)
  refine ⟨num, den, z, p, hnum, hden, hz, (setPols_ok ws _ _ hset _ hxm).2, q1, fun r hr => ?_⟩
  exact setPols_same ws _ _ hset hfit hdis _ hxm r hr (fun h1 => by dsimp only at h1; omega)

/-- the intermediate polynomials; the other columns of the section are not changed -/
theorem ims_spec (C : ArgCircuit R T S l1 st st' a cx lims fuel P) {b2 z3 b3 : FftP.Buf F} {u dv ga be : K}
    (h : cm3Of R (withCm T b2 z3) P S z3 u dv ga be = some b3) :
    (∀ (n k : Nat), (S.sort (· ≤ ·))[n]? = some k → ∃ (v : Nat → K) (p : ColPos),
      (∀ i, ExpVal (fieldOps K) st'.exps (stageStore R (withCm T b2 z3) [u, dv, ga, be] R.nCm i) false k (v i)) ∧
      R.pos (R.nCm + n) = some p ∧ ∀ r < 2 ^ R.nb, colB b3 p (T.width 3) r = v r) ∧
    ∀ k p, st.nCm + 2 * a.plookups.length ≤ k → k < R.nCm → R.pos k = some p → ∀ r, colB b3 p (T.width 3) r = colB z3 p (T.width 3) r := by
  obtain ⟨more, hsc, hall, -, -⟩ := genArgs_scoped C.gen C.sc (fun l hl => (C.l1c l hl).1) C.args C.bounds
  obtain ⟨c2, c3, ci, -, -, hgi, hP⟩ := genProgs_split C.progs
  have hle := C.layout.le
  have hsc' : Scoped (withCm T b2 z3).nConst R.publics.length st'.exps (lims ++ more) := hsc
  have hcov : ∀ i, Covers (withCm T b2 z3).nConst R.publics.length (stageStore R (withCm T b2 z3) [u, dv, ga, be] R.nCm i) ⟨R.nCm, 4, false⟩ :=
    fun i => covers_stage (fun k hk r => C.has (T' := withCm T b2 z3) rfl [u, dv, ga, be] (by omega) r) (le_refl 4) i
  have hbk : ∀ k ∈ S, Bnd (lims ++ more) k R.nCm 4 false := by
    intro k hk
    have hlt : k < (lims ++ more).length := by rw [hsc.length]; exact C.ims k hk
    obtain ⟨h1, h2⟩ := hall _ (List.getElem_mem hlt)
    exact ⟨_, List.getElem?_eq_getElem hlt, by rw [C.nCm]; exact h1, h2, by simp⟩
  obtain ⟨σs, hrun, hread⟩ := run_spec hsc' hcov (fun r hr => (reqsIm_mem hr).1) (fun r hr => hbk r.id (reqsIm_mem hr).2) C.fuel hgi
  unfold cm3Of at h
  rw [hP] at h
  dsimp only at h
  rw [hrun, Option.bind_some] at h
  obtain ⟨ws, hws, hset⟩ := Option.bind_eq_some_iff.mp h
  have hlen : (S.sort (· ≤ ·)).length = S.card := Finset.length_sort _
  have hcol : ∀ (j : Nat) (x : ColPos × List K), ws[j]? = some x → j < S.card ∧ R.pos (R.nCm + j) = some x.1 := by
    intro j x hx
    obtain ⟨⟨cj, nj⟩, g1, g2⟩ := mapM_back hws hx
    obtain ⟨g3, g4⟩ := idxBack g1
    dsimp only at g3 g4
    subst g4
    dsimp only at g2
    unfold imCols at g2
    obtain ⟨p, g5, g2⟩ := Option.bind_eq_some_iff.mp g2
    obtain ⟨_, -, g2⟩ := Option.map_eq_some_iff.mp g2
    subst g2
    exact ⟨by have := (List.getElem?_eq_some_iff.mp g3).1; omega, g5⟩
  have hfit : ∀ x ∈ ws, x.1.pos + x.1.dim ≤ T.width 3 := by
    intro x hx
    obtain ⟨j, hj⟩ := List.getElem?_of_mem hx
    obtain ⟨g1, g2⟩ := hcol j x hj
    obtain ⟨p, q1, q2⟩ := C.layout.im (R.nCm + j) (by omega) (by omega)
    obtain rfl : x.1 = p := Option.some.inj (g2.symm.trans q1)
    rw [← q2]
    exact (C.fit _ _ q1).2 (by omega)
  have hdis : (ws.map Prod.fst).Pairwise Disj := by
    refine pairwise_of_get fun i j x y hij hx hy => ?_
    rw [List.getElem?_map] at hx hy
    obtain ⟨x', hx', rfl⟩ := Option.map_eq_some_iff.mp hx
    obtain ⟨y', hy', rfl⟩ := Option.map_eq_some_iff.mp hy
    obtain ⟨g1, g2⟩ := hcol i x' hx'
    obtain ⟨g3, g4⟩ := hcol j y' hy'
    obtain ⟨p, q1, q2⟩ := C.layout.im (R.nCm + i) (by omega) (by omega)
    obtain ⟨p', q1', q2'⟩ := C.layout.im (R.nCm + j) (by omega) (by omega)
    obtain rfl : x'.1 = p := Option.some.inj (g2.symm.trans q1)
    obtain rfl : y'.1 = p' := Option.some.inj (g4.symm.trans q1')
    exact C.layout.disj _ _ _ _ (by omega) (by omega) q1 q1' (by omega)
  refine ⟨fun n k hk => ?_, fun k p h1 h2 hp r => ?_⟩
  · have hkS : k ∈ S := by simpa using List.mem_of_getElem? hk
    obtain ⟨v, hv⟩ := bnd_choose hsc' hcov (hbk k hkS)
    obtain ⟨-, hget⟩ := mapM_get hws
    obtain ⟨x, hx, hxw⟩ := hget n (k, n) (idxGet hk)
    dsimp only at hx
    unfold imCols at hx
    obtain ⟨p, g5, hx⟩ := Option.bind_eq_some_iff.mp hx
    have rn := hread { id := k } (by unfold reqsIm; exact List.mem_map.mpr ⟨k, by simpa using hkS, rfl⟩) v fun i _ => hv i
    dsimp only at rn
    rw [rn, Option.map_some] at hx
    obtain rfl := Option.some.inj hx
    refine ⟨v, p, hv, g5, fun r hr => ?_⟩
    have := setPols_same ws _ _ hset hfit hdis _ (List.mem_of_getElem? hxw) r hr (fun h1 => by
      dsimp only at h1 ⊢
      rw [rows_getD v hr]
      exact trace_base C.dims.num C.dims.publics (fun k c hk => (C.fit k c hk).1) (hv r) (C.dims.im n k p hk g5 h1))
    exact this.trans (rows_getD v hr)
  · obtain ⟨q, q1, q2, q3⟩ := C.layout.third k h1 h2
    obtain rfl : p = q := Option.some.inj (hp.symm.trans q1)
    have hw : p.pos + p.dim ≤ T.width 3 := by rw [← q2]; exact (C.fit _ _ q1).2 (by omega)
    refine setPols_other ws _ _ hset hfit p (by omega) hw (fun x hx => ?_) r
    obtain ⟨j, hj⟩ := List.getElem?_of_mem hx
    obtain ⟨g1, g2⟩ := hcol j x hj
    obtain ⟨p', q1', q2'⟩ := C.layout.im (R.nCm + j) (by omega) (by omega)
    obtain rfl : x.1 = p' := Option.some.inj (g2.symm.trans q1')
    have := C.layout.disj k (R.nCm + j) p x.1 (by omega) (by omega) q1 q1' (by omega)
    unfold Disj at this ⊢
    omega

theorem withCm_sec (T : Trace) (b2 b3 : FftP.Buf F) (ch : List K) : (withCm T b2 b3).sec ch 1 = T.cm1 ∧ (withCm T b2 b3).sec ch 2 = b2 ∧
    (withCm T b2 b3).sec ch 3 = b3 := by
  refine ⟨?_, ?_, ?_⟩ <;> simp [Trace.sec, withCm]

/-- **The computed columns satisfy the constraints.** If the prover computes the columns of the second and third round without a panic and the
identities of the PIL hold for the first round, then on every row every identity, including those of the arguments, is zero and every intermediate
column holds the value of its expression. -/
theorem columns_satisfy (C : ArgCircuit R T S l1 st st' a cx lims fuel P) {init2 init3 b2 b3 : FftP.Buf F} {u dv ga be : K}
    (hids : ∀ i < 2 ^ R.nb, ∀ id ∈ st.ids, ∃ d, Val (fieldOps K) st.exps (stageStore R T [] st.nCm i) d false (expE id) 0)
    (h : columns R T st.nCm P cx S init2 init3 u dv ga be = some (b2, b3)) (rest : List K) :
    Satisfied R (argTrace R T st.nCm P cx S init2 init3) st'.exps st'.ids S (u :: dv :: ga :: be :: rest) st'.exps.length := by
  obtain ⟨h2, z3, hz3, hb3⟩ := columns_split h
  obtain ⟨TF, hTF⟩ : ∃ TF, TF = argTrace R T st.nCm P cx S init2 init3 := ⟨_, rfl⟩
  have hw : TF.width = T.width := by rw [hTF]; rfl
  have hnc : TF.nConst = T.nConst := by rw [hTF]; rfl
  have hfx : TF.fixed = T.fixed := by rw [hTF]; rfl
  have s1 : TF.cm1 = T.cm1 := by rw [hTF]; rfl
  have s2 : TF.cm2 u dv = b2 := by
    have : TF.cm2 u dv = (cm2Of R T st.nCm P cx init2 u dv).getD fun _ => 0 := by rw [hTF]; rfl
    rw [this, h2]; rfl
  have s3 : TF.cm3 u dv ga be = b3 := by
    have : TF.cm3 u dv ga be = ((columns R T st.nCm P cx S init2 init3 u dv ga be).map Prod.snd).getD fun _ => 0 := by rw [hTF]; rfl
    rw [this, h]; rfl
  rw [← hTF]
  obtain ⟨ch, hch⟩ : ∃ ch, ch = u :: dv :: ga :: be :: rest := ⟨_, rfl⟩
  rw [← hch]
  have hle := C.layout.le
  have hN : 0 < 2 ^ R.nb := by positivity
  have e1 : ∀ ch', TF.sec ch' 1 = T.cm1 := fun ch' => by rw [← s1]; rfl
  have e2 : TF.sec ch 2 = b2 := by rw [← s2, hch]; simp [Trace.sec]
  have e3 : TF.sec ch 3 = b3 := by rw [← s3, hch]; simp [Trace.sec]
  obtain ⟨more, hsc, hall, -, hfr⟩ := genArgs_scoped C.gen C.sc (fun l hl => (C.l1c l hl).1) C.args C.bounds
  have hfxs : ∀ T' : Trace, T'.nConst = T.nConst → T'.fixed = T.fixed → trFx R T' = trFx R TF := by
    intro T' g1 g2
    funext k r
    simp only [trFx, traceStore, g1, g2, hnc, hfx]
  obtain ⟨i1, i2⟩ := ims_spec C hb3
  -- what the stages read is what is read from the final trace
  have le1 : ∀ i t k p v, stageStore R T [] st.nCm i t k p = some v → traceStore R TF ch i t k p = some v := fun i =>
    stage_trace (fun k hk r => C.same rfl hw (by omega) (by rw [if_pos hk, e1]; rfl) r) (hfxs T rfl rfl) (List.nil_prefix) i
  have le2 : ∀ i t k p v, stageStore R (withCm T b2 init3) [u, dv, ga, be] (st.nCm + 2 * a.plookups.length) i t k p = some v →
      traceStore R TF ch i t k p = some v := fun i =>
    stage_trace (T := withCm T b2 init3) (ch := [u, dv, ga, be]) (fun k hk r => C.same (T1 := withCm T b2 init3) (T2 := TF) rfl hw (by omega) (by
      rw [if_pos hk]
      by_cases g : k < st.nCm
      · rw [if_pos g, e1, (withCm_sec _ _ _ _).1]
      · rw [if_neg g, e2, (withCm_sec _ _ _ _).2.1]) r) (hfxs (withCm T b2 init3) rfl rfl) (by rw [hch]; exact ⟨rest, rfl⟩) i
  have le3 : ∀ i t k p v, stageStore R (withCm T b2 z3) [u, dv, ga, be] R.nCm i t k p = some v → traceStore R TF ch i t k p = some v := fun i =>
    stage_trace (T := withCm T b2 z3) (ch := [u, dv, ga, be]) (fun k hk r => by
      by_cases g : k < st.nCm + 2 * a.plookups.length
      · refine C.same (T1 := withCm T b2 z3) (T2 := TF) rfl hw (by omega) ?_ r
        rw [if_pos g]
        by_cases g1 : k < st.nCm
        · rw [if_pos g1, e1, (withCm_sec _ _ _ _).1]
        · rw [if_neg g1, e2, (withCm_sec _ _ _ _).2.1]
      · obtain ⟨c, g1, -⟩ := C.pos (k := k) (by omega)
        rw [C.col (T' := withCm T b2 z3) rfl _ (by omega) g1, C.col hw _ (by omega) g1, if_neg (by omega), if_neg g, e3,
          (withCm_sec _ _ _ _).2.2]
        exact congrArg some (i2 k c (by omega) hk g1 _).symm) (hfxs (withCm T b2 z3) rfl rfl) (by rw [hch]; exact ⟨rest, rfl⟩) i
  have hcov : ∀ i, Covers T.nConst R.publics.length (traceStore R TF ch i) ⟨R.nCm, 4, false⟩ := fun i =>
    Covers.up (covers_stage (T := withCm T b2 z3) (ch := [u, dv, ga, be]) (fun k hk r => C.has (T' := withCm T b2 z3) rfl [u, dv, ga, be] (by omega) r) (le_refl 4) i) (le3 i)
  -- depths
  have hbk : ∀ k < st'.exps.length, Bnd (lims ++ more) k R.nCm 4 false := by
    intro k hk
    have hlt : k < (lims ++ more).length := by rw [hsc.length]; exact hk
    obtain ⟨h1, h2⟩ := hall _ (List.getElem_mem hlt)
    exact ⟨_, List.getElem?_eq_getElem hlt, by rw [C.nCm]; exact h1, h2, by simp⟩
  have hdep : ∀ i id d v, Val (fieldOps K) st'.exps (traceStore R TF ch i) d false (eExp id) v →
      Val (fieldOps K) st'.exps (traceStore R TF ch i) st'.exps.length false (eExp id) v := by
    intro i id d v hv
    obtain ⟨d', e, rfl, -, he, hv⟩ := i_exp hv
    have hlt := (List.getElem?_eq_some_iff.mp he).1
    obtain ⟨e', he', hv'⟩ := bnd_depth (T := T) hsc (hcov i) (hbk id hlt) ⟨d', e, he, hv⟩
    exact Stark.val_depth (v_exp rfl he' hv') (by omega)
  obtain ⟨n, p1, p2⟩ := genArgs_guarded C.gen C.plain C.wf
  refine satisfied_of_guarded p1 p2 ⟨fun i hi id hid => ?_, fun i hi k hk => ?_⟩
  · rw [genArgs_ids C.gen, List.mem_append] at hid
    rcases hid with hid | hid
    · obtain ⟨d, hv⟩ := hids i hi id hid
      obtain ⟨more', hmore⟩ := (genArgs_ext C.gen).1.1
      refine hdep i id d 0 (Stark.val_mono (le1 i) ?_)
      rw [← hmore]
      exact v_append hv more'
    · obtain ⟨c, hc, hid⟩ := List.mem_flatMap.mp hid
      obtain ⟨j, hj⟩ := List.getElem?_of_mem hc
      obtain ⟨-, -, -, hctx⟩ := genArgs_ctx C.gen
      obtain ⟨l, g0, gz, g1, g2⟩ := hctx j c hj
      obtain ⟨num, den, z, p, hnum, hden, hz, hzl, hp, hcol⟩ := zs_spec C hz3 hj
      have hcnt := C.count
      have hjl := (List.getElem?_eq_some_iff.mp hj).1
      have cn : ∀ (id : Nat) (v : Nat → K), (∀ i, ExpVal (fieldOps K) st'.exps
          (stageStore R (withCm T b2 init3) [u, dv, ga, be] (st.nCm + 2 * a.plookups.length) i) false id (v i)) →
          Col st'.exps (2 ^ R.nb) (rowStore (2 ^ R.nb) (trCm R TF ch) (trFx R TF) R.publics ch fun i => mgK R.nb ^ i) st'.exps.length id v := by
        intro id v hv i hi
        rw [← trace_rows]
        obtain ⟨d, hd⟩ := ExpVal.col (ExpVal.mono (le2 i) (hv i))
        exact hdep i id d _ hd
      have := z_complete hN hz (fun i hi => by
          rw [gz, C.col hw ch (by omega) hp, if_neg (by omega), if_neg (by omega), e3, Nat.mod_eq_of_lt hi, i2 _ p (by omega) (by omega) hp, hcol i hi,
            List.getD_eq_getElem?_getD, List.getElem?_eq_getElem (by omega)]
          rfl) (fun i hi => C.fixed hnc hfx g0 hi) g1 g2 (cn _ _ hnum) (cn _ _ hden) i hi
      rw [← trace_rows] at this
      simp only [List.mem_cons, List.not_mem_nil, or_false] at hid
      rcases hid with rfl | rfl
      · exact hdep i _ _ _ this.1
      · exact hdep i _ _ _ this.2
  · have hks : k ∈ S.sort (· ≤ ·) := by simpa using hk
    obtain ⟨v, p, hv, hp, hcol⟩ := i1 ((S.sort (· ≤ ·)).idxOf k) k (by
      rw [List.getElem?_eq_getElem (List.idxOf_lt_length_of_mem hks)]; simp)
    obtain ⟨e, he, hv'⟩ := bnd_depth (T := T) hsc (hcov i) (hbk k (C.ims k hk)) (ExpVal.mono (le3 i) (hv i))
    have hidx : (S.sort (· ≤ ·)).idxOf k < S.card := by
      have := List.idxOf_lt_length_of_mem hks
      rwa [Finset.length_sort] at this
    refine ⟨e, v i, R.nCm + (S.sort (· ≤ ·)).idxOf k, he, Stark.val_depth hv' (le_of_lt (C.ims k hk)), by unfold im2cmOf; rw [if_pos hk], ?_⟩
    have : trCm R TF ch (R.nCm + (S.sort (· ≤ ·)).idxOf k) i = some (v i) := by
      rw [C.col hw ch (by omega) hp, if_neg (by omega), if_neg (by omega), e3, Nat.mod_eq_of_lt hi, hcol i hi]
    exact this

end Verif.Grand
