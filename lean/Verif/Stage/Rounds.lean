import Verif.Stage.Folds

/-!
# The second and third round of the prover on its buffers compute the columns of the trace (C102)
-/
namespace Verif.Stage
open Codegen Codegen.Spec Verif.Stark FFT Fri Verif.Grand
open Verif.GL (F)
open Verif.Ext3 (F3G K WF val ofF coord)
open Verif.Interp (Sec Info algF3 cleared execInfo setWidth)
open Verif.Interp.Spec (Col cell readCol polCol nodeCol rowOf)
open Verif.Map (Hold Rel Same ApartCol CellsOk extSec MapOk inOf layN Out Lay Blank Fresh Frame KeepsCols secN InCol Provided Needed NoPoint ReadOk tagN Raw)

noncomputable section

/-- One program of the prover: the code that is generated for the requests, after `fix_prover_code` for the trace domain, with the number of temporaries
it leaves; and the counter of temporaries for the next program (starky/src/starkinfo.rs L332-404, starkinfo_Z.rs L17-28, starkinfo_cp_prover.rs L86-97,
starkinfo_map.rs L245-250). -/
def codeOf (i : Map.In K) (o : Out) (lit : K → F3G) (exps : List (Expr K)) (fuel : Nat) (reqs : List Req) (t0 : Nat) : Option (Code × Nat) :=
  (genAll 0 exps fuel reqs ⟨t0, [], []⟩).bind fun ctx =>
  (Map.fixProverCode (Map.tgtOf i.imList i.im2cm o.st.tmpexps .n) o.st.cmN.length lit ctx.tmpUsed (linearCode ctx)).map fun r => (⟨r.1, r.2⟩, ctx.tmpUsed)

/-- What the prover has after the setup, for `cx` the arguments and `S` the intermediate polynomials (stark_setup.rs, starkinfo.rs L229-274). -/
def setupOf (i : Map.In K) (o : Out) (lit : K → F3G) (exps : List (Expr K)) (fuel nConst : Nat) (cx : ArgCtx) (S : Finset Nat) (zi : Nat → Option F3G) (workers : Nat) : Option Setup :=
  (codeOf i o lit exps fuel (reqs2 cx) 0).bind fun c2 =>
  (codeOf i o lit exps fuel (reqs3 cx) c2.2).bind fun c3 =>
  (codeOf i o lit exps fuel (reqsIm S) c3.2).map fun c4 =>
  { info := o.info nConst, e2p := fun id => o.st.exp2pol.lookup id, cx := cx, nCm1 := i.nCm1, zi := fun off j => zi (off + j), workers := workers,
    step2prev := c2.1, step3prev := c3.1, step3 := c4.1 }

/-- Specification: the buffers of the prover before the second round (stark_gen.rs L204-283): the sections of the trace domain have their final lengths, `cm1_n` holds
the trace, `const_n` the constants, `x_n` the powers of the root of unity; the other sections may hold any base field elements. -/
structure Start (R : Run) (T : Trace) (o : Out) (zi : Nat → Option F3G) (c : Ctx) : Prop where
  nbits : c.nbits = R.nb
  len : ∀ t ∈ [Sec.cm1_n, .cm2_n, .cm3_n, .tmpexp_n, .const_n, .x_n], (c.mem t).length = 2 ^ R.nb * setWidth (o.info T.nConst) t
  cells : CellsOk c
  cm1 : ∀ r < 2 ^ R.nb, ∀ k < T.width 1, (c.mem .cm1_n)[r * T.width 1 + k]? = some (ofF (T.cm1 (r * T.width 1 + k)))
  const_ : ∀ r < 2 ^ R.nb, ∀ k < T.nConst, (c.mem .const_n)[r * T.nConst + k]? = some (ofF (T.fixed (r * T.nConst + k)))
  x : ∀ r < 2 ^ R.nb, ∃ b, (c.mem .x_n)[r]? = some (ofF b) ∧ algebraMap F K b = mgK R.nb ^ r
  publics : (c.mem .publics).map val = R.publics
  chalLen : 4 ≤ (c.mem .challenge).length
  Zi : c.Zi = zi

/-- Specification: the buffers `m` hold the committed columns `k` with `P k` of a trace. -/
def Holds (R : Run) (T TF : Trace) (o : Out) (ch : List K) (m : Sec → List F3G) (P : Nat → Prop) : Prop :=
  ∀ k, P k → ∃ col, nodeCol (o.info T.nConst) .n ({ ty := .cm, id := k } : Interp.Node F3G) = some col ∧
    ∀ r < 2 ^ R.nb, ∃ v, trCm R TF ch k r = some v ∧ Hold m col r v

variable {R : Run} {T : Trace} {S : Finset Nat} {l1 : Option Nat} {st st' : PilSt K} {a : Args} {cx : ArgCtx} {lims : List Lim} {fuel : Nat} {P : Progs}
  {q : Nat} {ce fe : Expr K} {fuelM : Nat} {o : Out} {lit : K → F3G}
  {TF : Trace} {ch4 ch : List K} {lim : Nat} {zi : Nat → Option F3G} {c : Ctx} {X : NTy → Nat → Nat → K} {b2 b3 : FftP.Buf F}

theorem Start.sync (O : Circ R T S l1 st st' a cx lims fuel P q ce fe fuelM o lit) (h : Start R T o zi c) (b2 b3 : FftP.Buf F) (ch4 : List K) :
    Sync R T o (withCm T b2 b3) ch4 [] st.nCm zi c := by
  have hle := O.circ.layout.le
  refine ⟨h.nbits, h.len, h.cells, h.const_, h.x, h.publics, h.chalLen, fun k v hv => by simp at hv, h.Zi, fun k hk col hc r hr v hv => ?_⟩
  obtain ⟨cp, g1, g2, g3, g4, g5, -⟩ := O.col (k := k) (by omega)
  obtain rfl := Option.some.inj (hc.symm.trans g2)
  have hv' := O.circ.col (T' := withCm T b2 b3) rfl ch4 (k := k) (by omega) g1 r
  rw [if_pos hk] at g4 hv'
  rw [g4] at g5 ⊢
  rw [(withCm_sec _ _ _ _).1, Nat.mod_eq_of_lt hr] at hv'
  obtain rfl := Option.some.inj (hv.symm.trans hv')
  unfold Hold colB
  dsimp only
  have hs : secN 1 = .cm1_n := rfl
  rw [hs]
  unfold cell
  rcases g3 with hd | hd
  · rw [if_pos hd, if_pos hd]
    exact ⟨_, h.cm1 r hr cp.pos (by omega), rfl⟩
  · rw [if_neg (by omega), if_neg (by omega)]
    refine ⟨_, _, _, h.cm1 r hr cp.pos (by omega), h.cm1 r hr (cp.pos + 1) (by omega), h.cm1 r hr (cp.pos + 2) (by omega), ?_⟩
    rw [show cp.pos + r * T.width 1 = r * T.width 1 + cp.pos by omega]
    rfl

theorem lcF_noX {A : Type} (l : List Nat) : Map.NoX (lcF l : Expr A) := by
  have : ∀ (l : List Nat) (acc : Expr A), Map.NoX acc → Map.NoX (l.foldl (fun acc j => if isNop acc then eExp j else eAdd (eMul acc eU) (eExp j)) acc) := by
    intro l
    induction l with
    | nil => exact fun acc h => h
    | cons j l ih =>
      intro acc h
      rw [List.foldl_cons]
      refine ih _ ?_
      split_ifs
      · exact Map.NoX.leaf rfl
      · exact Map.NoX.add (Map.NoX.mul h (Map.NoX.leaf rfl)) (Map.NoX.leaf rfl)
  exact this l _ (Map.NoX.leaf rfl)

/-- the stage without the column `x` -/
def noX (σ : Store K) : Store K := fun t k p => if t = .x then none else σ t k p

/-- the sides of a lookup do not depend on `x` -/
theorem side_noX (O : Circ R T S l1 st st' a cx lims fuel P q ce fe fuelM o lit) {pc : PCtx} (hc : pc ∈ cx.pu) {id : Nat} (hid : id = pc.fExp ∨ id = pc.tExp) {e : Expr K}
    (he : st'.exps[id]? = some e) {σ : Store K} {d : Nat} {v : K} (h : Val (fieldOps K) st'.exps σ d false e v) : Val (fieldOps K) st'.exps (noX σ) d false e v := by
  have C := O.circ
  have hwf := Map.argsWF_of C.sc C.args
  obtain ⟨hpre, -⟩ := genArgs_ext C.gen
  obtain ⟨e1, -, -, -⟩ := genArgs_ctx C.gen
  have hold : ∀ k e, k < st.exps.length → st'.exps[k]? = some e → st.exps[k]? = some e := by
    intro k e hk he
    obtain ⟨t, ht⟩ := hpre.1
    rw [← ht, List.getElem?_append_left hk] at he
    exact he
  have hrefs : ∀ {j : Nat} {e : Expr K}, st.exps[j]? = some e → Map.AllRefs (fun k _ => k < st.exps.length) e := by
    intro j e he l hl ho k hk
    obtain ⟨L, post, h1, pre, h2, h3, h4⟩ := Map.scoped_get C.sc he
    have := ((Map.sc_labels h4).2 l hl).2.2.1 ho k hk
    have hlen := C.sc.length
    rw [h2, List.length_append] at hlen
    omega
  have hsides : ∀ c ∈ cx.pu, ∀ k e, k = c.fExp ∨ k = c.tExp → st'.exps[k]? = some e →
      Map.NoX e ∧ Map.AllRefs (fun k _ => k < st.exps.length ∨ ∃ c ∈ cx.pu, k = c.fExp ∨ k = c.tExp) e := by
    intro c hc k e hk he
    obtain ⟨n, hn⟩ := List.mem_iff_getElem?.mp hc
    have hlt : n < a.plookups.length := by rw [← e1]; exact (List.getElem?_eq_some_iff.mp hn).1
    obtain ⟨l, c', -, gc, -, -, -, gt, gf, -⟩ := genArgs_plookup C.gen (List.getElem?_eq_getElem hlt)
    rw [hn] at gc
    obtain rfl := Option.some.inj gc
    obtain ⟨w1, w2, w3, w4⟩ := hwf.lookup _ (List.getElem_mem hlt)
    rcases hk with rfl | rfl
    · obtain rfl := Option.some.inj (gf.symm.trans he)
      refine ⟨Map.select_noX (lcF_noX _) (Map.NoX.leaf rfl), Map.select_refs (Map.lcF_refs fun j hj => .inl (w1 j hj)) (Map.AllRefs.exp ?_) fun k hk => .inl (w3 k hk)⟩
      exact .inr ⟨c, hc, .inr rfl⟩
    · obtain rfl := Option.some.inj (gt.symm.trans he)
      exact ⟨Map.select_noX (Map.lcT_noX _) (Map.NoX.leaf rfl), Map.select_refs (Map.lcT_refs fun j hj => .inl (w2 j hj)) Map.eDef_refs fun k hk => .inl (w4 k hk)⟩
  have hQ : ∀ k e, (k < st.exps.length ∨ ∃ c ∈ cx.pu, k = c.fExp ∨ k = c.tExp) → st'.exps[k]? = some e →
      Map.NoX e ∧ Map.AllRefs (fun k _ => k < st.exps.length ∨ ∃ c ∈ cx.pu, k = c.fExp ∨ k = c.tExp) e := by
    rintro k e (hk | ⟨c, hc, hk⟩) he
    · have := hold k e hk he
      exact ⟨O.noX e (List.mem_of_getElem? this), (hrefs this).mono fun k _ h => .inl h⟩
    · exact hsides c hc k e hk he
  obtain ⟨h1, h2⟩ := hsides pc hc id e hid he
  refine store_noX (Q := fun k => k < st.exps.length ∨ ∃ c ∈ cx.pu, k = c.fExp ∨ k = c.tExp) (fun k e l j hk he hl ho hj => (hQ k e hk he).2 l hl ho j hj) (fun k e hk he => (hQ k e hk he).1)
    (fun t k p v ht hv => ?_) h h1 fun l j hl ho hj => h2 l hl ho j hj
  unfold noX
  rw [if_neg ht]
  exact hv

theorem codeOf_split {i : Map.In K} {exps : List (Expr K)} {reqs : List Req} {t0 : Nat} {r : Code × Nat} (h : codeOf i o lit exps fuel reqs t0 = some r) :
    ∃ ctx, genAll 0 exps fuel reqs ⟨t0, [], []⟩ = some ctx ∧
      Map.fixProverCode (Map.tgtOf i.imList i.im2cm o.st.tmpexps .n) o.st.cmN.length lit ctx.tmpUsed (linearCode ctx) = some (r.1.code, r.1.tmpUsed) ∧ r.2 = ctx.tmpUsed := by
  obtain ⟨ctx, h1, h⟩ := Option.bind_eq_some_iff.mp h
  obtain ⟨x, h2, rfl⟩ := Option.map_eq_some_iff.mp h
  exact ⟨ctx, h1, h2, rfl⟩

/-- the section of a committed column -/
theorem Circ.sec (O : Circ R T S l1 st st' a cx lims fuel P q ce fe fuelM o lit) {k : Nat} (hk : k < R.nCm + S.card) {col : Col}
    (hc : nodeCol (o.info T.nConst) .n ({ ty := .cm, id := k } : Interp.Node F3G) = some col) :
    col.sec = if k < st.nCm then .cm1_n else if k < st.nCm + 2 * a.plookups.length then .cm2_n else .cm3_n := by
  obtain ⟨cp, g1, g2, g3, g4, -⟩ := O.col hk
  obtain rfl := Option.some.inj (hc.symm.trans g2)
  dsimp only
  rw [g4]
  split_ifs <;> rfl

/-- **The second round** on the prover's buffers: whatever is known of the buffers (`Sync`) stays known, and the columns of the second round are there. -/
theorem round2_spec (O : Circ R T S l1 st st' a cx lims fuel P q ce fe fuelM o lit) {init2 init3 : FftP.Buf F} {u dv ga be : F3G}
    (hu : WF u) (hdv : WF dv)
    (hcols : columns R T st.nCm P cx S init2 init3 (val u) (val dv) (val ga) (val be) = some (b2, b3))
    (hX : ∀ id r v, ExpVal (fieldOps K) st'.exps (traceStore R (withCm T b2 b3) [val u, val dv, val ga, val be] r) false id v → X .exp id r = v)
    (hS : Sync R T o (withCm T b2 b3) [val u, val dv, val ga, val be] [] st.nCm zi c)
    (side : ∀ n pc id col, cx.pu[n]? = some pc → id = pc.fExp ∨ id = pc.tExp → (layN (inOf st st' cx S q ce fe) o T.nConst (2 ^ R.nb) lit).col .exp id = some col →
      o.dim (st.nCm + 2 * n) = some col.dim)
    {workers : Nat} (hw1 : 1 ≤ workers) (hw : workers ≤ 2048) {U : Setup}
    (hU : setupOf (inOf st st' cx S q ce fe) o lit st'.exps fuel T.nConst cx S zi workers = some U) :
    ∃ cC, round2 U u dv c = some (cC, st.nCm + 2 * a.plookups.length) ∧
      Sync R T o (withCm T b2 b3) [val u, val dv, val ga, val be] [val u, val dv] (st.nCm + 2 * a.plookups.length) zi cC ∧
      (∀ ty id col, (layN (inOf st st' cx S q ce fe) o T.nConst (2 ^ R.nb) lit).col ty id = some col → ∀ r < 2 ^ R.nb, Blank cC.mem col r ∨ Hold cC.mem col r (X ty id r)) ∧
      Holds R T (withCm T b2 b3) o [val u, val dv, val ga, val be] cC.mem (· < st.nCm + 2 * a.plookups.length) ∧ cC.mem .cm1_n = c.mem .cm1_n := by
  have C := O.circ
  have hF := columns_facts C hcols
  have hle := C.layout.le
  have hcnt := C.count
  obtain ⟨e1, -, -, -⟩ := genArgs_ctx C.gen
  obtain ⟨more, hsc, hall, hlk, hfr⟩ := genArgs_scoped C.gen C.sc (fun l hl => (C.l1c l hl).1) C.args C.bounds
  obtain ⟨k2, hk2, hU⟩ := Option.bind_eq_some_iff.mp hU
  obtain ⟨k3, hk3, hU⟩ := Option.bind_eq_some_iff.mp hU
  obtain ⟨k4, hk4, rfl⟩ := Option.map_eq_some_iff.mp hU
  obtain ⟨x2, y2, z2, t2⟩ := codeOf_split hk2
  obtain ⟨x3, y3, z3, t3⟩ := codeOf_split hk3
  obtain ⟨x4, y4, z4, t4⟩ := codeOf_split hk4
  have hlenS := hsc.length
  -- values
  have hcov : ∀ (lim : Nat) (ch : List K) (n : Nat), n ≤ ch.length → lim ≤ R.nCm → ∀ i, Covers T.nConst R.publics.length (stageStore R (withCm T b2 b3) ch lim i) ⟨lim, n, false⟩ :=
    fun lim ch n hn hlim i => covers_stage (T := withCm T b2 b3) (fun k hk r => C.has (T' := withCm T b2 b3) rfl ch (by omega) r) hn i
  have hval : ∀ (lim : Nat) (ch : List K) (n : Nat), n ≤ ch.length → lim ≤ R.nCm → ∀ i id, Bnd (lims ++ more) id lim n false →
      ∃ e v, id < fuel ∧ st'.exps[id]? = some e ∧ Val (fieldOps K) st'.exps (stageStore R (withCm T b2 b3) ch lim i) id false e v := by
    intro lim ch n hn hlim i id hb
    obtain ⟨e, v, h1, h2⟩ := bnd_val (T := withCm T b2 b3) hsc (hcov lim ch n hn hlim i) hb
    exact ⟨e, v, lt_of_lt_of_le (List.getElem?_eq_some_iff.mp h1).1 C.fuel, h1, h2⟩
  have hbt : ∀ c ∈ cx.pu, Bnd (lims ++ more) c.tExp st.nCm 2 false := fun c hc => by
    obtain ⟨m, h1, h2, h3, -⟩ := (hlk c hc).2
    exact ⟨m, h1, h2, h3, by simp⟩
  -- the second round
  obtain ⟨cA, a1, a2, a3⟩ := setChallenges_sync O (by omega) hS (k := 0) (by omega) hu hdv (ch' := [val u, val dv]) (by
    intro j v hv
    match j, hv with
    | 0, hv => exact .inl ⟨rfl, (Option.some.inj hv).symm⟩
    | 1, hv => exact .inr (.inl ⟨rfl, (Option.some.inj hv).symm⟩)
    | j + 2, hv => simp at hv)
  obtain ⟨cB, b1, bS, bF, bH, bM⟩ := stage_run O a2 ⟨[val ga, val be], rfl⟩ (by omega) (stp := .step2prev) (.inl rfl) (X := X) (workers := workers)
    (fun k hk col hc => by
      rw [O.sec (by omega) hc, if_pos hk]
      simp [execInfo])
    y2 z2 (le_refl _) (fun r hr => by rw [(reqs2_mem hr).1]; exact ⟨rfl, rfl, rfl⟩)
    (σ := fun i => noX (stageStore R (withCm T b2 b3) [val u, val dv] st.nCm i))
    (fun i _ t k p v hv => by
      unfold noX at hv
      split_ifs at hv
      exact hv)
    (fun i _ k p v hv => by
      unfold noX at hv
      rw [if_pos rfl] at hv
      cases hv)
    (fun i _ r hr => by
      obtain ⟨-, pc, hpc, hid⟩ := reqs2_mem hr
      obtain ⟨e, v, h0, h1, h2⟩ := hval st.nCm [val u, val dv] 2 (le_refl _) (by omega) i r.id (by rcases hid with h | h <;> rw [h]; exacts [(hlk pc hpc).1, hbt pc hpc])
      exact ⟨r.id, e, v, h0, h1, side_noX O hpc hid h1 h2⟩)
    hX (cleared_fresh O (.inl rfl) fun ty id col hc hin => by
      rcases (O.lay hc).1 with h | h <;> rw [h] at hin <;> simp [execInfo] at hin)
    (fun off j => rfl) hw1 hw
  obtain ⟨cC, f1, f2, f3, f4⟩ := lookups_fold O hF hX side bS fun pc hpc id col hid hc r hr =>
    bH { id := id } (by
      unfold reqs2
      refine List.mem_flatMap.mpr ⟨pc, hpc, ?_⟩
      rcases hid with rfl | rfl <;> simp) col hc r hr
  have hcm1B : cB.mem .cm1_n = cA.mem .cm1_n := bM _ (by simp [execInfo])
  have hmC : cC.mem .cm1_n = c.mem .cm1_n := f4.trans (hcm1B.trans (a3 _ (by simp)))
  rw [e1] at f1 f2
  have hfrC : ∀ ty id col, (layN (inOf st st' cx S q ce fe) o T.nConst (2 ^ R.nb) lit).col ty id = some col → ∀ r < 2 ^ R.nb, Blank cC.mem col r ∨ Hold cC.mem col r (X ty id r) := by
    intro ty id col hc r hr
    have hsame : ∀ j < col.dim, cell (cC.mem col.sec) col.width r (col.pos + j) = cell (cB.mem col.sec) col.width r (col.pos + j) := fun j hj => f3 ty id col hc r j hj
    rcases bF ty id col hc r hr with h | h
    · exact .inl (Blank.congr hsame h)
    · exact .inr (Hold.congr (O.lay hc).2.1 hsame h)
  refine ⟨cC, ?_, f2, hfrC, ?_, hmC⟩
  · unfold round2
    dsimp only
    rw [a1, Option.bind_some, b1, Option.bind_some]
    rw [← e1] at f1 ⊢
    exact f1
  · intro k hk
    obtain ⟨cp, -, h2, -⟩ := O.col (k := k) (by omega)
    refine ⟨_, h2, fun r hr => ?_⟩
    obtain ⟨v, hv⟩ := C.has (T' := withCm T b2 b3) rfl [val u, val dv, val ga, val be] (k := k) (by omega) r
    exact ⟨v, hv, f2.done k hk _ h2 r hr v hv⟩

/-- **The third round** on the prover's buffers, from any buffers that hold the columns of the second round. -/
theorem round3_spec (O : Circ R T S l1 st st' a cx lims fuel P q ce fe fuelM o lit) {init2 init3 : FftP.Buf F} {u dv ga be : F3G}
    (hga : WF ga) (hbe : WF be)
    (hcols : columns R T st.nCm P cx S init2 init3 (val u) (val dv) (val ga) (val be) = some (b2, b3))
    (hX : ∀ id r v, ExpVal (fieldOps K) st'.exps (traceStore R (withCm T b2 b3) [val u, val dv, val ga, val be] r) false id v → X .exp id r = v)
    (hS : Sync R T o (withCm T b2 b3) [val u, val dv, val ga, val be] [val u, val dv] (st.nCm + 2 * a.plookups.length) zi c)
    (hfr0 : ∀ ty id col, (layN (inOf st st' cx S q ce fe) o T.nConst (2 ^ R.nb) lit).col ty id = some col → ∀ r < 2 ^ R.nb, Blank c.mem col r ∨ Hold c.mem col r (X ty id r))
    {workers : Nat} (hw1 : 1 ≤ workers) (hw : workers ≤ 2048) {U : Setup}
    (hU : setupOf (inOf st st' cx S q ce fe) o lit st'.exps fuel T.nConst cx S zi workers = some U) :
    ∃ cH, round3 U ga be (c, st.nCm + 2 * a.plookups.length) = some cH ∧
      Sync R T o (withCm T b2 b3) [val u, val dv, val ga, val be] [val u, val dv, val ga, val be] R.nCm zi cH ∧
      Holds R T (withCm T b2 b3) o [val u, val dv, val ga, val be] cH.mem (· < R.nCm + S.card) ∧ cH.mem .cm1_n = c.mem .cm1_n := by
  have C := O.circ
  have hF := columns_facts C hcols
  have hle := C.layout.le
  have hcnt := C.count
  obtain ⟨e1, -, -, -⟩ := genArgs_ctx C.gen
  obtain ⟨more, hsc, hall, hlk, hfr⟩ := genArgs_scoped C.gen C.sc (fun l hl => (C.l1c l hl).1) C.args C.bounds
  obtain ⟨k2, hk2, hU⟩ := Option.bind_eq_some_iff.mp hU
  obtain ⟨k3, hk3, hU⟩ := Option.bind_eq_some_iff.mp hU
  obtain ⟨k4, hk4, rfl⟩ := Option.map_eq_some_iff.mp hU
  obtain ⟨x2, y2, z2, t2⟩ := codeOf_split hk2
  obtain ⟨x3, y3, z3, t3⟩ := codeOf_split hk3
  obtain ⟨x4, y4, z4, t4⟩ := codeOf_split hk4
  have hlenS := hsc.length
  -- values
  have hcov : ∀ (lim : Nat) (ch : List K) (n : Nat), n ≤ ch.length → lim ≤ R.nCm → ∀ i, Covers T.nConst R.publics.length (stageStore R (withCm T b2 b3) ch lim i) ⟨lim, n, false⟩ :=
    fun lim ch n hn hlim i => covers_stage (T := withCm T b2 b3) (fun k hk r => C.has (T' := withCm T b2 b3) rfl ch (by omega) r) hn i
  have hval : ∀ (lim : Nat) (ch : List K) (n : Nat), n ≤ ch.length → lim ≤ R.nCm → ∀ i id, Bnd (lims ++ more) id lim n false →
      ∃ e v, id < fuel ∧ st'.exps[id]? = some e ∧ Val (fieldOps K) st'.exps (stageStore R (withCm T b2 b3) ch lim i) id false e v := by
    intro lim ch n hn hlim i id hb
    obtain ⟨e, v, h1, h2⟩ := bnd_val (T := withCm T b2 b3) hsc (hcov lim ch n hn hlim i) hb
    exact ⟨e, v, lt_of_lt_of_le (List.getElem?_eq_some_iff.mp h1).1 C.fuel, h1, h2⟩
  have hbt : ∀ c ∈ cx.pu, Bnd (lims ++ more) c.tExp st.nCm 2 false := fun c hc => by
    obtain ⟨m, h1, h2, h3, -⟩ := (hlk c hc).2
    exact ⟨m, h1, h2, h3, by simp⟩
  -- the third round
  obtain ⟨cD, d1, d2, d3⟩ := setChallenges_sync O (by omega) hS (k := 2) (by omega) hga hbe (ch' := [val u, val dv, val ga, val be]) (by
    intro j v hv
    match j, hv with
    | 0, hv => exact .inr (.inr ⟨by omega, hv⟩)
    | 1, hv => exact .inr (.inr ⟨by omega, hv⟩)
    | 2, hv => exact .inl ⟨rfl, (Option.some.inj hv).symm⟩
    | 3, hv => exact .inr (.inl ⟨rfl, (Option.some.inj hv).symm⟩)
    | j + 4, hv => simp at hv)
  have hfrD : ∀ ty id col, (layN (inOf st st' cx S q ce fe) o T.nConst (2 ^ R.nb) lit).col ty id = some col → ∀ r < 2 ^ R.nb, Blank cD.mem col r ∨ Hold cD.mem col r (X ty id r) := by
    intro ty id col hc r hr
    have hsame : ∀ j < col.dim, cell (cD.mem col.sec) col.width r (col.pos + j) = cell (c.mem col.sec) col.width r (col.pos + j) := by
      intro j hj
      rw [d3 _ (by rcases (O.lay hc).1 with h | h <;> rw [h] <;> simp)]
    rcases hfr0 ty id col hc r hr with h | h
    · exact .inl (Blank.congr hsame h)
    · exact .inr (Hold.congr (O.lay hc).2.1 hsame h)
  obtain ⟨cE, g1, gS, gF, gH, gM⟩ := stage_run O d2 (List.prefix_refl _) (by omega) (stp := .step3prev) (.inr (.inl rfl)) (X := X) (workers := workers)
    (fun k hk col hc => by
      rw [O.sec (by omega) hc]
      split_ifs <;> simp [execInfo])
    y3 z3 (le_refl _) (fun r hr => by rw [(reqs3_mem hr).1]; exact ⟨rfl, rfl, rfl⟩)
    (σ := fun i => stageStore R (withCm T b2 b3) [val u, val dv, val ga, val be] (st.nCm + 2 * a.plookups.length) i)
    (fun i _ t k p v hv => hv) (fun i _ k p v hv => by simp [execInfo])
    (fun i _ r hr => by
      obtain ⟨-, pc, hpc, hid⟩ := reqs3_mem hr
      obtain ⟨e, v, h0, h1, h2⟩ := hval (st.nCm + 2 * a.plookups.length) [val u, val dv, val ga, val be] 4 (le_refl _) (by omega) i r.id
        (by rcases hid with h | h <;> rw [h]; exacts [(hfr pc hpc).1, (hfr pc hpc).2.1])
      exact ⟨r.id, e, v, h0, h1, h2⟩)
    hX (cleared_fresh O (.inr (.inl rfl)) fun ty id col hc _ => hfrD ty id col hc) (fun off j => rfl) hw1 hw
  rw [← e1] at gS
  obtain ⟨cG, i1, i2, i3, i4⟩ := products_fold O hF hX gS fun pc hpc id col hid hc r hr =>
    gH { id := id } (by
      unfold reqs3
      refine List.mem_flatMap.mpr ⟨pc, hpc, ?_⟩
      rcases hid with rfl | rfl <;> simp) col hc r hr
  have hfrG : ∀ ty id col, (layN (inOf st st' cx S q ce fe) o T.nConst (2 ^ R.nb) lit).col ty id = some col → ∀ r < 2 ^ R.nb, Blank cG.mem col r ∨ Hold cG.mem col r (X ty id r) := by
    intro ty id col hc r hr
    rcases gF ty id col hc r hr with h | h
    · exact .inl (Blank.congr (i3 ty id col hc r) h)
    · exact .inr (Hold.congr (O.lay hc).2.1 (i3 ty id col hc r) h)
  obtain ⟨cH, j1, jS, jF, jH, jM⟩ := stage_run O i2 (List.prefix_refl _) (le_refl _) (stp := .step3) (.inr (.inr rfl)) (X := X) (workers := workers)
    (fun k hk col hc => by
      rw [O.sec (by omega) hc]
      split_ifs <;> simp [execInfo])
    y4 z4 (le_refl _) (fun r hr => by rw [(reqsIm_mem hr).1]; exact ⟨rfl, rfl, rfl⟩)
    (σ := fun i => stageStore R (withCm T b2 b3) [val u, val dv, val ga, val be] R.nCm i)
    (fun i _ t k p v hv => hv) (fun i _ k p v hv => by simp [execInfo])
    (fun i _ r hr => by
      have hr' := C.ims r.id (reqsIm_mem hr).2
      have hm : (lims ++ more)[r.id]? = some ((lims ++ more)[r.id]'(by omega)) := List.getElem?_eq_getElem (by omega)
      have hb := hall _ (List.mem_of_getElem? hm)
      obtain ⟨e, v, h0, h1, h2⟩ := hval R.nCm [val u, val dv, val ga, val be] 4 (le_refl _) (le_refl _) i r.id ⟨_, hm, by rw [C.nCm]; exact hb.1, hb.2, by simp⟩
      exact ⟨r.id, e, v, h0, h1, h2⟩)
    hX (cleared_fresh O (.inr (.inr rfl)) fun ty id col hc _ => hfrG ty id col hc) (fun off j => rfl) hw1 hw
  have hm1 : cH.mem .cm1_n = c.mem .cm1_n := by
    rw [jM _ (by simp [execInfo]), i4, gM _ (by simp [execInfo]), d3 _ (by simp)]
  refine ⟨cH, ?_, jS, ?_, hm1⟩
  · unfold round3
    dsimp only
    rw [d1, Option.bind_some, g1, Option.bind_some, ← e1, i1, Option.bind_some]
    exact j1
  · intro k hk
    obtain ⟨cp, -, h2, -⟩ := O.col hk
    refine ⟨_, h2, fun r hr => ?_⟩
    by_cases hlt : k < R.nCm
    · obtain ⟨v, hv⟩ := C.has (T' := withCm T b2 b3) rfl [val u, val dv, val ga, val be] hk r
      exact ⟨v, hv, jS.done k hlt _ h2 r hr v hv⟩
    · obtain ⟨n, rfl⟩ : ∃ n, k = R.nCm + n := ⟨k - R.nCm, by omega⟩
      have hn : n < (S.sort (· ≤ ·)).length := by rw [Finset.length_sort]; omega
      have hget := List.getElem?_eq_getElem hn
      obtain ⟨v, w1, w2⟩ := hF.im n _ hget
      have hmem : (S.sort (· ≤ ·))[n] ∈ S.sort (· ≤ ·) := List.getElem_mem hn
      have hidx : (S.sort (· ≤ ·)).idxOf ((S.sort (· ≤ ·))[n]) = n := (Finset.sort_nodup _ _).idxOf_getElem n hn
      have hz : (inOf st st' cx S q ce fe).zBase + (inOf st st' cx S q ce fe).nZ = R.nCm := by
        simp only [List.length_append] at hcnt
        simp only [Map.In.zBase, Map.In.nZ, inOf]
        omega
      have hcol : (layN (inOf st st' cx S q ce fe) o T.nConst (2 ^ R.nb) lit).col .exp ((S.sort (· ≤ ·))[n]) = some ⟨secN cp.tree, cp.pos, cp.dim, T.width cp.tree⟩ := by
        show ((Map.tgtOf (inOf st st' cx S q ce fe).imList (inOf st st' cx S q ce fe).im2cm o.st.tmpexps .n ((S.sort (· ≤ ·))[n])).bind fun tk =>
          nodeCol (o.info T.nConst) .n ({ ty := tk.1, id := tk.2 } : Interp.Node F3G)) = _
        unfold Map.tgtOf Map.In.im2cm
        rw [show (inOf st st' cx S q ce fe).imList = S.sort (· ≤ ·) from rfl, if_pos hmem, if_pos hmem, hidx, Option.map_some, Option.bind_some, hz]
        exact h2
      have hXv : X .exp ((S.sort (· ≤ ·))[n]) r = v r := hX _ _ _ (ExpVal.mono (O.trace_le b2 b3 (ch := [val u, val dv, val ga, val be]) (ch4 := [val u, val dv, val ga, val be]) (lim := R.nCm)
        (List.prefix_refl _) (le_refl _) r) (w1 r))
      refine ⟨v r, w2 r hr, ?_⟩
      rw [← hXv]
      exact jH { id := (S.sort (· ≤ ·))[n] } (List.mem_map.mpr ⟨_, hmem, rfl⟩) _ hcol r hr

end

/-- **The second and third round.** If the columns of the second and third round exist for the drawn challenges (`Grand.columns`, C84), the second and the third round on
the prover's buffers succeed, for every number of workers, and the sections of the trace domain then hold these columns. -/
theorem rounds_spec (O : Circ R T S l1 st st' a cx lims fuel P q ce fe fuelM o lit) {init2 init3 : FftP.Buf F} {u dv ga be : F3G}
    (hu : WF u) (hdv : WF dv) (hga : WF ga) (hbe : WF be)
    (hcols : columns R T st.nCm P cx S init2 init3 (val u) (val dv) (val ga) (val be) = some (b2, b3)) (hstart : Start R T o zi c)
    (side : ∀ n pc id col, cx.pu[n]? = some pc → id = pc.fExp ∨ id = pc.tExp → (layN (inOf st st' cx S q ce fe) o T.nConst (2 ^ R.nb) lit).col .exp id = some col →
      o.dim (st.nCm + 2 * n) = some col.dim)
    {workers : Nat} (hw1 : 1 ≤ workers) (hw : workers ≤ 2048) {U : Setup}
    (hU : setupOf (inOf st st' cx S q ce fe) o lit st'.exps fuel T.nConst cx S zi workers = some U) :
    ∃ c2 c3, round2 U u dv c = some (c2, st.nCm + 2 * a.plookups.length) ∧ round3 U ga be (c2, st.nCm + 2 * a.plookups.length) = some c3 ∧
      Holds R T (withCm T b2 b3) o [val u, val dv, val ga, val be] c2.mem (· < st.nCm + 2 * a.plookups.length) ∧
      Holds R T (withCm T b2 b3) o [val u, val dv, val ga, val be] c3.mem (· < R.nCm + S.card) ∧
      c2.mem .cm1_n = c.mem .cm1_n ∧ c3.mem .cm1_n = c.mem .cm1_n := by
  obtain ⟨X, hX⟩ := Map.exists_values st'.exps fun r => traceStore R (withCm T b2 b3) [val u, val dv, val ga, val be] r
  obtain ⟨cC, h1, h2, h3, h4, h5⟩ := round2_spec O hu hdv hcols hX (hstart.sync O b2 b3 [val u, val dv, val ga, val be]) side hw1 hw hU
  obtain ⟨cH, g1, -, g3, g4⟩ := round3_spec O hga hbe hcols hX h2 h3 hw1 hw hU
  exact ⟨cC, cH, h1, g1, h4, g3, h5, g4.trans h5⟩

end Verif.Stage
