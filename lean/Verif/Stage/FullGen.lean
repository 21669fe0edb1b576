import Verif.Stage.FullOpen
import Verif.Stage.ExtMap

/-!
# The prover on its buffers computes the proof of the rounds

`genBuf` (the model of `stark_gen` on the buffers) refines `starkGen` with `proverRounds` (the same prover on named columns, C84, C85).
-/
set_option linter.unusedSectionVars false

namespace Verif.Stage
open Codegen Codegen.Spec Verif.Stark FFT Fri Verif.Grand
open Verif.GL (F)
open Verif.Ext3 (F3G K WF val ofF coord)
open Verif.Interp (Sec Info algF3 setWidth execInfo)
open Verif.Interp.Spec (nodeCol polCol)
open Verif.Map (secN sec2 Out Rel fixProverCode tgtOf inOf layN)

noncomputable section

/-- What the prover has after the setup: `setupOf` with the programs of the extended domain, the opened columns and the degree of the quotient (stark_setup.rs L42-55, starkinfo.rs L229-274). -/
def fullOf (i : Map.In K) (o : Out) (lit : K → F3G) (exps : List (Expr K)) (fuelP fuel nConst nCm : Nat) (cx : ArgCtx) (U : Stark.Setup K) (zi : Nat → Option F3G)
    (workers fftWorkers : Nat) (dirty : Nat → FftP.Buf F) : Option Full :=
  (setupOf i o lit exps fuelP nConst cx U.S zi workers).bind fun s =>
  (codes2ns o.st.tmpexps o.st.cm2ns.length lit exps fuel nCm U).map fun c =>
  { toSetup := s, step4 := c.1, step5 := c.2, evMap := U.evMap, qDeg := U.qDeg, fftWorkers := fftWorkers, dirty := dirty }

section
variable {nC nP : Nat} {lims : List Lim} {L : Lim} {B : Type} [Field B]

/-- the expressions of a circuit do not mention the tables of the FRI polynomial -/
theorem sc_noDiv {e : Expr B} (h : Sc nC nP lims L e) : ∀ l, Map.HasLabel l e → l.op ≠ .xDivXSubXi ∧ l.op ≠ .xDivXSubWXi := by
  induction h with
  | bin ho _ _ ih1 ih2 =>
    intro l hl
    rcases Map.hasLabel_two hl with rfl | hl | hl
    · rcases ho with h | h | h <;> simp [h]
    · exact ih1 l hl
    · exact ih2 l hl
  | neg ho _ ih =>
    intro l hl
    cases hl with
    | here => simp [ho]
    | child hm hc => rw [List.mem_singleton] at hm; subst hm; exact ih l hc
  | cst ho _ _ ih =>
    intro l hl
    cases hl with
    | here => rcases ho with h | h <;> simp [h]
    | child hm hc => rw [List.mem_singleton] at hm; subst hm; exact ih l hc
  | num ho _ => intro l hl; rw [Map.hasLabel_leaf hl]; simp [ho]
  | cm ho hi hlt _ => intro l hl; rw [Map.hasLabel_leaf hl]; simp [ho]
  | const_ ho hi hlt _ => intro l hl; rw [Map.hasLabel_leaf hl]; simp [ho]
  | pub ho _ _ => intro l hl; rw [Map.hasLabel_leaf hl]; simp [ho]
  | chal ho _ _ => intro l hl; rw [Map.hasLabel_leaf hl]; simp [ho]
  | x ho => intro l hl; rw [Map.hasLabel_leaf hl]; simp [ho]
  | exp ho hi hm _ _ _ _ => intro l hl; rw [Map.hasLabel_leaf hl]; simp [ho]

end

/-- the expressions of a circuit with its arguments -/
theorem Circ.expsE {R : Run} {T : Trace} {S : Finset Nat} {l1 : Option Nat} {st st' : PilSt K} {a : Args} {cx : ArgCtx} {lims : List Lim} {fuel : Nat} {P : Progs}
    {q : Nat} {ce fe : Expr K} {fuelM : Nat} {o : Out} {lit : K → F3G} (O : Circ R T S l1 st st' a cx lims fuel P q ce fe fuelM o lit) : ExpsE R.nCm st'.exps := by
  obtain ⟨more, hsc', hall, -⟩ := genArgs_scoped O.circ.gen O.circ.sc (fun l hl => (O.circ.l1c l hl).1) O.circ.args O.circ.bounds
  have key : ∀ e ∈ st'.exps, ∃ (L : Lim) (pre : List Lim), L.cols ≤ st'.nCm ∧ Sc T.nConst R.publics.length pre L e := by
    intro e he
    obtain ⟨j, hj⟩ := List.mem_iff_getElem?.mp he
    obtain ⟨L, post, h1, pre, h2, h3, h4⟩ := Map.scoped_get hsc' hj
    exact ⟨L, pre, (hall L h1).1, h4⟩
  refine ⟨fun e he => ?_, fun e he l hl => ?_, fun e he l hl ho i hi => ?_⟩
  · obtain ⟨L, pre, -, h⟩ := key e he
    exact (Map.sc_labels h).1
  · obtain ⟨L, pre, -, h⟩ := key e he
    exact ⟨((Map.sc_labels h).2 l hl).2.2.2.1, sc_noDiv h l hl⟩
  · obtain ⟨L, pre, hc, h⟩ := key e he
    rw [O.circ.nCm]
    exact lt_of_lt_of_le (((Map.sc_labels h).2 l hl).1 ho i hi) hc

/-- Specification: a circuit with lookups, permutations and connections that is set up for the prover on the buffers: the columns are laid out by `map`, the programs are
generated, rewritten for the buffers and complete, the tables of the inverses of the vanishing polynomial, the public inputs and the extended constants are those of the run. -/
structure Ready (R : Run) (T : Trace) (U : Stark.Setup K) (l1 : Option Nat) (st st' : PilSt K) (a : Args) (cx : ArgCtx) (lims : List Lim) (fuelP : Nat) (P : Progs)
    (fe : Expr K) (fuelM : Nat) (o : Out) (lit : K → F3G) (init2 init3 : FftP.Buf F) (fuelI fuel : Nat) (rest : List (Codegen.Code K) → List (Codegen.Instr K))
    (S : Full) (zi : Nat → Option F3G) (workers : Nat) (publics : List F) (fixed : List F) : Prop where
  circ : Circ R T U.S l1 st st' a cx lims fuelP P U.qDeg U.cExp fe fuelM o lit
  wf : WellFormed R U (argTrace R T st.nCm P cx U.S init2 init3) st'.exps st'.ids fuelI fuel rest
  qDim : R.qDim = o.qDim
  side : ∀ n pc id col, cx.pu[n]? = some pc → id = pc.fExp ∨ id = pc.tExp → (layN (inOf st st' cx U.S U.qDeg U.cExp fe) o T.nConst (2 ^ R.nb) lit).col .exp id = some col →
    o.dim (st.nCm + 2 * n) = some col.dim
  full : ∃ dirty, fullOf (inOf st st' cx U.S U.qDeg U.cExp fe) o lit st'.exps fuelP fuel T.nConst R.nCm cx U zi workers R.workers dirty = some S
  zi : ∀ j, zi j = some (ofF (zhInv Roots.mg Roots.shift R.nb R.ext 0 j))
  w1 : 1 ≤ workers
  w : workers ≤ 2048
  ext : R.ext ≤ 11
  publics : R.publics = publics.map (algebraMap F K)
  fixed : constCells R (argTrace R T st.nCm P cx U.S init2 init3) = some fixed

variable {R : Run} {T : Trace} {U : Stark.Setup K} {l1 : Option Nat} {st st' : PilSt K} {a : Args} {cx : ArgCtx} {lims : List Lim} {fuelP : Nat} {P : Progs}
    {fe : Expr K} {fuelM : Nat} {o : Out} {lit : K → F3G} {init2 init3 : FftP.Buf F} {fuelI fuel : Nat} {rest : List (Codegen.Code K) → List (Codegen.Instr K)}
    {S : Full} {zi : Nat → Option F3G} {workers : Nat} {publics : List F} {fixed : List F}

/-- the buffers of the run before the first round -/
def ctx0 (R : Run) (T : Trace) (S : Full) (zi : Nat → Option F3G) (fixed publics : List F) (tmp : List F3G) : Ctx :=
  initCtx S.info R.nb R.ext zi (cellsOf T.cm1 (T.width 1) (2 ^ R.nb)) (cellsOf T.fixed T.nConst (2 ^ R.nb)) fixed publics tmp

theorem Ready.parts (H : Ready R T U l1 st st' a cx lims fuelP P fe fuelM o lit init2 init3 fuelI fuel rest S zi workers publics fixed) :
    setupOf (inOf st st' cx U.S U.qDeg U.cExp fe) o lit st'.exps fuelP T.nConst cx U.S zi workers = some S.toSetup ∧
    codes2ns o.st.tmpexps o.st.cm2ns.length lit st'.exps fuel R.nCm U = some (S.step4, S.step5) ∧ S.evMap = U.evMap ∧ S.qDeg = U.qDeg ∧ S.fftWorkers = R.workers ∧
    S.info = o.info T.nConst := by
  obtain ⟨dirty, h⟩ := H.full
  obtain ⟨s, h1, h⟩ := Option.bind_eq_some_iff.mp h
  obtain ⟨cc, h2, rfl⟩ := Option.map_eq_some_iff.mp h
  exact ⟨h1, h2, rfl, rfl, rfl, (setupOf_info h1).1⟩

theorem Ready.q (H : Ready R T U l1 st st' a cx lims fuelP P fe fuelM o lit init2 init3 fuelI fuel rest S zi workers publics fixed) : R.qDim = 1 ∨ R.qDim = 3 :=
  layout_qDim H.wf.layout H.wf.qDeg

theorem Ready.lay (H : Ready R T U l1 st st' a cx lims fuelP P fe fuelM o lit init2 init3 fuelI fuel rest S zi workers publics fixed) :
    ExtLay R U (argTrace R T st.nCm P cx U.S init2 init3) S.info := by
  rw [H.parts.2.2.2.2.2]
  exact map_extLay H.circ.map.map H.circ.map.nCm2 H.wf.layout H.circ.pos H.qDim rfl H.q H.circ.width

theorem Ready.steps (H : Ready R T U l1 st st' a cx lims fuelP P fe fuelM o lit init2 init3 fuelI fuel rest S zi workers publics fixed)
    (hk : ∀ k ∈ U.evMap, KeyOk R T k) : Steps R U (argTrace R T st.nCm P cx U.S init2 init3) S st'.exps st'.ids fuelI fuel rest := by
  obtain ⟨h1, h2, h3, h4, h5, -⟩ := H.parts
  obtain ⟨-, hw, hz⟩ := setupOf_info h1
  have := H.wf.bits
  refine ⟨H.wf.setup, H.wf.layout, H.wf.dims, H.circ.expsE, H.q, H.lay, ⟨lit, _, _, ⟨H.circ.litOk, H.circ.lit1⟩, h2⟩, ?_, H.ext, by omega, by rw [hw]; exact H.w1, by rw [hw]; exact H.w,
    h5, h3, h4, hk⟩
  rw [hz]
  funext off j
  rw [H.zi, ziOf, Interp.zhInv_offset Roots.mg Roots.shift R.nb R.ext off j]

/-- the buffers before the first round -/
theorem Ready.start (H : Ready R T U l1 st st' a cx lims fuelP P fe fuelM o lit init2 init3 fuelI fuel rest S zi workers publics fixed) (tmp : List F3G) : Start R T o zi (ctx0 R T S zi fixed publics tmp) := by
  obtain ⟨-, -, -, -, -, hinfo⟩ := H.parts
  have hw1 : o.lay.n .cm1_n = T.width 1 := (H.circ.width 1 (by omega) (by omega)).symm
  have hz : ∀ (n : Nat) (w : F3G), w ∈ List.replicate n Ext3.ZERO → ∃ b, w = ofF b := fun n w hw => ⟨0, by rw [List.eq_of_mem_replicate hw]; rfl⟩
  have hl : ∀ (l : List F) (w : F3G), w ∈ l.map ofF → ∃ b, w = ofF b := fun l w hw => by
    obtain ⟨b, -, rfl⟩ := List.mem_map.mp hw
    exact ⟨b, rfl⟩
  have hx : ∀ (f : Nat → F) (n : Nat) (w : F3G), w ∈ (List.range n).map (fun k => ofF (f k)) → ∃ b, w = ofF b := fun f n w hw => by
    obtain ⟨b, -, rfl⟩ := List.mem_map.mp hw
    exact ⟨_, rfl⟩
  refine ⟨rfl, ?_, ⟨fun t ht w hw => ?_, fun t ht w hw => ?_⟩, fun r hr k hk => ?_, fun r hr k hk => ?_, fun r hr => ?_, ?_, ?_, rfl⟩
  · intro t ht
    simp only [List.mem_cons, List.not_mem_nil, or_false] at ht
    rcases ht with rfl | rfl | rfl | rfl | rfl | rfl
    · show ((cellsOf T.cm1 (T.width 1) (2 ^ R.nb)).map ofF).length = 2 ^ R.nb * o.lay.n .cm1_n
      rw [hw1]
      simp [cellsOf, Nat.mul_comm]
    · show (List.replicate (S.info.sectionsN .cm2_n * 2 ^ R.nb) Ext3.ZERO).length = 2 ^ R.nb * o.lay.n .cm2_n
      rw [List.length_replicate, hinfo, Nat.mul_comm]; rfl
    · show (List.replicate (S.info.sectionsN .cm3_n * 2 ^ R.nb) Ext3.ZERO).length = 2 ^ R.nb * o.lay.n .cm3_n
      rw [List.length_replicate, hinfo, Nat.mul_comm]; rfl
    · show (List.replicate (S.info.sectionsN .tmpexp_n * 2 ^ R.nb) Ext3.ZERO).length = 2 ^ R.nb * o.lay.n .tmpexp_n
      rw [List.length_replicate, hinfo, Nat.mul_comm]; rfl
    · show ((cellsOf T.fixed T.nConst (2 ^ R.nb)).map ofF).length = 2 ^ R.nb * T.nConst
      simp [cellsOf, Nat.mul_comm]
    · show ((List.range (2 ^ R.nb)).map fun k => ofF (Roots.mg R.nb ^ k)).length = 2 ^ R.nb * 1
      simp
  · unfold Map.extSec at ht
    cases t <;> first | exact absurd (.inl rfl) ht | exact hl _ w hw | exact hz _ w hw | exact hx _ _ w hw | (exact absurd hw (List.not_mem_nil))
  · rcases ht with rfl | rfl
    · obtain rfl := List.eq_of_mem_replicate hw
      exact .inr ⟨rfl, rfl, rfl⟩
    · exact absurd hw (List.not_mem_nil)
  · show ((cellsOf T.cm1 (T.width 1) (2 ^ R.nb)).map ofF)[r * T.width 1 + k]? = _
    unfold cellsOf
    rw [List.getElem?_map, List.getElem?_map, List.getElem?_range (Stark.cell_lt hr hk)]
    rfl
  · show ((cellsOf T.fixed T.nConst (2 ^ R.nb)).map ofF)[r * T.nConst + k]? = _
    unfold cellsOf
    rw [List.getElem?_map, List.getElem?_map, List.getElem?_range (Stark.cell_lt hr hk)]
    rfl
  · refine ⟨Roots.mg R.nb ^ r, ?_, by rw [map_pow]; rfl⟩
    show ((List.range (2 ^ R.nb)).map fun k => ofF (Roots.mg R.nb ^ k))[r]? = _
    rw [List.getElem?_map, List.getElem?_range hr]
    rfl
  · show (publics.map ofF).map val = R.publics
    rw [H.publics, List.map_map]
    refine List.map_congr_left fun b _ => ?_
    simp [val, ofF, coord]
  · show 4 ≤ (List.replicate 8 Ext3.ZERO).length
    simp

theorem constCells_length {T' : Trace} (h : constCells R T' = some fixed) : fixed.length = T'.nConst * 2 ^ (R.nb + R.ext) := by
  obtain ⟨b, -, rfl⟩ := Option.map_eq_some_iff.mp h
  simp [cellsOf]

theorem extCells_length {T' : Trace} {ch : List K} {t : Nat} {l : List F} (h : extCells R T' ch t = some l) : l.length = T'.width t * 2 ^ (R.nb + R.ext) := by
  obtain ⟨b, -, rfl⟩ := Option.map_eq_some_iff.mp h
  simp [cellsOf]

set_option maxHeartbeats 1000000 in
/-- **C104** The prover on its buffers computes the proof of the rounds: whenever the prover on named columns returns a proof, `stark_gen` run on the buffers, with the compiled programs, returns the same
proof and leaves the transcript in the same state, whatever the temporaries contain at the beginning. -/
theorem gen_refines {Root Path Tree Ts : Type} {mt : MT F Root Path Tree} {tr : Tr F K Ts} {cfg : Cfg K} {new : Ts} {ctree : Tree}
    (H : Ready R T U l1 st st' a cx lims fuelP P fe fuelM o lit init2 init3 fuelI fuel rest S zi workers publics fixed) (hk : ∀ k ∈ U.evMap, KeyOk R T k)
    {r : Proof F Root Path K F3G × Ts}
    (h : starkGen mt tr encK cfg Ext3.asElements new (proverRounds R T st.nCm P cx U U.S init2 init3 mt lift3 val (publics.map ofF) fixed ctree) = some r) (tmp : List F3G) :
    genBuf mt tr cfg new S ctree (ctx0 R T S zi fixed publics tmp) = some r := by
  have HS := H.steps hk
  have hstart := H.start tmp
  obtain ⟨hset, -, -, -, hfw, hinfo⟩ := H.parts
  generalize hTA : argTrace R T st.nCm P cx U.S init2 init3 = TA at HS
  have hwid : ∀ t, TA.width t = T.width t := fun t => by rw [← hTA]; rfl
  have hnc : TA.nConst = T.nConst := by rw [← hTA]; rfl
  have hsz : ∀ t, 1 ≤ t → t ≤ 3 → SizeOk R.workers R.nb R.ext (T.width t) := fun t h1 h3 => by rw [← hwid, ← hTA]; exact H.wf.sizes.sec t h1 h3
  have hfixed := H.fixed
  rw [hTA] at hfixed
  unfold starkGen at h
  obtain ⟨cm, hcm, h⟩ := Option.bind_eq_some_iff.mp h
  unfold commit at hcm
  obtain ⟨t0, a0, hcm⟩ := Option.bind_eq_some_iff.mp hcm
  obtain ⟨tree1, a1, hcm⟩ := Option.bind_eq_some_iff.mp hcm
  obtain ⟨t1, a2, hcm⟩ := Option.bind_eq_some_iff.mp hcm
  obtain ⟨⟨u, t2⟩, a3, hcm⟩ := Option.bind_eq_some_iff.mp hcm
  dsimp only at hcm
  obtain ⟨⟨dv, t3⟩, a4, hcm⟩ := Option.bind_eq_some_iff.mp hcm
  dsimp only at hcm
  obtain ⟨tree2, a5, hcm⟩ := Option.bind_eq_some_iff.mp hcm
  obtain ⟨t4, a6, hcm⟩ := Option.bind_eq_some_iff.mp hcm
  obtain ⟨⟨ga, t5⟩, a7, hcm⟩ := Option.bind_eq_some_iff.mp hcm
  dsimp only at hcm
  obtain ⟨⟨be, t6⟩, a8, hcm⟩ := Option.bind_eq_some_iff.mp hcm
  dsimp only at hcm
  obtain ⟨tree3, a9, hcm⟩ := Option.bind_eq_some_iff.mp hcm
  obtain ⟨t7, a10, hcm⟩ := Option.bind_eq_some_iff.mp hcm
  obtain ⟨⟨vc, t8⟩, a11, hcm⟩ := Option.bind_eq_some_iff.mp hcm
  dsimp only at hcm
  obtain ⟨tree4, a12, hcm⟩ := Option.bind_eq_some_iff.mp hcm
  obtain ⟨t9, a13, hcm⟩ := Option.bind_eq_some_iff.mp hcm
  obtain ⟨⟨xi, t10⟩, a14, hcm⟩ := Option.bind_eq_some_iff.mp hcm
  dsimp only at hcm
  obtain ⟨evals, a15, hcm⟩ := Option.bind_eq_some_iff.mp hcm
  obtain ⟨t11, a16, hcm⟩ := Option.bind_eq_some_iff.mp hcm
  obtain ⟨⟨v1, t12⟩, a17, hcm⟩ := Option.bind_eq_some_iff.mp hcm
  dsimp only at hcm
  obtain ⟨⟨v2, t13⟩, a18, hcm⟩ := Option.bind_eq_some_iff.mp hcm
  dsimp only at hcm
  have hcm' := (Option.some.inj hcm).symm
  obtain ⟨pol, b1, h⟩ := Option.bind_eq_some_iff.mp h
  obtain ⟨⟨fri, t14⟩, b2, h⟩ := Option.bind_eq_some_iff.mp h
  subst hcm'
  dsimp only at b1 b2 h a3 a4 a7 a8 a11 a14 a17 a18
  -- the rounds
  have a1' : (extCells R TA (List.replicate 8 0) 1).bind (fun c => mt.merkelize c (T.width 1) (2 ^ (R.nb + R.ext))) = some tree1 := by rw [← hTA]; exact a1
  have a5' : (cm2Of R T st.nCm P cx init2 u dv).bind (fun _ => (extCells R TA [u, dv, 0, 0, 0, 0, 0, 0] 2).bind fun c => mt.merkelize c (T.width 2) (2 ^ (R.nb + R.ext))) = some tree2 := by
    rw [← hTA]; exact a5
  have a9' : (columns R T st.nCm P cx U.S init2 init3 u dv ga be).bind (fun _ => (extCells R TA [u, dv, ga, be, 0, 0, 0, 0] 3).bind fun c => mt.merkelize c (T.width 3) (2 ^ (R.nb + R.ext))) =
      some tree3 := by rw [← hTA]; exact a9
  have a12' : (cells1234 R U TA [u, dv, ga, be, vc, 0, 0, 0] fixed).bind (fun c => mt.merkelize (c 4) (R.qDim * U.qDeg) (2 ^ (R.nb + R.ext))) = some tree4 := by rw [← hTA]; exact a12
  have a15' : (cells1234 R U TA [u, dv, ga, be, vc, 0, 0, 0] fixed).bind (fun c => (openings R U TA [u, dv, ga, be, vc, 0, 0, xi] fixed c).map fun l => l.map lift3) = some evals := by
    rw [← hTA]; exact a15
  have b1' : (cells1234 R U TA [u, dv, ga, be, vc, 0, 0, 0] fixed).bind (fun c => friRows R U TA [u, dv, ga, be, vc, v1, v2, xi] (evals.map val) fixed c) = some pol := by rw [← hTA]; exact b1
  have a0' : putAll tr Ext3.asElements (publics.map ofF) new = some t0 := a0
  have h' : (if (fri.queries.head?.map fun q => q.pols.any List.isEmpty) = some true then none else
    some (⟨some (mt.root ctree), mt.root tree1, mt.root tree2, mt.root tree3, mt.root tree4, fri, evals, publics.map ofF⟩, t14)) = some r := h
  have b2' : prove mt tr encK cfg pol (fun i => (queryPol mt tree1 tree2 tree3 tree4 ctree i).getD []) t13 = some (fri, t14) := b2
  clear a0 a1 a5 a9 a12 a15 b1 b2 h hcm
  obtain ⟨x1', e1, m1⟩ := Option.bind_eq_some_iff.mp a1'
  obtain ⟨-, -, a5''⟩ := Option.bind_eq_some_iff.mp a5'
  obtain ⟨x2', e2, m2⟩ := Option.bind_eq_some_iff.mp a5''
  obtain ⟨⟨cb2, cb3⟩, hcols, a9''⟩ := Option.bind_eq_some_iff.mp a9'
  obtain ⟨x3', e3, m3⟩ := Option.bind_eq_some_iff.mp a9''
  obtain ⟨cells, e4, m4⟩ := Option.bind_eq_some_iff.mp a12'
  rw [e4, Option.bind_some] at a15' b1'
  obtain ⟨evs, e5, rfl⟩ := Option.map_eq_some_iff.mp a15'
  have hvl : (evs.map lift3).map val = evs := by
    rw [List.map_map]
    conv_rhs => rw [← List.map_id evs]
    exact List.map_congr_left fun v _ => lift3_val v
  rw [hvl] at b1'
  obtain ⟨cells0, e123, e4⟩ := Option.bind_eq_some_iff.mp e4
  obtain ⟨l4, e6, hcells⟩ := Option.map_eq_some_iff.mp e4
  have hc4 : cells 4 = l4 := by rw [← hcells]; rfl
  have hc0 : ∀ t, t ≠ 4 → cells t = cells0 t := fun t ht => by rw [← hcells]; exact if_neg ht
  obtain ⟨y1, f1, e123⟩ := Option.bind_eq_some_iff.mp e123
  obtain ⟨y2, f2, e123⟩ := Option.bind_eq_some_iff.mp e123
  obtain ⟨y3, f3, e123⟩ := Option.map_eq_some_iff.mp e123
  have g1 : cells0 1 = y1 := by rw [← e123]; rfl
  have g2 : cells0 2 = y2 := by rw [← e123]; rfl
  have g3 : cells0 3 = y3 := by rw [← e123]; rfl
  obtain rfl : x1' = y1 := Option.some.inj (e1.symm.trans ((Stark.extCells_congr R TA (fun i hi => by simp at hi)).trans f1))
  obtain rfl : x2' = y2 := Option.some.inj (e2.symm.trans ((Stark.extCells_congr R TA (fun i hi => by
    have hi : i < 2 := hi
    interval_cases i <;> rfl)).trans f2))
  obtain rfl : x3' = y3 := Option.some.inj (e3.symm.trans ((Stark.extCells_congr R TA (fun i hi => by
    have hi : i < 4 := hi
    interval_cases i <;> rfl)).trans f3))
  have hcl : ∀ t, 1 ≤ t → t ≤ 3 → extCells R TA [u, dv, ga, be, vc, 0, 0, 0] t = some (cells0 t) := by
    intro t h1 h3
    obtain rfl | rfl | rfl : t = 1 ∨ t = 2 ∨ t = 3 := by omega
    · rw [g1]; exact f1
    · rw [g2]; exact f2
    · rw [g3]; exact f3
  have hlen0 : ∀ t, 1 ≤ t → t ≤ 3 → (cells0 t).length = TA.width t * 2 ^ (R.nb + R.ext) := fun t h1 h3 => extCells_length (hcl t h1 h3)
  -- the first three rounds
  obtain ⟨c1, cn, c2, c3, c4, k1, k2, k3, k4, k5, hmid⟩ := rounds123 (mt := mt) (U := S) (more := [vc, 0, 0, 0]) H.circ hcols hstart H.side H.w1 H.w hset hfw hsz rfl rfl
    (fun t h1 h3 => by
      have hw : S.info.sectionsN (secN t) = T.width t := by rw [hinfo, H.circ.width t h1 h3]; rfl
      obtain rfl | rfl | rfl : t = 1 ∨ t = 2 ∨ t = 3 := by omega
      all_goals
        rw [← hw]
        exact List.length_replicate) (cells := cells0) (fun t h1 h3 => by rw [hTA]; exact hcl t h1 h3)
    (tree := fun t => if t = 1 then tree1 else if t = 2 then tree2 else tree3) (fun t h1 h3 => by
      obtain rfl | rfl | rfl : t = 1 ∨ t = 2 ∨ t = 3 := by omega
      · rw [g1]; exact m1
      · rw [g2]; exact m2
      · rw [g3]; exact m3)
  have hKm : ∀ x, x ∉ nSecs ++ [.challenge, .cm1_2ns, .cm2_2ns, .cm3_2ns] → c4.mem x = (ctx0 R T S zi fixed publics tmp).mem x := fun x hx => hmid.kept.mem x hx
  have hB3 : Bufs3 R U TA cells0 fixed [u, dv, ga, be] publics c4 := by
    refine ⟨hmid.kept.rest.1, hmid.kept.rest.2.1, hmid.mem, hlen0, ?_, constCells_length hfixed, ?_, ?_, hmid.chal, hmid.kept.rest.2.2.1, hmid.kept.rest.2.2.2.1, fun j => ?_, ?_, ?_, ?_⟩
    · rw [hKm _ (by decide)]; rfl
    · rw [hKm _ (by decide)]; rfl
    · rw [hKm _ (by decide)]; rfl
    · rw [hmid.kept.rest.2.2.2.2]; exact H.zi j
    · rw [hKm _ (by decide)]
      show (List.replicate (S.info.qDim * 2 ^ (R.nb + R.ext)) Ext3.ZERO).length = _
      rw [List.length_replicate, HS.lay.q, Nat.mul_comm]
    · rw [hKm _ (by decide)]
      show List.replicate (S.info.sectionsN .cm4_n * 2 ^ (R.nb + R.ext)) Ext3.ZERO = _
      have hw4 : S.info.sectionsN .cm4_n = R.qDim * U.qDeg := by
        have e := (Map.map_pos H.circ.map.map H.circ.map.nCm2).2.2 4 (by omega) (by omega)
        have e' := (HS.lay.width 4 (by omega) (by omega)).trans (if_pos rfl)
        rw [hinfo] at e' ⊢
        exact (show (o.info T.nConst).sectionsN .cm4_n = (o.info T.nConst).sectionsN (sec2 4) from e).trans e'
      rw [hw4]
    · rw [hKm _ (by decide)]
      show (List.replicate (3 * 2 ^ (R.nb + R.ext)) Ext3.ZERO).length = _
      rw [List.length_replicate, Nat.mul_comm]
  obtain ⟨c5, c6, c7, n1, n2, n3, n4, hK7, hm7, hch7, hl4⟩ := round4 (mt := mt) HS hB3 H.publics e6 (by rw [← hc4]; exact m4)
  have hm : ∀ x, x ≠ .challenge → x ≠ .q_2ns → x ≠ .cm4_2ns → c7.mem x = c4.mem x := fun x h1 h2 h3 => hK7.mem x (by simp [h1, h2, h3])
  have hE : ExtBufs R U TA S.info 4 cells fixed [] [] [] [] c7 := by
    refine ⟨hK7.rest.1.trans hB3.nbits, hK7.rest.2.1.trans hB3.nbitsExt, fun t h1 h4 => ?_, fun t h1 h4 => ?_, ?_, hB3.constSize, ?_, ?_, fun i v hv => by simp at hv, fun i v hv => by simp at hv, ?_, ?_,
      fun j => ?_⟩
    · by_cases h : t = 4
      · subst h
        rw [hc4]; exact hm7
      · obtain rfl | rfl | rfl : t = 1 ∨ t = 2 ∨ t = 3 := by omega
        all_goals
          rw [hm _ (by decide) (by decide) (by decide), hc0 _ (by omega)]
          exact hB3.mem _ (by omega) (by omega)
    · unfold width4
      by_cases h : t = 4
      · rw [if_pos h, h, hc4, hl4]
      · rw [if_neg h, hc0 t h]
        exact hlen0 t h1 (by omega)
    · rw [hm _ (by decide) (by decide) (by decide)]; exact hB3.constMem
    · rw [hm _ (by decide) (by decide) (by decide)]; exact hB3.x
    · exact rel_pub H.publics (by rw [hm _ (by decide) (by decide) (by decide)]; exact hB3.publics)
    · rw [hK7.rest.2.2.1, hB3.xXi]; rfl
    · rw [hK7.rest.2.2.2.1, hB3.xWXi]; rfl
    · rw [hK7.rest.2.2.2.2]; exact hB3.Zi j
  obtain ⟨c8, c9, c10, c11, c12, c13, p1, p2, p3, p4, p5, p6, p7, p8, p9, p10⟩ := round5 HS hE hch7 (by rw [hm _ (by decide) (by decide) (by decide)]; exact hB3.f)
    (chx := [u, dv, ga, be, vc, 0, 0, xi]) rfl e5 b1'
  have hp : c13.mem .publics = publics.map ofF := by rw [p10, hm _ (by decide) (by decide) (by decide), hB3.publics]
  -- the whole
  unfold genBuf
  refine Option.bind_eq_some_iff.mpr ⟨t0, a0', ?_⟩
  refine Option.bind_eq_some_iff.mpr ⟨(tree1, c1), k1, ?_⟩
  refine Option.bind_eq_some_iff.mpr ⟨t1, a2, ?_⟩
  refine Option.bind_eq_some_iff.mpr ⟨(u, t2), a3, ?_⟩
  refine Option.bind_eq_some_iff.mpr ⟨(dv, t3), a4, ?_⟩
  refine Option.bind_eq_some_iff.mpr ⟨cn, k2, ?_⟩
  refine Option.bind_eq_some_iff.mpr ⟨(tree2, c2), k3, ?_⟩
  refine Option.bind_eq_some_iff.mpr ⟨t4, a6, ?_⟩
  refine Option.bind_eq_some_iff.mpr ⟨(ga, t5), a7, ?_⟩
  refine Option.bind_eq_some_iff.mpr ⟨(be, t6), a8, ?_⟩
  refine Option.bind_eq_some_iff.mpr ⟨c3, k4, ?_⟩
  refine Option.bind_eq_some_iff.mpr ⟨(tree3, c4), k5, ?_⟩
  refine Option.bind_eq_some_iff.mpr ⟨t7, a10, ?_⟩
  refine Option.bind_eq_some_iff.mpr ⟨(vc, t8), a11, ?_⟩
  refine Option.bind_eq_some_iff.mpr ⟨c5, n1, ?_⟩
  refine Option.bind_eq_some_iff.mpr ⟨c6, n2, ?_⟩
  refine Option.bind_eq_some_iff.mpr ⟨c7, n3, ?_⟩
  refine Option.bind_eq_some_iff.mpr ⟨tree4, n4, ?_⟩
  refine Option.bind_eq_some_iff.mpr ⟨t9, a13, ?_⟩
  refine Option.bind_eq_some_iff.mpr ⟨(xi, t10), a14, ?_⟩
  refine Option.bind_eq_some_iff.mpr ⟨c8, p1, ?_⟩
  refine Option.bind_eq_some_iff.mpr ⟨c9, p2, ?_⟩
  refine Option.bind_eq_some_iff.mpr ⟨t11, by rw [p3]; exact a16, ?_⟩
  refine Option.bind_eq_some_iff.mpr ⟨(v1, t12), a17, ?_⟩
  refine Option.bind_eq_some_iff.mpr ⟨c10, p4, ?_⟩
  refine Option.bind_eq_some_iff.mpr ⟨(v2, t13), a18, ?_⟩
  refine Option.bind_eq_some_iff.mpr ⟨c11, p5, ?_⟩
  refine Option.bind_eq_some_iff.mpr ⟨c12, p6, ?_⟩
  refine Option.bind_eq_some_iff.mpr ⟨c13, p7, ?_⟩
  refine Option.bind_eq_some_iff.mpr ⟨pol, p8, ?_⟩
  refine Option.bind_eq_some_iff.mpr ⟨(fri, t14), b2', ?_⟩
  rw [p9, hp]
  exact h'

end

end Verif.Stage
