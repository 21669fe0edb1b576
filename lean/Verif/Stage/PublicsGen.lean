import Verif.Stage.FullAccept
import Verif.Stage.Publics

/-!
# The prover with the public inputs it computes, starky/src/stark_gen.rs L193-555

`starkGenBuf` is `genBuf` preceded by the computation of the public inputs.
-/
set_option linter.unusedSectionVars false

namespace Verif.Stage
open Codegen Codegen.Spec Verif.Stark ImPols ImPols.Spec FFT Fri Verif.Grand
open Verif.GL (F)
open Verif.Ext3 (F3G K WF val ofF coord)
open Verif.Interp (Sec Info algF3 setWidth execInfo)
open Verif.Interp.Spec (nodeCol)
open Verif.Map (secN sec2 Out Rel fixProverCode tgtOf inOf layN)

noncomputable section

/-- `stark_gen`, stark_gen.rs L193-555, with the public inputs of L252-268; `codes` is `program.publics_code`, `pubs` is `starkinfo.publics`. -/
def starkGenBuf {Root Path Tree Ts : Type} (mt : MT F Root Path Tree) (tr : Tr F K Ts) (cfg : Cfg K) (new : Ts) (S : Full) (codes : List Code) (pubs : List Pub) (ctree : Tree) (c : Ctx) :
    Option (Proof F Root Path K F3G × Ts) :=
  (publicsBuf S.info codes pubs c).bind (genBuf mt tr cfg new S ctree)

/-- the columns of the trace come first in their rows -/
theorem map_trace {E : Type} {i : Map.In E} {fuel : Nat} {o : Out} (h : Map.map i fuel = some o) (hn2 : i.nCm2 = 2 * i.pu.length) {k : Nat} (hk : k < i.nCm1) :
    o.pos k = some ⟨1, k, 1⟩ := by
  obtain ⟨ds, es, -, -, C, -⟩ := Map.map_cols h hn2
  have hget : (Map.colList i ds es o.qDim)[k]? = some (1, 1) := by
    unfold Map.colList
    rw [List.getElem?_append_left (by simp; omega), List.getElem?_append_left (by simp; omega), List.getElem?_append_left (by simp; omega),
      List.getElem?_append_left (by simpa using hk), List.getElem?_replicate, if_pos hk]
  rw [(C.pos k 1 1 hget).1]
  have : (Map.colList i ds es o.qDim).take k = List.replicate k (1, 1) := by
    unfold Map.colList
    rw [List.take_append_of_le_length (by simp; omega), List.take_append_of_le_length (by simp; omega), List.take_append_of_le_length (by simp; omega),
      List.take_append_of_le_length (by simp; omega), List.take_replicate, min_eq_left hk.le]
  unfold Map.posC Map.startC
  rw [if_pos (.inl rfl), this]
  simp [Map.cntC, List.countP_replicate]

/-- the parser of numbers on base field elements -/
theorem lit_base {lit : K → F3G} (h1 : ∀ v, WF (lit v) ∧ val (lit v) = v) (h2 : ∀ b : F, (lit (algebraMap F K b)).dim = 1) (b : F) : lit (algebraMap F K b) = ofF b := by
  obtain ⟨h1, hv⟩ := h1 (algebraMap F K b)
  have hd := h2 b
  obtain ⟨x, hx⟩ : ∃ x, lit (algebraMap F K b) = ofF x := by
    generalize lit (algebraMap F K b) = y at h1 hd
    obtain ⟨y0, y1, y2, d⟩ := y
    rcases h1 with h | ⟨-, h, h'⟩ <;> dsimp only at h hd
    · omega
    · dsimp only at h'
      subst h h' hd
      exact ⟨y0, rfl⟩
  rw [hx, Map.RowsEx.val_ofF] at hv
  rw [hx, (algebraMap F K).injective hv]

theorem numBase_label {e : Expr K} (h : NumBase e) {l : Label K} (hl : Map.HasLabel l e) : (∀ v, l.value = some v → Base v) ∧ ∀ v, l.const_ = some v → Base v := by
  induction hl with
  | here => cases h with | mk h1 h2 _ => exact ⟨h1, h2⟩
  | child hm _ ih => cases h with | mk _ _ h3 => exact ih (h3 _ hm)

variable {R : Run} {T : Trace} {U : Stark.Setup K} {l1 : Option Nat} {st st' : PilSt K} {a : Args} {cx : ArgCtx} {lims : List Lim} {fuelP : Nat} {P : Progs}
    {fe : Expr K} {fuelM : Nat} {o : Out} {lit : K → F3G} {init2 init3 : FftP.Buf F} {fuelI fuel : Nat} {rest : List (Codegen.Code K) → List (Codegen.Instr K)}
    {S : Full} {zi : Nat → Option F3G} {workers : Nat} {publics : List F} {fixed : List F}

/-- the expressions of the circuit satisfy what the programs of the public inputs need -/
theorem Ready.plainExps (H : Ready R T U l1 st st' a cx lims fuelP P fe fuelM o lit init2 init3 fuelI fuel rest S zi workers publics fixed)
    (hnum : ∀ e ∈ st.exps, NumBase e) : PlainExps st.exps lit := by
  have hb : ∀ v : K, Base v → ∃ b, v = algebraMap F K b ∧ lit v = ofF b := by
    intro v hv
    obtain ⟨b, rfl⟩ := hv
    exact ⟨b, rfl, lit_base H.circ.litOk H.circ.lit1 b⟩
  intro e he l hl
  obtain ⟨j, hj⟩ := List.mem_iff_getElem?.mp he
  obtain ⟨L, post, -, pre, -, -, h4⟩ := Map.scoped_get H.circ.circ.sc hj
  refine ⟨((Map.sc_labels h4).2 l hl).2.2.2.1, fun p r v hr hty hv => ?_⟩
  obtain ⟨n1, n2⟩ := numBase_label (hnum e he) hl
  unfold Map.leafOf at hr
  cases ho : l.op <;> rw [ho] at hr <;> simp only [Option.map_eq_some_iff, Option.some.injEq, reduceCtorEq] at hr
  all_goals first
    | (obtain ⟨w, hw, rfl⟩ := hr; first | (cases hty; done) | (cases hv; first | exact hb _ (n1 _ hw) | exact hb _ (n2 _ hw)))
    | (subst hr; first | (cases hty; done) | (cases hv; exact hb _ ⟨0, (map_zero _).symm⟩))

/-- the buffers before the public inputs are computed -/
theorem Ready.rowCtx (H : Ready R T U l1 st st' a cx lims fuelP P fe fuelM o lit init2 init3 fuelI fuel rest S zi workers publics fixed) :
    RowCtx R.nb (T.width 1) st.nCm T.nConst T.cm1 T.fixed S.info (ctx0 R T S zi fixed [] []) := by
  obtain ⟨-, -, -, -, -, hinfo⟩ := H.parts
  have hw1 : o.lay.n .cm1_n = T.width 1 := (H.circ.width 1 (by omega) (by omega)).symm
  have hs := H.start []
  have hcnt : st.nCm ≤ R.nCm := by
    have := H.circ.circ.count
    omega
  have hle : st.nCm ≤ T.width 1 := by
    by_contra hlt
    have hk : st.nCm - 1 < st.nCm := by omega
    obtain ⟨c, h1, -, -, -, h5, -⟩ := H.circ.col (k := st.nCm - 1) (by omega)
    rw [H.circ.pos, map_trace H.circ.map.map H.circ.map.nCm2 hk] at h1
    obtain rfl := Option.some.inj h1
    dsimp only at h5
    omega
  refine ⟨rfl, fun r hr k hk => hs.cm1 r hr k (by omega), hs.const_, hs.x, fun k hk => ?_, by rw [hinfo]; exact hw1, by rw [hinfo]; rfl⟩
  obtain ⟨c, h1, h2, -⟩ := H.circ.col (k := k) (by omega)
  rw [H.circ.pos, map_trace H.circ.map.map H.circ.map.nCm2 hk] at h1
  obtain rfl := Option.some.inj h1
  rw [hinfo, h2]
  rfl

/-- **C105**, the prover with the public inputs it computes: if the expressions come first, the programs of the public inputs are generated, and the prover proceeds with the values of the public inputs. -/
theorem pubs_gen_partial (H : Ready R T U l1 st st' a cx lims fuelP P fe fuelM o lit init2 init3 fuelI fuel rest S zi workers publics fixed)
    (hnum : ∀ e ∈ st.exps, NumBase e) {pubs : List Pub} {fuelC : Nat} (hA : ArePubs st.exps fuelC R.nb (T.width 1) st.nCm T.nConst T.cm1 T.fixed pubs publics) (hF : ExpsFirst pubs) :
    ∃ codes, publicsCode st.exps fuelC lit pubs = some codes ∧ ∃ tmp, ∀ {Root Path Tree Ts : Type} (mt : MT F Root Path Tree) (tr : Tr F K Ts) (cfg : Cfg K) (new : Ts) (ctree : Tree),
      starkGenBuf mt tr cfg new S codes pubs ctree (ctx0 R T S zi fixed [] []) = genBuf mt tr cfg new S ctree (ctx0 R T S zi fixed publics tmp) := by
  obtain ⟨codes, h1, l, h2⟩ := publics_spec_partial (H.plainExps hnum) H.rowCtx hA hF
  refine ⟨codes, h1, l, fun mt tr cfg new ctree => ?_⟩
  unfold starkGenBuf
  rw [h2, Option.bind_some]
  congr 1
  unfold ctx0 initCtx
  dsimp only
  congr 1
  funext t
  cases t <;> simp

/-- **C105**, end to end: the public inputs computed by the prover are those of the accepted proof.  For every circuit that is set up for the buffers, whose public inputs that are values of expressions
come first, and every table that fulfils the relations of the PIL with the values of the public inputs, `stark_gen` computes these values, returns a proof that contains them, and the verifier accepts it,
unless one of the challenges falls into a set of exceptions whose size is given. -/
theorem pubs_accepted_partial {perm : List F → List F} (hp : Linear.IsState perm) {mtWorkers : Nat} (hwk : 0 < mtWorkers)
    (H : Ready R T U l1 st st' a cx lims fuelP P fe fuelM o lit init2 init3 fuelI fuel rest S zi workers publics fixed)
    (hG : Committable GoodGL R U (argTrace R T st.nCm P cx U.S init2 init3)) (hfuel : st'.exps.length < fuel)
    (hrel : Fulfils (algebraMap F K) st a (2 ^ R.nb) (trCm R T []) (trFx R T) R.publics fun i => mgK R.nb ^ i)
    (hnum : ∀ e ∈ st.exps, NumBase e) {pubs : List Pub} {fuelC : Nat} (hA : ArePubs st.exps fuelC R.nb (T.width 1) st.nCm T.nConst T.cm1 T.fixed pubs publics) (hF : ExpsFirst pubs) :
    ∃ codes, publicsCode st.exps fuelC lit pubs = some codes ∧
    ∃ (B : K → K → Finset K) (G : K → K → K → Finset K),
      (∀ u dv, (B u dv).card ≤ 2 ^ R.nb * a.permutations.length + 1) ∧
      (∀ u dv β, (G u dv β).card ≤ 2 * 2 ^ R.nb * a.plookups.length + 2 ^ R.nb * (a.connections.map fun c => c.pols.length).sum) ∧
      ∀ {nQueries : Nat} (_ : 0 < nQueries) (_ : nQueries < 2 ^ 32) {steps : List Nat}
        (_ : Decreasing (R.nb + R.ext) steps) (_ : GoodSteps GoodGL ((R.nb + R.ext) :: steps)) {ctree : MerkleGL.MT F}
        (_ : (glMT perm mtWorkers).merkelize fixed T.nConst (2 ^ (R.nb + R.ext)) = some ctree)
        (_ : ∀ u dv γ β vc, draws (glMT perm mtWorkers) (glTr perm) Ext3.asElements TranscriptGL.new
            (rounds R U (argTrace R T st.nCm P cx U.S init2 init3) (glMT perm mtWorkers) lift3 val (publics.map ofF) fixed ctree) = some [u, dv, γ, β, vc] →
          β ∉ B u dv ∧ γ ∉ G u dv β)
        (_ : ∀ cm, commit (glMT perm mtWorkers) (glTr perm) Ext3.asElements TranscriptGL.new
            (proverRounds R T st.nCm P cx U U.S init2 init3 (glMT perm mtWorkers) lift3 val (publics.map ofF) fixed ctree) = some cm →
          ∀ j < 2 ^ (R.nb + R.ext), xExt R j ≠ cm.chal.getD 7 0 ∧ xExt R j ≠ cm.chal.getD 7 0 * mgK R.nb),
      ∃ proof t', starkGenBuf (glMT perm mtWorkers) (glTr perm) (R.cfg nQueries steps) TranscriptGL.new S codes pubs ctree (ctx0 R T S zi fixed [] []) = some (proof, t') ∧
        proof.publics = publics.map ofF ∧
        starkVerify (glMT perm mtWorkers) (glTr perm) encK ⟨algebraMap F K, coord⟩ (R.cfg nQueries steps) Ext3.asElements val TranscriptGL.new U.info
          ((glMT perm mtWorkers).root ctree) proof = some (true, t') := by
  obtain ⟨codes, h1, tmp, h2⟩ := pubs_gen_partial H hnum hA hF
  refine ⟨codes, h1, ?_⟩
  obtain ⟨B, G, hB, hG', h3⟩ := args_accepted hp hwk H.circ.circ H.wf hG hfuel hrel
  refine ⟨B, G, hB, hG', ?_⟩
  intro nQueries hq hq2 steps hdec hgood ctree hct hd hxi
  have hpub : (publics.map ofF).map val = R.publics := by
    rw [H.publics, List.map_map]
    exact List.map_congr_left fun b _ => Map.RowsEx.val_ofF b
  obtain ⟨proof, t', g1, g2⟩ := h3 (ofK := lift3) lift3_val Ext3.asElements hpub hq hq2 hdec hgood H.fixed hct hd hxi
  refine ⟨proof, t', (h2 _ _ _ _ _).trans (gen_refines H (H.keys hfuel (ids_of_fulfils H.circ.circ hrel.ids) g1) g1 tmp), ?_, g2⟩
  unfold starkGen at g1
  obtain ⟨cm, -, g1⟩ := Option.bind_eq_some_iff.mp g1
  obtain ⟨pol, -, g1⟩ := Option.bind_eq_some_iff.mp g1
  obtain ⟨⟨fri, t⟩, -, g1⟩ := Option.bind_eq_some_iff.mp g1
  dsimp only at g1
  split at g1
  · cases g1
  · obtain ⟨rfl, -⟩ := Prod.mk.inj (Option.some.inj g1)
    rfl

end

end Verif.Stage
