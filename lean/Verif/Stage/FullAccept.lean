import Verif.Stage.FullGen
import Verif.Stage.RoundsExample

/-!
# The proof of the prover on its buffers is accepted
-/
set_option linter.unusedSectionVars false

namespace Verif.Stage
open Codegen Codegen.Spec Verif.Stark ImPols ImPols.Spec FFT Fri Verif.Grand
open Verif.GL (F)
open Verif.Ext3 (F3G K WF val ofF coord)
open Verif.Interp (Sec Info algF3 setWidth execInfo)
open Verif.Map (secN sec2 Out Rel fixProverCode tgtOf inOf layN)

noncomputable section

variable {R : Run} {T : Trace} {U : Stark.Setup K} {l1 : Option Nat} {st st' : PilSt K} {a : Args} {cx : ArgCtx} {lims : List Lim} {fuelP : Nat} {P : Progs}
    {fe : Expr K} {fuelM : Nat} {o : Out} {lit : K → F3G} {init2 init3 : FftP.Buf F} {fuelI fuel : Nat} {rest : List (Codegen.Code K) → List (Codegen.Instr K)}
    {S : Full} {zi : Nat → Option F3G} {workers : Nat} {publics : List F} {fixed : List F}

/-- every opened column exists, when the prover returns a proof of a circuit whose identities hold -/
theorem Ready.keys {Root Path Tree Ts : Type} {mt : MT F Root Path Tree} {tr : Tr F K Ts} {cfg : Cfg K} {new : Ts} {ctree : Tree}
    (H : Ready R T U l1 st st' a cx lims fuelP P fe fuelM o lit init2 init3 fuelI fuel rest S zi workers publics fixed) (hfuel : st'.exps.length < fuel)
    (hids : ∀ i < 2 ^ R.nb, ∀ id ∈ st.ids, ∃ d, Val (fieldOps K) st.exps (stageStore R T [] st.nCm i) d false (expE id) 0)
    {r : Proof F Root Path K F3G × Ts}
    (h : starkGen mt tr encK cfg Ext3.asElements new (proverRounds R T st.nCm P cx U U.S init2 init3 mt lift3 val (publics.map ofF) fixed ctree) = some r) :
    ∀ k ∈ U.evMap, KeyOk R T k := by
  unfold starkGen at h
  obtain ⟨cm, hcm, -⟩ := Option.bind_eq_some_iff.mp h
  unfold commit at hcm
  obtain ⟨t0, a0, hcm⟩ := Option.bind_eq_some_iff.mp hcm
  obtain ⟨tree1, a1, hcm⟩ := Option.bind_eq_some_iff.mp hcm
  obtain ⟨t1, a2, hcm⟩ := Option.bind_eq_some_iff.mp hcm
  obtain ⟨⟨u, t2⟩, a3, hcm⟩ := Option.bind_eq_some_iff.mp hcm
  dsimp only at hcm
  obtain ⟨⟨dv, t3⟩, a4, hcm⟩ := Option.bind_eq_some_iff.mp hcm
  dsimp only at hcm
  obtain ⟨tree2, a5, hcm⟩ := Option.bind_eq_some_iff.mp hcm
  obtain ⟨t4, a6, hcm⟩ := Option.bind_eq_some_iff.mp hcm
  obtain ⟨⟨ga, t5⟩, a7, hcm⟩ := Option.bind_eq_some_iff.mp hcm
  dsimp only at hcm
  obtain ⟨⟨be, t6⟩, a8, hcm⟩ := Option.bind_eq_some_iff.mp hcm
  dsimp only at hcm
  obtain ⟨tree3, a9, hcm⟩ := Option.bind_eq_some_iff.mp hcm
  obtain ⟨t7, a10, hcm⟩ := Option.bind_eq_some_iff.mp hcm
  obtain ⟨⟨vc, t8⟩, a11, -⟩ := Option.bind_eq_some_iff.mp hcm
  have a9' : (columns R T st.nCm P cx U.S init2 init3 u dv ga be).bind (fun _ => (rounds R U (argTrace R T st.nCm P cx U.S init2 init3) mt lift3 val (publics.map ofF) fixed ctree).tree3
      [u, dv, ga, be, 0, 0, 0, 0]) = some tree3 := a9
  obtain ⟨⟨b2, b3⟩, hb, -⟩ := Option.bind_eq_some_iff.mp a9'
  obtain ⟨cells, P', Pc, -, -, -, -, -, -, -, hk, -⟩ := Stark.prover_data H.wf H.fixed hfuel (columns_satisfy H.circ.circ hids hb [vc])
  exact hk

/-- **C104**, end to end: for every circuit with lookups, permutations and connections that is set up for the buffers, and every table that fulfils the relations of the PIL, `stark_gen` run on its
buffers with the compiled programs returns a proof that the verifier accepts, unless one of the challenges falls into a set of exceptions whose size is given. -/
theorem gen_accepted {perm : List F → List F} (hp : Linear.IsState perm) {mtWorkers : Nat} (hwk : 0 < mtWorkers)
    (H : Ready R T U l1 st st' a cx lims fuelP P fe fuelM o lit init2 init3 fuelI fuel rest S zi workers publics fixed)
    (hG : Committable GoodGL R U (argTrace R T st.nCm P cx U.S init2 init3)) (hfuel : st'.exps.length < fuel)
    (hrel : Fulfils (algebraMap F K) st a (2 ^ R.nb) (trCm R T []) (trFx R T) R.publics fun i => mgK R.nb ^ i) :
    ∃ (B : K → K → Finset K) (G : K → K → K → Finset K),
      (∀ u dv, (B u dv).card ≤ 2 ^ R.nb * a.permutations.length + 1) ∧
      (∀ u dv β, (G u dv β).card ≤ 2 * 2 ^ R.nb * a.plookups.length + 2 ^ R.nb * (a.connections.map fun c => c.pols.length).sum) ∧
      ∀ {nQueries : Nat} (_ : 0 < nQueries) (_ : nQueries < 2 ^ 32) {steps : List Nat}
        (_ : Decreasing (R.nb + R.ext) steps) (_ : GoodSteps GoodGL ((R.nb + R.ext) :: steps)) {ctree : MerkleGL.MT F}
        (_ : (glMT perm mtWorkers).merkelize fixed T.nConst (2 ^ (R.nb + R.ext)) = some ctree)
        (_ : ∀ u dv γ β vc, draws (glMT perm mtWorkers) (glTr perm) Ext3.asElements TranscriptGL.new
            (rounds R U (argTrace R T st.nCm P cx U.S init2 init3) (glMT perm mtWorkers) lift3 val (publics.map ofF) fixed ctree) = some [u, dv, γ, β, vc] →
          β ∉ B u dv ∧ γ ∉ G u dv β)
        (_ : ∀ cm, commit (glMT perm mtWorkers) (glTr perm) Ext3.asElements TranscriptGL.new
            (proverRounds R T st.nCm P cx U U.S init2 init3 (glMT perm mtWorkers) lift3 val (publics.map ofF) fixed ctree) = some cm →
          ∀ j < 2 ^ (R.nb + R.ext), xExt R j ≠ cm.chal.getD 7 0 ∧ xExt R j ≠ cm.chal.getD 7 0 * mgK R.nb),
      ∃ proof t', (∀ tmp, genBuf (glMT perm mtWorkers) (glTr perm) (R.cfg nQueries steps) TranscriptGL.new S ctree (ctx0 R T S zi fixed publics tmp) = some (proof, t')) ∧
        starkVerify (glMT perm mtWorkers) (glTr perm) encK ⟨algebraMap F K, coord⟩ (R.cfg nQueries steps) Ext3.asElements val TranscriptGL.new U.info
          ((glMT perm mtWorkers).root ctree) proof = some (true, t') := by
  obtain ⟨B, G, h1, h2, h3⟩ := args_accepted hp hwk H.circ.circ H.wf hG hfuel hrel
  refine ⟨B, G, h1, h2, ?_⟩
  intro nQueries hq hq2 steps hdec hgood ctree hct hd hxi
  have hpub : (publics.map ofF).map val = R.publics := by
    rw [H.publics, List.map_map]
    exact List.map_congr_left fun b _ => Map.RowsEx.val_ofF b
  obtain ⟨proof, t', g1, g2⟩ := h3 (ofK := lift3) lift3_val Ext3.asElements hpub hq hq2 hdec hgood H.fixed hct hd hxi
  exact ⟨proof, t', fun tmp => gen_refines H (H.keys hfuel (ids_of_fulfils H.circ.circ hrel.ids) g1) g1 tmp, g2⟩

end

end Verif.Stage
