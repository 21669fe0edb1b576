import Verif.Grand.ColumnsTotal

/-!
# The prover with lookups, permutations and connections, end to end
-/
set_option linter.unusedSectionVars false

namespace Verif.Grand
open Codegen Codegen.Spec Stark ImPols ImPols.Spec FFT Fri
open Verif.GL (F)
open Verif.Ext3 (K coord)

/-- the commitments are those of the computed trace -/
theorem commit_prover {G A Ps Root Path Tree Ts : Type} [Field A] {mt : MT G Root Path Tree} {tr : Tr G A Ts} {els : Ps → List G} {new : Ts}
    {w w' : Rounds A Ps Tree} (e0 : w'.publics = w.publics) (e1 : w'.tree1 = w.tree1) (e4 : w'.tree4 = w.tree4) (e5 : w'.evals = w.evals)
    (h2 : ∀ u dv ga be vc, draws mt tr els new w = some [u, dv, ga, be, vc] → w'.tree2 [u, dv, 0, 0, 0, 0, 0, 0] = w.tree2 [u, dv, 0, 0, 0, 0, 0, 0] ∧
      w'.tree3 [u, dv, ga, be, 0, 0, 0, 0] = w.tree3 [u, dv, ga, be, 0, 0, 0, 0]) {cm : Commit A Ps Tree Ts}
    (h : commit mt tr els new w = some cm) : commit mt tr els new w' = some cm := by
  unfold commit at h
  obtain ⟨t0, a0, h⟩ := Option.bind_eq_some_iff.mp h
  obtain ⟨tree1, a1, h⟩ := Option.bind_eq_some_iff.mp h
  obtain ⟨t1, a2, h⟩ := Option.bind_eq_some_iff.mp h
  obtain ⟨⟨u, t2⟩, a3, h⟩ := Option.bind_eq_some_iff.mp h
  dsimp only at h
  obtain ⟨⟨dv, t3⟩, a4, h⟩ := Option.bind_eq_some_iff.mp h
  dsimp only at h
  obtain ⟨tree2, a5, h⟩ := Option.bind_eq_some_iff.mp h
  obtain ⟨t4, a6, h⟩ := Option.bind_eq_some_iff.mp h
  obtain ⟨⟨ga, t5⟩, a7, h⟩ := Option.bind_eq_some_iff.mp h
  dsimp only at h
  obtain ⟨⟨be, t6⟩, a8, h⟩ := Option.bind_eq_some_iff.mp h
  dsimp only at h
  obtain ⟨tree3, a9, h⟩ := Option.bind_eq_some_iff.mp h
  obtain ⟨t7, a10, h⟩ := Option.bind_eq_some_iff.mp h
  obtain ⟨⟨vc, t8⟩, a11, h⟩ := Option.bind_eq_some_iff.mp h
  dsimp only at h
  have a5' : w.tree2 [u, dv, 0, 0, 0, 0, 0, 0] = some tree2 := a5
  have a9' : w.tree3 [u, dv, ga, be, 0, 0, 0, 0] = some tree3 := a9
  have hdr : draws mt tr els new w = some [u, dv, ga, be, vc] := by
    unfold draws
    simp only [a0, a1, a2, a3, a4, a5', a6, a7, a8, a9', a10, a11, Option.bind_some, Option.map_some]
  obtain ⟨b2, b3⟩ := h2 u dv ga be vc hdr
  unfold commit
  refine Option.bind_eq_some_iff.mpr ⟨t0, by rw [e0]; exact a0, ?_⟩
  refine Option.bind_eq_some_iff.mpr ⟨tree1, by rw [e1]; exact a1, ?_⟩
  refine Option.bind_eq_some_iff.mpr ⟨t1, a2, ?_⟩
  refine Option.bind_eq_some_iff.mpr ⟨(u, t2), a3, ?_⟩
  refine Option.bind_eq_some_iff.mpr ⟨(dv, t3), a4, ?_⟩
  refine Option.bind_eq_some_iff.mpr ⟨tree2, b2.trans a5', ?_⟩
  refine Option.bind_eq_some_iff.mpr ⟨t4, a6, ?_⟩
  refine Option.bind_eq_some_iff.mpr ⟨(ga, t5), a7, ?_⟩
  refine Option.bind_eq_some_iff.mpr ⟨(be, t6), a8, ?_⟩
  refine Option.bind_eq_some_iff.mpr ⟨tree3, b3.trans a9', ?_⟩
  refine Option.bind_eq_some_iff.mpr ⟨t7, a10, ?_⟩
  refine Option.bind_eq_some_iff.mpr ⟨(vc, t8), a11, ?_⟩
  rw [e4, e5]
  exact h

variable {R : Run} {T : Trace} {l1 : Option Nat} {st st' : PilSt K} {a : Args} {cx : ArgCtx} {lims : List Lim} {fuelP : Nat} {Pg : Progs}

theorem commit_columns {Ps Root Path Tree Ts : Type} {mt : MT F Root Path Tree} {tr : Tr F K Ts} {els : Ps → List F} {new : Ts} {U : Setup K}
    {init2 init3 : FftP.Buf F} {ofK : K → Ps} {val : Ps → K} {publics : List Ps} {fixed : List F} {ctree : Tree}
    (hcol : ∀ u dv ga be vc, draws mt tr els new (rounds R U (argTrace R T st.nCm Pg cx U.S init2 init3) mt ofK val publics fixed ctree) =
      some [u, dv, ga, be, vc] → ∃ b, columns R T st.nCm Pg cx U.S init2 init3 u dv ga be = some b) {cm : Commit K Ps Tree Ts}
    (hcm : commit mt tr els new (rounds R U (argTrace R T st.nCm Pg cx U.S init2 init3) mt ofK val publics fixed ctree) = some cm) :
    commit mt tr els new (proverRounds R T st.nCm Pg cx U U.S init2 init3 mt ofK val publics fixed ctree) = some cm := by
  refine commit_prover (w := rounds R U (argTrace R T st.nCm Pg cx U.S init2 init3) mt ofK val publics fixed ctree)
    (w' := proverRounds R T st.nCm Pg cx U U.S init2 init3 mt ofK val publics fixed ctree) rfl rfl rfl rfl (fun u dv ga be vc hd => ?_) hcm
  obtain ⟨⟨b2, b3⟩, hb⟩ := hcol u dv ga be vc hd
  obtain ⟨h2, -⟩ := columns_split hb
  refine ⟨?_, ?_⟩
  · show (cm2Of R T st.nCm Pg cx init2 u dv).bind _ = _
    rw [h2]; rfl
  · show (columns R T st.nCm Pg cx U.S init2 init3 u dv ga be).bind _ = _
    rw [hb]; rfl

/-- The rounds of the prover that computes its columns agree with the rounds for the computed trace as long as the computation does not panic. -/
theorem starkGen_prover {Ps Root Path Tree Ts : Type} {mt : MT F Root Path Tree} {tr : Tr F K Ts} {els : Ps → List F} {new : Ts} {U : Setup K}
    {init2 init3 : FftP.Buf F} {ofK : K → Ps} {val : Ps → K} {publics : List Ps} {fixed : List F} {ctree : Tree} {E : Enc F K} {c : Cfg K}
    (hcol : ∀ u dv ga be vc, draws mt tr els new (rounds R U (argTrace R T st.nCm Pg cx U.S init2 init3) mt ofK val publics fixed ctree) =
      some [u, dv, ga, be, vc] → ∃ b, columns R T st.nCm Pg cx U.S init2 init3 u dv ga be = some b)
    {r : Proof F Root Path K Ps × Ts}
    (h : starkGen mt tr E c els new (rounds R U (argTrace R T st.nCm Pg cx U.S init2 init3) mt ofK val publics fixed ctree) = some r) :
    starkGen mt tr E c els new (proverRounds R T st.nCm Pg cx U U.S init2 init3 mt ofK val publics fixed ctree) = some r := by
  unfold starkGen at h ⊢
  obtain ⟨cm, hcm, h⟩ := Option.bind_eq_some_iff.mp h
  refine Option.bind_eq_some_iff.mpr ⟨cm, ?_, h⟩
  exact commit_columns hcol hcm

/-- the identities of the PIL, on the first round -/
theorem ids_of_fulfils {S : Finset Nat} (C : ArgCircuit R T S l1 st st' a cx lims fuelP Pg)
    (h : Holds st (2 ^ R.nb) (sections st.nCm st.nCm (trCm R T []) (fun _ _ => none) fun _ _ => none) (trFx R T) R.publics [] fun i => mgK R.nb ^ i) :
    ∀ i < 2 ^ R.nb, ∀ id ∈ st.ids, ∃ d, Val (fieldOps K) st.exps (stageStore R T [] st.nCm i) d false (expE id) 0 := by
  intro i hi id hid
  obtain ⟨d, hv⟩ := h i hi id hid
  refine ⟨d, ?_⟩
  rw [stage_rows, stage_sections C rfl rfl [] (le_refl _)]
  have e : sections st.nCm st.nCm (trCm R T []) (trCm R T []) (fun _ _ => none) =
      sections st.nCm st.nCm (trCm R T []) (fun _ _ => none) (fun _ _ => (none : Option K)) := by
    funext k r
    unfold sections
    by_cases g : k < st.nCm
    · rw [if_pos g, if_pos g]
    · rw [if_neg g, if_neg g, if_neg g, if_neg g]
  rw [e]
  exact hv

/-- **C84**, end to end: if the identities of the PIL hold for the first round and the computation of the columns does not panic for the challenges that
are drawn, the prover returns a proof and the verifier accepts it (unless the last challenge falls on the evaluation coset). -/
theorem columns_accepted {perm : List F → List F} (hp : Linear.IsState perm) {workers : Nat} (hwk : 0 < workers) {U : Setup K}
    (C : ArgCircuit R T U.S l1 st st' a cx lims fuelP Pg) {init2 init3 : FftP.Buf F} {fuelI fuel : Nat} {rest : List (Code K) → List (Instr K)}
    (W : WellFormed R U (argTrace R T st.nCm Pg cx U.S init2 init3) st'.exps st'.ids fuelI fuel rest)
    (hG : Committable GoodGL R U (argTrace R T st.nCm Pg cx U.S init2 init3)) (hfuel : st'.exps.length < fuel)
    (hids : ∀ i < 2 ^ R.nb, ∀ id ∈ st.ids, ∃ d, Val (fieldOps K) st.exps (stageStore R T [] st.nCm i) d false (expE id) 0)
    {Ps : Type} {ofK : K → Ps} {val : Ps → K} (hval : ∀ k, val (ofK k) = k) (els : Ps → List F) {publics : List Ps} (hpub : publics.map val = R.publics)
    {nQueries : Nat} (hq : 0 < nQueries) (hq2 : nQueries < 2 ^ 32) {steps : List Nat}
    (hdec : Decreasing (R.nb + R.ext) steps) (hgood : GoodSteps GoodGL ((R.nb + R.ext) :: steps))
    {fixed : List F} (hfix : constCells R (argTrace R T st.nCm Pg cx U.S init2 init3) = some fixed) {ctree : MerkleGL.MT F}
    (hct : (glMT perm workers).merkelize fixed T.nConst (2 ^ (R.nb + R.ext)) = some ctree)
    (hc : ∀ u dv ga be vc, draws (glMT perm workers) (glTr perm) els TranscriptGL.new
        (rounds R U (argTrace R T st.nCm Pg cx U.S init2 init3) (glMT perm workers) ofK val publics fixed ctree) = some [u, dv, ga, be, vc] →
      ∃ b, columns R T st.nCm Pg cx U.S init2 init3 u dv ga be = some b)
    (hxi : ∀ cm, commit (glMT perm workers) (glTr perm) els TranscriptGL.new
        (proverRounds R T st.nCm Pg cx U U.S init2 init3 (glMT perm workers) ofK val publics fixed ctree) = some cm →
      ∀ j < 2 ^ (R.nb + R.ext), xExt R j ≠ cm.chal.getD 7 0 ∧ xExt R j ≠ cm.chal.getD 7 0 * mgK R.nb) :
    ∃ proof t', starkGen (glMT perm workers) (glTr perm) encK (R.cfg nQueries steps) els TranscriptGL.new
        (proverRounds R T st.nCm Pg cx U U.S init2 init3 (glMT perm workers) ofK val publics fixed ctree) = some (proof, t') ∧
      starkVerify (glMT perm workers) (glTr perm) encK ⟨algebraMap F K, coord⟩ (R.cfg nQueries steps) els val TranscriptGL.new U.info
        ((glMT perm workers).root ctree) proof = some (true, t') := by
  obtain ⟨proof, t', g1, g2⟩ := stark_complete_GL hp hwk W hG hval els hpub hfuel hq hq2 hdec hgood hfix hct (fun ch hd => by
      have hl : ∃ u dv ga be vc, ch = [u, dv, ga, be, vc] := by
        unfold draws at hd
        obtain ⟨_, -, hd⟩ := Option.bind_eq_some_iff.mp hd
        obtain ⟨_, -, hd⟩ := Option.bind_eq_some_iff.mp hd
        obtain ⟨_, -, hd⟩ := Option.bind_eq_some_iff.mp hd
        obtain ⟨_, -, hd⟩ := Option.bind_eq_some_iff.mp hd
        obtain ⟨_, -, hd⟩ := Option.bind_eq_some_iff.mp hd
        obtain ⟨_, -, hd⟩ := Option.bind_eq_some_iff.mp hd
        obtain ⟨_, -, hd⟩ := Option.bind_eq_some_iff.mp hd
        obtain ⟨_, -, hd⟩ := Option.bind_eq_some_iff.mp hd
        obtain ⟨_, -, hd⟩ := Option.bind_eq_some_iff.mp hd
        obtain ⟨_, -, hd⟩ := Option.bind_eq_some_iff.mp hd
        obtain ⟨_, -, hd⟩ := Option.bind_eq_some_iff.mp hd
        obtain ⟨_, -, hd⟩ := Option.map_eq_some_iff.mp hd
        exact ⟨_, _, _, _, _, hd.symm⟩
      obtain ⟨u, dv, ga, be, vc, rfl⟩ := hl
      obtain ⟨⟨b2, b3⟩, hb⟩ := hc u dv ga be vc hd
      exact columns_satisfy C hids hb [vc]) (fun cm hcm => hxi cm (commit_columns hc hcm))
  exact ⟨proof, t', starkGen_prover hc g1, g2⟩

/-- **C85.**  The prover that computes the lookup columns with `calculate_H1H2`, the grand products with `calculate_Z` and the intermediate polynomials
with the generated programs, over Goldilocks with the code's Merkle tree, transcript and encoding: for every circuit with lookups, permutations and
connections and every table that fulfils the relations of the PIL, the prover returns a proof and the verifier accepts it, unless one of the
challenges falls into a set of exceptions whose size is given. -/
theorem args_accepted {perm : List F → List F} (hp : Linear.IsState perm) {workers : Nat} (hwk : 0 < workers) {U : Setup K}
    (C : ArgCircuit R T U.S l1 st st' a cx lims fuelP Pg) {init2 init3 : FftP.Buf F} {fuelI fuel : Nat} {rest : List (Code K) → List (Instr K)}
    (W : WellFormed R U (argTrace R T st.nCm Pg cx U.S init2 init3) st'.exps st'.ids fuelI fuel rest)
    (hG : Committable GoodGL R U (argTrace R T st.nCm Pg cx U.S init2 init3)) (hfuel : st'.exps.length < fuel)
    (hrel : Fulfils (algebraMap F K) st a (2 ^ R.nb) (trCm R T []) (trFx R T) R.publics fun i => mgK R.nb ^ i) :
    ∃ (B : K → K → Finset K) (G : K → K → K → Finset K),
      (∀ u dv, (B u dv).card ≤ 2 ^ R.nb * a.permutations.length + 1) ∧
      (∀ u dv β, (G u dv β).card ≤ 2 * 2 ^ R.nb * a.plookups.length + 2 ^ R.nb * (a.connections.map fun c => c.pols.length).sum) ∧
      ∀ {Ps : Type} {ofK : K → Ps} {val : Ps → K} (_ : ∀ k, val (ofK k) = k) (els : Ps → List F) {publics : List Ps} (_ : publics.map val = R.publics)
        {nQueries : Nat} (_ : 0 < nQueries) (_ : nQueries < 2 ^ 32) {steps : List Nat}
        (_ : Decreasing (R.nb + R.ext) steps) (_ : GoodSteps GoodGL ((R.nb + R.ext) :: steps))
        {fixed : List F} (_ : constCells R (argTrace R T st.nCm Pg cx U.S init2 init3) = some fixed) {ctree : MerkleGL.MT F}
        (_ : (glMT perm workers).merkelize fixed T.nConst (2 ^ (R.nb + R.ext)) = some ctree)
        (_ : ∀ u dv γ β vc, draws (glMT perm workers) (glTr perm) els TranscriptGL.new
            (rounds R U (argTrace R T st.nCm Pg cx U.S init2 init3) (glMT perm workers) ofK val publics fixed ctree) = some [u, dv, γ, β, vc] →
          β ∉ B u dv ∧ γ ∉ G u dv β)
        (_ : ∀ cm, commit (glMT perm workers) (glTr perm) els TranscriptGL.new
            (proverRounds R T st.nCm Pg cx U U.S init2 init3 (glMT perm workers) ofK val publics fixed ctree) = some cm →
          ∀ j < 2 ^ (R.nb + R.ext), xExt R j ≠ cm.chal.getD 7 0 ∧ xExt R j ≠ cm.chal.getD 7 0 * mgK R.nb),
      ∃ proof t', starkGen (glMT perm workers) (glTr perm) encK (R.cfg nQueries steps) els TranscriptGL.new
          (proverRounds R T st.nCm Pg cx U U.S init2 init3 (glMT perm workers) ofK val publics fixed ctree) = some (proof, t') ∧
        starkVerify (glMT perm workers) (glTr perm) encK ⟨algebraMap F K, coord⟩ (R.cfg nQueries steps) els val TranscriptGL.new U.info
          ((glMT perm workers).root ctree) proof = some (true, t') := by
  classical
  have hex : ∀ u dv, ∃ (B : Finset K) (G : K → Finset K), B.card ≤ 2 ^ R.nb * a.permutations.length + 1 ∧
      (∀ β, (G β).card ≤ 2 * 2 ^ R.nb * a.plookups.length + 2 ^ R.nb * (a.connections.map fun c => c.pols.length).sum) ∧
      ∀ β ∉ B, ∀ γ ∉ G β, ∃ b, columns R T st.nCm Pg cx U.S init2 init3 u dv γ β = some b := by
    intro u dv
    obtain ⟨B, hB, h⟩ := columns_exist C hrel init2 init3 u dv
    have h' : ∀ β, ∃ G : Finset K, G.card ≤ 2 * 2 ^ R.nb * a.plookups.length + 2 ^ R.nb * (a.connections.map fun c => c.pols.length).sum ∧
        (β ∉ B → ∀ γ ∉ G, ∃ b, columns R T st.nCm Pg cx U.S init2 init3 u dv γ β = some b) := by
      intro β
      by_cases hb : β ∈ B
      · exact ⟨∅, by simp, fun h => absurd hb h⟩
      · obtain ⟨G, hG, h⟩ := h β hb
        exact ⟨G, hG, fun _ γ hγ => by obtain ⟨b2, b3, h⟩ := h γ hγ; exact ⟨_, h⟩⟩
    choose G hG hc using h'
    exact ⟨B, G, hB, hG, hc⟩
  choose B G hB hGc hcol using hex
  refine ⟨B, G, hB, hGc, ?_⟩
  intro Ps ofK val hval els publics hpub nQueries hq hq2 steps hdec hgood fixed hfix ctree hct hch hxi
  exact columns_accepted hp hwk C W hG hfuel (ids_of_fulfils C hrel.ids) hval els hpub hq hq2 hdec hgood hfix hct (fun u dv ga be vc h =>
    hcol u dv be (hch u dv ga be vc h).1 ga (hch u dv ga be vc h).2) hxi

end Verif.Grand
