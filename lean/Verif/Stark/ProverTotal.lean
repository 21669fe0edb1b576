import Verif.Stark.ProverComplete

/-!
# C75: the honest prover succeeds, and the verifier accepts

The prover of `Stark.Prover`, run with the Merkle trees and the transcript over Goldilocks, never fails on a satisfied trace.
-/
set_option linter.unusedSectionVars false

namespace Verif.Stark
open Fri FFT Codegen Codegen.Spec Polynomial Finset ImPols ImPols.Spec
open Verif.GL (F)
open Verif.Ext3 (K coord ξ)

noncomputable local instance : DecidableEq K := Classical.decEq _

variable {G A Root Path Tree T P : Type}

/-- the five challenges `u`, `defVal`, `gamma`, `beta`, `vc` the prover draws while it commits to the three sections of the
trace, stark_gen.rs L271-365 -/
def draws [Zero A] (mt : MT G Root Path Tree) (tr : Tr G A T) (els : P → List G) (new : T) (w : Rounds A P Tree) : Option (List A) :=
  (putAll tr els w.publics new).bind fun t =>
  w.tree1.bind fun tree1 =>
  (tr.put [mt.rootElems (mt.root tree1)] t).bind fun t =>
  (tr.getField t).bind fun (u, t) =>
  (tr.getField t).bind fun (defVal, t) =>
  (w.tree2 [u, defVal, 0, 0, 0, 0, 0, 0]).bind fun tree2 =>
  (tr.put [mt.rootElems (mt.root tree2)] t).bind fun t =>
  (tr.getField t).bind fun (gamma, t) =>
  (tr.getField t).bind fun (beta, t) =>
  (w.tree3 [u, defVal, gamma, beta, 0, 0, 0, 0]).bind fun tree3 =>
  (tr.put [mt.rootElems (mt.root tree3)] t).bind fun t =>
  (tr.getField t).map fun (vc, _) => [u, defVal, gamma, beta, vc]

theorem putAll_total {tr : Tr G A T} {I : T → Prop} (hT : tr.Total I) (els : P → List G) : ∀ (l : List P) (t : T), I t →
    ∃ t', putAll tr els l t = some t' ∧ I t'
  | [], t, h => ⟨t, rfl, h⟩
  | p :: l, t, h => by
    obtain ⟨t1, h1, h2⟩ := hT.put ((els p).map fun g => [g]) t h
    obtain ⟨t2, h3, h4⟩ := putAll_total hT els l t1 h2
    refine ⟨t2, ?_, h4⟩
    unfold putAll at h3 ⊢
    rw [List.foldlM_cons, h1]
    exact h3

/-- the commitment phase succeeds when every round does -/
theorem commit_total [Field A] {mt : MT G Root Path Tree} {tr : Tr G A T} {I : T → Prop} (hT : tr.Total I) (els : P → List G) {new : T}
    (hI : I new) (w : Rounds A P Tree) (h1 : ∃ t, w.tree1 = some t) (h2 : ∀ u dv, ∃ t, w.tree2 [u, dv, 0, 0, 0, 0, 0, 0] = some t)
    (h3 : ∀ u dv ga be, ∃ t, w.tree3 [u, dv, ga, be, 0, 0, 0, 0] = some t)
    (h4 : ∀ u dv ga be vc, draws mt tr els new w = some [u, dv, ga, be, vc] → (∃ t, w.tree4 [u, dv, ga, be, vc, 0, 0, 0] = some t) ∧
      ∀ xi, ∃ e, w.evals [u, dv, ga, be, vc, 0, 0, xi] = some e) :
    ∃ cm, commit mt tr els new w = some cm ∧ I cm.t ∧ draws mt tr els new w = some (cm.chal.take 5) := by
  obtain ⟨t0, a0, i0⟩ := putAll_total hT els w.publics new hI
  obtain ⟨tree1, a1⟩ := h1
  obtain ⟨t1, a2, i1⟩ := hT.put [mt.rootElems (mt.root tree1)] t0 i0
  obtain ⟨u, t2, a3, i2⟩ := hT.getField t1 i1
  obtain ⟨dv, t3, a4, i3⟩ := hT.getField t2 i2
  obtain ⟨tree2, a5⟩ := h2 u dv
  obtain ⟨t4, a6, i4⟩ := hT.put [mt.rootElems (mt.root tree2)] t3 i3
  obtain ⟨ga, t5, a7, i5⟩ := hT.getField t4 i4
  obtain ⟨be, t6, a8, i6⟩ := hT.getField t5 i5
  obtain ⟨tree3, a9⟩ := h3 u dv ga be
  obtain ⟨t7, a10, i7⟩ := hT.put [mt.rootElems (mt.root tree3)] t6 i6
  obtain ⟨vc, t8, a11, i8⟩ := hT.getField t7 i7
  have hdr : draws mt tr els new w = some [u, dv, ga, be, vc] := by
    unfold draws
    simp only [a0, a1, a2, a3, a4, a5, a6, a7, a8, a9, a10, a11, Option.bind_some, Option.map_some]
  obtain ⟨⟨tree4, a12⟩, h5⟩ := h4 u dv ga be vc hdr
  obtain ⟨t9, a13, i9⟩ := hT.put [mt.rootElems (mt.root tree4)] t8 i8
  obtain ⟨xi, t10, a14, i10⟩ := hT.getField t9 i9
  obtain ⟨ev, a15⟩ := h5 xi
  obtain ⟨t11, a16, i11⟩ := putAll_total hT els ev t10 i10
  obtain ⟨v1, t12, a17, i12⟩ := hT.getField t11 i11
  obtain ⟨v2, t13, a18, i13⟩ := hT.getField t12 i12
  refine ⟨⟨tree1, tree2, tree3, tree4, ev, [u, dv, ga, be, vc, v1, v2, xi], t13⟩, ?_, i13, hdr⟩
  unfold commit
  refine Option.bind_eq_some_iff.mpr ⟨_, a0, ?_⟩
  refine Option.bind_eq_some_iff.mpr ⟨_, a1, ?_⟩
  refine Option.bind_eq_some_iff.mpr ⟨_, a2, ?_⟩
  refine Option.bind_eq_some_iff.mpr ⟨_, a3, ?_⟩
  refine Option.bind_eq_some_iff.mpr ⟨_, a4, ?_⟩
  refine Option.bind_eq_some_iff.mpr ⟨_, a5, ?_⟩
  refine Option.bind_eq_some_iff.mpr ⟨_, a6, ?_⟩
  refine Option.bind_eq_some_iff.mpr ⟨_, a7, ?_⟩
  refine Option.bind_eq_some_iff.mpr ⟨_, a8, ?_⟩
  refine Option.bind_eq_some_iff.mpr ⟨_, a9, ?_⟩
  refine Option.bind_eq_some_iff.mpr ⟨_, a10, ?_⟩
  refine Option.bind_eq_some_iff.mpr ⟨_, a11, ?_⟩
  refine Option.bind_eq_some_iff.mpr ⟨_, a12, ?_⟩
  refine Option.bind_eq_some_iff.mpr ⟨_, a13, ?_⟩
  refine Option.bind_eq_some_iff.mpr ⟨_, a14, ?_⟩
  refine Option.bind_eq_some_iff.mpr ⟨_, a15, ?_⟩
  refine Option.bind_eq_some_iff.mpr ⟨_, a16, ?_⟩
  refine Option.bind_eq_some_iff.mpr ⟨_, a17, ?_⟩
  refine Option.bind_eq_some_iff.mpr ⟨_, a18, ?_⟩
  rfl

/-- the proof is produced when the commitments succeeded with honest values -/
theorem starkGen_total [Field A] [DecidableEq A] {mt : MT G Root Path Tree} {Good : Nat → Nat → Prop} (hM : mt.Total Good) {tr : Tr G A T} {I : T → Prop}
    (hT : tr.Total I) (hTo : tr.Ok) {E : Enc G A} (hE : EncOk E) (c : Cfg A) (h2 : (2 : A) ≠ 0) (hw : Roots c.mg c.inNbits)
    (hlt : c.inNbits < 32) (hpos : 0 < c.inNbits) (hq : 0 < c.nQueries) (hq2 : c.nQueries < 2 ^ 32) (hsi : c.shiftInv = c.shift⁻¹)
    (rest : List Nat) (hsteps : c.steps = c.inNbits :: rest) (hdec : Decreasing c.inNbits rest) (hgood : GoodSteps Good c.steps)
    {els : P → List G} {new : T} {w : Rounds A P Tree} {cm : Commit A P Tree T} (hcm : commit mt tr els new w = some cm) (hI : I cm.t)
    {pol : List A} (hpol : w.friPol cm.chal cm.evals = some pol) {e : Emb G A} {val : P → A} {info : VInfo A} {row : Nat → Nat → List G}
    {crow : Nat → List G} (H : Honest mt e c val info w cm pol row crow) :
    ∃ proof t', starkGen mt tr E c els new w = some (proof, t') := by
  obtain ⟨Fp, -, hlen, -⟩ := H.low
  obtain ⟨fri, t', h1, -⟩ := prove_total hM hT hTo hE c h2 hw hlt hpos hq hq2 hsi rest hsteps hdec hgood pol hlen
    (fun i => (queryPol mt cm.tree1 cm.tree2 cm.tree3 cm.tree4 w.constTree i).getD []) cm.t hI
  have hne : ¬ (fri.queries.head?.map fun q => q.pols.any List.isEmpty) = some true := by
    unfold prove at h1
    split_ifs at h1
    obtain ⟨⟨outs, t1⟩, -, h1⟩ := Option.bind_eq_some_iff.mp h1
    dsimp only at h1
    obtain ⟨nb0, h3, h1⟩ := Option.bind_eq_some_iff.mp h1
    obtain ⟨⟨ys, t2⟩, h4, h1⟩ := Option.bind_eq_some_iff.mp h1
    dsimp only at h1
    obtain ⟨qs, h5, h1⟩ := Option.map_eq_some_iff.mp h1
    obtain ⟨rfl, -⟩ := Prod.mk.inj h1
    rw [hsteps] at h3
    obtain rfl : c.inNbits = nb0 := by simpa using h3
    have hy := (hTo.perms_lt _ _ _ _ _ h4).2
    simp only [List.head?_cons, Option.map_some, Option.some.injEq, List.any_eq_true, not_exists, not_and]
    intro q hq
    obtain ⟨y, hy', rfl⟩ := List.mem_map.mp hq
    obtain ⟨p1, p2, p3, p4, pc, g, -⟩ := queryPol_ok H.tree1 H.tree2 H.tree3 H.tree4 H.const (hy y hy')
    rw [g]
    simp
  unfold starkGen
  rw [hcm, Option.bind_some, hpol, Option.bind_some, h1, Option.bind_some]
  simp only
  rw [if_neg hne]
  exact ⟨_, _, rfl⟩

/-- the constants can be extended and committed -/
theorem const_total {perm : List F → List F} (hp : Linear.IsState perm) {workers : Nat} (hwk : 0 < workers) {R : Run} {Tc : Trace}
    (hS : SizeOk R.workers R.nb R.ext Tc.nConst) (hG : GoodGL Tc.nConst (2 ^ (R.nb + R.ext))) :
    ∃ fixed ctree, constCells R Tc = some fixed ∧ (glMT perm workers).merkelize fixed Tc.nConst (2 ^ (R.nb + R.ext)) = some ctree := by
  obtain ⟨out, h1, -⟩ := sec_poly hS Tc.fixed fun _ => 0
  obtain ⟨ctree, hct, -⟩ := (glMT_total hp hwk).build (cellsOf out Tc.nConst (2 ^ (R.nb + R.ext))) Tc.nConst (2 ^ (R.nb + R.ext)) hG (by simp [cellsOf])
  exact ⟨_, ctree, by unfold constCells; rw [h1]; rfl, hct⟩

/-- **C75**, over Goldilocks with the code's Merkle tree, transcript and encoding, for every permutation in place of Poseidon:
for every well-formed circuit and every trace that satisfies its constraints for the challenges drawn while committing to it, the
prover returns a proof, and the verifier accepts it, unless the last challenge falls on the evaluation coset. -/
theorem stark_complete_GL {perm : List F → List F} (hp : Linear.IsState perm) {workers : Nat} (hwk : 0 < workers)
    {R : Run} {U : Setup K} {Tc : Trace} {exps : List (Expr K)} {ids : List Nat} {fuelI fuel : Nat}
    {rest : List (Code K) → List (Instr K)} (W : WellFormed R U Tc exps ids fuelI fuel rest) (hG : Committable GoodGL R U Tc)
    {ofK : K → P} {val : P → K} (hval : ∀ k, val (ofK k) = k) (els : P → List F) {publics : List P} (hpub : publics.map val = R.publics)
    {d : Nat} (hd : d < fuel) {nQueries : Nat} (hq : 0 < nQueries) (hq2 : nQueries < 2 ^ 32) {steps : List Nat}
    (hdec : Decreasing (R.nb + R.ext) steps) (hgood : GoodSteps GoodGL ((R.nb + R.ext) :: steps))
    {fixed : List F} (hfix : constCells R Tc = some fixed) {ctree : MerkleGL.MT F}
    (hct : (glMT perm workers).merkelize fixed Tc.nConst (2 ^ (R.nb + R.ext)) = some ctree)
    (hsat : ∀ ch, draws (glMT perm workers) (glTr perm) els TranscriptGL.new (rounds R U Tc (glMT perm workers) ofK val publics fixed ctree) = some ch →
      Satisfied R Tc exps ids U.S ch d)
    (hxi : ∀ cm, commit (glMT perm workers) (glTr perm) els TranscriptGL.new (rounds R U Tc (glMT perm workers) ofK val publics fixed ctree) = some cm →
      ∀ j < 2 ^ (R.nb + R.ext), xExt R j ≠ cm.chal.getD 7 0 ∧ xExt R j ≠ cm.chal.getD 7 0 * mgK R.nb) :
    ∃ proof t', starkGen (glMT perm workers) (glTr perm) encK (R.cfg nQueries steps) els TranscriptGL.new
        (rounds R U Tc (glMT perm workers) ofK val publics fixed ctree) = some (proof, t') ∧
      starkVerify (glMT perm workers) (glTr perm) encK ⟨algebraMap F K, coord⟩ (R.cfg nQueries steps) els val TranscriptGL.new U.info
        ((glMT perm workers).root ctree) proof = some (true, t') := by
  have hC := glMT_complete hp hwk
  have hM := glMT_total hp hwk
  have hT := glTr_total hp
  have hnb : R.nb + R.ext ≤ 32 := W.bits.le
  have hlt : R.nb < 32 := by have := W.bits; omega
  have hw3 : ∀ s, 1 ≤ s → s ≤ 3 → GoodGL (Tc.width s) (2 ^ (R.nb + R.ext)) := fun s h1 h3 => by
    rw [← width4_le (R := R) (U := U) (T := Tc) h3]; exact hG.sec s h1 (by omega)
  have htree : ∀ ch s, 1 ≤ s → s ≤ 3 → ∃ t, ((extCells R Tc ch s).bind fun c => (glMT perm workers).merkelize c (Tc.width s) (2 ^ (R.nb + R.ext))) = some t := by
    intro ch s h1 h3
    obtain ⟨cells, Pp, Pc, e1, -, e3, -⟩ := extend_all W.sizes hfix ch
    obtain ⟨tree, h4, -⟩ := hM.build (cells s) (Tc.width s) _ (hw3 s h1 h3) (e3 s h1 h3).1
    exact ⟨tree, by rw [e1 s h1 h3, Option.bind_some, h4]⟩
  obtain ⟨cm, hcm, hI, hdr⟩ := commit_total (mt := glMT perm workers) hT els TranscriptGL.new_inv
    (rounds R U Tc (glMT perm workers) ofK val publics fixed ctree)
    (htree _ 1 (by omega) (by omega)) (fun u dv => htree _ 2 (by omega) (by omega)) (fun u dv ga be => htree _ 3 (by omega) (by omega))
    (fun u dv ga be vc h => by
      obtain ⟨cells, Pp, Pc, -, -, -, x4, hOn, hOc, hdc, hkey, -, -⟩ := prover_data W hfix hd (hsat _ h)
      refine ⟨?_, fun xi => ?_⟩
      · obtain ⟨tree, h4, -⟩ := hM.build (cells 4) (R.qDim * U.qDeg) (2 ^ (R.nb + R.ext)) (hG.sec 4 (by omega) (by omega)) (hOn 4 (by omega) (by omega)).1.1
        refine ⟨tree, ?_⟩
        simp only [rounds]
        rw [x4, Option.bind_some, h4]
      · simp only [rounds]
        rw [show List.take 5 [u, dv, ga, be, vc, 0, 0, xi] ++ [0, 0, 0] = [u, dv, ga, be, vc, 0, 0, 0] from rfl, x4, Option.bind_some,
          openings_spec hnb hlt W.layout hOn hOc hdc hkey (ch := [u, dv, ga, be, vc, 0, 0, xi]) (xi := xi) rfl]
        exact ⟨_, rfl⟩)
  obtain ⟨pol, row, crow, hpol, H⟩ := honest W hfix hC hM hG hct hval hpub hcm hd (hsat _ hdr) (hxi cm hcm) nQueries steps
  have hpos : 0 < (R.cfg nQueries steps).inNbits := by
    have := W.sizes.fixed.nb0
    show 0 < R.nb + R.ext
    omega
  have hw : Roots (R.cfg nQueries steps).mg (R.cfg nQueries steps).inNbits := rootsK W.bits.le
  have hl : (R.cfg nQueries steps).inNbits < 32 := W.bits
  have hst : (R.cfg nQueries steps).steps = (R.cfg nQueries steps).inNbits :: steps := rfl
  have hdec' : Decreasing (R.cfg nQueries steps).inNbits steps := hdec
  have hgood' : GoodSteps GoodGL (R.cfg nQueries steps).steps := hgood
  obtain ⟨proof, t', hgen⟩ := starkGen_total hM hT glTr_ok encK_ok (R.cfg nQueries steps) two_neK hw hl hpos hq hq2 rfl steps hst hdec' hgood' hcm hI hpol H
  refine ⟨proof, t', hgen, ?_⟩
  refine stark_complete W hfix hC hM hG hct hval hpub glTr_ok els TranscriptGL.new hd nQueries steps hdec hgood ?_ proof t' hgen
  intro cm' hcm'
  rw [hcm] at hcm'
  obtain rfl := Option.some.inj hcm'
  exact ⟨hsat _ hdr, hxi cm hcm⟩

end Verif.Stark
