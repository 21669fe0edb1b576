import Verif.Stark.Protocol
import Verif.Fri.Props

/-!
# C43, C71: the prover and the verifier of the STARK protocol agree
-/
set_option linter.unusedSectionVars false

namespace Verif.Stark
open Fri FFT Polynomial

variable {G A P Root Path Tree T : Type} [Field A] [DecidableEq A]

/-- **C43**: on the proof the prover is about to emit (its four roots, openings and publics), the verifier draws exactly the
eight challenges the prover used, and hands FRI the transcript in exactly the state in which the prover starts FRI. -/
theorem challenges_agree {mt : MT G Root Path Tree} {tr : Tr G A T} {els : P → List G} {new : T} {w : Rounds A P Tree}
    {cm : Commit A P Tree T} (h : commit mt tr els new w = some cm) (rc : Option Root) (fri : FriProof G Root Path A) :
    verChallenges mt tr els new ⟨rc, mt.root cm.tree1, mt.root cm.tree2, mt.root cm.tree3, mt.root cm.tree4, fri, cm.evals,
      w.publics⟩ = some (cm.chal, cm.t) := by
  unfold commit at h
  obtain ⟨t0, h0, h⟩ := Option.bind_eq_some_iff.mp h
  obtain ⟨tree1, h1, h⟩ := Option.bind_eq_some_iff.mp h
  obtain ⟨t1, h2, h⟩ := Option.bind_eq_some_iff.mp h
  obtain ⟨⟨u, t2⟩, h3, h⟩ := Option.bind_eq_some_iff.mp h
  dsimp only at h
  obtain ⟨⟨dv, t3⟩, h4, h⟩ := Option.bind_eq_some_iff.mp h
  dsimp only at h
  obtain ⟨tree2, h5, h⟩ := Option.bind_eq_some_iff.mp h
  obtain ⟨t4, h6, h⟩ := Option.bind_eq_some_iff.mp h
  obtain ⟨⟨ga, t5⟩, h7, h⟩ := Option.bind_eq_some_iff.mp h
  dsimp only at h
  obtain ⟨⟨be, t6⟩, h8, h⟩ := Option.bind_eq_some_iff.mp h
  dsimp only at h
  obtain ⟨tree3, h9, h⟩ := Option.bind_eq_some_iff.mp h
  obtain ⟨t7, h10, h⟩ := Option.bind_eq_some_iff.mp h
  obtain ⟨⟨vc, t8⟩, h11, h⟩ := Option.bind_eq_some_iff.mp h
  dsimp only at h
  obtain ⟨tree4, h12, h⟩ := Option.bind_eq_some_iff.mp h
  obtain ⟨t9, h13, h⟩ := Option.bind_eq_some_iff.mp h
  obtain ⟨⟨xi, t10⟩, h14, h⟩ := Option.bind_eq_some_iff.mp h
  dsimp only at h
  obtain ⟨evals, h15, h⟩ := Option.bind_eq_some_iff.mp h
  obtain ⟨t11, h16, h⟩ := Option.bind_eq_some_iff.mp h
  obtain ⟨⟨v1, t12⟩, h17, h⟩ := Option.bind_eq_some_iff.mp h
  dsimp only at h
  obtain ⟨⟨v2, t13⟩, h18, h⟩ := Option.bind_eq_some_iff.mp h
  obtain rfl := Option.some.inj h
  unfold verChallenges
  simp only [h0, h2, h3, h4, h6, h7, h8, h10, h11, h13, h14, h16, h17, h18, Option.bind_some, Option.map_some]

/-- what a successful commitment phase consists of: the eight challenges, and which of them each round has seen -/
theorem commit_spec {mt : MT G Root Path Tree} {tr : Tr G A T} {els : P → List G} {new : T} {w : Rounds A P Tree}
    {cm : Commit A P Tree T} (h : commit mt tr els new w = some cm) : ∃ u dv ga be vc xi v1 v2,
      cm.chal = [u, dv, ga, be, vc, v1, v2, xi] ∧ w.tree1 = some cm.tree1 ∧ w.tree2 [u, dv, 0, 0, 0, 0, 0, 0] = some cm.tree2 ∧
      w.tree3 [u, dv, ga, be, 0, 0, 0, 0] = some cm.tree3 ∧ w.tree4 [u, dv, ga, be, vc, 0, 0, 0] = some cm.tree4 ∧
      w.evals [u, dv, ga, be, vc, 0, 0, xi] = some cm.evals := by
  unfold commit at h
  obtain ⟨t0, h0, h⟩ := Option.bind_eq_some_iff.mp h
  obtain ⟨tree1, h1, h⟩ := Option.bind_eq_some_iff.mp h
  obtain ⟨t1, h2, h⟩ := Option.bind_eq_some_iff.mp h
  obtain ⟨⟨u, t2⟩, h3, h⟩ := Option.bind_eq_some_iff.mp h
  dsimp only at h
  obtain ⟨⟨dv, t3⟩, h4, h⟩ := Option.bind_eq_some_iff.mp h
  dsimp only at h
  obtain ⟨tree2, h5, h⟩ := Option.bind_eq_some_iff.mp h
  obtain ⟨t4, h6, h⟩ := Option.bind_eq_some_iff.mp h
  obtain ⟨⟨ga, t5⟩, h7, h⟩ := Option.bind_eq_some_iff.mp h
  dsimp only at h
  obtain ⟨⟨be, t6⟩, h8, h⟩ := Option.bind_eq_some_iff.mp h
  dsimp only at h
  obtain ⟨tree3, h9, h⟩ := Option.bind_eq_some_iff.mp h
  obtain ⟨t7, h10, h⟩ := Option.bind_eq_some_iff.mp h
  obtain ⟨⟨vc, t8⟩, h11, h⟩ := Option.bind_eq_some_iff.mp h
  dsimp only at h
  obtain ⟨tree4, h12, h⟩ := Option.bind_eq_some_iff.mp h
  obtain ⟨t9, h13, h⟩ := Option.bind_eq_some_iff.mp h
  obtain ⟨⟨xi, t10⟩, h14, h⟩ := Option.bind_eq_some_iff.mp h
  dsimp only at h
  obtain ⟨evals, h15, h⟩ := Option.bind_eq_some_iff.mp h
  obtain ⟨t11, h16, h⟩ := Option.bind_eq_some_iff.mp h
  obtain ⟨⟨v1, t12⟩, h17, h⟩ := Option.bind_eq_some_iff.mp h
  dsimp only at h
  obtain ⟨⟨v2, t13⟩, h18, h⟩ := Option.bind_eq_some_iff.mp h
  obtain rfl := Option.some.inj h
  exact ⟨u, dv, ga, be, vc, xi, v1, v2, rfl, h1, h5, h9, h12, h15⟩

/-- **C43**, for a finished proof: whenever `stark_gen` succeeds, the verifier's challenge phase on the emitted proof succeeds
with the eight challenges (`u`, `defVal`, `gamma`, `beta`, `vc`, `vf1`, `vf2`, `xi`) of the prover: each committed tree is the
one the prover built from the challenges drawn before its commitment, the openings are those for `xi`, the FRI polynomial is
computed from all eight, and FRI is run on the transcript state the verifier reaches. -/
theorem transcript_agreement {mt : MT G Root Path Tree} {tr : Tr G A T} {E : Enc G A} {c : Cfg A} {els : P → List G} {new : T}
    {w : Rounds A P Tree} {proof : Proof G Root Path A P} {t' : T} (h : starkGen mt tr E c els new w = some (proof, t')) :
    ∃ u dv ga be vc vf1 vf2 xi t, verChallenges mt tr els new proof = some ([u, dv, ga, be, vc, vf1, vf2, xi], t) ∧
      proof.publics = w.publics ∧ proof.rootC = some (mt.root w.constTree) ∧
      w.tree1.map mt.root = some proof.root1 ∧ (w.tree2 [u, dv, 0, 0, 0, 0, 0, 0]).map mt.root = some proof.root2 ∧
      (w.tree3 [u, dv, ga, be, 0, 0, 0, 0]).map mt.root = some proof.root3 ∧
      (w.tree4 [u, dv, ga, be, vc, 0, 0, 0]).map mt.root = some proof.root4 ∧
      w.evals [u, dv, ga, be, vc, 0, 0, xi] = some proof.evals ∧
      ∃ pol q0, w.friPol [u, dv, ga, be, vc, vf1, vf2, xi] proof.evals = some pol ∧
        prove mt tr E c pol q0 t = some (proof.fri, t') := by
  unfold starkGen at h
  obtain ⟨cm, h1, h⟩ := Option.bind_eq_some_iff.mp h
  obtain ⟨pol, h2, h⟩ := Option.bind_eq_some_iff.mp h
  obtain ⟨⟨fri, t⟩, h3, h⟩ := Option.bind_eq_some_iff.mp h
  dsimp only at h
  split_ifs at h
  obtain ⟨rfl, rfl⟩ := Prod.mk.inj (Option.some.inj h)
  obtain ⟨u, dv, ga, be, vc, xi, v1, v2, e, a1, a2, a3, a4, a5⟩ := commit_spec h1
  have hc := challenges_agree h1 (some (mt.root w.constTree)) fri
  rw [e] at hc h2
  exact ⟨u, dv, ga, be, vc, v1, v2, xi, cm.t, hc, rfl, rfl, by rw [a1]; rfl, by rw [a2]; rfl, by rw [a3]; rfl,
    by rw [a4]; rfl, a5, pol, _, h2, h3⟩

/-! ## C71: completeness -/

/-- a tree whose rows are `rows`: every index below `h` can be opened, the opening carries the row and verifies -/
def TreeOk (mt : MT G Root Path Tree) (tree : Tree) (rows : Nat → List G) (h : Nat) : Prop :=
  ∀ idx < h, ∃ path, mt.groupProof tree idx = some (rows idx, path) ∧ mt.verify (mt.root tree) path idx (rows idx) = some true

/-- What the values computed by an honest prover with challenges `chal` have to satisfy. -/
structure Honest (mt : MT G Root Path Tree) (e : Emb G A) (c : Cfg A) (val : P → A) (info : VInfo A) (w : Rounds A P Tree)
    (cm : Commit A P Tree T) (pol : List A) (row : Nat → Nat → List G) (crow : Nat → List G) : Prop where
  /-- the committed trees can be opened to their rows -/
  tree1 : TreeOk mt cm.tree1 (row 1) (2 ^ c.inNbits)
  tree2 : TreeOk mt cm.tree2 (row 2) (2 ^ c.inNbits)
  tree3 : TreeOk mt cm.tree3 (row 3) (2 ^ c.inNbits)
  tree4 : TreeOk mt cm.tree4 (row 4) (2 ^ c.inNbits)
  const : TreeOk mt w.constTree crow (2 ^ c.inNbits)
  /-- the constraint identity `C(xi) = Q(xi) * Z(xi)` holds on the openings -/
  identity : ∃ res qs, executeCode e (ctxConstraint (G := G) c.mg c.maxDegNbits cm.chal (cm.evals.map val) (w.publics.map val)) info.code
      = some res ∧ (info.qEv.mapM fun i => (cm.evals.map val)[i]?) = some qs ∧
      res = recombine (cm.chal.getD 7 0 ^ 2 ^ c.maxDegNbits) qs 1 0 * (cm.chal.getD 7 0 ^ 2 ^ c.maxDegNbits - 1)
  /-- `xi` and `w * xi` are not in the domain -/
  xi : ∀ idx < 2 ^ c.inNbits, queryPoint c.mg c.shift c.inNbits idx ≠ cm.chal.getD 7 0 ∧
    queryPoint c.mg c.shift c.inNbits idx ≠ cm.chal.getD 7 0 * c.mg c.maxDegNbits
  /-- the query code computes the FRI polynomial from the opened rows -/
  query : ∀ idx < 2 ^ c.inNbits, executeCode e (ctxQuery c.mg c.shift c.maxDegNbits c.inNbits cm.chal (cm.evals.map val)
    (w.publics.map val) (fun k => if k = 1 then row 1 idx else if k = 2 then row 2 idx else if k = 3 then row 3 idx else row 4 idx)
    (crow idx) idx) info.queryCode = some (pol.getD idx 0)
  /-- the FRI polynomial has low degree -/
  low : ∃ F : A[X], F.natDegree < 2 ^ c.maxDegNbits ∧ pol.length = 2 ^ c.inNbits ∧
    ∀ i < 2 ^ c.inNbits, pol.getD i 0 = F.eval (c.shift * c.mg c.inNbits ^ i)

theorem queryPol_ok {mt : MT G Root Path Tree} {t1 t2 t3 t4 tc : Tree} {row : Nat → Nat → List G} {crow : Nat → List G} {h idx : Nat}
    (h1 : TreeOk mt t1 (row 1) h) (h2 : TreeOk mt t2 (row 2) h) (h3 : TreeOk mt t3 (row 3) h) (h4 : TreeOk mt t4 (row 4) h)
    (hc : TreeOk mt tc crow h) (hi : idx < h) : ∃ p1 p2 p3 p4 pc,
      queryPol mt t1 t2 t3 t4 tc idx = some [(row 1 idx, p1), (row 2 idx, p2), (row 3 idx, p3), (row 4 idx, p4), (crow idx, pc)] ∧
      mt.verify (mt.root t1) p1 idx (row 1 idx) = some true ∧ mt.verify (mt.root t2) p2 idx (row 2 idx) = some true ∧
      mt.verify (mt.root t3) p3 idx (row 3 idx) = some true ∧ mt.verify (mt.root t4) p4 idx (row 4 idx) = some true ∧
      mt.verify (mt.root tc) pc idx (crow idx) = some true := by
  obtain ⟨p1, a1, b1⟩ := h1 idx hi
  obtain ⟨p2, a2, b2⟩ := h2 idx hi
  obtain ⟨p3, a3, b3⟩ := h3 idx hi
  obtain ⟨p4, a4, b4⟩ := h4 idx hi
  obtain ⟨pc, ac, bc⟩ := hc idx hi
  exact ⟨p1, p2, p3, p4, pc, by simp [queryPol, a1, a2, a3, a4, ac], b1, b2, b3, b4, bc⟩

/-- **C71** (completeness of the protocol): for every Merkle scheme, transcript and configuration, if `stark_gen` returns a
proof and the values it computed satisfy `Honest` (the constraint identity at `xi`, trees that open to their rows, the FRI
polynomial of degree below `N`, computed by the query code from the rows), then `stark_verify` accepts the proof, ending in the
same transcript state. -/
theorem completeness {mt : MT G Root Path Tree} {Good : Nat → Nat → Prop} (hC : mt.Complete Good) {tr : Tr G A T} (hT : tr.Ok)
    {E : Enc G A} (hE : EncOk E) (e : Emb G A) (c : Cfg A) (h2 : (2 : A) ≠ 0) (hw : Roots c.mg c.inNbits) (hlt : c.inNbits < 32)
    (hin : c.maxDegNbits ≤ c.inNbits) (hs : c.shift ≠ 0) (hsi : c.shiftInv = c.shift⁻¹)
    (rest : List Nat) (hsteps : c.steps = c.inNbits :: rest) (hdec : Decreasing c.inNbits rest) (hgood : GoodSteps Good c.steps)
    (els : P → List G) (val : P → A) (new : T) (info : VInfo A) (w : Rounds A P Tree) (proof : Proof G Root Path A P) (t' : T)
    (hgen : starkGen mt tr E c els new w = some (proof, t'))
    (hon : ∀ cm pol, commit mt tr els new w = some cm → w.friPol cm.chal cm.evals = some pol →
      ∃ row crow, Honest mt e c val info w cm pol row crow) :
    starkVerify mt tr E e c els val new info (mt.root w.constTree) proof = some (true, t') := by
  unfold starkGen at hgen
  obtain ⟨cm, h1, h⟩ := Option.bind_eq_some_iff.mp hgen
  obtain ⟨pol, h2', h⟩ := Option.bind_eq_some_iff.mp h
  obtain ⟨⟨fri, t⟩, h3, h⟩ := Option.bind_eq_some_iff.mp h
  dsimp only at h
  split_ifs at h
  obtain ⟨rfl, rfl⟩ := Prod.mk.inj (Option.some.inj h)
  obtain ⟨row, crow, H⟩ := hon cm pol h1 h2'
  have hch := challenges_agree h1 (some (mt.root w.constTree)) fri
  obtain ⟨res, qs, i1, i2, i3⟩ := H.identity
  unfold starkVerify
  rw [hch]
  simp only [Option.bind_some]
  rw [i1]
  simp only [Option.bind_some]
  have hz : (ctxConstraint (G := G) c.mg c.maxDegNbits cm.chal (cm.evals.map val) (w.publics.map val)).z
      = cm.chal.getD 7 0 ^ 2 ^ c.maxDegNbits - 1 := rfl
  have hev : (ctxConstraint (G := G) c.mg c.maxDegNbits cm.chal (cm.evals.map val) (w.publics.map val)).evals
      = cm.evals.map val := rfl
  rw [hev, i2, Option.bind_some, hz, if_neg (by rw [← i3]; simp)]
  obtain ⟨F, f1, f2, f3⟩ := H.low
  refine Fri.completeness hC hT hE c h2 hw hlt hin hs hsi rest hsteps hdec hgood F f1 pol f2 f3 _ _ ?_ cm.t t fri h3
  intro y hy
  obtain ⟨p1, p2, p3, p4, pc, q, b1, b2, b3, b4, b5⟩ := queryPol_ok H.tree1 H.tree2 H.tree3 H.tree4 H.const hy
  obtain ⟨x1, x2⟩ := H.xi y hy
  rw [q]
  simp only [Option.getD_some, checkQuery, b1, b2, b3, b4, b5, and_self, if_true]
  rw [if_neg (by rintro (h | h); exacts [x1 h, x2 h]), H.query y hy]
  rfl

/-! ## C72: what acceptance means -/

/-- **C72**: if `stark_verify` accepts a proof (any proof), then with the challenges the verifier derives from the publics, the
roots and the openings in it: the constraint code evaluates on the openings to `Q(xi) * Z(xi)`; FRI accepts; and every query,
at its transcript-derived index `y`, carries five rows that open the four roots of the proof and the given constant root at
`y`, and the value the query code computes from these rows is what the next FRI layer (or the last polynomial) has at `y`. -/
theorem accepts {mt : MT G Root Path Tree} {tr : Tr G A T} (hT : tr.Ok) {E : Enc G A} {e : Emb G A} {c : Cfg A} {els : P → List G}
    {val : P → A} {new : T} {info : VInfo A} {constRoot : Root} {p : Proof G Root Path A P} {t' : T} (h2' : (2 : A) ≠ 0)
    (hw : Roots c.mg c.inNbits) (rest : List Nat) (hsteps : c.steps = c.inNbits :: rest) (hdec : Decreasing c.inNbits rest)
    (h : starkVerify mt tr E e c els val new info constRoot p = some (true, t')) :
    ∃ chal t, verChallenges mt tr els new p = some (chal, t) ∧
      (∃ qs, (info.qEv.mapM fun i => (p.evals.map val)[i]?) = some qs ∧
        executeCode e (ctxConstraint (G := G) c.mg c.maxDegNbits chal (p.evals.map val) (p.publics.map val)) info.code
          = some (recombine (chal.getD 7 0 ^ 2 ^ c.maxDegNbits) qs 1 0 * (chal.getD 7 0 ^ 2 ^ c.maxDegNbits - 1))) ∧
      Fri.verify mt tr E c p.fri (checkQuery mt e c val info constRoot p chal) t = some (true, t') ∧
      ∃ xs t1 ys, challenges mt tr E p.fri.last c.steps p.fri.queries.tail t = some (xs, t1) ∧
        tr.perms c.nQueries c.inNbits t1 = some (ys, t') ∧
        ∀ i < c.nQueries, ∃ y q r1 r2 r3 r4 rc more v, ys[i]? = some y ∧ p.fri.queries[0]? = some q ∧
          q.pols[i]? = some (r1 :: r2 :: r3 :: r4 :: rc :: more) ∧
          mt.verify p.root1 r1.2 y r1.1 = some true ∧ mt.verify p.root2 r2.2 y r2.1 = some true ∧
          mt.verify p.root3 r3.2 y r3.1 = some true ∧ mt.verify p.root4 r4.2 y r4.1 = some true ∧
          mt.verify constRoot rc.2 y rc.1 = some true ∧
          executeCode e (ctxQuery c.mg c.shift c.maxDegNbits c.inNbits chal (p.evals.map val) (p.publics.map val)
            (fun k => if k = 1 then r1.1 else if k = 2 then r2.1 else if k = 3 then r3.1 else r4.1) rc.1 y)
            info.queryCode = some v ∧
          (∀ nb', rest.head? = some nb' → ∃ q' qi' leaf path, p.fri.queries[1]? = some q' ∧ q'.pols[i]? = some qi' ∧
            qi'.head? = some (leaf, path) ∧ mt.verify q'.root path (y % 2 ^ nb') leaf = some true ∧
            get3 E leaf (y / 2 ^ nb') = some v) ∧
          (rest = [] → p.fri.last[y]? = some v) := by
  unfold starkVerify at h
  obtain ⟨⟨chal, t⟩, h1, h⟩ := Option.bind_eq_some_iff.mp h
  dsimp only at h
  obtain ⟨res, h2, h⟩ := Option.bind_eq_some_iff.mp h
  obtain ⟨qs, h3, h⟩ := Option.bind_eq_some_iff.mp h
  split_ifs at h with hne
  · simp at h
  rw [not_not] at hne
  refine ⟨chal, t, h1, ⟨qs, h3, by rw [h2, hne]; rfl⟩, h, ?_⟩
  obtain ⟨nb0, xs, t1, ys, a1, a2, a3, a4, a5⟩ := verify_accepts hT (by rw [hsteps]; exact ⟨le_rfl, hdec⟩) h
  rw [hsteps] at a1
  obtain rfl : c.inNbits = nb0 := by simpa using a1
  refine ⟨xs, t1, ys, a2, a3, fun i hi => ?_⟩
  obtain ⟨x, y, q, qi, g, cf, w, b1, b2, b3, c1, b4, -, b5, b6, b7, b8⟩ := a4 0 c.inNbits (by rw [hsteps]; rfl) i hi
  have hy : y < 2 ^ c.inNbits := (hT.perms_lt _ _ _ _ _ a3).2 y (List.mem_of_getElem? b2)
  rw [Nat.mod_eq_of_lt hy] at b4 b6 b7 b8
  obtain ⟨c2, -⟩ := b4 rfl
  unfold checkQuery at c2
  split at c2
  · rename_i r1 r2 r3 r4 rc more
    split_ifs at c2 with d1
    dsimp only at c2
    split_ifs at c2
    obtain ⟨v, d3, rfl⟩ := Option.map_eq_some_iff.mp c2
    have hw0 : Roots c.mg 0 := ⟨hw.zero, fun s hs => by omega, fun s hs => by omega⟩
    rw [ifftC_one hw0 h2'] at b5
    obtain rfl := Option.some.inj b5
    have hwv : w = v := by rw [← b6]; simp [evalPol]
    subst hwv
    refine ⟨y, q, r1, r2, r3, r4, rc, more, w, b2, b3, c1, d1.1, d1.2.1, d1.2.2.1, d1.2.2.2.1, d1.2.2.2.2, d3, ?_, ?_⟩
    · intro nb' hnb'
      have h1 : c.steps[0 + 1]? = some nb' := by rw [hsteps]; simpa [List.head?_eq_getElem?] using hnb'
      obtain ⟨q', qi', leaf', path', e1, e2, e3, e4⟩ := b7 nb' h1
      obtain ⟨_, y2, q2, qi2, g2, _, _, -, f2, f3, f4, -, f5, -⟩ := a4 1 nb' h1 i hi
      obtain ⟨leaf2, path2, f6, f7, -⟩ := f5 (by decide)
      have e1' : p.fri.queries[1]? = some q' := e1
      rw [b2] at f2
      rw [e1'] at f3
      obtain rfl := Option.some.inj f2
      obtain rfl := Option.some.inj f3
      rw [e2] at f4
      obtain rfl := Option.some.inj f4
      rw [e3] at f6
      obtain ⟨rfl, rfl⟩ := Prod.mk.inj (Option.some.inj f6)
      exact ⟨q', qi', leaf', path', e1', e2, e3, f7, e4⟩
    · intro hr
      exact b8 (by rw [hsteps, hr]; rfl)
  · simp at c2

end Verif.Stark
