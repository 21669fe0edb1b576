import Verif.Stark.ProverTotal

/-!
# A concrete circuit

One committed column `a`, one public input; the expressions `a * a'` and `(a * a')^2 - public`, the second one an identity.  With a
blowup of 2 the product is selected as an intermediate polynomial.  The trace has the two rows `2, 3`.
-/
set_option linter.unusedSectionVars false

namespace Verif.Stark.Example
open Fri FFT Codegen Codegen.Spec Polynomial Finset ImPols ImPols.Spec
open Verif.GL (F)
open Verif.Ext3 (K coord ξ)

noncomputable local instance : DecidableEq K := Classical.decEq _

def e0 : Expr K := .node { op := .mul } [cmE 0, .node { op := .cm, id := some 0, next := true } []]
def e1 : Expr K := .node { op := .sub } [.node { op := .mul } [expE 0, expE 0], .node { op := .public_, id := some 0 } []]
def exps : List (Expr K) := [e0, e1]
def cE : Expr K := .node { op := .add } [.node { op := .mul } [vcE, expE 1], .node { op := .sub } [e0, cmE 1]]
def pos : Nat → Option ColPos
  | 0 => some ⟨1, 0, 1⟩
  | 1 => some ⟨3, 0, 1⟩
  | 2 => some ⟨4, 0, 3⟩
  | _ => none
def rest (c : List (Code K)) : List (Instr K) := c.flatMap Code.code

theorem gen : generate 10 exps [1] 1 3 = some ({0}, 1, cE) := by
  have h : selectLoop 10 exps (expE 1) 3 = some ({0}, 1) := by decide +kernel
  simp only [generate, identExp, List.foldl, combine, Option.bind_some, h]
  simp [addIm, exps, combine, cE]

theorem im : im2cmOf {0} 1 = fun k => if k = 0 then some 1 else none := by
  funext k
  unfold im2cmOf
  by_cases h : k = 0
  · subst h; simp
  · simp [h]

theorem done : imDone {0} = [(false, 0), (true, 0)] := by simp [imDone]

theorem setup_some : ∃ U, setup 10 10 exps [1] 1 1 pos rest = some U ∧ U.S = {0} ∧ U.qDeg = 1 ∧ U.cExp = cE := by
  have hs : ({0} : Finset Nat).sort (· ≤ ·) = [0] := by simp
  have h : (setup 10 10 exps [1] 1 1 pos rest).isSome = true := by
    unfold setup
    rw [show 2 ^ 1 + 1 = 3 from rfl, gen, Option.bind_some]
    simp only
    rw [hs, im, done]
    decide +kernel
  obtain ⟨U, hU⟩ := Option.isSome_iff_exists.mp h
  obtain ⟨ctx, out, fe, ctx5, S⟩ := setup_ok hU
  have := S.gen
  rw [show 2 ^ 1 + 1 = 3 from rfl, gen] at this
  simp only [Option.some.injEq, Prod.mk.injEq] at this
  exact ⟨U, hU, this.1.symm, this.2.1.symm, this.2.2.symm⟩

noncomputable def run : Run := ⟨2, 1, 1, fun _ _ => 7, pos, 3, 1, [36]⟩

noncomputable def trace : Trace where
  width s := if s = 1 then 1 else if s = 3 then 1 else 0
  nConst := 1
  cm1 i := if i = 0 then 2 else 3
  cm2 _ _ _ := 0
  cm3 _ _ _ _ _ := 6
  fixed i := if i = 0 then 1 else 0

theorem size_ok (w : Nat) (hw : w ≤ 1) : SizeOk 2 1 1 w := ⟨by decide, by decide, by decide, by decide, by omega, by omega⟩

theorem wellFormed {U : Setup K} (hU : setup 10 10 exps [1] 1 1 pos rest = some U) (hS : U.S = {0}) (hq : U.qDeg = 1) (hc : U.cExp = cE) :
    WellFormed run U trace exps [1] 10 10 rest where
  setup := hU
  rest := fun _ _ h => h
  closed := by
    have c0 : Closed exps e0 := .mul rfl (.leaf (.inr rfl)) (.leaf (.inr rfl))
    have c1 : Closed exps (expE 0) := .exp rfl rfl rfl c0
    intro e he
    simp only [exps, List.mem_cons, List.not_mem_nil, or_false] at he
    rcases he with rfl | rfl
    · exact c0
    · refine .lin rfl fun v hv => ?_
      simp only [List.mem_cons, List.not_mem_nil, or_false] at hv
      rcases hv with rfl | rfl
      · exact .mul rfl c1 c1
      · exact .leaf (.inl rfl)
  ids := by simp [exps]
  arity := by
    intro e he
    simp only [exps, List.mem_cons, List.not_mem_nil, or_false] at he
    rcases he with rfl | rfl
    · exact .mul rfl (.var (d := 1) rfl le_rfl) (.var (d := 1) rfl le_rfl) le_rfl
    · refine .lin rfl fun v hv => ?_
      simp only [List.mem_cons, List.not_mem_nil, or_false] at hv
      rcases hv with rfl | rfl
      · exact .mul rfl (.exp (d := 1) rfl le_rfl) (.exp (d := 1) rfl le_rfl) le_rfl
      · exact .const rfl
  layout := by
    refine ⟨?_, ?_, ?_⟩
    · intro k c h
      match k, h with
      | 0, h => obtain rfl := Option.some.inj h; simp [width4, trace]
      | 1, h => obtain rfl := Option.some.inj h; simp [width4, trace]
      | 2, h => obtain rfl := Option.some.inj h; simp [width4, run, hq]
    · intro k hk
      rw [hS] at hk
      have : k < 2 := hk
      interval_cases k
      · exact ⟨_, rfl, by decide⟩
      · exact ⟨_, rfl, by decide⟩
    · intro p hp
      rw [hq] at hp
      obtain rfl : p = 0 := by omega
      rw [hS]
      rfl
  dims := by
    refine ⟨?_, ?_, ⟨10, ?_⟩, ?_⟩
    · intro e he
      have hl : ∀ l : Label K, l.value = none → l.const_ = none → NumBase (.node l []) := fun l h1 h2 => ⟨by simp [h1], by simp [h2], by simp⟩
      have hb : ∀ (l : Label K) a b, l.value = none → l.const_ = none → NumBase a → NumBase b → NumBase (.node l [a, b]) :=
        fun l a b h1 h2 ha hb => ⟨by simp [h1], by simp [h2], by simp [ha, hb]⟩
      simp only [exps, List.mem_cons, List.not_mem_nil, or_false] at he
      rcases he with rfl | rfl
      · exact hb _ _ _ rfl rfl (hl _ rfl rfl) (hl _ rfl rfl)
      · exact hb _ _ _ rfl rfl (hb _ _ _ rfl rfl (hl _ rfl rfl) (hl _ rfl rfl)) (hl _ rfl rfl)
    · intro v hv
      simp only [run, List.mem_singleton] at hv
      exact ⟨36, by rw [hv, map_ofNat]⟩
    · rw [hc]; rfl
    · intro k hk e n d he hd c hcm
      rw [hS] at hk hcm
      obtain rfl : k = 0 := by simpa using hk
      obtain rfl := Option.some.inj he
      have him : im2cmOf {0} run.nCm 0 = some 1 := by
        show im2cmOf {0} 1 0 = some 1
        rw [im]; rfl
      rw [him] at hcm
      obtain rfl := Option.some.inj hcm
      match n, hd with
      | n + 2, hd =>
        have : expDim exps (fun k => (run.pos k).map ColPos.dim) (n + 2) e0 = some 1 := rfl
        rw [this] at hd
        obtain rfl := Option.some.inj hd
        rfl
      | 1, hd => cases hd
  sizes := by
    refine ⟨fun s h1 h3 => size_ok _ ?_, size_ok _ le_rfl⟩
    show (if s = 1 then 1 else if s = 3 then 1 else 0) ≤ 1
    split_ifs <;> omega
  bits := by show 1 + 1 < 32; decide
  ext := by show 1 < 30; decide
  qDeg := by rw [hq]; decide

theorem satisfied (ch : List K) : Satisfied run trace exps [1] {0} ch 3 := by
  have hs : ({0} : Finset Nat).sort (· ≤ ·) = [0] := by simp
  have hsub : substIm (({0} : Finset Nat).sort (· ≤ ·)) (im2cmOf {0} run.nCm) exps = [cmE 1, e1] := by
    rw [hs, show im2cmOf {0} run.nCm = im2cmOf {0} 1 from rfl, im]
    rfl
  have h6 : ∀ i p, i < 2 → traceStore run trace ch i .cm 1 p = some 6 := by
    intro i p hi
    interval_cases i <;> cases p <;>
      (simp [traceStore, run, pos, trace, colVal, cellsOf, Trace.sec, List.range_succ]; exact map_ofNat _ 6)
  have ha : ∀ i, i < 2 → ∃ a b : K, traceStore run trace ch i .cm 0 false = some a ∧ traceStore run trace ch i .cm 0 true = some b ∧ a * b = 6 := by
    intro i hi
    interval_cases i
    · refine ⟨2, 3, ?_, ?_, by norm_num⟩ <;>
        (simp [traceStore, run, pos, trace, colVal, cellsOf, Trace.sec, List.range_succ]; exact map_ofNat _ _)
    · refine ⟨3, 2, ?_, ?_, by norm_num⟩ <;>
        (simp [traceStore, run, pos, trace, colVal, cellsOf, Trace.sec, List.range_succ]; exact map_ofNat _ _)
  refine ⟨?_, ?_⟩
  · intro i hi id hid
    have hi' : i < 2 := hi
    obtain rfl : id = 1 := by simpa using hid
    rw [hsub]
    have hc : ∀ d, Val (fieldOps K) [cmE 1, e1] (traceStore run trace ch i) (d + 1) false (expE 0) 6 := fun d =>
      .exp rfl rfl rfl rfl (.col (t := .cm) rfl rfl rfl (h6 i false hi'))
    refine .exp rfl rfl rfl rfl (.sub rfl (.mul rfl (hc 1) (hc 1) rfl) (.byId (t := .public_) (v := 36) rfl rfl rfl) ?_)
    simp only [fieldOps, Option.some.injEq]
    norm_num
  · intro i hi k hk
    have hi' : i < 2 := hi
    obtain rfl : k = 0 := by simpa using hk
    obtain ⟨a, b, h1, h2, h3⟩ := ha i hi'
    rw [hsub]
    refine ⟨e0, 6, 1, rfl, ?_, ?_, h6 i false hi'⟩
    · exact .mul rfl (.col (t := .cm) rfl rfl rfl h1) (.col (t := .cm) rfl rfl rfl h2) (by simp [fieldOps, h3])
    · show im2cmOf {0} 1 0 = some 1
      rw [im]; rfl

/-! ### A transcript whose challenges are `1 + ξ + ξ^2` -/

/-- a stand-in for Poseidon: every output is one -/
def ones (_ : List F) : List F := List.replicate 12 1

/-- nothing but ones has been output -/
def J (t : TranscriptGL.T F) : Prop := ∀ x ∈ t.out, x = 1

theorem J_update {t t' : TranscriptGL.T F} (h : TranscriptGL.updateState ones t = some t') : J t' := by
  unfold TranscriptGL.updateState at h
  obtain ⟨o, ho, rfl⟩ := Option.map_eq_some_iff.mp h
  unfold Linear.poseidonHash at ho
  split_ifs at ho
  obtain rfl := Option.some.inj ho
  intro x hx
  exact List.eq_of_mem_replicate (List.mem_of_mem_take hx)

theorem J_get1 {t t' : TranscriptGL.T F} {x : F} (h : TranscriptGL.getFields1 ones t = some (x, t')) (hj : J t) : x = 1 ∧ J t' := by
  unfold TranscriptGL.getFields1 at h
  split at h
  · rename_i v r hv
    obtain ⟨rfl, rfl⟩ := Prod.mk.inj (Option.some.inj h)
    exact ⟨hj v (by simp [hv]), fun y hy => hj y (by simp only at hy; simp [hv, hy])⟩
  · obtain ⟨t1, h1, h⟩ := Option.bind_eq_some_iff.mp h
    have hj1 := J_update h1
    split at h
    · rename_i v r hv
      obtain ⟨rfl, rfl⟩ := Prod.mk.inj (Option.some.inj h)
      exact ⟨hj1 v (by simp [hv]), fun y hy => hj1 y (by simp only at hy; simp [hv, hy])⟩
    · cases h

theorem J_many : ∀ (k : Nat) {t t' : TranscriptGL.T F} {l : List F}, TranscriptGL.getMany ones k t = some (l, t') → J t → (∀ x ∈ l, x = 1) ∧ J t'
  | 0, t, t', l, h, hj => by
    obtain ⟨rfl, rfl⟩ := Prod.mk.inj (Option.some.inj h)
    exact ⟨by simp, hj⟩
  | k + 1, t, t', l, h, hj => by
    rw [TranscriptGL.getMany] at h
    obtain ⟨⟨x, t1⟩, h1, h⟩ := Option.bind_eq_some_iff.mp h
    obtain ⟨⟨l', t2⟩, h2, h⟩ := Option.map_eq_some_iff.mp h
    obtain ⟨rfl, rfl⟩ := Prod.mk.inj h
    obtain ⟨a, b⟩ := J_get1 h1 hj
    obtain ⟨c, d⟩ := J_many k h2 b
    exact ⟨by simpa [a] using c, d⟩

theorem J_field {t t' : TranscriptGL.T F} {x : K} (h : (glTr ones).getField t = some (x, t')) (hj : J t) : x = coord 1 1 1 ∧ J t' := by
  obtain ⟨⟨l, t1⟩, h1, h⟩ := Option.bind_eq_some_iff.mp h
  obtain ⟨a, b⟩ := J_many 3 h1 hj
  split at h
  · rename_i x y z hl
    dsimp only at hl
    subst hl
    obtain ⟨rfl, rfl⟩ := Prod.mk.inj (Option.some.inj h)
    rw [a x (by simp), a y (by simp), a z (by simp)]
    exact ⟨rfl, b⟩
  · cases h

theorem J_add {t t' : TranscriptGL.T F} {x : F} (h : TranscriptGL.add1 ones t x = some t') : J t' := by
  unfold TranscriptGL.add1 at h
  split_ifs at h
  · exact J_update h
  · obtain rfl := Option.some.inj h
    intro x hx; simp at hx

theorem J_put {t t' : TranscriptGL.T F} {es : List (List F)} (h : (glTr ones).put es t = some t') (hj : J t) : J t' := by
  have inner : ∀ (e : List F) {t t' : TranscriptGL.T F}, e.foldlM (fun t x => TranscriptGL.add1 ones t x) t = some t' → J t → J t' := by
    intro e
    induction e with
    | nil => intro t t' h hj; obtain rfl := Option.some.inj h; exact hj
    | cons x e ih =>
      intro t t' h hj
      rw [List.foldlM_cons] at h
      obtain ⟨t1, h1, h⟩ := Option.bind_eq_some_iff.mp h
      exact ih h (J_add h1)
  have outer : ∀ (es : List (List F)) {t t' : TranscriptGL.T F}, TranscriptGL.put ones t es = some t' → J t → J t' := by
    intro es
    induction es with
    | nil => intro t t' h hj; obtain rfl := Option.some.inj h; exact hj
    | cons x e ih =>
      intro t t' h hj
      unfold TranscriptGL.put at h
      rw [List.foldlM_cons] at h
      obtain ⟨t1, h1, h⟩ := Option.bind_eq_some_iff.mp h
      exact ih h (inner _ h1 hj)
  exact outer es h hj

theorem J_putAll {P : Type} {els : P → List F} : ∀ (l : List P) {t t' : TranscriptGL.T F}, putAll (glTr ones) els l t = some t' → J t → J t'
  | [], t, t', h, hj => by obtain rfl := Option.some.inj h; exact hj
  | p :: l, t, t', h, hj => by
    unfold putAll at h
    rw [List.foldlM_cons] at h
    obtain ⟨t1, h1, h⟩ := Option.bind_eq_some_iff.mp h
    exact J_putAll l h (J_put h1 hj)

theorem J_commit {P Tree Root Path : Type} {mt : MT F Root Path Tree} {els : P → List F} {w : Rounds K P Tree} {cm : Commit K P Tree (TranscriptGL.T F)}
    (h : commit mt (glTr ones) els TranscriptGL.new w = some cm) : cm.chal.getD 7 0 = coord 1 1 1 := by
  unfold commit at h
  obtain ⟨t0, h0, h⟩ := Option.bind_eq_some_iff.mp h
  have j0 := J_putAll _ h0 (by intro x hx; simp [TranscriptGL.new] at hx)
  obtain ⟨tree1, h1, h⟩ := Option.bind_eq_some_iff.mp h
  obtain ⟨t1, h2, h⟩ := Option.bind_eq_some_iff.mp h
  have j1 := J_put h2 j0
  obtain ⟨⟨u, t2⟩, h3, h⟩ := Option.bind_eq_some_iff.mp h
  have j2 := (J_field h3 j1).2
  dsimp only at h
  obtain ⟨⟨dv, t3⟩, h4, h⟩ := Option.bind_eq_some_iff.mp h
  have j3 := (J_field h4 j2).2
  dsimp only at h
  obtain ⟨tree2, h5, h⟩ := Option.bind_eq_some_iff.mp h
  obtain ⟨t4, h6, h⟩ := Option.bind_eq_some_iff.mp h
  have j4 := J_put h6 j3
  obtain ⟨⟨ga, t5⟩, h7, h⟩ := Option.bind_eq_some_iff.mp h
  have j5 := (J_field h7 j4).2
  dsimp only at h
  obtain ⟨⟨be, t6⟩, h8, h⟩ := Option.bind_eq_some_iff.mp h
  have j6 := (J_field h8 j5).2
  dsimp only at h
  obtain ⟨tree3, h9, h⟩ := Option.bind_eq_some_iff.mp h
  obtain ⟨t7, h10, h⟩ := Option.bind_eq_some_iff.mp h
  have j7 := J_put h10 j6
  obtain ⟨⟨vc, t8⟩, h11, h⟩ := Option.bind_eq_some_iff.mp h
  have j8 := (J_field h11 j7).2
  dsimp only at h
  obtain ⟨tree4, h12, h⟩ := Option.bind_eq_some_iff.mp h
  obtain ⟨t9, h13, h⟩ := Option.bind_eq_some_iff.mp h
  have j9 := J_put h13 j8
  obtain ⟨⟨xi, t10⟩, h14, h⟩ := Option.bind_eq_some_iff.mp h
  have j10 := (J_field h14 j9).1
  dsimp only at h
  obtain ⟨evals, h15, h⟩ := Option.bind_eq_some_iff.mp h
  obtain ⟨t11, h16, h⟩ := Option.bind_eq_some_iff.mp h
  obtain ⟨⟨v1, t12⟩, h17, h⟩ := Option.bind_eq_some_iff.mp h
  dsimp only at h
  obtain ⟨⟨v2, t13⟩, h18, h⟩ := Option.bind_eq_some_iff.mp h
  obtain rfl := Option.some.inj h
  exact j10

/-- non-vacuity of `stark_complete_GL` (and of C43, C71, C72): the prover returns a proof for the trace `2, 3` with public input 36, with
three workers and 8 queries, and the verifier accepts it -/
theorem accepted : ∃ (U : Setup K) (fixed : List F) (ctree : MerkleGL.MT F), setup 10 10 exps [1] 1 1 pos rest = some U ∧
    ∃ proof t', starkGen (glMT ones 3) (glTr ones) encK (run.cfg 8 [1]) encK.enc TranscriptGL.new
        (rounds run U trace (glMT ones 3) id id [36] fixed ctree) = some (proof, t') ∧
      starkVerify (glMT ones 3) (glTr ones) encK ⟨algebraMap F K, coord⟩ (run.cfg 8 [1]) encK.enc id TranscriptGL.new U.info
        ((glMT ones 3).root ctree) proof = some (true, t') := by
  have hp : Linear.IsState ones := fun s h => by simp [ones]
  obtain ⟨U, hU, hS, hq, hc⟩ := setup_some
  have W := wellFormed hU hS hq hc
  obtain ⟨fixed, ctree, hfix, hct⟩ := const_total (Tc := trace) (R := run) hp (workers := 3) (by decide) W.sizes.fixed ⟨by show 1 < 2 ^ 21 + 8; decide, by decide⟩
  refine ⟨U, fixed, ctree, hU, ?_⟩
  refine stark_complete_GL (steps := [1]) (nQueries := 8) hp (by decide) W ⟨?_, ?_⟩ (fun _ => rfl) _ (by simp [run]) (d := 3) (by decide) (by decide) (by decide) ⟨by decide, trivial⟩
    ⟨⟨by decide, by decide⟩, trivial⟩ hfix hct ?_ ?_
  · intro s h1 h4
    refine ⟨?_, by decide⟩
    have : width4 run U trace s ≤ 3 := by
      unfold width4
      rw [hq]
      show (if s = 4 then 3 * 1 else if s = 1 then 1 else if s = 3 then 1 else 0) ≤ 3
      split_ifs <;> omega
    omega
  · exact ⟨by show 1 < 2 ^ 21 + 8; decide, by decide⟩
  · intro ch _
    rw [hS]
    exact satisfied ch
  · intro cm hcm j hj
    rw [J_commit hcm, xExt_eq, show mgK run.nb = algebraMap F K (Roots.mg run.nb) from rfl]
    refine ⟨fun h => ?_, fun h => ?_⟩
    · rw [← coord_base] at h
      have := (Ext3.coord_inj h).2.1
      exact zero_ne_one this
    · rw [← coord_base, ← coord_base, Ext3.coord_mul] at h
      have h1 := (Ext3.coord_inj h).2.1
      simp only [mul_zero, one_mul, add_zero, zero_add] at h1
      have h2 := Roots.mg_inv run.nb
      rw [← h1, zero_mul] at h2
      exact zero_ne_one h2

end Verif.Stark.Example
