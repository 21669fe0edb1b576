import Verif.Circom.Evals
import Verif.Circom.Query
import Verif.Circom.Ssa
import Verif.Fri.Instances

/-!
# C106, C108, C109: the extension field of the code, and examples
-/
namespace Verif.Circom
open Stark Codegen Fri
open Verif.GL (F)
open Verif.Ext3 (K coord)

noncomputable local instance : DecidableEq K := Classical.decEq _

/-- `F3G::from` and `F3G::from_vec`, f3g.rs -/
noncomputable def extK : Emb F K := ⟨algebraMap F K, coord⟩

/-- the Goldilocks field and its extension of degree three meet the hypothesis of C106-C109 -/
theorem extOkK : ExtOk extK coords where
  base a := by simp [extK, coord]
  add a b c a' b' c' := by simp only [extK, coord, map_add]; ring
  smul s a b c := by simp only [extK, coord, map_mul]; ring
  dec_co v := coords_spec v
  co_dec a b c := by
    obtain ⟨h1, h2, h3⟩ := Ext3.coord_inj (coords_spec (coord a b c))
    exact Prod.ext h1 (Prod.ext h2 h3)

/-- a number of the base field as circom reads it -/
noncomputable def litK (v : K) : F := (coords v).1

theorem litK_base (a : F) : extK.emb (litK (algebraMap F K a)) = algebraMap F K a := by
  have h := coords_spec (algebraMap F K a)
  have h1 : coord a 0 0 = algebraMap F K a := extOkK.base a
  rw [← h1] at h
  obtain ⟨h1', -, -⟩ := Ext3.coord_inj h
  show algebraMap F K (coords _).1 = _
  rw [← h1]
  rw [h1', h1]

/-- `tmp0 := eval1 - eval0`; `tmp1 := public0 * 7`; `tmp2 := tmp0 * x + tmp1`: dimensions 3, 1 and 3 -/
noncomputable def exCode : List (VInstr K) :=
  [⟨.sub, { ty := .tmp, id := 0 }, [{ ty := .eval, id := 1 }, { ty := .eval, id := 0 }]⟩,
   ⟨.mul, { ty := .tmp, id := 1 }, [{ ty := .public_, id := 0 }, { ty := .number, value := some (algebraMap F K 7) }]⟩,
   ⟨.muladd, { ty := .tmp, id := 2 }, [{ ty := .tmp, id := 0 }, { ty := .x }, { ty := .tmp, id := 1 }]⟩]

theorem exCode_dims : ∃ c', setDims (fun _ => none) exCode = some c' ∧ ∀ last ∈ c'.getLast?, last.dest.dim = 3 := by
  refine ⟨_, rfl, ?_⟩
  intro last h
  obtain rfl := Option.some.inj h
  rfl

theorem exCode_run (chal evals : List (F × F × F)) (publics : List F) (mg : Nat → K) (n : Nat) (x e0 e1 : F × F × F) (p : F)
    (hx : chal[7]? = some x) (h0 : evals[0]? = some e0) (h1 : evals[1]? = some e1) (hp : publics[0]? = some p) :
    executeCode extK (ctxConstraint mg n (chal.map (dec3 extK)) (evals.map (dec3 extK)) (publics.map extK.emb)) exCode =
      some ((dec3 extK e1 - dec3 extK e0) * dec3 extK x + extK.emb p * algebraMap F K 7) := by
  simp [executeCode, exCode, vStep, getRef, vApply, ctxConstraint, hx, h0, h1, hp, Function.update]

/-- non-vacuity of `unrollCode_spec` and `verifyEvaluations_spec`: all hypotheses hold of this program and of all inputs of the
right lengths; the quotient has one piece, opened at place 2 -/
example (mg : Nat → K) {n : Nat} (hn0 : n ≠ 0) (hmg : mg n ^ 2 ^ n = 1) (nCm : Nat → Nat) (c : Fin 8 → F × F × F) (e0 e1 e2 : F × F × F)
    (p enable : F) :
    ∃ b qs, verifyEvaluations extK coords litK nCm n 1 2 exCode (List.ofFn c) [e0, e1, e2] [p] enable = some b ∧
      (List.range' 2 1).mapM (fun i => ([e0, e1, e2].map (dec3 extK))[i]?) = some qs ∧
      (b = true ↔ enable = 0 ∨ (dec3 extK e1 - dec3 extK e0) * dec3 extK (c 7) + extK.emb p * algebraMap F K 7 =
        recombine (((List.ofFn c).map (dec3 extK)).getD 7 0 ^ 2 ^ n) qs 1 0 * (((List.ofFn c).map (dec3 extK)).getD 7 0 ^ 2 ^ n - 1)) := by
  refine verifyEvaluations_spec extOkK mg hn0 (by decide) hmg ?_ (by decide) (by simp) (by simp)
    (exCode_run _ _ _ mg n (c 7) e0 e1 p (by simp) rfl rfl rfl) ?_ enable
  · intro i hi r hr ht v hv
    simp only [exCode, List.mem_cons, List.not_mem_nil, or_false] at hi
    rcases hi with rfl | rfl | rfl <;> simp only [List.mem_cons, List.not_mem_nil, or_false] at hr
    · rcases hr with rfl | rfl <;> simp at ht
    · rcases hr with rfl | rfl
      · simp at ht
      · obtain rfl := Option.some.inj hv
        exact litK_base 7
    · rcases hr with rfl | rfl | rfl <;> simp at ht
  · intro c' h
    obtain ⟨c'', h1, h2⟩ := exCode_dims
    rw [h1] at h
    obtain rfl := Option.some.inj h
    exact h2

/-- `tmp0 := tree3_0 - eval0`; `tmp1 := tmp0 * xDivXSubXi`, for a column of dimension three that is column 4 of the trace, the first
of its section, at position 2 -/
def exQuery : List (VInstr K) :=
  [⟨.sub, { ty := .tmp, id := 0 }, [{ ty := .tree 3, id := 4, treePos := 2, dim := 3 }, { ty := .eval, id := 0 }]⟩,
   ⟨.mul, { ty := .tmp, id := 1 }, [{ ty := .tmp, id := 0 }, { ty := .xDivXSubXi }]⟩]

/-- one column in each section but the third, which has two -/
def exSecs (t : Nat) : List (Nat × Nat) := if t = 3 then [(2, 3), (0, 1)] else [(0, 1)]

theorem exQuery_dims : ∃ c', setDims (fun _ => none) exQuery = some c' ∧ ∀ last ∈ c'.getLast?, last.dest.dim = 3 := by
  refine ⟨_, rfl, ?_⟩
  intro last h
  obtain rfl := Option.some.inj h
  rfl

theorem exQuery_trees : TreesOk (fun t => if t = 1 then 3 else 1) exSecs exQuery := by
  intro i hi r hr k hk
  simp only [exQuery, List.mem_cons, List.not_mem_nil, or_false] at hi
  rcases hi with rfl | rfl <;> simp only [List.mem_cons, List.not_mem_nil, or_false] at hr
  · rcases hr with rfl | rfl
    · obtain rfl : 3 = k := by simpa using hk
      exact ⟨4, .inr (.inr (.inl ⟨rfl, rfl⟩)), by decide, rfl⟩
    · simp at hk
  · rcases hr with rfl | rfl <;> simp at hk

/-- non-vacuity of `verifyQuery_spec`: the query with bits `1, 0, 1` of a domain of eight points -/
example {mg : Nat → K} {shift : K} {mgG : Nat → F} {shiftG : F} {nBits : Nat} (hR : RootsOk extK mg shift mgG shiftG 3)
    (c : Fin 8 → F × F × F) (e0 : F × F × F) (t : F) (v : Fin 5 → F) (hnz : ¬(queryPoint mg shift 3 5 = ((List.ofFn c).map (dec3 extK)).getD 7 0 ∨
      queryPoint mg shift 3 5 = ((List.ofFn c).map (dec3 extK)).getD 7 0 * mg nBits)) :
    ∃ o, verifyQuery extK coords litK (fun t => if t = 1 then 3 else 1) exSecs mgG shiftG nBits 3 exQuery
        (fun j => if (5 : Nat).testBit j then 1 else 0) (List.ofFn c) [e0] (fun k => if k = 3 then List.ofFn v else [t]) [] = some (some o) ∧
      dec3 extK o = (coord (v 2) (v 3) (v 4) - dec3 extK e0) *
        (queryPoint mg shift 3 5 / (queryPoint mg shift 3 5 - ((List.ofFn c).map (dec3 extK)).getD 7 0)) := by
  refine (verifyQuery_spec extOkK (publics := []) (by decide) hR ?_ (by decide) exQuery_trees ?_ ?_ (by simp)
    (trees := fun k => if k = 1 then [.one t] else if k = 2 then [.one t] else if k = 3 then [.three (v 2) (v 3) (v 4), .one (v 0)]
      else if k = 4 then [.one t] else []) ?_
    (by decide) (fun _ _ => rfl) ?_).2 hnz
  · intro i hi r hr ht v hv
    simp only [exQuery, List.mem_cons, List.not_mem_nil, or_false] at hi
    rcases hi with rfl | rfl <;> simp only [List.mem_cons, List.not_mem_nil, or_false] at hr <;> rcases hr with rfl | rfl <;> simp at ht
  · intro i hi r hr
    simp only [exQuery, List.mem_cons, List.not_mem_nil, or_false] at hi
    rcases hi with rfl | rfl <;> simp only [List.mem_cons, List.not_mem_nil, or_false] at hr <;> rcases hr with rfl | rfl <;> simp
  · intro c' h
    obtain ⟨c'', h1, h2⟩ := exQuery_dims
    rw [h1] at h
    obtain rfl := Option.some.inj h
    exact h2
  · simp [mapValues, mapOne, exSecs]
  · simp [executeCode, exQuery, vStep, getRef, vApply, ctxQuery, extractVal, Function.update, extK, dec3]

/-- non-vacuity of `verifier_ssa`: the constraint `cm0' - cm0 * cm0` of `verifier_code`'s example -/
example (op : EvKey → ℚ) (rest : List (Code ℚ) → List (Instr ℚ)) {out : VerOut ℚ}
    (h : genVerifier (0 : ℚ) [.node { op := .mul } [.node { op := .cm, id := some 0 } [], .node { op := .cm, id := some 0 } []],
        .node { op := .sub } [.node { op := .cm, id := some 0, next := true } [], .node { op := .exp, id := some 0 } []]]
        3 [0] (fun _ => some 1) 1 [2, 3] rest = some out) :
    (∀ i ∈ out.code, i.dest.ty = .tmp) ∧ (out.code.map fun i => i.dest.id).Nodup :=
  verifier_ssa (op := op) (publics := []) (chal := []) (d := 1) (by simp) (by simp) (by decide) rfl
    (.sub rfl (.col (t := .cm) (i := 0) rfl rfl rfl rfl) (.exp (i := 0) rfl rfl rfl rfl (.col (t := .cm) (i := 1) rfl rfl rfl rfl)) rfl) h

/-- non-vacuity of `query_ssa`: the expression of `query_code`'s example -/
example (w : ℚ) (rest : List (Code ℚ) → List (Instr ℚ)) {code : List (VInstr ℚ)}
    (h : genQuery (0 : ℚ) [.node { op := .mul } [.node { op := .sub } [.node { op := .cm, id := some 0 } [], .node { op := .eval, id := some 0 } []],
      .node { op := .xDivXSubXi } []]] 1 [] (fun _ => none) (fun _ => some ⟨2, 4, 1⟩) 0 rest = some code) :
    (∀ i ∈ code, i.dest.ty = .tmp) ∧ (code.map fun i => i.dest.id).Nodup :=
  query_ssa (cm := fun c => if c = 0 then some w else none) (const := fun _ => none) (evals := [5]) (publics := []) (chal := []) (xd := some 3)
    (xdw := none) (d := 0) (by simp) (by decide) rfl rfl
    (.mul rfl (.sub rfl (.col (t := .cm) (i := 0) rfl rfl rfl rfl) (.byId (t := .eval) (i := 0) rfl rfl rfl) rfl)
      (.nullary (t := .xDivXSubXi) rfl rfl) rfl) h

end Verif.Circom
