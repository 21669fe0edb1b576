import Verif.Stark.VerCodeProps
import Mathlib.Algebra.Polynomial.Div
import Mathlib.Algebra.Polynomial.Roots
import Mathlib.Tactic.NormNum

/-!
# The FRI polynomial: `generate_fri_polynomial`, starky/src/starkinfo_fri_prover.rs
-/
set_option linter.unusedSectionVars false

namespace Verif.Stark
open Codegen Codegen.Spec Polynomial

variable {A : Type}

/-! ### Model -/

/-- `E::challenge`, expressionops.rs L47-58 -/
def eChallenge (i : Nat) : Expr A := .node { op := .challenge, id := some i } []
/-- `E::add`, expressionops.rs L8-10 -/
def eAdd (a b : Expr A) : Expr A := .node { op := .add } [a, b]
/-- `E::sub`, expressionops.rs L12-14 -/
def eSub (a b : Expr A) : Expr A := .node { op := .sub } [a, b]
/-- `E::mul`, expressionops.rs L16-18 -/
def eMul (a b : Expr A) : Expr A := .node { op := .mul } [a, b]
/-- `E::cm(i, None)`, `E::const_(i, None)`, expressionops.rs L30-40 -/
def eCol (op : Op) (i : Nat) : Expr A := .node { op := op, id := some i } []
/-- `E::eval`, expressionops.rs L64-66 -/
def eEval (i : Nat) : Expr A := .node { op := .eval, id := some i } []
/-- `E::nop`, expressionops.rs L84-86 -/
def eNop : Expr A := .node { op := .other } []
/-- `E::is_nop`, expressionops.rs L88-90 -/
def isNop (e : Expr A) : Bool := e.label.op = .other

/-- L20-26: the Horner combination of all committed columns with `vf1` (challenge 5) -/
def friCm (n : Nat) : Expr A :=
  (List.range n).foldl (fun acc i => if isNop acc then eCol .cm i else eAdd (eMul (eChallenge 5) acc) (eCol .cm i)) eNop

/-- L35-61: the Horner combinations with `vf2` (challenge 6) of the differences between the columns and their openings, at
the current row (first component) and at the next row (second component); `q` and other types do not occur in `ev_map` -/
def friEv (evMap : List EvKey) : Option (Expr A × Expr A) :=
  evMap.zipIdx.foldlM (fun acc x =>
    (if x.1.1 = .cm then some (eCol .cm x.1.2.2) else if x.1.1 = .const_ then some (eCol .const_ x.1.2.2) else none).map fun e =>
    let cur := if x.1.2.1 then acc.2 else acc.1
    let new := if isNop cur then eSub e (eEval x.2) else eAdd (eMul cur (eChallenge 6)) (eSub e (eEval x.2))
    if x.1.2.1 then (acc.1, new) else (new, acc.2)) (eNop, eNop)

/-- `generate_fri_polynomial`, L10-85: the FRI expression.  As in the code, the test before the first combination (L66) looks
at `fri_exp`, not at `fri1_exp`. -/
def friExpr (nCm : Nat) (evMap : List EvKey) : Option (Expr A) :=
  (friEv evMap).bind fun f =>
  let e0 : Expr A := friCm nCm
  let e1 := if isNop e0 then e0 else eAdd (eMul (eChallenge 5) e0) (eMul f.1 (.node { op := .xDivXSubXi } []))
  let e2 := if isNop f.2 then e1 else
    let g := eMul f.2 (.node { op := .xDivXSubWXi } [])
    if isNop e1 then g else eAdd (eMul (eChallenge 5) e1) g
  if isNop e2 then none else some e2

/-! ### Specification -/

section
variable [Field A]

/-- `((l0 * a + l1) * a + l2) * a + ...` -/
def horner {R : Type} [CommRing R] (a : R) (l : List R) : R := l.foldl (fun acc c => acc * a + c) 0

/-- the differences between the columns `col` (as values or polynomials) and the openings, for the entries of `ev_map` at the
current (`p = false`) or next row -/
def diffs {R : Type} [CommRing R] (col ev : EvKey → R) (evMap : List EvKey) (p : Bool) : List R :=
  (evMap.filter fun k => k.2.1 = p).map fun k => col k - ev k

/-- the value of the FRI polynomial at `x`: columns `cms`, differences `d1` (current row) and `d2` (next row),
`xd = x / (x - xi)`, `xdw = x / (x - w xi)` -/
def friValue {R : Type} [CommRing R] (vf1 vf2 : R) (cms d1 d2 : List R) (xd xdw : R) : R :=
  if d2 = [] then vf1 * horner vf1 cms + horner vf2 d1 * xd
  else vf1 * (vf1 * horner vf1 cms + horner vf2 d1 * xd) + horner vf2 d2 * xdw

/-! ### The expression has that value -/

theorem horner_snoc {R : Type} [CommRing R] (a : R) (l : List R) (c : R) : horner a (l ++ [c]) = horner a l * a + c := by
  simp [horner]

theorem isNop_eNop : isNop (eNop : Expr A) = true := rfl
theorem isNop_eAdd (a b : Expr A) : isNop (eAdd a b) = false := rfl
theorem isNop_eSub (a b : Expr A) : isNop (eSub a b) = false := rfl
theorem isNop_eMul (a b : Expr A) : isNop (eMul a b) = false := rfl

theorem refs_eAdd {a b : Expr A} (ha : refs a = []) (hb : refs b = []) : refs (eAdd a b) = [] := by
  simp [eAdd, refs, refsL, ha, hb]
theorem refs_eSub {a b : Expr A} (ha : refs a = []) (hb : refs b = []) : refs (eSub a b) = [] := by
  simp [eSub, refs, refsL, ha, hb]
theorem refs_eMul {a b : Expr A} (ha : refs a = []) (hb : refs b = []) : refs (eMul a b) = [] := by
  simp [eMul, refs, refsL, ha, hb]

variable {exps : List (Expr A)} {σ : Store A}

theorem val_eAdd {d : Nat} {a b : Expr A} {x y : A} (h1 : Val (fieldOps A) exps σ d false a x) (h2 : Val (fieldOps A) exps σ d false b y) :
    Val (fieldOps A) exps σ d false (eAdd a b) (x + y) := .add rfl h1 h2 rfl
theorem val_eSub {d : Nat} {a b : Expr A} {x y : A} (h1 : Val (fieldOps A) exps σ d false a x) (h2 : Val (fieldOps A) exps σ d false b y) :
    Val (fieldOps A) exps σ d false (eSub a b) (x - y) := .sub rfl h1 h2 rfl
theorem val_eMul {d : Nat} {a b : Expr A} {x y : A} (h1 : Val (fieldOps A) exps σ d false a x) (h2 : Val (fieldOps A) exps σ d false b y) :
    Val (fieldOps A) exps σ d false (eMul a b) (x * y) := .mul rfl h1 h2 rfl

theorem friCm_spec {cm : Nat → A} {vf1 : A} (h5 : σ .challenge 5 false = some vf1) : ∀ n, (∀ i < n, σ .cm i false = some (cm i)) →
    refs (friCm n : Expr A) = [] ∧ (n = 0 → isNop (friCm n : Expr A) = true) ∧
      (n ≠ 0 → isNop (friCm n : Expr A) = false ∧ Val (fieldOps A) exps σ 0 false (friCm n) (horner vf1 ((List.range n).map cm))) := by
  intro n
  induction n with
  | zero => intro _; exact ⟨rfl, fun _ => rfl, fun h => absurd rfl h⟩
  | succ n ih =>
    intro hc
    obtain ⟨r, a, b⟩ := ih fun i hi => hc i (by omega)
    have hcol : Val (fieldOps A) exps σ 0 false (eCol .cm n) (cm n) := .col (t := .cm) (i := n) rfl rfl rfl (hc n (by omega))
    have hstep : (friCm (n + 1) : Expr A) = if isNop (friCm n : Expr A) then eCol .cm n else eAdd (eMul (eChallenge 5) (friCm n)) (eCol .cm n) := by
      rw [friCm, List.range_succ, List.foldl_append]
      rfl
    rw [hstep, List.range_succ, List.map_append, List.map_singleton, horner_snoc]
    rcases Nat.eq_zero_or_pos n with h0 | h0
    · rw [if_pos (a h0)]
      subst h0
      refine ⟨rfl, fun h => by simp at h, fun _ => ⟨rfl, ?_⟩⟩
      simpa [horner] using hcol
    · obtain ⟨b1, b2⟩ := b (by omega)
      rw [if_neg (by rw [b1]; simp)]
      refine ⟨refs_eAdd (refs_eMul rfl r) rfl, fun h => by simp at h, fun _ => ⟨rfl, ?_⟩⟩
      rw [mul_comm]
      exact val_eAdd (val_eMul (.byId (t := .challenge) (i := 5) rfl rfl h5) b2) hcol

theorem friEv_spec {col ev : EvKey → A} {vf2 : A} (h6 : σ .challenge 6 false = some vf2) : ∀ (evMap : List EvKey),
    (∀ k ∈ evMap, (k.1 = .cm ∨ k.1 = .const_) ∧ σ k.1 k.2.2 false = some (col k)) →
    (∀ (i : Nat) k, evMap[i]? = some k → σ .eval i false = some (ev k)) →
    ∃ f, friEv evMap = some f ∧ refs f.1 = [] ∧ refs f.2 = [] ∧
      (isNop f.1 = decide (diffs col ev evMap false = [])) ∧ (isNop f.2 = decide (diffs col ev evMap true = [])) ∧
      (isNop f.1 = false → Val (fieldOps A) exps σ 0 false f.1 (horner vf2 (diffs col ev evMap false))) ∧
      (isNop f.2 = false → Val (fieldOps A) exps σ 0 false f.2 (horner vf2 (diffs col ev evMap true))) := by
  intro evMap
  induction evMap using List.reverseRecOn with
  | nil => intro _ _; exact ⟨(eNop, eNop), rfl, rfl, rfl, by simp [diffs, isNop_eNop], by simp [diffs, isNop_eNop], by simp [isNop_eNop], by simp [isNop_eNop]⟩
  | append_singleton l k ih =>
    intro hcol hev
    obtain ⟨f, f0, f1, f2, f3, f4, f5, f6⟩ := ih (fun k hk => hcol k (by simp [hk]))
      (fun i k hk => hev i k (prefix_getElem? (List.prefix_append _ _) hk))
    obtain ⟨hty, hk⟩ := hcol k (by simp)
    have hek := hev l.length k (by simp)
    have hlast : ∀ (o : Op), colTy o = some k.1 → refs (eSub (eCol o k.2.2) (eEval l.length) : Expr A) = [] ∧
        Val (fieldOps A) exps σ 0 false (eSub (eCol o k.2.2) (eEval l.length)) (col k - ev k) := by
      intro o ho
      refine ⟨?_, ?_⟩
      · cases o <;> simp [colTy] at ho <;> rfl
      · exact val_eSub (.col (t := k.1) (i := k.2.2) ho rfl rfl (by simpa using hk)) (.byId (t := .eval) (i := l.length) rfl rfl hek)
    obtain ⟨o, ho, hsel⟩ : ∃ o, colTy o = some k.1 ∧ (if k.1 = .cm then some (eCol .cm k.2.2 : Expr A) else
        if k.1 = .const_ then some (eCol .const_ k.2.2) else none) = some (eCol o k.2.2) := by
      rcases hty with h | h
      · exact ⟨.cm, by rw [h]; rfl, by rw [if_pos h]⟩
      · exact ⟨.const_, by rw [h]; rfl, by rw [h]; rfl⟩
    obtain ⟨hr, hval⟩ := hlast o ho
    have hstep : friEv (l ++ [k]) = some (
        let cur := if k.2.1 then f.2 else f.1
        let new := if isNop cur then eSub (eCol o k.2.2 : Expr A) (eEval l.length) else
          eAdd (eMul cur (eChallenge 6)) (eSub (eCol o k.2.2) (eEval l.length))
        if k.2.1 then (f.1, new) else (new, f.2)) := by
      unfold friEv at f0 ⊢
      rw [List.zipIdx_append, List.foldlM_append, f0]
      simp only [List.zipIdx_cons, List.zipIdx_nil, List.foldlM_cons, List.foldlM_nil, Nat.zero_add]
      rw [hsel]
      rfl
    have key : ∀ (g : Expr A) (ds : List A), refs g = [] → isNop g = decide (ds = []) →
        (isNop g = false → Val (fieldOps A) exps σ 0 false g (horner vf2 ds)) →
        ∀ new, new = (if isNop g then eSub (eCol o k.2.2 : Expr A) (eEval l.length) else
          eAdd (eMul g (eChallenge 6)) (eSub (eCol o k.2.2) (eEval l.length))) →
        refs new = [] ∧ isNop new = decide (ds ++ [col k - ev k] = []) ∧
          (isNop new = false → Val (fieldOps A) exps σ 0 false new (horner vf2 (ds ++ [col k - ev k]))) := by
      rintro g ds g1 g2 g3 new rfl
      rw [horner_snoc]
      by_cases hd : ds = []
      · subst hd
        rw [if_pos (by rw [g2]; simp)]
        exact ⟨hr, by simp [isNop_eSub], fun _ => by simpa [horner] using hval⟩
      · rw [if_neg (by rw [g2]; simp [hd])]
        refine ⟨refs_eAdd (refs_eMul g1 rfl) hr, by simp [isNop_eAdd], fun _ => ?_⟩
        exact val_eAdd (val_eMul (g3 (by rw [g2]; simp [hd])) (.byId (t := .challenge) (i := 6) rfl rfl h6)) hval
    have hd : ∀ p, diffs col ev (l ++ [k]) p = if k.2.1 = p then diffs col ev l p ++ [col k - ev k] else diffs col ev l p := by
      intro p
      unfold diffs
      rw [List.filter_append]
      by_cases h : k.2.1 = p <;> simp [h]
    rw [hstep]
    refine ⟨_, rfl, ?_⟩
    dsimp only
    rw [hd, hd]
    cases hp : k.2.1
    · obtain ⟨a, b, c⟩ := key f.1 _ f1 f3 f5 _ rfl
      simp only [Bool.false_eq_true, if_false, if_true]
      exact ⟨a, f2, b, f4, c, f6⟩
    · obtain ⟨a, b, c⟩ := key f.2 _ f2 f4 f6 _ rfl
      simp only [Bool.true_eq_false, if_false, if_true]
      exact ⟨f1, a, f3, b, f5, c⟩

/-- **C74**: with at least one committed column and one opening at `xi`, the FRI expression exists, has no references, and its
value at a row is `friValue` of the columns of that row and the openings. -/
theorem friExpr_spec {nCm : Nat} {evMap : List EvKey} {cm : Nat → A} {col ev : EvKey → A} {vf1 vf2 xd xdw : A}
    (h5 : σ .challenge 5 false = some vf1) (h6 : σ .challenge 6 false = some vf2)
    (hxd : σ .xDivXSubXi 0 false = some xd) (hxdw : σ .xDivXSubWXi 0 false = some xdw) (hn : nCm ≠ 0)
    (hne : ∃ k ∈ evMap, k.2.1 = false) (hcm : ∀ i < nCm, σ .cm i false = some (cm i))
    (hcol : ∀ k ∈ evMap, (k.1 = .cm ∨ k.1 = .const_) ∧ σ k.1 k.2.2 false = some (col k))
    (hev : ∀ (i : Nat) k, evMap[i]? = some k → σ .eval i false = some (ev k)) :
    ∃ e, friExpr nCm evMap = some e ∧ refs e = [] ∧ Val (fieldOps A) exps σ 0 false e
      (friValue vf1 vf2 ((List.range nCm).map cm) (diffs col ev evMap false) (diffs col ev evMap true) xd xdw) := by
  obtain ⟨f, f0, f1, f2, f3, f4, f5, f6⟩ := friEv_spec (exps := exps) (σ := σ) h6 evMap hcol hev
  obtain ⟨c1, -, c2⟩ := friCm_spec (exps := exps) (σ := σ) h5 nCm hcm
  obtain ⟨c2, c3⟩ := c2 hn
  have hd1 : diffs col ev evMap false ≠ [] := by
    obtain ⟨k, hk, hp⟩ := hne
    intro h
    unfold diffs at h
    rw [List.map_eq_nil_iff, List.filter_eq_nil_iff] at h
    exact h k hk (by simp [hp])
  have hv1 := val_eAdd (val_eMul (.byId (t := .challenge) (i := 5) rfl rfl h5 : Val (fieldOps A) exps σ 0 false (eChallenge 5) vf1) c3)
    (val_eMul (f5 (by rw [f3]; simp [hd1])) (.nullary (l := { op := .xDivXSubXi }) (t := .xDivXSubXi) rfl hxd))
  have hr1 := refs_eAdd (refs_eMul (rfl : refs (eChallenge 5 : Expr A) = []) c1) (refs_eMul f1 (rfl : refs (.node { op := .xDivXSubXi } [] : Expr A) = []))
  unfold friExpr friValue
  rw [f0, Option.bind_some]
  dsimp only
  simp only [c2, f4, Bool.false_eq_true, if_false, isNop_eAdd]
  by_cases hd2 : diffs col ev evMap true = []
  · simp only [hd2, decide_true, if_true, isNop_eAdd, Bool.false_eq_true, if_false]
    exact ⟨_, rfl, hr1, hv1⟩
  · simp only [hd2, decide_false, Bool.false_eq_true, if_false, isNop_eAdd]
    exact ⟨_, rfl, refs_eAdd (refs_eMul rfl hr1) (refs_eMul f2 rfl),
      val_eAdd (val_eMul (.byId (t := .challenge) (i := 5) rfl rfl h5) hv1)
        (val_eMul (f6 (by rw [f4]; simp [hd2])) (.nullary (l := { op := .xDivXSubWXi }) (t := .xDivXSubWXi) rfl hxdw))⟩

/-! ### Low degree -/

theorem natDegree_horner_lt {n : Nat} (hn : 0 < n) (a : A) {l : List A[X]} (h : ∀ p ∈ l, p.natDegree < n) : (horner (C a) l).natDegree < n := by
  induction l using List.reverseRecOn with
  | nil => simpa [horner] using hn
  | append_singleton l p ih =>
    rw [horner_snoc]
    refine lt_of_le_of_lt (natDegree_add_le _ _) (max_lt ?_ (h p (by simp)))
    refine lt_of_le_of_lt (natDegree_mul_C_le _ _) (ih fun p hp => h p (by simp [hp]))

theorem eval_horner (a : A) (l : List A[X]) (x : A) : (horner (C a) l).eval x = horner a (l.map (eval x)) := by
  induction l using List.reverseRecOn with
  | nil => simp [horner]
  | append_singleton l p ih => rw [horner_snoc, List.map_append, List.map_singleton, horner_snoc, eval_add, eval_mul, ih, eval_C]

theorem horner_mul (a c : A) (l : List A) : horner a l * c = horner a (l.map (· * c)) := by
  induction l using List.reverseRecOn with
  | nil => simp [horner]
  | append_singleton l p ih => rw [horner_snoc, List.map_append, List.map_singleton, horner_snoc, ← ih]; ring

/-- dividing out the opening: `(P - P(z)) * X / (X - z)` is a polynomial of degree at most that of `P` -/
theorem exists_quot (P : A[X]) (z : A) {n : Nat} (hP : P.natDegree < n) : ∃ D : A[X], D.natDegree < n ∧
    ∀ x, x ≠ z → D.eval x = (P.eval x - P.eval z) * (x / (x - z)) := by
  refine ⟨(P /ₘ (X - C z)) * X, ?_, ?_⟩
  · have h1 : (P /ₘ (X - C z)).natDegree = P.natDegree - 1 := by
      rw [natDegree_divByMonic _ (monic_X_sub_C z), natDegree_X_sub_C]
    rcases Nat.eq_zero_or_pos P.natDegree with h0 | h0
    · have h2 : P /ₘ (X - C z) = 0 := by
        rw [divByMonic_eq_zero_iff (monic_X_sub_C z), degree_X_sub_C]
        rw [eq_C_of_natDegree_eq_zero h0]
        exact lt_of_le_of_lt degree_C_le (by decide)
      rw [h2, zero_mul, natDegree_zero]
      omega
    · refine lt_of_le_of_lt natDegree_mul_le ?_
      rw [h1, natDegree_X]
      omega
  · intro x hx
    have hne : x - z ≠ 0 := sub_ne_zero.mpr hx
    have h := modByMonic_add_div P (X - C z)
    rw [modByMonic_X_sub_C_eq_C_eval] at h
    have he := congrArg (eval x) h
    simp only [eval_add, eval_C, eval_mul, eval_sub, eval_X] at he
    rw [eval_mul, eval_X, ← he]
    field_simp
    ring

/-- **C74**: if the columns are polynomials of degree below `n` and the openings are their values at `xi` (current row) and at
`wxi` (next row), the FRI polynomial is a polynomial of degree below `n`: `friValue` is its evaluation at every other point. -/
theorem fri_low_degree {n : Nat} (hn : 0 < n) {cms : List A[X]} (hcm : ∀ p ∈ cms, p.natDegree < n) {colP : EvKey → A[X]}
    {evMap : List EvKey} (hcol : ∀ k ∈ evMap, (colP k).natDegree < n) (vf1 vf2 xi wxi : A) :
    ∃ F : A[X], F.natDegree < n ∧ ∀ x, x ≠ xi → x ≠ wxi →
      F.eval x = friValue vf1 vf2 (cms.map (eval x))
        (diffs (fun k => (colP k).eval x) (fun k => (colP k).eval (if k.2.1 then wxi else xi)) evMap false)
        (diffs (fun k => (colP k).eval x) (fun k => (colP k).eval (if k.2.1 then wxi else xi)) evMap true)
        (x / (x - xi)) (x / (x - wxi)) := by
  classical
  have hpart : ∀ (p : Bool) (z : A), z = (if p then wxi else xi) → ∃ l : List A[X], (∀ q ∈ l, q.natDegree < n) ∧
      ∀ x, x ≠ z → l.map (eval x) = (diffs (fun k => (colP k).eval x) (fun k => (colP k).eval (if k.2.1 then wxi else xi)) evMap p).map
        (· * (x / (x - z))) := by
    intro p z hz
    choose! D hD1 hD2 using fun k (hk : (colP k).natDegree < n) => exists_quot (colP k) z hk
    refine ⟨(evMap.filter fun k => k.2.1 = p).map D, ?_, ?_⟩
    · intro q hq
      obtain ⟨k, hk, rfl⟩ := List.mem_map.mp hq
      exact hD1 k (hcol k (List.mem_of_mem_filter hk))
    · intro x hx
      unfold diffs
      rw [List.map_map, List.map_map]
      refine List.map_congr_left fun k hk => ?_
      obtain ⟨k1, k2⟩ := List.mem_filter.mp hk
      have k2 : k.2.1 = p := by simpa using k2
      simp only [Function.comp_apply]
      rw [hD2 k (hcol k k1) x hx, k2, ← hz]
  obtain ⟨l1, a1, b1⟩ := hpart false xi rfl
  obtain ⟨l2, a2, b2⟩ := hpart true wxi rfl
  have hC : ∀ (a : A) (P : A[X]), P.natDegree < n → (C a * P).natDegree < n := fun a P h =>
    lt_of_le_of_lt (natDegree_C_mul_le _ _) h
  have hadd : ∀ (P Q : A[X]), P.natDegree < n → Q.natDegree < n → (P + Q).natDegree < n := fun P Q h1 h2 =>
    lt_of_le_of_lt (natDegree_add_le _ _) (max_lt h1 h2)
  have hE : (C vf1 * horner (C vf1) cms + horner (C vf2) l1).natDegree < n :=
    hadd _ _ (hC _ _ (natDegree_horner_lt hn _ hcm)) (natDegree_horner_lt hn _ a1)
  have hnil : ∀ x y : A, (diffs (fun k => (colP k).eval x) (fun k => (colP k).eval (if k.2.1 then wxi else xi)) evMap true = []) ↔
      (evMap.filter fun k => k.2.1 = true) = [] := by
    intro x y
    unfold diffs
    rw [List.map_eq_nil_iff]
  by_cases h0 : (evMap.filter fun k => k.2.1 = true) = []
  · refine ⟨_, hE, fun x h1 h2 => ?_⟩
    unfold friValue
    rw [if_pos ((hnil x x).mpr h0), eval_add, eval_mul, eval_C, eval_horner, eval_horner, b1 x h1, horner_mul]
  · refine ⟨C vf1 * (C vf1 * horner (C vf1) cms + horner (C vf2) l1) + horner (C vf2) l2,
      hadd _ _ (hC _ _ hE) (natDegree_horner_lt hn _ a2), fun x h1 h2 => ?_⟩
    unfold friValue
    rw [if_neg (fun h => h0 ((hnil x x).mp h)), eval_add, eval_mul, eval_C, eval_add, eval_mul, eval_C, eval_horner, eval_horner,
      eval_horner, b1 x h1, b2 x h2, horner_mul, horner_mul]

/-- the store of the example -/
def exStore : Store ℚ := fun t i _ => match t with
  | .challenge => some (i : ℚ)
  | .xDivXSubXi => some 3
  | .xDivXSubWXi => some 2
  | .cm => some (10 * (i : ℚ))
  | .eval => some (i : ℚ)
  | _ => none

/-- non-vacuity of `friExpr_spec`: two columns, openings of both at `xi` and of the first at `w xi`, all values given -/
example : ∃ e, friExpr 2 [(.cm, false, 0), (.cm, true, 0), (.cm, false, 1)] = some e ∧ refs e = [] ∧
    Val (fieldOps ℚ) [] exStore 0 false e
      (friValue 5 6 [0, 10] [0 - 0, 10 - 2] [0 - 1] 3 2) := by
  have h := friExpr_spec (A := ℚ) (exps := []) (nCm := 2) (evMap := [(.cm, false, 0), (.cm, true, 0), (.cm, false, 1)])
    (σ := exStore)
    (cm := fun i => 10 * i) (col := fun k => 10 * k.2.2) (ev := fun k => if k.2.1 then 1 else if k.2.2 = 0 then 0 else 2)
    (vf1 := 5) (vf2 := 6) (xd := 3) (xdw := 2) (by simp [exStore]) (by simp [exStore]) rfl rfl (by decide) ⟨(.cm, false, 0), by simp⟩ (fun _ _ => rfl)
    (by simp [exStore]) (by
      intro i k h
      match i with
      | 0 => simp at h; subst h; simp [exStore]
      | 1 => simp at h; subst h; simp [exStore]
      | 2 => simp at h; subst h; simp [exStore]
      | i + 3 => simp at h)
  simpa [diffs, List.range_succ, friValue] using h

/-- non-vacuity of `fri_low_degree`: columns `X^7` and `X^3 + 2`, opened at 2 and (the first) at 6 -/
example : ∃ F : ℚ[X], F.natDegree < 8 ∧ ∀ x, x ≠ 2 → x ≠ 6 → F.eval x =
    friValue 3 5 [x ^ 7, x ^ 3 + 2] [x ^ 7 - 2 ^ 7, (x ^ 3 + 2) - (2 ^ 3 + 2)] [x ^ 7 - 6 ^ 7] (x / (x - 2)) (x / (x - 6)) := by
  have h := fri_low_degree (A := ℚ) (n := 8) (by decide) (cms := [X ^ 7, X ^ 3 + C 2])
    (by intro p hp
        simp only [List.mem_cons, List.not_mem_nil, or_false] at hp
        rcases hp with rfl | rfl
        · rw [natDegree_X_pow]; decide
        · rw [natDegree_X_pow_add_C]; decide)
    (colP := fun k => if k.2.2 = 0 then X ^ 7 else X ^ 3 + C 2) (evMap := [(.cm, false, 0), (.cm, true, 0), (.cm, false, 1)])
    (by intro k _
        split_ifs
        · rw [natDegree_X_pow]; decide
        · rw [natDegree_X_pow_add_C]; decide) 3 5 2 6
  simpa [diffs] using h

end

end Verif.Stark
