import Verif.StarkInfo.ImPolsProps

namespace Verif.ImPols
open Verif.Codegen Spec

variable {E : Type} {exps : List (Expr E)} {absMax : Nat}

theorem uniform {P : Nat → Expr E → Prop} (vs : List (Expr E)) (h : ∀ v ∈ vs, ∃ N, ∀ n ≥ N, P n v) :
    ∃ N, ∀ n ≥ N, ∀ v ∈ vs, P n v := by
  induction vs with
  | nil => exact ⟨0, by simp⟩
  | cons v vs ih =>
    obtain ⟨N1, h1⟩ := h v (by simp)
    obtain ⟨N2, h2⟩ := ih (fun w hw => h w (by simp [hw]))
    refine ⟨max N1 N2, ?_⟩
    intro n hn w hw
    rcases List.mem_cons.mp hw with rfl | hw
    · exact h1 n (by omega)
    · exact h2 n (by omega) w hw

theorem dimFold_total {f : Expr E → Option Int} (vs : List (Expr E)) (h : ∀ v ∈ vs, ∃ d, f v = some d) (md : Int) :
    ∃ d, dimFold f vs md = some d := by
  induction vs generalizing md with
  | nil => exact ⟨md, rfl⟩
  | cons v vs ih =>
    obtain ⟨d, hd⟩ := h v (by simp)
    rw [dimFold, hd, Option.bind_some]
    exact ih (fun w hw => h w (by simp [hw])) _

theorem getExpDim_total {e : Expr E} (hc : Closed exps e) : ∃ N, ∀ n ≥ N, ∃ d, getExpDim exps n e = some d := by
  induction hc with
  | @lin l vs ho _ ih =>
    obtain ⟨N, hN⟩ := uniform vs ih
    refine ⟨N + 1, ?_⟩
    intro n hn
    obtain ⟨n, rfl⟩ : ∃ j, n = j + 1 := ⟨n - 1, by omega⟩
    obtain ⟨d, hd⟩ := dimFold_total vs (fun v hv => hN n (by omega) v hv) 1
    refine ⟨d, ?_⟩
    rw [getExpDim]
    cases hop : l.op <;> simp_all [linOp]
  | @leaf l vs ho =>
    refine ⟨1, ?_⟩
    intro n hn
    obtain ⟨n, rfl⟩ : ∃ j, n = j + 1 := ⟨n - 1, by omega⟩
    rw [getExpDim]
    cases hop : l.op <;> simp_all [constOp, varOp]
  | @mul l a b ho _ _ iha ihb =>
    obtain ⟨N1, h1⟩ := iha
    obtain ⟨N2, h2⟩ := ihb
    refine ⟨max N1 N2 + 1, ?_⟩
    intro n hn
    obtain ⟨n, rfl⟩ : ∃ j, n = j + 1 := ⟨n - 1, by omega⟩
    obtain ⟨x, hx⟩ := h1 n (by omega)
    obtain ⟨y, hy⟩ := h2 n (by omega)
    refine ⟨x + y, ?_⟩
    rw [getExpDim]
    simp [ho, hx, hy]
  | @exp l vs i e ho hi he _ ih =>
    obtain ⟨N, hN⟩ := ih
    refine ⟨N + 1, ?_⟩
    intro n hn
    obtain ⟨n, rfl⟩ : ∃ j, n = j + 1 := ⟨n - 1, by omega⟩
    obtain ⟨d, hd⟩ := hN n (by omega)
    refine ⟨d, ?_⟩
    rw [getExpDim]
    simp [ho, hi, he, hd]

/-- the call returns, and returns a selection when the bound covers the inline degree -/
def Works (exps : List (Expr E)) (absMax n : Nat) (e : Expr E) : Prop :=
  (∀ im m A, ∃ r, imCalc exps absMax n e im m A = some r) ∧
  (∀ S m A k, InLe e k → k ≤ m → ∃ T d A', imCalc exps absMax n e (some S) m A = some ((some T, d), A'))

theorem linFold_total {f : Expr E → Option (Finset Nat) → Int → Option Res} (vs : List (Expr E))
    (h : ∀ v ∈ vs, ∀ im A, ∃ r, f v im A = some r) (im : Option (Finset Nat)) (md A : Int) : ∃ r, linFold f vs im md A = some r := by
  induction vs generalizing im md A with
  | nil => exact ⟨_, rfl⟩
  | cons v vs ih =>
    obtain ⟨r, hr⟩ := h v (by simp) im A
    rw [linFold, hr, Option.bind_some]
    exact ih (fun w hw => h w (by simp [hw])) _ _ _

theorem linFold_some {f : Expr E → Option (Finset Nat) → Int → Option Res} (vs : List (Expr E))
    (h : ∀ v ∈ vs, ∀ S A, ∃ T d A', f v (some S) A = some ((some T, d), A')) (S : Finset Nat) (md A : Int) :
    ∃ T d A', linFold f vs (some S) md A = some ((some T, d), A') := by
  induction vs generalizing S md A with
  | nil => exact ⟨S, md, A, rfl⟩
  | cons v vs ih =>
    obtain ⟨T, d, A', hr⟩ := h v (by simp) S A
    rw [linFold, hr, Option.bind_some]
    exact ih (fun w hw => h w (by simp [hw])) _ _ _

theorem mulLoop_total {f : Expr E → Option (Finset Nat) → Nat → Int → Option Res} {a b : Expr E}
    (ha : ∀ im m A, ∃ r, f a im m A = some r) (hb : ∀ im m A, ∃ r, f b im m A = some r) (im : Option (Finset Nat)) (m : Nat)
    (ls : List Nat) (eb : Option (Finset Nat)) (ed A : Int) : ∃ r, mulLoop f a b im m ls eb ed A = some r := by
  induction ls generalizing eb ed A with
  | nil => exact ⟨_, rfl⟩
  | cons l ls ih =>
    rw [mulLoop]
    obtain ⟨r1, h1⟩ := ha im l A
    obtain ⟨r2, h2⟩ := hb r1.1.1 (m - l) r1.2
    simp only [h1, h2, Option.bind_some]
    split
    · exact ⟨_, rfl⟩
    · exact ih _ _ _

theorem mulLoop_some {f : Expr E → Option (Finset Nat) → Nat → Int → Option Res} {a b : Expr E} {im : Option (Finset Nat)} {m : Nat}
    (ls : List Nat) (eb : Option (Finset Nat)) (ed A : Int) (r : Res)
    (hgood : (∃ T, eb = some T) ∨ ∃ l ∈ ls, ∀ A r1 r2, f a im l A = some r1 → f b r1.1.1 (m - l) r1.2 = some r2 → ∃ T, r2.1.1 = some T)
    (h : mulLoop f a b im m ls eb ed A = some r) : ∃ T, r.1.1 = some T := by
  induction ls generalizing eb ed A with
  | nil =>
    simp only [mulLoop, Option.some.injEq] at h
    subst h
    rcases hgood with h | ⟨l, hl, _⟩
    · exact h
    · simp at hl
  | cons l ls ih =>
    rw [mulLoop] at h
    obtain ⟨r1, h1, h⟩ := Option.bind_eq_some_iff.mp h
    obtain ⟨r2, h2, h⟩ := Option.bind_eq_some_iff.mp h
    dsimp only at h
    have hpick : ((∃ T, eb = some T) ∨ ∃ T, r2.1.1 = some T) → ∃ T, (pick r2.1.1 (r1.1.2 + r2.1.2) eb ed).1 = some T := by
      intro hh
      generalize r2.1.1 = e2 at hh
      cases e2 <;> cases eb <;> simp_all [pick]
      split <;> exact ⟨_, rfl⟩
    have hg : (∃ T, (pick r2.1.1 (r1.1.2 + r2.1.2) eb ed).1 = some T) ∨
        ∃ l ∈ ls, ∀ A r1 r2, f a im l A = some r1 → f b r1.1.1 (m - l) r1.2 = some r2 → ∃ T, r2.1.1 = some T := by
      rcases hgood with hh | ⟨l', hl', hh⟩
      · exact .inl (hpick (.inl hh))
      · rcases List.mem_cons.mp hl' with rfl | hl'
        · exact .inl (hpick (.inr (hh _ _ _ h1 h2)))
        · exact .inr ⟨l', hl', hh⟩
    split at h
    · rename_i hd
      simp only [Option.some.injEq] at h
      subst h
      unfold done at hd
      split at hd
      · rename_i e1 e2; exact ⟨_, e1⟩
      · simp at hd
    · exact ih _ _ _ hg h

set_option maxHeartbeats 1000000 in
theorem imCalc_works (hin : ∀ (i : Nat) e, exps[i]? = some e → InLe e absMax) {e : Expr E} (hc : Closed exps e) :
    ∃ N, ∀ n ≥ N, Works exps absMax n e := by
  have nn : ∀ n (e : Expr E) m A, ∃ r, imCalc exps absMax (n + 1) e none m A = some r := fun n e m A => ⟨_, rfl⟩
  induction hc with
  | @lin l vs ho _ ih =>
    obtain ⟨N, hN⟩ := uniform vs ih
    refine ⟨N + 1, ?_⟩
    intro n hn
    obtain ⟨n, rfl⟩ : ∃ j, n = j + 1 := ⟨n - 1, by omega⟩
    have hw := hN n (by omega)
    refine ⟨?_, ?_⟩
    · intro im m A
      cases im with
      | none => exact nn n _ m A
      | some S =>
        rw [imCalc, if_pos ho]
        exact linFold_total vs (fun v hv im A => (hw v hv).1 im m A) _ _ _
    · intro S m A k hk hm
      rw [imCalc, if_pos ho]
      cases hk with
      | lin _ hvs => exact linFold_some vs (fun v hv S A => (hw v hv).2 S m A k (hvs v hv) hm) _ _ _
      | _ => cases hop : l.op <;> simp_all [linOp, constOp, varOp]
  | @leaf l vs ho =>
    refine ⟨1, ?_⟩
    intro n hn
    obtain ⟨n, rfl⟩ : ∃ j, n = j + 1 := ⟨n - 1, by omega⟩
    have hl : ¬linOp l.op = true := by cases hop : l.op <;> simp_all [linOp, constOp, varOp]
    refine ⟨?_, ?_⟩
    · intro im m A
      cases im with
      | none => exact nn n _ m A
      | some S =>
        rw [imCalc, if_neg hl]
        by_cases h1 : constOp l.op = true
        · rw [if_pos h1]; exact ⟨_, rfl⟩
        · rw [if_neg h1, if_pos (ho.resolve_left h1)]
          by_cases h2 : m < 1
          · rw [if_pos h2]; exact ⟨_, rfl⟩
          · rw [if_neg h2]; exact ⟨_, rfl⟩
    · intro S m A k hk hm
      rw [imCalc, if_neg hl]
      by_cases h1 : constOp l.op = true
      · rw [if_pos h1]; exact ⟨_, _, _, rfl⟩
      · have hv := ho.resolve_left h1
        rw [if_neg h1, if_pos hv]
        have : 1 ≤ k := by
          cases hk with
          | var _ h => exact h
          | _ => cases hop : l.op <;> simp_all [linOp, constOp, varOp]
        rw [if_neg (by omega)]
        exact ⟨_, _, _, rfl⟩
  | @mul l a b ho ca cb iha ihb =>
    obtain ⟨N1, h1⟩ := iha
    obtain ⟨N2, h2⟩ := ihb
    obtain ⟨N3, h3⟩ := getExpDim_total (Closed.mul ho ca cb)
    refine ⟨max N3 (max N1 N2 + 1) + 1, ?_⟩
    intro n hn
    obtain ⟨n, rfl⟩ : ∃ j, n = j + 1 := ⟨n - 1, by omega⟩
    have w1 := h1 n (by omega)
    have w2 := h2 n (by omega)
    obtain ⟨dim, hdim⟩ := h3 (n + 1) (by omega)
    have e1 : ¬linOp l.op = true := by rw [ho]; exact Bool.false_ne_true
    have e2 : ¬constOp l.op = true := by rw [ho]; exact Bool.false_ne_true
    have e3 : ¬varOp l.op = true := by rw [ho]; exact Bool.false_ne_true
    have unf : ∀ S m A, imCalc exps absMax (n + 1) (.node l [a, b]) (some S) m A =
        if constOp a.label.op then imCalc exps absMax n b (some S) m A
        else if constOp b.label.op then imCalc exps absMax n a (some S) m A
        else if dim ≤ m then some ((some S, dim), A)
        else mulLoop (imCalc exps absMax n) a b (some S) m (List.range (m + 1)) none (-1) A := by
      intro S m A
      rw [imCalc, if_neg e1, if_neg e2, if_neg e3, if_pos ho, hdim]
      rfl
    refine ⟨?_, ?_⟩
    · intro im m A
      cases im with
      | none => exact nn n _ m A
      | some S =>
        rw [unf]
        split
        · exact w2.1 _ _ _
        split
        · exact w1.1 _ _ _
        split
        · exact ⟨_, rfl⟩
        · exact mulLoop_total w1.1 w2.1 _ _ _ _ _ _
    · intro S m A k hk hm
      obtain ⟨x, y, hx, hy, hxy⟩ : ∃ x y, InLe a x ∧ InLe b y ∧ x + y ≤ k := by
        cases hk with
        | mul _ hx hy hxy => exact ⟨_, _, hx, hy, hxy⟩
        | _ => simp_all [constOp]
      rw [unf]
      split
      · exact w2.2 S m A y hy (by omega)
      split
      · exact w1.2 S m A x hx (by omega)
      split
      · exact ⟨_, _, _, rfl⟩
      · obtain ⟨r, hr⟩ := mulLoop_total w1.1 w2.1 (some S) m (List.range (m + 1)) none (-1) A
        have hgood : ∀ A r1 r2, imCalc exps absMax n a (some S) x A = some r1 →
            imCalc exps absMax n b r1.1.1 (m - x) r1.2 = some r2 → ∃ T, r2.1.1 = some T := by
          intro A r1 r2 q1 q2
          obtain ⟨T1, d1, A1, q3⟩ := w1.2 S x A x hx (le_refl _)
          rw [q3] at q1
          simp only [Option.some.injEq] at q1
          subst q1
          obtain ⟨T2, d2, A2, q4⟩ := w2.2 T1 (m - x) A1 y hy (by omega)
          rw [q4] at q2
          simp only [Option.some.injEq] at q2
          subst q2
          exact ⟨T2, rfl⟩
        obtain ⟨T, hT⟩ := mulLoop_some _ _ _ _ _ (.inr ⟨x, by rw [List.mem_range]; omega, hgood⟩) hr
        obtain ⟨⟨im, d⟩, A'⟩ := r
        dsimp only at hT
        subst hT
        exact ⟨T, d, A', hr⟩
  | @exp l vs i e ho hi he _ ih =>
    obtain ⟨N, hN⟩ := ih
    refine ⟨N + 1, ?_⟩
    intro n hn
    obtain ⟨n, rfl⟩ : ∃ j, n = j + 1 := ⟨n - 1, by omega⟩
    have hw := hN n (by omega)
    have e1 : ¬linOp l.op = true := by rw [ho]; exact Bool.false_ne_true
    have e2 : ¬constOp l.op = true := by rw [ho]; exact Bool.false_ne_true
    have e3 : ¬varOp l.op = true := by rw [ho]; exact Bool.false_ne_true
    have e4 : ¬l.op = .mul := by rw [ho]; simp
    have unf : ∀ S m A, imCalc exps absMax (n + 1) (.node l vs) (some S) m A =
        if m < 1 then some ((none, -1), A) else if i ∈ S then some ((some S, 1), A)
        else (imCalc exps absMax n e (some S) absMax A).map (expRes i m) := by
      intro S m A
      rw [imCalc, if_neg e1, if_neg e2, if_neg e3, if_neg e4, if_pos ho, hi, Option.bind_some, he, Option.bind_some]
    refine ⟨?_, ?_⟩
    · intro im m A
      cases im with
      | none => exact nn n _ m A
      | some S =>
        rw [unf]
        split
        · exact ⟨_, rfl⟩
        split
        · exact ⟨_, rfl⟩
        · obtain ⟨r, hr⟩ := hw.1 (some S) absMax A
          rw [hr]
          exact ⟨_, rfl⟩
    · intro S m A k hk hm
      have : 1 ≤ k := by
        cases hk with
        | exp _ h => exact h
        | _ => simp_all
      rw [unf, if_neg (by omega)]
      split
      · exact ⟨_, _, _, rfl⟩
      · obtain ⟨T, d, A', hr⟩ := hw.2 S absMax A absMax (hin i e he) (le_refl _)
        rw [hr]
        simp only [Option.map_some, expRes]
        split
        · exact ⟨_, _, _, rfl⟩
        · exact ⟨_, _, _, rfl⟩

/-- **C45, feasibility.**  When the expressions only use the supported operators, references terminate, and every expression
has degree at most `maxDeg` counting each reference as one column (for PIL, `maxDeg = 2` suffices), the selection succeeds
for the bound `maxDeg`. -/
theorem calculate_im_pols_feasible (exps : List (Expr E)) (c : Expr E) (maxDeg : Nat) (hc : Closed exps c) (hin0 : InLe c maxDeg)
    (hin : ∀ (i : Nat) e, exps[i]? = some e → InLe e maxDeg) :
    ∃ N, ∀ fuel ≥ N, ∃ S q, calculateImPols fuel exps c maxDeg = some (some S, q) := by
  obtain ⟨N, hN⟩ := imCalc_works (absMax := maxDeg) hin hc
  refine ⟨N, ?_⟩
  intro fuel hf
  obtain ⟨T, d, A, h⟩ := (hN fuel hf).2 ∅ maxDeg 0 maxDeg hin0 (le_refl _)
  exact ⟨T, _, by rw [calculateImPols, h]; rfl⟩

theorem mapM_mem {α β : Type} {f : α → Option β} {l : List α} {r : List β} (h : l.mapM f = some r) : ∀ x ∈ l, ∃ y, f x = some y := by
  induction l generalizing r with
  | nil => simp
  | cons a l ih =>
    rw [List.mapM_cons] at h
    obtain ⟨y, hy, h⟩ := Option.bind_eq_some_iff.mp h
    obtain ⟨ys, hys, -⟩ := Option.bind_eq_some_iff.mp h
    intro x hx
    rcases List.mem_cons.mp hx with rfl | hx
    · exact ⟨y, hy⟩
    · exact ih hys x hx

open Polynomial in
/-- **C45, constraint polynomial of a quadratic program.**  When references between expressions terminate and every
expression is at most quadratic in columns and references, the constraint polynomial built by
`generate_constraint_polynomial` has degree at most `(q_deg + 1) * (N - 1)`, its quotient by `X ^ N - 1` fits in `q_deg`
columns of `N` coefficients, and `q_deg` is at most the blow-up factor. -/
theorem generate_degree {R : Type} [CommRing R] [Nontrivial R] (fuel : Nat) (exps : List (Expr R)) (ids : List Nat)
    (nCommitments extBits : Nat) (hext : extBits < 30) (S : Finset Nat) (q : Nat) (c' : Expr R)
    (hclosed : ∀ c, identExp ids = some c → Closed exps c ∧ InLe c 2)
    (hin : ∀ (i : Nat) e, exps[i]? = some e → InLe e 2)
    (h : generate fuel exps ids nCommitments (2 ^ extBits + 1) = some (S, q, c'))
    (env : Env R) (N : Nat) (hN : 0 < N) (hB : env.Bounded (N - 1)) :
    q ≤ 2 ^ extBits ∧ ∀ p f, PolyOf exps S env p c' f → f.natDegree ≤ (q + 1) * (N - 1) ∧
      ∀ t : R[X], f = t * (X ^ N - 1) → t.degree < q * N := by
  have h2 : 2 ≤ 2 ^ extBits + 1 := by have := Nat.one_le_two_pow (n := extBits); omega
  have hb : 2 ^ extBits + 1 < 2 ^ 31 := by
    have := Nat.pow_lt_pow_right (a := 2) (by omega) hext
    omega
  have feasible : ∃ d, 2 ≤ d ∧ d ≤ 2 ^ extBits + 1 ∧ ∃ c T qi, identExp ids = some c ∧
      calculateImPols fuel exps c d = some (some T, qi) := by
    have h0 := h
    obtain ⟨c, hc, h⟩ := Option.bind_eq_some_iff.mp h
    obtain ⟨st, hs, -⟩ := Option.bind_eq_some_iff.mp h
    obtain ⟨rs, h1, -⟩ := Option.map_eq_some_iff.mp hs
    obtain ⟨r, hr⟩ := mapM_mem h1 2 (by rw [List.mem_range'_1]; omega)
    obtain ⟨hcl, hil⟩ := hclosed c hc
    obtain ⟨M, hM⟩ := calculate_im_pols_feasible exps c 2 hcl hil hin
    obtain ⟨T, qi, hT⟩ := hM (max M fuel) (by omega)
    obtain ⟨r1, e1, e2⟩ := Option.map_eq_some_iff.mp hr
    obtain ⟨r2, e3, e4⟩ := Option.map_eq_some_iff.mp hT
    have := imCalc_unique e1 e3
    subst this
    rw [e4] at e2
    subst e2
    exact ⟨2, le_refl _, h2, c, T, qi, hc, hr⟩
  obtain ⟨k1, k2⟩ := generate_degree_of_feasible fuel exps ids nCommitments (2 ^ extBits + 1) hb S q c' h feasible env N hN hB
  exact ⟨by omega, k2⟩

/-- the hypotheses of `generate_degree` are satisfied by the first two example expressions -/
example : (∀ c, identExp [1] = some c → Closed (exExps.take 2) c ∧ InLe c 2) ∧
    (∀ (i : Nat) e, (exExps.take 2)[i]? = some e → InLe e 2) := by
  have cm : ∀ i, Closed (exExps.take 2) (cmE i) := fun i => .leaf (.inr rfl)
  have e0 : Closed (exExps.take 2) (expE 0) := .exp rfl rfl rfl (.mul rfl (cm 0) (cm 1))
  refine ⟨?_, ?_⟩
  · intro c hc
    simp only [identExp, List.foldl, combine, Option.some.injEq] at hc
    subst hc
    exact ⟨.exp rfl rfl rfl (.mul rfl e0 e0), .exp rfl (by omega)⟩
  · intro i e he
    match i, he with
    | 0, he =>
      simp [exExps] at he
      subst he
      exact .mul rfl (.var (d := 1) rfl (le_refl _)) (.var (d := 1) rfl (le_refl _)) (by omega)
    | 1, he =>
      simp [exExps] at he
      subst he
      exact .mul rfl (.exp (d := 1) rfl (le_refl _)) (.exp (d := 1) rfl (le_refl _)) (by omega)
    | i + 2, he => simp [exExps] at he

/-- Among the feasible bounds, the chosen one minimises the number of committed columns (selected expressions plus
quotient columns), provided that every feasible bound needs a quotient. -/
theorem selectLoop_minimal (fuel : Nat) (exps : List (Expr E)) (c : Expr E) (maxDeg : Nat) (S : Finset Nat) (q : Nat)
    (h : selectLoop fuel exps c maxDeg = some (S, q))
    (hpos : ∀ d T qi, 2 ≤ d → d ≤ maxDeg → calculateImPols fuel exps c d = some (some T, qi) → asUsize qi ≠ 0)
    (d : Nat) (hd : 2 ≤ d) (hd' : d ≤ maxDeg) (T : Finset Nat) (qi : Int) (hT : calculateImPols fuel exps c d = some (some T, qi)) :
    S.card + q ≤ T.card + asUsize qi := by
  obtain ⟨rs, h1, h2⟩ := Option.map_eq_some_iff.mp h
  have main : ∀ (ds : List Nat) (rs) (st : Finset Nat × Nat), ds.mapM (calculateImPols fuel exps c) = some rs →
      (∀ d ∈ ds, 2 ≤ d ∧ d ≤ maxDeg) →
      (st.2 ≠ 0 → (rs.foldl selectStep st).1.card + (rs.foldl selectStep st).2 ≤ st.1.card + st.2) ∧
      ∀ d ∈ ds, ∀ T qi, calculateImPols fuel exps c d = some (some T, qi) →
        (rs.foldl selectStep st).1.card + (rs.foldl selectStep st).2 ≤ T.card + asUsize qi := by
    intro ds
    induction ds with
    | nil =>
      intro rs st h1 _
      simp only [List.mapM_nil, Option.pure_def, Option.some.injEq] at h1
      subst h1
      simp
    | cons d ds ih =>
      intro rs st h1 hds
      rw [List.mapM_cons] at h1
      obtain ⟨r, hr, h1⟩ := Option.bind_eq_some_iff.mp h1
      obtain ⟨rs', hrs, h1⟩ := Option.bind_eq_some_iff.mp h1
      simp only [Option.pure_def, Option.some.injEq] at h1
      subst h1
      rw [List.foldl_cons]
      obtain ⟨i1, i2⟩ := ih _ (selectStep st r) hrs (fun d hd => hds d (by simp [hd]))
      obtain ⟨im, qi⟩ := r
      have hstep : (∀ T, im = some T → (selectStep st (im, qi)).2 ≠ 0 ∧
          (selectStep st (im, qi)).1.card + (selectStep st (im, qi)).2 ≤ T.card + asUsize qi) ∧
          (st.2 ≠ 0 → (selectStep st (im, qi)).2 ≠ 0 ∧
            (selectStep st (im, qi)).1.card + (selectStep st (im, qi)).2 ≤ st.1.card + st.2) := by
        cases im with
        | none => exact ⟨by simp, fun h => ⟨h, le_refl _⟩⟩
        | some T =>
          have hq := hpos d T qi (hds d (by simp)).1 (hds d (by simp)).2 hr
          simp only [selectStep]
          split
          · rename_i hc
            refine ⟨?_, ?_⟩
            · intro T' hT'
              simp only [Option.some.injEq] at hT'
              subst hT'
              exact ⟨hq, le_refl _⟩
            · intro h0
              have := hc.resolve_left h0
              exact ⟨hq, by dsimp only; omega⟩
          · rename_i hc
            simp only [not_or, not_lt] at hc
            refine ⟨?_, fun h0 => ⟨h0, le_refl _⟩⟩
            intro T' hT'
            simp only [Option.some.injEq] at hT'
            subst hT'
            exact ⟨hc.1, hc.2⟩
      refine ⟨?_, ?_⟩
      · intro h0
        obtain ⟨a1, a2⟩ := hstep.2 h0
        exact le_trans (i1 a1) a2
      · intro d' hd' T' q' hT'
        rcases List.mem_cons.mp hd' with rfl | hd'
        · rw [hr] at hT'
          simp only [Option.some.injEq, Prod.mk.injEq] at hT'
          obtain ⟨rfl, rfl⟩ := hT'
          obtain ⟨a1, a2⟩ := hstep.1 T' rfl
          exact le_trans (i1 a1) a2
        · exact i2 d' hd' T' q' hT'
  have := (main _ _ (∅, 0) h1 (by intro d hd; rw [List.mem_range'_1] at hd; omega)).2 d (by rw [List.mem_range'_1]; omega) T qi hT
  rw [h2] at this
  exact this

example : ∀ d T qi, 2 ≤ d → d ≤ 3 → calculateImPols 10 exExps (expE 1) d = some (some T, qi) → asUsize qi ≠ 0 := by
  intro d T qi h1 h2 h
  have h3 : calculateImPols 10 exExps (expE 1) d = some (some {0}, 1) := by
    rcases (by omega : d = 2 ∨ d = 3) with rfl | rfl <;> decide +kernel
  rw [h3] at h
  simp only [Option.some.injEq, Prod.mk.injEq] at h
  obtain ⟨-, rfl⟩ := h
  decide

end Verif.ImPols
