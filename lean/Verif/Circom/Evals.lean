import Verif.Circom.CodeProps
import Verif.Stark.Open

/-!
# C108: the template `VerifyEvaluations`, starky/src/stark_verifier_circom.rs L461-559

Signals of three elements are triples; every signal of the template is fixed by `<==`, so a template is a function from its
inputs, and its constraints are a test.  `none`: the generator panics or the template does not compile.
-/
set_option linter.unusedSectionVars false

namespace Verif.Circom
open Stark Codegen

variable {G A : Type} [Field G] [Field A] [DecidableEq A] [DecidableEq G]

/-- three elements as an element of the extension field -/
def dec3 (e : Emb G A) (x : G × G × G) : A := e.dec x.1 x.2.1 x.2.2

/-- `CMul()` (see `evalRhs`) -/
def cmul (e : Emb G A) (co : A → G × G × G) (x y : G × G × G) : G × G × G := co (dec3 e x * dec3 e y)

/-- `zMul[i]`, L486-499 -/
def zMul (e : Emb G A) (co : A → G × G × G) (xi : G × G × G) : Nat → G × G × G
  | 0 => cmul e co xi xi
  | i + 1 => cmul e co (zMul e co xi i) (zMul e co xi i)

/-- the inputs of the template and `Z` as the signals of the printed code -/
def evalsEnv (chal evals : List (G × G × G)) (publics : List G) (Z : G × G × G) : Env G
  | .challenge i => (chal[i]?).map fun x => .three x.1 x.2.1 x.2.2
  | .eval i => (evals[i]?).map fun x => .three x.1 x.2.1 x.2.2
  | .public_ i => (publics[i]?).map .one
  | .Z => some (.three Z.1 Z.2.1 Z.2.2)
  | _ => none

/-- `xAcc[i]`, `qAcc[i]`, L517-541; `base` is `ev_idx.cm.get(&(0, qs[0]))` -/
def accs (e : Emb G A) (co : A → G × G × G) (xN : G × G × G) (evals : List (G × G × G)) (base : Nat) :
    Nat → Option ((G × G × G) × (G × G × G))
  | 0 => (evals[base + 0]?).map fun v => ((1, 0, 0), v)
  | i + 1 => (accs e co xN evals base i).bind fun r => (evals[base + (i + 1)]?).map fun v =>
    let xa := cmul e co r.1 xN
    let st := cmul e co xa v
    (xa, (r.2.1 + st.1, r.2.2.1 + st.2.1, r.2.2.2 + st.2.2))

/-- the template, L461-559: whether the final constraints hold.  `nBits - 1` and `q_deg - 1` panic at zero; a scalar result of the
code cannot be indexed. -/
def verifyEvaluations (e : Emb G A) (co : A → G × G × G) (lit : A → G) (nCm : Nat → Nat) (nBits qDeg base : Nat)
    (code : List (VInstr A)) (chal evals : List (G × G × G)) (publics : List G) (enable : G) : Option Bool :=
  if nBits = 0 ∨ qDeg = 0 then none else
  (chal[7]?).bind fun xi =>
  let xN := zMul e co xi (nBits - 1)
  let Z := (xN.1 - 1, xN.2.1, xN.2.2)
  (setDims (fun _ => none) code).bind fun code' =>
  (unrollCode lit nCm code').bind fun so =>
  (runStmts e co (evalsEnv chal evals publics Z) so.1).bind fun env =>
  (env so.2).bind fun p =>
  match p with
  | .one _ => none
  | .three a b c => (accs e co xN evals base (qDeg - 1)).map fun r =>
    let qZ := cmul e co r.2 Z
    decide (enable * (a - qZ.1) = 0 ∧ enable * (b - qZ.2.1) = 0 ∧ enable * (c - qZ.2.2) = 0)

variable {e : Emb G A} {co : A → G × G × G} {lit : A → G} {nCm : Nat → Nat}

theorem dec3_co (hE : ExtOk e co) (v : A) : dec3 e (co v) = v := hE.dec_co v
theorem dec3_cmul (hE : ExtOk e co) (x y : G × G × G) : dec3 e (cmul e co x y) = dec3 e x * dec3 e y := dec3_co hE _
theorem dec3_inj (hE : ExtOk e co) {x y : G × G × G} (h : dec3 e x = dec3 e y) : x = y := by
  obtain ⟨h1, h2, h3⟩ := hE.dec_inj h
  exact Prod.ext h1 (Prod.ext h2 h3)

theorem dec3_zMul (hE : ExtOk e co) (xi : G × G × G) : ∀ i, dec3 e (zMul e co xi i) = dec3 e xi ^ 2 ^ (i + 1)
  | 0 => by rw [zMul, dec3_cmul hE, pow_one, sq]
  | i + 1 => by
    rw [zMul, dec3_cmul hE, dec3_zMul hE xi i, ← pow_add, show 2 ^ (i + 1) + 2 ^ (i + 1) = 2 ^ (i + 1 + 1) by rw [pow_succ 2 (i + 1)]; omega]

theorem recombine_snoc (xn : A) (es : List A) (v : A) : ∀ acc q,
    recombine xn (es ++ [v]) acc q = recombine xn es acc q + acc * xn ^ es.length * v := by
  induction es with
  | nil => intro acc q; simp [recombine]
  | cons x es ih =>
    intro acc q
    rw [List.cons_append, recombine, recombine, ih, List.length_cons, pow_succ]
    ring

theorem accs_spec (hE : ExtOk e co) {xN : G × G × G} {evals : List (G × G × G)} {base : Nat} : ∀ (i : Nat), base + i < evals.length →
    ∃ r, accs e co xN evals base i = some r ∧ dec3 e r.1 = dec3 e xN ^ i ∧
      dec3 e r.2 = recombine (dec3 e xN) (((evals.map (dec3 e)).drop base).take (i + 1)) 1 0
  | 0, h => by
    refine ⟨((1, 0, 0), evals[base]), ?_, ?_, ?_⟩
    · rw [accs, Nat.add_zero, List.getElem?_eq_getElem (by omega)]
      rfl
    · rw [pow_zero]
      show e.dec 1 0 0 = 1
      rw [hE.base, hE.emb_one]
    · rw [List.drop_eq_getElem_cons (by simpa using h), List.take_succ_cons, List.take_zero]
      simp [recombine]
  | i + 1, h => by
    obtain ⟨r, h1, h2, h3⟩ := accs_spec hE (xN := xN) (evals := evals) (base := base) i (by omega)
    refine ⟨_, by rw [accs, h1, Option.bind_some, List.getElem?_eq_getElem h, Option.map_some], ?_, ?_⟩
    · dsimp only
      rw [dec3_cmul hE, h2, pow_succ]
    · dsimp only
      show e.dec _ _ _ = _
      rw [hE.add]
      show dec3 e r.2 + dec3 e (cmul e co (cmul e co r.1 xN) evals[base + (i + 1)]) = _
      rw [dec3_cmul hE, dec3_cmul hE, h2, h3, List.take_succ (i := i + 1), List.getElem?_drop, List.getElem?_map,
        List.getElem?_eq_getElem h, Option.map_some, Option.toList_some, recombine_snoc, List.length_take, List.length_drop,
        List.length_map, one_mul, Nat.min_eq_left (by omega), pow_succ]

/-- the numbers of the program are elements of the base field, which `lit` gives -/
def LitOk (e : Emb G A) (lit : A → G) (code : List (VInstr A)) : Prop :=
  ∀ i ∈ code, ∀ r ∈ i.src, r.ty = .number → ∀ v, r.value = some v → e.emb (lit v) = v

/-- the signals of the template have the values `get_ref` reads -/
theorem evals_leaves (mg : Nat → A) {nBits : Nat} (hmg : mg nBits ^ 2 ^ nBits = 1) {chal evals : List (G × G × G)} {publics : List G}
    {Z : G × G × G} (hZ : dec3 e Z = (chal.map (dec3 e)).getD 7 0 ^ 2 ^ nBits - 1) {code : List (VInstr A)} (hlit : LitOk e lit code) :
    LeavesOk e lit nCm (ctxConstraint mg nBits (chal.map (dec3 e)) (evals.map (dec3 e)) (publics.map e.emb))
      (evalsEnv chal evals publics Z) code := by
  intro i hi r hr hty v hv
  unfold getRef ctxConstraint at hv
  cases ht : r.ty <;> simp only [ht] at hv hty
  case tmp => exact absurd rfl hty
  case tree k =>
    unfold extractVal at hv
    split_ifs at hv <;> simp at hv
  case const_ => simp at hv
  case eval =>
    rw [List.getElem?_map] at hv
    obtain ⟨x, hx, rfl⟩ := Option.map_eq_some_iff.mp hv
    exact ⟨.eval r.id, .three x.1 x.2.1 x.2.2, by rw [ref, ht], by simp [look, evalsEnv, hx], by rw [leafDim, ht]; rfl, rfl⟩
  case number =>
    exact ⟨.num (lit v), .one (lit v), by rw [ref, ht]; simp [hv], rfl, by rw [leafDim, ht]; rfl, hlit i hi r hr ht v hv⟩
  case public_ =>
    rw [List.getElem?_map] at hv
    obtain ⟨x, hx, rfl⟩ := Option.map_eq_some_iff.mp hv
    exact ⟨.public_ r.id, .one x, by rw [ref, ht], by simp [look, evalsEnv, hx], by rw [leafDim, ht]; rfl, rfl⟩
  case challenge =>
    rw [List.getElem?_map] at hv
    obtain ⟨x, hx, rfl⟩ := Option.map_eq_some_iff.mp hv
    exact ⟨.challenge r.id, .three x.1 x.2.1 x.2.2, by rw [ref, ht], by simp [look, evalsEnv, hx], by rw [leafDim, ht]; rfl, rfl⟩
  case xDivXSubXi => simp at hv
  case xDivXSubWXi => simp at hv
  case x =>
    rw [List.getElem?_map] at hv
    obtain ⟨x, hx, rfl⟩ := Option.map_eq_some_iff.mp hv
    exact ⟨.challenge 7, .three x.1 x.2.1 x.2.2, by rw [ref, ht], by simp [look, evalsEnv, hx], by rw [leafDim, ht]; rfl, rfl⟩
  case Z =>
    refine ⟨.Z, .three Z.1 Z.2.1 Z.2.2, by rw [ref, ht], rfl, by rw [leafDim, ht]; rfl, ?_⟩
    have h1 := Option.some.inj hv
    rw [← h1]
    show dec3 e Z = _
    rw [hZ, mul_pow, hmg, mul_one, ite_self]
  case other => simp at hv

/-- **C108**: for all challenges, openings and publics: when the constraint program has the value `res` (and its printed result is a
triple) and the pieces of the quotient are opened at `base`, `base + 1`, …, the template compiles, and its constraints hold exactly
when `enable` is zero or `res` is the value `stark_verify` compares with (stark_verify.rs L64-86). -/
theorem verifyEvaluations_spec (hE : ExtOk e co) (mg : Nat → A) {nBits qDeg base : Nat} (hn0 : nBits ≠ 0) (hq0 : qDeg ≠ 0)
    (hmg : mg nBits ^ 2 ^ nBits = 1) {code : List (VInstr A)} (hlit : LitOk e lit code) (hn : (code.map fun i => i.dest.id).Nodup)
    {chal evals : List (G × G × G)} {publics : List G} (hc : 7 < chal.length) (hev : base + qDeg ≤ evals.length) {res : A}
    (hx : executeCode e (ctxConstraint mg nBits (chal.map (dec3 e)) (evals.map (dec3 e)) (publics.map e.emb)) code = some res)
    (h3 : ∀ code', setDims (fun _ => none) code = some code' → ∀ last ∈ code'.getLast?, last.dest.dim = 3) (enable : G) :
    ∃ b qs, verifyEvaluations e co lit nCm nBits qDeg base code chal evals publics enable = some b ∧
      (List.range' base qDeg).mapM (fun i => (evals.map (dec3 e))[i]?) = some qs ∧
      (b = true ↔ enable = 0 ∨ res = recombine ((chal.map (dec3 e)).getD 7 0 ^ 2 ^ nBits) qs 1 0 *
        ((chal.map (dec3 e)).getD 7 0 ^ 2 ^ nBits - 1)) := by
  have hxi : (chal.map (dec3 e)).getD 7 0 = dec3 e chal[7] := by
    rw [List.getD_eq_getElem?_getD, List.getElem?_map, List.getElem?_eq_getElem hc]
    rfl
  have hxN : dec3 e (zMul e co chal[7] (nBits - 1)) = dec3 e chal[7] ^ 2 ^ nBits := by
    rw [dec3_zMul hE, Nat.sub_add_cancel (by omega)]
  let xN := zMul e co chal[7] (nBits - 1)
  let Z : G × G × G := (xN.1 - 1, xN.2.1, xN.2.2)
  have hZ : dec3 e Z = dec3 e chal[7] ^ 2 ^ nBits - 1 := by
    show e.dec (xN.1 - 1) xN.2.1 xN.2.2 = _
    rw [sub_eq_add_neg, hE.base_add, hE.emb_neg, hE.emb_one, ← sub_eq_add_neg]
    exact congrArg (· - 1) hxN
  obtain ⟨code', stmts, out, env, w, g1, g2, g3, g4, g5, g6, -⟩ := unrollCode_spec hE
    (evals_leaves (nCm := nCm) mg hmg (Z := Z) (by rw [hxi, hZ]) hlit) hn (fun _ => rfl) hx
  have hlast : ∃ last, code'.getLast? = some last := by
    unfold unrollCode at g2
    obtain ⟨_, -, g2⟩ := Option.bind_eq_some_iff.mp g2
    obtain ⟨last, hl, -⟩ := Option.bind_eq_some_iff.mp g2
    exact ⟨last, hl⟩
  obtain ⟨last, hl⟩ := hlast
  have hsz : w.size = 3 := by rw [g6 last hl, h3 code' g1 last hl]
  obtain ⟨a, b, c, rfl⟩ : ∃ a b c, w = .three a b c := by
    cases w with
    | one g => simp [Val.size] at hsz
    | three a b c => exact ⟨a, b, c, rfl⟩
  obtain ⟨r, k1, -, k3⟩ := accs_spec hE (xN := xN) (evals := evals) (base := base) (qDeg - 1) (by omega)
  have hqs : (List.range' base qDeg).mapM (fun i => (evals.map (dec3 e))[i]?) = some (((evals.map (dec3 e)).drop base).take qDeg) := by
    have : ∀ n b, b + n ≤ (evals.map (dec3 e)).length →
        (List.range' b n).mapM (fun i => (evals.map (dec3 e))[i]?) = some (((evals.map (dec3 e)).drop b).take n) := by
      intro n
      induction n with
      | zero => intro b _; rfl
      | succ n ih =>
        intro b hb
        have hb' : b < (evals.map (dec3 e)).length := by omega
        rw [List.range'_succ, List.mapM_cons, List.getElem?_eq_getElem hb', ih (b + 1) (by omega),
          List.drop_eq_getElem_cons hb', List.take_succ_cons]
        rfl
    exact this qDeg base (by rw [List.length_map]; exact hev)
  refine ⟨decide (enable * (a - (cmul e co r.2 Z).1) = 0 ∧ enable * (b - (cmul e co r.2 Z).2.1) = 0 ∧
    enable * (c - (cmul e co r.2 Z).2.2) = 0), _, ?_, hqs, ?_⟩
  · unfold verifyEvaluations
    rw [if_neg (by omega), List.getElem?_eq_getElem hc, Option.bind_some]
    dsimp only
    rw [g1, Option.bind_some, g2, Option.bind_some]
    dsimp only
    rw [show runStmts e co (evalsEnv chal evals publics ((zMul e co chal[7] (nBits - 1)).1 - 1, (zMul e co chal[7] (nBits - 1)).2.1,
      (zMul e co chal[7] (nBits - 1)).2.2)) stmts = some env from g3, Option.bind_some, g4, Option.bind_some]
    dsimp only
    rw [show accs e co (zMul e co chal[7] (nBits - 1)) evals base (qDeg - 1) = some r from k1, Option.map_some]
  · rw [hxi, decide_eq_true_eq]
    have hqz : dec3 e (cmul e co r.2 Z) = recombine (dec3 e chal[7] ^ 2 ^ nBits) (((evals.map (dec3 e)).drop base).take qDeg) 1 0 *
        (dec3 e chal[7] ^ 2 ^ nBits - 1) := by
      rw [dec3_cmul hE, hZ, k3, Nat.sub_add_cancel (by omega)]
      exact congrArg (fun z => recombine z _ 1 0 * _) hxN
    have hres : dec3 e (a, b, c) = res := g5
    rw [← hqz, ← hres]
    constructor
    · intro h
      by_cases h0 : enable = 0
      · exact .inl h0
      · refine .inr ?_
        have hz : ∀ x : G, enable * x = 0 → x = 0 := fun x hx => (mul_eq_zero.mp hx).resolve_left h0
        rw [show (a, b, c) = cmul e co r.2 Z from Prod.ext (sub_eq_zero.mp (hz _ h.1)) (Prod.ext (sub_eq_zero.mp (hz _ h.2.1))
          (sub_eq_zero.mp (hz _ h.2.2)))]
    · rintro (h | h)
      · simp [h]
      · have := dec3_inj hE h
        have e1 : a = (cmul e co r.2 Z).1 := congrArg Prod.fst this
        have e2 : b = (cmul e co r.2 Z).2.1 := congrArg (fun x => x.2.1) this
        have e3 : c = (cmul e co r.2 Z).2.2 := congrArg (fun x => x.2.2) this
        show enable * (a - (cmul e co r.2 Z).1) = 0 ∧ enable * (b - (cmul e co r.2 Z).2.1) = 0 ∧ enable * (c - (cmul e co r.2 Z).2.2) = 0
        rw [← e1, ← e2, ← e3]
        simp

end Verif.Circom
