import Verif.Circom.Evals

/-!
# C109: the templates `VerifyQuery` and `MapValues`, starky/src/stark_verifier_circom.rs L561-803

`none`: the generator panics or the template does not compile; `some none`: no assignment of the signals satisfies the
constraints.
-/
set_option linter.unusedSectionVars false

namespace Verif.Circom
open Stark Codegen

variable {G A : Type} [Field G] [Field A] [DecidableEq A] [DecidableEq G]

/-! ### `MapValues`, L720-803 -/

/-- the output `tree{t}_{i}` of a column at `section_pos = p.1` of dimension `p.2`, L762-795; other dimensions panic -/
def mapOne (vals : List G) (p : Nat × Nat) : Option (Val G) :=
  if p.2 = 1 then (vals[p.1]?).map .one
  else if p.2 = 3 then
    (vals[p.1]?).bind fun a => (vals[p.1 + 1]?).bind fun b => (vals[p.1 + 2]?).map fun c => .three a b c
  else none

/-- the outputs of `MapValues`: `secs t` lists `section_pos` and `dim` of the columns of `map_sections.cm{t}_2ns` in order, `vals t`
is the input `vals{t}` -/
def mapValues (secs : Nat → List (Nat × Nat)) (vals : Nat → List G) : Option (Nat → List (Val G)) :=
  ((secs 1).mapM (mapOne (vals 1))).bind fun m1 => ((secs 2).mapM (mapOne (vals 2))).bind fun m2 =>
  ((secs 3).mapM (mapOne (vals 3))).bind fun m3 => ((secs 4).mapM (mapOne (vals 4))).map fun m4 =>
  fun t => if t = 1 then m1 else if t = 2 then m2 else if t = 3 then m3 else if t = 4 then m4 else []

/-! ### `VerifyQuery`, L561-718 -/

/-- `xacc[i]`, L640-655; `roots(k)` of the circuit library is `MG[k]` -/
def xacc (mg : Nat → G) (shift : G) (nb : Nat) (ys : Nat → G) : Nat → G
  | 0 => ys 0 * (shift * mg nb - shift) + shift
  | i + 1 => xacc mg shift nb ys i * (ys (i + 1) * (mg (nb - (i + 1)) - 1) + 1)

/-- the signals of the printed code: `publics` and `Z` are not declared in this template -/
def queryEnv (chal evals : List (G × G × G)) (trees : Nat → List (Val G)) (consts : List G) (xd xdw : G × G × G) : Env G
  | .challenge i => (chal[i]?).map fun x => .three x.1 x.2.1 x.2.2
  | .eval i => (evals[i]?).map fun x => .three x.1 x.2.1 x.2.2
  | .tree k i => (trees k)[i]?
  | .const_ i => (consts[i]?).map .one
  | .xDiv => some (.three xd.1 xd.2.1 xd.2.2)
  | .xDivW => some (.three xdw.1 xdw.2.1 xdw.2.2)
  | _ => none

/-- the template, L561-718: the output.  `nb` is `steps[0].nBits`; `CInv()` (cinv.circom, not in the repository) is assumed to force
`in · out = 1` in the extension field, which no assignment does for `in = 0`. -/
def verifyQuery (e : Emb G A) (co : A → G × G × G) (lit : A → G) (nCm : Nat → Nat) (secs : Nat → List (Nat × Nat)) (mg : Nat → G)
    (shift : G) (nBits nb : Nat) (code : List (VInstr A)) (ys : Nat → G) (chal evals : List (G × G × G)) (vals : Nat → List G)
    (consts : List G) : Option (Option (G × G × G)) :=
  if nb = 0 then none else
  (chal[7]?).bind fun xi =>
  (mapValues secs vals).bind fun trees =>
  let x := xacc mg shift nb ys (nb - 1)
  let in1 := (x - xi.1, -xi.2.1, -xi.2.2)
  let in2 := (x - mg nBits * xi.1, -mg nBits * xi.2.1, -mg nBits * xi.2.2)
  if dec3 e in1 = 0 ∨ dec3 e in2 = 0 then some none else
  let o1 := co (dec3 e in1)⁻¹
  let o2 := co (dec3 e in2)⁻¹
  let xd := (x * o1.1, x * o1.2.1, x * o1.2.2)
  let xdw := (x * o2.1, x * o2.2.1, x * o2.2.2)
  (setDims (fun _ => none) code).bind fun code' =>
  (unrollCode lit nCm code').bind fun so =>
  (runStmts e co (queryEnv chal evals trees consts xd xdw) so.1).bind fun env =>
  (env so.2).bind fun p =>
  match p with
  | .one _ => none
  | .three a b c => some (some (a, b, c))

variable {e : Emb G A} {co : A → G × G × G} {lit : A → G} {nCm : Nat → Nat}

/-- the low `k` bits of `y` as a number -/
theorem mod_two_pow_succ' (y k : Nat) : y % 2 ^ (k + 1) = y % 2 ^ k + if y.testBit k then 2 ^ k else 0 := by
  rw [Nat.mod_pow_succ, Nat.testBit, Nat.shiftRight_eq_div_pow]
  rcases Nat.mod_two_eq_zero_or_one (y / 2 ^ k) with h | h <;> simp [h, Nat.one_and_eq_mod_two]

theorem xacc_spec {mg : Nat → G} {shift : G} {nb : Nat} (hmg : ∀ k < nb, mg (nb - (k + 1)) = mg (nb - k) ^ 2) {ys : Nat → G} {y : Nat}
    (hy : ∀ j < nb, ys j = if y.testBit j then 1 else 0) : ∀ i < nb, xacc mg shift nb ys i = shift * mg nb ^ (y % 2 ^ (i + 1)) := by
  have hroot : ∀ k ≤ nb, mg (nb - k) = mg nb ^ 2 ^ k := by
    intro k
    induction k with
    | zero => intro _; simp
    | succ k ih =>
      intro hk
      rw [hmg k (by omega), ih (by omega), ← pow_mul, ← pow_succ]
  intro i
  induction i with
  | zero =>
    intro h
    rw [xacc, hy 0 h, mod_two_pow_succ']
    cases y.testBit 0 <;> simp [Nat.mod_one]
  | succ i ih =>
    intro h
    rw [xacc, ih (by omega), hy (i + 1) h, hroot (i + 1) (by omega), mod_two_pow_succ' y (i + 1)]
    cases y.testBit (i + 1) <;> simp [pow_add, mul_assoc]

/-- the columns of the trees the program reads are where `MapValues` puts them: the reference to a column of tree `k` is printed as
output number `id - n_cm1 - … - n_cm{k-1}`, which is the column's place in its section -/
def TreesOk (nCm : Nat → Nat) (secs : Nat → List (Nat × Nat)) (code : List (VInstr A)) : Prop :=
  ∀ i ∈ code, ∀ r ∈ i.src, ∀ k, r.ty = .tree k → ∃ off, (k = 1 ∧ off = 0 ∨ k = 2 ∧ off = nCm 1 ∨ k = 3 ∧ off = nCm 1 + nCm 2 ∨
    k = 4 ∧ off = nCm 1 + nCm 2 + nCm 3) ∧ off ≤ r.id ∧ (secs k)[r.id - off]? = some (r.treePos, r.dim)

/-- names that `VerifyQuery` does not declare -/
def NoPublics (code : List (VInstr A)) : Prop := ∀ i ∈ code, ∀ r ∈ i.src, r.ty ≠ .public_ ∧ r.ty ≠ .Z

theorem mapM_get {α β : Type} {f : α → Option β} : ∀ {l : List α} {m : List β}, l.mapM f = some m → ∀ (i : Nat) a, l[i]? = some a →
    ∃ b, f a = some b ∧ m[i]? = some b
  | [], _, _, i, a, ha => by simp at ha
  | x :: l, m, h, i, a, ha => by
    rw [List.mapM_cons] at h
    obtain ⟨y, h1, h⟩ := Option.bind_eq_some_iff.mp h
    obtain ⟨m', h2, h⟩ := Option.bind_eq_some_iff.mp h
    have h := Option.some.inj h
    subst h
    cases i with
    | zero => simp at ha; subst ha; exact ⟨y, h1, rfl⟩
    | succ i => simpa using mapM_get h2 i a (by simpa using ha)

theorem mapValues_get {secs : Nat → List (Nat × Nat)} {vals : Nat → List G} {trees : Nat → List (Val G)}
    (h : mapValues secs vals = some trees) {t : Nat} (ht : t = 1 ∨ t = 2 ∨ t = 3 ∨ t = 4) {i : Nat} {p : Nat × Nat}
    (hp : (secs t)[i]? = some p) : ∃ w, mapOne (vals t) p = some w ∧ (trees t)[i]? = some w := by
  unfold mapValues at h
  obtain ⟨m1, h1, h⟩ := Option.bind_eq_some_iff.mp h
  obtain ⟨m2, h2, h⟩ := Option.bind_eq_some_iff.mp h
  obtain ⟨m3, h3, h⟩ := Option.bind_eq_some_iff.mp h
  obtain ⟨m4, h4, rfl⟩ := Option.map_eq_some_iff.mp h
  rcases ht with rfl | rfl | rfl | rfl
  · exact mapM_get h1 i p hp
  · exact mapM_get h2 i p hp
  · exact mapM_get h3 i p hp
  · exact mapM_get h4 i p hp

theorem mapOne_extract (vals : List G) (pos dim : Nat) {w : Val G} (h : mapOne vals (pos, dim) = some w) :
    extractVal e vals pos dim = some (w.val e) ∧ w.size = dim ∧ dim ≠ 0 := by
  unfold mapOne at h
  unfold extractVal
  dsimp only at h
  split_ifs at h with h1 h2
  · obtain ⟨a, ha, rfl⟩ := Option.map_eq_some_iff.mp h
    rw [if_pos h1, ha]
    exact ⟨rfl, h1.symm, by omega⟩
  · obtain ⟨a, ha, h⟩ := Option.bind_eq_some_iff.mp h
    obtain ⟨b, hb, h⟩ := Option.bind_eq_some_iff.mp h
    obtain ⟨c, hc, rfl⟩ := Option.map_eq_some_iff.mp h
    rw [if_neg h1, if_pos h2, ha, hb, hc]
    exact ⟨rfl, h2.symm, by omega⟩

/-- the signals of the template have the values `get_ref` reads -/
theorem query_leaves {ctx : VCtx G A} {chal evals : List (G × G × G)} {secs : Nat → List (Nat × Nat)} {trees : Nat → List (Val G)}
    {consts : List G} {xd xdw : G × G × G} (hchal : ctx.challenge = chal.map (dec3 e)) (hev : ctx.evals = evals.map (dec3 e))
    (hm : mapValues secs ctx.tree = some trees) (hco : ctx.consts = consts) (hxd : ctx.xDiv = some (dec3 e xd))
    (hxdw : ctx.xDivW = some (dec3 e xdw)) {code : List (VInstr A)} (hlit : LitOk e lit code) (ht : TreesOk nCm secs code)
    (hp : NoPublics code) : LeavesOk e lit nCm ctx (queryEnv chal evals trees consts xd xdw) code := by
  intro i hi r hr hty v hv
  unfold getRef at hv
  cases hrt : r.ty <;> simp only [hrt] at hv hty
  case tmp => exact absurd rfl hty
  case tree k =>
    obtain ⟨off, hk, hle, hg⟩ := ht i hi r hr k hrt
    obtain ⟨w, h1, h2⟩ := mapValues_get hm (t := k) (by omega) hg
    obtain ⟨h3, h4, h5⟩ := mapOne_extract (e := e) _ _ _ h1
    rw [hv] at h3
    refine ⟨.tree k (r.id - off), w, ?_, h2, ?_, (Option.some.inj h3).symm⟩
    · rcases hk with ⟨rfl, rfl⟩ | ⟨rfl, rfl⟩ | ⟨rfl, rfl⟩ | ⟨rfl, rfl⟩
      · simp only [ref, hrt, Nat.sub_zero]
      · simp only [ref, hrt]
        rw [if_neg (by omega)]
      · simp only [ref, hrt]
        rw [if_neg (by omega), Nat.sub_sub]
      · simp only [ref, hrt]
        rw [if_neg (by omega), Nat.sub_sub, Nat.sub_sub, Nat.add_assoc]
    · rw [leafDim, hrt]
      dsimp only
      rw [if_neg h5, h4]
  case const_ =>
    rw [hco] at hv
    obtain ⟨x, hx, rfl⟩ := Option.map_eq_some_iff.mp hv
    exact ⟨.const_ r.id, .one x, by rw [ref, hrt], by simp [look, queryEnv, hx], by rw [leafDim, hrt]; rfl, rfl⟩
  case eval =>
    rw [hev, List.getElem?_map] at hv
    obtain ⟨x, hx, rfl⟩ := Option.map_eq_some_iff.mp hv
    exact ⟨.eval r.id, .three x.1 x.2.1 x.2.2, by rw [ref, hrt], by simp [look, queryEnv, hx], by rw [leafDim, hrt]; rfl, rfl⟩
  case number =>
    exact ⟨.num (lit v), .one (lit v), by rw [ref, hrt]; simp [hv], rfl, by rw [leafDim, hrt]; rfl, hlit i hi r hr hrt v hv⟩
  case public_ => exact absurd hrt (hp i hi r hr).1
  case challenge =>
    rw [hchal, List.getElem?_map] at hv
    obtain ⟨x, hx, rfl⟩ := Option.map_eq_some_iff.mp hv
    exact ⟨.challenge r.id, .three x.1 x.2.1 x.2.2, by rw [ref, hrt], by simp [look, queryEnv, hx], by rw [leafDim, hrt]; rfl, rfl⟩
  case xDivXSubXi =>
    rw [hxd] at hv
    exact ⟨.xDiv, .three xd.1 xd.2.1 xd.2.2, by rw [ref, hrt], rfl, by rw [leafDim, hrt]; rfl, Option.some.inj hv⟩
  case xDivXSubWXi =>
    rw [hxdw] at hv
    exact ⟨.xDivW, .three xdw.1 xdw.2.1 xdw.2.2, by rw [ref, hrt], rfl, by rw [leafDim, hrt]; rfl, Option.some.inj hv⟩
  case x =>
    rw [hchal, List.getElem?_map] at hv
    obtain ⟨x, hx, rfl⟩ := Option.map_eq_some_iff.mp hv
    exact ⟨.challenge 7, .three x.1 x.2.1 x.2.2, by rw [ref, hrt], by simp [look, queryEnv, hx], by rw [leafDim, hrt]; rfl, rfl⟩
  case Z => exact absurd hrt (hp i hi r hr).2
  case other => simp at hv

/-- the roots of unity of the circuit: `roots(k) = MG[k]`, each the square of the next -/
structure RootsOk (e : Emb G A) (mg : Nat → A) (shift : A) (mgG : Nat → G) (shiftG : G) (nb : Nat) : Prop where
  emb : ∀ k, e.emb (mgG k) = mg k
  shift : e.emb shiftG = shift
  sq : ∀ k < nb, mgG (nb - (k + 1)) = mgG (nb - k) ^ 2

theorem ExtOk.emb_pow (hE : ExtOk e co) (a : G) (n : Nat) : e.emb (a ^ n) = e.emb a ^ n := by
  induction n with
  | zero => rw [pow_zero, pow_zero, hE.emb_one]
  | succ n ih => rw [pow_succ, pow_succ, hE.emb_mul, ih]

/-- **C109**: for every query `idx < 2^nb` given by its bits, all challenges, openings and opened rows of the right width: when the
query's point is one of the two points `stark_verify` divides by zero at, no assignment satisfies the template; otherwise it
compiles, and its output is the value `execute_code` computes for this query (stark_verify.rs L112-136). -/
theorem verifyQuery_spec (hE : ExtOk e co) {mg : Nat → A} {shift : A} {mgG : Nat → G} {shiftG : G} {nBits nb : Nat} (hn0 : nb ≠ 0)
    (hR : RootsOk e mg shift mgG shiftG nb) {secs : Nat → List (Nat × Nat)} {code : List (VInstr A)} (hlit : LitOk e lit code)
    (hn : (code.map fun i => i.dest.id).Nodup) (ht : TreesOk nCm secs code) (hp : NoPublics code)
    (h3 : ∀ code', setDims (fun _ => none) code = some code' → ∀ last ∈ code'.getLast?, last.dest.dim = 3)
    {chal evals : List (G × G × G)} {publics : List A} {consts : List G} {rows : Nat → List G} (hc : 7 < chal.length)
    {trees : Nat → List (Val G)} (hm : mapValues secs rows = some trees) {idx : Nat} (hidx : idx < 2 ^ nb) {ys : Nat → G}
    (hy : ∀ j < nb, ys j = if idx.testBit j then 1 else 0) {v : A}
    (hx : executeCode e (ctxQuery mg shift nBits nb (chal.map (dec3 e)) (evals.map (dec3 e)) publics rows consts idx) code = some v) :
    let x := queryPoint mg shift nb idx
    let xi := (chal.map (dec3 e)).getD 7 0
    ((x = xi ∨ x = xi * mg nBits) →
      verifyQuery e co lit nCm secs mgG shiftG nBits nb code ys chal evals rows consts = some none) ∧
    (¬(x = xi ∨ x = xi * mg nBits) →
      ∃ o, verifyQuery e co lit nCm secs mgG shiftG nBits nb code ys chal evals rows consts = some (some o) ∧ dec3 e o = v) := by
  intro x xi
  have hxi : xi = dec3 e chal[7] := by
    show (chal.map (dec3 e)).getD 7 0 = _
    rw [List.getD_eq_getElem?_getD, List.getElem?_map, List.getElem?_eq_getElem hc]
    rfl
  have hxa : e.emb (xacc mgG shiftG nb ys (nb - 1)) = x := by
    rw [xacc_spec hR.sq hy (nb - 1) (by omega), Nat.sub_add_cancel (by omega), Nat.mod_eq_of_lt hidx, hE.emb_mul, hE.emb_pow, hR.emb,
      hR.shift]
    rfl
  generalize hX : xacc mgG shiftG nb ys (nb - 1) = X at hxa
  have hin1 : dec3 e (X - chal[7].1, -chal[7].2.1, -chal[7].2.2) = x - xi := by
    show e.dec _ _ _ = _
    rw [← zero_sub chal[7].2.1, ← zero_sub chal[7].2.2, hE.dec_sub, hE.base, hxa, hxi]
    rfl
  have hin2 : dec3 e (X - mgG nBits * chal[7].1, -mgG nBits * chal[7].2.1, -mgG nBits * chal[7].2.2) = x - xi * mg nBits := by
    show e.dec _ _ _ = _
    rw [neg_mul, neg_mul, ← zero_sub (mgG nBits * chal[7].2.1), ← zero_sub (mgG nBits * chal[7].2.2), hE.dec_sub, hE.base, hE.smul, hxa, hR.emb, hxi,
      mul_comm]
    rfl
  constructor
  · intro h
    unfold verifyQuery
    rw [if_neg hn0, List.getElem?_eq_getElem hc, Option.bind_some, hm, Option.bind_some]
    dsimp only
    rw [hX, hin1, hin2, if_pos (by rw [sub_eq_zero, sub_eq_zero]; exact h)]
  · intro h
    have hd1 : dec3 e (X * (co (x - xi)⁻¹).1, X * (co (x - xi)⁻¹).2.1, X * (co (x - xi)⁻¹).2.2) = x / (x - xi) := by
      show e.dec _ _ _ = _
      rw [hE.smul, hE.dec_co, hxa, div_eq_mul_inv]
    have hd2 : dec3 e (X * (co (x - xi * mg nBits)⁻¹).1, X * (co (x - xi * mg nBits)⁻¹).2.1, X * (co (x - xi * mg nBits)⁻¹).2.2) =
        x / (x - xi * mg nBits) := by
      show e.dec _ _ _ = _
      rw [hE.smul, hE.dec_co, hxa, div_eq_mul_inv]
    obtain ⟨code', stmts, out, env, w, g1, g2, g3, g4, g5, g6, -⟩ := unrollCode_spec hE
      (query_leaves (lit := lit) (nCm := nCm) (ctx := ctxQuery mg shift nBits nb (chal.map (dec3 e)) (evals.map (dec3 e)) publics rows consts idx)
        (chal := chal) (evals := evals) (secs := secs) (trees := trees) (consts := consts) rfl rfl hm rfl
        (congrArg some hd1.symm) (congrArg some hd2.symm) hlit ht hp) hn (fun _ => rfl) hx
    have hlast : ∃ last, code'.getLast? = some last := by
      unfold unrollCode at g2
      obtain ⟨_, -, g2⟩ := Option.bind_eq_some_iff.mp g2
      obtain ⟨last, hl, -⟩ := Option.bind_eq_some_iff.mp g2
      exact ⟨last, hl⟩
    obtain ⟨last, hl⟩ := hlast
    have hsz : w.size = 3 := by rw [g6 last hl, h3 code' g1 last hl]
    obtain ⟨a, b, c, rfl⟩ : ∃ a b c, w = .three a b c := by
      cases w with
      | one g => simp [Val.size] at hsz
      | three a b c => exact ⟨a, b, c, rfl⟩
    refine ⟨(a, b, c), ?_, g5⟩
    unfold verifyQuery
    rw [if_neg hn0, List.getElem?_eq_getElem hc, Option.bind_some, hm, Option.bind_some]
    dsimp only
    rw [hX, hin1, hin2, if_neg (by rw [sub_eq_zero, sub_eq_zero]; exact h), g1, Option.bind_some, g2, Option.bind_some]
    dsimp only
    rw [g3, Option.bind_some, g4, Option.bind_some]

end Verif.Circom
