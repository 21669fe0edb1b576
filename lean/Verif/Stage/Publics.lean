import Verif.Stage.ExtCode
import Verif.Stage.Model

/-!
# The public inputs of the prover: starky/src/stark_gen.rs L252-268, L558-572, starkinfo.rs L275-320

A public input is a cell of the trace (`cmP`) or the value of an expression at a row of the trace (`imP`).  For the second kind the setup generates a program
(`generate_public_calculators`), which the prover runs at that row (`calculate_exp_at_point`).
-/
set_option linter.unusedSectionVars false

namespace Verif.Stage
open Verif.Codegen (NTy IOp Expr Label linearCode pilCodeGen)
open Verif.Codegen.Spec (Store readN exec Val)
open Verif.Interp (NodeTy OpTy Dom Sec Info algF3)
open Verif.Interp.Spec (Col cell readCol nodeCol rowOf meaning store stepI run)
open Verif.Ext3 (F3G K coord val WF ofF)
open Verif.Stark (fieldOps)
open Verif.FFT (mgK)
open Verif.GL (F)
open Verif.Map (FixSt FixExt FixOk emOf Lay Rel fixNode fixInstr fixOp sameTy HasLabel leafOf Needed ProgOk)

noncomputable section

/-! ### The model -/

/-- `Public.polType`, types.rs L12-18 -/
inductive PubTy | cmP | imP | other
deriving DecidableEq

/-- `Public`, types.rs L12-18 (`id` and `name` are not used by the prover) -/
structure Pub where
  ty : PubTy
  polId : Nat
  idx : Nat

/-- `fix_ref` of `generate_public_calculators`, starkinfo.rs L296-310: an expression becomes a temporary of the current row; nothing else changes.  `lit` is the parser of
numbers that the interpreter applies later (interpreter.rs L425-430). -/
def pubRef (lit : K → F3G) (st : FixSt) (r : Codegen.Node K) : Interp.Node F3G × FixSt :=
  match r.ty with
  | .exp =>
    match st.em.lookup (r.prime, r.id) with
    | some t => ({ ty := .tmp, id := t, prime := false }, st)
    | none => ({ ty := .tmp, id := st.tmpUsed, prime := false }, ⟨((r.prime, r.id), st.tmpUsed) :: st.em, st.tmpUsed + 1⟩)
  | t => ({ ty := sameTy t, id := r.id, prime := r.prime, value := r.value.map lit }, st)

/-- the operands of one section, starkinfo_codegen.rs L651-668 -/
def pubRefs (lit : K → F3G) : FixSt → List (Codegen.Node K) → List (Interp.Node F3G) × FixSt
  | st, [] => ([], st)
  | st, r :: rs =>
    let a := pubRef lit st r
    let b := pubRefs lit a.2 rs
    (a.1 :: b.1, b.2)

/-- `iterate_code`, starkinfo_codegen.rs L651-668 -/
def pubFix (lit : K → F3G) : FixSt → List (Codegen.Instr K) → List (Interp.Instr F3G) × FixSt
  | st, [] => ([], st)
  | st, c :: cs =>
    let a := pubRefs lit st c.src
    let d := pubRef lit a.2 c.dest
    let b := pubFix lit d.2 cs
    (⟨fixOp c.op, d.1, a.1⟩ :: b.1, b.2)

/-- `generate_public_calculators`, starkinfo.rs L275-320: `program.publics_code`, which has an entry for every public input of type `imP` and for no other. -/
def publicsCode (exps : List (Expr K)) (fuel : Nat) (lit : K → F3G) : List Pub → Option (List Code)
  | [] => some []
  | p :: ps =>
    if p.ty = .imP then
      (pilCodeGen 0 exps fuel ⟨0, [], []⟩ p.polId false none false).bind fun ctx =>
      (publicsCode exps fuel lit ps).map fun cs =>
      let r := pubFix lit ⟨[], ctx.tmpUsed⟩ (linearCode ctx)
      ⟨r.1, r.2.tmpUsed⟩ :: cs
    else publicsCode exps fuel lit ps

/-- `calculate_exp_at_point`, stark_gen.rs L558-572 -/
def expAtPoint (s : Info) (seg : Code) (idx : Nat) (c : Ctx) : Option (F3G × Ctx) :=
  (Interp.compileCode c.nbits c.nbitsExt s seg.code .n true).bind fun blk =>
  Interp.eval algF3 blk (c.put .tmp (List.replicate seg.tmpUsed Ext3.ZERO)) idx

/-- one public input, stark_gen.rs L253-267: the program of the `i`-th public input is looked for at position `i` -/
def pubStep (s : Info) (codes : List Code) (c : Ctx) (pi : Pub × Nat) : Option Ctx :=
  match pi.1.ty with
  | .cmP => (c.mem .cm1_n)[pi.1.idx * s.sectionsN .cm1_n + pi.1.polId]?.bind fun v => (Interp.setCell (c.mem .publics) pi.2 v).map (c.put .publics)
  | .imP => codes[pi.2]?.bind fun seg => (expAtPoint s seg pi.1.idx c).bind fun vc => (Interp.setCell (vc.2.mem .publics) pi.2 vc.1).map (vc.2.put .publics)
  | .other => none

/-- the public inputs, stark_gen.rs L252-268 -/
def publicsBuf (s : Info) (codes : List Code) (pubs : List Pub) (c : Ctx) : Option Ctx :=
  pubs.zipIdx.foldlM (pubStep s codes) (c.put .publics (List.replicate pubs.length Ext3.ZERO))

/-! ### What the values of the public inputs are -/

/-- Specification: row `i` of a trace of `2 ^ nb` rows with `nCm` committed and `nConst` constant columns (`cm1`, `fixed`: the cells, row by row, `w` committed cells in a
row); the public inputs `pubs` are known; the next row of the last one is the first one. -/
def rowStore (nb w nCm nConst : Nat) (cm1 fixed : Nat → F) (pubs : List F) (i : Nat) : Store K := fun t k p =>
  let r := (i + if p then 1 else 0) % 2 ^ nb
  match t with
  | .cm => if k < nCm then some (algebraMap F K (cm1 (r * w + k))) else none
  | .const_ => if k < nConst then some (algebraMap F K (fixed (r * nConst + k))) else none
  | .public_ => pubs[k]?.map (algebraMap F K)
  | .x => some (mgK nb ^ i)
  | _ => none

/-- Specification: `v` is the value of the public input `p` when the earlier public inputs have the values `pubs` (`fuel` bounds the nesting of references). -/
def IsPub (exps : List (Expr K)) (fuel nb w nCm nConst : Nat) (cm1 fixed : Nat → F) (pubs : List F) (p : Pub) (v : F) : Prop :=
  p.idx < 2 ^ nb ∧
  match p.ty with
  | .cmP => p.polId < nCm ∧ v = cm1 (p.idx * w + p.polId)
  | .imP => ∃ d e, d < fuel ∧ exps[p.polId]? = some e ∧ Val (fieldOps K) exps (rowStore nb w nCm nConst cm1 fixed pubs p.idx) d false e (algebraMap F K v)
  | .other => False

/-- Specification: the values of the public inputs, in order. -/
def ArePubs (exps : List (Expr K)) (fuel nb w nCm nConst : Nat) (cm1 fixed : Nat → F) (pubs : List Pub) (vs : List F) : Prop :=
  vs.length = pubs.length ∧ ∀ i p v, pubs[i]? = some p → vs[i]? = some v → IsPub exps fuel nb w nCm nConst cm1 fixed (vs.take i) p v

/-- Specification: the buffers hold the trace, the constants and the points (stark_gen.rs L205-250), and the layout has committed column `k` in cell `k` of a row. -/
structure RowCtx (nb w nCm nConst : Nat) (cm1 fixed : Nat → F) (s : Info) (c : Ctx) : Prop where
  nbits : c.nbits = nb
  cm : ∀ r < 2 ^ nb, ∀ k < nCm, (c.mem .cm1_n)[r * w + k]? = some (ofF (cm1 (r * w + k)))
  const_ : ∀ r < 2 ^ nb, ∀ k < nConst, (c.mem .const_n)[r * nConst + k]? = some (ofF (fixed (r * nConst + k)))
  x : ∀ r < 2 ^ nb, ∃ b, (c.mem .x_n)[r]? = some (ofF b) ∧ algebraMap F K b = mgK nb ^ r
  col : ∀ k < nCm, nodeCol s .n ({ ty := .cm, id := k } : Interp.Node F3G) = some ⟨.cm1_n, k, 1, w⟩
  width : s.sectionsN .cm1_n = w
  nConst : s.nConstants = nConst

/-- Specification: the expressions have no `muladd` nodes (they are made by the code generator only), and the numbers in them are parsed to base field elements. -/
def PlainExps (exps : List (Expr K)) (lit : K → F3G) : Prop :=
  ∀ e ∈ exps, ∀ l, HasLabel l e → l.op ≠ .muladd ∧ ∀ p r v, leafOf 0 p l = some r → r.ty = .number → r.value = some v → ∃ b, v = algebraMap F K b ∧ lit v = ofF b

/-! ### The rewriting -/

/-- nodes that mean the same to the interpreter -/
def SameNode (n m : Interp.Node F3G) : Prop := n.ty = m.ty ∧ n.id = m.id ∧ (n.ty ≠ .tmp → n.prime = m.prime) ∧ (n.ty = .number → n.value = m.value)

def SameInstr (a b : Interp.Instr F3G) : Prop := a.op = b.op ∧ SameNode a.dest b.dest ∧ List.Forall₂ SameNode a.src b.src

theorem pubRef_fix (lit : K → F3G) (st : FixSt) (r : Codegen.Node K) {nCols : Nat} (h : r.ty = .cm → r.id < nCols) :
    ∃ m, Map.fixRef (fun _ => none) nCols lit st r = some (m, (pubRef lit st r).2) ∧ SameNode (pubRef lit st r).1 m := by
  unfold Map.fixRef pubRef
  cases hty : r.ty
  case exp =>
    dsimp only
    cases st.em.lookup (r.prime, r.id) with
    | none => exact ⟨_, rfl, rfl, rfl, fun hh => absurd rfl hh, fun hh => by cases hh⟩
    | some t => exact ⟨_, rfl, rfl, rfl, fun hh => absurd rfl hh, fun hh => by cases hh⟩
  case cm =>
    dsimp only
    rw [if_pos (h hty)]
    exact ⟨_, rfl, rfl, rfl, fun _ => rfl, fun hh => by cases hh⟩
  all_goals exact ⟨_, rfl, rfl, rfl, fun _ => rfl, fun _ => rfl⟩

theorem pubRefs_fix (lit : K → F3G) {nCols : Nat} : ∀ (rs : List (Codegen.Node K)) (st : FixSt), (∀ r ∈ rs, r.ty = .cm → r.id < nCols) →
    ∃ ms, Map.fixRefs (fun _ => none) nCols lit st rs = some (ms, (pubRefs lit st rs).2) ∧ List.Forall₂ SameNode (pubRefs lit st rs).1 ms
  | [], st, _ => ⟨[], rfl, .nil⟩
  | r :: rs, st, h => by
    obtain ⟨m, h1, h2⟩ := pubRef_fix lit st r (h r (by simp))
    obtain ⟨ms, h3, h4⟩ := pubRefs_fix lit rs (pubRef lit st r).2 fun x hx => h x (by simp [hx])
    refine ⟨m :: ms, ?_, .cons h2 h4⟩
    rw [Map.fixRefs, h1, Option.bind_some, h3]
    rfl

theorem pubFix_fix (lit : K → F3G) {nCols : Nat} : ∀ (code : List (Codegen.Instr K)) (st : FixSt), (∀ c ∈ code, ∀ r ∈ c.dest :: c.src, r.ty = .cm → r.id < nCols) →
    ∃ is, Map.fixCode (fun _ => none) nCols lit st code = some (is, (pubFix lit st code).2) ∧ List.Forall₂ SameInstr (pubFix lit st code).1 is
  | [], st, _ => ⟨[], rfl, .nil⟩
  | c :: cs, st, h => by
    obtain ⟨ms, h1, h2⟩ := pubRefs_fix lit c.src st fun r hr => h c (by simp) r (by simp [hr])
    obtain ⟨d, h3, h4⟩ := pubRef_fix lit (pubRefs lit st c.src).2 c.dest (h c (by simp) _ (by simp))
    obtain ⟨is, h5, h6⟩ := pubFix_fix lit cs (pubRef lit (pubRefs lit st c.src).2 c.dest).2 fun x hx => h x (by simp [hx])
    refine ⟨⟨fixOp c.op, d, ms⟩ :: is, ?_, .cons ⟨rfl, h4, h2⟩ h6⟩
    rw [Map.fixCode, h1, Option.bind_some, h3, Option.bind_some, h5]
    rfl

theorem SameNode.meaning {n m : Interp.Node F3G} (h : SameNode n m) (s : Info) (dom : Dom) (N step : Nat) (c : Ctx) (i : Nat) :
    Interp.Spec.meaning algF3 s dom N step c i n = Interp.Spec.meaning algF3 s dom N step c i m := by
  obtain ⟨t, k, p, v⟩ := n
  obtain ⟨t', k', p', v'⟩ := m
  obtain ⟨h1, h2, h3, h4⟩ := h
  dsimp only at h1 h2 h3 h4
  subst h1 h2
  unfold Interp.Spec.meaning Interp.Spec.nodeCol
  cases t <;> simp_all

theorem SameNode.store {n m : Interp.Node F3G} (h : SameNode n m) (s : Info) (dom : Dom) (N step : Nat) (c : Ctx) (i : Nat) (v : F3G) :
    Interp.Spec.store algF3 s dom N step c i n v = Interp.Spec.store algF3 s dom N step c i m v := by
  obtain ⟨t, k, p, v1⟩ := n
  obtain ⟨t', k', p', v'⟩ := m
  obtain ⟨h1, h2, h3, h4⟩ := h
  dsimp only at h1 h2 h3 h4
  subst h1 h2
  unfold Interp.Spec.store Interp.Spec.nodeCol
  cases t <;> simp_all

theorem SameInstr.step {a b : Interp.Instr F3G} (h : SameInstr a b) (s : Info) (dom : Dom) (N step : Nat) (i : Nat) (c : Ctx) :
    stepI algF3 s dom N step i c a = stepI algF3 s dom N step i c b := by
  have hs : ∀ {l l' : List (Interp.Node F3G)}, List.Forall₂ SameNode l l' → l.mapM (meaning algF3 s dom N step c i) = l'.mapM (meaning algF3 s dom N step c i) := by
    intro l l' h
    induction h with
    | nil => rfl
    | cons h _ ih => rw [List.mapM_cons, List.mapM_cons, ih, h.meaning]
  unfold stepI
  rw [hs h.2.2, h.1]
  simp only [h.2.1.store]

theorem same_run (s : Info) (dom : Dom) (N step : Nat) (i : Nat) {l l' : List (Interp.Instr F3G)} (h : List.Forall₂ SameInstr l l') :
    ∀ c : Ctx, run algF3 s dom N step l c i = run algF3 s dom N step l' c i := by
  induction h with
  | nil => exact fun _ => rfl
  | cons h _ ih =>
    intro c
    unfold run at ih ⊢
    rw [List.foldlM_cons, List.foldlM_cons, h.step]
    simp only [ih]

/-- the rewriting: every expression gets a temporary of its own -/
theorem pubFix_spec (lit : K → F3G) (t0 : Nat) (code : List (Codegen.Instr K)) :
    ∃ em : Bool → Nat → Nat, List.Forall₂ SameInstr (pubFix lit ⟨[], t0⟩ code).1 (code.map (fixInstr (fun _ => none) lit em)) ∧ t0 ≤ (pubFix lit ⟨[], t0⟩ code).2.tmpUsed ∧
      (∀ c ∈ code, ∀ r ∈ c.dest :: c.src, r.ty = .exp → t0 ≤ em r.prime r.id ∧ em r.prime r.id < (pubFix lit ⟨[], t0⟩ code).2.tmpUsed ∧
        ∀ c' ∈ code, ∀ r' ∈ c'.dest :: c'.src, r'.ty = .exp → em r.prime r.id = em r'.prime r'.id → r.prime = r'.prime ∧ r.id = r'.id) := by
  set nCols := ((code.flatMap fun c => c.dest :: c.src).map fun r => r.id).foldr max 0 + 1 with hn
  have hlt : ∀ c ∈ code, ∀ r ∈ c.dest :: c.src, r.ty = .cm → r.id < nCols := by
    intro c hc r hr _
    have hmem : r.id ∈ (code.flatMap fun c => c.dest :: c.src).map fun r => r.id := List.mem_map.mpr ⟨r, List.mem_flatMap.mpr ⟨c, hc, hr⟩, rfl⟩
    have : ∀ (l : List Nat) (x : Nat), x ∈ l → x ≤ l.foldr max 0 := by
      intro l
      induction l with
      | nil => intro x hx; cases hx
      | cons a l ih =>
        intro x hx
        rw [List.foldr_cons]
        rcases List.mem_cons.mp hx with rfl | hx
        · exact le_max_left _ _
        · exact le_trans (ih x hx) (le_max_right _ _)
    have := this _ _ hmem
    omega
  obtain ⟨is, h1, h2⟩ := pubFix_fix lit code ⟨[], t0⟩ hlt
  obtain ⟨em, e1, e2, e3, -⟩ := Map.fixProverCode_spec (tgt := fun _ => none) (nCols := nCols) (lit := lit) (tmpUsed := t0) (code := code) (out := is)
    (tmpUsed' := (pubFix lit ⟨[], t0⟩ code).2.tmpUsed) (by unfold Map.fixProverCode; rw [h1]; rfl)
  refine ⟨em, by rw [← e1]; exact h2, e2, fun c hc r hr h => ?_⟩
  obtain ⟨a, b, d⟩ := e3 c hc r hr h rfl
  exact ⟨a, b, fun c' hc' r' hr' h' he => d c' hc' r' hr' h' rfl he⟩

/-! ### A program at a row -/

/-- the layout the programs of the public inputs run on -/
def layP (s : Info) (nb : Nat) (em : Bool → Nat → Nat) (lit : K → F3G) : Lay where
  s := s
  dom := .n
  N := 2 ^ nb
  step := 1
  tgt := fun _ => none
  em := em
  lit := lit

variable {exps : List (Expr K)} {fuel nb w nCm nConst : Nat} {cm1 fixed : Nat → F} {s : Info} {lit : K → F3G} {c0 : Ctx} {vs : List F}

/-- an operand that is not a temporary -/
theorem leafP (hC : RowCtx nb w nCm nConst cm1 fixed s c0) (hpub : ∀ (k : Nat) (v : F), vs[k]? = some v → (c0.mem .publics)[k]? = some (ofF v)) {i : Nat} (hi : i < 2 ^ nb)
    {em : Bool → Nat → Nat} {r : Codegen.Node K} (h1 : r.ty ≠ .tmp) (h2 : r.ty ≠ .exp)
    (hnum : ∀ v, r.ty = .number → r.value = some v → ∃ b, v = algebraMap F K b ∧ lit v = ofF b) {v : K} (hv : readN (rowStore nb w nCm nConst cm1 fixed vs i) r = some v) :
    ∃ x, Rel v x 1 ∧ ∀ c, Agree .q_2ns c0 c → meaning algF3 s .n (2 ^ nb) 1 c i (fixNode (fun _ => none) lit em r) = some x := by
  unfold readN at hv
  by_cases hn : r.ty = .number
  · rw [if_pos hn] at hv
    obtain ⟨b, rfl, hb⟩ := hnum v hn hv
    refine ⟨ofF b, rel_ofF b (le_refl _), fun c _ => ?_⟩
    unfold fixNode meaning
    simp only [hn, sameTy, hv, Option.map_some, hb]
  rw [if_neg hn] at hv
  have hr : (i + if r.prime then 1 else 0) % 2 ^ nb < 2 ^ nb := Nat.mod_lt _ (Nat.two_pow_pos _)
  unfold rowStore at hv
  dsimp only at hv
  cases hty : r.ty with
  | tmp => exact absurd hty h1
  | exp => exact absurd hty h2
  | number => exact absurd hty hn
  | q => rw [hty] at hv; cases hv
  | f => rw [hty] at hv; cases hv
  | challenge => rw [hty] at hv; cases hv
  | eval => rw [hty] at hv; cases hv
  | xDivXSubXi => rw [hty] at hv; cases hv
  | xDivXSubWXi => rw [hty] at hv; cases hv
  | cm =>
    rw [hty] at hv
    dsimp only at hv
    by_cases hk : r.id < nCm
    swap
    · rw [if_neg hk] at hv; cases hv
    rw [if_pos hk] at hv
    obtain rfl := Option.some.inj hv
    refine ⟨_, rel_ofF _ (le_refl _), fun c hA => ?_⟩
    have hcol := hC.col r.id hk
    unfold fixNode meaning
    simp only [hty]
    have : nodeCol s .n ({ ty := .cm, id := r.id, prime := r.prime } : Interp.Node F3G) = some ⟨.cm1_n, r.id, 1, w⟩ := hcol
    rw [this, Option.bind_some, rowOf_ext hi]
    unfold readCol cell
    dsimp only
    rw [if_pos rfl, hA.mem _ (by decide) (by decide)]
    exact hC.cm _ hr _ hk
  | const_ =>
    rw [hty] at hv
    dsimp only at hv
    by_cases hk : r.id < nConst
    swap
    · rw [if_neg hk] at hv; cases hv
    rw [if_pos hk] at hv
    obtain rfl := Option.some.inj hv
    refine ⟨_, rel_ofF _ (le_refl _), fun c hA => ?_⟩
    unfold fixNode meaning
    simp only [hty, sameTy]
    show (nodeCol s .n _).bind _ = _
    unfold nodeCol
    dsimp only
    rw [Option.bind_some, rowOf_ext hi]
    unfold readCol cell
    dsimp only
    rw [if_pos rfl, hA.mem _ (by decide) (by decide), hC.nConst]
    exact hC.const_ _ hr _ hk
  | public_ =>
    rw [hty] at hv
    obtain ⟨b, hb, rfl⟩ := Option.map_eq_some_iff.mp hv
    refine ⟨_, rel_ofF b (le_refl _), fun c hA => ?_⟩
    unfold fixNode meaning
    simp only [hty, sameTy]
    rw [hA.mem _ (by decide) (by decide)]
    exact hpub _ _ hb
  | x =>
    rw [hty] at hv
    obtain ⟨b, hb, hb'⟩ := hC.x i hi
    have hv' : mgK nb ^ i = v := Option.some.inj hv
    refine ⟨ofF b, ?_, fun c hA => ?_⟩
    · rw [← hv', ← hb']
      exact rel_ofF b (le_refl _)
    unfold fixNode meaning
    simp only [hty, sameTy]
    show (nodeCol s .n _).bind _ = _
    unfold nodeCol
    dsimp only
    rw [Option.bind_some]
    unfold readCol cell
    dsimp only
    rw [if_pos rfl, hA.mem _ (by decide) (by decide), Nat.mul_one, Nat.add_zero]
    exact hb

theorem forall_last {α β : Type} {Q : α → β → Prop} {b : β} : ∀ {l' : List β} {l : List α}, List.Forall₂ Q l (l' ++ [b]) → ∃ i a, List.Forall₂ Q i l' ∧ Q a b ∧ l = i ++ [a]
  | [], _, .cons h .nil => ⟨[], _, .nil, h, rfl⟩
  | _ :: _, _, .cons h t => by
    obtain ⟨i, a, h1, h2, rfl⟩ := forall_last t
    exact ⟨_ :: i, a, .cons h h1, h2, rfl⟩

/-- The program of a public input computes the value of its expression at the row; it changes nothing but the temporaries. -/
theorem expAtPoint_spec (hP : PlainExps exps lit) (hC : RowCtx nb w nCm nConst cm1 fixed s c0)
    (hpub : ∀ (k : Nat) (v : F), vs[k]? = some v → (c0.mem .publics)[k]? = some (ofF v)) {i : Nat} (hi : i < 2 ^ nb) {id d : Nat} {e : Expr K} {v : F} (hd : d < fuel)
    (he : exps[id]? = some e) (hv : Val (fieldOps K) exps (rowStore nb w nCm nConst cm1 fixed vs i) d false e (algebraMap F K v)) :
    ∃ ctx, pilCodeGen 0 exps fuel ⟨0, [], []⟩ id false none false = some ctx ∧
      ∃ l, expAtPoint s ⟨(pubFix lit ⟨[], ctx.tmpUsed⟩ (linearCode ctx)).1, (pubFix lit ⟨[], ctx.tmpUsed⟩ (linearCode ctx)).2.tmpUsed⟩ i c0 = some (ofF v, tmpIs c0 l) := by
  obtain ⟨ctx, σ', g1, g2, g3, -, -⟩ := Codegen.codegen_spec (K := fieldOps K) (exps := exps) (σ0 := rowStore nb w nCm nConst cm1 fixed vs i) fuel 0 [] [reqOf id]
    (by simp) (fun _ _ _ a b => by simp [fieldOps, add_comm])
    (by
      intro r hr
      rw [List.mem_singleton] at hr
      subst hr
      exact ⟨d, e, _, hd, he, hv⟩)
    (by simp [reqOf]) (by simp [reqOf])
  have hgen : pilCodeGen 0 exps fuel ⟨0, [], []⟩ id false none false = some ctx := by
    simpa [Codegen.genAll, reqOf, Codegen.resOf, fieldOps] using g1
  have hval : σ' .exp id false = some (algebraMap F K v) := (g3 (reqOf id) (by simp) (algebraMap F K v) ⟨d, e, he, hv⟩).1
  refine ⟨ctx, hgen, ?_⟩
  have hPr : ProgOk exps (Needed exps [reqOf id]) (fun _ => 3) (fun _ => 3) [] ctx :=
    ProgOk.gen (fun _ _ _ _ _ => ⟨by omega, fun l r _ _ => by split <;> exact le_refl _⟩) (Map.needed_closed _ _) fuel (.req (List.mem_singleton.mpr rfl)) hgen .nil
  obtain ⟨init, last, hil, hld⟩ := code_last hgen (by simp)
  obtain ⟨em, e1, e2, e3⟩ := pubFix_spec lit ctx.tmpUsed (linearCode ctx)
  generalize hpf : pubFix lit ⟨[], ctx.tmpUsed⟩ (linearCode ctx) = pf at e1 e2 e3 ⊢
  set n := pf.2.tmpUsed with hn
  set Occ : Bool → Nat → Prop := fun p k => ∃ c ∈ linearCode ctx, ∃ r ∈ c.dest :: c.src, r.ty = .exp ∧ r.prime = p ∧ r.id = k with hOcc
  have hlast : last ∈ linearCode ctx := by rw [hil]; simp
  have hoid : Occ false id := by
    refine ⟨last, hlast, last.dest, List.mem_cons_self, ?_⟩
    rw [hld]
    exact ⟨rfl, rfl, rfl⟩
  have hleafs : ∀ ins ∈ linearCode ctx, ∀ r ∈ ins.src, r.ty ≠ .tmp → ∃ e ∈ exps, ∃ l p, HasLabel l e ∧ leafOf 0 p l = some r := by
    intro ins hi r hr ht
    rcases hPr.src ins hi r hr with ⟨a, -, -⟩ | ⟨id', e, p, h1, h2, e', he', l, h3, h4⟩
    · exact absurd a ht
    · rw [List.mem_singleton] at he'
      subst he'
      exact ⟨e', List.mem_of_getElem? h2, l, p, h3, h4⟩
  have hinE : ∀ ins ∈ linearCode ctx, InsE (layP s nb em lit) ctx.tmpUsed Occ ins := by
    intro ins hi
    refine ⟨fun ho => ?_, fun r hr => ?_, ?_⟩
    · obtain ⟨p, id', e, l, h1, h2, h3, h4⟩ := hPr.op ins hi ho
      exact (hP e (List.mem_of_getElem? h2) l h3).1 h4
    · refine ⟨?_, ?_, fun h1 _ => ⟨ins, hi, r, List.mem_cons_of_mem _ hr, h1, rfl, rfl⟩⟩
      · rcases hPr.src ins hi r hr with ⟨a, -, -⟩ | ⟨id', e, p, h1, h2, e', he', l, h3, h4⟩
        · rw [a]; decide
        · exact (Map.leafOf_ty h4).2
      · intro ht
        rcases hPr.src ins hi r hr with ⟨-, b, c⟩ | ⟨id', e, p, h1, h2, e', he', l, h3, h4⟩
        · exact ⟨b, c⟩
        · exact absurd ht (Map.leafOf_ty h4).1
    · rcases hPr.dest ins hi with h | ⟨h1, -, -, h4⟩
      · exact .inl h
      · exact .inr ⟨h1, rfl, ins, hi, ins.dest, List.mem_cons_self, h1, rfl, rfl⟩
  have hT : TmpE (layP s nb em lit) ctx.tmpUsed n Occ := by
    refine ⟨e2, ?_, ?_⟩
    · rintro p k ⟨c, hc, r, hr, h1, rfl, rfl⟩
      obtain ⟨a, b, -⟩ := e3 c hc r hr h1
      exact ⟨rfl, a, b⟩
    · rintro p k p' k' ⟨c, hc, r, hr, h1, rfl, rfl⟩ ⟨c', hc', r', hr', h1', rfl, rfl⟩ he
      exact (e3 c hc r hr h1).2.2 c' hc' r' hr' h1' he
  have hlf : LeafE (layP s nb em lit) .q_2ns 1 (linearCode ctx) c0 (rowStore nb w nCm nConst cm1 fixed vs i) i := by
    intro ins hins r hr ht hne v hv
    obtain ⟨e, he, l, p, hl, hlf⟩ := hleafs ins hins r hr ht
    exact leafP hC hpub hi ht (fun h => hne ⟨h, rfl⟩) (fun v h1 h2 => (hP e he l hl).2 p r v hlf h1 h2) hv
  set c1 : Ctx := c0.put .tmp (List.replicate n Ext3.ZERO) with hc1
  have hc1' : c1 = tmpIs c0 (List.replicate n Ext3.ZERO) := by
    rw [hc1, Interp.put_eq]
    rfl
  obtain ⟨l, h1, h2, h3⟩ := execE hT (le_refl 1) (linearCode ctx) hinE hlf (rowStore nb w nCm nConst cm1 fixed vs i) σ' c1
    ⟨fun t v _ h => (by cases h), fun p k v _ h => (by cases h), fun _ _ _ _ _ _ => rfl⟩
    (by rw [hc1']; exact (Agree.refl _ _).tmp _) (by rw [hc1', tmpIs_tmp, List.length_replicate]) g2
  have h1 : run algF3 s .n (2 ^ nb) 1 ((linearCode ctx).map (fixInstr (fun _ => none) lit em)) c1 i = some (tmpIs c1 l) := h1
  rw [← same_run s .n (2 ^ nb) 1 i e1] at h1
  obtain ⟨x, x1, x2⟩ := h3.un false id _ hoid hval
  have hx : x = ofF v := by
    rcases x2.cases with ⟨a, b, c, -, -, h⟩ | ⟨a, rfl, h, -⟩
    · omega
    · rw [(algebraMap F K).injective h]
  subst hx
  -- the last instruction
  rw [hil, List.map_append, List.map_singleton] at e1
  obtain ⟨pi, pl, f1, f2, hpe⟩ : ∃ pi pl, List.Forall₂ SameInstr pi (init.map (fixInstr (fun _ => none) lit em)) ∧ SameInstr pl (fixInstr (fun _ => none) lit em last) ∧ pf.1 = pi ++ [pl] := by
    exact forall_last e1
  have hc1b : c1.nbits = nb := hC.nbits
  have hmean : meaning algF3 s .n (2 ^ nb) 1 (tmpIs c1 l) i pl.dest = some (ofF v) := by
    rw [f2.2.1.meaning]
    show meaning algF3 s .n (2 ^ nb) 1 (tmpIs c1 l) i (fixNode (fun _ => none) lit em last.dest) = _
    rw [hld]
    show ((tmpIs c1 l).mem .tmp)[em false id]? = _
    rw [tmpIs_tmp]
    exact x1
  rw [hpe] at h1
  obtain ⟨blk, b1, b2⟩ := Interp.compile_eval_ret algF3 (s := s) (dom := .n) (code := pi) (ins := pl) (c := c1) (c' := tmpIs c1 l) (i := i) (v := ofF v)
    (by rw [hc1b]; exact hi) (by rw [hc1b]; exact h1) (by rw [hc1b]; exact hmean)
  refine ⟨l, ?_⟩
  unfold expAtPoint
  rw [hpe]
  have b1 : Interp.compileCode c0.nbits c0.nbitsExt s (pi ++ [pl]) .n true = some blk := b1
  rw [b1, Option.bind_some]
  show Interp.eval algF3 blk c1 i = _
  rw [b2, hc1', tmpIs_idem]

/-! ### All public inputs -/

/-- the program of an expression, starkinfo.rs L281-316 -/
def IsCode (exps : List (Expr K)) (fuel : Nat) (lit : K → F3G) (p : Pub) (c : Code) : Prop :=
  ∃ ctx, pilCodeGen 0 exps fuel ⟨0, [], []⟩ p.polId false none false = some ctx ∧
    c = ⟨(pubFix lit ⟨[], ctx.tmpUsed⟩ (linearCode ctx)).1, (pubFix lit ⟨[], ctx.tmpUsed⟩ (linearCode ctx)).2.tmpUsed⟩

theorem publicsCode_spec : ∀ {pubs : List Pub} {codes : List Code}, publicsCode exps fuel lit pubs = some codes →
    List.Forall₂ (IsCode exps fuel lit) (pubs.filter fun p => p.ty = .imP) codes
  | [], codes, h => by
    rw [publicsCode] at h
    obtain rfl := Option.some.inj h
    exact .nil
  | p :: ps, codes, h => by
    rw [publicsCode] at h
    by_cases hp : p.ty = .imP
    · rw [if_pos hp] at h
      obtain ⟨ctx, h1, h⟩ := Option.bind_eq_some_iff.mp h
      obtain ⟨cs, h2, rfl⟩ := Option.map_eq_some_iff.mp h
      rw [List.filter_cons_of_pos (by simpa using hp)]
      exact .cons ⟨ctx, h1, rfl⟩ (publicsCode_spec h2)
    · rw [if_neg hp] at h
      rw [List.filter_cons_of_neg (by simpa using hp)]
      exact publicsCode_spec h

theorem publicsCode_total : ∀ {pubs : List Pub}, (∀ p ∈ pubs, p.ty = .imP → ∃ ctx, pilCodeGen 0 exps fuel ⟨0, [], []⟩ p.polId false none false = some ctx) →
    ∃ codes, publicsCode exps fuel lit pubs = some codes
  | [], _ => ⟨[], rfl⟩
  | p :: ps, h => by
    obtain ⟨cs, hcs⟩ := publicsCode_total (pubs := ps) fun x hx => h x (by simp [hx])
    rw [publicsCode]
    by_cases hp : p.ty = .imP
    · obtain ⟨ctx, hctx⟩ := h p (by simp) hp
      rw [if_pos hp, hctx, Option.bind_some, hcs]
      exact ⟨_, rfl⟩
    · rw [if_neg hp]
      exact ⟨cs, hcs⟩

/-- Specification: the expressions come before the cells. -/
def ExpsFirst (pubs : List Pub) : Prop := ∀ (i j : Nat) (p q : Pub), i < j → pubs[i]? = some p → pubs[j]? = some q → q.ty = .imP → p.ty = .imP

theorem expsFirst_get : ∀ {pubs : List Pub}, ExpsFirst pubs → ∀ {i : Nat} {p : Pub}, pubs[i]? = some p → p.ty = .imP → (pubs.filter fun p => p.ty = .imP)[i]? = some p
  | [], _, i, p, h, _ => by simp at h
  | q :: qs, hf, 0, p, h, hp => by
    simp only [List.getElem?_cons_zero, Option.some.injEq] at h
    subst h
    rw [List.filter_cons_of_pos (by simpa using hp)]
    rfl
  | q :: qs, hf, i + 1, p, h, hp => by
    rw [List.getElem?_cons_succ] at h
    have hq : q.ty = .imP := hf 0 (i + 1) q p (by omega) rfl (by simpa using h) hp
    rw [List.filter_cons_of_pos (by simpa using hq), List.getElem?_cons_succ]
    exact expsFirst_get (fun a b x y h1 h2 h3 h4 => hf (a + 1) (b + 1) x y (by omega) (by simpa using h2) (by simpa using h3) h4) h hp

/-- the buffers with the first `j` public inputs -/
def withPubs (c : Ctx) (vs : List F) (n j : Nat) (l : List F3G) : Ctx := tmpIs (c.put .publics ((vs.take j).map ofF ++ List.replicate (n - j) Ext3.ZERO)) l

theorem withPubs_mem (c : Ctx) (vs : List F) (n j : Nat) (l : List F3G) {t : Sec} (h1 : t ≠ .tmp) (h2 : t ≠ .publics) : (withPubs c vs n j l).mem t = c.mem t := by
  unfold withPubs tmpIs Interp.Ctx.put
  dsimp only
  rw [Function.update_of_ne h1, if_neg h2]

theorem withPubs_pub (c : Ctx) (vs : List F) (n j : Nat) (l : List F3G) : (withPubs c vs n j l).mem .publics = (vs.take j).map ofF ++ List.replicate (n - j) Ext3.ZERO := by
  unfold withPubs tmpIs Interp.Ctx.put
  dsimp only
  rw [Function.update_of_ne (by decide), if_pos rfl]

theorem withPubs_ctx (hC : RowCtx nb w nCm nConst cm1 fixed s c0) (vs : List F) (n j : Nat) (l : List F3G) : RowCtx nb w nCm nConst cm1 fixed s (withPubs c0 vs n j l) := by
  refine ⟨hC.nbits, ?_, ?_, ?_, hC.col, hC.width, hC.nConst⟩
  all_goals rw [withPubs_mem _ _ _ _ _ (by decide) (by decide)]
  · exact hC.cm
  · exact hC.const_
  · exact hC.x

theorem withPubs_set (c : Ctx) {vs : List F} {n j : Nat} (l : List F3G) {v : F} (hv : vs[j]? = some v) (hn : vs.length = n) :
    (Interp.setCell ((withPubs c vs n j l).mem .publics) j (ofF v)).map ((withPubs c vs n j l).put .publics) = some (withPubs c vs n (j + 1) l) := by
  have hlt : j < vs.length := (List.getElem?_eq_some_iff.mp hv).1
  have hlen : ((vs.take j).map ofF).length = j := by simp; omega
  rw [withPubs_pub]
  unfold Interp.setCell
  rw [if_pos (by simp; omega), Option.map_some]
  have : ((vs.take j).map ofF ++ List.replicate (n - j) Ext3.ZERO).set j (ofF v) = (vs.take (j + 1)).map ofF ++ List.replicate (n - (j + 1)) Ext3.ZERO := by
    rw [List.set_append_right _ _ (by omega), hlen, Nat.sub_self, show n - j = (n - (j + 1)) + 1 by omega, List.replicate_succ, List.set_cons_zero, List.take_add_one, hv]
    simp
  rw [this]
  unfold withPubs tmpIs Interp.Ctx.put
  simp only [Option.some.injEq, Interp.Ctx.mk.injEq, true_and]
  refine ⟨?_, trivial⟩
  funext t
  by_cases h1 : t = .publics
  · subst h1
    simp
  · by_cases h2 : t = .tmp
    · subst h2
      simp
    · simp [h1, h2]

/-- **C105** If the public inputs that are values of expressions come before those that are cells of the trace, the programs are generated, and the prover computes the
value of every public input: the cell, or the value of the expression at the row, which may use the earlier public inputs; it changes nothing else but the temporaries. -/
theorem publics_spec_partial (hP : PlainExps exps lit) {c : Ctx} (hC : RowCtx nb w nCm nConst cm1 fixed s c) {pubs : List Pub}
    (hA : ArePubs exps fuel nb w nCm nConst cm1 fixed pubs vs) (hF : ExpsFirst pubs) :
    ∃ codes, publicsCode exps fuel lit pubs = some codes ∧
      ∃ l, publicsBuf s codes pubs c = some { c with mem := fun t => if t = .publics then vs.map ofF else if t = .tmp then l else c.mem t } := by
  obtain ⟨hlen, hA⟩ := hA
  obtain ⟨codes, hcodes⟩ : ∃ codes, publicsCode exps fuel lit pubs = some codes := by
    refine publicsCode_total fun p hp hty => ?_
    obtain ⟨i, hi⟩ := List.mem_iff_getElem?.mp hp
    have hlt := (List.getElem?_eq_some_iff.mp hi).1
    obtain ⟨h1, h2⟩ := hA i p _ hi (List.getElem?_eq_getElem (by omega))
    rw [hty] at h2
    obtain ⟨d, e, hd, he, hv⟩ := h2
    obtain ⟨ctx, hg, -⟩ := expAtPoint_spec (c0 := withPubs c vs pubs.length i []) hP (withPubs_ctx hC _ _ _ _) (fun k v hk => by
      rw [withPubs_pub, List.getElem?_append_left (by rw [List.length_map]; exact (List.getElem?_eq_some_iff.mp hk).1), List.getElem?_map, hk]
      rfl) h1 hd he hv
    exact ⟨ctx, hg⟩
  refine ⟨codes, hcodes, ?_⟩
  have hcs := publicsCode_spec hcodes
  have key : ∀ (ps pre : List Pub), pubs = pre ++ ps → ∀ l, ∃ l', (ps.zipIdx pre.length).foldlM (pubStep s codes) (withPubs c vs pubs.length pre.length l) =
      some (withPubs c vs pubs.length pubs.length l') := by
    intro ps
    induction ps with
    | nil =>
      rintro pre rfl l
      exact ⟨l, by simp⟩
    | cons p ps ih =>
      rintro pre hpre l
      have hget : pubs[pre.length]? = some p := by rw [hpre]; simp
      have hlt := (List.getElem?_eq_some_iff.mp hget).1
      obtain ⟨v, hv⟩ : ∃ v, vs[pre.length]? = some v := ⟨_, List.getElem?_eq_getElem (by omega)⟩
      obtain ⟨hidx, hp⟩ := hA _ p v hget hv
      have hstep : ∃ l1, pubStep s codes (withPubs c vs pubs.length pre.length l) (p, pre.length) = some (withPubs c vs pubs.length (pre.length + 1) l1) := by
        unfold pubStep
        cases hty : p.ty with
        | other => rw [hty] at hp; exact hp.elim
        | cmP =>
          rw [hty] at hp
          obtain ⟨h1, rfl⟩ := hp
          refine ⟨l, ?_⟩
          dsimp only
          rw [withPubs_mem _ _ _ _ _ (by decide) (by decide), hC.width, hC.cm _ hidx _ h1, Option.bind_some]
          exact withPubs_set c l hv hlen
        | imP =>
          rw [hty] at hp
          obtain ⟨d, e, hd, he, hval⟩ := hp
          obtain ⟨ctx, hg, l1, hl1⟩ := expAtPoint_spec (c0 := withPubs c vs pubs.length pre.length l) hP (withPubs_ctx hC _ _ _ _) (fun k v hk => by
            rw [withPubs_pub, List.getElem?_append_left (by rw [List.length_map]; exact (List.getElem?_eq_some_iff.mp hk).1), List.getElem?_map, hk]
            rfl) hidx hd he hval
          refine ⟨l1, ?_⟩
          dsimp only
          obtain ⟨seg, hseg, ctx', hg', rfl⟩ : ∃ seg, codes[pre.length]? = some seg ∧ IsCode exps fuel lit p seg := by
            have hg := expsFirst_get hF hget hty
            obtain ⟨hl2, hq⟩ := List.forall₂_iff_get.mp hcs
            obtain ⟨hlt2, hge⟩ := List.getElem?_eq_some_iff.mp hg
            refine ⟨_, List.getElem?_eq_getElem (by omega), ?_⟩
            have := hq pre.length hlt2 (by omega)
            simp only [List.get_eq_getElem] at this
            rw [hge] at this
            exact this
          rw [hg] at hg'
          obtain rfl := Option.some.inj hg'
          rw [hseg, Option.bind_some, hl1, Option.bind_some]
          dsimp only
          have : tmpIs (withPubs c vs pubs.length pre.length l) l1 = withPubs c vs pubs.length pre.length l1 := by
            unfold withPubs
            rw [tmpIs_idem]
          rw [this]
          exact withPubs_set c l1 hv hlen
      obtain ⟨l1, hl1⟩ := hstep
      obtain ⟨l2, hl2⟩ := ih (pre ++ [p]) (by simp [hpre]) l1
      refine ⟨l2, ?_⟩
      rw [List.zipIdx_cons, List.foldlM_cons, hl1, Option.bind_eq_bind, Option.bind_some]
      rw [List.length_append, List.length_singleton] at hl2
      exact hl2
  obtain ⟨l, hl⟩ := key pubs [] rfl (c.mem .tmp)
  refine ⟨l, ?_⟩
  unfold publicsBuf
  have hstart : withPubs c vs pubs.length 0 (c.mem .tmp) = c.put .publics (List.replicate pubs.length Ext3.ZERO) := by
    unfold withPubs
    rw [List.take_zero, List.map_nil, List.nil_append, Nat.sub_zero]
    exact tmpIs_self (c.put .publics (List.replicate pubs.length Ext3.ZERO))
  rw [List.length_nil, hstart] at hl
  rw [hl]
  congr 1
  unfold withPubs tmpIs Interp.Ctx.put
  dsimp only
  congr 1
  funext t
  by_cases h2 : t = .tmp
  · subst h2
    simp
  · by_cases h1 : t = .publics
    · subst h1
      simp [← hlen]
    · simp [h1, h2]

/-- **C105** is false otherwise: whenever a public input that is the value of an expression follows one that is a cell of the trace, the prover panics, whatever the trace. -/
theorem publics_mixed {pubs : List Pub} {codes : List Code} (hcodes : publicsCode exps fuel lit pubs = some codes) {i j : Nat} {p q : Pub} (hij : i < j)
    (hp : pubs[i]? = some p) (hq : pubs[j]? = some q) (hpt : p.ty ≠ .imP) (hqt : q.ty = .imP) (s : Info) (c : Ctx) : publicsBuf s codes pubs c = none := by
  -- the last expression
  obtain ⟨m, qm, hjm, hm, hmt, hlast⟩ : ∃ m qm, j ≤ m ∧ pubs[m]? = some qm ∧ qm.ty = .imP ∧ ∀ k x, m < k → pubs[k]? = some x → x.ty ≠ .imP := by
    by_contra hno
    push Not at hno
    have : ∀ n, ∃ m qm, j + n ≤ m ∧ pubs[m]? = some qm ∧ qm.ty = .imP := by
      intro n
      induction n with
      | zero => exact ⟨j, q, le_refl _, hq, hqt⟩
      | succ n ih =>
        obtain ⟨m, qm, h1, h2, h3⟩ := ih
        obtain ⟨k, x, h4, h5, h6⟩ := hno m qm (by omega) h2 h3
        exact ⟨k, x, by omega, h5, h6⟩
    obtain ⟨m, qm, h1, h2, -⟩ := this pubs.length
    have := (List.getElem?_eq_some_iff.mp h2).1
    omega
  have hcnt : codes.length ≤ m := by
    rw [← (publicsCode_spec hcodes).length_eq, ← List.take_append_drop (m + 1) pubs, List.filter_append, List.length_append]
    have h0 : (pubs.drop (m + 1)).filter (fun p => p.ty = .imP) = [] := by
      rw [List.filter_eq_nil_iff]
      intro x hx
      obtain ⟨k, hk⟩ := List.mem_iff_getElem?.mp hx
      rw [List.getElem?_drop] at hk
      simpa using hlast _ x (by omega) hk
    have hmem : p ∈ pubs.take (m + 1) := by
      refine List.mem_iff_getElem?.mpr ⟨i, ?_⟩
      rw [List.getElem?_take_of_lt (by omega)]
      exact hp
    have h1 : ((pubs.take (m + 1)).filter fun p => p.ty = .imP).length < (pubs.take (m + 1)).length :=
      List.length_filter_lt_length_iff_exists.mpr ⟨p, hmem, by simpa using hpt⟩
    have h2 : (pubs.take (m + 1)).length ≤ m + 1 := by simp
    rw [h0, List.length_nil]
    omega
  have hfail : ∀ c, pubStep s codes c (qm, m) = none := by
    intro c
    unfold pubStep
    dsimp only
    rw [hmt]
    dsimp only
    rw [List.getElem?_eq_none hcnt]
    rfl
  have hin : (qm, m) ∈ pubs.zipIdx := by
    rw [List.mem_zipIdx_iff_getElem?]
    exact hm
  unfold publicsBuf
  generalize c.put .publics (List.replicate pubs.length Ext3.ZERO) = c'
  generalize pubs.zipIdx = z at hin
  induction z generalizing c' with
  | nil => cases hin
  | cons a z ih =>
    rw [List.foldlM_cons]
    rcases List.mem_cons.mp hin with rfl | hin
    · rw [hfail]
      rfl
    · cases pubStep s codes c' a with
      | none => rfl
      | some c1 => exact ih c1 hin

end

end Verif.Stage
