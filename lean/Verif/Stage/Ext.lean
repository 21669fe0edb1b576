import Verif.Stage.ExtCode

/-!
# Steps 4 and 5 of the prover on its buffers
-/
set_option linter.unusedSectionVars false

namespace Verif.Stage
open Verif.Codegen (NTy IOp Expr Label Op linearCode pilCodeGen genOne addResult)
open Verif.Codegen.Spec (Store readN exec)
open Verif.Interp (NodeTy OpTy Dom Sec Info algF3 execInfo setWidth cleared calcPar modOf nextOf CodeOk)
open Verif.Interp.Spec (Col cell readCol writeCol nodeCol rowOf meaning store stepI run readBase)
open Verif.Ext3 (F3G K coord val WF ofF)
open Verif.Stark (fieldOps Run Setup Trace ColPos extStore width4 xExt colVal zhInv im2cmOf imDone withIm Layout Dims quotRow friRows xDivs expDim)
open Verif.FFT (mgK shiftK)
open Verif.Fri (encK)
open Verif.GL (F)
open Verif.Map (Lay Rel fixNode fixInstr fixOp sameTy Hold Blank tgtOf sec2 HasLabel leafOf Needed ProgOk fixProverCode Tidy)

noncomputable section

/-! ### Labels of the generated expressions -/

/-- what holds of the expressions of the circuit, of `vc`, of references, of the intermediate columns, and of sums, products and differences, holds of the
combined constraint -/
theorem generate_ind {exps : List (Expr K)} {fuel nCm maxDeg q : Nat} {ids : List Nat} {S : Finset Nat} {c' : Expr K}
    (h : ImPols.generate fuel exps ids nCm maxDeg = some (S, q, c')) {Q : Expr K → Prop} (he : ∀ e ∈ exps, Q e) (hvc : Q ImPols.vcE) (hexp : ∀ i, Q (ImPols.expE i))
    (hcm : ∀ i < S.card, Q (ImPols.cmE (nCm + i))) (hadd : ∀ a b, Q a → Q b → Q (.node { op := .add } [a, b])) (hmul : ∀ a b, Q a → Q b → Q (.node { op := .mul } [a, b]))
    (hsub : ∀ a b, Q a → Q b → Q (.node { op := .sub } [a, b])) : Q c' ∧ ∀ k ∈ S, k < exps.length := by
  have comb : ∀ c e c' : Expr K, Q c → Q e → ImPols.combine (some c) e = some c' → Q c' := by
    intro c e c' hc he h
    simp only [ImPols.combine, Option.some.injEq] at h
    subst h
    exact hadd _ _ (hmul _ _ hvc hc) he
  obtain ⟨c, hc, h⟩ := Option.bind_eq_some_iff.mp h
  obtain ⟨⟨S', q'⟩, hs, h⟩ := Option.bind_eq_some_iff.mp h
  dsimp only at h
  split_ifs at h
  obtain ⟨c2, h2, h3⟩ := Option.map_eq_some_iff.mp h
  simp only [Prod.mk.injEq] at h3
  obtain ⟨rfl, rfl, rfl⟩ := h3
  have hc1 : Q c := by
    have main : ∀ (ids : List Nat) (o : Option (Expr K)), (∀ c, o = some c → Q c) →
        ∀ c, ids.foldl (fun c i => ImPols.combine c (ImPols.expE i)) o = some c → Q c := by
      intro ids
      induction ids with
      | nil => intro o ho c h; exact ho c h
      | cons id ids ih =>
        intro o ho c h
        rw [List.foldl_cons] at h
        refine ih _ ?_ c h
        intro c1 h1
        cases o with
        | none =>
          simp only [ImPols.combine, Option.some.injEq] at h1
          subst h1; exact hexp id
        | some c0 => exact comb _ _ _ (ho c0 rfl) (hexp id) h1
    exact main ids none (by simp) c hc
  have main2 : ∀ (ks : List (Nat × Nat)) c c', (∀ x ∈ ks, x.2 < S'.card) → Q c → ImPols.addIm exps nCm ks (some c) = some c' → Q c' ∧ ∀ x ∈ ks, x.1 < exps.length := by
    intro ks
    induction ks with
    | nil => intro c c' _ hc h; simp only [ImPols.addIm, Option.some.injEq] at h; subst h; exact ⟨hc, by simp⟩
    | cons x ks ih =>
      obtain ⟨k, i⟩ := x
      intro c c' hk hc h
      rw [ImPols.addIm] at h
      obtain ⟨e, he', h⟩ := Option.bind_eq_some_iff.mp h
      obtain ⟨g1, g2⟩ := ih _ c' (fun x hx => hk x (by simp [hx])) (comb c _ _ hc (hsub _ _ (he _ (List.mem_of_getElem? he')) (hcm i (hk (k, i) (by simp)))) rfl) h
      refine ⟨g1, fun x hx => ?_⟩
      rcases List.mem_cons.mp hx with rfl | hx
      · exact (List.getElem?_eq_some_iff.mp he').1
      · exact g2 x hx
  obtain ⟨g1, g2⟩ := main2 _ _ _ (by
    intro x hx
    obtain ⟨k, i⟩ := x
    rw [List.mk_mem_zipIdx_iff_getElem?] at hx
    have := (List.getElem?_eq_some_iff.mp hx).1
    simpa using this) hc1 h2
  refine ⟨g1, fun k hk => ?_⟩
  have hk' : k ∈ S'.sort (· ≤ ·) := by simpa using hk
  obtain ⟨i, hi⟩ := List.getElem?_of_mem hk'
  exact g2 (k, i) (by rw [List.mk_mem_zipIdx_iff_getElem?]; exact hi)

theorem hasLabel_one {l l' : Label K} (h : HasLabel l (.node l' [])) : l = l' := by
  cases h with
  | here => rfl
  | child hm _ => simp at hm

theorem hasLabel_two {l l' : Label K} {a b : Expr K} (h : HasLabel l (.node l' [a, b])) : l = l' ∨ HasLabel l a ∨ HasLabel l b := by
  cases h with
  | here => exact .inl rfl
  | child hm h =>
    rcases List.mem_cons.mp hm with rfl | hm
    · exact .inr (.inl h)
    · rw [List.mem_singleton] at hm
      subst hm
      exact .inr (.inr h)

/-- The expressions of a circuit: only arithmetic operations have operands; no `muladd`, no reference to the tables `x / (x - xi)`; the columns exist. -/
structure ExpsE (nCm : Nat) (exps : List (Expr K)) : Prop where
  tidy : ∀ e ∈ exps, Tidy e
  ops : ∀ e ∈ exps, ∀ l, HasLabel l e → l.op ≠ .muladd ∧ l.op ≠ .xDivXSubXi ∧ l.op ≠ .xDivXSubWXi
  cols : ∀ e ∈ exps, ∀ l, HasLabel l e → l.op = .cm → ∀ i, l.id = some i → i < nCm

theorem tidy_leaf (l : Label K) : Tidy (.node l []) := .mk (by simp) (by simp)

theorem tidy_two {l : Label K} {a b : Expr K} (hl : Map.Arith l.op) (ha : Tidy a) (hb : Tidy b) : Tidy (.node l [a, b]) :=
  .mk (fun _ => hl) (by simp [ha, hb])

/-- the conditions hold of the combined constraint too -/
theorem cExp_ok {exps : List (Expr K)} {fuel nCm maxDeg q : Nat} {ids : List Nat} {S : Finset Nat} {c' : Expr K}
    (h : ImPols.generate fuel exps ids nCm maxDeg = some (S, q, c')) (hE : ExpsE nCm exps) :
    ExpsE (nCm + S.card) (exps ++ [c']) ∧ ∀ k ∈ S, k < exps.length := by
  have hT := generate_ind h (Q := Tidy) hE.tidy (tidy_leaf _) (fun _ => tidy_leaf _) (fun _ _ => tidy_leaf _)
    (fun _ _ ha hb => tidy_two (.inl rfl) ha hb) (fun _ _ ha hb => tidy_two (.inr (.inr (.inl rfl))) ha hb) (fun _ _ ha hb => tidy_two (.inr (.inl rfl)) ha hb)
  have hP := generate_ind h (Q := fun e => ∀ l, HasLabel l e → (l.op ≠ .muladd ∧ l.op ≠ .xDivXSubXi ∧ l.op ≠ .xDivXSubWXi) ∧ (l.op = .cm → ∀ i, l.id = some i → i < nCm + S.card))
    (fun e he l hl => ⟨hE.ops e he l hl, fun ho i hi => by have := hE.cols e he l hl ho i hi; omega⟩)
    (fun l hl => by rw [hasLabel_one hl]; simp)
    (fun i l hl => by rw [hasLabel_one hl]; simp)
    (fun i hi l hl => by rw [hasLabel_one hl]; simpa using hi)
    (fun a b ha hb l hl => (hasLabel_two hl).elim (fun h => by rw [h]; simp) fun h => h.elim (ha l) (hb l))
    (fun a b ha hb l hl => (hasLabel_two hl).elim (fun h => by rw [h]; simp) fun h => h.elim (ha l) (hb l))
    (fun a b ha hb l hl => (hasLabel_two hl).elim (fun h => by rw [h]; simp) fun h => h.elim (ha l) (hb l))
  refine ⟨⟨fun e he => ?_, fun e he l hl => ?_, fun e he l hl ho i hi => ?_⟩, hT.2⟩
  all_goals rcases List.mem_append.mp he with he | he
  · exact hE.tidy e he
  · rw [List.mem_singleton.mp he]; exact hT.1
  · exact hE.ops e he l hl
  · rw [List.mem_singleton.mp he] at hl; exact (hP.1 l hl).1
  · have := hE.cols e he l hl ho i hi; omega
  · rw [List.mem_singleton.mp he] at hl; exact (hP.1 l hl).2 ho i hi

/-- the operations of the FRI expression -/
def FriOp (o : Op) : Prop := o ≠ .muladd ∧ o ≠ .exp ∧ o ≠ .x

theorem fri_labels {nCm : Nat} {evMap : List Stark.EvKey} {fe : Expr K} (h : Stark.friExpr nCm evMap = some fe) : ∀ l, HasLabel l fe → FriOp l.op := by
  let Q : Expr K → Prop := fun e => ∀ l, HasLabel l e → FriOp l.op
  have leaf : ∀ l : Label K, FriOp l.op → Q (.node l []) := fun l h l' hl => by rw [hasLabel_one hl]; exact h
  have two : ∀ (l : Label K) a b, FriOp l.op → Q a → Q b → Q (.node l [a, b]) := fun l a b h ha hb l' hl => by
    rcases hasLabel_two hl with rfl | hl | hl
    · exact h
    · exact ha _ hl
    · exact hb _ hl
  have add : ∀ a b : Expr K, Q a → Q b → Q (Stark.eAdd a b) := fun a b => two _ a b (by simp [FriOp])
  have mul : ∀ a b : Expr K, Q a → Q b → Q (Stark.eMul a b) := fun a b => two _ a b (by simp [FriOp])
  have sub : ∀ a b : Expr K, Q a → Q b → Q (Stark.eSub a b) := fun a b => two _ a b (by simp [FriOp])
  have ch : ∀ i, Q (Stark.eChallenge i) := fun i => leaf _ (by simp [FriOp])
  have cm : ∀ i, Q (Stark.eCol .cm i) := fun i => leaf _ (by simp [FriOp])
  have co : ∀ i, Q (Stark.eCol .const_ i) := fun i => leaf _ (by simp [FriOp])
  have ev : ∀ i, Q (Stark.eEval i) := fun i => leaf _ (by simp [FriOp])
  have nop : Q Stark.eNop := leaf _ (by simp [FriOp])
  have h0 : Q (Stark.friCm nCm) := by
    unfold Stark.friCm
    generalize List.range nCm = l
    have : ∀ (l : List Nat) (acc : Expr K), Q acc →
        Q (l.foldl (fun acc i => if Stark.isNop acc then Stark.eCol .cm i else Stark.eAdd (Stark.eMul (Stark.eChallenge 5) acc) (Stark.eCol .cm i)) acc) := by
      intro l
      induction l with
      | nil => exact fun acc h => h
      | cons a l ih =>
        intro acc h
        rw [List.foldl_cons]
        refine ih _ ?_
        split_ifs
        · exact cm a
        · exact add _ _ (mul _ _ (ch 5) h) (cm a)
    exact this l _ nop
  unfold Stark.friExpr at h
  obtain ⟨f, hf, h⟩ := Option.bind_eq_some_iff.mp h
  have h1 : Q f.1 ∧ Q f.2 := by
    unfold Stark.friEv at hf
    revert hf
    generalize evMap.zipIdx = l
    have hgo : ∀ (l : List (Stark.EvKey × Nat)) (acc f : Expr K × Expr K), Q acc.1 → Q acc.2 → l.foldlM (fun acc x =>
        (if x.1.1 = .cm then some (Stark.eCol .cm x.1.2.2) else if x.1.1 = .const_ then some (Stark.eCol .const_ x.1.2.2) else none).map fun e =>
        let cur := if x.1.2.1 then acc.2 else acc.1
        let new := if Stark.isNop cur then Stark.eSub e (Stark.eEval x.2) else Stark.eAdd (Stark.eMul cur (Stark.eChallenge 6)) (Stark.eSub e (Stark.eEval x.2))
        if x.1.2.1 then (acc.1, new) else (new, acc.2)) acc = some f → Q f.1 ∧ Q f.2 := by
      intro l
      induction l with
      | nil =>
        intro acc f h1 h2 h
        simp only [List.foldlM_nil, Option.pure_def, Option.some.injEq] at h
        subst h
        exact ⟨h1, h2⟩
      | cons x l ih =>
        intro acc f h1 h2 h
        rw [List.foldlM_cons] at h
        obtain ⟨acc', h3, h⟩ := Option.bind_eq_some_iff.mp h
        obtain ⟨e, h4, h3⟩ := Option.map_eq_some_iff.mp h3
        have he : Q e := by
          split_ifs at h4
          · rw [← Option.some.inj h4]; exact cm _
          · rw [← Option.some.inj h4]; exact co _
        dsimp only at h3
        have hcur : Q (if x.1.2.1 then acc.2 else acc.1) := by split_ifs <;> assumption
        have hnew : Q (if Stark.isNop (if x.1.2.1 then acc.2 else acc.1) then Stark.eSub e (Stark.eEval x.2) else
            Stark.eAdd (Stark.eMul (if x.1.2.1 then acc.2 else acc.1) (Stark.eChallenge 6)) (Stark.eSub e (Stark.eEval x.2))) := by
          by_cases hn : Stark.isNop (if x.1.2.1 then acc.2 else acc.1) = true
          · rw [if_pos hn]
            exact sub _ _ he (ev _)
          · rw [if_neg hn]
            exact add _ _ (mul _ _ hcur (ch 6)) (sub _ _ he (ev _))
        refine ih acc' f ?_ ?_ h
        · rw [← h3]
          by_cases hp : x.1.2.1 = true
          · rw [if_pos hp]; exact h1
          · rw [if_neg hp]; exact hnew
        · rw [← h3]
          by_cases hp : x.1.2.1 = true
          · rw [if_pos hp]; exact hnew
          · rw [if_neg hp]; exact h2
    exact fun hf => hgo l _ _ nop nop hf
  have hx : Q (.node { op := .xDivXSubXi } []) := leaf _ (by simp [FriOp])
  have hw : Q (.node { op := .xDivXSubWXi } []) := leaf _ (by simp [FriOp])
  dsimp only at h
  have h2 : Q (if Stark.isNop (Stark.friCm nCm : Expr K) then Stark.friCm nCm else
      Stark.eAdd (Stark.eMul (Stark.eChallenge 5) (Stark.friCm nCm)) (Stark.eMul f.1 (.node { op := .xDivXSubXi } []))) := by
    split
    · exact h0
    · exact add _ _ (mul _ _ (ch 5) h0) (mul _ _ h1.1 hx)
  revert h h2
  generalize (if Stark.isNop (Stark.friCm nCm : Expr K) then Stark.friCm nCm else
      Stark.eAdd (Stark.eMul (Stark.eChallenge 5) (Stark.friCm nCm)) (Stark.eMul f.1 (.node { op := .xDivXSubXi } []))) = e1
  intro h h2
  have h3 : Q (if Stark.isNop f.2 then e1 else if Stark.isNop e1 then Stark.eMul f.2 (.node { op := .xDivXSubWXi } []) else
      Stark.eAdd (Stark.eMul (Stark.eChallenge 5) e1) (Stark.eMul f.2 (.node { op := .xDivXSubWXi } []))) := by
    split
    · exact h2
    · split
      · exact mul _ _ h1.2 hw
      · exact add _ _ (mul _ _ (ch 5) h2) (mul _ _ h1.2 hw)
  revert h h3
  generalize (if Stark.isNop f.2 then e1 else if Stark.isNop e1 then Stark.eMul f.2 (.node { op := .xDivXSubWXi } []) else
      Stark.eAdd (Stark.eMul (Stark.eChallenge 5) e1) (Stark.eMul f.2 (.node { op := .xDivXSubWXi } []))) = e2
  intro h h3
  split_ifs at h
  rw [← Option.some.inj h]
  exact h3

/-! ### Step 4 -/

/-- The last instruction of step 4, starkinfo_cp_prover.rs L102-110: the product of the destination of the last instruction with `Zi`, stored in `q`.  The code
pushes it before `fix_prover_code` (starkinfo_map.rs L245-251), which replaces the cloned destination by the same temporary as the destination itself and leaves
`q` and `Zi` as they are. -/
def pushZi (code : List (Interp.Instr F3G)) : Option (List (Interp.Instr F3G)) :=
  code.getLast?.map fun last => code ++ [⟨.mul, { ty := .q }, [last.dest, { ty := .Zi }]⟩]

/-- the literals of the programs: base field numbers have dimension 1 -/
structure LitOk (lit : K → F3G) : Prop where
  val : ∀ v, WF (lit v) ∧ Ext3.val (lit v) = v
  base : ∀ b : F, (lit (algebraMap F K b)).dim = 1

/-- an expression step 4 needs: a tidy expression of the list, of dimension 1 if the quotient has dimension 1 -/
theorem needed_dim {R : Run} {U : Setup K} {exps : List (Expr K)} (hD : Dims R U exps) (hT : ∀ e ∈ exps ++ [U.cExp], Tidy e) {p : Bool} {id : Nat}
    (h : Needed (exps ++ [U.cExp]) [reqOf exps.length] p id) : R.qDim = 1 → ∃ e n d, (exps ++ [U.cExp])[id]? = some e ∧ d ≤ 1 ∧
      expDim exps (fun k => (R.pos k).map ColPos.dim) n e = some d := by
  intro hq
  induction h with
  | @req r hr =>
    rw [List.mem_singleton] at hr
    subst hr
    obtain ⟨n, hn⟩ := hD.quot
    rw [hq] at hn
    exact ⟨U.cExp, n, 1, by simp [reqOf], le_refl _, hn⟩
  | @ref p id e l j _ he hl ho hj ih =>
    obtain ⟨e', n, d, h1, h2, h3⟩ := ih
    rw [he] at h1
    obtain rfl := Option.some.inj h1
    obtain ⟨n', vs, d', g1, g2⟩ := Map.expDim_sub hl (hT e (List.mem_of_getElem? he)) h3
    cases n' with
    | zero => simp [expDim] at g2
    | succ n' =>
      rw [expDim, ho] at g2
      simp only [hj, Option.bind_some] at g2
      obtain ⟨e1, k1, k2⟩ := Option.bind_eq_some_iff.mp g2
      exact ⟨e1, n', d', by rw [List.getElem?_append_left (List.getElem?_eq_some_iff.mp k1).1]; exact k1, by omega, k2⟩

/-- its operands -/
theorem leaf4 {R : Run} {U : Setup K} {T : Trace} {s : Info} {exps : List (Expr K)} (hL : Layout R U T) (hD : Dims R U exps) (hq : R.qDim = 1 ∨ R.qDim = 3)
    (hE : ExpsE (R.nCm + U.S.card) (exps ++ [U.cExp])) (hN : ∀ e ∈ exps ++ [U.cExp], Stark.NumBase e) {lit : K → F3G} (hlit : LitOk lit) {p : Bool} {id : Nat} {e : Expr K} {l : Label K}
    {r : Codegen.Node K} (h : Needed (exps ++ [U.cExp]) [reqOf exps.length] p id) (he : (exps ++ [U.cExp])[id]? = some e) (hl : HasLabel l e) (hr : leafOf 0 p l = some r) :
    LeafOk R (im2cmOf U.S R.nCm) lit 3 R.qDim (execInfo s .step4) r := by
  have hmem := List.mem_of_getElem? he
  have htree : ∀ k cp, k < R.nCm + U.S.card → R.pos k = some cp → cp.tree ≤ 3 := by
    intro k cp hk hcp
    obtain ⟨c, h1, h2⟩ := hL.cols k hk
    rw [hcp] at h1
    obtain rfl := Option.some.inj h1
    exact h2
  have hcm : l.op = .cm → r.ty = .cm ∧ l.id = some r.id := by
    intro ho
    unfold leafOf at hr
    rw [ho] at hr
    obtain ⟨i, h1, rfl⟩ := Option.map_eq_some_iff.mp hr
    exact ⟨rfl, h1⟩
  have hty : r.ty = .cm → l.op = .cm := by
    intro ht
    unfold leafOf at hr
    split at hr
    all_goals first
      | assumption
      | (obtain ⟨i, h1, rfl⟩ := Option.map_eq_some_iff.mp hr; cases ht)
      | (cases hr; done)
      | (cases hr; cases ht)
  refine ⟨⟨fun ht cp hcp => ?_, fun _ k cp hk hcp => ?_⟩, ?_, fun _ => by simp [execInfo], fun ht => ?_⟩
  · exact htree r.id cp (hE.cols e hmem l hl (hty ht) _ (hcm (hty ht)).2) hcp
  · exact htree k cp (Stark.im2cmOf_lt hk).2.2 hcp
  · rcases hq with hq | hq
    · right
      obtain ⟨e', n, d, h1, h2, h3⟩ := needed_dim hD hE.tidy h hq
      rw [he] at h1
      obtain rfl := Option.some.inj h1
      obtain ⟨n', vs, d', g1, g2⟩ := Map.expDim_sub hl (hE.tidy e hmem) h3
      obtain ⟨b1, b2⟩ := Map.numBase_label hl (hN e hmem)
      have hdim : ∀ k cp, R.pos k = some cp → cp.dim ≤ 1 → cp.dim = 1 := by
        intro k cp hk hle
        have := (hL.dims k cp hk).1
        omega
      have hbase : ∀ v, Stark.Base v → (lit v).dim = 1 := by
        rintro v ⟨b, rfl⟩
        exact hlit.base b
      cases n' with
      | zero => simp [expDim] at g2
      | succ n' =>
        rw [expDim] at g2
        unfold leafOf at hr
        have hnum : ∀ (o : Option K), (∀ v, o = some v → Stark.Base v) → o.map (fun k => ({ ty := .number, value := some k } : Codegen.Node K)) = some r →
            match r.ty with
              | .cm => ∀ cp, R.pos r.id = some cp → cp.dim = 1
              | .exp => ∀ k cp, im2cmOf U.S R.nCm r.id = some k → R.pos k = some cp → cp.dim = 1
              | .number => ∀ v, r.value = some v → (lit v).dim = 1
              | .const_ | .public_ | .x => True
              | _ => False := by
          intro o ho h
          obtain ⟨v, hv, rfl⟩ := Option.map_eq_some_iff.mp h
          intro w hw
          simp only [Option.some.injEq] at hw
          subst hw
          exact hbase v (ho v hv)
        cases hop : l.op with
        | cm =>
          rw [hop] at hr g2
          obtain ⟨i, hi, rfl⟩ := Option.map_eq_some_iff.mp hr
          simp only [hi, Option.bind_some] at g2
          intro cp hcp
          dsimp only at hcp
          rw [hcp, Option.map_some, Option.some.injEq] at g2
          exact hdim i cp hcp (by omega)
        | exp =>
          rw [hop] at hr g2
          obtain ⟨i, hi, rfl⟩ := Option.map_eq_some_iff.mp hr
          simp only [hi, Option.bind_some] at g2
          obtain ⟨e1, k1, k2⟩ := Option.bind_eq_some_iff.mp g2
          intro k cp hk hcp
          dsimp only at hk
          have := hD.im i (Stark.im2cmOf_lt hk).1 e1 n' d' k1 k2 k hk
          rw [hcp, Option.map_some, Option.some.injEq] at this
          exact hdim k cp hcp (by omega)
        | const_ => rw [hop] at hr; obtain ⟨i, hi, rfl⟩ := Option.map_eq_some_iff.mp hr; trivial
        | public_ => rw [hop] at hr; obtain ⟨i, hi, rfl⟩ := Option.map_eq_some_iff.mp hr; trivial
        | x => rw [hop] at hr; cases hr; trivial
        | number => rw [hop] at hr; exact hnum _ b1 hr
        | addc => rw [hop] at hr; exact hnum _ b2 hr
        | mulc => rw [hop] at hr; exact hnum _ b2 hr
        | neg =>
          rw [hop] at hr
          refine hnum (some 0) (fun v hv => ?_) hr
          rw [← Option.some.inj hv]
          exact ⟨0, by simp⟩
        | challenge => rw [hop] at g2; simp only [Option.some.injEq] at g2; omega
        | eval => rw [hop] at g2; simp only [Option.some.injEq] at g2; omega
        | xDivXSubXi => exact absurd hop (hE.ops e hmem l hl).2.1
        | xDivXSubWXi => exact absurd hop (hE.ops e hmem l hl).2.2
        | q => rw [hop] at g2; cases g2
        | _ => rw [hop] at hr; cases hr
    · exact .inl hq
  · exfalso
    have := hE.ops e hmem l hl
    unfold leafOf at hr
    split at hr
    all_goals first
      | (obtain ⟨i, h1, rfl⟩ := Option.map_eq_some_iff.mp hr; rcases ht with ht | ht <;> cases ht)
      | (cases hr; done)
      | (cases hr; rcases ht with ht | ht <;> first | (cases ht; done) | exact this.2.1 (by assumption) | exact this.2.2 (by assumption))

/-- the entries of a list built row by row -/
theorem mapM_range_get {α : Type} {f : Nat → Option α} : ∀ {n : Nat} {l : List α}, (List.range n).mapM f = some l → l.length = n ∧ ∀ i < n, f i = l[i]?
  | 0, l, h => by
    simp at h
    subst h
    exact ⟨rfl, by simp⟩
  | n + 1, l, h => by
    rw [List.range_succ, List.mapM_append] at h
    obtain ⟨l1, h1, h⟩ := Option.bind_eq_some_iff.mp h
    obtain ⟨l2, h2, h⟩ := Option.bind_eq_some_iff.mp h
    obtain rfl := Option.some.inj h
    rw [List.mapM_cons] at h2
    obtain ⟨v, hv, h2⟩ := Option.bind_eq_some_iff.mp h2
    obtain ⟨l3, h3, h2⟩ := Option.bind_eq_some_iff.mp h2
    simp at h3
    subst h3
    obtain rfl := Option.some.inj h2
    obtain ⟨g1, g2⟩ := mapM_range_get h1
    refine ⟨by simp [g1], fun i hi => ?_⟩
    by_cases hin : i < n
    · rw [g2 i hin, List.getElem?_append_left (by omega)]
    · have : i = n := by omega
      subst this
      rw [hv, ← g1]
      simp

theorem sizes4 {R : Run} {U : Setup K} {T : Trace} {s : Info} {mt : Nat} {cells : Nat → List F} {fixed : List F} {chal evals xd xdw : List K} {c : Interp.Ctx F3G F}
    (hB : ExtBufs R U T s mt cells fixed chal evals xd xdw c) (hE : ExtLay R U T s) {t : Nat} (h1 : 1 ≤ t) (h2 : t ≤ mt) (h4 : t ≤ 4) :
    (c.mem (sec2 t)).length = 2 ^ (R.nb + R.ext) * setWidth s (sec2 t) := by
  rw [hB.mem t h1 h2, List.length_map, hB.size t h1 h2, ← hE.width t h1 h4, Nat.mul_comm]
  obtain rfl | rfl | rfl | rfl : t = 1 ∨ t = 2 ∨ t = 3 ∨ t = 4 := by omega
  all_goals rfl

/-- the offsets of `build_Zh_Inv` -/
def ziOf (R : Run) (off j : Nat) : Option F3G := some (ofF (zhInv Roots.mg Roots.shift R.nb R.ext off j))

/-- **C103** Step 4 on the buffers of the extended domain: when the sections hold the extended columns, evaluating the generated program of step 4 (rewritten by
`fix_prover_code`, with the product by `Zi`) on all rows, in parallel, fills `q_2ns` with the coordinates of the quotient's values, row after row, as the
prover's rounds require, and changes no other section. -/
theorem step4 {R : Run} {U : Setup K} {T : Trace} {s : Info} {exps : List (Expr K)} {ids : List Nat} {fuelI fuel : Nat} {rest : List (Codegen.Code K) → List (Codegen.Instr K)}
    (hset : Stark.setup fuelI fuel exps ids R.nCm R.ext R.pos rest = some U) (hL : Layout R U T) (hD : Dims R U exps) (hx : ExpsE R.nCm exps)
    (hq : R.qDim = 1 ∨ R.qDim = 3) (hE : ExtLay R U T s) {lit : K → F3G} (hlit : LitOk lit)
    {ctx : Codegen.Ctx K} (hgen : pilCodeGen 0 (exps ++ [U.cExp]) fuel ⟨0, [], imDone U.S⟩ exps.length false none false = some ctx)
    {tmpexps : List (Nat × Nat)} {nCols tU : Nat} {code code' : List (Interp.Instr F3G)}
    (hfix : fixProverCode (tgtOf (U.S.sort (· ≤ ·)) (im2cmOf U.S R.nCm) tmpexps .ns2) nCols lit ctx.tmpUsed (linearCode ctx) = some (code, tU)) (hpush : pushZi code = some code')
    {cells : Nat → List F} {fixed : List F} {ch : List K} {c : Interp.Ctx F3G F} (hB : ExtBufs R U T s 3 cells fixed ch [] [] [] c)
    (hqlen : (c.mem .q_2ns).length = 2 ^ (R.nb + R.ext) * R.qDim) (hext : R.ext ≤ 11) {workers : Nat} (hw1 : 1 ≤ workers) (hw : workers ≤ 2048)
    {rows : List K} (hrows : (List.range (2 ^ (R.nb + R.ext))).mapM (fun j => quotRow R U (extStore R U T cells fixed ch [] [] [] j) j) = some rows) :
    ∃ c', calcPar algF3 s (ziOf R) code' tU workers .step4 c = some c' ∧
      c'.mem .q_2ns = (List.range (2 ^ (R.nb + R.ext) * R.qDim)).map (fun x => ofF ((encK.enc (rows.getD (x / R.qDim) 0)).getD (x % R.qDim) 0)) ∧
      ∀ x, x ≠ .tmp → x ≠ .q_2ns → c'.mem x = c.mem x := by
  obtain ⟨ctx', out, fe, ctx5, S⟩ := Stark.setup_ok hset
  have hg4 := S.gen4
  rw [hgen] at hg4
  obtain rfl := Option.some.inj hg4
  obtain ⟨hx', him⟩ := cExp_ok S.gen hx
  have hN : ∀ e ∈ exps ++ [U.cExp], Stark.NumBase e := by
    intro e he
    rcases List.mem_append.mp he with he | he
    · exact hD.num e he
    · rw [List.mem_singleton.mp he]; exact Stark.numBase_generate S.gen hD.num
  have hid : (false, exps.length) ∉ imDone U.S := by
    intro h
    have := (Stark.imDone_mem U.S false exps.length).1 h
    have := him exps.length (by simpa using this)
    omega
  obtain ⟨init, last, hil, hld⟩ := code_last hgen hid
  obtain ⟨em, hout, htU, hem, -⟩ := Map.fixProverCode_spec hfix
  have hpre : ∀ p k, (p, k) ∉ imDone U.S → k ∉ U.S.sort (· ≤ ·) := fun p k h hk => h ((Stark.imDone_mem U.S p k).2 hk)
  have hnone : tgtOf (U.S.sort (· ≤ ·)) (im2cmOf U.S R.nCm) tmpexps .ns2 exps.length = none := by
    unfold tgtOf
    rw [if_neg (hpre false _ hid), if_neg (by decide)]
  have hcode' : code' = (linearCode ctx).map (fixInstr (tgtOf (U.S.sort (· ≤ ·)) (im2cmOf U.S R.nCm) tmpexps .ns2) lit em) ++
      [⟨.mul, { ty := .q }, [{ ty := .tmp, id := em false exps.length }, { ty := .Zi }]⟩] := by
    unfold pushZi at hpush
    obtain ⟨l, h1, h2⟩ := Option.map_eq_some_iff.mp hpush
    rw [← h2, hout]
    rw [hout, hil, List.map_append, List.map_singleton, List.getLast?_append] at h1
    simp only [List.getLast?_singleton, Option.some_or, Option.some.injEq] at h1
    rw [← h1]
    have : (fixInstr (tgtOf (U.S.sort (· ≤ ·)) (im2cmOf U.S R.nCm) tmpexps .ns2) lit em last).dest = { ty := .tmp, id := em false exps.length } := by
      unfold fixInstr fixNode
      simp only [hld, hnone]
    rw [this]
  obtain ⟨hlen, hget⟩ := mapM_range_get hrows
  rw [hcode']
  refine ext_par (im := U.S.sort (· ≤ ·)) (im2cm := im2cmOf U.S R.nCm) (D := R.qDim) (X := fun j => rows.getD j 0)
    (σ := fun i => withIm (extStore R U T cells fixed ch [] [] [] i) (U.S.sort (· ≤ ·)) (im2cmOf U.S R.nCm)) (extra := [{ ty := .Zi }])
    hgen hid hpre ?_ ?_ htU hem hB hE hlit.val hq (.inl rfl) rfl (by simp [execInfo]) rfl ?_ (by simp [execInfo]) ?_ ?_ ?_ hext hw1 hw ?_ (.inl rfl) rfl ?_ rfl
    (by simp) ?_ ?_ ?_ ?_
  · exact fun p id e l h1 h2 h3 => (hx'.ops e (List.mem_of_getElem? h2) l h3).1
  · exact fun p id e l r h1 h2 h3 h4 => leaf4 hL hD hq hx' hN hlit h1 h2 h3 h4
  · intro t h1 h2
    obtain rfl | rfl | rfl : t = 1 ∨ t = 2 ∨ t = 3 := by omega
    all_goals simp [execInfo, sec2]
  · show s.sectionsN .q_2ns = _
    exact hE.qWidth
  · intro x hx
    have hx : x ∈ [Sec.cm1_2ns, .cm2_2ns, .cm3_2ns, .const_2ns, .x_2ns] ++ [Sec.q_2ns] := hx
    simp only [List.cons_append, List.nil_append, List.mem_cons, List.not_mem_nil, or_false] at hx
    rcases hx with rfl | rfl | rfl | rfl | rfl | rfl
    · exact sizes4 (t := 1) hB hE (by omega) (by omega) (by omega)
    · exact sizes4 (t := 2) hB hE (by omega) (by omega) (by omega)
    · exact sizes4 (t := 3) hB hE (by omega) (by omega) (by omega)
    · rw [hB.constMem, List.length_map, hB.constSize, Nat.mul_comm, ← hE.const_]
      rfl
    · rw [hB.x, List.length_map, List.length_range]
      exact (Nat.mul_one _).symm
    · rw [hqlen]
      show _ = _ * s.sectionsN .q_2ns
      rw [hE.qWidth]
  · intro h
    cases h
  · intro off j
    unfold ziOf
    rw [hB.Zi, Interp.zhInv_offset]
  · show some (⟨.q_2ns, 0, s.qDim, s.qDim⟩ : Col) = _
    rw [hE.q]
    rfl
  · intro i
    refine ⟨fun t k p ht => ?_, fun k p v hv => ?_⟩
    · unfold withIm
      rw [if_neg (fun h => ht h.1)]
    · unfold withIm at hv
      by_cases hk : k ∈ U.S.sort (· ≤ ·)
      · rw [if_pos ⟨rfl, hk⟩] at hv
        exact Option.bind_eq_some_iff.mp hv
      · rw [if_neg (fun h => hk h.2)] at hv
        cases hv
  · intro i t p
    unfold withIm
    rw [if_neg (fun h => by cases h.1)]
    rfl
  · intro i k p hk
    unfold withIm
    rw [if_neg (fun h => hk h.2)]
    rfl
  · intro i hi
    have hr := hget i hi
    have hr' : rows[i]? = some (rows.getD i 0) := by
      rw [List.getD_eq_getElem?_getD, List.getElem?_eq_getElem (by omega)]; rfl
    rw [hr'] at hr
    unfold quotRow Stark.rowValue at hr
    obtain ⟨v, h1, h2⟩ := Option.map_eq_some_iff.mp hr
    obtain ⟨l, h3, h1⟩ := Option.bind_eq_some_iff.mp h1
    obtain ⟨σ', h4, h5⟩ := Option.bind_eq_some_iff.mp h1
    rw [S.step42] at h3 h4
    rw [hil, List.getLast?_append] at h3
    simp only [List.getLast?_singleton, Option.some_or, Option.some.injEq] at h3
    subst h3
    rw [hld] at h5
    have h5 : σ' .exp exps.length false = some v := h5
    refine ⟨σ', v, h4, h5, fun c1 hA w hw => ?_⟩
    have hz : meaning algF3 s .ns2 (2 ^ (R.nb + R.ext)) (2 ^ R.ext) c1 i ({ ty := .Zi } : Interp.Node F3G) = some (ofF (zhInv Roots.mg Roots.shift R.nb R.ext 0 i)) := by
      show c1.Zi i = _
      rw [hA.Zi, hB.Zi]
    obtain ⟨w', g1, g2⟩ := apply_relD (op := .mul) (D := R.qDim) (by decide) (by omega) (vs := [v, algebraMap F K (zhInv Roots.mg Roots.shift R.nb R.ext 0 i)])
      (ws := [w, ofF (zhInv Roots.mg Roots.shift R.nb R.ext 0 i)]) (v := v * algebraMap F K (zhInv Roots.mg Roots.shift R.nb R.ext 0 i))
      (.cons hw (.cons (rel_ofF _ (by omega)) .nil)) rfl
    refine ⟨[_], w', by rw [List.mapM_cons, hz]; rfl, g1, ?_⟩
    rw [zhInv_map, h2] at g2
    exact g2

/-! ### Step 5 -/

theorem xDivs_length (R : Run) (a : K) : (xDivs R a).length = 2 ^ (R.nb + R.ext) := by
  have hinv : ∀ l : List K, (FFT.batchInverse l).length = l.length := by
    intro l
    by_cases h : (0 : K) ∈ l
    · rw [FFT.batchInverse_zero l h, List.length_replicate]
    · rw [FFT.batchInverse_spec l fun x hx h0 => h (h0 ▸ hx), List.length_map]
  unfold xDivs
  simp [hinv]

theorem enc_length : ∀ l : List K, (l.flatMap encK.enc).length = l.length * 3
  | [] => rfl
  | x :: l => by
    obtain ⟨a, b, d, h, -⟩ := Fri.encK_ok.three x
    rw [List.flatMap_cons, List.length_append, enc_length l, h, List.length_cons]
    simp only [List.length_cons, List.length_nil]
    omega

/-- **C103** Step 5 on the buffers of the extended domain: the rewritten program of the FRI polynomial fills `f_2ns` with the coordinates of its values. -/
theorem step5 {R : Run} {U : Setup K} {T : Trace} {s : Info} {exps : List (Expr K)} {ids : List Nat} {fuelI fuel : Nat} {rest : List (Codegen.Code K) → List (Codegen.Instr K)}
    (hset : Stark.setup fuelI fuel exps ids R.nCm R.ext R.pos rest = some U) (hx : ExpsE R.nCm exps) (hE : ExtLay R U T s) {lit : K → F3G} (hlit : LitOk lit)
    {ctx ctx5 : Codegen.Ctx K} {fe : Expr K} (hgen : pilCodeGen 0 (exps ++ [U.cExp]) fuel ⟨0, [], imDone U.S⟩ exps.length false none false = some ctx)
    (hfe : Stark.friExpr (R.nCm + U.S.card + U.qDeg) U.evMap = some fe)
    (hgen5 : pilCodeGen 0 (exps ++ [U.cExp] ++ [fe]) fuel ⟨ctx.tmpUsed, [], ctx.calculated⟩ (exps.length + 1) false (some (.f, 0)) false = some ctx5)
    {tmpexps : List (Nat × Nat)} {nCols tU : Nat} {code : List (Interp.Instr F3G)}
    (hfix : fixProverCode (tgtOf (U.S.sort (· ≤ ·)) (im2cmOf U.S R.nCm) tmpexps .ns2) nCols lit ctx5.tmpUsed (linearCode ctx5) = some (code, tU))
    {cells : Nat → List F} {fixed : List F} {ch evals : List K} {c : Interp.Ctx F3G F}
    (hB : ExtBufs R U T s 4 cells fixed ch evals (xDivs R (ch.getD 7 0)) (xDivs R (ch.getD 7 0 * mgK R.nb)) c)
    (hflen : (c.mem .f_2ns).length = 2 ^ (R.nb + R.ext) * 3) (hext : R.ext ≤ 11) {workers : Nat} (hw1 : 1 ≤ workers) (hw : workers ≤ 2048)
    {pol : List K} (hpol : friRows R U T ch evals fixed cells = some pol) :
    ∃ c', calcPar algF3 s (ziOf R) code tU workers .step5 c = some c' ∧
      c'.mem .f_2ns = (List.range (2 ^ (R.nb + R.ext) * 3)).map (fun x => ofF ((encK.enc (pol.getD (x / 3) 0)).getD (x % 3) 0)) ∧
      ∀ x, x ≠ .tmp → x ≠ .f_2ns → c'.mem x = c.mem x := by
  obtain ⟨ctx', out, fe', ctx5', S⟩ := Stark.setup_ok hset
  have hg4 := S.gen4
  rw [hgen] at hg4
  obtain rfl := Option.some.inj hg4
  have hfe' := S.fri
  rw [hfe] at hfe'
  obtain rfl := Option.some.inj hfe'
  have hg5 := S.gen5
  rw [hgen5] at hg5
  obtain rfl := Option.some.inj hg5
  obtain ⟨hx', him⟩ := cExp_ok S.gen hx
  have hid : (false, exps.length + 1) ∉ ctx.calculated := by
    intro hm
    have := Stark.pilCodeGen_calculated_lt fuel hgen (by
      intro k hk'
      have := (Stark.imDone_mem U.S k.1 k.2).1 hk'
      have := him k.2 (by simpa using this)
      simp; omega) _ hm
    simp at this
  have hpre : ∀ p k, (p, k) ∉ ctx.calculated → k ∉ U.S.sort (· ≤ ·) := fun p k h hk =>
    h (Codegen.pilCodeGen_calculated fuel hgen _ ((Stark.imDone_mem U.S p k).2 hk))
  obtain ⟨ctx6, h6, hl6, ht6⟩ := code_res hgen5 hid
  obtain ⟨init, last, hil, hld⟩ := code_last h6 hid
  obtain ⟨em, hout, htU, hem, -⟩ := Map.fixProverCode_spec hfix
  have hnone : tgtOf (U.S.sort (· ≤ ·)) (im2cmOf U.S R.nCm) tmpexps .ns2 (exps.length + 1) = none := by
    unfold tgtOf
    rw [if_neg (hpre false _ hid), if_neg (by decide)]
  have hcode : code = (linearCode ctx6).map (fixInstr (tgtOf (U.S.sort (· ≤ ·)) (im2cmOf U.S R.nCm) tmpexps .ns2) lit em) ++
      [⟨.copy, { ty := .f }, [{ ty := .tmp, id := em false (exps.length + 1) }]⟩] := by
    rw [hout, hl6, List.map_append, List.map_singleton]
    congr 2
    unfold fixInstr fixNode
    simp [hnone, fixOp, sameTy]
  obtain ⟨hlen, hget⟩ := mapM_range_get hpol
  have hfe0 : (exps ++ [U.cExp] ++ [fe])[exps.length + 1]? = some fe := by simp
  have hlab := fri_labels hfe
  have hneed : ∀ p id, Needed (exps ++ [U.cExp] ++ [fe]) [reqOf (exps.length + 1)] p id → id = exps.length + 1 := by
    intro p id h
    induction h with
    | req hr => rw [List.mem_singleton.mp hr]; rfl
    | ref _ he hl ho _ ih =>
      rw [ih, hfe0] at he
      obtain rfl := Option.some.inj he
      exact absurd ho (hlab _ hl).2.1
  rw [hcode]
  refine ext_par (im := U.S.sort (· ≤ ·)) (im2cm := im2cmOf U.S R.nCm) (D := 3) (X := fun j => pol.getD j 0)
    (σ := fun i => extStore R U T cells fixed ch evals (xDivs R (ch.getD 7 0)) (xDivs R (ch.getD 7 0 * mgK R.nb)) i) (extra := [])
    h6 hid hpre ?_ ?_ (by rw [← ht6]; exact htU) ?_ hB hE hlit.val (.inr rfl) (.inr rfl) rfl (by simp [execInfo]) rfl ?_ (by simp [execInfo]) ?_ ?_ ?_ hext hw1 hw ?_ (.inr rfl) rfl
    rfl rfl (by simp) ?_ (fun _ _ _ => rfl) (fun _ _ _ _ => rfl) ?_
  · intro p id e l h1 h2 h3
    rw [hneed p id h1, hfe0] at h2
    obtain rfl := Option.some.inj h2
    exact (hlab l h3).1
  · intro p id e l r h1 h2 h3 h4
    rw [hneed p id h1, hfe0] at h2
    obtain rfl := Option.some.inj h2
    refine ⟨⟨fun _ cp hcp => (hE.dims _ cp hcp).2.2.1, fun _ k cp _ hcp => (hE.dims _ cp hcp).2.2.1⟩, .inl rfl, fun ht => ?_, fun _ => rfl⟩
    exfalso
    unfold leafOf at h4
    split at h4
    all_goals first
      | (obtain ⟨i, h1, rfl⟩ := Option.map_eq_some_iff.mp h4; cases ht)
      | (cases h4; done)
      | (cases h4; first | (cases ht; done) | exact (hlab l h3).2.2 (by assumption))
  · intro x hx r hr h1 h2
    rw [← ht6]
    have hmem : ∀ x ∈ linearCode ctx6, x ∈ linearCode ctx5 := fun x hx => by rw [hl6]; exact List.mem_append_left _ hx
    obtain ⟨g1, g2, g3⟩ := hem x (hmem x hx) r hr h1 h2
    exact ⟨g1, g2, fun x' hx' => g3 x' (hmem x' hx')⟩
  · intro t h1 h2
    obtain rfl | rfl | rfl | rfl : t = 1 ∨ t = 2 ∨ t = 3 ∨ t = 4 := by omega
    all_goals simp [execInfo, sec2]
  · show s.sectionsN .f_2ns = _
    exact hE.fWidth
  · intro x hx
    have hx : x ∈ [Sec.cm1_2ns, .cm2_2ns, .cm3_2ns, .cm4_2ns, .const_2ns] ++ [Sec.f_2ns] := hx
    simp only [List.cons_append, List.nil_append, List.mem_cons, List.not_mem_nil, or_false] at hx
    rcases hx with rfl | rfl | rfl | rfl | rfl | rfl
    · exact sizes4 (t := 1) hB hE (by omega) (by omega) (by omega)
    · exact sizes4 (t := 2) hB hE (by omega) (by omega) (by omega)
    · exact sizes4 (t := 3) hB hE (by omega) (by omega) (by omega)
    · exact sizes4 (t := 4) hB hE (by omega) (by omega) (by omega)
    · rw [hB.constMem, List.length_map, hB.constSize, Nat.mul_comm, ← hE.const_]
      rfl
    · rw [hflen]
      show _ = _ * s.sectionsN .f_2ns
      rw [hE.fWidth]
  · intro _
    rw [hB.xXi, hB.xWXi, enc_length, enc_length, xDivs_length, xDivs_length]
    exact ⟨rfl, rfl⟩
  · intro off j
    unfold ziOf
    rw [hB.Zi, Interp.zhInv_offset]
  · exact fun i => ⟨fun _ _ _ _ => rfl, fun _ _ _ h => by cases h⟩
  · intro i hi
    have hr := hget i hi
    have hr' : pol[i]? = some (pol.getD i 0) := by
      rw [List.getD_eq_getElem?_getD, List.getElem?_eq_getElem (by omega)]; rfl
    rw [hr', S.step52, hl6] at hr
    obtain ⟨σ', h1, h2⟩ := Option.bind_eq_some_iff.mp hr
    unfold exec at h1
    rw [List.foldlM_append] at h1
    obtain ⟨σ1, h3, h4⟩ := Option.bind_eq_some_iff.mp h1
    rw [List.foldlM_cons] at h4
    obtain ⟨σ2, h7, h5⟩ := Option.bind_eq_some_iff.mp h4
    have h5 : σ2 = σ' := Option.some.inj h5
    subst h5
    unfold Codegen.Spec.step at h7
    obtain ⟨vs, k1, h8⟩ := Option.bind_eq_some_iff.mp h7
    obtain ⟨v, k2, rfl⟩ := Option.map_eq_some_iff.mp h8
    dsimp only at k1
    rw [List.mapM_cons] at k1
    obtain ⟨v1, k3, k1⟩ := Option.bind_eq_some_iff.mp k1
    simp at k1
    subst k1
    have k2 : some v1 = some v := k2
    obtain rfl := Option.some.inj k2
    have h2 : v1 = pol.getD i 0 := by simpa [Store.set] using h2
    refine ⟨σ1, v1, h3, k3, fun c1 hA w hw => ⟨[], w, rfl, rfl, ?_⟩⟩
    rw [← h2]
    exact hw

end

end Verif.Stage
