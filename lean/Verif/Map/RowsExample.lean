import Verif.Map.Rows

/-!
# A concrete program
-/
namespace Verif.Map
open Verif.Codegen
open Verif.Codegen.Spec (Store readN exec Val ExpVal)
open Verif.Interp (Dom Sec Info algF3)
open Verif.Interp.Spec (Col rowOf meaning nodeCol readCol readBase cell)
open Verif.Ext3 (F3G K WF val ofF coord)
open Verif.Stark (fieldOps)
open Verif.GL (F)

noncomputable section

/-- the parser of numbers as a function on values: a base field element has one coordinate -/
def litK (v : K) : F3G := by
  classical
  exact if h : ∃ a, algebraMap F K a = v then ofF (Classical.choose h) else Classical.choose (Ext3.val_surj v)

theorem litK_spec (v : K) : WF (litK v) ∧ val (litK v) = v := by
  classical
  unfold litK
  split_ifs with h
  · refine ⟨.inr ⟨rfl, rfl, rfl⟩, ?_⟩
    have := Classical.choose_spec h
    refine Eq.trans ?_ this
    simp [val, ofF, coord]
  · have := Classical.choose_spec (Ext3.val_surj v)
    exact ⟨.inl this.1, this.2⟩

theorem litK_dim (a : F) : (litK (algebraMap F K a)).dim = 1 := by
  classical
  unfold litK
  rw [dif_pos ⟨a, rfl⟩]
  rfl

end

namespace RowsEx

/-! ### `fix_prover_code` -/

/-- two expressions that refer to each other's value at the next row, one stored in column 3 of `tmpexp_n`, one not stored -/
def code : List (Codegen.Instr Nat) :=
  [⟨.mul, { ty := .exp, id := 0 }, [{ ty := .cm, id := 0 }, { ty := .cm, id := 0, prime := true }]⟩,
   ⟨.mul, { ty := .exp, id := 0, prime := true }, [{ ty := .cm, id := 0, prime := true }, { ty := .number, value := some 7 }]⟩,
   ⟨.add, { ty := .exp, id := 1 }, [{ ty := .exp, id := 0 }, { ty := .exp, id := 0, prime := true }]⟩]

/-- the hypothesis of `fixProverCode_spec`, and what the code becomes -/
example : ∃ out : List (Interp.Instr Nat), fixProverCode (fun id => if id = 1 then some (.tmpExp, 3) else none) 1 id 5 code = some (out, 7) ∧
    out.map (fun c => (c.dest.ty, c.dest.id, c.src.map fun s => (s.ty, s.id, s.prime))) =
      [(.tmp, 5, [(.cm, 0, false), (.cm, 0, true)]), (.tmp, 6, [(.cm, 0, true), (.number, 0, false)]), (.tmpExp, 3, [(.tmp, 5, false), (.tmp, 6, true)])] :=
  ⟨_, rfl, rfl⟩

/-- a committed column that does not exist is a panic -/
example : fixProverCode (E' := Nat) (fun _ => none) 0 id 5 code = none := rfl

/-! ### A program on two rows -/

noncomputable section

/-- `a * a'` and, stored in `tmpexp_n`, `e0' + e0` -/
def exps : List (Expr K) := [.node { op := .mul } [.node { op := .cm, id := some 0 } [], .node { op := .cm, id := some 0, next := true } []],
  .node { op := .sub } [.node { op := .exp, id := some 2, next := true } [], .node { op := .exp, id := some 2 } []],
  .node { op := .add } [.node { op := .cm, id := some 0 } [], .node { op := .number, value := some 7 } []],
  .node { op := .mul } [.node { op := .exp, id := some 1 } [], .node { op := .exp, id := some 0 } []]]

def info : Info := ⟨[0], [], [1], [⟨.cm1_n, 0, 1⟩, ⟨.tmpexp_n, 0, 1⟩], fun t => if t = .cm1_n ∨ t = .tmpexp_n then 1 else 0, 0, 1⟩
def lay : Lay := ⟨info, .n, 2, 1, fun id => if id = 3 then some (.tmpExp, 0) else none, fun _ _ => 0, litK⟩

/-- column `a` is 2, 3; the column of expression 3 is new -/
def bufs : Interp.Ctx F3G F := ⟨1, 2, fun t => if t = .cm1_n then [ofF 2, ofF 3] else if t = .tmpexp_n then [ofF 0, ofF 0] else [], [], [], fun _ => none⟩

def reqs : List Req := [{ id := 3 }]

theorem labels {j : Nat} {e : Expr K} {l : Label K} (hj : exps[j]? = some e) (hl : HasLabel l e) :
    l.op = .mul ∨ l.op = .sub ∨ l.op = .add ∨ (l.op = .cm ∧ l.id = some 0) ∨ (l.op = .number ∧ l.value = some 7) ∨
      (l.op = .exp ∧ (l.id = some 2 ∧ j = 1 ∨ l.id = some 1 ∧ j = 3 ∧ l.next = false ∨ l.id = some 0 ∧ j = 3 ∧ l.next = false)) := by
  have h1 : ∀ {l l' : Label K} {a b : Label K}, HasLabel l (.node l' [.node a [], .node b []]) → l = l' ∨ l = a ∨ l = b := by
    intro l l' a b h
    cases h with
    | here => exact .inl rfl
    | child hm hc =>
      simp only [List.mem_cons, List.not_mem_nil, or_false] at hm
      rcases hm with rfl | rfl
      · cases hc with
        | here => exact .inr (.inl rfl)
        | child hm _ => simp at hm
      · cases hc with
        | here => exact .inr (.inr rfl)
        | child hm _ => simp at hm
  match j, hj with
  | 0, hj => cases hj; rcases h1 hl with rfl | rfl | rfl <;> simp
  | 1, hj => cases hj; rcases h1 hl with rfl | rfl | rfl <;> simp
  | 2, hj => cases hj; rcases h1 hl with rfl | rfl | rfl <;> simp
  | 3, hj => cases hj; rcases h1 hl with rfl | rfl | rfl <;> simp
  | j + 4, hj => simp [exps] at hj

theorem needed {p : Bool} {j : Nat} (h : Needed exps reqs p j) : p = false ∨ j = 2 := by
  induction h with
  | req hr => simp only [reqs, List.mem_singleton] at hr; subst hr; exact .inl rfl
  | ref _ he hl ho hi ih =>
    rcases labels he hl with h | h | h | ⟨h, -⟩ | ⟨h, -⟩ | ⟨-, h⟩
    · rw [h] at ho; cases ho
    · rw [h] at ho; cases ho
    · rw [h] at ho; cases ho
    · rw [h] at ho; cases ho
    · rw [h] at ho; cases ho
    · rcases h with ⟨h, -⟩ | ⟨h, rfl, hn⟩ | ⟨h, rfl, hn⟩
      · rw [h] at hi; cases hi; exact .inr rfl
      · rw [hn]; rcases ih with rfl | h'
        · exact .inl rfl
        · cases h'
      · rw [hn]; rcases ih with rfl | h'
        · exact .inl rfl
        · cases h'

theorem lit7 : (litK 7).dim = 1 := by
  have := litK_dim 7
  rwa [map_ofNat] at this

theorem col3 {ty : NTy} {j : Nat} {col : Col} (h : lay.col ty j = some col) : ty = .exp ∧ j = 3 ∧ col = ⟨.tmpexp_n, 0, 1, 1⟩ := by
  cases ty <;> first | cases h | skip
  have h' : ((if j = 3 then some (Interp.NodeTy.tmpExp, 0) else none).bind fun tk : Interp.NodeTy × Nat =>
    nodeCol info .n ({ ty := tk.1, id := tk.2 } : Interp.Node F3G)) = some col := h
  split_ifs at h' with hj
  · refine ⟨rfl, hj, ?_⟩
    cases h'
    rfl
  · cases h'

theorem prog_some : ∃ ctx, genAll 0 exps 5 reqs ⟨0, [], []⟩ = some ctx := by
  rw [← Option.isSome_iff_exists]
  decide +kernel

/-- column `a` -/
def av (i : Nat) : K := if i = 0 then 2 else 3

theorem val_ofF (a : F) : val (ofF a) = algebraMap F K a := by simp [val, ofF, coord]

theorem env_a (i : Nat) (p : Bool) (hi : i < 2) : rowEnv info .n 2 1 bufs i .cm 0 p = some (av (rowOf 2 1 p i)) := by
  have e2 : val (ofF 2) = (2 : K) := by rw [val_ofF, map_ofNat]
  have e3 : val (ofF 3) = (3 : K) := by rw [val_ofF, map_ofNat]
  have h0 : (readCol algF3 bufs.mem ⟨.cm1_n, 0, 1, 1⟩ 0).map val = some (av 0) := congrArg some e2
  have h1 : (readCol algF3 bufs.mem ⟨.cm1_n, 0, 1, 1⟩ 1).map val = some (av 1) := congrArg some e3
  show (readCol algF3 bufs.mem ⟨.cm1_n, 0, 1, 1⟩ (rowOf 2 1 p i)).map val = _
  have : rowOf 2 1 p i = 0 ∨ rowOf 2 1 p i = 1 := by
    cases p
    · show i = 0 ∨ i = 1
      omega
    · show (i + 1) % 2 = 0 ∨ (i + 1) % 2 = 1
      omega
  rcases this with h | h <;> rw [h]
  · exact h0
  · exact h1

/-- the value of expression 3 -/
theorem val3 (i : Nat) (hi : i < 2) : Val (fieldOps K) exps (rowEnv info .n 2 1 bufs i) 2 false
    (.node { op := .mul } [.node { op := .exp, id := some 1 } [], .node { op := .exp, id := some 0 } []])
    (((av (rowOf 2 1 true i) + 7) - (av i + 7)) * (av i * av (rowOf 2 1 true i))) := by
  refine .mul rfl (.exp (d := 1) rfl rfl rfl (i := 1) rfl (.sub rfl (.exp (d := 0) rfl rfl rfl (i := 2) rfl (.add rfl (.col rfl rfl rfl (env_a i true hi)) (.number rfl rfl) rfl))
    (.exp (d := 0) rfl rfl rfl (i := 2) rfl (.add rfl (.col rfl rfl rfl (env_a i false hi)) (.number rfl rfl) rfl)) rfl))
    (.exp (d := 1) rfl rfl rfl (i := 0) rfl (.mul rfl (.col rfl rfl rfl (env_a i false hi)) (.col rfl rfl rfl (env_a i true hi)) rfl)) rfl

theorem mem2 {t : Sec} {w : F3G} (h : w ∈ bufs.mem t) : ∃ a, w = ofF a := by
  have h' : w ∈ (if t = .cm1_n then [ofF 2, ofF 3] else if t = .tmpexp_n then [ofF 0, ofF 0] else []) := h
  split_ifs at h'
  · simp only [List.mem_cons, List.not_mem_nil, or_false] at h'
    rcases h' with h | h <;> exact ⟨_, h⟩
  · simp only [List.mem_cons, List.not_mem_nil, or_false] at h'
    rcases h' with h | h <;> exact ⟨_, h⟩
  · simp at h'

theorem ops : PlainOps exps (Needed exps reqs) := by
  intro p j e l _ he hl
  rcases labels he hl with h | h | h | ⟨h, -⟩ | ⟨h, -⟩ | ⟨h, -⟩ <;> rw [h] <;> exact ⟨by decide, by decide⟩

theorem noPoint : NoPoint exps (Needed exps reqs) := by
  intro j e l _ he hl
  rcases labels he hl with h | h | h | ⟨h, -⟩ | ⟨h, -⟩ | ⟨h, -⟩ <;> rw [h] <;> rfl

theorem dims : DimOk exps (Needed exps reqs) (fun _ => 1) (leafTag lay.s lay.dom lay.lit) := by
  intro p j e _ he
  refine ⟨le_refl _, fun l r hl hr => ?_⟩
  obtain ⟨lo, li, ln, lv, lc⟩ := l
  rcases labels he hl with h | h | h | ⟨h, h'⟩ | ⟨h, h'⟩ | ⟨h, h'⟩
  · dsimp only at h; subst h; cases hr
  · dsimp only at h; subst h; cases hr
  · dsimp only at h; subst h; cases hr
  · dsimp only at h h'; subst h; subst h'; cases hr; exact le_refl 1
  · dsimp only at h h'; subst h; subst h'; cases hr
    rw [if_neg (by simp)]
    unfold leafTag
    dsimp only
    rw [Option.map_some, Option.getD_some, show lay.lit = litK by rw [lay], lit7]
  · dsimp only at h; subst h
    obtain ⟨k, -, rfl⟩ := Option.map_eq_some_iff.mp hr
    exact le_refl 1

theorem litOk : ∀ v, WF (lay.lit v) ∧ val (lay.lit v) = v := by
  rw [show lay.lit = litK by rw [lay]]
  exact litK_spec

theorem place : PlaceOk lay (fun _ => 1) bufs.mem := by
  refine ⟨fun j t k h => ?_, fun ty j col h => ?_, fun ty j col h => ?_, fun ty j col h => ?_, fun ty j col ty' j' col' h h' hne => ?_, fun j col h => ?_⟩
  · have h' : (if j = 3 then some (Interp.NodeTy.tmpExp, 0) else none) = some (t, k) := h
    split_ifs at h' with hj
    obtain ⟨rfl, rfl⟩ := Prod.mk.inj (Option.some.inj h')
    subst hj
    exact ⟨.inr rfl, _, rfl⟩
  · obtain ⟨-, -, rfl⟩ := col3 h; exact .inl rfl
  · obtain ⟨-, -, rfl⟩ := col3 h; decide
  · obtain ⟨-, -, rfl⟩ := col3 h; exact ⟨le_refl 1, le_refl 2⟩
  · obtain ⟨rfl, rfl, -⟩ := col3 h
    obtain ⟨rfl, rfl, -⟩ := col3 h'
    exact absurd ⟨rfl, rfl⟩ hne
  · obtain ⟨-, -, rfl⟩ := col3 h; rfl

theorem read : ReadOk lay exps (Needed exps reqs) := by
  refine ⟨fun ty j col h => ?_, fun p j e l k col _ he hl ho hk hc => ?_, fun p j e l k _ he hl ho hk => ?_⟩
  · obtain ⟨-, -, rfl⟩ := col3 h; decide
  · rcases labels he hl with h | h | h | ⟨-, h⟩ | ⟨h, -⟩ | ⟨h, -⟩
    · rw [h] at ho; cases ho
    · rw [h] at ho; cases ho
    · rw [h] at ho; cases ho
    · rw [h] at hk; cases hk
      have hc' : some (⟨.cm1_n, 0, 1, 1⟩ : Col) = some col := hc
      cases hc'
      refine ⟨.inl rfl, by simp [extSec], le_refl 1, fun ty j' col' h' => ?_⟩
      obtain ⟨-, -, rfl⟩ := col3 h'
      exact .inl (by decide)
    · rw [h] at ho; cases ho
    · rw [h] at ho; cases ho
  · rcases labels he hl with h | h | h | ⟨h, -⟩ | ⟨h, -⟩ | ⟨h, -⟩ <;> rw [h] at ho <;> cases ho

theorem cells : CellsOk bufs := ⟨fun t _ w hw => mem2 hw, fun t _ w hw => by obtain ⟨a, rfl⟩ := mem2 hw; exact .inr ⟨rfl, rfl, rfl⟩⟩

theorem fresh : FreshRows lay exps bufs := by
  intro ty j col h r _
  obtain ⟨-, -, rfl⟩ := col3 h
  exact .inl fun h => absurd h (by decide)

/-- the value of expression 3 at row `i` -/
def v3 (i : Nat) : K := ((av (rowOf 2 1 true i) + 7) - (av i + 7)) * (av i * av (rowOf 2 1 true i))

theorem vals : ∀ i < lay.N, ∀ r ∈ reqs, ∃ d e v, d < 5 ∧ exps[r.id]? = some e ∧ Val (fieldOps K) exps (rowEnv lay.s lay.dom lay.N lay.step bufs i) d false e v := by
  intro i hi r hr
  simp only [reqs, List.mem_singleton] at hr
  subst hr
  exact ⟨2, _, v3 i, by decide, rfl, val3 i hi⟩

theorem cmLt {ctx : Ctx K} (hg : genAll 0 exps 5 reqs ⟨0, [], []⟩ = some ctx) : ∀ c ∈ linearCode ctx, ∀ r ∈ c.dest :: c.src, r.ty = .cm → r.id < 1 := by
  have h : ((genAll 0 exps 5 reqs ⟨0, [], []⟩).map fun ctx => (linearCode ctx).all fun c => (c.dest :: c.src).all fun r => r.ty != .cm || r.id < 1) = some true := by
    decide +kernel
  rw [hg] at h
  have h' := Option.some.inj h
  simp only [List.all_eq_true] at h'
  intro c hc r hr ht
  have := h' c hc r hr
  rw [ht] at this
  simpa using this

theorem reqsOk : ∀ r ∈ reqs, r.prime = false ∧ r.res = none ∧ r.muladd = false := by
  intro r hr; simp only [reqs, List.mem_singleton] at hr; subst hr; exact ⟨rfl, rfl, rfl⟩

/-- the hypotheses of `rows_spec` and `program_spec` hold, and the column is computed: `(a' + 7 - (a + 7)) * (a * a')` -/
theorem run : ∃ out n c', Interp.calculateExps algF3 info out n .n 2 bufs = some c' ∧
    (∀ i < 2, Hold c'.mem ⟨.tmpexp_n, 0, 1, 1⟩ i (v3 i)) ∧ c'.mem .cm1_n = bufs.mem .cm1_n := by
  obtain ⟨ctx, hg⟩ := prog_some
  obtain ⟨out, tU, hf⟩ := fixProverCode_total (tgt := lay.tgt) (lit := lay.lit) (tmpUsed := ctx.tmpUsed) (cmLt hg)
  obtain ⟨c', h1, h2, -, h4⟩ := rows_spec (L := lay) (exps := exps) (c := bufs) (T := fun _ => 1) (n := tU) hg hf (le_refl _)
    reqsOk ops noPoint dims litOk rfl rfl (by decide) place read cells fresh vals
  refine ⟨out, tU, c', h1, fun i hi => ?_, ?_⟩
  · exact h2 { id := 3 } (by simp [reqs]) ⟨.tmpexp_n, 0, 1, 1⟩ rfl i hi (v3 i) ⟨2, _, rfl, val3 i hi⟩
  · rw [frame_sec h4 (by decide) fun ty j col h => by obtain ⟨-, -, rfl⟩ := col3 h; decide]
    exact withTmp_mem (by decide)

/-- the column is 6, -6 -/
theorem result : ∃ out n c', Interp.calculateExps algF3 info out n .n 2 bufs = some c' ∧ Hold c'.mem ⟨.tmpexp_n, 0, 1, 1⟩ 0 6 ∧
    Hold c'.mem ⟨.tmpexp_n, 0, 1, 1⟩ 1 (-6) ∧ c'.mem .cm1_n = bufs.mem .cm1_n := by
  obtain ⟨out, n, c', h1, h2, h3⟩ := run
  have a0 : av 0 = 2 := if_pos rfl
  have a1 : av 1 = 3 := if_neg (by decide)
  have e0 : v3 0 = 6 := by
    unfold v3
    rw [show rowOf 2 1 true 0 = 1 from rfl, a0, a1]
    norm_num
  have e1 : v3 1 = -6 := by
    unfold v3
    rw [show rowOf 2 1 true 1 = 0 from rfl, a0, a1]
    norm_num
  exact ⟨out, n, c', h1, e0 ▸ h2 0 (by decide), e1 ▸ h2 1 (by decide), h3⟩

end

end RowsEx

end Verif.Map
