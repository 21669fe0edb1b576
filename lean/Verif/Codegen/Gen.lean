import Verif.Codegen.Lemmas

namespace Verif.Codegen
open Spec

variable {E : Type} {K : Ops E} {exps : List (Expr E)} {σ0 : Store E}

mutual
/-- the references to other expressions in an expression: id and `next` -/
def refs : Expr E → List (Option Nat × Bool)
  | .node l vs => (if l.op = .exp then [(l.id, l.next)] else []) ++ refsL vs
/-- references in a list -/
def refsL : List (Expr E) → List (Option Nat × Bool)
  | [] => []
  | v :: vs => refs v ++ refsL vs
end

/-- the registers of the expressions referred to by `e` hold their values -/
def Ready (K : Ops E) (exps : List (Expr E)) (σ0 σ : Store E) (p : Bool) (rs : List (Option Nat × Bool)) : Prop :=
  ∀ i nx, (some i, nx) ∈ rs → ∀ v, ExpVal K exps σ0 (nx || p) i v → σ .exp i (nx || p) = some v

/-- columns, publics, ... are as in the environment -/
def SameLeaf (σ0 σ : Store E) : Prop := ∀ t i p, t ≠ .tmp → t ≠ .exp → t ≠ .f → σ t i p = σ0 t i p

/-- the code `new` emitted for an operand, from temporary `t` to `t'`, with result `r` of value `v` -/
structure Out (K : Ops E) (σ : Store E) (t : Nat) (new : List (Instr E)) (t' : Nat) (r : Node E) (v : E) : Prop where
  run : ∃ σ', exec K new σ = some σ' ∧ readN σ' r = some v ∧
    ∀ ty i q, ¬(ty = .tmp ∧ t ≤ i ∧ i < t') → σ' ty i q = σ ty i q
  cnt : t' = t + new.length
  shape : (r.ty = .tmp ∧ r.prime = false ∧ t ≤ r.id ∧ r.id < t' ∧ r.id + 1 = t' ∧ ∃ init last, new = init ++ [last] ∧ last.dest = r) ∨
    (r.ty ≠ .tmp ∧ r.ty ≠ .f ∧ new = [])
  dests : ∀ k ins, new[k]? = some ins → ins.dest.ty = .tmp ∧ ins.dest.id = t + k ∧ ins.dest.prime = false
  srcs : ∀ ins ∈ new, ∀ s ∈ ins.src, s.ty ≠ .f ∧ (s.ty = .tmp → t ≤ s.id ∧ s.id < ins.dest.id)

theorem Out.le {σ : Store E} {t new t' r v} (h : Out K σ t new t' r v) : t ≤ t' := by
  have := h.cnt; omega

/-- an operand that emits no code -/
theorem out_leaf {σ : Store E} {t : Nat} {r : Node E} {v : E} (hr : readN σ r = some v) (h1 : r.ty ≠ .tmp) (h2 : r.ty ≠ .f) :
    Out K σ t [] t r v :=
  ⟨⟨σ, rfl, hr, fun _ _ _ _ => rfl⟩, by simp, .inr ⟨h1, h2, rfl⟩, by simp, by simp⟩

/-- an operand keeps its value when later temporaries are written -/
theorem read_frame {σ σ' : Store E} {r : Node E} {t t' : Nat} (h : r.ty = .tmp → r.id < t)
    (hf : ∀ ty i q, ¬(ty = .tmp ∧ t ≤ i ∧ i < t') → σ' ty i q = σ ty i q) : readN σ' r = readN σ r := by
  unfold readN
  split
  · rfl
  · refine hf _ _ _ ?_
    rintro ⟨h1, h2, h3⟩
    have := h h1
    omega

theorem Out.tmp_lt {σ : Store E} {t new t' r v} (h : Out K σ t new t' r v) : r.ty = .tmp → r.id < t' := by
  intro hr
  rcases h.shape with hh | hh
  · exact hh.2.2.2.1
  · exact absurd hr hh.1

theorem Out.tmp_ge {σ : Store E} {t new t' r v} (h : Out K σ t new t' r v) : r.ty = .tmp → t ≤ r.id := by
  intro hr
  rcases h.shape with hh | hh
  · exact hh.2.2.1
  · exact absurd hr hh.1

theorem Out.not_f {σ : Store E} {t new t' r v} (h : Out K σ t new t' r v) : r.ty ≠ .f := by
  rcases h.shape with hh | hh
  · simp [hh.1]
  · exact hh.2.1

/-- operands evaluated one after the other -/
inductive Outs (K : Ops E) : Store E → Nat → List (Instr E) → Nat → List (Node E) → List E → Store E → Prop
  | nil {σ t} : Outs K σ t [] t [] [] σ
  | cons {σ t new t1 r v σ1 new2 t2 rs vs σ2} : Out K σ t new t1 r v → exec K new σ = some σ1 →
      Outs K σ1 t1 new2 t2 rs vs σ2 → Outs K σ t (new ++ new2) t2 (r :: rs) (v :: vs) σ2

theorem Outs.le {σ t new t' rs vs} {σ' : Store E} (h : Outs K σ t new t' rs vs σ') : t ≤ t' := by
  induction h with
  | nil => exact Nat.le_refl _
  | cons h _ _ ih => exact Nat.le_trans h.le ih

theorem Outs.frame {σ t new t' rs vs} {σ' : Store E} (h : Outs K σ t new t' rs vs σ') :
    ∀ ty i q, ¬(ty = .tmp ∧ t ≤ i ∧ i < t') → σ' ty i q = σ ty i q := by
  induction h with
  | nil => intros; rfl
  | @cons σ t new t1 r v σ1 new2 t2 rs vs σ2 h he hr ih =>
    intro ty i q hn
    obtain ⟨σ1', e1, -, hf⟩ := h.run
    rw [he] at e1
    cases e1
    have := h.le
    have := hr.le
    rw [ih ty i q (by rintro ⟨a, b, c⟩; exact hn ⟨a, by omega, c⟩), hf ty i q (by rintro ⟨a, b, c⟩; exact hn ⟨a, b, by omega⟩)]

theorem Outs.exec {σ t new t' rs vs} {σ' : Store E} (h : Outs K σ t new t' rs vs σ') : exec K new σ = some σ' := by
  induction h with
  | nil => rfl
  | cons h he hr ih => rw [exec_append, he]; exact ih

theorem Outs.cnt {σ t new t' rs vs} {σ' : Store E} (h : Outs K σ t new t' rs vs σ') : t' = t + new.length := by
  induction h with
  | nil => rfl
  | cons h he hr ih => have := h.cnt; simp; omega

theorem Outs.reads {σ t new t' rs vs} {σ' : Store E} (h : Outs K σ t new t' rs vs σ') : rs.mapM (readN σ') = some vs := by
  induction h with
  | nil => rfl
  | @cons σ t new t1 r v σ1 new2 t2 rs vs σ2 h he hr ih =>
    obtain ⟨σ1', e1, hv, hf⟩ := h.run
    rw [he] at e1
    cases e1
    have : readN σ2 r = some v := by
      rw [read_frame h.tmp_lt hr.frame, hv]
    simp [this, ih]

theorem Outs.nodes {σ t new t' rs vs} {σ' : Store E} (h : Outs K σ t new t' rs vs σ') :
    (∀ r ∈ rs, r.ty ≠ .f ∧ (r.ty = .tmp → t ≤ r.id ∧ r.id < t')) ∧
    (∀ k ins, new[k]? = some ins → ins.dest.ty = .tmp ∧ ins.dest.id = t + k ∧ ins.dest.prime = false) ∧
    (∀ ins ∈ new, ∀ s ∈ ins.src, s.ty ≠ .f ∧ (s.ty = .tmp → t ≤ s.id ∧ s.id < ins.dest.id)) := by
  induction h with
  | nil => simp
  | @cons σ t new t1 r v σ1 new2 t2 rs vs σ2 h he hr ih =>
    have l1 := h.le
    have l2 := hr.le
    obtain ⟨i1, i2, i3⟩ := ih
    refine ⟨?_, ?_, ?_⟩
    · intro x hx
      rcases List.mem_cons.mp hx with rfl | hx
      · refine ⟨h.not_f, fun ht => ⟨h.tmp_ge ht, ?_⟩⟩
        have := h.tmp_lt ht
        omega
      · refine ⟨(i1 x hx).1, fun ht => ?_⟩
        have := (i1 x hx).2 ht
        omega
    · intro k ins hi
      rw [List.getElem?_append] at hi
      split at hi
      · exact h.dests k ins hi
      · have hc := h.cnt
        have := i2 _ ins hi
        refine ⟨this.1, ?_, this.2.2⟩
        omega
    · intro ins hi s hs
      rcases List.mem_append.mp hi with hi | hi
      · exact h.srcs ins hi s hs
      · refine ⟨(i3 ins hi s hs).1, fun ht => ?_⟩
        have := (i3 ins hi s hs).2 ht
        omega

/-- the instruction emitted after its operands; `extra` are its number operands -/
theorem out_emit {σ t new t' rs vs} {σ' : Store E} (h : Outs K σ t new t' rs vs σ') (op : IOp) (src : List (Node E))
    (ws : List E) (v : E) (hsrc : src.mapM (readN σ') = some ws)
    (hmem : ∀ s ∈ src, s ∈ rs ∨ s.ty = .number) (hop : apply K op ws = some v) :
    Out K σ t (new ++ [⟨op, { ty := .tmp, id := t' }, src⟩]) (t' + 1) { ty := .tmp, id := t' } v := by
  have hle := h.le
  obtain ⟨n1, n2, n3⟩ := h.nodes
  refine ⟨⟨σ'.set { ty := .tmp, id := t' } v, ?_, ?_, ?_⟩, ?_, .inl ⟨rfl, rfl, hle, by simp, rfl, new, _, rfl, rfl⟩, ?_, ?_⟩
  · rw [exec_append, h.exec]
    simp only [Option.bind_some, exec_one, step, hsrc, hop, Option.map_some]
  · simp [readN, Store.set]
  · intro ty i q hn
    have : ¬(ty = .tmp ∧ i = t' ∧ q = false) := by
      rintro ⟨a, b, -⟩; exact hn ⟨a, by omega, by omega⟩
    simp only [Store.set, this, if_false]
    exact h.frame ty i q (by rintro ⟨a, b, c⟩; exact hn ⟨a, b, by omega⟩)
  · have := h.cnt; simp; omega
  · intro k ins hi
    rw [List.getElem?_append] at hi
    split at hi
    · exact n2 k ins hi
    · rw [List.getElem?_singleton] at hi
      split at hi
      · have := h.cnt
        cases hi
        refine ⟨rfl, ?_, rfl⟩
        show t' = _
        omega
      · simp at hi
  · intro ins hi s hs
    rcases List.mem_append.mp hi with hi | hi
    · exact n3 ins hi s hs
    · simp only [List.mem_singleton] at hi
      subst hi
      rcases hmem s hs with h1 | h1
      · refine ⟨(n1 s h1).1, fun ht => ?_⟩
        have := (n1 s h1).2 ht
        omega
      · simp [h1]

/-! ### The traversal in the state monad -/

theorem post0 (f : Expr E → List (Node E) → StateT (CodeCtx E) Option (Node E)) (l : Label E) (c : CodeCtx E) :
    postorder f (.node l []) c = f (.node l []) [] c := by
  simp [postorder, postorderL]

theorem post_bind {α β : Type} (x : StateT (CodeCtx E) Option α) (g : α → StateT (CodeCtx E) Option β) (c : CodeCtx E) :
    (x >>= g) c = (x c).bind fun rc => g rc.1 rc.2 := rfl

theorem post_map {α β : Type} (x : StateT (CodeCtx E) Option α) (g : α → β) (c : CodeCtx E) :
    (g <$> x) c = (x c).map fun rc => (g rc.1, rc.2) := by
  show (x c).bind _ = _
  cases x c <;> rfl

theorem post1 (f : Expr E → List (Node E) → StateT (CodeCtx E) Option (Node E)) (l : Label E) (a : Expr E) (c c1 : CodeCtx E)
    (r : Node E) (h : postorder f a c = some (r, c1)) : postorder f (.node l [a]) c = f (.node l [a]) [r] c1 := by
  simp [postorder, postorderL, post_bind, post_map, h]

theorem post2 (f : Expr E → List (Node E) → StateT (CodeCtx E) Option (Node E)) (l : Label E) (a b : Expr E)
    (c c1 c2 : CodeCtx E) (r s : Node E) (h : postorder f a c = some (r, c1)) (h2 : postorder f b c1 = some (s, c2)) :
    postorder f (.node l [a, b]) c = f (.node l [a, b]) [r, s] c2 := by
  simp [postorder, postorderL, post_bind, post_map, h, h2]

theorem post3 (f : Expr E → List (Node E) → StateT (CodeCtx E) Option (Node E)) (l : Label E) (a b d : Expr E)
    (c c1 c2 c3 : CodeCtx E) (r s u : Node E) (h : postorder f a c = some (r, c1)) (h2 : postorder f b c1 = some (s, c2))
    (h3 : postorder f d c2 = some (u, c3)) :
    postorder f (.node l [a, b, d]) c = f (.node l [a, b, d]) [r, s, u] c3 := by
  simp [postorder, postorderL, post_bind, post_map, h, h2, h3]

/-- what is needed of the store before the code of an operand -/
structure Pre (K : Ops E) (exps : List (Expr E)) (σ0 σ : Store E) (p : Bool) (e : Expr E) : Prop where
  leaf : SameLeaf σ0 σ
  ready : Ready K exps σ0 σ p (refs e)

theorem Pre.frame {σ σ' : Store E} {p : Bool} {e : Expr E} (h : Pre K exps σ0 σ p e) {t t' : Nat}
    (hf : ∀ ty i q, ¬(ty = .tmp ∧ t ≤ i ∧ i < t') → σ' ty i q = σ ty i q) : Pre K exps σ0 σ' p e :=
  ⟨fun ty i q h1 h2 h3 => by rw [hf _ _ _ (by rintro ⟨a, -⟩; exact h1 a)]; exact h.leaf ty i q h1 h2 h3,
   fun i nx hi v hv => by rw [hf _ _ _ (by rintro ⟨a, -⟩; exact absurd a (by decide))]; exact h.ready i nx hi v hv⟩

theorem Pre.child {σ : Store E} {p : Bool} {l : Label E} {vs : List (Expr E)} (h : Pre K exps σ0 σ p (.node l vs))
    {a : Expr E} (ha : a ∈ vs) : Pre K exps σ0 σ p a := by
  have key : ∀ (l : List (Expr E)), a ∈ l → ∀ x ∈ refs a, x ∈ refsL l := by
    intro l
    induction l with
    | nil => simp
    | cons b l ih =>
      intro hm x hx
      rw [refsL, List.mem_append]
      rcases List.mem_cons.mp hm with rfl | hm
      · exact .inl hx
      · exact .inr (ih hm x hx)
  refine ⟨h.leaf, fun i nx hi v hv => h.ready i nx ?_ v hv⟩
  rw [refs, List.mem_append]
  exact .inr (key vs ha _ hi)

/-- the code of an operand -/
theorem gen_operand {d p e v} (h : Val K exps σ0 d p e v) : ∀ (σ : Store E) (c : CodeCtx E), Pre K exps σ0 σ p e →
    ∃ r new t', postorder (evalSingleOp K.zero p) e c = some (r, { tmpUsed := t', code := c.code ++ new }) ∧
      Out K σ c.tmpUsed new t' r v := by
  induction h with
  | @add d p l a b x y z ho ha hb hz iha ihb =>
    intro σ c hp
    obtain ⟨r, n1, t1, e1, o1⟩ := iha σ c (hp.child (by simp))
    obtain ⟨σ1, x1, v1, f1⟩ := o1.run
    obtain ⟨s, n2, t2, e2, o2⟩ := ihb σ1 { tmpUsed := t1, code := c.code ++ n1 } ((hp.child (by simp)).frame f1)
    obtain ⟨σ2, x2, v2, f2⟩ := o2.run
    have ho2 := Outs.cons o1 x1 (Outs.cons o2 x2 .nil)
    refine ⟨_, _, _, ?_, out_emit ho2 .add [r, s] [x, y] z ho2.reads (by simp) hz⟩
    rw [post2 _ l a b c _ _ r s e1 e2]
    simp [evalSingleOp, Tree.label, ho, emit]
  | @sub d p l a b x y z ho ha hb hz iha ihb =>
    intro σ c hp
    obtain ⟨r, n1, t1, e1, o1⟩ := iha σ c (hp.child (by simp))
    obtain ⟨σ1, x1, v1, f1⟩ := o1.run
    obtain ⟨s, n2, t2, e2, o2⟩ := ihb σ1 { tmpUsed := t1, code := c.code ++ n1 } ((hp.child (by simp)).frame f1)
    obtain ⟨σ2, x2, v2, f2⟩ := o2.run
    have ho2 := Outs.cons o1 x1 (Outs.cons o2 x2 .nil)
    refine ⟨_, _, _, ?_, out_emit ho2 .sub [r, s] [x, y] z ho2.reads (by simp) hz⟩
    rw [post2 _ l a b c _ _ r s e1 e2]
    simp [evalSingleOp, Tree.label, ho, emit]
  | @mul d p l a b x y z ho ha hb hz iha ihb =>
    intro σ c hp
    obtain ⟨r, n1, t1, e1, o1⟩ := iha σ c (hp.child (by simp))
    obtain ⟨σ1, x1, v1, f1⟩ := o1.run
    obtain ⟨s, n2, t2, e2, o2⟩ := ihb σ1 { tmpUsed := t1, code := c.code ++ n1 } ((hp.child (by simp)).frame f1)
    obtain ⟨σ2, x2, v2, f2⟩ := o2.run
    have ho2 := Outs.cons o1 x1 (Outs.cons o2 x2 .nil)
    refine ⟨_, _, _, ?_, out_emit ho2 .mul [r, s] [x, y] z ho2.reads (by simp) hz⟩
    rw [post2 _ l a b c _ _ r s e1 e2]
    simp [evalSingleOp, Tree.label, ho, emit]
  | @muladd d p l a b u x y w xy z ho ha hb hc hxy hz iha ihb ihc =>
    intro σ c hp
    obtain ⟨r, n1, t1, e1, o1⟩ := iha σ c (hp.child (by simp))
    obtain ⟨σ1, x1, v1, f1⟩ := o1.run
    obtain ⟨s, n2, t2, e2, o2⟩ := ihb σ1 { tmpUsed := t1, code := c.code ++ n1 } ((hp.child (by simp)).frame f1)
    obtain ⟨σ2, x2, v2, f2⟩ := o2.run
    obtain ⟨q, n3, t3, e3, o3⟩ := ihc σ2 { tmpUsed := t2, code := c.code ++ n1 ++ n2 }
      (((hp.child (by simp)).frame f1).frame f2)
    obtain ⟨σ3, x3, v3, f3⟩ := o3.run
    have ho2 := Outs.cons o1 x1 (Outs.cons o2 x2 (Outs.cons o3 x3 .nil))
    refine ⟨_, _, _, ?_, out_emit ho2 .muladd [r, s, q] [x, y, w] z ho2.reads (by simp) (by simp [apply, hxy, hz])⟩
    rw [post3 _ l a b u c _ _ _ r s q e1 e2 e3]
    simp [evalSingleOp, Tree.label, ho, emit]
  | @addc d p l a k x z ho hk ha hz iha =>
    intro σ c hp
    obtain ⟨r, n1, t1, e1, o1⟩ := iha σ c (hp.child (by simp))
    obtain ⟨σ1, x1, v1, f1⟩ := o1.run
    have ho2 := Outs.cons o1 x1 .nil
    refine ⟨_, _, _, ?_, out_emit ho2 .add [r, { ty := .number, value := some k }] [x, k] z (by simp [v1]; rfl) (by simp) hz⟩
    rw [post1 _ l a c _ r e1]
    simp [evalSingleOp, Tree.label, ho, emit, hk]
  | @mulc d p l a k x z ho hk ha hz iha =>
    intro σ c hp
    obtain ⟨r, n1, t1, e1, o1⟩ := iha σ c (hp.child (by simp))
    obtain ⟨σ1, x1, v1, f1⟩ := o1.run
    have ho2 := Outs.cons o1 x1 .nil
    refine ⟨_, _, _, ?_, out_emit ho2 .mul [r, { ty := .number, value := some k }] [x, k] z (by simp [v1]; rfl) (by simp) hz⟩
    rw [post1 _ l a c _ r e1]
    simp [evalSingleOp, Tree.label, ho, emit, hk]
  | @neg d p l a x z ho ha hz iha =>
    intro σ c hp
    obtain ⟨r, n1, t1, e1, o1⟩ := iha σ c (hp.child (by simp))
    obtain ⟨σ1, x1, v1, f1⟩ := o1.run
    have ho2 := Outs.cons o1 x1 .nil
    refine ⟨_, _, _, ?_, out_emit ho2 .sub [{ ty := .number, value := some K.zero }, r] [K.zero, x] z (by simp [v1]; rfl) (by simp) hz⟩
    rw [post1 _ l a c _ r e1]
    simp [evalSingleOp, Tree.label, ho, emit]
  | @number d p l v ho hv =>
    intro σ c hp
    refine ⟨{ ty := .number, value := some v }, [], c.tmpUsed, ?_, out_leaf (by simp [readN]) (by simp) (by simp)⟩
    rw [post0]
    simp [evalSingleOp, Tree.label, ho, hv]
  | @col d p l t i v ho hi hn hv =>
    intro σ c hp
    have ht : t ≠ .tmp ∧ t ≠ .exp ∧ t ≠ .f ∧ t ≠ .number := by
      cases h : l.op <;> simp [h, colTy] at ho <;> subst ho <;> simp
    refine ⟨{ ty := t, id := i, prime := l.next || p }, [], c.tmpUsed, ?_,
      out_leaf (by simp [readN, ht]; rw [hp.leaf _ _ _ ht.1 ht.2.1 ht.2.2.1]; exact hv) ht.1 ht.2.2.1⟩
    rw [post0]
    cases h : l.op <;> simp [h, colTy] at ho <;> subst ho <;> simp [evalSingleOp, Tree.label, h, refNode, hn, hi]
  | @byId d p l t i v ho hi hv =>
    intro σ c hp
    have ht : t ≠ .tmp ∧ t ≠ .exp ∧ t ≠ .f ∧ t ≠ .number := by
      cases h : l.op <;> simp [h, idTy] at ho <;> subst ho <;> simp
    refine ⟨{ ty := t, id := i }, [], c.tmpUsed, ?_,
      out_leaf (by simp [readN, ht]; rw [hp.leaf _ _ _ ht.1 ht.2.1 ht.2.2.1]; exact hv) ht.1 ht.2.2.1⟩
    rw [post0]
    cases h : l.op <;> simp [h, idTy] at ho <;> subst ho <;> simp [evalSingleOp, Tree.label, h, idNode, hi]
  | @nullary d p l t v ho hv =>
    intro σ c hp
    have ht : t ≠ .tmp ∧ t ≠ .exp ∧ t ≠ .f ∧ t ≠ .number := by
      cases h : l.op <;> simp [h, nullTy] at ho <;> subst ho <;> simp
    refine ⟨{ ty := t }, [], c.tmpUsed, ?_,
      out_leaf (by simp [readN, ht]; rw [hp.leaf _ _ _ ht.1 ht.2.1 ht.2.2.1]; exact hv) ht.1 ht.2.2.1⟩
    rw [post0]
    cases h : l.op <;> simp [h, nullTy] at ho <;> subst ho <;> simp [evalSingleOp, Tree.label, h]
  | @exp d p l i e v ho hi hn he hv ih =>
    intro σ c hp
    refine ⟨{ ty := .exp, id := i, prime := l.next || p }, [], c.tmpUsed, ?_, out_leaf ?_ (by simp) (by simp)⟩
    · rw [post0]
      simp [evalSingleOp, Tree.label, ho, refNode, hn, hi]
    · simp only [readN]
      rw [if_neg (by simp)]
      exact hp.ready i l.next (by simp [refs, ho, hi, refsL]) v ⟨d, e, he, hv⟩

end Verif.Codegen
