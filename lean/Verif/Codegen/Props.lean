import Verif.Codegen.Gen

namespace Verif.Codegen
open Spec

variable {E : Type} {K : Ops E} {exps : List (Expr E)} {σ0 : Store E}

/-! ### References after `find_muladd` -/

theorem mem_refs {l : Label E} {vs : List (Expr E)} {x} :
    x ∈ refs (.node l vs) ↔ (l.op = .exp ∧ x = (l.id, l.next)) ∨ x ∈ refsL vs := by
  rw [refs, List.mem_append]
  split
  · rename_i h; simp [h]
  · rename_i h; simp [h]

theorem findMuladd_refs (e e' : Expr E) (h : findMuladd e = some e') : ∀ x ∈ refs e', x ∈ refs e := by
  have main : ∀ n, (∀ (e e' : Expr E), Tree.size e ≤ n → findMuladd e = some e' → ∀ x ∈ refs e', x ∈ refs e) := by
    intro n
    induction n with
    | zero => intro e e' hs; cases e; simp [Tree.size] at hs
    | succ n ih =>
      have ihL : ∀ (vs vs' : List (Expr E)), Tree.sizeL vs ≤ n → findMuladdL vs = some vs' → ∀ x ∈ refsL vs', x ∈ refsL vs := by
        intro vs
        induction vs with
        | nil => intro vs' _ h; simp [findMuladdL] at h; subst h; simp
        | cons v vs ihv =>
          intro vs' hs h
          simp only [Tree.sizeL] at hs
          rw [findMuladdL] at h
          obtain ⟨v', h1, h2⟩ := Option.bind_eq_some_iff.mp h
          obtain ⟨ws, h3, h4⟩ := Option.bind_eq_some_iff.mp h2
          simp only [Option.some.injEq] at h4
          subst h4
          intro x hx
          simp only [refsL, List.mem_append] at hx ⊢
          rcases hx with hx | hx
          · exact .inl (ih v v' (by omega) h1 x hx)
          · exact .inr (ihv ws (by omega) h3 x hx)
      intro e e' hs h
      have gen : ∀ (l : Label E) vs, Tree.size (.node l vs) ≤ n + 1 → ((findMuladdL vs).map fun vs' => Tree.node l vs') = some e' →
          ∀ x ∈ refs e', x ∈ refs (.node l vs) := by
        intro l vs hs h x hx
        obtain ⟨ws, h1, h2⟩ := Option.map_eq_some_iff.mp h
        subst h2
        simp only [Tree.size] at hs
        rw [mem_refs] at hx ⊢
        rcases hx with hx | hx
        · exact .inl hx
        · exact .inr (ihL vs ws (by omega) h1 x hx)
      obtain ⟨l, vs⟩ := e
      by_cases ho : l.op = .add
      · match vs, hs, h with
        | [.node l0 vs0, .node l1 vs1], hs, h =>
          rw [findMuladd_add ho] at h
          simp only [Tree.size, Tree.sizeL] at hs
          split at h
          · match vs0, hs, h with
            | a :: b :: rest, hs, h =>
              simp only [Tree.sizeL] at hs
              obtain ⟨a', h1, h2⟩ := Option.bind_eq_some_iff.mp h
              obtain ⟨b', h3, h4⟩ := Option.bind_eq_some_iff.mp h2
              obtain ⟨c', h5, h6⟩ := Option.bind_eq_some_iff.mp h4
              simp only [Option.some.injEq] at h6
              subst h6
              intro x hx
              simp only [mem_refs, refsL, List.mem_append, List.not_mem_nil, or_false] at hx ⊢
              rcases hx with ⟨hx, _⟩ | hx | hx | hx
              · simp at hx
              · exact .inr (.inl (.inr (.inl (ih a a' (by omega) h1 x hx))))
              · exact .inr (.inl (.inr (.inr (.inl (ih b b' (by omega) h3 x hx)))))
              · have := ih (.node l1 vs1) c' (by simp only [Tree.size]; omega) h5 x hx
                rw [mem_refs] at this
                exact .inr (.inr this)
            | [], hs, h => simp at h
            | [a], hs, h => simp at h
          · split at h
            · match vs1, hs, h with
              | a :: b :: rest, hs, h =>
                simp only [Tree.sizeL] at hs
                obtain ⟨a', h1, h2⟩ := Option.bind_eq_some_iff.mp h
                obtain ⟨b', h3, h4⟩ := Option.bind_eq_some_iff.mp h2
                obtain ⟨c', h5, h6⟩ := Option.bind_eq_some_iff.mp h4
                simp only [Option.some.injEq] at h6
                subst h6
                intro x hx
                simp only [mem_refs, refsL, List.mem_append, List.not_mem_nil, or_false] at hx ⊢
                rcases hx with ⟨hx, _⟩ | hx | hx | hx
                · simp at hx
                · exact .inr (.inr (.inr (.inl (ih a a' (by omega) h1 x hx))))
                · exact .inr (.inr (.inr (.inr (.inl (ih b b' (by omega) h3 x hx)))))
                · have := ih (.node l0 vs0) c' (by simp only [Tree.size]; omega) h5 x hx
                  rw [mem_refs] at this
                  exact .inr (.inl this)
              | [], hs, h => simp at h
              | [a], hs, h => simp at h
            · obtain ⟨a', h1, h2⟩ := Option.bind_eq_some_iff.mp h
              obtain ⟨b', h3, h4⟩ := Option.bind_eq_some_iff.mp h2
              simp only [Option.some.injEq] at h4
              subst h4
              intro x hx
              simp only [mem_refs, refsL, List.mem_append, List.not_mem_nil, or_false] at hx ⊢
              rcases hx with hx | hx | hx
              · exact .inl hx
              · have := ih (.node l0 vs0) a' (by simp only [Tree.size]; omega) h1 x hx
                rw [mem_refs] at this
                exact .inr (.inl this)
              · have := ih (.node l1 vs1) b' (by simp only [Tree.size]; omega) h3 x hx
                rw [mem_refs] at this
                exact .inr (.inr this)
        | [], hs, h => rw [findMuladd.eq_def] at h; simp only [ho] at h; exact gen l _ hs h
        | [a], hs, h => rw [findMuladd.eq_def] at h; simp only [ho] at h; exact gen l _ hs h
        | a :: b :: c :: r, hs, h => rw [findMuladd.eq_def] at h; simp only [ho] at h; exact gen l _ hs h
      · refine gen l vs hs ?_
        rw [← h, findMuladd.eq_def]
        split <;> simp_all
  exact main _ e e' (Nat.le_refl _) h

/-! ### The invariant -/

/-- executing the entries one after the other; after each entry the destination of its last instruction holds the value of
the entry's expression -/
def Trace (K : Ops E) (exps : List (Expr E)) (σ0 : Store E) : List (Code E) → Store E → Store E → Prop
  | [], σ, σ' => σ' = σ
  | c :: cs, σ, σ' => ∃ σ1 v last, exec K c.code σ = some σ1 ∧ ExpVal K exps σ0 c.prime c.expId v ∧
      c.code.getLast? = some last ∧ last.dest.ty ≠ .number ∧ readN σ1 last.dest = some v ∧ Trace K exps σ0 cs σ1 σ'

theorem trace_append {A B : List (Code E)} {σ σ'} :
    Trace K exps σ0 (A ++ B) σ σ' ↔ ∃ σ1, Trace K exps σ0 A σ σ1 ∧ Trace K exps σ0 B σ1 σ' := by
  induction A generalizing σ with
  | nil => simp [Trace]
  | cons c A ih =>
    simp only [List.cons_append, Trace, ih]
    constructor
    · rintro ⟨σ1, v, last, h1, h2, h3, h4, h5, σ2, h6, h7⟩
      exact ⟨σ2, ⟨σ1, v, last, h1, h2, h3, h4, h5, h6⟩, h7⟩
    · rintro ⟨σ2, ⟨σ1, v, last, h1, h2, h3, h4, h5, h6⟩, h7⟩
      exact ⟨σ1, v, last, h1, h2, h3, h4, h5, σ2, h6, h7⟩

theorem trace_exec {A : List (Code E)} {σ σ'} (h : Trace K exps σ0 A σ σ') : exec K (A.flatMap Code.code) σ = some σ' := by
  induction A generalizing σ with
  | nil => simp [Trace] at h; simp [h]
  | cons c A ih =>
    obtain ⟨σ1, v, last, h1, -, -, -, -, h6⟩ := h
    rw [List.flatMap_cons, exec_append, h1]
    exact ih h6

/-- the instruction does not mention the register of `k` -/
def NoKey (k : Node E) (ins : Instr E) : Prop :=
  ¬(ins.dest.ty = k.ty ∧ ins.dest.id = k.id ∧ ins.dest.prime = k.prime) ∧
  ∀ s ∈ ins.src, ¬(s.ty = k.ty ∧ s.id = k.id ∧ s.prime = k.prime)

theorem readN_set {σ : Store E} {k s : Node E} {w : E} (h : ¬(s.ty = k.ty ∧ s.id = k.id ∧ s.prime = k.prime)) :
    readN (σ.set k w) s = readN σ s := by
  simp only [readN, Store.set, h, if_false]

theorem readN_set_same {σ : Store E} {k : Node E} {w : E} (h : k.ty ≠ .number) : readN (σ.set k w) k = some w := by
  simp [readN, Store.set, h]

theorem set_comm {σ : Store E} {k l : Node E} {w x : E} (h : ¬(l.ty = k.ty ∧ l.id = k.id ∧ l.prime = k.prime)) :
    (σ.set k w).set l x = (σ.set l x).set k w := by
  funext t i p
  simp only [Store.set]
  split
  · rename_i h1
    obtain ⟨rfl, rfl, rfl⟩ := h1
    rw [if_neg h]
  · rfl

theorem step_set {σ σ' : Store E} {k : Node E} {w : E} {ins : Instr E} (h : NoKey k ins) (hs : step K σ ins = some σ') :
    step K (σ.set k w) ins = some (σ'.set k w) := by
  have hm : ins.src.mapM (readN (σ.set k w)) = ins.src.mapM (readN σ) := by
    have : ∀ (l : List (Node E)), (∀ s ∈ l, s ∈ ins.src) → l.mapM (readN (σ.set k w)) = l.mapM (readN σ) := by
      intro l
      induction l with
      | nil => intro _; rfl
      | cons s l ih =>
        intro hl
        rw [List.mapM_cons, List.mapM_cons, readN_set (h.2 s (hl s (by simp))), ih fun x hx => hl x (by simp [hx])]
    exact this _ fun _ h => h
  unfold step at hs ⊢
  rw [hm]
  obtain ⟨vs, h1, h2⟩ := Option.bind_eq_some_iff.mp hs
  obtain ⟨v, h3, h4⟩ := Option.map_eq_some_iff.mp h2
  rw [h1, Option.bind_some, h3, Option.map_some, ← h4, set_comm h.1]

theorem exec_set {code : List (Instr E)} {σ σ' : Store E} {k : Node E} {w : E} (h : ∀ i ∈ code, NoKey k i)
    (hs : exec K code σ = some σ') : exec K code (σ.set k w) = some (σ'.set k w) := by
  induction code generalizing σ with
  | nil => simp at hs ⊢; rw [hs]
  | cons i code ih =>
    unfold exec at hs ⊢
    rw [List.foldlM_cons] at hs ⊢
    obtain ⟨σ1, h1, h2⟩ := Option.bind_eq_some_iff.mp hs
    rw [step_set (h i (by simp)) h1]
    exact ih (fun j hj => h j (by simp [hj])) h2

theorem trace_set {B : List (Code E)} {σ σ' : Store E} {k : Node E} {w : E} (h : ∀ c ∈ B, ∀ i ∈ c.code, NoKey k i)
    (hs : Trace K exps σ0 B σ σ') : Trace K exps σ0 B (σ.set k w) (σ'.set k w) := by
  induction B generalizing σ with
  | nil => simp [Trace] at hs ⊢; rw [hs]
  | cons c B ih =>
    obtain ⟨σ1, v, last, h1, h2, h3, h4, h5, h6⟩ := hs
    have hl : last ∈ c.code := List.mem_of_getLast? h3
    exact ⟨σ1.set k w, v, last, exec_set (h c (by simp)) h1, h2, h3, h4,
      by rw [readN_set (h c (by simp) last hl).1]; exact h5, ih (fun c' hc => h c' (by simp [hc])) h6⟩

/-- The invariant of code generation: the code emitted so far runs from the environment `σ0` to `σ`, where the register of
every calculated expression holds the value of that expression. -/
structure Inv (K : Ops E) (exps : List (Expr E)) (σ0 : Store E) (pre : List (Bool × Nat)) (U : List Nat) (t0 : Nat)
    (ctx : Ctx E) (σ : Store E) : Prop where
  trace : Trace K exps σ0 ctx.code σ0 σ
  leaf : SameLeaf σ0 σ
  known : ∀ p id, (p, id) ∈ ctx.calculated → ∃ v, ExpVal K exps σ0 p id v ∧ σ .exp id p = some v
  entry : ∀ p id, (p, id) ∈ ctx.calculated → (p, id) ∈ pre ∨ ∃ c ∈ ctx.code, c.expId = id ∧ c.prime = p
  keys : ∀ c ∈ ctx.code, (c.prime, c.expId) ∈ ctx.calculated
  nodup : (ctx.code.map fun c => (c.prime, c.expId)).Nodup
  fnodes : ∀ c ∈ ctx.code, ∀ ins ∈ c.code, (ins.dest.ty = .f → ins.dest.id ∈ U) ∧ ∀ s ∈ ins.src, s.ty = .f → s.id ∈ U
  tmps : ∀ c ∈ ctx.code, ∀ ins ∈ c.code, (ins.dest.ty = .tmp → t0 ≤ ins.dest.id ∧ ins.dest.id < ctx.tmpUsed) ∧
    ∀ s ∈ ins.src, s.ty = .tmp → t0 ≤ s.id ∧ s.id < ctx.tmpUsed
  base : t0 ≤ ctx.tmpUsed

/-- the requests as they appear in the code: the result register, if any, has type `f` -/
def resOf (res : Option Nat) : Option (NTy × Nat) := res.map fun i => (.f, i)

/-- the code of one expression whose dependencies are available -/
theorem genOne_inv {pre U t0 ctx σ d p id e v} {muladd : Bool} {res : Option Nat} (hI : Inv K exps σ0 pre U t0 ctx σ)
    (hcomm : muladd = true → ∀ a b, K.add a b = K.add b a) (he : exps[id]? = some e)
    (hv : Val K exps σ0 d p e v) (hr : ∀ i nx, (some i, nx) ∈ refs e → (nx || p, i) ∈ ctx.calculated)
    (hnew : (p, id) ∉ ctx.calculated) (hres : ∀ i, res = some i → i ∉ U ∧ p = false) :
    ∃ ctx' σ', genOne K.zero exps ctx id p (resOf res) muladd = some ctx' ∧ Inv K exps σ0 pre (res.toList ++ U) t0 ctx' σ' ∧
      ctx'.calculated = (p, id) :: ctx.calculated ∧
      (∀ i, res = some i → σ' .f i false = some v) ∧ (∀ i q, res ≠ some i → σ' .f i q = σ .f i q) := by
  -- the expression that is compiled
  obtain ⟨e', he', hv', hrefs⟩ : ∃ e', (if muladd then findMuladd e else some e) = some e' ∧ Val K exps σ0 d p e' v ∧
      ∀ x ∈ refs e', x ∈ refs e := by
    cases muladd with
    | false => exact ⟨e, by simp, hv, fun _ h => h⟩
    | true =>
      obtain ⟨e', h1, h2⟩ := findMuladd_val (hcomm rfl) hv
      exact ⟨e', by simpa using h1, h2, findMuladd_refs e e' h1⟩
  have hpre : Pre K exps σ0 σ p e' := by
    refine ⟨hI.leaf, fun i nx hi w hw => ?_⟩
    obtain ⟨w', h1, h2⟩ := hI.known _ _ (hr i nx (hrefs _ hi))
    rw [h2, expVal_unique hw h1]
  obtain ⟨r, new, t', hg, ho⟩ := gen_operand hv' σ { tmpUsed := ctx.tmpUsed, code := [] } hpre
  obtain ⟨σ1, hx, hrd, hfr⟩ := ho.run
  have hle := ho.le
  simp only [List.nil_append] at hg
  simp only at ho hfr hle
  -- the register of the expression
  let dd : Node E := { ty := .exp, id := id, prime := p }
  obtain ⟨code1, t1, last1, σ2, hf1, hf2, hf3, hf4, hf5, hf6, hf7, hf8, hf9⟩ : ∃ code1 t1 last1 σ2,
      finish id p r { tmpUsed := t', code := new } = some { tmpUsed := t1, code := code1 } ∧
      exec K code1 σ = some σ2 ∧ code1.getLast? = some last1 ∧ last1.dest = dd ∧ σ2 .exp id p = some v ∧
      (∀ ty i q, ty ≠ .tmp → ¬(ty = .exp ∧ i = id ∧ q = p) → σ2 ty i q = σ ty i q) ∧
      (∀ ins ∈ code1, ins.dest.ty ≠ .f ∧ ∀ s ∈ ins.src, s.ty ≠ .f) ∧
      (∀ ins ∈ code1, (ins.dest.ty = .tmp → ctx.tmpUsed ≤ ins.dest.id ∧ ins.dest.id < t1) ∧
        ∀ s ∈ ins.src, s.ty = .tmp → ctx.tmpUsed ≤ s.id ∧ s.id < t1) ∧ ctx.tmpUsed ≤ t1 := by
    rcases ho.shape with ⟨h1, h2, h3, h4, h5, init, last, h6, h7⟩ | ⟨h1, h2, h3⟩
    · have hc := ho.cnt
      subst h6
      simp only [List.length_append, List.length_singleton] at hc
      rw [exec_append] at hx
      obtain ⟨σi, hi1, hi2⟩ := Option.bind_eq_some_iff.mp hx
      rw [exec_one] at hi2
      unfold step at hi2
      obtain ⟨ws, hw1, hw2⟩ := Option.bind_eq_some_iff.mp hi2
      obtain ⟨w, hw3, hw4⟩ := Option.map_eq_some_iff.mp hw2
      have hwv : w = v := by
        rw [← hw4, h7, readN_set_same (by simp [h1])] at hrd
        exact Option.some.inj hrd
      subst hwv
      have hinit : ∀ ins ∈ init, ins.dest.ty = .tmp ∧ ctx.tmpUsed ≤ ins.dest.id ∧ ins.dest.id < t' - 1 := by
        intro ins hin
        obtain ⟨k, hk, hk2⟩ := List.getElem_of_mem hin
        have := ho.dests k ins (by rw [List.getElem?_append_left hk, List.getElem?_eq_getElem hk, hk2])
        refine ⟨this.1, ?_, ?_⟩ <;> omega
      have hfri : ∀ ty i q, ty ≠ .tmp → σi ty i q = σ ty i q := by
        intro ty i q hty
        rw [← hfr ty i q (by rintro ⟨a, -⟩; exact hty a), ← hw4]
        simp only [Store.set]
        rw [if_neg]
        rintro ⟨a, -⟩
        rw [h7, h1] at a
        exact hty a
      refine ⟨init ++ [{ last with dest := dd }], t' - 1, { last with dest := dd }, σi.set dd w, ?_, ?_, by simp, rfl, ?_,
        ?_, ?_, ?_, by omega⟩
      · simp [finish, h1, dd]
      · rw [exec_append, hi1, Option.bind_some, exec_one]
        simp only [step, hw1, Option.bind_some, hw3, Option.map_some]
      · simp [Store.set, dd]
      · intro ty i q hty hn
        rw [← hfri ty i q hty]
        simp only [Store.set, dd]
        rw [if_neg hn]
      · intro ins hin
        rcases List.mem_append.mp hin with hin | hin
        · refine ⟨by rw [(hinit ins hin).1]; simp, fun s hs => (ho.srcs ins (List.mem_append_left _ hin) s hs).1⟩
        · simp only [List.mem_singleton] at hin
          subst hin
          exact ⟨by simp [dd], fun s hs => (ho.srcs last (by simp) s hs).1⟩
      · intro ins hin
        rcases List.mem_append.mp hin with hin | hin
        · refine ⟨fun _ => (hinit ins hin).2, fun s hs ht => ?_⟩
          have := (ho.srcs ins (List.mem_append_left _ hin) s hs).2 ht
          have := hinit ins hin
          omega
        · simp only [List.mem_singleton] at hin
          subst hin
          refine ⟨by simp [dd], fun s hs ht => ?_⟩
          have := (ho.srcs last (by simp) s hs).2 ht
          rw [h7] at this
          omega
    · subst h3
      simp only [exec_nil, Option.some.injEq] at hx
      subst hx
      have hc := ho.cnt
      simp only [List.length_nil] at hc
      refine ⟨[⟨.copy, dd, [r]⟩], t', ⟨.copy, dd, [r]⟩, σ.set dd v, by simp [finish, h1, dd], ?_, rfl, rfl, ?_, ?_, ?_, ?_, hle⟩
      · simp [exec_one, step, hrd, apply]
      · simp [Store.set, dd]
      · intro ty i q hty hn
        simp only [Store.set, dd]
        rw [if_neg hn]
      · intro ins hin
        simp only [List.mem_singleton] at hin
        subst hin
        exact ⟨by simp [dd], by simp [h2]⟩
      · intro ins hin
        simp only [List.mem_singleton] at hin
        subst hin
        exact ⟨by simp [dd], by simp [h1]⟩
  -- the result
  have hvE : ExpVal K exps σ0 p id v := ⟨d, e, he, hv⟩
  obtain ⟨code2, last2, σ3, hq1, hq2, hq3, hq4, hq5, hq6, hq7, hq8, hq9, hq10, hq11⟩ : ∃ code2 last2 σ3,
      addResult id p (resOf res) { tmpUsed := t1, code := code1 } = some { tmpUsed := t1, code := code2 } ∧
      exec K code2 σ = some σ3 ∧ code2.getLast? = some last2 ∧ last2.dest.ty ≠ .number ∧ readN σ3 last2.dest = some v ∧
      σ3 .exp id p = some v ∧
      (∀ ty i q, ty ≠ .tmp → ty ≠ .f → ¬(ty = .exp ∧ i = id ∧ q = p) → σ3 ty i q = σ ty i q) ∧
      (∀ i, res = some i → σ3 .f i false = some v) ∧ (∀ i q, res ≠ some i → σ3 .f i q = σ .f i q) ∧
      (∀ ins ∈ code2, (ins.dest.ty = .f → ins.dest.id ∈ res.toList ++ U) ∧ ∀ s ∈ ins.src, s.ty = .f → s.id ∈ res.toList ++ U) ∧
      (∀ ins ∈ code2, (ins.dest.ty = .tmp → ctx.tmpUsed ≤ ins.dest.id ∧ ins.dest.id < t1) ∧
        ∀ s ∈ ins.src, s.ty = .tmp → ctx.tmpUsed ≤ s.id ∧ s.id < t1) := by
    cases res with
    | none =>
      refine ⟨code1, last1, σ2, rfl, hf2, hf3, by simp [hf4, dd], by simp [hf4, dd, readN, hf5], hf5,
        fun ty i q h1 _ h2 => hf6 ty i q h1 h2, by simp, fun i q _ => hf6 _ _ _ (by simp) (by simp), ?_, hf8⟩
      intro ins hin
      exact ⟨fun h => absurd h (hf7 ins hin).1, fun s hs h => absurd h ((hf7 ins hin).2 s hs)⟩
    | some rid =>
      obtain ⟨hU, rfl⟩ := hres rid rfl
      refine ⟨code1 ++ [⟨.copy, { ty := .f, id := rid, prime := false }, [dd]⟩],
        ⟨.copy, { ty := .f, id := rid, prime := false }, [dd]⟩,
        σ2.set { ty := .f, id := rid, prime := false } v, by simp [addResult, resOf, dd], ?_, by simp, by simp, ?_, ?_, ?_, ?_, ?_, ?_, ?_⟩
      · rw [exec_append, hf2, Option.bind_some, exec_one]
        simp [step, readN, dd, hf5, apply]
      · exact readN_set_same (by simp)
      · simp [Store.set, hf5]
      · intro ty i q h1 h2 h3
        rw [← hf6 ty i q h1 h3]
        simp [Store.set, h2]
      · intro i hi
        cases hi
        simp [Store.set]
      · intro i q hi
        rw [← hf6 _ i q (by simp) (by simp)]
        simp only [Store.set]
        rw [if_neg]
        rintro ⟨-, rfl, -⟩
        exact hi rfl
      · intro ins hin
        rcases List.mem_append.mp hin with hin | hin
        · exact ⟨fun h => absurd h (hf7 ins hin).1, fun s hs h => absurd h ((hf7 ins hin).2 s hs)⟩
        · simp only [List.mem_singleton] at hin
          subst hin
          simp [dd]
      · intro ins hin
        rcases List.mem_append.mp hin with hin | hin
        · exact hf8 ins hin
        · simp only [List.mem_singleton] at hin
          subst hin
          simp [dd]
  refine ⟨{ tmpUsed := max ctx.tmpUsed t1, code := ctx.code ++ [⟨id, p, code2⟩], calculated := (p, id) :: ctx.calculated },
    σ3, ?_, ?_, rfl, hq8, hq9⟩
  · unfold genOne evalExp
    rw [he, Option.bind_some, he', Option.bind_some, traverse_eq_postorder, hg, Option.bind_some, hf1, Option.bind_some, hq1]
    rfl
  · refine ⟨?_, ?_, ?_, ?_, ?_, ?_, ?_, ?_, ?_⟩
    · rw [trace_append]
      exact ⟨σ, hI.trace, σ3, v, last2, hq2, hvE, hq3, hq4, hq5, rfl⟩
    · intro ty i q h1 h2 h3
      rw [hq7 ty i q h1 h3 (by rintro ⟨a, -⟩; exact h2 a)]
      exact hI.leaf ty i q h1 h2 h3
    · intro q i hm
      rcases List.mem_cons.mp hm with h | h
      · cases h
        exact ⟨v, hvE, hq6⟩
      · obtain ⟨w, h1, h2⟩ := hI.known q i h
        refine ⟨w, h1, ?_⟩
        rw [hq7 _ _ _ (by simp) (by simp), h2]
        rintro ⟨-, rfl, rfl⟩
        exact hnew h
    · intro q i hm
      rcases List.mem_cons.mp hm with h | h
      · cases h
        exact .inr ⟨⟨id, p, code2⟩, by simp, rfl, rfl⟩
      · rcases hI.entry q i h with h | ⟨c, h1, h2⟩
        · exact .inl h
        · exact .inr ⟨c, by simp [h1], h2⟩
    · intro c hc
      rcases List.mem_append.mp hc with h | h
      · exact List.mem_cons_of_mem _ (hI.keys c h)
      · simp only [List.mem_singleton] at h
        subst h
        simp
    · rw [List.map_append, List.nodup_append]
      refine ⟨hI.nodup, by simp, ?_⟩
      intro a ha b hb hab
      simp only [List.map_cons, List.map_nil, List.mem_singleton] at hb
      obtain ⟨c, hc, rfl⟩ := List.mem_map.mp ha
      rw [hb] at hab
      exact hnew (hab ▸ hI.keys c hc)
    · intro c hc ins hin
      rcases List.mem_append.mp hc with h | h
      · exact ⟨fun hh => List.mem_append_right _ ((hI.fnodes c h ins hin).1 hh),
          fun s hs hh => List.mem_append_right _ ((hI.fnodes c h ins hin).2 s hs hh)⟩
      · simp only [List.mem_singleton] at h
        subst h
        exact hq10 ins hin
    · intro c hc ins hin
      have hb := hI.base
      rcases List.mem_append.mp hc with h | h
      · refine ⟨fun hh => ?_, fun s hs hh => ?_⟩
        · have := (hI.tmps c h ins hin).1 hh
          show t0 ≤ _ ∧ _ < max ctx.tmpUsed t1
          omega
        · have := (hI.tmps c h ins hin).2 s hs hh
          show t0 ≤ _ ∧ _ < max ctx.tmpUsed t1
          omega
      · simp only [List.mem_singleton] at h
        subst h
        refine ⟨fun hh => ?_, fun s hs hh => ?_⟩
        · have := (hq11 ins hin).1 hh
          show t0 ≤ _ ∧ _ < max ctx.tmpUsed t1
          omega
        · have := (hq11 ins hin).2 s hs hh
          show t0 ≤ _ ∧ _ < max ctx.tmpUsed t1
          omega
    · have := hI.base
      show t0 ≤ max ctx.tmpUsed t1
      omega

/-! ### Dependencies -/

/-- the expressions calculated in addition can be evaluated with fewer than `d` nested references -/
def NewBelow (K : Ops E) (exps : List (Expr E)) (σ0 : Store E) (d : Nat) (ctx ctx' : Ctx E) : Prop :=
  ∀ k ∈ ctx'.calculated, k ∈ ctx.calculated ∨ ∃ d' e v, d' < d ∧ exps[k.2]? = some e ∧ Val K exps σ0 d' k.1 e v

theorem NewBelow.refl {d} {c : Ctx E} : NewBelow K exps σ0 d c c := fun _ h => .inl h

theorem NewBelow.trans {d} {a b c : Ctx E} (h1 : NewBelow K exps σ0 d a b) (h2 : NewBelow K exps σ0 d b c) :
    NewBelow K exps σ0 d a c := by
  intro k hk
  rcases h2 k hk with h | h
  · exact h1 k h
  · exact .inr h

theorem NewBelow.mono {d d'} {a b : Ctx E} (h1 : NewBelow K exps σ0 d a b) (hd : d ≤ d') : NewBelow K exps σ0 d' a b := by
  intro k hk
  rcases h1 k hk with h | ⟨d0, e, v, h, h'⟩
  · exact .inl h
  · exact .inr ⟨d0, e, v, Nat.lt_of_lt_of_le h hd, h'⟩

theorem exists_min (P : Nat → Prop) (n : Nat) (h : P n) : ∃ m, m ≤ n ∧ P m ∧ ∀ k, k < m → ¬P k := by
  induction n using Nat.strongRecOn with
  | _ n ih =>
    by_cases hk : ∃ k, k < n ∧ P k
    · obtain ⟨k, hk, hp⟩ := hk
      obtain ⟨m, h1, h2⟩ := ih k hk hp
      exact ⟨m, by omega, h2⟩
    · exact ⟨n, Nat.le_refl _, h, fun k hk' hp => hk ⟨k, hk', hp⟩⟩

/-- what a call of `pil_code_gen` for a dependency achieves -/
def GenOk (K : Ops E) (exps : List (Expr E)) (σ0 : Store E) (pre : List (Bool × Nat)) (U : List Nat) (t0 fuel : Nat)
    (gen : Ctx E → Nat → Bool → Option (Ctx E)) : Prop :=
  ∀ ctx σ d p id e v, Inv K exps σ0 pre U t0 ctx σ → exps[id]? = some e → Val K exps σ0 d p e v → d < fuel →
    ∃ ctx' σ', gen ctx id p = some ctx' ∧ Inv K exps σ0 pre U t0 ctx' σ' ∧ (p, id) ∈ ctx'.calculated ∧
      (∀ k ∈ ctx.calculated, k ∈ ctx'.calculated) ∧ (∀ i q, σ' .f i q = σ .f i q) ∧ NewBelow K exps σ0 (d + 1) ctx ctx'

theorem calcDeps_inv {pre U t0 fuel gen} (hg : GenOk K exps σ0 pre U t0 fuel gen) {d p e v} (h : Val K exps σ0 d p e v) :
    d ≤ fuel → ∀ ctx σ, Inv K exps σ0 pre U t0 ctx σ →
    ∃ ctx' σ', calcDeps gen p e ctx = some ctx' ∧ Inv K exps σ0 pre U t0 ctx' σ' ∧
      (∀ i nx, (some i, nx) ∈ refs e → (nx || p, i) ∈ ctx'.calculated) ∧
      (∀ k ∈ ctx.calculated, k ∈ ctx'.calculated) ∧ (∀ i q, σ' .f i q = σ .f i q) ∧ NewBelow K exps σ0 d ctx ctx' := by
  have two : ∀ {l : Label E} {a b : Expr E} {p : Bool} {d : Nat}, l.op ≠ .exp →
      (∀ ctx σ, Inv K exps σ0 pre U t0 ctx σ → ∃ ctx' σ', calcDeps gen p a ctx = some ctx' ∧ Inv K exps σ0 pre U t0 ctx' σ' ∧
        (∀ i nx, (some i, nx) ∈ refs a → (nx || p, i) ∈ ctx'.calculated) ∧
        (∀ k ∈ ctx.calculated, k ∈ ctx'.calculated) ∧ (∀ i q, σ' .f i q = σ .f i q) ∧ NewBelow K exps σ0 d ctx ctx') →
      (∀ ctx σ, Inv K exps σ0 pre U t0 ctx σ → ∃ ctx' σ', calcDeps gen p b ctx = some ctx' ∧ Inv K exps σ0 pre U t0 ctx' σ' ∧
        (∀ i nx, (some i, nx) ∈ refs b → (nx || p, i) ∈ ctx'.calculated) ∧
        (∀ k ∈ ctx.calculated, k ∈ ctx'.calculated) ∧ (∀ i q, σ' .f i q = σ .f i q) ∧ NewBelow K exps σ0 d ctx ctx') →
      ∀ ctx σ, Inv K exps σ0 pre U t0 ctx σ →
        ∃ ctx' σ', calcDeps gen p (.node l [a, b]) ctx = some ctx' ∧ Inv K exps σ0 pre U t0 ctx' σ' ∧
        (∀ i nx, (some i, nx) ∈ refs (.node l [a, b]) → (nx || p, i) ∈ ctx'.calculated) ∧
        (∀ k ∈ ctx.calculated, k ∈ ctx'.calculated) ∧ (∀ i q, σ' .f i q = σ .f i q) ∧ NewBelow K exps σ0 d ctx ctx' := by
    intro l a b p d ho ha hb ctx σ hI
    obtain ⟨c1, s1, e1, i1, r1, m1, f1, w1⟩ := ha ctx σ hI
    obtain ⟨c2, s2, e2, i2, r2, m2, f2, w2⟩ := hb c1 s1 i1
    refine ⟨c2, s2, by simp [calcDeps, calcDepsL, ho, e1, e2], i2, ?_, fun k hk => m2 k (m1 k hk),
      fun i q => by rw [f2, f1], w1.trans w2⟩
    intro i nx hi
    simp only [mem_refs, ho, false_and, refsL, List.mem_append, List.not_mem_nil, or_false, false_or] at hi
    rcases hi with hi | hi
    · exact m2 _ (r1 i nx hi)
    · exact r2 i nx hi
  have one : ∀ {l : Label E} {a : Expr E} {p : Bool} {d : Nat}, l.op ≠ .exp →
      (∀ ctx σ, Inv K exps σ0 pre U t0 ctx σ → ∃ ctx' σ', calcDeps gen p a ctx = some ctx' ∧ Inv K exps σ0 pre U t0 ctx' σ' ∧
        (∀ i nx, (some i, nx) ∈ refs a → (nx || p, i) ∈ ctx'.calculated) ∧
        (∀ k ∈ ctx.calculated, k ∈ ctx'.calculated) ∧ (∀ i q, σ' .f i q = σ .f i q) ∧ NewBelow K exps σ0 d ctx ctx') →
      ∀ ctx σ, Inv K exps σ0 pre U t0 ctx σ →
        ∃ ctx' σ', calcDeps gen p (.node l [a]) ctx = some ctx' ∧ Inv K exps σ0 pre U t0 ctx' σ' ∧
        (∀ i nx, (some i, nx) ∈ refs (.node l [a]) → (nx || p, i) ∈ ctx'.calculated) ∧
        (∀ k ∈ ctx.calculated, k ∈ ctx'.calculated) ∧ (∀ i q, σ' .f i q = σ .f i q) ∧ NewBelow K exps σ0 d ctx ctx' := by
    intro l a p d ho ha ctx σ hI
    obtain ⟨c1, s1, e1, i1, r1, m1, f1, w1⟩ := ha ctx σ hI
    refine ⟨c1, s1, by simp [calcDeps, calcDepsL, ho, e1], i1, ?_, m1, f1, w1⟩
    intro i nx hi
    simp only [mem_refs, ho, false_and, refsL, List.mem_append, List.not_mem_nil, or_false, false_or] at hi
    exact r1 i nx hi
  have zero : ∀ {l : Label E} {p : Bool} {d : Nat}, l.op ≠ .exp → ∀ ctx σ, Inv K exps σ0 pre U t0 ctx σ →
        ∃ ctx' σ', calcDeps gen p (.node l []) ctx = some ctx' ∧ Inv K exps σ0 pre U t0 ctx' σ' ∧
        (∀ i nx, (some i, nx) ∈ refs (.node l []) → (nx || p, i) ∈ ctx'.calculated) ∧
        (∀ k ∈ ctx.calculated, k ∈ ctx'.calculated) ∧ (∀ i q, σ' .f i q = σ .f i q) ∧ NewBelow K exps σ0 d ctx ctx' := by
    intro l p d ho ctx σ hI
    refine ⟨ctx, σ, by simp [calcDeps, calcDepsL, ho], hI, ?_, fun _ h => h, fun _ _ => rfl, .refl⟩
    intro i nx hi
    simp [mem_refs, ho, refsL] at hi
  induction h with
  | add ho _ _ _ iha ihb => intro hd; exact two (by simp [ho]) (iha hd) (ihb hd)
  | sub ho _ _ _ iha ihb => intro hd; exact two (by simp [ho]) (iha hd) (ihb hd)
  | mul ho _ _ _ iha ihb => intro hd; exact two (by simp [ho]) (iha hd) (ihb hd)
  | @muladd d p l a b c x y w xy z ho ha hb hc hxy hz iha ihb ihc =>
    intro hd ctx σ hI
    obtain ⟨c1, s1, e1, i1, r1, m1, f1, w1⟩ := iha hd ctx σ hI
    obtain ⟨c2, s2, e2, i2, r2, m2, f2, w2⟩ := ihb hd c1 s1 i1
    obtain ⟨c3, s3, e3, i3, r3, m3, f3, w3⟩ := ihc hd c2 s2 i2
    refine ⟨c3, s3, by simp [calcDeps, calcDepsL, ho, e1, e2, e3], i3, ?_, fun k hk => m3 k (m2 k (m1 k hk)),
      fun i q => by rw [f3, f2, f1], (w1.trans w2).trans w3⟩
    intro i nx hi
    simp only [mem_refs, ho, refsL, List.mem_append, List.not_mem_nil, or_false] at hi
    rcases hi with ⟨hi, _⟩ | hi | hi | hi
    · simp at hi
    · exact m3 _ (m2 _ (r1 i nx hi))
    · exact m3 _ (r2 i nx hi)
    · exact r3 i nx hi
  | addc ho _ _ _ iha => intro hd; exact one (by simp [ho]) (iha hd)
  | mulc ho _ _ _ iha => intro hd; exact one (by simp [ho]) (iha hd)
  | neg ho _ _ iha => intro hd; exact one (by simp [ho]) (iha hd)
  | number ho _ => intro _; exact zero (by simp [ho])
  | col ho _ _ _ => intro _; exact zero (by intro h; simp [h, colTy] at ho)
  | byId ho _ _ => intro _; exact zero (by intro h; simp [h, idTy] at ho)
  | nullary ho _ => intro _; exact zero (by intro h; simp [h, nullTy] at ho)
  | @exp d p l i e v ho hi hn he hv ih =>
    intro hd ctx σ hI
    obtain ⟨c1, s1, e1, i1, m1, k1, f1, w1⟩ := hg ctx σ d (l.next || p) i e v hI he hv (by omega)
    refine ⟨c1, s1, ?_, i1, ?_, k1, f1, w1⟩
    · have hn' : (p && l.next) = false := by rw [Bool.and_comm]; exact hn
      rw [Bool.or_comm] at e1
      simp [calcDeps, calcDepsL, ho, hi, hn', e1]
    · intro j nx hj
      simp only [mem_refs, ho, true_and, hi, refsL, List.not_mem_nil, or_false, Prod.mk.injEq, Option.some.injEq] at hj
      obtain ⟨rfl, rfl⟩ := hj
      exact m1

/-- a dependency: every call succeeds and keeps the invariant -/
theorem pilCodeGen_dep {pre U t0} : ∀ fuel, GenOk K exps σ0 pre U t0 fuel
    (fun c id p => pilCodeGen K.zero exps fuel c id p none false) := by
  intro fuel
  induction fuel with
  | zero => intro ctx σ d p id e v _ _ _ hd; omega
  | succ fuel ih =>
    intro ctx σ d p id e v hI he hv hd
    simp only [pilCodeGen]
    by_cases hc : (p, id) ∈ ctx.calculated
    · rw [if_pos hc]
      exact ⟨ctx, σ, rfl, hI, hc, fun _ h => h, fun _ _ => rfl, .refl⟩
    · rw [if_neg hc, he, Option.bind_some]
      obtain ⟨d0, hd0, hv0, hmin⟩ := exists_min (fun d => Val K exps σ0 d p e v) d hv
      obtain ⟨c1, s1, e1, i1, r1, m1, f1, w1⟩ := calcDeps_inv ih hv0 (by omega) ctx σ hI
      rw [e1, Option.bind_some]
      have hc1 : (p, id) ∉ c1.calculated := by
        intro hh
        rcases w1 _ hh with h | ⟨d', e', v', h1, h2, h3⟩
        · exact hc h
        · rw [he] at h2
          cases h2
          rw [← val_unique hv h3] at h3
          exact hmin d' h1 h3
      obtain ⟨c2, s2, e2, i2, k2, -, f2⟩ := genOne_inv (res := none) (muladd := false) i1 (by simp) he hv r1 hc1 (by simp)
      refine ⟨c2, s2, e2, i2, by rw [k2]; simp, fun k hk => by rw [k2]; exact List.mem_cons_of_mem _ (m1 k hk), ?_, ?_⟩
      · intro i q
        rw [f2 i q (by simp), f1]
      · intro k hk
        rw [k2] at hk
        rcases List.mem_cons.mp hk with rfl | hk
        · exact .inr ⟨d, e, v, by omega, he, hv⟩
        · exact (w1.mono (by omega)) k hk

/-! ### Requests -/

theorem findIdx_split {α : Type} {q : α → Bool} {l : List α} {c : α} (hc : c ∈ l) (hq : q c = true) :
    ∃ A x B, l = A ++ x :: B ∧ q x = true ∧ l.findIdx? q = some A.length := by
  induction l with
  | nil => simp at hc
  | cons y l ih =>
    by_cases hy : q y = true
    · exact ⟨[], y, l, rfl, hy, by simp [List.findIdx?_cons, hy]⟩
    · rcases List.mem_cons.mp hc with rfl | hc
      · exact absurd hq hy
      · obtain ⟨A, x, B, h1, h2, h3⟩ := ih hc
        exact ⟨y :: A, x, B, by rw [h1]; rfl, h2, by simp [List.findIdx?_cons, hy, h3]⟩

/-- an additional copy of an expression that has been generated before -/
theorem copyResult_inv {pre U t0 ctx σ p id rid v} (hI : Inv K exps σ0 pre U t0 ctx σ) (hc : (p, id) ∈ ctx.calculated)
    (hpre : (p, id) ∉ pre) (hU : rid ∉ U) (hv : ExpVal K exps σ0 p id v) :
    ∃ ctx' σ', copyResult ctx id p .f rid = some ctx' ∧ Inv K exps σ0 pre (rid :: U) t0 ctx' σ' ∧
      ctx'.calculated = ctx.calculated ∧ σ' .f rid p = some v ∧ (∀ i q, i ≠ rid → σ' .f i q = σ .f i q) := by
  obtain ⟨c0, hc0, hid, hpr⟩ := (hI.entry p id hc).resolve_left hpre
  obtain ⟨A, c, B, hsplit, hq, hidx⟩ := findIdx_split (q := fun x : Code E => x.expId == id && x.prime == p) hc0 (by simp [hid, hpr])
  simp only [Bool.and_eq_true, beq_iff_eq] at hq
  obtain ⟨rfl, rfl⟩ := hq
  let k : Node E := { ty := .f, id := rid, prime := c.prime }
  have htr := hI.trace
  rw [hsplit, trace_append] at htr
  obtain ⟨σA, hA, σ1, w, last, h1, h2, h3, h4, h5, hB⟩ := htr
  have hw : w = v := expVal_unique h2 hv
  subst hw
  have hnk : ∀ x ∈ ctx.code, ∀ i ∈ x.code, NoKey k i := by
    intro x hx i hi
    have := hI.fnodes x hx i hi
    refine ⟨fun ⟨a, b, _⟩ => hU ?_, fun s hs ⟨a, b, _⟩ => hU ?_⟩
    · have := this.1 a
      rwa [b] at this
    · have := this.2 s hs a
      rwa [b] at this
  have hmem : ∀ x ∈ A ++ { c with code := c.code ++ [⟨.copy, k, [last.dest]⟩] } :: B,
      x ∈ ctx.code ∨ x = { c with code := c.code ++ [⟨.copy, k, [last.dest]⟩] } := by
    intro x hx
    rw [hsplit]
    simp only [List.mem_append, List.mem_cons] at hx ⊢
    rcases hx with h | h | h
    · exact .inl (.inl h)
    · exact .inr h
    · exact .inl (.inr (.inr h))
  have hcm : c ∈ ctx.code := by rw [hsplit]; simp
  have hlm : last ∈ c.code := List.mem_of_getLast? h3
  refine ⟨{ ctx with code := A ++ { c with code := c.code ++ [⟨.copy, k, [last.dest]⟩] } :: B }, σ.set k w, ?_, ?_, rfl, ?_, ?_⟩
  · unfold copyResult
    rw [hidx, Option.bind_some, hsplit]
    simp [h3, k]
  · refine ⟨?_, ?_, ?_, ?_, ?_, ?_, ?_, ?_, hI.base⟩
    · rw [trace_append]
      refine ⟨σA, hA, σ1.set k w, w, ⟨.copy, k, [last.dest]⟩, ?_, h2, by simp, by simp [k], readN_set_same (by simp [k]), ?_⟩
      · rw [exec_append, h1, Option.bind_some, exec_one]
        simp [step, h5, apply]
      · exact trace_set (fun x hx => hnk x (by rw [hsplit]; simp [hx])) hB
    · intro ty i q a b d
      rw [← hI.leaf ty i q a b d]
      simp only [Store.set]
      rw [if_neg]
      rintro ⟨a, -⟩
      exact d a
    · intro q i h
      obtain ⟨x, hx1, hx2⟩ := hI.known q i h
      exact ⟨x, hx1, by simp [Store.set, k, hx2]⟩
    · intro q i h
      rcases hI.entry q i h with h | ⟨x, hx1, hx2⟩
      · exact .inl h
      · rw [hsplit] at hx1
        simp only [List.mem_append, List.mem_cons] at hx1
        rcases hx1 with hx1 | rfl | hx1
        · exact .inr ⟨x, by simp [hx1], hx2⟩
        · exact .inr ⟨{ x with code := x.code ++ [⟨.copy, k, [last.dest]⟩] }, by simp, hx2⟩
        · exact .inr ⟨x, by simp [hx1], hx2⟩
    · intro x hx
      rcases hmem x hx with h | rfl
      · exact hI.keys x h
      · exact hI.keys c hcm
    · have := hI.nodup
      rw [hsplit] at this
      simpa using this
    · intro x hx ins hin
      rcases hmem x hx with h | rfl
      · exact ⟨fun hh => List.mem_cons_of_mem _ ((hI.fnodes x h ins hin).1 hh),
          fun s hs hh => List.mem_cons_of_mem _ ((hI.fnodes x h ins hin).2 s hs hh)⟩
      · rcases List.mem_append.mp hin with hin | hin
        · exact ⟨fun hh => List.mem_cons_of_mem _ ((hI.fnodes c hcm ins hin).1 hh),
            fun s hs hh => List.mem_cons_of_mem _ ((hI.fnodes c hcm ins hin).2 s hs hh)⟩
        · simp only [List.mem_singleton] at hin
          subst hin
          refine ⟨fun _ => by simp [k], fun s hs hh => ?_⟩
          simp only [List.mem_singleton] at hs
          subst hs
          exact List.mem_cons_of_mem _ ((hI.fnodes c hcm last hlm).1 hh)
    · intro x hx ins hin
      rcases hmem x hx with h | rfl
      · exact hI.tmps x h ins hin
      · rcases List.mem_append.mp hin with hin | hin
        · exact hI.tmps c hcm ins hin
        · simp only [List.mem_singleton] at hin
          subst hin
          refine ⟨by simp [k], fun s hs hh => ?_⟩
          simp only [List.mem_singleton] at hs
          subst hs
          exact (hI.tmps c hcm last hlm).1 hh
  · simp [Store.set, k]
  · intro i q hi
    simp [Store.set, k, hi]

/-- a call of `pil_code_gen` -/
theorem pilCodeGen_req {pre U t0 fuel ctx σ d p id e v} {res : Option Nat} {muladd : Bool} (hI : Inv K exps σ0 pre U t0 ctx σ)
    (hcomm : muladd = true → ∀ a b, K.add a b = K.add b a) (he : exps[id]? = some e) (hv : Val K exps σ0 d p e v)
    (hd : d < fuel) (hres : ∀ i, res = some i → i ∉ U ∧ p = false ∧ (p, id) ∉ pre) :
    ∃ ctx' σ', pilCodeGen K.zero exps fuel ctx id p (resOf res) muladd = some ctx' ∧
      Inv K exps σ0 pre (res.toList ++ U) t0 ctx' σ' ∧ (p, id) ∈ ctx'.calculated ∧
      (∀ k ∈ ctx.calculated, k ∈ ctx'.calculated) ∧
      (∀ i, res = some i → σ' .f i false = some v) ∧ (∀ i q, res ≠ some i → σ' .f i q = σ .f i q) := by
  obtain ⟨fuel, rfl⟩ : ∃ n, fuel = n + 1 := ⟨fuel - 1, by omega⟩
  simp only [pilCodeGen]
  by_cases hc : (p, id) ∈ ctx.calculated
  · rw [if_pos hc]
    cases res with
    | none => exact ⟨ctx, σ, rfl, hI, hc, fun _ h => h, by simp, fun _ _ _ => rfl⟩
    | some rid =>
      obtain ⟨hU, hp, hpre⟩ := hres rid rfl
      obtain ⟨c1, s1, e1, i1, k1, v1, f1⟩ := copyResult_inv hI hc hpre hU ⟨d, e, he, hv⟩
      refine ⟨c1, s1, e1, i1, by rw [k1]; exact hc, by rw [k1]; exact fun _ h => h, ?_, ?_⟩
      · intro i hi
        cases hi
        rw [hp] at v1
        exact v1
      · intro i q hi
        exact f1 i q (fun h => hi (by rw [h]))
  · rw [if_neg hc, he, Option.bind_some]
    obtain ⟨d0, hd0, hv0, hmin⟩ := exists_min (fun d => Val K exps σ0 d p e v) d hv
    obtain ⟨c1, s1, e1, i1, r1, m1, f1, w1⟩ := calcDeps_inv (pilCodeGen_dep fuel) hv0 (by omega) ctx σ hI
    rw [e1, Option.bind_some]
    have hc1 : (p, id) ∉ c1.calculated := by
      intro hh
      rcases w1 _ hh with h | ⟨d', e', v', h1, h2, h3⟩
      · exact hc h
      · rw [he] at h2
        cases h2
        rw [← val_unique hv h3] at h3
        exact hmin d' h1 h3
    obtain ⟨c2, s2, e2, i2, k2, v2, f2⟩ := genOne_inv i1 hcomm he hv r1 hc1 (fun i hi => ⟨(hres i hi).1, (hres i hi).2.1⟩)
    refine ⟨c2, s2, e2, i2, by rw [k2]; simp, fun k hk => by rw [k2]; exact List.mem_cons_of_mem _ (m1 k hk), v2, ?_⟩
    intro i q hi
    rw [f2 i q hi, f1]

/-- A call of `pil_code_gen` made by the generators of the steps: the expression, whether its next row is wanted, the `f`
register that receives it, and whether multiply-add instructions are used. -/
structure Req where
  id : Nat
  prime : Bool := false
  res : Option Nat := none
  muladd : Bool := false

/-- the calls that build a segment (e.g. starkinfo.rs L380-381, starkinfo_cp_prover.rs L88-100) -/
def genAll (zero : E) (exps : List (Expr E)) (fuel : Nat) (reqs : List Req) (ctx : Ctx E) : Option (Ctx E) :=
  reqs.foldlM (fun ctx r => pilCodeGen zero exps fuel ctx r.id r.prime (resOf r.res) r.muladd) ctx

theorem genAll_inv {pre t0 fuel} : ∀ (reqs : List Req) (U : List Nat) (ctx : Ctx E) (σ : Store E), Inv K exps σ0 pre U t0 ctx σ →
    (∀ r ∈ reqs, r.muladd = true → ∀ a b, K.add a b = K.add b a) →
    (∀ r ∈ reqs, ∃ d e v, d < fuel ∧ exps[r.id]? = some e ∧ Val K exps σ0 d r.prime e v) →
    (∀ r ∈ reqs, ∀ i, r.res = some i → i ∉ U ∧ r.prime = false ∧ (r.prime, r.id) ∉ pre) →
    (reqs.filterMap Req.res).Nodup →
    ∃ ctx' σ' U', genAll K.zero exps fuel reqs ctx = some ctx' ∧ Inv K exps σ0 pre U' t0 ctx' σ' ∧
      (∀ k ∈ ctx.calculated, k ∈ ctx'.calculated) ∧ (∀ r ∈ reqs, (r.prime, r.id) ∈ ctx'.calculated) ∧
      (∀ r ∈ reqs, ∀ i, r.res = some i → ∀ v, ExpVal K exps σ0 r.prime r.id v → σ' .f i false = some v) ∧
      (∀ i q, (∀ r ∈ reqs, r.res ≠ some i) → σ' .f i q = σ .f i q)
  | [], U, ctx, σ, hI, _, _, _, _ => ⟨ctx, σ, U, rfl, hI, fun _ h => h, by simp, by simp, fun _ _ _ => rfl⟩
  | r :: reqs, U, ctx, σ, hI, hcomm, hval, hres, hnd => by
    obtain ⟨d, e, v, hd, he, hv⟩ := hval r (by simp)
    obtain ⟨c1, s1, e1, i1, k1, m1, v1, f1⟩ := pilCodeGen_req (res := r.res) (muladd := r.muladd) hI (hcomm r (by simp)) he hv hd
      (hres r (by simp))
    have hnd1 : (reqs.filterMap Req.res).Nodup := by
      cases h : r.res <;> simp [h] at hnd
      · exact hnd
      · exact hnd.2
    have hfresh : ∀ i, r.res = some i → ∀ r' ∈ reqs, r'.res ≠ some i := by
      intro i hi r' hr' hh
      simp only [List.filterMap_cons, hi, List.nodup_cons] at hnd
      exact hnd.1 (List.mem_filterMap.mpr ⟨r', hr', hh⟩)
    obtain ⟨c2, s2, U2, e2, i2, k2, m2, v2, f2⟩ := genAll_inv reqs (r.res.toList ++ U) c1 s1 i1
      (fun x hx => hcomm x (by simp [hx])) (fun x hx => hval x (by simp [hx]))
      (fun x hx i hi => by
        obtain ⟨h1, h2⟩ := hres x (by simp [hx]) i hi
        refine ⟨?_, h2⟩
        rw [List.mem_append]
        rintro (h | h)
        · rw [Option.mem_toList] at h
          exact hfresh i h x hx hi
        · exact h1 h) hnd1
    refine ⟨c2, s2, U2, ?_, i2, fun k hk => k2 k (m1 k hk), ?_, ?_, ?_⟩
    · rw [genAll, List.foldlM_cons, e1]
      exact e2
    · intro x hx
      rcases List.mem_cons.mp hx with rfl | hx
      · exact k2 _ k1
      · exact m2 x hx
    · intro x hx i hi w hw
      rcases List.mem_cons.mp hx with rfl | hx
      · rw [f2 i false (hfresh i hi), v1 i hi, expVal_unique hw ⟨d, e, he, hv⟩]
      · exact v2 x hx i hi w hw
    · intro i q hi
      rw [f2 i q (fun x hx => hi x (by simp [hx])), f1 i q (hi r (by simp))]

/-- **C44**: for every list of expressions, every environment and every sequence of calls of `pil_code_gen` for expressions
that have a value, code generation succeeds, and executing the three-address code leaves in the register of every requested
expression (and in the requested result register) exactly the value of its tree; columns, publics, challenges... are left
alone, and temporaries lie between the initial and the final counter.  Expressions in `pre` are assumed to be available
(`calculated`) when generation starts. -/
theorem codegen_spec (fuel t0 : Nat) (pre : List (Bool × Nat)) (reqs : List Req)
    (hpre : ∀ p id, (p, id) ∈ pre → ∃ v, ExpVal K exps σ0 p id v ∧ σ0 .exp id p = some v)
    (hcomm : ∀ r ∈ reqs, r.muladd = true → ∀ a b, K.add a b = K.add b a)
    (hval : ∀ r ∈ reqs, ∃ d e v, d < fuel ∧ exps[r.id]? = some e ∧ Val K exps σ0 d r.prime e v)
    (hres : ∀ r ∈ reqs, ∀ i, r.res = some i → r.prime = false ∧ (r.prime, r.id) ∉ pre)
    (hnd : (reqs.filterMap Req.res).Nodup) :
    ∃ ctx σ, genAll K.zero exps fuel reqs { tmpUsed := t0, code := [], calculated := pre } = some ctx ∧
      exec K (linearCode ctx) σ0 = some σ ∧
      (∀ r ∈ reqs, ∀ v, ExpVal K exps σ0 r.prime r.id v →
        σ .exp r.id r.prime = some v ∧ ∀ i, r.res = some i → σ .f i false = some v) ∧
      (∀ t i p, t ≠ .tmp → t ≠ .exp → t ≠ .f → σ t i p = σ0 t i p) ∧
      (∀ ins ∈ linearCode ctx, ins.dest.ty = .tmp → t0 ≤ ins.dest.id ∧ ins.dest.id < ctx.tmpUsed) := by
  have hI0 : Inv K exps σ0 pre [] t0 { tmpUsed := t0, code := [], calculated := pre } σ0 :=
    ⟨rfl, fun _ _ _ _ _ _ => rfl, hpre, fun p id h => .inl h, by simp, by simp, by simp, by simp, Nat.le_refl _⟩
  obtain ⟨ctx, σ, U, e1, i1, k1, m1, v1, f1⟩ := genAll_inv (fuel := fuel) reqs [] _ σ0 hI0 hcomm hval
    (fun r hr i hi => ⟨by simp, hres r hr i hi⟩) hnd
  refine ⟨ctx, σ, e1, trace_exec i1.trace, ?_, i1.leaf, ?_⟩
  · intro r hr v hv
    obtain ⟨w, h1, h2⟩ := i1.known _ _ (m1 r hr)
    exact ⟨by rw [h2, expVal_unique hv h1], fun i hi => v1 r hr i hi v hv⟩
  · intro ins hin
    obtain ⟨c, hc, hi⟩ := List.mem_flatMap.mp hin
    exact (i1.tmps c hc ins hi).1

/-- **C44**: no expression is generated twice in a segment: the code of each (expression, row) occurs at most once, and never
for the expressions that were available from the start. -/
theorem codegen_once (fuel t0 : Nat) (pre : List (Bool × Nat)) (reqs : List Req)
    (hpre : ∀ p id, (p, id) ∈ pre → ∃ v, ExpVal K exps σ0 p id v ∧ σ0 .exp id p = some v)
    (hcomm : ∀ r ∈ reqs, r.muladd = true → ∀ a b, K.add a b = K.add b a)
    (hval : ∀ r ∈ reqs, ∃ d e v, d < fuel ∧ exps[r.id]? = some e ∧ Val K exps σ0 d r.prime e v)
    (hres : ∀ r ∈ reqs, ∀ i, r.res = some i → r.prime = false ∧ (r.prime, r.id) ∉ pre)
    (hnd : (reqs.filterMap Req.res).Nodup) (ctx : Ctx E)
    (hg : genAll K.zero exps fuel reqs { tmpUsed := t0, code := [], calculated := pre } = some ctx) :
    (ctx.code.map fun c => (c.prime, c.expId)).Nodup := by
  have hI0 : Inv K exps σ0 pre [] t0 { tmpUsed := t0, code := [], calculated := pre } σ0 :=
    ⟨rfl, fun _ _ _ _ _ _ => rfl, hpre, fun p id h => .inl h, by simp, by simp, by simp, by simp, Nat.le_refl _⟩
  obtain ⟨ctx', σ, U, e1, i1, -⟩ := genAll_inv (fuel := fuel) reqs [] _ σ0 hI0 hcomm hval
    (fun r hr i hi => ⟨by simp, hres r hr i hi⟩) hnd
  rw [hg] at e1
  cases e1
  exact i1.nodup

/-! ### The next row -/

/-- the environment at row `r` of columns `col`; the other values do not depend on the row -/
def atRow (col : NTy → Nat → Nat → Option E) (other : NTy → Nat → Option E) (next : Nat → Nat) (r : Nat) : Store E :=
  fun t i p => if t = .cm ∨ t = .const_ ∨ t = .q then col t i (if p then next r else r) else other t i

/-- **C44**: the primed value of an expression at row `r` is its value at the next row. -/
theorem val_shift (col : NTy → Nat → Nat → Option E) (other : NTy → Nat → Option E) (next : Nat → Nat) (r : Nat) {d e v}
    (h : Val K exps (atRow col other next r) d true e v) : Val K exps (atRow col other next (next r)) d false e v := by
  generalize hp : true = p at h
  induction h with
  | add ho _ _ hz iha ihb => exact .add ho (iha hp) (ihb hp) hz
  | sub ho _ _ hz iha ihb => exact .sub ho (iha hp) (ihb hp) hz
  | mul ho _ _ hz iha ihb => exact .mul ho (iha hp) (ihb hp) hz
  | muladd ho _ _ _ hxy hz iha ihb ihc => exact .muladd ho (iha hp) (ihb hp) (ihc hp) hxy hz
  | addc ho hk _ hz iha => exact .addc ho hk (iha hp) hz
  | mulc ho hk _ hz iha => exact .mulc ho hk (iha hp) hz
  | neg ho _ hz iha => exact .neg ho (iha hp) hz
  | number ho hv => exact .number ho hv
  | @col d p l t i v ho hi hn hv =>
    subst hp
    have hnx : l.next = false := by simpa using hn
    refine .col ho hi (by simp) ?_
    have ht : t = .cm ∨ t = .const_ ∨ t = .q := by
      cases h : l.op <;> simp [h, colTy] at ho <;> subst ho <;> simp
    rw [hnx] at hv ⊢
    simpa [atRow, ht] using hv
  | @byId d p l t i v ho hi hv =>
    have ht : ¬(t = .cm ∨ t = .const_ ∨ t = .q) := by
      cases h : l.op <;> simp [h, idTy] at ho <;> subst ho <;> simp
    refine .byId ho hi ?_
    simpa only [atRow, ht, if_false] using hv
  | @nullary d p l t v ho hv =>
    have ht : ¬(t = .cm ∨ t = .const_ ∨ t = .q) := by
      cases h : l.op <;> simp [h, nullTy] at ho <;> subst ho <;> simp
    refine .nullary ho ?_
    simpa only [atRow, ht, if_false] using hv
  | @exp d p l i e v ho hi hn he hv ih =>
    subst hp
    have hnx : l.next = false := by simpa using hn
    refine .exp ho hi (by simp) he ?_
    rw [hnx]
    exact ih (by simp)

/-! ### Non-vacuity -/

/-- the integers -/
def intOps : Ops Int where
  add a b := some (a + b)
  sub a b := some (a - b)
  mul a b := some (a * b)
  zero := 0

/-- expression 0: `cm0' * 3 - const1`; expression 1: `e0 * e0 + cm2` -/
def exExps : List (Expr Int) :=
  [.node { op := .sub } [.node { op := .mul } [.node { op := .cm, id := some 0, next := true } [],
      .node { op := .number, value := some 3 } []], .node { op := .const_, id := some 1 } []],
   .node { op := .add } [.node { op := .mul } [.node { op := .exp, id := some 0 } [], .node { op := .exp, id := some 0 } []],
      .node { op := .cm, id := some 2 } []]]

def exStore : Store Int := fun t i p =>
  match t, i, p with
  | .cm, 0, true => some 5
  | .const_, 1, false => some 4
  | .cm, 2, false => some 7
  | _, _, _ => none

/-- expression 1 is `(5*3-4)^2 + 7 = 128` -/
theorem exVal : Val intOps exExps exStore 1 false exExps[1] 128 :=
  .add rfl (.mul rfl (.exp (i := 0) rfl rfl rfl rfl (.sub rfl (.mul rfl (.col rfl rfl rfl rfl) (.number rfl rfl) rfl)
    (.col rfl rfl rfl rfl) rfl)) (.exp (i := 0) rfl rfl rfl rfl (.sub rfl (.mul rfl (.col rfl rfl rfl rfl) (.number rfl rfl) rfl)
    (.col rfl rfl rfl rfl) rfl)) rfl) (.col rfl rfl rfl rfl) rfl

/-- the generated code, with multiply-add, computes it; a second request only adds a copy -/
example : ∃ ctx σ, genAll (0 : Int) exExps 2 [{ id := 1, res := some 0, muladd := true }, { id := 1, res := some 1 }]
      { tmpUsed := 0, code := [], calculated := [] } = some ctx ∧ exec intOps (linearCode ctx) exStore = some σ ∧
      σ .exp 1 false = some 128 ∧ σ .f 0 false = some 128 ∧ σ .f 1 false = some 128 := by
  obtain ⟨ctx, σ, h1, h2, h3, -⟩ := codegen_spec (K := intOps) (exps := exExps) (σ0 := exStore) 2 0 []
    [{ id := 1, res := some 0, muladd := true }, { id := 1, res := some 1 }] (by simp)
    (fun _ _ _ a b => by simp [intOps, Int.add_comm])
    (by intro r hr; simp only [List.mem_cons, List.not_mem_nil, or_false] at hr
        rcases hr with rfl | rfl <;> exact ⟨1, _, _, by omega, rfl, exVal⟩)
    (by simp) (by simp)
  have a := h3 { id := 1, res := some 0, muladd := true } (by simp) 128 ⟨1, _, rfl, exVal⟩
  have b := h3 { id := 1, res := some 1 } (by simp) 128 ⟨1, _, rfl, exVal⟩
  exact ⟨ctx, σ, h1, h2, a.1, a.2 0 rfl, b.2 1 rfl⟩

end Verif.Codegen
