import Verif.Stark.ProverExample

/-!
# Satisfied traces, without reference to the substitution of intermediate polynomials
-/
set_option linter.unusedSectionVars false

namespace Verif.Stark
open Fri FFT Codegen Codegen.Spec Polynomial Finset ImPols ImPols.Spec
open Verif.GL (F)
open Verif.Ext3 (K coord ξ)

/-- The trace satisfies the constraints: on every row every identity, evaluated by unfolding all references, is zero, and the
column of every intermediate expression holds the value of that expression. -/
structure SatisfiedPlain (R : Run) (T : Trace) (exps : List (Expr K)) (ids : List Nat) (S : Finset Nat) (ch : List K) (d : Nat) : Prop where
  identity : ∀ i < 2 ^ R.nb, ∀ id ∈ ids, Val (fieldOps K) exps (traceStore R T ch i) d false (expE id) 0
  intermediate : ∀ i < 2 ^ R.nb, ∀ k ∈ S, ∃ e v c, exps[k]? = some e ∧ Val (fieldOps K) exps (traceStore R T ch i) d false e v ∧
    im2cmOf S R.nCm k = some c ∧ traceStore R T ch i .cm c false = some v

/-- the expression does not mention `x` -/
inductive NoX {E : Type} : Expr E → Prop
  | mk {l vs} : l.op ≠ .x → (∀ c ∈ vs, NoX c) → NoX (.node l vs)

/-- a primed row is the next row -/
theorem trace_next (R : Run) (T : Trace) (ch : List K) (i : Nat) {t : NTy} (ht : t ≠ .x) (k : Nat) :
    traceStore R T ch i t k true = traceStore R T ch ((i + 1) % 2 ^ R.nb) t k false := by
  cases t <;> simp [traceStore] at ht ⊢

theorem trace_free (R : Run) (T : Trace) (ch : List K) (i j : Nat) {t : NTy} (ht : t ≠ .x ∧ t ≠ .cm ∧ t ≠ .const_) (k : Nat) (p : Bool) :
    traceStore R T ch i t k p = traceStore R T ch j t k p := by
  cases t <;> simp [traceStore] at ht ⊢

/-- evaluating for the next row is evaluating at the next row -/
theorem val_next {R : Run} {T : Trace} {exps : List (Expr K)} (hx : ∀ e ∈ exps, NoX e) {ch : List K} {i d : Nat} {p : Bool} {e : Expr K} {v : K}
    (h : Val (fieldOps K) exps (traceStore R T ch i) d p e v) : p = true → NoX e →
    Val (fieldOps K) exps (traceStore R T ch ((i + 1) % 2 ^ R.nb)) d false e v := by
  induction h with
  | add ho _ _ hz ih1 ih2 => rintro rfl ⟨_, hc⟩; exact .add ho (ih1 rfl (hc _ (by simp))) (ih2 rfl (hc _ (by simp))) hz
  | sub ho _ _ hz ih1 ih2 => rintro rfl ⟨_, hc⟩; exact .sub ho (ih1 rfl (hc _ (by simp))) (ih2 rfl (hc _ (by simp))) hz
  | mul ho _ _ hz ih1 ih2 => rintro rfl ⟨_, hc⟩; exact .mul ho (ih1 rfl (hc _ (by simp))) (ih2 rfl (hc _ (by simp))) hz
  | muladd ho _ _ _ hz hz2 ih1 ih2 ih3 =>
    rintro rfl ⟨_, hc⟩; exact .muladd ho (ih1 rfl (hc _ (by simp))) (ih2 rfl (hc _ (by simp))) (ih3 rfl (hc _ (by simp))) hz hz2
  | addc ho hk _ hz ih1 => rintro rfl ⟨_, hc⟩; exact .addc ho hk (ih1 rfl (hc _ (by simp))) hz
  | mulc ho hk _ hz ih1 => rintro rfl ⟨_, hc⟩; exact .mulc ho hk (ih1 rfl (hc _ (by simp))) hz
  | neg ho _ hz ih1 => rintro rfl ⟨_, hc⟩; exact .neg ho (ih1 rfl (hc _ (by simp))) hz
  | number ho hk => rintro rfl _; exact .number ho hk
  | @col d p l t k v ho hi hn hs =>
    rintro rfl _
    have hn' : l.next = false := by simpa using hn
    refine .col ho hi (by simp) ?_
    rw [hn'] at hs ⊢
    have ht : t ≠ .x := by rintro rfl; unfold colTy at ho; split at ho <;> simp at ho
    rw [← hs]
    exact (trace_next R T ch i ht k).symm
  | @byId d p l t k v ho hi hs =>
    rintro rfl _
    refine .byId ho hi ?_
    rw [← hs]
    exact trace_free R T ch _ _ (by unfold idTy at ho; split at ho <;> simp at ho <;> subst ho <;> simp) k false
  | @nullary d p l t v ho hs =>
    rintro rfl ⟨hl, _⟩
    refine .nullary ho ?_
    rw [← hs]
    exact trace_free R T ch _ _ (by unfold nullTy at ho; split at ho <;> simp at ho <;> first | (exfalso; apply hl; assumption) | (subst ho; simp)) 0 false
  | @exp d p l k e v ho hi hn he _ ih =>
    rintro rfl _
    have hn' : l.next = false := by simpa using hn
    refine .exp ho hi (by simp) he ?_
    rw [hn']
    exact ih (by simp) (hx e (List.mem_of_getElem? he))

/-- unfolding the references and reading the columns of the intermediate polynomials agree on a satisfied trace -/
theorem satisfied_of_plain {R : Run} {T : Trace} {exps : List (Expr K)} {ids : List Nat} {S : Finset Nat} {ch : List K} {d : Nat}
    (hx : ∀ e ∈ exps, NoX e) (h : SatisfiedPlain R T exps ids S ch d) : Satisfied R T exps ids S ch d := by
  have main : ∀ {i d p e v}, i < 2 ^ R.nb → Val (fieldOps K) exps (traceStore R T ch i) d p e v →
      Val (fieldOps K) (substIm (S.sort (· ≤ ·)) (im2cmOf S R.nCm) exps) (traceStore R T ch i) d p e v := by
    intro i d p e v hi hv
    induction hv with
    | add ho _ _ hz ih1 ih2 => exact .add ho ih1 ih2 hz
    | sub ho _ _ hz ih1 ih2 => exact .sub ho ih1 ih2 hz
    | mul ho _ _ hz ih1 ih2 => exact .mul ho ih1 ih2 hz
    | muladd ho _ _ _ hz hz2 ih1 ih2 ih3 => exact .muladd ho ih1 ih2 ih3 hz hz2
    | addc ho hk _ hz ih1 => exact .addc ho hk ih1 hz
    | mulc ho hk _ hz ih1 => exact .mulc ho hk ih1 hz
    | neg ho _ hz ih1 => exact .neg ho ih1 hz
    | number ho hk => exact .number ho hk
    | col ho hi' hn hs => exact .col ho hi' hn hs
    | byId ho hi' hs => exact .byId ho hi' hs
    | nullary ho hs => exact .nullary ho hs
    | @exp d p l k e v ho hk hn he hv ih =>
      by_cases hm : k ∈ S
      · have hsub : (substIm (S.sort (· ≤ ·)) (im2cmOf S R.nCm) exps)[k]? = some (.node { op := .cm, id := im2cmOf S R.nCm k } []) := by
          unfold substIm
          rw [List.getElem?_mapIdx, he, Option.map_some, if_pos (by simpa using hm)]
        refine .exp ho hk hn hsub ?_
        cases hq : (l.next || p) with
        | false =>
          rw [hq] at hv
          obtain ⟨e', v', c, h1, h2, h3, h4⟩ := h.intermediate i hi k hm
          rw [he] at h1
          obtain rfl := Option.some.inj h1
          obtain rfl := val_unique hv h2
          exact .col (t := .cm) rfl h3 rfl h4
        | true =>
          rw [hq] at hv
          have hj : (i + 1) % 2 ^ R.nb < 2 ^ R.nb := Nat.mod_lt _ (by positivity)
          obtain ⟨e', v', c, h1, h2, h3, h4⟩ := h.intermediate _ hj k hm
          rw [he] at h1
          obtain rfl := Option.some.inj h1
          obtain rfl := val_unique (val_next hx hv rfl (hx _ (List.mem_of_getElem? he))) h2
          refine .col (t := .cm) rfl h3 (by simp) ?_
          rw [← h4]
          exact trace_next R T ch i (by simp) c
      · have hsub : (substIm (S.sort (· ≤ ·)) (im2cmOf S R.nCm) exps)[k]? = some e := by
          unfold substIm
          rw [List.getElem?_mapIdx, he, Option.map_some, if_neg (by simpa using hm)]
        exact .exp ho hk hn hsub ih
  refine ⟨fun i hi id hid => main hi (h.identity i hi id hid), fun i hi k hk => ?_⟩
  obtain ⟨e, v, c, h1, h2, h3, h4⟩ := h.intermediate i hi k hk
  exact ⟨e, v, c, h1, main hi h2, h3, h4⟩

/-- non-vacuity: the trace `2, 3` of the example -/
example (ch : List K) : (∀ e ∈ Example.exps, NoX e) ∧ SatisfiedPlain Example.run Example.trace Example.exps [1] {0} ch 3 := by
  have hl : ∀ l : Label K, l.op ≠ .x → NoX (.node l []) := fun l h => ⟨h, by simp⟩
  have hb : ∀ (l : Label K) a b, l.op ≠ .x → NoX a → NoX b → NoX (.node l [a, b]) := fun l a b h ha hb => ⟨h, by simp [ha, hb]⟩
  refine ⟨?_, ?_⟩
  · intro e he
    simp only [Example.exps, List.mem_cons, List.not_mem_nil, or_false] at he
    rcases he with rfl | rfl
    · exact hb _ _ _ (by simp) (hl _ (by simp)) (hl _ (by simp))
    · exact hb _ _ _ (by simp) (hb _ _ _ (by simp) (hl _ (by simp)) (hl _ (by simp))) (hl _ (by simp))
  · have hs := Example.satisfied ch
    have ha : ∀ i, i < 2 → ∃ a b : K, traceStore Example.run Example.trace ch i .cm 0 false = some a ∧
        traceStore Example.run Example.trace ch i .cm 0 true = some b ∧ a * b = 6 := by
      intro i hi
      interval_cases i
      · refine ⟨2, 3, ?_, ?_, by norm_num⟩ <;>
          (simp [traceStore, Example.run, Example.pos, Example.trace, colVal, cellsOf, Trace.sec, List.range_succ]; exact map_ofNat _ _)
      · refine ⟨3, 2, ?_, ?_, by norm_num⟩ <;>
          (simp [traceStore, Example.run, Example.pos, Example.trace, colVal, cellsOf, Trace.sec, List.range_succ]; exact map_ofNat _ _)
    have h0 : ∀ i < 2, ∀ d, Val (fieldOps K) Example.exps (traceStore Example.run Example.trace ch i) d false Example.e0 6 := by
      intro i hi d
      obtain ⟨a, b, h1, h2, h3⟩ := ha i hi
      exact .mul rfl (.col (t := .cm) rfl rfl rfl h1) (.col (t := .cm) rfl rfl rfl h2) (by simp [fieldOps, h3])
    refine ⟨fun i hi id hid => ?_, fun i hi k hk => ?_⟩
    · obtain rfl : id = 1 := by simpa using hid
      have hc : ∀ d, Val (fieldOps K) Example.exps (traceStore Example.run Example.trace ch i) (d + 1) false (expE 0) 6 :=
        fun d => .exp rfl rfl rfl rfl (h0 i hi d)
      refine .exp rfl rfl rfl rfl (.sub rfl (.mul rfl (hc 1) (hc 1) rfl) (.byId (t := .public_) (v := 36) rfl rfl rfl) ?_)
      simp only [fieldOps, Option.some.injEq]
      norm_num
    · obtain rfl : k = 0 := by simpa using hk
      obtain ⟨e, v, c, h1, h2, h3, h4⟩ := hs.intermediate i hi 0 (by simp)
      have h5 : traceStore Example.run Example.trace ch i .cm c false = some 6 := by
        have : im2cmOf {0} Example.run.nCm 0 = some 1 := by
          show im2cmOf {0} 1 0 = some 1
          rw [Example.im]; rfl
        rw [this] at h3
        obtain rfl := Option.some.inj h3
        have hi' : i < 2 := hi
        interval_cases i <;>
          (simp [traceStore, Example.run, Example.pos, Example.trace, colVal, cellsOf, Trace.sec, List.range_succ]; exact map_ofNat _ 6)
      exact ⟨Example.e0, 6, c, rfl, h0 i hi 3, h3, h5⟩

end Verif.Stark
