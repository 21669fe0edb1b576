import Verif.Grand.CompleteProps
import Verif.Stark.ProverSat

/-!
# The extended system inside the STARK prover

The generated system satisfies the conditions of the prover's completeness theorem (C75), and the rows of the prover's trace are rows in the
sense of `rowStore`.
-/
set_option linter.unusedSectionVars false

namespace Verif.Grand
open Codegen Codegen.Spec Stark ImPols ImPols.Spec FFT
open Verif.GL (F)
open Verif.Ext3 (K coord)

/-- the committed columns of the trace as functions of the row -/
noncomputable def trCm (R : Run) (T : Trace) (ch : List K) (k r : Nat) : Option K := traceStore R T ch r .cm k false
/-- the constant columns of the trace as functions of the row -/
noncomputable def trFx (R : Run) (T : Trace) (k r : Nat) : Option K := traceStore R T [] r .const_ k false

/-- the prover's trace is a table of rows -/
theorem trace_rows (R : Run) (T : Trace) (ch : List K) (i : Nat) :
    traceStore R T ch i = rowStore (2 ^ R.nb) (trCm R T ch) (trFx R T) R.publics ch (fun i => mgK R.nb ^ i) i := by
  funext t k p
  cases t <;> simp [traceStore, rowStore, trCm, trFx]

/-- over Goldilocks all cells have different labels -/
theorem label_injective {n : Nat} (hn : n ≤ 32) {m : Nat} (hm : m < 4294967295) :
    ∀ j < m, ∀ i < 2 ^ n, ∀ j' < m, ∀ i' < 2 ^ n,
      label (algebraMap F K) (fun i => mgK n ^ i) j i = label (algebraMap F K) (fun i => mgK n ^ i) j' i' → j = j' ∧ i = i' := by
  intro j hj i hi j' hj' i' hi' h
  unfold label mgK at h
  dsimp only at h
  rw [← map_pow, ← map_pow, ← map_mul, ← map_mul] at h
  exact Roots.connection_labels_distinct hn (by omega) (by omega) hi hi' ((algebraMap F K).injective h)

/-- one depth suffices for all rows and identities -/
theorem holds_depth {A : Type} [Field A] {st : PilSt A} {N : Nat} {cm fx : Nat → Nat → Option A} {pub chal : List A} {x : Nat → A}
    (h : Holds st N cm fx pub chal x) :
    ∃ d, ∀ i < N, ∀ id ∈ st.ids, Val (fieldOps A) st.exps (rowStore N cm fx pub chal x i) d false (expE id) 0 := by
  classical
  have h' : ∀ i id, ∃ d, i < N → id ∈ st.ids → Val (fieldOps A) st.exps (rowStore N cm fx pub chal x i) d false (expE id) 0 := by
    intro i id
    by_cases hi : i < N
    · by_cases hid : id ∈ st.ids
      · obtain ⟨d, hd⟩ := h i hi id hid
        exact ⟨d, fun _ _ => hd⟩
      · exact ⟨0, fun _ h => absurd h hid⟩
    · exact ⟨0, fun h => absurd h hi⟩
  choose d hd using h'
  refine ⟨(Finset.range N ×ˢ st.ids.toFinset).sup fun p => d p.1 p.2, fun i hi id hid => Stark.val_depth (hd i id hi hid) ?_⟩
  exact Finset.le_sup (f := fun p : Nat × Nat => d p.1 p.2) (b := (i, id)) (by simp [hi, hid])

/-! ### `x` and primes -/

/-- every primed reference to an expression goes to one numbered below `n` -/
inductive Guarded {E : Type} (n : Nat) : Expr E → Prop
  | mk {l vs} : (∀ i, l.op = .exp → l.next = true → l.id = some i → i < n) → (∀ c ∈ vs, Guarded n c) → Guarded n (.node l vs)

section
variable {R : Run} {T : Trace} {exps : List (Expr K)} {ids : List Nat} {S : Finset Nat} {ch : List K} {n : Nat}

/-- evaluating a plain expression for the next row is evaluating it at the next row -/
theorem val_nextP (hpl : ∀ k < n, ∀ e, exps[k]? = some e → Plain n e) {i d : Nat} {p : Bool} {e : Expr K} {v : K}
    (h : Val (fieldOps K) exps (traceStore R T ch i) d p e v) : p = true → Plain n e →
    Val (fieldOps K) exps (traceStore R T ch ((i + 1) % 2 ^ R.nb)) d false e v := by
  induction h with
  | add ho _ _ hz ih1 ih2 => rintro rfl ⟨_, _, hc⟩; exact .add ho (ih1 rfl (hc _ (by simp))) (ih2 rfl (hc _ (by simp))) hz
  | sub ho _ _ hz ih1 ih2 => rintro rfl ⟨_, _, hc⟩; exact .sub ho (ih1 rfl (hc _ (by simp))) (ih2 rfl (hc _ (by simp))) hz
  | mul ho _ _ hz ih1 ih2 => rintro rfl ⟨_, _, hc⟩; exact .mul ho (ih1 rfl (hc _ (by simp))) (ih2 rfl (hc _ (by simp))) hz
  | muladd ho _ _ _ hz hz2 ih1 ih2 ih3 =>
    rintro rfl ⟨_, _, hc⟩; exact .muladd ho (ih1 rfl (hc _ (by simp))) (ih2 rfl (hc _ (by simp))) (ih3 rfl (hc _ (by simp))) hz hz2
  | addc ho hk _ hz ih1 => rintro rfl ⟨_, _, hc⟩; exact .addc ho hk (ih1 rfl (hc _ (by simp))) hz
  | mulc ho hk _ hz ih1 => rintro rfl ⟨_, _, hc⟩; exact .mulc ho hk (ih1 rfl (hc _ (by simp))) hz
  | neg ho _ hz ih1 => rintro rfl ⟨_, _, hc⟩; exact .neg ho (ih1 rfl (hc _ (by simp))) hz
  | number ho hk => rintro rfl _; exact .number ho hk
  | @col d p l t k v ho hi hn hs =>
    rintro rfl _
    have hn' : l.next = false := by simpa using hn
    refine .col ho hi (by simp) ?_
    rw [hn'] at hs ⊢
    have ht : t ≠ .x := by rintro rfl; unfold colTy at ho; split at ho <;> simp at ho
    rw [← hs]
    exact (trace_next R T ch i ht k).symm
  | @byId d p l t k v ho hi hs =>
    rintro rfl _
    refine .byId ho hi ?_
    rw [← hs]
    exact trace_free R T ch _ _ (by unfold idTy at ho; split at ho <;> simp at ho <;> subst ho <;> simp) k false
  | @nullary d p l t v ho hs =>
    rintro rfl ⟨hl, _, _⟩
    refine .nullary ho ?_
    rw [← hs]
    exact trace_free R T ch _ _ (by unfold nullTy at ho; split at ho <;> simp at ho <;> first | (exfalso; apply hl; assumption) | (subst ho; simp)) 0 false
  | @exp d p l k e v ho hi hn he _ ih =>
    rintro rfl ⟨_, hlt, _⟩
    have hn' : l.next = false := by simpa using hn
    refine .exp ho hi (by simp) he ?_
    rw [hn']
    exact ih (by simp) (hpl k (hlt k ho hi) e he)

/-- unfolding the references and reading the columns of the intermediate polynomials agree on a satisfied trace, also when unprimed parts of
the system mention `x` -/
theorem satisfied_of_guarded (hpl : ∀ k < n, ∀ e, exps[k]? = some e → Plain n e) (hg : ∀ e ∈ exps, Guarded n e) {d : Nat}
    (h : SatisfiedPlain R T exps ids S ch d) : Satisfied R T exps ids S ch d := by
  have main : ∀ {i d p e v}, i < 2 ^ R.nb → Val (fieldOps K) exps (traceStore R T ch i) d p e v → (p = true → Plain n e) → Guarded n e →
      Val (fieldOps K) (substIm (S.sort (· ≤ ·)) (im2cmOf S R.nCm) exps) (traceStore R T ch i) d p e v := by
    intro i d p e v hi hv
    induction hv with
    | add ho _ _ hz ih1 ih2 =>
      rintro hp ⟨_, hc⟩
      have hp' : ∀ c ∈ _, _ → Plain n c := fun c hc h => by obtain ⟨_, _, hh⟩ := hp h; exact hh c hc
      exact .add ho (ih1 (hp' _ (by simp)) (hc _ (by simp))) (ih2 (hp' _ (by simp)) (hc _ (by simp))) hz
    | sub ho _ _ hz ih1 ih2 =>
      rintro hp ⟨_, hc⟩
      have hp' : ∀ c ∈ _, _ → Plain n c := fun c hc h => by obtain ⟨_, _, hh⟩ := hp h; exact hh c hc
      exact .sub ho (ih1 (hp' _ (by simp)) (hc _ (by simp))) (ih2 (hp' _ (by simp)) (hc _ (by simp))) hz
    | mul ho _ _ hz ih1 ih2 =>
      rintro hp ⟨_, hc⟩
      have hp' : ∀ c ∈ _, _ → Plain n c := fun c hc h => by obtain ⟨_, _, hh⟩ := hp h; exact hh c hc
      exact .mul ho (ih1 (hp' _ (by simp)) (hc _ (by simp))) (ih2 (hp' _ (by simp)) (hc _ (by simp))) hz
    | muladd ho _ _ _ hz hz2 ih1 ih2 ih3 =>
      rintro hp ⟨_, hc⟩
      have hp' : ∀ c ∈ _, _ → Plain n c := fun c hc h => by obtain ⟨_, _, hh⟩ := hp h; exact hh c hc
      exact .muladd ho (ih1 (hp' _ (by simp)) (hc _ (by simp))) (ih2 (hp' _ (by simp)) (hc _ (by simp))) (ih3 (hp' _ (by simp)) (hc _ (by simp))) hz hz2
    | addc ho hk _ hz ih1 =>
      rintro hp ⟨_, hc⟩
      have hp' : ∀ c ∈ _, _ → Plain n c := fun c hc h => by obtain ⟨_, _, hh⟩ := hp h; exact hh c hc
      exact .addc ho hk (ih1 (hp' _ (by simp)) (hc _ (by simp))) hz
    | mulc ho hk _ hz ih1 =>
      rintro hp ⟨_, hc⟩
      have hp' : ∀ c ∈ _, _ → Plain n c := fun c hc h => by obtain ⟨_, _, hh⟩ := hp h; exact hh c hc
      exact .mulc ho hk (ih1 (hp' _ (by simp)) (hc _ (by simp))) hz
    | neg ho _ hz ih1 =>
      rintro hp ⟨_, hc⟩
      have hp' : ∀ c ∈ _, _ → Plain n c := fun c hc h => by obtain ⟨_, _, hh⟩ := hp h; exact hh c hc
      exact .neg ho (ih1 (hp' _ (by simp)) (hc _ (by simp))) hz
    | number ho hk => intro _ _; exact .number ho hk
    | col ho hi' hn hs => intro _ _; exact .col ho hi' hn hs
    | byId ho hi' hs => intro _ _; exact .byId ho hi' hs
    | nullary ho hs => intro _ _; exact .nullary ho hs
    | @exp d p l k e v ho hk hn he hv ih =>
      rintro hp ⟨hgl, _⟩
      have hlt : (l.next || p) = true → k < n := by
        intro hq
        rcases Bool.or_eq_true _ _ ▸ hq with h1 | h1
        · exact hgl k ho h1 hk
        · obtain ⟨_, hh, _⟩ := hp h1
          exact hh k ho hk
      by_cases hm : k ∈ S
      · have hsub : (substIm (S.sort (· ≤ ·)) (im2cmOf S R.nCm) exps)[k]? = some (.node { op := .cm, id := im2cmOf S R.nCm k } []) := by
          unfold substIm
          rw [List.getElem?_mapIdx, he, Option.map_some, if_pos (by simpa using hm)]
        refine .exp ho hk hn hsub ?_
        cases hq : (l.next || p) with
        | false =>
          rw [hq] at hv
          obtain ⟨e', v', c, h1, h2, h3, h4⟩ := h.intermediate i hi k hm
          rw [he] at h1
          obtain rfl := Option.some.inj h1
          obtain rfl := val_unique hv h2
          exact .col (t := .cm) rfl h3 rfl h4
        | true =>
          rw [hq] at hv
          have hj : (i + 1) % 2 ^ R.nb < 2 ^ R.nb := Nat.mod_lt _ (by positivity)
          obtain ⟨e', v', c, h1, h2, h3, h4⟩ := h.intermediate _ hj k hm
          rw [he] at h1
          obtain rfl := Option.some.inj h1
          obtain rfl := val_unique (val_nextP hpl hv rfl (hpl k (hlt hq) e he)) h2
          refine .col (t := .cm) rfl h3 (by simp) ?_
          rw [← h4]
          exact trace_next R T ch i (by simp) c
      · have hsub : (substIm (S.sort (· ≤ ·)) (im2cmOf S R.nCm) exps)[k]? = some e := by
          unfold substIm
          rw [List.getElem?_mapIdx, he, Option.map_some, if_neg (by simpa using hm)]
        exact .exp ho hk hn hsub (ih (fun hq => hpl k (hlt hq) e he) (hg e (List.mem_of_getElem? he)))
  refine ⟨fun i hi id hid => main hi (h.identity i hi id hid) (by simp) ⟨by simp, by simp⟩, fun i hi k hk => ?_⟩
  obtain ⟨e, v, c, h1, h2, h3, h4⟩ := h.intermediate i hi k hk
  exact ⟨e, v, c, h1, main hi h2 (by simp) (hg e (List.mem_of_getElem? h1)), h3, h4⟩

end

/-! ### The generated system is guarded -/

section
variable {A : Type} [Field A]

/-- the columns named by the arguments exist -/
structure ArgsWF (a : Args) (m : Nat) : Prop where
  lookup : ∀ pi ∈ a.plookups, (∀ j ∈ pi.f, j < m) ∧ (∀ j ∈ pi.t, j < m) ∧ (∀ k, pi.selF = some k → k < m) ∧ ∀ k, pi.selT = some k → k < m
  perm : ∀ pi ∈ a.permutations, (∀ j ∈ pi.f, j < m) ∧ (∀ j ∈ pi.t, j < m) ∧ (∀ k, pi.selF = some k → k < m) ∧ ∀ k, pi.selT = some k → k < m

theorem Plain.mono {n n' : Nat} (hn : n ≤ n') {e : Expr A} (h : Plain n e) : Plain n' e := by
  induction h with
  | mk h1 h2 _ ih => exact ⟨h1, fun i a b => lt_of_lt_of_le (h2 i a b) hn, ih⟩

theorem Plain.guarded {n : Nat} {e : Expr A} (h : Plain n e) : Guarded n e := by
  induction h with
  | mk h1 h2 _ ih => exact ⟨fun i a _ b => h2 i a b, ih⟩

theorem p_leaf {n : Nat} {l : Label A} (h : l.op ≠ .x) (h' : l.op ≠ .exp) : Plain n (.node l []) := ⟨h, fun _ h => absurd h h', by simp⟩
theorem p_exp {n i : Nat} {b : Bool} (h : i < n) : Plain n (eExp i b : Expr A) := ⟨by simp, fun j _ hj => by simp at hj; omega, by simp⟩
theorem p_two {n : Nat} {l : Label A} {a b : Expr A} (h : l.op ≠ .x) (h' : l.op ≠ .exp) (ha : Plain n a) (hb : Plain n b) :
    Plain n (.node l [a, b]) := ⟨h, fun _ h => absurd h h', by simp [ha, hb]⟩
theorem p_add {n : Nat} {a b : Expr A} (ha : Plain n a) (hb : Plain n b) : Plain n (eAdd a b) := p_two (by simp) (by simp) ha hb
theorem p_sub {n : Nat} {a b : Expr A} (ha : Plain n a) (hb : Plain n b) : Plain n (eSub a b) := p_two (by simp) (by simp) ha hb
theorem p_mul {n : Nat} {a b : Expr A} (ha : Plain n a) (hb : Plain n b) : Plain n (eMul a b) := p_two (by simp) (by simp) ha hb
theorem p_chal {n i : Nat} : Plain n (eChallenge i : Expr A) := p_leaf (by simp) (by simp)

theorem g_leaf {n : Nat} {l : Label A} (h' : l.op ≠ .exp) : Guarded n (.node l []) := ⟨fun _ h => absurd h h', by simp⟩
theorem g_exp {n i : Nat} : Guarded n (eExp i : Expr A) := ⟨by simp, by simp⟩
theorem g_two {n : Nat} {l : Label A} {a b : Expr A} (h' : l.op ≠ .exp) (ha : Guarded n a) (hb : Guarded n b) :
    Guarded n (.node l [a, b]) := ⟨fun _ h => absurd h h', by simp [ha, hb]⟩
theorem g_add {n : Nat} {a b : Expr A} (ha : Guarded n a) (hb : Guarded n b) : Guarded n (eAdd a b) := g_two (by simp) ha hb
theorem g_sub {n : Nat} {a b : Expr A} (ha : Guarded n a) (hb : Guarded n b) : Guarded n (eSub a b) := g_two (by simp) ha hb
theorem g_mul {n : Nat} {a b : Expr A} (ha : Guarded n a) (hb : Guarded n b) : Guarded n (eMul a b) := g_two (by simp) ha hb
theorem g_chal {n i : Nat} : Guarded n (eChallenge i : Expr A) := g_leaf (by simp)
theorem g_num {n : Nat} {v : A} : Guarded n (eNum v) := g_leaf (by simp)
theorem g_x {n : Nat} : Guarded n (eX : Expr A) := g_leaf (by simp)
theorem g_cm {n i : Nat} {b : Bool} : Guarded n (eCm i b : Expr A) := g_leaf (by simp)

theorem p_lcT {n : Nat} (l : List Nat) (h : ∀ j ∈ l, j < n) : Plain n (lcT l : Expr A) := by
  induction l using List.reverseRecOn with
  | nil => exact p_leaf (by simp) (by simp)
  | append_singleton l j ih =>
    by_cases hl : l = []
    · subst hl; exact p_exp (h j (by simp))
    · rw [lcT_append l j hl]
      exact p_add (p_mul p_chal (ih fun k hk => h k (by simp [hk]))) (p_exp (h j (by simp)))

theorem p_lcF {n : Nat} (l : List Nat) (h : ∀ j ∈ l, j < n) : Plain n (lcF l : Expr A) := by
  induction l using List.reverseRecOn with
  | nil => exact p_leaf (by simp) (by simp)
  | append_singleton l j ih =>
    by_cases hl : l = []
    · subst hl; exact p_exp (h j (by simp))
    · rw [lcF_append l j hl]
      exact p_add (p_mul (ih fun k hk => h k (by simp [hk])) p_chal) (p_exp (h j (by simp)))

theorem p_select {n : Nat} {e d : Expr A} {s : Option Nat} (he : Plain n e) (hd : Plain n d) (hs : ∀ k, s = some k → k < n) :
    Plain n (select e d s) := by
  cases s with
  | none => exact he
  | some k => exact p_add (p_mul (p_sub he hd) (p_exp (hs k rfl))) hd

/-- an invariant of the state along a loop -/
theorem runAll_inv {X Y : Type} {one : PilSt A → X → Option (PilSt A × Y)} {I : PilSt A → Prop} {Pre : X → Prop}
    (h : ∀ s x s1 y, Pre x → I s → one s x = some (s1, y) → I s1) :
    ∀ (xs : List X) (st st' : PilSt A) (ys : List Y), (∀ x ∈ xs, Pre x) → I st → runAll one st xs = some (st', ys) → I st'
  | [], st, st', ys, _, hi, hr => by
    simp only [runAll, Option.some.injEq, Prod.mk.injEq] at hr
    obtain ⟨rfl, rfl⟩ := hr
    exact hi
  | x :: xs, st, st', ys, hp, hi, hr => by
    rw [runAll] at hr
    obtain ⟨⟨s1, y⟩, ha, hr⟩ := Option.bind_eq_some_iff.mp hr
    obtain ⟨⟨s2, ys2⟩, hb, hr⟩ := Option.map_eq_some_iff.mp hr
    obtain ⟨rfl, rfl⟩ := Prod.mk.inj hr
    exact runAll_inv h xs s1 s2 ys2 (fun z hz => hp z (by simp [hz])) (h _ _ _ _ (hp x (by simp)) hi ha) hb

/-- In the generated system the expressions below some number are plain, and all primed references go to them. -/
theorem genArgs_guarded {emb : GL.F → A} {l1 : Option Nat} {st st' : PilSt A} {a : Args} {cx : ArgCtx}
    (hgen : genArgs emb l1 st a = some (st', cx)) (hpl : ∀ e ∈ st.exps, Plain st.exps.length e) (hwf : ArgsWF a st.exps.length) :
    ∃ n, (∀ k < n, ∀ e, st'.exps[k]? = some e → Plain n e) ∧ ∀ e ∈ st'.exps, Guarded n e := by
  obtain ⟨s2, pu, sl, pe, sp, se, r1, r2, r3, r4, r5⟩ := genArgs_split hgen
  obtain ⟨e1, -, -, o1⟩ := runAll_spec step2One_ext a.plookups st s2 pu r1
  obtain ⟨e2, -, -, o2⟩ := runAll_spec permLCOne_ext a.permutations s2 sl pe r2
  obtain ⟨e3, -, -, -⟩ := runAll_spec (plookupZOne_ext l1) pu sl sp cx.pu r3
  obtain ⟨e4, -, -, -⟩ := runAll_spec (permZOne_ext l1) pe sp se cx.pe r4
  obtain ⟨e5, -, -, -⟩ := runAll_spec (connZOne_ext emb l1) a.connections se st' cx.ci r5
  have i1 := runAll_inv (I := fun s => (∀ e ∈ s.exps, Plain s.exps.length e) ∧ st.exps.length ≤ s.exps.length)
    (Pre := fun pi => (∀ j ∈ pi.f, j < st.exps.length) ∧ (∀ j ∈ pi.t, j < st.exps.length) ∧ (∀ k, pi.selF = some k → k < st.exps.length) ∧
      ∀ k, pi.selT = some k → k < st.exps.length) (by
    rintro s pi s1 y ⟨p1, p2, p3, p4⟩ ⟨h1, h2⟩ h
    obtain ⟨rfl, rfl⟩ := Prod.mk.inj (Option.some.inj h)
    have hlen : (s.exps ++ [select (lcT pi.t) eDef pi.selT, select (lcF pi.f) (eExp s.exps.length) pi.selF]).length = s.exps.length + 2 := by simp
    refine ⟨?_, by dsimp only; omega⟩
    dsimp only
    rw [hlen]
    intro e he
    rcases List.mem_append.mp he with he | he
    · exact (h1 e he).mono (by omega)
    · simp only [List.mem_cons, List.not_mem_nil, or_false] at he
      rcases he with rfl | rfl
      · exact p_select (p_lcT _ fun j hj => by have := p2 j hj; omega) p_chal fun k hk => by have := p4 k hk; omega
      · exact p_select (p_lcF _ fun j hj => by have := p1 j hj; omega) (p_exp (by omega)) fun k hk => by have := p3 k hk; omega)
    a.plookups st s2 pu hwf.lookup ⟨hpl, le_refl _⟩ r1
  have i2 := runAll_inv (I := fun s => (∀ e ∈ s.exps, Plain s.exps.length e) ∧ st.exps.length ≤ s.exps.length)
    (Pre := fun pi => (∀ j ∈ pi.f, j < st.exps.length) ∧ (∀ j ∈ pi.t, j < st.exps.length) ∧ (∀ k, pi.selF = some k → k < st.exps.length) ∧
      ∀ k, pi.selT = some k → k < st.exps.length) (by
    rintro s pi s1 y ⟨p1, p2, p3, p4⟩ ⟨h1, h2⟩ h
    unfold permLCOne at h
    dsimp only at h
    split_ifs at h
    obtain ⟨rfl, rfl⟩ := Prod.mk.inj (Option.some.inj h)
    have hlen : (s.exps ++ [select (lcT pi.t) eDef pi.selT, select (lcF pi.f) eDef pi.selF]).length = s.exps.length + 2 := by simp
    refine ⟨?_, by dsimp only; omega⟩
    dsimp only
    rw [hlen]
    intro e he
    rcases List.mem_append.mp he with he | he
    · exact (h1 e he).mono (by omega)
    · simp only [List.mem_cons, List.not_mem_nil, or_false] at he
      rcases he with rfl | rfl
      · exact p_select (p_lcT _ fun j hj => by have := p2 j hj; omega) p_chal fun k hk => by have := p4 k hk; omega
      · exact p_select (p_lcF _ fun j hj => by have := p1 j hj; omega) p_chal fun k hk => by have := p3 k hk; omega)
    a.permutations s2 sl pe hwf.perm i1 r2
  refine ⟨sl.exps.length, ?_, ?_⟩
  · intro k hk e he
    obtain ⟨m, hm⟩ := ((e3.trans e4).trans e5).1
    rw [← hm, List.getElem?_append_left hk] at he
    exact i2.1 e (List.mem_of_getElem? he)
  have gz : ∀ l z, Guarded sl.exps.length (zStart l z : Expr A) := fun l z => g_mul (g_leaf (by simp)) (g_sub g_cm g_num)
  have gs : ∀ z p q, Guarded sl.exps.length (zStep z p q : Expr A) := fun z p q => g_sub (g_mul g_cm g_exp) (g_mul g_cm g_exp)
  have hpu : ∀ c ∈ pu, c.tExp < sl.exps.length := by
    intro c hc
    obtain ⟨m, hm⟩ := List.getElem?_of_mem hc
    have hlt : m < a.plookups.length := by
      have := (List.getElem?_eq_some_iff.mp hm).1
      have := (runAll_spec step2One_ext a.plookups st s2 pu r1).2.2.1
      omega
    obtain ⟨sn, s1, y, j1, j2, j3, j4, j5⟩ := o1 m _ (List.getElem?_eq_getElem hlt)
    rw [hm] at j5
    obtain rfl := Option.some.inj j5
    obtain ⟨rfl, rfl⟩ := Prod.mk.inj (Option.some.inj j1)
    have h1 := (j3.trans e2).1.length_le
    simp only [List.length_append, List.length_cons, List.length_nil] at h1 ⊢
    omega
  have i3 := runAll_inv (I := fun s => ∀ e ∈ s.exps, Guarded sl.exps.length e) (Pre := fun c : PCtx => c.tExp < sl.exps.length) (by
    intro s c s1 y hc hi h
    obtain ⟨l, _, h⟩ := Option.map_eq_some_iff.mp h
    obtain ⟨rfl, rfl⟩ := Prod.mk.inj h
    intro e he
    rcases List.mem_append.mp he with he | he
    · exact hi e he
    · simp only [List.mem_cons, List.not_mem_nil, or_false] at he
      rcases he with rfl | rfl | rfl | rfl
      · exact gz _ _
      · exact g_mul (g_mul (g_add g_exp g_chal) (g_add (g_add g_exp (g_mul (p_exp hc).guarded g_chal)) (g_mul g_chal (g_add g_num g_chal))))
          (g_add g_num g_chal)
      · exact g_mul (g_add (g_add g_cm (g_mul g_cm g_chal)) (g_mul g_chal (g_add g_num g_chal)))
          (g_add (g_add g_cm (g_mul g_cm g_chal)) (g_mul g_chal (g_add g_num g_chal)))
      · exact gs _ _ _) pu sl sp cx.pu hpu (fun e he => (i2.1 e he).guarded) r3
  have i4 := runAll_inv (I := fun s => ∀ e ∈ s.exps, Guarded sl.exps.length e) (Pre := fun _ : PCtx => True) (by
    intro s c s1 y _ hi h
    obtain ⟨l, _, h⟩ := Option.map_eq_some_iff.mp h
    obtain ⟨rfl, rfl⟩ := Prod.mk.inj h
    intro e he
    rcases List.mem_append.mp he with he | he
    · exact hi e he
    · simp only [List.mem_cons, List.not_mem_nil, or_false] at he
      rcases he with rfl | rfl | rfl | rfl
      · exact gz _ _
      · exact g_add g_exp g_chal
      · exact g_add g_exp g_chal
      · exact gs _ _ _) pe sp se cx.pe (by simp) i3 r4
  have gl : ∀ (ps cs : List Nat) (ks : List A) (exps : List (Expr A)) (num den : Nat) (r : List (Expr A) × Nat × Nat),
      connLoop exps num den ps cs ks = some r → (∀ e ∈ exps, Guarded sl.exps.length e) → ∀ e ∈ r.1, Guarded sl.exps.length e := by
    intro ps
    induction ps with
    | nil =>
      intro cs ks exps num den r h hi
      simp only [connLoop, Option.some.injEq] at h
      subst h
      exact hi
    | cons p ps ih =>
      intro cs ks exps num den r h hi
      cases cs with
      | nil => simp [connLoop] at h
      | cons c cs =>
        cases ks with
        | nil => simp [connLoop] at h
        | cons k ks =>
          rw [connLoop] at h
          refine ih _ _ _ _ _ _ h fun e he => ?_
          rcases List.mem_append.mp he with he | he
          · exact hi e he
          · simp only [List.mem_cons, List.not_mem_nil, or_false] at he
            rcases he with rfl | rfl
            · exact g_mul g_exp (g_add (g_add g_exp (g_mul (g_mul g_chal g_num) g_x)) g_chal)
            · exact g_mul g_exp (g_add (g_add g_exp (g_mul g_chal g_exp)) g_chal)
  exact runAll_inv (I := fun s => ∀ e ∈ s.exps, Guarded sl.exps.length e) (Pre := fun _ : ConnId => True) (by
    intro s c s1 y _ hi h
    unfold connZOne at h
    split at h
    · obtain ⟨ks, _, h⟩ := Option.bind_eq_some_iff.mp h
      obtain ⟨r, hr, h⟩ := Option.bind_eq_some_iff.mp h
      obtain ⟨l, _, h⟩ := Option.map_eq_some_iff.mp h
      obtain ⟨rfl, rfl⟩ := Prod.mk.inj h
      intro e he
      rcases List.mem_append.mp he with he | he
      · refine gl _ _ _ _ _ _ _ hr (fun e he => ?_) e he
        rcases List.mem_append.mp he with he | he
        · exact hi e he
        · simp only [List.mem_cons, List.not_mem_nil, or_false] at he
          rcases he with rfl | rfl
          · exact g_add (g_add g_exp (g_mul g_chal g_x)) g_chal
          · exact g_add (g_add g_exp (g_mul g_chal g_exp)) g_chal
      · simp only [List.mem_cons, List.not_mem_nil, or_false] at he
        rcases he with rfl | rfl
        · exact gz _ _
        · exact gs _ _ _
    · simp at h) a.connections se st' cx.ci (by simp) i4 r5

end

/-- **The extended system in the prover.**  If the identities of the extended system hold on the rows of the prover's trace (see
`args_complete`) and the columns of the intermediate expressions hold their values, then the trace satisfies the constraint system in the sense of
the completeness theorem of the STARK (C75). -/
theorem satisfied_of_holds {R : Run} {T : Trace} {S : Finset Nat} {ch : List K} {emb : GL.F → K} {l1 : Option Nat} {st st' : PilSt K} {a : Args}
    {cx : ArgCtx} (hgen : genArgs emb l1 st a = some (st', cx)) (hpl : ∀ e ∈ st.exps, Plain st.exps.length e) (hwf : ArgsWF a st.exps.length)
    (hol : Holds st' (2 ^ R.nb) (trCm R T ch) (trFx R T) R.publics ch fun i => mgK R.nb ^ i)
    (him : ∀ i < 2 ^ R.nb, ∀ k ∈ S, ∃ e v c d, st'.exps[k]? = some e ∧ Val (fieldOps K) st'.exps (traceStore R T ch i) d false e v ∧
      im2cmOf S R.nCm k = some c ∧ traceStore R T ch i .cm c false = some v) :
    ∃ d, Satisfied R T st'.exps st'.ids S ch d := by
  classical
  obtain ⟨n, h1, h2⟩ := genArgs_guarded hgen hpl hwf
  obtain ⟨d1, hd1⟩ := holds_depth hol
  have h' : ∀ i k, ∃ d, i < 2 ^ R.nb → k ∈ S → ∃ e v c, st'.exps[k]? = some e ∧ Val (fieldOps K) st'.exps (traceStore R T ch i) d false e v ∧
      im2cmOf S R.nCm k = some c ∧ traceStore R T ch i .cm c false = some v := by
    intro i k
    by_cases hi : i < 2 ^ R.nb
    · by_cases hk : k ∈ S
      · obtain ⟨e, v, c, d, h⟩ := him i hi k hk
        exact ⟨d, fun _ _ => ⟨e, v, c, h⟩⟩
      · exact ⟨0, fun _ h => absurd h hk⟩
    · exact ⟨0, fun h => absurd h hi⟩
  choose d hd using h'
  refine ⟨max d1 ((Finset.range (2 ^ R.nb) ×ˢ S).sup fun p => d p.1 p.2), satisfied_of_guarded h1 h2 ⟨fun i hi id hid => ?_, fun i hi k hk => ?_⟩⟩
  · rw [trace_rows]
    exact Stark.val_depth (hd1 i hi id hid) (le_max_left _ _)
  · obtain ⟨e, v, c, g1, g2, g3, g4⟩ := hd i k hi hk
    refine ⟨e, v, c, g1, Stark.val_depth g2 (le_trans ?_ (le_max_right _ _)), g3, g4⟩
    exact Finset.le_sup (f := fun p : Nat × Nat => d p.1 p.2) (b := (i, k)) (by simp [hi, hk])

end Verif.Grand
