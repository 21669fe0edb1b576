import Verif.Grand.ColumnsProver

/-!
# The generated system is well-formed

The conditions of `WellFormed` on the expressions of the generated system follow from conditions on the expressions of the PIL: references are closed,
no expression has a degree above two in the columns and the expressions it references, and literals are Goldilocks elements.
-/
set_option linter.unusedSectionVars false

namespace Verif.Grand
open Codegen Codegen.Spec Stark ImPols ImPols.Spec
open Verif.GL (F)
open Verif.Ext3 (K coord)

variable {A : Type} [Field A]

theorem Closed.app {exps more : List (Expr A)} {e : Expr A} (h : Closed exps e) : Closed (exps ++ more) e := by
  induction h with
  | lin h1 _ ih => exact .lin h1 ih
  | leaf h => exact .leaf h
  | mul h _ _ iha ihb => exact .mul h iha ihb
  | exp h1 h2 h3 _ ih =>
    refine .exp h1 h2 ?_ ih
    rw [List.getElem?_append_left (List.getElem?_eq_some_iff.mp h3).1, h3]

/-- an expression in scope of closed expressions is closed -/
theorem Sc.closed {nC nP : Nat} {lims : List Lim} {L : Lim} {exps : List (Expr A)} (hlen : lims.length = exps.length) (hc : ∀ e ∈ exps, Closed exps e)
    {e : Expr A} (h : Sc nC nP lims L e) : Closed exps e := by
  induction h with
  | bin ho _ _ iha ihb =>
    rcases ho with ho | ho | ho
    · exact .lin (by rw [ho]; rfl) (by simp [iha, ihb])
    · exact .lin (by rw [ho]; rfl) (by simp [iha, ihb])
    · exact .mul ho iha ihb
  | neg ho _ ih => exact .lin (by rw [ho]; rfl) (by simp [ih])
  | cst ho _ _ ih => rcases ho with ho | ho <;> exact .lin (by rw [ho]; rfl) (by simp [ih])
  | num ho _ => exact .leaf (.inl (by rw [ho]; rfl))
  | cm ho _ _ _ => exact .leaf (.inr (by rw [ho]; rfl))
  | const_ ho _ _ _ => exact .leaf (.inr (by rw [ho]; rfl))
  | pub ho _ _ => exact .leaf (.inl (by rw [ho]; rfl))
  | chal ho _ _ => exact .leaf (.inl (by rw [ho]; rfl))
  | x ho => exact .leaf (.inr (by rw [ho]; rfl))
  | @exp l i m ho hi hm _ _ _ _ =>
    have hlt : i < exps.length := by rw [← hlen]; exact (List.getElem?_eq_some_iff.mp hm).1
    exact .exp ho hi (List.getElem?_eq_getElem hlt) (hc _ (List.getElem_mem hlt))

/-- a scoped list of expressions is closed -/
theorem Scoped.closed {nC nP : Nat} {exps : List (Expr A)} {lims : List Lim} (h : Scoped nC nP exps lims) : ∀ e ∈ exps, Closed exps e := by
  induction h with
  | nil => simp
  | snoc hs hc ih =>
    intro e he
    rcases List.mem_append.mp he with he | he
    · exact Closed.app (ih e he)
    · obtain rfl := List.mem_singleton.mp he
      exact Closed.app (hc.closed hs.length ih)

/-! ### An invariant of the generated expressions -/

/-- a property of expressions that is closed under the constructions of the setup -/
structure Stable (Q : Nat → Expr A → Prop) : Prop where
  leaf : ∀ l : Label A, l.value = none → l.const_ = none → (l.op = .exp ∨ l.op = .cm ∨ l.op = .const_ ∨ l.op = .x) → Q 1 (.node l [])
  chal : ∀ i, Q 0 (eChallenge i)
  add : ∀ {d a b}, Q d a → Q d b → Q d (eAdd a b)
  sub : ∀ {d a b}, Q d a → Q d b → Q d (eSub a b)
  mul : ∀ {d d' a b}, Q d a → Q d' b → Q (d + d') (eMul a b)
  mono : ∀ {d d' a}, Q d a → d ≤ d' → Q d' a

section
variable {Q : Nat → Expr A → Prop} (H : Stable Q)
include H

theorem Stable.exp (i : Nat) (b : Bool) : Q 1 (eExp i b) := H.leaf _ rfl rfl (.inl rfl)
theorem Stable.cm (i : Nat) (b : Bool) : Q 1 (eCm i b) := H.leaf _ rfl rfl (.inr (.inl rfl))
theorem Stable.chal1 (i d : Nat) : Q d (eChallenge i) := H.mono (H.chal i) (Nat.zero_le _)

theorem Stable.lcT (l : List Nat) (hne : l ≠ []) : Q 1 (lcT l) := by
  induction l using List.reverseRecOn with
  | nil => exact absurd rfl hne
  | append_singleton l j ih =>
    by_cases hl : l = []
    · subst hl; exact H.exp j false
    · rw [lcT_append l j hl]
      exact H.add (H.mono (H.mul (H.chal 0) (ih hl)) (by omega)) (H.exp j false)

theorem Stable.lcF (l : List Nat) (hne : l ≠ []) : Q 1 (lcF l) := by
  induction l using List.reverseRecOn with
  | nil => exact absurd rfl hne
  | append_singleton l j ih =>
    by_cases hl : l = []
    · subst hl; exact H.exp j false
    · rw [lcF_append l j hl]
      exact H.add (H.mono (H.mul (ih hl) (H.chal 0)) (by omega)) (H.exp j false)

theorem Stable.select {e d : Expr A} (s : Option Nat) (he : Q 1 e) (hd : Q 1 d) : Q 2 (select e d s) := by
  cases s with
  | none => exact H.mono he (by omega)
  | some k => exact H.add (H.mul (H.sub he hd) (H.exp k false)) (H.mono hd (by omega))


theorem Stable.gen {emb : GL.F → A} (hone : Q 0 (eNum 1)) (hemb : ∀ v, Q 0 (eNum (emb v))) {l1 : Option Nat} {st st' : PilSt A} {a : Args} {cx : ArgCtx}
    (hgen : genArgs emb l1 st a = some (st', cx)) (hl : ∀ pi ∈ a.plookups, pi.f ≠ [] ∧ pi.t ≠ []) (hp : ∀ pi ∈ a.permutations, pi.f ≠ [] ∧ pi.t ≠ [])
    (hs : ∀ e ∈ st.exps, Q 2 e) : ∀ e ∈ st'.exps, Q 2 e := by
  obtain ⟨s2, pu, sl, pe, sp, se, r1, r2, r3, r4, r5⟩ := genArgs_split hgen
  have one : ∀ d, Q d (eNum 1) := fun d => H.mono hone (Nat.zero_le _)
  have b1 : Q 0 (eAdd (eNum 1) eBeta : Expr A) := H.add hone (H.chal 3)
  have g1 : Q 1 (eMul eGamma (eAdd (eNum 1) eBeta) : Expr A) := H.mono (H.mul (H.chal 2) b1) (by omega)
  have gx : Q 1 (eX : Expr A) := H.leaf _ rfl rfl (.inr (.inr (.inr rfl)))
  have gz : ∀ l z, Q 2 (zStart l z : Expr A) := fun l z =>
    H.mul (H.leaf _ rfl rfl (.inr (.inr (.inl rfl)))) (H.sub (H.cm z false) (one 1))
  have gs : ∀ z p q, Q 2 (zStep z p q : Expr A) := fun z p q => H.sub (H.mul (H.cm z true) (H.exp q false)) (H.mul (H.cm z false) (H.exp p false))
  have gc : ∀ p e, Q 1 e → Q 1 (connFactor p e : Expr A) := fun p e he =>
    H.add (H.add (H.exp p false) (H.mono (H.mul (H.chal 3) he) (by omega))) (H.chal1 2 1)
  have i1 := runAll_inv (I := fun s => ∀ e ∈ s.exps, Q 2 e) (Pre := fun pi : LookupId => pi.f ≠ [] ∧ pi.t ≠ []) (by
    intro s pi s1 y hn hi h
    obtain ⟨rfl, rfl⟩ := Prod.mk.inj (Option.some.inj h)
    intro e he
    rcases List.mem_append.mp he with he | he
    · exact hi e he
    · simp only [List.mem_cons, List.not_mem_nil, or_false] at he
      rcases he with rfl | rfl
      · exact H.select _ (H.lcT _ hn.2) (H.chal1 1 1)
      · exact H.select _ (H.lcF _ hn.1) (H.exp _ false)) a.plookups st s2 pu hl hs r1
  have i2 := runAll_inv (I := fun s => ∀ e ∈ s.exps, Q 2 e) (Pre := fun pi : LookupId => pi.f ≠ [] ∧ pi.t ≠ []) (by
    intro s pi s1 y hn hi h
    unfold permLCOne at h
    dsimp only at h
    split_ifs at h
    obtain ⟨rfl, rfl⟩ := Prod.mk.inj (Option.some.inj h)
    intro e he
    rcases List.mem_append.mp he with he | he
    · exact hi e he
    · simp only [List.mem_cons, List.not_mem_nil, or_false] at he
      rcases he with rfl | rfl
      · exact H.select _ (H.lcT _ hn.2) (H.chal1 1 1)
      · exact H.select _ (H.lcF _ hn.1) (H.chal1 1 1)) a.permutations s2 sl pe hp i1 r2
  have i3 := runAll_inv (I := fun s => ∀ e ∈ s.exps, Q 2 e) (Pre := fun _ : PCtx => True) (by
    intro s c s1 y hc hi h
    obtain ⟨l, _, h⟩ := Option.map_eq_some_iff.mp h
    obtain ⟨rfl, rfl⟩ := Prod.mk.inj h
    intro e he
    rcases List.mem_append.mp he with he | he
    · exact hi e he
    · simp only [List.mem_cons, List.not_mem_nil, or_false] at he
      rcases he with rfl | rfl | rfl | rfl
      · exact gz _ _
      · exact H.mono (H.mul (H.mul (H.add (H.exp _ false) (H.chal1 2 1))
          (H.add (H.add (H.exp _ false) (H.mul (H.exp _ true) (H.chal 3))) g1)) b1) (by omega)
      · exact H.mul (H.add (H.add (H.cm _ false) (H.mul (H.cm _ false) (H.chal 3))) g1)
          (H.add (H.add (H.cm _ false) (H.mul (H.cm _ true) (H.chal 3))) g1)
      · exact gs _ _ _) pu sl sp cx.pu (fun _ _ => trivial) i2 r3
  have i4 := runAll_inv (I := fun s => ∀ e ∈ s.exps, Q 2 e) (Pre := fun _ : PCtx => True) (by
    intro s c s1 y hc hi h
    obtain ⟨l, _, h⟩ := Option.map_eq_some_iff.mp h
    obtain ⟨rfl, rfl⟩ := Prod.mk.inj h
    intro e he
    rcases List.mem_append.mp he with he | he
    · exact hi e he
    · simp only [List.mem_cons, List.not_mem_nil, or_false] at he
      rcases he with rfl | rfl | rfl | rfl
      · exact gz _ _
      · exact H.mono (H.add (H.exp _ false) (H.chal1 3 1)) (by omega)
      · exact H.mono (H.add (H.exp _ false) (H.chal1 3 1)) (by omega)
      · exact gs _ _ _) pe sp se cx.pe (fun _ _ => trivial) i3 r4
  have loop : ∀ (ps cs : List Nat) (ks : List F) (ex : List (Expr A)) (n m : Nat) (r : List (Expr A) × Nat × Nat), (∀ e ∈ ex, Q 2 e) →
      connLoop ex n m ps cs (ks.map emb) = some r → ∀ e ∈ r.1, Q 2 e := by
    intro ps
    induction ps with
    | nil => intro cs ks ex n m r hx h; cases cs <;> (simp only [connLoop, Option.some.injEq] at h; subst h; exact hx)
    | cons p ps ih =>
      intro cs ks ex n m r hx h
      cases cs with
      | nil => simp [connLoop] at h
      | cons c cs =>
        cases ks with
        | nil => simp [connLoop] at h
        | cons k ks =>
          simp only [connLoop, List.map_cons] at h
          refine ih cs ks _ _ _ r ?_ h
          intro e he
          rcases List.mem_append.mp he with he | he
          · exact hx e he
          · simp only [List.mem_cons, List.not_mem_nil, or_false] at he
            rcases he with rfl | rfl
            · exact H.mul (H.exp _ false) (H.add (H.add (H.exp _ false) (H.mul (H.mul (H.chal 3) (hemb k)) gx)) (H.chal1 2 1))
            · exact H.mul (H.exp _ false) (gc _ _ (H.exp _ false))
  have i5 := runAll_inv (I := fun s => ∀ e ∈ s.exps, Q 2 e) (Pre := fun _ : ConnId => True) (by
    intro s ci s1 y hc hi h
    unfold connZOne at h
    split at h
    · obtain ⟨ks, _, h⟩ := Option.bind_eq_some_iff.mp h
      obtain ⟨r, hr, h⟩ := Option.bind_eq_some_iff.mp h
      obtain ⟨l, _, h⟩ := Option.map_eq_some_iff.mp h
      obtain ⟨rfl, rfl⟩ := Prod.mk.inj h
      have hb := loop _ _ _ _ _ _ r (fun e he => by
        rcases List.mem_append.mp he with he | he
        · exact hi e he
        · simp only [List.mem_cons, List.not_mem_nil, or_false] at he
          rcases he with rfl | rfl
          · exact H.mono (gc _ _ gx) (by omega)
          · exact H.mono (gc _ _ (H.exp _ false)) (by omega)) hr
      intro e he
      rcases List.mem_append.mp he with he | he
      · exact hb e he
      · simp only [List.mem_cons, List.not_mem_nil, or_false] at he
        rcases he with rfl | rfl
        · exact gz _ _
        · exact gs _ _ _
    · cases h) a.connections se st' cx.ci (fun _ _ => trivial) i4 r5
  exact i5

end

theorem stable_inLe : Stable (fun d (e : Expr A) => InLe e d) where
  leaf l _ _ h := by
    rcases h with h | h | h | h
    · exact .exp h le_rfl
    all_goals exact .var (by rw [h]; rfl) le_rfl
  chal i := .const rfl
  add ha hb := .lin rfl (by simp [ha, hb])
  sub ha hb := .lin rfl (by simp [ha, hb])
  mul ha hb := .mul rfl ha hb le_rfl
  mono {d d' a} h hd := by
    induction h generalizing d' with
    | lin h1 _ ih => exact .lin h1 fun v hv => ih v hv hd
    | const h => exact .const h
    | var h h1 => exact .var h (by omega)
    | mul h ha hb hx _ _ => exact .mul h ha hb (by omega)
    | exp h h1 => exact .exp h (by omega)

theorem stable_numBase : Stable (fun _ (e : Expr K) => NumBase e) where
  leaf l h1 h2 _ := ⟨by simp [h1], by simp [h2], by simp⟩
  chal i := ⟨by simp, by simp, by simp⟩
  add ha hb := ⟨by simp, by simp, by simp [ha, hb]⟩
  sub ha hb := ⟨by simp, by simp, by simp [ha, hb]⟩
  mul ha hb := ⟨by simp, by simp, by simp [ha, hb]⟩
  mono h _ := h

/-- the identities of the generated system exist -/
theorem genArgs_idsLt {emb : GL.F → A} {l1 : Option Nat} {st st' : PilSt A} {a : Args} {cx : ArgCtx} (hgen : genArgs emb l1 st a = some (st', cx))
    (hs : ∀ id ∈ st.ids, id < st.exps.length) : ∀ id ∈ st'.ids, id < st'.exps.length := by
  obtain ⟨s2, pu, sl, pe, sp, se, r1, r2, r3, r4, r5⟩ := genArgs_split hgen
  have i1 := runAll_inv (I := fun s => ∀ id ∈ s.ids, id < s.exps.length) (Pre := fun _ : LookupId => True) (by
    intro s pi s1 y _ hi h
    obtain ⟨rfl, rfl⟩ := Prod.mk.inj (Option.some.inj h)
    intro id hid
    have := hi id hid
    simp only [List.length_append, List.length_cons, List.length_nil]
    omega) a.plookups st s2 pu (fun _ _ => trivial) hs r1
  have i2 := runAll_inv (I := fun s => ∀ id ∈ s.ids, id < s.exps.length) (Pre := fun _ : LookupId => True) (by
    intro s pi s1 y _ hi h
    unfold permLCOne at h
    dsimp only at h
    split_ifs at h
    obtain ⟨rfl, rfl⟩ := Prod.mk.inj (Option.some.inj h)
    intro id hid
    have := hi id hid
    simp only [List.length_append, List.length_cons, List.length_nil]
    omega) a.permutations s2 sl pe (fun _ _ => trivial) i1 r2
  have i3 := runAll_inv (I := fun s => ∀ id ∈ s.ids, id < s.exps.length) (Pre := fun _ : PCtx => True) (by
    intro s c s1 y _ hi h
    obtain ⟨l, _, h⟩ := Option.map_eq_some_iff.mp h
    obtain ⟨rfl, rfl⟩ := Prod.mk.inj h
    intro id hid
    simp only [List.length_append, List.length_cons, List.length_nil]
    rcases List.mem_append.mp hid with hid | hid
    · have := hi id hid
      omega
    · simp only [List.mem_cons, List.not_mem_nil, or_false] at hid
      omega) pu sl sp cx.pu (fun _ _ => trivial) i2 r3
  have i4 := runAll_inv (I := fun s => ∀ id ∈ s.ids, id < s.exps.length) (Pre := fun _ : PCtx => True) (by
    intro s c s1 y _ hi h
    obtain ⟨l, _, h⟩ := Option.map_eq_some_iff.mp h
    obtain ⟨rfl, rfl⟩ := Prod.mk.inj h
    intro id hid
    simp only [List.length_append, List.length_cons, List.length_nil]
    rcases List.mem_append.mp hid with hid | hid
    · have := hi id hid
      omega
    · simp only [List.mem_cons, List.not_mem_nil, or_false] at hid
      omega) pe sp se cx.pe (fun _ _ => trivial) i3 r4
  have loop : ∀ (ps cs : List Nat) (ks : List A) (ex : List (Expr A)) (n m : Nat) (r : List (Expr A) × Nat × Nat),
      connLoop ex n m ps cs ks = some r → ex.length ≤ r.1.length := by
    intro ps
    induction ps with
    | nil => intro cs ks ex n m r h; cases cs <;> (simp only [connLoop, Option.some.injEq] at h; subst h; exact le_refl _)
    | cons p ps ih =>
      intro cs ks ex n m r h
      cases cs with
      | nil => simp [connLoop] at h
      | cons c cs =>
        cases ks with
        | nil => simp [connLoop] at h
        | cons k ks =>
          simp only [connLoop] at h
          have := ih cs ks _ _ _ r h
          simp only [List.length_append, List.length_cons, List.length_nil] at this
          omega
  exact runAll_inv (I := fun s => ∀ id ∈ s.ids, id < s.exps.length) (Pre := fun _ : ConnId => True) (by
    intro s ci s1 y _ hi h
    unfold connZOne at h
    split at h
    · obtain ⟨ks, _, h⟩ := Option.bind_eq_some_iff.mp h
      obtain ⟨r, hr, h⟩ := Option.bind_eq_some_iff.mp h
      obtain ⟨l, _, h⟩ := Option.map_eq_some_iff.mp h
      obtain ⟨rfl, rfl⟩ := Prod.mk.inj h
      have hb := loop _ _ _ _ _ _ r hr
      simp only [List.length_append, List.length_cons, List.length_nil] at hb
      intro id hid
      simp only [List.length_append, List.length_cons, List.length_nil]
      rcases List.mem_append.mp hid with hid | hid
      · have := hi id hid
        omega
      · simp only [List.mem_cons, List.not_mem_nil, or_false] at hid
        omega
    · cases h) a.connections se st' cx.ci (fun _ _ => trivial) i4 r5

theorem maxDim_mono {E : Type} {r r' : Expr E → Option Nat} (h : ∀ e d, r e = some d → r' e = some d) :
    ∀ (vs : List (Expr E)) (md d : Nat), maxDim r vs md = some d → maxDim r' vs md = some d
  | [], _, _, hd => hd
  | v :: vs, md, d, hd => by
    rw [maxDim] at hd ⊢
    obtain ⟨x, hx, hd⟩ := Option.bind_eq_some_iff.mp hd
    rw [h v x hx, Option.bind_some]
    exact maxDim_mono h vs _ d hd

/-- more fuel does not change the dimension of an expression -/
theorem expDim_mono {E : Type} {exps : List (Expr E)} {dims : Nat → Option Nat} : ∀ (n m : Nat) (e : Expr E) (d : Nat), n ≤ m →
    expDim exps dims n e = some d → expDim exps dims m e = some d
  | 0, _, _, _, _, h => by simp [expDim] at h
  | n + 1, 0, _, _, hm, _ => by omega
  | n + 1, m + 1, .node l vs, d, hm, h => by
    have ih : ∀ e d, expDim exps dims n e = some d → expDim exps dims m e = some d := fun e d => expDim_mono n m e d (by omega)
    unfold expDim at h ⊢
    split at h
    all_goals first
      | exact maxDim_mono ih vs _ _ h
      | exact h
      | (obtain ⟨i, hi, h⟩ := Option.bind_eq_some_iff.mp h
         obtain ⟨e, he, h⟩ := Option.bind_eq_some_iff.mp h
         rw [hi, Option.bind_some, he, Option.bind_some]
         exact ih e d h)

/-- every selected intermediate expression exists: `ims` of `ArgCircuit`; the well-formedness of the generated system from conditions on the PIL, the
layout and the sizes -/
theorem ArgCircuit.wellFormed {R : Run} {T T' : Trace} {U : Setup K} {l1 : Option Nat} {st st' : PilSt K} {a : Args} {cx : ArgCtx} {lims : List Lim}
    {fuelP : Nat} {Pg : Progs} (C : ArgCircuit R T U.S l1 st st' a cx lims fuelP Pg) {fuelI fuel : Nat} {rest : List (Code K) → List (Instr K)}
    (hset : setup fuelI fuel st'.exps st'.ids R.nCm R.ext R.pos rest = some U) (hrest : SubCode rest) (hids : ∀ id ∈ st.ids, id < st.exps.length)
    (har : ∀ e ∈ st.exps, InLe e 2) (hw : T'.width = T.width)
    (hq : ∀ p < U.qDeg, R.pos (R.nCm + U.S.card + p) = some ⟨4, R.qDim * p, R.qDim⟩)
    (hl : ∀ k c, R.pos k = some c → 1 ≤ c.tree ∧ c.tree ≤ 4 ∧ (c.tree = 4 → c.pos + c.dim ≤ R.qDim * U.qDeg))
    (hquot : ∃ n, expDim st'.exps (fun k => (R.pos k).map ColPos.dim) n U.cExp = some R.qDim)
    (him : ∀ k ∈ U.S, ∀ e n d, st'.exps[k]? = some e → expDim st'.exps (fun k => (R.pos k).map ColPos.dim) n e = some d →
      ∀ c, im2cmOf U.S R.nCm k = some c → (R.pos c).map ColPos.dim = some d)
    (hsz : Sizes R T') (hbits : R.nb + R.ext < 32) (hext : R.ext < 30) (hqd : 0 < U.qDeg) :
    WellFormed R U T' st'.exps st'.ids fuelI fuel rest where
  setup := hset
  rest := hrest
  closed := by
    obtain ⟨more, hs, -⟩ := genArgs_scoped C.gen C.sc (fun l hl => (C.l1c l hl).1) C.args C.bounds
    exact hs.closed
  ids := genArgs_idsLt C.gen hids
  arity := stable_inLe.gen (.const rfl) (fun _ => .const rfl) C.gen (fun pi h => ⟨(C.args.lookup pi h).1, (C.args.lookup pi h).2.1⟩)
    (fun pi h => ⟨(C.args.perm pi h).1, (C.args.perm pi h).2.1⟩) har
  layout := by
    refine ⟨fun k c h => ?_, fun k hk => ?_, hq⟩
    · obtain ⟨h1, h2⟩ := C.fit k c h
      obtain ⟨h3, h4, h5⟩ := hl k c h
      refine ⟨h1, h3, h4, ?_⟩
      unfold width4
      by_cases h : c.tree = 4
      · rw [if_pos h]; exact h5 h
      · rw [if_neg h, hw]; exact h2 (by omega)
    · have L := C.layout
      by_cases h1 : k < st.nCm
      · obtain ⟨c, hc, ht⟩ := L.first k h1
        exact ⟨c, hc, by omega⟩
      by_cases h2 : k < st.nCm + 2 * a.plookups.length
      · obtain ⟨c, hc, ht⟩ := L.second k (by omega) h2
        exact ⟨c, hc, by omega⟩
      by_cases h3 : k < R.nCm
      · obtain ⟨c, hc, ht, _⟩ := L.third k (by omega) h3
        exact ⟨c, hc, by omega⟩
      · obtain ⟨c, hc, ht⟩ := L.im k (by omega) hk
        exact ⟨c, hc, by omega⟩
  dims := ⟨C.dims.num, C.dims.publics, hquot, him⟩
  sizes := hsz
  bits := hbits
  ext := hext
  qDeg := hqd

end Verif.Grand
