import Verif.Stark.VerCodeSim
import Mathlib.Algebra.Field.Rat

/-!
# C73: the verifier's programs compute the constraint and the FRI expression
-/
set_option linter.unusedSectionVars false

namespace Verif.Stark
open Codegen Codegen.Spec

variable {G A : Type} [Field A] [DecidableEq A]

/-! ### Specification -/

/-- The environment in which the constraint is checked: the columns have their claimed openings at `xi` and, for the next row,
at `w * xi`; `x` is `xi` (challenge 7). -/
def openEnv (op : EvKey → A) (publics chal : List A) : Store A := fun t i p =>
  match t with
  | .cm => some (op (.cm, p, i))
  | .const_ => some (op (.const_, p, i))
  | .public_ => publics[i]?
  | .challenge => chal[i]?
  | .x => chal[7]?
  | _ => none

/-- the expressions with every intermediate polynomial replaced by the committed column that holds it -/
def substIm {E : Type} (im : List Nat) (im2cm : Nat → Option Nat) (exps : List (Expr E)) : List (Expr E) :=
  exps.mapIdx fun k e => if k ∈ im then .node { op := .cm, id := im2cm k } [] else e

/-! ### Auxiliary facts -/

theorem val_congr {K : Ops A} {exps : List (Expr A)} {σ σ' : Store A} (h : ∀ t i p, t ≠ .exp → t ≠ .tmp → σ t i p = σ' t i p) {d p e v}
    (hv : Val K exps σ d p e v) : Val K exps σ' d p e v := by
  induction hv with
  | add ho _ _ hz iha ihb => exact .add ho iha ihb hz
  | sub ho _ _ hz iha ihb => exact .sub ho iha ihb hz
  | mul ho _ _ hz iha ihb => exact .mul ho iha ihb hz
  | muladd ho _ _ _ hxy hz iha ihb ihc => exact .muladd ho iha ihb ihc hxy hz
  | addc ho hk _ hz iha => exact .addc ho hk iha hz
  | mulc ho hk _ hz iha => exact .mulc ho hk iha hz
  | neg ho _ hz iha => exact .neg ho iha hz
  | number ho hv => exact .number ho hv
  | @col d p l t i v ho hi hn hv =>
    refine .col ho hi hn ?_
    rw [← h]
    · exact hv
    all_goals (cases h : l.op <;> simp [h, colTy] at ho <;> subst ho <;> simp)
  | @byId d p l t i v ho hi hv =>
    refine .byId ho hi ?_
    rw [← h]
    · exact hv
    all_goals (cases h : l.op <;> simp [h, idTy] at ho <;> subst ho <;> simp)
  | @nullary d p l t v ho hv =>
    refine .nullary ho ?_
    rw [← h]
    · exact hv
    all_goals (cases h : l.op <;> simp [h, nullTy] at ho <;> subst ho <;> simp)
  | exp ho hi hn he hv ih => exact .exp ho hi hn he ih

/-- in a successful execution every operand has been read -/
theorem exec_reads {im : List Nat} {σ0 : Store A} {P : Node A → Prop}
    (hP : ∀ (r : Node A) (σ : Store A), (∀ t id p, t ≠ .tmp → ¬(t = .exp ∧ id ∉ im) → σ t id p = σ0 t id p) → readN σ r ≠ none → P r) :
    ∀ {code : List (Instr A)}, (∀ i ∈ code, i.dest.ty = .tmp ∨ (i.dest.ty = .exp ∧ i.dest.id ∉ im)) →
    ∀ {σ σ' : Store A}, (∀ t id p, t ≠ .tmp → ¬(t = .exp ∧ id ∉ im) → σ t id p = σ0 t id p) →
      exec (fieldOps A) code σ = some σ' → ∀ i ∈ code, ∀ r ∈ i.src, P r := by
  intro code
  induction code with
  | nil => intro _ _ _ _ _ i hi; cases hi
  | cons j code ih =>
    intro hd σ σ' hσ hx
    unfold exec at hx
    rw [List.foldlM_cons] at hx
    obtain ⟨σ1, h1, h2⟩ := Option.bind_eq_some_iff.mp hx
    unfold step at h1
    obtain ⟨vs, h3, h1⟩ := Option.bind_eq_some_iff.mp h1
    obtain ⟨v, h4, rfl⟩ := Option.map_eq_some_iff.mp h1
    intro i hi
    rcases List.mem_cons.mp hi with rfl | hi
    · intro r hr
      refine hP r σ hσ ?_
      have hall : ∀ (rs : List (Node A)) (vs : List A), rs.mapM (readN σ) = some vs → ∀ r ∈ rs, readN σ r ≠ none := by
        intro rs
        induction rs with
        | nil => intro _ _ r hr; cases hr
        | cons a rs iha =>
          intro vs hvs r hr
          rw [List.mapM_cons] at hvs
          obtain ⟨x, a1, hvs⟩ := Option.bind_eq_some_iff.mp hvs
          obtain ⟨xs, a2, -⟩ := Option.bind_eq_some_iff.mp hvs
          rcases List.mem_cons.mp hr with rfl | hr
          · rw [a1]; simp
          · exact iha xs a2 r hr
      exact hall _ _ h3 r hr
    · refine ih (fun i hi => hd i (by simp [hi])) ?_ h2 i hi
      intro t id p ht he
      unfold Store.set
      rw [if_neg]
      · exact hσ t id p ht he
      · rintro ⟨rfl, rfl, rfl⟩
        rcases hd j (by simp) with h | h
        · exact ht h
        · exact he h

/-! ### The constraint check -/

/-- the entries of `ev_idx` point to the right entries of `ev_map` -/
def EvOk (ev : EvSt) : Prop := ∀ k i, ev.idx.lookup k = some i → ev.map[i]? = some k

theorem evRef_spec {k : EvKey} {ev : EvSt} (h : EvOk ev) :
    EvOk (evRef k ev).2 ∧ ev.map <+: (evRef k ev).2.map ∧ (evRef k ev).2.map[(evRef k ev).1]? = some k := by
  unfold evRef
  cases hl : ev.idx.lookup k with
  | some i => exact ⟨h, List.prefix_rfl, h k i hl⟩
  | none =>
    dsimp only
    refine ⟨?_, List.prefix_append _ _, by simp⟩
    intro k' i hi
    dsimp only at hi ⊢
    rw [lookup_cons_ite] at hi
    split_ifs at hi with e
    · cases hi; simp [e]
    · have := h k' i hi
      rw [List.getElem?_append_left]
      · exact this
      · exact (List.getElem?_eq_some_iff.mp this).1

/-- what `leafConstraint` does to a leaf -/
def LRc (im2cm : Nat → Option Nat) (ev : EvSt) (r : Node A) (n : VNode A) : Prop :=
  match r.ty with
  | .exp => n.ty = .eval ∧ ∃ c, im2cm r.id = some c ∧ ev.map[n.id]? = some (.cm, r.prime, c)
  | .cm => n.ty = .eval ∧ ev.map[n.id]? = some (.cm, r.prime, r.id)
  | .const_ => n.ty = .eval ∧ ev.map[n.id]? = some (.const_, r.prime, r.id)
  | .number => n.ty = .number ∧ n.value = r.value
  | .challenge => n.ty = .challenge ∧ n.id = r.id
  | .public_ => n.ty = .public_ ∧ n.id = r.id
  | .x => n.ty = .x
  | .eval => n.ty = .eval ∧ n.id = r.id
  | _ => False

theorem prefix_getElem? {α : Type} {a b : List α} (h : a <+: b) {i : Nat} {x : α} (hx : a[i]? = some x) : b[i]? = some x := by
  obtain ⟨t, rfl⟩ := h
  rw [List.getElem?_append_left]
  · exact hx
  · exact (List.getElem?_eq_some_iff.mp hx).1

theorem leafConstraint_pass (im2cm : Nat → Option Nat) :
    LeafPass (A := A) (leafConstraint im2cm) EvOk (fun a b => a.map <+: b.map) (LRc im2cm) where
  refl _ := List.prefix_rfl
  trans _ _ _ := List.IsPrefix.trans
  mono a b r n h hr := by
    unfold LRc at hr ⊢
    cases ht : r.ty <;> simp only [ht] at hr ⊢ <;> try exact hr
    · obtain ⟨h1, c, h2, h3⟩ := hr
      exact ⟨h1, c, h2, prefix_getElem? h h3⟩
    · exact ⟨hr.1, prefix_getElem? h hr.2⟩
    · exact ⟨hr.1, prefix_getElem? h hr.2⟩
  step r l n l' h hok := by
    unfold leafConstraint at h
    unfold LRc
    cases ht : r.ty <;> simp only [ht] at h ⊢
    case exp =>
      obtain ⟨c, hc, h⟩ := Option.map_eq_some_iff.mp h
      obtain ⟨rfl, rfl⟩ := Prod.mk.inj h
      obtain ⟨a, b, d⟩ := evRef_spec (k := (.cm, r.prime, c)) hok
      exact ⟨a, b, rfl, c, hc, d⟩
    case cm =>
      obtain ⟨rfl, rfl⟩ := Prod.mk.inj (Option.some.inj h)
      obtain ⟨a, b, d⟩ := evRef_spec (k := (.cm, r.prime, r.id)) hok
      exact ⟨a, b, rfl, d⟩
    case const_ =>
      obtain ⟨rfl, rfl⟩ := Prod.mk.inj (Option.some.inj h)
      obtain ⟨a, b, d⟩ := evRef_spec (k := (.const_, r.prime, r.id)) hok
      exact ⟨a, b, rfl, d⟩
    case number | challenge | public_ | x | eval =>
      obtain ⟨rfl, rfl⟩ := Prod.mk.inj (Option.some.inj h)
      exact ⟨hok, List.prefix_rfl, by simp⟩
    all_goals cases h

theorem addQs_spec (qs : List Nat) {ev : EvSt} (h : EvOk ev) : EvOk (addQs qs ev) ∧
    (addQs qs ev).map = ev.map ++ qs.map (fun q => ((.cm, false, q) : EvKey)) ∧
    ∀ q, (q ∈ qs ∨ ∃ i, ev.idx.lookup (.cm, false, q) = some i) → ∃ i, (addQs qs ev).idx.lookup (.cm, false, q) = some i := by
  induction qs generalizing ev with
  | nil =>
    refine ⟨h, by simp [addQs], fun q hq => ?_⟩
    rcases hq with hq | hq
    · cases hq
    · exact hq
  | cons q qs ih =>
    have h1 : EvOk ⟨((.cm, false, q), ev.map.length) :: ev.idx, ev.map ++ [(.cm, false, q)]⟩ := by
      intro k' i hi
      dsimp only at hi ⊢
      rw [lookup_cons_ite] at hi
      split_ifs at hi with e
      · cases hi; simp [e]
      · exact prefix_getElem? (List.prefix_append _ _) (h k' i hi)
    obtain ⟨a, b, c⟩ := ih h1
    refine ⟨a, ?_, ?_⟩
    · rw [addQs, List.foldl_cons]
      rw [addQs] at b
      rw [b]
      simp
    · intro q' hq'
      refine c q' ?_
      dsimp only
      rw [lookup_cons_ite]
      by_cases e : q' = q
      · exact .inr ⟨_, by rw [if_pos (by rw [e])]⟩
      · rw [if_neg (by simpa using e)]
        rcases hq' with hq' | hq'
        · exact .inl (by simpa [e] using hq')
        · exact .inr hq'

/-- the positions of the quotient pieces in the openings, `ev_idx.get("cm", 0, qs[i])` in stark_verify.rs L72-80 -/
def qEvOf (ev : EvSt) (qs : List Nat) : Option (List Nat) := qs.mapM fun q => ev.idx.lookup (.cm, false, q)

/-- every list of the verifier segment consists of instructions of the generated code (C60: `build_linear_code` only drops
instructions) -/
def SubCode (rest : List (Code A) → List (Instr A)) : Prop := ∀ code, ∀ i ∈ rest code, i ∈ code.flatMap Code.code

/-- the registers of the intermediate polynomials added to an environment -/
def withIm (σ : Store A) (im : List Nat) (im2cm : Nat → Option Nat) : Store A := fun t i p =>
  if t = .exp ∧ i ∈ im then (im2cm i).bind fun c => σ .cm c p else σ t i p

/-- The rewritten code of one expression, both passes. -/
theorem fixed_code {L : Type} {leaf : Node A → L → Option (VNode A × L)} {ok : L → Prop} {le : L → L → Prop}
    {LR : L → Node A → VNode A → Prop} (H : LeafPass leaf ok le LR) {exps : List (Expr A)} {fuel : Nat} {im imS : List Nat}
    {im2cm : Nat → Option Nat} (him : ∀ k ∈ imS, k < exps.length ∧ ∃ c, im2cm k = some c) {pre : List (Bool × Nat)}
    (hpre : ∀ p k, (p, k) ∈ pre ↔ k ∈ imS) (hsub : ∀ k ∈ imS, k ∈ im) {id : Nat} (hid : id ∉ im)
    (hnew : ∀ ctx, pilCodeGen (0 : A) exps fuel ⟨0, [], pre⟩ id false none true = some ctx →
      ∀ i ∈ linearCode ctx, i.dest.ty = .exp → i.dest.id ∉ im) {rest : List (Code A) → List (Instr A)} (hrest : SubCode rest)
    {σ : Store A} (hσt : ∀ i p, σ .tmp i p = none) (hσe : ∀ i p, σ .exp i p = none)
    (hσc : ∀ k ∈ imS, ∀ c, im2cm k = some c → ∀ p, σ .cm c p ≠ none)
    (hP : ∀ r, r.ty ≠ .tmp → ¬(r.ty = .exp ∧ r.id ∉ im) → readN (withIm σ imS im2cm) r ≠ none → ∀ l, leaf r l ≠ none)
    {d : Nat} {e : Expr A} {v : A} (hd : d < fuel) (he : exps[id]? = some e)
    (hv : Val (fieldOps A) (substIm imS im2cm exps) σ d false e v) (l0 : L) (hl0 : ok l0) :
    ∃ ctx x y, pilCodeGen (0 : A) exps fuel ⟨0, [], pre⟩ id false none true = some ctx ∧
      fixCode im leaf (linearCode ctx) ⟨l0, [], ctx.tmpUsed⟩ = some x ∧ fixCode im leaf (rest ctx.code) x.2 = some y ∧
      ok y.2.leaf ∧ le x.2.leaf y.2.leaf ∧
      ∀ (em : Emb G A) (vc : VCtx G A), (∀ r n w tmp, r.ty ≠ .tmp → ¬(r.ty = .exp ∧ r.id ∉ im) → LR x.2.leaf r n →
        readN (withIm σ imS im2cm) r = some w → getRef em vc tmp n = some w) → executeCode em vc x.1 = some v := by
  have hid' : id ∉ imS := fun h => hid (hsub _ h)
  -- code generation does not see the intermediate polynomials
  have hag : ∀ i, ¬(i ∈ imS) → exps[i]? = (substIm imS im2cm exps)[i]? := by
    intro i hi
    rw [substIm, List.getElem?_mapIdx]
    cases exps[i]? with
    | none => rfl
    | some e => simp [hi]
  have hcg := pilCodeGen_congr (zero := (0 : A)) hag fuel (ctx := ⟨0, [], pre⟩) (id := id) (p := false) (muladd := true) (res := none)
    (fun i hi q => (hpre q i).mpr hi)
  have hsame : ∀ t i p, t ≠ .exp → t ≠ .tmp → σ t i p = withIm σ imS im2cm t i p := by
    intro t i p h1 _
    rw [withIm, if_neg (fun h => h1 h.1)]
  have hv' := val_congr hsame hv
  obtain ⟨ctx, σ', g1, g2, g3, g4, g5⟩ := codegen_spec (K := fieldOps A) (exps := substIm imS im2cm exps)
    (σ0 := withIm σ imS im2cm) fuel 0 pre [{ id := id, muladd := true }]
    (by
      intro p k hk
      have hkim := (hpre p k).mp hk
      obtain ⟨hlt, c, hc⟩ := him k hkim
      obtain ⟨w, hw⟩ := Option.ne_none_iff_exists'.mp (hσc k hkim c hc p)
      have hx : withIm σ imS im2cm .exp k p = some w := by
        rw [withIm, if_pos ⟨rfl, hkim⟩, hc, Option.bind_some, hw]
      refine ⟨w, ⟨0, .node { op := .cm, id := im2cm k } [], ?_, ?_⟩, hx⟩
      · rw [substIm, List.getElem?_mapIdx, List.getElem?_eq_getElem hlt]
        simp [hkim]
      · refine .col (t := .cm) (i := c) rfl hc (by simp) ?_
        rw [← hsame _ _ _ (by simp) (by simp)]
        simpa using hw)
    (fun _ _ _ a b => by simp [fieldOps, add_comm])
    (by
      intro r hr
      rw [List.mem_singleton] at hr
      subst hr
      exact ⟨d, e, v, hd, by rw [← hag id hid']; exact he, hv'⟩)
    (by simp) (by simp)
  have hgen : pilCodeGen (0 : A) exps fuel ⟨0, [], pre⟩ id false none true = some ctx := by
    rw [hcg]
    have : genAll (fieldOps A).zero (substIm imS im2cm exps) fuel [{ id := id, muladd := true }] ⟨0, [], pre⟩
        = pilCodeGen (0 : A) (substIm imS im2cm exps) fuel ⟨0, [], pre⟩ id false none true := by
      simp only [genAll, List.foldlM_cons, List.foldlM_nil]
      simp only [bind, pure]
      change Option.bind (pilCodeGen (0 : A) _ fuel _ id false none true) _ = _
      cases pilCodeGen (0 : A) (substIm imS im2cm exps) fuel ⟨0, [], pre⟩ id false none true <;> rfl
    rw [← this]
    exact g1
  have hdest : ∀ i ∈ linearCode ctx, DestOk pre i :=
    pilCodeGen_dest fuel hgen (fun _ h => h) (by simp [linearCode])
  have hdest' : ∀ i ∈ linearCode ctx,
      (i.dest.ty = .tmp ∧ i.dest.prime = false ∧ i.dest.id < ctx.tmpUsed) ∨ (i.dest.ty = .exp ∧ i.dest.id ∉ im) := by
    intro i hi
    rcases hdest i hi with h | h
    · exact .inl ⟨h.1, h.2, (g5 i hi h.1).2⟩
    · exact .inr ⟨h.1, hnew ctx hgen i hi h.1⟩
  obtain ⟨init, last, q1, q2, q3, q4⟩ := pilCodeGen_last (S := pre) (fun h => hid' ((hpre _ _).mp h)) (fun _ h => h)
    (by simp [linearCode]) hgen
  have hreads : ∀ i ∈ linearCode ctx, ∀ r ∈ i.src, r.ty ≠ .tmp → ¬(r.ty = .exp ∧ r.id ∉ im) → ∀ l, leaf r l ≠ none := by
    refine exec_reads (im := im) (σ0 := withIm σ imS im2cm) ?_ (fun i hi => ?_) (fun _ _ _ _ _ => rfl) g2
    · intro r σ1 hs hr h1 h2
      refine hP r h1 h2 ?_
      unfold readN at hr ⊢
      rw [← hs r.ty r.id r.prime h1 h2]
      exact hr
    · rcases hdest' i hi with h | h
      · exact .inl h.1
      · exact .inr h
  have hok : ∀ i ∈ linearCode ctx, ∀ r, r = i.dest ∨ r ∈ i.src → r.ty ≠ .tmp → ¬(r.ty = .exp ∧ r.id ∉ im) → ∀ l, leaf r l ≠ none := by
    intro i hi r hr h1 h2
    rcases hr with rfl | hr
    · rcases hdest' i hi with h | h
      · exact absurd h.1 h1
      · exact absurd h h2
    · exact hreads i hi r hr h1 h2
  obtain ⟨x, hx⟩ := fixCode_some (im := im) (leaf := leaf) hok ⟨l0, [], ctx.tmpUsed⟩
  obtain ⟨y, hy⟩ := fixCode_some (im := im) (leaf := leaf) (is := rest ctx.code) (fun i hi => hok i (hrest ctx.code i hi)) x.2
  obtain ⟨a1, a2, a3, a4, a5⟩ := fixCode_ren H (st' := x.2) (js := x.1) hx (t0 := ctx.tmpUsed)
    ⟨fun k s h => by simp at h, fun k k' s h => by simp at h⟩ hl0 (Nat.le_refl _)
  obtain ⟨b1, b2, b3, b4, b5⟩ := fixCode_ren H (st' := y.2) (js := y.1) hy a1 a2 a3
  refine ⟨ctx, x, y, hgen, hx, hy, b2, b4.1, ?_⟩
  intro em vc hleaf
  refine executeCode_sim (T := ctx.tmpUsed) hleaf (fun k s h => (a1.range k s h).1) a1.inj ?_ ?_ a5 hdest' g2 q1 q2 q3 q4
    (g3 { id := id, muladd := true } (by simp) v ⟨d, e, by rw [← hag id hid']; exact he, hv'⟩).1
  · intro i p
    rw [withIm, if_neg (by simp)]
    exact hσt i p
  · intro i p hi
    rw [withIm, if_neg (fun h => hi (hsub _ h.2))]
    exact hσe i p

/-- **C73**, the constraint: let `v` be the value of the constraint expression when every column (and every intermediate
polynomial, through its column) has the value `op` claimed for it at `xi`, or at `w * xi` for a reference to the next row, and
`x` is `xi`.  Then the verifier program is generated, and run on any list of openings that holds these values at the positions
of `ev_map` it computes exactly `v`.  The list `ev_map` ends with the quotient pieces, and `ev_idx` gives their positions. -/
theorem verifier_code {exps : List (Expr A)} {fuel : Nat} {im : List Nat} {im2cm : Nat → Option Nat}
    (him : ∀ k ∈ im, k < exps.length ∧ ∃ c, im2cm k = some c) {cExp : Nat} (hid : cExp ∉ im) (qs : List Nat)
    {rest : List (Code A) → List (Instr A)} (hrest : SubCode rest) {op : EvKey → A} {publics chal : List A}
    {d : Nat} {e : Expr A} {v : A} (hd : d < fuel) (he : exps[cExp]? = some e)
    (hv : Val (fieldOps A) (substIm im im2cm exps) (openEnv op publics chal) d false e v) :
    ∃ out qEv, genVerifier (0 : A) exps fuel im im2cm cExp qs rest = some out ∧ qEvOf out.ev qs = some qEv ∧
      (∃ evs, out.ev.map = evs ++ qs.map fun q => (.cm, false, q)) ∧
      ∀ evals : List A, (∀ (i : Nat) k, out.ev.map[i]? = some k → evals[i]? = some (op k)) →
        (∀ (em : Emb G A) (vc : VCtx G A), vc.evals = evals → vc.publics = publics → vc.challenge = chal →
          executeCode em vc out.code = some v) ∧
        (qEv.mapM fun i => evals[i]?) = some (qs.map fun q => op (.cm, false, q)) := by
  have hpre : ∀ (p : Bool) (k : Nat), (p, k) ∈ (im.flatMap fun k => [(false, k), (true, k)]) ↔ k ∈ im := by
    intro p k
    cases p <;> simp
  obtain ⟨ctx, x, y, g1, g2, g3, g4, g5, g6⟩ := fixed_code (G := G) (leafConstraint_pass im2cm) him hpre (fun _ h => h) hid
    (fun ctx hg i hi ht hc => by
      rcases pilCodeGen_dest fuel hg (fun _ h => h) (by simp [linearCode]) i hi with h | h
      · rw [ht] at h; simp at h
      · exact h.2 ((hpre _ _).mpr hc)) hrest
    (σ := openEnv op publics chal) (fun _ _ => rfl) (fun _ _ => rfl) (fun _ _ _ _ _ => by simp [openEnv])
    (by
      intro r h1 h2 hr l
      unfold readN withIm openEnv at hr
      unfold leafConstraint
      cases ht : r.ty <;> simp only [ht] at h1 h2 hr ⊢ <;> simp at h1 h2 hr ⊢
      obtain ⟨-, c, hc⟩ := him _ h2
      simp [hc])
    hd he hv {} (by intro k i h; simp at h)
  obtain ⟨q1, q2, q3⟩ := addQs_spec qs g4
  have hq : ∀ qs' : List Nat, (∀ q ∈ qs', q ∈ qs) → ∃ qEv, qEvOf (addQs qs y.2.leaf) qs' = some qEv ∧
      ∀ evals : List A, (∀ (i : Nat) k, (addQs qs y.2.leaf).map[i]? = some k → evals[i]? = some (op k)) →
        (qEv.mapM fun i => evals[i]?) = some (qs'.map fun q => op (.cm, false, q)) := by
    intro qs'
    induction qs' with
    | nil => intro _; exact ⟨[], rfl, fun _ _ => rfl⟩
    | cons q qs' ih =>
      intro hsub
      obtain ⟨qEv, a, b⟩ := ih fun q h => hsub q (by simp [h])
      obtain ⟨i, hi⟩ := q3 q (.inl (hsub q (by simp)))
      refine ⟨i :: qEv, ?_, fun evals hev => ?_⟩
      · unfold qEvOf at a ⊢
        rw [List.mapM_cons, hi, a]
        rfl
      · rw [List.mapM_cons, hev i _ (q1 _ _ hi), b evals hev]
        rfl
  obtain ⟨qEv, r1, r2⟩ := hq qs fun _ h => h
  refine ⟨⟨x.1, addQs qs y.2.leaf⟩, qEv, ?_, r1, ⟨_, q2⟩, fun evals hev => ⟨?_, r2 evals hev⟩⟩
  · unfold genVerifier
    rw [g1, Option.bind_some, g2, Option.bind_some, g3]
    rfl
  · intro em vc e1 e2 e3
    have hpos : ∀ (i : Nat) k, x.2.leaf.map[i]? = some k → evals[i]? = some (op k) := by
      intro i k hk
      refine hev i k ?_
      rw [q2]
      exact prefix_getElem? (List.prefix_append _ _) (prefix_getElem? g5 hk)
    refine g6 em vc ?_
    intro r n w tmp h1 h2 hr hw
    unfold LRc at hr
    unfold readN withIm at hw
    unfold getRef
    cases ht : r.ty <;> simp only [ht] at h1 h2 hr hw <;> simp at h1 h2 hw
    case exp =>
      obtain ⟨a, c, b, k⟩ := hr
      simp only [a, e1]
      rw [hpos _ _ k]
      rw [if_pos h2, b] at hw
      simpa [openEnv] using hw
    case cm | const_ =>
      simp only [hr.1, e1]
      rw [hpos _ _ hr.2]
      simpa [openEnv] using hw
    case number => simp only [hr.1]; rw [hr.2]; exact hw
    case public_ => simp only [hr.1]; rw [hr.2, e2]; simpa [openEnv] using hw
    case challenge => simp only [hr.1]; rw [hr.2, e3]; simpa [openEnv] using hw
    case x => simp only [hr]; rw [e3]; simpa [openEnv] using hw
    all_goals simp [openEnv] at hw

/-! ### The query check -/

/-- The environment of a query: the values of the columns at the queried point, the claimed openings, and the two quotients
`x / (x - xi)` and `x / (x - w xi)`.  There is no next row. -/
def rowEnv (cm const : Nat → Option A) (evals publics chal : List A) (xd xdw : Option A) : Store A := fun t i p =>
  match t with
  | .cm => if p then none else cm i
  | .const_ => if p then none else const i
  | .eval => evals[i]?
  | .public_ => publics[i]?
  | .challenge => chal[i]?
  | .xDivXSubXi => xd
  | .xDivXSubWXi => xdw
  | _ => none

/-- what `leafQuery` does to a leaf -/
def LRq (im2cm : Nat → Option Nat) (pos : Nat → Option ColPos) (_ : Unit) (r : Node A) (n : VNode A) : Prop :=
  match r.ty with
  | .exp => ∃ c p, im2cm r.id = some c ∧ pos c = some p ∧ n.ty = .tree p.tree ∧ n.treePos = p.pos ∧ n.dim = p.dim
  | .cm => ∃ p, pos r.id = some p ∧ n.ty = .tree p.tree ∧ n.treePos = p.pos ∧ n.dim = p.dim
  | .const_ => n.ty = .const_ ∧ n.id = r.id
  | .number => n.ty = .number ∧ n.value = r.value
  | .challenge => n.ty = .challenge ∧ n.id = r.id
  | .public_ => n.ty = .public_ ∧ n.id = r.id
  | .x => n.ty = .x
  | .eval => n.ty = .eval ∧ n.id = r.id
  | .xDivXSubXi => n.ty = .xDivXSubXi
  | .xDivXSubWXi => n.ty = .xDivXSubWXi
  | _ => False

theorem leafQuery_pass (im2cm : Nat → Option Nat) (pos : Nat → Option ColPos) :
    LeafPass (A := A) (leafQuery im2cm pos) (fun _ => True) (fun _ _ => True) (LRq im2cm pos) where
  refl _ := trivial
  trans _ _ _ _ _ := trivial
  mono a b r n _ hr := hr
  step r l n l' h hok := by
    refine ⟨trivial, trivial, ?_⟩
    unfold leafQuery at h
    unfold LRq
    cases ht : r.ty <;> simp only [ht] at h ⊢
    case exp =>
      obtain ⟨c, hc, h⟩ := Option.bind_eq_some_iff.mp h
      obtain ⟨p, hp, h⟩ := Option.map_eq_some_iff.mp h
      obtain ⟨rfl, -⟩ := Prod.mk.inj h
      exact ⟨c, p, hc, hp, rfl, rfl, rfl⟩
    case cm =>
      obtain ⟨p, hp, h⟩ := Option.map_eq_some_iff.mp h
      obtain ⟨rfl, -⟩ := Prod.mk.inj h
      exact ⟨p, hp, rfl, rfl, rfl⟩
    case const_ | number | challenge | public_ | x | eval | xDivXSubXi | xDivXSubWXi =>
      obtain ⟨rfl, -⟩ := Prod.mk.inj (Option.some.inj h)
      simp
    all_goals cases h

theorem calcDeps_noRefs {gen : Ctx A → Nat → Bool → Option (Ctx A)} {p : Bool} : ∀ n, (∀ (e : Expr A), Tree.size e ≤ n → refs e = [] →
    ∀ ctx, calcDeps gen p e ctx = some ctx) ∧ (∀ (l : List (Expr A)), Tree.sizeL l ≤ n → refsL l = [] → ∀ ctx, calcDepsL gen p l ctx = some ctx) := by
  intro n
  induction n with
  | zero =>
    refine ⟨fun e h => ?_, fun l h => ?_⟩
    · cases e; simp [Tree.size] at h
    · cases l with
      | nil => intro _ ctx; rfl
      | cons t l => cases t; simp [Tree.sizeL, Tree.size] at h
  | succ n ih =>
    have h1 : ∀ (e : Expr A), Tree.size e ≤ n + 1 → refs e = [] → ∀ ctx, calcDeps gen p e ctx = some ctx := by
      intro e hs hr ctx
      cases e with
      | node l vs =>
        rw [refs, List.append_eq_nil_iff] at hr
        have ho : l.op ≠ .exp := by
          intro h
          rw [if_pos h] at hr
          simp at hr
        rw [calcDeps, if_neg ho, Option.bind_some]
        exact ih.2 vs (by simp [Tree.size] at hs; omega) hr.2 ctx
    refine ⟨h1, fun l hs hr ctx => ?_⟩
    induction l generalizing ctx with
    | nil => rfl
    | cons t l ihl =>
      rw [refsL, List.append_eq_nil_iff] at hr
      rw [Tree.sizeL] at hs
      rw [calcDepsL, h1 t (by omega) hr.1, Option.bind_some]
      exact ihl (by omega) hr.2 ctx

/-- For an expression without references, what is generated does not depend on the expressions already calculated. -/
theorem pilCodeGen_noRefs {zero : A} {exps : List (Expr A)} {fuel id : Nat} {p m : Bool} {e : Expr A} {c1 c2 : List (Bool × Nat)}
    (he : exps[id]? = some e) (hr : refs e = []) (h1 : (p, id) ∉ c1) (h2 : (p, id) ∉ c2) {ctx : Ctx A}
    (h : pilCodeGen zero exps fuel ⟨0, [], c1⟩ id p none m = some ctx) :
    ∃ ctx', pilCodeGen zero exps fuel ⟨0, [], c2⟩ id p none m = some ctx' ∧ ctx'.code = ctx.code ∧ ctx'.tmpUsed = ctx.tmpUsed := by
  cases fuel with
  | zero => simp [pilCodeGen] at h
  | succ fuel =>
    rw [pilCodeGen, if_neg h1, he, Option.bind_some, (calcDeps_noRefs _).1 e (Nat.le_refl _) hr, Option.bind_some] at h
    rw [pilCodeGen, if_neg h2, he, Option.bind_some, (calcDeps_noRefs _).1 e (Nat.le_refl _) hr, Option.bind_some]
    unfold genOne at h ⊢
    obtain ⟨x, a, h⟩ := Option.bind_eq_some_iff.mp h
    obtain ⟨y, b, h⟩ := Option.bind_eq_some_iff.mp h
    obtain ⟨z, c, h⟩ := Option.bind_eq_some_iff.mp h
    obtain ⟨w, d, h⟩ := Option.bind_eq_some_iff.mp h
    obtain ⟨u, f, rfl⟩ := Option.map_eq_some_iff.mp h
    rw [a, Option.bind_some, b, Option.bind_some, c, Option.bind_some, d, Option.bind_some, f]
    exact ⟨_, rfl, rfl, rfl⟩

/-- **C73**, the queries: let `v` be the value of the FRI expression (which has no references to other expressions) when the
columns have the values `cm` and `const`.  Then the query program is generated, and run on opened rows that hold these values at
the positions of the columns it computes exactly `v`. -/
theorem query_code {exps : List (Expr A)} {fuel : Nat} {im : List Nat} {im2cm : Nat → Option Nat} {pos : Nat → Option ColPos}
    {friExp : Nat} (hid : friExp ∉ im) {rest : List (Code A) → List (Instr A)} (hrest : SubCode rest)
    {cm const : Nat → Option A} {evals publics chal : List A} {xd xdw : Option A}
    (hcm : ∀ c, cm c ≠ none → pos c ≠ none)
    {d : Nat} {e : Expr A} {v : A} (hd : d < fuel) (he : exps[friExp]? = some e) (href : refs e = [])
    (hv : Val (fieldOps A) exps (rowEnv cm const evals publics chal xd xdw) d false e v) :
    ∃ code, genQuery (0 : A) exps fuel im im2cm pos friExp rest = some code ∧
      ∀ (em : Emb G A) (vc : VCtx G A), vc.evals = evals → vc.publics = publics → vc.challenge = chal → vc.xDiv = xd → vc.xDivW = xdw →
        (∀ c w p, cm c = some w → pos c = some p → extractVal em (vc.tree p.tree) p.pos p.dim = some w) →
        (∀ c w, const c = some w → (vc.consts[c]?).map em.emb = some w) →
        executeCode em vc code = some v := by
  have hsubst : substIm [] im2cm exps = exps := by
    refine List.ext_getElem? fun i => ?_
    rw [substIm, List.getElem?_mapIdx]
    cases exps[i]? <;> simp
  have hpre : ∀ (p : Bool) (k : Nat), (p, k) ∈ ([] : List (Bool × Nat)) ↔ k ∈ ([] : List Nat) := by simp
  obtain ⟨ctx, x, y, g1, g2, g3, g4, g5, g6⟩ := fixed_code (G := G) (leafQuery_pass im2cm pos) (imS := []) (im := im) (im2cm := im2cm) (by simp) hpre
    (by simp) hid
    (fun ctx hg i hi ht hc => by
      obtain ⟨ctx', k1, k2, k3⟩ := pilCodeGen_noRefs (c1 := []) (c2 := im.map fun k => (i.dest.prime, k)) he href (by simp)
        (by simp only [List.mem_map, Prod.mk.injEq, not_exists, not_and]
            intro k hk _ h2; exact hid (h2 ▸ hk)) hg
      have hi' : i ∈ linearCode ctx' := by rw [linearCode, k2]; exact hi
      rcases pilCodeGen_dest (S := im.map fun k => (i.dest.prime, k)) fuel k1 (fun _ h => h) (by simp [linearCode]) i hi' with h | h
      · rw [ht] at h; simp at h
      · exact h.2 (List.mem_map.mpr ⟨_, hc, rfl⟩)) hrest
    (σ := rowEnv cm const evals publics chal xd xdw) (fun _ _ => rfl) (fun _ _ => rfl) (by simp)
    (by
      intro r h1 h2 hr l
      unfold readN withIm rowEnv at hr
      unfold leafQuery
      cases ht : r.ty <;> simp only [ht] at h1 h2 hr ⊢ <;> simp at h1 h2 hr ⊢
      exact hcm _ hr.2)
    hd he (by rw [hsubst]; exact hv) () trivial
  refine ⟨x.1, ?_, ?_⟩
  · unfold genQuery
    rw [g1, Option.bind_some, g2, Option.bind_some, g3]
    rfl
  · intro em vc e1 e2 e3 e4 e5 e6 e7
    refine g6 em vc ?_
    intro r n w tmp h1 h2 hr hw
    unfold LRq at hr
    unfold readN withIm at hw
    unfold getRef
    cases ht : r.ty <;> simp only [ht] at h1 h2 hr hw <;> simp at h1 h2 hw
    case exp => simp [rowEnv] at hw
    case cm =>
      obtain ⟨p, p1, p2, p3, p4⟩ := hr
      simp only [p2, p3, p4]
      refine e6 _ _ _ ?_ p1
      cases hp : r.prime <;> simp [rowEnv, hp] at hw
      exact hw
    case const_ =>
      simp only [hr.1]
      rw [hr.2]
      refine e7 _ _ ?_
      cases hp : r.prime <;> simp [rowEnv, hp] at hw
      exact hw
    case number => simp only [hr.1]; rw [hr.2]; exact hw
    case public_ => simp only [hr.1]; rw [hr.2, e2]; simpa [rowEnv] using hw
    case challenge => simp only [hr.1]; rw [hr.2, e3]; simpa [rowEnv] using hw
    case eval => simp only [hr.1]; rw [hr.2, e1]; simpa [rowEnv] using hw
    case xDivXSubXi => simp only [hr]; rw [e4]; simpa [rowEnv] using hw
    case xDivXSubWXi => simp only [hr]; rw [e5]; simpa [rowEnv] using hw
    all_goals simp [rowEnv] at hw

/-- non-vacuity of `verifier_code`: the constraint `cm0' - cm0 * cm0`, whose product is the intermediate polynomial held by
column 1; quotient pieces in columns 2 and 3. -/
example (op : EvKey → ℚ) (rest : List (Code ℚ) → List (Instr ℚ)) (hrest : SubCode rest) :
    ∃ out qEv, genVerifier (0 : ℚ) [.node { op := .mul } [.node { op := .cm, id := some 0 } [], .node { op := .cm, id := some 0 } []],
        .node { op := .sub } [.node { op := .cm, id := some 0, next := true } [], .node { op := .exp, id := some 0 } []]]
        3 [0] (fun _ => some 1) 1 [2, 3] rest = some out ∧ qEvOf out.ev [2, 3] = some qEv ∧
      (∃ evs, out.ev.map = evs ++ [(.cm, false, 2), (.cm, false, 3)]) ∧
      ∀ evals : List ℚ, (∀ (i : Nat) k, out.ev.map[i]? = some k → evals[i]? = some (op k)) →
        (∀ (em : Emb ℚ ℚ) (vc : VCtx ℚ ℚ), vc.evals = evals → vc.publics = [] → vc.challenge = [] →
          executeCode em vc out.code = some (op (.cm, true, 0) - op (.cm, false, 1))) ∧
        (qEv.mapM fun i => evals[i]?) = some [op (.cm, false, 2), op (.cm, false, 3)] :=
  verifier_code (G := ℚ) (d := 1) (by simp) (by simp) [2, 3] hrest (by decide) rfl
    (.sub rfl (.col (t := .cm) (i := 0) rfl rfl rfl rfl) (.exp (i := 0) rfl rfl rfl rfl (.col (t := .cm) (i := 1) rfl rfl rfl rfl)) rfl)

/-- non-vacuity of `query_code`: the expression `(cm0 - eval0) * xDivXSubXi` with column 0 in the second tree at position 4. -/
example (w : ℚ) (rest : List (Code ℚ) → List (Instr ℚ)) (hrest : SubCode rest) : ∃ code,
    genQuery (0 : ℚ) [.node { op := .mul } [.node { op := .sub } [.node { op := .cm, id := some 0 } [], .node { op := .eval, id := some 0 } []],
      .node { op := .xDivXSubXi } []]] 1 [] (fun _ => none) (fun _ => some ⟨2, 4, 1⟩) 0 rest = some code ∧
    ∀ (em : Emb ℚ ℚ) (vc : VCtx ℚ ℚ), vc.evals = [5] → vc.publics = [] → vc.challenge = [] → vc.xDiv = some 3 → vc.xDivW = none →
      (∀ (c : Nat) v p, (if c = 0 then some w else none) = some v → some (⟨2, 4, 1⟩ : ColPos) = some p → extractVal em (vc.tree p.tree) p.pos p.dim = some v) →
      (∀ (c : Nat) v, (none : Option ℚ) = some v → (vc.consts[c]?).map em.emb = some v) → executeCode em vc code = some ((w - 5) * 3) :=
  query_code (G := ℚ) (cm := fun c => if c = 0 then some w else none) (const := fun _ => none) (d := 0) (by simp) hrest (by simp) (by decide) rfl rfl
    (.mul rfl (.sub rfl (.col (t := .cm) (i := 0) rfl rfl rfl rfl) (.byId (t := .eval) (i := 0) rfl rfl rfl) rfl)
      (.nullary (t := .xDivXSubXi) rfl rfl) rfl)

end Verif.Stark
