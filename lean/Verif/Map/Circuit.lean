import Verif.Map.Dims
import Verif.Grand.ColumnsProps
import Verif.Grand.Generated

/-!
# The layout computed by `map` is the one the prover theorems assume (C95)
-/
set_option linter.unusedSectionVars false

namespace Verif.Map
open Verif.StarkInfo
open Verif.Codegen (Expr Op)
open Verif.Grand
open Stark ImPols FFT Fri
open Verif.GL (F)
open Verif.Ext3 (K)

variable {A : Type} {fuel : Nat} {o : Out}

/-- What `map` is called on (starky/src/starkinfo.rs L229-274): the expressions of the PIL, of the arguments, the constraint
expression and the FRI expression; `n_cm1 = nCommitments` before `generate_step2`, `n_cm2` the columns added by it
(starkinfo.rs L349), `n_cm3` those added up to starkinfo_cp_prover.rs L83, `n_cm4 = q_deg`. -/
def inOf (st st' : PilSt A) (cx : ArgCtx) (S : Finset Nat) (qDeg : Nat) (cExp fe : Expr A) : In A where
  exps := st'.exps ++ [cExp] ++ [fe]
  nCm1 := st.nCm
  nCm2 := 2 * cx.pu.length
  nCm3 := cx.pu.length + cx.pe.length + cx.ci.length + S.card
  nCm4 := qDeg
  pu := cx.pu
  pe := cx.pe
  ci := cx.ci
  imExps k := decide (k ∈ S)
  imList := S.sort (· ≤ ·)
  cExp := st'.exps.length
  qDeg := qDeg

/-- every reference to another expression is below `n` -/
inductive RefsLt (n : Nat) : Expr A → Prop
  | mk {l vs} : (∀ j, l.op = .exp → l.id = some j → j < n) → (∀ c ∈ vs, RefsLt n c) → RefsLt n (.node l vs)

theorem RefsLt.mono {n m : Nat} (h : n ≤ m) {e : Expr A} (he : RefsLt n e) : RefsLt m e := by
  induction he with
  | mk h1 _ ih => exact ⟨fun j a b => lt_of_lt_of_le (h1 j a b) h, ih⟩

theorem expDim_append {exps more : List (Expr A)} {D : Nat → Option Nat} (hr : ∀ e ∈ exps, RefsLt exps.length e) : ∀ (n : Nat) (e : Expr A),
    RefsLt exps.length e → expDim (exps ++ more) D n e = expDim exps D n e
  | 0, _, _ => rfl
  | n + 1, .node l vs, h => by
    obtain ⟨h1, h2⟩ := h
    have hA : Stark.maxDim (expDim (exps ++ more) D n) vs 1 = Stark.maxDim (expDim exps D n) vs 1 :=
      maxDim_congr vs 1 fun v hv => expDim_append hr n v (h2 v hv)
    rw [expDim, expDim]
    split
    all_goals first
      | rfl
      | exact hA
      | (cases hi : l.id with
         | none => rfl
         | some k =>
           have hk := h1 k (by assumption) hi
           simp only [Option.bind_some]
           rw [List.getElem?_append_left hk, List.getElem?_eq_getElem hk]
           simp only [Option.bind_some]
           exact expDim_append hr n _ (hr _ (List.getElem_mem hk)))

theorem maxDim_mono {r r' : Expr A → Option Nat} (h : ∀ v d, r v = some d → r' v = some d) : ∀ (vs : List (Expr A)) (md d : Nat),
    Stark.maxDim r vs md = some d → Stark.maxDim r' vs md = some d
  | [], _, _, hd => hd
  | v :: vs, md, d, hd => by
    rw [Stark.maxDim] at hd ⊢
    obtain ⟨x, h1, h2⟩ := Option.bind_eq_some_iff.mp hd
    rw [h v x h1, Option.bind_some]
    exact maxDim_mono h vs _ d h2

theorem expDim_mono {exps : List (Expr A)} {D : Nat → Option Nat} : ∀ (n m : Nat) (e : Expr A) (d : Nat), n ≤ m → expDim exps D n e = some d →
    expDim exps D m e = some d
  | 0, _, _, _, _, h => by simp [expDim] at h
  | n + 1, 0, _, _, h, _ => by omega
  | n + 1, m + 1, .node l vs, d, hn, h => by
    have hA : Stark.maxDim (expDim exps D n) vs 1 = some d → Stark.maxDim (expDim exps D m) vs 1 = some d :=
      maxDim_mono (fun v d => expDim_mono n m v d (by omega)) vs 1 d
    rw [expDim] at h ⊢
    split at h
    all_goals first
      | exact hA h
      | exact h
      | (obtain ⟨k, hk, h⟩ := Option.bind_eq_some_iff.mp h
         obtain ⟨e, he, h⟩ := Option.bind_eq_some_iff.mp h
         simp only [hk, he, Option.bind_some]
         exact expDim_mono n m e d (by omega) h)

theorem expDim_unique {exps : List (Expr A)} {D : Nat → Option Nat} {n m : Nat} {e : Expr A} {d d' : Nat} (h : expDim exps D n e = some d)
    (h' : expDim exps D m e = some d') : d = d' := by
  have h1 := expDim_mono n (max n m) e d (by omega) h
  have h2 := expDim_mono m (max n m) e d' (by omega) h'
  rw [h1] at h2
  exact Option.some.inj h2

section
variable [Field A] {nC nP : Nat}

theorem sc_refs {lims : List Lim} {L : Lim} {e : Expr A} (h : Sc nC nP lims L e) : RefsLt lims.length e := by
  induction h with
  | bin hl _ _ i1 i2 =>
    refine ⟨fun j hj => by rw [hj] at hl; simp at hl, fun c hc => ?_⟩
    simp only [List.mem_cons, List.not_mem_nil, or_false] at hc
    rcases hc with rfl | rfl
    · exact i1
    · exact i2
  | neg hl _ i1 => exact ⟨fun j hj => by rw [hj] at hl; simp at hl, fun c hc => by simp only [List.mem_cons, List.not_mem_nil, or_false] at hc; subst hc; exact i1⟩
  | cst hl _ _ i1 => exact ⟨fun j hj => by rw [hj] at hl; simp at hl, fun c hc => by simp only [List.mem_cons, List.not_mem_nil, or_false] at hc; subst hc; exact i1⟩
  | num hl | cm hl | const_ hl | pub hl | chal hl | x hl => exact ⟨fun j hj => by rw [hj] at hl; simp at hl, by simp⟩
  | exp hl hi hm =>
    refine ⟨fun j _ hj => ?_, by simp⟩
    rw [hi] at hj
    obtain rfl := Option.some.inj hj
    exact lt_of_get hm

theorem scoped_refs {exps : List (Expr A)} {lims : List Lim} (h : Scoped nC nP exps lims) : ∀ e ∈ exps, RefsLt exps.length e := by
  induction h with
  | nil => simp
  | @snoc exps lims e L hs hsc ih =>
    intro e' he'
    rw [List.length_append]
    rcases List.mem_append.mp he' with h1 | h1
    · exact (ih e' h1).mono (by simp)
    · simp only [List.mem_cons, List.not_mem_nil, or_false] at h1
      subst h1
      exact (hs.length ▸ sc_refs hsc).mono (by simp)

/-- an expression in scope refers to columns below its limit -/
theorem scoped_uses {exps more : List (Expr A)} {lims : List Lim} (h : Scoped nC nP exps lims) : ∀ (j : Nat) (e : Expr A) (m : Lim) (k : Nat),
    exps[j]? = some e → lims[j]? = some m → Uses (exps ++ more) k e → k < m.cols := by
  induction h generalizing more with
  | nil => intro j e m k h; simp at h
  | @snoc exps lims e0 L0 hs hsc ih =>
    intro j e m k he hm hu
    have hlen := hs.length
    by_cases hj : j < exps.length
    · rw [List.getElem?_append_left hj] at he
      rw [List.getElem?_append_left (by omega)] at hm
      rw [List.append_assoc] at hu
      exact ih j e m k he hm hu
    · have hj' : j = exps.length := by
        have := lt_of_get he
        rw [List.length_append, List.length_singleton] at this
        omega
      subst hj'
      rw [List.getElem?_append_right (le_refl _)] at he
      rw [List.getElem?_append_right (by omega), hlen] at hm
      simp at he hm
      subst he; subst hm
      clear hlen
      have key : ∀ e, Uses (exps ++ [e0] ++ more) k e → Sc nC nP lims L0 e → k < L0.cols := by
        intro e hu
        induction hu with
        | cm hl hi =>
          intro hsc
          cases hsc with
          | bin h | neg h | cst h => simp [hl] at h
          | num h | const_ h | pub h | chal h | x h | exp h => simp [hl] at h
          | cm _ h1 h2 =>
            rw [hi] at h1
            obtain rfl := Option.some.inj h1
            exact h2
        | @arith l vs v ha hv _ ih' =>
          intro hsc
          cases hsc with
          | bin _ h1 h2 =>
            simp only [List.mem_cons, List.not_mem_nil, or_false] at hv
            rcases hv with rfl | rfl
            · exact ih' h1
            · exact ih' h2
          | neg _ h1 => simp only [List.mem_cons, List.not_mem_nil, or_false] at hv; subst hv; exact ih' h1
          | cst _ _ h1 => simp only [List.mem_cons, List.not_mem_nil, or_false] at hv; subst hv; exact ih' h1
          | num | cm | const_ | pub | chal | x | exp => simp at hv
        | @exp l vs j' e' hl hi he' hu' _ =>
          intro hsc
          cases hsc with
          | bin h | neg h | cst h => simp [hl] at h
          | num h | const_ h | pub h | chal h | x h | cm h => simp [hl] at h
          | exp _ h1 h2 h3 =>
            rw [hi] at h1
            obtain rfl := Option.some.inj h1
            have hlt : j' < exps.length := by rw [← hs.length]; exact lt_of_get h2
            rw [List.append_assoc, List.getElem?_append_left hlt] at he'
            rw [List.append_assoc] at hu'
            exact lt_of_lt_of_le (ih j' e' _ k he' h2 hu') h3
      exact key e0 hu hsc
end

/-! ### The constraint expression -/

theorem combine_some (c e : Expr A) : combine (some c) e = some (.node { op := .add } [.node { op := .mul } [vcE, c], e]) := rfl

/-- what is known of the constraint expression while it is built: its references are in range, it uses columns below `b`, and
it contains a challenge or it is one reference -/
structure CAcc (exps : List (Expr A)) (n b : Nat) (c : Expr A) : Prop where
  refs : RefsLt n c
  uses : ∀ k, Uses exps k c → k < b

theorem CAcc.combine {exps : List (Expr A)} {n b : Nat} {c e c' : Expr A} (h : CAcc exps n b c) (he : CAcc exps n b e) (hc : ImPols.combine (some c) e = some c') :
    CAcc exps n b c' ∧ HasChal exps c' := by
  rw [combine_some] at hc
  obtain rfl := Option.some.inj hc
  refine ⟨⟨⟨by simp, fun x hx => ?_⟩, fun k hk => ?_⟩, ?_⟩
  · simp only [List.mem_cons, List.not_mem_nil, or_false] at hx
    rcases hx with rfl | rfl
    · refine ⟨by simp, fun y hy => ?_⟩
      simp only [List.mem_cons, List.not_mem_nil, or_false] at hy
      rcases hy with rfl | rfl
      · exact ⟨by simp, by simp⟩
      · exact h.refs
    · exact he.refs
  · rcases hk with ⟨h1, -⟩ | ⟨-, hv, hu⟩ | ⟨h1, -⟩
    · simp at h1
    · simp only [List.mem_cons, List.not_mem_nil, or_false] at hv
      rcases hv with rfl | rfl
      · rcases hu with ⟨h1, -⟩ | ⟨-, hv, hu⟩ | ⟨h1, -⟩
        · simp at h1
        · simp only [List.mem_cons, List.not_mem_nil, or_false] at hv
          rcases hv with rfl | rfl
          · rcases hu with ⟨h1, -⟩ | ⟨-, hv, hu⟩ | ⟨h1, -⟩
            · simp at h1
            · simp at hv
            · simp at h1
          · exact h.uses k hu
        · simp at h1
      · exact he.uses k hu
    · simp at h1
  · exact .arith (v := .node { op := .mul } [vcE, c]) (.inl rfl) (by simp) (.arith (v := vcE) (.inr (.inr (.inl rfl))) (by simp) (.chal rfl))

/-- the constraint expression: references, columns, and the challenge when it combines several constraints -/
theorem generate_acc {fuelI : Nat} {exps more : List (Expr A)} {ids : List Nat} {nCm md : Nat} {S : Finset Nat} {q : Nat} {c : Expr A}
    (h : generate fuelI exps ids nCm md = some (S, q, c)) (hids : ∀ id ∈ ids, id < exps.length) (hr : ∀ e ∈ exps, RefsLt exps.length e)
    (hu : ∀ e ∈ exps, ∀ k, Uses (exps ++ more) k e → k < nCm) :
    CAcc (exps ++ more) exps.length (nCm + S.card) c ∧ (HasChal (exps ++ more) c ∨ (ids.length = 1 ∧ S = ∅)) := by
  obtain ⟨b, hb⟩ : ∃ b, b = nCm + S.card := ⟨_, rfl⟩
  have hle : nCm ≤ b := by omega
  unfold ImPols.generate at h
  obtain ⟨c1, hc1, h⟩ := Option.bind_eq_some_iff.mp h
  obtain ⟨⟨S', q'⟩, hs, h⟩ := Option.bind_eq_some_iff.mp h
  dsimp only at h
  split_ifs at h
  obtain ⟨c2, h2, h3⟩ := Option.map_eq_some_iff.mp h
  simp only [Prod.mk.injEq] at h3
  obtain ⟨rfl, rfl, rfl⟩ := h3
  rw [← hb]
  have hE : ∀ id, id < exps.length → CAcc (exps ++ more) exps.length b (ImPols.expE id) := by
    intro id hid
    refine ⟨⟨fun j _ hj => ?_, by simp⟩, fun k hk => ?_⟩
    · simp at hj; omega
    · rcases hk with ⟨h1, -⟩ | ⟨-, hv, -⟩ | ⟨-, hj, he, hu'⟩
      · simp at h1
      · simp at hv
      · simp only [Option.some.injEq] at hj
        subst hj
        rw [List.getElem?_append_left hid] at he
        exact lt_of_lt_of_le (hu _ (List.mem_of_getElem? he) k hu') hle
  have hfirst : CAcc (exps ++ more) exps.length b c1 ∧ (HasChal (exps ++ more) c1 ∨ ids.length = 1) := by
    have main : ∀ (is : List Nat) (oc : Option (Expr A)), (∀ id ∈ is, id < exps.length) →
        (∀ c, oc = some c → CAcc (exps ++ more) exps.length b c) →
        ∀ c, is.foldl (fun c i => ImPols.combine c (ImPols.expE i)) oc = some c → CAcc (exps ++ more) exps.length b c ∧
          (HasChal (exps ++ more) c ∨ (is = [] ∨ (oc = none ∧ is.length = 1))) := by
      intro is
      induction is with
      | nil => intro oc _ ho c h; exact ⟨ho c h, .inr (.inl rfl)⟩
      | cons id is ih =>
        intro oc hi ho c h
        rw [List.foldl_cons] at h
        have hid := hE id (hi id (by simp))
        cases oc with
        | none =>
          obtain ⟨g1, g2⟩ := ih (some (ImPols.expE id)) (fun j hj => hi j (by simp [hj])) (by rintro c' h'; obtain rfl := Option.some.inj h'; exact hid) c h
          refine ⟨g1, g2.imp (fun h => h) fun h => .inr ⟨rfl, ?_⟩⟩
          rcases h with rfl | ⟨h, -⟩
          · rfl
          · simp at h
        | some c0 =>
          obtain ⟨k1, k2⟩ := (ho c0 rfl).combine hid rfl
          obtain ⟨g1, g2⟩ := ih _ (fun j hj => hi j (by simp [hj])) (by rintro c' h'; obtain rfl := Option.some.inj h'; exact k1) c h
          refine ⟨g1, .inl ?_⟩
          rcases g2 with g2 | rfl | ⟨h', -⟩
          · exact g2
          · rw [List.foldl_nil] at h
            obtain rfl := Option.some.inj h
            exact k2
          · cases h'
    obtain ⟨g1, g2⟩ := main ids none hids (by simp) c1 hc1
    refine ⟨g1, g2.imp (fun h => h) fun h => ?_⟩
    rcases h with rfl | ⟨-, h⟩
    · unfold ImPols.identExp at hc1; simp at hc1
    · exact h
  have main2 : ∀ (ks : List (Nat × Nat)) (c c' : Expr A), (∀ x ∈ ks, x.2 < S'.card) → CAcc (exps ++ more) exps.length b c →
      ImPols.addIm exps nCm ks (some c) = some c' → CAcc (exps ++ more) exps.length b c' ∧ ((c' = c ∧ ks = []) ∨ HasChal (exps ++ more) c') := by
    intro ks
    induction ks with
    | nil =>
      intro c c' _ hc h
      simp only [ImPols.addIm, Option.some.injEq] at h
      subst h
      exact ⟨hc, .inl ⟨rfl, rfl⟩⟩
    | cons x ks ih =>
      obtain ⟨k, j⟩ := x
      intro c c' hks hc h
      rw [ImPols.addIm] at h
      obtain ⟨e, he, h⟩ := Option.bind_eq_some_iff.mp h
      have hem := List.mem_of_getElem? he
      have hsub : CAcc (exps ++ more) exps.length b (.node { op := .sub } [e, ImPols.cmE (nCm + j)]) := by
        refine ⟨⟨by simp, fun x hx => ?_⟩, fun k' hk' => ?_⟩
        · simp only [List.mem_cons, List.not_mem_nil, or_false] at hx
          rcases hx with rfl | rfl
          · exact hr _ hem
          · exact ⟨by simp, by simp⟩
        · rcases hk' with ⟨h1, -⟩ | ⟨-, hv, hu'⟩ | ⟨h1, -⟩
          · simp at h1
          · simp only [List.mem_cons, List.not_mem_nil, or_false] at hv
            rcases hv with rfl | rfl
            · exact lt_of_lt_of_le (hu _ hem k' hu') hle
            · rcases hu' with ⟨-, h1⟩ | ⟨-, hv, -⟩ | ⟨h1, -⟩
              · simp only [Option.some.injEq] at h1
                have := hks (k, j) (by simp)
                dsimp only at this
                omega
              · simp at hv
              · simp at h1
          · simp at h1
      obtain ⟨k1, k2⟩ := hc.combine hsub rfl
      obtain ⟨g1, g2⟩ := ih _ c' (fun x hx => hks x (by simp [hx])) k1 h
      refine ⟨g1, .inr ?_⟩
      rcases g2 with ⟨rfl, -⟩ | g2
      · exact k2
      · exact g2
  have hks : ∀ x ∈ (S'.sort (· ≤ ·)).zipIdx, x.2 < S'.card := by
    rintro ⟨k, j⟩ hx
    rw [List.mk_mem_zipIdx_iff_getElem?] at hx
    have := lt_of_get hx
    rwa [Finset.length_sort] at this
  obtain ⟨g1, g2⟩ := main2 _ c1 c2 hks hfirst.1 h2
  refine ⟨g1, ?_⟩
  rcases g2 with ⟨rfl, hnil⟩ | g2
  · rcases hfirst.2 with h' | h'
    · exact .inl h'
    · refine .inr ⟨h', ?_⟩
      have := congrArg List.length hnil
      simpa using this
  · exact .inl g2

theorem uses_refs {exps : List (Expr A)} {more : List (Expr A)} (hr : ∀ e ∈ exps, RefsLt exps.length e) {k : Nat} {e : Expr A} (hu : Uses (exps ++ more) k e) :
    RefsLt exps.length e → Uses exps k e := by
  induction hu with
  | cm h1 h2 => exact fun _ => .cm h1 h2
  | arith h1 h2 _ ih => rintro ⟨-, h3⟩; exact .arith h1 h2 (ih (h3 _ h2))
  | exp h1 h2 h3 _ ih =>
    rintro ⟨h4, -⟩
    have hlt := h4 _ h1 h2
    rw [List.getElem?_append_left hlt] at h3
    exact .exp h1 h2 h3 (ih (hr _ (List.mem_of_getElem? h3)))

theorem cntC_pos {cols : List (Nat × Nat)} {t e : Nat} (h : cntC t e cols ≠ 0) : ∃ (k : Nat), cols[k]? = some (t, e) := by
  unfold cntC at h
  obtain ⟨x, hx, hp⟩ := List.countP_pos_iff.mp (Nat.pos_of_ne_zero h)
  simp at hp
  obtain ⟨k, hk⟩ := List.mem_iff_getElem?.mp hx
  exact ⟨k, by rw [hk]; congr 1; ext <;> simp [hp]⟩

section
variable {E : Type} {i : In E}

/-- the last columns: the pieces of the quotient follow each other in their tree -/
theorem map_quot (h : map i fuel = some o) (hn2 : i.nCm2 = 2 * i.pu.length) (hq : o.qDim = 1 ∨ o.qDim = 3) :
    (∀ p < i.qDeg, o.pos (i.zBase + i.nZ + i.imList.length + p) = some ⟨4, o.qDim * p, o.qDim⟩) ∧ o.width2 4 = o.qDim * i.qDeg := by
  obtain ⟨ds, es, a1, a2, hC, -, -, -⟩ := map_cols h hn2
  obtain ⟨pre, hpre⟩ : ∃ pre, colList i ds es o.qDim = pre ++ List.replicate i.qDeg (4, o.qDim) := ⟨_, rfl⟩
  have hlen : pre.length = i.zBase + i.nZ + i.imList.length := by
    have h1 := colList_length (i := i) ds es o.qDim a1 a2
    rw [hpre, List.length_append, List.length_replicate] at h1
    simp only [In.nCols] at h1
    simp only [In.zBase, In.nZ]
    omega
  have hp4 : ∀ e, cntC 4 e pre = 0 := by
    intro e
    by_contra hne
    obtain ⟨k, hk⟩ := cntC_pos hne
    have hkl := lt_of_get hk
    have hk' : (colList i ds es o.qDim)[k]? = some (4, e) := by rw [hpre, List.getElem?_append_left hkl]; exact hk
    have := (hC.trees k 4 e hk').1
    simp only [In.tree] at this
    simp only [In.zBase, In.nZ] at hlen
    split_ifs at this <;> omega
  have hrep : ∀ n e, cntC 4 e (List.replicate n (4, o.qDim)) = if o.qDim = e then n else 0 := by
    intro n e
    unfold cntC
    rw [List.countP_replicate]
    simp
  have hcnt : ∀ e, cntC 4 e (colList i ds es o.qDim) = if o.qDim = e then i.qDeg else 0 := by
    intro e
    rw [hpre]
    unfold cntC
    rw [List.countP_append]
    have h1 := hp4 e
    have h2 := hrep i.qDeg e
    unfold cntC at h1 h2
    rw [h1, h2, Nat.zero_add]
  constructor
  · intro p hp
    have hk : (colList i ds es o.qDim)[i.zBase + i.nZ + i.imList.length + p]? = some (4, o.qDim) := by
      rw [hpre, List.getElem?_append_right (by omega), hlen, Nat.add_sub_cancel_left, List.getElem?_replicate, if_pos hp]
    rw [(hC.pos _ 4 o.qDim hk).1]
    have htake : cntC 4 o.qDim ((colList i ds es o.qDim).take (i.zBase + i.nZ + i.imList.length + p)) = p := by
      rw [hpre, List.take_append, List.take_of_length_le (by omega), hlen, Nat.add_sub_cancel_left, List.take_replicate]
      have h1 := hp4 o.qDim
      have h2 := hrep (min p i.qDeg) o.qDim
      unfold cntC at h1 h2 ⊢
      rw [List.countP_append, h1, h2, if_pos rfl]
      omega
    unfold posC
    rw [if_pos (by omega), htake]
    have hst : startC 4 (colList i ds es o.qDim) o.qDim = 0 := by
      have w1 := hcnt 1
      have w2 := hcnt 2
      generalize colList i ds es o.qDim = L at w1 w2
      rcases hq with hq | hq
      · rw [hq]; rfl
      · rw [hq] at w1 w2 ⊢; simp [startC, w1, w2]
    rw [hst, Nat.zero_add]
  · rw [(hC.width 4 (by omega) (by omega)).2]
    unfold widthC
    have w1 := hcnt 1
    have w2 := hcnt 2
    have w3 := hcnt 3
    generalize colList i ds es o.qDim = L at w1 w2 w3
    rcases hq with hq | hq <;> rw [hq] at w1 w2 w3 ⊢ <;> simp [w1, w2, w3]

end

theorem idx_sort {S : Finset Nat} {n k : Nat} (h : (S.sort (· ≤ ·))[n]? = some k) : k ∈ S := (Finset.mem_sort (· ≤ ·)).mp (List.mem_of_getElem? h)

/-- **C95** If the circuit is well-formed (`Scoped`, `ArgsScoped`), the arguments are those of `genArgs`, the constraint
expression that of `generate` and `map` succeeds, then the positions and widths that `map` returns satisfy every layout hypothesis
of the completeness theorems of the prover (C75, C76, C84, C85): `ArgLayout`, `fit`, `ArgDims`, `Layout` and `Dims`. -/
theorem map_layout {R : Run} {T : Trace} {U : Setup K} {l1 : Option Nat} {st st' : PilSt K} {a : Args} {cx : ArgCtx} {lims : List Lim} {fe : Expr K}
    {fuelI md : Nat} (hm : map (inOf st st' cx U.S U.qDeg U.cExp fe) fuel = some o)
    (hgen : genArgs (algebraMap F K) l1 st a = some (st', cx)) (hsc : Scoped T.nConst R.publics.length st.exps lims)
    (hb : ∀ m ∈ lims, m.cols ≤ st.nCm ∧ m.chals ≤ 4) (ha : ArgsScoped a lims st.nCm) (hl : ∀ l, l1 = some l → l < T.nConst)
    (hg : generate fuelI st'.exps st'.ids st'.nCm md = some (U.S, U.qDeg, U.cExp)) (hids : ∀ id ∈ st.ids, id < st.exps.length)
    (hS : ∀ k ∈ U.S, k < st'.exps.length ∧ Safe (inOf st st' cx U.S U.qDeg U.cExp fe) k)
    (hnum : ∀ e ∈ st'.exps, NumBase e) (hpub : ∀ v ∈ R.publics, Base v)
    (hpos : R.pos = o.pos) (hqd : R.qDim = o.qDim) (hnc : R.nCm = st'.nCm) (hw : ∀ t, 1 ≤ t → t ≤ 3 → T.width t = o.widthN t) :
    ArgLayout R U.S st.nCm a.plookups.length ∧
    (∀ k c, R.pos k = some c → (c.dim = 1 ∨ c.dim = 3) ∧ (c.tree ≤ 3 → c.pos + c.dim ≤ T.width c.tree)) ∧
    ArgDims R U.S st'.exps st.nCm cx ∧ Layout R U T ∧ Dims R U st'.exps := by
  obtain ⟨i, hi⟩ : ∃ i, i = inOf st st' cx U.S U.qDeg U.cExp fe := ⟨_, rfl⟩
  rw [← hi] at hm hS
  have hpu : i.pu = cx.pu := by rw [hi]; rfl
  have hn2 : i.nCm2 = 2 * i.pu.length := by rw [hi]; rfl
  have hn1 : i.nCm1 = st.nCm := by rw [hi]; rfl
  have him : i.imList = U.S.sort (· ≤ ·) := by rw [hi]; rfl
  have hexps : i.exps = st'.exps ++ ([U.cExp] ++ [fe]) := by rw [hi]; simp [inOf]
  have hce : i.cExp = st'.exps.length := by rw [hi]; rfl
  have hqd' : i.qDeg = U.qDeg := by rw [hi]; rfl
  obtain ⟨e1, e2, e3, -⟩ := genArgs_ctx hgen
  have hncm := (genArgs_ext hgen).2
  have hz : i.zBase = st.nCm + 2 * a.plookups.length := by rw [In.zBase, hn1, hpu, e1]
  have hzz : i.zBase + i.nZ = st'.nCm := by
    have : i.nZ = cx.pu.length + cx.pe.length + cx.ci.length := by rw [hi]; rfl
    rw [hz, this, hncm]; omega
  have hil : i.imList.length = U.S.card := by rw [him, Finset.length_sort]
  obtain ⟨more, hsc', hall, hlk, -⟩ := genArgs_scoped hgen hsc hl ha hb
  have hrefs := scoped_refs hsc'
  have hbelow : ∀ (j b : Nat) (m : Lim), (lims ++ more)[j]? = some m → m.cols ≤ b → Below i b j := by
    intro j b m hj hmb e he k hk
    have hlt : j < st'.exps.length := by rw [← hsc'.length]; exact lt_of_get hj
    rw [hexps] at he hk
    rw [List.getElem?_append_left hlt] at he
    exact lt_of_lt_of_le (scoped_uses hsc' j e m k he hj hk) hmb
  have hpair : ∀ (n : Nat) (c : PCtx), i.pu[n]? = some c → Below i (i.nCm1 + 2 * n) c.fExp ∧ Below i (i.nCm1 + 2 * n) c.tExp := by
    intro n c hc
    rw [hpu] at hc
    obtain ⟨⟨m, g1, g2, -⟩, ⟨m', g3, g4, -⟩⟩ := hlk c (List.mem_of_getElem? hc)
    exact ⟨hbelow _ _ m g1 (by omega), hbelow _ _ m' g3 (by omega)⟩
  have hsafe : ∀ k ∈ i.imList, Safe i k := fun k hk => (hS k (by rw [him] at hk; exact (Finset.mem_sort (· ≤ ·)).mp hk)).2
  have huses : ∀ e ∈ st'.exps, ∀ k, Uses (st'.exps ++ ([U.cExp] ++ [fe])) k e → k < st'.nCm := by
    intro e he k hk
    obtain ⟨j, hj⟩ := List.mem_iff_getElem?.mp he
    have hlt : j < (lims ++ more).length := by rw [hsc'.length]; exact lt_of_get hj
    have hm' := List.getElem?_eq_getElem hlt
    exact lt_of_lt_of_le (scoped_uses hsc' j e _ k hj hm' hk) (hall _ (List.mem_of_getElem? hm')).1
  obtain ⟨hacc, hchal⟩ := generate_acc (more := [U.cExp] ++ [fe]) hg (genArgs_idsLt hgen hids) hrefs huses
  have hceq : i.exps[i.cExp]? = some U.cExp := by rw [hexps, hce]; simp
  have hsafeC : Safe i i.cExp := by
    rcases hchal with hc | ⟨h1, h2⟩
    · refine .inr ⟨fun e he k hk => ?_, fun e he => ?_⟩
      · rw [hceq] at he
        obtain rfl := Option.some.inj he
        rw [hexps] at hk
        have := hacc.uses k hk
        rw [hil, hzz]
        exact this
      · rw [hceq] at he
        obtain rfl := Option.some.inj he
        rw [hexps]
        exact hc
    · refine .inl fun e he k hk => ?_
      rw [hceq] at he
      obtain rfl := Option.some.inj he
      rw [hexps] at hk
      have h3 := hacc.uses k hk
      rw [h2] at h3
      have h4 := genArgs_ids hgen
      have h5 := congrArg List.length h4
      rw [h1, List.length_append, List.length_flatMap] at h5
      simp only [List.length_cons, List.length_nil, List.map_const', List.sum_replicate, List.length_append, smul_eq_mul] at h5
      have h6 : i.nZ = cx.pu.length + cx.pe.length + cx.ci.length := by rw [hi]; rfl
      simp only [Finset.card_empty, Nat.add_zero] at h3
      omega
  obtain ⟨p1, p2, p3⟩ := map_pos hm hn2
  have hpd := fun {k k' : Nat} => map_disjoint hm hn2 (k := k) (k' := k')
  obtain ⟨d1, d2, d3, d4, d5, d6⟩ := map_dims hm hn2
  have d13 := fun {k d : Nat} => map_dims_13 hm hn2 hpair hsafe hsafeC (k := k) (d := d)
  have hNC : i.nCols = st'.nCm + U.S.card + U.qDeg := by
    simp only [In.nCols]
    simp only [In.zBase, In.nZ] at hzz
    rw [hil, hqd']
    omega
  have hlt : ∀ k c, o.pos k = some c → k < i.nCols := by
    intro k c hk
    by_contra hge
    rw [(p2 k (by omega)).1] at hk
    cases hk
  have hget : ∀ k c, o.pos k = some c → c.tree = i.tree k ∧ (c.dim = 1 ∨ c.dim = 3) ∧ c.pos + c.dim ≤ o.width2 c.tree := by
    intro k c hk
    obtain ⟨c', g1, -, g3, -, g5⟩ := p1 k (hlt k c hk)
    rw [g1] at hk
    obtain rfl := Option.some.inj hk
    exact ⟨g3, d13 (k := k) (by rw [Out.dim, g1]; rfl), g5⟩
  have htree : ∀ k, i.tree k = if k < st.nCm then 1 else if k < st.nCm + 2 * a.plookups.length then 2 else if k < st'.nCm + U.S.card then 3 else 4 := by
    intro k
    rw [In.tree, hn1, hil]
    have e4 : i.nCm1 + 2 * i.pu.length + (i.pu.length + i.pe.length + i.ci.length) = st'.nCm := hzz
    have e5 : i.pu.length = a.plookups.length := by rw [hpu, e1]
    rw [hn1] at e4
    rw [e4, e5]
  have hat : ∀ k, k < i.nCols → ∃ c, o.pos k = some c ∧ c.tree = i.tree k := fun k hk => by
    obtain ⟨c, g1, -, g3, -⟩ := p1 k hk
    exact ⟨c, g1, g3⟩
  have hwid : ∀ t, 1 ≤ t → t ≤ 3 → T.width t = o.width2 t := fun t h1 h2 => by rw [hw t h1 h2, p3 t h1 (by omega)]
  have hq13 : o.qDim = 1 ∨ o.qDim = 3 := by
    have h1 := d5 hsafeC
    unfold Out.expDim at h1
    rw [hceq, Option.bind_some] at h1
    refine expDim_13 fuel _ _ (fun k d hk hd => d13 hd) h1
  obtain ⟨q1, q2⟩ := map_quot hm hn2 hq13
  have happ : ∀ (id : Nat) (e : Expr K) (d : Nat), st'.exps[id]? = some e → o.expDim i fuel id = some d →
      expDim st'.exps (fun k => (R.pos k).map ColPos.dim) fuel e = some d := by
    intro id e d he hd
    have hlt := lt_of_get he
    unfold Out.expDim at hd
    rw [hexps, List.getElem?_append_left hlt, he, Option.bind_some, expDim_append hrefs fuel e (hrefs _ (List.mem_of_getElem? he))] at hd
    rw [hpos]
    exact hd
  have hdim1 : ∀ id d, id < st'.exps.length → o.expDim i fuel id = some d → d ≤ 1 → Dim1 R st'.exps id := by
    intro id d hlt hd h1
    exact ⟨_, fuel, d, List.getElem?_eq_getElem hlt, happ id _ d (List.getElem?_eq_getElem hlt) hd, h1⟩
  refine ⟨⟨by omega, fun k hk => ?_, fun k hk hk' => ?_, fun k hk hk' => ?_, fun k hk hk' => ?_, fun k k' c c' hkk hk' hc hc' ht => ?_⟩, ?_, ⟨hnum, hpub, ?_, ?_⟩, ⟨?_, ?_, ?_⟩,
    ⟨hnum, hpub, ?_, ?_⟩⟩
  · obtain ⟨c, g1, g2⟩ := hat k (by omega)
    exact ⟨c, by rw [hpos, g1], by rw [g2, htree, if_pos hk]⟩
  · obtain ⟨c, g1, g2⟩ := hat k (by omega)
    exact ⟨c, by rw [hpos, g1], by rw [g2, htree, if_neg (by omega), if_pos hk']⟩
  · rw [hnc] at hk'
    obtain ⟨c, g1, g2⟩ := hat k (by omega)
    refine ⟨c, by rw [hpos, g1], by rw [g2, htree, if_neg (by omega), if_neg (by omega), if_pos (by omega)], ?_⟩
    have := d3 k (by omega) (by omega)
    rw [Out.dim, g1] at this
    exact Option.some.inj this
  · rw [hnc] at hk hk'
    obtain ⟨c, g1, g2⟩ := hat k (by omega)
    exact ⟨c, by rw [hpos, g1], by rw [g2, htree, if_neg (by omega), if_neg (by omega), if_pos (by omega)]⟩
  · rw [hpos] at hc hc'
    have hd := hpd (by omega : k ≠ k') hc hc' ht
    have g1 := (hget k c hc).2.1
    have g2 := (hget k' c' hc').2.1
    unfold Disj
    have x1 := hd c.pos
    have x2 := hd c'.pos
    omega
  · intro k c hk
    rw [hpos] at hk
    obtain ⟨g1, g2, g3⟩ := hget k c hk
    refine ⟨g2, fun ht => ?_⟩
    rw [hwid c.tree (by rw [g1, In.tree]; split_ifs <;> omega) ht]
    exact g3
  · intro n c c1 c2 hc hc1 hc2
    rw [hpos] at hc1 hc2
    have hc' : i.pu[n]? = some c := by rw [hpu]; exact hc
    obtain ⟨hf, ht⟩ := hpair n c hc'
    obtain ⟨df, dt, g1, g2, g3, g4⟩ := d2 n c hc' hf ht
    rw [hn1, Out.dim, hc1] at g3
    rw [hn1, Out.dim, hc2] at g4
    have g3 := Option.some.inj g3
    have g4 := Option.some.inj g4
    obtain ⟨⟨m, k1, k2, -⟩, ⟨m', k3, k4, -⟩⟩ := hlk c (List.mem_of_getElem? hc)
    refine ⟨by rw [g3, g4], fun h1 => ⟨hdim1 _ _ ?_ g1 (by omega), hdim1 _ _ ?_ g2 (by omega)⟩⟩
    · rw [← hsc'.length]; exact lt_of_get k1
    · rw [← hsc'.length]; exact lt_of_get k3
  · intro n k c hk hc h1
    rw [hpos, hnc] at hc
    have hk' : i.imList[n]? = some k := by rw [him]; exact hk
    obtain ⟨d, g1, g2⟩ := d4 n k hk' (hsafe k (List.mem_of_getElem? hk'))
    rw [hzz, Out.dim, hc] at g2
    have g2 := Option.some.inj g2
    exact hdim1 k d (hS k (idx_sort hk)).1 g1 (by omega)
  · intro k c hk
    rw [hpos] at hk
    obtain ⟨g1, g2, g3⟩ := hget k c hk
    have hlo : 1 ≤ c.tree ∧ c.tree ≤ 4 := by rw [g1, In.tree]; split_ifs <;> omega
    refine ⟨g2, hlo.1, hlo.2, ?_⟩
    unfold width4
    split_ifs with h4
    · rw [h4, q2, hqd'] at g3
      rw [hqd]
      exact g3
    · rw [hwid c.tree hlo.1 (by omega)]
      exact g3
  · intro k hk
    rw [hnc] at hk
    obtain ⟨c, g1, g2⟩ := hat k (by omega)
    exact ⟨c, by rw [hpos, g1], by rw [g2, htree]; split_ifs <;> omega⟩
  · intro p hp
    rw [hpos, hnc, hqd]
    have := q1 p (by omega)
    rw [hzz, hil] at this
    exact this
  · refine ⟨fuel, ?_⟩
    have h1 := d5 hsafeC
    unfold Out.expDim at h1
    rw [hceq, Option.bind_some, hexps, expDim_append hrefs fuel _ hacc.refs] at h1
    rw [hpos, hqd]
    exact h1
  · intro k hk e n d he hd c hc
    have hlt := (hS k hk).1
    unfold im2cmOf at hc
    rw [if_pos hk] at hc
    obtain rfl := Option.some.inj hc
    have hmem : k ∈ U.S.sort (· ≤ ·) := (Finset.mem_sort (· ≤ ·)).mpr hk
    have hidx : (U.S.sort (· ≤ ·))[(U.S.sort (· ≤ ·)).idxOf k]? = some k := by
      have h' := List.idxOf_lt_length_of_mem hmem
      rw [List.getElem?_eq_getElem h', List.getElem_idxOf h']
    obtain ⟨d', g1, g2⟩ := d4 _ k (by rw [him]; exact hidx) (hS k hk).2
    have := expDim_unique hd (happ k e d' he g1)
    subst this
    rw [hzz] at g2
    rw [hpos, hnc]
    exact g2

/-- The expressions of the PIL, the two sides of the lookups, and the numerators and denominators of the grand products are `Safe`:
they do not refer to a grand product. -/
theorem safe_early {nC nP : Nat} {S : Finset Nat} {q : Nat} {ce fe : Expr K} {l1 : Option Nat} {st st' : PilSt K} {a : Args} {cx : ArgCtx} {lims : List Lim}
    (hgen : genArgs (algebraMap F K) l1 st a = some (st', cx)) (hsc : Scoped nC nP st.exps lims)
    (hb : ∀ m ∈ lims, m.cols ≤ st.nCm ∧ m.chals ≤ 4) (ha : ArgsScoped a lims st.nCm) (hl : ∀ l, l1 = some l → l < nC) {k : Nat}
    (hk : k < st.exps.length ∨ (∃ c ∈ cx.pu, k = c.fExp ∨ k = c.tExp) ∨ ∃ c ∈ cx.pu ++ cx.pe ++ cx.ci, k = c.num ∨ k = c.den) :
    k < st'.exps.length ∧ Safe (inOf st st' cx S q ce fe) k := by
  obtain ⟨more, hsc', hall, hlk, hfr⟩ := genArgs_scoped hgen hsc hl ha hb
  obtain ⟨e1, -, -, -⟩ := genArgs_ctx hgen
  have key : ∀ m, (lims ++ more)[k]? = some m → m.cols ≤ st.nCm + 2 * a.plookups.length → k < st'.exps.length ∧ Safe (inOf st st' cx S q ce fe) k := by
    intro m hm hle
    have hlt : k < st'.exps.length := by rw [← hsc'.length]; exact lt_of_get hm
    refine ⟨hlt, .inl fun e he k' hk' => ?_⟩
    have hexps : (inOf st st' cx S q ce fe).exps = st'.exps ++ ([ce] ++ [fe]) := by simp [inOf]
    rw [hexps] at he hk'
    rw [List.getElem?_append_left hlt] at he
    have := scoped_uses hsc' k e m k' he hm hk'
    have hz : (inOf st st' cx S q ce fe).zBase = st.nCm + 2 * a.plookups.length := by rw [← e1]; rfl
    rw [hz]
    omega
  rcases hk with hk | ⟨c, hc, hk⟩ | ⟨c, hc, hk⟩
  · have hk' : k < lims.length := by rw [hsc.length]; exact hk
    have := hb _ (List.getElem_mem hk')
    exact key _ (by rw [List.getElem?_append_left hk', List.getElem?_eq_getElem hk']) (by omega)
  · obtain ⟨⟨m, g1, g2, -⟩, ⟨m', g3, g4, -⟩⟩ := hlk c hc
    rcases hk with rfl | rfl
    · exact key m g1 (by omega)
    · exact key m' g3 (by omega)
  · obtain ⟨⟨m, g1, g2, -⟩, ⟨m', g3, g4, -⟩, -, -⟩ := hfr c hc
    rcases hk with rfl | rfl
    · exact key m g1 g2
    · exact key m' g3 g4

end Verif.Map
