import Verif.Map.Program

/-!
# What a program computes from the buffers

`program_spec` with the environment that the buffers themselves describe: the value of a column is what its cells say.
-/
namespace Verif.Map
open Verif.Codegen
open Verif.Codegen.Spec (Store readN exec Val ExpVal)
open Verif.Interp (Dom Sec Info algF3)
open Verif.Interp.Spec (Col rowOf meaning nodeCol readCol readBase cell)
open Verif.Ext3 (F3G K WF val ofF coord)
open Verif.Stark (fieldOps)
open Verif.GL (F)

noncomputable section

/-- Specification: row `i` as the buffers describe it: a committed or constant column at row `i` or (primed) `step` rows further, cyclically;
the publics, challenges and evaluations; the point of the row; the two quotient tables. -/
def rowEnv (s : Info) (dom : Dom) (N step : Nat) (c : Interp.Ctx F3G F) (i : Nat) : Store K := fun t k p =>
  match t with
  | .cm => (nodeCol s dom ({ ty := .cm, id := k } : Interp.Node F3G)).bind fun col => (readCol algF3 c.mem col (rowOf N step p i)).map val
  | .const_ => (nodeCol s dom ({ ty := .const_, id := k } : Interp.Node F3G)).bind fun col => (readCol algF3 c.mem col (rowOf N step p i)).map val
  | .x => (nodeCol s dom ({ ty := .x, id := k } : Interp.Node F3G)).bind fun col => (readCol algF3 c.mem col i).map val
  | .public_ => (c.mem .publics)[k]?.map val
  | .challenge => (c.mem .challenge)[k]?.map val
  | .eval => (c.mem .evals)[k]?.map val
  | .xDivXSubXi => (readBase algF3 c.xXi i).map val
  | .xDivXSubWXi => (readBase algF3 c.xWXi i).map val
  | _ => none

/-- the sections whose cells are elements of the extension -/
def extSec (t : Sec) : Prop := t = .tmp ∨ t = .challenge ∨ t = .evals

/-- Every cell of the buffers is a base field element, of the challenges and evaluations an element of the extension. -/
structure CellsOk (c : Interp.Ctx F3G F) : Prop where
  base : ∀ t, ¬ extSec t → ∀ w ∈ c.mem t, ∃ a, w = ofF a
  ext : ∀ t, t = .challenge ∨ t = .evals → ∀ w ∈ c.mem t, WF w

/-- the dimension of the value of a leaf -/
def leafTag (s : Info) (dom : Dom) (lit : K → F3G) (r : Node K) : Nat :=
  match r.ty with
  | .cm => ((nodeCol s dom ({ ty := .cm, id := r.id } : Interp.Node F3G)).map Col.dim).getD 1
  | .const_ => 1
  | .public_ => 1
  | .x => 1
  | .number => (r.value.map fun v => (lit v).dim).getD 1
  | _ => 3

/-- Specification: the expressions a list of requests needs, directly or through other expressions; `true`: at the next row. -/
inductive Needed (exps : List (Expr K)) (reqs : List Req) : Bool → Nat → Prop
  | req {r} : r ∈ reqs → Needed exps reqs r.prime r.id
  | ref {p id e l j} : Needed exps reqs p id → exps[id]? = some e → HasLabel l e → l.op = .exp → l.id = some j → Needed exps reqs (p || l.next) j

theorem needed_closed (exps : List (Expr K)) (reqs : List Req) : Closed exps (Needed exps reqs) := fun _ _ _ _ _ h he hl ho hj => .ref h he hl ho hj

/-- two columns have no cell in common -/
def ApartCol (a b : Col) : Prop := a.sec ≠ b.sec ∨ (a.width = b.width ∧ (a.pos + a.dim ≤ b.pos ∨ b.pos + b.dim ≤ a.pos))

/-- The columns an expression may be stored in are apart from what is read: they are not in the sections of the publics, challenges, evaluations,
constants and points, and they are not the columns of `cm` leaves. -/
structure ReadOk (L : Lay) (exps : List (Expr K)) (R : Bool → Nat → Prop) : Prop where
  sec : ∀ ty id col, L.col ty id = some col → col.sec ∉ [Sec.publics, .challenge, .evals, .const_n, .const_2ns, .x_n, .x_2ns]
  cm : ∀ p id e l k col, R p id → exps[id]? = some e → HasLabel l e → l.op = .cm → l.id = some k →
    nodeCol L.s L.dom ({ ty := .cm, id := k } : Interp.Node F3G) = some col →
    (col.dim = 1 ∨ col.dim = 3) ∧ ¬ extSec col.sec ∧ col.pos + col.dim ≤ col.width ∧ ∀ ty id col', L.col ty id = some col' → ApartCol col col'
  const_ : ∀ p id e l k, R p id → exps[id]? = some e → HasLabel l e → l.op = .const_ → l.id = some k → k < L.s.nConstants

variable {L : Lay} {exps : List (Expr K)} {R : Bool → Nat → Prop}

/-! ### Reading -/

theorem mem_of_cell {l : List F3G} {w r c : Nat} {x : F3G} (h : cell l w r c = some x) : x ∈ l := List.mem_of_getElem? h

/-- a column of base field cells is read with its dimension -/
theorem readCol_rel {m : Sec → List F3G} {col : Col} {r : Nat} {w : F3G} (hb : ∀ x ∈ m col.sec, ∃ a, x = ofF a) (hd : col.dim = 1 ∨ col.dim = 3)
    (h : readCol algF3 m col r = some w) : Rel (val w) w col.dim := by
  unfold readCol at h
  rcases hd with hd | hd
  · rw [if_pos hd] at h
    obtain ⟨a, rfl⟩ := hb _ (mem_of_cell h)
    exact ⟨.inr ⟨rfl, rfl, rfl⟩, rfl, by rw [hd]; exact le_refl _⟩
  · rw [if_neg (by omega), if_pos hd] at h
    obtain ⟨a, h1, h⟩ := Option.bind_eq_some_iff.mp h
    obtain ⟨b, h2, h⟩ := Option.bind_eq_some_iff.mp h
    obtain ⟨d, h3, h⟩ := Option.bind_eq_some_iff.mp h
    obtain ⟨a', rfl⟩ := hb _ (mem_of_cell h1)
    obtain ⟨b', rfl⟩ := hb _ (mem_of_cell h2)
    obtain ⟨d', rfl⟩ := hb _ (mem_of_cell h3)
    have h' : some (⟨a', b', d', 3⟩ : F3G) = some w := h
    cases h'
    exact ⟨.inl rfl, rfl, by rw [hd]⟩

theorem readCol_congr {m m' : Sec → List F3G} {col : Col} {r : Nat}
    (h : ∀ j < col.dim, cell (m' col.sec) col.width r (col.pos + j) = cell (m col.sec) col.width r (col.pos + j)) :
    readCol algF3 m' col r = readCol algF3 m col r := by
  unfold readCol
  split_ifs with h1 h3
  · exact h 0 (by omega)
  · rw [← Nat.add_zero col.pos, h 0 (by omega), Nat.add_zero, h 1 (by omega), h 2 (by omega)]
  · rfl

theorem cell_row_ne {w r r' p q : Nat} (hp : p < w) (hq : q < w) (h : r * w + p = r' * w + q) : r = r' ∧ p = q := by
  have h1 : (r * w + p) / w = r := by rw [Nat.mul_comm, Nat.mul_add_div (by omega), Nat.div_eq_of_lt hp, Nat.add_zero]
  have h2 : (r' * w + q) / w = r' := by rw [Nat.mul_comm, Nat.mul_add_div (by omega), Nat.div_eq_of_lt hq, Nat.add_zero]
  have : r = r' := by rw [← h1, ← h2, h]
  subst this
  exact ⟨rfl, by omega⟩

/-- what is apart from the columns of expressions is read as before -/
theorem frame_read {c0 c : Interp.Ctx F3G F} (hF : Frame L c0 c) {col : Col} {r : Nat} (ht : col.sec ≠ .tmp) (hfit : col.pos + col.dim ≤ col.width)
    (hpl : ∀ ty id col', L.col ty id = some col' → col'.pos + col'.dim ≤ col'.width)
    (hap : ∀ ty id col', L.col ty id = some col' → ApartCol col col') :
    readCol algF3 c.mem col r = readCol algF3 c0.mem col r := by
  refine readCol_congr fun j hj => ?_
  unfold cell
  refine hF.cells _ _ ht fun ty id col' h hs r' hr' ⟨h1, h2⟩ => ?_
  rcases hap ty id col' h with h3 | ⟨h3, h4⟩
  · exact h3 hs
  · rw [h3] at h1 h2 hfit
    have hp := hpl ty id col' h
    obtain ⟨q, hq⟩ := Nat.exists_eq_add_of_le h1
    have := cell_row_ne (w := col'.width) (r := r) (r' := r') (p := col.pos + j) (q := col'.pos + q) (by omega) (by omega) (by omega)
    omega

theorem frame_sec {c0 c : Interp.Ctx F3G F} (hF : Frame L c0 c) {t : Sec} (ht : t ≠ .tmp) (hs : ∀ ty id col', L.col ty id = some col' → t ≠ col'.sec) : c.mem t = c0.mem t :=
  List.ext_getElem? fun _ => hF.cells _ _ ht fun ty id col' h e => absurd e (hs ty id col' h)

theorem withTmp_mem {c : Interp.Ctx F3G F} {n : Nat} {t : Sec} (h : t ≠ .tmp) : (withTmp c n).mem t = c.mem t := Function.update_of_ne h _ _

theorem readBase_rel {l : List F} {i : Nat} {w : F3G} (h : readBase algF3 l i = some w) : Rel (val w) w 3 := by
  unfold readBase at h
  obtain ⟨a, -, h⟩ := Option.bind_eq_some_iff.mp h
  obtain ⟨b, -, h⟩ := Option.bind_eq_some_iff.mp h
  obtain ⟨d, -, h⟩ := Option.bind_eq_some_iff.mp h
  have h' : some (⟨a, b, d, 3⟩ : F3G) = some w := h
  cases h'
  exact ⟨.inl rfl, rfl, le_refl _⟩

theorem wf_dim {w : F3G} (h : WF w) : w.dim ≤ 3 := by
  rcases h with h | ⟨h, -⟩ <;> omega

/-- a leaf is read from the buffers -/
theorem leaves_ok {c : Interp.Ctx F3G F} {n i : Nat} (hlit : ∀ v, WF (L.lit v) ∧ val (L.lit v) = v) (hc : CellsOk c) (hr : ReadOk L exps R)
    (hpl : ∀ ty id col', L.col ty id = some col' → col'.pos + col'.dim ≤ col'.width) (hops : PlainOps exps R) :
    LeavesOk L exps R (leafTag L.s L.dom L.lit) (withTmp c n) (rowEnv L.s L.dom L.N L.step c i) i := by
  intro d hF id e p l r hR he hl hleaf hne v hv
  have hcol : ∀ {col : Col} {ro : Nat} {w : F3G}, (col.dim = 1 ∨ col.dim = 3) → ¬ extSec col.sec → col.pos + col.dim ≤ col.width →
      (∀ ty id col', L.col ty id = some col' → ApartCol col col') → readCol algF3 c.mem col ro = some w →
      readCol algF3 d.mem col ro = some w ∧ Rel (val w) w col.dim := by
    intro col ro w h1 h2 h3 h4 h5
    have ht : col.sec ≠ .tmp := fun h => h2 (.inl h)
    refine ⟨?_, readCol_rel (hc.base _ h2) h1 h5⟩
    rw [frame_read hF ht h3 hpl h4, ← h5]
    refine readCol_congr fun j _ => ?_
    rw [withTmp_mem ht]
  have hsec : ∀ {t : Sec}, t ∈ [Sec.publics, .challenge, .evals, .const_n, .const_2ns, .x_n, .x_2ns] → d.mem t = c.mem t := by
    intro t ht
    have htt : t ≠ .tmp := by rintro rfl; simp at ht
    rw [frame_sec hF htt fun ty id col' h e => hr.sec ty id col' h (e ▸ ht), withTmp_mem htt]
  have hapart : ∀ {col : Col}, col.sec ∈ [Sec.publics, .challenge, .evals, .const_n, .const_2ns, .x_n, .x_2ns] → ∀ ty id col', L.col ty id = some col' → ApartCol col col' :=
    fun hs ty id col' h => .inl fun e => hr.sec ty id col' h (e ▸ hs)
  unfold leafOf at hleaf
  unfold readN at hv
  split at hleaf
  · -- cm
    rename_i ho
    obtain ⟨k, hk, rfl⟩ := Option.map_eq_some_iff.mp hleaf
    rw [if_neg (by simp)] at hv
    dsimp only [rowEnv] at hv
    obtain ⟨col, h1, h2⟩ := Option.bind_eq_some_iff.mp hv
    obtain ⟨w, h3, rfl⟩ := Option.map_eq_some_iff.mp h2
    obtain ⟨g1, g2, g3, g4⟩ := hr.cm p id e l k col hR he hl ho hk h1
    obtain ⟨a1, a2⟩ := hcol g1 g2 g3 g4 h3
    refine ⟨w, ?_, ?_⟩
    · show (nodeCol L.s L.dom ({ ty := .cm, id := k, prime := l.next || p } : Interp.Node F3G)).bind _ = _
      have : nodeCol L.s L.dom ({ ty := .cm, id := k, prime := l.next || p } : Interp.Node F3G) = some col := h1
      rw [this]
      exact a1
    · unfold leafTag
      dsimp only
      rw [h1]
      exact a2
  · -- const
    rename_i ho
    obtain ⟨k, hk, rfl⟩ := Option.map_eq_some_iff.mp hleaf
    rw [if_neg (by simp)] at hv
    dsimp only [rowEnv] at hv
    have hlt := hr.const_ p id e l k hR he hl ho hk
    obtain ⟨col, h1, h2⟩ := Option.bind_eq_some_iff.mp hv
    obtain ⟨w, h3, rfl⟩ := Option.map_eq_some_iff.mp h2
    have hcc : col.dim = 1 ∧ (col.sec = .const_n ∨ col.sec = .const_2ns) ∧ col.pos + 1 ≤ col.width := by
      cases hd : L.dom <;> rw [hd] at h1 <;> cases h1
      · exact ⟨rfl, .inl rfl, hlt⟩
      · exact ⟨rfl, .inr rfl, hlt⟩
    obtain ⟨c1, c2, c3⟩ := hcc
    have hs : col.sec ∈ [Sec.publics, .challenge, .evals, .const_n, .const_2ns, .x_n, .x_2ns] := by rcases c2 with h | h <;> rw [h] <;> simp
    obtain ⟨a1, a2⟩ := hcol (.inl c1) (by rcases c2 with h | h <;> rw [h] <;> simp [extSec]) (by rw [c1]; exact c3) (hapart hs) h3
    refine ⟨w, ?_, ?_⟩
    · show (nodeCol L.s L.dom ({ ty := .const_, id := k, prime := l.next || p, value := _ } : Interp.Node F3G)).bind _ = _
      have : ∀ val, nodeCol L.s L.dom ({ ty := .const_, id := k, prime := l.next || p, value := val } : Interp.Node F3G) = some col := fun _ => h1
      rw [this]
      exact a1
    · rw [c1] at a2
      exact a2
  · -- exp
    obtain ⟨k, hk, rfl⟩ := Option.map_eq_some_iff.mp hleaf
    exact absurd rfl hne
  · rename_i ho
    exact absurd ho (hops p id e l hR he hl).2
  · -- number
    obtain ⟨k, hk, rfl⟩ := Option.map_eq_some_iff.mp hleaf
    rw [if_pos rfl] at hv
    cases hv
    exact ⟨L.lit v, rfl, (hlit v).1, (hlit v).2, le_refl _⟩
  · -- public
    obtain ⟨k, hk, rfl⟩ := Option.map_eq_some_iff.mp hleaf
    rw [if_neg (by simp)] at hv
    dsimp only [rowEnv] at hv
    obtain ⟨w, h3, rfl⟩ := Option.map_eq_some_iff.mp hv
    refine ⟨w, ?_, ?_⟩
    · show (d.mem .publics)[k]? = _
      rw [hsec (by simp)]
      exact h3
    · obtain ⟨a, rfl⟩ := hc.base _ (by simp [extSec]) _ (List.mem_of_getElem? h3)
      exact ⟨.inr ⟨rfl, rfl, rfl⟩, rfl, le_refl _⟩
  · -- challenge
    obtain ⟨k, hk, rfl⟩ := Option.map_eq_some_iff.mp hleaf
    rw [if_neg (by simp)] at hv
    dsimp only [rowEnv] at hv
    obtain ⟨w, h3, rfl⟩ := Option.map_eq_some_iff.mp hv
    refine ⟨w, ?_, ?_⟩
    · show (d.mem .challenge)[k]? = _
      rw [hsec (by simp)]
      exact h3
    · have := hc.ext _ (.inl rfl) _ (List.mem_of_getElem? h3)
      exact ⟨this, rfl, wf_dim this⟩
  · -- eval
    obtain ⟨k, hk, rfl⟩ := Option.map_eq_some_iff.mp hleaf
    rw [if_neg (by simp)] at hv
    dsimp only [rowEnv] at hv
    obtain ⟨w, h3, rfl⟩ := Option.map_eq_some_iff.mp hv
    refine ⟨w, ?_, ?_⟩
    · show (d.mem .evals)[k]? = _
      rw [hsec (by simp)]
      exact h3
    · have := hc.ext _ (.inr rfl) _ (List.mem_of_getElem? h3)
      exact ⟨this, rfl, wf_dim this⟩
  · cases hleaf
    rw [if_neg (by simp)] at hv
    dsimp only [rowEnv] at hv
    obtain ⟨w, h3, rfl⟩ := Option.map_eq_some_iff.mp hv
    refine ⟨w, ?_, readBase_rel h3⟩
    show readBase algF3 d.xXi i = _
    rw [hF.xXi]
    exact h3
  · cases hleaf
    rw [if_neg (by simp)] at hv
    dsimp only [rowEnv] at hv
    obtain ⟨w, h3, rfl⟩ := Option.map_eq_some_iff.mp hv
    refine ⟨w, ?_, readBase_rel h3⟩
    show readBase algF3 d.xWXi i = _
    rw [hF.xWXi]
    exact h3
  · -- x
    cases hleaf
    rw [if_neg (by simp)] at hv
    dsimp only [rowEnv] at hv
    obtain ⟨col, h1, h2⟩ := Option.bind_eq_some_iff.mp hv
    obtain ⟨w, h3, rfl⟩ := Option.map_eq_some_iff.mp h2
    have hcc : col.dim = 1 ∧ (col.sec = .x_n ∨ col.sec = .x_2ns) ∧ col.pos + 1 ≤ col.width := by
      cases hd : L.dom <;> rw [hd] at h1 <;> cases h1
      · exact ⟨rfl, .inl rfl, le_refl _⟩
      · exact ⟨rfl, .inr rfl, le_refl _⟩
    obtain ⟨c1, c2, c3⟩ := hcc
    have hs : col.sec ∈ [Sec.publics, .challenge, .evals, .const_n, .const_2ns, .x_n, .x_2ns] := by rcases c2 with h | h <;> rw [h] <;> simp
    obtain ⟨a1, a2⟩ := hcol (.inl c1) (by rcases c2 with h | h <;> rw [h] <;> simp [extSec]) (by rw [c1]; exact c3) (hapart hs) h3
    refine ⟨w, ?_, ?_⟩
    · show (nodeCol L.s L.dom ({ ty := .x, id := 0, prime := false, value := _ } : Interp.Node F3G)).bind _ = _
      have : ∀ val, nodeCol L.s L.dom ({ ty := .x, id := 0, prime := false, value := val } : Interp.Node F3G) = some col := fun _ => h1
      rw [this]
      exact a1
    · rw [c1] at a2
      exact a2
  · -- addc
    obtain ⟨k, hk, rfl⟩ := Option.map_eq_some_iff.mp hleaf
    rw [if_pos rfl] at hv
    cases hv
    exact ⟨L.lit v, rfl, (hlit v).1, (hlit v).2, le_refl _⟩
  · obtain ⟨k, hk, rfl⟩ := Option.map_eq_some_iff.mp hleaf
    rw [if_pos rfl] at hv
    cases hv
    exact ⟨L.lit v, rfl, (hlit v).1, (hlit v).2, le_refl _⟩
  · cases hleaf
    rw [if_pos rfl] at hv
    cases hv
    exact ⟨L.lit 0, rfl, (hlit 0).1, (hlit 0).2, le_refl _⟩
  · cases hleaf

/-! ### The next row -/

/-- an expression without `x` and the quotient tables -/
def NoPoint (exps : List (Expr K)) (R : Bool → Nat → Prop) : Prop :=
  ∀ id e l, R true id → exps[id]? = some e → HasLabel l e → Codegen.Spec.nullTy l.op = none

theorem val_shift {s : Info} {dom : Dom} {N step : Nat} {c : Interp.Ctx F3G F} {i : Nat} (hcl : Closed exps R) (hnp : NoPoint exps R) {d : Nat} {p : Bool} {e : Expr K} {v : K}
    (h : Val (fieldOps K) exps (rowEnv s dom N step c i) d p e v) : p = true →
    (∀ l, HasLabel l e → Codegen.Spec.nullTy l.op = none) → (∀ l j, HasLabel l e → l.op = .exp → l.id = some j → R true j) →
    Val (fieldOps K) exps (rowEnv s dom N step c (rowOf N step true i)) d false e v := by
  induction h with
  | add ho _ _ hz iha ihb =>
    intro hp h1 h2
    exact .add ho (iha hp (fun l h => h1 l (.child (by simp) h)) fun l j h => h2 l j (.child (by simp) h))
      (ihb hp (fun l h => h1 l (.child (by simp) h)) fun l j h => h2 l j (.child (by simp) h)) hz
  | sub ho _ _ hz iha ihb =>
    intro hp h1 h2
    exact .sub ho (iha hp (fun l h => h1 l (.child (by simp) h)) fun l j h => h2 l j (.child (by simp) h))
      (ihb hp (fun l h => h1 l (.child (by simp) h)) fun l j h => h2 l j (.child (by simp) h)) hz
  | mul ho _ _ hz iha ihb =>
    intro hp h1 h2
    exact .mul ho (iha hp (fun l h => h1 l (.child (by simp) h)) fun l j h => h2 l j (.child (by simp) h))
      (ihb hp (fun l h => h1 l (.child (by simp) h)) fun l j h => h2 l j (.child (by simp) h)) hz
  | muladd ho _ _ _ hz hz' iha ihb ihc =>
    intro hp h1 h2
    exact .muladd ho (iha hp (fun l h => h1 l (.child (by simp) h)) fun l j h => h2 l j (.child (by simp) h))
      (ihb hp (fun l h => h1 l (.child (by simp) h)) fun l j h => h2 l j (.child (by simp) h))
      (ihc hp (fun l h => h1 l (.child (by simp) h)) fun l j h => h2 l j (.child (by simp) h)) hz hz'
  | addc ho hk _ hz ih =>
    intro hp h1 h2
    exact .addc ho hk (ih hp (fun l h => h1 l (.child (by simp) h)) fun l j h => h2 l j (.child (by simp) h)) hz
  | mulc ho hk _ hz ih =>
    intro hp h1 h2
    exact .mulc ho hk (ih hp (fun l h => h1 l (.child (by simp) h)) fun l j h => h2 l j (.child (by simp) h)) hz
  | neg ho _ hz ih =>
    intro hp h1 h2
    exact .neg ho (ih hp (fun l h => h1 l (.child (by simp) h)) fun l j h => h2 l j (.child (by simp) h)) hz
  | number ho hv => exact fun _ _ _ => .number ho hv
  | @col d p l t k v ht hi hn hv =>
    intro hp _ _
    subst hp
    have hnx : l.next = false := by simpa using hn
    rw [hnx] at hv
    refine .col ht hi (by simp) ?_
    rw [hnx]
    obtain ⟨lo, _⟩ := l
    cases lo <;> simp [Codegen.Spec.colTy] at ht <;> subst ht <;> exact hv
  | @byId d p l t k v ht hi hv =>
    intro _ _ _
    refine .byId ht hi ?_
    obtain ⟨lo, _⟩ := l
    cases lo <;> simp [Codegen.Spec.idTy] at ht <;> subst ht <;> exact hv
  | @nullary d p l t v ht hv =>
    intro _ h1 _
    rw [h1 l .here] at ht
    cases ht
  | @exp d p l k e v ho hi hn he hv ih =>
    intro hp _ h2
    subst hp
    have hnx : l.next = false := by simpa using hn
    have hR : R true k := h2 l k .here ho hi
    refine .exp ho hi (by simp) he ?_
    rw [hnx]
    exact ih (by simp) (fun l' h => hnp k e l' hR he h) fun l' j h ho' hj => by
      have := hcl true k e l' j hR he h ho' hj
      simpa using this

theorem expVal_shift {s : Info} {dom : Dom} {N step : Nat} {c : Interp.Ctx F3G F} {i id : Nat} {v : K} (hcl : Closed exps R) (hnp : NoPoint exps R) (hR : R true id)
    (h : ExpVal (fieldOps K) exps (rowEnv s dom N step c i) true id v) : ExpVal (fieldOps K) exps (rowEnv s dom N step c (rowOf N step true i)) false id v := by
  obtain ⟨d, e, he, h⟩ := h
  exact ⟨d, e, he, val_shift hcl hnp h rfl (fun l hl => hnp id e l hR he hl) fun l j hl ho hj => by
    have := hcl true id e l j hR he hl ho hj
    simpa using this⟩

/-! ### The program -/

/-- The columns of expressions before the program: every row is new (zero where a base field value leaves it alone) or holds the value already. -/
def FreshRows (L : Lay) (exps : List (Expr K)) (c : Interp.Ctx F3G F) : Prop :=
  ∀ ty id col, L.col ty id = some col → ∀ r < L.N, Blank c.mem col r ∨
    (ty = .exp ∧ ∃ v, ExpVal (fieldOps K) exps (rowEnv L.s L.dom L.N L.step c r) false id v ∧ Hold c.mem col r v)

/-- The first `m` rows, for given values `X` of the columns: every column is new or holds its `X`, and `X` is the value of the expressions the program
needs.  Afterwards every row of a column is as before or holds its `X`. -/
theorem rows_part {c : Interp.Ctx F3G F} {T : Nat → Nat} {X : NTy → Nat → Nat → K} {fuel t n m nCols tU : Nat} {reqs : List Req} {ctx : Codegen.Ctx K} {out : List (Interp.Instr F3G)}
    (hgen : genAll 0 exps fuel reqs ⟨t, [], []⟩ = some ctx) (hfix : fixProverCode L.tgt nCols L.lit ctx.tmpUsed (linearCode ctx) = some (out, tU)) (hn : tU ≤ n)
    (hreqs : ∀ r ∈ reqs, r.prime = false ∧ r.res = none ∧ r.muladd = false)
    (hops : PlainOps exps (Needed exps reqs)) (hdim : DimOk exps (Needed exps reqs) T (leafTag L.s L.dom L.lit))
    (hlit : ∀ v, WF (L.lit v) ∧ val (L.lit v) = v)
    (hm : m ≤ L.N) (hpos : 0 < m) (hN : m ≤ Interp.modOf c.nbits c.nbitsExt L.dom)
    (hrow : ∀ i < m, ∀ p, rowOf L.N L.step p i = rowOf (Interp.modOf c.nbits c.nbitsExt L.dom) (Interp.nextOf c.nbits c.nbitsExt L.dom) p i)
    (hplace : PlaceOk L T c.mem) (hread : ReadOk L exps (Needed exps reqs)) (hcells : CellsOk c) (hfresh : Fresh L X c.mem)
    (hval : ∀ i < m, ∀ r ∈ reqs, ∃ d e v, d < fuel ∧ exps[r.id]? = some e ∧ Val (fieldOps K) exps (rowEnv L.s L.dom L.N L.step c i) d false e v)
    (hX : ∀ p id i v, Needed exps reqs p id → i < m → ExpVal (fieldOps K) exps (rowEnv L.s L.dom L.N L.step c i) p id v → X .exp id (rowOf L.N L.step p i) = v) :
    ∃ c', Interp.calculateExps algF3 L.s out n L.dom m c = some c' ∧ KeepsCols L X c.mem c'.mem ∧ Frame L (withTmp c n) c' ∧
      ∀ r ∈ reqs, ∀ col, L.col .exp r.id = some col → ∀ i < m, Hold c'.mem col i (X .exp r.id i) := by
  have hcl := needed_closed exps reqs
  obtain ⟨c', h1, h2, h3, h4⟩ := program_part (L := L) (T := T) (X := X) (tg := leafTag L.s L.dom L.lit) (exps := exps) (R := Needed exps reqs) (c := c)
    (σ0 := fun i => rowEnv L.s L.dom L.N L.step c i)
    hgen hfix hn (fun r hr => ⟨.req hr, (hreqs r hr).2⟩) hcl hops hdim hm hpos hN hrow hplace hfresh
    (fun i _ => leaves_ok hlit hcells hread (fun ty id col h => (hplace.fit ty id col h).1) hops)
    (fun i _ => ⟨fun _ _ => rfl, fun _ _ _ => rfl, fun ty id p v col h hv => by
      cases ty <;> first | cases h | cases hv⟩)
    (fun i _ p id h => by cases h)
    (fun i hi r hr => by
      rw [(hreqs r hr).1]
      exact hval i hi r hr)
    (fun i hi id p v col hR h hv => (hX p id i v hR hi hv).symm)
  refine ⟨c', h1, h3, h2, fun r hr col h i hi => ?_⟩
  obtain ⟨d, e, v, -, he, hv⟩ := hval i hi r hr
  have hE : ExpVal (fieldOps K) exps (rowEnv L.s L.dom L.N L.step c i) false r.id v := ⟨d, e, he, hv⟩
  have hp := (hreqs r hr).1
  have := h4 r hr col h i hi v (by rw [hp]; exact hE)
  rw [hp] at this
  have hx := hX r.prime r.id i v (.req hr) hi (by rw [hp]; exact hE)
  rw [hp] at hx
  rw [show rowOf L.N L.step false i = i from rfl] at this hx
  rw [hx]
  exact this

/-- The same for given values `X` of the columns: every column is new or holds its `X`, and `X` is the value of the expressions the program needs.
Afterwards every row of a column is as before or holds its `X`. -/
theorem rows_keep {c : Interp.Ctx F3G F} {T : Nat → Nat} {X : NTy → Nat → Nat → K} {fuel t n nCols tU : Nat} {reqs : List Req} {ctx : Codegen.Ctx K} {out : List (Interp.Instr F3G)}
    (hgen : genAll 0 exps fuel reqs ⟨t, [], []⟩ = some ctx) (hfix : fixProverCode L.tgt nCols L.lit ctx.tmpUsed (linearCode ctx) = some (out, tU)) (hn : tU ≤ n)
    (hreqs : ∀ r ∈ reqs, r.prime = false ∧ r.res = none ∧ r.muladd = false)
    (hops : PlainOps exps (Needed exps reqs)) (hnp : NoPoint exps (Needed exps reqs)) (hdim : DimOk exps (Needed exps reqs) T (leafTag L.s L.dom L.lit))
    (hlit : ∀ v, WF (L.lit v) ∧ val (L.lit v) = v)
    (hN : L.N = Interp.modOf c.nbits c.nbitsExt L.dom) (hstep : L.step = Interp.nextOf c.nbits c.nbitsExt L.dom) (hpos : 0 < L.N)
    (hplace : PlaceOk L T c.mem) (hread : ReadOk L exps (Needed exps reqs)) (hcells : CellsOk c) (hfresh : Fresh L X c.mem)
    (hval : ∀ i < L.N, ∀ r ∈ reqs, ∃ d e v, d < fuel ∧ exps[r.id]? = some e ∧ Val (fieldOps K) exps (rowEnv L.s L.dom L.N L.step c i) d false e v)
    (hX : ∀ p id r v, Needed exps reqs p id → r < L.N → ExpVal (fieldOps K) exps (rowEnv L.s L.dom L.N L.step c r) false id v → X .exp id r = v) :
    ∃ c', Interp.calculateExps algF3 L.s out n L.dom L.N c = some c' ∧ KeepsCols L X c.mem c'.mem ∧ Frame L (withTmp c n) c' ∧
      ∀ r ∈ reqs, ∀ col, L.col .exp r.id = some col → ∀ i < L.N, Hold c'.mem col i (X .exp r.id i) := by
  have hcl := needed_closed exps reqs
  exact rows_part hgen hfix hn hreqs hops hdim hlit (le_refl _) hpos (le_of_eq hN) (fun i _ p => by rw [← hN, ← hstep]) hplace hread hcells hfresh hval
    (by
      intro p id i v hR hi hv
      cases p with
      | false => exact hX false id i v hR hi hv
      | true => exact hX true id _ v hR (rowOf_lt hi) (expVal_shift hcl hnp hR hv))

/-- **C97** Code generation, `fix_prover_code` and the interpreter together.  `reqs` are the requested expressions, `out` the program.  If every requested
expression has a value at every row of the buffers `c`, running the program succeeds; afterwards the column of every requested expression holds that value
at every row, and every cell outside the columns of expressions is unchanged. -/
theorem rows_spec {c : Interp.Ctx F3G F} {T : Nat → Nat} {fuel t n nCols tU : Nat} {reqs : List Req} {ctx : Codegen.Ctx K} {out : List (Interp.Instr F3G)}
    (hgen : genAll 0 exps fuel reqs ⟨t, [], []⟩ = some ctx) (hfix : fixProverCode L.tgt nCols L.lit ctx.tmpUsed (linearCode ctx) = some (out, tU)) (hn : tU ≤ n)
    (hreqs : ∀ r ∈ reqs, r.prime = false ∧ r.res = none ∧ r.muladd = false)
    (hops : PlainOps exps (Needed exps reqs)) (hnp : NoPoint exps (Needed exps reqs)) (hdim : DimOk exps (Needed exps reqs) T (leafTag L.s L.dom L.lit))
    (hlit : ∀ v, WF (L.lit v) ∧ val (L.lit v) = v)
    (hN : L.N = Interp.modOf c.nbits c.nbitsExt L.dom) (hstep : L.step = Interp.nextOf c.nbits c.nbitsExt L.dom) (hpos : 0 < L.N)
    (hplace : PlaceOk L T c.mem) (hread : ReadOk L exps (Needed exps reqs)) (hcells : CellsOk c) (hfresh : FreshRows L exps c)
    (hval : ∀ i < L.N, ∀ r ∈ reqs, ∃ d e v, d < fuel ∧ exps[r.id]? = some e ∧ Val (fieldOps K) exps (rowEnv L.s L.dom L.N L.step c i) d false e v) :
    ∃ c', Interp.calculateExps algF3 L.s out n L.dom L.N c = some c' ∧
      (∀ r ∈ reqs, ∀ col, L.col .exp r.id = some col → ∀ i < L.N, ∀ v, ExpVal (fieldOps K) exps (rowEnv L.s L.dom L.N L.step c i) false r.id v → Hold c'.mem col i v) ∧
      (∀ id col i v, L.col .exp id = some col → i < L.N → ExpVal (fieldOps K) exps (rowEnv L.s L.dom L.N L.step c i) false id v → Hold c.mem col i v → Hold c'.mem col i v) ∧
      Frame L (withTmp c n) c' := by
  classical
  let env := fun i => rowEnv L.s L.dom L.N L.step c i
  let X : NTy → Nat → Nat → K := fun ty id r =>
    if h : ty = .exp ∧ ∃ v, ExpVal (fieldOps K) exps (env r) false id v then Classical.choose h.2 else 0
  have hXv : ∀ id r v, ExpVal (fieldOps K) exps (env r) false id v → X .exp id r = v := by
    intro id r v h
    have hh : (NTy.exp = .exp) ∧ ∃ v, ExpVal (fieldOps K) exps (env r) false id v := ⟨rfl, v, h⟩
    show (if h : (NTy.exp = .exp) ∧ ∃ v, ExpVal (fieldOps K) exps (env r) false id v then Classical.choose h.2 else 0) = v
    rw [dif_pos hh]
    exact expVal_unique (Classical.choose_spec hh.2) h
  obtain ⟨c', h1, h3, h2, h4⟩ := rows_keep (X := X) hgen hfix hn hreqs hops hnp hdim hlit hN hstep hpos hplace hread hcells
    (by
      intro ty id col h r hr
      rcases hfresh ty id col h r hr with hb | ⟨rfl, v, hv, hh⟩
      · exact .inl hb
      · rw [hXv id r v hv]
        exact .inr hh)
    hval (fun p id r v _ _ hv => hXv id r v hv)
  refine ⟨c', h1, fun r hr col h i hi v hv => ?_, fun id col i v h hi hv hh => ?_, h2⟩
  · rw [← hXv r.id i v hv]
    exact h4 r hr col h i hi
  · rw [← hXv id i v hv] at hh ⊢
    exact h3.hold hplace.dim h hi hh

end

end Verif.Map
