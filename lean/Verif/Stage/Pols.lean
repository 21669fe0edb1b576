import Verif.Stage.Model
import Verif.Map.ParRows
import Verif.Grand.Complete

/-!
# `get_pol` and `set_pol` on columns that hold field values
-/
namespace Verif.Stage
open Verif.GL (F)
open Verif.Ext3 (F3G K WF val ofF coord)
open Verif.Interp (Sec Info algF3)
open Verif.Interp.Spec (Col cell readCol polCol)
open Verif.Map (Hold Rel Same ApartCol CellsOk extSec)
open Verif.Grand (rows)

noncomputable section

variable {s : Info} {N : Nat}

/-- the polynomial number `id` is stored in the column `col`, with `N` rows -/
structure PolAt (s : Info) (c : Ctx) (N id : Nat) (col : Col) : Prop where
  pol : polCol s id = some col
  deg : mapDeg c.nbits c.nbitsExt col.sec = N
  dim : col.dim = 1 ∨ col.dim = 3
  fit : col.pos + col.dim ≤ col.width
  len : N * col.width ≤ (c.mem col.sec).length

theorem polCol_some {id : Nat} {col : Col} (h : polCol s id = some col) : ∃ p, s.varPolMap[id]? = some p ∧ p.section_ = col.sec ∧ p.sectionPos = col.pos ∧
    p.dim = col.dim ∧ s.sectionsN p.section_ = col.width := by
  unfold polCol at h
  obtain ⟨p, h1, h2⟩ := Option.bind_eq_some_iff.mp h
  split_ifs at h2
  obtain rfl := Option.some.inj h2
  exact ⟨p, h1, rfl, rfl, rfl, rfl⟩

/-! ### `get_pol` -/

theorem getRow_hold {m : Sec → List F3G} {col : Col} {r : Nat} {v : K} (hd : col.dim = 1 ∨ col.dim = 3) (h : Hold m col r v) :
    ∃ w, getRow col.dim (col.pos + r * col.width) (m col.sec) = some w ∧ WF w ∧ w.dim = col.dim ∧ val w = v := by
  unfold Hold at h
  unfold getRow
  unfold cell at h
  rw [show col.pos + r * col.width = r * col.width + col.pos by omega]
  rcases hd with hd | hd
  · rw [if_pos hd] at h ⊢
    obtain ⟨a, h1, h2⟩ := h
    exact ⟨ofF a, h1, .inr ⟨rfl, rfl, rfl⟩, hd.symm, by rw [← h2]; exact (Ext3.const_spec a).1⟩
  · rw [if_neg (by omega)] at h ⊢
    rw [if_pos hd]
    obtain ⟨a, b, d, h1, h2, h3, h4⟩ := h
    refine ⟨⟨a, b, d, 3⟩, ?_, .inl rfl, hd.symm, h4⟩
    unfold Interp.vec3
    rw [h1, show r * col.width + col.pos + 1 = r * col.width + (col.pos + 1) by omega, h2,
      show r * col.width + col.pos + 2 = r * col.width + (col.pos + 2) by omega, h3]
    rfl

theorem mapM_choose {α β : Type} {f : α → Option β} {P : α → β → Prop} : ∀ {l : List α}, (∀ a ∈ l, ∃ b, f a = some b ∧ P a b) →
    ∃ ws, l.mapM f = some ws ∧ List.Forall₂ P l ws
  | [], _ => ⟨[], rfl, .nil⟩
  | x :: l, h => by
    obtain ⟨b, hb, hp⟩ := h x (by simp)
    obtain ⟨ws, hw, hq⟩ := mapM_choose (l := l) fun a ha => h a (by simp [ha])
    exact ⟨b :: ws, by rw [List.mapM_cons, hb, hw]; rfl, .cons hp hq⟩

theorem forall2_mem {α β : Type} {P : α → β → Prop} {l : List α} {m : List β} (h : List.Forall₂ P l m) : ∀ x ∈ m, ∃ a ∈ l, P a x := by
  induction h with
  | nil => simp
  | cons h _ ih =>
    intro x hx
    rcases List.mem_cons.mp hx with rfl | hx
    · exact ⟨_, by simp, h⟩
    · obtain ⟨a, ha, g⟩ := ih x hx
      exact ⟨a, by simp [ha], g⟩

/-- `get_pol` reads the values a column holds; all elements carry the dimension of the column as tag -/
theorem getPol_hold {c : Ctx} {id : Nat} {col : Col} (hp : PolAt s c N id col) {v : Nat → K} (h : ∀ r < N, Hold c.mem col r (v r)) :
    ∃ l, getPol s c id = some l ∧ AllWF l ∧ (∀ x ∈ l, x.dim = col.dim) ∧ l.map val = rows N v := by
  obtain ⟨p, h1, h2, h3, h4, h5⟩ := polCol_some hp.pol
  unfold getPol
  rw [h1, Option.bind_some]
  rw [if_pos (by rw [h4]; exact hp.dim), h5, h4, h3, h2, hp.deg]
  obtain ⟨ws, hw, hf⟩ := mapM_choose (f := fun i => getRow col.dim (col.pos + i * col.width) (c.mem col.sec))
    (P := fun i w => WF w ∧ w.dim = col.dim ∧ val w = v i) (l := List.range N) fun i hi => getRow_hold hp.dim (h i (List.mem_range.mp hi))
  refine ⟨ws, hw, ?_, ?_, ?_⟩
  · intro x hx
    obtain ⟨i, -, g⟩ := forall2_mem hf x hx
    exact g.1
  · intro x hx
    obtain ⟨i, -, g⟩ := forall2_mem hf x hx
    exact g.2.1
  · unfold rows
    clear hw
    generalize List.range N = l at hf
    induction hf with
    | nil => rfl
    | cons h _ ih => rw [List.map_cons, List.map_cons, h.2.2, ih]

/-! ### `set_pol` -/

/-- the cells of an element in a column of the given dimension -/
def Put (dim at_ : Nat) (v : K) (l : List F3G) : Prop :=
  if dim = 1 then ∃ a, l[at_]? = some (ofF a) ∧ algebraMap F K a = v
  else ∃ a b d, l[at_]? = some (ofF a) ∧ l[at_ + 1]? = some (ofF b) ∧ l[at_ + 2]? = some (ofF d) ∧ coord a b d = v

theorem Put.congr {dim at_ : Nat} {v : K} {l l' : List F3G} (hd : dim = 1 ∨ dim = 3) (h : Put dim at_ v l) (he : ∀ j < dim, l'[at_ + j]? = l[at_ + j]?) :
    Put dim at_ v l' := by
  unfold Put at h ⊢
  rcases hd with hd | hd
  · rw [if_pos hd] at h ⊢
    obtain ⟨a, h1, h2⟩ := h
    exact ⟨a, by have := he 0 (by omega); rw [Nat.add_zero] at this; rw [this, h1], h2⟩
  · rw [if_neg (by omega)] at h ⊢
    obtain ⟨a, b, d, h1, h2, h3, h4⟩ := h
    exact ⟨a, b, d, by have := he 0 (by omega); rw [Nat.add_zero] at this; rw [this, h1], by rw [he 1 (by omega), h2], by rw [he 2 (by omega), h3], h4⟩

theorem set3 {l : List F3G} {at_ : Nat} (h : at_ + 3 ≤ l.length) (a b d : F3G) :
    ((Interp.setCell l at_ a).bind fun l => (Interp.setCell l (at_ + 1) b).bind fun l => Interp.setCell l (at_ + 2) d) =
      some (((l.set at_ a).set (at_ + 1) b).set (at_ + 2) d) := by
  unfold Interp.setCell
  rw [if_pos (by omega), Option.bind_some, if_pos (by rw [List.length_set]; omega), Option.bind_some, if_pos (by rw [List.length_set, List.length_set]; omega)]

theorem set3_get {l : List F3G} {at_ : Nat} (h : at_ + 3 ≤ l.length) (a b d : F3G) :
    (((l.set at_ a).set (at_ + 1) b).set (at_ + 2) d)[at_]? = some a ∧ (((l.set at_ a).set (at_ + 1) b).set (at_ + 2) d)[at_ + 1]? = some b ∧
      (((l.set at_ a).set (at_ + 1) b).set (at_ + 2) d)[at_ + 2]? = some d ∧
      ∀ k, ¬(at_ ≤ k ∧ k < at_ + 3) → (((l.set at_ a).set (at_ + 1) b).set (at_ + 2) d)[k]? = l[k]? := by
  refine ⟨?_, ?_, ?_, fun k hk => ?_⟩
  · rw [List.getElem?_set_ne (by omega), List.getElem?_set_ne (by omega), List.getElem?_set_self (by omega)]
  · rw [List.getElem?_set_ne (by omega), List.getElem?_set_self (by rw [List.length_set]; omega)]
  · rw [List.getElem?_set_self (by rw [List.length_set, List.length_set]; omega)]
  · rw [List.getElem?_set_ne (by omega), List.getElem?_set_ne (by omega), List.getElem?_set_ne (by omega)]

theorem base_set {l : List F3G} {k : Nat} {a : F} (h : ∀ w ∈ l, ∃ a, w = ofF a) : ∀ w ∈ l.set k (ofF a), ∃ a, w = ofF a := by
  intro w hw
  rcases List.mem_or_eq_of_mem_set hw with h' | rfl
  · exact h w h'
  · exact ⟨a, rfl⟩

/-- one row of `set_pol` -/
theorem setRow_ok {dim at_ : Nat} {v : F3G} {l : List F3G} (hd : dim = 1 ∨ dim = 3) (hv : WF v) (h1 : dim = 1 → v.dim = 1) (hl : at_ + dim ≤ l.length) :
    ∃ l', setRow dim at_ v l = some l' ∧ l'.length = l.length ∧ Put dim at_ (val v) l' ∧ (∀ k, ¬(at_ ≤ k ∧ k < at_ + dim) → l'[k]? = l[k]?) ∧
      ((∀ w ∈ l, ∃ a, w = ofF a) → ∀ w ∈ l', ∃ a, w = ofF a) := by
  obtain ⟨x, y, z, n⟩ := v
  rcases hd with hd | hd
  · have hn := h1 hd
    dsimp only at hn
    subst hn
    obtain ⟨rfl, rfl⟩ : y = 0 ∧ z = 0 := by
      rcases hv with hv | ⟨-, h2, h3⟩
      · exact absurd hv (by simp)
      · exact ⟨h2, h3⟩
    unfold setRow
    rw [if_pos hd]
    subst hd
    unfold Interp.setCell
    rw [if_pos (by omega)]
    refine ⟨_, rfl, by simp, ?_, fun k hk => ?_, fun hb => base_set (a := x) hb⟩
    · unfold Put
      rw [if_pos rfl]
      exact ⟨x, by rw [List.getElem?_set_self (by omega)]; rfl, (Ext3.const_spec x).1.symm⟩
    · rw [List.getElem?_set_ne (by omega)]
  · subst hd
    unfold setRow
    rw [if_neg (by omega), if_pos rfl]
    rcases hv with hv | ⟨hn, h2, h3⟩
    · dsimp only at hv
      subst hv
      have he : Ext3.asElements (⟨x, y, z, 3⟩ : F3G) = [x, y, z] := rfl
      rw [he]
      simp only [List.length_cons, List.length_nil]
      rw [if_pos (by omega)]
      simp only [List.getElem?_cons_zero, List.getElem?_cons_succ, Option.bind_some]
      rw [set3 hl]
      obtain ⟨g1, g2, g3, g4⟩ := set3_get hl (ofF x) (ofF y) (ofF z)
      refine ⟨_, rfl, by simp, ?_, g4, fun hb => base_set (base_set (base_set hb))⟩
      unfold Put
      rw [if_neg (by omega)]
      exact ⟨x, y, z, g1, g2, g3, rfl⟩
    · dsimp only at hn h2 h3
      subst hn h2 h3
      have he : Ext3.asElements (⟨x, 0, 0, 1⟩ : F3G) = [x] := rfl
      rw [he]
      simp only [List.length_cons, List.length_nil]
      rw [if_neg (by omega)]
      simp only [List.getElem?_cons_zero, Option.bind_some]
      rw [set3 hl]
      obtain ⟨g1, g2, g3, g4⟩ := set3_get hl (ofF x) Ext3.ZERO Ext3.ZERO
      refine ⟨_, rfl, by simp, ?_, g4, fun hb => base_set (a := 0) (base_set (a := 0) (base_set hb))⟩
      unfold Put
      rw [if_neg (by omega)]
      exact ⟨x, 0, 0, g1, g2, g3, rfl⟩

theorem foldlM_range_succ {α : Type} (f : α → Nat → Option α) (n : Nat) (a : α) :
    (List.range (n + 1)).foldlM f a = ((List.range n).foldlM f a).bind fun b => f b n := by
  rw [List.range_succ, List.foldlM_append]
  simp only [Option.bind_eq_bind]
  congr 1
  funext b
  simp

/-- all rows of `set_pol` -/
theorem setRows_ok {dim pos w : Nat} (hd : dim = 1 ∨ dim = 3) (hf : pos + dim ≤ w) {pol : List F3G} (hv : AllWF pol) (h1 : dim = 1 → ∀ x ∈ pol, x.dim = 1)
    {l : List F3G} (hl : N * w ≤ l.length) : ∀ n ≤ N, n ≤ pol.length →
    ∃ l', (List.range n).foldlM (fun l i => pol[i]?.bind fun v => setRow dim (pos + i * w) v l) l = some l' ∧ l'.length = l.length ∧
      (∀ r < n, ∀ v, pol[r]? = some v → Put dim (pos + r * w) (val v) l') ∧
      (∀ k, (∀ r < n, ¬(pos + r * w ≤ k ∧ k < pos + r * w + dim)) → l'[k]? = l[k]?) ∧
      ((∀ w ∈ l, ∃ a, w = ofF a) → ∀ w ∈ l', ∃ a, w = ofF a) := by
  intro n
  induction n with
  | zero => exact fun _ _ => ⟨l, rfl, rfl, by omega, fun _ _ => rfl, id⟩
  | succ n ih =>
    intro hn hp
    obtain ⟨l1, g1, g2, g3, g4, g5⟩ := ih (by omega) (by omega)
    have hx : pol[n]? = some (pol[n]) := List.getElem?_eq_getElem (by omega)
    have hmem : pol[n] ∈ pol := List.getElem_mem _
    have hlt : pos + n * w + dim ≤ l1.length := by
      have : (n + 1) * w ≤ N * w := Nat.mul_le_mul_right w hn
      rw [Nat.add_mul, Nat.one_mul] at this
      omega
    obtain ⟨l2, k1, k2, k3, k4, k5⟩ := setRow_ok hd (hv _ hmem) (fun h => h1 h _ hmem) hlt
    refine ⟨l2, ?_, k2.trans g2, ?_, ?_, fun hb => k5 (g5 hb)⟩
    · rw [foldlM_range_succ, g1, Option.bind_some, hx]
      exact k1
    · intro r hr v hr'
      by_cases e : r = n
      · subst e
        obtain rfl := Option.some.inj (hx.symm.trans hr')
        exact k3
      · refine Put.congr hd (g3 r (by omega) v hr') fun j hj => k4 _ ?_
        rintro ⟨e1, e2⟩
        obtain ⟨q, hq⟩ := Nat.exists_eq_add_of_le e1
        have := Map.cell_row_ne (w := w) (r := r) (r' := n) (p := pos + j) (q := pos + q) (by omega) (by omega) (by omega)
        omega
    · intro k hk
      rw [k4 k (hk n (by omega)), g4 k fun r hr => hk r (by omega)]

theorem put_hold {m : Sec → List F3G} {col : Col} {r : Nat} {v : K} : Hold m col r v ↔ Put col.dim (col.pos + r * col.width) v (m col.sec) := by
  unfold Hold Put cell
  rw [show r * col.width + col.pos = col.pos + r * col.width by omega, show r * col.width + (col.pos + 1) = col.pos + r * col.width + 1 by omega,
    show r * col.width + (col.pos + 2) = col.pos + r * col.width + 2 by omega]

/-- the result of writing a column: its cells hold the new values, everything else is unchanged -/
structure Wrote (c c' : Ctx) (N : Nat) (col : Col) (v : Nat → K) : Prop where
  nbits : c'.nbits = c.nbits
  nbitsExt : c'.nbitsExt = c.nbitsExt
  Zi : c'.Zi = c.Zi
  hold : ∀ r < N, Hold c'.mem col r (v r)
  other : ∀ t, t ≠ col.sec → c'.mem t = c.mem t
  len : ∀ t, (c'.mem t).length = (c.mem t).length
  keep : ∀ (col' : Col) (r : Nat), col'.pos + col'.dim ≤ col'.width → ApartCol col' col → Same c.mem c'.mem col' r
  cells : CellsOk c → CellsOk c'

/-- **`set_pol` writes the values of the polynomial to its column and nothing else** -/
theorem setPol_wrote {c : Ctx} {id : Nat} {col : Col} (hp : PolAt s c N id col) (hs : ¬ extSec col.sec) {pol : List F3G} (hv : AllWF pol)
    (h1 : col.dim = 1 → ∀ x ∈ pol, x.dim = 1) {v : Nat → K} (hl : pol.map val = rows N v) :
    ∃ c', setPol s c id pol = some c' ∧ Wrote c c' N col v := by
  obtain ⟨p, k1, k2, k3, k4, k5⟩ := polCol_some hp.pol
  have hlen : pol.length = N := by
    have := congrArg List.length hl
    simpa [rows] using this
  obtain ⟨l', g1, g2, g3, g4, g5⟩ := setRows_ok hp.dim hp.fit hv h1 hp.len N (le_refl _) (by omega)
  refine ⟨c.put col.sec l', ?_, ⟨rfl, rfl, rfl, ?_, ?_, ?_, ?_, ?_⟩⟩
  · unfold setPol
    rw [k1, Option.bind_some, if_pos (by rw [k4]; exact hp.dim), k5, k4, k3, k2, hp.deg, g1]
    rfl
  · intro r hr
    rw [put_hold]
    have e : (c.put col.sec l').mem col.sec = l' := if_pos rfl
    rw [e]
    have hx : pol[r]? = some (pol[r]) := List.getElem?_eq_getElem (by omega)
    have := g3 r hr _ hx
    have hvr : val (pol[r]) = v r := by
      have h := congrArg (fun l => l[r]?) hl
      simp only [List.getElem?_map, hx, rows, List.getElem?_range hr, Option.map_some, Option.some.injEq] at h
      exact h
    rwa [hvr] at this
  · exact fun t ht => if_neg ht
  · intro t
    show (if t = col.sec then l' else c.mem t).length = _
    split_ifs with h
    · rw [h, g2]
    · rfl
  · intro col' r hf' hap j hj
    show cell (if col'.sec = col.sec then l' else c.mem col'.sec) _ _ _ = _
    by_cases h : col'.sec = col.sec
    · rw [if_pos h, h]
      unfold cell
      refine g4 _ fun r' hr' ⟨e1, e2⟩ => ?_
      rcases hap with hap | ⟨hw, hap⟩
      · exact hap h
      · obtain ⟨q, hq⟩ := Nat.exists_eq_add_of_le e1
        have hf := hp.fit
        rw [hw] at hq hf' e2
        have := Map.cell_row_ne (w := col.width) (r := r) (r' := r') (p := col'.pos + j) (q := col.pos + q) (by omega) (by omega) (by omega)
        omega
    · rw [if_neg h]
  · intro hc
    refine ⟨fun t ht w hw => ?_, fun t ht w hw => ?_⟩
    · have hw' : w ∈ (if t = col.sec then l' else c.mem t) := hw
      split_ifs at hw' with h
      · exact g5 (hc.base _ hs) w hw'
      · exact hc.base t ht w hw'
    · have hw' : w ∈ (if t = col.sec then l' else c.mem t) := hw
      rw [if_neg] at hw'
      · exact hc.ext t ht w hw'
      · rintro rfl
        exact hs (ht.elim (fun h => .inr (.inl h)) fun h => .inr (.inr h))

end

end Verif.Stage
