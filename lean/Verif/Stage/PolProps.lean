import Verif.Stage.Pols

/-!
# `set_pol` then `get_pol`, starky/src/stark_gen.rs L594-620, L683-708
-/
namespace Verif.Stage
open Verif.GL (F)
open Verif.Ext3 (F3G K WF val ofF coord)
open Verif.Interp (Sec Info algF3)
open Verif.Interp.Spec (Col cell readCol polCol)
open Verif.Map (Hold Rel Same ApartCol CellsOk extSec)
open Verif.Grand (rows)

noncomputable section

variable {s : Info} {N : Nat}

theorem rows_getD (pol : List F3G) (h : pol.length = N) : pol.map val = rows N fun r => ((pol.map val)[r]?).getD 0 := by
  apply List.ext_getElem?
  intro r
  unfold rows
  rw [List.getElem?_map, List.getElem?_map]
  by_cases hr : r < N
  · rw [List.getElem?_range hr, List.getElem?_eq_getElem (by omega : r < pol.length)]
    simp [show r < pol.length by omega]
  · rw [List.getElem?_eq_none (by omega), List.getElem?_eq_none (by simp; omega)]
    rfl

theorem getRow_same {m m' : Sec → List F3G} {col : Col} {r : Nat} (hd : col.dim = 1 ∨ col.dim = 3) (h : Same m m' col r) :
    getRow col.dim (col.pos + r * col.width) (m' col.sec) = getRow col.dim (col.pos + r * col.width) (m col.sec) := by
  have hc : ∀ j < col.dim, (m' col.sec)[col.pos + r * col.width + j]? = (m col.sec)[col.pos + r * col.width + j]? := by
    intro j hj
    have := h j hj
    unfold cell at this
    rwa [show r * col.width + (col.pos + j) = col.pos + r * col.width + j by omega] at this
  unfold getRow
  rcases hd with hd | hd
  · rw [if_pos hd, if_pos hd]
    simpa using hc 0 (by omega)
  · rw [if_neg (show ¬ col.dim = 1 by omega), if_neg (show ¬ col.dim = 1 by omega), if_pos hd, if_pos hd]
    unfold Interp.vec3
    rw [hc 1 (by omega), hc 2 (by omega)]
    have := hc 0 (by omega)
    rw [Nat.add_zero] at this
    rw [this]

/-- **After `set_pol`, `get_pol` of the same polynomial returns the values that were written, and `get_pol` of every polynomial in other cells returns
what it returned before.** -/
theorem getPol_setPol {c : Ctx} {id : Nat} {col : Col} (hp : PolAt s c N id col) (hs : ¬ extSec col.sec) {pol : List F3G} (hv : AllWF pol)
    (h1 : col.dim = 1 → ∀ x ∈ pol, x.dim = 1) (hl : pol.length = N) :
    ∃ c', setPol s c id pol = some c' ∧ (∃ l, getPol s c' id = some l ∧ l.map val = pol.map val ∧ ∀ x ∈ l, x.dim = col.dim) ∧
      (∀ id' col' N', PolAt s c N' id' col' → ApartCol col' col → getPol s c' id' = getPol s c id') ∧
      ∀ t, t ≠ col.sec → c'.mem t = c.mem t := by
  obtain ⟨c', h2, hw⟩ := setPol_wrote hp hs hv h1 (rows_getD pol hl)
  refine ⟨c', h2, ?_, ?_, hw.other⟩
  · obtain ⟨l, g1, -, g2, g3⟩ := getPol_hold (c := c') ⟨hp.pol, by rw [hw.nbits, hw.nbitsExt]; exact hp.deg, hp.dim, hp.fit, by rw [hw.len]; exact hp.len⟩ hw.hold
    exact ⟨l, g1, g3.trans (rows_getD pol hl).symm, g2⟩
  · intro id' col' N' hp' hap
    obtain ⟨p, k1, k2, k3, k4, k5⟩ := polCol_some hp'.pol
    unfold getPol
    rw [k1, Option.bind_some, Option.bind_some, if_pos (by rw [k4]; exact hp'.dim), if_pos (by rw [k4]; exact hp'.dim), k5, k4, k3, k2, hw.nbits, hw.nbitsExt]
    refine mapM_congr' fun r _ => getRow_same hp'.dim (hw.keep col' r hp'.fit hap)

/-- **An extension element in a column of dimension 1 is stored as it is**: `set_pol` neither rejects it nor reduces it to one field element. -/
theorem setPol_raw {c : Ctx} {id : Nat} {p : Interp.PolType} (hp : s.varPolMap[id]? = some p) (hd : p.dim = 1) (hdeg : mapDeg c.nbits c.nbitsExt p.section_ = 1)
    (hlen : p.sectionPos < (c.mem p.section_).length) (v : F3G) :
    ∃ c', setPol s c id [v] = some c' ∧ getPol s c' id = some [v] := by
  refine ⟨c.put p.section_ ((c.mem p.section_).set p.sectionPos v), ?_, ?_⟩
  · unfold setPol
    rw [hp, Option.bind_some, if_pos (.inl hd), hdeg]
    simp [setRow, hd, Interp.setCell, hlen]
  · unfold getPol
    have e : (c.put p.section_ ((c.mem p.section_).set p.sectionPos v)).mem p.section_ = (c.mem p.section_).set p.sectionPos v := if_pos rfl
    have e2 : mapDeg (c.put p.section_ ((c.mem p.section_).set p.sectionPos v)).nbits (c.put p.section_ ((c.mem p.section_).set p.sectionPos v)).nbitsExt p.section_ = 1 := hdeg
    rw [hp, Option.bind_some, if_pos (.inl hd), e2, e]
    simp [getRow, hd, List.getElem?_set_self hlen]

/-! ### Non-vacuity: two polynomials of dimensions 1 and 3 side by side in `cm2_n`, two rows -/

def exInfo : Info where
  cmN := [0, 1]
  cm2ns := []
  tmpexpN := []
  varPolMap := [⟨.cm2_n, 0, 1⟩, ⟨.cm2_n, 1, 3⟩]
  sectionsN := fun t => if t = .cm2_n then 4 else 0
  nConstants := 0
  qDim := 3

def exCtx : Ctx where
  nbits := 1
  nbitsExt := 2
  mem := fun t => if t = .cm2_n then List.replicate 8 Ext3.ZERO else []
  xXi := []
  xWXi := []
  Zi := fun _ => none

example : PolAt exInfo exCtx 2 0 ⟨.cm2_n, 0, 1, 4⟩ ∧ PolAt exInfo exCtx 2 1 ⟨.cm2_n, 1, 3, 4⟩ ∧ ApartCol ⟨.cm2_n, 0, 1, 4⟩ ⟨.cm2_n, 1, 3, 4⟩ ∧
    ¬ extSec Sec.cm2_n ∧ AllWF [Ext3.ONES, Ext3.ONE] ∧ AllWF [Ext3.ONE, Ext3.ONE] := by
  refine ⟨⟨rfl, rfl, .inl rfl, by decide, by decide⟩, ⟨rfl, rfl, .inr rfl, by decide, by decide⟩, .inr ⟨rfl, .inl (by decide)⟩, by unfold extSec; decide, ?_, ?_⟩
  · intro x hx
    rcases List.mem_cons.mp hx with rfl | hx
    · exact .inl rfl
    · rcases List.mem_cons.mp hx with rfl | hx
      · exact .inr ⟨rfl, rfl, rfl⟩
      · simp at hx
  · intro x hx
    simp at hx
    subst hx
    exact .inr ⟨rfl, rfl, rfl⟩

example : ∃ c', setPol exInfo exCtx 1 [Ext3.ONES, Ext3.ONE] = some c' ∧ c'.mem .cm2_n = [Ext3.ZERO, Ext3.ONE, Ext3.ZERO, Ext3.ZERO, Ext3.ZERO, Ext3.ONE, Ext3.ZERO, Ext3.ZERO] :=
  ⟨_, rfl, rfl⟩

/-- an instance of `setPol_raw`: one row, one column of dimension 1, an element of dimension 3 -/
example : ∃ c', setPol exInfo { exCtx with nbits := 0 } 0 [⟨1, 1, 1, 3⟩] = some c' ∧ getPol exInfo c' 0 = some [⟨1, 1, 1, 3⟩] :=
  setPol_raw (p := ⟨.cm2_n, 0, 1⟩) rfl rfl rfl (by decide) _

end

end Verif.Stage
