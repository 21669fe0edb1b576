import Verif.Stage.Rounds
import Verif.Stark.ProverData

/-!
# The columns cover the sections

Every cell of a section of the trace domain belongs to one of the committed columns, so that the contents of the section are determined by the columns.
-/
set_option linter.unusedSectionVars false

namespace Verif.Stage
open Codegen Codegen.Spec Verif.Stark FFT Fri Verif.Grand
open Verif.GL (F)
open Verif.Ext3 (F3G K WF val ofF coord)
open Verif.Interp (Sec Info algF3 cleared execInfo setWidth)
open Verif.Interp.Spec (Col cell readCol polCol nodeCol rowOf)
open Verif.Map (Hold Out MapOk inOf secN In cntC startC posC widthC)

/-- the column of a tree and dimension with a given number among those -/
theorem cntC_find {t e : Nat} : ∀ (cols : List (Nat × Nat)) (n : Nat), n < cntC t e cols → ∃ k : Nat, cols[k]? = some (t, e) ∧ cntC t e (cols.take k) = n
  | [], n, h => by simp [cntC] at h
  | x :: cols, n, h => by
    by_cases hx : x.1 = t ∧ x.2 = e
    · have hc : cntC t e (x :: cols) = cntC t e cols + 1 := by simp [cntC, hx]
      cases n with
      | zero =>
        refine ⟨0, ?_, by simp [cntC]⟩
        rw [List.getElem?_cons_zero]
        exact congrArg some (Prod.ext hx.1 hx.2)
      | succ n =>
        obtain ⟨k, h1, h2⟩ := cntC_find (t := t) (e := e) cols n (by omega)
        refine ⟨k + 1, h1, ?_⟩
        rw [List.take_succ_cons, ← h2]
        simp [cntC, hx]
    · have hc : cntC t e (x :: cols) = cntC t e cols := by
        unfold cntC
        rw [List.countP_cons_of_neg]
        simpa using hx
      obtain ⟨k, h1, h2⟩ := cntC_find (t := t) (e := e) cols n (by omega)
      refine ⟨k + 1, h1, ?_⟩
      rw [List.take_succ_cons, ← h2]
      unfold cntC
      rw [List.countP_cons_of_neg]
      simpa using hx

/-- every position below the width is in a column -/
theorem posC_cover {cols : List (Nat × Nat)} {t x : Nat} (h : x < widthC cols t) :
    ∃ (k e : Nat), cols[k]? = some (t, e) ∧ posC cols k t e ≤ x ∧ x < posC cols k t e + e := by
  unfold widthC at h
  by_cases h1 : x < cntC t 1 cols
  · obtain ⟨k, g1, g2⟩ := cntC_find cols x h1
    refine ⟨k, 1, g1, ?_⟩
    unfold posC
    rw [if_pos (by omega), g2]
    simp [startC]
  by_cases h2 : x < cntC t 1 cols + 2 * cntC t 2 cols
  · obtain ⟨k, g1, g2⟩ := cntC_find (t := t) (e := 2) cols ((x - cntC t 1 cols) / 2) (by omega)
    refine ⟨k, 2, g1, ?_⟩
    unfold posC
    rw [if_pos (by omega), g2]
    simp only [startC]
    omega
  · obtain ⟨k, g1, g2⟩ := cntC_find (t := t) (e := 3) cols ((x - cntC t 1 cols - 2 * cntC t 2 cols) / 3) (by omega)
    refine ⟨k, 3, g1, ?_⟩
    unfold posC
    rw [if_pos (by omega), g2]
    simp only [startC]
    omega

/-- The columns cover the sections of the layout computed by `map`. -/
theorem map_cover {E : Type} {i : In E} {fuel : Nat} {o : Out} (h : Map.map i fuel = some o) (hn2 : i.nCm2 = 2 * i.pu.length) {t x : Nat} (h1 : 1 ≤ t) (h4 : t ≤ 4)
    (hx : x < o.widthN t) : ∃ k c, k < i.nCols ∧ o.pos k = some c ∧ c.tree = t ∧ i.tree k = t ∧ c.pos ≤ x ∧ x < c.pos + c.dim := by
  obtain ⟨ds, es, -, -, hC, -⟩ := Map.map_cols h hn2
  rw [(hC.width t h1 h4).1] at hx
  obtain ⟨k, e, g1, g2, g3⟩ := posC_cover hx
  refine ⟨k, _, ?_, (hC.pos k t e g1).1, rfl, (hC.trees k t e g1).1.symm, g2, g3⟩
  rw [← hC.len]
  exact (List.getElem?_eq_some_iff.mp g1).1

noncomputable section

variable {R : Run} {T : Trace} {S : Finset Nat} {l1 : Option Nat} {st st' : PilSt K} {a : Args} {cx : ArgCtx} {lims : List Lim} {fuel : Nat} {P : Progs}
  {q : Nat} {ce fe : Expr K} {fuelM : Nat} {o : Out} {lit : K → F3G}

/-- every cell of a section of the first three rounds is in a committed column of that round -/
theorem Circ.cover (O : Circ R T S l1 st st' a cx lims fuel P q ce fe fuelM o lit) {t x : Nat} (h1 : 1 ≤ t) (h3 : t ≤ 3) (hx : x < T.width t) :
    ∃ k c, k < R.nCm + S.card ∧ R.pos k = some c ∧ c.tree = t ∧ c.pos ≤ x ∧ x < c.pos + c.dim ∧ (t = 1 → k < st.nCm) ∧ (t = 2 → k < st.nCm + 2 * a.plookups.length) := by
  rw [O.width t h1 h3] at hx
  obtain ⟨k, c, g1, g2, g3, g4, g5, g6⟩ := map_cover O.map.map O.map.nCm2 h1 (by omega) hx
  obtain ⟨e1, e2, e3, -⟩ := genArgs_ctx O.circ.gen
  have hcnt := O.circ.count
  simp only [List.length_append] at hcnt
  have hk : k < R.nCm + S.card := by
    by_contra hk
    simp only [Map.In.tree, inOf, Finset.length_sort] at g4
    rw [if_neg (by omega), if_neg (by omega), if_neg (by omega)] at g4
    omega
  obtain ⟨c', j1, -, j3, -⟩ := O.circ.pos hk
  rw [O.pos, g2] at j1
  obtain rfl := Option.some.inj j1
  refine ⟨k, c, hk, by rw [O.pos]; exact g2, g3, g5, g6, fun h => ?_, fun h => ?_⟩
  · rw [g3] at j3
    by_contra hn
    rw [if_neg hn] at j3
    split_ifs at j3 <;> omega
  · rw [g3] at j3
    by_contra hn
    rw [if_neg (by omega), if_neg hn] at j3
    omega

/-- **The contents of a section.**  When the buffers hold the committed columns of a round, the section is the one of the trace. -/
theorem section_eq (O : Circ R T S l1 st st' a cx lims fuel P q ce fe fuelM o lit) {TF : Trace} (hw : TF.width = T.width) {ch : List K} {m : Sec → List F3G} {lim t : Nat}
    (h1 : 1 ≤ t) (h3 : t ≤ 3) (hH : Holds R T TF o ch m (· < lim)) (hlim : ∀ k c, k < R.nCm + S.card → R.pos k = some c → c.tree = t → k < lim)
    (hlen : (m (secN t)).length = 2 ^ R.nb * T.width t) :
    m (secN t) = (List.range (2 ^ R.nb * T.width t)).map fun x => ofF (TF.sec ch t x) := by
  refine List.ext_getElem? fun x => ?_
  by_cases hx : x < 2 ^ R.nb * T.width t
  · rw [List.getElem?_map, List.getElem?_range hx, Option.map_some]
    have hw0 : 0 < T.width t := by
      rcases Nat.eq_zero_or_pos (T.width t) with h | h
      · rw [h] at hx; simp at hx
      · exact h
    obtain ⟨k, cp, hk, hc, ht, p1, p2, -⟩ := O.cover (x := x % T.width t) h1 h3 (Nat.mod_lt _ hw0)
    obtain ⟨col, g1, g2⟩ := hH k (hlim k cp hk hc ht)
    obtain ⟨cp', j1, j2, j3, j4, j5, -⟩ := O.col hk
    obtain rfl := Option.some.inj (hc.symm.trans j1)
    obtain rfl := Option.some.inj (g1.symm.trans j2)
    have hr : x / T.width t < 2 ^ R.nb := (Nat.div_lt_iff_lt_mul hw0).mpr hx
    have hxe := Nat.div_add_mod x (T.width t)
    obtain ⟨v, hv, hh⟩ := g2 _ hr
    have hv' := O.circ.col hw ch hk hc (x / T.width t)
    rw [← j4, ht, Nat.mod_eq_of_lt hr] at hv'
    obtain rfl := Option.some.inj (hv.symm.trans hv')
    unfold Hold colB at hh
    dsimp only at hh
    rw [ht] at hh
    have hcell : ∀ j, cp.pos + j = x % T.width t → cell (m (secN t)) (T.width t) (x / T.width t) (cp.pos + j) = (m (secN t))[x]? := by
      intro j hj
      unfold cell
      rw [hj, Nat.mul_comm, hxe]
    have hsrc : ∀ j, cp.pos + j = x % T.width t → cp.pos + x / T.width t * T.width t + j = x := by
      intro j hj
      rw [Nat.mul_comm (x / T.width t)]
      omega
    rcases j3 with hd | hd
    · rw [if_pos hd, if_pos hd] at hh
      obtain ⟨b, hb, he⟩ := hh
      have hj : cp.pos + 0 = x % T.width t := by omega
      have := hcell 0 hj
      rw [Nat.add_zero] at this
      rw [← this, hb]
      have hs := hsrc 0 hj
      rw [show x / T.width t * T.width t + cp.pos = x by omega] at he
      rw [(algebraMap F K).injective he]
    · rw [if_neg (by omega), if_neg (by omega)] at hh
      obtain ⟨b0, b1, b2, k0, k1, k2, he⟩ := hh
      obtain ⟨e0, e1, e2⟩ := Ext3.coord_inj he
      obtain hj | hj | hj : cp.pos + 0 = x % T.width t ∨ cp.pos + 1 = x % T.width t ∨ cp.pos + 2 = x % T.width t := by omega
      · have := hcell 0 hj
        rw [Nat.add_zero] at this
        rw [← this, k0, e0]
        rw [show cp.pos + x / T.width t * T.width t = x from hsrc 0 hj]
      · rw [← hcell 1 hj, k1, e1, hsrc 1 hj]
      · rw [← hcell 2 hj, k2, e2, hsrc 2 hj]
  · rw [List.getElem?_eq_none (by omega), List.getElem?_eq_none (by simp; omega)]

end

/-- The extension of a section depends on the cells of the section only, and not on the previous contents of the result. -/
theorem extendSec_congr {workers nb ext width : Nat} (H : SizeOk workers nb ext width) {src src' dst dst' : FftP.Buf F}
    (h : ∀ x < 2 ^ nb * width, src x = src' x) {out : FftP.Buf F} (ho : extendSec workers nb ext width src dst = some out) :
    ∃ out', extendSec workers nb ext width src' dst' = some out' ∧ cellsOf out' width (2 ^ (nb + ext)) = cellsOf out width (2 ^ (nb + ext)) := by
  obtain ⟨o1, g1, P1, p1⟩ := sec_poly H src dst
  obtain ⟨o2, g2, P2, p2⟩ := sec_poly H src' dst'
  obtain rfl := Option.some.inj (g1.symm.trans ho)
  refine ⟨o2, g2, ?_⟩
  unfold cellsOf
  refine List.map_congr_left fun x hx => ?_
  have hx : x < width * 2 ^ (nb + ext) := List.mem_range.mp hx
  have hw0 : 0 < width := by
    rcases Nat.eq_zero_or_pos width with h | h
    · rw [h] at hx; simp at hx
    · exact h
  have hk : x % width < width := Nat.mod_lt _ hw0
  have hr : x / width < 2 ^ (nb + ext) := (Nat.div_lt_iff_lt_mul hw0).mpr (by rw [Nat.mul_comm]; exact hx)
  have hxe := Nat.div_add_mod x width
  have hP : P2 (x % width) = P1 (x % width) := by
    obtain ⟨a1, a2, -⟩ := p1 _ hk
    obtain ⟨b1, b2, -⟩ := p2 _ hk
    have hN : 0 < 2 ^ nb := by positivity
    have hpr := (rootsF (bits := nb) (by have := H.nb1; omega)).primitive two_neF
    refine Polynomial.eq_of_natDegree_lt_card_of_eval_eq _ _ (f := fun i : Fin (2 ^ nb) => Roots.mg nb ^ (i : Nat)) (fun i j hij => ?_) (fun i => ?_) (by
      rw [Fintype.card_fin]; exact max_lt b1 a1)
    · exact Fin.ext (hpr.pow_inj i.2 j.2 hij)
    obtain ⟨i, hi⟩ := i
    dsimp only
    rw [a2 i hi, b2 i hi]
    exact (h _ (by rw [Nat.mul_comm (2 ^ nb)]; exact cell_lt hi hk)).symm
  have e2 := (p2 _ hk).2.2 _ hr
  have e1 := (p1 _ hk).2.2 _ hr
  rw [show x / width * width + x % width = x by rw [Nat.mul_comm]; exact hxe] at e1 e2
  rw [e1, e2, hP]

end Verif.Stage
