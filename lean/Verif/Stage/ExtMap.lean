import Verif.Stage.Ext
import Verif.Map.Example

/-!
# The layout of the extended domain that the setup computes
-/
set_option linter.unusedSectionVars false

namespace Verif.Stage
open Verif.Interp (NodeTy Dom Sec Info PolType)
open Verif.Interp.Spec (Col nodeCol polCol)
open Verif.Ext3 (F3G K)
open Verif.StarkInfo (names mapSection cnt)
open Verif.Stark (Run Setup Trace ColPos width4 Layout)
open Verif.Map (sec2 treeOf Out In)

/-- the tree of a section determines the section, starkinfo_map.rs L255-277 -/
theorem treeOf_sec {x : Sec} {t : Nat} (h : treeOf x = some t) : x = sec2 t ∧ 1 ≤ t ∧ t ≤ 4 := by
  cases x <;> simp [treeOf] at h <;> subst h <;> exact ⟨rfl, by decide, by decide⟩

/-- **C103** The layout of the extended domain used by `step4` and `step5` is the one `map` computes: if the positions of the prover are those of
`map`, then the columns, widths and sections of the compiled programs are those of the buffers. -/
theorem map_extLay {E : Type} {i : In E} {fuel : Nat} {o : Out} {R : Run} {U : Setup K} {T : Trace} (h : Map.map i fuel = some o) (hn2 : i.nCm2 = 2 * i.pu.length)
    (hL : Layout R U T) (hpos : R.pos = o.pos) (hqd : R.qDim = o.qDim) (hdeg : i.qDeg = U.qDeg) (hq : R.qDim = 1 ∨ R.qDim = 3)
    (hw : ∀ t, 1 ≤ t → t ≤ 3 → T.width t = o.widthN t) :
    ExtLay R U T (o.info T.nConst) := by
  have hwid : ∀ t, 1 ≤ t → t ≤ 4 → o.lay.n (sec2 t) = width4 R U T t := by
    intro t h1 h2
    unfold width4
    by_cases h4 : t = 4
    · rw [if_pos h4, h4, hqd, ← hdeg]
      exact (Map.map_quot h hn2 (by rw [← hqd]; exact hq)).2
    · rw [if_neg h4, hw t h1 (by omega), (Map.map_pos h hn2).2.2 t h1 h2]
      rfl
  obtain ⟨r, ds, es, -, ho, hF, -⟩ := Map.map_cols_raw h hn2
  have hs := hF.inv.secs
  have hlay : o.lay = mapSection (r.1.pols ++ [⟨.q_2ns, 0, r.2⟩, ⟨.f_2ns, 0, 3⟩]) := by rw [ho]
  have hr2 : o.qDim = r.2 := by rw [ho]
  have hz : ∀ t e, t = .q_2ns ∨ t = .f_2ns → cnt t e r.1.pols = 0 := by
    intro t e ht
    unfold cnt StarkInfo.isPol
    rw [List.countP_eq_zero]
    intro x hx
    obtain ⟨-, g1, g2⟩ := hs x hx
    rcases ht with rfl | rfl <;> simp [g1, g2]
  refine ⟨?_, hL.dims, fun t h1 h2 => hwid t h1 h2, rfl, hqd.symm, ?_, ?_⟩
  · intro k cp hk
    rw [hpos] at hk
    unfold Out.pos at hk
    obtain ⟨p, hp, hk⟩ := Option.bind_eq_some_iff.mp hk
    obtain ⟨x, hx, hk⟩ := Option.bind_eq_some_iff.mp hk
    obtain ⟨t, ht, hk⟩ := Option.map_eq_some_iff.mp hk
    obtain ⟨g1, g2, g3⟩ := treeOf_sec ht
    subst hk
    show (o.st.cm2ns[k]?.bind (polCol (o.info T.nConst))) = _
    rw [hp, Option.bind_some]
    unfold polCol
    rw [show (o.info T.nConst).varPolMap = o.lay.pols from rfl, hx, Option.bind_some]
    have hne : x.section_ ≠ .tmp := by
      intro hh
      rw [hh] at ht
      cases ht
    rw [if_neg hne, g1, show (o.info T.nConst).sectionsN (sec2 t) = o.lay.n (sec2 t) from rfl, hwid t g2 g3]
  · show o.lay.n .q_2ns = _
    rw [hlay, Map.mapSection_width _ _ (by decide)]
    simp only [Map.cnt_append, hz .q_2ns _ (.inl rfl)]
    rw [hqd, hr2] at hq ⊢
    rcases hq with hq | hq <;> rw [hq] <;> decide
  · show o.lay.n .f_2ns = _
    rw [hlay, Map.mapSection_width _ _ (by decide)]
    simp only [Map.cnt_append, hz .f_2ns _ (.inr rfl)]
    rw [hqd, hr2] at hq
    rcases hq with hq | hq <;> rw [hq] <;> decide

/-- the dimension of the quotient is that of its pieces -/
theorem layout_qDim {R : Run} {U : Setup K} {T : Trace} (hL : Layout R U T) (h : 0 < U.qDeg) : R.qDim = 1 ∨ R.qDim = 3 :=
  (hL.dims _ _ (hL.quot 0 h)).1

open Verif.Grand Verif.Grand.Ex Verif.Stark Verif.Map Verif.Map.Example in
/-- the hypotheses of `map_extLay` hold for the circuit with a lookup, a permutation, a connection and an intermediate polynomial -/
example : ∃ (o : Out) (U : Setup K) (R : Run) (T : Trace), Layout R U T ∧ U.qDeg = 2 ∧ ExtLay R U T (o.info T.nConst) := by
  obtain ⟨o, h1, h2⟩ := circ_some
  obtain ⟨U, -, u1, u2, u3⟩ := setup_some
  obtain ⟨P, hP⟩ := progs_some
  have C := circuit hP
  simp only [summary, Prod.mk.injEq, List.map_cons, List.map_nil, List.cons.injEq] at h2
  have hm : Map.map (inOf st st' cx U.S U.qDeg U.cExp (eCm 0)) 40 = some o := by rw [u1, u2, u3, circ_eq]; exact h1
  have hw : ∀ t, 1 ≤ t → t ≤ 3 → trace.width t = o.widthN t := by
    intro t h3 h4
    obtain ⟨-, -, ⟨w1, w2, w3, -⟩, -⟩ := h2
    interval_cases t
    · rw [w1]; rfl
    · rw [w2]; rfl
    · rw [w3]; rfl
  have hL := (map_layout (R := { run with pos := o.pos }) (T := trace) hm gen C.sc C.bounds C.args (fun l hl => (C.l1c l hl).1) (fuelI := 30) (md := 3) (by rw [u1, u2, u3]; exact generated)
    (by simp [st]) (by
      intro k hk
      rw [u1, Finset.mem_singleton] at hk
      subst hk
      exact safe_early gen C.sc C.bounds C.args (fun l hl => (C.l1c l hl).1) (.inr (.inr ⟨_, List.mem_append_left _ (List.mem_append_left _ (List.mem_singleton.mpr rfl)), .inl rfl⟩)))
    numBase (C.dims.publics) rfl h2.2.2.2.symm rfl hw).2.2.2.1
  exact ⟨o, U, { run with pos := o.pos }, trace, hL, u2, map_extLay hm rfl hL rfl h2.2.2.2.symm rfl (.inr rfl) hw⟩

end Verif.Stage
