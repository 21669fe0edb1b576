import Verif.Map.Circuit
import Verif.Grand.ColumnsExample

/-!
# `map` on concrete circuits
-/
namespace Verif.Map.Example
open Verif.Codegen (Expr)
open Verif.Grand (PCtx)
open Verif.Ext3 (K)

/-- the circuit of `Grand.ColumnsExample`, with one intermediate polynomial -/
noncomputable def circ (fe : Expr K) : In K := { inOf Grand.Ex.st Grand.Ex.st' Grand.Ex.cx ∅ 2 Grand.Ex.cE fe with
  nCm3 := 4, imExps := fun k => k == 10, imList := [10] }

theorem circ_eq (fe : Expr K) : inOf Grand.Ex.st Grand.Ex.st' Grand.Ex.cx {10} 2 Grand.Ex.cE fe = circ fe := by
  have hs : ({10} : Finset Nat).sort (· ≤ ·) = [10] := by simp
  unfold circ inOf
  simp only [hs]
  congr
  funext k
  simp [Bool.beq_eq_decide_eq]

/-- a result to compare with: positions of the first `n` columns, widths of the four trees, `q_dim` -/
def summary (o : Out) (n : Nat) : List (Option (Nat × Nat × Nat)) × List Nat × List Nat × Nat :=
  ((List.range n).map fun k => (o.pos k).map fun c => (c.tree, c.pos, c.dim), [1, 2, 3, 4].map o.width2, [1, 2, 3].map o.widthN, o.qDim)

theorem circ_map : (map (circ (Grand.eCm 0)) 40).map (summary · 11) =
    some ((List.range 11).map fun k => (Grand.Ex.pos k).map fun c => (c.tree, c.pos, c.dim), [2, 6, 12, 6], [2, 6, 12], 3) := by
  decide +kernel

theorem circ_some : ∃ o, map (circ (Grand.eCm 0)) 40 = some o ∧ summary o 11 = ((List.range 11).map fun k => (Grand.Ex.pos k).map fun c => (c.tree, c.pos, c.dim), [2, 6, 12, 6], [2, 6, 12], 3) :=
  Option.map_eq_some_iff.mp circ_map

/-- the hypotheses of `map_pos`, `map_disjoint`, `map_exps`, `map_q_f`, `map_dims` -/
example : ∃ o, map (circ (Grand.eCm 0)) 40 = some o ∧ (circ (Grand.eCm 0)).nCm2 = 2 * (circ (Grand.eCm 0)).pu.length ∧
    (∀ k, (circ (Grand.eCm 0)).imExps k = true ↔ k ∈ (circ (Grand.eCm 0)).imList) ∧ (circ (Grand.eCm 0)).imList.Nodup ∧ o.qDim = 3 := by
  obtain ⟨o, h1, h2⟩ := circ_some
  refine ⟨o, h1, rfl, fun k => ?_, by simp [circ], ?_⟩
  · simp [circ]
  · simp only [summary, Prod.mk.injEq] at h2
    exact h2.2.2.2

open Grand Grand.Ex Stark in
/-- the hypotheses of `map_layout`, for the circuit with a lookup, a permutation and a connection -/
example : ∃ (o : Out) (U : Setup K) (R : Run) (T : Trace), map (inOf st st' cx U.S U.qDeg U.cExp (eCm 0)) 40 = some o ∧
    genArgs (algebraMap GL.F K) (some 0) st args = some (st', cx) ∧ Scoped T.nConst R.publics.length st.exps lims ∧
    (∀ m ∈ lims, m.cols ≤ st.nCm ∧ m.chals ≤ 4) ∧ ArgsScoped args lims st.nCm ∧ (∀ l, some 0 = some l → l < T.nConst) ∧
    ImPols.generate 30 st'.exps st'.ids st'.nCm 3 = some (U.S, U.qDeg, U.cExp) ∧ (∀ id ∈ st.ids, id < st.exps.length) ∧
    (∀ k ∈ U.S, k < st'.exps.length ∧ Safe (inOf st st' cx U.S U.qDeg U.cExp (eCm 0)) k) ∧ (∀ e ∈ st'.exps, NumBase e) ∧
    (∀ v ∈ R.publics, Base v) ∧ R.pos = o.pos ∧ R.qDim = o.qDim ∧ R.nCm = st'.nCm ∧ (∀ t, 1 ≤ t → t ≤ 3 → T.width t = o.widthN t) := by
  obtain ⟨o, h1, h2⟩ := circ_some
  obtain ⟨U, -, u1, u2, u3⟩ := setup_some
  obtain ⟨P, hP⟩ := progs_some
  have C := circuit hP
  simp only [summary, Prod.mk.injEq, List.map_cons, List.map_nil, List.cons.injEq] at h2
  refine ⟨o, U, { run with pos := o.pos }, trace, ?_, gen, C.sc, C.bounds, C.args, fun l hl => (C.l1c l hl).1, ?_, by simp [st], ?_, numBase, C.dims.publics, rfl, h2.2.2.2.symm, rfl, ?_⟩
  · rw [u1, u2, u3, circ_eq]; exact h1
  · rw [u1, u2, u3]; exact generated
  · intro k hk
    rw [u1, Finset.mem_singleton] at hk
    subst hk
    exact safe_early gen C.sc C.bounds C.args (fun l hl => (C.l1c l hl).1) (.inr (.inr ⟨_, List.mem_append_left _ (List.mem_append_left _ (List.mem_singleton.mpr rfl)), .inl rfl⟩))
  · intro t h3 h4
    obtain ⟨-, -, ⟨w1, w2, w3, -⟩, -⟩ := h2
    interval_cases t
    · rw [w1]; rfl
    · rw [w2]; rfl
    · rw [w3]; rfl

/-! ### A dimension that is wrong -/

/-- one permutation argument (column 1 is its grand product) and two intermediate polynomials: expression 0 is column 0, expression 1
is the grand product -/
def badCirc : In Nat where
  exps := [Grand.eCm 0, Grand.eCm 1, Grand.eCm 0]
  nCm1 := 1
  nCm2 := 0
  nCm3 := 3
  nCm4 := 0
  pu := []
  pe := [{ num := 2, den := 2 }]
  ci := []
  imExps := fun k => k == 0 || k == 1
  imList := [0, 1]
  cExp := 0
  qDeg := 0

/-- **C94, the hypothesis `Safe` is needed**: the slot of `cm_dims` of a grand product is overwritten by the dimension of an
intermediate polynomial (starkinfo_map.rs L172), so a later intermediate polynomial that is the grand product itself gets one cell, while the
column it copies has three. -/
theorem map_dims_wrong : ∃ o, map badCirc 5 = some o ∧ o.dim 1 = some 3 ∧ o.expDim badCirc 5 1 = some 3 ∧ o.dim 3 = some 1 := by
  have h : (map badCirc 5).map (fun o => (o.dim 1, o.expDim badCirc 5 1, o.dim 3)) = some (some 3, some 3, some 1) := by decide +kernel
  obtain ⟨o, h1, h2⟩ := Option.map_eq_some_iff.mp h
  simp only [Prod.mk.injEq] at h2
  exact ⟨o, h1, h2⟩

end Verif.Map.Example
