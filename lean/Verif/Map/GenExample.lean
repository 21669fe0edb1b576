import Verif.Map.Gen
import Verif.Map.Example
import Verif.Map.RowsExample

/-!
# The hypotheses of C98 on a concrete circuit
-/
namespace Verif.Map.Example
open Verif.Codegen (Expr)
open Verif.Grand Verif.Grand.Ex Verif.Stark
open Verif.Ext3 (K)

/-- the circuit with a lookup, a permutation and a connection satisfies what `map_place`, `map_read`, `map_dimOk` and `map_rows` assume about the setup -/
theorem circuit_ok : ∃ (o : Out) (S : Finset Nat) (q : Nat) (ce : Expr K),
    MapOk (inOf st st' cx S q ce (eCm 0)) 40 o ∧ (∀ Rq, ExpsOk (inOf st st' cx S q ce (eCm 0)) st'.exps trace.nConst Rq ∧ PlainOps st'.exps Rq) ∧
    summary o 11 = ((List.range 11).map fun k => (Grand.Ex.pos k).map fun c => (c.tree, c.pos, c.dim), [2, 6, 12, 6], [2, 6, 12], 3) ∧
    (∀ reqs : List Codegen.Req, (∀ r ∈ reqs, r.prime = false) → NoPoint st'.exps (Needed st'.exps reqs)) ∧ S = {10} ∧ q = 2 ∧ ce = cE := by
  obtain ⟨o, h1, h2⟩ := circ_some
  obtain ⟨U, -, u1, u2, u3⟩ := setup_some
  obtain ⟨P, hP⟩ := progs_some
  have C := circuit hP
  refine ⟨o, {10}, 2, cE, ?_, fun Rq => ?_, h2, fun reqs hr => ?_, rfl, rfl, rfl⟩
  · refine gen_mapOk (by rw [circ_eq]; exact h1) gen C.sc C.bounds C.args (fun l hl => (C.l1c l hl).1) (by exact generated) (by simp [st]) ?_
    intro k hk
    rw [Finset.mem_singleton] at hk
    subst hk
    exact (safe_early gen C.sc C.bounds C.args (fun l hl => (C.l1c l hl).1)
      (.inr (.inr ⟨_, List.mem_append_left _ (List.mem_append_left _ (List.mem_singleton.mpr rfl)), .inl rfl⟩))).2
  · exact gen_expsOk gen C.sc C.bounds C.args (fun l hl => (C.l1c l hl).1) numBase Rq
  · refine gen_noPoint gen C.sc C.args ?_ hr
    intro e he
    simp only [st, exps, List.mem_cons, List.not_mem_nil, or_false] at he
    have hleaf : ∀ l : Codegen.Label K, Codegen.Spec.nullTy l.op = none → NoX (.node l [] : Expr K) := by
      intro l hl l' h'
      rcases h' with _ | ⟨hm, -⟩
      · exact hl
      · cases hm
    rcases he with rfl | rfl | rfl | rfl | rfl <;> exact hleaf _ rfl

end Verif.Map.Example
