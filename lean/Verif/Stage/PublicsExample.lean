import Verif.Stage.PublicsGen
import Verif.Stage.FullExample

/-!
# Public inputs of concrete circuits
-/
set_option linter.unusedSectionVars false

namespace Verif.Stage.PubEx
open Codegen Codegen.Spec Verif.Stark FFT Fri Verif.Grand
open Verif.GL (F)
open Verif.Ext3 (F3G K WF val ofF coord)
open Verif.Interp (Sec Info)

noncomputable section

/-! ### Two rows, one column, three public inputs, of which the second uses the first -/

def exps : List (Expr K) :=
  [eMul (eCm 0) (eNum (algebraMap F K 3)), eAdd (eExp 0 true) (eCm 0), eSub (.node { op := .public_, id := some 0 } []) (eCm 0)]

def pubs : List Pub := [⟨.imP, 1, 1⟩, ⟨.imP, 2, 0⟩, ⟨.cmP, 0, 1⟩]
def cm1 (i : Nat) : F := if i = 0 then 5 else 7
def info : Info := ⟨[0], [], [], [⟨.cm1_n, 0, 1⟩], fun t => if t = .cm1_n then 1 else 0, 0, 1⟩

/-- the buffers -/
def ctx : Ctx where
  nbits := 1
  nbitsExt := 2
  mem
    | .cm1_n => [ofF 5, ofF 7]
    | .x_n => [ofF 1, ofF (Roots.mg 1)]
    | _ => []
  xXi := []
  xWXi := []
  Zi := fun _ => none

theorem rowCtx : RowCtx 1 1 1 0 cm1 (fun _ => 0) info ctx where
  nbits := rfl
  cm r hr k hk := by
    obtain rfl : k = 0 := by omega
    interval_cases r <;> rfl
  const_ r hr k hk := by omega
  x r hr := by
    interval_cases r
    · exact ⟨1, rfl, by simp⟩
    · exact ⟨Roots.mg 1, rfl, by rw [pow_one]; rfl⟩
  col k hk := by
    obtain rfl : k = 0 := by omega
    rfl
  width := rfl
  nConst := rfl

theorem plain : PlainExps exps Map.litK := by
  intro e he l hl
  simp only [exps, List.mem_cons, List.not_mem_nil, or_false] at he
  have leaf : ∀ {l' : Label K}, l'.op ≠ .muladd → (∀ p r v, Map.leafOf 0 p l' = some r → r.ty = .number → r.value = some v → ∃ b, v = algebraMap F K b ∧ Map.litK v = ofF b) →
      Map.HasLabel l (.node l' []) → l.op ≠ .muladd ∧ ∀ p r v, Map.leafOf 0 p l = some r → r.ty = .number → r.value = some v → ∃ b, v = algebraMap F K b ∧ Map.litK v = ofF b := by
    intro l' h1 h2 h
    rw [Map.hasLabel_leaf h]
    exact ⟨h1, h2⟩
  rcases he with rfl | rfl | rfl
  · rcases Map.hasLabel_two hl with rfl | hl | hl
    · exact ⟨by simp, by simp [Map.leafOf]⟩
    · exact leaf (by simp) (by rintro p r v ⟨⟩ ⟨⟩) hl
    · exact leaf (by simp) (by rintro p r v ⟨⟩ - ⟨⟩; exact ⟨3, rfl, lit_base Map.litK_spec Map.litK_dim 3⟩) hl
  · rcases Map.hasLabel_two hl with rfl | hl | hl
    · exact ⟨by simp, by simp [Map.leafOf]⟩
    · exact leaf (by simp) (by rintro p r v ⟨⟩ ⟨⟩) hl
    · exact leaf (by simp) (by rintro p r v ⟨⟩ ⟨⟩) hl
  · rcases Map.hasLabel_two hl with rfl | hl | hl
    · exact ⟨by simp, by simp [Map.leafOf]⟩
    · exact leaf (by simp) (by rintro p r v ⟨⟩ ⟨⟩) hl
    · exact leaf (by simp) (by rintro p r v ⟨⟩ ⟨⟩) hl

theorem are : ArePubs exps 3 1 1 1 0 cm1 (fun _ => 0) pubs [22, 17, 7] := by
  refine ⟨rfl, fun i p v hp hv => ?_⟩
  have hi := (List.getElem?_eq_some_iff.mp hp).1
  simp only [pubs, List.length_cons, List.length_nil] at hi
  interval_cases i
  · obtain rfl := Option.some.inj hp
    obtain rfl := Option.some.inj hv
    refine ⟨by decide, 1, eAdd (eExp 0 true) (eCm 0), by decide, rfl, ?_⟩
    rw [show (22 : F) = 5 * 3 + 7 by decide +kernel, map_add, map_mul]
    exact .add rfl (.exp rfl rfl rfl rfl (.mul rfl (.col rfl rfl rfl rfl) (.number rfl rfl) rfl)) (.col rfl rfl rfl rfl) rfl
  · obtain rfl := Option.some.inj hp
    obtain rfl := Option.some.inj hv
    refine ⟨by decide, 0, eSub (.node { op := .public_, id := some 0 } []) (eCm 0), by decide, rfl, ?_⟩
    rw [show (17 : F) = 22 - 5 by decide +kernel, map_sub]
    exact .sub rfl (.byId rfl rfl rfl) (.col rfl rfl rfl rfl) rfl
  · obtain rfl := Option.some.inj hp
    obtain rfl := Option.some.inj hv
    exact ⟨by decide, by decide, rfl⟩

theorem first : ExpsFirst pubs := by
  intro i j p q hij hp hq hqt
  have hj := (List.getElem?_eq_some_iff.mp hq).1
  simp only [pubs, List.length_cons, List.length_nil] at hj
  have : i = 0 ∨ i = 1 := by omega
  rcases this with rfl | rfl
  · obtain rfl := Option.some.inj hp
    rfl
  · obtain rfl := Option.some.inj hp
    rfl

/-- non-vacuity of `publics_spec_partial` -/
example : ∃ codes, publicsCode exps 3 Map.litK pubs = some codes ∧ ∃ c, publicsBuf info codes pubs ctx = some c ∧ c.mem .publics = [ofF 22, ofF 17, ofF 7] := by
  obtain ⟨codes, h1, l, h2⟩ := publics_spec_partial plain rowCtx are first
  exact ⟨codes, h1, _, h2, rfl⟩

/-- non-vacuity of `publics_mixed`: a cell before an expression; the programs exist, the values exist, and the prover panics -/
example : ∃ codes, publicsCode exps 3 Map.litK [⟨.cmP, 0, 1⟩, ⟨.imP, 1, 1⟩] = some codes ∧
    ArePubs exps 3 1 1 1 0 cm1 (fun _ => 0) [⟨.cmP, 0, 1⟩, ⟨.imP, 1, 1⟩] [7, 22] ∧ publicsBuf info codes [⟨.cmP, 0, 1⟩, ⟨.imP, 1, 1⟩] ctx = none := by
  obtain ⟨codes, h1, -⟩ := publics_spec_partial (pubs := [⟨.imP, 1, 1⟩]) (vs := [22]) (fuel := 3) plain rowCtx ⟨rfl, fun i p v hp hv => by
    obtain rfl : i = 0 := by
      have := (List.getElem?_eq_some_iff.mp hp).1
      simpa using this
    exact are.2 0 p v hp hv⟩ (by
      intro i j p q hij hp hq
      have := (List.getElem?_eq_some_iff.mp hq).1
      simp only [List.length_cons, List.length_nil] at this
      omega)
  have h2 : publicsCode exps 3 Map.litK [⟨.cmP, 0, 1⟩, ⟨.imP, 1, 1⟩] = some codes := by
    rw [publicsCode, if_neg (by decide)]
    exact h1
  refine ⟨codes, h2, ⟨rfl, fun i p v hp hv => ?_⟩, publics_mixed h2 (i := 0) (j := 1) (by decide) rfl rfl (by decide) rfl info ctx⟩
  have hi := (List.getElem?_eq_some_iff.mp hp).1
  simp only [List.length_cons, List.length_nil] at hi
  interval_cases i
  · obtain rfl := Option.some.inj hp
    obtain rfl := Option.some.inj hv
    exact ⟨by decide, by decide, rfl⟩
  · obtain rfl := Option.some.inj hp
    obtain rfl := Option.some.inj hv
    refine ⟨by decide, 1, eAdd (eExp 0 true) (eCm 0), by decide, rfl, ?_⟩
    rw [show (22 : F) = 5 * 3 + 7 by decide +kernel, map_add, map_mul]
    exact .add rfl (.exp rfl rfl rfl rfl (.mul rfl (.col rfl rfl rfl rfl) (.number rfl rfl) rfl)) (.col rfl rfl rfl rfl) rfl

/-! ### The circuit with a lookup, a permutation and a connection -/

open Verif.Grand.Ex in
/-- the public inputs of the circuit: an expression at row 1 and a cell of row 1 -/
def circPubs : List Pub := [⟨.imP, 0, 1⟩, ⟨.cmP, 1, 1⟩]

/-- non-vacuity of `pubs_gen_partial` and `pubs_accepted_partial`: the prover computes the two public inputs and returns a proof that the verifier accepts -/
theorem starkGen_accepted (workers : Nat) (h1 : 1 ≤ workers) (h2 : workers ≤ 2048) (init2 init3 : FftP.Buf F) (dirty : Nat → FftP.Buf F) :
    ∃ (U : Stark.Setup K) (S : Full) (codes : List Code) (fixed : List F) (ctree : MerkleGL.MT F), publicsCode Grand.Ex.st.exps 3 Map.litK circPubs = some codes ∧ S.dirty = dirty ∧
      ∃ proof t', starkGenBuf (glMT Stark.Example.ones 3) (glTr Stark.Example.ones) (Grand.Ex.run.cfg 8 [1]) TranscriptGL.new S codes circPubs ctree
          (ctx0 Grand.Ex.run Grand.Ex.trace S Example.zis fixed [] []) = some (proof, t') ∧
        starkVerify (glMT Stark.Example.ones 3) (glTr Stark.Example.ones) encK ⟨algebraMap F K, coord⟩ (Grand.Ex.run.cfg 8 [1]) Ext3.asElements val TranscriptGL.new U.info
          ((glMT Stark.Example.ones 3).root ctree) proof = some (true, t') := by
  obtain ⟨U, o, P, S, fixed, ctree, H, hd, proof, t', g1, g2⟩ := Example.genBuf_accepted workers h1 h2 init2 init3 dirty
  obtain ⟨codes, k1, tmp, k2⟩ := pubs_gen_partial H (fun e he => Grand.Ex.numBase e (List.mem_append_left _ he)) (pubs := circPubs) (fuelC := 3) ⟨rfl, fun i p v hp hv => by
    have hi := (List.getElem?_eq_some_iff.mp hp).1
    simp only [circPubs, List.length_cons, List.length_nil] at hi
    interval_cases i
    · obtain rfl := Option.some.inj hp
      obtain rfl := Option.some.inj hv
      exact ⟨by decide, 0, eCm 0, by decide, rfl, .col rfl rfl rfl rfl⟩
    · obtain rfl := Option.some.inj hp
      obtain rfl := Option.some.inj hv
      exact ⟨by decide, by decide, rfl⟩⟩ (by
    intro i j p q hij hp hq _
    have hj := (List.getElem?_eq_some_iff.mp hq).1
    simp only [circPubs, List.length_cons, List.length_nil] at hj
    obtain rfl : i = 0 := by omega
    obtain rfl := Option.some.inj hp
    rfl)
  exact ⟨U, S, codes, fixed, ctree, k1, hd, proof, t', by rw [k2]; exact g1 tmp, g2⟩

end

end Verif.Stage.PubEx
