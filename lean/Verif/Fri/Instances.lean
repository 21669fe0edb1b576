import Verif.Fri.Total
import Verif.FFT.Instances
import Verif.Hash.MerkleGLProps
import Verif.Transcript.GLProps
import Verif.Transcript.Perms

/-!
# FRI over the Goldilocks Merkle tree and transcript

The parameters of `Fri.prove` and `Fri.verify` as the code instantiates them for `MerkleTreeGL`, `TranscriptGL` and
`F3G`: the field `Ext3.K`, the table `MG`, the shift `49`, digests of four elements.  Only the Poseidon permutation stays a
parameter, with the single hypothesis that it maps twelve elements to twelve.
-/
set_option linter.unusedSectionVars false

namespace Verif.Fri
open FFT Finset Polynomial
open Verif.GL (F)
open Verif.Ext3 (K coord)

noncomputable local instance : DecidableEq K := Classical.decEq _

/-- The coordinates of an element of `K`; `F3G::as_elements`, fields/src/field_gl.rs / starky/src/f3g.rs. -/
noncomputable def coords (k : K) : F × F × F :=
  ((Ext3.coord_surj k).choose, (Ext3.coord_surj k).choose_spec.choose, (Ext3.coord_surj k).choose_spec.choose_spec.choose)

theorem coords_spec (k : K) : coord (coords k).1 (coords k).2.1 (coords k).2.2 = k :=
  ((Ext3.coord_surj k).choose_spec.choose_spec.choose_spec).symm

/-- `as_elements` / `from_vec`, starky/src/f3g.rs: an element is its three coordinates. -/
noncomputable def encK : Enc F K where
  enc k := [(coords k).1, (coords k).2.1, (coords k).2.2]
  dec := coord

theorem encK_ok : EncOk encK := ⟨fun a => ⟨_, _, _, rfl, coords_spec a⟩⟩

/-- `MerkleTreeGL` as FRI uses it: `merkelize`, `root`, `get_group_proof`, `verify_group_proof`, starky/src/merklehash.rs
L293-346, L425-457; the default root is the zero digest (starky/src/digest.rs L77-82). -/
def glMT (perm : List F → List F) (workers : Nat) : MT F (List F) (List (List F)) (MerkleGL.MT F) where
  merkelize buff w h := MerkleGL.merkelize perm workers buff w h
  root t := t.root.getD []
  rootElems r := r
  defaultRoot := MerkleGL.zeroDigest
  groupProof t idx := (MerkleGL.getGroupProof t idx).toOption
  verify root mp idx vals := MerkleGL.verifyGroupProof perm root mp idx vals

/-- `TranscriptGL` as FRI uses it: `get_field`, `put`, `get_permutations`, starky/src/transcript.rs L47-102. -/
noncomputable def glTr (perm : List F → List F) : Tr F K (TranscriptGL.T F) where
  getField t := (TranscriptGL.getField perm t).bind fun r => match r.1 with
    | [a, b, c] => some (coord a b c, r.2)
    | _ => none
  put es t := TranscriptGL.put perm t es
  perms n nb t := (Perms.nFields 63 n nb).bind fun m => (TranscriptGL.getMany perm m t).bind fun r =>
    (Perms.permutations 63 (r.1.map ZMod.val) n nb).map fun ys => (ys, r.2)

/-- sizes of trees that work: at least two rows, rows narrower than `2^21 + 8` (see C25) -/
def GoodGL (w h : Nat) : Prop := w < 2 ^ 21 + 8 ∧ 2 ≤ h

variable {perm : List F → List F}

theorem glMT_total (hp : Linear.IsState perm) {workers : Nat} (hw : 0 < workers) : (glMT perm workers).Total GoodGL where
  build buff w h hg hb := by
    obtain ⟨t, h1, _, h3, _⟩ := MerkleGL.completeness hp workers hw buff w h hg.1 hg.2 (by rw [hb, Nat.mul_comm])
    refine ⟨t, h1, fun idx hi => ?_⟩
    obtain ⟨mp, h4, _⟩ := h3 idx hi
    exact ⟨_, by show (MerkleGL.getGroupProof t idx).toOption = _; rw [h4]; rfl⟩

theorem glMT_complete (hp : Linear.IsState perm) {workers : Nat} (hw : 0 < workers) : (glMT perm workers).Complete GoodGL := by
  intro buff w h tree hg hb hm idx hi row path hgp
  obtain ⟨t, h1, h2, h3, _⟩ := MerkleGL.completeness hp workers hw buff w h hg.1 hg.2 (by rw [hb, Nat.mul_comm])
  have : tree = t := by
    have hm' : MerkleGL.merkelize perm workers buff w h = some tree := hm
    rw [h1] at hm'; exact (Option.some.inj hm').symm
  subst this
  obtain ⟨mp, h4, h5⟩ := h3 idx hi
  have hgp' : (MerkleGL.getGroupProof tree idx).toOption = some (row, path) := hgp
  rw [h4] at hgp'
  have he := Option.some.inj (show some _ = some _ from hgp')
  obtain ⟨rfl, rfl⟩ := Prod.mk.inj he
  refine ⟨rfl, ?_⟩
  show MerkleGL.verifyGroupProof perm (tree.root.getD []) _ _ _ = _
  rw [h2]; exact h5

theorem bits_lt (w : Nat) (fields : List Nat) (k : Nat) : ∀ (j : Nat) (a : Nat) (c : Perms.Cur) (v : Nat) (c' : Perms.Cur),
    a < 2 ^ j → Perms.bits w fields j k (a, c) = some (v, c') → v < 2 ^ (j + k) := by
  induction k with
  | zero => intro j a c v c' ha h; simp only [Perms.bits, Option.some.injEq, Prod.mk.injEq] at h; rw [← h.1]; exact ha
  | succ k ih =>
    intro j a c v c' ha h
    rw [Perms.bits] at h
    obtain ⟨⟨a', c1⟩, h1, h2⟩ := Option.bind_eq_some_iff.mp h
    rw [show j + (k + 1) = j + 1 + k by omega]
    refine ih (j + 1) a' c1 v c' ?_ h2
    unfold Perms.step at h1
    obtain ⟨f, _, h1⟩ := Option.bind_eq_some_iff.mp h1
    have hpw : (2 : Nat) ^ (j + 1) = 2 ^ j + 2 ^ j := by rw [pow_succ]; ring
    dsimp only at h1
    rw [Nat.one_shiftLeft] at h1
    split_ifs at h1 <;> (simp only [Option.some.injEq, Prod.mk.injEq] at h1; omega)

theorem loop_lt (w : Nat) (fields : List Nat) (nb : Nat) (n : Nat) : ∀ (c : Perms.Cur) (ys : List Nat),
    Perms.loop w fields nb n c = some ys → ys.length = n ∧ ∀ y ∈ ys, y < 2 ^ nb := by
  induction n with
  | zero => intro c ys h; simp only [Perms.loop, Option.some.injEq] at h; subst h; simp
  | succ n ih =>
    intro c ys h
    rw [Perms.loop] at h
    obtain ⟨⟨v, c1⟩, h1, h2⟩ := Option.bind_eq_some_iff.mp h
    obtain ⟨l, h3, rfl⟩ := Option.map_eq_some_iff.mp h2
    obtain ⟨h4, h5⟩ := ih _ _ h3
    have := bits_lt w fields nb 0 0 c v c1 (by simp) h1
    rw [Nat.zero_add] at this
    simp only [List.length_cons, h4, List.mem_cons, forall_eq_or_imp, true_and]
    exact ⟨this, h5⟩

theorem glTr_ok : (glTr perm).Ok where
  put_nil t := rfl
  put_append es es' t := TranscriptGL.put_split perm t es es'
  perms_lt n nb t ys t' h := by
    obtain ⟨m, _, h⟩ := Option.bind_eq_some_iff.mp h
    obtain ⟨r, _, h⟩ := Option.bind_eq_some_iff.mp h
    obtain ⟨l, h9, he⟩ := Option.map_eq_some_iff.mp h
    obtain ⟨rfl, _⟩ := Prod.mk.inj he
    exact loop_lt _ _ _ _ _ _ h9

theorem glTr_total (hp : Linear.IsState perm) : (glTr perm).Total TranscriptGL.Inv where
  getField t ht := by
    obtain ⟨l, t', h1, h2, h3⟩ := TranscriptGL.getMany_inv hp 3 t ht
    match l, h2 with
    | [a, b, c], _ =>
      refine ⟨coord a b c, t', ?_, h3⟩
      show (TranscriptGL.getField perm t).bind _ = _
      unfold TranscriptGL.getField
      rw [h1]; rfl
  put es t ht := by
    obtain ⟨r, t', h1, h2⟩ := TranscriptGL.run_inv hp [.put es] t ht
    rw [TranscriptGL.run] at h1
    obtain ⟨t1, h3, h4⟩ := Option.bind_eq_some_iff.mp h1
    simp only [TranscriptGL.run, Option.some.injEq, Prod.mk.injEq] at h4
    exact ⟨t1, h3, by rw [h4.2]; exact h2⟩
  perms n nb t ht h0 h1 h2 := by
    have hm : Perms.nFields 63 n nb = some ((n * nb - 1) / 63 + 1) := by
      unfold Perms.nFields; rw [if_neg (by omega)]
    obtain ⟨l, t', h3, h4, h5⟩ := TranscriptGL.getMany_inv hp ((n * nb - 1) / 63 + 1) t ht
    obtain ⟨ys, h6, _, _⟩ := Perms.permutations_spec (w := 63) (by decide) n nb _ h2 (l.map ZMod.val) hm (by simp [h4])
    refine ⟨ys, t', ?_, h5⟩
    show (Perms.nFields 63 n nb).bind _ = _
    rw [hm, Option.bind_some, h3, Option.bind_some, h6]; rfl

theorem shiftK_ne : shiftK ≠ 0 := (map_ne_zero (algebraMap F K)).2 fun h => by
  have := Roots.shift_inv; rw [h, zero_mul] at this; exact zero_ne_one this

/-- The configuration the code uses: the table `MG`, the shift 49 (starky/src/constant.rs), and the sizes of the FRI
instance. -/
noncomputable def cfgK (inNbits maxDegNbits nQueries : Nat) (steps : List Nat) : Cfg K :=
  ⟨mgK, shiftK, shiftK⁻¹, inNbits, maxDegNbits, nQueries, steps⟩

/-- C33 for the code's Goldilocks instance, end to end: for every permutation on twelve elements, number of workers,
numbers of bits below 32, at least one query, decreasing steps starting at the input size whose trees have at least two
rows and rows of at most `2^21` elements, every polynomial `P` of degree below `2^maxDegNbits`, and every transcript state
reachable through the interface, `prove` on the evaluations of `P` over the shifted domain succeeds, and `verify` from the
same transcript state accepts. -/
theorem completeness_GL (hp : Linear.IsState perm) {workers : Nat} (hwk : 0 < workers)
    (inNbits maxDegNbits nQueries : Nat) (rest : List Nat)
    (hpos : 0 < inNbits) (hlt : inNbits < 32) (hmd : maxDegNbits ≤ inNbits) (hq : 0 < nQueries) (hq2 : nQueries < 2 ^ 32)
    (hdec : Decreasing inNbits rest) (hgood : GoodSteps GoodGL (inNbits :: rest))
    (P : K[X]) (hdeg : P.natDegree < 2 ^ maxDegNbits)
    (q0 : Nat → Q F (List (List F))) (cq : Q F (List (List F)) → Nat → Option (List K))
    (hcq : ∀ y < 2 ^ inNbits, cq (q0 y) y = some [P.eval (shiftK * mgK inNbits ^ y)])
    (ops : List (TranscriptGL.Op F)) (r : List (List F)) (t : TranscriptGL.T F)
    (ht : TranscriptGL.run perm ops TranscriptGL.new = some (r, t)) :
    ∃ proof t', prove (glMT perm workers) (glTr perm) encK (cfgK inNbits maxDegNbits nQueries (inNbits :: rest))
        ((List.range (2 ^ inNbits)).map fun i => P.eval (shiftK * mgK inNbits ^ i)) q0 t = some (proof, t') ∧
      verify (glMT perm workers) (glTr perm) encK (cfgK inNbits maxDegNbits nQueries (inNbits :: rest)) proof cq t
        = some (true, t') := by
  have hinv : TranscriptGL.Inv t := by
    obtain ⟨r', t', h1, h2⟩ := TranscriptGL.run_inv hp ops TranscriptGL.new TranscriptGL.new_inv
    rw [ht] at h1
    rw [(Prod.mk.inj (Option.some.inj h1)).2]; exact h2
  have hget : ∀ i < 2 ^ inNbits, ((List.range (2 ^ inNbits)).map fun i => P.eval (shiftK * mgK inNbits ^ i)).getD i 0
      = P.eval (shiftK * mgK inNbits ^ i) := by
    intro i hi
    rw [List.getD_eq_getElem?_getD, List.getElem?_map, List.getElem?_range hi]; rfl
  obtain ⟨proof, t', h1, _⟩ := prove_total (glMT_total hp hwk) (glTr_total hp) glTr_ok encK_ok
    (cfgK inNbits maxDegNbits nQueries (inNbits :: rest)) two_neK (rootsK hlt.le) hlt hpos hq hq2 rfl rest rfl hdec hgood
    ((List.range (2 ^ inNbits)).map fun i => P.eval (shiftK * mgK inNbits ^ i)) (by simp [cfgK]) q0 t hinv
  refine ⟨proof, t', h1, ?_⟩
  exact completeness (glMT_complete hp hwk) glTr_ok encK_ok (cfgK inNbits maxDegNbits nQueries (inNbits :: rest)) two_neK
    (rootsK hlt.le) hlt hmd shiftK_ne rfl rest rfl hdec hgood P hdeg _ (by simp [cfgK]) hget q0 cq
    (fun y hy => by rw [hget y hy]; exact hcq y hy) t t' proof h1

/-- non-vacuity of `completeness_GL`: steps 11, 7, 3, blowup 2, 16 queries, a polynomial of degree 1023. -/
example : ∃ proof t', prove (glMT (fun s => s.rotate 1) 3) (glTr (fun s => s.rotate 1)) encK (cfgK 11 10 16 [11, 7, 3])
    ((List.range (2 ^ 11)).map fun i => (X ^ 1023 + C 5 : K[X]).eval (shiftK * mgK 11 ^ i)) (fun y => [([(y : F)], [])])
    TranscriptGL.new = some (proof, t') ∧
    verify (glMT (fun s => s.rotate 1) 3) (glTr (fun s => s.rotate 1)) encK (cfgK 11 10 16 [11, 7, 3]) proof
      (fun _ y => some [(X ^ 1023 + C 5 : K[X]).eval (shiftK * mgK 11 ^ y)]) TranscriptGL.new = some (true, t') :=
  completeness_GL (perm := fun s => s.rotate 1) (fun s h => by rw [List.length_rotate, h]) (by decide) 11 10 16 [7, 3]
    (by decide) (by decide) (by decide) (by decide) (by decide) ⟨by decide, by decide, trivial⟩
    ⟨⟨by decide, by decide⟩, ⟨by decide, by decide⟩, trivial⟩ _
    (by rw [natDegree_X_pow_add_C]; decide) _ _ (fun _ _ => rfl) [] [] _ rfl

/-- non-vacuity of `degree_bound_off_by_one` in the code's field: 8 input bits, degree bound `2^6`, last layer of `2^5`
values, so the bound is 8; a layer of degree 8 is accepted. -/
example : ∃ (P : K[X]) (last : List K), P.natDegree = 2 ^ 3 ∧ last.length = 2 ^ 5 ∧
    (∀ i < 2 ^ 5, last.getD i 0 = P.eval (shiftK * mgK 5 ^ i)) ∧ finalCheck mgK 8 6 5 last = some true :=
  degree_bound_off_by_one (k := 5) (rootsK (by decide)) (by decide) two_neK shiftK shiftK_ne 8 6 (by decide) (by decide)

/-- non-vacuity of `finalCheck_rejects_partial`: degree 9 in the same configuration is rejected. -/
example : finalCheck mgK 8 6 5 ((List.range (2 ^ 5)).map fun i => (X ^ 9 : K[X]).eval (shiftK * mgK 5 ^ i)) ≠ some true :=
  finalCheck_rejects_partial (k := 5) (rootsK (by decide)) (by decide) two_neK (X ^ 9) shiftK shiftK_ne _ (by simp)
    (fun i hi => by rw [List.getD_eq_getElem?_getD, List.getElem?_map, List.getElem?_range hi]; rfl) 8 6 (by decide) (by decide) (by rw [natDegree_X_pow]; decide) (by rw [natDegree_X_pow]; decide)

end Verif.Fri
