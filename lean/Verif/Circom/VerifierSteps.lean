import Verif.Circom.VerifierLemmas
import Verif.Fri.Complete

/-!
# C110: the steps of the template and of `FRI::verify`
-/
set_option linter.unusedSectionVars false

namespace Verif.Circom
open Stark Codegen Fri FFT
open Verif.GL (F)
open Verif.Ext3 (K coord)

noncomputable local instance : DecidableEq K := Classical.decEq _

variable {perm : List F → List F}

/-- What the theorem about the template asks of the setup: at least two FRI steps, which do not grow and start at the extended
domain; roots of unity; the second and third section not empty; programs (of the code generator, C73, C106) whose references exist
in proofs of the declared sizes, that assign each temporary once and end in an element of the extension. -/
structure VOk (V : VPar) : Prop where
  two : 2 ≤ V.c.steps.length
  head : V.c.steps.head? = some V.c.inNbits
  mono : ∀ (s pb nb : Nat), V.c.steps[s]? = some pb → V.c.steps[s + 1]? = some nb → nb ≤ pb
  pos : ∀ nb ∈ V.c.steps, nb ≠ 0
  lt : V.c.inNbits < 32
  roots : Roots V.c.mg V.c.inNbits
  mg : RootsOk extK V.c.mg V.c.shift V.mgF V.shiftF V.c.inNbits
  deg : V.c.maxDegNbits ≤ V.c.inNbits ∧ V.c.maxDegNbits ≠ 0
  last : ∀ last, V.c.steps.getLast? = some last → V.c.inNbits - V.c.maxDegNbits ≤ last
  nq : Perms.nFields 63 V.c.nQueries V.c.inNbits ≠ none
  qDeg : V.qDeg ≠ 0
  base : V.base + V.qDeg ≤ V.nEv
  width2 : V.width 2 ≠ 0
  width3 : V.width 3 ≠ 0
  lit : LitOk extK V.lit V.code
  nodup : (V.code.map fun i => i.dest.id).Nodup
  dim : ∀ code', setDims (fun _ => none) V.code = some code' → ∀ last ∈ code'.getLast?, last.dest.dim = 3
  runs : ∀ chal evals publics : List K, chal.length = 8 → evals.length = V.nEv → publics.length = V.nPub →
    ∃ v, executeCode extK (ctxConstraint V.c.mg V.c.maxDegNbits chal evals publics) V.code = some v
  litQ : LitOk extK V.lit V.queryCode
  nodupQ : (V.queryCode.map fun i => i.dest.id).Nodup
  dimQ : ∀ code', setDims (fun _ => none) V.queryCode = some code' → ∀ last ∈ code'.getLast?, last.dest.dim = 3
  trees : TreesOk V.nCm V.secs V.queryCode
  noPub : NoPublics V.queryCode
  rows : ∀ rows : Nat → List F, (∀ t, (rows t).length = V.width t) → ∃ trees, mapValues V.secs rows = some trees
  runsQ : ∀ (chal evals publics : List K) (rows : Nat → List F) (consts : List F) (idx : Nat), chal.length = 8 → evals.length = V.nEv →
    publics.length = V.nPub → (∀ t, t = 1 ∨ t = 2 ∨ t = 3 ∨ t = 4 → (rows t).length = V.width t) → consts.length = V.nConst →
    ∃ v, executeCode extK (ctxQuery V.c.mg V.c.shift V.c.maxDegNbits V.c.inNbits chal evals publics rows consts idx) V.queryCode = some v

/-- the queries of step `s` -/
def qOf (V : VPar) (x : CIn) (s : Nat) : Query F (List F) (List (List F)) :=
  if s = 0 then ⟨MerkleGL.zeroDigest, (List.range V.c.nQueries).map fun q =>
      [(x.vals 1 q, x.sib 1 q), (x.vals 2 q, x.sib 2 q), (x.vals 3 q, x.sib 3 q), (x.vals 4 q, x.sib 4 q), (x.valsC q, x.sibC q)]⟩
  else ⟨x.sRoot s, (List.range V.c.nQueries).map fun q => [(x.sVals s q, x.sSib s q)]⟩

theorem queries_eq (V : VPar) (x : CIn) (h : V.c.steps ≠ []) :
    (x.toProof V).fri.queries = (List.range' 0 V.c.steps.length).map (qOf V x) := by
  obtain ⟨n, hn⟩ : ∃ n, V.c.steps.length = n + 1 := ⟨V.c.steps.length - 1, by have := List.length_pos_iff.mpr h; omega⟩
  rw [hn, List.range'_succ, List.map_cons]
  show _ :: (List.range' 1 (V.c.steps.length - 1)).map _ = _
  rw [hn, Nat.add_sub_cancel]
  congr 1
  apply List.map_congr_left
  intro s hs
  rw [List.mem_range'_1] at hs
  rw [qOf, if_neg (by omega)]

/-- `pol_bits` at step `s` -/
def pbits (V : VPar) (s : Nat) : Nat := if s = 0 then V.c.inNbits else V.c.steps.getD (s - 1) 0

/-- query `i` at step `s` of the native verifier -/
noncomputable def natOne (perm : List F → List F) (workers : Nat) (V : VPar) (x : CIn) (cq : Q F (List (List F)) → Nat → Option (List K))
    (xs : List K) (ys : List Nat) (s i : Nat) : Option Bool :=
  checkOne (glMT perm workers) encK V.c.mg cq (x.finalPol.map (dec3 extK)) (decide (s = 0)) (V.c.steps.drop (s + 1)) (qOf V x s)
    ((List.range' (s + 1) (V.c.steps.length - (s + 1))).map (qOf V x)) (pbits V s) (V.c.shift ^ 2 ^ (V.c.inNbits - pbits V s)) (xs.getD s 0)
    (if s = 0 then ys else ys.map (· % 2 ^ V.c.steps.getD s 0)) i

theorem pols_get (V : VPar) (x : CIn) {s i : Nat} (hs : s ≠ 0) (hi : i < V.c.nQueries) :
    (qOf V x s).pols[i]? = some [(x.sVals s i, x.sSib s i)] := by
  rw [qOf, if_neg hs, List.getElem?_map, List.getElem?_range hi]
  rfl

theorem VOk.steps_ne {V : VPar} (h : VOk V) : V.c.steps ≠ [] := by
  intro hn
  have := h.two
  rw [hn] at this
  simp at this

theorem VOk.le {V : VPar} (h : VOk V) : ∀ (s nb : Nat), V.c.steps[s]? = some nb → nb ≤ V.c.inNbits
  | 0, nb, hs => by
    have := h.head
    rw [List.head?_eq_getElem?, hs] at this
    exact le_of_eq (Option.some.inj this)
  | s + 1, nb, hs => by
    have hlt : s + 1 < V.c.steps.length := by
      by_contra hc
      rw [List.getElem?_eq_none (by omega)] at hs
      cases hs
    have h1 : V.c.steps[s]? = some V.c.steps[s] := List.getElem?_eq_getElem (by omega)
    exact (h.mono s _ _ h1 hs).trans (h.le s _ h1)

theorem low_spec {V : VPar} (hV : VOk V) {x : CIn} (hx : x.Sized V) {s i nb : Nat} (hs : V.c.steps[s]? = some nb) (hi : i < V.c.nQueries)
    {y : Nat} (hy : y < 2 ^ nb) {ys : Nat → F} (hb : ∀ j < nb, ys j = bitF (y.testBit j)) :
    ∃ low, lowValues V x s i ys = some low ∧ expected encK (x.finalPol.map (dec3 extK)) (V.c.steps.drop (s + 1))
      ((List.range' (s + 1) (V.c.steps.length - (s + 1))).map (qOf V x)) i y = some (dec3 extK low) := by
  unfold lowValues
  rw [hs, Option.bind_some]
  cases hs' : V.c.steps[s + 1]? with
  | some nb' =>
    have hle := hV.mono s nb nb' hs hs'
    have hlt : s + 1 < V.c.steps.length := by
      by_contra hc
      rw [List.getElem?_eq_none (by omega)] at hs'
      cases hs'
    dsimp only
    rw [if_neg (by omega), keyIdx_spec _ y nb' (nb - nb') fun j hj => hb _ (by omega)]
    have hq : y / 2 ^ nb' < 2 ^ (nb - nb') := by
      rw [Nat.div_lt_iff_lt_mul (by positivity), ← pow_add, Nat.sub_add_cancel hle]
      exact hy
    rw [Nat.mod_eq_of_lt hq]
    obtain ⟨h1, -, h3⟩ := triples_spec _ _ (hx.sVals s nb nb' hs hs' i)
    refine ⟨_, List.getElem?_eq_getElem (by rw [h1]; exact hq), ?_⟩
    have hd : V.c.steps.drop (s + 1) = nb' :: V.c.steps.drop (s + 1 + 1) := by
      rw [List.drop_eq_getElem_cons hlt]
      congr 1
      rw [List.getElem?_eq_getElem hlt] at hs'
      exact Option.some.inj hs'
    obtain ⟨k, hk⟩ : ∃ k, V.c.steps.length - (s + 1) = k + 1 := ⟨V.c.steps.length - (s + 1) - 1, by omega⟩
    rw [hd, hk, List.range'_succ, List.map_cons, expected, List.head?_cons, Option.bind_some, pols_get V x (by omega) hi, Option.bind_some,
      List.head?_cons, Option.bind_some, h3, List.getElem?_eq_getElem (by rw [h1]; exact hq), Option.map_some]
  | none =>
    have hlt : s < V.c.steps.length := by
      by_contra hc
      rw [List.getElem?_eq_none (by omega)] at hs
      cases hs
    have hge : V.c.steps.length ≤ s + 1 := by
      by_contra hc
      rw [List.getElem?_eq_getElem (by omega)] at hs'
      cases hs'
    have hl : V.c.steps.getLast? = some nb := by
      rw [List.getLast?_eq_getElem?, show V.c.steps.length - 1 = s by omega, hs]
    dsimp only
    rw [keyIdx_spec ys y 0 nb (fun j hj => by rw [Nat.add_zero]; exact hb j (by omega)), pow_zero, Nat.div_one, Nat.mod_eq_of_lt hy]
    have hlen := hx.finalPol nb hl
    refine ⟨_, List.getElem?_eq_getElem (by rw [hlen]; exact hy), ?_⟩
    rw [List.drop_of_length_le hge, expected, List.getElem?_map, List.getElem?_eq_getElem (by rw [hlen]; exact hy), Option.map_some]

theorem step_iff (hp : Linear.IsState perm) (workers : Nat) {V : VPar} (hV : VOk V) {x : CIn} (hx : x.Sized V) {env : TEnv F TOut}
    {s i : Nat} (hs0 : s ≠ 0) (hs : s < V.c.steps.length) (hi : i < V.c.nQueries) (cq : Q F (List (List F)) → Nat → Option (List K))
    {sp : List (F × F × F)} {v : F × F × F} (hsp : sp[s]? = some v) (hv : trip env (.special s) = some v) {y : Nat} {ys : List Nat} (hys : ys[i]? = some y)
    {bits : Nat → F} (hb : ∀ j < V.c.inNbits, bits j = bitF (y.testBit j)) :
    ∃ b, stepCheck perm V x env 1 bits s i = some b ∧ (b = true ↔ natOne perm workers V x cq (sp.map (dec3 extK)) ys s i = some true) := by
  obtain ⟨r, rfl⟩ : ∃ r, s = r + 1 := ⟨s - 1, by omega⟩
  have hpb : V.c.steps[r]? = some V.c.steps[r] := List.getElem?_eq_getElem (by omega)
  have hnb : V.c.steps[r + 1]? = some V.c.steps[r + 1] := List.getElem?_eq_getElem hs
  generalize hpbv : V.c.steps[r] = pb at hpb
  generalize hnbv : V.c.steps[r + 1] = nb at hnb
  have hle := hV.mono r pb nb hpb hnb
  have hpin := hV.le r pb hpb
  have hn0 : nb ≠ 0 := hV.pos nb (by rw [← hnbv]; exact List.getElem_mem _)
  have hy' : y % 2 ^ nb < 2 ^ nb := Nat.mod_lt _ (by positivity)
  have hb' : ∀ j < nb, bits j = bitF ((y % 2 ^ nb).testBit j) := by
    intro j hj
    rw [hb j (by omega), Nat.testBit_mod_two_pow, decide_eq_true hj, Bool.true_and]
  obtain ⟨low, l1, l2⟩ := low_spec hV hx hnb hi hy' hb'
  obtain ⟨hsib, hsib4⟩ := hx.sSib r nb hnb i
  obtain ⟨root, m1, m2, m3⟩ := merkle_spec hp workers (x.sVals (r + 1) i) (x.sSib (r + 1) i) hsib4 bits
  rw [hsib, keyIdx_spec bits y 0 nb (fun j hj => by rw [Nat.add_zero]; exact hb j (by omega)), pow_zero, Nat.div_one] at m3
  obtain ⟨t1, t2, t3⟩ := triples_spec _ _ (hx.sVals r pb nb hpb hnb i)
  obtain ⟨pol, f1, f2⟩ := ifftC_some (Fri.Roots.mono hV.roots (show pb - nb ≤ V.c.inNbits by omega)) (by have := hV.lt; omega)
    ((triples (x.sVals (r + 1) i)).map (dec3 extK)) (by rw [List.length_map, t1])
  have hpbits : pbits V (r + 1) = pb := by
    rw [pbits, if_neg (by omega), Nat.add_sub_cancel, List.getD_eq_getElem?_getD, hpb]
    rfl
  have hnbD : V.c.steps.getD (r + 1) 0 = nb := by rw [List.getD_eq_getElem?_getD, hnb]; rfl
  have hsx := sxAcc_spec (mg := V.mgF) (a := (V.shiftF ^ 2 ^ (V.c.inNbits - pb))⁻¹) (pb := pb) (ys := bits) (y := y) (n := nb)
    (fun k hk => by
      have := hV.mg.sq (k + (V.c.inNbits - pb)) (by omega)
      rwa [show V.c.inNbits - (k + (V.c.inNbits - pb) + 1) = pb - (k + 1) by omega, show V.c.inNbits - (k + (V.c.inNbits - pb)) = pb - k by omega] at this)
    hle (fun j hj => hb _ (by omega)) (nb - 1) (by omega)
  rw [Nat.sub_add_cancel (by omega)] at hsx
  refine ⟨same3 1 low (coords (evalPol pol (dec3 extK v * (V.c.shift ^ 2 ^ (V.c.inNbits - pb) * V.c.mg pb ^ (y % 2 ^ nb))⁻¹))) &&
    same4 1 root (x.sRoot (r + 1)), ?_, ?_⟩
  · unfold stepCheck
    rw [Nat.add_sub_cancel, hpb, Option.bind_some, hnb, Option.bind_some, if_neg (by omega), m1, Option.bind_some, f1, Option.bind_some, hv,
      Option.bind_some, l1, Option.map_some, hsx]
    have : dec3 extK (v.1 * ((V.shiftF ^ 2 ^ (V.c.inNbits - pb))⁻¹ * (V.mgF pb)⁻¹ ^ (y % 2 ^ nb)),
        v.2.1 * ((V.shiftF ^ 2 ^ (V.c.inNbits - pb))⁻¹ * (V.mgF pb)⁻¹ ^ (y % 2 ^ nb)),
        v.2.2 * ((V.shiftF ^ 2 ^ (V.c.inNbits - pb))⁻¹ * (V.mgF pb)⁻¹ ^ (y % 2 ^ nb))) =
        dec3 extK v * (V.c.shift ^ 2 ^ (V.c.inNbits - pb) * V.c.mg pb ^ (y % 2 ^ nb))⁻¹ := by
      show extK.dec _ _ _ = _
      rw [extOkK.smul_right]
      congr 1
      rw [← hV.mg.emb, ← hV.mg.shift]
      show algebraMap F K _ = (algebraMap F K _ ^ _ * algebraMap F K _ ^ _)⁻¹
      rw [map_mul, map_inv₀, map_pow, map_pow, map_inv₀, mul_inv, inv_pow]
    rw [this]
  · rw [Bool.and_eq_true, same3_one, same4_one m2 (hx.sRoot _)]
    have hnat : natOne perm workers V x cq (sp.map (dec3 extK)) ys (r + 1) i = if x.sRoot (r + 1) = root then
        some (decide (evalPol pol (dec3 extK v * (V.c.shift ^ 2 ^ (V.c.inNbits - pb) * V.c.mg pb ^ (y % 2 ^ nb))⁻¹) = dec3 extK low)) else none := by
      unfold natOne checkOne
      rw [if_neg hs0, hnbD, List.getElem?_map, hys, Option.map_some, Option.bind_some, hpbits]
      unfold openedGroup
      rw [pols_get V x hs0 hi, Option.bind_some, if_neg (by simp), List.head?_cons, Option.bind_some]
      dsimp only
      rw [show (qOf V x (r + 1)).root = x.sRoot (r + 1) by rw [qOf, if_neg hs0], m3, Option.bind_some]
      by_cases hr : x.sRoot (r + 1) = root
      · rw [if_pos (by simpa using hr), if_pos hr, t2, Option.map_some, Option.bind_some]
        dsimp only
        rw [f1, Option.bind_some, l2, Option.map_some, List.getD_eq_getElem?_getD, List.getElem?_map, hsp]
        rfl
      · rw [if_neg (by simpa using hr), if_neg hr]
        rfl
    rw [hnat]
    constructor
    · rintro ⟨rfl, h2⟩
      rw [if_pos h2]
      exact congrArg some (decide_eq_true (extOkK.dec_co _).symm)
    · intro h
      split_ifs at h with hr
      refine ⟨?_, hr⟩
      have := of_decide_eq_true (Option.some.inj h)
      rw [this]
      exact (extOkK.co_dec low.1 low.2.1 low.2.2).symm

/-- step 0 of the native verifier, for a query whose paths have the right length -/
theorem nat0_iff (hp : Linear.IsState perm) (workers : Nat) {V : VPar} (hV : VOk V) {x : CIn} (hx : x.Sized V) {i : Nat} (hi : i < V.c.nQueries)
    {chal : List K} {sp : List K} {y : Nat} {ys : List Nat} (hys : ys[i]? = some y) (hy : y < 2 ^ V.c.inNbits)
    {bits : Nat → F} (hb : ∀ j < V.c.inNbits, bits j = bitF (y.testBit j))
    {r1 r2 r3 r4 rC : List F} (h1 : merkleHash perm (x.vals 1 i) (x.sib 1 i) bits = some r1)
    (h2 : merkleHash perm (x.vals 2 i) (x.sib 2 i) bits = some r2)
    (h3 : merkleHash perm (x.vals 3 i) (x.sib 3 i) bits = some r3)
    (h4 : merkleHash perm (x.vals 4 i) (x.sib 4 i) bits = some r4)
    (hC : merkleHash perm (x.valsC i) (x.sibC i) bits = some rC)
    {low : F × F × F} (hlow : lowValues V x 0 i bits = some low) {v : K}
    (hv : executeCode extK (ctxQuery V.c.mg V.c.shift V.c.maxDegNbits V.c.inNbits chal (x.evals.map (dec3 extK)) (x.publics.map extK.emb)
      (fun k => if k = 1 then x.vals 1 i else if k = 2 then x.vals 2 i else if k = 3 then x.vals 3 i else x.vals 4 i) (x.valsC i) y) V.queryCode = some v) :
    natOne perm workers V x (checkQuery (glMT perm workers) extK V.c (Val.val extK) ⟨List.range' V.base V.qDeg, V.code, V.queryCode⟩ x.rootC
      (x.toProof V) chal) sp ys 0 i = some true ↔
    (x.root 1 = r1 ∧ x.root 2 = r2 ∧ x.root 3 = r3 ∧ x.root 4 = r4 ∧ x.rootC = rC) ∧
      ¬(queryPoint V.c.mg V.c.shift V.c.inNbits y = chal.getD 7 0 ∨
        queryPoint V.c.mg V.c.shift V.c.inNbits y = chal.getD 7 0 * V.c.mg V.c.maxDegNbits) ∧ v = dec3 extK low := by
  have hd : V.c.steps.headD 0 = V.c.inNbits := by rw [List.headD_eq_head?_getD, hV.head]; rfl
  have key : keyIdx bits V.c.inNbits = y := by
    rw [keyIdx_spec bits y 0 _ (fun j hj => by rw [Nat.add_zero]; exact hb j hj), pow_zero, Nat.div_one, Nat.mod_eq_of_lt hy]
  have hm : ∀ (vals : List F) (sib : List (List F)) (r : List F), (sib.length = V.c.steps.headD 0 ∧ ∀ l ∈ sib, l.length = 4) →
      merkleHash perm vals sib bits = some r → ∀ root, (glMT perm workers).verify root sib y vals = some (decide (root = r)) := by
    intro vals sib r hs hr root
    obtain ⟨r', e1, -, e3⟩ := merkle_spec hp workers vals sib hs.2 bits
    rw [e1] at hr
    cases hr
    rw [hs.1, hd, key] at e3
    exact e3 root
  have h0s : V.c.steps[0]? = some V.c.inNbits := by rw [← List.head?_eq_getElem?, hV.head]
  obtain ⟨low', l1, l2⟩ := low_spec hV hx h0s hi hy hb
  rw [l1] at hlow
  cases hlow
  have hval : ((x.toProof V).evals.map (Val.val extK)) = x.evals.map (dec3 extK) := by
    show (x.evals.map _).map _ = _
    rw [List.map_map]
    rfl
  have hpub : ((x.toProof V).publics.map (Val.val extK)) = x.publics.map extK.emb := by
    show (x.publics.map _).map _ = _
    rw [List.map_map]
    rfl
  have hq : (qOf V x 0).pols[i]? = some [(x.vals 1 i, x.sib 1 i), (x.vals 2 i, x.sib 2 i), (x.vals 3 i, x.sib 3 i), (x.vals 4 i, x.sib 4 i),
      (x.valsC i, x.sibC i)] := by
    rw [qOf, if_pos rfl, List.getElem?_map, List.getElem?_range hi]
    rfl
  unfold natOne checkOne
  rw [if_pos rfl, hys, Option.bind_some]
  unfold openedGroup
  rw [hq, Option.bind_some, if_pos (by simp)]
  unfold checkQuery
  dsimp only
  rw [hval, hpub, hm _ _ _ (hx.sib 1 i) h1, hm _ _ _ (hx.sib 2 i) h2, hm _ _ _ (hx.sib 3 i) h3, hm _ _ _ (hx.sib 4 i) h4, hm _ _ _ (hx.sibC i) hC]
  have hroots : (x.toProof V).root1 = x.root 1 ∧ (x.toProof V).root2 = x.root 2 ∧ (x.toProof V).root3 = x.root 3 ∧ (x.toProof V).root4 = x.root 4 :=
    ⟨rfl, rfl, rfl, rfl⟩
  rw [hroots.1, hroots.2.1, hroots.2.2.1, hroots.2.2.2]
  simp only [Option.some.injEq, decide_eq_true_eq]
  by_cases hr : x.root 1 = r1 ∧ x.root 2 = r2 ∧ x.root 3 = r3 ∧ x.root 4 = r4 ∧ x.rootC = rC
  · rw [if_pos hr]
    by_cases hx0 : queryPoint V.c.mg V.c.shift V.c.inNbits y = chal.getD 7 0 ∨
        queryPoint V.c.mg V.c.shift V.c.inNbits y = chal.getD 7 0 * V.c.mg V.c.maxDegNbits
    · rw [if_pos hx0]
      exact ⟨fun h => (by cases h), fun h => absurd hx0 h.2.1⟩
    · rw [if_neg hx0, hv]
      simp only [Option.map_some, Option.bind_some, List.cons_ne_nil, if_false]
      rw [ifftC_one (Fri.Roots.mono hV.roots (Nat.zero_le _)) two_neK, Option.bind_some, l2, Option.map_some, Option.some.injEq, decide_eq_true_eq,
        show ∀ z : K, evalPol [v] z = v from fun _ => rfl]
      exact ⟨fun h => ⟨hr, hx0, h⟩, fun h => h.2.2⟩
  · rw [if_neg hr]
    exact ⟨fun h => (by cases h), fun h => absurd h.1 hr⟩

theorem mapValues_congr {secs : Nat → List (Nat × Nat)} {v w : Nat → List F} (h1 : v 1 = w 1) (h2 : v 2 = w 2) (h3 : v 3 = w 3) (h4 : v 4 = w 4) :
    mapValues secs v = mapValues secs w := by
  unfold mapValues
  rw [h1, h2, h3, h4]

/-- one query of the template, and all steps of the native verifier for it -/
theorem query_iff (hp : Linear.IsState perm) (workers : Nat) {V : VPar} (hV : VOk V) {x : CIn} (hx : x.Sized V) {env : TEnv F TOut}
    {i : Nat} (hi : i < V.c.nQueries) {chal : List (F × F × F)} (hch : chal.length = 8)
    {sp : List (F × F × F)} (hsl : sp.length = V.c.steps.length) (hsp : ∀ (s : Nat) (v : F × F × F), sp[s]? = some v → trip env (.special s) = some v)
    {y : Nat} {ys : List Nat} (hys : ys[i]? = some y) (hy : y < 2 ^ V.c.inNbits)
    (hb : ∀ j < V.c.inNbits, env.ys i j = some (bitF (y.testBit j))) :
    ∃ b, queryCheck perm V x env chal 1 V.c.inNbits i = some b ∧ (b = true ↔ ∀ s < V.c.steps.length,
      natOne perm workers V x (checkQuery (glMT perm workers) extK V.c (Val.val extK) ⟨List.range' V.base V.qDeg, V.code, V.queryCode⟩ x.rootC
        (x.toProof V) (chal.map (dec3 extK))) (sp.map (dec3 extK)) ys s i = some true) := by
  obtain ⟨bl, hbl⟩ := mapM_total (f := env.ys i) (l := List.range V.c.inNbits) fun j hj => ⟨_, hb j (List.mem_range.mp hj)⟩
  have hbits : ∀ j < V.c.inNbits, bl.getD j 0 = bitF (y.testBit j) := by
    intro j hj
    obtain ⟨b, e1, e2⟩ := mapM_get hbl j j (List.getElem?_range hj)
    rw [hb j hj] at e1
    cases e1
    rw [List.getD_eq_getElem?_getD, e2]
    rfl
  have hd : V.c.steps.headD 0 = V.c.inNbits := by rw [List.headD_eq_head?_getD, hV.head]; rfl
  have h0s : V.c.steps[0]? = some V.c.inNbits := by rw [← List.head?_eq_getElem?, hV.head]
  obtain ⟨trees, htr⟩ := hV.rows (fun t => x.vals t i) fun t => hx.vals t i
  let rows : Nat → List F := fun k => if k = 1 then x.vals 1 i else if k = 2 then x.vals 2 i else if k = 3 then x.vals 3 i else x.vals 4 i
  obtain ⟨v, hv⟩ := hV.runsQ (chal.map (dec3 extK)) (x.evals.map (dec3 extK)) (x.publics.map extK.emb) rows (x.valsC i) y (by rw [List.length_map, hch])
    (by rw [List.length_map, hx.evals]) (by rw [List.length_map, hx.publics])
    (by rintro t (rfl | rfl | rfl | rfl) <;> exact hx.vals _ i) (hx.valsC i)
  have hmv : mapValues V.secs rows = some trees := by
    rw [← htr]
    exact mapValues_congr rfl rfl rfl rfl
  obtain ⟨r1, a1, b1, -⟩ := merkle_spec hp workers (x.vals 1 i) (x.sib 1 i) (hx.sib 1 i).2 (fun j => bl.getD j 0)
  obtain ⟨r2, a2, b2, -⟩ := merkle_spec hp workers (x.vals 2 i) (x.sib 2 i) (hx.sib 2 i).2 (fun j => bl.getD j 0)
  obtain ⟨r3, a3, b3, -⟩ := merkle_spec hp workers (x.vals 3 i) (x.sib 3 i) (hx.sib 3 i).2 (fun j => bl.getD j 0)
  obtain ⟨r4, a4, b4, -⟩ := merkle_spec hp workers (x.vals 4 i) (x.sib 4 i) (hx.sib 4 i).2 (fun j => bl.getD j 0)
  obtain ⟨rC, aC, bC, -⟩ := merkle_spec hp workers (x.valsC i) (x.sibC i) (hx.sibC i).2 (fun j => bl.getD j 0)
  obtain ⟨low, l1, l2⟩ := low_spec hV hx h0s hi hy hbits
  have hn0 : V.c.inNbits ≠ 0 := hV.pos _ (List.mem_of_mem_head? hV.head)
  have hnat := nat0_iff hp workers hV hx hi (sp := sp.map (dec3 extK)) hys hy hbits a1 a2 a3 a4 aC l1 hv
  obtain ⟨q1, q2⟩ := verifyQuery_spec extOkK hn0 hV.mg hV.litQ hV.nodupQ hV.trees hV.noPub hV.dimQ (chal := chal) (by omega) hmv hy
    (ys := fun j => bl.getD j 0) (fun j hj => hbits j hj) hv
  have hvq : verifyQuery extK coords V.lit V.nCm V.secs V.mgF V.shiftF V.c.maxDegNbits V.c.inNbits V.queryCode (fun j => bl.getD j 0) chal x.evals
      (fun t => x.vals t i) (x.valsC i) = verifyQuery extK coords V.lit V.nCm V.secs V.mgF V.shiftF V.c.maxDegNbits V.c.inNbits V.queryCode
        (fun j => bl.getD j 0) chal x.evals rows (x.valsC i) := by
    unfold verifyQuery
    rw [show mapValues V.secs (fun t => x.vals t i) = mapValues V.secs rows from mapValues_congr rfl rfl rfl rfl]
  unfold queryCheck
  rw [hbl, Option.bind_some]
  dsimp only
  rw [hvq]
  by_cases hx0 : queryPoint V.c.mg V.c.shift V.c.inNbits y = (chal.map (dec3 extK)).getD 7 0 ∨
        queryPoint V.c.mg V.c.shift V.c.inNbits y = (chal.map (dec3 extK)).getD 7 0 * V.c.mg V.c.maxDegNbits
  · rw [q1 hx0, Option.bind_some]
    refine ⟨false, rfl, ?_⟩
    simp only [Bool.false_eq_true, false_iff, not_forall]
    have := hV.two
    refine ⟨0, by omega, fun h => ?_⟩
    exact (hnat.mp h).2.1 hx0
  · obtain ⟨out, o1, o2⟩ := q2 hx0
    rw [o1, Option.bind_some]
    dsimp only
    obtain ⟨bs, hbs, hall⟩ := mapM_all (f := fun s => stepCheck perm V x env 1 (fun j => bl.getD j 0) s i) (l := List.range' 1 (V.c.steps.length - 1))
      (P := fun s => natOne perm workers V x (checkQuery (glMT perm workers) extK V.c (Val.val extK) ⟨List.range' V.base V.qDeg, V.code, V.queryCode⟩ x.rootC
        (x.toProof V) (chal.map (dec3 extK))) (sp.map (dec3 extK)) ys s i = some true) (by
        intro s hs
        rw [List.mem_range'_1] at hs
        have hlt : s < sp.length := by omega
        exact step_iff hp workers hV hx (by omega) (by omega) hi _ (List.getElem?_eq_getElem hlt) (hsp s _ (List.getElem?_eq_getElem hlt)) hys hbits)
    have two := hV.two
    unfold step0Check
    rw [a1, Option.bind_some, if_neg hV.width2, a2, Option.map_some, Option.bind_some, if_neg hV.width3, a3, Option.map_some, Option.bind_some,
      a4, Option.bind_some, aC, Option.bind_some, l1, Option.map_some, Option.bind_some, hbs, Option.map_some, if_neg (by omega)]
    refine ⟨_, rfl, ?_⟩
    simp only [Bool.and_eq_true]
    rw [hall, same4_one b1 (hx.root 1), same4_one b2 (hx.root 2), same4_one b3 (hx.root 3), same4_one b4 (hx.root 4), same4_one bC hx.rootC, same3_one]
    have hlo : low = out ↔ v = dec3 extK low := by
      rw [← o2]
      constructor
      · rintro rfl; rfl
      · intro h
        have := congrArg coords h
        rw [show coords (dec3 extK out) = out from extOkK.co_dec _ _ _, show coords (dec3 extK low) = low from extOkK.co_dec _ _ _] at this
        exact this.symm
    rw [hlo]
    constructor
    · rintro ⟨⟨⟨⟨⟨⟨e1, e2⟩, e3⟩, e4⟩, eC⟩, e⟩, hrest⟩ s hs
      rcases Nat.eq_zero_or_pos s with rfl | h0
      · exact hnat.mpr ⟨⟨e1, e2, e3, e4, eC⟩, hx0, e⟩
      · exact hrest s (List.mem_range'_1.mpr ⟨h0, by omega⟩)
    · intro h
      obtain ⟨⟨e1, e2, e3, e4, eC⟩, -, e⟩ := hnat.mp (h 0 (by omega))
      refine ⟨⟨⟨⟨⟨⟨e1, e2⟩, e3⟩, e4⟩, eC⟩, e⟩, fun s hs => ?_⟩
      rw [List.mem_range'_1] at hs
      exact h s (by omega)

end Verif.Circom
