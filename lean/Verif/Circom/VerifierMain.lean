import Verif.Circom.VerifierSteps

/-!
# C110: the template accepts what `stark_verify` accepts
-/
set_option linter.unusedSectionVars false

namespace Verif.Circom
open Stark Codegen Fri FFT
open Verif.GL (F)
open Verif.Ext3 (K coord)

noncomputable local instance : DecidableEq K := Classical.decEq _

variable {perm : List F → List F}

theorem mod_mod_le {y a b : Nat} (h : b ≤ a) : y % 2 ^ a % 2 ^ b = y % 2 ^ b := Nat.mod_mod_of_dvd _ (pow_dvd_pow 2 h)

theorem checkLoop_cons {Tr : Type} (mt : MT F (List F) (List (List F)) Tr) (c : Cfg K) (cq : Q F (List (List F)) → Nat → Option (List K)) (last : List K) (first : Bool)
    (nb : Nat) (rest : List Nat) (a : K) (xs : List K) (q : Query F (List F) (List (List F))) (qs : List (Query F (List F) (List (List F)))) (pb : Nat) (sh : K)
    (ys : List Nat) : checkLoop mt encK c cq last first (nb :: rest) (a :: xs) (q :: qs) pb sh ys =
    if pb < nb then none else
    (allM (checkOne mt encK c.mg cq last first rest q qs pb sh a ys) (List.range c.nQueries)).bind fun ok =>
    if !ok then some false else
    checkLoop mt encK c cq last false rest xs qs nb (sqN (pb - nb) sh)
      (match rest with | nb' :: _ => ys.map (· % 2 ^ nb') | [] => ys) := by
  cases rest <;> rfl

/-- the loop of `FRI::verify` from step `s` on -/
theorem loop_iff (workers : Nat) {V : VPar} (hV : VOk V) (x : CIn) (cq : Q F (List (List F)) → Nat → Option (List K)) {xs : List K}
    (hxs : xs.length = V.c.steps.length) {ys : List Nat} {last : Nat} (hlast : V.c.steps.getLast? = some last) :
    ∀ (n s : Nat), s + n + 1 = V.c.steps.length →
      (checkLoop (glMT perm workers) encK V.c cq (x.finalPol.map (dec3 extK)) (decide (s = 0)) (V.c.steps.drop s) (xs.drop s)
        ((List.range' s (V.c.steps.length - s)).map (qOf V x)) (pbits V s) (V.c.shift ^ 2 ^ (V.c.inNbits - pbits V s))
        (if s = 0 then ys else ys.map (· % 2 ^ V.c.steps.getD s 0)) = some true ↔
      (∀ s', s ≤ s' → s' < V.c.steps.length → ∀ i < V.c.nQueries, natOne perm workers V x cq xs ys s' i = some true) ∧
        finalCheck V.c.mg V.c.inNbits V.c.maxDegNbits last (x.finalPol.map (dec3 extK)) = some true) := by
  intro n
  have key : ∀ (s : Nat) (hs : s < V.c.steps.length) (R : Prop) (tl : Option Bool), (tl = some true ↔ R) →
      (((allM (natOne perm workers V x cq xs ys s) (List.range V.c.nQueries)).bind fun ok => if !ok then some false else tl) = some true ↔
      (∀ i < V.c.nQueries, natOne perm workers V x cq xs ys s i = some true) ∧ R) := by
    intro s hs R tl htl
    have ha := allM_true_iff (natOne perm workers V x cq xs ys s) (List.range V.c.nQueries)
    simp only [List.mem_range] at ha
    rw [← ha, ← htl]
    cases allM (natOne perm workers V x cq xs ys s) (List.range V.c.nQueries) with
    | none => simp
    | some b => cases b <;> simp
  have unroll : ∀ (s nb : Nat) (hs : s < V.c.steps.length), V.c.steps[s]? = some nb →
      checkLoop (glMT perm workers) encK V.c cq (x.finalPol.map (dec3 extK)) (decide (s = 0)) (V.c.steps.drop s) (xs.drop s)
        ((List.range' s (V.c.steps.length - s)).map (qOf V x)) (pbits V s) (V.c.shift ^ 2 ^ (V.c.inNbits - pbits V s))
        (if s = 0 then ys else ys.map (· % 2 ^ V.c.steps.getD s 0)) =
      (allM (natOne perm workers V x cq xs ys s) (List.range V.c.nQueries)).bind fun ok => if !ok then some false else
        checkLoop (glMT perm workers) encK V.c cq (x.finalPol.map (dec3 extK)) false (V.c.steps.drop (s + 1)) (xs.drop (s + 1))
          ((List.range' (s + 1) (V.c.steps.length - (s + 1))).map (qOf V x)) nb (V.c.shift ^ 2 ^ (V.c.inNbits - nb))
          (match V.c.steps.drop (s + 1) with
            | nb' :: _ => (if s = 0 then ys else ys.map (· % 2 ^ V.c.steps.getD s 0)).map (· % 2 ^ nb')
            | [] => if s = 0 then ys else ys.map (· % 2 ^ V.c.steps.getD s 0)) := by
    intro s nb hs hnb
    have hx : s < xs.length := by omega
    have hnb' : V.c.steps[s] = nb := by
      rw [List.getElem?_eq_getElem hs] at hnb
      exact Option.some.inj hnb
    have hle : nb ≤ pbits V s ∧ pbits V s ≤ V.c.inNbits := by
      unfold pbits
      split_ifs with h0
      · exact ⟨hV.le s nb hnb, le_refl _⟩
      · obtain ⟨r, rfl⟩ : ∃ r, s = r + 1 := ⟨s - 1, by omega⟩
        have hr : V.c.steps[r]? = some V.c.steps[r] := List.getElem?_eq_getElem (by omega)
        rw [Nat.add_sub_cancel, List.getD_eq_getElem?_getD, hr]
        exact ⟨hV.mono r _ _ hr hnb, hV.le r _ hr⟩
    obtain ⟨k, hk⟩ : ∃ k, V.c.steps.length - s = k + 1 := ⟨V.c.steps.length - s - 1, by omega⟩
    have hk' : V.c.steps.length - (s + 1) = k := by omega
    rw [List.drop_eq_getElem_cons hs, List.drop_eq_getElem_cons hx, hnb', hk, hk', List.range'_succ, List.map_cons, checkLoop_cons, if_neg (by omega)]
    have hone : checkOne (glMT perm workers) encK V.c.mg cq (x.finalPol.map (dec3 extK)) (decide (s = 0)) (V.c.steps.drop (s + 1)) (qOf V x s)
        ((List.range' (s + 1) k).map (qOf V x)) (pbits V s) (V.c.shift ^ 2 ^ (V.c.inNbits - pbits V s)) xs[s]
        (if s = 0 then ys else ys.map (· % 2 ^ V.c.steps.getD s 0)) = natOne perm workers V x cq xs ys s := by
      funext i
      unfold natOne
      rw [hk', List.getD_eq_getElem?_getD (l := xs), List.getElem?_eq_getElem hx, Option.getD_some]
    rw [hone, sqN_eq, ← pow_mul, ← pow_add, show V.c.inNbits - pbits V s + (pbits V s - nb) = V.c.inNbits - nb by omega]
  induction n with
  | zero =>
    intro s hs
    have hlt : s < V.c.steps.length := by omega
    have hnb : V.c.steps[s]? = some last := by
      rw [List.getLast?_eq_getElem?, show V.c.steps.length - 1 = s by omega] at hlast
      exact hlast
    rw [unroll s last hlt hnb, key s hlt (finalCheck V.c.mg V.c.inNbits V.c.maxDegNbits last (x.finalPol.map (dec3 extK)) = some true)]
    · refine and_congr_left fun _ => ⟨fun h s' h1 h2 => ?_, fun h => h s (le_refl _) hlt⟩
      have : s' = s := by omega
      subst this
      exact h
    · rw [List.drop_of_length_le (show V.c.steps.length ≤ s + 1 by omega), checkLoop]
  | succ n ih =>
    intro s hs
    have hlt : s < V.c.steps.length := by omega
    have hnb : V.c.steps[s]? = some V.c.steps[s] := List.getElem?_eq_getElem hlt
    have hlt' : s + 1 < V.c.steps.length := by omega
    have hnb' : V.c.steps[s + 1]? = some V.c.steps[s + 1] := List.getElem?_eq_getElem hlt'
    have hle := hV.mono s _ _ hnb hnb'
    have ih := ih (s + 1) (by omega)
    have hys : (match V.c.steps.drop (s + 1) with
            | nb' :: _ => (if s = 0 then ys else ys.map (· % 2 ^ V.c.steps.getD s 0)).map (· % 2 ^ nb')
            | [] => if s = 0 then ys else ys.map (· % 2 ^ V.c.steps.getD s 0)) =
        (if s + 1 = 0 then ys else ys.map (· % 2 ^ V.c.steps.getD (s + 1) 0)) := by
      rw [List.drop_eq_getElem_cons hlt', if_neg (Nat.succ_ne_zero s)]
      dsimp only
      rw [List.getD_eq_getElem?_getD, List.getD_eq_getElem?_getD, hnb, hnb', Option.getD_some, Option.getD_some]
      split_ifs
      · rfl
      · rw [List.map_map]
        apply List.map_congr_left
        intro y _
        exact mod_mod_le hle
    have hpb : pbits V (s + 1) = V.c.steps[s] := by
      rw [pbits, if_neg (by omega), Nat.add_sub_cancel, List.getD_eq_getElem?_getD, hnb]
      rfl
    rw [hpb, show decide (s + 1 = 0) = false by simp] at ih
    rw [unroll s _ hlt hnb, hys, key s hlt _ _ ih, ← and_assoc]
    refine and_congr_left fun _ => ⟨fun h s' h1 h2 => ?_, fun h => ⟨h s (le_refl _) hlt, fun s' h1 h2 => h s' (by omega) h2⟩⟩
    rcases Nat.lt_or_ge s s' with h3 | h3
    · exact h.2 s' h3 h2
    · have : s' = s := by omega
      subst this
      exact h.1

/-- the degree check of the template is the one of `FRI::verify`, and one coefficient more -/
theorem degree_iff {V : VPar} (hV : VOk V) {x : CIn} (hx : x.Sized V) {last : Nat} (hlast : V.c.steps.getLast? = some last) :
    ∃ b pol, degreeCheck V x 1 = some b ∧ ifftC V.c.mg (x.finalPol.map (dec3 extK)) = some pol ∧
      (b = true ↔ finalCheck V.c.mg V.c.inNbits V.c.maxDegNbits last (x.finalPol.map (dec3 extK)) = some true ∧
        pol.getD (2 ^ (last - (V.c.inNbits - V.c.maxDegNbits))) 0 = 0) := by
  have hl := hV.last last hlast
  have hd := hV.deg.1
  have hle : last ≤ V.c.inNbits := hV.le (V.c.steps.length - 1) last (by rw [← List.getLast?_eq_getElem?, hlast])
  obtain ⟨pol, f1, f2⟩ := ifftC_some (Fri.Roots.mono hV.roots hle) (by have := hV.lt; omega) (x.finalPol.map (dec3 extK))
    (by rw [List.length_map, hx.finalPol last hlast])
  refine ⟨_, pol, by rw [degreeCheck, hlast, Option.bind_some, if_neg (by omega), f1, Option.map_some], f1, ?_⟩
  rw [finalCheck, if_neg (by omega), f1, Option.map_some, if_neg (by omega), Option.some.injEq]
  generalize hD : 2 ^ (last - (V.c.inNbits - V.c.maxDegNbits)) = D
  have hD' : D ≤ 2 ^ last := by rw [← hD]; exact Nat.pow_le_pow_right (by omega) (by omega)
  simp only [List.all_eq_true, List.mem_range'_1, List.mem_range, decide_eq_true_eq, same3_one]
  have h0 : ∀ z : K, coords z = (0, 0, 0) ↔ z = 0 := by
    intro z
    constructor
    · intro h
      rw [← extOkK.dec_co z, h]
      show extK.dec 0 0 0 = 0
      rw [extOkK.base]
      exact map_zero (algebraMap F K)
    · rintro rfl
      have : (0 : K) = extK.dec 0 0 0 := by rw [extOkK.base]; exact (map_zero (algebraMap F K)).symm
      rw [this, extOkK.co_dec]
  simp only [h0]
  constructor
  · intro h
    refine ⟨fun i hi hge => h i (by omega), ?_⟩
    rcases Nat.lt_or_ge D (2 ^ last) with h1 | h1
    · exact h D (by omega)
    · rw [List.getD_eq_getElem?_getD, List.getElem?_eq_none (by omega)]
      rfl
  · rintro ⟨h1, h2⟩ k hk
    rcases Nat.lt_or_ge D k with h3 | h3
    · exact h1 k (by omega) h3
    · have : k = D := by omega
      subst this
      exact h2

/-- **C110** (partial: the full claim "the template accepts exactly the proofs `stark_verify` accepts" is false of the code, see
`degree_stricter` and `single_step_const_root`): for every permutation of states, every setup with at least two FRI steps and every
proof of the declared sizes, the template compiles, and enabled it is satisfiable exactly when `stark_verify` accepts the same proof
and the coefficient of the last polynomial of the degree the native check lets through is zero. -/
theorem circuit_iff_partial (hp : Linear.IsState perm) (workers : Nat) {V : VPar} (hV : VOk V) {x : CIn} (hx : x.Sized V) {last : Nat}
    (hlast : V.c.steps.getLast? = some last) :
    ∃ b pol, starkVerifier perm V x 1 = some b ∧ ifftC V.c.mg (x.finalPol.map (dec3 extK)) = some pol ∧
      (b = true ↔ (∃ t, native perm workers V x = some (true, t)) ∧ pol.getD (2 ^ (last - (V.c.inNbits - V.c.maxDegNbits))) 0 = 0) := by
  obtain ⟨ops, ct, env, chal, sp, ys, t1, t2, t3, o1, o2, o3, o4, o5, o6, o7, o8, o9, o10, o11, o12, o13⟩ :=
    transcript_link (perm := perm) hp (workers := workers) hx hV.head hV.nq (by have := hV.lt; omega)
  obtain ⟨b2, pol, d1, d2, d3⟩ := degree_iff hV hx hlast
  have hval : ((x.toProof V).evals.map (Val.val extK)) = x.evals.map (dec3 extK) := by
    show (x.evals.map _).map _ = _
    rw [List.map_map]
    rfl
  have hpub : ((x.toProof V).publics.map (Val.val extK)) = x.publics.map extK.emb := by
    show (x.publics.map _).map _ = _
    rw [List.map_map]
    rfl
  obtain ⟨res, hres⟩ := hV.runs (chal.map (dec3 extK)) (x.evals.map (dec3 extK)) (x.publics.map extK.emb) (by rw [List.length_map, o5])
    (by rw [List.length_map, hx.evals]) (by rw [List.length_map, hx.publics])
  have hmg : V.c.mg V.c.maxDegNbits ^ 2 ^ V.c.maxDegNbits = 1 :=
    ((Fri.Roots.mono hV.roots hV.deg.1).primitive two_neK).pow_eq_one
  obtain ⟨b1, qs, e1, e2, e3⟩ := verifyEvaluations_spec (nCm := V.nCm) extOkK V.c.mg hV.deg.2 hV.qDeg hmg hV.lit hV.nodup (chal := chal) (by omega)
    (show V.base + V.qDeg ≤ x.evals.length by rw [hx.evals]; exact hV.base) hres hV.dim (1 : F)
  let cq := checkQuery (glMT perm workers) extK V.c (Val.val extK) ⟨List.range' V.base V.qDeg, V.code, V.queryCode⟩ x.rootC
        (x.toProof V) (chal.map (dec3 extK))
  obtain ⟨bs, q1, q2⟩ := mapM_all (f := queryCheck perm V x env chal 1 V.c.inNbits) (l := List.range V.c.nQueries)
    (P := fun i => ∀ s < V.c.steps.length, natOne perm workers V x cq (sp.map (dec3 extK)) ys s i = some true) (by
      intro i hi
      rw [List.mem_range] at hi
      have hlt : i < ys.length := by omega
      have hg : ys.getD i 0 = ys[i] := by rw [List.getD_eq_getElem?_getD, List.getElem?_eq_getElem hlt]; rfl
      exact query_iff hp workers hV hx hi o5 o8 o9 (List.getElem?_eq_getElem hlt) (o12 _ (List.getElem_mem hlt)) (fun j hj => by rw [← hg]; exact o13 i hi j hj))
  refine ⟨b1 && bs.all id && b2, pol, ?_, d2, ?_⟩
  · rw [starkVerifier, hV.head, Option.bind_some, o1, Option.bind_some, o2, Option.bind_some, o3, Option.bind_some, o4, Option.bind_some, e1,
      Option.bind_some, q1, Option.bind_some, d1, Option.map_some]
  · have hloop := loop_iff (perm := perm) workers hV x cq (xs := sp.map (dec3 extK)) (by rw [List.length_map, o8]) (ys := ys) hlast
      (V.c.steps.length - 1) 0 (by have := hV.two; omega)
    have hp0 : pbits V 0 = V.c.inNbits := rfl
    rw [List.drop_zero, List.drop_zero, Nat.sub_zero, ← queries_eq V x hV.steps_ne, hp0, Nat.sub_self, pow_zero, pow_one, if_pos rfl,
      show decide (0 = 0) = true from rfl] at hloop
    have hql : (x.toProof V).fri.queries.length = V.c.steps.length := by
      rw [queries_eq V x hV.steps_ne, List.length_map, List.length_range']
    have hnat : (∃ t, native perm workers V x = some (true, t)) ↔ (res = recombine ((chal.map (dec3 extK)).getD 7 0 ^ 2 ^ V.c.maxDegNbits) qs 1 0 *
        ((chal.map (dec3 extK)).getD 7 0 ^ 2 ^ V.c.maxDegNbits - 1)) ∧
        checkLoop (glMT perm workers) encK V.c cq (x.finalPol.map (dec3 extK)) true V.c.steps (sp.map (dec3 extK)) (x.toProof V).fri.queries
          V.c.inNbits V.c.shift ys = some true := by
      rw [native, starkVerify, o6, Option.bind_some]
      dsimp only
      rw [hval, hpub, hres, Option.bind_some]
      have e2' : (List.range' V.base V.qDeg).mapM (fun i => (ctxConstraint (G := F) V.c.mg V.c.maxDegNbits (chal.map (dec3 extK))
        (x.evals.map (dec3 extK)) (x.publics.map extK.emb)).evals[i]?) = some qs := e2
      have hz : (ctxConstraint (G := F) V.c.mg V.c.maxDegNbits (chal.map (dec3 extK)) (x.evals.map (dec3 extK)) (x.publics.map extK.emb)).z =
        (chal.map (dec3 extK)).getD 7 0 ^ 2 ^ V.c.maxDegNbits - 1 := rfl
      rw [e2', Option.bind_some, hz]
      by_cases hr : res = recombine ((chal.map (dec3 extK)).getD 7 0 ^ 2 ^ V.c.maxDegNbits) qs 1 0 *
        ((chal.map (dec3 extK)).getD 7 0 ^ 2 ^ V.c.maxDegNbits - 1)
      · rw [if_neg (not_not.mpr hr), verify, if_neg (not_not.mpr hql), o7, Option.bind_some]
        dsimp only
        rw [hV.head, Option.bind_some, o10, Option.bind_some]
        dsimp only
        constructor
        · rintro ⟨t, ht⟩
          obtain ⟨b, hb, hbt⟩ := Option.map_eq_some_iff.mp ht
          cases hbt
          exact ⟨hr, hb⟩
        · rintro ⟨-, h⟩
          refine ⟨t3, ?_⟩
          rw [show checkLoop (glMT perm workers) encK V.c (checkQuery (glMT perm workers) extK V.c (Val.val extK)
            ⟨List.range' V.base V.qDeg, V.code, V.queryCode⟩ x.rootC (x.toProof V) (chal.map (dec3 extK))) (x.toProof V).fri.last true V.c.steps
            (sp.map (dec3 extK)) (x.toProof V).fri.queries V.c.inNbits V.c.shift ys = some true from h]
          rfl
      · rw [if_pos hr]
        constructor
        · rintro ⟨t, ht⟩
          cases ht
        · rintro ⟨h, -⟩
          exact absurd h hr
    rw [hnat, hloop, Bool.and_eq_true, Bool.and_eq_true, e3, q2, d3]
    simp only [one_ne_zero, false_or, List.mem_range]
    constructor
    · rintro ⟨⟨h1, h2⟩, h3, h4⟩
      exact ⟨⟨h1, fun s' _ hs i hi => h2 i hi s' hs, h3⟩, h4⟩
    · rintro ⟨⟨h1, h2, h3⟩, h4⟩
      exact ⟨⟨h1, fun i hi s hs => h2 s (Nat.zero_le _) hs i hi⟩, h3, h4⟩

theorem same3_zero (a b : F × F × F) : same3 0 a b = true := by simp [same3]

theorem same4_zero (a b : List F) : same4 0 a b = true := by simp [same4]

/-- step `s ≥ 1` of the disabled template -/
theorem step_off (hp : Linear.IsState perm) {V : VPar} (hV : VOk V) {x : CIn} (hx : x.Sized V) {env : TEnv F TOut}
    {s i : Nat} (hs0 : s ≠ 0) (hs : s < V.c.steps.length) (hi : i < V.c.nQueries) {v : F × F × F} (hv : trip env (.special s) = some v) {y : Nat}
    {bits : Nat → F} (hb : ∀ j < V.c.inNbits, bits j = bitF (y.testBit j)) :
    ∃ b, stepCheck perm V x env 0 bits s i = some b ∧ (b = true ↔ True) := by
  obtain ⟨r, rfl⟩ : ∃ r, s = r + 1 := ⟨s - 1, by omega⟩
  have hpb : V.c.steps[r]? = some V.c.steps[r] := List.getElem?_eq_getElem (by omega)
  have hnb : V.c.steps[r + 1]? = some V.c.steps[r + 1] := List.getElem?_eq_getElem hs
  generalize hpbv : V.c.steps[r] = pb at hpb
  generalize hnbv : V.c.steps[r + 1] = nb at hnb
  have hle := hV.mono r pb nb hpb hnb
  have hpin := hV.le r pb hpb
  have hn0 : nb ≠ 0 := hV.pos nb (by rw [← hnbv]; exact List.getElem_mem _)
  have hb' : ∀ j < nb, bits j = bitF ((y % 2 ^ nb).testBit j) := by
    intro j hj
    rw [hb j (by omega), Nat.testBit_mod_two_pow, decide_eq_true hj, Bool.true_and]
  obtain ⟨low, l1, -⟩ := low_spec hV hx hnb hi (Nat.mod_lt _ (by positivity)) hb'
  obtain ⟨hsib, hsib4⟩ := hx.sSib r nb hnb i
  obtain ⟨root, m1, -, -⟩ := merkle_spec hp 1 (x.sVals (r + 1) i) (x.sSib (r + 1) i) hsib4 bits
  obtain ⟨t1, -, -⟩ := triples_spec _ _ (hx.sVals r pb nb hpb hnb i)
  obtain ⟨pol, f1, f2⟩ := ifftC_some (Fri.Roots.mono hV.roots (show pb - nb ≤ V.c.inNbits by omega)) (by have := hV.lt; omega)
    ((triples (x.sVals (r + 1) i)).map (dec3 extK)) (by rw [List.length_map, t1])
  unfold stepCheck
  rw [Nat.add_sub_cancel, hpb, Option.bind_some, hnb, Option.bind_some, if_neg (by omega), m1, Option.bind_some, f1, Option.bind_some, hv,
      Option.bind_some, l1, Option.map_some]
  refine ⟨_, rfl, ?_⟩
  rw [Bool.and_eq_true, same3_zero, same4_zero]
  simp

/-- one query of the disabled template -/
theorem query_off (hp : Linear.IsState perm) {V : VPar} (hV : VOk V) {x : CIn} (hx : x.Sized V) {env : TEnv F TOut}
    {i : Nat} (hi : i < V.c.nQueries) {chal : List (F × F × F)} (hch : chal.length = 8)
    {sp : List (F × F × F)} (hsl : sp.length = V.c.steps.length) (hsp : ∀ (s : Nat) (v : F × F × F), sp[s]? = some v → trip env (.special s) = some v)
    {y : Nat} {ys : List Nat} (hys : ys[i]? = some y) (hy : y < 2 ^ V.c.inNbits)
    (hb : ∀ j < V.c.inNbits, env.ys i j = some (bitF (y.testBit j))) :
    ∃ b, queryCheck perm V x env chal 0 V.c.inNbits i = some b ∧ (b = true ↔
      ¬(queryPoint V.c.mg V.c.shift V.c.inNbits y = (chal.map (dec3 extK)).getD 7 0 ∨
        queryPoint V.c.mg V.c.shift V.c.inNbits y = (chal.map (dec3 extK)).getD 7 0 * V.c.mg V.c.maxDegNbits)) := by
  obtain ⟨bl, hbl⟩ := mapM_total (f := env.ys i) (l := List.range V.c.inNbits) fun j hj => ⟨_, hb j (List.mem_range.mp hj)⟩
  have hbits : ∀ j < V.c.inNbits, bl.getD j 0 = bitF (y.testBit j) := by
    intro j hj
    obtain ⟨b, e1, e2⟩ := mapM_get hbl j j (List.getElem?_range hj)
    rw [hb j hj] at e1
    cases e1
    rw [List.getD_eq_getElem?_getD, e2]
    rfl
  have h0s : V.c.steps[0]? = some V.c.inNbits := by rw [← List.head?_eq_getElem?, hV.head]
  obtain ⟨trees, htr⟩ := hV.rows (fun t => x.vals t i) fun t => hx.vals t i
  obtain ⟨v, hv⟩ := hV.runsQ (chal.map (dec3 extK)) (x.evals.map (dec3 extK)) (x.publics.map extK.emb) (fun t => x.vals t i) (x.valsC i) y
    (by rw [List.length_map, hch]) (by rw [List.length_map, hx.evals]) (by rw [List.length_map, hx.publics])
    (by rintro t (rfl | rfl | rfl | rfl) <;> exact hx.vals _ i) (hx.valsC i)
  obtain ⟨r1, a1, -, -⟩ := merkle_spec hp 1 (x.vals 1 i) (x.sib 1 i) (hx.sib 1 i).2 (fun j => bl.getD j 0)
  obtain ⟨r2, a2, -, -⟩ := merkle_spec hp 1 (x.vals 2 i) (x.sib 2 i) (hx.sib 2 i).2 (fun j => bl.getD j 0)
  obtain ⟨r3, a3, -, -⟩ := merkle_spec hp 1 (x.vals 3 i) (x.sib 3 i) (hx.sib 3 i).2 (fun j => bl.getD j 0)
  obtain ⟨r4, a4, -, -⟩ := merkle_spec hp 1 (x.vals 4 i) (x.sib 4 i) (hx.sib 4 i).2 (fun j => bl.getD j 0)
  obtain ⟨rC, aC, -, -⟩ := merkle_spec hp 1 (x.valsC i) (x.sibC i) (hx.sibC i).2 (fun j => bl.getD j 0)
  obtain ⟨low, l1, -⟩ := low_spec hV hx h0s hi hy hbits
  have hn0 : V.c.inNbits ≠ 0 := hV.pos _ (List.mem_of_mem_head? hV.head)
  obtain ⟨q1, q2⟩ := verifyQuery_spec extOkK hn0 hV.mg hV.litQ hV.nodupQ hV.trees hV.noPub hV.dimQ (chal := chal) (by omega) htr hy
    (ys := fun j => bl.getD j 0) (fun j hj => hbits j hj) hv
  unfold queryCheck
  rw [hbl, Option.bind_some]
  dsimp only
  by_cases hx0 : queryPoint V.c.mg V.c.shift V.c.inNbits y = (chal.map (dec3 extK)).getD 7 0 ∨
        queryPoint V.c.mg V.c.shift V.c.inNbits y = (chal.map (dec3 extK)).getD 7 0 * V.c.mg V.c.maxDegNbits
  · rw [q1 hx0, Option.bind_some]
    exact ⟨false, rfl, fun h => (by cases h), fun h => absurd hx0 h⟩
  · obtain ⟨out, o1, o2⟩ := q2 hx0
    rw [o1, Option.bind_some]
    dsimp only
    obtain ⟨bs, hbs, hall⟩ := mapM_all (f := fun s => stepCheck perm V x env 0 (fun j => bl.getD j 0) s i) (l := List.range' 1 (V.c.steps.length - 1))
      (P := fun s => True) (by
        intro s hs
        rw [List.mem_range'_1] at hs
        have hlt : s < sp.length := by omega
        exact step_off hp hV hx (by omega) (by omega) hi (hsp s _ (List.getElem?_eq_getElem hlt)) hbits)
    have two := hV.two
    unfold step0Check
    rw [a1, Option.bind_some, if_neg hV.width2, a2, Option.map_some, Option.bind_some, if_neg hV.width3, a3, Option.map_some, Option.bind_some,
      a4, Option.bind_some, aC, Option.bind_some, l1, Option.map_some, Option.bind_some, hbs, Option.map_some, if_neg (by omega)]
    refine ⟨_, rfl, ?_⟩
    simp only [Bool.and_eq_true, same4_zero, same3_zero, true_and]
    rw [hall]
    exact ⟨fun _ => hx0, fun _ _ _ => trivial⟩

/-- **C110**, disabled (`enable = 0`): the template still is not satisfiable when a query falls on one of the two opened points; for
all other proofs of the declared sizes it is -/
theorem circuit_disabled (hp : Linear.IsState perm) (workers : Nat) {V : VPar} (hV : VOk V) {x : CIn} (hx : x.Sized V) {last : Nat}
    (hlast : V.c.steps.getLast? = some last) :
    ∃ (b : Bool) (chal xs : List K) (ys : List Nat) (t1 t2 t3 : TranscriptGL.T F), starkVerifier perm V x 0 = some b ∧
      verChallenges (glMT perm workers) (glTr perm) Val.els TranscriptGL.new (x.toProof V) = some (chal, t1) ∧
      challenges (glMT perm workers) (glTr perm) encK (x.toProof V).fri.last V.c.steps (x.toProof V).fri.queries.tail t1 = some (xs, t2) ∧
      (glTr perm).perms V.c.nQueries V.c.inNbits t2 = some (ys, t3) ∧
      (b = true ↔ ∀ y ∈ ys, queryPoint V.c.mg V.c.shift V.c.inNbits y ≠ chal.getD 7 0 ∧
        queryPoint V.c.mg V.c.shift V.c.inNbits y ≠ chal.getD 7 0 * V.c.mg V.c.maxDegNbits) := by
  obtain ⟨ops, ct, env, chal, sp, ys, t1, t2, t3, o1, o2, o3, o4, o5, o6, o7, o8, o9, o10, o11, o12, o13⟩ :=
    transcript_link (perm := perm) hp (workers := workers) hx hV.head hV.nq (by have := hV.lt; omega)
  obtain ⟨res, hres⟩ := hV.runs (chal.map (dec3 extK)) (x.evals.map (dec3 extK)) (x.publics.map extK.emb) (by rw [List.length_map, o5])
    (by rw [List.length_map, hx.evals]) (by rw [List.length_map, hx.publics])
  have hmg : V.c.mg V.c.maxDegNbits ^ 2 ^ V.c.maxDegNbits = 1 :=
    ((Fri.Roots.mono hV.roots hV.deg.1).primitive two_neK).pow_eq_one
  obtain ⟨b1, qs, e1, e2, e3⟩ := verifyEvaluations_spec (nCm := V.nCm) extOkK V.c.mg hV.deg.2 hV.qDeg hmg hV.lit hV.nodup (chal := chal) (by omega)
    (show V.base + V.qDeg ≤ x.evals.length by rw [hx.evals]; exact hV.base) hres hV.dim (0 : F)
  obtain ⟨bs, q1, q2⟩ := mapM_all (f := queryCheck perm V x env chal 0 V.c.inNbits) (l := List.range V.c.nQueries)
    (P := fun i => ¬(queryPoint V.c.mg V.c.shift V.c.inNbits (ys.getD i 0) = (chal.map (dec3 extK)).getD 7 0 ∨
        queryPoint V.c.mg V.c.shift V.c.inNbits (ys.getD i 0) = (chal.map (dec3 extK)).getD 7 0 * V.c.mg V.c.maxDegNbits)) (by
      intro i hi
      rw [List.mem_range] at hi
      have hlt : i < ys.length := by omega
      have hg : ys.getD i 0 = ys[i] := by rw [List.getD_eq_getElem?_getD, List.getElem?_eq_getElem hlt]; rfl
      rw [hg]
      exact query_off hp hV hx hi o5 o8 o9 (List.getElem?_eq_getElem hlt) (o12 _ (List.getElem_mem hlt)) (fun j hj => by rw [← hg]; exact o13 i hi j hj))
  obtain ⟨b2, d1, d2⟩ : ∃ b2, degreeCheck V x 0 = some b2 ∧ b2 = true := by
    have hl := hV.last last hlast
    have hle : last ≤ V.c.inNbits := hV.le (V.c.steps.length - 1) last (by rw [← List.getLast?_eq_getElem?, hlast])
    obtain ⟨pol, f1, f2⟩ := ifftC_some (Fri.Roots.mono hV.roots hle) (by have := hV.lt; omega) (x.finalPol.map (dec3 extK))
      (by rw [List.length_map, hx.finalPol last hlast])
    refine ⟨_, by rw [degreeCheck, hlast, Option.bind_some, if_neg (by have := hV.deg.1; omega), f1, Option.map_some], ?_⟩
    rw [List.all_eq_true]
    intro k _
    exact same3_zero _ _
  refine ⟨b1 && bs.all id && b2, chal.map (dec3 extK), sp.map (dec3 extK), ys, t1, t2, t3, ?_, o6, o7, o10, ?_⟩
  · rw [starkVerifier, hV.head, Option.bind_some, o1, Option.bind_some, o2, Option.bind_some, o3, Option.bind_some, o4, Option.bind_some, e1,
      Option.bind_some, q1, Option.bind_some, d1, Option.map_some]
  · rw [Bool.and_eq_true, Bool.and_eq_true, e3, q2, d2]
    simp only [true_or, true_and, and_true, List.mem_range, not_or]
    constructor
    · intro h y hy
      obtain ⟨i, hi, rfl⟩ := List.getElem_of_mem hy
      have := h i (by omega)
      rw [List.getD_eq_getElem?_getD, List.getElem?_eq_getElem hi] at this
      exact this
    · intro h i hi
      have hlt : i < ys.length := by omega
      rw [List.getD_eq_getElem?_getD (l := ys), List.getElem?_eq_getElem hlt]
      exact h _ (List.getElem_mem hlt)

/-- the native check of the last polynomial lets through what the template refuses (negation of the full C110): for every setup whose
extended domain is larger than the trace there are values of a last polynomial on which they differ -/
theorem degree_stricter {V : VPar} (hV : VOk V) {x : CIn} {last : Nat} (hlast : V.c.steps.getLast? = some last)
    (hd : V.c.maxDegNbits < V.c.inNbits) : ∃ finalPol : List (F × F × F), finalPol.length = 2 ^ last ∧
      finalCheck V.c.mg V.c.inNbits V.c.maxDegNbits last (finalPol.map (dec3 extK)) = some true ∧
      degreeCheck V { x with finalPol := finalPol } 1 = some false := by
  have hl := hV.last last hlast
  have hle : last ≤ V.c.inNbits := hV.le (V.c.steps.length - 1) last (by rw [← List.getLast?_eq_getElem?, hlast])
  have hlt : last < 32 := by have := hV.lt; omega
  have hR := Fri.Roots.mono hV.roots hle
  generalize hD : 2 ^ (last - (V.c.inNbits - V.c.maxDegNbits)) = D
  have hD' : D < 2 ^ last := by rw [← hD]; exact Nat.pow_lt_pow_right (by omega) (by omega)
  let c : List K := (List.range (2 ^ last)).map fun i => if i = D then 1 else 0
  have hc : c.length = 2 ^ last := by simp [c]
  have hcg : ∀ i < 2 ^ last, c.getD i 0 = if i = D then 1 else 0 := by
    intro i hi
    simp [c, List.getD_eq_getElem?_getD, hi]
  let p : List K := (List.range (2 ^ last)).map fun i => V.c.mg last ^ (i * D)
  have hp : p.length = 2 ^ last := by simp [p]
  have hifft : ifftC V.c.mg p = some c := by
    refine ifftC_unique hR hlt two_neK p c hp hc fun i hi => ?_
    rw [Finset.sum_eq_single D]
    · rw [hcg D hD', if_pos rfl, one_mul]
      simp [p, List.getD_eq_getElem?_getD, hi]
    · intro j hj hne
      rw [hcg j (Finset.mem_range.mp hj), if_neg hne, zero_mul]
    · intro h
      exact absurd (Finset.mem_range.mpr hD') h
  have hmap : (p.map coords).map (dec3 extK) = p := by
    rw [List.map_map]
    conv_rhs => rw [← List.map_id p]
    apply List.map_congr_left
    intro z _
    exact extOkK.dec_co z
  refine ⟨p.map coords, by rw [List.length_map, hp], ?_, ?_⟩
  · rw [hmap, finalCheck, if_neg (by omega), hifft, Option.map_some, if_neg (by omega), hD]
    congr 1
    rw [List.all_eq_true]
    intro i hi
    rw [List.mem_range, hc] at hi
    rw [decide_eq_true_eq]
    intro hge
    rw [hcg i hi, if_neg (by omega)]
  · rw [degreeCheck, hlast, Option.bind_some, if_neg (by omega)]
    dsimp only
    rw [hmap, hifft, Option.map_some, hD]
    congr 1
    rw [← Bool.not_eq_true, List.all_eq_true]
    intro h
    have := h D (List.mem_range'_1.mpr ⟨le_refl _, by omega⟩)
    rw [same3_one, hcg D hD', if_pos rfl] at this
    have h1 : (1 : K) = extK.dec 0 0 0 := by rw [← extOkK.dec_co 1, this]
    rw [extOkK.base] at h1
    exact one_ne_zero (h1.trans (map_zero (algebraMap F K)))

/-- with one FRI step the template does not read the root of the constants (negation of the full C110) … -/
theorem single_step_const_root (perm : List F → List F) (V : VPar) (x : CIn) (r : List F) (enable : F) (h1 : V.c.steps.length = 1) :
    starkVerifier perm V { x with rootC := r } enable = starkVerifier perm V x enable := by
  have h0 : ∀ (ys : Nat → F) (q : Nat) (out : F × F × F), step0Check perm V { x with rootC := r } enable ys q out = step0Check perm V x enable ys q out := by
    intro ys q out
    unfold step0Check
    simp only [h1, le_refl, if_true]
    rfl
  have hq : ∀ (env : TEnv F TOut) (chal : List (F × F × F)) (nb0 : Nat), queryCheck perm V { x with rootC := r } env chal enable nb0 =
      queryCheck perm V x env chal enable nb0 := by
    intro env chal nb0
    funext q
    unfold queryCheck
    simp only [h0]
    rfl
  unfold starkVerifier
  simp only [hq]
  rfl

theorem native_const_verify {workers : Nat} {V : VPar} {x : CIn} (hq : V.c.nQueries ≠ 0) (hs : V.c.steps ≠ [])
    {t : TranscriptGL.T F} (h : native perm workers V x = some (true, t)) :
    ∃ chal t1 xs t2 nb0 ys t3 y, verChallenges (glMT perm workers) (glTr perm) Val.els TranscriptGL.new (x.toProof V) = some (chal, t1) ∧
      challenges (glMT perm workers) (glTr perm) encK (x.toProof V).fri.last V.c.steps (x.toProof V).fri.queries.tail t1 = some (xs, t2) ∧
      V.c.steps.head? = some nb0 ∧ (glTr perm).perms V.c.nQueries nb0 t2 = some (ys, t3) ∧ ys[0]? = some y ∧
      (glMT perm workers).verify x.rootC (x.sibC 0) y (x.valsC 0) = some true := by
  unfold native starkVerify at h
  obtain ⟨⟨chal, t1⟩, e1, h⟩ := Option.bind_eq_some_iff.mp h
  dsimp only at h
  obtain ⟨res, -, h⟩ := Option.bind_eq_some_iff.mp h
  obtain ⟨qs, -, h⟩ := Option.bind_eq_some_iff.mp h
  split_ifs at h with hc
  · simp at h
  unfold verify at h
  split_ifs at h with hl
  obtain ⟨⟨xs, t2⟩, e2, h⟩ := Option.bind_eq_some_iff.mp h
  dsimp only at h
  obtain ⟨nb0, e3, h⟩ := Option.bind_eq_some_iff.mp h
  obtain ⟨⟨ys, t3⟩, e4, h⟩ := Option.bind_eq_some_iff.mp h
  dsimp only at h
  obtain ⟨b, hb, hbt⟩ := Option.map_eq_some_iff.mp h
  obtain rfl := (Prod.mk.inj hbt).1
  obtain ⟨nb, rest, hst⟩ := List.exists_cons_of_ne_nil hs
  have hqs : (x.toProof V).fri.queries = ⟨MerkleGL.zeroDigest, (List.range V.c.nQueries).map fun q =>
          [(x.vals 1 q, x.sib 1 q), (x.vals 2 q, x.sib 2 q), (x.vals 3 q, x.sib 3 q), (x.vals 4 q, x.sib 4 q), (x.valsC q, x.sibC q)]⟩ ::
        (List.range' 1 (V.c.steps.length - 1)).map fun s => ⟨x.sRoot s, (List.range V.c.nQueries).map fun q => [(x.sVals s q, x.sSib s q)]⟩ := rfl
  cases xs with
  | nil =>
    rw [hst, checkLoop] at hb
    cases hb
  | cons a xs =>
    rw [hst, hqs, checkLoop_cons] at hb
    split_ifs at hb with hpb
    obtain ⟨ok, hok, hb⟩ := Option.bind_eq_some_iff.mp hb
    cases ok with
    | false => simp at hb
    | true =>
      have := (allM_true_iff _ _).mp hok 0 (List.mem_range.mpr (by omega))
      unfold checkOne at this
      obtain ⟨y, hy, this⟩ := Option.bind_eq_some_iff.mp this
      obtain ⟨g, hg, -⟩ := Option.bind_eq_some_iff.mp this
      unfold openedGroup at hg
      dsimp only at hg
      rw [List.getElem?_map, List.getElem?_range (by omega), Option.map_some, Option.bind_some, if_pos rfl] at hg
      obtain ⟨l, hcq, -⟩ := Option.map_eq_some_iff.mp hg
      unfold checkQuery at hcq
      dsimp only at hcq
      split_ifs at hcq with h5
      exact ⟨chal, t1, _, t2, nb0, ys, t3, y, e1, e2, e3, e4, hy, h5.2.2.2.2⟩

/-- … which `stark_verify` compares: it accepts at most one root -/
theorem native_const_root (perm : List F → List F) (workers : Nat) (V : VPar) (x : CIn) (r : List F) (hq : V.c.nQueries ≠ 0) (hs : V.c.steps ≠ [])
    {t t' : TranscriptGL.T F} (h : native perm workers V x = some (true, t))
    (h' : native perm workers V { x with rootC := r } = some (true, t')) : r = x.rootC := by
  obtain ⟨chal, t1, xs, t2, nb0, ys, t3, y, e1, e2, e3, e4, e5, e6⟩ := native_const_verify hq hs h
  obtain ⟨chal', t1', xs', t2', nb0', ys', t3', y', e1', e2', e3', e4', e5', e6'⟩ := native_const_verify hq hs h'
  have a1 := e1.symm.trans e1'
  obtain ⟨rfl, rfl⟩ := Prod.mk.inj (Option.some.inj a1)
  have a2 := e2.symm.trans e2'
  obtain ⟨rfl, rfl⟩ := Prod.mk.inj (Option.some.inj a2)
  obtain rfl := Option.some.inj (e3.symm.trans e3')
  obtain ⟨rfl, rfl⟩ := Prod.mk.inj (Option.some.inj (e4.symm.trans e4'))
  obtain rfl := Option.some.inj (e5.symm.trans e5')
  change MerkleGL.verifyGroupProof perm x.rootC (x.sibC 0) y (x.valsC 0) = some true at e6
  change MerkleGL.verifyGroupProof perm r (x.sibC 0) y (x.valsC 0) = some true at e6'
  unfold MerkleGL.verifyGroupProof at e6 e6'
  obtain ⟨root, hr, e6⟩ := Option.map_eq_some_iff.mp e6
  rw [hr, Option.map_some, Option.some.injEq] at e6'
  exact (of_decide_eq_true e6').trans (of_decide_eq_true e6).symm

/-! ### The positions of the pieces of the quotient -/

theorem addQs_lookup : ∀ (qs : List Nat) (ev : EvSt), qs.Nodup →
    (∀ (j q : Nat), qs[j]? = some q → (addQs qs ev).idx.lookup (.cm, false, q) = some (ev.map.length + j)) ∧
    ∀ q, q ∉ qs → (addQs qs ev).idx.lookup (.cm, false, q) = ev.idx.lookup (.cm, false, q)
  | [], ev, _ => ⟨fun j q h => by simp at h, fun q _ => rfl⟩
  | p :: qs, ev, h => by
    rw [List.nodup_cons] at h
    obtain ⟨h1, h2⟩ := addQs_lookup qs ⟨((.cm, false, p), ev.map.length) :: ev.idx, ev.map ++ [(.cm, false, p)]⟩ h.2
    have e : addQs (p :: qs) ev = addQs qs ⟨((.cm, false, p), ev.map.length) :: ev.idx, ev.map ++ [(.cm, false, p)]⟩ := rfl
    rw [e]
    refine ⟨fun j q hj => ?_, fun q hq => ?_⟩
    · cases j with
      | zero =>
        cases hj
        rw [h2 p h.1, lookup_cons_ite, if_pos rfl]
        rfl
      | succ j =>
        rw [h1 j q hj]
        simp only [List.length_append, List.length_singleton, Option.some.injEq]
        omega
    · rw [List.mem_cons, not_or] at hq
      rw [h2 q hq.2, lookup_cons_ite, if_neg]
      rintro ⟨⟩
      exact hq.1 rfl

/-- the generated program gives the pieces of the quotient consecutive positions: the circuit (which adds to the position of the first,
stark_verifier_circom.rs L536-540) and `stark_verify` (which looks up each, stark_verify.rs L74) read the same openings -/
theorem quotient_positions (qs : List Nat) (ev : EvSt) (h : qs.Nodup) : qEvOf (addQs qs ev) qs = some (List.range' ev.map.length qs.length) := by
  have h1 := (addQs_lookup qs ev h).1
  generalize addQs qs ev = ev' at h1
  generalize ev.map.length = n at h1
  unfold qEvOf
  clear h
  induction qs generalizing n with
  | nil => rfl
  | cons q qs ih =>
    rw [List.mapM_cons, h1 0 q rfl]
    show Option.bind (some _) _ = _
    rw [Option.bind_some, ih (n + 1) fun j q hj => by
      rw [h1 (j + 1) q hj]
      congr 1
      omega]
    rfl

example : qEvOf (addQs [7, 4, 9] ⟨[((.cm, false, 1), 0)], [(.cm, false, 1)]⟩) [7, 4, 9] = some [1, 2, 3] :=
  quotient_positions [7, 4, 9] _ (by decide)

/-! ### An example of a setup -/

/-- a trace of four rows, extended to eight, two FRI steps and two queries -/
noncomputable def exV : VPar where
  c := ⟨mgK, shiftK, shiftK⁻¹, 3, 2, 2, [3, 2]⟩
  nPub := 1
  nEv := 3
  width := fun t => if t = 3 then 5 else 1
  nConst := 0
  lit := litK
  nCm := fun t => if t = 1 then 3 else 1
  secs := exSecs
  qDeg := 1
  base := 2
  code := exCode
  queryCode := exQuery
  mgF := Verif.Roots.mg
  shiftF := Verif.Roots.shift

theorem exV_ok : VOk exV where
  two := le_refl 2
  head := rfl
  mono := by
    intro s pb nb h1 h2
    match s with
    | 0 => cases h1; cases h2; decide
    | 1 => cases h2
    | s + 2 => cases h1
  pos := by
    intro nb h
    fin_cases h <;> decide
  lt := by decide
  roots := rootsK (by decide)
  mg :=
    { emb := fun _ => rfl
      shift := rfl
      sq := fun k hk => by
        change k < 3 at hk
        have := (Verif.Roots.roots_mg (A := F) (bits := 3) (by decide)).sq (3 - (k + 1)) (by omega)
        rw [show 3 - (k + 1) + 1 = 3 - k by omega] at this
        exact this.symm }
  deg := by decide
  last := by
    intro last h
    cases h
    decide
  nq := by decide
  qDeg := by decide
  base := by decide
  width2 := by decide
  width3 := by decide
  lit := by
    intro i hi r hr ht v hv
    have hi : i ∈ exCode := hi
    simp only [exCode, List.mem_cons, List.not_mem_nil, or_false] at hi
    rcases hi with rfl | rfl | rfl <;> simp only [List.mem_cons, List.not_mem_nil, or_false] at hr
    · rcases hr with rfl | rfl <;> simp at ht
    · rcases hr with rfl | rfl
      · simp at ht
      · obtain rfl := Option.some.inj hv
        exact litK_base 7
    · rcases hr with rfl | rfl | rfl <;> simp at ht
  nodup := by
    show (exCode.map fun i => i.dest.id).Nodup
    simp [exCode]
  dim := by
    intro c' h
    obtain ⟨c'', h1, h2⟩ := exCode_dims
    have h : setDims (fun _ => none) exCode = some c' := h
    rw [h1] at h
    obtain rfl := Option.some.inj h
    exact h2
  runs := by
    intro chal evals publics h1 h2 h3
    match chal, evals, publics, h1, h2, h3 with
    | [_, _, _, _, _, _, _, x], [e0, e1, e2], [p], _, _, _ =>
      refine ⟨(e1 - e0) * x + p * algebraMap F K 7, ?_⟩
      show executeCode extK _ exCode = _
      simp [executeCode, exCode, vStep, getRef, vApply, ctxConstraint, Function.update]
  litQ := by
    intro i hi r hr ht v hv
    have hi : i ∈ exQuery := hi
    simp only [exQuery, List.mem_cons, List.not_mem_nil, or_false] at hi
    rcases hi with rfl | rfl <;> simp only [List.mem_cons, List.not_mem_nil, or_false] at hr <;> rcases hr with rfl | rfl <;> simp at ht
  nodupQ := by
    show (exQuery.map fun i => i.dest.id).Nodup
    simp [exQuery]
  dimQ := by
    intro c' h
    obtain ⟨c'', h1, h2⟩ := exQuery_dims
    have h : setDims (fun _ => none) exQuery = some c' := h
    rw [h1] at h
    obtain rfl := Option.some.inj h
    exact h2
  trees := exQuery_trees
  noPub := by
    intro i hi r hr
    have hi : i ∈ exQuery := hi
    simp only [exQuery, List.mem_cons, List.not_mem_nil, or_false] at hi
    rcases hi with rfl | rfl <;> simp only [List.mem_cons, List.not_mem_nil, or_false] at hr <;> rcases hr with rfl | rfl <;> simp
  rows := by
    intro rows h
    have h1 : (rows 1).length = 1 := h 1
    have h2 : (rows 2).length = 1 := h 2
    have h3 : (rows 3).length = 5 := h 3
    have h4 : (rows 4).length = 1 := h 4
    show ∃ trees, mapValues exSecs rows = some trees
    match e1 : rows 1, e2 : rows 2, e3 : rows 3, e4 : rows 4, h1, h2, h3, h4 with
    | [a], [b], [c0, c1, c2, c3, c4], [d], _, _, _, _ =>
      refine ⟨fun k => if k = 1 then [.one a] else if k = 2 then [.one b] else if k = 3 then [.three c2 c3 c4, .one c0]
        else if k = 4 then [.one d] else [], ?_⟩
      simp [mapValues, mapOne, exSecs, e1, e2, e3, e4]
  runsQ := by
    intro chal evals publics rows consts idx h1 h2 _ h4 _
    have h3 : (rows 3).length = 5 := h4 3 (by simp)
    match evals, h2 with
    | [e0, e1, e2], _ =>
      match e3 : rows 3, h3 with
      | [c0, c1, c2, c3, c4], _ =>
        refine ⟨(coord c2 c3 c4 - e0) * (queryPoint exV.c.mg exV.c.shift exV.c.inNbits idx /
            (queryPoint exV.c.mg exV.c.shift exV.c.inNbits idx - chal.getD 7 0)), ?_⟩
        show executeCode extK _ exQuery = _
        simp [executeCode, exQuery, vStep, getRef, vApply, ctxQuery, extractVal, Function.update, extK, e3]

/-- a proof of the declared sizes -/
def exIn (a : F) : CIn where
  publics := [a]
  root := fun _ => [1, 2, 3, a]
  rootC := [4, 5, 6, 7]
  evals := [(1, 2, a), (3, 4, 5), (6, 7, 8)]
  vals := fun t _ => if t = 3 then [1, 2, 3, 4, a] else [a]
  valsC := fun _ => []
  sib := fun _ _ => List.replicate 3 [1, 1, 1, 1]
  sibC := fun _ => List.replicate 3 [1, 1, 1, 1]
  sRoot := fun _ => [a, a, a, a]
  sVals := fun _ _ => [1, 2, 3, 4, 5, 6]
  sSib := fun _ _ => List.replicate 2 [1, 1, 1, 1]
  finalPol := [(1, 0, 0), (0, a, 0), (0, 0, 0), (0, 0, 3)]

theorem exIn_sized (a : F) : (exIn a).Sized exV where
  publics := rfl
  root := fun _ => rfl
  rootC := rfl
  evals := rfl
  vals := by
    intro t q
    show (if t = 3 then _ else _ : List F).length = if t = 3 then 5 else 1
    split_ifs <;> rfl
  valsC := fun _ => rfl
  sib := fun _ _ => ⟨rfl, fun l h => by rw [List.eq_of_mem_replicate h]; rfl⟩
  sibC := fun _ => ⟨rfl, fun l h => by rw [List.eq_of_mem_replicate h]; rfl⟩
  sRoot := fun _ => rfl
  sVals := by
    intro s pb nb h1 h2 q
    match s with
    | 0 => cases h1; cases h2; rfl
    | 1 => cases h2
    | s + 2 => cases h1
  sSib := by
    intro s nb h q
    match s with
    | 0 => cases h; exact ⟨rfl, fun l h => by rw [List.eq_of_mem_replicate h]; rfl⟩
    | s + 1 => cases h
  finalPol := by
    intro last h
    cases h
    rfl

/-- non-vacuity of `circuit_iff_partial`, with the permutation of the code -/
example (hp : Linear.IsState perm) (a : F) : ∃ b pol, starkVerifier perm exV (exIn a) 1 = some b ∧
      ifftC mgK ((exIn a).finalPol.map (dec3 extK)) = some pol ∧
      (b = true ↔ (∃ t, native perm 4 exV (exIn a) = some (true, t)) ∧ pol.getD (2 ^ (2 - (3 - 2))) 0 = 0) :=
  circuit_iff_partial hp 4 exV_ok (exIn_sized a) rfl

/-- non-vacuity of `circuit_disabled` -/
example (hp : Linear.IsState perm) (a : F) : ∃ (b : Bool) (chal xs : List K) (ys : List Nat) (t1 t2 t3 : TranscriptGL.T F),
      starkVerifier perm exV (exIn a) 0 = some b ∧
      verChallenges (glMT perm 4) (glTr perm) Val.els TranscriptGL.new ((exIn a).toProof exV) = some (chal, t1) ∧
      challenges (glMT perm 4) (glTr perm) encK ((exIn a).toProof exV).fri.last [3, 2] ((exIn a).toProof exV).fri.queries.tail t1 = some (xs, t2) ∧
      (glTr perm).perms 2 3 t2 = some (ys, t3) ∧
      (b = true ↔ ∀ y ∈ ys, queryPoint mgK shiftK 3 y ≠ chal.getD 7 0 ∧ queryPoint mgK shiftK 3 y ≠ chal.getD 7 0 * mgK 2) :=
  circuit_disabled hp 4 exV_ok (exIn_sized a) rfl

/-- non-vacuity of `degree_stricter` -/
example (a : F) : ∃ finalPol : List (F × F × F), finalPol.length = 2 ^ 2 ∧ finalCheck mgK 3 2 2 (finalPol.map (dec3 extK)) = some true ∧
      degreeCheck exV { exIn a with finalPol := finalPol } 1 = some false :=
  degree_stricter exV_ok rfl (by decide)

/-- non-vacuity of `single_step_const_root` -/
example (a : F) (r : List F) : starkVerifier perm { exV with c := { exV.c with steps := [3] } } { exIn a with rootC := r } 1 =
    starkVerifier perm { exV with c := { exV.c with steps := [3] } } (exIn a) 1 :=
  single_step_const_root perm _ _ r 1 rfl

end Verif.Circom
