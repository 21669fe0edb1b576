import Verif.Gadget.OnChain
import Verif.Stark.Protocol

/-!
# C126: the transcript of the on-chain verifier draws what the native verifier draws

The calls `onOps` of the generator (stark_verifier_circom_onchain.rs L993-1021) against the calls of `stark_verify` (stark_verify.rs L35-60)
and of `FRI::verify` (fri.rs L196-216).
-/
set_option linter.unusedSectionVars false

namespace Verif.Gadget.OnVerifier
open Verif.GL (F)
open Verif.Ext3 (K coord)
open Verif.Poseidon (Bls blsMod)
open Stark Codegen Circom OnCode FFT OnFri

noncomputable local instance : DecidableEq K := Classical.decEq _

/-- three drawn elements as an element of the extension -/
noncomputable def toK (l : List Nat) : K := coord ((l.getD 0 0 : Nat) : F) ((l.getD 1 0 : Nat) : F) ((l.getD 2 0 : Nat) : F)

/-- `TranscriptBLS128` as the verifier uses it: `get_field`, `put`, `get_permutations`, starky/src/transcript_bls12381.rs L63-140; Goldilocks
elements are their canonical integers -/
noncomputable def blsTr (enc : List Nat → Option Bls) : Fri.Tr Nat K (TranscriptBN.T Bls Nat) where
  getField t := (TranscriptBN.getField On.blsPerm On.splitNat t).map fun r => (toK r.1, r.2)
  put es t := TranscriptBN.put On.blsPerm enc t es
  perms n nb t := (Perms.nFields 253 n nb).bind fun m => (TranscriptBN.draw253 On.blsPerm m t).bind fun r =>
    (Perms.permutations 253 (r.1.map ZMod.val) n nb).map fun ys => (ys, r.2)

variable {Root Path Tree P : Type}

/-- the inputs of the on-chain transcript are the parts of the native proof: one element per public, three per opening and per value
of the last polynomial, the elements of the digests of the roots -/
structure SameIn (mt : Fri.MT Nat Root Path Tree) (E : Fri.Enc Nat K) (els : P → List Nat) (p : Proof Nat Root Path K P) (nin : TIn → List Nat)
    (nPub nEv nLast : Nat) : Prop where
  pubs : p.publics.map (fun x => (els x).map fun g => [g]) = (List.range nPub).map fun i => [nin (.pub i)]
  root1 : nin (.root 1) = mt.rootElems p.root1
  root2 : nin (.root 2) = mt.rootElems p.root2
  root3 : nin (.root 3) = mt.rootElems p.root3
  root4 : nin (.root 4) = mt.rootElems p.root4
  evals : p.evals.map (fun x => (els x).map fun g => [g]) = (List.range nEv).map fun i => [nin (.ev i 0), nin (.ev i 1), nin (.ev i 2)]
  sroots : ∀ s q, p.fri.queries[s]? = some q → nin (.sroot s) = mt.rootElems q.root
  fin : p.fri.last.map (fun e => (E.enc e).map fun g => [g]) = (List.range nLast).map fun j => [nin (.fin j 0), nin (.fin j 1), nin (.fin j 2)]

variable {enc : List Nat → Option Bls} {nin : TIn → List Nat}

/-- `On.native` of the BLS12-381 instance -/
abbrev nat' (enc : List Nat → Option Bls) (nin : TIn → List Nat) := On.native (O := TOut) On.blsPerm enc On.splitNat ZMod.val nin

theorem put_append (t : TranscriptBN.T Bls Nat) (a b : List (List Nat)) : TranscriptBN.put On.blsPerm enc t (a ++ b) =
    (TranscriptBN.put On.blsPerm enc t a).bind fun t => TranscriptBN.put On.blsPerm enc t b := by
  unfold TranscriptBN.put
  rw [List.foldlM_append]
  rfl

theorem putAll_eq {els : P → List Nat} : ∀ (l : List P) (t : TranscriptBN.T Bls Nat), putAll (blsTr enc) els l t =
    TranscriptBN.put On.blsPerm enc t ((l.map fun x => (els x).map fun g => [g]).flatten)
  | [], t => rfl
  | a :: l, t => by
    rw [List.map_cons, List.flatten_cons, put_append, putAll, List.foldlM_cons]
    show (TranscriptBN.put On.blsPerm enc t _).bind _ = _
    congr 1
    funext t'
    exact putAll_eq l t'

theorem native_put (l : List TIn) (ops : List (On.Op TIn TOut)) (t : TranscriptBN.T Bls Nat) : nat' enc nin (.put l :: ops) t =
    (TranscriptBN.put On.blsPerm enc t (l.map nin)).bind (nat' enc nin ops) := rfl

theorem native_evs (rest : List (On.Op TIn TOut)) : ∀ (n i : Nat) (t : TranscriptBN.T Bls Nat), nat' enc nin (evOps i n ++ rest) t =
    (TranscriptBN.put On.blsPerm enc t (((List.range' i n).map fun i => [nin (.ev i 0), nin (.ev i 1), nin (.ev i 2)]).flatten)).bind (nat' enc nin rest)
  | 0, i, t => rfl
  | n + 1, i, t => by
    rw [evOps, List.cons_append, native_put, List.range'_succ, List.map_cons (l := List.range' (i + 1) n), List.flatten_cons, put_append, Option.bind_assoc]
    congr 1
    funext t'
    exact native_evs rest n (i + 1) t'

theorem native_fins (rest : List (On.Op TIn TOut)) : ∀ (n i : Nat) (t : TranscriptBN.T Bls Nat), nat' enc nin (finOps i n ++ rest) t =
    (TranscriptBN.put On.blsPerm enc t (((List.range' i n).map fun i => [nin (.fin i 0), nin (.fin i 1), nin (.fin i 2)]).flatten)).bind (nat' enc nin rest)
  | 0, i, t => rfl
  | n + 1, i, t => by
    rw [finOps, List.cons_append, native_put, List.range'_succ, List.map_cons (l := List.range' (i + 1) n), List.flatten_cons, put_append, Option.bind_assoc]
    congr 1
    funext t'
    exact native_fins rest n (i + 1) t'

theorem native_field {d : TOut} {ops : List (On.Op TIn TOut)} {t : TranscriptBN.T Bls Nat} {fs : List (TOut × List Nat)} {ps : List (List Nat)}
    (h : nat' enc nin (.getField d :: ops) t = some (fs, ps)) :
    ∃ l t' fs', (blsTr enc).getField t = some (toK l, t') ∧ fs = (d, l) :: fs' ∧ nat' enc nin ops t' = some (fs', ps) := by
  obtain ⟨⟨l, t'⟩, h1, h⟩ := Option.bind_eq_some_iff.mp h
  obtain ⟨⟨f', p'⟩, h2, h⟩ := Option.map_eq_some_iff.mp h
  obtain ⟨rfl, rfl⟩ := Prod.mk.inj h
  exact ⟨l, t', f', by show Option.map _ (TranscriptBN.getField On.blsPerm On.splitNat t) = _; rw [h1]; rfl, rfl, h2⟩

/-- the part of FRI -/
theorem native_fri {mt : Fri.MT Nat Root Path Tree} {E : Fri.Enc Nat K} {last : List K} {rest : List (On.Op TIn TOut)} :
    ∀ (steps : List Nat) (si : Nat) (qs : List (Fri.Query Nat Root Path)) (t : TranscriptBN.T Bls Nat) (fs : List (TOut × List Nat)) (ps : List (List Nat)),
    (∀ nb ∈ steps.getLast?, last.map (fun e => (E.enc e).map fun g => [g]) = (List.range (2 ^ nb)).map fun j => [nin (.fin j 0), nin (.fin j 1), nin (.fin j 2)]) →
    steps.length ≤ qs.length + 1 → (∀ k q, qs[k]? = some q → nin (.sroot (si + 1 + k)) = mt.rootElems q.root) →
    nat' enc nin (friOps si steps ++ rest) t = some (fs, ps) →
    ∃ ls t' fs', ls.length = steps.length ∧ Fri.challenges mt (blsTr enc) E last steps qs t = some (ls.map toK, t') ∧
      fs = ((List.range' si steps.length).map TOut.special).zip ls ++ fs' ∧ nat' enc nin rest t' = some (fs', ps)
  | [], si, qs, t, fs, ps, _, _, _, h => ⟨[], t, fs, rfl, rfl, rfl, h⟩
  | [nb], si, qs, t, fs, ps, hl, _, _, h => by
    obtain ⟨l, t1, f1, h1, e, h'⟩ := native_field h
    clear h; subst e; rename' h' => h
    replace h := (native_fins (enc := enc) (nin := nin) _ (2 ^ nb) 0 t1).symm.trans h
    obtain ⟨t2, h2, h⟩ := Option.bind_eq_some_iff.mp h
    refine ⟨[l], t2, f1, rfl, ?_, rfl, h⟩
    rw [← List.range_eq_range', ← hl nb (by simp)] at h2
    rw [Fri.challenges, h1]
    show Option.map _ (TranscriptBN.put On.blsPerm enc t1 _) = _
    rw [h2]
    rfl
  | a :: b :: steps, si, qs, t, fs, ps, hl, hn, hr, h => by
    obtain ⟨l, t1, f1, h1, e, h'⟩ := native_field h
    clear h; subst e; rename' h' => h
    obtain ⟨t2, h2, h⟩ := Option.bind_eq_some_iff.mp h
    match qs, hn, hr with
    | [], hn, _ => simp at hn
    | q :: qs, hn, hr =>
      obtain ⟨ls, t3, f3, g1, g2, rfl, g4⟩ := native_fri (b :: steps) (si + 1) qs t2 f1 ps (by simpa using hl) (by simp at hn ⊢; omega)
        (fun k q' hk => by rw [show si + 1 + 1 + k = si + 1 + (k + 1) by omega]; exact hr (k + 1) q' (by simpa using hk)) h
      refine ⟨l :: ls, t3, f3, by simp [g1], ?_, by simp [List.range'_succ], g4⟩
      rw [Fri.challenges, h1, Option.bind_some]
      have : (blsTr enc).put [mt.rootElems q.root] t1 = some t2 := by
        rw [← hr 0 q rfl]
        exact h2
      show ((blsTr enc).put [mt.rootElems q.root] t1).bind _ = _
      rw [this, Option.bind_some, List.tail_cons, g2]
      rfl

theorem lookup_special (fs' : List (TOut × List Nat)) : ∀ (n i s : Nat) (ls : List (List Nat)), ls.length = n → s < n →
    ((((List.range' i n).map TOut.special).zip ls ++ fs').lookup (.special (i + s))).getD [] = ls.getD s []
  | 0, _, _, _, _, h => by omega
  | n + 1, i, s, [], h, _ => by simp at h
  | n + 1, i, s, l :: ls, h, hs => by
    rw [List.range'_succ, List.map_cons, List.zip_cons_cons, List.cons_append, List.lookup]
    rcases s with _ | s
    · simp
    · rw [beq_eq_false_iff_ne.mpr (by simp), show i + (s + 1) = i + 1 + s by omega]
      dsimp only
      rw [lookup_special fs' n (i + 1) s ls (by simpa using h) (by omega)]
      rfl

/-- **C126**: for every shape of the circuit, every native proof and all inputs that are the parts of that proof: the challenges the on-chain
transcript hands to the circuit are those `stark_verify` draws from the proof, the points of the folding steps those `FRI::verify` draws, and
the queries its permutations. -/
theorem onNative_draws {Q : OnPar} {nPub nEv : Nat} {mt : Fri.MT Nat Root Path Tree} {E : Fri.Enc Nat K} {els : P → List Nat} {p : Proof Nat Root Path K P}
    {fs : List (TOut × List Nat)} {ps : List (List Nat)} {t0 : TranscriptBN.T Bls Nat}
    (hs : SameIn mt E els p nin nPub nEv (2 ^ Q.nb (Q.steps.length - 1))) (hq : p.fri.queries.length = Q.steps.length)
    (h : On.native On.blsPerm enc On.splitNat ZMod.val nin (onOps Q nPub nEv) t0 = some (fs, ps)) :
    ∃ t1 t2 ys t3, verChallenges mt (blsTr enc) els t0 p = some (chals fs, t1) ∧
      Fri.challenges mt (blsTr enc) E p.fri.last Q.steps p.fri.queries.tail t1 =
        some ((List.range Q.steps.length).map fun s => drawn fs (.special s), t2) ∧
      (blsTr enc).perms Q.nQ (Q.nb 0) t2 = some (ys, t3) ∧ ps = [ys] := by
  obtain ⟨t, hp, h'⟩ := Option.bind_eq_some_iff.mp h
  clear h; rename' h' => h
  obtain ⟨ta, ha, h'⟩ := Option.bind_eq_some_iff.mp h
  clear h; rename' h' => h
  obtain ⟨l0, tb, f0, hb, e, h'⟩ := native_field h
  clear h; subst e; rename' h' => h
  obtain ⟨l1, tc, f1, hc, e, h'⟩ := native_field h
  clear h; subst e; rename' h' => h
  obtain ⟨td, hd, h'⟩ := Option.bind_eq_some_iff.mp h
  clear h; rename' h' => h
  obtain ⟨l2, te, f2, he, e, h'⟩ := native_field h
  clear h; subst e; rename' h' => h
  obtain ⟨l3, tf, f3, hf, e, h'⟩ := native_field h
  clear h; subst e; rename' h' => h
  obtain ⟨tg, hg, h'⟩ := Option.bind_eq_some_iff.mp h
  clear h; rename' h' => h
  obtain ⟨l4, th, f4, hh, e, h'⟩ := native_field h
  clear h; subst e; rename' h' => h
  obtain ⟨ti, hi, h'⟩ := Option.bind_eq_some_iff.mp h
  clear h; rename' h' => h
  obtain ⟨l7, tj, f7, hj, e, h'⟩ := native_field h
  clear h; subst e; rename' h' => h
  replace h := (native_evs (enc := enc) (nin := nin) _ nEv 0 tj).symm.trans h
  obtain ⟨tk, hk, h'⟩ := Option.bind_eq_some_iff.mp h
  clear h; rename' h' => h
  obtain ⟨l5, tl, f5, hl, e, h'⟩ := native_field h
  clear h; subst e; rename' h' => h
  obtain ⟨l6, tm, f6, hm, e, h'⟩ := native_field h
  clear h; subst e; rename' h' => h
  obtain ⟨ls, tn, f8, hn, ho, e, h'⟩ := native_fri (mt := mt) (E := E) (last := p.fri.last) (rest := [.perms Q.nQ (Q.nb 0)]) Q.steps 0
    p.fri.queries.tail tm f6 ps (by
      intro nb hnb
      have : Q.nb (Q.steps.length - 1) = nb := by
        rw [OnPar.nb, List.getD_eq_getElem?_getD, ← List.getLast?_eq_getElem?, Option.mem_def.mp hnb]
        rfl
      rw [← this]
      exact hs.fin) (by simp; omega) (fun k q hk => by
        have := hs.sroots (0 + 1 + k) q (by rw [List.getElem?_tail] at hk; rw [show 0 + 1 + k = k + 1 by omega]; exact hk)
        exact this) h
  clear h; subst e; rename' h' => h
  obtain ⟨m, h1, h⟩ := Option.bind_eq_some_iff.mp h
  obtain ⟨r, h2, h⟩ := Option.bind_eq_some_iff.mp h
  obtain ⟨ys, h3, h⟩ := Option.bind_eq_some_iff.mp h
  obtain ⟨⟨f', p'⟩, h4, h⟩ := Option.map_eq_some_iff.mp h
  obtain ⟨rfl, rfl⟩ := Prod.mk.inj h
  have h4 : some (([] : List (TOut × List Nat)), ([] : List (List Nat))) = some (f', p') := h4
  obtain ⟨rfl, rfl⟩ := Prod.mk.inj (Option.some.inj h4)
  refine ⟨tm, tn, ys, r.2, ?_, ?_, ?_, rfl⟩
  · have e0 : putAll (blsTr enc) els p.publics t0 = some t := by
      rw [putAll_eq, hs.pubs, ← hp]
      congr 1
      rw [List.map_map]
      generalize List.range nPub = l
      induction l with
      | nil => rfl
      | cons a l ih => rw [List.map_cons, List.flatten_cons, ih]; rfl
    have e1 : putAll (blsTr enc) els p.evals tj = some tk := by
      rw [putAll_eq, hs.evals, List.range_eq_range']
      exact hk
    have r1 : (blsTr enc).put [mt.rootElems p.root1] t = some ta := by rw [← hs.root1]; exact ha
    have r2 : (blsTr enc).put [mt.rootElems p.root2] tc = some td := by rw [← hs.root2]; exact hd
    have r3 : (blsTr enc).put [mt.rootElems p.root3] tf = some tg := by rw [← hs.root3]; exact hg
    have r4 : (blsTr enc).put [mt.rootElems p.root4] th = some ti := by rw [← hs.root4]; exact hi
    simp only [verChallenges, e0, r1, r2, r3, r4, e1, hb, hc, he, hf, hh, hj, hl, hm, Option.bind_some, Option.map_some]
    rfl
  · rw [ho]
    congr 2
    apply List.ext_getElem
    · simp [hn]
    · intro s g1 g2
      have hsl : s < ls.length := by simpa using g1
      rw [List.getElem_map, List.getElem_map, List.getElem_range, drawn]
      simp only [List.lookup, beq_eq_false_iff_ne.mpr (show TOut.special s ≠ TOut.chal _ from fun h => TOut.noConfusion h)]
      have := lookup_special ([] : List (TOut × List Nat)) Q.steps.length 0 s ls hn (by omega)
      rw [Nat.zero_add] at this
      rw [this, show ls.getD s [] = ls[s] by rw [List.getD_eq_getElem?_getD, List.getElem?_eq_getElem hsl]; rfl]
      rfl
  · show (Perms.nFields 253 Q.nQ (Q.nb 0)).bind _ = _
    rw [h1, Option.bind_some, h2, Option.bind_some, h3]
    rfl

end Verif.Gadget.OnVerifier
