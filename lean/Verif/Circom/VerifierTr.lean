import Verif.Circom.Verifier

/-!
# C110: the transcript of the template and of the native verifier
-/
set_option linter.unusedSectionVars false

namespace Verif.Circom
open Stark Codegen Fri FFT
open Verif.GL (F)
open Verif.Ext3 (K coord)

noncomputable local instance : DecidableEq K := Classical.decEq _

variable {perm : List F → List F}

/-- absorbing a list of elements -/
def absorb (perm : List F → List F) (l : List F) (t : TranscriptGL.T F) : Option (TranscriptGL.T F) :=
  l.foldlM (fun t x => TranscriptGL.add1 perm t x) t

theorem absorb_append (a b : List F) (t : TranscriptGL.T F) : absorb perm (a ++ b) t = (absorb perm a t).bind (absorb perm b) := by
  unfold absorb
  rw [List.foldlM_append]
  rfl

theorem put_flat (es : List (List F)) : ∀ t, TranscriptGL.put perm t es = absorb perm es.flatten t := by
  induction es with
  | nil => intro t; rfl
  | cons l es ih =>
    intro t
    rw [List.flatten_cons, absorb_append]
    unfold TranscriptGL.put at ih ⊢
    rw [List.foldlM_cons]
    show Option.bind (absorb perm l t) _ = _
    cases absorb perm l t with
    | none => rfl
    | some t' => exact ih t'

theorem putAll_flat {P : Type} (els : P → List F) (l : List P) : ∀ t,
    putAll (glTr perm) els l t = absorb perm (l.flatMap els) t := by
  induction l with
  | nil => intro t; rfl
  | cons p l ih =>
    intro t
    unfold putAll at ih ⊢
    rw [List.foldlM_cons, List.flatMap_cons, absorb_append]
    show Option.bind (TranscriptGL.put perm t _) _ = _
    rw [put_flat]
    have : ((els p).map fun g => [g]).flatten = els p := by
      induction els p with
      | nil => rfl
      | cons a l ih => simp only [List.map_cons, List.flatten_cons, ih, List.singleton_append]
    rw [this]
    congr 1
    exact funext ih

theorem nativeT_put {I O : Type} (inp : I → F) (as : List I) (l : List (COp I O)) (t : TranscriptGL.T F) :
    nativeT perm ZMod.val inp (.put as :: l) t = (absorb perm (as.map inp) t).bind (nativeT perm ZMod.val inp l) := by
  rw [nativeT, put_flat, List.flatten_cons, List.flatten_nil, List.append_nil]

theorem nativeT_evOps (x : CIn) (l : List (COp TIn TOut)) : ∀ (n i : Nat) (t : TranscriptGL.T F), i + n = x.evals.length →
    nativeT perm ZMod.val x.read (evOps i n ++ l) t =
      (absorb perm ((x.evals.drop i).flatMap fun v => [v.1, v.2.1, v.2.2]) t).bind (nativeT perm ZMod.val x.read l)
  | 0, i, t, h => by
    rw [List.drop_of_length_le (by omega)]
    rfl
  | n + 1, i, t, h => by
    rw [evOps, List.cons_append, nativeT_put, List.drop_eq_getElem_cons (by omega), List.flatMap_cons, absorb_append, Option.bind_assoc]
    have : [TIn.ev i 0, TIn.ev i 1, TIn.ev i 2].map x.read = [x.evals[i].1, x.evals[i].2.1, x.evals[i].2.2] := by
      simp [CIn.read, comp, List.getD_eq_getElem?_getD, List.getElem?_eq_getElem (show i < x.evals.length by omega)]
    rw [this]
    congr 1
    funext t'
    exact nativeT_evOps x l n (i + 1) t' (by omega)

theorem nativeT_finOps (x : CIn) (l : List (COp TIn TOut)) : ∀ (n i : Nat) (t : TranscriptGL.T F), i + n = x.finalPol.length →
    nativeT perm ZMod.val x.read (finOps i n ++ l) t =
      (absorb perm ((x.finalPol.drop i).flatMap fun v => [v.1, v.2.1, v.2.2]) t).bind (nativeT perm ZMod.val x.read l)
  | 0, i, t, h => by
    rw [List.drop_of_length_le (by omega)]
    rfl
  | n + 1, i, t, h => by
    rw [finOps, List.cons_append, nativeT_put, List.drop_eq_getElem_cons (by omega), List.flatMap_cons, absorb_append, Option.bind_assoc]
    have : [TIn.fin i 0, TIn.fin i 1, TIn.fin i 2].map x.read = [x.finalPol[i].1, x.finalPol[i].2.1, x.finalPol[i].2.2] := by
      simp [CIn.read, comp, List.getD_eq_getElem?_getD, List.getElem?_eq_getElem (show i < x.finalPol.length by omega)]
    rw [this]
    congr 1
    funext t'
    exact nativeT_finOps x l n (i + 1) t' (by omega)

theorem enc_dec3 (v : F × F × F) : encK.enc (dec3 extK v) = [v.1, v.2.1, v.2.2] := by
  have h : coords (dec3 extK v) = v := extOkK.co_dec v.1 v.2.1 v.2.2
  show [(coords (dec3 extK v)).1, (coords (dec3 extK v)).2.1, (coords (dec3 extK v)).2.2] = _
  rw [h]

theorem read_list (l : List F) (n : Nat) (h : l.length = n) : (List.range n).map (fun i => l.getD i 0) = l := by
  apply List.ext_getElem
  · simp [h]
  · intro i h1 h2
    simp [List.getD_eq_getElem?_getD, List.getElem?_eq_getElem h2]

theorem getMany_length : ∀ (k : Nat) (t : TranscriptGL.T F) (r : List F × TranscriptGL.T F), TranscriptGL.getMany perm k t = some r →
    r.1.length = k
  | 0, t, r, h => by
    obtain rfl := Option.some.inj h
    rfl
  | k + 1, t, r, h => by
    rw [TranscriptGL.getMany] at h
    obtain ⟨a, h1, h⟩ := Option.bind_eq_some_iff.mp h
    obtain ⟨q, h2, rfl⟩ := Option.map_eq_some_iff.mp h
    simp [getMany_length k _ _ h2]

theorem field_of {I O : Type} {inp : I → F} {d : O} {l : List (COp I O)} {t : TranscriptGL.T F} {outs : List (COut O F)}
    (h : nativeT perm ZMod.val inp (.getField d :: l) t = some outs) :
    ∃ v t' outs', (glTr perm).getField t = some (dec3 extK v, t') ∧ outs = .field d [v.1, v.2.1, v.2.2] :: outs' ∧
      nativeT perm ZMod.val inp l t' = some outs' := by
  rw [nativeT] at h
  obtain ⟨⟨r, t'⟩, ht, h⟩ := Option.bind_eq_some_iff.mp h
  obtain ⟨outs', h1, rfl⟩ := Option.map_eq_some_iff.mp h
  have hl : r.length = 3 := getMany_length 3 t _ ht
  obtain ⟨a, b, c, rfl⟩ : ∃ a b c, r = [a, b, c] := by
    match r, hl with
    | [a, b, c], _ => exact ⟨a, b, c, rfl⟩
  exact ⟨(a, b, c), t', outs', by show Option.bind _ _ = _; rw [ht]; rfl, rfl, h1⟩

theorem put_of {I O : Type} {inp : I → F} {as : List I} {l : List (COp I O)} {t : TranscriptGL.T F} {outs : List (COut O F)}
    (h : nativeT perm ZMod.val inp (.put as :: l) t = some outs) :
    ∃ t', absorb perm (as.map inp) t = some t' ∧ nativeT perm ZMod.val inp l t' = some outs := by
  rw [nativeT_put] at h
  exact Option.bind_eq_some_iff.mp h

/-- one root -/
theorem root_put {workers : Nat} (r : List F) (t : TranscriptGL.T F) :
    (glTr perm).put [(glMT perm workers).rootElems r] t = absorb perm r t := by
  show TranscriptGL.put perm t [r] = _
  rw [put_flat, List.flatten_cons, List.flatten_nil, List.append_nil]

theorem last_flat (l : List (F × F × F)) :
    (((l.map (dec3 extK)).map fun e => (encK.enc e).map fun g => [g]).flatten).flatten = l.flatMap fun v => [v.1, v.2.1, v.2.2] := by
  induction l with
  | nil => rfl
  | cons v l ih =>
    rw [List.map_cons, List.map_cons, List.flatten_cons, List.flatten_append, ih, enc_dec3, List.flatMap_cons]
    rfl

/-- the FRI part -/
theorem fri_link {workers : Nat} (x : CIn) (hr : ∀ s, (x.sRoot s).length = 4) (g : Nat → List (Q F (List (List F)))) (l : List (COp TIn TOut)) :
    ∀ (steps : List Nat) (si : Nat) (t : TranscriptGL.T F) (outs : List (COut TOut F)), steps ≠ [] →
    (∀ last, steps.getLast? = some last → x.finalPol.length = 2 ^ last) →
    nativeT perm ZMod.val x.read (friOps si steps ++ l) t = some outs →
    ∃ (sp : List (F × F × F)) (t' : TranscriptGL.T F) (outs' : List (COut TOut F)), challenges (glMT perm workers) (glTr perm) encK (x.finalPol.map (dec3 extK)) steps
        ((List.range' (si + 1) (steps.length - 1)).map fun s => ⟨x.sRoot s, g s⟩) t = some (sp.map (dec3 extK), t') ∧
      nativeT perm ZMod.val x.read l t' = some outs' ∧ sp.length = steps.length ∧ (∀ o ∈ outs', o ∈ outs) ∧
      ∀ (i : Nat) (v : F × F × F), sp[i]? = some v → COut.field (.special (si + i)) [v.1, v.2.1, v.2.2] ∈ outs
  | [], _, _, _, h, _, _ => absurd rfl h
  | [last], si, t, outs, _, hl, h => by
    rw [friOps, List.cons_append] at h
    obtain ⟨v, t1, outs1, h1, rfl, h2⟩ := field_of h
    rw [nativeT_finOps x l _ _ _ (by rw [hl last rfl]; omega), List.drop_zero] at h2
    obtain ⟨t2, h3, h4⟩ := Option.bind_eq_some_iff.mp h2
    refine ⟨[v], t2, outs1, ?_, h4, rfl, fun o ho => by simp [ho], ?_⟩
    · rw [challenges, h1, Option.bind_some]
      show Option.map _ (TranscriptGL.put perm t1 _) = _
      rw [put_flat, last_flat, h3]
      rfl
    · intro i w hi
      cases i with
      | zero => simp at hi; subst hi; simp
      | succ i => simp at hi
  | nb :: nb' :: rest, si, t, outs, _, hl, h => by
    rw [friOps, List.cons_append, List.cons_append] at h
    obtain ⟨v, t1, outs1, h1, rfl, h2⟩ := field_of h
    obtain ⟨t2, h3, h4⟩ := put_of h2
    have hroot : ((List.range 4).map (TIn.sroot (si + 1))).map x.read = x.sRoot (si + 1) := by
      rw [List.map_map]
      exact read_list _ 4 (hr _)
    rw [hroot] at h3
    obtain ⟨sp, t', outs', k1, k2, k3, k4, k5⟩ := fri_link (workers := workers) x hr g l (nb' :: rest) (si + 1) t2 outs1 (by simp)
      (fun last h => hl last (by rw [List.getLast?_cons_cons]; exact h)) h4
    refine ⟨v :: sp, t', outs', ?_, k2, by simp [k3], fun o ho => by simp [k4 o ho], ?_⟩
    · rw [challenges, h1, Option.bind_some]
      have hq : (List.range' (si + 1) ((nb :: nb' :: rest).length - 1)).map (fun s => (⟨x.sRoot s, g s⟩ : Query F (List F) (List (List F)))) =
          ⟨x.sRoot (si + 1), g (si + 1)⟩ :: (List.range' (si + 1 + 1) ((nb' :: rest).length - 1)).map fun s => ⟨x.sRoot s, g s⟩ := by
        simp only [List.length_cons, Nat.add_sub_cancel]
        rw [List.range'_succ, List.map_cons]
      rw [hq, List.head?_cons]
      dsimp only
      rw [Option.bind_some, root_put, h3, Option.bind_some, List.tail_cons, k1]
      rfl
    · intro i w hi
      cases i with
      | zero => simp at hi; subst hi; simp
      | succ i =>
        have := k5 i w (by simpa using hi)
        rw [show si + 1 + i = si + (i + 1) by omega] at this
        simp [this]

theorem dsts_append {I O : Type} (a b : List (COp I O)) : dsts (a ++ b) = dsts a ++ dsts b := by
  induction a with
  | nil => rfl
  | cons o a ih => cases o <;> simp [dsts, ih]

theorem nPerms_append {I O : Type} (a b : List (COp I O)) : nPerms (a ++ b) = nPerms a + nPerms b := by
  induction a with
  | nil => simp [nPerms]
  | cons o a ih => cases o <;> simp [nPerms, ih]; omega

theorem evOps_puts : ∀ n i, dsts (evOps i n) = [] ∧ nPerms (evOps i n) = 0 ∧ ∀ a b, COp.perms a b ∉ evOps i n
  | 0, _ => ⟨rfl, rfl, by simp [evOps]⟩
  | n + 1, i => ⟨(evOps_puts n (i + 1)).1, (evOps_puts n (i + 1)).2.1, by
      intro a b h
      rw [evOps, List.mem_cons] at h
      rcases h with h | h
      · cases h
      · exact (evOps_puts n (i + 1)).2.2 a b h⟩

theorem finOps_puts : ∀ n i, dsts (finOps i n) = [] ∧ nPerms (finOps i n) = 0 ∧ ∀ a b, COp.perms a b ∉ finOps i n
  | 0, _ => ⟨rfl, rfl, by simp [finOps]⟩
  | n + 1, i => ⟨(finOps_puts n (i + 1)).1, (finOps_puts n (i + 1)).2.1, by
      intro a b h
      rw [finOps, List.mem_cons] at h
      rcases h with h | h
      · cases h
      · exact (finOps_puts n (i + 1)).2.2 a b h⟩

theorem friOps_dsts : ∀ steps si, dsts (friOps si steps) = (List.range' si steps.length).map .special ∧ nPerms (friOps si steps) = 0 ∧
    ∀ a b, COp.perms a b ∉ friOps si steps
  | [], si => ⟨rfl, rfl, by simp [friOps]⟩
  | [last], si => by
    obtain ⟨h1, h2, h3⟩ := finOps_puts (2 ^ last) 0
    refine ⟨by rw [friOps, dsts, h1]; rfl, h2, ?_⟩
    intro a b h
    rw [friOps, List.mem_cons] at h
    rcases h with h | h
    · cases h
    · exact h3 a b h
  | nb :: nb' :: rest, si => by
    obtain ⟨h1, h2, h3⟩ := friOps_dsts (nb' :: rest) (si + 1)
    refine ⟨by
      show TOut.special si :: dsts (friOps (si + 1) (nb' :: rest)) = _
      rw [h1]; rfl, h2, ?_⟩
    intro a b h
    rw [friOps, List.mem_cons, List.mem_cons] at h
    rcases h with h | h | h
    · cases h
    · cases h
    · exact h3 a b h

/-- the signals of the template and the challenges and indices of the native verifier -/
theorem transcript_link (hp : Linear.IsState perm) {workers : Nat} {V : VPar} {x : CIn} (hs : x.Sized V) {nb0 : Nat}
    (h0 : V.c.steps.head? = some nb0) (hf : Perms.nFields 63 V.c.nQueries nb0 ≠ none) (h64 : nb0 ≤ 64) :
    ∃ (ops : List (COp TIn TOut)) (ct : CT TIn TOut) (env : TEnv F TOut) (chal sp : List (F × F × F)) (ys : List Nat) (t1 t2 t3 : TranscriptGL.T F), verOps V = some ops ∧ genT ops CT.new = some ct ∧ runTs perm ZMod.val x.read .empty ct.code = some env ∧
      ((List.range 8).mapM fun i => trip env (.chal i)) = some chal ∧ chal.length = 8 ∧
      verChallenges (glMT perm workers) (glTr perm) Val.els TranscriptGL.new (x.toProof V) = some (chal.map (dec3 extK), t1) ∧
      challenges (glMT perm workers) (glTr perm) encK (x.toProof V).fri.last V.c.steps (x.toProof V).fri.queries.tail t1 =
        some (sp.map (dec3 extK), t2) ∧ sp.length = V.c.steps.length ∧
      (∀ (s : Nat) (v : F × F × F), sp[s]? = some v → trip env (.special s) = some v) ∧
      (glTr perm).perms V.c.nQueries nb0 t2 = some (ys, t3) ∧ ys.length = V.c.nQueries ∧ (∀ y ∈ ys, y < 2 ^ nb0) ∧
      ∀ q < V.c.nQueries, ∀ j < nb0, env.ys q j = some (bitF ((ys.getD q 0).testBit j)) := by
  obtain ⟨ops, hops⟩ : ∃ ops, verOps V = some ops := by rw [verOps, h0]; exact ⟨_, rfl⟩
  have hops' := hops
  rw [verOps, h0, Option.map_some] at hops'
  have hops' := Option.some.inj hops'
  have hfo := friOps_dsts V.c.steps 0
  have hev := evOps_puts V.nEv 0
  have hd : dsts ops = [.chal 0, .chal 1, .chal 2, .chal 3, .chal 4, .chal 7, .chal 5, .chal 6] ++ (List.range' 0 V.c.steps.length).map .special := by
    rw [← hops']
    simp only [dsts, dsts_append, hfo.1, hev.1, List.nil_append, List.append_nil, List.cons_append]
  have hn : (dsts ops).Nodup := by
    rw [hd, List.nodup_append]
    refine ⟨by decide, ?_, ?_⟩
    · exact (List.nodup_range').map (fun a b h => by injection h)
    · intro a ha b hb hab
      subst hab
      obtain ⟨s, -, rfl⟩ := List.mem_map.mp hb
      simp at ha
  have hq : nPerms ops ≤ 1 := by
    rw [← hops']
    simp only [nPerms, nPerms_append, hfo.2.1, hev.2.1]
    omega
  have hb : ∀ n b, COp.perms n b ∈ ops → Perms.nFields 63 n b ≠ none ∧ b ≤ 64 := by
    intro n b h
    rw [← hops'] at h
    simp only [List.mem_cons, List.mem_append, reduceCtorEq, false_or, hfo.2.2, hev.2.2, List.not_mem_nil, or_false, COp.perms.injEq] at h
    obtain ⟨rfl, rfl⟩ := h
    exact ⟨hf, h64⟩
  obtain ⟨ct, env, outs, g1, g2, g3, g4⟩ := transcript_spec (num := ZMod.val) (inp := x.read) hp ops hn hq hb
  have hfield : ∀ (d : TOut) (v : F × F × F), COut.field d [v.1, v.2.1, v.2.2] ∈ outs → trip env d = some v := by
    intro d v h
    have := g4 _ h
    unfold trip
    rw [this 0, this 1, this 2]
    rfl
  have hroot : ∀ t, ((List.range 4).map (TIn.root t)).map x.read = x.root t := by
    intro t
    rw [List.map_map]
    exact read_list _ 4 (hs.root t)
  have hpub : ((List.range V.nPub).map TIn.pub).map x.read = x.publics := by
    rw [List.map_map]
    exact read_list _ _ hs.publics
  rw [← hops'] at g3
  obtain ⟨u0, a0, g3⟩ := put_of g3
  obtain ⟨u1, a1, g3⟩ := put_of g3
  obtain ⟨c0, u2, o0, a2, ho0, g3⟩ := field_of g3
  obtain ⟨c1, u3, o1, a3, ho1, g3⟩ := field_of g3
  obtain ⟨u4, a4, g3⟩ := put_of g3
  obtain ⟨c2, u5, o2, a5, ho2, g3⟩ := field_of g3
  obtain ⟨c3, u6, o3, a6, ho3, g3⟩ := field_of g3
  obtain ⟨u7, a7, g3⟩ := put_of g3
  obtain ⟨c4, u8, o4, a8, ho4, g3⟩ := field_of g3
  obtain ⟨u9, a9, g3⟩ := put_of g3
  obtain ⟨c7, u10, o7, a10, ho7, g3⟩ := field_of g3
  rw [nativeT_evOps x _ _ _ _ (by rw [hs.evals]; omega), List.drop_zero] at g3
  obtain ⟨u11, a11, g3⟩ := Option.bind_eq_some_iff.mp g3
  obtain ⟨c5, u12, o5, a12, ho5, g3⟩ := field_of g3
  obtain ⟨c6, u13, o6, a13, ho6, g3⟩ := field_of g3
  obtain ⟨sp, u14, o8, k1, k2, k3, k4, k5⟩ := fri_link (workers := workers) x hs.sRoot
    (fun s => (List.range V.c.nQueries).map fun q => [(x.sVals s q, x.sSib s q)]) _ V.c.steps 0 u13 o6 (by rintro h; rw [h] at h0; simp at h0)
    hs.finalPol g3
  rw [nativeT] at k2
  obtain ⟨m, m1, k2⟩ := Option.bind_eq_some_iff.mp k2
  obtain ⟨r, m2, k2⟩ := Option.bind_eq_some_iff.mp k2
  obtain ⟨ys, m3, k2⟩ := Option.bind_eq_some_iff.mp k2
  obtain ⟨o9, m4, rfl⟩ := Option.map_eq_some_iff.mp k2
  have hy := g4 (.perms V.c.nQueries nb0 ys) (by
    rw [ho0, ho1, ho2, ho3, ho4, ho7, ho5, ho6]
    have := k4 (.perms V.c.nQueries nb0 ys) (by simp)
    simp [this])
  refine ⟨ops, ct, env, [c0, c1, c2, c3, c4, c5, c6, c7], sp, ys, u13, u14, r.2, hops, g1, g2, ?_, rfl, ?_, k1, k3, ?_, ?_, hy.1, ?_, ?_⟩
  · have e : ∀ i v, COut.field (TOut.chal i) [v.1, v.2.1, v.2.2] ∈ outs → trip env (.chal i) = some v := fun i v h => hfield _ v h
    have e0 := e 0 c0 (by rw [ho0]; simp)
    have e1 := e 1 c1 (by rw [ho0, ho1]; simp)
    have e2 := e 2 c2 (by rw [ho0, ho1, ho2]; simp)
    have e3 := e 3 c3 (by rw [ho0, ho1, ho2, ho3]; simp)
    have e4 := e 4 c4 (by rw [ho0, ho1, ho2, ho3, ho4]; simp)
    have e7 := e 7 c7 (by rw [ho0, ho1, ho2, ho3, ho4, ho7]; simp)
    have e5 := e 5 c5 (by rw [ho0, ho1, ho2, ho3, ho4, ho7, ho5]; simp)
    have e6 := e 6 c6 (by rw [ho0, ho1, ho2, ho3, ho4, ho7, ho5, ho6]; simp)
    show ([0, 1, 2, 3, 4, 5, 6, 7] : List Nat).mapM _ = _
    simp only [List.mapM_cons, List.mapM_nil, e0, e1, e2, e3, e4, e5, e6, e7]
    rfl
  · rw [hpub] at a0
    rw [hroot] at a1 a4 a7 a9
    have hp0 : putAll (glTr perm) Val.els (x.toProof V).publics TranscriptGL.new = some u0 := by
      rw [putAll_flat, ← a0]
      congr 1
      show (x.publics.map Val.one).flatMap Val.els = _
      induction x.publics with
      | nil => rfl
      | cons a l ih => rw [List.map_cons, List.flatMap_cons, ih]; rfl
    have hp1 : putAll (glTr perm) Val.els (x.toProof V).evals u10 = some u11 := by
      rw [putAll_flat, ← a11]
      congr 1
      show (x.evals.map fun v => Val.three v.1 v.2.1 v.2.2).flatMap Val.els = _
      induction x.evals with
      | nil => rfl
      | cons a l ih => rw [List.map_cons, List.flatMap_cons, ih, List.flatMap_cons]; rfl
    unfold verChallenges
    rw [hp0, Option.bind_some, root_put]
    rw [show (x.toProof V).root1 = x.root 1 from rfl, a1, Option.bind_some, a2, Option.bind_some]
    dsimp only
    rw [a3, Option.bind_some]
    dsimp only
    rw [root_put, show (x.toProof V).root2 = x.root 2 from rfl, a4, Option.bind_some, a5, Option.bind_some]
    dsimp only
    rw [a6, Option.bind_some]
    dsimp only
    rw [root_put, show (x.toProof V).root3 = x.root 3 from rfl, a7, Option.bind_some, a8, Option.bind_some]
    dsimp only
    rw [root_put, show (x.toProof V).root4 = x.root 4 from rfl, a9, Option.bind_some, a10, Option.bind_some]
    dsimp only
    rw [hp1, Option.bind_some, a12, Option.bind_some]
    dsimp only
    rw [a13]
    rfl
  · intro s v hv
    apply hfield
    have := k5 s v hv
    rw [Nat.zero_add] at this
    rw [ho0, ho1, ho2, ho3, ho4, ho7, ho5, ho6]
    simp [this]
  · show (Perms.nFields 63 V.c.nQueries nb0).bind _ = _
    rw [m1, Option.bind_some, m2, Option.bind_some, m3]
    rfl
  · intro y hy'
    have := Perms.permutations_spec (w := 63) (by decide) V.c.nQueries nb0 m h64 (r.1.map ZMod.val) m1
      (by rw [List.length_map]; exact getMany_length _ _ _ m2)
    obtain ⟨l, l1, l2, l3⟩ := this
    rw [m3] at l1
    obtain rfl := Option.some.inj l1
    obtain ⟨i, hi, rfl⟩ := List.getElem_of_mem hy'
    have := (l3 i (by omega)).1
    rwa [List.getD_eq_getElem?_getD, List.getElem?_eq_getElem hi, Option.getD_some] at this
  · intro q hq j hj
    rw [hy.2, if_pos ⟨hq, hj⟩]

end Verif.Circom
