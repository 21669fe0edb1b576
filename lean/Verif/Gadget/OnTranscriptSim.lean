import Verif.Gadget.OnTranscript
import Verif.Transcript.BNProps
import Verif.Gadget.Poseidon
import Verif.Gadget.Bits

/-!
# C119: the transcript of the on-chain circuit computes the challenges of the native transcript
-/
set_option linter.unusedSectionVars false

namespace Verif.Gadget.On
open Verif.TranscriptBN (IsHash)

variable {F G I O : Type} [Zero F] [DecidableEq O]
variable {perm : List F → F → List F} {enc : List G → Option F} {split : F → List G} {num : F → Nat} {nin : I → List G}
variable {limb bt : F → Nat → F} {inp : I → F}

/-- names and their values -/
def Vals (limb : F → Nat → F) (inp : I → F) (env : Env F O) (l : List (Sig I)) (v : List F) : Prop :=
  List.Forall₂ (fun s x => Sig.val limb inp env s = some x) l v

theorem val_mono {env env' : Env F O} (h : ∀ k l, env.hv k = some l → env'.hv k = some l) (h' : ∀ k l, env.gv k = some l → env'.gv k = some l)
    {s : Sig I} {x : F} (hs : Sig.val limb inp env s = some x) : Sig.val limb inp env' s = some x := by
  cases s with
  | zero => exact hs
  | input a => exact hs
  | hash k i =>
    obtain ⟨l, h1, h2⟩ := Option.bind_eq_some_iff.mp hs
    exact Option.bind_eq_some_iff.mpr ⟨l, h _ _ h1, h2⟩
  | limb c e =>
    simp only [Sig.val] at hs ⊢
    by_cases he : 3 ≤ e
    · rw [if_pos he] at hs; cases hs
    · rw [if_neg he] at hs ⊢
      obtain ⟨y, h1, h2⟩ := Option.map_eq_some_iff.mp hs
      exact Option.map_eq_some_iff.mpr ⟨y, h' _ _ h1, h2⟩

theorem Vals.mono {env env' : Env F O} (h : ∀ k l, env.hv k = some l → env'.hv k = some l) (h' : ∀ k l, env.gv k = some l → env'.gv k = some l)
    {l : List (Sig I)} {v : List F} (hv : Vals limb inp env l v) : Vals limb inp env' l v :=
  List.Forall₂.imp (fun _ _ hs => val_mono h h' hs) hv

theorem Vals.mapM {env : Env F O} : ∀ {l : List (Sig I)} {v : List F}, Vals limb inp env l v → l.mapM (Sig.val limb inp env) = some v
  | [], _, h => by cases h; rfl
  | s :: l, _, .cons (b := x) (l₂ := v) h1 h2 => by
    rw [List.mapM_cons, h1, Vals.mapM h2]
    rfl

theorem Vals.length {env : Env F O} {l : List (Sig I)} {v : List F} (h : Vals limb inp env l v) : l.length = v.length :=
  List.Forall₂.length_eq h

theorem Vals.append {env : Env F O} : ∀ {l l' : List (Sig I)} {v v' : List F}, Vals limb inp env l v → Vals limb inp env l' v' →
    Vals limb inp env (l ++ l') (v ++ v')
  | [], _, _, _, .nil, h => h
  | _ :: _, _, _, _, .cons h1 h2, h => .cons h1 (Vals.append h2 h)

theorem vals_zeros {env : Env F O} (k : Nat) : Vals limb inp env (List.replicate k .zero) (List.replicate k 0) := by
  induction k with
  | zero => exact .nil
  | succ k ih => rw [List.replicate_succ, List.replicate_succ]; exact .cons rfl ih

theorem vals_hash {env : Env F O} {h : Nat} {o : List F} (ho : env.hv h = some o) {k : Nat} (hk : k ≤ o.length) :
    Vals limb inp env ((List.range k).map (.hash h)) (o.take k) := by
  have : ∀ n m, n + m ≤ o.length → Vals limb inp env ((List.range' n m).map (.hash h)) ((o.drop n).take m) := by
    intro n m
    induction m generalizing n with
    | zero => intro _; rw [List.take_zero]; exact .nil
    | succ m ih =>
      intro hl
      rw [List.range'_succ, List.map_cons, List.drop_eq_getElem_cons (by omega), List.take_succ_cons]
      refine .cons ?_ ?_
      · show (env.hv h).bind _ = _
        rw [ho, Option.bind_some, List.getElem?_eq_getElem]
      · exact ih (n + 1) (by omega)
  have h := this 0 k (by omega)
  rw [List.drop_zero, ← List.range_eq_range'] at h
  exact h

/-- the generator's transcript and the native one, after the printed code has run -/
structure Sim (perm : List F → F → List F) (limb bt : F → Nat → F) (inp : I → F) (env : Env F O) (ct : OT I O) (t : TranscriptBN.T F G) :
    Prop where
  state : Sig.val limb inp env ct.state = some t.state
  pending : Vals limb inp env ct.pending t.pending
  out : Vals limb inp env ct.out t.out
  c3 : ct.out3 = []
  t3 : t.out3 = []
  run : runs perm limb bt inp .empty ct.code = some env
  freshH : ∀ h, ct.hCnt ≤ h → env.hv h = none
  freshG : ∀ h, ct.gCnt ≤ h → env.gv h = none
  freshN : ∀ c, ct.nCnt ≤ c → env.nb c = none
  inv : TranscriptBN.Inv t

theorem runs_append {env : Env F O} (a b : List (Stmt I O)) :
    runs perm limb bt inp env (a ++ b) = (runs perm limb bt inp env a).bind fun e => runs perm limb bt inp e b := by
  unfold runs
  rw [List.foldlM_append]
  rfl

theorem runs_one {env : Env F O} (s : Stmt I O) : runs perm limb bt inp env [s] = run1 perm limb bt inp env s := by
  unfold runs
  rw [List.foldlM_cons]
  show Option.bind _ _ = _
  cases run1 perm limb bt inp env s <;> rfl

/-- a hash -/
theorem update_sim (hp : IsHash perm) {env : Env F O} {ct : OT I O} {st : F} {pend o : List F} {g : List G} (h1 : Sig.val limb inp env ct.state = some st)
    (h2 : Vals limb inp env ct.pending pend) (hl : pend.length ≤ 16) (hr : runs perm limb bt inp .empty ct.code = some env)
    (hH : ∀ h, ct.hCnt ≤ h → env.hv h = none) (hG : ∀ h, ct.gCnt ≤ h → env.gv h = none) (hN : ∀ c, ct.nCnt ≤ c → env.nb c = none) :
    ∃ env' t', TranscriptBN.updateState perm (⟨st, pend, o, g⟩ : TranscriptBN.T F G) = some t' ∧ Sim perm limb bt inp env' ct.updateState t' ∧
      t'.out ≠ [] ∧ env'.av = env.av ∧ env'.nb = env.nb ∧ env'.ys = env.ys := by
  have h16 : (pend ++ List.replicate (16 - pend.length) (0 : F)).length = 16 := by
    rw [List.length_append, List.length_replicate]; omega
  have hlen := hp _ st h16
  have hpd : Vals limb inp env (ct.pending ++ List.replicate (16 - ct.pending.length) .zero) (pend ++ List.replicate (16 - pend.length) (0 : F)) := by
    rw [h2.length]; exact h2.append (vals_zeros _)
  unfold TranscriptBN.updateState
  dsimp only
  revert hlen
  generalize hq : perm (pend ++ List.replicate (16 - pend.length) (0 : F)) st = q
  intro hlen
  cases q with
  | nil => simp at hlen
  | cons x xs =>
    dsimp only
    let env' : Env F O := { env with hv := Function.update env.hv ct.hCnt (some (x :: xs)) }
    have hh : env'.hv ct.hCnt = some (x :: xs) := by simp [env']
    refine ⟨env', _, rfl, ⟨?_, .nil, ?_, rfl, rfl, ?_, ?_, hG, hN, ⟨by simp, .inl rfl⟩⟩, by simp, rfl, rfl, rfl⟩
    · show (env'.hv ct.hCnt).bind _ = _
      rw [hh]
      rfl
    · have := vals_hash (limb := limb) (inp := inp) hh (k := 17) (by omega)
      rw [List.take_of_length_le (by omega)] at this
      exact this
    · unfold OT.updateState
      dsimp only
      rw [runs_append, hr, Option.bind_some, runs_one]
      show (if env.hv ct.hCnt ≠ none ∨ _ ≠ 16 then none else _) = _
      rw [if_neg (by rw [hH _ (Nat.le_refl _), hpd.length, h16]; simp), hpd.mapM, h1]
      simp only [Option.bind_some, Option.map_some, hq]
      rfl
    · intro h hh
      have hh' : ct.hCnt + 1 ≤ h := hh
      show Function.update env.hv ct.hCnt _ h = none
      rw [Function.update_of_ne (by omega)]
      exact hH h (by omega)

theorem add1_sim (hp : IsHash perm) {env : Env F O} {ct : OT I O} {t : TranscriptBN.T F G} (h : Sim perm limb bt inp env ct t) (a : I) :
    ∃ env' t', TranscriptBN.add1 perm t (inp a) = some t' ∧ Sim perm limb bt inp env' (ct.add1 (.input a)) t' ∧
      env'.av = env.av ∧ env'.nb = env.nb ∧ env'.ys = env.ys := by
  have hpend : Vals limb inp env (ct.pending ++ [.input a]) (t.pending ++ [inp a]) := h.pending.append (.cons rfl .nil)
  unfold TranscriptBN.add1 OT.add1
  dsimp only
  rw [hpend.length]
  by_cases h16 : (t.pending ++ [inp a]).length = 16
  · rw [if_pos h16, if_pos h16]
    obtain ⟨env', t', e, s, -, k⟩ := update_sim (G := G) (o := []) (g := t.out3) (ct := { ct with out := [], out3 := [], pending := ct.pending ++ [.input a] })
      hp h.state hpend (by omega) h.run h.freshH h.freshG h.freshN
    exact ⟨env', t', e, s, k⟩
  · rw [if_neg h16, if_neg h16]
    refine ⟨env, _, rfl, ⟨h.state, hpend, .nil, rfl, h.t3, h.run, h.freshH, h.freshG, h.freshN, ⟨?_, .inr rfl⟩⟩, rfl, rfl, rfl⟩
    have := h.inv.pend
    rw [List.length_append, List.length_singleton] at h16 ⊢
    omega

theorem put_sim (hp : IsHash perm) (he : ∀ a, enc (nin a) = some (inp a)) : ∀ (as : List I) {env : Env F O} {ct : OT I O} {t : TranscriptBN.T F G},
    Sim perm limb bt inp env ct t →
    ∃ env' t', TranscriptBN.put perm enc t (as.map nin) = some t' ∧ Sim perm limb bt inp env' (ct.put as) t' ∧
      env'.av = env.av ∧ env'.nb = env.nb ∧ env'.ys = env.ys
  | [], env, ct, t, h => ⟨env, t, rfl, h, rfl, rfl, rfl⟩
  | a :: as, env, ct, t, h => by
    obtain ⟨e1, t1, g1, s1, a1, b1, c1⟩ := add1_sim hp h a
    obtain ⟨e2, t2, g2, s2, a2, b2, c2⟩ := put_sim hp he as s1
    refine ⟨e2, t2, ?_, s2, a2.trans a1, b2.trans b1, c2.trans c1⟩
    unfold TranscriptBN.put at g2 ⊢
    rw [List.map_cons, List.foldlM_cons, he a, Option.bind_some, g1]
    exact g2

/-- the head of the outputs -/
theorem Sim.pop {env : Env F O} {ct : OT I O} {t : TranscriptBN.T F G} (h : Sim perm limb bt inp env ct t) (ho : t.out ≠ []) :
    ∃ v rest s srest, t.out = v :: rest ∧ ct.out = s :: srest ∧ Sig.val limb inp env s = some v ∧
      Sim perm limb bt inp env { ct with out := srest } { t with out := rest } := by
  have hv := h.out
  cases hto : t.out with
  | nil => exact absurd hto ho
  | cons v rest =>
    rw [hto] at hv
    cases hco : ct.out with
    | nil => rw [hco] at hv; cases hv
    | cons s srest =>
      rw [hco] at hv
      cases hv with
      | cons g1 g2 =>
        refine ⟨v, rest, s, srest, rfl, rfl, g1, h.state, h.pending, g2, h.c3, h.t3, h.run, h.freshH, h.freshG, h.freshN, h.inv.pend, ?_⟩
        rcases h.inv.excl with g | g
        · exact .inl g
        · rw [hto] at g; cases g

/-- one output; `ct1` is the generator's transcript after the `updateState`, if there was one -/
theorem draw_sim (hp : IsHash perm) {env : Env F O} {ct : OT I O} {t : TranscriptBN.T F G} (h : Sim perm limb bt inp env ct t) :
    ∃ env' t' s v ct1 rest, TranscriptBN.get253 perm t = some (v, t') ∧ (if ct.out = [] then ct.updateState else ct) = ct1 ∧ ct1.out = s :: rest ∧
      ct.getFields253 = some (s, { ct1 with out := rest }) ∧ Sim perm limb bt inp env' { ct1 with out := rest } t' ∧
      Sig.val limb inp env' s = some v ∧ env'.av = env.av ∧ env'.nb = env.nb ∧ env'.ys = env.ys := by
  unfold TranscriptBN.get253 OT.getFields253
  by_cases ho : t.out = []
  · have hco : ct.out = [] := by
      have := h.out.length
      rw [ho] at this
      exact List.eq_nil_of_length_eq_zero this
    rw [ho, if_pos hco]
    obtain ⟨env', t', e, s, hne, e1, e2, e3⟩ := update_sim (G := G) (o := t.out) (g := t.out3) hp h.state h.pending (le_of_lt h.inv.pend) h.run h.freshH
      h.freshG h.freshN
    obtain ⟨v, rest, sg, srest, k1, k2, k3, k4⟩ := s.pop hne
    refine ⟨env', _, sg, v, ct.updateState, srest, ?_, rfl, k2, ?_, k4, k3, e1, e2, e3⟩
    · dsimp only
      rw [e, Option.bind_some, k1]
    · dsimp only
      rw [k2]
  · have hco : ct.out ≠ [] := by
      intro hc
      have := h.out.length
      rw [hc] at this
      exact ho (List.eq_nil_of_length_eq_zero this.symm)
    rw [if_neg hco]
    obtain ⟨v, rest, sg, srest, k1, k2, k3, k4⟩ := h.pop ho
    refine ⟨env, _, sg, v, ct, srest, ?_, rfl, k2, ?_, k4, k3, rfl, rfl, rfl⟩
    · rw [k1]
    · dsimp only
      rw [k2]

/-- the three elements of a name -/
def put3 (av : O → Nat → Option F) (d : O) (x : Nat → F) : O → Nat → Option F := Function.update av d fun k => if k < 3 then some (x k) else none

theorem getField_sim (hp : IsHash perm) (hs : ∀ x, (split x).length = 3) {env : Env F O} {ct : OT I O} {t : TranscriptBN.T F G}
    (h : Sim perm limb bt inp env ct t) {d : O} (hd : ∀ k, env.av d k = none) :
    ∃ env' t' x ct', TranscriptBN.getField perm split t = some (split x, t') ∧ ct.getField d = some ct' ∧ Sim perm limb bt inp env' ct' t' ∧
      env'.av = put3 env.av d (limb x) ∧ env'.nb = env.nb ∧ env'.ys = env.ys := by
  obtain ⟨e1, t1, s, x, ct1, rest, g1, k1, k2, -, m1, v1, p1, q1, r1⟩ := draw_sim hp h
  obtain ⟨a, b, c, habc⟩ : ∃ a b c, split x = [a, b, c] := by
    have := hs x
    match hx : split x, this with
    | [a, b, c], _ => exact ⟨a, b, c, rfl⟩
  let e2 : Env F O := { e1 with gv := Function.update e1.gv ct1.gCnt (some x) }
  let e3 : Env F O := { e2 with av := put3 env.av d (limb x) }
  have hfr : e1.gv ct1.gCnt = none := m1.freshG _ (Nat.le_refl _)
  have hmono0 : ∀ k l, e1.hv k = some l → e3.hv k = some l := fun _ _ h => h
  have hmono : ∀ k l, e1.gv k = some l → e3.gv k = some l := by
    intro k l hk
    show Function.update e1.gv ct1.gCnt _ k = _
    rw [Function.update_of_ne]
    · exact hk
    · rintro rfl
      rw [hfr] at hk; cases hk
  have hc1 : ct1.out3 = [] := m1.c3
  let code1 : List (Stmt I O) := ct1.code ++ [Stmt.split ct1.gCnt s] ++ [Stmt.assign d 0 (Sig.limb ct1.gCnt 0)] ++
    [Stmt.assign d 1 (Sig.limb ct1.gCnt 1)] ++ [Stmt.assign d 2 (Sig.limb ct1.gCnt 2)]
  refine ⟨e3, t1, x, { ct1 with out := rest, out3 := [], gCnt := ct1.gCnt + 1, code := code1 },
    ?_, ?_, ⟨?_, ?_, ?_, rfl, m1.t3, ?_, m1.freshH, ?_, m1.freshN, m1.inv⟩, rfl, q1, r1⟩
  · have ht1 : ({ t1 with out3 := [] } : TranscriptBN.T F G) = t1 := by
      have := m1.t3
      cases t1
      dsimp only at this
      rw [this]
    simp only [TranscriptBN.getField, TranscriptBN.getMany, TranscriptBN.get1, h.t3, g1, habc, Option.bind_some, Option.map_some, ht1]
  · simp only [OT.getField, OT.getFields1, h.c3, k1, k2, Option.bind_some, Option.map_some, code1]
  · exact val_mono hmono0 hmono m1.state
  · exact m1.pending.mono hmono0 hmono
  · exact m1.out.mono hmono0 hmono
  · simp only [code1]
    have hrun := m1.run
    dsimp only at hrun
    have s1 : run1 perm limb bt inp e1 (.split ct1.gCnt s : Stmt I O) = some e2 := by
      show (if e1.gv ct1.gCnt ≠ none then none else _) = _
      rw [if_neg (by simp [hfr]), v1]
      rfl
    have hv : ∀ (e : Env F O) k, e.gv = e2.gv → k < 3 → Sig.val limb inp e (.limb ct1.gCnt k : Sig I) = some (limb x k) := by
      intro e k he hk
      show (if 3 ≤ k then none else (e.gv ct1.gCnt).map _) = _
      rw [if_neg (by omega), he]
      simp [e2]
    have s2 : ∀ (e : Env F O) k, e.gv = e2.gv → k < 3 → e.av d k = none → run1 perm limb bt inp e (.assign d k (.limb ct1.gCnt k) : Stmt I O) =
        some { e with av := Function.update e.av d (Function.update (e.av d) k (some (limb x k))) } := by
      intro e k he hk ha
      show (if e.av d k ≠ none then none else _) = _
      rw [if_neg (by simp [ha]), hv e k he hk]
      rfl
    rw [runs_append, runs_append, runs_append, runs_append, hrun, Option.bind_some, runs_one, s1, Option.bind_some, runs_one,
      s2 e2 0 rfl (by omega) (by show e1.av d 0 = none; rw [p1]; exact hd 0), Option.bind_some, runs_one]
    rw [s2 _ 1 ?_ (by omega) ?_, Option.bind_some, runs_one, s2 _ 2 ?_ (by omega) ?_]
    rotate_left
    · rfl
    · simp [e2, p1, hd]
    · rfl
    · simp [e2, p1, hd]
    simp only [e3]
    congr 2
    unfold put3
    funext o k
    by_cases ho : o = d
    · subst ho
      rcases k with _ | _ | _ | k <;> simp [Function.update, e2, p1, hd]
    · simp [Function.update, ho, e2, p1]
  · intro c hc
    have hc : ct1.gCnt + 1 ≤ c := hc
    show Function.update e1.gv ct1.gCnt _ c = none
    rw [Function.update_of_ne (by omega)]
    exact m1.freshG c (by show ct1.gCnt ≤ c; omega)

/-- the fields of `getPermutations` -/
theorem fields_sim (hp : IsHash perm) : ∀ (m : Nat) {env : Env F O} {ct : OT I O} {t : TranscriptBN.T F G}, Sim perm limb bt inp env ct t →
    ∃ env' t' fs ct' cs, TranscriptBN.draw253 perm m t = some (fs, t') ∧ OT.fields m ct = some (cs, ct') ∧ Sim perm limb bt inp env' ct' t' ∧
      fs.length = m ∧ List.Forall₂ (fun c f => env'.nb c = some f) cs fs ∧ (∀ c x, env.nb c = some x → env'.nb c = some x) ∧
      env'.av = env.av ∧ env'.ys = env.ys
  | 0, env, ct, t, h => ⟨env, t, [], ct, [], rfl, rfl, h, rfl, .nil, fun _ _ h => h, rfl, rfl⟩
  | m + 1, env, ct, t, h => by
    obtain ⟨e1, t1, s, v, ct1, rest, g1, -, -, k1, m1, v1, p1, q1, r1⟩ := draw_sim hp h
    revert k1 m1
    generalize ({ ct1 with out := rest } : OT I O) = c1
    intro k1 m1
    let e2 : Env F O := { e1 with nb := Function.update e1.nb c1.nCnt (some v) }
    have hs : Sim perm limb bt inp e2 { c1 with nCnt := c1.nCnt + 1, code := c1.code ++ [.n2b c1.nCnt s] } t1 := by
      refine ⟨val_mono (fun _ _ h => h) (fun _ _ h => h) m1.state, m1.pending.mono (fun _ _ h => h) (fun _ _ h => h),
        m1.out.mono (fun _ _ h => h) (fun _ _ h => h), m1.c3, m1.t3, ?_, m1.freshH, m1.freshG, ?_, m1.inv⟩
      · dsimp only
        rw [runs_append, m1.run, Option.bind_some, runs_one]
        show (if e1.nb c1.nCnt ≠ none then none else _) = _
        rw [if_neg (by rw [m1.freshN _ (Nat.le_refl _)]; simp), v1]
        rfl
      · intro c hc
        have hc : c1.nCnt + 1 ≤ c := hc
        show Function.update e1.nb c1.nCnt _ c = none
        rw [Function.update_of_ne (by omega)]
        exact m1.freshN c (by omega)
    obtain ⟨e3, t3, fs, c3, cs, g3, k3, m3, l3, f3, n3, p3, q3⟩ := fields_sim hp m hs
    refine ⟨e3, t3, v :: fs, c3, c1.nCnt :: cs, ?_, ?_, m3, by simp [l3], .cons (n3 _ _ (by simp [e2])) f3, ?_, p3.trans p1, q3.trans r1⟩
    · rw [TranscriptBN.draw253, g1, Option.bind_some, g3]
      rfl
    · rw [OT.fields, k1, Option.bind_some]
      dsimp only
      rw [k3]
      rfl
    · intro c x hx
      refine n3 _ _ ?_
      show Function.update e1.nb c1.nCnt _ c = some x
      rw [← q1] at hx
      rw [Function.update_of_ne]
      · exact hx
      · rintro rfl
        rw [m1.freshN _ (Nat.le_refl _)] at hx
        cases hx

/-- bit `p` of the windowed stream: 253 bits of each scalar -/
def bitAt (bt : F → Nat → F) (xs : List F) (p : Nat) : F := bt (xs.getD (p / 253) 0) (p % 253)

/-- one row of bits: after `j` of them -/
theorem row_run {cs : List Nat} {fs : List F} {env0 : Env F O} (hf : List.Forall₂ (fun c f => env0.nb c = some f) cs fs) (i : Nat) :
    ∀ (k j p : Nat) (env : Env F O), env.nb = env0.nb → (∀ j', j ≤ j' → env.ys i j' = none) → p + k ≤ 253 * fs.length →
    ∃ code env', OT.row (I := I) (O := O) cs i j k (Perms.cur 253 p) = some (code, Perms.cur 253 (p + k)) ∧
      runs perm limb bt inp env code = some env' ∧ env'.av = env.av ∧ env'.nb = env.nb ∧ env'.hv = env.hv ∧ env'.gv = env.gv ∧
      (∀ i' j', env'.ys i' j' = if i' = i ∧ j ≤ j' ∧ j' < j + k then some (bitAt bt fs (p + (j' - j))) else env.ys i' j')
  | 0, j, p, env, _, _, _ => by
    refine ⟨[], env, rfl, rfl, rfl, rfl, rfl, rfl, fun i' j' => ?_⟩
    rw [if_neg (by omega)]
  | k + 1, j, p, env, hnb, hfr, hp => by
    have hidx : p / 253 < fs.length := Nat.div_lt_of_lt_mul (by omega)
    have hlc : cs.length = fs.length := List.Forall₂.length_eq hf
    have hget : env0.nb cs[p / 253] = some fs[p / 253] := hf.get (by omega) hidx
    have hb253 : p % 253 < 253 := Nat.mod_lt _ (by omega)
    let v : F := bitAt bt fs p
    let env1 : Env F O := { env with ys := Function.update env.ys i (Function.update (env.ys i) j (some v)) }
    obtain ⟨code, env', g1, g2, g3, g4, g5, g5', g6⟩ := row_run hf i k (j + 1) (p + 1) env1 hnb (fun j' hj' => by
      show Function.update env.ys i _ i j' = none
      rw [Function.update_self, Function.update_of_ne (by omega)]
      exact hfr j' (by omega)) (by omega)
    refine ⟨.bit i j cs[p / 253] (p % 253) :: code, env', ?_, ?_, g3, g4, g5, g5', ?_⟩
    · rw [OT.row]
      show (cs[p / 253]?).bind _ = _
      rw [List.getElem?_eq_getElem (by omega), Option.bind_some]
      show (OT.row cs i (j + 1) k (if p % 253 + 1 = 253 then (⟨p / 253 + 1, 0⟩ : Perms.Cur) else ⟨p / 253, p % 253 + 1⟩)).map _ = _
      rw [Perms.cur_succ (by omega), g1, Option.map_some, show p + 1 + k = p + (k + 1) by omega]
      rfl
    · unfold runs at g2 ⊢
      rw [List.foldlM_cons]
      have : run1 perm limb bt inp env (.bit i j cs[p / 253] (p % 253) : Stmt I O) = some env1 := by
        show (if env.ys i j ≠ none ∨ 255 ≤ p % 253 then none else _) = _
        rw [if_neg (by rw [hfr j (Nat.le_refl _)]; simp only [ne_eq, not_true_eq_false, false_or]; omega),
          show env.nb cs[p / 253] = some fs[p / 253] by rw [hnb, hget], Option.map_some]
        simp only [env1, v, bitAt, List.getD_eq_getElem?_getD, List.getElem?_eq_getElem hidx, Option.getD_some]
      rw [this]
      exact g2
    · intro i' j'
      rw [g6]
      by_cases hi : i' = i
      · subst hi
        by_cases h1 : j + 1 ≤ j' ∧ j' < j + 1 + k
        · rw [if_pos ⟨rfl, h1⟩, if_pos ⟨rfl, by omega, by omega⟩, show p + 1 + (j' - (j + 1)) = p + (j' - j) by omega]
        · rw [if_neg (by simp only [true_and]; exact h1)]
          show Function.update env.ys i' _ i' j' = _
          rw [Function.update_self]
          by_cases h2 : j' = j
          · subst h2
            rw [Function.update_self, if_pos ⟨rfl, Nat.le_refl _, by omega⟩, Nat.sub_self, Nat.add_zero]
          · rw [Function.update_of_ne h2, if_neg (by omega)]
      · rw [if_neg (by simp [hi]), if_neg (by simp [hi])]
        show Function.update env.ys i _ i' j' = _
        rw [Function.update_of_ne hi]

/-- all rows -/
theorem rows_run {cs : List Nat} {fs : List F} {env0 : Env F O} (hf : List.Forall₂ (fun c f => env0.nb c = some f) cs fs) (nBits : Nat) :
    ∀ (n i p : Nat) (env : Env F O), env.nb = env0.nb → (∀ i' j', i ≤ i' → env.ys i' j' = none) → p + n * nBits ≤ 253 * fs.length →
    ∃ code env', OT.rows (I := I) (O := O) cs nBits i n (Perms.cur 253 p) = some code ∧
      runs perm limb bt inp env code = some env' ∧ env'.av = env.av ∧ env'.nb = env.nb ∧ env'.hv = env.hv ∧ env'.gv = env.gv ∧
      (∀ i' j', env'.ys i' j' = if i ≤ i' ∧ i' < i + n ∧ j' < nBits then some (bitAt bt fs (p + (i' - i) * nBits + j'))
        else env.ys i' j')
  | 0, i, p, env, _, _, _ => by
    refine ⟨[], env, rfl, rfl, rfl, rfl, rfl, rfl, fun i' j' => ?_⟩
    rw [if_neg (by omega)]
  | n + 1, i, p, env, hnb, hfr, hp => by
    rw [Nat.succ_mul] at hp
    obtain ⟨c1, e1, g1, g2, g3, g4, g5, g5', g6⟩ := row_run (perm := perm) (limb := limb) (bt := bt) (inp := inp) hf i nBits 0 p env hnb (fun j' _ => hfr i j' (Nat.le_refl _)) (by omega)
    obtain ⟨c2, e2, k1, k2, k3, k4, k5, k5', k6⟩ := rows_run hf nBits n (i + 1) (p + nBits) e1 (g4.trans hnb) (fun i' j' hi => by
      rw [g6, if_neg (by omega)]
      exact hfr i' j' (by omega)) (by omega)
    refine ⟨c1 ++ c2, e2, ?_, ?_, k3.trans g3, k4.trans g4, k5.trans g5, k5'.trans g5', ?_⟩
    · rw [OT.rows, g1, Option.bind_some]
      dsimp only
      rw [k1]
      rfl
    · rw [runs_append, g2, Option.bind_some, k2]
    · intro i' j'
      rw [k6]
      by_cases h1 : i + 1 ≤ i' ∧ i' < i + 1 + n ∧ j' < nBits
      · rw [if_pos h1, if_pos ⟨by omega, by omega, h1.2.2⟩]
        have : i' - i = i' - (i + 1) + 1 := by omega
        rw [this, Nat.succ_mul]
        congr 3
        omega
      · rw [if_neg h1, g6]
        by_cases h2 : i' = i ∧ j' < nBits
        · rw [if_pos ⟨h2.1, Nat.zero_le _, by omega⟩, if_pos ⟨by omega, by omega, h2.2⟩, h2.1, Nat.sub_self, Nat.zero_mul, Nat.sub_zero,
            Nat.add_zero]
        · rw [if_neg (by omega), if_neg (by omega)]

/-- `getPermutations` -/
theorem perms_sim (hp : IsHash perm) {env : Env F O} {ct : OT I O} {t : TranscriptBN.T F G} (h : Sim perm limb bt inp env ct t)
    (hy : ∀ i j, env.ys i j = none) {n nBits m : Nat} (hm : Perms.nFields 253 n nBits = some m) (hb : nBits ≤ 64) :
    ∃ env' t' fs ys ct', TranscriptBN.draw253 perm m t = some (fs, t') ∧ fs.length = m ∧ Perms.permutations 253 (fs.map num) n nBits = some ys ∧
      ct.getPermutations n nBits = some ct' ∧ Sim perm limb bt inp env' ct' t' ∧ env'.av = env.av ∧ ys.length = n ∧
      (∀ i j, env'.ys i j = if i < n ∧ j < nBits then some (bitAt bt fs (i * nBits + j)) else none) := by
  obtain ⟨e1, t1, fs, c1, cs, g1, k1, m1, l1, f1, -, p1, q1⟩ := fields_sim hp m h
  obtain ⟨ys, y1, y2, y3⟩ := Perms.permutations_spec (w := 253) (by omega) n nBits m hb (fs.map num) hm (by rw [List.length_map, l1])
  have hlen : n * nBits ≤ 253 * fs.length := by
    rw [l1]
    unfold Perms.nFields at hm
    split_ifs at hm
    have := Option.some.inj hm
    rw [← this]
    have h1 := Nat.div_add_mod (n * nBits - 1) 253
    have h2 := Nat.mod_lt (n * nBits - 1) (show 0 < 253 by omega)
    omega
  obtain ⟨code, e2, r1, r2, r3, r4, r5, r5', r6⟩ := rows_run (perm := perm) (limb := limb) (bt := bt) (inp := inp) f1 nBits n 0 0 e1 rfl (fun i' j' _ => by rw [q1]; exact hy i' j') (by omega)
  refine ⟨e2, t1, fs, ys, { c1 with code := c1.code ++ code }, g1, l1, y1, ?_, ?_, r3.trans p1, y2, ?_⟩
  · rw [OT.getPermutations, hm, Option.bind_some, k1, Option.bind_some]
    dsimp only
    rw [show (⟨0, 0⟩ : Perms.Cur) = Perms.cur 253 0 by simp [Perms.cur], r1]
    rfl
  · have hh : ∀ k l, e1.hv k = some l → e2.hv k = some l := by rw [r5]; exact fun _ _ h => h
    have hg : ∀ k l, e1.gv k = some l → e2.gv k = some l := by rw [r5']; exact fun _ _ h => h
    refine ⟨val_mono hh hg m1.state, m1.pending.mono hh hg, m1.out.mono hh hg, m1.c3, m1.t3, ?_, ?_, ?_, ?_, m1.inv⟩
    · dsimp only
      rw [runs_append, m1.run, Option.bind_some, r2]
    · rw [r5]; exact m1.freshH
    · rw [r5']; exact m1.freshG
    · rw [r4]; exact m1.freshN
  · intro i j
    rw [r6, q1]
    by_cases hij : i < n ∧ j < nBits
    · rw [if_pos ⟨Nat.zero_le _, by omega, hij.2⟩, if_pos hij, Nat.zero_add, Nat.sub_zero]
    · rw [if_neg (by omega), if_neg hij]
      exact hy i j

/-- the names a sequence of calls assigns -/
def dsts : List (Op I O) → List O
  | [] => []
  | .getField d :: l => d :: dsts l
  | _ :: l => dsts l

/-- number of calls of `getPermutations` -/
def nPerms : List (Op I O) → Nat
  | [] => 0
  | .perms _ _ :: l => nPerms l + 1
  | _ :: l => nPerms l

/-- the sizes of the calls of `getPermutations` -/
def sizes : List (Op I O) → List (Nat × Nat)
  | [] => []
  | .perms n b :: l => (n, b) :: sizes l
  | _ :: l => sizes l

/-- the assigned signals against one challenge of the native transcript -/
def HoldsF (split : F → List G) (limb : F → Nat → F) (env : Env F O) (r : O × List G) : Prop :=
  ∃ x, split x = r.2 ∧ ∀ k, env.av r.1 k = if k < 3 then some (limb x k) else none

/-- the bits of `ys` against the query indices of the native transcript -/
def HoldsP (num : F → Nat) (bt : F → Nat → F) (env : Env F O) (sz : Nat × Nat) (ys : List Nat) : Prop :=
  ys.length = sz.1 ∧ ∃ xs : List F, Perms.nFields 253 sz.1 sz.2 = some xs.length ∧ Perms.permutations 253 (xs.map num) sz.1 sz.2 = some ys ∧
    ∀ i j, env.ys i j = if i < sz.1 ∧ j < sz.2 then some (bitAt bt xs (i * sz.2 + j)) else none

theorem script_sim (hp : IsHash perm) (hs : ∀ x, (split x).length = 3) (he : ∀ a, enc (nin a) = some (inp a)) :
    ∀ (ops : List (Op I O)) {env : Env F O} {ct : OT I O} {t : TranscriptBN.T F G},
    Sim perm limb bt inp env ct t → (dsts ops).Nodup → (∀ d ∈ dsts ops, ∀ k, env.av d k = none) → nPerms ops ≤ 1 →
    (nPerms ops = 1 → ∀ i j, env.ys i j = none) →
    (∀ n b, Op.perms n b ∈ ops → Perms.nFields 253 n b ≠ none ∧ b ≤ 64) →
    ∃ ct' env' fs ps, gen ops ct = some ct' ∧ runs perm limb bt inp .empty ct'.code = some env' ∧ native perm enc split num nin ops t = some (fs, ps) ∧
      fs.map Prod.fst = dsts ops ∧ (∀ r ∈ fs, HoldsF split limb env' r) ∧ List.Forall₂ (HoldsP num bt env') (sizes ops) ps ∧
      (∀ d, d ∉ dsts ops → env'.av d = env.av d) ∧ (nPerms ops = 0 → env'.ys = env.ys)
  | [], env, ct, t, h, _, _, _, _, _ => ⟨ct, env, [], [], rfl, h.run, rfl, rfl, by simp, .nil, fun _ _ => rfl, fun _ => rfl⟩
  | .put as :: l, env, ct, t, h, hn, hd, hq, hy, hb => by
    obtain ⟨e1, t1, g1, s1, a1, b1, c1⟩ := put_sim hp he as h
    obtain ⟨ct', env', fs, ps, r1, r2, r3, r0, r4, r4', r5, r6⟩ := script_sim hp hs he l s1 hn (fun d h k => by rw [a1]; exact hd d h k) hq
      (fun h i j => by rw [c1]; exact hy h i j) (fun n b h => hb n b (by simp [h]))
    refine ⟨ct', env', fs, ps, r1, r2, ?_, r0, r4, r4', fun d h => by rw [r5 d h, a1], fun h => by rw [r6 h, c1]⟩
    rw [native, g1, Option.bind_some, r3]
  | .getField d :: l, env, ct, t, h, hn, hd, hq, hy, hb => by
    have hn' := List.nodup_cons.mp hn
    obtain ⟨e1, t1, x, c1, g1, k1, s1, a1, b1, d1⟩ := getField_sim hp hs h (d := d) (hd d (by simp [dsts]))
    obtain ⟨ct', env', fs, ps, r1, r2, r3, r0, r4, r4', r5, r6⟩ := script_sim hp hs he l s1 hn'.2 (fun d' h k => by
        rw [a1, put3, Function.update_of_ne (by rintro rfl; exact hn'.1 h)]
        exact hd d' (by simp [dsts, h]) k) hq
      (fun h i j => by rw [d1]; exact hy h i j) (fun n b h => hb n b (by simp [h]))
    refine ⟨ct', env', (d, split x) :: fs, ps, ?_, r2, ?_, ?_, ?_, r4', ?_, fun h => by rw [r6 h, d1]⟩
    · rw [gen, k1, Option.bind_some, r1]
    · rw [native, g1, Option.bind_some, r3]
      rfl
    · rw [List.map_cons, r0]
      rfl
    · intro o ho
      rcases List.mem_cons.mp ho with rfl | ho
      · refine ⟨x, rfl, fun k => ?_⟩
        rw [r5 d hn'.1, a1, put3, Function.update_self]
      · exact r4 o ho
    · intro d' hd'
      rw [dsts, List.mem_cons, not_or] at hd'
      rw [r5 d' hd'.2, a1, put3, Function.update_of_ne hd'.1]
  | .perms n b :: l, env, ct, t, h, hn, hd, hq, hy, hb => by
    obtain ⟨hm, h64⟩ := hb n b (by simp)
    obtain ⟨m, hm⟩ := Option.ne_none_iff_exists'.mp hm
    have hl0 : nPerms l = 0 := by
      have : nPerms l + 1 ≤ 1 := hq
      omega
    obtain ⟨e1, t1, xs, ys, c1, g1, gl, k1, k2, s1, a1, b1, d1⟩ := perms_sim (num := num) hp h (hy (by rw [nPerms, hl0])) hm h64
    obtain ⟨ct', env', fs, ps, r1, r2, r3, r0, r4, r4', r5, r6⟩ := script_sim hp hs he l s1 hn (fun d h k => by rw [a1]; exact hd d h k) (by omega)
      (fun h => by omega) (fun n b h => hb n b (by simp [h]))
    refine ⟨ct', env', fs, ys :: ps, ?_, r2, ?_, r0, r4, .cons ?_ r4', fun d h => by rw [r5 d h, a1], fun h => by simp [nPerms] at h⟩
    · rw [gen, k2, Option.bind_some, r1]
    · rw [native, hm, Option.bind_some, g1, Option.bind_some, k1, Option.bind_some, r3]
      rfl
    · refine ⟨b1, xs, by rw [gl]; exact hm, k1, fun i j => ?_⟩
      rw [r6 hl0]
      exact d1 i j

theorem sim_new : Sim perm limb bt inp (.empty : Env F O) (OT.new : OT I O) (TranscriptBN.new : TranscriptBN.T F G) :=
  ⟨rfl, .nil, .nil, rfl, rfl, rfl, fun _ _ => rfl, fun _ _ => rfl, fun _ _ => rfl, ⟨by simp [TranscriptBN.new], .inl rfl⟩⟩

end Verif.Gadget.On
