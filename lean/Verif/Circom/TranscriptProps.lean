import Verif.Circom.Transcript
import Verif.Transcript.GLProps

/-!
# C107: the transcript of the circuit computes the challenges of `TranscriptGL`
-/
set_option linter.unusedSectionVars false

namespace Verif.Circom
open Verif.Linear (IsState poseidonHash)

variable {F I O : Type} [Zero F] [One F] [DecidableEq O]
variable {perm : List F → List F} {num : F → Nat} {inp : I → F}

/-- names and their values -/
def Vals (inp : I → F) (env : TEnv F O) (l : List (TSig I)) (v : List F) : Prop :=
  List.Forall₂ (fun s x => TSig.val inp env s = some x) l v

theorem Vals.mono {env env' : TEnv F O} (h : ∀ k l, env.hv k = some l → env'.hv k = some l) {l : List (TSig I)} {v : List F}
    (hv : Vals inp env l v) : Vals inp env' l v := by
  refine List.Forall₂.imp ?_ hv
  intro s x hs
  cases s with
  | zero => exact hs
  | input a => exact hs
  | hash k i =>
    obtain ⟨l, h1, h2⟩ := Option.bind_eq_some_iff.mp hs
    exact Option.bind_eq_some_iff.mpr ⟨l, h _ _ h1, h2⟩

theorem Vals.mapM {env : TEnv F O} : ∀ {l : List (TSig I)} {v : List F}, Vals inp env l v → l.mapM (TSig.val inp env) = some v
  | [], _, h => by cases h; rfl
  | s :: l, _, .cons (b := x) (l₂ := v) h1 h2 => by
    rw [List.mapM_cons, h1, Vals.mapM h2]
    rfl

theorem Vals.length {env : TEnv F O} {l : List (TSig I)} {v : List F} (h : Vals inp env l v) : l.length = v.length :=
  List.Forall₂.length_eq h

theorem Vals.append {env : TEnv F O} : ∀ {l l' : List (TSig I)} {v v' : List F}, Vals inp env l v → Vals inp env l' v' →
    Vals inp env (l ++ l') (v ++ v')
  | [], _, _, _, .nil, h => h
  | _ :: _, _, _, _, .cons h1 h2, h => .cons h1 (Vals.append h2 h)

theorem vals_zeros {env : TEnv F O} (k : Nat) : Vals inp env (List.replicate k .zero) (List.replicate k 0) := by
  induction k with
  | zero => exact .nil
  | succ k ih => rw [List.replicate_succ, List.replicate_succ]; exact .cons rfl ih

theorem vals_hash {env : TEnv F O} {h : Nat} {o : List F} (ho : env.hv h = some o) {k : Nat} (hk : k ≤ o.length) :
    Vals inp env ((List.range k).map (.hash h)) (o.take k) := by
  have : ∀ n m, n + m ≤ o.length → Vals inp env ((List.range' n m).map (.hash h)) ((o.drop n).take m) := by
    intro n m
    induction m generalizing n with
    | zero => intro _; rw [List.take_zero]; exact .nil
    | succ m ih =>
      intro hl
      rw [List.range'_succ, List.map_cons, List.drop_eq_getElem_cons (by omega), List.take_succ_cons]
      refine .cons ?_ ?_
      · show (env.hv h).bind _ = _
        rw [ho, Option.bind_some, List.getElem?_eq_getElem]
      · exact ih (n + 1) (by omega)
  have h := this 0 k (by omega)
  rw [List.drop_zero, ← List.range_eq_range'] at h
  exact h

/-- the generator's transcript and the native one, after the printed code has run -/
structure Sim (perm : List F → List F) (num : F → Nat) (inp : I → F) (env : TEnv F O) (ct : CT I O) (t : TranscriptGL.T F) :
    Prop where
  state : Vals inp env ct.state t.state
  pending : Vals inp env ct.pending t.pending
  out : Vals inp env ct.out t.out
  run : runTs perm num inp .empty ct.code = some env
  freshH : ∀ h, ct.hCnt ≤ h → env.hv h = none
  freshN : ∀ c, ct.n2bCnt ≤ c → env.nb c = none
  inv : TranscriptGL.Inv t

theorem runTs_append {env : TEnv F O} (a b : List (TStmt I O)) :
    runTs perm num inp env (a ++ b) = (runTs perm num inp env a).bind fun e => runTs perm num inp e b := by
  unfold runTs
  rw [List.foldlM_append]
  rfl

theorem runTs_one {env : TEnv F O} (s : TStmt I O) : runTs perm num inp env [s] = runT perm num inp env s := by
  unfold runTs
  rw [List.foldlM_cons]
  show Option.bind _ _ = _
  cases runT perm num inp env s <;> rfl

/-- a hash of eight names -/
theorem flush_sim (hp : IsState perm) {env : TEnv F O} {ct : CT I O} {st pend : List F} (h1 : Vals inp env ct.state st)
    (h2 : Vals inp env ct.pending pend) (hl : pend.length = 8) (hs : st.length = 4) (hr : runTs perm num inp .empty ct.code = some env)
    (hH : ∀ h, ct.hCnt ≤ h → env.hv h = none) (hN : ∀ c, ct.n2bCnt ≤ c → env.nb c = none) :
    ∃ env', Sim perm num inp env' ct.flush ⟨(perm (pend ++ st)).take 4, [], perm (pend ++ st)⟩ ∧
      env'.av = env.av ∧ env'.nb = env.nb ∧ env'.ys = env.ys := by
  have hlen : (perm (pend ++ st)).length = 12 := hp _ (by simp [hl, hs])
  let env' : TEnv F O := { env with hv := Function.update env.hv ct.hCnt (some (perm (pend ++ st))) }
  have hh : env'.hv ct.hCnt = some (perm (pend ++ st)) := by simp [env']
  refine ⟨env', ⟨?_, .nil, ?_, ?_, ?_, hN, ⟨by simp, by simp [hlen], .inl rfl⟩⟩, rfl, rfl, rfl⟩
  · exact vals_hash hh (by omega)
  · have := vals_hash (inp := inp) hh (k := 12) (by omega)
    rw [List.take_of_length_le (by omega)] at this
    exact this
  · unfold CT.flush
    dsimp only
    rw [runTs_append, hr, Option.bind_some, runTs_one]
    show (if env.hv ct.hCnt ≠ none ∨ ct.pending.length ≠ 8 ∨ ct.state.length ≠ 4 then none else _) = _
    rw [if_neg (by rw [hH _ (Nat.le_refl _), h2.length, hl, h1.length, hs]; simp), h2.mapM, h1.mapM]
    rfl
  · intro h hh
    have hh' : ct.hCnt + 1 ≤ h := hh
    show Function.update env.hv ct.hCnt _ h = none
    rw [Function.update_of_ne (by omega)]
    exact hH h (by omega)

theorem add1_sim (hp : IsState perm) {env : TEnv F O} {ct : CT I O} {t : TranscriptGL.T F} (h : Sim perm num inp env ct t) (a : I) :
    ∃ env' t', TranscriptGL.add1 perm t (inp a) = some t' ∧ Sim perm num inp env' (ct.add1 (.input a)) t' ∧
      env'.av = env.av ∧ env'.nb = env.nb ∧ env'.ys = env.ys := by
  have hpend : Vals inp env (ct.pending ++ [.input a]) (t.pending ++ [inp a]) := h.pending.append (.cons rfl .nil)
  unfold TranscriptGL.add1 CT.add1
  dsimp only
  rw [hpend.length]
  by_cases h8 : (t.pending ++ [inp a]).length = 8
  · rw [if_pos h8, if_pos h8]
    obtain ⟨env', s, e⟩ := flush_sim (ct := { ct with out := [], pending := ct.pending ++ [.input a] }) hp h.state hpend h8 h.inv.st h.run
      h.freshH h.freshN
    refine ⟨env', _, ?_, s, e⟩
    unfold TranscriptGL.updateState poseidonHash
    dsimp only
    rw [h8, show List.replicate (8 - 8) (0 : F) = [] from rfl, List.append_nil, if_pos ⟨h8, h.inv.st⟩, Option.map_some,
      List.take_of_length_le (i := 12) (by rw [hp _ (by rw [List.length_append, h8, h.inv.st])])]
  · rw [if_neg h8, if_neg h8]
    refine ⟨env, _, rfl, ⟨h.state, hpend, .nil, h.run, h.freshH, h.freshN, ⟨?_, h.inv.st, .inr rfl⟩⟩, rfl, rfl, rfl⟩
    have := h.inv.pend
    rw [List.length_append, List.length_singleton] at h8 ⊢
    omega

theorem put_sim (hp : IsState perm) : ∀ (as : List I) {env : TEnv F O} {ct : CT I O} {t : TranscriptGL.T F}, Sim perm num inp env ct t →
    ∃ env' t', (as.map inp).foldlM (fun t x => TranscriptGL.add1 perm t x) t = some t' ∧ Sim perm num inp env' (ct.put as) t' ∧
      env'.av = env.av ∧ env'.nb = env.nb ∧ env'.ys = env.ys
  | [], env, ct, t, h => ⟨env, t, rfl, h, rfl, rfl, rfl⟩
  | a :: as, env, ct, t, h => by
    obtain ⟨e1, t1, g1, s1, a1, b1, c1⟩ := add1_sim hp h a
    obtain ⟨e2, t2, g2, s2, a2, b2, c2⟩ := put_sim hp as s1
    refine ⟨e2, t2, ?_, s2, a2.trans a1, b2.trans b1, c2.trans c1⟩
    rw [List.map_cons, List.foldlM_cons, g1]
    exact g2

theorem put_native (perm : List F → List F) (t : TranscriptGL.T F) (l : List F) :
    TranscriptGL.put perm t [l] = l.foldlM (fun t x => TranscriptGL.add1 perm t x) t := by
  unfold TranscriptGL.put
  rw [List.foldlM_cons]
  show Option.bind _ _ = _
  cases l.foldlM (fun t x => TranscriptGL.add1 perm t x) t <;> rfl

/-- one output -/
theorem getFields1_sim (hp : IsState perm) {env : TEnv F O} {ct : CT I O} {t : TranscriptGL.T F} (h : Sim perm num inp env ct t) :
    ∃ env' t' s v ct', TranscriptGL.getFields1 perm t = some (v, t') ∧ ct.getFields1 = some (s, ct') ∧ Sim perm num inp env' ct' t' ∧
      TSig.val inp env' s = some v ∧ env'.av = env.av ∧ env'.nb = env.nb ∧ env'.ys = env.ys := by
  have key : ∀ {env : TEnv F O} {ct : CT I O} {t : TranscriptGL.T F}, Sim perm num inp env ct t → t.out ≠ [] →
      ∃ v rest s srest, t.out = v :: rest ∧ ct.out = s :: srest ∧ TSig.val inp env s = some v ∧
        Sim perm num inp env { ct with out := srest } { t with out := rest } := by
    intro env ct t h ho
    have hv := h.out
    cases hto : t.out with
    | nil => exact absurd hto ho
    | cons v rest =>
      rw [hto] at hv
      cases hco : ct.out with
      | nil => rw [hco] at hv; cases hv
      | cons s srest =>
        rw [hco] at hv
        cases hv with
        | cons g1 g2 =>
          refine ⟨v, rest, s, srest, rfl, rfl, g1, h.state, h.pending, g2, h.run, h.freshH, h.freshN, h.inv.pend, h.inv.st, ?_⟩
          rcases h.inv.excl with g | g
          · exact .inl g
          · rw [hto] at g; cases g
  unfold TranscriptGL.getFields1 CT.getFields1
  by_cases ho : t.out = []
  · have hco : ct.out = [] := by
      have := h.out.length
      rw [ho] at this
      exact List.eq_nil_of_length_eq_zero this
    rw [ho, if_pos hco]
    have h8 : (t.pending ++ List.replicate (8 - t.pending.length) (0 : F)).length = 8 := by
      have := h.inv.pend
      rw [List.length_append, List.length_replicate]
      omega
    obtain ⟨env', s, e1, e2, e3⟩ := flush_sim
      (ct := { ct with pending := ct.pending ++ List.replicate (8 - ct.pending.length) .zero })
      (pend := t.pending ++ List.replicate (8 - t.pending.length) (0 : F)) hp h.state
      (by dsimp only; rw [h.pending.length]; exact h.pending.append (vals_zeros _)) h8 h.inv.st h.run h.freshH h.freshN
    have hlen : (perm ((t.pending ++ List.replicate (8 - t.pending.length) (0 : F)) ++ t.state)).length = 12 :=
      hp _ (by rw [List.length_append, h8, h.inv.st])
    obtain ⟨v, rest, sg, srest, k1, k2, k3, k4⟩ := key s (by intro hc; dsimp only at hc; rw [hc] at hlen; simp at hlen)
    refine ⟨env', _, sg, v, _, ?_, ?_, k4, k3, e1, e2, e3⟩
    · dsimp only at k1 ⊢
      unfold TranscriptGL.updateState poseidonHash
      rw [if_pos ⟨h8, h.inv.st⟩, Option.map_some, Option.bind_some, List.take_of_length_le (i := 12) (by rw [hlen]), k1]
    · dsimp only at k2 ⊢
      rw [k2]
  · have hco : ct.out ≠ [] := by
      intro hc
      have := h.out.length
      rw [hc] at this
      exact ho (List.eq_nil_of_length_eq_zero this.symm)
    rw [if_neg hco]
    obtain ⟨v, rest, sg, srest, k1, k2, k3, k4⟩ := key h ho
    refine ⟨env, _, sg, v, _, ?_, ?_, k4, k3, rfl, rfl, rfl⟩
    · rw [k1]
    · dsimp only
      rw [k2]

/-- assigning an output to a name that has no value -/
theorem assign_sim {env : TEnv F O} {ct : CT I O} {t : TranscriptGL.T F} (h : Sim perm num inp env ct t) {s : TSig I} {v : F}
    (hs : TSig.val inp env s = some v) {d : O} {k : Nat} (hd : env.av d k = none) :
    ∃ env', Sim perm num inp env' { ct with code := ct.code ++ [.assign d k s] } t ∧
      env'.av = Function.update env.av d (Function.update (env.av d) k (some v)) ∧ env'.nb = env.nb ∧ env'.ys = env.ys := by
  refine ⟨{ env with av := Function.update env.av d (Function.update (env.av d) k (some v)) }, ⟨?_, ?_, ?_, ?_, h.freshH, h.freshN, h.inv⟩,
    rfl, rfl, rfl⟩
  · exact h.state.mono fun _ _ h => h
  · exact h.pending.mono fun _ _ h => h
  · exact h.out.mono fun _ _ h => h
  · dsimp only
    rw [runTs_append, h.run, Option.bind_some, runTs_one]
    show (if env.av d k ≠ none then none else _) = _
    rw [if_neg (by simp [hd]), hs]
    rfl

/-- the three elements of a name -/
def put3 (av : O → Nat → Option F) (d : O) (l : List F) : O → Nat → Option F := Function.update av d fun k => l[k]?

theorem getField_sim (hp : IsState perm) {env : TEnv F O} {ct : CT I O} {t : TranscriptGL.T F} (h : Sim perm num inp env ct t) {d : O}
    (hd : ∀ k, env.av d k = none) :
    ∃ env' t' a b c ct', TranscriptGL.getField perm t = some ([a, b, c], t') ∧ ct.getField d = some ct' ∧ Sim perm num inp env' ct' t' ∧
      env'.av = put3 env.av d [a, b, c] ∧ env'.nb = env.nb ∧ env'.ys = env.ys := by
  obtain ⟨e1, t1, s1, a, c1, g1, k1, m1, v1, p1, q1, r1⟩ := getFields1_sim hp h
  obtain ⟨f1, n1, x1, y1, z1⟩ := assign_sim m1 v1 (d := d) (k := 0) (by rw [p1]; exact hd 0)
  obtain ⟨e2, t2, s2, b, c2, g2, k2, m2, v2, p2, q2, r2⟩ := getFields1_sim hp n1
  obtain ⟨f2, n2, x2, y2, z2⟩ := assign_sim m2 v2 (d := d) (k := 1) (by rw [p2, x1, p1]; simp [hd])
  obtain ⟨e3, t3, s3, c, c3, g3, k3, m3, v3, p3, q3, r3⟩ := getFields1_sim hp n2
  obtain ⟨f3, n3, x3, y3, z3⟩ := assign_sim m3 v3 (d := d) (k := 2) (by rw [p3, x2, p2, x1, p1]; simp [hd])
  refine ⟨f3, t3, a, b, c, _, ?_, ?_, n3, ?_, ?_, ?_⟩
  · simp only [TranscriptGL.getField, TranscriptGL.getMany, g1, g2, g3, Option.bind_some, Option.map_some]
  · simp only [CT.getField, k1, k2, k3, Option.bind_some, Option.map_some]
  · rw [x3, p3, x2, p2, x1, p1]
    unfold put3
    funext o k
    by_cases ho : o = d
    · subst ho
      rcases k with _ | _ | _ | k <;> simp [Function.update, hd]
    · simp [Function.update, ho]
  · rw [y3, q3, y2, q2, y1, q1]
  · rw [z3, r3, z2, r2, z1, r1]

/-- the fields of `getPermutations` -/
theorem fieldsC_sim (hp : IsState perm) : ∀ (m : Nat) {env : TEnv F O} {ct : CT I O} {t : TranscriptGL.T F}, Sim perm num inp env ct t →
    ∃ env' t' fs ct' cs, TranscriptGL.getMany perm m t = some (fs, t') ∧ CT.fieldsC m ct = some (cs, ct') ∧ Sim perm num inp env' ct' t' ∧
      fs.length = m ∧ List.Forall₂ (fun c f => env'.nb c = some (num f)) cs fs ∧ (∀ c x, env.nb c = some x → env'.nb c = some x) ∧
      env'.av = env.av ∧ env'.ys = env.ys
  | 0, env, ct, t, h => ⟨env, t, [], ct, [], rfl, rfl, h, rfl, .nil, fun _ _ h => h, rfl, rfl⟩
  | m + 1, env, ct, t, h => by
    obtain ⟨e1, t1, s, v, c1, g1, k1, m1, v1, p1, q1, r1⟩ := getFields1_sim hp h
    let e2 : TEnv F O := { e1 with nb := Function.update e1.nb c1.n2bCnt (some (num v)) }
    have hs : Sim perm num inp e2 { c1 with n2bCnt := c1.n2bCnt + 1, code := c1.code ++ [.n2b c1.n2bCnt s] } t1 := by
      refine ⟨m1.state.mono fun _ _ h => h, m1.pending.mono fun _ _ h => h, m1.out.mono fun _ _ h => h, ?_, m1.freshH, ?_, m1.inv⟩
      · dsimp only
        rw [runTs_append, m1.run, Option.bind_some, runTs_one]
        show (if e1.nb c1.n2bCnt ≠ none then none else _) = _
        rw [if_neg (by rw [m1.freshN _ (Nat.le_refl _)]; simp), v1]
        rfl
      · intro c hc
        have hc : c1.n2bCnt + 1 ≤ c := hc
        show Function.update e1.nb c1.n2bCnt _ c = none
        rw [Function.update_of_ne (by omega)]
        exact m1.freshN c (by omega)
    obtain ⟨e3, t3, fs, c3, cs, g3, k3, m3, l3, f3, n3, p3, q3⟩ := fieldsC_sim hp m hs
    refine ⟨e3, t3, v :: fs, c3, c1.n2bCnt :: cs, ?_, ?_, m3, by simp [l3], .cons (n3 _ _ (by simp [e2])) f3, ?_, p3.trans p1, q3.trans r1⟩
    · rw [TranscriptGL.getMany, g1, Option.bind_some, g3]
      rfl
    · rw [CT.fieldsC, k1, Option.bind_some]
      dsimp only
      rw [k3]
      rfl
    · intro c x hx
      refine n3 _ _ ?_
      show Function.update e1.nb c1.n2bCnt _ c = some x
      rw [← q1] at hx
      rw [Function.update_of_ne]
      · exact hx
      · rintro rfl
        rw [m1.freshN _ (Nat.le_refl _)] at hx
        cases hx

/-- the value of a bit -/
def bitF (b : Bool) : F := if b then 1 else 0

/-- one row of bits: after `j` of them -/
theorem rowC_run {cs fs : List Nat} {env0 : TEnv F O} (hf : List.Forall₂ (fun c f => env0.nb c = some f) cs fs) (i : Nat) :
    ∀ (k j p : Nat) (env : TEnv F O), env.nb = env0.nb → (∀ j', j ≤ j' → env.ys i j' = none) → p + k ≤ 63 * fs.length →
    ∃ code env', CT.rowC (I := I) (O := O) cs i j k (Perms.cur 63 p) = some (code, Perms.cur 63 (p + k)) ∧
      runTs perm num inp env code = some env' ∧ env'.av = env.av ∧ env'.nb = env.nb ∧ env'.hv = env.hv ∧
      (∀ i' j', env'.ys i' j' = if i' = i ∧ j ≤ j' ∧ j' < j + k then some (bitF (Perms.streamBit 63 fs (p + (j' - j)))) else env.ys i' j')
  | 0, j, p, env, _, _, _ => by
    refine ⟨[], env, rfl, rfl, rfl, rfl, rfl, fun i' j' => ?_⟩
    rw [if_neg (by omega)]
  | k + 1, j, p, env, hnb, hfr, hp => by
    have hidx : p / 63 < fs.length := Nat.div_lt_of_lt_mul (by omega)
    have hlc : cs.length = fs.length := List.Forall₂.length_eq hf
    have hget : env0.nb cs[p / 63] = some fs[p / 63] := hf.get (by omega) hidx
    have hb63 : p % 63 < 63 := Nat.mod_lt _ (by omega)
    let v : F := bitF (Perms.streamBit 63 fs p)
    let env1 : TEnv F O := { env with ys := Function.update env.ys i (Function.update (env.ys i) j (some v)) }
    obtain ⟨code, env', g1, g2, g3, g4, g5, g6⟩ := rowC_run hf i k (j + 1) (p + 1) env1 hnb (fun j' hj' => by
      show Function.update env.ys i _ i j' = none
      rw [Function.update_self, Function.update_of_ne (by omega)]
      exact hfr j' (by omega)) (by omega)
    refine ⟨.bit i j cs[p / 63] (p % 63) :: code, env', ?_, ?_, g3, g4, g5, ?_⟩
    · rw [CT.rowC]
      show (cs[p / 63]?).bind _ = _
      rw [List.getElem?_eq_getElem (by omega), Option.bind_some]
      show (CT.rowC cs i (j + 1) k (if p % 63 + 1 = 63 then (⟨p / 63 + 1, 0⟩ : Perms.Cur) else ⟨p / 63, p % 63 + 1⟩)).map _ = _
      rw [Perms.cur_succ (by omega), g1, Option.map_some, show p + 1 + k = p + (k + 1) by omega]
      rfl
    · unfold runTs at g2 ⊢
      rw [List.foldlM_cons]
      have : runT perm num inp env (.bit i j cs[p / 63] (p % 63) : TStmt I O) = some env1 := by
        show (if env.ys i j ≠ none ∨ 64 ≤ p % 63 then none else _) = _
        rw [if_neg (by rw [hfr j (Nat.le_refl _)]; simp only [ne_eq, not_true_eq_false, false_or]; omega),
          show env.nb cs[p / 63] = some fs[p / 63] by rw [hnb, hget], Option.map_some]
        simp only [env1, v, bitF, Perms.streamBit, List.getD_eq_getElem?_getD, List.getElem?_eq_getElem hidx, Option.getD_some]
      rw [this]
      exact g2
    · intro i' j'
      rw [g6]
      by_cases hi : i' = i
      · subst hi
        by_cases h1 : j + 1 ≤ j' ∧ j' < j + 1 + k
        · rw [if_pos ⟨rfl, h1⟩, if_pos ⟨rfl, by omega, by omega⟩, show p + 1 + (j' - (j + 1)) = p + (j' - j) by omega]
        · rw [if_neg (by simp only [true_and]; exact h1)]
          show Function.update env.ys i' _ i' j' = _
          rw [Function.update_self]
          by_cases h2 : j' = j
          · subst h2
            rw [Function.update_self, if_pos ⟨rfl, Nat.le_refl _, by omega⟩, Nat.sub_self, Nat.add_zero]
          · rw [Function.update_of_ne h2, if_neg (by omega)]
      · rw [if_neg (by simp [hi]), if_neg (by simp [hi])]
        show Function.update env.ys i _ i' j' = _
        rw [Function.update_of_ne hi]

/-- all rows -/
theorem rowsC_run {cs fs : List Nat} {env0 : TEnv F O} (hf : List.Forall₂ (fun c f => env0.nb c = some f) cs fs) (nBits : Nat) :
    ∀ (n i p : Nat) (env : TEnv F O), env.nb = env0.nb → (∀ i' j', i ≤ i' → env.ys i' j' = none) → p + n * nBits ≤ 63 * fs.length →
    ∃ code env', CT.rowsC (I := I) (O := O) cs nBits i n (Perms.cur 63 p) = some code ∧
      runTs perm num inp env code = some env' ∧ env'.av = env.av ∧ env'.nb = env.nb ∧ env'.hv = env.hv ∧
      (∀ i' j', env'.ys i' j' = if i ≤ i' ∧ i' < i + n ∧ j' < nBits then some (bitF (Perms.streamBit 63 fs (p + (i' - i) * nBits + j')))
        else env.ys i' j')
  | 0, i, p, env, _, _, _ => by
    refine ⟨[], env, rfl, rfl, rfl, rfl, rfl, fun i' j' => ?_⟩
    rw [if_neg (by omega)]
  | n + 1, i, p, env, hnb, hfr, hp => by
    rw [Nat.succ_mul] at hp
    obtain ⟨c1, e1, g1, g2, g3, g4, g5, g6⟩ := rowC_run (perm := perm) (num := num) (inp := inp) hf i nBits 0 p env hnb (fun j' _ => hfr i j' (Nat.le_refl _)) (by omega)
    obtain ⟨c2, e2, k1, k2, k3, k4, k5, k6⟩ := rowsC_run hf nBits n (i + 1) (p + nBits) e1 (g4.trans hnb) (fun i' j' hi => by
      rw [g6, if_neg (by omega)]
      exact hfr i' j' (by omega)) (by omega)
    refine ⟨c1 ++ c2, e2, ?_, ?_, k3.trans g3, k4.trans g4, k5.trans g5, ?_⟩
    · rw [CT.rowsC, g1, Option.bind_some]
      dsimp only
      rw [k1]
      rfl
    · rw [runTs_append, g2, Option.bind_some, k2]
    · intro i' j'
      rw [k6]
      by_cases h1 : i + 1 ≤ i' ∧ i' < i + 1 + n ∧ j' < nBits
      · rw [if_pos h1, if_pos ⟨by omega, by omega, h1.2.2⟩]
        have : i' - i = i' - (i + 1) + 1 := by omega
        rw [this, Nat.succ_mul]
        congr 3
        omega
      · rw [if_neg h1, g6]
        by_cases h2 : i' = i ∧ j' < nBits
        · rw [if_pos ⟨h2.1, Nat.zero_le _, by omega⟩, if_pos ⟨by omega, by omega, h2.2⟩, h2.1, Nat.sub_self, Nat.zero_mul, Nat.sub_zero,
            Nat.add_zero]
        · rw [if_neg (by omega), if_neg (by omega)]

/-- `getPermutations` -/
theorem perms_sim (hp : IsState perm) {env : TEnv F O} {ct : CT I O} {t : TranscriptGL.T F} (h : Sim perm num inp env ct t)
    (hy : ∀ i j, env.ys i j = none) {n nBits m : Nat} (hm : Perms.nFields 63 n nBits = some m) (hb : nBits ≤ 64) :
    ∃ env' t' fs ys ct', TranscriptGL.getMany perm m t = some (fs, t') ∧ Perms.permutations 63 (fs.map num) n nBits = some ys ∧
      ct.getPermutations n nBits = some ct' ∧ Sim perm num inp env' ct' t' ∧ env'.av = env.av ∧ ys.length = n ∧
      (∀ i j, env'.ys i j = if i < n ∧ j < nBits then some (bitF ((ys.getD i 0).testBit j)) else none) ∧ ∀ y ∈ ys, y < 2 ^ nBits := by
  obtain ⟨e1, t1, fs, c1, cs, g1, k1, m1, l1, f1, -, p1, q1⟩ := fieldsC_sim hp m h
  have hf : List.Forall₂ (fun c f => e1.nb c = some f) cs (fs.map num) := by
    rw [List.forall₂_map_right_iff]
    exact f1
  obtain ⟨ys, y1, y2, y3⟩ := Perms.permutations_spec (w := 63) (by omega) n nBits m hb (fs.map num) hm (by rw [List.length_map, l1])
  have hlen : n * nBits ≤ 63 * (fs.map num).length := by
    rw [List.length_map, l1]
    unfold Perms.nFields at hm
    split_ifs at hm
    have := Option.some.inj hm
    rw [← this]
    have h1 := Nat.div_add_mod (n * nBits - 1) 63
    have h2 := Nat.mod_lt (n * nBits - 1) (show 0 < 63 by omega)
    omega
  obtain ⟨code, e2, r1, r2, r3, r4, r5, r6⟩ := rowsC_run (perm := perm) (num := num) (inp := inp) hf nBits n 0 0 e1 rfl (fun i' j' _ => by rw [q1]; exact hy i' j') (by omega)
  refine ⟨e2, t1, fs, ys, { c1 with code := c1.code ++ code }, g1, y1, ?_, ?_, r3.trans p1, y2, ?_, ?_⟩
  · rw [CT.getPermutations, hm, Option.bind_some, k1, Option.bind_some]
    dsimp only
    rw [show (⟨0, 0⟩ : Perms.Cur) = Perms.cur 63 0 by simp [Perms.cur], r1]
    rfl
  · refine ⟨m1.state.mono (by rw [r5]; exact fun _ _ h => h), m1.pending.mono (by rw [r5]; exact fun _ _ h => h),
      m1.out.mono (by rw [r5]; exact fun _ _ h => h), ?_, ?_, ?_, m1.inv⟩
    · dsimp only
      rw [runTs_append, m1.run, Option.bind_some, r2]
    · rw [r5]; exact m1.freshH
    · rw [r4]; exact m1.freshN
  · intro i j
    rw [r6, q1]
    by_cases hij : i < n ∧ j < nBits
    · rw [if_pos ⟨Nat.zero_le _, by omega, hij.2⟩, if_pos hij, (y3 i hij.1).2 j hij.2, Nat.zero_add, Nat.sub_zero]
      rfl
    · rw [if_neg (by omega), if_neg hij]
      exact hy i j
  · intro y hy
    obtain ⟨i, hi, rfl⟩ := List.getElem_of_mem hy
    have := (y3 i (by omega)).1
    rwa [List.getD_eq_getElem?_getD, List.getElem?_eq_getElem hi, Option.getD_some] at this

/-- the names a sequence of calls assigns -/
def dsts : List (COp I O) → List O
  | [] => []
  | .getField d :: l => d :: dsts l
  | _ :: l => dsts l

/-- number of calls of `getPermutations` -/
def nPerms : List (COp I O) → Nat
  | [] => 0
  | .perms _ _ :: l => nPerms l + 1
  | _ :: l => nPerms l

/-- what the circuit's signals must be for an answer of the native transcript -/
def Holds (env : TEnv F O) : COut O F → Prop
  | .field d v => ∀ k, env.av d k = v[k]?
  | .perms n b ys => ys.length = n ∧ ∀ i j, env.ys i j = if i < n ∧ j < b then some (bitF ((ys.getD i 0).testBit j)) else none

theorem script_sim (hp : IsState perm) : ∀ (ops : List (COp I O)) {env : TEnv F O} {ct : CT I O} {t : TranscriptGL.T F},
    Sim perm num inp env ct t → (dsts ops).Nodup → (∀ d ∈ dsts ops, ∀ k, env.av d k = none) → nPerms ops ≤ 1 →
    (nPerms ops = 1 → ∀ i j, env.ys i j = none) →
    (∀ n b, COp.perms n b ∈ ops → Perms.nFields 63 n b ≠ none ∧ b ≤ 64) →
    ∃ ct' env' outs, genT ops ct = some ct' ∧ runTs perm num inp .empty ct'.code = some env' ∧ nativeT perm num inp ops t = some outs ∧
      (∀ o ∈ outs, Holds env' o) ∧ (∀ d, d ∉ dsts ops → env'.av d = env.av d) ∧ (nPerms ops = 0 → env'.ys = env.ys)
  | [], env, ct, t, h, _, _, _, _, _ => ⟨ct, env, [], rfl, h.run, rfl, by simp, fun _ _ => rfl, fun _ => rfl⟩
  | .put as :: l, env, ct, t, h, hn, hd, hq, hy, hb => by
    obtain ⟨e1, t1, g1, s1, a1, b1, c1⟩ := put_sim hp as h
    obtain ⟨ct', env', outs, r1, r2, r3, r4, r5, r6⟩ := script_sim hp l s1 hn (fun d h k => by rw [a1]; exact hd d h k) hq
      (fun h i j => by rw [c1]; exact hy h i j) (fun n b h => hb n b (by simp [h]))
    refine ⟨ct', env', outs, r1, r2, ?_, r4, fun d h => by rw [r5 d h, a1], fun h => by rw [r6 h, c1]⟩
    rw [nativeT, put_native, g1, Option.bind_some, r3]
  | .getField d :: l, env, ct, t, h, hn, hd, hq, hy, hb => by
    have hn' := List.nodup_cons.mp hn
    obtain ⟨e1, t1, a, b, c, c1, g1, k1, s1, a1, b1, d1⟩ := getField_sim hp h (d := d) (hd d (by simp [dsts]))
    obtain ⟨ct', env', outs, r1, r2, r3, r4, r5, r6⟩ := script_sim hp l s1 hn'.2 (fun d' h k => by
        rw [a1, put3, Function.update_of_ne (by rintro rfl; exact hn'.1 h)]
        exact hd d' (by simp [dsts, h]) k) hq
      (fun h i j => by rw [d1]; exact hy h i j) (fun n b h => hb n b (by simp [h]))
    refine ⟨ct', env', .field d [a, b, c] :: outs, ?_, r2, ?_, ?_, ?_, fun h => by rw [r6 h, d1]⟩
    · rw [genT, k1, Option.bind_some, r1]
    · rw [nativeT, g1, Option.bind_some, r3]
      rfl
    · intro o ho
      rcases List.mem_cons.mp ho with rfl | ho
      · intro k
        rw [r5 d hn'.1, a1, put3, Function.update_self]
      · exact r4 o ho
    · intro d' hd'
      rw [dsts, List.mem_cons, not_or] at hd'
      rw [r5 d' hd'.2, a1, put3, Function.update_of_ne hd'.1]
  | .perms n b :: l, env, ct, t, h, hn, hd, hq, hy, hb => by
    obtain ⟨hm, h64⟩ := hb n b (by simp)
    obtain ⟨m, hm⟩ := Option.ne_none_iff_exists'.mp hm
    have hl0 : nPerms l = 0 := by
      have : nPerms l + 1 ≤ 1 := hq
      omega
    obtain ⟨e1, t1, fs, ys, c1, g1, k1, k2, s1, a1, b1, d1, -⟩ := perms_sim hp h (hy (by rw [nPerms, hl0])) hm h64
    obtain ⟨ct', env', outs, r1, r2, r3, r4, r5, r6⟩ := script_sim hp l s1 hn (fun d h k => by rw [a1]; exact hd d h k) (by omega)
      (fun h => by omega) (fun n b h => hb n b (by simp [h]))
    refine ⟨ct', env', .perms n b ys :: outs, ?_, r2, ?_, ?_, fun d h => by rw [r5 d h, a1], fun h => by simp [nPerms] at h⟩
    · rw [genT, k2, Option.bind_some, r1]
    · rw [nativeT, hm, Option.bind_some, g1, Option.bind_some, k1, Option.bind_some, r3]
      rfl
    · intro o ho
      rcases List.mem_cons.mp ho with rfl | ho
      · exact ⟨b1, fun i j => by rw [r6 hl0]; exact d1 i j⟩
      · exact r4 o ho

theorem sim_new : Sim perm num inp (.empty : TEnv F O) (CT.new : CT I O) TranscriptGL.new :=
  ⟨vals_zeros 4, .nil, .nil, rfl, fun _ _ => rfl, fun _ _ => rfl, ⟨by simp [TranscriptGL.new], by simp [TranscriptGL.new], .inl rfl⟩⟩

/-- **C107**: for every sequence of `put`, `getField` (of different names) and at most one `getPermutations` (of a nonzero number of
bits, at most 64 each), and all inputs: the generator does not panic, the printed statements compile and determine their signals, and
the signals are the challenges and the bits of the query indices of the native transcript after the same calls. -/
theorem transcript_spec (hp : IsState perm) (ops : List (COp I O)) (hn : (dsts ops).Nodup) (hq : nPerms ops ≤ 1)
    (hb : ∀ n b, COp.perms n b ∈ ops → Perms.nFields 63 n b ≠ none ∧ b ≤ 64) :
    ∃ ct env outs, genT ops CT.new = some ct ∧ runTs perm num inp .empty ct.code = some env ∧
      nativeT perm num inp ops TranscriptGL.new = some outs ∧ ∀ o ∈ outs, Holds env o := by
  obtain ⟨ct, env, outs, h1, h2, h3, h4, -⟩ := script_sim hp ops sim_new hn (fun _ _ _ => rfl) hq (fun _ _ _ => rfl) hb
  exact ⟨ct, env, outs, h1, h2, h3, h4⟩

/-! ### Example -/

/-- three inputs, a challenge, one more input, a second challenge and two indices of three bits -/
def exOps : List (COp Nat Nat) := [.put [0, 1, 2], .getField 0, .put [3], .getField 1, .perms 2 3]

example : (dsts exOps).Nodup ∧ nPerms exOps ≤ 1 ∧ (∀ n b, COp.perms n b ∈ exOps → Perms.nFields 63 n b ≠ none ∧ b ≤ 64) ∧
    IsState TranscriptGL.toyPerm := by
  refine ⟨by decide, by decide, ?_, TranscriptGL.toyPerm_state⟩
  intro n b h
  simp [exOps] at h
  obtain ⟨rfl, rfl⟩ := h
  decide

end Verif.Circom
