import Verif.Stark.ProtocolProps

/-!
# C43: which messages the verifier absorbs, and in which order

A small specification of a Fiat-Shamir transcript: a list of messages to absorb and of challenges to draw.
-/
set_option linter.unusedSectionVars false

namespace Verif.Stark
open Fri

variable {G A P Root Path Tree T : Type} [Field A] [DecidableEq A]

/-- one interaction with the transcript -/
inductive Say (G : Type)
  | absorb (m : List (List G))
  | draw

/-- run the interactions; the challenges, in the order in which they are drawn, and the final state -/
def talk (tr : Tr G A T) : List (Say G) → T → Option (List A × T)
  | [], t => some ([], t)
  | .absorb m :: s, t => (tr.put m t).bind fun t => talk tr s t
  | .draw :: s, t => (tr.getField t).bind fun (x, t) => (talk tr s t).map fun (xs, t) => (x :: xs, t)

/-- the messages of the STARK protocol: the publics, the first root; two challenges; the second root; two challenges; the third
root; a challenge; the fourth root; a challenge; the openings; two challenges -/
def starkScript (mt : MT G Root Path Tree) (els : P → List G) (p : Proof G Root Path A P) : List (Say G) :=
  p.publics.map (fun x => .absorb ((els x).map fun g => [g])) ++
  [.absorb [mt.rootElems p.root1], .draw, .draw, .absorb [mt.rootElems p.root2], .draw, .draw,
   .absorb [mt.rootElems p.root3], .draw, .absorb [mt.rootElems p.root4], .draw] ++
  p.evals.map (fun x => .absorb ((els x).map fun g => [g])) ++ [.draw, .draw]

/-- the messages of FRI with `n` steps: before each step a challenge, after it the root of the next layer, after the last one
the last polynomial -/
def friScript (mt : MT G Root Path Tree) (E : Enc G A) (last : List A) : Nat → List Root → List (Say G)
  | 0, _ => []
  | 1, _ => [.draw, .absorb ((last.map fun e => (E.enc e).map fun g => [g]).flatten)]
  | _ + 2, [] => []
  | n + 2, r :: rs => .draw :: .absorb [mt.rootElems r] :: friScript mt E last (n + 1) rs

theorem talk_append {tr : Tr G A T} (s1 s2 : List (Say G)) (t : T) : talk tr (s1 ++ s2) t =
    (talk tr s1 t).bind fun a => (talk tr s2 a.2).map fun b => (a.1 ++ b.1, b.2) := by
  induction s1 generalizing t with
  | nil => simp [talk]
  | cons a s ih =>
    cases a with
    | absorb m =>
      simp only [List.cons_append, talk]
      cases tr.put m t with
      | none => rfl
      | some t1 => simp only [Option.bind_some, ih]
    | draw =>
      simp only [List.cons_append, talk]
      cases tr.getField t with
      | none => rfl
      | some x =>
        obtain ⟨x, t1⟩ := x
        simp only [Option.bind_some, ih]
        cases talk tr s t1 with
        | none => rfl
        | some y =>
          simp only [Option.bind_some, Option.map_some]
          cases talk tr s2 y.2 <;> rfl

theorem talk_absorbs {tr : Tr G A T} (els : P → List G) (l : List P) (t : T) :
    talk tr (l.map fun x => .absorb ((els x).map fun g => [g])) t = (putAll tr els l t).map fun t => ([], t) := by
  induction l generalizing t with
  | nil => rfl
  | cons a l ih =>
    simp only [List.map_cons, talk, putAll, List.foldlM_cons]
    cases tr.put ((els a).map fun g => [g]) t with
    | none => rfl
    | some t1 => simpa [putAll] using ih t1

/-- **C43**: the verifier draws its eight challenges from the transcript of exactly these messages: every value of the proof
(publics, roots, openings) is absorbed before the challenges that follow it.  (`ctx.challenge` stores them in the order
`u, defVal, gamma, beta, vc, vf1, vf2, xi`.) -/
theorem verChallenges_script {mt : MT G Root Path Tree} {tr : Tr G A T} {els : P → List G} {new : T} {p : Proof G Root Path A P}
    {chal : List A} {t : T} : verChallenges mt tr els new p = some (chal, t) ↔
    ∃ u dv ga be vc xi v1 v2, talk tr (starkScript mt els p) new = some ([u, dv, ga, be, vc, xi, v1, v2], t) ∧
      chal = [u, dv, ga, be, vc, v1, v2, xi] := by
  have hs : talk tr (starkScript mt els p) new = (verChallenges mt tr els new p).map fun r =>
      ([r.1.getD 0 0, r.1.getD 1 0, r.1.getD 2 0, r.1.getD 3 0, r.1.getD 4 0, r.1.getD 7 0, r.1.getD 5 0, r.1.getD 6 0], r.2) := by
    unfold starkScript verChallenges
    rw [talk_append, talk_append, talk_append, talk_absorbs]
    cases putAll tr els p.publics new with
    | none => rfl
    | some t0 =>
    simp only [Option.map_some, Option.bind_some, talk, talk_absorbs, List.nil_append]
    cases tr.put [mt.rootElems p.root1] t0 with
    | none => rfl
    | some t1 =>
    simp only [Option.bind_some]
    rcases tr.getField t1 with _ | ⟨u, t2⟩
    · rfl
    simp only [Option.bind_some]
    rcases tr.getField t2 with _ | ⟨dv, t3⟩
    · rfl
    simp only [Option.bind_some]
    cases tr.put [mt.rootElems p.root2] t3 with
    | none => rfl
    | some t4 =>
    simp only [Option.bind_some]
    rcases tr.getField t4 with _ | ⟨ga, t5⟩
    · rfl
    simp only [Option.bind_some]
    rcases tr.getField t5 with _ | ⟨be, t6⟩
    · rfl
    simp only [Option.bind_some]
    cases tr.put [mt.rootElems p.root3] t6 with
    | none => rfl
    | some t7 =>
    simp only [Option.bind_some]
    rcases tr.getField t7 with _ | ⟨vc, t8⟩
    · rfl
    simp only [Option.bind_some]
    cases tr.put [mt.rootElems p.root4] t8 with
    | none => rfl
    | some t9 =>
    simp only [Option.bind_some]
    rcases tr.getField t9 with _ | ⟨xi, t10⟩
    · rfl
    simp only [Option.bind_some, Option.map_some]
    cases putAll tr els p.evals t10 with
    | none => rfl
    | some t11 =>
    simp only [Option.bind_some, Option.map_some]
    rcases tr.getField t11 with _ | ⟨v1, t12⟩
    · rfl
    simp only [Option.bind_some]
    rcases tr.getField t12 with _ | ⟨v2, t13⟩
    · rfl
    rfl
  have hl : ∀ r, verChallenges mt tr els new p = some r → ∃ u dv ga be vc v1 v2 xi, r.1 = [u, dv, ga, be, vc, v1, v2, xi] := by
    intro r h
    unfold verChallenges at h
    obtain ⟨t0, h0, h⟩ := Option.bind_eq_some_iff.mp h
    obtain ⟨t1, h0, h⟩ := Option.bind_eq_some_iff.mp h
    obtain ⟨⟨u, t2⟩, h0, h⟩ := Option.bind_eq_some_iff.mp h
    obtain ⟨⟨dv, t2⟩, h0, h⟩ := Option.bind_eq_some_iff.mp h
    obtain ⟨t3, h0, h⟩ := Option.bind_eq_some_iff.mp h
    obtain ⟨⟨ga, t2⟩, h0, h⟩ := Option.bind_eq_some_iff.mp h
    obtain ⟨⟨be, t2⟩, h0, h⟩ := Option.bind_eq_some_iff.mp h
    obtain ⟨t3, h0, h⟩ := Option.bind_eq_some_iff.mp h
    obtain ⟨⟨vc, t2⟩, h0, h⟩ := Option.bind_eq_some_iff.mp h
    obtain ⟨t3, h0, h⟩ := Option.bind_eq_some_iff.mp h
    obtain ⟨⟨xi, t2⟩, h0, h⟩ := Option.bind_eq_some_iff.mp h
    obtain ⟨t3, h0, h⟩ := Option.bind_eq_some_iff.mp h
    obtain ⟨⟨v1, t2⟩, h0, h⟩ := Option.bind_eq_some_iff.mp h
    obtain ⟨⟨v2, t2⟩, h0, h⟩ := Option.map_eq_some_iff.mp h
    exact ⟨u, dv, ga, be, vc, v1, v2, xi, by rw [← h]; rfl⟩
  rw [hs]
  constructor
  · intro h
    obtain ⟨u, dv, ga, be, vc, v1, v2, xi, e⟩ := hl _ h
    dsimp only at e
    subst e
    rw [h]
    exact ⟨u, dv, ga, be, vc, xi, v1, v2, rfl, rfl⟩
  · rintro ⟨u, dv, ga, be, vc, xi, v1, v2, h, rfl⟩
    obtain ⟨r, h1, h2⟩ := Option.map_eq_some_iff.mp h
    obtain ⟨u', dv', ga', be', vc', v1', v2', xi', e⟩ := hl _ h1
    obtain ⟨r1, r2⟩ := r
    dsimp only at e
    subst e
    rw [h1]
    simpa [and_assoc, and_comm, and_left_comm] using h2

/-- **C43**: FRI's challenges are drawn from the transcript of exactly the roots of the later layers and the last polynomial, in
this order. -/
theorem friChallenges_script {mt : MT G Root Path Tree} {tr : Tr G A T} {E : Enc G A} {last : List A} : ∀ (steps : List Nat)
    (qs : List (Query G Root Path)) (t : T), steps.length ≤ qs.length + 1 →
    challenges mt tr E last steps qs t = talk tr (friScript mt E last steps.length (qs.map Query.root)) t := by
  intro steps
  induction steps with
  | nil => intro qs t _; rfl
  | cons nb rest ih =>
    intro qs t hl
    cases rest with
    | nil =>
      simp only [challenges, List.length_singleton, friScript, talk]
      rcases tr.getField t with _ | ⟨x, t1⟩
      · rfl
      simp only [Option.bind_some]
      cases tr.put ((last.map fun e => (E.enc e).map fun g => [g]).flatten) t1 <;> rfl
    | cons nb' rest =>
      cases qs with
      | nil => simp at hl
      | cons q qs =>
        simp only [challenges, List.length_cons, List.map_cons, friScript, talk, List.head?_cons, Option.bind_some, List.tail_cons]
        rcases tr.getField t with _ | ⟨x, t1⟩
        · rfl
        simp only [Option.bind_some]
        cases tr.put [mt.rootElems q.root] t1 with
        | none => rfl
        | some t2 =>
          simp only [Option.bind_some]
          rw [ih qs t2 (by simp only [List.length_cons] at hl ⊢; omega)]
          rfl

end Verif.Stark
