import Verif.Transcript.GLLemmas
import Mathlib.Data.List.Rotate
set_option linter.unusedSectionVars false

/-!
C29: the Goldilocks transcript, for every history of its public operations and every permutation mapping
twelve-element states to twelve-element states (`IsState`).
-/

namespace Verif.TranscriptGL
open Verif.Linear
variable {F : Type*} [Zero F]

/-- How the elements are grouped into vectors does not matter: two `put`s of lists with the same concatenation
are the same operation on every transcript, reachable or not. -/
theorem put_flatten (perm : List F → List F) (t : T F) (es es' : List (List F)) (h : es.flatten = es'.flatten) :
    put perm t es = put perm t es' := by
  rw [put_eq_addAll, put_eq_addAll, h]

/-- Splitting a `put` in two gives the same transcript. -/
theorem put_split (perm : List F → List F) (t : T F) (es es' : List (List F)) :
    put perm t (es ++ es') = (put perm t es).bind fun t' => put perm t' es' := by
  rw [put_eq_addAll, List.flatten_append, addAll, List.foldlM_append]
  simp only [put_eq_addAll]
  rfl

/-- No history of operations fails (no panic, error or endless loop), whatever is put and drawn. -/
theorem run_total {perm : List F → List F} (hp : IsState perm) (ops : List (Op F)) :
    (run perm ops new).isSome := by
  obtain ⟨r, t', h, _⟩ := run_inv hp ops new new_inv
  rw [h]; rfl

/-- After any history, a nonempty put and then `k` single-element draws: the challenges are the successive
elements of the output stream of a sponge whose capacity is the transcript's state and that absorbs, in blocks
of eight padded with zeros, what was waiting followed by what is put; any output left over from before the put
is discarded. -/
theorem challenges_after_put {perm : List F → List F} (hp : IsState perm) (ops : List (Op F)) (r : List (List F))
    (t : T F) (hrun : run perm ops new = some (r, t)) (es : List (List F)) (hes : es.flatten ≠ []) (k : Nat) :
    ∃ t' l t'', put perm t es = some t' ∧ getMany perm k t' = some (l, t'') ∧ l.length = k ∧
      ∀ j < k, l[j]? = stream perm (absorbAll perm t.state (chunks 8 (pad8 (t.pending ++ es.flatten)))) j := by
  obtain ⟨r', t1, h, hinv⟩ := run_inv hp ops new new_inv
  rw [hrun] at h
  obtain ⟨-, rfl⟩ := Prod.mk.inj (Option.some.inj h)
  obtain ⟨t', l, t'', h1, _, h2, h3, _, h4⟩ := put_then_get hp t hinv es.flatten hes k
  exact ⟨t', l, t'', by rw [put_eq_addAll]; exact h1, h2, h3, h4⟩

/-- The first challenges of a fresh transcript, spelled out: a zero-capacity sponge over everything put. -/
theorem first_challenges {perm : List F → List F} (hp : IsState perm) (es : List (List F)) (hes : es.flatten ≠ []) (k : Nat) :
    ∃ l t, run perm [.put es, .get k] new = some ([l], t) ∧ l.length = k ∧
      ∀ j < k, l[j]? = stream perm (absorbAll perm (List.replicate 4 0) (chunks 8 (pad8 es.flatten))) j := by
  obtain ⟨t', l, t'', h1, h2, h3, h4⟩ := challenges_after_put hp [] [] new rfl es hes k
  refine ⟨l, t'', ?_, h3, ?_⟩
  · simp only [run, h1, Option.bind_some, h2, Option.map_some]
  · simpa [new] using h4

theorem pad8_zeros (xs : List F) (z : Nat) (h : (xs.length + z + 7) / 8 = (xs.length + 7) / 8) :
    pad8 (xs ++ List.replicate z 0) = pad8 xs := by
  unfold pad8
  rw [List.append_assoc, List.replicate_append_replicate, List.length_append, List.length_replicate]
  congr 2
  omega

/-- Two transcripts that differ only by trailing zeros within the last block of eight before the first draw give
the same challenges: the padding is not injective. -/
theorem trailing_zeros_same_challenges {perm : List F → List F} (hp : IsState perm) (xs : List F) (hx : xs ≠ []) (z : Nat)
    (h : (xs.length + z + 7) / 8 = (xs.length + 7) / 8) (k : Nat) :
    (run perm [.put [xs], .get k] new).map Prod.fst = (run perm [.put [xs ++ List.replicate z 0], .get k] new).map Prod.fst := by
  obtain ⟨l, t, h1, h2, h3⟩ := first_challenges hp [xs] (by simpa using hx) k
  obtain ⟨l', t', h1', h2', h3'⟩ := first_challenges hp [xs ++ List.replicate z 0] (by simpa using fun h => absurd h hx) k
  have : l = l' := by
    apply List.ext_getElem?
    intro j
    by_cases hj : j < k
    · rw [h3 j hj, h3' j hj]
      simp only [List.flatten_cons, List.flatten_nil, List.append_nil, pad8_zeros xs z h]
    · rw [List.getElem?_eq_none (by omega), List.getElem?_eq_none (by omega)]
  rw [h1, h1', this]; rfl

/-- a pair of different twelve-element inputs with the same first four outputs -/
def Collides (perm : List F → List F) : Prop :=
  ∃ a b : List F, a.length = 12 ∧ b.length = 12 ∧ a ≠ b ∧ (perm a).take 4 = (perm b).take 4

theorem absorbAll_binding {perm : List F → List F} (hp : IsState perm) (c c' : List F) (hc : (c.take 4).length = 4)
    (hc' : (c'.take 4).length = 4) (bl bl' : List (List F)) (hb : ∀ b ∈ bl, b.length = 8) (hb' : ∀ b ∈ bl', b.length = 8)
    (hl : bl.length = bl'.length) (h : (absorbAll perm c bl).take 4 = (absorbAll perm c' bl').take 4) :
    (bl = bl' ∧ c.take 4 = c'.take 4) ∨ Collides perm := by
  induction bl generalizing c c' bl' with
  | nil =>
    have : bl' = [] := List.length_eq_zero_iff.mp hl.symm
    subst this
    exact Or.inl ⟨rfl, h⟩
  | cons b bl ih =>
    match bl', hl with
    | b' :: bl', hl =>
      have hb1 := hb b (by simp)
      have hb1' := hb' b' (by simp)
      have l1 : (b ++ c.take 4).length = 12 := by rw [List.length_append, hc, hb1]
      have l2 : (b' ++ c'.take 4).length = 12 := by rw [List.length_append, hc', hb1']
      rcases ih (perm (b ++ c.take 4)) (perm (b' ++ c'.take 4)) (by simp [hp _ l1]) (by simp [hp _ l2]) bl'
        (fun x hx => hb x (by simp [hx])) (fun x hx => hb' x (by simp [hx])) (by simpa using hl) h with ⟨h1, h2⟩ | h
      · by_cases he : b ++ c.take 4 = b' ++ c'.take 4
        · have := List.append_inj he (by omega)
          exact Or.inl ⟨by rw [this.1, h1], this.2⟩
        · exact Or.inr ⟨_, _, l1, l2, he, h2⟩
      · exact Or.inr h

theorem chunks_inj {n : Nat} (hn : n ≠ 0) {a b : List F} (h : chunks n a = chunks n b) : a = b := by
  rw [← chunks_flatten hn a, h, chunks_flatten hn b]

/-- Binding: if two fresh transcripts absorb different data of the same length and draw at least four elements,
and the draws agree, then there is an explicit collision of the first four outputs of the permutation. -/
theorem challenges_bind {perm : List F → List F} (hp : IsState perm) (xs ys : List F) (hx : xs ≠ [])
    (hlen : xs.length = ys.length) (hne : xs ≠ ys) (k : Nat) (hk : 4 ≤ k)
    (h : (run perm [.put [xs], .get k] new).map Prod.fst = (run perm [.put [ys], .get k] new).map Prod.fst) :
    Collides perm := by
  have hy : ys ≠ [] := by intro hc; subst hc; exact hx (List.length_eq_zero_iff.mp hlen)
  obtain ⟨l, t, h1, h2, h3⟩ := first_challenges hp [xs] (by simpa using hx) k
  obtain ⟨l', t', h1', h2', h3'⟩ := first_challenges hp [ys] (by simpa using hy) k
  rw [h1, h1'] at h
  have hll : l = l' := by simpa using h
  subst hll
  simp only [List.flatten_cons, List.flatten_nil, List.append_nil] at h3 h3'
  have pl : ∀ l : List F, (pad8 l).length % 8 = 0 := by intro l; unfold pad8; simp; omega
  have key : ∀ zs : List F, zs ≠ [] → ∀ j < 4, stream perm (absorbAll perm (List.replicate 4 0) (chunks 8 (pad8 zs))) j
      = ((absorbAll perm (List.replicate 4 0) (chunks 8 (pad8 zs))).take 4)[j]? := by
    intro zs _ j hj
    rw [List.getElem?_take_of_lt hj]
    simp [stream, Nat.div_eq_of_lt (show j < 12 by omega), Nat.mod_eq_of_lt (show j < 12 by omega), absorbAll]
  have heq : (absorbAll perm (List.replicate 4 0) (chunks 8 (pad8 xs))).take 4
      = (absorbAll perm (List.replicate 4 0) (chunks 8 (pad8 ys))).take 4 := by
    apply List.ext_getElem?
    intro j
    by_cases hj : j < 4
    · rw [← key xs hx j hj, ← key ys hy j hj, ← h3 j (by omega), ← h3' j (by omega)]
    · rw [List.getElem?_eq_none (by simp; omega), List.getElem?_eq_none (by simp; omega)]
  have hclen : (chunks 8 (pad8 xs)).length = (chunks 8 (pad8 ys)).length := by
    rw [chunks_length (by decide), chunks_length (by decide)]
    unfold pad8; simp [hlen]
  rcases absorbAll_binding hp _ _ (by simp) (by simp) _ _ (fun b hb => chunks8_len (pl _) hb)
    (fun b hb => chunks8_len (pl _) hb) hclen heq with ⟨h5, -⟩ | h5
  · exfalso
    apply hne
    have := chunks_inj (by decide) h5
    unfold pad8 at this
    exact (List.append_inj this hlen).1
  · exact h5

/-- Drawing does not depend on how the draws are grouped. -/
theorem getMany_split (perm : List F → List F) (a b : Nat) (t : T F) :
    getMany perm (a + b) t = (getMany perm a t).bind fun r => (getMany perm b r.2).map fun q => (r.1 ++ q.1, q.2) := by
  induction a generalizing t with
  | zero => rw [Nat.zero_add]; simp [getMany]
  | succ a ih =>
    rw [Nat.add_right_comm, getMany, getMany]
    cases getFields1 perm t with
    | none => rfl
    | some r =>
      simp only [Option.bind_some, ih]
      cases getMany perm a r.2 with
      | none => rfl
      | some q =>
        simp only [Option.bind_some, Option.map_some]
        cases getMany perm b q.2 <;> rfl

/-! ### Non-vacuity -/

/-- a toy permutation: rotate left by one and add one to the first element -/
def toyPerm (l : List Nat) : List Nat := (l.rotate 1).modifyHead (· + 1)

theorem toyPerm_state : IsState toyPerm := by
  intro l h
  unfold toyPerm
  rw [List.length_modifyHead, List.length_rotate, h]

example : ∃ r t, run toyPerm [.put [[1, 2], [3]], .get 3, .put [[4]], .get 2] new = some (r, t) ∧
    r = [[3, 3, 0], [1, 0]] := ⟨_, _, rfl, by decide⟩
example : (run toyPerm [.put [[1, 2], [3]]] new).isSome ∧ ([[4, 5]] : List (List Nat)).flatten ≠ [] := ⟨rfl, by decide⟩
example : (([1, 2, 3] : List Nat).length + 5 + 7) / 8 = (([1, 2, 3] : List Nat).length + 7) / 8 := by decide
/-- the constant permutation satisfies the hypotheses of `challenges_bind` -/
example : IsState (fun _ : List Nat => List.replicate 12 0) ∧
    (run (fun _ : List Nat => List.replicate 12 0) [.put [[1]], .get 4] new).map Prod.fst
      = (run (fun _ : List Nat => List.replicate 12 0) [.put [[2]], .get 4] new).map Prod.fst := ⟨fun _ _ => by simp, rfl⟩

end Verif.TranscriptGL
