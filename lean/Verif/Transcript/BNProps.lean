import Verif.Transcript.BNLemmas
import Verif.Transcript.Perms
set_option linter.unusedSectionVars false

/-!
C30: the BN128 / BLS12-381 transcript, for every Poseidon function, every encoding and every splitting of a
scalar in three.
-/

namespace Verif.TranscriptBN
variable {F G : Type*} [Zero F]

/-- every vector put is one the code accepts (length one or four), for the encoding `enc` -/
def Encodable (enc : List G → Option F) (es : List (List G)) : Prop := ∀ e ∈ es, (enc e).isSome

/-- no single-element draw in the history; only `put`, `get_field` and `get_permutations` -/
def NoSingle (enc : List G → Option F) (ops : List (Op G)) : Prop :=
  ∀ op ∈ ops, op ≠ .single ∧ ∀ es, op = .put es → Encodable enc es

theorem encodable_map {enc : List G → Option F} {es : List (List G)} (h : Encodable enc es) :
    ∃ xs : List F, es.map enc = xs.map some := by
  induction es with
  | nil => exact ⟨[], rfl⟩
  | cons e es ih =>
    obtain ⟨xs, hx⟩ := ih (fun a ha => h a (by simp [ha]))
    obtain ⟨x, he⟩ := Option.isSome_iff_exists.mp (h e (by simp))
    exact ⟨x :: xs, by simp [hx, he]⟩

theorem draw253_inv {perm : List F → F → List F} (hp : IsHash perm) (k : Nat) (t : T F G) (ht : Inv t) (h3 : t.out3 = []) :
    ∃ l t', draw253 perm k t = some (l, t') ∧ Inv t' ∧ t'.out3 = [] := by
  induction k generalizing t with
  | zero => exact ⟨[], t, rfl, ht, h3⟩
  | succ k ih =>
    obtain ⟨v, t1, h1, h2, h4⟩ := get253_inv hp t ht h3
    obtain ⟨l, t', h5, h6, h7⟩ := ih t1 h2 h4
    exact ⟨v :: l, t', by rw [draw253, h1, Option.bind_some, h5]; rfl, h6, h7⟩

theorem run_inv {perm : List F → F → List F} (hp : IsHash perm) (enc : List G → Option F) (split : F → List G)
    (hs : ∀ x, (split x).length = 3) (ops : List (Op G)) (ho : NoSingle enc ops) (t : T F G) (ht : Inv t) (h3 : t.out3 = []) :
    ∃ r t', run perm enc split ops t = some (r, t') ∧ Inv t' ∧ t'.out3 = [] := by
  induction ops generalizing t with
  | nil => exact ⟨[], t, rfl, ht, h3⟩
  | cons op ops ih =>
    have hstep : ∃ r t1, stepOp perm enc split t op = some (r, t1) ∧ Inv t1 ∧ t1.out3 = [] := by
      cases op with
      | put es =>
        obtain ⟨xs, hx⟩ := encodable_map ((ho _ (by simp)).2 es rfl)
        unfold stepOp
        simp only []
        rw [put_eq_addAll perm enc t es xs hx]
        by_cases h : xs = []
        · subst h; exact ⟨.none, t, rfl, ht, h3⟩
        · obtain ⟨t1, _, _, h1, h2, h2', _⟩ := put_then_draw hp t ht h3 xs h 0
          exact ⟨.none, t1, by rw [h1]; rfl, h2, h2'⟩
      | field =>
        unfold stepOp
        simp only []
        rw [getField_eq perm split hs t h3]
        obtain ⟨v, t1, h1, h2, h4⟩ := get253_inv hp t ht h3
        rw [h1]
        exact ⟨_, _, rfl, ⟨h2.pend, h2.excl⟩, rfl⟩
      | single => exact absurd rfl (ho _ (by simp)).1
      | perms k =>
        unfold stepOp
        simp only []
        obtain ⟨l, t1, h1, h2, h4⟩ := draw253_inv hp k t ht h3
        rw [h1]
        exact ⟨_, _, rfl, h2, h4⟩
    obtain ⟨r, t1, h1, h2, h4⟩ := hstep
    obtain ⟨q, t', h5, h6, h7⟩ := ih (fun o h => ho o (by simp [h])) t1 h2 h4
    exact ⟨r :: q, t', by rw [run, h1, Option.bind_some, h5]; rfl, h6, h7⟩

theorem new_inv : Inv (new : T F G) := ⟨by simp [new], Or.inl rfl⟩

/-- Histories of acceptable `put`s, `get_field`s and `get_permutations` never fail. -/
theorem run_total {perm : List F → F → List F} (hp : IsHash perm) (enc : List G → Option F) (split : F → List G)
    (hs : ∀ x, (split x).length = 3) (ops : List (Op G)) (ho : NoSingle enc ops) :
    (run perm enc split ops new).isSome := by
  obtain ⟨r, t', h, _⟩ := run_inv hp enc split hs ops ho new new_inv rfl
  rw [h]; rfl

/-- `k` successive `get_field`s -/
def fields (perm : List F → F → List F) (split : F → List G) : Nat → T F G → Option (List (List G) × T F G)
  | 0, t => some ([], t)
  | k + 1, t => (getField perm split t).bind fun r => (fields perm split k r.2).map fun q => (r.1 :: q.1, q.2)

theorem fields_eq (perm : List F → F → List F) (hp : IsHash perm) (split : F → List G) (hs : ∀ x, (split x).length = 3) (k : Nat) (t : T F G)
    (ht : Inv t) (h3 : t.out3 = []) : fields perm split k t = (draw253 perm k t).map fun r => (r.1.map split, r.2) := by
  induction k generalizing t with
  | zero => rfl
  | succ k ih =>
    obtain ⟨v, t1, h1, h2, h4⟩ := get253_inv hp t ht h3
    have e : ({ t1 with out3 := [] } : T F G) = t1 := by cases t1; simp_all
    rw [fields, draw253, getField_eq perm split hs t h3, h1]
    simp only [Option.map_some, Option.bind_some, e, ih t1 h2 h4]
    cases draw253 perm k t1 <;> rfl

/-- C30, for the draws the prover and verifier make: after any history of `put`, `get_field` and
`get_permutations`, put something and draw `k` field elements (or `k` scalars for query indices): they are the
(split) successive elements of the output of a sponge that has absorbed, on top of the transcript's state, what was
waiting and everything just put. -/
theorem challenges_after_put_partial {perm : List F → F → List F} (hp : IsHash perm) (enc : List G → Option F)
    (split : F → List G) (hs : ∀ x, (split x).length = 3) (ops : List (Op G)) (ho : NoSingle enc ops)
    (r : List (Res F G)) (t : T F G) (hrun : run perm enc split ops new = some (r, t))
    (es : List (List G)) (hes : es ≠ []) (xs : List F) (hx : es.map enc = xs.map some) (k : Nat) :
    ∃ t' l t'', put perm enc t es = some t' ∧ draw253 perm k t' = some (l, t'') ∧
      fields perm split k t' = some (l.map split, t'') ∧ l.length = k ∧
      ∀ j < k, l[j]? = stream perm (absorbAll perm [t.state] (chunks 16 (pad16 (t.pending ++ xs)))) j := by
  obtain ⟨r', t1, h, hinv, h3⟩ := run_inv hp enc split hs ops ho new new_inv rfl
  rw [hrun] at h
  obtain ⟨-, rfl⟩ := Prod.mk.inj (Option.some.inj h)
  have hxs : xs ≠ [] := by
    rintro rfl
    exact hes (by simpa using hx)
  obtain ⟨t', l, t'', h1, h2, h4, h5, h6, _, _, h7⟩ := put_then_draw hp t hinv h3 xs hxs k
  refine ⟨t', l, t'', by rw [put_eq_addAll perm enc t es xs hx]; exact h1, h5, ?_, h6, h7⟩
  rw [fields_eq perm hp split hs k t' h2 h4, h5]; rfl

theorem addAll_short (perm : List F → F → List F) (t : T F G) (xs : List F) (h : t.pending.length + xs.length < 16) :
    addAll perm t xs = some ⟨t.state, t.pending ++ xs, if xs = [] then t.out else [], t.out3⟩ := by
  unfold addAll
  induction xs generalizing t with
  | nil => simp
  | cons x xs ih =>
    rw [List.foldlM_cons]
    simp only [List.length_cons] at h
    have hadd : add1 perm t x = some ⟨t.state, t.pending ++ [x], [], t.out3⟩ := by
      unfold add1; rw [if_neg (by simp; omega)]
    rw [hadd]
    simp only [Option.bind_eq_bind, Option.bind_some]
    rw [ih _ (by simp; omega)]
    simp

/-- The code violates C30 for single-element draws: whenever limbs are left over, and at most fifteen elements
wait after the put, the next single-element challenge does not depend on the put at all — it is the stale limb. -/
theorem stale_challenge (perm : List F → F → List F) (enc : List G → Option F) (split : F → List G) (t : T F G)
    (v : G) (rest : List G) (h3 : t.out3 = v :: rest) (es : List (List G)) (henc : Encodable enc es)
    (hlen : t.pending.length + es.length < 16) :
    ∃ t', put perm enc t es = some t' ∧ ((get1 perm split t').map Prod.fst) = some v := by
  obtain ⟨xs, hx⟩ := encodable_map henc
  have hl : xs.length = es.length := by simpa using (congrArg List.length hx).symm
  refine ⟨_, by rw [put_eq_addAll perm enc t es xs hx]; exact addAll_short perm t xs (by omega), ?_⟩
  unfold get1
  simp [h3]

/-- In particular, from a fresh transcript: draw one element, put any one to fifteen vectors, draw again; the
second challenge is the same whatever was put. -/
theorem stale_from_new {perm : List F → F → List F} (hp : IsHash perm) (enc : List G → Option F) (split : F → List G)
    (hs : ∀ x, (split x).length = 3) :
    ∃ a b : G, ∀ es, Encodable enc es → es.length < 16 →
      ∃ t, run perm enc split [.single, .put es, .single] new = some ([.elems [a], .none, .elems [b]], t) := by
  have hg : ∃ a b c t1, get1 perm split (new : T F G) = some (a, ⟨t1, [], (perm (List.replicate 16 0) 0).drop 1, [b, c]⟩) := by
    have hu := updateState_eq hp (new : T F G) (by simp [new])
    have hO : (perm (List.replicate 16 0) 0).length = 17 := hp _ _ (by simp)
    have hne : perm (List.replicate 16 0) 0 ≠ [] := by intro hc; rw [hc] at hO; simp at hO
    have hu' : updateState perm (new : T F G) = some ⟨(perm (List.replicate 16 0) 0).headD 0, [], perm (List.replicate 16 0) 0, []⟩ := hu
    have h253 := get253_refill (t := (new : T F G)) rfl hne hu'
    match hsp : split ((perm (List.replicate 16 0) 0).head hne), hs ((perm (List.replicate 16 0) 0).head hne) with
    | [a, b, c], _ =>
      refine ⟨a, b, c, (perm (List.replicate 16 0) 0).headD 0, ?_⟩
      unfold get1
      rw [show (new : T F G).out3 = [] from rfl]
      simp only [h253, Option.bind_some, hsp]
  obtain ⟨a, b, c, s, h1⟩ := hg
  refine ⟨a, b, fun es he hl => ?_⟩
  obtain ⟨t', h2, h3⟩ := stale_challenge perm enc split
    ⟨s, [], (perm (List.replicate 16 0) 0).drop 1, [b, c]⟩ b [c] rfl es he (by simpa using hl)
  obtain ⟨q, h4, h5⟩ := Option.map_eq_some_iff.mp h3
  refine ⟨q.2, ?_⟩
  simp only [run, stepOp, h1, h2, h4, Option.map_some, Option.bind_some, h5]

/-- The limbs are the 64-bit limbs of the scalar, reduced: for a scalar below `2 ^ 192` whose limbs are
canonical Goldilocks integers, the three elements determine it. -/
theorem splitInt_spec (v : Nat) : splitInt v = [v % 2 ^ 64 % 0xFFFFFFFF00000001, v / 2 ^ 64 % 2 ^ 64 % 0xFFFFFFFF00000001,
    v / 2 ^ 128 % 2 ^ 64 % 0xFFFFFFFF00000001] := by
  have h : ∀ x : Nat, x &&& 0xFFFFFFFFFFFFFFFF = x % 2 ^ 64 := fun x => Nat.and_two_pow_sub_one_eq_mod x 64
  unfold splitInt
  rw [h, h, h, Nat.shiftRight_eq_div_pow, Nat.shiftRight_eq_div_pow]

/-! ### Non-vacuity: a toy Poseidon over `Nat` with the real splitting -/

def toy (l : List Nat) (s : Nat) : List Nat := List.range' (s + l.sum + 1) 17
def toyEnc (e : List Nat) : Option Nat := if e.length = 1 ∨ e.length = 4 then some e.sum else none

theorem toy_isHash : IsHash toy := fun l s _ => by simp [toy]
theorem splitInt_length (x : Nat) : (splitInt x).length = 3 := rfl

example : NoSingle toyEnc [.put [[1], [1, 2, 3, 4]], .field, .perms 2] := by
  intro op h
  simp only [List.mem_cons, List.not_mem_nil, or_false] at h
  rcases h with rfl | rfl | rfl
  · refine ⟨by simp, fun es he => ?_⟩
    obtain rfl := Op.put.inj he
    intro e h
    simp only [List.mem_cons, List.not_mem_nil, or_false] at h
    rcases h with rfl | rfl <;> rfl
  · exact ⟨by simp, fun es he => by cases he⟩
  · exact ⟨by simp, fun es he => by cases he⟩
/-- the stale challenge, concretely: 0 both times, whereas `get_field` sees the put -/
example : ((run toy toyEnc splitInt [.single, .put [[7]], .single] new).map Prod.fst).isSome ∧
    ((fields toy splitInt 2 (new : T Nat Nat)).map Prod.fst) = some [[1, 0, 0], [2, 0, 0]] := by
  exact ⟨rfl, by decide +kernel⟩

end Verif.TranscriptBN
