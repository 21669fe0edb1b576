import Verif.Transcript.BN
import Verif.Hash.Linear
set_option linter.unusedSectionVars false

namespace Verif.TranscriptBN
variable {F G : Type*} [Zero F]

def addAll (perm : List F → F → List F) (t : T F G) (xs : List F) : Option (T F G) :=
  xs.foldlM (fun t x => add1 perm t x) t

theorem put_eq_addAll (perm : List F → F → List F) (enc : List G → Option F) (t : T F G) (es : List (List G))
    (xs : List F) (hx : es.map enc = xs.map some) : put perm enc t es = addAll perm t xs := by
  unfold put addAll
  induction es generalizing t xs with
  | nil =>
    have : xs = [] := by simpa using hx.symm
    subst this; rfl
  | cons e es ih =>
    match xs, hx with
    | x :: xs, hx =>
      simp only [List.map_cons, List.cons.injEq] at hx
      rw [List.foldlM_cons, List.foldlM_cons, hx.1, Option.bind_some]
      congr 1; funext t'; exact ih t' xs hx.2

theorem absorbAll_length {perm : List F → F → List F} (hp : IsHash perm) (o : List F)
    (bl : List (List F)) (hb : ∀ b ∈ bl, b.length = 16) (hne : bl ≠ []) : (absorbAll perm o bl).length = 17 := by
  induction bl generalizing o with
  | nil => exact absurd rfl hne
  | cons b bl ih =>
    have h12 : (perm b (o.headD 0)).length = 17 := hp _ _ (hb b (by simp))
    by_cases h : bl = []
    · subst h; exact h12
    · exact ih _ (fun x hx => hb x (by simp [hx])) h

theorem absorbAll_head (perm : List F → F → List F) (o : List F) (bl : List (List F)) (h : bl ≠ []) :
    absorbAll perm [o.headD 0] bl = absorbAll perm o bl := by
  cases bl with
  | nil => exact absurd rfl h
  | cons b bl => simp [absorbAll]

theorem absorbAll_head' (perm : List F → F → List F) (o : List F) (bl : List (List F)) :
    (absorbAll perm [o.headD 0] bl).headD 0 = (absorbAll perm o bl).headD 0 := by
  by_cases h : bl = []
  · subst h; simp [absorbAll]
  · rw [absorbAll_head perm o bl h]

theorem absorbAll_append (perm : List F → F → List F) (o : List F) (b1 b2 : List (List F)) :
    absorbAll perm o (b1 ++ b2) = absorbAll perm (absorbAll perm o b1) b2 := by
  simp [absorbAll, List.foldl_append]

theorem updateState_eq {perm : List F → F → List F} (hp : IsHash perm) (t : T F G) (hpend : t.pending.length ≤ 16) :
    updateState perm t = some ⟨(perm (t.pending ++ List.replicate (16 - t.pending.length) 0) t.state).headD 0, [],
      perm (t.pending ++ List.replicate (16 - t.pending.length) 0) t.state, []⟩ := by
  unfold updateState
  have h := hp (t.pending ++ List.replicate (16 - t.pending.length) 0) t.state (by simp; omega)
  generalize perm (t.pending ++ List.replicate (16 - t.pending.length) 0) t.state = o at *
  match o, h with
  | o :: os, _ => rfl

/-- transcript holding the data `all` absorbed on top of the state `st`, no limb left over -/
def absorbed (perm : List F → F → List F) (st : F) (all : List F) : T F G :=
  ⟨(absorbAll perm [st] (chunks 16 (all.take (all.length / 16 * 16)))).headD 0, all.drop (all.length / 16 * 16),
    if (all.drop (all.length / 16 * 16)).length = 0 then absorbAll perm [st] (chunks 16 (all.take (all.length / 16 * 16))) else [], []⟩

theorem absorbed_short (perm : List F → F → List F) {st : F} {all : List F} (hne : all ≠ []) (h : all.length < 16) :
    (absorbed perm st all : T F G) = ⟨st, all, [], []⟩ := by
  unfold absorbed
  have h0 : all.length / 16 = 0 := Nat.div_eq_of_lt h
  rw [h0]
  simp [absorbAll, hne]

theorem absorbed_block {perm : List F → F → List F} {st : F} {b xs : List F} (hb : b.length = 16) :
    (absorbed perm st (b ++ xs) : T F G) = if xs = [] then ⟨(perm b st).headD 0, [], perm b st, []⟩
      else absorbed perm ((perm b st).headD 0) xs := by
  have hlen : (b ++ xs).length / 16 * 16 = 16 + xs.length / 16 * 16 := by
    rw [List.length_append, hb, Nat.add_comm, Nat.add_div_right _ (by decide)]; omega
  have ht : (b ++ xs).take (16 + xs.length / 16 * 16) = b ++ xs.take (xs.length / 16 * 16) := by
    rw [← hb, List.take_length_add_append]
  have hd : (b ++ xs).drop (16 + xs.length / 16 * 16) = xs.drop (xs.length / 16 * 16) := by
    rw [← hb, List.drop_length_add_append]
  have e2 : absorbAll perm [st] (b :: chunks 16 (xs.take (xs.length / 16 * 16)))
      = absorbAll perm (perm b st) (chunks 16 (xs.take (xs.length / 16 * 16))) := by
    simp [absorbAll]
  unfold absorbed
  rw [hlen, ht, hd, chunks_append (by decide) _ hb, e2]
  split_ifs with hr hx hx
  · subst hx; simp [absorbAll]
  · rw [absorbAll_head']
    congr 1
    symm
    apply absorbAll_head
    intro hc
    have hc2 := chunks_flatten (show 16 ≠ 0 by decide) (xs.take (xs.length / 16 * 16))
    rw [hc] at hc2
    have hc3 := congrArg List.length hc2
    have : 0 < xs.length := List.length_pos_iff.mpr hx
    simp only [List.flatten_nil, List.length_nil, List.length_take, List.length_drop] at hc3 hr
    omega
  · subst hx; simp at hr
  · rw [absorbAll_head']

theorem addAll_spec {perm : List F → F → List F} (hp : IsHash perm) (t : T F G) (ht : Inv t) (h3 : t.out3 = []) (xs : List F)
    (hx : xs ≠ []) : addAll perm t xs = some (absorbed perm t.state (t.pending ++ xs)) := by
  induction xs generalizing t with
  | nil => exact absurd rfl hx
  | cons x xs ih =>
    have hpend := ht.pend
    unfold addAll
    rw [List.foldlM_cons]
    have e : t.pending ++ x :: xs = (t.pending ++ [x]) ++ xs := by simp
    rw [e]
    by_cases hfull : (t.pending ++ [x]).length = 16
    · have hadd : add1 perm t x = some ⟨(perm (t.pending ++ [x]) t.state).headD 0, [],
          perm (t.pending ++ [x]) t.state, []⟩ := by
        unfold add1
        rw [if_pos hfull, updateState_eq hp ⟨t.state, t.pending ++ [x], [], t.out3⟩ (by change (t.pending ++ [x]).length ≤ 16; omega)]
        simp only [hfull, Nat.sub_self, List.replicate_zero, List.append_nil]
      rw [hadd]
      simp only [Option.bind_eq_bind, Option.bind_some]
      generalize hb : t.pending ++ [x] = b at *
      rw [absorbed_block hfull]
      split_ifs with hxs
      · subst hxs; rfl
      · have h2 := ih ⟨(perm b t.state).headD 0, [], perm b t.state, []⟩ ⟨by simp, Or.inl rfl⟩ rfl hxs
        unfold addAll at h2
        rw [h2]; rfl
    · have hadd : add1 perm t x = some ⟨t.state, t.pending ++ [x], [], []⟩ := by
        unfold add1; rw [if_neg hfull, h3]
      rw [hadd]
      simp only [Option.bind_eq_bind, Option.bind_some]
      have hfull' : t.pending.length + 1 ≠ 16 := by simpa using hfull
      by_cases hxs : xs = []
      · subst hxs
        rw [List.append_nil, absorbed_short perm (by simp) (by simp; omega)]
        rfl
      · have h2 := ih ⟨t.state, t.pending ++ [x], [], []⟩ ⟨by simp; omega, Or.inr rfl⟩ rfl hxs
        unfold addAll at h2
        rw [h2]

theorem get253_refill {perm : List F → F → List F} {t : T F G} {st : F} {o : List F} (hout : t.out = []) (ho : o ≠ [])
    (hu : updateState perm t = some ⟨st, [], o, []⟩) :
    get253 perm t = some (o.head ho, ⟨st, [], o.drop 1, []⟩) := by
  unfold get253
  rw [hout]
  simp only [hu, Option.bind_some]
  match o, ho with
  | v :: r, _ => simp

theorem draw253_stream {perm : List F → F → List F} (hp : IsHash perm) (k : Nat) (o : List F) (ho : o.length = 17) (i : Nat)
    (hi : i ≤ 17) :
    ∃ l t, draw253 perm k (⟨o.headD 0, [], o.drop i, []⟩ : T F G) = some (l, t) ∧ l.length = k ∧ Inv t ∧ t.out3 = [] ∧
      ∀ j < k, l[j]? = stream perm o (i + j) := by
  induction k generalizing o i with
  | zero => exact ⟨[], _, rfl, rfl, ⟨by simp, Or.inl rfl⟩, rfl, by omega⟩
  | succ k ih =>
    by_cases h : i < 17
    · have hd : o.drop i = o[i]'(by omega) :: o.drop (i + 1) := List.drop_eq_getElem_cons (by omega)
      obtain ⟨l, t, h1, h2, h3, h3', h4⟩ := ih o ho (i + 1) (by omega)
      refine ⟨o[i]'(by omega) :: l, t, ?_, by simp [h2], h3, h3', ?_⟩
      · rw [draw253, get253, hd]
        simp only [Option.bind_some]
        rw [h1]; rfl
      · intro j hj
        cases j with
        | zero =>
          simp only [stream, Nat.add_zero, Nat.div_eq_of_lt h, Nat.mod_eq_of_lt h, List.replicate_zero, absorbAll,
            List.foldl_nil]
          simp [show i < o.length by omega]
        | succ j =>
          rw [List.getElem?_cons_succ, h4 j (by omega)]
          congr 1; omega
    · have hi12 : i = 17 := by omega
      subst hi12
      have hd : o.drop 17 = [] := List.drop_of_length_le (by omega)
      have hO : (perm (List.replicate 16 0) (o.headD 0)).length = 17 := hp _ _ (by simp)
      set o' := perm (List.replicate 16 0) (o.headD 0) with ho'
      obtain ⟨l, t, h1, h2, h3, h3', h4⟩ := ih o' hO 1 (by omega)
      have hne : o' ≠ [] := by intro hc; rw [hc] at hO; simp at hO
      refine ⟨o'.head hne :: l, t, ?_, by simp [h2], h3, h3', ?_⟩
      · rw [draw253, hd]
        have hu := updateState_eq hp (⟨o.headD 0, [], [], []⟩ : T F G) (by simp)
        simp only [List.nil_append, List.length_nil, Nat.sub_zero] at hu
        rw [← ho'] at hu
        rw [get253_refill (t := ⟨o.headD 0, [], [], []⟩) rfl hne hu, Option.bind_some, h1]; rfl
      · intro j hj
        have hs : ∀ j, stream perm o (17 + j) = stream perm o' j := by
          intro j
          unfold stream
          rw [show (17 + j) / 17 = j / 17 + 1 by omega, show (17 + j) % 17 = j % 17 by omega, List.replicate_succ]
          simp only [absorbAll, List.foldl_cons]
          rw [← ho']
        rw [hs]
        cases j with
        | zero => simp [stream, absorbAll, List.head_eq_getElem, hO]
        | succ j => rw [List.getElem?_cons_succ, h4 j (by omega), Nat.add_comm]

theorem pad16_split (all : List F) :
    chunks 16 (pad16 all) = chunks 16 (all.take (all.length / 16 * 16)) ++
      (if (all.drop (all.length / 16 * 16)).length = 0 then []
       else [all.drop (all.length / 16 * 16) ++ List.replicate (16 - (all.drop (all.length / 16 * 16)).length) 0]) := by
  induction hn : all.length using Nat.strong_induction_on generalizing all with
  | _ n ih =>
    subst hn
    by_cases h16 : all.length < 16
    · have h0 : all.length / 16 = 0 := Nat.div_eq_of_lt h16
      rw [h0]
      simp only [zero_mul, List.take_zero, chunks_nil, List.drop_zero, List.nil_append]
      split_ifs with h
      · have : all = [] := List.length_eq_zero_iff.mp h
        subst this; simp [pad16]
      · have hp16 : pad16 all = all ++ List.replicate (16 - all.length) 0 := by unfold pad16; congr 2; omega
        have hne : all ++ List.replicate (16 - all.length) (0 : F) ≠ [] := by
          intro hc; simp at hc; simp [hc.1] at h
        rw [hp16, chunks_short (by decide) hne (by simp; omega)]
    · have e : all = all.take 16 ++ all.drop 16 := (List.take_append_drop 16 all).symm
      have hl16 : (all.take 16).length = 16 := by simp; omega
      have hpad : pad16 all = all.take 16 ++ pad16 (all.drop 16) := by
        unfold pad16
        rw [← List.append_assoc, List.take_append_drop, List.length_drop]
        congr 2; omega
      have ih' := ih (all.drop 16).length (by simp; omega) _ rfl
      have hq : all.length / 16 * 16 = 16 + (all.drop 16).length / 16 * 16 := by rw [List.length_drop]; omega
      have ht : all.take (all.length / 16 * 16) = all.take 16 ++ (all.drop 16).take ((all.drop 16).length / 16 * 16) := by
        rw [hq, List.take_add]
      have hd : all.drop (all.length / 16 * 16) = (all.drop 16).drop ((all.drop 16).length / 16 * 16) := by
        rw [hq, List.drop_drop]
      rw [hpad, chunks_append (by decide) _ hl16, ih', ht, hd, chunks_append (by decide) _ hl16]
      rfl

theorem chunks16_len {l x : List F} (hl : l.length % 16 = 0) (hx : x ∈ chunks 16 l) : x.length = 16 :=
  Linear.chunks_exact (m := l.length / 16) (by decide) (by omega) hx

/-- state reached by putting at least one element, in terms of the padded blocks; the next draws give its stream -/
theorem put_then_draw {perm : List F → F → List F} (hp : IsHash perm) (t : T F G) (ht : Inv t) (h30 : t.out3 = [])
    (xs : List F) (hx : xs ≠ []) (k : Nat) :
    ∃ t' l t'', addAll perm t xs = some t' ∧ Inv t' ∧ t'.out3 = [] ∧ draw253 perm k t' = some (l, t'') ∧ l.length = k ∧
      Inv t'' ∧ t''.out3 = [] ∧
      ∀ j < k, l[j]? = stream perm (absorbAll perm [t.state] (chunks 16 (pad16 (t.pending ++ xs)))) j := by
  have hspec := addAll_spec hp t ht h30 xs hx
  unfold absorbed at hspec
  generalize hall : t.pending ++ xs = all at *
  have hne : 0 < all.length := by
    rw [← hall]; have := List.length_pos_iff.mpr hx; simp; omega
  have hfl : ∀ b ∈ chunks 16 (all.take (all.length / 16 * 16)), b.length = 16 := by
    intro b hb
    refine chunks16_len ?_ hb
    rw [List.length_take]; omega
  have hO := absorbAll_length hp [t.state] _ hfl
  have hsplit := pad16_split all
  by_cases hr : (all.drop (all.length / 16 * 16)).length = 0
  · rw [if_pos hr] at hspec hsplit
    rw [List.append_nil] at hsplit
    have hfne : chunks 16 (all.take (all.length / 16 * 16)) ≠ [] := by
      intro hc
      have hc2 := chunks_flatten (show 16 ≠ 0 by decide) (all.take (all.length / 16 * 16))
      rw [hc] at hc2
      have hc3 := congrArg List.length hc2
      simp only [List.flatten_nil, List.length_nil, List.length_take, List.length_drop] at hc3 hr
      omega
    have h12 := hO hfne
    have hnil : all.drop (all.length / 16 * 16) = [] := List.length_eq_zero_iff.mp hr
    rw [hnil] at hspec
    generalize hoo : absorbAll perm [t.state] (chunks 16 (all.take (all.length / 16 * 16))) = o at *
    obtain ⟨l, t2, h1, h2, h3, h3', h4⟩ := draw253_stream (G := G) hp k o h12 0 (by omega)
    refine ⟨_, l, t2, hspec, ⟨by simp, Or.inl rfl⟩, rfl, by simpa using h1, h2, h3, h3', ?_⟩
    intro j hj
    rw [h4 j hj, hsplit, hoo, Nat.zero_add]
  · rw [if_neg hr] at hspec hsplit
    generalize hrest : all.drop (all.length / 16 * 16) = rest at *
    have hrl : rest.length < 16 := by rw [← hrest, List.length_drop]; omega
    generalize hoo : absorbAll perm [t.state] (chunks 16 (all.take (all.length / 16 * 16))) = o at *
    have hInv : Inv (⟨o.headD 0, rest, [], []⟩ : T F G) := ⟨hrl, Or.inr rfl⟩
    set o' := perm (rest ++ List.replicate (16 - rest.length) 0) (o.headD 0) with ho'
    have h12 : o'.length = 17 := hp _ _ (by simp; omega)
    have hu := updateState_eq hp (⟨o.headD 0, rest, [], []⟩ : T F G) (by change rest.length ≤ 16; omega)
    rw [← ho'] at hu
    have habs : absorbAll perm [t.state] (chunks 16 (pad16 all)) = o' := by
      rw [hsplit, absorbAll_append, hoo]; simp [absorbAll, ho']
    cases k with
    | zero => exact ⟨_, [], _, hspec, hInv, rfl, rfl, rfl, hInv, rfl, by omega⟩
    | succ k =>
      obtain ⟨l, t2, h1, h2, h3, h3', h4⟩ := draw253_stream (G := G) hp (k + 1) o' h12 0 (by omega)
      refine ⟨_, l, t2, hspec, hInv, rfl, ?_, h2, h3, h3', ?_⟩
      · have hne : o' ≠ [] := by intro hc; rw [hc] at h12; simp at h12
        rw [← h1, draw253, draw253, get253_refill (t := ⟨o.headD 0, rest, [], []⟩) rfl hne hu]
        have : get253 perm (⟨o'.headD 0, [], o'.drop 0, []⟩ : T F G) = some (o'.head hne, ⟨o'.headD 0, [], o'.drop 1, []⟩) := by
          unfold get253
          clear_value o'
          match o', hne with
          | v :: r, _ => simp
        rw [this]
      · intro j hj
        rw [h4 j hj, habs, Nat.zero_add]

theorem get253_inv {perm : List F → F → List F} (hp : IsHash perm) (t : T F G) (ht : Inv t) (h3 : t.out3 = []) :
    ∃ v t', get253 perm t = some (v, t') ∧ Inv t' ∧ t'.out3 = [] := by
  unfold get253
  match ho : t.out with
  | v :: rest =>
    refine ⟨v, _, rfl, ⟨ht.pend, ?_⟩, h3⟩
    rcases ht.excl with h | h
    · exact Or.inl h
    · rw [ho] at h; simp at h
  | [] =>
    simp only []
    rw [updateState_eq hp t (by have := ht.pend; omega), Option.bind_some]
    set o' := perm (t.pending ++ List.replicate (16 - t.pending.length) 0) t.state with ho'
    have h12 : o'.length = 17 := hp _ _ (by have := ht.pend; simp; omega)
    clear_value o'
    match o', h12 with
    | v :: rest, h12 => exact ⟨v, _, rfl, ⟨by simp, Or.inl rfl⟩, rfl⟩

/-- with no limb left over, `get_field` is one scalar split in three -/
theorem getField_eq (perm : List F → F → List F) (split : F → List G) (hs : ∀ x, (split x).length = 3)
    (t : T F G) (h3 : t.out3 = []) :
    getField perm split t = (get253 perm t).map fun r => (split r.1, { r.2 with out3 := [] }) := by
  unfold getField
  rw [getMany, get1, h3]
  simp only []
  cases hg : get253 perm t with
  | none => rfl
  | some r =>
    have := hs r.1
    match hr : split r.1, this with
    | [a, b, c], _ =>
      simp only [Option.bind_some, hr, getMany, get1, Option.map_some]

end Verif.TranscriptBN
