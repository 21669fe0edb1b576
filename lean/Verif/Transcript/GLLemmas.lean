import Verif.Transcript.GL
set_option linter.unusedSectionVars false

namespace Verif.TranscriptGL
open Verif.Linear
variable {F : Type*} [Zero F]

def addAll (perm : List F → List F) (t : T F) (xs : List F) : Option (T F) := xs.foldlM (fun t x => add1 perm t x) t

theorem put_eq_addAll (perm : List F → List F) (t : T F) (es : List (List F)) : put perm t es = addAll perm t es.flatten := by
  unfold put addAll
  induction es generalizing t with
  | nil => rfl
  | cons e es ih => rw [List.foldlM_cons, List.flatten_cons, List.foldlM_append]; congr 1; funext t'; exact ih t'

theorem absorbAll_length {perm : List F → List F} (hp : IsState perm) (o : List F) (ho : (o.take 4).length = 4)
    (bl : List (List F)) (hb : ∀ b ∈ bl, b.length = 8) :
    ((absorbAll perm o bl).take 4).length = 4 ∧ (bl ≠ [] → (absorbAll perm o bl).length = 12) := by
  induction bl generalizing o with
  | nil => exact ⟨ho, fun h => absurd rfl h⟩
  | cons b bl ih =>
    have h12 : (perm (b ++ o.take 4)).length = 12 := hp _ (by rw [List.length_append, ho, hb b (by simp)])
    have := ih (perm (b ++ o.take 4)) (by simp [h12]) (fun x hx => hb x (by simp [hx]))
    refine ⟨this.1, fun _ => ?_⟩
    by_cases h : bl = []
    · subst h; exact h12
    · exact this.2 h

theorem absorbAll_take (perm : List F → List F) (o : List F) (bl : List (List F)) (h : bl ≠ []) :
    absorbAll perm (o.take 4) bl = absorbAll perm o bl := by
  cases bl with
  | nil => exact absurd rfl h
  | cons b bl => simp [absorbAll, List.take_take]

theorem absorbAll_take' (perm : List F → List F) (o : List F) (bl : List (List F)) :
    (absorbAll perm (o.take 4) bl).take 4 = (absorbAll perm o bl).take 4 := by
  by_cases h : bl = []
  · subst h; simp [absorbAll, List.take_take]
  · rw [absorbAll_take perm o bl h]

theorem absorbAll_append (perm : List F → List F) (o : List F) (b1 b2 : List (List F)) :
    absorbAll perm o (b1 ++ b2) = absorbAll perm (absorbAll perm o b1) b2 := by
  simp [absorbAll, List.foldl_append]

theorem updateState_eq {perm : List F → List F} (hp : IsState perm) (t : T F) (hpend : t.pending.length ≤ 8)
    (hst : t.state.length = 4) :
    updateState perm t = some ⟨(perm ((t.pending ++ List.replicate (8 - t.pending.length) 0) ++ t.state)).take 4, [],
      perm ((t.pending ++ List.replicate (8 - t.pending.length) 0) ++ t.state)⟩ := by
  unfold updateState poseidonHash
  rw [if_pos ⟨by simp; omega, hst⟩]
  have : (perm ((t.pending ++ List.replicate (8 - t.pending.length) 0) ++ t.state)).take 12
      = perm ((t.pending ++ List.replicate (8 - t.pending.length) 0) ++ t.state) := by
    apply List.take_of_length_le
    rw [hp _ (by simp [hst]; omega)]
  simp only [Option.map_some, this]

/-- transcript holding the data `all` absorbed on top of the capacity `st` -/
def absorbed (perm : List F → List F) (st all : List F) : T F :=
  ⟨(absorbAll perm st (chunks 8 (all.take (all.length / 8 * 8)))).take 4, all.drop (all.length / 8 * 8),
    if (all.drop (all.length / 8 * 8)).length = 0 then absorbAll perm st (chunks 8 (all.take (all.length / 8 * 8))) else []⟩

theorem absorbed_short (perm : List F → List F) {st all : List F} (hst : st.length = 4) (hne : all ≠ []) (h : all.length < 8) :
    absorbed perm st all = ⟨st, all, []⟩ := by
  unfold absorbed
  have h0 : all.length / 8 = 0 := Nat.div_eq_of_lt h
  have hst4 : st.take 4 = st := List.take_of_length_le (by omega)
  rw [h0]
  simp [absorbAll, hst4, hne]

theorem absorbed_block {perm : List F → List F} {st b xs : List F} (hst : st.length = 4) (hb : b.length = 8)
    (_h12 : (perm (b ++ st)).length = 12) :
    absorbed perm st (b ++ xs) = if xs = [] then ⟨(perm (b ++ st)).take 4, [], perm (b ++ st)⟩
      else absorbed perm ((perm (b ++ st)).take 4) xs := by
  have hst4 : st.take 4 = st := List.take_of_length_le (by omega)
  have hlen : (b ++ xs).length / 8 * 8 = 8 + xs.length / 8 * 8 := by
    rw [List.length_append, hb, Nat.add_comm, Nat.add_div_right _ (by decide)]; omega
  have ht : (b ++ xs).take (8 + xs.length / 8 * 8) = b ++ xs.take (xs.length / 8 * 8) := by
    rw [← hb, List.take_length_add_append]
  have hd : (b ++ xs).drop (8 + xs.length / 8 * 8) = xs.drop (xs.length / 8 * 8) := by
    rw [← hb, List.drop_length_add_append]
  have e2 : absorbAll perm st (b :: chunks 8 (xs.take (xs.length / 8 * 8)))
      = absorbAll perm (perm (b ++ st)) (chunks 8 (xs.take (xs.length / 8 * 8))) := by
    simp [absorbAll, hst4]
  unfold absorbed
  rw [hlen, ht, hd, chunks_append (by decide) _ hb, e2]
  split_ifs with hr hx hx
  · subst hx; simp [absorbAll]
  · rw [absorbAll_take']
    congr 1
    symm
    apply absorbAll_take
    intro hc
    have hc2 := chunks_flatten (show 8 ≠ 0 by decide) (xs.take (xs.length / 8 * 8))
    rw [hc] at hc2
    have hc3 := congrArg List.length hc2
    have : 0 < xs.length := List.length_pos_iff.mpr hx
    simp only [List.flatten_nil, List.length_nil, List.length_take, List.length_drop] at hc3 hr
    omega
  · subst hx; simp at hr
  · rw [absorbAll_take']

/-- full blocks and rest of the data waiting -/
theorem addAll_spec {perm : List F → List F} (hp : IsState perm) (t : T F) (ht : Inv t) (xs : List F) (hx : xs ≠ []) :
    addAll perm t xs = some (absorbed perm t.state (t.pending ++ xs)) := by
  induction xs generalizing t with
  | nil => exact absurd rfl hx
  | cons x xs ih =>
    have hpend := ht.pend
    have hst := ht.st
    unfold addAll
    rw [List.foldlM_cons]
    have e : t.pending ++ x :: xs = (t.pending ++ [x]) ++ xs := by simp
    rw [e]
    by_cases hfull : (t.pending ++ [x]).length = 8
    · have hadd : add1 perm t x = some ⟨(perm ((t.pending ++ [x]) ++ t.state)).take 4, [],
          perm ((t.pending ++ [x]) ++ t.state)⟩ := by
        unfold add1
        rw [if_pos hfull, updateState_eq hp ⟨t.state, t.pending ++ [x], []⟩ (by change (t.pending ++ [x]).length ≤ 8; omega) hst]
        simp only [hfull, Nat.sub_self, List.replicate_zero, List.append_nil]
      rw [hadd]
      simp only [Option.bind_eq_bind, Option.bind_some]
      generalize hb : t.pending ++ [x] = b at *
      have h12 : (perm (b ++ t.state)).length = 12 := hp _ (by simp [hfull, hst])
      rw [absorbed_block hst hfull h12]
      split_ifs with hxs
      · subst hxs; rfl
      · have h2 := ih ⟨(perm (b ++ t.state)).take 4, [], perm (b ++ t.state)⟩
          ⟨by simp, by simp [h12], Or.inl rfl⟩ hxs
        unfold addAll at h2
        rw [h2]; rfl
    · have hadd : add1 perm t x = some ⟨t.state, t.pending ++ [x], []⟩ := by
        unfold add1; rw [if_neg hfull]
      rw [hadd]
      simp only [Option.bind_eq_bind, Option.bind_some]
      have hfull' : t.pending.length + 1 ≠ 8 := by simpa using hfull
      by_cases hxs : xs = []
      · subst hxs
        rw [List.append_nil, absorbed_short perm hst (by simp) (by simp; omega)]
        rfl
      · have h2 := ih ⟨t.state, t.pending ++ [x], []⟩ ⟨by simp; omega, hst, Or.inr rfl⟩ hxs
        unfold addAll at h2
        rw [h2]

theorem getFields1_refill {perm : List F → List F} {t : T F} {st o : List F} (hout : t.out = []) (ho : o ≠ [])
    (hu : updateState perm t = some ⟨st, [], o⟩) :
    getFields1 perm t = some (o.head ho, ⟨st, [], o.drop 1⟩) := by
  unfold getFields1
  rw [hout]
  simp only [hu, Option.bind_some]
  match o, ho with
  | v :: r, _ => simp

theorem getMany_stream {perm : List F → List F} (hp : IsState perm) (k : Nat) (o : List F) (ho : o.length = 12) (i : Nat)
    (hi : i ≤ 12) :
    ∃ l t, getMany perm k ⟨o.take 4, [], o.drop i⟩ = some (l, t) ∧ l.length = k ∧ Inv t ∧
      ∀ j < k, l[j]? = stream perm o (i + j) := by
  induction k generalizing o i with
  | zero => exact ⟨[], _, rfl, rfl, ⟨by simp, by simp [ho], Or.inl rfl⟩, by omega⟩
  | succ k ih =>
    by_cases h : i < 12
    · have hd : o.drop i = o[i]'(by omega) :: o.drop (i + 1) := List.drop_eq_getElem_cons (by omega)
      obtain ⟨l, t, h1, h2, h3, h4⟩ := ih o ho (i + 1) (by omega)
      refine ⟨o[i]'(by omega) :: l, t, ?_, by simp [h2], h3, ?_⟩
      · rw [getMany, getFields1, hd]
        simp only [Option.bind_some]
        rw [h1]; rfl
      · intro j hj
        cases j with
        | zero =>
          simp only [stream, Nat.add_zero, Nat.div_eq_of_lt h, Nat.mod_eq_of_lt h, List.replicate_zero, absorbAll,
            List.foldl_nil]
          simp [show i < o.length by omega]
        | succ j =>
          rw [List.getElem?_cons_succ, h4 j (by omega)]
          congr 1; omega
    · have hi12 : i = 12 := by omega
      subst hi12
      have hd : o.drop 12 = [] := List.drop_of_length_le (by omega)
      have h4l : (o.take 4).length = 4 := by simp [ho]
      have hO : (perm (List.replicate 8 0 ++ o.take 4)).length = 12 := hp _ (by simp [ho])
      set o' := perm (List.replicate 8 0 ++ o.take 4) with ho'
      obtain ⟨l, t, h1, h2, h3, h4⟩ := ih o' hO 1 (by omega)
      have hne : o' ≠ [] := by intro hc; rw [hc] at hO; simp at hO
      refine ⟨o'.head hne :: l, t, ?_, by simp [h2], h3, ?_⟩
      · rw [getMany, hd]
        have hu := updateState_eq hp (⟨o.take 4, [], []⟩ : T F) (by simp) h4l
        simp only [List.nil_append, List.length_nil, Nat.sub_zero] at hu
        rw [← ho'] at hu
        rw [getFields1_refill (t := ⟨o.take 4, [], []⟩) rfl hne hu, Option.bind_some, h1]; rfl
      · intro j hj
        have hs : ∀ j, stream perm o (12 + j) = stream perm o' j := by
          intro j
          unfold stream
          rw [show (12 + j) / 12 = j / 12 + 1 by omega, show (12 + j) % 12 = j % 12 by omega, List.replicate_succ]
          simp only [absorbAll, List.foldl_cons]
          rw [← ho']
        rw [hs]
        cases j with
        | zero => simp [stream, absorbAll, List.head_eq_getElem, hO]
        | succ j => rw [List.getElem?_cons_succ, h4 j (by omega), Nat.add_comm]

theorem pad8_split (all : List F) :
    chunks 8 (pad8 all) = chunks 8 (all.take (all.length / 8 * 8)) ++
      (if (all.drop (all.length / 8 * 8)).length = 0 then []
       else [all.drop (all.length / 8 * 8) ++ List.replicate (8 - (all.drop (all.length / 8 * 8)).length) 0]) := by
  induction hn : all.length using Nat.strong_induction_on generalizing all with
  | _ n ih =>
    subst hn
    by_cases h8 : all.length < 8
    · have h0 : all.length / 8 = 0 := Nat.div_eq_of_lt h8
      rw [h0]
      simp only [zero_mul, List.take_zero, chunks_nil, List.drop_zero, List.nil_append]
      split_ifs with h
      · have : all = [] := List.length_eq_zero_iff.mp h
        subst this; simp [pad8]
      · have hp8 : pad8 all = all ++ List.replicate (8 - all.length) 0 := by unfold pad8; congr 2; omega
        have hne : all ++ List.replicate (8 - all.length) (0 : F) ≠ [] := by
          intro hc; simp at hc; simp [hc.1] at h
        rw [hp8, chunks_short (by decide) hne (by simp; omega)]
    · have e : all = all.take 8 ++ all.drop 8 := (List.take_append_drop 8 all).symm
      have hl8 : (all.take 8).length = 8 := by simp; omega
      have hpad : pad8 all = all.take 8 ++ pad8 (all.drop 8) := by
        unfold pad8
        rw [← List.append_assoc, List.take_append_drop, List.length_drop]
        congr 2; omega
      have ih' := ih (all.drop 8).length (by simp; omega) _ rfl
      have hq : all.length / 8 * 8 = 8 + (all.drop 8).length / 8 * 8 := by rw [List.length_drop]; omega
      have ht : all.take (all.length / 8 * 8) = all.take 8 ++ (all.drop 8).take ((all.drop 8).length / 8 * 8) := by
        rw [hq, List.take_add]
      have hd : all.drop (all.length / 8 * 8) = (all.drop 8).drop ((all.drop 8).length / 8 * 8) := by
        rw [hq, List.drop_drop]
      rw [hpad, chunks_append (by decide) _ hl8, ih', ht, hd, chunks_append (by decide) _ hl8]
      rfl

theorem chunks8_len {l x : List F} (hl : l.length % 8 = 0) (hx : x ∈ chunks 8 l) : x.length = 8 :=
  chunks_exact (m := l.length / 8) (by decide) (by omega) hx

/-- state reached by putting at least one element, in terms of the padded blocks; the next gets give its stream -/
theorem put_then_get {perm : List F → List F} (hp : IsState perm) (t : T F) (ht : Inv t) (xs : List F) (hx : xs ≠ [])
    (k : Nat) :
    ∃ t' l t'', addAll perm t xs = some t' ∧ Inv t' ∧ getMany perm k t' = some (l, t'') ∧ l.length = k ∧ Inv t'' ∧
      ∀ j < k, l[j]? = stream perm (absorbAll perm t.state (chunks 8 (pad8 (t.pending ++ xs)))) j := by
  have hspec := addAll_spec hp t ht xs hx
  unfold absorbed at hspec
  have hst4 : (t.state.take 4).length = 4 := by simp [ht.st]
  generalize hall : t.pending ++ xs = all at *
  have hne : 0 < all.length := by
    rw [← hall]; have := List.length_pos_iff.mpr hx; simp; omega
  have hfl : ∀ b ∈ chunks 8 (all.take (all.length / 8 * 8)), b.length = 8 := by
    intro b hb
    refine chunks8_len ?_ hb
    rw [List.length_take]; omega
  have hO := absorbAll_length hp t.state hst4 _ hfl
  have hsplit := pad8_split all
  by_cases hr : (all.drop (all.length / 8 * 8)).length = 0
  · rw [if_pos hr] at hspec hsplit
    rw [List.append_nil] at hsplit
    have hfne : chunks 8 (all.take (all.length / 8 * 8)) ≠ [] := by
      intro hc
      have hc2 := chunks_flatten (show 8 ≠ 0 by decide) (all.take (all.length / 8 * 8))
      rw [hc] at hc2
      have hc3 := congrArg List.length hc2
      simp only [List.flatten_nil, List.length_nil, List.length_take, List.length_drop] at hc3 hr
      omega
    have h12 := hO.2 hfne
    have hnil : all.drop (all.length / 8 * 8) = [] := List.length_eq_zero_iff.mp hr
    rw [hnil] at hspec
    generalize hoo : absorbAll perm t.state (chunks 8 (all.take (all.length / 8 * 8))) = o at *
    obtain ⟨l, t2, h1, h2, h3, h4⟩ := getMany_stream hp k o h12 0 (by omega)
    refine ⟨_, l, t2, hspec, ⟨by simp, by simp [h12], Or.inl rfl⟩, by simpa using h1, h2, h3, ?_⟩
    intro j hj
    rw [h4 j hj, hsplit, hoo, Nat.zero_add]
  · rw [if_neg hr] at hspec hsplit
    generalize hrest : all.drop (all.length / 8 * 8) = rest at *
    have hrl : rest.length < 8 := by rw [← hrest, List.length_drop]; omega
    generalize hoo : absorbAll perm t.state (chunks 8 (all.take (all.length / 8 * 8))) = o at *
    have hInv : Inv (⟨o.take 4, rest, []⟩ : T F) := ⟨hrl, hO.1, Or.inr rfl⟩
    set o' := perm ((rest ++ List.replicate (8 - rest.length) 0) ++ o.take 4) with ho'
    have h12 : o'.length = 12 := hp _ (by rw [List.length_append, hO.1]; simp; omega)
    have hu := updateState_eq hp (⟨o.take 4, rest, []⟩ : T F) (by change rest.length ≤ 8; omega) hO.1
    rw [← ho'] at hu
    have habs : absorbAll perm t.state (chunks 8 (pad8 all)) = o' := by
      rw [hsplit, absorbAll_append, hoo]; simp [absorbAll, ho']
    cases k with
    | zero => exact ⟨_, [], _, hspec, hInv, rfl, rfl, hInv, by omega⟩
    | succ k =>
      obtain ⟨l, t2, h1, h2, h3, h4⟩ := getMany_stream hp (k + 1) o' h12 0 (by omega)
      refine ⟨_, l, t2, hspec, hInv, ?_, h2, h3, ?_⟩
      · have hne : o' ≠ [] := by intro hc; rw [hc] at h12; simp at h12
        rw [← h1, getMany, getMany, getFields1_refill (t := ⟨o.take 4, rest, []⟩) rfl hne hu]
        have : getFields1 perm ⟨o'.take 4, [], o'.drop 0⟩ = some (o'.head hne, ⟨o'.take 4, [], o'.drop 1⟩) := by
          unfold getFields1
          clear_value o'
          match o', hne with
          | v :: r, _ => simp
        rw [this]
      · intro j hj
        rw [h4 j hj, habs, Nat.zero_add]

theorem getMany_inv {perm : List F → List F} (hp : IsState perm) (k : Nat) (t : T F) (ht : Inv t) :
    ∃ l t', getMany perm k t = some (l, t') ∧ l.length = k ∧ Inv t' := by
  induction k generalizing t with
  | zero => exact ⟨[], t, rfl, rfl, ht⟩
  | succ k ih =>
    have h1 : ∃ v t1, getFields1 perm t = some (v, t1) ∧ Inv t1 := by
      unfold getFields1
      match ho : t.out with
      | v :: rest =>
        refine ⟨v, _, rfl, ht.pend, ht.st, ?_⟩
        rcases ht.excl with h | h
        · exact Or.inl h
        · rw [ho] at h; simp at h
      | [] =>
        simp only []
        rw [updateState_eq hp t (by have := ht.pend; omega) ht.st, Option.bind_some]
        set o' := perm ((t.pending ++ List.replicate (8 - t.pending.length) 0) ++ t.state) with ho'
        have h12 : o'.length = 12 := hp _ (by have := ht.pend; simp [ht.st]; omega)
        clear_value o'
        match o', h12 with
        | v :: rest, h12 => exact ⟨v, _, rfl, by simp, by simp at h12 ⊢; omega, Or.inl rfl⟩
    obtain ⟨v, t1, h2, h3⟩ := h1
    obtain ⟨l, t', h4, h5, h6⟩ := ih t1 h3
    exact ⟨v :: l, t', by rw [getMany, h2, Option.bind_some, h4]; rfl, by simp [h5], h6⟩

theorem new_inv : Inv (new : T F) := ⟨by simp [new], by simp [new], Or.inl rfl⟩

/-- histories never fail and preserve the invariant -/
theorem run_inv {perm : List F → List F} (hp : IsState perm) (ops : List (Op F)) (t : T F) (ht : Inv t) :
    ∃ r t', run perm ops t = some (r, t') ∧ Inv t' := by
  induction ops generalizing t with
  | nil => exact ⟨[], t, rfl, ht⟩
  | cons op ops ih =>
    cases op with
    | put es =>
      have : ∃ t1, put perm t es = some t1 ∧ Inv t1 := by
        rw [put_eq_addAll]
        by_cases h : es.flatten = []
        · rw [h]; exact ⟨t, rfl, ht⟩
        · obtain ⟨t1, _, _, h1, h2, _⟩ := put_then_get hp t ht _ h 0
          exact ⟨t1, h1, h2⟩
      obtain ⟨t1, h1, h2⟩ := this
      obtain ⟨r, t', h3, h4⟩ := ih t1 h2
      exact ⟨r, t', by rw [run, h1, Option.bind_some, h3], h4⟩
    | get k =>
      obtain ⟨l, t1, h1, _, h2⟩ := getMany_inv hp k t ht
      obtain ⟨r, t', h3, h4⟩ := ih t1 h2
      exact ⟨l :: r, t', by rw [run, h1, Option.bind_some, h3]; rfl, h4⟩

end Verif.TranscriptGL
