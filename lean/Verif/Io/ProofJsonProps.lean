import Verif.Io.ProofJson
import Mathlib.Data.List.GetD

/-! # A STARK proof is recovered from its text -/

namespace Verif.Io.ProofJson

open Verif.GL (F MODULUS)
open Verif.Io.Text Verif.Io.Digest
open Verif.Ext3 (F3G)

variable {B M : Type} (C : Codec B M)

/-! ## Specification: which proofs are recovered -/

/-- an extension element as the arithmetic produces them: all three coefficients, or a base field element -/
def ElemOk (a : F3G) : Prop := a.dim = 3 ∨ (a.dim = 1 ∧ a.c1 = 0 ∧ a.c2 = 0)

/-- a node that is recovered from its text -/
def NodeOk (x : M) : Prop := C.de (C.ser x) = some x

/-- a base field element of a path that is recovered from the text of its node -/
def BaseOk (b : B) : Prop := (C.de (C.ser (C.fromBase b))).map C.toBase = some b

/-- a proof with the shape the prover gives it: five trees in step 0, one in each other step, the same number of queries in all of them, at most 32 steps -/
structure Shaped (prf : Proof B M) : Prop where
  ne : prf.queries ≠ []
  le32 : prf.queries.length ≤ 32
  root0 : ∀ q, prf.queries[0]? = some q → q.root = C.dflt
  five : ∀ q, prf.queries[0]? = some q → ∀ qe ∈ q.polQueries, qe.length = 5
  same : ∀ q0, prf.queries[0]? = some q0 → ∀ q ∈ prf.queries, q.polQueries.length = q0.polQueries.length
  one : ∀ i, 0 < i → ∀ q, prf.queries[i]? = some q → ∀ qe ∈ q.polQueries, qe.length = 1
  addr : C.addr = false → prf.addr = []

/-- all its parts are recovered from their text -/
structure PartsOk (prf : Proof B M) : Prop where
  root1 : NodeOk C prf.root1
  root2 : NodeOk C prf.root2
  root3 : NodeOk C prf.root3
  root4 : NodeOk C prf.root4
  rootC : ∀ c, prf.rootC = some c → NodeOk C c
  roots : ∀ q ∈ prf.queries, NodeOk C q.root
  paths : ∀ q ∈ prf.queries, ∀ qe ∈ q.polQueries, ∀ x ∈ qe, ∀ e ∈ x.2, ∀ b ∈ e, BaseOk C b
  last : ∀ a ∈ prf.last, ElemOk a
  evals : ∀ a ∈ prf.evals, ElemOk a
  publics : ∀ a ∈ prf.publics, ElemOk a

/-! ## Keys and lookup -/

theorem digits_split (a b s t : List Char) (ha : '_' ∉ a) (hb : '_' ∉ b) (h : a ++ '_' :: s = b ++ '_' :: t) : a = b ∧ s = t := by
  induction a generalizing b with
  | nil =>
    cases b with
    | nil => exact ⟨rfl, (List.cons.inj h).2⟩
    | cons c b => exact absurd (List.cons.inj h).1 (fun he => hb (he ▸ List.mem_cons_self))
  | cons c a ih =>
    cases b with
    | nil => exact absurd (List.cons.inj h).1 (fun he => ha (he ▸ List.mem_cons_self))
    | cons d b =>
      obtain ⟨h1, h2⟩ := List.cons.inj h
      obtain ⟨h3, h4⟩ := ih b (fun hm => ha (List.mem_cons_of_mem _ hm)) (fun hm => hb (List.mem_cons_of_mem _ hm)) h2
      exact ⟨by rw [h1, h3], h4⟩

theorem dec_inj {i j : Nat} (h : dec i = dec j) : i = j := by
  have h1 := Nat.ofDigitChars_ten_toDigits (n := i)
  have h2 := Nat.ofDigitChars_ten_toDigits (n := j)
  unfold dec at h
  rw [h, h2] at h1
  exact h1.symm

theorem key_inj (i j : Nat) (s t : String) : key i s = key j t ↔ i = j ∧ s = t := by
  constructor
  · intro h
    obtain ⟨h1, h2⟩ := digits_split _ _ _ _ Nat.underscore_not_in_toDigits Nat.underscore_not_in_toDigits (List.cons.inj h).2
    exact ⟨dec_inj h1, String.toList_inj.mp h2⟩
  · rintro ⟨rfl, rfl⟩; rfl

theorem key_plain (i : Nat) (s : String) (c : Char) (cs : List Char) (hc : c ≠ 's') : key i s ≠ c :: cs :=
  fun h => hc (List.cons.inj h).1.symm

theorem get_append (a b : List Entry) (k : List Char) : get (a ++ b) k = (get b k).or (get a k) := by
  unfold get
  rw [List.reverse_append, List.find?_append]
  cases List.find? (fun e => e.1 == k) b.reverse <;> simp

theorem get_none {m : List Entry} {k : List Char} (h : ∀ e ∈ m, e.1 ≠ k) : get m k = none := by
  unfold get
  rw [Option.map_eq_none_iff, List.find?_eq_none]
  intro e he
  simpa using h e (List.mem_reverse.mp he)

theorem get_some {m : List Entry} {k : List Char} {v : Js} (h : (k, v) ∈ m) (hu : ∀ e ∈ m, e.1 = k → e.2 = v) : get m k = some v := by
  unfold get
  cases hf : List.find? (fun e => e.1 == k) m.reverse with
  | none =>
    rw [List.find?_eq_none] at hf
    exact absurd (hf (k, v) (List.mem_reverse.mpr h)) (by simp)
  | some e =>
    have h1 := List.find?_some hf
    have h2 := List.mem_of_find?_eq_some hf
    rw [Option.map_some, hu e (List.mem_reverse.mp h2) (by simpa using h1)]

theorem get_single (k k' : List Char) (v : Js) : get [(k', v)] k = if k' = k then some v else none := by
  split
  · rename_i h; exact get_some (by rw [h]; exact List.mem_cons_self) (by simp)
  · rename_i h; exact get_none (by simpa using h)

theorem get_cons (e : Entry) (m : List Entry) (k : List Char) : get (e :: m) k = (get m k).or (if e.1 = k then some e.2 else none) := by
  rw [show e :: m = [e] ++ m from rfl, get_append, ← get_single]

/-! ## Vectors -/

theorem mapM_eq {α β : Type} (f : α → Option β) (g : α → β) (l : List α) (h : ∀ x ∈ l, f x = some (g x)) : l.mapM f = some (l.map g) := by
  induction l with
  | nil => rfl
  | cons x l ih =>
    rw [List.mapM_cons, h x List.mem_cons_self, ih fun y hy => h y (List.mem_cons_of_mem _ hy)]
    rfl

theorem map_getD_range {α : Type} (l : List α) (d : α) : (List.range l.length).map (fun i => l.getD i d) = l :=
  List.ext_getElem (by simp) fun i h2 h3 => by simp [h3]

theorem deVec_map {α β : Type} (f : Js → Option β) (s : α → Js) (g : α → β) (l : List α) (h : ∀ x ∈ l, f (s x) = some (g x)) :
    deVec f (.arr (l.map s)) = some (l.map g) := by
  rw [deVec, List.mapM_map, mapM_eq (f ∘ s) g l h]

theorem serVec_ok (l : List F3G) (h : ∀ a ∈ l, ElemOk a) : ∃ j, serVec l = some j ∧ deVec deF3 j = some l := by
  have hs : ∀ a ∈ l, ∃ j, serF3 a = some j ∧ deF3 j = some a := by
    intro a ha
    have := deF3_serF3 a (h a ha)
    cases hj : serF3 a with
    | none => rw [hj] at this; exact absurd this (by simp)
    | some j => rw [hj] at this; exact ⟨j, rfl, this⟩
  have hall : ∃ js, l.mapM serF3 = some js ∧ js.mapM deF3 = some l := by
    clear h
    induction l with
    | nil => exact ⟨[], rfl, rfl⟩
    | cons a l ih =>
      obtain ⟨j, h1, h2⟩ := hs a List.mem_cons_self
      obtain ⟨js, h3, h4⟩ := ih fun b hb => hs b (List.mem_cons_of_mem _ hb)
      exact ⟨j :: js, by rw [List.mapM_cons, h1, h3]; rfl, by rw [List.mapM_cons, h2, h4]; rfl⟩
  obtain ⟨js, h1, h2⟩ := hall
  exact ⟨.arr js, by rw [serVec, h1]; rfl, h2⟩

theorem deVal_dec (x : F) : deVal (.str (dec x.val)) = some x := by
  rw [deVal, deF3, parseU64_dec _ (val_lt64 x), Option.map_some, ZMod.natCast_val, ZMod.cast_id]
  rfl

theorem deVals (v : List F) : deVec deVal (encVals v) = some v := by
  rw [encVals, deVec_map deVal _ id v (fun x _ => deVal_dec x), List.map_id]

/-- reading a path back -/
def ReadsBack (p : List (List B)) (p' : List (List M)) : Prop := deVec (deVec C.de) (encPath C p) = some p' ∧ toBase C p' = p

theorem path_ok (p : List (List B)) (h : ∀ e ∈ p, ∀ b ∈ e, BaseOk C b) : ∃ p', ReadsBack C p p' := by
  unfold ReadsBack encPath
  induction p with
  | nil => exact ⟨[], rfl, rfl⟩
  | cons e p ih =>
    obtain ⟨p', h1, h2⟩ := ih fun e' he' => h e' (List.mem_cons_of_mem _ he')
    have he : ∃ e', deVec C.de (.arr (e.map fun b => C.ser (C.fromBase b))) = some e' ∧ e'.map C.toBase = e := by
      have hb := h e List.mem_cons_self
      clear h h1 h2 ih
      induction e with
      | nil => exact ⟨[], rfl, rfl⟩
      | cons b e ih =>
        obtain ⟨e', h1, h2⟩ := ih fun b' hb' => hb b' (List.mem_cons_of_mem _ hb')
        obtain ⟨m, h3, h4⟩ := Option.map_eq_some_iff.mp (hb b List.mem_cons_self)
        refine ⟨m :: e', ?_, by rw [List.map_cons, h2, h4]⟩
        rw [deVec] at h1 ⊢
        rw [List.map_cons, List.mapM_cons, h3, h1]
        rfl
    obtain ⟨e', h3, h4⟩ := he
    refine ⟨e' :: p', ?_, by rw [toBase, List.map_cons, h4]; exact congrArg _ h2⟩
    rw [deVec] at h1 ⊢
    rw [List.map_cons, List.mapM_cons, h3, h1]
    rfl

/-- a list of leaf/path pairs read back from its two arrays -/
theorem pairs_ok (l : List (List F × List (List B))) (h : ∀ x ∈ l, ∀ e ∈ x.2, ∀ b ∈ e, BaseOk C b) :
    deVec (deVec deVal) (.arr (l.map fun x => encVals x.1)) = some (l.map (·.1)) ∧
    ∃ ps, deVec (deVec (deVec C.de)) (.arr (l.map fun x => encPath C x.2)) = some ps ∧ ps.map (toBase C) = l.map (·.2) := by
  refine ⟨deVec_map _ _ _ _ fun x _ => deVals x.1, ?_⟩
  induction l with
  | nil => exact ⟨[], rfl, rfl⟩
  | cons x l ih =>
    obtain ⟨ps, h1, h2⟩ := ih fun y hy => h y (List.mem_cons_of_mem _ hy)
    obtain ⟨p', h3, h4⟩ := path_ok C x.2 (h x List.mem_cons_self)
    refine ⟨p' :: ps, ?_, by rw [List.map_cons, List.map_cons, h2, h4]⟩
    rw [deVec] at h1 ⊢
    rw [List.map_cons, List.mapM_cons, h3, h1]
    rfl

/-! ## The entries of a well-formed proof -/

/-- the first pair of each query -/
def firsts (q : Query B M) : List (List F × List (List B)) := q.polQueries.map fun qe => qe.headD ([], [])

def stepEntries (j : Nat) (q : Query B M) : List Entry :=
  [(key (j + 1) "root", C.ser q.root), (key (j + 1) "vals", .arr ((firsts q).map fun x => encVals x.1)), (key (j + 1) "siblings", .arr ((firsts q).map fun x => encPath C x.2))]

theorem serStep_eq (q0 q : Query B M) (j : Nat) (hl : q.polQueries.length = q0.polQueries.length) (h1 : ∀ qe ∈ q.polQueries, qe.length = 1) :
    serStep C q0 (j + 1) q = some (stepEntries C j q) := by
  have hm : (List.range q0.polQueries.length).mapM (fun j => (q.polQueries[j]?).bind (·[0]?)) = some (firsts q) := by
    rw [← hl, mapM_eq _ (fun j => (q.polQueries.getD j []).headD ([], []))]
    · congr 1
      unfold firsts
      refine List.ext_getElem (by simp) fun i h2 h3 => ?_
      simp only [List.length_map, List.length_range] at h2
      simp [h2]
    · intro i hi
      have hi := List.mem_range.mp hi
      rw [List.getElem?_eq_getElem hi, Option.bind_some, List.getD_eq_getElem _ _ hi]
      have := h1 _ (List.getElem_mem hi)
      cases hq : q.polQueries[i] with
      | nil => rw [hq] at this; exact absurd this (by simp)
      | cons x xs => rfl
  unfold serStep
  rw [hm]
  rfl

/-- column `k` of step 0 -/
def colOf (q0 : Query B M) (k : Nat) : List (List F × List (List B)) := q0.polQueries.map fun qe => qe.getD k ([], [])

theorem column_eq (q0 : Query B M) (k : Nat) (hk : k < 5) (h5 : ∀ qe ∈ q0.polQueries, qe.length = 5) : column q0 k = some (colOf q0 k) := by
  rw [column, mapM_eq _ (fun qe => qe.getD k ([], []))]
  · rfl
  · intro qe hqe
    have := h5 qe hqe
    rw [List.getElem?_eq_getElem (by omega), List.getD_eq_getElem _ _ (by omega)]

/-- the entries of a proof with first step `q0` and further steps `qs` -/
def entries (prf : Proof B M) (q0 : Query B M) (qs : List (Query B M)) (evals last publics : Js) : List Entry :=
  (match prf.rootC with | some c => [("rootC".toList, C.ser c)] | none => [])
    ++ [("root1".toList, C.ser prf.root1), ("root2".toList, C.ser prf.root2), ("root3".toList, C.ser prf.root3), ("root4".toList, C.ser prf.root4), ("evals".toList, evals)]
    ++ ((List.range qs.length).flatMap fun j => stepEntries C j (qs.getD j ⟨[], C.dflt⟩))
    ++ ((List.range 5).flatMap fun k => serCol (fun x => encVals x.1) "vals" k (colOf q0 k))
    ++ ((List.range 5).flatMap fun k => serCol (fun x => encPath C x.2) "siblings" k (colOf q0 k))
    ++ [("finalPol".toList, last), ("publics".toList, publics)]
    ++ (if C.addr then [("proverAddr".toList, .str prf.addr)] else [])

theorem serialize_eq (prf : Proof B M) (q0 : Query B M) (qs : List (Query B M)) (hq : prf.queries = q0 :: qs) (h : Shaped C prf)
    (evals last publics : Js) (he : serVec prf.evals = some evals) (hl : serVec prf.last = some last) (hp : serVec prf.publics = some publics) :
    serialize C prf = some (entries C prf q0 qs evals last publics) := by
  have hq0 : prf.queries[0]? = some q0 := by rw [hq]; rfl
  have hsteps : ((List.range (prf.queries.length - 1)).mapM fun j => (prf.queries[j + 1]?).bind (serStep C q0 (j + 1))) =
      some ((List.range qs.length).map fun j => stepEntries C j (qs.getD j ⟨[], C.dflt⟩)) := by
    rw [show prf.queries.length - 1 = qs.length by rw [hq]; rfl]
    refine mapM_eq _ _ _ fun j hj => ?_
    have hj := List.mem_range.mp hj
    have e : prf.queries[j + 1]? = some qs[j] := by rw [hq, List.getElem?_cons_succ, List.getElem?_eq_getElem hj]
    rw [e, Option.bind_some, List.getD_eq_getElem _ _ hj]
    exact serStep_eq C q0 _ j (h.same q0 hq0 _ (List.mem_of_getElem? e)) (h.one (j + 1) (by omega) _ e)
  have hcols : (List.range 5).mapM (column q0) = some ((List.range 5).map (colOf q0)) :=
    mapM_eq _ _ _ fun k hk => column_eq q0 k (List.mem_range.mp hk) (h.five q0 hq0)
  unfold serialize
  simp only [hq0, he, hl, hp, Option.bind_eq_bind, Option.bind_some]
  rw [hsteps]
  simp only [hcols, Option.bind_some]
  rfl

theorem get_steps_none (qs : List (Query B M)) (k : List Char) (hk : ∀ j s, key (j + 1) s ≠ k) :
    get ((List.range qs.length).flatMap fun j => stepEntries C j (qs.getD j ⟨[], C.dflt⟩)) k = none := by
  refine get_none fun e he => ?_
  obtain ⟨j, -, he⟩ := List.mem_flatMap.mp he
  simp only [stepEntries, List.mem_cons, List.not_mem_nil, or_false] at he
  rcases he with rfl | rfl | rfl <;> exact hk _ _

theorem get_col_none (f : List F × List (List B) → Js) (pre : String) (cols : Nat → List (List F × List (List B))) (k : List Char) (hk : ∀ i < 5, key 0 (pre ++ names.getD i "") ≠ k) :
    get ((List.range 5).flatMap fun i => serCol f pre i (cols i)) k = none := by
  refine get_none fun e he => ?_
  obtain ⟨i, hi, he⟩ := List.mem_flatMap.mp he
  unfold serCol at he
  split at he
  · exact absurd he (by simp)
  · rw [List.mem_singleton.mp he]; exact hk i (List.mem_range.mp hi)

theorem get_col (f : List F × List (List B) → Js) (pre : String) (cols : Nat → List (List F × List (List B))) (i : Nat) (hi : i < 5)
    (hinj : ∀ j < 5, pre ++ names.getD j "" = pre ++ names.getD i "" → j = i) :
    get ((List.range 5).flatMap fun i => serCol f pre i (cols i)) (key 0 (pre ++ names.getD i "")) =
      if (i = 1 ∨ i = 2) ∧ cols i = [] then none else some (.arr ((cols i).map f)) := by
  split
  · rename_i h
    refine get_none fun e he => ?_
    obtain ⟨j, hj, he⟩ := List.mem_flatMap.mp he
    unfold serCol at he
    split at he
    · exact absurd he (by simp)
    · rename_i hn
      rw [List.mem_singleton.mp he]
      intro hk
      have := hinj j (List.mem_range.mp hj) ((key_inj _ _ _ _).mp hk).2
      exact hn (this ▸ h)
  · rename_i h
    refine get_some (List.mem_flatMap.mpr ⟨i, List.mem_range.mpr hi, ?_⟩) fun e he hk => ?_
    · rw [serCol, if_neg h]; exact List.mem_cons_self
    · obtain ⟨j, hj, he⟩ := List.mem_flatMap.mp he
      unfold serCol at he
      split at he
      · exact absurd he (by simp)
      · rw [List.mem_singleton.mp he] at hk ⊢
        have := hinj j (List.mem_range.mp hj) ((key_inj _ _ _ _).mp hk).2
        rw [this]

theorem get_step (qs : List (Query B M)) (j : Nat) (hj : j < qs.length) (s : String) (v : Js) (hv : (key (j + 1) s, v) ∈ stepEntries C j qs[j])
    (hu : ∀ e ∈ stepEntries C j qs[j], e.1 = key (j + 1) s → e.2 = v) :
    get ((List.range qs.length).flatMap fun j => stepEntries C j (qs.getD j ⟨[], C.dflt⟩)) (key (j + 1) s) = some v := by
  refine get_some (List.mem_flatMap.mpr ⟨j, List.mem_range.mpr hj, by rw [List.getD_eq_getElem _ _ hj]; exact hv⟩) fun e he hk => ?_
  obtain ⟨i, hi, he⟩ := List.mem_flatMap.mp he
  have hij : i = j := by
    simp only [stepEntries, List.mem_cons, List.not_mem_nil, or_false] at he
    rcases he with rfl | rfl | rfl <;> have := ((key_inj _ _ _ _).mp hk).1 <;> omega
  subst hij
  rw [List.getD_eq_getElem _ _ hj] at he
  exact hu e he hk

/-! ## Lookups in the whole list -/

/-- a key that does not start with `s` is looked up in the other entries -/
theorem get_plain (prf : Proof B M) (q0 : Query B M) (qs : List (Query B M)) (evals last publics : Js) (c : Char) (cs : List Char) (hc : c ≠ 's') :
    get (entries C prf q0 qs evals last publics) (c :: cs) =
      ((get (if C.addr then [("proverAddr".toList, .str prf.addr)] else []) (c :: cs)).or (get [("finalPol".toList, last), ("publics".toList, publics)] (c :: cs))).or
      ((get [("root1".toList, C.ser prf.root1), ("root2".toList, C.ser prf.root2), ("root3".toList, C.ser prf.root3), ("root4".toList, C.ser prf.root4), ("evals".toList, evals)] (c :: cs)).or
        (get (match prf.rootC with | some c => [("rootC".toList, C.ser c)] | none => []) (c :: cs))) := by
  unfold entries
  simp only [get_append]
  rw [get_steps_none C qs _ (fun _ _ => key_plain _ _ _ _ hc), get_col_none _ _ _ _ (fun _ _ => key_plain _ _ _ _ hc), get_col_none _ _ _ _ (fun _ _ => key_plain _ _ _ _ hc)]
  simp only [Option.none_or, Option.or_assoc]

/-- a key that starts with `s` is not among the other entries -/
theorem get_s (prf : Proof B M) (q0 : Query B M) (qs : List (Query B M)) (evals last publics : Js) (i : Nat) (s : String) :
    get (entries C prf q0 qs evals last publics) (key i s) =
      ((get ((List.range 5).flatMap fun k => serCol (fun x => encPath C x.2) "siblings" k (colOf q0 k)) (key i s)).or
        (get ((List.range 5).flatMap fun k => serCol (fun x => encVals x.1) "vals" k (colOf q0 k)) (key i s))).or
        (get ((List.range qs.length).flatMap fun j => stepEntries C j (qs.getD j ⟨[], C.dflt⟩)) (key i s)) := by
  have h1 : get (if C.addr then [("proverAddr".toList, Js.str prf.addr)] else []) (key i s) = none := by
    refine get_none fun e he => ?_
    split at he
    · rw [List.mem_singleton.mp he]; exact fun h => absurd (List.cons.inj h).1 (by decide)
    · exact absurd he (by simp)
  have h2 : get [("finalPol".toList, last), ("publics".toList, publics)] (key i s) = none := by
    refine get_none fun e he => ?_
    simp only [List.mem_cons, List.not_mem_nil, or_false] at he
    rcases he with rfl | rfl <;> exact fun h => absurd (List.cons.inj h).1 (by decide)
  have h3 : get [("root1".toList, C.ser prf.root1), ("root2".toList, C.ser prf.root2), ("root3".toList, C.ser prf.root3), ("root4".toList, C.ser prf.root4), ("evals".toList, evals)] (key i s) = none := by
    refine get_none fun e he => ?_
    simp only [List.mem_cons, List.not_mem_nil, or_false] at he
    rcases he with rfl | rfl | rfl | rfl | rfl <;> exact fun h => absurd (List.cons.inj h).1 (by decide)
  have h4 : get (match prf.rootC with | some c => [("rootC".toList, C.ser c)] | none => []) (key i s) = none := by
    refine get_none fun e he => ?_
    split at he
    · rw [List.mem_singleton.mp he]; exact fun h => absurd (List.cons.inj h).1 (by decide)
    · exact absurd he (by simp)
  unfold entries
  simp only [get_append, h1, h2, h3, h4, Option.none_or, Option.or_none, Option.or_assoc]

theorem names_inj (pre : String) (i j : Nat) (hi : i < 5) (hj : j < 5) (h : pre ++ names.getD j "" = pre ++ names.getD i "") : j = i := by
  have h2 := congrArg String.toList h
  rw [String.toList_append, String.toList_append, List.append_cancel_left_eq, String.toList_inj] at h2
  have : ∀ i < 5, ∀ j < 5, names.getD j "" = names.getD i "" → j = i := by decide
  exact this i hi j hj h2

theorem vals_ne_sib (i j : Nat) : ("vals" ++ names.getD i "" : String) ≠ "siblings" ++ names.getD j "" := by
  intro h
  have := congrArg String.toList h
  rw [String.toList_append, String.toList_append] at this
  exact absurd (List.cons.inj this).1 (by decide)

variable {C}

theorem deCol_ok {prf : Proof B M} {q0 : Query B M} {qs : List (Query B M)} {evals last publics : Js} (k : Nat) (hk : k < 5)
    (hb : ∀ x ∈ colOf q0 k, ∀ e ∈ x.2, ∀ b ∈ e, BaseOk C b) :
    ∃ ps, deCol C (entries C prf q0 qs evals last publics) (names.getD k "") = some ((colOf q0 k).map (·.1), ps) ∧ ps.map (toBase C) = (colOf q0 k).map (·.2) := by
  have hv : get (entries C prf q0 qs evals last publics) (key 0 ("vals" ++ names.getD k "")) =
      if (k = 1 ∨ k = 2) ∧ colOf q0 k = [] then none else some (.arr ((colOf q0 k).map fun x => encVals x.1)) := by
    rw [get_s, get_steps_none C qs _ (fun j s h => absurd ((key_inj _ _ _ _).mp h).1 (by omega)),
      get_col_none _ _ _ _ (fun i _ h => vals_ne_sib k i ((key_inj _ _ _ _).mp h).2.symm),
      get_col _ _ (colOf q0) k hk (fun j hj => names_inj _ k j hk hj), Option.none_or, Option.or_none]
  have hs : get (entries C prf q0 qs evals last publics) (key 0 ("siblings" ++ names.getD k "")) =
      if (k = 1 ∨ k = 2) ∧ colOf q0 k = [] then none else some (.arr ((colOf q0 k).map fun x => encPath C x.2)) := by
    rw [get_s, get_steps_none C qs _ (fun j s h => absurd ((key_inj _ _ _ _).mp h).1 (by omega)),
      get_col_none (fun x => encVals x.1) _ _ _ (fun i _ h => vals_ne_sib i k ((key_inj _ _ _ _).mp h).2),
      get_col _ _ (colOf q0) k hk (fun j hj => names_inj _ k j hk hj), Option.or_none, Option.or_none]
  unfold deCol
  rw [hv]
  by_cases h : (k = 1 ∨ k = 2) ∧ colOf q0 k = []
  · rw [if_pos h]
    exact ⟨[], by rw [h.2]; rfl, by rw [h.2]; rfl⟩
  · rw [if_neg h]
    obtain ⟨h1, ps, h2, h3⟩ := pairs_ok C (colOf q0 k) hb
    refine ⟨ps, ?_, h3⟩
    rw [if_neg h] at hs
    simp only [h1, hs, h2, Option.bind_eq_bind, Option.bind_some]
    rfl

theorem get_root (prf : Proof B M) (q0 : Query B M) (qs : List (Query B M)) (evals last publics : Js) (i : Nat) (s : String)
    (hs : ∀ k < 5, s ≠ "vals" ++ names.getD k "" ∧ s ≠ "siblings" ++ names.getD k "") :
    get (entries C prf q0 qs evals last publics) (key i s) = get ((List.range qs.length).flatMap fun j => stepEntries C j (qs.getD j ⟨[], C.dflt⟩)) (key i s) := by
  rw [get_s, get_col_none _ _ _ _ (fun k hk h => (hs k hk).2 ((key_inj _ _ _ _).mp h).2.symm),
    get_col_none (fun x => encVals x.1) _ _ _ (fun k hk h => (hs k hk).1 ((key_inj _ _ _ _).mp h).2.symm), Option.none_or, Option.none_or]

theorem suffix_ok : ∀ s ∈ ["root", "vals", "siblings"], ∀ k < 5, s ≠ "vals" ++ names.getD k "" ∧ s ≠ "siblings" ++ names.getD k "" := by decide

theorem get_step_entries (prf : Proof B M) (q0 : Query B M) (qs : List (Query B M)) (evals last publics : Js) (j : Nat) (hj : j < qs.length) :
    get (entries C prf q0 qs evals last publics) (key (j + 1) "root") = some (C.ser qs[j].root) ∧
    get (entries C prf q0 qs evals last publics) (key (j + 1) "vals") = some (.arr ((firsts qs[j]).map fun x => encVals x.1)) ∧
    get (entries C prf q0 qs evals last publics) (key (j + 1) "siblings") = some (.arr ((firsts qs[j]).map fun x => encPath C x.2)) := by
  refine ⟨?_, ?_, ?_⟩
  · rw [get_root _ _ _ _ _ _ _ _ (suffix_ok "root" (by simp))]
    refine get_step C qs j hj _ _ (by simp [stepEntries]) fun e he hk => ?_
    simp only [stepEntries, List.mem_cons, List.not_mem_nil, or_false] at he
    rcases he with rfl | rfl | rfl
    · rfl
    · exact absurd ((key_inj _ _ _ _).mp hk).2 (by decide)
    · exact absurd ((key_inj _ _ _ _).mp hk).2 (by decide)
  · rw [get_root _ _ _ _ _ _ _ _ (suffix_ok "vals" (by simp))]
    refine get_step C qs j hj _ _ (by simp [stepEntries]) fun e he hk => ?_
    simp only [stepEntries, List.mem_cons, List.not_mem_nil, or_false] at he
    rcases he with rfl | rfl | rfl
    · exact absurd ((key_inj _ _ _ _).mp hk).2 (by decide)
    · rfl
    · exact absurd ((key_inj _ _ _ _).mp hk).2 (by decide)
  · rw [get_root _ _ _ _ _ _ _ _ (suffix_ok "siblings" (by simp))]
    refine get_step C qs j hj _ _ (by simp [stepEntries]) fun e he hk => ?_
    simp only [stepEntries, List.mem_cons, List.not_mem_nil, or_false] at he
    rcases he with rfl | rfl | rfl
    · exact absurd ((key_inj _ _ _ _).mp hk).2 (by decide)
    · exact absurd ((key_inj _ _ _ _).mp hk).2 (by decide)
    · rfl

theorem numQuery_ok (prf : Proof B M) (q0 : Query B M) (qs : List (Query B M)) (evals last publics : Js) (hl : qs.length ≤ 31) :
    numQuery (entries C prf q0 qs evals last publics) = qs.length := by
  have hk : ∀ j, (get (entries C prf q0 qs evals last publics) (key (j + 1) "root")).isSome ↔ j < qs.length := by
    intro j
    constructor
    · intro h
      by_contra hj
      rw [get_root _ _ _ _ _ _ _ _ (suffix_ok "root" (by simp)), get_none] at h
      · exact absurd h (by simp)
      · intro e he
        obtain ⟨i, hi, he⟩ := List.mem_flatMap.mp he
        have hi := List.mem_range.mp hi
        simp only [stepEntries, List.mem_cons, List.not_mem_nil, or_false] at he
        rcases he with rfl | rfl | rfl <;> intro h <;> have := ((key_inj _ _ _ _).mp h).1 <;> omega
    · intro hj
      rw [(get_step_entries prf q0 qs evals last publics j hj).1]; rfl
  unfold numQuery
  simp only [hk]
  have hmax : ∀ n m, (((List.range n).map fun j => if j < m then j + 1 else 0).foldl max 0) = min n m := by
    intro n m
    induction n with
    | zero => simp
    | succ n ih =>
      rw [List.range_succ, List.map_append, List.foldl_append, ih]
      simp only [List.map_cons, List.map_nil, List.foldl_cons, List.foldl_nil]
      split <;> omega
  rw [hmax]
  omega

/-- queries of one tree, from their leaves and paths -/
theorem steps_ok (q : Query B M) (n : Nat) (hn : q.polQueries.length = n) (h1 : ∀ qe ∈ q.polQueries, qe.length = 1) (ps : List (List (List M)))
    (hp : ps.map (toBase C) = (firsts q).map (·.2)) :
    ((List.range n).mapM fun i => do
      let s ← ps[i]?
      let v ← ((firsts q).map (·.1))[i]?
      return [(v, toBase C s)]) = some q.polQueries := by
  have hlen : ps.length = n := by
    have := congrArg List.length hp
    simpa [firsts, hn] using this
  rw [mapM_eq _ (fun i => q.polQueries.getD i [])]
  · congr 1
    refine List.ext_getElem (by simp [hn]) fun i h2 h3 => ?_
    simp [h3]
  · intro i hi
    have hi := List.mem_range.mp hi
    have hi' : i < q.polQueries.length := by omega
    have hqe := h1 _ (List.getElem_mem hi')
    obtain ⟨x, hx⟩ := List.length_eq_one_iff.mp hqe
    have e1 : ((firsts q).map (·.1))[i]? = some x.1 := by
      simp [firsts, List.getElem?_eq_getElem hi', hx]
    have e2 : toBase C (ps[i]'(by omega)) = x.2 := by
      have h3 : (ps.map (toBase C))[i]? = ((firsts q).map (·.2))[i]? := by rw [hp]
      rw [List.getElem?_map, List.getElem?_eq_getElem (by omega : i < ps.length)] at h3
      simp only [firsts, List.getElem?_map, List.getElem?_eq_getElem hi', hx, Option.map_some, List.headD_cons, Option.some.injEq] at h3
      exact h3
    rw [List.getElem?_eq_getElem (by omega : i < ps.length), e1]
    simp only [Option.bind_eq_bind, Option.bind_some, Option.pure_def]
    rw [e2, List.getD_eq_getElem _ _ hi', hx]

variable (C)

set_option maxHeartbeats 800000 in
/-- **A proof is recovered from its text**: for a proof of the shape the prover produces whose nodes, path elements and field elements are recovered from
their own text, serialisation succeeds and deserialisation of the entries gives the proof back. -/
theorem deserialize_serialize (prf : Proof B M) (h : Shaped C prf) (hp : PartsOk C prf) :
    ∃ m, serialize C prf = some m ∧ deserialize C m = some prf := by
  obtain ⟨q0, qs, hq⟩ := List.exists_cons_of_ne_nil h.ne
  obtain ⟨evals, he1, he2⟩ := serVec_ok prf.evals hp.evals
  obtain ⟨last, hl1, hl2⟩ := serVec_ok prf.last hp.last
  obtain ⟨publics, hp1, hp2⟩ := serVec_ok prf.publics hp.publics
  refine ⟨_, serialize_eq C prf q0 qs hq h evals last publics he1 hl1 hp1, ?_⟩
  have hq0 : prf.queries[0]? = some q0 := by rw [hq]; rfl
  have hmem0 : q0 ∈ prf.queries := by rw [hq]; exact List.mem_cons_self
  have hmem : ∀ q ∈ qs, q ∈ prf.queries := fun q hq' => by rw [hq]; exact List.mem_cons_of_mem _ hq'
  obtain ⟨m, hm⟩ : ∃ m, m = entries C prf q0 qs evals last publics := ⟨_, rfl⟩
  rw [← hm]
  -- plain entries
  have g1 : get m "root1".toList = some (C.ser prf.root1) := by
    rw [hm, show "root1".toList = 'r' :: ['o', 'o', 't', '1'] by decide, get_plain C _ _ _ _ _ _ _ _ (by decide)]
    cases C.addr <;> cases prf.rootC <;> simp [get_cons, get_none]
  have g2 : get m "root2".toList = some (C.ser prf.root2) := by
    rw [hm, show "root2".toList = 'r' :: ['o', 'o', 't', '2'] by decide, get_plain C _ _ _ _ _ _ _ _ (by decide)]
    cases C.addr <;> cases prf.rootC <;> simp [get_cons, get_none]
  have g3 : get m "root3".toList = some (C.ser prf.root3) := by
    rw [hm, show "root3".toList = 'r' :: ['o', 'o', 't', '3'] by decide, get_plain C _ _ _ _ _ _ _ _ (by decide)]
    cases C.addr <;> cases prf.rootC <;> simp [get_cons, get_none]
  have g4 : get m "root4".toList = some (C.ser prf.root4) := by
    rw [hm, show "root4".toList = 'r' :: ['o', 'o', 't', '4'] by decide, get_plain C _ _ _ _ _ _ _ _ (by decide)]
    cases C.addr <;> cases prf.rootC <;> simp [get_cons, get_none]
  have gC : get m "rootC".toList = prf.rootC.map C.ser := by
    rw [hm, show "rootC".toList = 'r' :: ['o', 'o', 't', 'C'] by decide, get_plain C _ _ _ _ _ _ _ _ (by decide)]
    cases C.addr <;> cases prf.rootC <;> simp [get_cons, get_none]
  have gE : get m "evals".toList = some evals := by
    rw [hm, show "evals".toList = 'e' :: ['v', 'a', 'l', 's'] by decide, get_plain C _ _ _ _ _ _ _ _ (by decide)]
    cases C.addr <;> cases prf.rootC <;> simp [get_cons, get_none]
  have gL : get m "finalPol".toList = some last := by
    rw [hm, show "finalPol".toList = 'f' :: ['i', 'n', 'a', 'l', 'P', 'o', 'l'] by decide, get_plain C _ _ _ _ _ _ _ _ (by decide)]
    cases C.addr <;> cases prf.rootC <;> simp [get_cons, get_none]
  have gP : get m "publics".toList = some publics := by
    rw [hm, show "publics".toList = 'p' :: ['u', 'b', 'l', 'i', 'c', 's'] by decide, get_plain C _ _ _ _ _ _ _ _ (by decide)]
    cases C.addr <;> cases prf.rootC <;> simp [get_cons, get_none]
  have gA : get m "proverAddr".toList = if C.addr then some (.str prf.addr) else none := by
    rw [hm, show "proverAddr".toList = 'p' :: ['r', 'o', 'v', 'e', 'r', 'A', 'd', 'd', 'r'] by decide, get_plain C _ _ _ _ _ _ _ _ (by decide)]
    cases C.addr <;> cases prf.rootC <;> simp [get_cons, get_none]
  have hC : deRootC C m = some prf.rootC := by
    rw [deRootC, gC]
    cases hc : prf.rootC with
    | none => rfl
    | some c =>
      dsimp only [Option.map_some]
      rw [hp.rootC c hc]
      rfl
  have hA : deAddr m = some prf.addr := by
    rw [deAddr, gA]
    cases ha : C.addr with
    | true => rfl
    | false => rw [h.addr ha]; rfl
  -- step 0
  have hbase : ∀ k < 5, ∀ x ∈ colOf q0 k, ∀ e ∈ x.2, ∀ b ∈ e, BaseOk C b := by
    intro k hk x hx
    obtain ⟨qe, hqe, rfl⟩ := List.mem_map.mp hx
    have h5 := h.five q0 hq0 qe hqe
    rw [List.getD_eq_getElem _ _ (by omega : k < qe.length)]
    exact hp.paths q0 hmem0 qe hqe _ (List.getElem_mem _)
  choose ps hps1 hps2 using fun k (hk : k < 5) => deCol_ok (C := C) (prf := prf) (qs := qs) (evals := evals) (last := last) (publics := publics) k hk (hbase k hk)
  have hcols : names.mapM (deCol C m) = some [((colOf q0 0).map (·.1), ps 0 (by norm_num)), ((colOf q0 1).map (·.1), ps 1 (by norm_num)), ((colOf q0 2).map (·.1), ps 2 (by norm_num)),
      ((colOf q0 3).map (·.1), ps 3 (by norm_num)), ((colOf q0 4).map (·.1), ps 4 (by norm_num))] := by
    have e0 := hps1 0 (by norm_num)
    have e1 := hps1 1 (by norm_num)
    have e2 := hps1 2 (by norm_num)
    have e3 := hps1 3 (by norm_num)
    have e4 := hps1 4 (by norm_num)
    rw [← hm] at e0 e1 e2 e3 e4
    simp only [names, List.getD_cons_zero, List.getD_cons_succ] at e0 e1 e2 e3 e4
    simp only [names, List.mapM_cons, List.mapM_nil, e0, e1, e2, e3, e4]
    rfl
  have hcell : ∀ k (hk : k < 5) i (hi : i < q0.polQueries.length), cell C q0.polQueries.length ((colOf q0 k).map (·.1), ps k hk) i = some ((q0.polQueries[i]).getD k ([], [])) := by
    intro k hk i hi
    have hlen : (ps k hk).length = q0.polQueries.length := by
      have := congrArg List.length (hps2 k hk)
      simpa [colOf] using this
    have e2 : toBase C ((ps k hk)[i]'(by omega)) = ((q0.polQueries[i]).getD k ([], [])).2 := by
      have h3 : ((ps k hk).map (toBase C))[i]? = ((colOf q0 k).map (·.2))[i]? := by rw [hps2]
      rw [List.getElem?_map, List.getElem?_eq_getElem (by omega : i < (ps k hk).length)] at h3
      simp only [colOf, List.getElem?_map, List.getElem?_eq_getElem hi, Option.map_some, Option.some.injEq] at h3
      exact h3
    have e1 : ((colOf q0 k).map (·.1))[i]? = some ((q0.polQueries[i]).getD k ([], [])).1 := by
      simp [colOf, List.getElem?_eq_getElem hi]
    unfold cell
    rw [if_neg (by simp [colOf])]
    dsimp only
    rw [e1, List.getElem?_eq_getElem (by omega : i < (ps k hk).length)]
    simp only [Option.bind_eq_bind, Option.bind_some, Option.pure_def]
    rw [e2]
  have hpq : ((List.range q0.polQueries.length).mapM fun i => ([((colOf q0 0).map (·.1), ps 0 (by norm_num)), ((colOf q0 1).map (·.1), ps 1 (by norm_num)), ((colOf q0 2).map (·.1), ps 2 (by norm_num)),
      ((colOf q0 3).map (·.1), ps 3 (by norm_num)), ((colOf q0 4).map (·.1), ps 4 (by norm_num))] : List (List (List F) × List (List (List M)))).mapM fun col => cell C q0.polQueries.length col i) = some q0.polQueries := by
    rw [mapM_eq _ (fun i => q0.polQueries.getD i [])]
    · rw [map_getD_range]
    · intro i hi
      have hi := List.mem_range.mp hi
      simp only [List.mapM_cons, List.mapM_nil, hcell _ _ i hi]
      rw [List.getD_eq_getElem _ _ hi]
      have h5 := h.five q0 hq0 _ (List.getElem_mem hi)
      generalize q0.polQueries[i] = qe at h5
      match qe, h5 with
      | [a, b, c, d, e], _ => rfl
  have hnum : numQuery m = qs.length := hm ▸ numQuery_ok prf q0 qs evals last publics (by
    have := h.le32
    rw [hq, List.length_cons] at this
    omega)
  have hst : ((List.range qs.length).mapM fun j => deStep C m q0.polQueries.length (j + 1)) = some qs := by
    rw [mapM_eq _ (fun j => qs.getD j ⟨[], C.dflt⟩)]
    · rw [map_getD_range]
    · intro j hj
      have hj := List.mem_range.mp hj
      have hjm : qs[j] ∈ prf.queries := hmem _ (List.getElem_mem hj)
      have e : prf.queries[j + 1]? = some qs[j] := by rw [hq, List.getElem?_cons_succ, List.getElem?_eq_getElem hj]
      obtain ⟨k1, k2, k3⟩ := get_step_entries (C := C) prf q0 qs evals last publics j hj
      have hone := h.one (j + 1) (by omega) _ e
      have hb : ∀ x ∈ firsts qs[j], ∀ e ∈ x.2, ∀ b ∈ e, BaseOk C b := by
        intro x hx
        obtain ⟨qe, hqe, rfl⟩ := List.mem_map.mp hx
        obtain ⟨y, hy⟩ := List.length_eq_one_iff.mp (hone qe hqe)
        exact hp.paths _ hjm qe hqe _ (by rw [hy]; exact List.mem_cons_self)
      obtain ⟨v1, ps', v2, v3⟩ := pairs_ok C _ hb
      have hs := steps_ok (C := C) qs[j] q0.polQueries.length (h.same q0 hq0 _ hjm) hone ps' v3
      unfold deStep
      rw [hm, k1, k2, k3]
      have hr : C.de (C.ser qs[j].root) = some qs[j].root := hp.roots _ hjm
      simp only [Option.bind_eq_bind, Option.bind_some, hr, v1, v2]
      simp only [Option.bind_eq_bind] at hs
      rw [hs, List.getD_eq_getElem _ _ hj]
      rfl
  have hn : (([((colOf q0 0).map (·.1), ps 0 (by norm_num)), ((colOf q0 1).map (·.1), ps 1 (by norm_num)), ((colOf q0 2).map (·.1), ps 2 (by norm_num)),
      ((colOf q0 3).map (·.1), ps 3 (by norm_num)), ((colOf q0 4).map (·.1), ps 4 (by norm_num))] : List (List (List F) × List (List (List M)))).getD 0 ([], [])).1.length = q0.polQueries.length := by
    simp [colOf]
  have r1 : C.de (C.ser prf.root1) = some prf.root1 := hp.root1
  have r2 : C.de (C.ser prf.root2) = some prf.root2 := hp.root2
  have r3 : C.de (C.ser prf.root3) = some prf.root3 := hp.root3
  have r4 : C.de (C.ser prf.root4) = some prf.root4 := hp.root4
  unfold deserialize
  rw [hC, hA]
  simp only [g1, g2, g3, g4, gE, gP, gL, r1, r2, r3, r4, he2, hp2, hl2, hcols, Option.bind_eq_bind, Option.bind_some]
  rw [hn, hpq]
  simp only [hnum, Option.bind_some]
  rw [hst]
  simp only [Option.bind_some, Option.pure_def]
  have hq0' : (⟨q0.polQueries, C.dflt⟩ : Query B M) = q0 := by rw [← h.root0 q0 hq0]
  rw [hq0', ← hq]

/-! ## The three trees -/

/-- the Goldilocks tree (merklehash.rs L278-284) -/
def codecGL : Codec F Dig := ⟨serGL, deGL, fun x => ⟨x, 0, 0, 0⟩, fun d => d.d0, ⟨0, 0, 0, 0⟩, false⟩

/-- a tree over a scalar field, base elements being raw representations (merklehash_bn128.rs L168-174, merklehash_bls12381.rs L168-174) -/
def codecScalar (r : Nat) : Codec Nat Dig := ⟨serScalar r, deScalar r, fromScalar, asScalar, ⟨0, 0, 0, 0⟩, true⟩

theorem codecGL_ok (x : Dig) (b : F) : NodeOk codecGL x ∧ BaseOk codecGL b := by
  constructor
  · exact deGL_serGL x
  · show ((deGL (serGL ⟨b, 0, 0, 0⟩)).map fun d => d.d0) = some b
    rw [deGL_serGL]
    rfl

/-- **Goldilocks proofs are recovered from their text**, with no condition on the nodes and paths. -/
theorem proof_roundtrip_GL (prf : Proof F Dig) (h : Shaped codecGL prf) (hl : ∀ a ∈ prf.last, ElemOk a) (he : ∀ a ∈ prf.evals, ElemOk a)
    (hp : ∀ a ∈ prf.publics, ElemOk a) : ∃ m, serialize codecGL prf = some m ∧ deserialize codecGL m = some prf :=
  deserialize_serialize codecGL prf h ⟨(codecGL_ok _ 0).1, (codecGL_ok _ 0).1, (codecGL_ok _ 0).1, (codecGL_ok _ 0).1, fun _ _ => (codecGL_ok _ 0).1,
    fun _ _ => (codecGL_ok _ 0).1, fun _ _ _ _ _ _ _ _ b _ => (codecGL_ok ⟨0, 0, 0, 0⟩ b).2, hl, he, hp⟩

/-- in a tree over the scalar field mod `r` a node holding a value below `r`, and a path element with small limbs, are recovered -/
theorem codecScalar_ok (r : Nat) [NeZero r] (hr : Nat.Coprime (2 ^ 256) r) (hr' : r ≤ 2 ^ 256) : (∀ x, asScalar x < r → NodeOk (codecScalar r) x) ∧
    ∀ v, v < r → (∀ i < 4, limb v i < MODULUS) → BaseOk (codecScalar r) v := by
  refine ⟨fun x hx => deScalar_serScalar_partial r hr x hx, fun v hv hl => ?_⟩
  have e := (asScalar_fromScalar_partial v (by omega)).mpr hl
  show (deScalar r (serScalar r (fromScalar v))).map asScalar = some v
  rw [deScalar_serScalar_partial r hr _ (by rw [e]; exact hv), Option.map_some, e]

/-- **Violated for the scalar trees**: the BN128 scalar with raw representation `p` in an authentication path is read back as zero. -/
theorem path_lost_BN : MODULUS < rBN ∧ ¬ BaseOk (codecScalar rBN) MODULUS := by
  have : NeZero rBN := ⟨by decide⟩
  refine ⟨by decide, ?_⟩
  have e : fromScalar MODULUS = ⟨0, 0, 0, 0⟩ := by decide +kernel
  have e2 : asScalar ⟨0, 0, 0, 0⟩ = 0 := by decide +kernel
  show ¬ ((deScalar rBN (serScalar rBN (fromScalar MODULUS))).map asScalar = some MODULUS)
  rw [e, deScalar_serScalar_partial rBN (by show Nat.gcd _ _ = 1; decide +kernel) _ (by rw [e2]; decide), Option.map_some, e2]
  decide

/-- a proof with two queries and one further step -/
def exProof : Proof F Dig :=
  ⟨⟨1, 2, 3, 4⟩, ⟨5, 0, 0, 0⟩, ⟨0, 0, 0, 7⟩, ⟨0, 0, 0, 0⟩,
    [⟨[List.replicate 5 ([1, 2], [[3, 4, 5, 6]]), List.replicate 5 ([], [])], ⟨0, 0, 0, 0⟩⟩, ⟨[[([9], [[1, 1, 1, 1]])], [([8], [])]], ⟨6, 6, 6, 6⟩⟩],
    [⟨1, 2, 3, 3⟩], [⟨4, 0, 0, 1⟩], [], some ⟨1, 1, 1, 1⟩, []⟩

example : ∃ m, serialize codecGL exProof = some m ∧ deserialize codecGL m = some exProof := by
  refine proof_roundtrip_GL exProof ⟨by simp [exProof], by decide, ?_, ?_, ?_, ?_, fun _ => rfl⟩ ?_ ?_ ?_
  · rintro q h; obtain rfl := Option.some.inj h; rfl
  · rintro q h; obtain rfl := Option.some.inj h; decide
  · rintro q0 h; obtain rfl := Option.some.inj h; decide
  · rintro i hi q h
    match i, hi with
    | 1, _ => obtain rfl := Option.some.inj h; decide
    | (n + 2), _ => exact absurd h (by simp [exProof])
  · intro a ha; rw [List.mem_singleton.mp ha]; exact Or.inl rfl
  · intro a ha; rw [List.mem_singleton.mp ha]; exact Or.inr ⟨rfl, rfl, rfl⟩
  · intro a ha; exact absurd ha (by simp [exProof])

end Verif.Io.ProofJson
