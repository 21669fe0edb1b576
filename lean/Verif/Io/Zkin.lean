import Mathlib.Data.List.Basic
import Mathlib.Data.List.Nodup
import Mathlib.Logic.Function.Basic

/-! # Joining two proof inputs (C48): `join_zkin` of `starky/src/zkin_join.rs`

The file reading and the JSON text layer (`serde_json`) are not modelled: an input file is the map it parses to. -/

namespace Verif.Io.Zkin

/-- `serde_json::Value` (numbers are kept as their text) -/
inductive Json where
  | null | bool (b : Bool) | num (s : String) | str (s : String) | arr (l : List Json) | obj (l : List (String × Json))

/-- A `BTreeMap<String, Value>` during construction: the last inserted value of each key. -/
abbrev Out := String → Option Json

/-- `BTreeMap::insert` -/
def insert (m : Out) (k : String) (v : Json) : Out := Function.update m k (some v)

/-- One turn of the first loop, zkin_join.rs L25-41. -/
def step1 (m : Out) (e : String × Json) : Out :=
  let (k, v) := e
  let m := insert m ("a_" ++ k) v
  let m :=
    if k = "publics" then
      match v with
      | .arr l => if 4 ≤ l.length then insert m "publics" (.arr (l.take (l.length - 4))) else insert m "publics" v
      | _ => m
    else m
  if k = "rootC" then insert m k v else m

/-- One turn of the second loop, zkin_join.rs L42-44. -/
def step2 (m : Out) (e : String × Json) : Out := insert m ("b_" ++ e.1) e.2

/-- zkin_join.rs L9-53: the maps are given by their entries in iteration order; the result is the map that is written. -/
def joinZkin (z1 z2 : List (String × Json)) : Out := z2.foldl step2 (z1.foldl step1 fun _ => none)

/-! ## Specification -/

/-- the public inputs without the four values of the verification key root; arrays that are too short are left alone -/
def trimmed : Json → Option Json
  | .arr l => some (.arr (if 4 ≤ l.length then l.dropLast.dropLast.dropLast.dropLast else l))
  | _ => none

/-- the value of a key in a list of entries -/
def lookup (z : List (String × Json)) (k : String) : Option Json := (z.find? fun e => e.1 == k).map (·.2)

/-- `z` is the list of entries of a map: its keys are distinct -/
def IsMap (z : List (String × Json)) : Prop := (z.map (·.1)).Nodup

/-! ## Proofs -/

theorem key_inj (a x y : String) : a ++ x = a ++ y ↔ x = y := by
  constructor
  · intro h
    have := congrArg String.toList h
    rw [String.toList_append, String.toList_append, List.append_cancel_left_eq] at this
    exact String.toList_inj.mp this
  · rintro rfl; rfl

theorem ab_ne (x y : String) : "a_" ++ x ≠ "b_" ++ y := by
  intro h
  have := congrArg String.toList h
  rw [String.toList_append, String.toList_append] at this
  simp at this

theorem pub_ne (x : String) : "publics" ≠ "a_" ++ x ∧ "publics" ≠ "b_" ++ x ∧ "rootC" ≠ "a_" ++ x ∧ "rootC" ≠ "b_" ++ x := by
  refine ⟨?_, ?_, ?_, ?_⟩ <;>
  · intro h
    have := congrArg String.toList h
    rw [String.toList_append] at this
    simp at this

theorem lookup_cons (e : String × Json) (z : List (String × Json)) (k : String) :
    lookup (e :: z) k = if e.1 = k then some e.2 else lookup z k := by
  unfold lookup
  rw [List.find?_cons]
  by_cases h : e.1 = k
  · simp [h]
  · have : (e.1 == k) = false := by simpa using h
    rw [this, if_neg h]

theorem lookup_none {z : List (String × Json)} {k : String} (h : k ∉ z.map (·.1)) : lookup z k = none := by
  induction z with
  | nil => rfl
  | cons e z ih =>
    rw [List.map_cons, List.mem_cons, not_or] at h
    rw [lookup_cons, if_neg (fun he => h.1 he.symm), ih h.2]

theorem trim4 {α : Type} (l : List α) : l.dropLast.dropLast.dropLast.dropLast = l.take (l.length - 4) := by
  simp only [List.dropLast_eq_take, List.take_take, List.length_take]
  congr 1
  omega

/-- one entry of the first input -/
theorem step1_spec (m : Out) (e : String × Json) (q : String) :
    step1 m e q = if q = "a_" ++ e.1 then some e.2
      else if e.1 = "publics" ∧ q = "publics" ∧ (trimmed e.2).isSome then trimmed e.2
      else if e.1 = "rootC" ∧ q = "rootC" then some e.2 else m q := by
  obtain ⟨k, v⟩ := e
  simp only [step1]
  by_cases h1 : k = "publics"
  · subst h1
    have e : ("a_" ++ "publics" : String) = "a_publics" := by decide
    rw [e]
    cases v with
    | arr l =>
      by_cases h4 : 4 ≤ l.length <;> by_cases hq : q = "a_publics" <;> by_cases hqp : q = "publics" <;>
        simp [h4, insert, Function.update_apply, trimmed, trim4, hqp, hq]
    | _ => simp [insert, Function.update_apply, trimmed]
  · by_cases h2 : k = "rootC"
    · by_cases hq : q = "a_" ++ k
      · simp [h2, insert, hq]
      · by_cases hqp : q = "rootC" <;> simp [h2, insert, Function.update_apply, hqp]
    · simp [h1, h2, insert, Function.update_apply]

theorem fold1_a (z : List (String × Json)) (m : Out) (hz : IsMap z) (k : String) :
    z.foldl step1 m ("a_" ++ k) = (lookup z k).or (m ("a_" ++ k)) := by
  induction z generalizing m with
  | nil => rfl
  | cons e z ih =>
    unfold IsMap at hz
    rw [List.map_cons, List.nodup_cons] at hz
    rw [List.foldl_cons, ih _ hz.2, lookup_cons, step1_spec]
    have hp := pub_ne k
    by_cases h : e.1 = k
    · rw [if_pos h, if_pos (by rw [h]), ← h, lookup_none hz.1]; rfl
    · rw [if_neg h, if_neg (by rw [key_inj]; exact fun h' => h h'.symm), if_neg (fun h' => hp.1 h'.2.1.symm), if_neg (fun h' => hp.2.2.1 h'.2.symm)]

theorem fold1_pub (z : List (String × Json)) (m : Out) (hz : IsMap z) :
    z.foldl step1 m "publics" = ((lookup z "publics").bind trimmed).or (m "publics") := by
  induction z generalizing m with
  | nil => rfl
  | cons e z ih =>
    unfold IsMap at hz
    rw [List.map_cons, List.nodup_cons] at hz
    rw [List.foldl_cons, ih _ hz.2, lookup_cons, step1_spec, if_neg (pub_ne _).1]
    by_cases h : e.1 = "publics"
    · rw [if_pos h, ← h, lookup_none hz.1]
      cases ht : trimmed e.2 with
      | none =>
        rw [if_neg (by simp), if_neg (fun h' => absurd h' (by rw [h]; decide))]
        simp [ht]
      | some t => rw [if_pos (by simp [h])]; simp [ht]
    · rw [if_neg h, if_neg (fun h' => h h'.1), if_neg (fun h' => absurd h'.2 (by decide))]

theorem fold1_root (z : List (String × Json)) (m : Out) (hz : IsMap z) :
    z.foldl step1 m "rootC" = (lookup z "rootC").or (m "rootC") := by
  induction z generalizing m with
  | nil => rfl
  | cons e z ih =>
    unfold IsMap at hz
    rw [List.map_cons, List.nodup_cons] at hz
    rw [List.foldl_cons, ih _ hz.2, lookup_cons, step1_spec, if_neg (pub_ne _).2.2.1, if_neg (fun h' => absurd h'.2.1 (by decide))]
    by_cases h : e.1 = "rootC"
    · rw [if_pos h, if_pos ⟨h, rfl⟩, ← h, lookup_none hz.1]; rfl
    · rw [if_neg h, if_neg (fun h' => h h'.1)]

theorem fold1_other (z : List (String × Json)) (m : Out) (q : String) (ha : ∀ k, q ≠ "a_" ++ k) (hp : q ≠ "publics") (hr : q ≠ "rootC") :
    z.foldl step1 m q = m q := by
  induction z generalizing m with
  | nil => rfl
  | cons e z ih =>
    rw [List.foldl_cons, ih, step1_spec, if_neg (ha _), if_neg (fun h => hp h.2.1), if_neg (fun h => hr h.2)]

theorem fold2_b (z : List (String × Json)) (m : Out) (hz : IsMap z) (k : String) :
    z.foldl step2 m ("b_" ++ k) = (lookup z k).or (m ("b_" ++ k)) := by
  induction z generalizing m with
  | nil => rfl
  | cons e z ih =>
    unfold IsMap at hz
    rw [List.map_cons, List.nodup_cons] at hz
    rw [List.foldl_cons, ih _ hz.2, lookup_cons, step2]
    by_cases h : e.1 = k
    · rw [if_pos h, ← h, insert, Function.update_self, lookup_none hz.1]; rfl
    · rw [if_neg h, insert, Function.update_of_ne (by rw [ne_eq, key_inj]; exact fun h' => h h'.symm)]

theorem fold2_other (z : List (String × Json)) (m : Out) (q : String) (hb : ∀ k, q ≠ "b_" ++ k) : z.foldl step2 m q = m q := by
  induction z generalizing m with
  | nil => rfl
  | cons e z ih => rw [List.foldl_cons, ih, step2, insert, Function.update_of_ne (hb _)]

/-- **C48.** The joined map contains exactly: every entry of the first input under `a_`, every entry of the second under `b_`,
the public inputs of the first without the trailing root (if they are an array), and the `rootC` of the first. -/
theorem joinZkin_spec (z1 z2 : List (String × Json)) (h1 : IsMap z1) (h2 : IsMap z2) :
    (∀ k, joinZkin z1 z2 ("a_" ++ k) = lookup z1 k) ∧ (∀ k, joinZkin z1 z2 ("b_" ++ k) = lookup z2 k) ∧
    joinZkin z1 z2 "publics" = (lookup z1 "publics").bind trimmed ∧ joinZkin z1 z2 "rootC" = lookup z1 "rootC" ∧
    ∀ q, (joinZkin z1 z2 q).isSome → (∃ k, q = "a_" ++ k) ∨ (∃ k, q = "b_" ++ k) ∨ q = "publics" ∨ q = "rootC" := by
  refine ⟨fun k => ?_, fun k => ?_, ?_, ?_, fun q hq => ?_⟩
  · rw [joinZkin, fold2_other _ _ _ (fun _ => ab_ne _ _), fold1_a _ _ h1, Option.or_none]
  · rw [joinZkin, fold2_b _ _ h2, fold1_other _ _ _ (fun _ h => ab_ne _ _ h.symm) (fun h => (pub_ne k).2.1 h.symm) (fun h => (pub_ne k).2.2.2 h.symm), Option.or_none]
  · rw [joinZkin, fold2_other _ _ _ (fun k => (pub_ne k).2.1), fold1_pub _ _ h1, Option.or_none]
  · rw [joinZkin, fold2_other _ _ _ (fun k => (pub_ne k).2.2.2), fold1_root _ _ h1, Option.or_none]
  · by_contra hc
    simp only [not_or, not_exists] at hc
    rw [joinZkin, fold2_other _ _ _ hc.2.1, fold1_other _ _ _ hc.1 hc.2.2.1 hc.2.2.2] at hq
    exact absurd hq (by simp)

/-- an input with five public values, whose key `b_x` would collide with no other entry -/
example : joinZkin [("b_x", .null), ("publics", .arr [.null, .num "1", .num "2", .num "3", .num "4"]), ("rootC", .str "r")] [("x", .bool true)] "b_x" = some (.bool true) ∧
    joinZkin [("b_x", .null), ("publics", .arr [.null, .num "1", .num "2", .num "3", .num "4"]), ("rootC", .str "r")] [("x", .bool true)] "publics" = some (.arr [.null]) := by
  obtain ⟨-, hb, hp, -, -⟩ := joinZkin_spec [("b_x", .null), ("publics", .arr [.null, .num "1", .num "2", .num "3", .num "4"]), ("rootC", .str "r")] [("x", .bool true)]
    (by unfold IsMap; decide) (by unfold IsMap; decide)
  exact ⟨hb "x", hp⟩

end Verif.Io.Zkin
