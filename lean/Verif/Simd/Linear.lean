import Verif.Simd.PoseidonProps
import Verif.Hash.LinearProps
import Verif.Hash.TreeLemmas

/-!
# The AVX-512 linear hash

`starky/src/linearhash.rs` L147-300, compiled when all the AVX-512 features are enabled: an input is cut into two halves that are hashed side by side.
`h` is `Poseidon::hash` of avx512_poseidon_gl.rs; every panic (`unwrap`, slicing, `copy_from_slice`) is `none`.
-/
namespace Verif.Simd
open Verif.GL (F MODULUS)
open Verif.Poseidon (Res)
open Verif.Poseidon.Gl (permGl)
open Verif.Linear (pad4 pad8 batch digest digest1 sponge IsState)

/-- `.unwrap()` followed by `copy_from_slice` into an array of eight -/
def unwrap8 : Res F → Option (List F)
  | .ok l => if l.length = 8 then some l else none
  | _ => none

/-- `&l[a..b]` -/
def slice (l : List F) (a b : Nat) : Option (List F) := if a ≤ b ∧ b ≤ l.length then some ((l.drop a).take (b - a)) else none

/-- the loop of `_hash`, linearhash.rs L269-284: `inh` is `inhashes`, `c` is `count`, `f1` is `flatvals1` -/
def absorb2 (h : List F → List F → Nat → Res F) (f1 : List F) : List F → List F → Nat → List F → Option (List F × Nat × List F)
  | [], inh, c, st => some (inh, c, st)
  | v :: vs, inh, c, st =>
    if (inh ++ [v]).length = 8 then
      (slice f1 (c * 8) (c * 8 + 4)).bind fun first =>
      (slice f1 (c * 8 + 4) (c * 8 + 8)).bind fun second =>
      (unwrap8 (h ((inh ++ [v]).take 4 ++ first ++ (inh ++ [v]).drop 4 ++ second) st 8)).bind fun t => absorb2 h f1 vs [] (c + 1) t
    else absorb2 h f1 vs (inh ++ [v]) c st

/-- the end of `_hash`, linearhash.rs L286-298 -/
def finish2 (h : List F → List F → Nat → Res F) (f1 : List F) (inh : List F) (c : Nat) (st : List F) : Option (List F) :=
  if inh = [] then some st
  else
    let inh := inh ++ List.replicate (8 - inh.length) 0
    (slice f1 (c * 8) f1.length).bind fun rest =>
      let inh := inh ++ rest
      let inh := inh ++ List.replicate (16 - inh.length) 0
      let middle := (inh.drop 4).take 4
      let inh := inh.take 4 ++ inh.drop 8
      unwrap8 (h (inh.take 8 ++ middle ++ inh.drop 8) st 8)

/-- the four-element array with at most four values copied to its front (`st0`, `st1`), linearhash.rs L190-200, L255-264; a fifth value is out of bounds -/
def pad4? (xs : List F) : Option (List F) := if xs.length ≤ 4 then some (pad4 xs) else none

/-- `_hash`, linearhash.rs L249-300 -/
def hashInner2 (h : List F → List F → Nat → Res F) (flat : List F) : Option (List F) :=
  let mid := flat.length / 2
  let f0 := flat.take mid
  let f1 := flat.drop mid
  if mid ≤ 4 then (pad4? f0).bind fun s0 => (pad4? f1).bind fun s1 => some (s0 ++ s1)
  else (absorb2 h f1 f0 [] 0 (List.replicate 8 0)).bind fun r => finish2 h f1 r.1 r.2.1 r.2.2

/-- `hash`, linearhash.rs L180-240: the eight-element slots of `hashes` are filled one per pair of chunks (`zip` stops at the shorter list; the first
half has exactly one chunk per slot) -/
def hash2 (h : List F → List F → Nat → Res F) (flat : List F) (bs : Nat) : Option (List F × List F) :=
  let mid := flat.length / 2
  let f0 := flat.take mid
  let f1 := flat.drop mid
  let bs := batch mid bs
  if mid ≤ 4 then (pad4? f0).bind fun s0 => (pad4? f1).bind fun s1 => some (s0, s1)
  else ((chunks bs f0).zip (chunks bs f1)).mapM (fun c => hashInner2 h (c.1 ++ c.2)) |>.bind fun ds =>
    let hashes := ds.flatten
    if hashes.length ≤ 8 then
      (pad4? (hashes.take (hashes.length / 2))).bind fun s0 => (pad4? (hashes.drop (hashes.length / 2))).bind fun s1 => some (s0, s1)
    else
      let cs := chunks 8 hashes
      (hashInner2 h (cs.flatMap (List.take 4) ++ cs.flatMap (List.drop 4))).bind fun tmp => some (tmp.take 4, tmp.drop 4)

/-- `hash_element_matrix`, linearhash.rs L154-171 -/
def hashElementMatrix2 (h : List F → List F → Nat → Res F) (cols : List (List F)) (bs : Nat) : Option (List F) :=
  match cols with
  | [] => none
  | c :: _ => if cols.all (fun d => d.length == c.length) ∧ c.length ≠ 0 then (hash2 h (cols.flatten ++ cols.flatten) bs).map (·.1) else none

/-! ### Proofs -/

/-- `h` hashes two states at once -/
def Two (h : List F → List F → Nat → Res F) (perm : List F → List F) : Prop :=
  ∀ a b ca cb : List F, a.length = 8 → b.length = 8 → ca.length = 4 → cb.length = 4 →
    h (weave a b) (ca ++ cb) 8 = .ok ((perm (a ++ ca)).take 4 ++ (perm (b ++ cb)).take 4)

variable {h : List F → List F → Nat → Res F} {perm : List F → List F}

theorem Two.unwrap (hh : Two h perm) (hp : IsState perm) {a b ca cb : List F} (ha : a.length = 8) (hb : b.length = 8) (hca : ca.length = 4)
    (hcb : cb.length = 4) : unwrap8 (h (weave a b) (ca ++ cb) 8) = some ((perm (a ++ ca)).take 4 ++ (perm (b ++ cb)).take 4) := by
  rw [hh a b ca cb ha hb hca hcb]
  refine if_pos ?_
  rw [List.length_append, List.length_take, List.length_take, hp _ (by simp [ha, hca]), hp _ (by simp [hb, hcb])]
  rfl

theorem absorb2_eq (hh : Two h perm) (hp : IsState perm) (f1 xs inh : List F) (c : Nat) (sa sb : List F) (hi : inh.length < 8) (hc : c * 8 ≤ f1.length)
    (hl : inh.length + xs.length = (f1.drop (c * 8)).length) (ha : sa.length = 4) (hb : sb.length = 4) :
    ((absorb2 h f1 xs inh c (sa ++ sb)).bind fun r => finish2 h f1 r.1 r.2.1 r.2.2) =
      some ((chunks 8 (pad8 (inh ++ xs))).foldl (fun st b => (perm (b ++ st)).take 4) sa ++
        (chunks 8 (pad8 (f1.drop (c * 8)))).foldl (fun st b => (perm (b ++ st)).take 4) sb) := by
  induction xs generalizing inh c sa sb with
  | nil =>
    simp only [absorb2, Option.bind_some, List.append_nil, finish2]
    by_cases h0 : inh = []
    · subst h0
      have : f1.drop (c * 8) = [] := List.eq_nil_of_length_eq_zero (by rw [← hl]; rfl)
      rw [if_pos rfl, this]
      simp [pad8]
    · rw [if_neg h0]
      have hpos : 0 < inh.length := List.length_pos_iff.mpr h0
      have hs : slice f1 (c * 8) f1.length = some (f1.drop (c * 8)) := by
        unfold slice
        rw [if_pos ⟨hc, le_rfl⟩, List.take_of_length_le (by simp)]
      rw [hs]
      simp only [List.length_nil, Nat.add_zero] at hl
      generalize hrest : f1.drop (c * 8) = rest at *
      have hr0 : rest ≠ [] := by intro e; rw [e] at hl; exact h0 (List.eq_nil_of_length_eq_zero hl)
      simp only [Option.bind_some]
      have p1 : pad8 inh = inh ++ List.replicate (8 - inh.length) 0 := by unfold pad8; congr 2; omega
      have p2 : pad8 rest = rest ++ List.replicate (8 - rest.length) 0 := by unfold pad8; congr 2; omega
      have l1 : (pad8 inh).length = 8 := by rw [p1]; simp; omega
      have l2 : (pad8 rest).length = 8 := by rw [p2]; simp; omega
      have e : inh ++ List.replicate (8 - inh.length) 0 ++ rest ++ List.replicate (16 - (inh ++ List.replicate (8 - inh.length) 0 ++ rest).length) 0 =
          pad8 inh ++ pad8 rest := by
        rw [p1, p2, List.append_assoc]
        congr 3
        simp
        omega
      rw [e]
      have w : ∀ A B : List F, A.length = 8 → B.length = 8 →
          ((A ++ B).take 4 ++ (A ++ B).drop 8).take 8 ++ ((A ++ B).drop 4).take 4 ++ ((A ++ B).take 4 ++ (A ++ B).drop 8).drop 8 = weave A B := by
        intro A B hA hB
        obtain ⟨a0, a1, a2, a3, a4, a5, a6, a7, rfl⟩ := eight hA
        obtain ⟨b0, b1, b2, b3, b4, b5, b6, b7, rfl⟩ := eight hB
        rfl
      rw [w _ _ l1 l2, hh.unwrap hp l1 l2 ha hb,
        chunks_short (by decide) (by intro e; rw [e] at l1; simp at l1) (by omega),
        chunks_short (by decide) (by intro e; rw [e] at l2; simp at l2) (by omega)]
      rfl
  | cons v vs ih =>
    simp only [absorb2]
    by_cases h8 : (inh ++ [v]).length = 8
    · rw [if_pos h8]
      have hlen : 8 ≤ (f1.drop (c * 8)).length := by simp only [List.length_append, List.length_cons, List.length_nil] at h8 hl; omega
      have hlen' : c * 8 + 8 ≤ f1.length := by rw [List.length_drop] at hlen; omega
      have s1 : slice f1 (c * 8) (c * 8 + 4) = some ((f1.drop (c * 8)).take 4) := by
        unfold slice; rw [if_pos ⟨by omega, by omega⟩]; congr 2; omega
      have s2 : slice f1 (c * 8 + 4) (c * 8 + 8) = some (((f1.drop (c * 8)).drop 4).take 4) := by
        unfold slice; rw [if_pos ⟨by omega, by omega⟩, List.drop_drop]; congr 2; omega
      rw [s1, s2]
      simp only [Option.bind_some]
      set B := (f1.drop (c * 8)).take 8 with hB
      have lB : B.length = 8 := by rw [hB, List.length_take]; omega
      have hsplit : f1.drop (c * 8) = B ++ f1.drop ((c + 1) * 8) := by
        rw [hB, show (c + 1) * 8 = c * 8 + 8 by ring, ← List.drop_drop, List.take_append_drop]
      have e1 : (f1.drop (c * 8)).take 4 = B.take 4 := by rw [hB, List.take_take]; rfl
      have e2 : ((f1.drop (c * 8)).drop 4).take 4 = B.drop 4 := by rw [hB, List.drop_take]
      have w : (inh ++ [v]).take 4 ++ B.take 4 ++ (inh ++ [v]).drop 4 ++ B.drop 4 = weave (inh ++ [v]) B := by
        unfold weave; simp only [List.append_assoc]
      rw [e1, e2, w, hh.unwrap hp h8 lB ha hb]
      simp only [Option.bind_some]
      have t1 : ((perm ((inh ++ [v]) ++ sa)).take 4).length = 4 := by
        rw [List.length_take, hp _ (by rw [List.length_append, h8, ha])]; rfl
      have t2 : ((perm (B ++ sb)).take 4).length = 4 := by
        rw [List.length_take, hp _ (by rw [List.length_append, lB, hb])]; rfl
      rw [ih [] (c + 1) _ _ (by simp) (by omega) (by
        simp only [List.length_append, List.length_cons, List.length_nil, List.length_drop] at h8 hl ⊢; omega) t1 t2]
      have pe : pad8 (inh ++ v :: vs) = (inh ++ [v]) ++ pad8 ([] ++ vs) := by
        have e1 : inh ++ v :: vs = (inh ++ [v]) ++ vs := by simp
        unfold pad8
        rw [e1, List.length_append, h8, List.append_assoc, List.nil_append]
        congr 3; omega
      have pe2 : pad8 (f1.drop (c * 8)) = B ++ pad8 (f1.drop ((c + 1) * 8)) := by
        rw [hsplit]
        unfold pad8
        rw [List.length_append, lB, List.append_assoc]
        congr 3; omega
      rw [pe, pe2, chunks_append (by decide) _ h8, chunks_append (by decide) _ lB, List.foldl_cons, List.foldl_cons]
    · rw [if_neg h8, ih _ _ _ _ (by simp only [List.length_append, List.length_cons, List.length_nil] at *; omega) hc
        (by simp only [List.length_append, List.length_cons, List.length_nil] at *; omega) ha hb]
      simp

theorem hashInner2_eq (hh : Two h perm) (hp : IsState perm) (a b : List F) (hab : a.length = b.length) :
    hashInner2 h (a ++ b) = some (digest1 perm a ++ digest1 perm b) := by
  have hm : (a ++ b).length / 2 = a.length := by rw [List.length_append]; omega
  unfold hashInner2
  simp only [hm, List.take_left, List.drop_left]
  unfold digest1 pad4?
  by_cases h4 : a.length ≤ 4
  · rw [if_pos h4, if_pos h4, if_pos h4, if_pos (by omega), if_pos (by omega)]
    rfl
  · rw [if_neg h4, if_neg h4, if_neg (by omega)]
    have := absorb2_eq hh hp b a [] 0 (List.replicate 4 0) (List.replicate 4 0) (by simp) (by simp) (by simp [hab]) (by simp) (by simp)
    simpa [sponge] using this

theorem mapM2_eq (hh : Two h perm) (hp : IsState perm) (l : List (List F × List F)) (hl : ∀ c ∈ l, c.1.length = c.2.length) :
    l.mapM (fun c => hashInner2 h (c.1 ++ c.2)) = some (l.map fun c => digest1 perm c.1 ++ digest1 perm c.2) := by
  induction l with
  | nil => rfl
  | cons x l ih =>
    rw [List.mapM_cons, ih (fun c hc => hl c (by simp [hc])), hashInner2_eq hh hp _ _ (hl x (by simp))]
    rfl

theorem chunks_zip_length {c : Nat} (hc : c ≠ 0) {a b : List F} (hab : a.length = b.length) :
    ∀ x ∈ (chunks c a).zip (chunks c b), x.1.length = x.2.length := by
  intro x hx
  obtain ⟨i, hi⟩ := List.getElem?_of_mem hx
  rw [List.getElem?_zip_eq_some, chunks_getElem? hc, chunks_getElem? hc] at hi
  obtain ⟨h1, h2⟩ := hi
  split_ifs at h1 h2 with g1 g2
  · injection h1 with h1
    injection h2 with h2
    rw [← h1, ← h2]
    simp [hab]

theorem chunks8_flat (l : List (List F × List F)) (hl : ∀ x ∈ l, x.1.length = 4 ∧ x.2.length = 4) :
    chunks 8 (l.map fun x => x.1 ++ x.2).flatten = l.map fun x => x.1 ++ x.2 := by
  induction l with
  | nil => simp
  | cons x l ih =>
    obtain ⟨h1, h2⟩ := hl x (by simp)
    rw [List.map_cons, List.flatten_cons, chunks_append (by decide) _ (by simp [h1, h2]), ih fun y hy => hl y (by simp [hy])]

theorem hash2_eq (hh : Two h perm) (hp : IsState perm) (a b : List F) (bs : Nat) (hab : a.length = b.length) :
    hash2 h (a ++ b) bs = some (digest perm a bs, digest perm b bs) := by
  have hm : (a ++ b).length / 2 = a.length := by rw [List.length_append]; omega
  unfold hash2
  simp only [hm, List.take_left, List.drop_left]
  have e0 := Verif.Linear.hash_eq_digest hp a bs
  have e1 := Verif.Linear.hash_eq_digest hp b bs
  unfold Verif.Linear.hash at e0 e1
  rw [← hab] at e1
  by_cases h4 : a.length ≤ 4
  · rw [if_pos h4] at e0 e1
    injection e0 with e0
    injection e1 with e1
    unfold pad4?
    rw [if_pos h4, if_pos h4, if_pos (by omega), ← e0, ← e1]
    rfl
  · rw [if_neg h4] at e0 e1 ⊢
    have hb : batch a.length bs ≠ 0 := by
      unfold batch; split_ifs with h'
      · have := le_max_left 8 ((a.length + 3) / 4); omega
      · exact h'
    generalize batch a.length bs = c at *
    rw [mapM2_eq hh hp _ (chunks_zip_length hb hab)]
    rw [Verif.Linear.mapM_hashInner hp] at e0 e1
    simp only [Option.bind_some] at e0 e1 ⊢
    have hlen : (chunks c a).length = (chunks c b).length := by rw [chunks_length hb, chunks_length hb, hab]
    generalize hA : chunks c a = A at *
    generalize hB : chunks c b = B at *
    have hne : 0 < A.length := by
      rw [← hA, chunks_length hb]
      exact Nat.div_pos (by omega) (by omega)
    have hflat : ∀ l : List (List F), (l.map (digest1 perm)).flatten.length = 4 * l.length := by
      intro l
      rw [Verif.Linear.flatten_length_four]
      · simp
      · intro x hx
        obtain ⟨y, _, rfl⟩ := List.mem_map.mp hx
        exact Verif.Linear.digest1_length hp y
    have hz : (A.zip B).map (fun c => digest1 perm c.1 ++ digest1 perm c.2) =
        ((A.zip B).map fun c => (digest1 perm c.1, digest1 perm c.2)).map fun x => x.1 ++ x.2 := by rw [List.map_map]; rfl
    have hz4 : ∀ x ∈ (A.zip B).map (fun c => (digest1 perm c.1, digest1 perm c.2)), x.1.length = 4 ∧ x.2.length = 4 := by
      intro x hx
      obtain ⟨y, _, rfl⟩ := List.mem_map.mp hx
      exact ⟨Verif.Linear.digest1_length hp _, Verif.Linear.digest1_length hp _⟩
    have hc8 := chunks8_flat _ hz4
    rw [← hz] at hc8
    rw [hc8]
    have hl8 : ((A.zip B).map fun c => digest1 perm c.1 ++ digest1 perm c.2).flatten.length = 8 * A.length := by
      have : ∀ l : List (List F × List F), (l.map fun c => digest1 perm c.1 ++ digest1 perm c.2).flatten.length = 8 * l.length := by
        intro l
        induction l with
        | nil => rfl
        | cons x l ih =>
          rw [List.map_cons, List.flatten_cons, List.length_append, ih, List.length_append, Verif.Linear.digest1_length hp,
            Verif.Linear.digest1_length hp, List.length_cons]
          ring
      rw [this, List.length_zip, ← hlen, Nat.min_self]
    rw [hl8]
    by_cases h1 : A.length = 1
    · obtain ⟨x, hx⟩ := List.length_eq_one_iff.mp h1
      obtain ⟨y, hy⟩ := List.length_eq_one_iff.mp (hlen ▸ h1)
      subst hx hy
      have d1 := Verif.Linear.digest1_length hp x
      have d2 := Verif.Linear.digest1_length hp y
      simp only [List.map_cons, List.map_nil, List.flatten_cons, List.flatten_nil, List.append_nil, d1, d2, le_refl, if_true] at e0 e1
      injection e0 with e0
      injection e1 with e1
      rw [if_pos (by simp)]
      simp only [List.zip_cons_cons, List.zip_nil_right, List.map_cons, List.map_nil, List.flatten_cons, List.flatten_nil, List.append_nil, List.length_singleton]
      rw [List.take_left' (by rw [d1]), List.drop_left' (by rw [d1])]
      unfold pad4?
      rw [if_pos (by omega), if_pos (by omega), ← e0, ← e1]
      rfl
    · rw [if_neg (by omega)]
      rw [hflat, if_neg (by omega), Verif.Linear.hashInner_eq hp] at e0
      rw [hflat, if_neg (by omega), Verif.Linear.hashInner_eq hp] at e1
      injection e0 with e0
      injection e1 with e1
      have f0 : ((A.zip B).map fun c => digest1 perm c.1 ++ digest1 perm c.2).flatMap (List.take 4) = (A.map (digest1 perm)).flatten := by
        rw [List.flatMap_def, List.map_map]
        congr 1
        have : (A.zip B).map (List.take 4 ∘ fun c => digest1 perm c.1 ++ digest1 perm c.2) = ((A.zip B).map Prod.fst).map (digest1 perm) := by
          rw [List.map_map]
          refine List.map_congr_left fun x _ => ?_
          simp only [Function.comp]
          rw [List.take_left' (Verif.Linear.digest1_length hp _)]
        rw [this, List.map_fst_zip (by omega)]
      have f1 : ((A.zip B).map fun c => digest1 perm c.1 ++ digest1 perm c.2).flatMap (List.drop 4) = (B.map (digest1 perm)).flatten := by
        rw [List.flatMap_def, List.map_map]
        congr 1
        have : (A.zip B).map (List.drop 4 ∘ fun c => digest1 perm c.1 ++ digest1 perm c.2) = ((A.zip B).map Prod.snd).map (digest1 perm) := by
          rw [List.map_map]
          refine List.map_congr_left fun x _ => ?_
          simp only [Function.comp]
          rw [List.drop_left' (Verif.Linear.digest1_length hp _)]
        rw [this, List.map_snd_zip (by omega)]
      rw [f0, f1, hashInner2_eq hh hp _ _ (by rw [hflat, hflat, hlen]), Option.bind_some,
        List.take_left' (Verif.Linear.digest1_length hp _), List.drop_left' (Verif.Linear.digest1_length hp _), e0, e1]

end Verif.Simd
