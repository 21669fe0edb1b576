import Verif.Hash.Chunks

/-!
Model of starky/src/linearhash.rs (the non-AVX512 code path) over an arbitrary state permutation:
`perm` stands for the twelve-element Poseidon permutation of starky/src/poseidon_opt.rs L76-204
(modelled itself in `Verif.Poseidon`); the theorems hold for every function from twelve elements to
twelve elements.
-/

set_option linter.unusedSectionVars false

namespace Verif.Linear
variable {F : Type*} [Zero F]

/-- starky/src/poseidon_opt.rs L76-100 and L203: `hash(inp, init_state, out)` fails unless there are
8 inputs and 4 capacity elements, builds the state `inp ++ init_state`, permutes it and returns its
first `out` elements. -/
def poseidonHash (perm : List F → List F) (inp init : List F) (out : Nat) : Option (List F) :=
  if inp.length = 8 ∧ init.length = 4 then some ((perm (inp ++ init)).take out) else none

/-- starky/src/linearhash.rs L86-90 and L121-125: the four-element array `st` with the (at most four)
inputs copied to its front. -/
def pad4 (xs : List F) : List F := xs ++ List.replicate (4 - xs.length) 0

/-- starky/src/linearhash.rs L128-136: the absorption loop over the inputs, with the buffer
`inhashes` and the state `st`. -/
def absorb (perm : List F → List F) : List F → List F → List F → Option (List F × List F)
  | [], inh, st => some (inh, st)
  | v :: vs, inh, st =>
    if (inh ++ [v]).length = 8 then
      (poseidonHash perm (inh ++ [v]) st 4).bind fun t => absorb perm vs [] t
    else absorb perm vs (inh ++ [v]) st

/-- starky/src/linearhash.rs L119-145: `_hash`. -/
def hashInner (perm : List F → List F) (xs : List F) : Option (List F) :=
  if xs.length ≤ 4 then some (pad4 xs)
  else (absorb perm xs [] (List.replicate 4 0)).bind fun r =>
    if r.1 = [] then some r.2
    else poseidonHash perm (r.1 ++ List.replicate (8 - r.1.length) 0) r.2 4

/-- starky/src/linearhash.rs L80-83: the chunk length used by `hash`. -/
def batch (len bs : Nat) : Nat := if bs = 0 then max 8 ((len + 3) / 4) else bs

/-- starky/src/linearhash.rs L79-110: `hash(flatvals, batch_size)`.  The `hsz = ceil(len / bs)`
four-element slots of `hashes` are filled one per chunk, so `hashes` is the concatenation of the
digests of the chunks. -/
def hash (perm : List F → List F) (xs : List F) (bs : Nat) : Option (List F) :=
  if xs.length ≤ 4 then some (pad4 xs)
  else ((chunks (batch xs.length bs) xs).mapM (hashInner perm)).bind fun ds =>
    if ds.flatten.length ≤ 4 then some (pad4 ds.flatten) else hashInner perm ds.flatten

/-- starky/src/linearhash.rs L56-70: `hash_element_matrix` concatenates the columns.  The code
allocates `vals.len() * vals[0].len()` cells and copies each column in a chunk of `vals[0].len()`
cells; it panics (here `none`) when there is no column or when a column has another length. -/
def hashElementMatrix (perm : List F → List F) (cols : List (List F)) (bs : Nat) : Option (List F) :=
  match cols with
  | [] => none
  | c :: _ => if cols.all (fun d => d.length == c.length) ∧ c.length ≠ 0 then hash perm cols.flatten bs else none

/-! ### Specification -/

/-- `perm` maps states of twelve elements to states of twelve elements. -/
def IsState (perm : List F → List F) : Prop := ∀ s : List F, s.length = 12 → (perm s).length = 12

/-- zero-pad to a multiple of eight -/
def pad8 (xs : List F) : List F := xs ++ List.replicate ((8 - xs.length % 8) % 8) 0

/-- the sponge: capacity four, rate eight, starting at zero -/
def sponge (perm : List F → List F) (xs : List F) : List F :=
  (chunks 8 (pad8 xs)).foldl (fun st b => (perm (b ++ st)).take 4) (List.replicate 4 0)

/-- digest of one chunk: short inputs are returned zero-padded, longer ones go through the sponge -/
def digest1 (perm : List F → List F) (xs : List F) : List F :=
  if xs.length ≤ 4 then pad4 xs else sponge perm xs

/-- digest of an input: chunks, then (if there are several) the digest of the chunk digests -/
def digest (perm : List F → List F) (xs : List F) (bs : Nat) : List F :=
  let c := if bs = 0 then max 8 ((xs.length + 3) / 4) else bs
  if xs.length ≤ 4 then pad4 xs
  else if xs.length ≤ c then digest1 perm xs
  else digest1 perm ((chunks c xs).flatMap (digest1 perm))

/-! ### Proofs -/

theorem pad4_length {xs : List F} (h : xs.length ≤ 4) : (pad4 xs).length = 4 := by
  simp [pad4]; omega

theorem fold_length {perm : List F → List F} (hp : IsState perm) (bl : List (List F)) (st : List F)
    (hst : st.length = 4) (hb : ∀ b ∈ bl, b.length = 8) :
    (bl.foldl (fun st b => (perm (b ++ st)).take 4) st).length = 4 := by
  induction bl generalizing st with
  | nil => simpa
  | cons b bl ih =>
    simp only [List.foldl_cons]
    apply ih
    · rw [List.length_take, hp _ (by simp [hst, hb b])]; rfl
    · intro x hx; exact hb x (by simp [hx])

theorem chunks_exact {c m : Nat} {l x : List F} (hc : c ≠ 0) (hl : l.length = m * c) (hx : x ∈ chunks c l) :
    x.length = c := by
  obtain ⟨i, hi⟩ := List.getElem?_of_mem hx
  rw [chunks_getElem? hc] at hi
  split_ifs at hi with h
  injection hi with hi
  subst hi
  rw [List.length_take, List.length_drop, hl]
  have h1 : i < m := by
    by_contra hcon
    have : m * c ≤ i * c := Nat.mul_le_mul_right _ (by omega)
    omega
  have h2 : (i + 1) * c ≤ m * c := Nat.mul_le_mul_right _ (by omega)
  have h3 : (i + 1) * c = i * c + c := by ring
  omega

theorem pad8_length (xs : List F) : ∃ m, (pad8 xs).length = m * 8 := by
  simp only [pad8, List.length_append, List.length_replicate]
  exact ⟨(xs.length + 7) / 8, by omega⟩

theorem sponge_length {perm : List F → List F} (hp : IsState perm) (xs : List F) : (sponge perm xs).length = 4 := by
  apply fold_length hp _ _ (by simp)
  obtain ⟨m, hm⟩ := pad8_length xs
  intro b hb
  exact chunks_exact (by decide) hm hb

theorem digest1_length {perm : List F → List F} (hp : IsState perm) (xs : List F) : (digest1 perm xs).length = 4 := by
  unfold digest1
  split_ifs with h
  · exact pad4_length h
  · exact sponge_length hp xs

/-- the absorption loop consumes whole blocks of eight -/
theorem absorb_eq {perm : List F → List F} (hp : IsState perm) (xs inh st : List F) (hi : inh.length < 8)
    (hst : st.length = 4) :
    (absorb perm xs inh st).bind (fun r => if r.1 = [] then some r.2
      else poseidonHash perm (r.1 ++ List.replicate (8 - r.1.length) 0) r.2 4)
    = some ((chunks 8 (pad8 (inh ++ xs))).foldl (fun st b => (perm (b ++ st)).take 4) st) := by
  induction xs generalizing inh st with
  | nil =>
    simp only [absorb, Option.bind_some, List.append_nil]
    split_ifs with h
    · subst h; simp [pad8]
    · have hpos : 0 < inh.length := List.length_pos_iff.mpr h
      have hp8 : pad8 inh = inh ++ List.replicate (8 - inh.length) 0 := by
        unfold pad8; congr 2; omega
      have hl : (inh ++ List.replicate (8 - inh.length) (0 : F)).length = 8 := by simp; omega
      rw [hp8, chunks_short (by decide) (by simp [h]) (by omega)]
      simp [poseidonHash, hst]; omega
  | cons v vs ih =>
    simp only [absorb]
    split_ifs with h
    · rw [poseidonHash, if_pos ⟨h, hst⟩]
      simp only [Option.bind_some]
      rw [ih [] _ (by simp) (by rw [List.length_take, hp _ (by simp only [List.length_append] at *; omega)]; rfl)]
      congr 1
      have e : pad8 (inh ++ v :: vs) = (inh ++ [v]) ++ pad8 ([] ++ vs) := by
        have e1 : inh ++ v :: vs = (inh ++ [v]) ++ vs := by simp
        unfold pad8
        rw [e1, List.length_append, h, List.append_assoc, List.nil_append]
        congr 3; omega
      rw [e, chunks_append (by decide) _ h, List.foldl_cons]
    · rw [ih _ _ (by simp only [List.length_append, List.length_cons, List.length_nil] at *; omega) hst]
      simp

theorem hashInner_eq {perm : List F → List F} (hp : IsState perm) (xs : List F) :
    hashInner perm xs = some (digest1 perm xs) := by
  unfold hashInner digest1
  split_ifs with h
  · rfl
  · have := absorb_eq hp xs [] (List.replicate 4 0) (by simp) (by simp)
    simpa [sponge] using this

theorem mapM_hashInner {perm : List F → List F} (hp : IsState perm) (l : List (List F)) :
    l.mapM (hashInner perm) = some (l.map (digest1 perm)) := by
  induction l with
  | nil => rfl
  | cons x l ih => rw [List.mapM_cons, ih, hashInner_eq hp]; rfl

theorem flatten_length_four (l : List (List F)) (h : ∀ x ∈ l, x.length = 4) : l.flatten.length = 4 * l.length := by
  induction l with
  | nil => rfl
  | cons x l ih =>
    rw [List.flatten_cons, List.length_append, ih (fun y hy => h y (by simp [hy])), h x (by simp), List.length_cons]
    ring

theorem hash_eq_digest {perm : List F → List F} (hp : IsState perm) (xs : List F) (bs : Nat) :
    hash perm xs bs = some (digest perm xs bs) := by
  unfold hash digest
  by_cases h : xs.length ≤ 4
  · simp [h]
  · simp only [h, if_false]
    have hb : batch xs.length bs ≠ 0 := by
      unfold batch; split_ifs with h'
      · have := le_max_left 8 ((xs.length + 3) / 4); omega
      · exact h'
    change _ = some (if xs.length ≤ batch xs.length bs then _ else _)
    change _ = some (if xs.length ≤ batch xs.length bs then _ else digest1 perm ((chunks (batch xs.length bs) xs).flatMap _))
    generalize batch xs.length bs = c at *
    rw [mapM_hashInner hp, Option.bind_some]
    have hl : ((chunks c xs).map (digest1 perm)).flatten.length = 4 * (chunks c xs).length := by
      rw [flatten_length_four]
      · simp
      · intro x hx
        obtain ⟨y, _, rfl⟩ := List.mem_map.mp hx
        exact digest1_length hp y
    have hne : xs ≠ [] := by rintro rfl; simp at h
    by_cases h2 : xs.length ≤ c
    · rw [chunks_short hb hne h2] at *
      have := digest1_length hp xs
      simp [h2, pad4, this]
    · simp only [h2, if_false]
      have h3 : 2 ≤ (chunks c xs).length := by
        rw [chunks_length hb, Nat.le_div_iff_mul_le (by omega)]; omega
      rw [if_neg (by omega), hashInner_eq hp, List.flatMap_def]

theorem digest_length {perm : List F → List F} (hp : IsState perm) (xs : List F) (bs : Nat) :
    (digest perm xs bs).length = 4 := by
  unfold digest
  dsimp only
  split_ifs with h1 h2 h3 h4
  · exact pad4_length h1
  all_goals exact digest1_length hp _

end Verif.Linear
