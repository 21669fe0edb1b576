import Verif.Io.Witness
import Verif.Io.Groth16Json
import Mathlib.Data.List.GetD
import Mathlib.Algebra.BigOperators.Intervals

/-!
# The witness calculator's dialogue with the circuit program (C130, C131): `calculate_witness` of algebraic/src/witness/witness_calculator.rs and the
input file, algebraic/src/witness/mod.rs

Indices are assumed below `2^32` (`i as u32`, `i * n32 + j` in `u32`).
-/
namespace Verif.Io.Driver

/-- the functions the compiled circuit exports, algebraic/src/witness/circom.rs L8-58; `none` is an error or a trap. Reading has no effect. -/
structure Prog (S : Type) where
  n32 : Nat
  init : S → Bool → Option S
  read : S → Nat → Option Nat
  write : S → Nat → Nat → Option S
  setInput : S → Nat → Nat → Nat → Option S
  witnessSize : S → Nat
  getWitness : S → Nat → Option S

/-- `FnvHasher` (crate `fnv`): FNV-1a on 64 bits -/
def fnv64 (bs : List Nat) : Nat := bs.foldl (fun h b => ((h ^^^ b) * 0x100000001b3) % 2 ^ 64) 0xcbf29ce484222325

/-- algebraic/src/witness/mod.rs L15-21 `fnv` -/
def fnv (bs : List Nat) : Nat × Nat := (fnv64 bs / 2 ^ 32, fnv64 bs % 2 ^ 32)

variable {S : Type}

/-- witness_calculator.rs L155-164: one value is written word by word, then `set_input_signal` -/
def setOne (P : Prog S) (h : Nat × Nat) (s : S) (vi : Int × Nat) : Option S := do
  let f ← toArray32 vi.1 P.n32
  let s ← (List.range P.n32).foldlM (fun s j => do
    let v ← f[P.n32 - 1 - j]?
    P.write s j v) s
  P.setInput s h.1 h.2 vi.2

/-- L151-166: all inputs -/
def setAll (P : Prog S) (s : S) (inputs : List (List Nat × List Int)) : Option S :=
  inputs.foldlM (fun s nv => nv.2.zipIdx.foldlM (setOne P (fnv nv.1)) s) s

/-- L171-174: the words of element `i` -/
def readOne (P : Prog S) (ws : List Nat × S) (i : Nat) : Option (List Nat × S) := do
  let s ← P.getWitness ws.2 i
  (List.range P.n32).foldlM (fun (ws : List Nat × S) j => do
    let v ← P.read ws.2 j
    return (ws.1 ++ [v], ws.2)) (ws.1, s)

/-- L141-180 `calculate_witness_circom` -/
def calcCircom (P : Prog S) (s : S) (inputs : List (List Nat × List Int)) (sanity : Bool) : Option (List Nat × S) := do
  let s ← P.init s sanity
  let s ← setAll P s inputs
  (List.range (P.witnessSize s)).foldlM (readOne P) ([], s)

/-- L121-126: the words of element `i`, most significant first -/
def gather (n : Nat) (w : List Nat) (i : Nat) : Option (List Nat) :=
  (List.range n).foldlM (fun arr j => do
    let v ← w[i * n + j]?
    return arr.set (n - 1 - j) v) (List.replicate n 0)

/-- L107-130 `calculate_witness` -/
def calcWitness (P : Prog S) (s : S) (inputs : List (List Nat × List Int)) (sanity : Bool) : Option (List Nat) := do
  let s ← P.init s sanity
  let (w, s) ← calcCircom P s inputs sanity
  (List.range (P.witnessSize s)).mapM fun i => (gather P.n32 w i).map fromArray32

/-! ### Specification -/

/-- a circuit program without its memory: it takes signals as numbers and has a number per wire -/
structure Ideal (C : Type) where
  init : C → Bool → Option C
  input : C → Nat → Nat → Nat → Nat → Option C
  size : C → Nat
  wit : C → Nat → Nat

variable {C : Type}

/-- the number in the shared memory, least significant word first -/
def memVal (n : Nat) (mem : Nat → Nat) : Nat := ∑ j ∈ Finset.range n, mem j * 2 ^ (32 * j)

/-- `P` is a program that keeps `I` and hands numbers over through a shared memory of `n32` words; every function may change the memory -/
structure Implements (P : Prog S) (I : Ideal C) (core : S → C) (mem : S → Nat → Nat) : Prop where
  init : ∀ s b, (P.init s b).map core = I.init (core s) b
  read : ∀ s, ∀ j < P.n32, P.read s j = some (mem s j)
  write : ∀ s, ∀ j < P.n32, ∀ v < 2 ^ 32, ∃ s', P.write s j v = some s' ∧ core s' = core s ∧ mem s' = Function.update (mem s) j v
  setInput : ∀ s h l k, (P.setInput s h l k).map core = I.input (core s) h l k (memVal P.n32 (mem s))
  size : ∀ s, P.witnessSize s = I.size (core s)
  getWitness : ∀ s, ∀ i < I.size (core s), ∃ s', P.getWitness s i = some s' ∧ core s' = core s ∧ (∀ j < P.n32, mem s' j < 2 ^ 32) ∧
    memVal P.n32 (mem s') = I.wit (core s) i

/-- the signals to set: name, position in the list of the name, value -/
def calls (inputs : List (List Nat × List Int)) : List (List Nat × Nat × Int) := inputs.flatMap fun nv => nv.2.zipIdx.map fun vi => (nv.1, vi.2, vi.1)

/-- one signal set in the ideal program; a value that does not fit is a panic -/
def Ideal.set (I : Ideal C) (n : Nat) (c : C) (x : List Nat × Nat × Int) : Option C :=
  if 0 ≤ x.2.2 ∧ x.2.2 < 2 ^ (32 * n) then I.input c (fnv x.1).1 (fnv x.1).2 x.2.1 x.2.2.toNat else none

/-- the run of the ideal program: it is initialised (twice), gets every value of every input in order, and its wires are read -/
def Ideal.run (I : Ideal C) (n : Nat) (c : C) (inputs : List (List Nat × List Int)) (sanity : Bool) : Option (List Nat) := do
  let c ← I.init c sanity
  let c ← I.init c sanity
  let c ← (calls inputs).foldlM (I.set n) c
  return (List.range (I.size c)).map (I.wit c)

/-! ### Proofs -/

theorem fnv_spec (bs : List Nat) : (fnv bs).1 * 2 ^ 32 + (fnv bs).2 = fnv64 bs ∧ (fnv bs).1 < 2 ^ 32 ∧ (fnv bs).2 < 2 ^ 32 := by
  have h : fnv64 bs < 2 ^ 64 := by
    unfold fnv64
    induction bs using List.reverseRecOn with
    | nil => norm_num
    | append_singleton l a _ =>
      rw [List.foldl_append, List.foldl_cons, List.foldl_nil]
      exact Nat.mod_lt _ (by positivity)
  simp only [fnv]
  omega

/-- the FNV-1a hash of "a" -/
example : fnv [97] = (0xaf63dc4c, 0x8601ec8c) := by decide +kernel

theorem memVal_reverse (v : Nat → Nat) : ∀ n : Nat, fromArray32 ((List.range n).map fun t => v (n - 1 - t)) = memVal n v
  | 0 => by simp [memVal, fromArray32]
  | n + 1 => by
    rw [List.range_succ_eq_map, List.map_cons, fromArray_cons, memVal, Finset.sum_range_succ, ← memVal, ← memVal_reverse v n]
    have e : (List.map Nat.succ (List.range n)).map (fun t => v (n + 1 - 1 - t)) = (List.range n).map fun t => v (n - 1 - t) := by
      rw [List.map_map]
      apply List.map_congr_left
      intro t _
      simp only [Function.comp]
      congr 1
      omega
    rw [e, List.length_map, List.length_range, show (0x100000000 : Nat) ^ n = 2 ^ (32 * n) by rw [pow_mul]; norm_num]
    simp only [Nat.add_sub_cancel, Nat.sub_zero]
    ring

theorem memVal_congr {n : Nat} {a b : Nat → Nat} (h : ∀ j < n, a j = b j) : memVal n a = memVal n b :=
  Finset.sum_congr rfl fun j hj => by rw [h j (Finset.mem_range.mp hj)]

theorem foldlM_sim {A X Y : Type} {f : A → X → Option A} {g : Y → X → Option Y} {r : A → Y} (h : ∀ s x, (f s x).map r = g (r s) x) :
    ∀ (l : List X) (s : A), (l.foldlM f s).map r = l.foldlM g (r s)
  | [], s => rfl
  | x :: l, s => by
    rw [List.foldlM_cons, List.foldlM_cons, ← h s x]
    cases f s x with
    | none => rfl
    | some s' => exact foldlM_sim h l s'

theorem foldlM_flatMap {A X Y : Type} {f : A → Y → Option A} (k : X → List Y) : ∀ (l : List X) (s : A),
    (l.flatMap k).foldlM f s = l.foldlM (fun s x => (k x).foldlM f s) s
  | [], s => rfl
  | x :: l, s => by
    rw [List.flatMap_cons, List.foldlM_append, List.foldlM_cons]
    congr 1
    funext s'
    exact foldlM_flatMap k l s'

variable {P : Prog S} {I : Ideal C} {core : S → C} {mem : S → Nat → Nat}

/-- the words of a value reach the memory -/
theorem write_loop (hI : Implements P I core mem) {f : List Nat} (hl : f.length = P.n32) (h32 : ∀ x ∈ f, x < 2 ^ 32) (s : S) : ∀ k ≤ P.n32,
    ∃ s', (List.range k).foldlM (fun s j => (f[P.n32 - 1 - j]?).bind fun v => P.write s j v) s = some s' ∧ core s' = core s ∧
      ∀ j < k, mem s' j = f.getD (P.n32 - 1 - j) 0
  | 0, _ => ⟨s, rfl, rfl, fun j h => by omega⟩
  | k + 1, hk => by
    obtain ⟨s1, h1, h2, h3⟩ := write_loop hI hl h32 s k (by omega)
    have hlt : P.n32 - 1 - k < f.length := by omega
    obtain ⟨s2, h4, h5, h6⟩ := hI.write s1 k (by omega) (f[P.n32 - 1 - k]) (h32 _ (List.getElem_mem hlt))
    refine ⟨s2, ?_, h5.trans h2, fun j hj => ?_⟩
    · rw [List.range_succ, List.foldlM_append, h1]
      rw [Option.bind_eq_bind, Option.bind_some, List.foldlM_cons, List.getElem?_eq_getElem hlt, Option.bind_some, h4]
      rfl
    · rw [h6, Function.update_apply]
      split_ifs with e
      · rw [e, List.getD_eq_getElem _ _ hlt]
      · exact h3 j (by omega)

theorem setOne_sim (hI : Implements P I core mem) (name : List Nat) (s : S) (vi : Int × Nat) :
    (setOne P (fnv name) s vi).map core = I.set P.n32 (core s) (name, vi.2, vi.1) := by
  unfold setOne Ideal.set
  split_ifs with h
  · obtain ⟨f, h1, h2, h3, h4⟩ := (limbs_roundtrip vi.1 P.n32).1 h
    obtain ⟨s1, h5, h6, h7⟩ := write_loop hI h2 h3 s P.n32 le_rfl
    rw [h1, Option.bind_eq_bind, Option.bind_some]
    simp only [Option.bind_eq_bind] at h5 ⊢
    rw [h5, Option.bind_some, hI.setInput, h6]
    have e : memVal P.n32 (mem s1) = vi.1.toNat := by
      rw [memVal_congr h7, ← memVal_reverse]
      have : ((List.range P.n32).map fun t => f.getD (P.n32 - 1 - (P.n32 - 1 - t)) 0) = f := by
        apply List.ext_getElem
        · simp [h2]
        · intro i a b
          have hi : i < P.n32 := by simpa using a
          rw [List.getElem_map, List.getElem_range, show P.n32 - 1 - (P.n32 - 1 - i) = i by omega, List.getD_eq_getElem _ _ b]
      rw [this]
      omega
    rw [e]
  · rw [(limbs_roundtrip vi.1 P.n32).2 h]
    rfl

theorem setAll_sim (hI : Implements P I core mem) (inputs : List (List Nat × List Int)) (s : S) :
    (setAll P s inputs).map core = (calls inputs).foldlM (I.set P.n32) (core s) := by
  rw [setAll, calls, foldlM_flatMap]
  refine foldlM_sim (fun s nv => ?_) inputs s
  rw [foldlM_sim (g := fun c vi => I.set P.n32 c (nv.1, vi.2, vi.1)) (fun s vi => setOne_sim hI nv.1 s vi), List.foldlM_map]

/-- the words read for one element -/
def WordsOf (P : Prog S) (I : Ideal C) (c : C) (i : Nat) (l : List Nat) : Prop :=
  l.length = P.n32 ∧ (∀ x ∈ l, x < 2 ^ 32) ∧ memVal P.n32 (fun j => l.getD j 0) = I.wit c i

theorem read_loop (hI : Implements P I core mem) (w : List Nat) (s : S) : ∀ k ≤ P.n32,
    (List.range k).foldlM (fun (ws : List Nat × S) j => (P.read ws.2 j).bind fun v => some (ws.1 ++ [v], ws.2)) (w, s) =
      some (w ++ (List.range k).map (mem s), s)
  | 0, _ => by simp
  | k + 1, hk => by
    rw [List.range_succ, List.foldlM_append, read_loop hI w s k (by omega)]
    rw [Option.bind_eq_bind, Option.bind_some, List.foldlM_cons]
    dsimp only
    rw [hI.read s k (by omega)]
    simp

theorem readOne_ok (hI : Implements P I core mem) (w : List Nat) (s : S) {i : Nat} (hi : i < I.size (core s)) :
    ∃ l s', readOne P (w, s) i = some (w ++ l, s') ∧ core s' = core s ∧ WordsOf P I (core s) i l := by
  obtain ⟨s1, h1, h2, h3, h4⟩ := hI.getWitness s i hi
  refine ⟨(List.range P.n32).map (mem s1), s1, ?_, h2, by simp, fun x hx => ?_, ?_⟩
  · rw [readOne, h1]
    exact read_loop hI w s1 P.n32 le_rfl
  · obtain ⟨j, hj, rfl⟩ := List.mem_map.mp hx
    exact h3 j (List.mem_range.mp hj)
  · rw [← h4]
    refine memVal_congr fun j hj => ?_
    rw [List.getD_eq_getElem _ _ (by simpa using hj), List.getElem_map, List.getElem_range]

theorem readAll_ok (hI : Implements P I core mem) : ∀ (is : List Nat) (w : List Nat) (s : S), (∀ i ∈ is, i < I.size (core s)) →
    ∃ ls s', is.foldlM (readOne P) (w, s) = some (w ++ ls.flatten, s') ∧ core s' = core s ∧ List.Forall₂ (WordsOf P I (core s)) is ls
  | [], w, s, _ => ⟨[], s, by simp, rfl, .nil⟩
  | i :: is, w, s, h => by
    obtain ⟨l, s1, h1, h2, h3⟩ := readOne_ok hI w s (h i (by simp))
    obtain ⟨ls, s2, h4, h5, h6⟩ := readAll_ok hI is (w ++ l) s1 fun j hj => by rw [h2]; exact h j (List.mem_cons_of_mem _ hj)
    rw [h2] at h5 h6
    refine ⟨l :: ls, s2, ?_, h5, .cons h3 h6⟩
    rw [List.foldlM_cons, h1, Option.bind_eq_bind, Option.bind_some, h4, List.flatten_cons, List.append_assoc]

theorem flatten_get {n : Nat} : ∀ (ls : List (List Nat)), (∀ l ∈ ls, l.length = n) → ∀ (i j : Nat) (l : List Nat), ls[i]? = some l → j < n →
    ls.flatten[i * n + j]? = some (l.getD j 0)
  | [], _, i, j, l, h, _ => by simp at h
  | a :: ls, ha, 0, j, l, h, hj => by
    have h : a = l := by simpa using h
    subst h
    have hl := ha a (by simp)
    rw [Nat.zero_mul, Nat.zero_add, List.flatten_cons, List.getElem?_append_left (by omega), List.getElem?_eq_getElem (by omega),
      List.getD_eq_getElem _ _ (by omega)]
  | a :: ls, ha, i + 1, j, l, h, hj => by
    have hl := ha a (by simp)
    rw [List.flatten_cons, List.getElem?_append_right (by rw [hl, Nat.add_mul, Nat.one_mul]; omega), hl,
      show (i + 1) * n + j - n = i * n + j by rw [Nat.add_mul, Nat.one_mul]; omega]
    exact flatten_get ls (fun b hb => ha b (List.mem_cons_of_mem _ hb)) i j l (by simpa using h) hj

theorem gather_loop {n i : Nat} {w : List Nat} {v : Nat → Nat} (h : ∀ j < n, w[i * n + j]? = some (v j)) : ∀ k ≤ n,
    (List.range k).foldlM (fun arr j => (w[i * n + j]?).bind fun v => some (arr.set (n - 1 - j) v)) (List.replicate n 0) =
      some ((List.range n).map fun t => if n - 1 - t < k then v (n - 1 - t) else 0)
  | 0, _ => by
    rw [List.range_zero, List.foldlM_nil]
    refine congrArg some (List.ext_getElem (by simp) fun t a b => ?_)
    simp
  | k + 1, hk => by
    rw [List.range_succ, List.foldlM_append, gather_loop h k (by omega)]
    rw [Option.bind_eq_bind, Option.bind_some, List.foldlM_cons, h k (by omega), Option.bind_some]
    refine congrArg some (List.ext_getElem (by simp) fun t a b => ?_)
    have ht : t < n := by simpa using b
    rw [List.getElem_set, List.getElem_map, List.getElem_map, List.getElem_range]
    split_ifs with h1 h2 h3 h4 <;> first | rfl | (exfalso; omega) | (congr 1; omega)

theorem gather_ok {n i : Nat} {ls : List (List Nat)} {l : List Nat} (hl : ∀ l ∈ ls, l.length = n) (h : ls[i]? = some l) :
    (gather n ls.flatten i).map fromArray32 = some (memVal n fun j => l.getD j 0) := by
  have h1 := gather_loop (v := fun j => l.getD j 0) (fun j hj => flatten_get ls hl i j l h hj) n le_rfl
  have h2 : gather n ls.flatten i = some ((List.range n).map fun t => l.getD (n - 1 - t) 0) := by
    refine (show gather n ls.flatten i = _ from h1).trans (congrArg some (List.map_congr_left fun t ht => ?_))
    have := List.mem_range.mp ht
    rw [if_pos (by omega)]
  rw [h2, Option.map_some, memVal_reverse (fun j => l.getD j 0)]

theorem mapM_gather {P : Prog S} {I : Ideal C} {c : C} {ls : List (List Nat)} (hl : ∀ l ∈ ls, l.length = P.n32) : ∀ (is : List Nat),
    (∀ i ∈ is, ∃ l, ls[i]? = some l ∧ WordsOf P I c i l) → is.mapM (fun i => (gather P.n32 ls.flatten i).map fromArray32) = some (is.map (I.wit c))
  | [], _ => rfl
  | i :: is, h => by
    obtain ⟨l, h1, _, _, h2⟩ := h i (by simp)
    rw [List.mapM_cons, gather_ok hl h1, h2, mapM_gather hl is fun j hj => h j (List.mem_cons_of_mem _ hj)]
    rfl

/-- **C130**: for every circuit program, every state, all inputs and both settings of the sanity check: `calculate_witness` returns what the program computes
when it is given every value of every input, by the hash of its name and its position, in order; it panics when a value is negative or does not fit the
program's words, and fails where the program fails. -/
theorem calcWitness_eq (hI : Implements P I core mem) (s : S) (inputs : List (List Nat × List Int)) (sanity : Bool) :
    calcWitness P s inputs sanity = I.run P.n32 (core s) inputs sanity := by
  unfold calcWitness calcCircom Ideal.run
  simp only [Option.bind_eq_bind]
  rw [← hI.init]
  cases P.init s sanity with
  | none => rfl
  | some s1 =>
    rw [Option.map_some, Option.bind_some, Option.bind_some, ← hI.init]
    cases P.init s1 sanity with
    | none => rfl
    | some s2 =>
      rw [Option.map_some, Option.bind_some, Option.bind_some, ← setAll_sim hI]
      cases setAll P s2 inputs with
      | none => rfl
      | some s3 =>
        rw [Option.map_some, Option.bind_some, Option.bind_some]
        obtain ⟨ls, s4, h1, h2, h3⟩ := readAll_ok hI (List.range (P.witnessSize s3)) [] s3 fun i hi => by rw [← hI.size]; exact List.mem_range.mp hi
        rw [h1, Option.bind_some, List.nil_append]
        dsimp only
        have hlen := h3.length_eq
        rw [List.length_range] at hlen
        have hw : ∀ i (a : i < ls.length), WordsOf P I (core s3) i ls[i] := by
          intro i a
          have := (List.forall₂_iff_get.mp h3).2 i (by rw [List.length_range]; omega) a
          simpa using this
        rw [hI.size s4, h2, ← hI.size s3]
        refine mapM_gather (I := I) (c := core s3) (fun l hl => ?_) _ fun i hi => ?_
        · obtain ⟨i, a, rfl⟩ := List.mem_iff_getElem.mp hl
          exact (hw i a).1
        · have hi : i < ls.length := by rw [← hlen]; exact List.mem_range.mp hi
          exact ⟨_, List.getElem?_eq_getElem hi, hw i hi⟩

/-- consequence: a negative value is never passed on -/
theorem calcWitness_neg (hI : Implements P I core mem) (s : S) (inputs : List (List Nat × List Int)) (sanity : Bool) {nv : List Nat × List Int}
    (hn : nv ∈ inputs) {v : Int} (hv : v ∈ nv.2) (h : v < 0) : calcWitness P s inputs sanity = none := by
  rw [calcWitness_eq hI, Ideal.run]
  have key : ∀ (l : List (List Nat × Nat × Int)) (c : C), (∃ x ∈ l, x.2.2 < 0) → l.foldlM (I.set P.n32) c = none := by
    intro l
    induction l with
    | nil => rintro c ⟨x, hx, _⟩; simp at hx
    | cons a l ih =>
      rintro c ⟨x, hx, h0⟩
      rw [List.foldlM_cons]
      rcases List.mem_cons.mp hx with rfl | hx
      · rw [Ideal.set, if_neg (by omega)]; rfl
      · cases I.set P.n32 c a with
        | none => rfl
        | some c' => exact ih c' ⟨x, hx, h0⟩
  obtain ⟨k, hk, e⟩ := List.mem_iff_getElem.mp hv
  have hmem : (nv.1, k, v) ∈ calls inputs := by
    refine List.mem_flatMap.mpr ⟨nv, hn, List.mem_map.mpr ⟨(v, k), ?_, rfl⟩⟩
    rw [List.mem_zipIdx_iff_getElem?, List.getElem?_eq_getElem hk, e]
  simp only [Option.bind_eq_bind]
  cases I.init (core s) sanity with
  | none => rfl
  | some c =>
    rw [Option.bind_some]
    cases I.init c sanity with
    | none => rfl
    | some c => rw [Option.bind_some, key _ _ ⟨_, hmem, h⟩]; rfl

/-! ### Non-vacuity: a program with a memory of two words that adds up its inputs; its wires are 1 and the sum -/

/-- memory and sum -/
abbrev ExS := (Nat → Nat) × Nat

/-- the program -/
def exProg : Prog ExS where
  n32 := 2
  init s _ := some (s.1, 0)
  read s j := some (s.1 j)
  write s j v := some (Function.update s.1 j v, s.2)
  setInput s _ _ _ := some (fun _ => 0xdead, s.2 + memVal 2 s.1)
  witnessSize _ := 2
  getWitness s i := let v := if i = 0 then 1 else s.2 % 2 ^ 64
    some (fun j => if j = 0 then v % 2 ^ 32 else v / 2 ^ 32, s.2)

/-- what it computes -/
def exIdeal : Ideal Nat := ⟨fun _ _ => some 0, fun c _ _ _ v => some (c + v), fun _ => 2, fun c i => if i = 0 then 1 else c % 2 ^ 64⟩

theorem exImplements : Implements exProg exIdeal (fun s => s.2) fun s => s.1 where
  init s b := rfl
  read s j _ := rfl
  write s j _ v _ := ⟨_, rfl, rfl, rfl⟩
  setInput s h l k := rfl
  size s := rfl
  getWitness s i hi := by
    refine ⟨_, rfl, rfl, fun j _ => ?_, ?_⟩
    · dsimp only
      split_ifs
      all_goals omega
    · show ∑ j ∈ Finset.range 2, (if j = 0 then (if i = 0 then 1 else s.2 % 2 ^ 64) % 2 ^ 32 else (if i = 0 then 1 else s.2 % 2 ^ 64) / 2 ^ 32) * 2 ^ (32 * j) =
        if i = 0 then 1 else s.2 % 2 ^ 64
      generalize (if i = 0 then 1 else s.2 % 2 ^ 64) = v
      rw [Finset.sum_range_succ, Finset.sum_range_one, if_pos rfl, if_neg (by norm_num), Nat.mul_zero, pow_zero, Nat.mul_one, Nat.mul_one]
      omega

example : calcWitness exProg (fun _ => 7, 5) [([97], [3, 2 ^ 40]), ([98], [4])] true = some [1, 7 + 2 ^ 40] := by
  rw [calcWitness_eq exImplements]
  rfl

example : calcWitness exProg (fun _ => 7, 5) [([97], [3, -1])] true = none :=
  calcWitness_neg exImplements _ _ _ (nv := ([97], [3, -1])) (by simp) (v := -1) (by simp) (by norm_num)

/-! ## C131: the input file -/

open Verif.Io.Groth16Json (Str bigFromStr bigLoop bigLoop_append stripPlus)
open Verif.Io.Text (dec toDigit_digitChar)

/-- a JSON value; a number is its text (`to_string`) -/
inductive J
  | null | bool (b : Bool) | num (t : Str) | str (t : Str) | arr (l : List J) | obj (l : List (Str × J))

/-- `BigInt::from_str` (crate num-bigint): an optional `-` not followed by `+`, then `BigUint::from_str_radix` -/
def parseBig : Str → Option Int
  | '-' :: '+' :: _ => none
  | '-' :: cs => (bigFromStr 10 cs).map fun n : Nat => -(n : Int)
  | s => (bigFromStr 10 s).map fun n : Nat => (n : Int)

mutual
/-- witness_calculator.rs L259-282 `fill_array`; `none` is a panic -/
def fill : J → Option (List Int)
  | .arr l => fillAll l
  | .bool b => some [if b then 1 else 0]
  | .str t => (parseBig t).map fun v => [v]
  | .num t => (parseBig t).map fun v => [v]
  | _ => none
/-- witness_calculator.rs L257-289 `flat_array`: the loop over an array -/
def fillAll : List J → Option (List Int)
  | [] => some []
  | v :: l => (fill v).bind fun a => (fillAll l).map fun b => a ++ b
end

/-- mod.rs L30-51: the values of one input of the file -/
def loadValue : J → Option (List Int)
  | .str t => (parseBig t).map fun v => [v]
  | .bool b => some [if b then 1 else 0]
  | .num t => (parseBig t).map fun v => [v]
  | .arr l => fillAll l
  | _ => none

/-! ### Specification: arrays of any dimension in row-major order -/

/-- the JSON array of an array of dimensions `ds` -/
def tensor : List Nat → (List Nat → J) → J
  | [], f => f []
  | d :: ds, f => .arr ((List.range d).map fun i => tensor ds fun ix => f (i :: ix))

/-- the position circom gives to the element at an index: row-major -/
def position : List Nat → List Nat → Nat
  | _ :: ds, i :: ix => i * ds.prod + position ds ix
  | _, _ => 0

/-- the texts an element may have -/
inductive IsText : J → Int → Prop
  | num {n : Nat} : IsText (.num (dec n)) n
  | str {n : Nat} : IsText (.str (dec n)) n
  | neg {n : Nat} : IsText (.num ('-' :: dec n)) (-(n : Int))
  | negStr {n : Nat} : IsText (.str ('-' :: dec n)) (-(n : Int))
  | tt : IsText (.bool true) 1
  | ff : IsText (.bool false) 0

/-- an index within the dimensions -/
def Within (ds ix : List Nat) : Prop := List.Forall₂ (fun i d => i < d) ix ds

theorem bigLoop_dec (v x : Nat) : bigLoop 10 (dec v) x = some (x * 10 ^ (dec v).length + v) := by
  have hd' : ∀ d < 10, Nat.digitChar d ≠ '_' := by decide +kernel
  unfold dec
  induction v using Nat.strong_induction_on generalizing x with
  | _ v ih =>
    by_cases hv : v < 10
    · rw [Nat.toDigits_of_lt_base hv, bigLoop, if_neg (hd' v hv), toDigit_digitChar v hv]
      simp [bigLoop]
    · have e : 10 * (v / 10) + v % 10 = v := Nat.div_add_mod v 10
      have hd : v % 10 < 10 := Nat.mod_lt _ (by norm_num)
      have h1 : Nat.toDigits 10 v = Nat.toDigits 10 (v / 10) ++ [Nat.digitChar (v % 10)] := by
        rw [← Nat.toDigits_of_lt_base hd, Nat.toDigits_append_toDigits (by norm_num) (by omega) hd, e]
      rw [h1, bigLoop_append, ih (v / 10) (by omega), Option.bind_some, bigLoop, if_neg (hd' _ hd), toDigit_digitChar _ hd,
        Option.bind_some, bigLoop, List.length_append, List.length_singleton, pow_succ]
      congr 1
      nlinarith

theorem dec_cons (n : Nat) : ∃ c cs, dec n = c :: cs ∧ c ≠ '-' ∧ c ≠ '+' ∧ c ≠ '_' := by
  obtain ⟨c, cs, h⟩ := List.exists_cons_of_ne_nil (show dec n ≠ [] from Nat.toDigits_ne_nil)
  have := Verif.Io.Text.dec_head n c cs h
  refine ⟨c, cs, h, ?_, ?_, ?_⟩ <;> (rintro rfl; revert this; decide)

theorem bigFromStr_dec (n : Nat) : bigFromStr 10 (dec n) = some n := by
  have hl := bigLoop_dec n 0
  rw [Nat.zero_mul, Nat.zero_add] at hl
  obtain ⟨c, cs, h, h1, h2, h3⟩ := dec_cons n
  rw [h] at hl ⊢
  have hs : stripPlus (c :: cs) = c :: cs := by
    unfold stripPlus
    split
    · rename_i heq; exact absurd (List.cons.inj heq).1 h2
    · rename_i heq; exact absurd (List.cons.inj heq).1 h2
    · rfl
  rw [bigFromStr, hs, if_neg (by simp [h3]), hl]

theorem parseBig_dec (n : Nat) : parseBig (dec n) = some (n : Int) := by
  obtain ⟨c, cs, h, h1, h2, h3⟩ := dec_cons n
  unfold parseBig
  split
  · rename_i heq; rw [h] at heq; exact absurd (List.cons.inj heq).1 h1
  · rename_i heq; rw [h] at heq; exact absurd (List.cons.inj heq).1 h1
  · rw [bigFromStr_dec]; rfl

theorem parseBig_neg (n : Nat) : parseBig ('-' :: dec n) = some (-(n : Int)) := by
  obtain ⟨c, cs, h, h1, h2, h3⟩ := dec_cons n
  unfold parseBig
  split
  · rename_i heq; rw [h] at heq
    exact absurd (List.cons.inj (List.cons.inj heq).2).1 h2
  · rename_i heq
    rw [← (List.cons.inj heq).2, bigFromStr_dec]; rfl
  · rename_i hne
    exact absurd rfl (hne (dec n))

theorem text_fill {j : J} {n : Int} (h : IsText j n) : fill j = some [n] ∧ loadValue j = some [n] := by
  cases h <;> simp [fill, loadValue, parseBig_dec, parseBig_neg]

theorem fillAll_map {g : Nat → J} {v : Nat → List Int} : ∀ l : List Nat, (∀ i ∈ l, fill (g i) = some (v i)) → fillAll (l.map g) = some (l.flatMap v)
  | [], _ => rfl
  | i :: l, h => by
    rw [List.map_cons, fillAll, h i (by simp), Option.bind_some, fillAll_map l fun j hj => h j (List.mem_cons_of_mem _ hj)]
    rfl

theorem flatMap_get {A : Type} {v : Nat → List A} {n : Nat} : ∀ (d i j : Nat), (∀ k < d, (v k).length = n) → i < d → j < n →
    ((List.range d).flatMap v)[i * n + j]? = (v i)[j]?
  | 0, i, j, _, hi, _ => by omega
  | d + 1, i, j, h, hi, hj => by
    have hlen : ((List.range d).flatMap v).length = d * n := by
      rw [List.length_flatMap, List.map_congr_left (g := fun _ => n) fun k hk => h k (by have := List.mem_range.mp hk; omega)]
      simp
    rw [List.range_succ, List.flatMap_append]
    rcases Nat.lt_succ_iff_lt_or_eq.mp hi with hi | rfl
    · rw [List.getElem?_append_left, flatMap_get d i j (fun k hk => h k (by omega)) hi hj]
      rw [hlen]
      calc i * n + j < i * n + n := by omega
        _ = (i + 1) * n := by ring
        _ ≤ d * n := Nat.mul_le_mul_right _ hi
    · rw [List.getElem?_append_right (by omega), hlen, Nat.add_sub_cancel_left]
      simp

/-- **C131**: for every number of dimensions, every size and every element within it: the file's nested array (elements as numbers, decimal strings or
booleans, of any sign) is loaded, and the element at an index stands at its row-major position. -/
theorem tensor_load : ∀ (ds : List Nat) (f : List Nat → J) (g : List Nat → Int), (∀ ix, Within ds ix → IsText (f ix) (g ix)) →
    ∃ l, fill (tensor ds f) = some l ∧ loadValue (tensor ds f) = some l ∧ l.length = ds.prod ∧ ∀ ix, Within ds ix → l[position ds ix]? = some (g ix)
  | [], f, g, h => by
    obtain ⟨h1, h2⟩ := text_fill (h [] .nil)
    refine ⟨[g []], h1, h2, by simp, fun ix hx => ?_⟩
    cases hx
    rfl
  | d :: ds, f, g, h => by
    have ih : ∀ i : Nat, ∃ l, i < d → fill (tensor ds fun ix => f (i :: ix)) = some l ∧ l.length = ds.prod ∧
        ∀ ix, Within ds ix → l[position ds ix]? = some (g (i :: ix)) := by
      intro i
      by_cases hi : i < d
      · obtain ⟨l, h1, _, h2, h3⟩ := tensor_load ds (fun ix => f (i :: ix)) (fun ix => g (i :: ix)) fun ix hx => h _ (.cons hi hx)
        exact ⟨l, fun _ => ⟨h1, h2, h3⟩⟩
      · exact ⟨[], fun h => absurd h hi⟩
    choose v hv using ih
    have hf : fillAll ((List.range d).map fun i => tensor ds fun ix => f (i :: ix)) = some ((List.range d).flatMap v) :=
      fillAll_map _ fun i hi => (hv i (List.mem_range.mp hi)).1
    refine ⟨(List.range d).flatMap v, by rw [tensor, fill, hf], by rw [tensor, loadValue, hf], ?_, fun ix hx => ?_⟩
    · rw [List.length_flatMap, List.map_congr_left (g := fun _ => ds.prod) fun k hk => (hv k (List.mem_range.mp hk)).2.1]
      simp
    · cases hx with
      | cons hi hx =>
        rename_i i ix
        have hpos : position ds ix < ds.prod := by
          have := (hv i hi).2.2 ix hx
          obtain ⟨hlt, _⟩ := List.getElem?_eq_some_iff.mp this
          rw [(hv i hi).2.1] at hlt
          exact hlt
        rw [position, flatMap_get d i _ (fun k hk => (hv k hk).2.1) hi hpos]
        exact (hv i hi).2.2 ix hx

/-- anything that is no number, string of a number, boolean or array of such is a panic, not skipped -/
theorem load_null (a b : List J) (l : List (Str × J)) : loadValue .null = none ∧ loadValue (.arr (a ++ .obj l :: b)) = none ∧
    loadValue (.arr (a ++ .null :: b)) = none := by
  have key : ∀ (j : J), fill j = none → fillAll (a ++ j :: b) = none := by
    intro j hj
    induction a with
    | nil => rw [List.nil_append, fillAll, hj]; rfl
    | cons x a ih =>
      rw [List.cons_append, fillAll]
      cases fill x with
      | none => rfl
      | some y => rw [Option.bind_some, ih]; rfl
  exact ⟨rfl, by rw [loadValue, key _ (by simp [fill])], by rw [loadValue, key _ (by simp [fill])]⟩

/-- non-vacuity: a 2 × 3 array of numbers; element (1, 2) is the sixth -/
example : ∃ l, loadValue (tensor [2, 3] fun ix => .num (dec (10 * ix.getD 0 0 + ix.getD 1 0))) = some l ∧ l.length = 6 ∧ l[5]? = some 12 := by
  obtain ⟨l, _, h2, h3, h4⟩ := tensor_load [2, 3] (fun ix => .num (dec (10 * ix.getD 0 0 + ix.getD 1 0))) (fun ix => ((10 * ix.getD 0 0 + ix.getD 1 0 : Nat) : Int))
    fun ix _ => .num
  exact ⟨l, h2, by simpa using h3, by simpa [position] using h4 [1, 2] (.cons (by norm_num) (.cons (by norm_num) .nil))⟩

example : loadValue (.arr [.num ['1'], .arr [.str ['-', '2'], .bool true]]) = some [1, -2, 1] := by rfl

end Verif.Io.Driver
