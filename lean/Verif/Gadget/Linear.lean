import Verif.Gadget.Poseidon
import Verif.Hash.LinearBN

/-!
# The leaf hash in the circuit: linearhash.circom against linearhash_bls12381.rs
-/
namespace Verif.Gadget
open Verif.Poseidon (Bls)

/-- the variables of the loop of `LinearHash`, linearhash.circom L11-12, L38-39, and the constraints `inputs[curHashIdx] <== sAc` written so far: component
(`nHashes - 1` is `lastHash`), index, value -/
structure LSt where
  sAc : Bls
  nAc : Nat
  curHash : Nat
  curHashIdx : Nat
  wires : List ((Nat × Nat) × Bls)

/-- one iteration of linearhash.circom L43-61 (`curHash == nHashes - 1` only chooses the name of the component) -/
def lStep (s : LSt) (x : Bls) : LSt :=
  let sAc := s.sAc + 2 ^ (64 * s.nAc) * x
  if s.nAc + 1 = 3 then
    let w := s.wires ++ [((s.curHash, s.curHashIdx), sAc)]
    if s.curHashIdx + 1 = 16 then ⟨0, 0, s.curHash + 1, 0, w⟩ else ⟨0, 0, s.curHash, s.curHashIdx + 1, w⟩
  else ⟨sAc, s.nAc + 1, s.curHash, s.curHashIdx, s.wires⟩

/-- the constraints on the inputs of the components, linearhash.circom L43-74 -/
def lWires (xs : List Bls) : List ((Nat × Nat) × Bls) :=
  let s := xs.foldl lStep ⟨0, 0, 0, 0, []⟩
  if s.nAc > 0 then s.wires ++ [((s.curHash, s.curHashIdx), s.sAc)] else s.wires

/-- `LinearHash(nInputs, eSize)`, linearhash.circom L5-92; `inp` holds the `nInputs` rows of `eSize` signals; `inp.flatten.length` is `nInputs*eSize`, which
must not be zero -/
def LinearHash (inp : List (List Bls)) (out : Bls) : Prop :=
  let nElements256 := (inp.flatten.length - 1) / 3 + 1
  if nElements256 = 1 then out = (inp.flatten.foldl (fun (s : Bls × Nat) x => (s.1 + 2 ^ (64 * s.2) * x, s.2 + 1)) (0, 0)).1
  else
    let nHashes := (nElements256 - 1) / 16 + 1
    let nLastHash := nElements256 - (nHashes - 1) * 16
    ∃ ins outs : Nat → Nat → Bls,
      (∀ w ∈ lWires inp.flatten, ins w.1.1 w.1.2 = w.2) ∧
      (∀ i < nHashes - 1, PoseidonEx 16 2 (ins i) (if i = 0 then 0 else outs (i - 1) 1) (outs i)) ∧
      PoseidonEx nLastHash 2 (ins (nHashes - 1)) (if nHashes = 1 then 0 else outs (nHashes - 2) 1) (outs (nHashes - 1)) ∧
      out = outs (nHashes - 1) 1

/-- the native Poseidon, as it is used by the native leaf hash (`unwrap` of a hash of 1 to 16 inputs) -/
def pos (l : List Bls) (init : Bls) : Bls := (Verif.Poseidon.Bls.hash l init).getD 0

theorem pos_some {l : List Bls} (init : Bls) (h1 : 1 ≤ l.length) (h16 : l.length ≤ 16) : Verif.Poseidon.Bls.hash l init = some (pos l init) := by
  obtain ⟨o, ho⟩ := Option.isSome_iff_exists.mp ((Verif.Poseidon.Bls.hash_some_iff l init).mpr ⟨h1, h16⟩)
  rw [pos, ho]; rfl

/-- the places of consecutive values: sixteen to a component -/
def place (k : Nat) : List Bls → List ((Nat × Nat) × Bls)
  | [] => []
  | v :: vs => ((k / 16, k % 16), v) :: place (k + 1) vs

theorem place_mem (vs : List Bls) : ∀ k0 w, w ∈ place k0 vs ↔ ∃ k, vs[k]? = some w.2 ∧ w.1 = ((k0 + k) / 16, (k0 + k) % 16) := by
  induction vs with
  | nil => intro k0 w; simp [place]
  | cons v vs ih =>
    intro k0 w
    rw [place, List.mem_cons, ih]
    constructor
    · rintro (rfl | ⟨k, h1, h2⟩)
      · exact ⟨0, rfl, rfl⟩
      · exact ⟨k + 1, h1, by rw [h2, show k0 + 1 + k = k0 + (k + 1) by omega]⟩
    · rintro ⟨k, h1, h2⟩
      cases k with
      | zero =>
        left
        obtain ⟨w1, w2⟩ := w
        simp only [List.getElem?_cons_zero, Option.some.injEq] at h1
        rw [h1]
        simpa using h2
      | succ k => exact .inr ⟨k, h1, by rw [h2, show k0 + 1 + k = k0 + (k + 1) by omega]⟩

open Verif.LinearBN (pack pack_eq_short)

theorem lWires_loop (xs : List Nat) (W : List ((Nat × Nat) × Bls)) (ch ci : Nat) (hc : ci < 16) :
    (let s := (xs.map fun n : Nat => ((n : Nat) : Bls)).foldl lStep ⟨0, 0, ch, ci, W⟩
     if s.nAc > 0 then s.wires ++ [((s.curHash, s.curHashIdx), s.sAc)] else s.wires) = W ++ place (16 * ch + ci) ((chunks 3 xs).map pack) := by
  induction hn : xs.length using Nat.strong_induction_on generalizing xs W ch ci with
  | _ n ih =>
    have e1 : (16 * ch + ci) / 16 = ch := by omega
    have e2 : (16 * ch + ci) % 16 = ci := by omega
    match xs, hn with
    | [], _ => simp [place]
    | [a], _ => rw [chunks_short (by decide) (by simp) (by simp)]; simp [lStep, pack_eq_short a 0 0, place, e1, e2]
    | [a, b], _ =>
      rw [chunks_short (by decide) (by simp) (by simp)]
      simp [lStep, pack_eq_short a b 0, place, mul_comm]
      omega
    | a :: b :: c :: xs, hn =>
      rw [chunks_ne_nil (by decide) (by simp)]
      simp only [List.take_succ_cons, List.take_zero, List.drop_succ_cons, List.drop_zero, List.map_cons, place, e1, e2]
      have hw : (((a : Nat) : Bls) + ((b : Nat) : Bls) * 2 ^ 64 + ((c : Nat) : Bls) * 2 ^ 128) = pack [a, b, c] := (pack_eq_short a b c).2.2.symm
      rw [← List.singleton_append (l := place _ _), ← List.append_assoc, ← hw]
      by_cases h : ci + 1 = 16
      · have := ih xs.length (by simp at hn; omega) xs (W ++ [((ch, ci), ((a : Nat) : Bls) + ((b : Nat) : Bls) * 2 ^ 64 + ((c : Nat) : Bls) * 2 ^ 128)])
          (ch + 1) 0 (by omega) rfl
        rw [show 16 * ch + ci + 1 = 16 * (ch + 1) + 0 by omega, ← this]
        simp [lStep, h, mul_comm]
      · have := ih xs.length (by simp at hn; omega) xs (W ++ [((ch, ci), ((a : Nat) : Bls) + ((b : Nat) : Bls) * 2 ^ 64 + ((c : Nat) : Bls) * 2 ^ 128)])
          ch (ci + 1) (by omega) rfl
        rw [show 16 * ch + ci + 1 = 16 * ch + (ci + 1) by omega, ← this]
        simp [lStep, h, mul_comm]

theorem lWires_eq (xs : List Nat) : lWires (xs.map fun n : Nat => ((n : Nat) : Bls)) = place 0 ((chunks 3 xs).map pack) := by
  have := lWires_loop xs [] 0 0 (by omega)
  simpa [lWires] using this

/-- the chunk of component `i` from the wires -/
theorem chunk_ins {vs : List Bls} {ins : Nat → Nat → Bls} (h : ∀ w ∈ place 0 vs, ins w.1.1 w.1.2 = w.2) (i m : Nat) (hm : m ≤ 16) (hl : 16 * i + m ≤ vs.length) :
    (List.range m).map (ins i) = (vs.drop (i * 16)).take m := by
  apply List.ext_getElem
  · simp; omega
  · intro j a b
    simp only [List.length_map, List.length_range] at a
    rw [List.getElem_map, List.getElem_range, List.getElem_take, List.getElem_drop]
    refine h ((i, j), _) ((place_mem vs 0 _).mpr ⟨i * 16 + j, ?_, ?_⟩)
    · exact List.getElem?_eq_getElem _
    · dsimp only
      rw [Prod.mk.injEq]
      constructor <;> omega

/-- the state after `i` components -/
def lState (vs : List Bls) (i : Nat) : Bls := ((chunks 16 vs).take i).foldl (fun d l => pos l d) 0

theorem lState_succ {vs : List Bls} {i : Nat} (hi : i * 16 < vs.length) : lState vs (i + 1) = pos ((vs.drop (i * 16)).take 16) (lState vs i) := by
  rw [lState, List.take_add_one, chunks_getElem? (by decide), if_pos hi, List.foldl_append]
  rfl

theorem hash_chunk {vs : List Bls} {i : Nat} (hi : i * 16 < vs.length) (d : Bls) :
    Verif.Poseidon.Bls.hash ((vs.drop (i * 16)).take 16) d = some (pos ((vs.drop (i * 16)).take 16) d) := by
  apply pos_some
  · simp only [List.length_take, List.length_drop]; omega
  · simp only [List.length_take]; omega

/-- the components of `LinearHash` with two or more packed values -/
theorem lin_core (vs : List Bls) (h2 : 2 ≤ vs.length) (out : Bls) :
    (∃ ins outs : Nat → Nat → Bls, (∀ w ∈ place 0 vs, ins w.1.1 w.1.2 = w.2) ∧
      (∀ i < (vs.length - 1) / 16 + 1 - 1, PoseidonEx 16 2 (ins i) (if i = 0 then 0 else outs (i - 1) 1) (outs i)) ∧
      PoseidonEx (vs.length - ((vs.length - 1) / 16 + 1 - 1) * 16) 2 (ins ((vs.length - 1) / 16 + 1 - 1))
        (if (vs.length - 1) / 16 + 1 = 1 then 0 else outs ((vs.length - 1) / 16 + 1 - 2) 1) (outs ((vs.length - 1) / 16 + 1 - 1)) ∧
      out = outs ((vs.length - 1) / 16 + 1 - 1) 1) ↔ out = (chunks 16 vs).foldl (fun d l => pos l d) 0 := by
  have hlen : (chunks 16 vs).length = (vs.length - 1) / 16 + 1 := by rw [chunks_length (by decide)]; omega
  have hfin : (chunks 16 vs).foldl (fun d l => pos l d) 0 = lState vs ((vs.length - 1) / 16 + 1) := by
    rw [lState, List.take_of_length_le (by rw [hlen])]
  rw [hfin]
  obtain ⟨q, hq⟩ : ∃ q, q = (vs.length - 1) / 16 := ⟨_, rfl⟩
  have hq1 : q * 16 < vs.length := by omega
  have hq2 : vs.length ≤ q * 16 + 16 := by omega
  rw [← hq]
  simp only [Nat.add_sub_cancel, show q + 1 - 2 = q - 1 by omega, show (q + 1 = 1) = (q = 0) by simp]
  have hlast : (vs.drop (q * 16)).take 16 = (vs.drop (q * 16)).take (vs.length - q * 16) := by
    rw [List.take_of_length_le (by simp; omega), List.take_of_length_le (by simp)]
  constructor
  · rintro ⟨ins, outs, h1, h3, h4, rfl⟩
    have key : ∀ i, i < q → outs i 1 = lState vs (i + 1) := by
      intro i
      induction i with
      | zero =>
        intro hi
        have := (poseidonEx_second (n := 16) (by omega) (by omega) _ _ _).mp ⟨_, h3 0 hi, rfl⟩
        rw [if_pos rfl, chunk_ins h1 0 16 (by omega) (by omega), hash_chunk (by omega)] at this
        rw [lState_succ (by omega)]
        simpa [lState] using this.symm
      | succ i ih =>
        intro hi
        have := (poseidonEx_second (n := 16) (by omega) (by omega) _ _ _).mp ⟨_, h3 (i + 1) hi, rfl⟩
        rw [if_neg (by omega), chunk_ins h1 (i + 1) 16 (by omega) (by omega), hash_chunk (by omega), Nat.add_sub_cancel, ih (by omega)] at this
        rw [lState_succ (i := i + 1) (by omega)]
        simpa using this.symm
    have h5 := (poseidonEx_second (n := vs.length - q * 16) (by omega) (by omega) _ _ _).mp ⟨_, h4, rfl⟩
    rw [chunk_ins h1 q _ (by omega) (by omega), ← hlast, hash_chunk hq1] at h5
    rw [lState_succ hq1]
    by_cases h0 : q = 0
    · subst h0
      simpa [lState] using h5.symm
    · rw [if_neg h0, key (q - 1) (by omega), show q - 1 + 1 = q by omega] at h5
      simpa using h5.symm
  · rintro rfl
    let ins : Nat → Nat → Bls := fun i j => vs.getD (16 * i + j) 0
    have hins : ∀ w ∈ place 0 vs, ins w.1.1 w.1.2 = w.2 := by
      intro w hw
      obtain ⟨k, h1, h3⟩ := (place_mem vs 0 w).mp hw
      simp only [ins, h3]
      rw [show 16 * ((0 + k) / 16) + (0 + k) % 16 = k by omega, List.getD_eq_getElem?_getD, h1]
      rfl
    have hex : ∀ i, ∃ o : Nat → Bls, i ≤ q → (PoseidonEx (if i = q then vs.length - q * 16 else 16) 2 (ins i) (lState vs i) o ∧ lState vs (i + 1) = o 1) := by
      intro i
      by_cases hi : i ≤ q
      · have hi' : i * 16 < vs.length := by omega
        have hh := hash_chunk hi' (lState vs i)
        rw [← lState_succ hi'] at hh
        by_cases h0 : i = q
        · subst h0
          rw [hlast, ← chunk_ins hins i _ (by omega) (by omega)] at hh
          obtain ⟨o, ho⟩ := (poseidonEx_second (by omega) (by omega) _ _ _).mpr hh
          exact ⟨o, fun _ => by rw [if_pos rfl]; exact ho⟩
        · rw [← chunk_ins hins i 16 (by omega) (by omega)] at hh
          obtain ⟨o, ho⟩ := (poseidonEx_second (by omega) (by omega) _ _ _).mpr hh
          exact ⟨o, fun _ => by rw [if_neg h0]; exact ho⟩
      · exact ⟨fun _ => 0, fun h => absurd h hi⟩
    choose outs ho using hex
    refine ⟨ins, outs, hins, fun i hi => ?_, ?_, (ho q (le_refl _)).2⟩
    · have := (ho i (by omega)).1
      rw [if_neg (by omega)] at this
      by_cases h0 : i = 0
      · subst h0
        rw [if_pos rfl]
        exact this
      · rw [if_neg h0, ← (ho (i - 1) (by omega)).2, show i - 1 + 1 = i by omega]
        exact this
    · have := (ho q (le_refl _)).1
      rw [if_pos rfl] at this
      by_cases h0 : q = 0
      · rw [if_pos h0]
        subst h0
        exact this
      · rw [if_neg h0, ← (ho (q - 1) (by omega)).2, show q - 1 + 1 = q by omega]
        exact this

/-- **C116** the leaf hash of the circuit is the native `hash_element_matrix`, for every matrix that is not empty and whatever the integers on the wires -/
theorem linearHash_iff (cols : List (List Nat)) (hc : cols.flatten ≠ []) (out : Bls) :
    LinearHash (cols.map (·.map fun n : Nat => ((n : Nat) : Bls))) out ↔ out = LinearBN.hashMatrix pos cols := by
  have hflat : (cols.map (·.map fun n : Nat => ((n : Nat) : Bls))).flatten = cols.flatten.map fun n : Nat => ((n : Nat) : Bls) := by
    rw [List.map_flatten]
  rw [LinearBN.hashMatrix_spec]
  unfold LinearHash
  dsimp only
  rw [hflat, List.length_map]
  generalize cols.flatten = xs at *
  have hpos : 0 < xs.length := List.length_pos_iff.mpr hc
  have hvl : ((chunks 3 xs).map (pack (R := Bls))).length = (xs.length - 1) / 3 + 1 := by
    rw [List.length_map, chunks_length (by decide)]; omega
  by_cases h1 : (xs.length - 1) / 3 + 1 = 1
  · rw [if_pos h1, chunks_short (by decide) hc (by omega)]
    have : xs.length ≤ 3 := by omega
    match xs, hc, this with
    | [a], _, _ => simp [pack_eq_short a 0 0]
    | [a, b], _, _ => simp [pack_eq_short a b 0, mul_comm]
    | [a, b, c], _, _ => simp [pack_eq_short a b c, mul_comm]
  · rw [if_neg h1, lWires_eq]
    have := lin_core ((chunks 3 xs).map (pack (R := Bls))) (by omega) out
    rw [hvl] at this
    rw [this]
    generalize (chunks 3 xs).map (pack (R := Bls)) = vs at *
    match vs, hvl with
    | [], h => simp at h
    | [v], h => simp at h; omega
    | a :: b :: vs, _ => exact Iff.rfl

/-- **C116, what fails**: the leaf does not bind the opened values when the circuit does not check that they have 64 bits: the rows `(2^64, 0, 0)` and
`(0, 1, 0)` have the same hash, and different values modulo `p` in the first two columns -/
theorem linearHash_not_binding : ∃ out : Bls, LinearHash [[((2 ^ 64 : Nat) : Bls)], [((0 : Nat) : Bls)], [((0 : Nat) : Bls)]] out ∧
    LinearHash [[((0 : Nat) : Bls)], [((1 : Nat) : Bls)], [((0 : Nat) : Bls)]] out ∧
    ((2 ^ 64 : Nat) : Verif.GL.F) ≠ ((0 : Nat) : Verif.GL.F) ∧ ((0 : Nat) : Verif.GL.F) ≠ ((1 : Nat) : Verif.GL.F) := by
  refine ⟨_, (linearHash_iff [[2 ^ 64], [0], [0]] (by decide) _).mpr rfl, (linearHash_iff [[0], [1], [0]] (by decide) _).mpr ?_, by decide +kernel, by decide +kernel⟩
  rw [LinearBN.hashMatrix_spec, LinearBN.hashMatrix_spec]
  have e1 : chunks 3 ([[2 ^ 64], [0], [0]] : List (List Nat)).flatten = [[2 ^ 64, 0, 0]] := rfl
  have e2 : chunks 3 ([[0], [1], [0]] : List (List Nat)).flatten = [[0, 1, 0]] := rfl
  rw [e1, e2]
  simp [(pack_eq_short _ _ _).2.2]
  norm_num

/-- **C116** with 64-bit values the packing of three is injective -/
theorem pack_inj {a b : Fin 3 → Nat} (ha : ∀ e, a e < 2 ^ 64) (hb : ∀ e, b e < 2 ^ 64)
    (h : (pack [a 0, a 1, a 2] : Bls) = pack [b 0, b 1, b 2]) : a = b := by
  rw [(pack_eq_short _ _ _).2.2, (pack_eq_short _ _ _).2.2] at h
  have e : ∀ c : Fin 3 → Nat, ((c 0 : Nat) : Bls) + (c 1 : Nat) * 2 ^ 64 + (c 2 : Nat) * 2 ^ 128 = ((c 0 + c 1 * 2 ^ 64 + c 2 * 2 ^ 128 : Nat) : Bls) := by
    intro c; push_cast; ring
  rw [e, e, ZMod.natCast_eq_natCast_iff'] at h
  have hl : ∀ c : Fin 3 → Nat, (∀ e, c e < 2 ^ 64) → c 0 + c 1 * 2 ^ 64 + c 2 * 2 ^ 128 < Verif.Poseidon.blsMod := by
    intro c hc
    have h0 := hc 0; have h1 := hc 1; have h2 := hc 2
    have : (2 : Nat) ^ 192 < Verif.Poseidon.blsMod := by decide
    omega
  rw [Nat.mod_eq_of_lt (hl a ha), Nat.mod_eq_of_lt (hl b hb)] at h
  have a0 := ha 0; have a1 := ha 1; have a2 := ha 2
  have b0 := hb 0; have b1 := hb 1; have b2 := hb 2
  funext i
  fin_cases i <;> simp only [Fin.zero_eta, Fin.mk_one, Fin.reduceFinMk] <;> omega

/-- a leaf of fifty columns (seventeen packed values, two components) has exactly one hash -/
example : ∃ out : Bls, LinearHash ((((List.range 50).map fun i => [i])).map (·.map fun n : Nat => ((n : Nat) : Bls))) out :=
  ⟨_, (linearHash_iff _ (by decide) _).mpr rfl⟩

end Verif.Gadget
