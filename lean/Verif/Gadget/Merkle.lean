import Verif.Gadget.Linear
import Verif.Hash.MerkleBNProps

/-!
# Merkle openings in the circuit: merkle.circom and merklehash.circom against merklehash_bls12381.rs
-/
namespace Verif.Gadget
open Verif.Poseidon (Bls)
open Verif.Tree
open Verif.MerkleBN (Par MT nodeHash fromScalar genProof merkelize getGroupProof rootFromProof)

/-- the loop that computes `nLevels`, merkle.circom L7-12 -/
def mLevels (n : Nat) : Nat := if n > 1 then mLevels ((n - 1) / 16 + 1) + 1 else 0
termination_by n
decreasing_by omega

/-- the signals `s[0]` to `s[15]`, merkle.circom L52-82 -/
def mSel (a b c d : Bls) : List Bls :=
  let ab := a * b
  let ac := a * c
  let ad := a * d
  let bc := b * c
  let bd := b * d
  let cd := c * d
  let abc := ab * c
  let abd := ab * d
  let acd := ac * d
  let bcd := bc * d
  let abcd := ab * cd
  [1 - d - c + cd - b + bd + bc - bcd - a + ad + ac - acd + ab - abd - abc + abcd,
   d - cd - bd + bcd - ad + acd + abd - abcd,
   c - cd - bc + bcd - ac + acd + abc - abcd,
   cd - bcd - acd + abcd,
   b - bd - bc + bcd - ab + abd + abc - abcd,
   bd - bcd - abd + abcd,
   bc - bcd - abc + abcd,
   bcd - abcd,
   a - ad - ac + acd - ab + abd + abc - abcd,
   ad - acd - abd + abcd,
   ac - acd - abc + abcd,
   acd - abcd,
   ab - abd - abc + abcd,
   abd - abcd,
   abc - abcd,
   abcd]

theorem mLevels_zero_iff (kb : Nat) : mLevels (2 ^ kb) = 0 ↔ kb = 0 := by
  rw [mLevels]
  by_cases h : 2 ^ kb > 1
  · rw [if_pos h]
    have : kb ≠ 0 := by rintro rfl; simp at h
    simp [this]
  · rw [if_neg h]
    have : kb = 0 := by
      by_contra h0
      exact h (Nat.one_lt_two_pow h0)
    simp [this]

/-- `Merkle(keyBits)`, merkle.circom L5-107; `sib i j` is `siblings[i][j]` -/
def Merkle (kb : Nat) (value : Bls) (sib : Nat → Nat → Bls) (key : Nat → Bls) (root : Bls) : Prop :=
  if h : mLevels (2 ^ kb) = 0 then root = value
  else
    let d := if kb ≥ 1 then key 0 else 0
    let c := if kb ≥ 2 then key 1 else 0
    let b := if kb ≥ 3 then key 2 else 0
    let a := if kb ≥ 4 then key 3 else 0
    ∃ hash : Bls, PoseidonT 16 (fun i => (mSel a b c d).getD i 0 * (value - sib 0 i) + sib 0 i) hash ∧
      Merkle (kb - 4) hash (fun i => sib (i + 1)) (fun i => key (i + 4)) root
termination_by kb
decreasing_by
  have := (mLevels_zero_iff kb).not.mp h
  omega

/-- `MerkleHash(eSize, elementsInLinear, nLinears)` with `nLinears = 2^nBits`, merklehash.circom L7-40; `values` are the `elementsInLinear` rows of
`eSize` signals -/
def MerkleHash (nBits : Nat) (values : List (List Bls)) (sib : Nat → Nat → Bls) (key : Nat → Bls) (root : Bls) : Prop :=
  ∃ h, LinearHash values h ∧ Merkle nBits h sib key root

/-! ### Specification: the root of an opening -/

/-- the root of a path of levels of sixteen nodes: at each level the running value takes its place, given by the base-16 digits of the index -/
def climb (H : List Bls → Bls) : List (List Bls) → Nat → Bls → Bls
  | [], _, v => v
  | lev :: mp, idx, v => climb H mp (idx / 16) (H (lev.set (idx % 16) v))

/-- the siblings of a path, as the signals of the circuit -/
def sibOf (mp : List (List Bls)) (i j : Nat) : Bls := (mp.getD i []).getD j 0

/-! ### C117 -/

/-- the sixteen selectors are one-hot -/
theorem mSel_spec (a b c d : Bool) (i : Nat) (hi : i < 16) : (mSel (bitZ a) (bitZ b) (bitZ c) (bitZ d)).getD i 0 =
    if i = 8 * a.toNat + 4 * b.toNat + 2 * c.toNat + d.toNat then 1 else 0 := by
  interval_cases i <;> cases a <;> cases b <;> cases c <;> cases d <;> simp [mSel, bitZ]

theorem low4 (idx : Nat) : idx % 16 = 8 * (idx.testBit 3).toNat + 4 * (idx.testBit 2).toNat + 2 * (idx.testBit 1).toNat + (idx.testBit 0).toNat := by
  have e : ∀ k, (idx.testBit k).toNat = idx / 2 ^ k % 2 := by
    intro k
    rw [Nat.testBit_eq_decide_div_mod_eq]
    rcases Nat.mod_two_eq_zero_or_one (idx / 2 ^ k) with h | h <;> simp [h]
  rw [e, e, e, e]
  omega

theorem mLevels_step {kb : Nat} (h : kb ≠ 0) : mLevels (2 ^ kb) = mLevels (2 ^ (kb - 4)) + 1 := by
  rw [mLevels, if_pos (Nat.one_lt_two_pow h)]
  congr 2
  by_cases h4 : 4 ≤ kb
  · obtain ⟨m, rfl⟩ : ∃ m, kb = m + 4 := ⟨kb - 4, by omega⟩
    rw [Nat.add_sub_cancel, pow_add]
    have := Nat.two_pow_pos m
    omega
  · have : kb < 4 := by omega
    interval_cases kb <;> simp at h ⊢

/-- **C117** what the constraints say: for a key given by bits, the root is the one of the path with the value put in its place at every level -/
theorem merkle_iff : ∀ (kb : Nat) (mp : List (List Bls)) (idx : Nat) (value root : Bls) (key : Nat → Bls), idx < 2 ^ kb → mp.length = mLevels (2 ^ kb) →
    (∀ lev ∈ mp, lev.length = 16) → (∀ i < kb, key i = bitZ (idx.testBit i)) →
    (Merkle kb value (sibOf mp) key root ↔ root = climb (fun l => pos l 0) mp idx value) := by
  intro kb
  induction kb using Nat.strong_induction_on with
  | _ kb ih =>
    intro mp idx value root key hidx hmp hlev hkey
    rw [Merkle]
    by_cases h0 : kb = 0
    · have h := (mLevels_zero_iff kb).mpr h0
      rw [dif_pos h]
      rw [h, List.length_eq_zero_iff] at hmp
      rw [hmp, climb]
    · rw [dif_neg ((mLevels_zero_iff kb).not.mpr h0)]
      rw [mLevels_step h0] at hmp
      match mp, hmp with
      | lev :: mp, hmp =>
        have hl := hlev lev (by simp)
        have hbit : ∀ j, (if kb ≥ j + 1 then key j else 0) = bitZ (idx.testBit j) := by
          intro j
          split_ifs with h
          · exact hkey j (by omega)
          · rw [Nat.testBit_lt_two_pow (lt_of_lt_of_le hidx (Nat.pow_le_pow_right (by omega) (by omega)))]
            rfl
        have h1 := hbit 0; have h2 := hbit 1; have h3 := hbit 2; have h4 := hbit 3
        simp only [Nat.reduceAdd] at h1 h2 h3 h4
        dsimp only
        rw [h1, h2, h3, h4]
        have hin : (List.range 16).map (fun i => (mSel (bitZ (idx.testBit 3)) (bitZ (idx.testBit 2)) (bitZ (idx.testBit 1)) (bitZ (idx.testBit 0))).getD i 0 *
            (value - sibOf (lev :: mp) 0 i) + sibOf (lev :: mp) 0 i) = lev.set (idx % 16) value := by
          apply List.ext_getElem
          · simp [hl]
          · intro i a b
            simp only [List.length_map, List.length_range] at a
            rw [List.getElem_map, List.getElem_range, mSel_spec _ _ _ _ _ a, ← low4, List.getElem_set]
            have : sibOf (lev :: mp) 0 i = lev[i] := by
              rw [sibOf, List.getD_cons_zero, List.getD_eq_getElem?_getD, List.getElem?_eq_getElem (by omega)]; rfl
            rw [this]
            by_cases h : i = idx % 16
            · rw [if_pos h, if_pos h.symm]; ring
            · rw [if_neg h, if_neg (Ne.symm h)]; ring
        have hidx' : idx / 16 < 2 ^ (kb - 4) := by
          by_cases h4 : 4 ≤ kb
          · rw [Nat.div_lt_iff_lt_mul (by norm_num), show (16 : Nat) = 2 ^ 4 by norm_num, ← pow_add, show kb - 4 + 4 = kb by omega]
            exact hidx
          · have : idx < 16 := lt_of_lt_of_le hidx (by
              calc 2 ^ kb ≤ 2 ^ 4 := Nat.pow_le_pow_right (by omega) (by omega)
                _ = 16 := by norm_num)
            have := Nat.two_pow_pos (kb - 4)
            omega
        have hrec := fun hash => ih (kb - 4) (by omega) mp (idx / 16) hash root (fun i => key (i + 4)) hidx' (by simpa using hmp)
          (fun l hl => hlev l (by simp [hl])) (fun i hi => by
            rw [hkey (i + 4) (by omega), show idx / 16 = idx >>> 4 by rw [Nat.shiftRight_eq_div_pow], Nat.testBit_shiftRight, Nat.add_comm])
        have hs : (fun i => sibOf (lev :: mp) (i + 1)) = sibOf mp := rfl
        rw [hs, climb]
        have hp := pos_some (l := lev.set (idx % 16) value) 0 (by simp [hl]) (by simp [hl])
        constructor
        · rintro ⟨hash, hh, hm⟩
          rw [poseidonT_iff (by norm_num) (by norm_num), hin, hp] at hh
          rw [hrec] at hm
          simp only [Option.some.injEq] at hh
          rw [hm, hh]
        · intro hr
          refine ⟨pos (lev.set (idx % 16) value) 0, ?_, ?_⟩
          · rw [poseidonT_iff (by norm_num) (by norm_num), hin, hp]
          · rw [hrec]; exact hr

/-- **C117, binding**: two openings of one index with the same root open the same value, or two different lists of sixteen nodes with the same Poseidon
hash can be read off them -/
theorem climb_binding (H : List Bls → Bls) : ∀ (mp mp' : List (List Bls)) (idx : Nat) (v v' : Bls), mp.length = mp'.length →
    (∀ lev ∈ mp, lev.length = 16) → (∀ lev ∈ mp', lev.length = 16) → climb H mp idx v = climb H mp' idx v' →
    v = v' ∨ ∃ l l' : List Bls, l.length = 16 ∧ l'.length = 16 ∧ l ≠ l' ∧ H l = H l' := by
  intro mp
  induction mp with
  | nil =>
    intro mp' idx v v' hl _ _ h
    have : mp' = [] := List.length_eq_zero_iff.mp hl.symm
    subst this
    exact .inl h
  | cons lev mp ih =>
    intro mp' idx v v' hl h1 h2 h
    match mp', hl with
    | lev' :: mp', hl =>
      rw [climb, climb] at h
      have e1 := h1 lev (by simp)
      have e2 := h2 lev' (by simp)
      rcases ih mp' (idx / 16) _ _ (by simpa using hl) (fun l hl => h1 l (by simp [hl])) (fun l hl => h2 l (by simp [hl])) h with h | h
      · by_cases hs : lev.set (idx % 16) v = lev'.set (idx % 16) v'
        · left
          have := congrArg (fun l => l[idx % 16]?) hs
          rw [List.getElem?_set_self (by omega), List.getElem?_set_self (by omega)] at this
          simpa using this
        · exact .inr ⟨_, _, by simp [e1], by simp [e2], hs, h⟩
      · exact .inr h

/-- **C117** the same for the constraints of the circuit: for a given key and root the value is determined, or a collision of Poseidon on sixteen inputs can
be read off the two assignments -/
theorem merkle_binding {kb : Nat} {mp mp' : List (List Bls)} {idx : Nat} {v v' root : Bls} {key : Nat → Bls} (hidx : idx < 2 ^ kb)
    (hmp : mp.length = mLevels (2 ^ kb)) (hmp' : mp'.length = mLevels (2 ^ kb)) (hl : ∀ lev ∈ mp, lev.length = 16) (hl' : ∀ lev ∈ mp', lev.length = 16)
    (hkey : ∀ i < kb, key i = bitZ (idx.testBit i)) (h : Merkle kb v (sibOf mp) key root) (h' : Merkle kb v' (sibOf mp') key root) :
    v = v' ∨ ∃ l l' : List Bls, l.length = 16 ∧ l'.length = 16 ∧ l ≠ l' ∧ Verif.Poseidon.Bls.hash l 0 = Verif.Poseidon.Bls.hash l' 0 := by
  rw [merkle_iff kb mp idx v root key hidx hmp hl hkey] at h
  rw [merkle_iff kb mp' idx v' root key hidx hmp' hl' hkey] at h'
  rcases climb_binding _ mp mp' idx v v' (by rw [hmp, hmp']) hl hl' (h.symm.trans h') with h | ⟨l, l', h1, h2, h3, h4⟩
  · exact .inl h
  · exact .inr ⟨l, l', h1, h2, h3, by rw [pos_some 0 (by omega) (by omega), pos_some 0 (by omega) (by omega), h4]⟩

/-! ### Openings of a native tree -/

theorem mLevels_nextN {n : Nat} (h : 1 < n) : mLevels n = mLevels (nextN 16 n) + 1 := by
  rw [mLevels, if_pos h]; rfl

/-- the path of a native tree: its shape, and its root with the value in place -/
theorem climb_complete {E : Type} (P : Par E Bls) (nodes : List Bls) (n : Nat) (L : Nat → Option Bls) (pre : List (Option Bls)) (idx f : Nat)
    (hi : idx < n) (hf : n ≤ f) (h32 : n ≤ 2 ^ 32)
    (hn : pre ++ layout 16 (nodeHash P) (some P.zero) n L = nodes.map some) :
    ∃ mp r, genProof nodes f idx pre.length n = some mp ∧ rootOf 16 (nodeHash P) (some P.zero) n L = some r ∧
      mp.length = mLevels n ∧ (∀ lev ∈ mp, lev.length = 16) ∧ ∀ v, L idx = some v → climb (fun l => P.pos l P.zero) mp idx v = r := by
  induction n, L using level_induction (by decide : 2 ≤ 16) (nodeHash P) (some P.zero)
    generalizing pre idx f with
  | h1 n L h =>
    have hidx : idx = 0 := by omega
    subst hidx
    rw [layout_one _ _ _ _ h] at hn
    have hmem : L 0 ∈ nodes.map some := by rw [← hn]; simp
    obtain ⟨r, _, hr⟩ := List.mem_map.mp hmem
    refine ⟨[], r, ?_, ?_, by rw [mLevels, if_neg (by omega)]; rfl, by simp, ?_⟩
    · cases f with
      | zero => rfl
      | succ f => simp [genProof, h]
    · rw [rootOf_one _ _ _ _ h, hr]
    · intro v hv; rw [← hr] at hv; simpa [climb] using hv.symm
  | hs n L h ih =>
    obtain ⟨f, rfl⟩ : ∃ g, f = g + 1 := ⟨f - 1, by omega⟩
    have hlt := nextN_lt (show 2 ≤ 16 by decide) h
    have hle := le_nextN_mul (n := n) (show 2 ≤ 16 by decide)
    have hd := div_lt_nextN (ar := 16) hi
    rw [layout_step (by decide) _ _ _ h, ← List.append_assoc] at hn
    set cur := (List.range (nextN 16 n * 16)).map (padded (some P.zero) n L) with hcur
    have hcl : cur.length = nextN 16 n * 16 := by simp [hcur]
    obtain ⟨mp, r, hm1, hm2, hml, hm16, hm3⟩ := ih (pre ++ cur) (idx / 16) f hd (by omega) (by omega) hn
    rw [List.length_append, hcl] at hm1
    have hnode : ∀ i < nextN 16 n * 16, (nodes[pre.length + i]?).map some = some (padded (some P.zero) n L i) := by
      intro i hi'
      rw [← List.getElem?_map, ← hn, List.getElem?_append_left (by simp [hcl]; omega),
        List.getElem?_append_right (by omega), Nat.add_sub_cancel_left, hcur, List.getElem?_map,
        List.getElem?_range hi']
      rfl
    have hval : ∃ g : Nat → Bls, ∀ i < nextN 16 n * 16, nodes[pre.length + i]? = some (g i) ∧
        padded (some P.zero) n L i = some (g i) := by
      refine ⟨fun i => (padded (some P.zero) n L i).getD P.zero, fun i hi' => ?_⟩
      have := hnode i hi'
      obtain ⟨s, hs1, hs2⟩ := Option.map_eq_some_iff.mp this
      simp only [← hs2, Option.getD_some]; exact ⟨hs1, trivial⟩
    obtain ⟨g, hg⟩ := hval
    have hbase : idx / 16 * 16 + 16 ≤ nextN 16 n * 16 := by omega
    set lev := (List.range 16).map fun j => g (idx / 16 * 16 + j) with hlev
    have hll : lev.length = 16 := by simp [hlev]
    have hsib : ((List.range 16).mapM fun i => nodes[pre.length + ((idx &&& 0xFFFFFFF0) + i)]?) = some lev := by
      rw [MerkleBN.and_mask idx (by omega)]
      apply MerkleBN.mapM_some_range
      intro i hi'
      exact (hg _ (by omega)).1
    have hpar : parents 16 (nodeHash P) (some P.zero) n L (idx / 16) = fromScalar P.fits (P.pos lev P.zero) := by
      unfold parents nodeHash
      have : ((List.range 16).map fun j => padded (some P.zero) n L (idx / 16 * 16 + j)) = lev.map some := by
        rw [hlev, List.map_map]
        apply List.map_congr_left
        intro j hj
        rw [List.mem_range] at hj
        exact (hg _ (by omega)).2
      rw [this, (MerkleBN.mapM_id_eq _ _).mpr rfl, Option.bind_some]
    have hsome : ∃ v, parents 16 (nodeHash P) (some P.zero) n L (idx / 16) = some v := by
      have hmem : parents 16 (nodeHash P) (some P.zero) n L (idx / 16) ∈ nodes.map some := by
        rw [← hn]
        apply List.mem_append_right
        by_cases h1 : 1 < nextN 16 n
        · rw [layout_step (by decide) _ _ _ h1]
          apply List.mem_append_left
          refine List.mem_map.mpr ⟨idx / 16, ?_, ?_⟩
          · have := le_nextN_mul (n := nextN 16 n) (show 2 ≤ 16 by decide)
            rw [List.mem_range]; omega
          · simp [padded, hd]
        · rw [layout_one _ _ _ _ (by omega), show idx / 16 = 0 by omega]; simp
      obtain ⟨v, _, hv⟩ := List.mem_map.mp hmem
      exact ⟨v, hv.symm⟩
    obtain ⟨v', hv'⟩ := hsome
    refine ⟨lev :: mp, r, ?_, ?_, ?_, ?_, ?_⟩
    · rw [genProof, if_neg (by omega), hsib, Option.bind_some, Nat.shiftRight_eq_div_pow]
      rw [show idx / 2 ^ 4 = idx / 16 by rfl, hm1]; rfl
    · rw [rootOf_step (by decide) _ _ _ h, hm2]
    · rw [List.length_cons, hml, mLevels_nextN h]
    · intro l hl
      rcases List.mem_cons.mp hl with rfl | hl
      · exact hll
      · exact hm16 l hl
    · intro v hv
      rw [climb]
      have hpl : padded (some P.zero) n L idx = some (g idx) := (hg idx (by omega)).2
      rw [padded, if_pos hi, hv, Option.some.injEq] at hpl
      have hset : lev.set (idx % 16) v = lev := by
        apply List.ext_getElem
        · simp
        · intro j a b
          rw [List.getElem_set]
          split_ifs with h
          · subst h
            simp only [hlev, List.getElem_map, List.getElem_range]
            rw [show idx / 16 * 16 + idx % 16 = idx by omega, hpl]
          · rfl
      rw [hset]
      apply hm3
      rw [hpar]
      rw [hpar] at hv'
      unfold fromScalar at hv' ⊢
      split_ifs at hv' ⊢ with hfit
      rfl

/-- the native tree over BLS12-381: Poseidon, `hash_element_array` to build, `hash_element_matrix` to verify; `fits` says when a scalar converts to a digest
without a panic -/
def blsPar (fits : Bls → Bool) : Par Nat Bls where
  zero := 0
  fits := fits
  pos := pos
  leafB := LinearBN.hashArray pos
  leafV := fun row => LinearBN.hashMatrix pos [row]

/-- **C117, completeness**: when the native prover builds a tree of `2^nBits` rows of a width other than 4, every opening it produces satisfies the
template `MerkleHash` with the root of the tree, for the bits of the index (`cols`: any arrangement of the row in the template's matrix) -/
theorem merkleHash_complete (fits : Bls → Bool) (workers : Nat) (hwk : 0 < workers) (buff : List Nat) (width nBits : Nat) (hw : 0 < width) (hw4 : width ≠ 4)
    (hb1 : 1 ≤ nBits) (hb32 : nBits ≤ 32) (hb : buff.length = 2 ^ nBits * width) (t : MT Nat Bls)
    (ht : merkelize (blsPar fits) workers buff width (2 ^ nBits) = some t) (idx : Nat) (hidx : idx < 2 ^ nBits)
    (cols : List (List Nat)) (hcols : cols.flatten = row buff width idx) :
    ∃ root mp, t.root = some root ∧ getGroupProof t idx = .ok (row buff width idx, mp) ∧
      MerkleHash nBits (cols.map (·.map fun n : Nat => ((n : Nat) : Bls))) (sibOf mp) (fun i => bitZ (idx.testBit i)) root := by
  have hh : 2 ≤ 2 ^ nBits := by
    calc 2 = 2 ^ 1 := by norm_num
      _ ≤ 2 ^ nBits := Nat.pow_le_pow_right (by omega) hb1
  have h32 : 2 ^ nBits ≤ 2 ^ 32 := Nat.pow_le_pow_right (by omega) hb32
  have hL : ∃ L, (∀ i < 2 ^ nBits, L i = fromScalar fits (LinearBN.hashArray pos (row buff width i))) ∧
      merkelize (blsPar fits) workers buff width (2 ^ nBits) =
        ((layout 16 (nodeHash (blsPar fits)) (some (0 : Bls)) (2 ^ nBits) L).mapM id).map fun nodes => ⟨buff, width, 2 ^ nBits, nodes⟩ := by
    unfold merkelize
    rw [build_eq (by decide : 2 ≤ 16) _ _ _ _ _ hwk (MerkleBN.rowsPerThread_pos _ _ _) _ _ _ hw hh hb]
    exact ⟨_, fun _ _ => rfl, rfl⟩
  obtain ⟨L, hLv, hL⟩ := hL
  rw [hL, Option.map_eq_some_iff] at ht
  obtain ⟨nodes, h1, rfl⟩ := ht
  rw [MerkleBN.mapM_id_eq] at h1
  obtain ⟨mp, r, h2, h3, h4, h5, h6⟩ := climb_complete (blsPar fits) nodes (2 ^ nBits) L [] idx (2 ^ nBits) hidx le_rfl h32 (by simpa [blsPar] using h1)
  have hlast := layout_getLast? (by decide : 2 ≤ 16) (nodeHash (blsPar fits)) (some (0 : Bls)) (2 ^ nBits) L
  rw [h1] at hlast
  have hroot : nodes.getLast? = some r := by
    rw [List.getLast?_map] at hlast
    cases hg : nodes.getLast? with
    | none => rw [hg] at hlast; simp at hlast
    | some r' =>
      rw [hg] at hlast
      have h3' : rootOf 16 (nodeHash (blsPar fits)) (some (0 : Bls)) (2 ^ nBits) L = some r := h3
      rw [h3'] at hlast
      simpa using hlast
  have hmem : L idx ∈ nodes.map some := by
    rw [← h1, layout_step (by decide) _ _ _ (by omega)]
    apply List.mem_append_left
    refine List.mem_map.mpr ⟨idx, ?_, by simp [padded, hidx]⟩
    have := le_nextN_mul (n := 2 ^ nBits) (show 2 ≤ 16 by decide)
    rw [List.mem_range]; omega
  obtain ⟨v, _, hv⟩ := List.mem_map.mp hmem
  refine ⟨r, mp, hroot, ?_, v, ?_, ?_⟩
  · unfold getGroupProof
    rw [if_neg (by simpa using hidx), MerkleBN.getRow _ _ hb hidx]
    rw [List.length_nil] at h2
    rw [h2]
  · have hrl : (row buff width idx).length = width := by
      unfold row
      rw [List.length_take, List.length_drop, hb]
      have : (idx + 1) * width ≤ 2 ^ nBits * width := Nat.mul_le_mul_right _ hidx
      rw [Nat.add_mul, Nat.one_mul] at this
      omega
    rw [linearHash_iff _ (by rw [hcols]; intro h0; rw [h0] at hrl; simp at hrl; omega)]
    have e : LinearBN.hashMatrix pos cols = LinearBN.hashMatrix pos [row buff width idx] := by
      rw [LinearBN.hashMatrix_spec, LinearBN.hashMatrix_spec, hcols]
      simp
    rw [e, ← LinearBN.row_hashes_agree _ _ (by rw [hrl]; exact hw4)]
    rw [hLv idx hidx] at hv
    unfold fromScalar at hv
    split_ifs at hv with hfit
    simpa using hv
  · rw [merkle_iff nBits mp idx v r _ hidx h4 h5 (fun _ _ => rfl)]
    exact (h6 v hv.symm).symm

/-- **C117, binding**: what an opening fixes is the hash of the row, hence (C116) the packed values, but not their 64-bit pieces: the row
`(2^64, 0, 0)` opens wherever the row `(0, 1, 0)` does -/
theorem merkleHash_not_binding (nBits : Nat) (sib : Nat → Nat → Bls) (key : Nat → Bls) (root : Bls)
    (h : MerkleHash nBits [[((0 : Nat) : Bls)], [((1 : Nat) : Bls)], [((0 : Nat) : Bls)]] sib key root) :
    MerkleHash nBits [[((2 ^ 64 : Nat) : Bls)], [((0 : Nat) : Bls)], [((0 : Nat) : Bls)]] sib key root := by
  obtain ⟨hh, h1, h2⟩ := h
  obtain ⟨out, g1, g2, -⟩ := linearHash_not_binding
  have e1 := (linearHash_iff [[0], [1], [0]] (by decide) hh).mp h1
  have e2 := (linearHash_iff [[0], [1], [0]] (by decide) out).mp g2
  rw [e2, ← e1] at g1
  exact ⟨hh, g1, h2⟩

/-- an opening at index 37 of 256 leaves -/
example : ∃ root, Merkle 8 5 (sibOf (List.replicate 2 (List.replicate 16 3))) (fun i => bitZ ((37 : Nat).testBit i)) root :=
  ⟨_, (merkle_iff 8 _ 37 5 _ _ (by norm_num) (by rw [List.length_replicate]; simp [mLevels_step, mLevels]) (by simp [List.mem_replicate])
    fun _ _ => rfl).mpr rfl⟩

end Verif.Gadget
