import Verif.Simd.Merkle

/-!
# The AVX-512 Merkle tree is the scalar Merkle tree
-/
namespace Verif.Simd
open Verif.GL (F MODULUS)
open Verif.Poseidon (Res)
open Verif.Poseidon.Gl (permGl)
open Verif.Linear (poseidonHash IsState digest)
open Verif.Tree (nextN nNodes minOps splice merklizeLevel levels leafPass doLevel build row)
open Verif.MerkleGL (MT nodeHash leafHash zeroDigest rowsPerThread rootFromProof merkelize verifyGroupProof)

variable {h : List F → List F → Nat → Res F} {perm : List F → List F}

/-- every node has four elements -/
def Digests (l : List (List F)) : Prop := ∀ d ∈ l, d.length = 4

theorem Digests.take {l : List (List F)} (hl : Digests l) (n : Nat) : Digests (l.take n) := fun d hd => hl d (List.mem_of_mem_take hd)
theorem Digests.drop {l : List (List F)} (hl : Digests l) (n : Nat) : Digests (l.drop n) := fun d hd => hl d (List.mem_of_mem_drop hd)
theorem Digests.append {l m : List (List F)} (hl : Digests l) (hm : Digests m) : Digests (l ++ m) := fun d hd =>
  (List.mem_append.mp hd).elim (hl d) (hm d)
theorem Digests.flatten {l : List (List F)} (hl : Digests l) : l.flatten.length = 4 * l.length := Linear.flatten_length_four l hl

theorem nodeHash_eq (hp : IsState perm) (two : List (List F)) : nodeHash perm two = digest perm two.flatten 0 := by
  unfold nodeHash; rw [Linear.hash_eq_digest hp]; rfl

theorem nodeHash_length (hp : IsState perm) (two : List (List F)) : (nodeHash perm two).length = 4 := by
  rw [nodeHash_eq hp]; exact Linear.digest_length hp _ _

theorem process_eq (hh : Two h perm) (hp : IsState perm) (chunk : List (List F)) (four : List F) (hd : Digests chunk) (hf : four.length = 16)
    (hc : chunk.length = 2 ∨ chunk.length = 4) :
    ∃ d1 four', process h chunk four = some ((nodeHash perm (chunk.take 2), d1), four') ∧ four'.length = 16 ∧
      (chunk.length = 4 → d1 = nodeHash perm (chunk.drop 2)) := by
  have hl : chunk.flatten.length = 4 * chunk.length := hd.flatten
  have e : chunk.flatten ++ four.drop (4 * chunk.length) = (chunk.take 2).flatten ++ ((chunk.drop 2).flatten ++ four.drop (4 * chunk.length)) := by
    rw [← List.append_assoc, ← List.flatten_append, List.take_append_drop]
  have l1 : (chunk.take 2).flatten.length = 8 := by rw [(hd.take 2).flatten, List.length_take]; omega
  have l2 : ((chunk.drop 2).flatten ++ four.drop (4 * chunk.length)).length = 8 := by
    rw [List.length_append, (hd.drop 2).flatten, List.length_drop, List.length_drop]; omega
  refine ⟨digest perm ((chunk.drop 2).flatten ++ four.drop (4 * chunk.length)) 0, chunk.flatten ++ four.drop (4 * chunk.length), ?_, ?_, ?_⟩
  · unfold process
    dsimp only
    rw [e, hash2_eq hh hp _ _ 0 (by rw [l1, l2]), nodeHash_eq hp]
    rfl
  · rw [e, List.length_append, l1, l2]
  · intro h4
    have : four.drop (4 * chunk.length) = [] := List.drop_eq_nil_of_le (by omega)
    rw [nodeHash_eq hp, this, List.append_nil]

theorem set_step {A out : List (List F)} {k : Nat} (hA : A.length = k) (hk : k < out.length) (u : List F) :
    setAt (A ++ out.drop k) k u = some (A ++ [u] ++ out.drop (k + 1)) := by
  unfold setAt
  rw [if_pos (by rw [List.length_append, List.length_drop]; omega), List.drop_eq_getElem_cons hk]
  congr 1
  rw [List.set_append_right _ _ (by omega), hA, Nat.sub_self, List.set_cons_zero, List.append_assoc]
  rfl

/-- node `i` of the next level -/
def node (perm : List F → List F) (buff : List (List F)) (i : Nat) : List F := nodeHash perm ((buff.drop (i * 2)).take 2)

theorem range_map_succ {α : Type} (f : Nat → α) (n : Nat) : (List.range (n + 1)).map f = (List.range n).map f ++ [f n] := by
  rw [List.range_succ, List.map_append]; rfl

theorem levelLoop (hh : Two h perm) (hp : IsState perm) (buff out : List (List F)) (four : List F) (hd : Digests buff) (hf : four.length = 16)
    (ho : out.length = buff.length / 2) (n : Nat) (hn : n * 4 ≤ buff.length) :
    ∃ four', (List.range n).foldlM (levelStep h buff) (out, four) = some ((List.range (n * 2)).map (node perm buff) ++ out.drop (n * 2), four') ∧
      four'.length = 16 := by
  induction n with
  | zero => exact ⟨four, by simp, hf⟩
  | succ n ih =>
    obtain ⟨f1, h1, h2⟩ := ih (by omega)
    have hcl : ((buff.drop (n * 4)).take 4).length = 4 := by rw [List.length_take, List.length_drop]; omega
    obtain ⟨d1, f2, h3, h4, h5⟩ := process_eq hh hp ((buff.drop (n * 4)).take 4) f1 ((hd.drop _).take _) h2 (Or.inr hcl)
    refine ⟨f2, ?_, h4⟩
    rw [List.range_succ, List.foldlM_append, h1]
    have ea : nodeHash perm (((buff.drop (n * 4)).take 4).take 2) = node perm buff (n * 2) := by
      unfold node
      rw [List.take_take, show n * 2 * 2 = n * 4 by ring]
      rfl
    have eb : d1 = node perm buff (n * 2 + 1) := by
      rw [h5 hcl]
      unfold node
      rw [List.drop_take, List.drop_drop, show (n * 2 + 1) * 2 = n * 4 + 2 by ring]
    show (levelStep h buff _ n).bind _ = _
    have es : levelStep h buff ((List.range (n * 2)).map (node perm buff) ++ out.drop (n * 2), f1) n =
        some ((List.range ((n + 1) * 2)).map (node perm buff) ++ out.drop ((n + 1) * 2), f2) := by
      unfold levelStep
      dsimp only
      rw [h3, Option.bind_some]
      dsimp only
      rw [set_step (by simp) (by omega), Option.bind_some, ea, ← range_map_succ, set_step (by simp) (by omega), Option.bind_some, eb, ← range_map_succ]
      rw [show (n + 1) * 2 = n * 2 + 1 + 1 by ring]
    rw [es]
    rfl

theorem doLevel2_eq (hh : Two h perm) (hp : IsState perm) (buff : List (List F)) (m : Nat) (hb : buff.length = m * 2) (hm : 0 < m) (hd : Digests buff) :
    doLevel2 h buff = some (doLevel 2 (nodeHash perm) buff) := by
  have hdl : doLevel 2 (nodeHash perm) buff = (List.range m).map (node perm buff) := by
    unfold doLevel; rw [hb, Nat.mul_div_cancel _ (by norm_num)]; rfl
  rw [hdl]
  unfold doLevel2
  dsimp only
  by_cases h0 : buff.length / 4 = 0
  · have hm1 : m = 1 := by omega
    subst hm1
    rw [if_pos h0, if_pos (by omega)]
    obtain ⟨d1, f2, h3, h4, h5⟩ := process_eq hh hp (buff.take 2) (List.replicate 16 0) (hd.take _) (by simp) (Or.inl (by rw [List.length_take]; omega))
    rw [h3, Option.bind_some]
    have hs := set_step (A := []) (out := List.replicate (buff.length / 2) zeroDigest) (k := 0) rfl (by simp [hb]) (nodeHash perm ((buff.take 2).take 2))
    simp only [List.drop_zero, List.nil_append] at hs
    rw [hs, List.drop_eq_nil_of_le (by simp [hb]), List.take_take]
    rfl
  · rw [if_neg h0]
    obtain ⟨f1, h1, h2⟩ := levelLoop hh hp buff (List.replicate (buff.length / 2) zeroDigest) (List.replicate 16 0) hd (by simp) (by simp)
      (buff.length / 4) (by omega)
    rw [h1, Option.bind_some]
    dsimp only
    by_cases hr : buff.length % 4 = 0
    · rw [if_neg (by omega), List.drop_eq_nil_of_le (by simp; omega), List.append_nil, show buff.length / 4 * 2 = m by omega]
    · rw [if_pos hr]
      obtain ⟨d1, f2, h3, h4, h5⟩ := process_eq hh hp (buff.drop (buff.length - 2)) f1 (hd.drop _) h2 (Or.inl (by rw [List.length_drop]; omega))
      rw [h3, Option.bind_some]
      dsimp only
      have hnil : (List.replicate (buff.length / 2) (zeroDigest (F := F))).drop (buff.length / 4 * 2 + 1) = [] := List.drop_eq_nil_of_le (by simp; omega)
      rw [set_step (by simp) (by simp; omega), hnil, List.append_nil]
      have ea : nodeHash perm ((buff.drop (buff.length - 2)).take 2) = node perm buff (buff.length / 4 * 2) := by
        unfold node
        rw [show buff.length - 2 = buff.length / 4 * 2 * 2 by omega]
      rw [ea, ← range_map_succ, show buff.length / 4 * 2 + 1 = m by omega]

theorem mapM_doLevel2 (hh : Two h perm) (hp : IsState perm) (l : List (List (List F))) (hl : ∀ b ∈ l, Digests b ∧ ∃ m, 0 < m ∧ b.length = m * 2) :
    l.mapM (doLevel2 h) = some (l.map (doLevel 2 (nodeHash perm))) := by
  induction l with
  | nil => rfl
  | cons b l ih =>
    obtain ⟨hd, m, hm, hb⟩ := hl b (by simp)
    rw [List.mapM_cons, ih (fun c hc => hl c (by simp [hc])), doLevel2_eq hh hp b m hb hm hd]
    rfl

theorem chunks_even {k : Nat} (hk : k ≠ 0) (l : List (List F)) (m : Nat) (hl : l.length = m * 2) (hd : Digests l) :
    ∀ b ∈ chunks (2 * k) l, Digests b ∧ ∃ m, 0 < m ∧ b.length = m * 2 := by
  intro b hb
  obtain ⟨i, hi⟩ := List.getElem?_of_mem hb
  rw [chunks_getElem? (by omega)] at hi
  split_ifs at hi with hlt
  injection hi with hi
  subst hi
  refine ⟨(hd.drop _).take _, min k (m - i * k), ?_, ?_⟩
  · have : i * (2 * k) = i * k * 2 := by ring
    omega
  · rw [List.length_take, List.length_drop, hl]
    have : i * (2 * k) = i * k * 2 := by ring
    omega

theorem doLevel_digests (hp : IsState perm) (b : List (List F)) : Digests (doLevel 2 (nodeHash perm) b) := by
  intro d hd
  unfold doLevel at hd
  obtain ⟨i, _, rfl⟩ := List.mem_map.mp hd
  exact nodeHash_length hp _

theorem merklizeLevel2_eq (hh : Two h perm) (hp : IsState perm) (workers : Nat) (nodes : List (List F)) (pIn nOps pOut : Nat) (hd : Digests nodes) :
    merklizeLevel2 h workers nodes pIn nOps pOut = merklizeLevel 2 (nodeHash perm) workers nodes pIn nOps pOut := by
  unfold merklizeLevel2 merklizeLevel
  split_ifs with h1 h2
  · rfl
  · dsimp only
    have hpt : max minOps ((nOps - 1) / (workers * 2) + 1) ≠ 0 :=
      ne_of_gt (lt_of_lt_of_le (Nat.succ_pos _) (le_max_right _ _))
    rw [mapM_doLevel2 hh hp _ (chunks_even hpt _ nOps (by rw [List.length_take, List.length_drop, Nat.min_eq_left]; omega) ((hd.drop _).take _)), List.flatMap_def]
    rfl
  · rfl

theorem merklizeLevel_digests (hp : IsState perm) (workers : Nat) (nodes nodes' : List (List F)) (pIn nOps pOut : Nat) (hd : Digests nodes)
    (he : merklizeLevel 2 (nodeHash perm) workers nodes pIn nOps pOut = some nodes') : Digests nodes' := by
  unfold merklizeLevel at he
  split_ifs at he
  injection he with he
  subst he
  unfold splice
  refine Digests.append (Digests.append (hd.take _) ?_) (hd.drop _)
  intro d hd
  obtain ⟨b, _, hb⟩ := List.mem_flatMap.mp hd
  exact doLevel_digests hp b d hb

theorem levels2_eq (hh : Two h perm) (hp : IsState perm) (workers f n pIn : Nat) (nodes : List (List F)) (hd : Digests nodes) :
    levels2 h workers f n pIn nodes = levels 2 (nodeHash perm) workers f n pIn nodes := by
  induction f generalizing n pIn nodes with
  | zero => rfl
  | succ f ih =>
    unfold levels2 levels
    split_ifs with hn
    · rw [merklizeLevel2_eq hh hp _ _ _ _ _ hd]
      cases he : merklizeLevel 2 (nodeHash perm) workers nodes pIn (nextN 2 n) (pIn + nextN 2 n * 2) with
      | none => rfl
      | some nodes' => exact ih _ _ _ (merklizeLevel_digests hp _ _ _ _ _ _ hd he)
    · rfl

/-! ### The leaves -/

theorem leafHash_digest (hp : IsState perm) (r : List F) : leafHash perm r = digest perm r 0 := by
  unfold leafHash; rw [Linear.hash_eq_digest hp]; rfl

theorem leafLoop (hh : Two h perm) (hp : IsState perm) (width : Nat) (bb : List F) (out : List (List F)) (r : Nat) (hb : bb.length = r * width)
    (ho : r ≤ out.length) (n : Nat) (hn : n * 2 ≤ r) :
    (List.range n).foldlM (leafStep h width bb) out =
      some ((List.range (n * 2)).map (fun j => leafHash perm (row bb width j)) ++ out.drop (n * 2)) := by
  induction n with
  | zero => simp
  | succ n ih =>
    rw [List.range_succ, List.foldlM_append, ih (by omega)]
    have hmul : (n * 2 + 2) * width ≤ bb.length := by rw [hb]; exact Nat.mul_le_mul_right _ (by omega)
    have e1 : (n * 2 + 2) * width = n * width * 2 + width * 2 := by ring
    have e2 : n * 2 * width = n * width * 2 := by ring
    have e3 : (n * 2 + 1) * width = n * width * 2 + width := by ring
    have hsplit : (bb.drop (n * width * 2)).take (width * 2) = row bb width (n * 2) ++ row bb width (n * 2 + 1) := by
      unfold row
      rw [e2, e3, ← List.drop_drop, show width * 2 = width + width by ring, List.take_add]
    have hl : (row bb width (n * 2)).length = (row bb width (n * 2 + 1)).length := by
      unfold row
      rw [List.length_take, List.length_take, List.length_drop, List.length_drop, e2, e3]
      omega
    show (leafStep h width bb _ n).bind _ = _
    have es : leafStep h width bb ((List.range (n * 2)).map (fun j => leafHash perm (row bb width j)) ++ out.drop (n * 2)) n =
        some ((List.range ((n + 1) * 2)).map (fun j => leafHash perm (row bb width j)) ++ out.drop ((n + 1) * 2)) := by
      unfold leafStep
      rw [hsplit, hash2_eq hh hp _ _ 0 hl, Option.map_some]
      dsimp only
      rw [if_pos ⟨by simp; omega, by simp; omega⟩]
      have s1 := set_step (A := (List.range (n * 2)).map (fun j => leafHash perm (row bb width j))) (out := out) (k := n * 2) (by simp) (by omega)
        (digest perm (row bb width (n * 2)) 0)
      have s2 := set_step (A := (List.range (n * 2 + 1)).map (fun j => leafHash perm (row bb width j))) (out := out) (k := n * 2 + 1) (by simp) (by omega)
        (digest perm (row bb width (n * 2 + 1)) 0)
      unfold setAt at s1 s2
      rw [if_pos (by simp; omega)] at s1 s2
      injection s1 with s1
      injection s2 with s2
      rw [s1, ← leafHash_digest hp (row bb width (n * 2)), ← range_map_succ (fun j => leafHash perm (row bb width j)), s2,
        ← leafHash_digest hp (row bb width (n * 2 + 1)), ← range_map_succ (fun j => leafHash perm (row bb width j)), show (n + 1) * 2 = n * 2 + 1 + 1 by ring]
    rw [es]
    rfl

theorem leafChunk_eq (hh : Two h perm) (hp : IsState perm) (width : Nat) (hw : 0 < width) (bb : List F) (out : List (List F)) (r : Nat)
    (hb : bb.length = r * width) (ho : r ≤ out.length) :
    leafChunk h width out bb = some ((List.range r).map (fun j => leafHash perm (row bb width j)) ++ out.drop r) := by
  unfold leafChunk
  have hr : bb.length / width = r := by rw [hb, Nat.mul_div_cancel _ hw]
  dsimp only
  rw [hr, leafLoop hh hp width bb out r hb ho (r / 2) (by omega), Option.bind_some]
  have hmod : bb.length % (width * 2) = r % 2 * width := by
    rw [hb, Nat.mul_comm r width, Nat.mul_mod_mul_left, Nat.mul_comm]
  by_cases h2 : r % 2 = 0
  · rw [if_neg (by rw [hmod, h2]; simp), show r / 2 * 2 = r by omega]
  · have h21 : r % 2 = 1 := by omega
    rw [if_pos (by rw [hmod, h21]; omega)]
    have hk : r / 2 * 2 + 1 = r := by omega
    have hrow : bb.drop (r / 2 * width * 2) = row bb width (r / 2 * 2) := by
      unfold row
      rw [show r / 2 * width * 2 = r / 2 * 2 * width by ring, List.take_of_length_le]
      rw [List.length_drop, hb]
      have : r * width = r / 2 * 2 * width + width := by
        conv_lhs => rw [← hk]
        ring
      omega
    have hlen : (bb.drop (r / 2 * width * 2)).length = width := by
      rw [List.length_drop, hb, show r / 2 * width * 2 = r / 2 * 2 * width by ring]
      have : r * width = r / 2 * 2 * width + width := by
        conv_lhs => rw [← hk]
        ring
      omega
    rw [if_pos (by rw [hlen]; ring), hash2_eq hh hp _ _ 0 rfl, Option.bind_some]
    dsimp only
    rw [set_step (by simp) (by omega), hrow, ← leafHash_digest hp, ← range_map_succ (fun j => leafHash perm (row bb width j)), hk]

theorem leafPass2_eq (hh : Two h perm) (hp : IsState perm) (pt width nn height : Nat) (buff : List F) (hb : buff.length = height * width) (hn : height ≤ nn) :
    leafPass2 h pt width nn buff = leafPass (leafHash perm) zeroDigest pt width nn buff := by
  unfold leafPass2 leafPass
  dsimp only
  split_ifs with h1 h2
  · rfl
  · rfl
  have hpt : pt ≠ 0 := fun e => h2 (Or.inl e)
  have hw : width ≠ 0 := fun e => h2 (Or.inr e)
  have hpw : pt * width ≠ 0 := Nat.mul_ne_zero hpt hw
  have hz : ∀ p ∈ (chunks pt (List.replicate nn (zeroDigest (F := F)))).zip (chunks (pt * width) buff),
      ∃ r, p.2.length = r * width ∧ r ≤ p.1.length := by
    intro p hp
    obtain ⟨i, hi⟩ := List.getElem?_of_mem hp
    rw [List.getElem?_zip_eq_some, chunks_getElem? hpt, chunks_getElem? hpw] at hi
    obtain ⟨g1, g2⟩ := hi
    split_ifs at g1 g2 with q1 q2
    injection g1 with g1
    injection g2 with g2
    refine ⟨min pt (height - i * pt), ?_, ?_⟩
    · rw [← g2, List.length_take, List.length_drop, hb, ← Nat.mul_assoc, ← Nat.sub_mul]
      exact (Nat.mul_min_mul_right pt (height - i * pt) width).symm ▸ rfl
    · rw [← g1, List.length_take, List.length_drop, List.length_replicate]
      omega
  have key : ∀ l : List (List (List F) × List F), (∀ p ∈ l, ∃ r, p.2.length = r * width ∧ r ≤ p.1.length) →
      l.mapM (fun p => leafChunk h width p.1 p.2) = some (l.map fun p =>
        ((List.range (p.2.length / width)).map fun j => leafHash perm ((p.2.drop (j * width)).take width)).take p.1.length ++
          p.1.drop ((List.range (p.2.length / width)).map fun j => leafHash perm ((p.2.drop (j * width)).take width)).length) := by
    intro l hl
    induction l with
    | nil => rfl
    | cons p l ih =>
      obtain ⟨r, hr, hro⟩ := hl p (by simp)
      rw [List.mapM_cons, ih (fun c hc => hl c (by simp [hc])), leafChunk_eq hh hp width (by omega) p.2 p.1 r hr hro, List.map_cons]
      rw [show p.2.length / width = r by rw [hr, Nat.mul_div_cancel _ (by omega)], List.take_of_length_le (by simpa using hro)]
      simp only [List.length_map, List.length_range]
      rfl
  rw [key _ hz, List.flatMap_def]
  rfl

theorem leafPass_digests (hp : IsState perm) (pt width nn : Nat) (buff : List F) (nodes : List (List F))
    (he : leafPass (leafHash perm) zeroDigest pt width nn buff = some nodes) : Digests nodes := by
  have hz : ∀ d ∈ List.replicate nn (zeroDigest (F := F)), d.length = 4 := by
    intro d hd; rw [(List.mem_replicate.mp hd).2]; simp [zeroDigest]
  have hc : ∀ b ∈ chunks pt (List.replicate nn (zeroDigest (F := F))), Digests b := by
    intro b hb d hd
    by_cases hpt : pt = 0
    · subst hpt; simp at hb
    · exact hz d (by rw [← chunks_flatten hpt (List.replicate nn _)]; exact List.mem_flatten.mpr ⟨b, hb, hd⟩)
  unfold leafPass at he
  dsimp only at he
  split_ifs at he
  · injection he with he
    subst he
    exact hz
  · injection he with he
    subst he
    refine Digests.append ?_ ?_
    · intro d hd
      obtain ⟨p, hpm, hd⟩ := List.mem_flatMap.mp hd
      rcases List.mem_append.mp hd with hd | hd
      · obtain ⟨j, _, rfl⟩ := List.mem_map.mp (List.mem_of_mem_take hd)
        rw [leafHash_digest hp]
        exact Linear.digest_length hp _ _
      · exact hc p.1 (List.of_mem_zip (a := p.1) (b := p.2) hpm).1 d (List.mem_of_mem_drop hd)
    · intro d hd
      obtain ⟨b, hb, hd⟩ := List.mem_flatten.mp hd
      exact hc b (List.mem_of_mem_drop hb) d hd

theorem nNodes_ge (height : Nat) : height ≤ nNodes 2 height := by
  by_cases h1 : height ≤ 1
  · interval_cases height
    · exact Nat.zero_le _
    · decide
  · rw [Tree.nNodes_eq le_rfl (fun _ : List Nat => 0) 0 height (fun _ => 0) (by omega)]
    exact Tree.le_layout le_rfl _ _ _ _

/-! ### The statements -/

/-- **The same tree**: for every buffer of `height` rows of `width` elements and every number of worker threads, `merkelize` of the AVX-512 code builds
exactly the tree of the scalar code: same nodes, same root, same proofs, same panics. -/
theorem merkle512 (workers : Nat) (buff : List F) (width height : Nat) (hb : buff.length = height * width) :
    merkelize2 hashAvx512 workers buff width height = merkelize permGl workers buff width height := by
  unfold merkelize2 merkelize build
  split_ifs with h0
  · rfl
  rw [leafPass2_eq two512 Poseidon.Gl.isState _ _ _ _ _ hb (nNodes_ge height)]
  cases he : leafPass (leafHash permGl) zeroDigest (rowsPerThread workers width height) width (nNodes 2 height) buff with
  | none => rfl
  | some nodes =>
    rw [Option.bind_some, Option.bind_some, levels2_eq two512 Poseidon.Gl.isState _ _ _ _ _ (leafPass_digests Poseidon.Gl.isState _ _ _ _ _ he)]

/-- a tree with an odd number of rows (and an odd number of nodes on a level) -/
example : ∃ t, merkelize2 hashAvx512 3 (List.replicate 15 7) 3 5 = some t ∧ t.height = 5 := by
  rw [merkle512 3 _ 3 5 (by simp), MerkleGL.merkelize_eq Poseidon.Gl.isState 3 (by norm_num) _ 3 5 (by norm_num) (by norm_num) (by simp)]
  exact ⟨_, rfl, rfl⟩

/-- **The same verdict**: for every root, path, index and row, the verification of the AVX-512 code is the scalar one. -/
theorem verify512 (root : List F) (mp : List (List F)) (idx : Nat) (vals : List F) :
    verifyGroupProof2 hashAvx512 permGl root mp idx vals = verifyGroupProof permGl root mp idx vals := by
  unfold verifyGroupProof2 verifyGroupProof
  rw [hash2_eq two512 Poseidon.Gl.isState _ _ 0 rfl, Linear.hash_eq_digest Poseidon.Gl.isState]
  rfl

/-- **Proofs cross over**: what the scalar tree commits to, the AVX-512 verifier accepts, and conversely. -/
theorem cross512 (workers : Nat) (hwk : 0 < workers) (buff : List F) (width height : Nat) (hw : width < 2 ^ 21 + 8) (hh : 2 ≤ height)
    (hb : buff.length = height * width) :
    ∃ t root, merkelize2 hashAvx512 workers buff width height = some t ∧ merkelize permGl workers buff width height = some t ∧ t.root = some root ∧
      ∀ idx < height, ∃ mp, MerkleGL.getGroupProof t idx = .ok (row buff width idx, mp) ∧
        verifyGroupProof permGl root mp idx (row buff width idx) = some true ∧
        verifyGroupProof2 hashAvx512 permGl root mp idx (row buff width idx) = some true := by
  obtain ⟨t, h1, h2, h3, _⟩ := MerkleGL.completeness Poseidon.Gl.isState workers hwk buff width height hw hh hb
  refine ⟨t, _, by rw [merkle512 _ _ _ _ hb]; exact h1, h1, h2, fun idx hi => ?_⟩
  obtain ⟨mp, g1, g2⟩ := h3 idx hi
  exact ⟨mp, g1, g2, by rw [verify512]; exact g2⟩

example : ∃ t root, merkelize2 hashAvx512 2 (List.replicate 15 7) 3 5 = some t ∧ merkelize permGl 2 (List.replicate 15 7) 3 5 = some t ∧ t.root = some root ∧
      ∀ idx < 5, ∃ mp, MerkleGL.getGroupProof t idx = .ok (row (List.replicate 15 7) 3 idx, mp) ∧
        verifyGroupProof permGl root mp idx (row (List.replicate 15 7) 3 idx) = some true ∧
        verifyGroupProof2 hashAvx512 permGl root mp idx (row (List.replicate 15 7) 3 idx) = some true :=
  cross512 2 (by norm_num) _ 3 5 (by norm_num) (by norm_num) (by simp)

/-- **AVX2**: the tree and the verifier over the AVX2 hash are the scalar ones, for all arguments. -/
theorem merkle_avx2 (workers : Nat) (buff : List F) (width height : Nat) :
    merkelize permAvx2 workers buff width height = merkelize permGl workers buff width height ∧
    ∀ root mp idx vals, verifyGroupProof permAvx2 root mp idx vals = verifyGroupProof permGl root mp idx vals := by
  have e1 : nodeHash permAvx2 = nodeHash permGl := by funext x; unfold nodeHash; rw [linear_avx2]
  have e2 : leafHash permAvx2 = leafHash permGl := by funext x; unfold leafHash; rw [linear_avx2]
  constructor
  · unfold merkelize
    rw [e1, e2]
  · intro root mp idx vals
    have e3 : ∀ v, rootFromProof permAvx2 mp idx v = rootFromProof permGl mp idx v := by
      induction mp generalizing idx with
      | nil => intro v; rfl
      | cons s mp ih =>
        intro v
        unfold rootFromProof
        rw [poseidon_avx2]
        simp only [ih]
    unfold verifyGroupProof
    rw [linear_avx2]
    simp only [e3]

end Verif.Simd
