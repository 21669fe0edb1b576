import Verif.Hash.Tree

namespace Verif.Tree
variable {D E : Type*}

theorem nextN_pos (ar n : Nat) : 1 ≤ nextN ar n := Nat.succ_le_succ (Nat.zero_le _)

theorem nextN_lt {ar n : Nat} (ha : 2 ≤ ar) (hn : 1 < n) : nextN ar n < n := by
  unfold nextN
  have : (n - 1) / ar ≤ (n - 1) / 2 := Nat.div_le_div_left ha (by decide)
  omega

theorem le_nextN_mul {ar n : Nat} (ha : 2 ≤ ar) : n ≤ nextN ar n * ar := by
  unfold nextN
  have h := Nat.div_add_mod (n - 1) ar
  have h2 := Nat.mod_lt (n - 1) (show ar > 0 by omega)
  generalize (n - 1) / ar = q at *
  have : (q + 1) * ar = ar * q + ar := by ring
  omega

/-- groups: `i < nextN n` iff the group starts inside the level -/
theorem div_lt_nextN {ar n i : Nat} (hi : i < n) : i / ar < nextN ar n := by
  unfold nextN
  have : i / ar ≤ (n - 1) / ar := Nat.div_le_div_right (by omega)
  omega

/-! canonical forms of the fuelled recursions -/

def layout (ar : Nat) (H : List D → D) (zero : D) (n : Nat) (L : Nat → D) : List D := layoutGo ar H zero n n L

theorem layoutGo_enough {ar : Nat} (ha : 2 ≤ ar) (H : List D → D) (zero : D) (f g n : Nat) (L : Nat → D)
    (hf : n ≤ f) (hg : n ≤ g) : layoutGo ar H zero f n L = layoutGo ar H zero g n L := by
  induction f generalizing g n L with
  | zero => cases g with
    | zero => rfl
    | succ g => simp [layoutGo, show ¬ n > 1 by omega]
  | succ f ih =>
    cases g with
    | zero => simp [layoutGo, show ¬ n > 1 by omega]
    | succ g =>
      simp only [layoutGo]
      split_ifs with h
      · have := nextN_lt ha h
        rw [ih g _ _ (by omega) (by omega)]
      · rfl

theorem layout_one (ar : Nat) (H : List D → D) (zero : D) (n : Nat) (hn : n ≤ 1) (L : Nat → D) :
    layout ar H zero n L = [L 0] := by
  unfold layout
  cases n with
  | zero => rfl
  | succ n => simp [layoutGo, show ¬ (n + 1 > 1) by omega]

theorem layout_step {ar : Nat} (ha : 2 ≤ ar) (H : List D → D) (zero : D) (n : Nat) (hn : 1 < n) (L : Nat → D) :
    layout ar H zero n L = (List.range (nextN ar n * ar)).map (padded zero n L)
      ++ layout ar H zero (nextN ar n) (parents ar H zero n L) := by
  unfold layout
  obtain ⟨m, rfl⟩ : ∃ m, n = m + 1 := ⟨n - 1, by omega⟩
  have hlt := nextN_lt ha hn
  rw [layoutGo]
  rw [if_pos hn, layoutGo_enough ha H zero m (nextN ar (m + 1)) _ _ (by omega) le_rfl]

theorem rootGo_enough {ar : Nat} (ha : 2 ≤ ar) (H : List D → D) (zero : D) (f g n : Nat) (L : Nat → D)
    (hf : n ≤ f) (hg : n ≤ g) : rootGo ar H zero f n L = rootGo ar H zero g n L := by
  induction f generalizing g n L with
  | zero => cases g with
    | zero => rfl
    | succ g => simp [rootGo, show ¬ n > 1 by omega]
  | succ f ih =>
    cases g with
    | zero => simp [rootGo, show ¬ n > 1 by omega]
    | succ g =>
      simp only [rootGo]
      split_ifs with h
      · have := nextN_lt ha h
        rw [ih g _ _ (by omega) (by omega)]
      · rfl

theorem rootOf_one (ar : Nat) (H : List D → D) (zero : D) (n : Nat) (hn : n ≤ 1) (L : Nat → D) :
    rootOf ar H zero n L = L 0 := by
  unfold rootOf
  cases n with
  | zero => rfl
  | succ n => simp [rootGo, show ¬ (n + 1 > 1) by omega]

theorem rootOf_step {ar : Nat} (ha : 2 ≤ ar) (H : List D → D) (zero : D) (n : Nat) (hn : 1 < n) (L : Nat → D) :
    rootOf ar H zero n L = rootOf ar H zero (nextN ar n) (parents ar H zero n L) := by
  unfold rootOf
  obtain ⟨m, rfl⟩ : ∃ m, n = m + 1 := ⟨n - 1, by omega⟩
  have hlt := nextN_lt ha hn
  rw [rootGo, if_pos hn, rootGo_enough ha H zero m (nextN ar (m + 1)) _ _ (by omega) le_rfl]

/-- strong induction along the levels -/
theorem level_induction {ar : Nat} (ha : 2 ≤ ar) {P : Nat → (Nat → D) → Prop} (H : List D → D) (zero : D)
    (h1 : ∀ n L, n ≤ 1 → P n L)
    (hs : ∀ n L, 1 < n → P (nextN ar n) (parents ar H zero n L) → P n L) (n : Nat) (L : Nat → D) : P n L := by
  induction n using Nat.strong_induction_on generalizing L with
  | _ n ih =>
    by_cases h : n ≤ 1
    · exact h1 n L h
    · exact hs n L (by omega) (ih _ (nextN_lt ha (by omega)) _)

theorem layout_getLast? {ar : Nat} (ha : 2 ≤ ar) (H : List D → D) (zero : D) (n : Nat) (L : Nat → D) :
    (layout ar H zero n L).getLast? = some (rootOf ar H zero n L) := by
  induction n, L using level_induction ha H zero with
  | h1 n L h => rw [layout_one _ _ _ _ h, rootOf_one _ _ _ _ h]; rfl
  | hs n L h ih =>
    rw [layout_step ha _ _ _ h, rootOf_step ha _ _ _ h, List.getLast?_append, ih]; rfl

theorem layout_length_indep {ar : Nat} (ha : 2 ≤ ar) (H : List D → D) (zero : D) (n : Nat) (L L' : Nat → D) :
    (layout ar H zero n L).length = (layout ar H zero n L').length := by
  induction n using Nat.strong_induction_on generalizing L L' with
  | _ n ih =>
    by_cases h : n ≤ 1
    · rw [layout_one _ _ _ _ h, layout_one _ _ _ _ h]; rfl
    · rw [layout_step ha _ _ _ (by omega) L, layout_step ha _ _ _ (by omega) L', List.length_append, List.length_append,
        ih _ (nextN_lt ha (by omega)) (parents ar H zero n L) (parents ar H zero n L')]
      simp

theorem nNodesLoop_eq {ar : Nat} (ha : 2 ≤ ar) (H : List D → D) (zero : D) (f n acc : Nat) (L : Nat → D)
    (hf : n ≤ f) (hn : 1 < n) :
    nNodesLoop ar f n acc = acc + (layout ar H zero (nextN ar n) L).length := by
  induction f generalizing n acc L with
  | zero => omega
  | succ f ih =>
    have hlt := nextN_lt ha hn
    have hpos := nextN_pos ar n
    rw [nNodesLoop, if_pos hn]
    dsimp only
    by_cases h : 1 < nextN ar n
    · rw [if_pos h, ih (nextN ar n) _ (parents ar H zero (nextN ar n) L) (by omega) h, layout_step ha _ _ _ h]
      simp; ring
    · rw [if_neg h, layout_one _ _ _ _ (by omega)]
      cases f with
      | zero => rfl
      | succ f => rw [nNodesLoop, if_neg h]; rfl

theorem nNodes_eq {ar : Nat} (ha : 2 ≤ ar) (H : List D → D) (zero : D) (n : Nat) (L : Nat → D) (hn : 1 < n) :
    nNodes ar n = (layout ar H zero n L).length := by
  unfold nNodes
  rw [nNodesLoop_eq ha H zero n n _ (parents ar H zero n L) le_rfl hn, layout_step ha _ _ _ hn]
  simp

theorem nNodes_one (ar : Nat) : nNodes ar 1 = ar := by
  simp [nNodes, nNodesLoop, nextN]

theorem le_layout {ar : Nat} (ha : 2 ≤ ar) (H : List D → D) (zero : D) (n : Nat) (L : Nat → D) :
    n ≤ (layout ar H zero n L).length := by
  by_cases h : n ≤ 1
  · rw [layout_one _ _ _ _ h]; simpa
  · rw [layout_step ha _ _ _ (by omega)]
    have := le_nextN_mul (n := n) ha
    simp; omega

/-! one level -/

theorem range_padded (zero : D) (n m : Nat) (L : Nat → D) (h : n ≤ m) :
    (List.range m).map (padded zero n L) = (List.range n).map L ++ List.replicate (m - n) zero := by
  apply List.ext_getElem?
  intro i
  simp only [List.getElem?_map, List.getElem?_append, List.length_map, List.length_range, List.getElem?_replicate]
  by_cases h1 : i < n
  · simp [List.getElem?_range (show i < m by omega), h1, padded]
  · by_cases h2 : i < m
    · simp [List.getElem?_range h2, h1, show i - n < m - n by omega, padded]
    · simp [h1, show ¬ i < m by omega, show ¬ i - n < m - n by omega]

theorem chunks_split {c : Nat} (hc : c ≠ 0) (k : Nat) (l : List D) :
    chunks c l = chunks c (l.take (c * k)) ++ chunks c (l.drop (c * k)) := by
  induction k generalizing l with
  | zero => simp
  | succ k ih =>
    by_cases hl : l = []
    · simp [hl]
    · have e : c * (k + 1) = c + c * k := by ring
      rw [chunks_ne_nil hc hl, e]
      have hne : l.take (c + c * k) ≠ [] := by
        intro h; simp only [List.take_eq_nil_iff] at h; rcases h with h | h; omega; exact hl h
      rw [chunks_ne_nil hc hne, List.cons_append, List.take_take, List.drop_take, min_eq_left (by omega),
        show c + c * k - c = c * k by omega, ← List.drop_drop, ← ih]

theorem chunks_flatMap_chunks {c k : Nat} (hc : c ≠ 0) (hk : k ≠ 0) (l : List D) :
    (chunks (c * k) l).flatMap (chunks c) = chunks c l := by
  have hck : c * k ≠ 0 := Nat.mul_ne_zero hc hk
  induction hn : l.length using Nat.strong_induction_on generalizing l with
  | _ n ih =>
    by_cases hl : l = []
    · simp [hl]
    · have : 0 < l.length := List.length_pos_iff.mpr hl
      rw [chunks_ne_nil hck hl, List.flatMap_cons, ih _ (by simp; omega) (l.drop (c * k)) rfl, ← chunks_split hc]

theorem doLevel_eq {ar m : Nat} (ha : ar ≠ 0) (H : List D → D) (buff : List D) (hb : buff.length = m * ar) :
    doLevel ar H buff = (chunks ar buff).map H := by
  unfold doLevel
  apply List.ext_getElem?
  intro i
  have hq : buff.length / ar = m := by rw [hb, Nat.mul_div_cancel _ (by omega)]
  rw [List.getElem?_map, List.getElem?_map, chunks_getElem? ha, hq, hb]
  by_cases h : i < m
  · have : i * ar < m * ar := Nat.mul_lt_mul_of_pos_right h (by omega)
    simp [List.getElem?_range h, this]
  · have : ¬ i * ar < m * ar := by
      have := Nat.mul_le_mul_right ar (show m ≤ i by omega); omega
    simp [this, h]

/-- the chunked computation of a level is the computation of the level, whatever the chunk length -/
theorem level_chunked {ar m k : Nat} (ha : ar ≠ 0) (hk : k ≠ 0) (H : List D → D) (buff : List D)
    (hb : buff.length = m * ar) :
    (chunks (ar * k) buff).flatMap (doLevel ar H) = (chunks ar buff).map H := by
  rw [← chunks_flatMap_chunks ha hk buff, List.map_flatMap]
  rw [List.flatMap_def, List.flatMap_def]
  congr 1
  apply List.map_congr_left
  intro x hx
  obtain ⟨i, hi⟩ := List.getElem?_of_mem hx
  rw [chunks_getElem? (Nat.mul_ne_zero ha hk)] at hi
  split_ifs at hi with h
  injection hi with hi
  apply doLevel_eq (m := min k (m - i * k)) ha
  rw [← hi, List.length_take, List.length_drop, hb]
  have : i * (ar * k) = i * k * ar := by ring
  rw [this, ← Nat.sub_mul, Nat.mul_comm ar k]
  rw [Nat.mul_min_mul_right]

theorem chunks_map_range {ar : Nat} (ha : ar ≠ 0) (m : Nat) (H : List D → D) (f : Nat → D) :
    (chunks ar ((List.range (m * ar)).map f)).map H
      = (List.range m).map fun i => H ((List.range ar).map fun j => f (i * ar + j)) := by
  apply List.ext_getElem?
  intro i
  rw [List.getElem?_map, List.getElem?_map, chunks_getElem? ha]
  simp only [List.length_map, List.length_range]
  by_cases h : i < m
  · have h1 : (i + 1) * ar ≤ m * ar := Nat.mul_le_mul_right _ (by omega)
    have h2 : (i + 1) * ar = i * ar + ar := by ring
    rw [if_pos (by omega)]
    simp only [List.getElem?_range h, Option.map_some, Option.some.injEq]
    congr 1
    apply List.ext_getElem?
    intro j
    rw [List.getElem?_take, List.getElem?_drop, List.getElem?_map, List.getElem?_map]
    by_cases hj : j < ar
    · simp [hj, List.getElem?_range (show i * ar + j < m * ar by omega)]
    · simp [hj]
  · have : ¬ i * ar < m * ar := by
      have := Nat.mul_le_mul_right ar (show m ≤ i by omega); omega
    simp [this, h]

/-- the invariant of the level loop -/
theorem levels_eq {ar : Nat} (ha : 2 ≤ ar) (H : List D → D) (zero : D) (workers : Nat) (hw : workers ≠ 0)
    (f n : Nat) (hf : n ≤ f) (hn : 1 ≤ n) (L : Nat → D) (pre : List D) :
    levels ar H workers f n pre.length
      (pre ++ ((List.range n).map L ++ List.replicate ((layout ar H zero n L).length - n) zero))
    = some (pre ++ layout ar H zero n L) := by
  induction f generalizing n L pre with
  | zero => omega
  | succ f ih =>
    rw [levels]
    by_cases h : 1 < n
    · rw [if_pos h]
      have hlt := nextN_lt ha h
      have hle := le_nextN_mul (n := n) ha
      have hst := layout_step ha H zero n h L
      have hlen : (layout ar H zero n L).length
          = nextN ar n * ar + (layout ar H zero (nextN ar n) (parents ar H zero n L)).length := by
        rw [hst]; simp
      have hle2 := le_layout ha H zero (nextN ar n) (parents ar H zero n L)
      have hrep : (List.range n).map L ++ List.replicate ((layout ar H zero n L).length - n) zero
          = (List.range (nextN ar n * ar)).map (padded zero n L) ++
            List.replicate (layout ar H zero (nextN ar n) (parents ar H zero n L)).length zero := by
        rw [range_padded _ _ _ _ hle, List.append_assoc, List.replicate_append_replicate]
        congr 2; omega
      rw [hrep]
      generalize hP : layout ar H zero (nextN ar n) (parents ar H zero n L) = lay at *
      generalize hR : (List.range (nextN ar n * ar)).map (padded zero n L) = cur at *
      have hcur : cur.length = nextN ar n * ar := by rw [← hR]; simp
      have hm : merklizeLevel ar H workers (pre ++ (cur ++ List.replicate lay.length zero)) pre.length (nextN ar n)
          (pre.length + nextN ar n * ar)
          = some ((pre ++ cur) ++ ((List.range (nextN ar n)).map (parents ar H zero n L)
              ++ List.replicate (lay.length - nextN ar n) zero)) := by
        unfold merklizeLevel
        rw [if_neg hw, if_pos (by simp [hcur]; omega)]
        dsimp only
        have hb : ((pre ++ (cur ++ List.replicate lay.length zero)).drop pre.length).take (nextN ar n * ar) = cur := by
          rw [List.drop_left, ← hcur, List.take_left]
        have hmx : max minOps ((nextN ar n - 1) / (workers * ar) + 1) ≠ 0 := by
          have := le_max_left minOps ((nextN ar n - 1) / (workers * ar) + 1)
          unfold minOps at *; omega
        rw [hb, level_chunked (m := nextN ar n) (by omega) hmx H cur hcur, ← hR, chunks_map_range (by omega), hR]
        unfold splice
        have e1 : (List.map (fun i => H (List.map (fun j => padded zero n L (i * ar + j)) (List.range ar)))
            (List.range (nextN ar n))) = (List.range (nextN ar n)).map (parents ar H zero n L) := rfl
        rw [e1, ← List.append_assoc pre cur, ← hcur, ← List.length_append, List.take_left, List.drop_append]
        simp only [List.length_map, List.length_range, List.drop_replicate]
        rw [List.drop_of_length_le (by omega)]
        simp
      rw [hm, Option.bind_some]
      have := ih (nextN ar n) (by omega) (nextN_pos ar n) (parents ar H zero n L) (pre ++ cur)
      rw [hP, List.length_append, hcur] at this
      rw [this, hst, List.append_assoc]
    · rw [if_neg h]
      have : n = 1 := by omega
      subst this
      rw [layout_one _ _ _ _ le_rfl]
      simp

/-! leaves -/

theorem rows_short (leaf : List E → D) (width h : Nat) (hw : 0 < width) (buff : List E) (hb : buff.length = h * width) :
    ((List.range (buff.length / width)).map fun j => leaf ((buff.drop (j * width)).take width))
      = (List.range h).map fun i => leaf (row buff width i) := by
  rw [hb, Nat.mul_div_cancel _ hw]; rfl

theorem leafPass_eq (leaf : List E → D) (zero : D) (pt width : Nat) (hpt : 0 < pt) (hw : 0 < width) (h nn : Nat)
    (buff : List E) (hb : buff.length = h * width) (hh : 0 < h) (hnn : h ≤ nn) :
    leafPass leaf zero pt width nn buff
      = some ((List.range h).map (fun i => leaf (row buff width i)) ++ List.replicate (nn - h) zero) := by
  have hpw : pt * width ≠ 0 := Nat.mul_ne_zero (by omega) (by omega)
  have key : ∀ (h nn : Nat) (buff : List E), buff.length = h * width → 0 < h → h ≤ nn →
      ((chunks pt (List.replicate nn zero)).zip (chunks (pt * width) buff)).flatMap (fun p =>
        let rows := (List.range (p.2.length / width)).map fun j => leaf ((p.2.drop (j * width)).take width)
        rows.take p.1.length ++ p.1.drop rows.length)
      ++ ((chunks pt (List.replicate nn zero)).drop (chunks (pt * width) buff).length).flatten
      = (List.range h).map (fun i => leaf (row buff width i)) ++ List.replicate (nn - h) zero := by
    intro h
    induction h using Nat.strong_induction_on with
    | _ h ih =>
      intro nn buff hb hh hnn
      have hbne : buff ≠ [] := by
        rintro rfl; simp at hb; rcases hb with hb | hb <;> omega
      have hrne : List.replicate nn zero ≠ [] := by simp; omega
      by_cases hle : h ≤ pt
      · have hlen : buff.length ≤ pt * width := by rw [hb]; exact Nat.mul_le_mul_right _ hle
        rw [chunks_short hpw hbne hlen, chunks_ne_nil (by omega) hrne]
        simp only [List.zip_cons_cons, List.zip_nil_right, List.flatMap_cons, List.flatMap_nil, List.append_nil,
          List.length_singleton, List.drop_succ_cons, List.drop_zero]
        rw [rows_short leaf width h hw buff hb, chunks_flatten (by omega)]
        simp only [List.take_replicate, List.drop_replicate, List.length_replicate, List.length_map, List.length_range]
        rw [List.take_of_length_le (by simp; omega), List.append_assoc, List.replicate_append_replicate]
        congr 2; omega
      · have hlen : (buff.take (pt * width)).length = pt * width := by
          rw [List.length_take, hb, min_eq_left (Nat.mul_le_mul_right _ (by omega))]
        have hdl : (buff.drop (pt * width)).length = (h - pt) * width := by
          rw [List.length_drop, hb, Nat.sub_mul]
        rw [chunks_ne_nil hpw hbne, chunks_ne_nil (by omega) hrne]
        simp only [List.zip_cons_cons, List.flatMap_cons, List.length_cons, List.drop_succ_cons]
        rw [List.append_assoc, List.drop_replicate, ih (h - pt) (by omega) (nn - pt) _ hdl (by omega) (by omega)]
        rw [rows_short leaf width pt hw _ hlen]
        simp only [List.take_replicate, List.drop_replicate, List.length_replicate, List.length_map, List.length_range]
        rw [List.take_of_length_le (by simp; omega), show min pt nn - pt = 0 by omega, List.replicate_zero,
          List.append_nil, ← List.append_assoc, show nn - pt - (h - pt) = nn - h by omega]
        congr 1
        have hsplit : h = pt + (h - pt) := by omega
        conv_rhs => rw [hsplit, List.range_add, List.map_append, List.map_map]
        congr 1
        · apply List.map_congr_left
          intro i hi
          rw [List.mem_range] at hi
          unfold row
          rw [List.drop_take, List.take_take, min_eq_left]
          have : (i + 1) * width ≤ pt * width := Nat.mul_le_mul_right _ (by omega)
          have e : (i + 1) * width = i * width + width := by ring
          omega
        · apply List.map_congr_left
          intro i _
          simp only [Function.comp, row, List.drop_drop]
          rw [Nat.add_mul]
  unfold leafPass
  have hbne : buff ≠ [] := by
    rintro rfl; simp at hb; rcases hb with hb | hb <;> omega
  dsimp only
  rw [if_neg hbne, if_neg (by omega), key h nn buff hb hh hnn]

/-- The node array built by `merkelize`, for every chunking and number of workers. -/
theorem build_eq {ar : Nat} (ha : 2 ≤ ar) (H : List D → D) (leaf : List E → D) (zero : D) (workers pt : Nat)
    (hw : 0 < workers) (hpt : 0 < pt) (buff : List E) (width height : Nat) (hwd : 0 < width) (hh : 2 ≤ height)
    (hb : buff.length = height * width) :
    build ar H leaf zero workers pt buff width height
      = some (layout ar H zero height fun i => leaf (row buff width i)) := by
  unfold build
  rw [if_neg (by omega)]
  rw [nNodes_eq ha H zero height (fun i => leaf (row buff width i)) (by omega),
    leafPass_eq leaf zero pt width hpt hwd height _ buff hb (by omega) (le_layout ha _ _ _ _), Option.bind_some]
  have := levels_eq ha H zero workers (by omega) height height le_rfl (by omega) (fun i => leaf (row buff width i)) []
  simpa using this

/-- with an empty buffer all leaves are the default node -/
theorem build_empty {ar : Nat} (ha : 2 ≤ ar) (H : List D → D) (leaf : List E → D) (zero : D) (workers pt : Nat)
    (hw : 0 < workers) (width height : Nat) (hh : 2 ≤ height) :
    build ar H leaf zero workers pt [] width height = some (layout ar H zero height fun _ => zero) := by
  unfold build
  rw [if_neg (by omega)]
  rw [nNodes_eq ha H zero height (fun _ => zero) (by omega)]
  simp only [leafPass, if_true, Option.bind_some]
  have := levels_eq ha H zero workers (by omega) height height le_rfl (by omega) (fun _ => zero) []
  have hl := le_layout ha H zero height (fun _ => zero)
  simp only [List.length_nil, List.nil_append, List.map_const', List.length_range, List.replicate_append_replicate] at this
  rw [show height + ((layout ar H zero height fun _ => zero).length - height)
    = (layout ar H zero height fun _ => zero).length by omega] at this
  exact this

/-- height one: the array is the leaf followed by `ar - 1` default nodes -/
theorem build_one {ar : Nat} (ha : 2 ≤ ar) (H : List D → D) (leaf : List E → D) (zero : D) (workers pt : Nat)
    (hw : 0 < workers) (hpt : 0 < pt) (buff : List E) (width : Nat) (hwd : 0 < width) (hb : buff.length = width) :
    build ar H leaf zero workers pt buff width 1 = some (leaf buff :: List.replicate (ar - 1) zero) := by
  unfold build
  rw [if_neg (by omega), nNodes_one,
    leafPass_eq leaf zero pt width hpt hwd 1 ar buff (by omega) (by omega) (by omega), Option.bind_some]
  simp only [levels, show ¬ (1 : Nat) > 1 by omega, if_false]
  have : row buff width 0 = buff := by simp [row, ← hb]
  simp [this]

end Verif.Tree
