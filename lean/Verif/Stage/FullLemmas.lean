import Verif.Stage.Frames
import Verif.Stage.Ext
import Verif.Stage.ExtMap

/-!
# The openings, the tables and the FRI polynomial on the buffers
-/
set_option linter.unusedSectionVars false

namespace Verif.Stage
open Codegen Codegen.Spec Verif.Stark FFT Fri
open Verif.GL (F)
open Verif.Ext3 (F3G K WF val ofF coord)
open Verif.Interp (Sec Info algF3)
open Verif.Map (secN sec2 Rel)

theorem lift3_dim (v : K) : (lift3 v).dim = 3 := rfl
theorem lift3_wf (v : K) : WF (lift3 v) := .inl rfl
theorem lift3_val (v : K) : val (lift3 v) = v := coords_spec v
theorem lift3_els (v : K) : Ext3.asElements (lift3 v) = encK.enc v := rfl
theorem lift3_rel (v : K) : Rel v (lift3 v) 3 := ⟨lift3_wf v, lift3_val v, le_refl _⟩

/-- an element of dimension 3 is determined by its value -/
theorem eq_lift3 {w : F3G} {v : K} (hd : w.dim = 3) (hv : val w = v) : w = lift3 v := by
  have : coord w.c0 w.c1 w.c2 = coord (coords v).1 (coords v).2.1 (coords v).2.2 := by rw [coords_spec]; exact hv
  obtain ⟨e0, e1, e2⟩ := Ext3.coord_inj this
  exact F3G.ext e0 e1 e2 hd

theorem toBes_ofF (l : List F) : toBes (l.map ofF) = some l := by
  unfold toBes
  induction l with
  | nil => rfl
  | cons a l ih =>
    rw [List.map_cons, List.mapM_cons, ih]
    rfl

theorem joinDim3l {a b : F3G} (ha : a.dim = 3) : Ext3.joinDim a b = 3 := by simp [Ext3.joinDim, ha]
theorem joinDim3r {a b : F3G} (hb : b.dim = 3) : Ext3.joinDim a b = 3 := by simp [Ext3.joinDim, hb]

/-! ### The openings -/

theorem mapM_list {α β : Type} {f : α → Option β} {g : α → β} : ∀ {l : List α}, (∀ a ∈ l, f a = some (g a)) → l.mapM f = some (l.map g)
  | [], _ => rfl
  | a :: l, h => by
    rw [List.mapM_cons, h a (by simp), mapM_list fun b hb => h b (by simp [hb])]
    rfl

/-- a sum of products -/
theorem sum_loop {n : Nat} (hn : 0 < n) {v : Nat → F3G} {d : Nat → K} {y : Nat → K} (hv : ∀ k < n, WF (v k) ∧ val (v k) = d k) :
    (List.range n).foldlM (fun acc k => (Ext3.mul (v k) (lift3 (y k))).bind fun vy => Ext3.add acc vy) Ext3.ZERO =
      some (lift3 (((List.range n).map fun k => d k * y k).foldl (· + ·) 0)) := by
  have key : ∀ m ≤ n, ∃ w, (List.range m).foldlM (fun acc k => (Ext3.mul (v k) (lift3 (y k))).bind fun vy => Ext3.add acc vy) Ext3.ZERO = some w ∧ WF w ∧
      val w = ((List.range m).map fun k => d k * y k).foldl (· + ·) 0 ∧ (0 < m → w.dim = 3) := by
    intro m
    induction m with
    | zero => exact fun _ => ⟨_, rfl, .inr ⟨rfl, rfl, rfl⟩, by simp [val, Ext3.ZERO, coord], by omega⟩
    | succ m ih =>
      intro hm
      obtain ⟨w, h1, h2, h3, -⟩ := ih (by omega)
      obtain ⟨r, g1, g2, g3, g4⟩ := Ext3.mul_spec (hv m (by omega)).1 (lift3_wf (y m))
      obtain ⟨s, k1, k2, k3, k4⟩ := Ext3.add_spec h2 g2
      refine ⟨s, ?_, k2, ?_, fun _ => ?_⟩
      · rw [List.range_succ, List.foldlM_append, h1]
        simp only [Option.bind_eq_bind, Option.bind_some, List.foldlM_cons, List.foldlM_nil, g1, k1, Option.pure_def]
      · rw [k4, h3, g4, (hv m (by omega)).2, lift3_val, List.range_succ, List.map_append, List.foldl_append]
        rfl
      · rw [k3, joinDim3r]
        rw [g3, joinDim3r (lift3_dim _)]
  obtain ⟨w, h1, h2, h3, h4⟩ := key n (le_refl _)
  rw [h1, eq_lift3 (h4 hn) h3]

/-- the reads of `evPol` -/
theorem foldlM_congr' {α β : Type} {f g : β → α → Option β} : ∀ {l : List α} {b : β}, (∀ a ∈ l, ∀ b, f b a = g b a) → l.foldlM f b = l.foldlM g b
  | [], _, _ => rfl
  | a :: l, b, h => by
    rw [List.foldlM_cons, List.foldlM_cons, h a (by simp) b]
    cases hg : g b a with
    | none => rfl
    | some b' => exact foldlM_congr' fun a' ha => h a' (by simp [ha])

/-- one opening of a column whose cells are in the buffer -/
theorem eval_col {buf : List F3G} {l : List F} {off w dim nb ext : Nat} (hbuf : buf = l.map ofF) (hl : l.length = w * 2 ^ (nb + ext)) (hd : dim = 1 ∨ dim = 3) (ho : off + dim ≤ w)
    {lv : List K} (hlv : lv.length = 2 ^ nb) :
    (List.range (2 ^ nb)).foldlM (fun acc k =>
      (if dim = 1 then buf[k * 2 ^ ext * w + off]? else Interp.vec3 algF3 buf (off + k * 2 ^ ext * w)).bind fun v =>
      ((lv.map lift3)[k]?).bind fun y => (Ext3.mul v y).bind fun vy => Ext3.add acc vy) Ext3.ZERO =
    some (lift3 (openEval lv (colVal (algebraMap F K) coord l off w dim) nb ext)) := by
  have hread : ∀ k < 2 ^ nb, ∃ x, (if dim = 1 then buf[k * 2 ^ ext * w + off]? else Interp.vec3 algF3 buf (off + k * 2 ^ ext * w)) = some x ∧
      WF x ∧ val x = colVal (algebraMap F K) coord l off w dim (k * 2 ^ ext) := by
    intro k hk
    have hk' : k * 2 ^ ext < 2 ^ (nb + ext) := by
      rw [Nat.pow_add]
      exact Nat.mul_lt_mul_of_pos_right hk (by positivity)
    obtain ⟨x, h1, h2⟩ := read_cells (sec := .cm1_2ns) (m := fun _ => buf) hl hk' hd ho hbuf
    refine ⟨x, ?_, h2.wf, h2.val⟩
    rw [← h1]
    unfold Interp.Spec.readCol Interp.Spec.cell
    dsimp only
    rcases hd with rfl | rfl
    · rfl
    · rw [if_neg (by decide), if_neg (by decide), if_pos rfl]
      unfold Interp.vec3
      rw [Nat.add_comm off, Nat.add_assoc, Nat.add_assoc]
      rw [hbuf]
      simp only [List.getElem?_map, Option.bind_eq_bind]
      cases l[k * 2 ^ ext * w + off]? with
      | none => rfl
      | some a =>
        cases l[k * 2 ^ ext * w + (off + 1)]? with
        | none => rfl
        | some b =>
          cases l[k * 2 ^ ext * w + (off + 2)]? with
          | none => rfl
          | some d => rfl
  haveI : Nonempty F3G := ⟨Ext3.ZERO⟩
  choose! v hv1 hv2 using hread
  rw [foldlM_congr' (g := fun acc k => (Ext3.mul (v k) (lift3 (lv.getD k 0))).bind fun vy => Ext3.add acc vy)]
  · rw [sum_loop (by positivity) fun k hk => hv2 k hk]
    rfl
  · intro k hk b
    have hk := List.mem_range.mp hk
    rw [hv1 k hk, Option.bind_some, List.getElem?_map, List.getElem?_eq_getElem (by omega), Option.map_some, Option.bind_some, List.getD_eq_getElem?_getD,
      List.getElem?_eq_getElem (by omega)]
    rfl

theorem lev_length {x : K} {nb : Nat} (h : nb ≤ 31) {l : List K} (hl : lev mgK shiftK x nb = some l) : l.length = 2 ^ nb := by
  obtain ⟨p1, -⟩ := powList_spec (x / shiftK) (2 ^ nb) (1 : K)
  obtain ⟨l', r, h1, h2, -⟩ := ifft_formula (rootsK (bits := nb) (by omega)) (by omega) (fun _ => []) (powList (x / shiftK) (2 ^ nb) 1) p1
  unfold lev at hl
  rw [h1] at hl
  obtain rfl := Option.some.inj hl
  exact h2.trans p1

/-! ### The tables -/

theorem backLoop_dims : ∀ (ps : List (F3G × F3G)) (z : F3G), WF z → z.dim = 3 → (∀ p ∈ ps, WF p.1 ∧ WF p.2) → ∀ r, backLoop z ps = some r → r.2.dim = 3 ∧ ∀ x ∈ r.1, x.dim = 3
  | [], z, _, hd, _, r, h => by
    obtain rfl := Option.some.inj h
    exact ⟨hd, by simp⟩
  | (e, t) :: ps, z, hz, hd, hp, r, h => by
    obtain ⟨he, ht⟩ := hp (e, t) (by simp)
    obtain ⟨r1, h1, h2, h3, -⟩ := Ext3.mul_spec hz ht
    obtain ⟨z', k1, k2, k3, -⟩ := Ext3.mul_spec hz he
    unfold backLoop at h
    rw [h1, Option.bind_some, k1, Option.bind_some] at h
    obtain ⟨q, g1, rfl⟩ := Option.map_eq_some_iff.mp h
    obtain ⟨j1, j2⟩ := backLoop_dims ps z' k2 (by rw [k3, joinDim3l hd]) (fun p hp' => hp p (by simp [hp'])) q g1
    refine ⟨j1, fun x hx => ?_⟩
    rcases List.mem_cons.mp hx with rfl | hx
    · rw [h3, joinDim3l hd]
    · exact j2 x hx

theorem prefixProds_dims : ∀ (es : List F3G) (acc : F3G), WF acc → acc.dim = 3 → AllWF es → ∀ ts, prefixProds acc es = some ts → ∀ x ∈ ts, x.dim = 3
  | [], acc, _, _, _, ts, h => by
    obtain rfl := Option.some.inj h
    simp
  | e :: es, acc, ha, hd, he, ts, h => by
    obtain ⟨t, h1, h2, h3, -⟩ := Ext3.mul_spec (he e (by simp)) ha
    unfold prefixProds at h
    rw [h1, Option.bind_some] at h
    obtain ⟨q, g1, rfl⟩ := Option.map_eq_some_iff.mp h
    intro x hx
    rcases List.mem_cons.mp hx with rfl | hx
    · rw [h3, joinDim3r hd]
    · exact prefixProds_dims es t h2 (by rw [h3, joinDim3r hd]) (fun x hx => he x (by simp [hx])) q g1 x hx

/-- `batch_inverse` keeps the dimension 3 -/
theorem batchInverse_dims {l r : List F3G} (hl : AllWF l) (hd : ∀ x ∈ l, x.dim = 3) (h : batchInverse l = some r) : ∀ x ∈ r, x.dim = 3 := by
  cases l with
  | nil =>
    obtain rfl := Option.some.inj h
    simp
  | cons e0 es =>
    have h0 := hl e0 (by simp)
    have hes : AllWF es := fun x hx => hl x (by simp [hx])
    unfold batchInverse at h
    obtain ⟨ts, h1, h⟩ := Option.bind_eq_some_iff.mp h
    obtain ⟨z, h2, h⟩ := Option.bind_eq_some_iff.mp h
    obtain ⟨q, h3, rfl⟩ := Option.map_eq_some_iff.mp h
    obtain ⟨ts', t1, t2, -⟩ := prefixProds_spec es e0 h0 hes
    obtain rfl := Option.some.inj (h1.symm.trans t1)
    have ht : AllWF (e0 :: ts) := by
      intro x hx
      rcases List.mem_cons.mp hx with rfl | hx
      · exact h0
      · exact t2 x hx
    have htd : ∀ x ∈ e0 :: ts, x.dim = 3 := by
      intro x hx
      rcases List.mem_cons.mp hx with rfl | hx
      · exact hd _ (by simp)
      · exact prefixProds_dims es e0 h0 (hd _ (by simp)) hes ts h1 x hx
    obtain ⟨z', i1, i2, i3, -⟩ := Ext3.inv_spec (ht ((e0 :: ts).getLast (by simp)) (List.getLast_mem _))
    obtain rfl := Option.some.inj (h2.symm.trans i1)
    obtain ⟨j1, j2⟩ := backLoop_dims _ z i2 (i3.trans (htd _ (List.getLast_mem _))) (fun p hp => zip_mem hes ht p (List.mem_reverse.mp hp)) q h3
    intro x hx
    rcases List.mem_cons.mp hx with rfl | hx
    · exact j1
    · exact j2 x (List.mem_reverse.mp hx)

/-- the table `x / (x - a)` -/
theorem xDivTab_spec (R : Run) {a : F3G} (ha : WF a) (hd : a.dim = 3) : xDivTab (R.nb + R.ext) a = some ((xDivs R (val a)).flatMap encK.enc) := by
  have hsub : ∀ x ∈ (List.range (2 ^ (R.nb + R.ext))).map (fun k => ofF (Roots.shift * Roots.mg (R.nb + R.ext) ^ k)), Ext3.sub x a = some (lift3 (val x - val a)) := by
    intro x hx
    obtain ⟨k, -, rfl⟩ := List.mem_map.mp hx
    obtain ⟨r, h1, h2, h3, h4⟩ := Ext3.sub_spec (a := ofF (Roots.shift * Roots.mg (R.nb + R.ext) ^ k)) (.inr ⟨rfl, rfl, rfl⟩) ha
    rw [h1, eq_lift3 (h3.trans (joinDim3r hd)) h4]
  have hxs : ((List.range (2 ^ (R.nb + R.ext))).map (fun k => ofF (Roots.shift * Roots.mg (R.nb + R.ext) ^ k))).map val = (List.range (2 ^ (R.nb + R.ext))).map (xExt R) := by
    rw [List.map_map]
    refine List.map_congr_left fun k _ => ?_
    rw [Function.comp, val_base, map_mul, map_pow]
    rfl
  unfold xDivTab
  dsimp only
  rw [mapM_list hsub, Option.bind_some]
  generalize hX : (List.range (2 ^ (R.nb + R.ext))).map (fun k => ofF (Roots.shift * Roots.mg (R.nb + R.ext) ^ k)) = xs at hxs hsub
  have hxw : ∀ x ∈ xs, WF x := by
    intro x hx
    rw [← hX] at hx
    obtain ⟨k, -, rfl⟩ := List.mem_map.mp hx
    exact .inr ⟨rfl, rfl, rfl⟩
  have hw : AllWF (xs.map fun x => lift3 (val x - val a)) := by
    intro x hx
    obtain ⟨y, -, rfl⟩ := List.mem_map.mp hx
    exact lift3_wf _
  obtain ⟨is, b1, b2, b3⟩ := batchInverse_refines _ hw
  have bd := batchInverse_dims hw (fun x hx => by obtain ⟨y, -, rfl⟩ := List.mem_map.mp hx; rfl) b1
  rw [b1, Option.bind_some]
  have hpair : ∀ p ∈ is.zip xs, ((Ext3.mul p.1 p.2).bind three) = some (encK.enc (val p.1 * val p.2)) := by
    rintro ⟨i, x⟩ hp
    obtain ⟨hi, hx⟩ := List.of_mem_zip hp
    obtain ⟨r, h1, h2, h3, h4⟩ := Ext3.mul_spec (b2 i hi) (hxw x hx)
    dsimp only
    rw [h1, eq_lift3 (h3.trans (joinDim3l (bd i hi))) h4]
    rfl
  rw [mapM_list hpair, Option.map_some]
  congr 1
  unfold xDivs
  dsimp only
  rw [List.flatMap_def]
  congr 1
  rw [← hxs]
  have hb : FFT.batchInverse ((xs.map val).map fun x => x - val a) = is.map val := by
    rw [b3, List.map_map, List.map_map]
    congr 1
    exact List.map_congr_left fun x _ => (lift3_val _).symm
  rw [hb]
  rw [List.zipWith_map, List.map_zipWith, List.zip, List.map_zipWith]

/-- the FRI polynomial -/
theorem friPolBuf_spec {c : Ctx} {n : Nat} (hn : c.nbitsExt = n) {pol : List K} (hl : pol.length = 2 ^ n)
    (hm : c.mem .f_2ns = (List.range (2 ^ n * 3)).map (fun x => ofF ((encK.enc (pol.getD (x / 3) 0)).getD (x % 3) 0))) : friPolBuf c = some pol := by
  unfold friPolBuf
  rw [hn, hm]
  have hget : ∀ i < 2 ^ n, ∀ j < 3, ((List.range (2 ^ n * 3)).map (fun x => ofF ((encK.enc (pol.getD (x / 3) 0)).getD (x % 3) 0)))[i * 3 + j]? =
      some (ofF ((encK.enc (pol.getD i 0)).getD j 0)) := by
    intro i hi j hj
    rw [List.getElem?_map, List.getElem?_range (by omega), Option.map_some]
    rw [show (i * 3 + j) / 3 = i by omega, show (i * 3 + j) % 3 = j by omega]
  rw [mapM_list (g := fun i => pol.getD i 0)]
  · congr 1
    refine List.ext_getElem (by simp [hl]) fun i h1 h2 => ?_
    rw [List.getElem_map, List.getElem_range, List.getD_eq_getElem?_getD, List.getElem?_eq_getElem h2]
    rfl
  · intro i hi
    have hi := List.mem_range.mp hi
    unfold Interp.vec3
    have h0 := hget i hi 0 (by omega)
    rw [Nat.add_zero] at h0
    rw [h0, hget i hi 1 (by omega), hget i hi 2 (by omega)]
    show some (val _) = _
    congr 1
    exact coords_spec _

end Verif.Stage
