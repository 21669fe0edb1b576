import Verif.Stark.H1H2
import Verif.Stark.Zh
import Verif.F3G.Props

/-!
# `batch_inverse`, `calculate_Z` and `calculate_H1H2` on the tagged elements of the prover

`Verif.Stark` states these functions over a field.  The prover runs them on `F3G` values, whose operators look at the dimension tag and
panic on unexpected tags, and `calculate_H1H2` compares values with the derived equality, which sees the tag.  `none` is a panic.
-/
namespace Verif.Stage
open Verif.GL (F)
open Verif.Ext3 (F3G K WF val)

/-! ### Model -/

/-- polutils.rs L40-43: the running products `tmp[i] = elems[i] * tmp[i - 1]` -/
def prefixProds : F3G → List F3G → Option (List F3G)
  | _, [] => some []
  | acc, e :: es => (Ext3.mul e acc).bind fun t => (prefixProds t es).map fun ts => t :: ts

/-- polutils.rs L46-49: the backward loop on the pairs `(elems[i], tmp[i - 1])`, `i = len - 1 .. 1` -/
def backLoop : F3G → List (F3G × F3G) → Option (List F3G × F3G)
  | z, [] => some ([], z)
  | z, (e, t) :: rest => (Ext3.mul z t).bind fun r => (Ext3.mul z e).bind fun z' => (backLoop z' rest).map fun p => (r :: p.1, p.2)

/-- `batch_inverse`, polutils.rs L35-52 -/
def batchInverse : List F3G → Option (List F3G)
  | [] => some []
  | e0 :: es =>
    (prefixProds e0 es).bind fun ts =>
    (Ext3.inv ((e0 :: ts).getLast (by simp))).bind fun z =>
    (backLoop z (es.zip (e0 :: ts)).reverse).map fun p => p.2 :: p.1.reverse

/-- stark_gen.rs L659-663: the remaining pairs `(num, den_inv)` and the current `z`; the list of `z[i]` from the current one on and `check_val` -/
def zLoop : List (F3G × F3G) → F3G → Option (List F3G × F3G)
  | [], z => some ([], z)
  | (n, d) :: rest, z => (Ext3.mul n d).bind fun nd => (Ext3.mul z nd).bind fun z' => (zLoop rest z').map fun p => (z :: p.1, p.2)

/-- `calculate_Z`, stark_gen.rs L653-666: `check_val._eq(&F::one())`; an empty input panics at `z[0]` -/
def calculateZ (num den : List F3G) : Option (List F3G) :=
  if num.length ≠ den.length then none
  else if num.length = 0 then none
  else (batchInverse den).bind fun di => (zLoop (num.zip di) Ext3.ONE).bind fun p => if Ext3.eq' p.2 Ext3.ONES then some p.1 else none

/-- `calculate_H1H2`, stark_gen.rs L622-651: the map and the comparison use the derived equality of `F3G` -/
def calculateH1H2 (f t : List F3G) : Option (List F3G × List F3G) := Stark.h1h2 f t

/-! ### Refinement -/

/-- all elements are values that the API constructs -/
def AllWF (l : List F3G) : Prop := ∀ x ∈ l, WF x

theorem mul_val {a b : F3G} (ha : WF a) (hb : WF b) : ∃ r, Ext3.mul a b = some r ∧ WF r ∧ val r = val a * val b := by
  obtain ⟨r, h1, h2, -, h3⟩ := Ext3.mul_spec ha hb
  exact ⟨r, h1, h2, h3⟩

theorem inv_val {a : F3G} (ha : WF a) : ∃ r, Ext3.inv a = some r ∧ WF r ∧ val r = (val a)⁻¹ := by
  obtain ⟨r, h1, h2, -, h3, h4⟩ := Ext3.inv_spec ha
  refine ⟨r, h1, h2, ?_⟩
  by_cases h : val a = 0
  · rw [h4 h, h, inv_zero]
  · exact eq_inv_of_mul_eq_one_right (h3 h)

theorem prefixProds_spec : ∀ (es : List F3G) (acc : F3G), WF acc → AllWF es →
    ∃ ts, prefixProds acc es = some ts ∧ AllWF ts ∧ ts.map val = FFT.prefixProds (val acc) (es.map val)
  | [], acc, _, _ => ⟨[], rfl, by simp [AllWF], rfl⟩
  | e :: es, acc, ha, he => by
    obtain ⟨t, h1, h2, h3⟩ := mul_val (he e (by simp)) ha
    obtain ⟨ts, g1, g2, g3⟩ := prefixProds_spec es t h2 fun x hx => he x (by simp [hx])
    refine ⟨t :: ts, by simp only [prefixProds, h1, g1, Option.bind_some, Option.map_some], ?_, ?_⟩
    · intro x hx
      rcases List.mem_cons.mp hx with rfl | hx
      · exact h2
      · exact g2 x hx
    · simp only [List.map_cons, FFT.prefixProds, g3, h3]

theorem backLoop_spec : ∀ (ps : List (F3G × F3G)) (z : F3G), WF z → (∀ p ∈ ps, WF p.1 ∧ WF p.2) →
    ∃ r, backLoop z ps = some r ∧ AllWF r.1 ∧ WF r.2 ∧
      (r.1.map val, val r.2) = FFT.backLoop (val z) (ps.map fun p => (val p.1, val p.2))
  | [], z, hz, _ => ⟨([], z), rfl, by simp [AllWF], hz, rfl⟩
  | (e, t) :: ps, z, hz, hp => by
    obtain ⟨he, ht⟩ := hp (e, t) (by simp)
    obtain ⟨r, h1, h2, h3⟩ := mul_val hz ht
    obtain ⟨z', k1, k2, k3⟩ := mul_val hz he
    obtain ⟨q, g1, g2, g3, g4⟩ := backLoop_spec ps z' k2 fun p hp' => hp p (by simp [hp'])
    refine ⟨(r :: q.1, q.2), by simp only [backLoop, h1, k1, g1, Option.bind_some, Option.map_some], ?_, g3, ?_⟩
    · intro x hx
      rcases List.mem_cons.mp hx with rfl | hx
      · exact h2
      · exact g2 x hx
    · simp only [List.map_cons, FFT.backLoop]
      rw [← k3, ← g4]
      simp only [h3]

theorem zip_mem {l : List F3G} {m : List F3G} (hl : AllWF l) (hm : AllWF m) : ∀ p ∈ l.zip m, WF p.1 ∧ WF p.2 := by
  rintro ⟨a, b⟩ h
  have := List.of_mem_zip h
  exact ⟨hl a this.1, hm b this.2⟩

theorem map_zip (l m : List F3G) : (l.zip m).map (fun p => (val p.1, val p.2)) = (l.map val).zip (m.map val) := by
  rw [List.zip_map]
  rfl

/-- **`batch_inverse` on well-formed elements never panics and computes the batch inversion of their values** -/
theorem batchInverse_refines (l : List F3G) (hl : AllWF l) :
    ∃ r, batchInverse l = some r ∧ AllWF r ∧ r.map val = FFT.batchInverse (l.map val) := by
  cases l with
  | nil => exact ⟨[], rfl, by simp [AllWF], rfl⟩
  | cons e0 es =>
    have h0 := hl e0 (by simp)
    have hes : AllWF es := fun x hx => hl x (by simp [hx])
    obtain ⟨ts, h1, h2, h3⟩ := prefixProds_spec es e0 h0 hes
    have ht : AllWF (e0 :: ts) := by
      intro x hx
      rcases List.mem_cons.mp hx with rfl | hx
      · exact h0
      · exact h2 x hx
    obtain ⟨z, k1, k2, k3⟩ := inv_val (ht ((e0 :: ts).getLast (by simp)) (List.getLast_mem _))
    obtain ⟨q, g1, g2, g3, g4⟩ := backLoop_spec (es.zip (e0 :: ts)).reverse z k2 fun p hp => zip_mem hes ht p (List.mem_reverse.mp hp)
    refine ⟨q.2 :: q.1.reverse, by simp only [batchInverse, h1, k1, g1, Option.bind_some, Option.map_some], ?_, ?_⟩
    · intro x hx
      rcases List.mem_cons.mp hx with rfl | hx
      · exact g3
      · exact g2 x (List.mem_reverse.mp hx)
    · have e1 : ((val e0 :: FFT.prefixProds (val e0) (es.map val)).getLast?.getD 0) = val ((e0 :: ts).getLast (by simp)) := by
        rw [← h3, ← List.map_cons, List.getLast?_map, List.getLast?_eq_some_getLast (by simp)]
        rfl
      have e2 : (((es.map val).zip (val e0 :: FFT.prefixProds (val e0) (es.map val))).reverse) = (es.zip (e0 :: ts)).reverse.map fun p => (val p.1, val p.2) := by
        rw [List.map_reverse, map_zip, List.map_cons, h3]
      simp only [List.map_cons, FFT.batchInverse]
      rw [e1, e2, ← k3, ← g4]
      simp only [List.map_reverse]

theorem zLoop_spec : ∀ (ps : List (F3G × F3G)) (z : F3G), WF z → (∀ p ∈ ps, WF p.1 ∧ WF p.2) →
    ∃ r, zLoop ps z = some r ∧ AllWF r.1 ∧ WF r.2 ∧ (r.1.map val, val r.2) = Stark.zLoop (ps.map fun p => (val p.1, val p.2)) (val z)
  | [], z, hz, _ => ⟨([], z), rfl, by simp [AllWF], hz, rfl⟩
  | (n, d) :: ps, z, hz, hp => by
    obtain ⟨hn, hd⟩ := hp (n, d) (by simp)
    obtain ⟨nd, h1, h2, h3⟩ := mul_val hn hd
    obtain ⟨z', k1, k2, k3⟩ := mul_val hz h2
    obtain ⟨q, g1, g2, g3, g4⟩ := zLoop_spec ps z' k2 fun p hp' => hp p (by simp [hp'])
    refine ⟨(z :: q.1, q.2), by simp only [zLoop, h1, k1, g1, Option.bind_some, Option.map_some], ?_, g3, ?_⟩
    · intro x hx
      rcases List.mem_cons.mp hx with rfl | hx
      · exact hz
      · exact g2 x hx
    · simp only [List.map_cons, Stark.zLoop]
      rw [← h3, ← k3, ← g4]

/-- **`calculate_Z` on well-formed elements, whatever their tags, computes the grand product of their values and panics on exactly the same inputs** -/
theorem calculateZ_refines [DecidableEq K] (num den : List F3G) (hn : AllWF num) (hd : AllWF den) :
    (calculateZ num den).map (List.map val) = Stark.calculateZ (num.map val) (den.map val) ∧ ∀ z, calculateZ num den = some z → AllWF z := by
  obtain ⟨di, h1, h2, h3⟩ := batchInverse_refines den hd
  obtain ⟨q, g1, g2, g3, g4⟩ := zLoop_spec (num.zip di) Ext3.ONE (Ext3.const_spec 0).2.2.2.2.2.2.2.1 (zip_mem hn h2)
  have h1' : val Ext3.ONE = 1 := (Ext3.const_spec 0).2.2.1
  rw [map_zip, h3, h1'] at g4
  unfold calculateZ Stark.calculateZ
  simp only [List.length_map]
  by_cases hl : num.length ≠ den.length
  · rw [if_pos hl, if_pos hl]; simp
  rw [if_neg hl, if_neg hl]
  by_cases h0 : num.length = 0
  · rw [if_pos h0, if_pos h0]; simp
  rw [if_neg h0, if_neg h0, h1]
  simp only [Option.bind_some, g1]
  rw [← g4]
  have he : Ext3.eq' q.2 Ext3.ONES = true ↔ val q.2 = 1 := by
    rw [Ext3.eq_spec g3 (Ext3.const_spec 0).2.2.2.2.2.2.2.2.2, (Ext3.const_spec 0).2.2.2.2.1]
  by_cases hq : val q.2 = 1
  · rw [if_pos (he.mpr hq)]
    dsimp only
    rw [if_pos hq]
    exact ⟨rfl, fun z hz => by obtain rfl := Option.some.inj hz; exact g2⟩
  · rw [if_neg (fun h => hq (he.mp h))]
    dsimp only
    rw [if_neg hq]
    simp

/-! ### `calculate_H1H2` -/

section
variable {E E' : Type} [DecidableEq E] [DecidableEq E']

omit [DecidableEq E] [DecidableEq E'] in
theorem map_drop_not {g : E → E'} {t : List E} {e : E} {P : E → Prop} (hP : ∀ x ∈ t, P x) (he : P e) (hinj : ∀ x y, P x → P y → g x = g y → x = y) (n : Nat) :
    g e ∉ (t.map g).drop n ↔ e ∉ t.drop n := by
  rw [← List.map_drop, List.mem_map, not_iff_not]
  constructor
  · rintro ⟨x, hx, h⟩
    have := hinj x e (hP x (List.mem_of_mem_drop hx)) he h
    rwa [← this]
  · exact fun h => ⟨e, h, rfl⟩

theorem idxT_map {g : E → E'} {t : List E} {e : E} {P : E → Prop} (hP : ∀ x ∈ t, P x) (he : P e) (hinj : ∀ x y, P x → P y → g x = g y → x = y) :
    Stark.idxT (t.map g) (g e) = Stark.idxT t e := by
  apply Option.ext
  intro i
  rw [Stark.idxT_spec, Stark.idxT_spec, map_drop_not hP he hinj, List.getElem?_map]
  refine and_congr_left fun _ => ?_
  constructor
  · intro h
    obtain ⟨x, hx, h⟩ := Option.map_eq_some_iff.mp h
    rw [hx, hinj x e (hP x (List.mem_of_getElem? hx)) he h]
  · intro h
    rw [h]; rfl

theorem mapM_map' {α β γ : Type} (f : β → Option γ) (g : α → β) : ∀ l : List α, (l.map g).mapM f = l.mapM fun a => f (g a)
  | [] => rfl
  | a :: l => by rw [List.map_cons, List.mapM_cons, List.mapM_cons, mapM_map' f g l]

theorem mapM_congr' {α β : Type} {f f' : α → Option β} : ∀ {l : List α}, (∀ a ∈ l, f a = f' a) → l.mapM f = l.mapM f'
  | [], _ => rfl
  | a :: l, h => by rw [List.mapM_cons, List.mapM_cons, h a (by simp), mapM_congr' fun b hb => h b (by simp [hb])]

theorem mapM_post {α β γ : Type} (f : α → Option β) (g : β → γ) : ∀ l : List α, (l.mapM fun a => (f a).map g) = (l.mapM f).map (List.map g)
  | [] => rfl
  | a :: l => by
    rw [List.mapM_cons, List.mapM_cons, mapM_post f g l]
    cases f a <;> simp
    cases l.mapM f <;> simp

/-- `calculate_H1H2` commutes with every map that is injective on the values involved -/
theorem h1h2_map {g : E → E'} {f t : List E} {P : E → Prop} (hf : ∀ x ∈ f, P x) (ht : ∀ x ∈ t, P x) (hinj : ∀ x y, P x → P y → g x = g y → x = y) :
    Stark.h1h2 (f.map g) (t.map g) = (Stark.h1h2 f t).map fun h => (h.1.map g, h.2.map g) := by
  unfold Stark.h1h2
  have e1 : ((f.map g).mapM fun e => (Stark.idxT (t.map g) e).map fun i => (e, i)) =
      (f.mapM fun e => (Stark.idxT t e).map fun i => (e, i)).map (List.map fun p => (g p.1, p.2)) := by
    rw [mapM_map', ← mapM_post]
    refine mapM_congr' fun a ha => ?_
    rw [idxT_map ht (hf a ha) hinj, Option.map_map]
    rfl
  rw [e1]
  cases hfs : (f.mapM fun e => (Stark.idxT t e).map fun i => (e, i)) with
  | none => rfl
  | some fs =>
    simp only [Option.map_some, Option.bind_some, List.length_map]
    have e2 : (t.map g).zipIdx ++ fs.map (fun p => (g p.1, p.2)) = (t.zipIdx ++ fs).map fun p => (g p.1, p.2) := by
      rw [List.map_append, List.zipIdx_map]
      rfl
    have e3 : ((t.zipIdx ++ fs).map fun p : E × Nat => (g p.1, p.2)).mergeSort (fun a b => decide (a.2 ≤ b.2)) =
        ((t.zipIdx ++ fs).mergeSort fun a b => decide (a.2 ≤ b.2)).map fun p => (g p.1, p.2) := by
      rw [List.map_mergeSort]
      intro a _ b _
      rfl
    rw [e2, e3]
    generalize ((t.zipIdx ++ fs).mergeSort fun a b => decide (a.2 ≤ b.2)) = s
    have e4 : ((List.range f.length).mapM fun i => ((s.map fun p : E × Nat => (g p.1, p.2))[2 * i]?).bind fun a =>
        ((s.map fun p : E × Nat => (g p.1, p.2))[2 * i + 1]?).map fun b => (a.1, b.1)) =
        ((List.range f.length).mapM fun i => (s[2 * i]?).bind fun a => (s[2 * i + 1]?).map fun b => (a.1, b.1)).map (List.map fun p => (g p.1, g p.2)) := by
      rw [← mapM_post]
      refine mapM_congr' fun i _ => ?_
      rw [List.getElem?_map, List.getElem?_map]
      cases s[2 * i]? <;> cases s[2 * i + 1]? <;> rfl
    rw [e4]
    cases ((List.range f.length).mapM fun i => (s[2 * i]?).bind fun a => (s[2 * i + 1]?).map fun b => (a.1, b.1)) with
    | none => rfl
    | some l => simp [List.unzip_eq_map, Function.comp_def]

end

/-- **`calculate_H1H2` on two columns with the same tag computes the sorted split of their values and panics on exactly the same inputs** -/
theorem calculateH1H2_refines [DecidableEq K] (f t : List F3G) (d : Nat) (hf : ∀ x ∈ f, x.dim = d) (ht : ∀ x ∈ t, x.dim = d) :
    (calculateH1H2 f t).map (fun h => (h.1.map val, h.2.map val)) = Stark.h1h2 (f.map val) (t.map val) := by
  have := h1h2_map (g := val) (P := fun x => x.dim = d) hf ht fun x y hx hy h => Ext3.val_inj (hx.trans hy.symm) h
  exact this.symm

/-- **With different tags it panics, even when every value of `f` occurs in `t`.** -/
theorem calculateH1H2_tags (f t : List F3G) (hne : f ≠ []) (hf : ∀ x ∈ f, x.dim = 1) (ht : ∀ x ∈ t, x.dim = 3) : calculateH1H2 f t = none := by
  cases f with
  | nil => exact absurd rfl hne
  | cons e f =>
    unfold calculateH1H2
    have := Stark.h1h2_missing (e :: f) t e (by simp) fun h => by
      have h1 := hf e (by simp)
      have h2 := ht e h
      omega
    exact this

/-- concrete: mixed tags are accepted by the grand product, equal tags by the lookup, and a lookup with different tags panics although the value is there -/
example : (AllWF [Ext3.ONE, Ext3.ONES] ∧ AllWF [Ext3.ONES, Ext3.ONE]) ∧ calculateZ [Ext3.ONE, Ext3.ONES] [Ext3.ONES, Ext3.ONE] = some [Ext3.ONE, Ext3.ONES] ∧
    (∃ h1 h2, calculateH1H2 [Ext3.ONE, Ext3.ONE] [Ext3.ZERO, Ext3.ONE] = some (h1, h2) ∧
      Stark.interleave h1 h2 = [Ext3.ZERO, Ext3.ONE, Ext3.ONE, Ext3.ONE]) ∧
    calculateH1H2 [Ext3.ONE] [Ext3.ONES] = none ∧ val Ext3.ONE = val Ext3.ONES := by
  refine ⟨⟨?_, ?_⟩, ?_, ?_, ?_, rfl⟩
  · intro x hx; simp at hx; rcases hx with rfl | rfl <;> decide
  · intro x hx; simp at hx; rcases hx with rfl | rfl <;> decide
  · decide +kernel
  · obtain ⟨h1, h2, e, _, _, h⟩ := Stark.h1h2_spec [Ext3.ONE, Ext3.ONE] [Ext3.ZERO, Ext3.ONE] rfl (by decide)
    exact ⟨h1, h2, e, by rw [h]; decide⟩
  · exact calculateH1H2_tags _ _ (by simp) (by simp [Ext3.ONE]) (by simp [Ext3.ONES])

end Verif.Stage
