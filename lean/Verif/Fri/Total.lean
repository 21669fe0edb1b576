import Verif.Fri.Props
set_option linter.unusedSectionVars false

namespace Verif.Fri
open FFT Finset Polynomial

variable {G A Root Path Tree T : Type} [Field A] [DecidableEq A]

/-- the transcript never fails on states satisfying `I`, which it preserves -/
structure Tr.Total (tr : Tr G A T) (I : T → Prop) : Prop where
  getField : ∀ t, I t → ∃ x t', tr.getField t = some (x, t') ∧ I t'
  put : ∀ es t, I t → ∃ t', tr.put es t = some t' ∧ I t'
  perms : ∀ n nb t, I t → 0 < n * nb → n * nb < 2 ^ 64 → nb ≤ 64 → ∃ ys t', tr.perms n nb t = some (ys, t') ∧ I t'

/-- trees of the sizes `Good` can be built and opened everywhere -/
structure MT.Total (mt : MT G Root Path Tree) (Good : Nat → Nat → Prop) : Prop where
  build : ∀ buff w h, Good w h → buff.length = w * h → ∃ tree, mt.merkelize buff w h = some tree ∧
    ∀ idx < h, ∃ r, mt.groupProof tree idx = some r

/-- what an out record needs for its layer to be opened -/
def OpenOk (mt : MT G Root Path Tree) : List Nat → List (StepOut A Tree) → Prop
  | [], _ => True
  | nb :: rest, o :: outs => (∃ tree, o.tree = some tree ∧ ∀ idx < 2 ^ nb, ∃ r, mt.groupProof tree idx = some r) ∧ OpenOk mt rest outs
  | _ :: _, [] => False

theorem proveLoop_total {mt : MT G Root Path Tree} {Good : Nat → Nat → Prop} (hM : mt.Total Good) {tr : Tr G A T} {I : T → Prop}
    (hT : tr.Total I) (hTo : tr.Ok) {E : Enc G A} (hE : EncOk E) {mg : Nat → A} (h2 : (2 : A) ≠ 0) (steps : List Nat) :
    ∀ (first : Bool) (pol : List A) (polBits : Nat) (shift : A) (t : T), Decreasing polBits steps → GoodSteps Good steps →
      polBits < 32 → Roots mg polBits → (first = true → steps.head? = some polBits) → pol.length = 2 ^ polBits → I t →
      ∃ outs t', proveLoop mt tr E mg first steps pol polBits shift⁻¹ t = some (outs, t') ∧ I t' ∧ OpenOk mt steps.tail outs := by
  induction steps with
  | nil => intro first pol polBits shift t _ _ _ _ _ _ hI; exact ⟨[], t, rfl, hI, trivial⟩
  | cons nb rest ih =>
    intro first pol polBits shift t hdec hgood hpb hw hfirst hp hI
    obtain ⟨x, t1, hx, hI1⟩ := hT.getField t hI
    have hnb := hdec.1
    have hlay : ∃ l, layer mg first pol polBits nb shift⁻¹ x = some l := by
      cases first with
      | false => obtain ⟨l, h, _⟩ := layer_eq hw hpb hnb pol hp shift x; exact ⟨l, h⟩
      | true =>
        have : nb = polBits := by simpa using hfirst rfl
        subst this
        exact ⟨pol, layer_first pol hp _ _⟩
    obtain ⟨l, hl⟩ := hlay
    have hl2 := (layer_value hw hpb h2 hnb first (fun h => by simpa using hfirst h) pol l hp shift x hl).1
    cases rest with
    | nil =>
      obtain ⟨t2, hp2, hI2⟩ := hT.put ((l.map fun e => (E.enc e).map fun g => [g]).flatten) t1 hI1
      rw [← putLast_eq hTo] at hp2
      refine ⟨[⟨x, l, none⟩], t2, ?_, hI2, trivial⟩
      rw [proveLoop, if_neg (by omega), hx]
      simp only [Option.bind_some, hl, hp2, proveLoop, Option.map_some]
    | cons nb' rest =>
      obtain ⟨tree, hm, hopen⟩ := hM.build (transposed E l nb') (3 * (2 ^ nb / 2 ^ nb')) (2 ^ nb') hgood.1
        (by rw [transposed_length hE, hl2])
      obtain ⟨t2, hp2, hI2⟩ := hT.put [mt.rootElems (mt.root tree)] t1 hI1
      obtain ⟨outs, t3, h3, hI3, hO⟩ := ih false l nb (sqN (polBits - nb) shift) t2 hdec.2 hgood.2 (by omega) (Roots.mono hw hnb)
        (by simp) hl2 hI2
      refine ⟨⟨x, l, some tree⟩ :: outs, t3, ?_, hI3, ⟨tree, rfl, hopen⟩, hO⟩
      rw [proveLoop, if_neg (by omega), hx]
      simp only [Option.bind_some, hl, hm, hp2]
      rw [sqN_inv, h3]
      rfl

theorem mapM_total {α β : Type} (f : α → Option β) (l : List α) (h : ∀ a ∈ l, ∃ b, f a = some b) : ∃ r, l.mapM f = some r := by
  induction l with
  | nil => exact ⟨[], rfl⟩
  | cons a l ih =>
    obtain ⟨b, hb⟩ := h a (by simp)
    obtain ⟨r, hr⟩ := ih (fun x hx => h x (by simp [hx]))
    exact ⟨b :: r, by rw [List.mapM_cons, hb, hr]; rfl⟩

theorem openLoop_total {mt : MT G Root Path Tree} (steps : List Nat) : ∀ (outs : List (StepOut A Tree)) (ys : List Nat),
    OpenOk mt steps outs → ∃ qs, openLoop mt steps outs ys = some qs := by
  induction steps with
  | nil => intro outs ys _; exact ⟨[], by rw [openLoop]⟩
  | cons nb rest ih =>
    intro outs ys h
    match outs, h with
    | o :: outs, h =>
      obtain ⟨⟨tree, ht, hop⟩, h⟩ := h
      obtain ⟨qs, hq⟩ := ih outs (ys.map (· % 2 ^ nb)) h
      obtain ⟨r, hr⟩ := mapM_total (fun y => (mt.groupProof tree y).map fun r => [r]) (ys.map (· % 2 ^ nb)) (by
        intro y hy
        obtain ⟨a, _, rfl⟩ := List.mem_map.mp hy
        obtain ⟨r, hr⟩ := hop (a % 2 ^ nb) (Nat.mod_lt _ (by positivity))
        exact ⟨[r], by rw [hr]; rfl⟩)
      exact ⟨⟨mt.root tree, r⟩ :: qs, by rw [openLoop, ht, Option.bind_some, hr, Option.bind_some, hq]; rfl⟩

/-- `prove` succeeds. -/
theorem prove_total {mt : MT G Root Path Tree} {Good : Nat → Nat → Prop} (hM : mt.Total Good) {tr : Tr G A T} {I : T → Prop}
    (hT : tr.Total I) (hTo : tr.Ok) {E : Enc G A} (hE : EncOk E) (c : Cfg A) (h2 : (2 : A) ≠ 0) (hw : Roots c.mg c.inNbits)
    (hlt : c.inNbits < 32) (hpos : 0 < c.inNbits) (hq : 0 < c.nQueries) (hq2 : c.nQueries < 2 ^ 32) (hsi : c.shiftInv = c.shift⁻¹)
    (rest : List Nat) (hsteps : c.steps = c.inNbits :: rest) (hdec : Decreasing c.inNbits rest) (hgood : GoodSteps Good c.steps)
    (pol : List A) (hlen : pol.length = 2 ^ c.inNbits) (q0 : Nat → Q G Path) (t : T) (hI : I t) :
    ∃ proof t', prove mt tr E c pol q0 t = some (proof, t') ∧ I t' := by
  have hlog : Helper.log2Any (2 ^ c.inNbits) = c.inNbits := by
    obtain ⟨ha, hb⟩ := Helper.log2Any_eq (n := 2 ^ c.inNbits) (by positivity) (Nat.pow_lt_pow_right (by decide) hlt)
    have h1 := (Nat.pow_le_pow_iff_right (a := 2) (by decide)).mp ha
    have h2 := (Nat.pow_lt_pow_iff_right (a := 2) (by decide)).mp hb
    omega
  obtain ⟨outs, t1, h1, hI1, hO⟩ := proveLoop_total hM hT hTo hE h2 c.steps true pol c.inNbits c.shift t
    (by rw [hsteps]; exact ⟨le_rfl, hdec⟩) hgood hlt hw (by rw [hsteps]; simp) hlen hI
  have hmul : c.nQueries * c.inNbits < 2 ^ 64 := by
    calc c.nQueries * c.inNbits ≤ c.nQueries * 32 := Nat.mul_le_mul_left _ (by omega)
      _ < 2 ^ 64 := by omega
  obtain ⟨ys, t2, h3, hI2⟩ := hT.perms c.nQueries c.inNbits t1 hI1 (Nat.mul_pos hq hpos) hmul (by omega)
  obtain ⟨qs, h4⟩ := openLoop_total c.steps.tail outs ys hO
  unfold prove
  rw [hlen, hlog, if_neg (by simp), hsi, h1]
  simp only [Option.bind_some]
  rw [show c.steps.head? = some c.inNbits by rw [hsteps]; rfl]
  simp only [Option.bind_some, h3, h4, Option.map_some]
  exact ⟨_, _, rfl, hI2⟩

end Verif.Fri
