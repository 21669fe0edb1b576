import Verif.Plonk.CustomProps
import Verif.Plonk.Count
import Verif.Plonk.Guard
import Verif.Plonk.SPoly
import Verif.Helper.Log2

/-!
# The whole setup of the compressor, and what its constraint system means

Model of `plonk_setup_render` and `plonk_setup_compressor` (recursion/src/compressor12/plonk_setup.rs L163-770), over the parts modelled in `Setup`, `Custom` and `SPoly`.
-/
set_option linter.unusedSectionVars false
namespace Verif.Plonk.Custom
open Verif.GL (F)
open Verif.Ext3 (K coord)
open Verif.Roots (kMul mg)
open Verif.Plonk.SPoly (Cell sPolys grid Linked)

/-! ### Which template a use is treated as -/

/-- the ids after scanning: the last index of a template, or the initial value -/
theorem scan_spec (decls : List Decl) (i : Nat) (info0 info : Info) (h : scan decls i info0 = some info) :
    (∀ (j : Nat) (d : Decl), decls[j]? = some d → d.kind ≠ none) ∧
    ((∀ d ∈ decls, d.name ≠ "CMulAdd") ∧ info.cMulAddId = info0.cMulAddId ∨
      ∃ (j : Nat) (d : Decl), decls[j]? = some d ∧ d.name = "CMulAdd" ∧ info.cMulAddId = i + j) ∧
    ((∀ d ∈ decls, d.name ≠ "Poseidon12") ∧ info.poseidonId = info0.poseidonId ∨
      ∃ (j : Nat) (d : Decl), decls[j]? = some d ∧ d.name = "Poseidon12" ∧ info.poseidonId = i + j) ∧
    ((∀ d ∈ decls, d.name ≠ "EvPol4") ∧ info.evPolId = info0.evPolId ∨
      ∃ (j : Nat) (d : Decl), decls[j]? = some d ∧ d.name = "EvPol4" ∧ info.evPolId = i + j) ∧
    (∀ id p, (id, p) ∈ info.fft ↔ (id, p) ∈ info0.fft ∨ ∃ (j : Nat) (d : Decl), decls[j]? = some d ∧ d.name = "FFT4" ∧ d.params = p ∧ id = i + j) := by
  induction decls generalizing i info0 with
  | nil =>
    simp only [scan, Option.some.injEq] at h
    subst h
    refine ⟨by simp, Or.inl ⟨by simp, rfl⟩, Or.inl ⟨by simp, rfl⟩, Or.inl ⟨by simp, rfl⟩, by simp⟩
  | cons d ds ih =>
    unfold scan at h
    -- passing from the tail to the whole list
    have lift : ∀ (nm : String) (x : Nat), (∃ (j : Nat) (d : Decl), ds[j]? = some d ∧ d.name = nm ∧ x = i + 1 + j) →
        ∃ (j : Nat) (d' : Decl), (d :: ds)[j]? = some d' ∧ d'.name = nm ∧ x = i + j := by
      rintro nm x ⟨j, d', h1, h2, h3⟩
      exact ⟨j + 1, d', by simpa using h1, h2, by omega⟩
    have keep : ∀ (nm : String) (x y : Nat), d.name ≠ nm → ((∀ d ∈ ds, d.name ≠ nm) ∧ x = y ∨
        ∃ (j : Nat) (d : Decl), ds[j]? = some d ∧ d.name = nm ∧ x = i + 1 + j) → ((∀ d' ∈ d :: ds, d'.name ≠ nm) ∧ x = y ∨
        ∃ (j : Nat) (d' : Decl), (d :: ds)[j]? = some d' ∧ d'.name = nm ∧ x = i + j) := by
      rintro nm x y hd (⟨h1, h2⟩ | h)
      · exact Or.inl ⟨fun d' hd' => by rcases List.mem_cons.mp hd' with rfl | hd'; exacts [hd, h1 d' hd'], h2⟩
      · exact Or.inr (lift nm x h)
    have put : ∀ (nm : String) (x : Nat), d.name = nm → ((∀ d ∈ ds, d.name ≠ nm) ∧ x = i ∨
        ∃ (j : Nat) (d : Decl), ds[j]? = some d ∧ d.name = nm ∧ x = i + 1 + j) → ((∀ d' ∈ d :: ds, d'.name ≠ nm) ∧ x = 0 ∨
        ∃ (j : Nat) (d' : Decl), (d :: ds)[j]? = some d' ∧ d'.name = nm ∧ x = i + j) := by
      rintro nm x hd (⟨h1, h2⟩ | h)
      · exact Or.inr ⟨0, d, rfl, hd, by omega⟩
      · exact Or.inr (lift nm x h)
    have put' : ∀ (nm : String) (x y : Nat), d.name = nm → ((∀ d ∈ ds, d.name ≠ nm) ∧ x = i ∨
        ∃ (j : Nat) (d : Decl), ds[j]? = some d ∧ d.name = nm ∧ x = i + 1 + j) → ((∀ d' ∈ d :: ds, d'.name ≠ nm) ∧ x = y ∨
        ∃ (j : Nat) (d' : Decl), (d :: ds)[j]? = some d' ∧ d'.name = nm ∧ x = i + j) := by
      rintro nm x y hd (⟨h1, h2⟩ | h)
      · exact Or.inr ⟨0, d, rfl, hd, by omega⟩
      · exact Or.inr (lift nm x h)
    have kinds : d.kind ≠ none → (∀ (j : Nat) (d : Decl), ds[j]? = some d → d.kind ≠ none) →
        ∀ (j : Nat) (d' : Decl), (d :: ds)[j]? = some d' → d'.kind ≠ none := by
      intro h1 h2 j d' hj
      cases j with
      | zero => simp only [List.getElem?_cons_zero, Option.some.injEq] at hj; exact hj ▸ h1
      | succ j => exact h2 j d' (by simpa using hj)
    have fkeep : d.name ≠ "FFT4" → ∀ id p, (∃ (j : Nat) (d : Decl), ds[j]? = some d ∧ d.name = "FFT4" ∧ d.params = p ∧ id = i + 1 + j) ↔
        ∃ (j : Nat) (d' : Decl), (d :: ds)[j]? = some d' ∧ d'.name = "FFT4" ∧ d'.params = p ∧ id = i + j := by
      intro hd id p
      constructor
      · rintro ⟨j, d', h1, h2, h3, h4⟩
        exact ⟨j + 1, d', by simpa using h1, h2, h3, by omega⟩
      · rintro ⟨j, d', h1, h2, h3, h4⟩
        cases j with
        | zero => simp only [List.getElem?_cons_zero, Option.some.injEq] at h1; rw [← h1] at h2; exact absurd h2 hd
        | succ j => exact ⟨j, d', by simpa using h1, h2, h3, by omega⟩
    split at h
    · rename_i hn
      split at h
      · obtain ⟨h1, h2, h3, h4, h5⟩ := ih (i + 1) _ h
        refine ⟨kinds (by simp [Decl.kind, hn]) h1, put' _ _ _ hn h2, keep _ _ _ (by rw [hn]; decide) h3, keep _ _ _ (by rw [hn]; decide) h4, fun id p => ?_⟩
        rw [h5 id p, fkeep (by rw [hn]; decide) id p]
      · simp at h
    · rename_i n1
      split at h
      · rename_i hn
        split at h
        · obtain ⟨h1, h2, h3, h4, h5⟩ := ih (i + 1) _ h
          refine ⟨kinds (by simp [Decl.kind, hn]) h1, keep _ _ _ n1 h2, put' _ _ _ hn h3, keep _ _ _ (by rw [hn]; decide) h4, fun id p => ?_⟩
          rw [h5 id p, fkeep (by rw [hn]; decide) id p]
        · simp at h
      · rename_i n2
        split at h
        · rename_i hn
          split at h
          · obtain ⟨h1, h2, h3, h4, h5⟩ := ih (i + 1) _ h
            refine ⟨kinds (by simp [Decl.kind, hn]) h1, keep _ _ _ n1 h2, keep _ _ _ n2 h3, put' _ _ _ hn h4, fun id p => ?_⟩
            rw [h5 id p, fkeep (by rw [hn]; decide) id p]
          · simp at h
        · rename_i n3
          split at h
          · rename_i hn
            obtain ⟨h1, h2, h3, h4, h5⟩ := ih (i + 1) _ h
            refine ⟨kinds (by simp [Decl.kind, hn]) h1, keep _ _ _ n1 h2, keep _ _ _ n2 h3, keep _ _ _ n3 h4, fun id p => ?_⟩
            rw [h5 id p]
            simp only [List.mem_append, List.mem_singleton, Prod.mk.injEq]
            constructor
            · rintro ((h | ⟨rfl, rfl⟩) | ⟨j, d', e1, e2, e3, e4⟩)
              · exact Or.inl h
              · exact Or.inr ⟨0, d, rfl, hn, rfl, rfl⟩
              · exact Or.inr ⟨j + 1, d', by simpa using e1, e2, e3, by omega⟩
            · rintro (h | ⟨j, d', e1, e2, e3, e4⟩)
              · exact Or.inl (Or.inl h)
              · cases j with
                | zero =>
                  simp only [List.getElem?_cons_zero, Option.some.injEq] at e1
                  subst e1
                  exact Or.inl (Or.inr ⟨e4, e3.symm⟩)
                | succ j => exact Or.inr ⟨j, d', by simpa using e1, e2, e3, by omega⟩
          · simp at h

/-- `fftOf` finds exactly the declared `FFT4` gates -/
theorem fftOf_spec (decls : List Decl) (info : Info) (h : fromR1cs decls = some info) (id : Nat) (p : List F) :
    info.fftOf id = some p ↔ ∃ d, decls[id]? = some d ∧ d.name = "FFT4" ∧ d.params = p := by
  obtain ⟨-, -, -, -, hf⟩ := scan_spec decls 0 _ info h
  have hf' : ∀ id p, (id, p) ∈ info.fft ↔ ∃ d, decls[id]? = some d ∧ d.name = "FFT4" ∧ d.params = p := by
    intro id p
    rw [hf]
    simp only [Nat.zero_add, List.not_mem_nil, false_or]
    constructor
    · rintro ⟨j, d, h1, h2, h3, rfl⟩; exact ⟨d, h1, h2, h3⟩
    · rintro ⟨d, h1, h2, h3⟩; exact ⟨id, d, h1, h2, h3, rfl⟩
  unfold Info.fftOf
  rw [← hf']
  constructor
  · intro hm
    obtain ⟨e, he, rfl⟩ := Option.map_eq_some_iff.mp hm
    have h1 := List.mem_of_find?_eq_some he
    have h2 := List.find?_some he
    simp only [decide_eq_true_eq] at h2
    rw [← h2]
    exact h1
  · intro hm
    cases hfind : info.fft.find? fun e => e.1 = id with
    | none =>
      have := List.find?_eq_none.mp hfind (id, p) hm
      simp at this
    | some e =>
      have h1 := List.mem_of_find?_eq_some hfind
      have h2 := List.find?_some hfind
      simp only [decide_eq_true_eq] at h2
      obtain ⟨d, a1, a2, a3⟩ := (hf' id p).mp hm
      obtain ⟨d', b1, b2, b3⟩ := (hf' e.1 e.2).mp h1
      rw [h2, a1, Option.some.injEq] at b1
      subst b1
      rw [Option.map_some, ← b3, a3]

/-- **Every use is treated as its declared template, if `CMulAdd` and `Poseidon12` are declared** and no template other than `FFT4` is declared twice
(`_partial`: without a declaration of `CMulAdd` or `Poseidon12` the id 0 is taken for it, see `template_confused`). -/
theorem treated_partial (decls : List Decl) (info : Info) (h : fromR1cs decls = some info)
    (hc : ∃ d ∈ decls, d.name = "CMulAdd") (hp : ∃ d ∈ decls, d.name = "Poseidon12")
    (hu : ∀ (i j : Nat) (d d' : Decl), decls[i]? = some d → decls[j]? = some d' → d.name = d'.name → d.name ≠ "FFT4" → i = j)
    (id : Nat) (d : Decl) (hd : decls[id]? = some d) : treated info id = d.kind := by
  obtain ⟨hk, h1, h2, h3, -⟩ := scan_spec decls 0 _ info h
  simp only [Nat.zero_add] at h1 h2 h3
  obtain ⟨dc, hdc, nc⟩ := hc
  obtain ⟨dp, hdp, np⟩ := hp
  obtain ⟨jc, ec, kc1, kc2, kc3⟩ := h1.resolve_left fun x => x.1 dc hdc nc
  obtain ⟨jp, ep, kp1, kp2, kp3⟩ := h2.resolve_left fun x => x.1 dp hdp np
  have mp : id = info.poseidonId ↔ d.name = "Poseidon12" := by
    rw [kp3]
    constructor
    · rintro rfl; rw [kp1, Option.some.injEq] at hd; rw [← hd]; exact kp2
    · intro e; exact hu id jp d ep hd kp1 (e.trans kp2.symm) (by rw [e]; decide)
  have mc : id = info.cMulAddId ↔ d.name = "CMulAdd" := by
    rw [kc3]
    constructor
    · rintro rfl; rw [kc1, Option.some.injEq] at hd; rw [← hd]; exact kc2
    · intro e; exact hu id jc d ec hd kc1 (e.trans kc2.symm) (by rw [e]; decide)
  unfold treated Decl.kind
  by_cases n2 : d.name = "Poseidon12"
  · rw [if_pos (mp.mpr n2), if_neg (by rw [n2]; decide), if_pos n2]
  · rw [if_neg (fun e => n2 (mp.mp e)), if_neg (c := d.name = "Poseidon12") n2]
    by_cases n1 : d.name = "CMulAdd"
    · rw [if_pos (mc.mpr n1), if_pos n1]
    · rw [if_neg (fun e => n1 (mc.mp e)), if_neg (c := d.name = "CMulAdd") n1]
      by_cases n4 : d.name = "FFT4"
      · rw [(fftOf_spec decls info h id d.params).mpr ⟨d, hd, n4, rfl⟩, if_neg (c := d.name = "EvPol4") (by rw [n4]; decide), if_pos n4]
      · have hnone : info.fftOf id = none := by
          cases hf : info.fftOf id with
          | none => rfl
          | some p =>
            obtain ⟨d', e1, e2, -⟩ := (fftOf_spec decls info h id p).mp hf
            rw [hd, Option.some.injEq] at e1
            exact absurd (e1 ▸ e2) n4
        rw [hnone]
        dsimp only
        have n3 : d.name = "EvPol4" := by
          by_contra n3
          exact hk id d hd (by simp [Decl.kind, n1, n2, n3, n4])
        have : id = info.evPolId := by
          rcases h3 with ⟨h3, -⟩ | ⟨j, d', e1, e2, e3⟩
          · exact absurd n3 (h3 d (List.mem_of_getElem? hd))
          · rw [e3]; exact hu id j d d' hd e1 (n3.trans e2.symm) (by rw [n3]; decide)
        rw [if_pos this, if_pos n3]

/-- **Templates are confused**: with `EvPol4` declared first and no `CMulAdd`, a use of `EvPol4` is treated as a use of `CMulAdd`. -/
theorem template_confused : ∃ info, fromR1cs [⟨"EvPol4", []⟩, ⟨"Poseidon12", []⟩] = some info ∧ treated info 0 = some .cMulAdd ∧
    Decl.kind ⟨"EvPol4", []⟩ = some .evPol4 := by
  refine ⟨⟨0, 1, 0, []⟩, ?_, ?_, ?_⟩
  · simp [fromR1cs, scan]
  · simp [treated]
  · simp [Decl.kind]

example : ∃ info, fromR1cs [⟨"Poseidon12", []⟩, ⟨"FFT4", [1, 1, 1, 4]⟩, ⟨"CMulAdd", []⟩] = some info ∧ treated info 2 = some .cMulAdd := by
  refine ⟨⟨2, 0, 0, [(1, [1, 1, 1, 4])]⟩, by simp [fromR1cs, scan], by simp [treated]⟩

/-! ### The setup -/

/-- the public rows, recursion/src/compressor12/plonk_setup.rs L229-259: public `i` is signal `i + 1` in column `i % 12` of row `i / 12` -/
def publicRows (nPub : Nat) : Nat → Row F := fun ρ =>
  { (Row.zero : Row F) with s := fun c => if c < 12 ∧ ρ * 12 + c < nPub then 1 + (ρ * 12 + c) else 0 }

/-- the result -/
structure Built where
  rows : Nat → Row F
  r : Nat
  nUsed : Nat
  nBits : Nat

/-- the number of bits of the domain, recursion/src/compressor12/plonk_setup.rs L191-201: `opts.force_bits` if positive -/
def nBitsOf (force nUsed : Nat) : Nat := if 0 < force then force else Verif.Helper.log2Any (nUsed - 1) + 1

/-- the size of the system and the rows, recursion/src/compressor12/plonk_setup.rs L170-208 and L211-662; `none` is a panic.  `nPub` is the number of public signals,
`force` is `opts.force_bits`.  (Writes of zeros over rows that are still zero, L229-252 and L731-757, are left out.) -/
def build (nPub force : Nat) (gates : List (Gate F)) (decls : List Decl) (uses : List Use) : Option Built := do
  let M ← plonkN gates
  let info ← fromR1cs decls
  let cnt ← uses.mapM (rowsOf info)
  if nPub = 0 then none else
    let pubRows := (nPub - 1) / 12 + 1
    let nUsed := pubRows + M + cnt.sum
    let nBits := nBitsOf force nUsed
    if 2 ^ nBits < pubRows then none else do
      let st ← placeAll nUsed (2 ^ nBits) pubRows (publicRows nPub) gates
      let st' ← placeUses info nUsed (2 ^ nBits) (st.rows, st.r) uses
      return ⟨st'.1, st'.2, nUsed, nBits⟩

/-- the Lagrange polynomial of public row `k`, recursion/src/compressor12/plonk_setup.rs L759-765 -/
def lagr (k ρ : Nat) : F := if ρ = k then 1 else 0

/-- **The constraint system**: a filling `a` (row, column) of the twelve columns on the `N = 2^nBits` rows satisfies the public identities
(recursion/src/compressor12/compressor12_pil.rs L93-102), the gate identities on every row (the next row of the last one is the first), and the
connection argument for the `S` polynomials. -/
def Built.Sat (b : Built) (nPub : Nat) (pub : Nat → F) (a : Nat → Nat → F) : Prop :=
  (∀ i < nPub, ∀ ρ < 2 ^ b.nBits, lagr (i / 12) ρ * (a ρ (i % 12) - pub i) = 0) ∧
  (∀ ρ < 2 ^ b.nBits, AllGates (b.rows ρ) (a ρ) (a ((ρ + 1) % 2 ^ b.nBits))) ∧
  (grid b.nBits).val.map (fun c => (a c.2 c.1, kMul ^ c.1 * mg b.nBits ^ c.2)) =
    (grid b.nBits).val.map (fun c => (a c.2 c.1, sPolys b.nBits b.r b.nUsed (fun c => (b.rows c.2).s c.1) c))

/-- what the parts of a successful setup are -/
theorem build_parts (nPub force : Nat) (gates : List (Gate F)) (decls : List Decl) (uses : List Use) (b : Built)
    (h : build nPub force gates decls uses = some b) :
    ∃ M info cnt st, plonkN gates = some M ∧ fromR1cs decls = some info ∧ uses.mapM (rowsOf info) = some cnt ∧ nPub ≠ 0 ∧
      b.nUsed = (nPub - 1) / 12 + 1 + M + cnt.sum ∧ (nPub - 1) / 12 + 1 ≤ 2 ^ b.nBits ∧
      placeAll b.nUsed (2 ^ b.nBits) ((nPub - 1) / 12 + 1) (publicRows nPub) gates = some st ∧
      placeUses info b.nUsed (2 ^ b.nBits) (st.rows, st.r) uses = some (b.rows, b.r) := by
  unfold build at h
  obtain ⟨M, hM, h⟩ := Option.bind_eq_some_iff.mp h
  obtain ⟨info, hi, h⟩ := Option.bind_eq_some_iff.mp h
  obtain ⟨cnt, hc, h⟩ := Option.bind_eq_some_iff.mp h
  dsimp only at h
  split at h
  · simp at h
  · rename_i hn
    split at h
    · simp at h
    · rename_i hN
      obtain ⟨st, hs, h⟩ := Option.bind_eq_some_iff.mp h
      obtain ⟨st', hs', h⟩ := Option.bind_eq_some_iff.mp h
      simp only [pure, Option.some.injEq] at h
      subst h
      exact ⟨M, info, cnt, st, hM, hi, hc, hn, rfl, by dsimp only; omega, hs, hs'⟩

/-- the rows of the polynomials suffice for the rows placed -/
theorem placeList_le_N {nUsed N : Nat} (gates : List (Gate F)) (st st' : PS F) (h : gates.foldlM (place nUsed N) st = some st') (h0 : st.r ≤ N) :
    st'.r ≤ N := by
  induction gates generalizing st with
  | nil =>
    simp only [List.foldlM_nil, pure, Option.some.injEq] at h
    exact h ▸ h0
  | cons g gs ih =>
    rw [List.foldlM_cons] at h
    obtain ⟨s1, h1, h2⟩ := Option.bind_eq_some_iff.mp h
    refine ih s1 h2 ?_
    obtain ⟨s1', e1, -, hh⟩ := place_cap nUsed N st g
    unfold place at h1
    cases hf : findKey st.part g.key with
    | some pr =>
      rw [hf] at h1
      dsimp only at h1
      split at h1
      · simp only [Option.some.injEq] at h1; rw [← h1]; exact h0
      · split at h1
        · simp only [Option.some.injEq] at h1; rw [← h1]; exact h0
        · simp only [Option.some.injEq] at h1; rw [← h1]; exact h0
    | none =>
      rw [hf] at h1
      dsimp only at h1
      cases hh : st.half with
      | cons pr half =>
        rw [hh] at h1
        simp only [Option.some.injEq] at h1
        rw [← h1]; exact h0
      | nil =>
        rw [hh] at h1
        dsimp only at h1
        split at h1
        · simp only [Option.some.injEq] at h1; rw [← h1]; dsimp only; omega
        · simp at h1

theorem finish_r (todo : List (Key F × ParRow)) (st st' : PS F) (h : todo.foldlM (fun st e => finishPart st e.2) st = some st') : st'.r = st.r := by
  induction todo generalizing st with
  | nil =>
    simp only [List.foldlM_nil, pure, Option.some.injEq] at h
    rw [h]
  | cons e todo ih =>
    rw [List.foldlM_cons] at h
    obtain ⟨s1, h1, h2⟩ := Option.bind_eq_some_iff.mp h
    rw [ih s1 h2]
    unfold finishPart at h1
    split at h1
    · simp only [Option.some.injEq] at h1; rw [← h1]
    · split at h1
      · simp only [Option.some.injEq] at h1; rw [← h1]
      · simp at h1

theorem placeAll_le_N {nUsed N r0 : Nat} {rows0 : Nat → Row F} {gates : List (Gate F)} {st : PS F} (h : placeAll nUsed N r0 rows0 gates = some st)
    (h0 : r0 ≤ N) : st.r ≤ N := by
  unfold placeAll at h
  obtain ⟨s1, h1, h2⟩ := Option.bind_eq_some_iff.mp h
  obtain ⟨s2, h3, h4⟩ := Option.bind_eq_some_iff.mp h2
  simp only [pure, Option.some.injEq] at h4
  rw [← h4]
  dsimp only
  rw [finish_r _ _ _ h3]
  exact placeList_le_N gates _ _ h1 h0

theorem placeUses_le_N (info : Info) (nUsed N : Nat) (us : List Use) (st st' : (Nat → Row F) × Nat) (h : placeUses info nUsed N st us = some st')
    (h0 : st.2 ≤ N) : st'.2 ≤ N := by
  unfold placeUses at h
  induction us generalizing st with
  | nil =>
    simp only [List.foldlM_nil, pure, Option.some.injEq] at h
    exact h ▸ h0
  | cons u us ih =>
    rw [List.foldlM_cons] at h
    obtain ⟨st1, h1, h2⟩ := Option.bind_eq_some_iff.mp h
    refine ih st1 h2 ?_
    unfold placeUse at h1
    split at h1
    · split at h1
      · simp only [Option.some.injEq] at h1; rw [← h1]; dsimp only; omega
      · simp at h1
    · split at h1
      · split at h1
        · split at h1
          · split at h1
            · simp only [Option.some.injEq] at h1; rw [← h1]; dsimp only; omega
            · simp at h1
          · simp only [Option.some.injEq] at h1; rw [← h1]; dsimp only; omega
        · simp at h1
      · split at h1
        · split at h1
          · obtain ⟨C, -, h1⟩ := Option.map_eq_some_iff.mp h1
            rw [← h1]; dsimp only; omega
          · simp at h1
        · split at h1
          · split at h1
            · simp only [Option.some.injEq] at h1; rw [← h1]; dsimp only; omega
            · simp at h1
          · simp at h1

/-- on fillings that agree with an assignment of the wires, the gate identities of all rows mean all gates and all custom gates -/
theorem rows_iff (nPub force : Nat) (gates : List (Gate F)) (decls : List Decl) (uses : List Use) (b : Built)
    (h : build nPub force gates decls uses = some b) (hfit : b.r ≤ b.nUsed) (hg : ∀ g ∈ gates, g.Guarded)
    (hnz : ∀ u ∈ uses, ∀ s ∈ u.signals, s ≠ 0) :
    ∃ info, fromR1cs decls = some info ∧ b.r ≤ 2 ^ b.nBits ∧ nPub ≤ 12 * b.r ∧
      (∀ ρ, b.r ≤ ρ → ∀ c, (b.rows ρ).s c = 0) ∧
      (∀ i < nPub, (b.rows (i / 12)).s (i % 12) = 1 + i) ∧
      (∀ (v : Nat → F) (a : Nat → Nat → F), Agrees v b.rows a →
        ((∀ ρ < 2 ^ b.nBits, AllGates (b.rows ρ) (a ρ) (a (ρ + 1))) ↔
          (∀ g ∈ gates, g.Holds v) ∧ ∀ u ∈ uses, ∃ kind, treated info u.id = some kind ∧ kind.Sat fun k => v (u.signals.getD k 0))) := by
  obtain ⟨M, info, cnt, st, hM, hi, hc, hn, hU, hN, hpl, hus⟩ := build_parts nPub force gates decls uses b h
  have hstN := placeAll_le_N hpl hN
  have hbN := placeUses_le_N info b.nUsed (2 ^ b.nBits) uses _ _ hus hstN
  dsimp only at hbN
  obtain ⟨p1, p2, p3, p4⟩ := placeAll_slots b.nUsed (2 ^ b.nBits) _ _ gates st hpl
  obtain ⟨q1, q2, q3⟩ := placeUses_spec info b.nUsed (2 ^ b.nBits) uses st.rows st.r b.rows b.r hus hfit hnz
  -- the three zones
  have hpub : ∀ ρ, ρ < (nPub - 1) / 12 + 1 → b.rows ρ = publicRows nPub ρ := fun ρ hρ => by rw [q3 ρ (by omega), p4 ρ (by omega)]
  have hrest : ∀ ρ, b.r ≤ ρ → b.rows ρ = publicRows nPub ρ := fun ρ hρ => by rw [q3 ρ (by omega), p4 ρ (by omega)]
  have hgate : ∀ ρ, (nPub - 1) / 12 + 1 ≤ ρ → ρ < st.r → b.rows ρ = st.rows ρ := fun ρ h1 h2 => q3 ρ (by omega)
  have idlePub : ∀ ρ, Idle (publicRows nPub ρ) := fun ρ => ⟨rfl, rfl, rfl, rfl, rfl⟩
  refine ⟨info, hi, hbN, by omega, fun ρ hρ c => ?_, fun i hi' => ?_, fun v a hag => ?_⟩
  · rw [hrest ρ hρ]
    simp only [publicRows]
    rw [if_neg (by omega)]
  · rw [hpub _ (by omega)]
    simp only [publicRows]
    rw [if_pos (by omega)]
    omega
  · have hguard : ∀ ρ, (nPub - 1) / 12 + 1 ≤ ρ → ρ < st.r → ∀ j < 4, (slotGate (st.rows ρ) j).Guarded :=
      (p2 Gate.Guarded ⟨fun _ => ⟨rfl, rfl⟩, fun _ => ⟨rfl, rfl⟩, fun _ => rfl⟩).mpr hg
    have hsem := p2 (fun g => g.Holds v) (by simp [Gate.Holds])
    have hzone : ∀ ρ, (nPub - 1) / 12 + 1 ≤ ρ → ρ < st.r → (AllGates (b.rows ρ) (a ρ) (a (ρ + 1)) ↔ ∀ j < 4, (slotGate (st.rows ρ) j).Holds v) := by
      intro ρ h1 h2
      rw [hgate ρ h1 h2, allGates_gate (p3 ρ h1 h2)]
      have hcell : ∀ c < 12, (st.rows ρ).s c ≠ 0 → a ρ c = v ((st.rows ρ).s c) := by
        intro c hc hne
        have := hag ρ c hc
        rw [hgate ρ h1 h2] at this
        exact this hne
      have hslot : ∀ j < 4, ((st.rows ρ).C (blk j + 3) * (a ρ (j * 3) * a ρ (j * 3 + 1)) + (st.rows ρ).C (blk j) * a ρ (j * 3) +
          (st.rows ρ).C (blk j + 1) * a ρ (j * 3 + 1) + (st.rows ρ).C (blk j + 2) * a ρ (j * 3 + 2) + (st.rows ρ).C (blk j + 4) = 0 ↔
          (slotGate (st.rows ρ) j).Holds v) := fun j hj =>
        Guarded.eval (hguard ρ h1 h2 j hj) v (a ρ (j * 3)) (a ρ (j * 3 + 1)) (a ρ (j * 3 + 2)) (hcell _ (by omega)) (hcell _ (by omega)) (hcell _ (by omega))
      unfold Row.NormalGates
      rw [(p3 ρ h1 h2).1]
      simp only [mul_one]
      constructor
      · rintro ⟨e0, e1, e2, e3⟩ j hj
        rw [← hslot j hj]
        rcases (by omega : j = 0 ∨ j = 1 ∨ j = 2 ∨ j = 3) with rfl | rfl | rfl | rfl
        · simpa [blk] using e0
        · simpa [blk] using e1
        · simpa [blk] using e2
        · simpa [blk] using e3
      · intro hv
        have e0 := (hslot 0 (by omega)).mpr (hv 0 (by omega))
        have e1 := (hslot 1 (by omega)).mpr (hv 1 (by omega))
        have e2 := (hslot 2 (by omega)).mpr (hv 2 (by omega))
        have e3 := (hslot 3 (by omega)).mpr (hv 3 (by omega))
        exact ⟨by simpa [blk] using e0, by simpa [blk] using e1, by simpa [blk] using e2, by simpa [blk] using e3⟩
    rw [← hsem, ← q2 v a hag]
    constructor
    · intro H
      exact ⟨fun ρ h1 h2 => (hzone ρ h1 h2).mp (H ρ (by omega)), fun ρ h1 h2 => H ρ (by omega)⟩
    · rintro ⟨H1, H2⟩ ρ hρ
      by_cases z1 : ρ < (nPub - 1) / 12 + 1
      · rw [hpub ρ z1]; exact idle_all (idlePub ρ) _ _
      · by_cases z2 : ρ < st.r
        · exact (hzone ρ (by omega) z2).mpr (H1 ρ (by omega) z2)
        · by_cases z3 : ρ < b.r
          · exact H2 ρ (by omega) z3
          · rw [hrest ρ (by omega)]; exact idle_all (idlePub ρ) _ _

/-- **The constraint system of the compressor is equivalent to the gates**: for given public values, the columns can be filled so as to satisfy
the public, gate and connection identities iff some assignment of the wires with these public values satisfies every PLONK gate and every
custom gate.  Left to right, for an arbitrary filling, is soundness. -/
theorem system_iff (nPub force : Nat) (gates : List (Gate F)) (decls : List Decl) (uses : List Use) (b : Built)
    (h : build nPub force gates decls uses = some b) (hfit : b.r ≤ b.nUsed) (hb : b.nBits ≤ 32) (hg : ∀ g ∈ gates, g.Guarded)
    (hnz : ∀ u ∈ uses, ∀ s ∈ u.signals, s ≠ 0) (pub : Nat → F) :
    ∃ info, fromR1cs decls = some info ∧
      ((∃ a, b.Sat nPub pub a) ↔
        ∃ v : Nat → F, v 0 = 1 ∧ (∀ i < nPub, v (1 + i) = pub i) ∧ (∀ g ∈ gates, g.Holds v) ∧
          ∀ u ∈ uses, ∃ kind, treated info u.id = some kind ∧ kind.Sat fun k => v (u.signals.getD k 0)) := by
  obtain ⟨info, hi, hrN, hpr, hzero, hpubs, hsem⟩ := rows_iff nPub force gates decls uses b h hfit hg hnz
  refine ⟨info, hi, ?_⟩
  have hpos : 0 < 2 ^ b.nBits := Nat.two_pow_pos _
  have hconn := fun (a : Nat → Nat → F) => Verif.Plonk.SPoly.sPolys_connection b.nBits b.r b.nUsed (fun c => (b.rows c.2).s c.1) hb hrN (fun c : Cell => a c.2 c.1)
  constructor
  · rintro ⟨a, hP, hG, hC⟩
    rw [hconn a] at hC
    classical
    -- the value of a wire is the value in any of its cells
    let v : Nat → F := fun s => if s = 0 then 1 else
      if hs : ∃ c : Cell, (c.1 < 12 ∧ c.2 < b.r ∧ c.2 < b.nUsed) ∧ (b.rows c.2).s c.1 = s then a hs.choose.2 hs.choose.1 else 0
    have hv : ∀ ρ c, c < 12 → ρ < b.r → (b.rows ρ).s c ≠ 0 → a ρ c = v ((b.rows ρ).s c) := by
      intro ρ c hc hρ hne
      have hex : ∃ c' : Cell, (c'.1 < 12 ∧ c'.2 < b.r ∧ c'.2 < b.nUsed) ∧ (b.rows c'.2).s c'.1 = (b.rows ρ).s c :=
        ⟨(c, ρ), ⟨hc, hρ, by omega⟩, rfl⟩
      simp only [v]
      rw [if_neg hne, dif_pos hex]
      have hsp := hex.choose_spec
      exact hC (c, ρ) hex.choose ⟨⟨hc, hρ, by dsimp only; omega⟩, hsp.1, hsp.2.symm, hne⟩
    let a2 : Nat → Nat → F := fun ρ => a (ρ % 2 ^ b.nBits)
    have hag : Agrees v b.rows a2 := by
      intro ρ c hc hne
      have hρ : ρ < b.r := by
        by_contra hge
        exact hne (hzero ρ (by omega) c)
      simp only [a2]
      rw [Nat.mod_eq_of_lt (by omega)]
      exact hv ρ c hc hρ hne
    have hall := (hsem v a2 hag).mp (fun ρ hρ => by
      have := hG ρ hρ
      simp only [a2]
      rw [Nat.mod_eq_of_lt hρ]
      exact this)
    refine ⟨v, by simp [v], fun i hi' => ?_, hall.1, hall.2⟩
    have h1 := hP i hi' (i / 12) (by omega)
    simp only [lagr, if_pos, one_mul, sub_eq_zero] at h1
    rw [← h1]
    have := hv (i / 12) (i % 12) (Nat.mod_lt _ (by norm_num)) (by omega) (by rw [hpubs i hi']; omega)
    rw [hpubs i hi'] at this
    exact this.symm
  · rintro ⟨v, hv0, hvp, hvg, hvu⟩
    let a : Nat → Nat → F := fun ρ c => cell v ((b.rows ρ).s c)
    refine ⟨a, fun i hi' ρ hρ => ?_, fun ρ hρ => ?_, ?_⟩
    · unfold lagr
      split
      · rename_i e
        rw [one_mul, sub_eq_zero]
        simp only [a]
        rw [e, hpubs i hi', cell, if_neg (by omega)]
        exact hvp i hi'
      · rw [zero_mul]
    · let a2 : Nat → Nat → F := fun ρ => a (ρ % 2 ^ b.nBits)
      have hag : Agrees v b.rows a2 := by
        intro ρ c hc hne
        have hρ : ρ < b.r := by
          by_contra hge
          exact hne (hzero ρ (by omega) c)
        simp only [a2, a]
        rw [Nat.mod_eq_of_lt (by omega), cell, if_neg hne]
      have := (hsem v a2 hag).mpr ⟨hvg, hvu⟩ ρ hρ
      simp only [a2] at this
      rw [Nat.mod_eq_of_lt hρ] at this
      exact this
    · rw [hconn a]
      rintro c d ⟨-, -, e, -⟩
      dsimp only at e
      simp only [a]
      rw [e]

/-- **End to end** (`_partial`: constraints with a nonzero constant factor are excluded, see `r1cs2plonk_sign`; the setup must have placed every row within the reserved
ones, see `custom_gate_dropped`; the templates must be declared, see `template_confused`).  For an R1CS whose setup succeeds, the public values for
which the columns of the compressor can be filled are exactly those of the witnesses that satisfy the R1CS and all its custom gates. -/
theorem compressor_partial (n nPub force : Nat) (cs : List (Con F)) (decls : List Decl) (uses : List Use) (hn : nPub < n)
    (hw : ∀ c ∈ cs, c.Wf n) (hk : ∀ c ∈ cs, Constant c.a ∨ Constant c.b → Null c.a ∨ Null c.b)
    (hnz : ∀ u ∈ uses, ∀ s ∈ u.signals, s ≠ 0 ∧ s < n)
    (hc : ∃ d ∈ decls, d.name = "CMulAdd") (hp : ∃ d ∈ decls, d.name = "Poseidon12")
    (hu : ∀ (i j : Nat) (d d' : Decl), decls[i]? = some d → decls[j]? = some d' → d.name = d'.name → d.name ≠ "FFT4" → i = j)
    (hid : ∀ u ∈ uses, u.id < decls.length) :
    ∃ st, r1cs2plonk n cs = some st ∧ ∀ b, build nPub force st.gates decls uses = some b → b.r ≤ b.nUsed → b.nBits ≤ 32 → ∀ pub : Nat → F,
      ((∃ a, b.Sat nPub pub a) ↔
        ∃ w : Nat → F, w 0 = 1 ∧ (∀ i < nPub, w (1 + i) = pub i) ∧ (∀ c ∈ cs, c.Sat w) ∧
          ∀ u ∈ uses, ∃ d kind, decls[u.id]? = some d ∧ d.kind = some kind ∧ kind.Sat fun k => w (u.signals.getD k 0)) := by
  obtain ⟨st, h1, h2, h3⟩ := r1cs2plonk_sound_partial n (by omega) cs hw hk
  refine ⟨st, h1, fun b hb hfit h32 pub => ?_⟩
  have hguard := r1cs2plonk_guarded n (by omega) cs st h1
  obtain ⟨info, hi, hiff⟩ := system_iff nPub force st.gates decls uses b hb hfit h32 hguard (fun u hu s hs => (hnz u hu s hs).1) pub
  rw [hiff]
  have htr : ∀ u ∈ uses, ∃ d, decls[u.id]? = some d ∧ treated info u.id = d.kind := by
    intro u hu'
    exact ⟨decls[u.id]'(hid u hu'), List.getElem?_eq_getElem _, treated_partial decls info hi hc hp hu u.id _ (List.getElem?_eq_getElem (hid u hu'))⟩
  constructor
  · rintro ⟨v, v0, vp, vg, vu⟩
    refine ⟨v, v0, vp, (h3 v v0 vg).1, fun u hu' => ?_⟩
    obtain ⟨kind, k1, k2⟩ := vu u hu'
    obtain ⟨d, d1, d2⟩ := htr u hu'
    exact ⟨d, kind, d1, by rw [← d2, k1], k2⟩
  · rintro ⟨w, w0, wp, wc, wu⟩
    have hext : ∀ i < n, extend n st.adds w i = w i := fun i hi' => extend_below n _ w i hi'
    refine ⟨extend n st.adds w, by rw [hext 0 (by omega), w0], fun i hi' => by rw [hext _ (by omega), wp i hi'], (h2 w w0).mp wc, fun u hu' => ?_⟩
    obtain ⟨d, kind, d1, d2, d3⟩ := wu u hu'
    obtain ⟨d', e1, e2⟩ := htr u hu'
    rw [d1, Option.some.injEq] at e1
    subst e1
    refine ⟨kind, by rw [e2, d2], ?_⟩
    refine (Kind.sat_congr kind _ _ fun k hk' => ?_).mp d3
    rw [List.getD_eq_getElem?_getD]
    cases hs : u.signals[k]? with
    | none => rw [Option.getD_none, hext 0 (by omega)]
    | some s => rw [Option.getD_some, hext s (hnz u hu' s (List.mem_of_getElem? hs)).2]

/-! ### A custom gate is dropped -/

instance (x : Row F) (a a' : Nat → F) : Decidable (AllGates x a a') := by
  unfold AllGates Row.NormalGates PoseidonId CMulAddId FftId EvPolId
  infer_instance

/-- `s1 = 1` -/
def gOne : Gate F := ⟨1, 0, 0, 0, 1, 0, 0, -1⟩
/-- `s2 = 2` -/
def gTwo : Gate F := ⟨2, 0, 0, 0, 1, 0, 0, -2⟩
/-- the templates of the example -/
def decl2 : List Decl := [⟨"Poseidon12", []⟩, ⟨"CMulAdd", []⟩]
/-- `CMulAdd` with all twelve signals equal to signal 1 -/
def useOne : Use := ⟨1, List.replicate 12 1⟩

theorem dropped_some : (build 1 0 [gOne, gTwo] decl2 [useOne]).isSome := by decide +kernel

/-- the setup of the example -/
def droppedB : Built := (build 1 0 [gOne, gTwo] decl2 [useOne]).get dropped_some

/-- **A custom gate is dropped**: two gates with different selectors need two rows but one is reserved, the `CMulAdd` gate falls on a row beyond the
signal map, its signals are not recorded, and the setup still succeeds.  The columns can be filled for public value 1 although no witness
satisfies the two gates and the custom gate. -/
theorem custom_gate_dropped : ∃ b, build 1 0 [gOne, gTwo] decl2 [useOne] = some b ∧ (∃ a, b.Sat 1 (fun _ => 1) a) ∧
    ¬ ∃ v : Nat → F, v 0 = 1 ∧ v 1 = 1 ∧ (∀ g ∈ [gOne, gTwo], g.Holds v) ∧ Kind.cMulAdd.Sat fun k => v (useOne.signals.getD k 0) := by
  refine ⟨droppedB, (Option.some_get dropped_some).symm, ⟨fun ρ c => cell (fun s => (s : F)) ((droppedB.rows ρ).s c), ?_, ?_, ?_⟩, ?_⟩
  · have : droppedB.nBits = 2 := by decide +kernel
    rw [this]
    decide +kernel
  · have : droppedB.nBits = 2 := by decide +kernel
    rw [this]
    decide +kernel
  · have h := Verif.Plonk.SPoly.sPolys_connection droppedB.nBits droppedB.r droppedB.nUsed (fun c => (droppedB.rows c.2).s c.1) (by decide +kernel) (by decide +kernel)
      fun c : Cell => cell (fun s => (s : F)) ((droppedB.rows c.2).s c.1)
    refine h.mpr ?_
    rintro c d ⟨-, -, e, -⟩
    dsimp only at e ⊢
    rw [e]
  · rintro ⟨v, -, v1, -, hs⟩
    have e : ∀ k, k < 12 → v (useOne.signals.getD k 0) = 1 := by
      intro k hk
      have : useOne.signals.getD k 0 = 1 := by
        interval_cases k <;> rfl
      rw [this, v1]
    simp only [Kind.Sat, e3] at hs
    rw [e 0 (by omega), e _ (by omega), e _ (by omega), e _ (by omega), e _ (by omega), e _ (by omega), e _ (by omega), e _ (by omega), e _ (by omega),
      e _ (by omega), e _ (by omega), e _ (by omega)] at hs
    have h0 : (coord 1 1 1 : K) * coord 1 1 1 = 0 := by linear_combination -hs
    have h1 : (coord 1 1 1 : K) = 0 := by simpa using h0
    have h2 : (coord 1 1 1 : K) = coord 0 0 0 := by rw [h1]; simp [coord]
    exact absurd ((coord_eq _ _ _ _ _ _).mp h2).1 one_ne_zero

/-- another gate with the selectors of `gOne` -/
def gOne' : Gate F := ⟨2, 0, 0, 0, 1, 0, 0, -1⟩

theorem fits_some : (build 1 0 [gOne, gOne'] decl2 [useOne]).isSome := by decide +kernel

/-- a setup with every row within the reserved ones: the hypotheses of `system_iff` are met by two equal selectors and a `CMulAdd` -/
example : ∃ b, build 1 0 [gOne, gOne'] decl2 [useOne] = some b ∧ b.r ≤ b.nUsed ∧ b.nBits ≤ 32 ∧
    (∀ g ∈ [gOne, gOne'], g.Guarded) ∧ ∀ u ∈ [useOne], ∀ s ∈ u.signals, s ≠ 0 := by
  refine ⟨_, (Option.some_get fits_some).symm, by decide +kernel, by decide +kernel, ?_, by decide +kernel⟩
  simp [Gate.Guarded, gOne, gOne']

/-- a concrete R1CS: `w1 * w2 = w3` -/
def exR1cs : List (Con F) := [⟨[(1, 1)], [(2, 1)], [(3, 1)]⟩]
/-- a custom gate on its signals -/
def exUse : Use := ⟨1, [1, 2, 3, 1, 2, 3, 1, 2, 3, 1, 2, 3]⟩

theorem exSt_some : (r1cs2plonk 4 exR1cs).isSome := by decide +kernel
theorem exB_some : (build 1 0 ((r1cs2plonk 4 exR1cs).get exSt_some).gates decl2 [exUse]).isSome := by decide +kernel

/-- `compressor_partial` is not vacuous -/
example : ∃ st b, r1cs2plonk 4 exR1cs = some st ∧ build 1 0 st.gates decl2 [exUse] = some b ∧ b.r ≤ b.nUsed ∧ b.nBits ≤ 32 :=
  ⟨_, _, (Option.some_get exSt_some).symm, (Option.some_get exB_some).symm, by decide +kernel, by decide +kernel⟩

end Verif.Plonk.Custom
