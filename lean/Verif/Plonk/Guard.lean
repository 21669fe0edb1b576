import Verif.Plonk.R1cs

/-!
# The gates never read wire 0

The cells carrying wire 0 are not connected to anything (plonk_setup.rs L699-702), so a malicious prover may put anything there.  Every gate
emitted by the conversion has coefficient zero wherever its wire is 0.
-/
set_option linter.unusedSectionVars false
namespace Verif.Plonk

variable {F : Type} [Field F] [DecidableEq F]

/-- coefficients of wire 0 are zero -/
def Gate.Guarded (g : Gate F) : Prop :=
  (g.sl = 0 → g.ql = 0 ∧ g.qm = 0) ∧ (g.sr = 0 → g.qr = 0 ∧ g.qm = 0) ∧ (g.so = 0 → g.qo = 0)

/-- all gates are guarded, and fresh variables are not wire 0 -/
def GuardedSt (st : St F) : Prop := 0 < st.nVar ∧ ∀ g ∈ st.gates, g.Guarded

theorem reduceLoop_guard (maxC : Nat) (cs : LC F) (st : St F) (hc : ∀ e ∈ cs, e.1 ≠ 0) (h : GuardedSt st) :
    (∀ e ∈ (reduceLoop maxC cs st).1, e.1 ≠ 0) ∧ GuardedSt (reduceLoop maxC cs st).2 := by
  fun_induction reduceLoop maxC cs st with
  | case1 st c1 c2 rest hlen ih =>
    apply ih
    · intro e he
      rcases List.mem_append.mp he with he | he
      · exact hc e (by simp [he])
      · rw [List.mem_singleton.mp he]
        have := h.1
        dsimp only
        omega
    · refine ⟨by dsimp only; omega, fun g hg => ?_⟩
      rcases List.mem_append.mp hg with hg | hg
      · exact h.2 g hg
      · rw [List.mem_singleton.mp hg]
        have h1 := hc c1 (by simp)
        have h2 := hc c2 (by simp)
        have := h.1
        refine ⟨fun e => absurd e h1, fun e => absurd e h2, fun e => ?_⟩
        dsimp only at e
        omega
  | case2 => exact ⟨hc, h⟩
  | case3 => exact ⟨hc, h⟩
  | case4 => exact ⟨hc, h⟩

theorem reduceCoefs_guard (lc : LC F) (maxC : Nat) (st : St F) (h : GuardedSt st) :
    (∀ i, (reduceCoefs lc maxC st).1.s.getD i 0 = 0 → (reduceCoefs lc maxC st).1.coefs.getD i 0 = 0) ∧ GuardedSt (reduceCoefs lc maxC st).2 := by
  unfold reduceCoefs
  obtain ⟨h1, h2⟩ := reduceLoop_guard maxC (lc.filter fun e => decide (e.1 ≠ 0 ∧ e.2 ≠ 0)) st (fun e he => by
    have := (List.mem_filter.mp he).2
    simp only [decide_eq_true_eq] at this
    exact this.1) h
  dsimp only
  refine ⟨fun i hi => ?_, h2⟩
  generalize (reduceLoop maxC (lc.filter fun e => decide (e.1 ≠ 0 ∧ e.2 ≠ 0)) st).1 = l at h1 hi
  simp only [List.getD_eq_getElem?_getD] at hi ⊢
  by_cases hl : i < l.length
  · rw [List.getElem?_append_left (by simpa using hl)] at hi
    simp only [List.getElem?_map, List.getElem?_eq_getElem hl, Option.map_some, Option.getD_some] at hi
    exact absurd hi (h1 _ (List.getElem_mem hl))
  · rw [List.getElem?_append_right (by simpa using hl), List.getElem?_replicate]
    split <;> rfl

theorem addConstraintMul_guard (la lb lc : LC F) (st : St F) (h : GuardedSt st) : GuardedSt (addConstraintMul la lb lc st) := by
  unfold addConstraintMul
  obtain ⟨a1, a2⟩ := reduceCoefs_guard la 1 st h
  obtain ⟨b1, b2⟩ := reduceCoefs_guard lb 1 _ a2
  obtain ⟨c1, c2⟩ := reduceCoefs_guard lc 1 _ b2
  refine ⟨c2.1, fun g hg => ?_⟩
  rcases List.mem_append.mp hg with hg | hg
  · exact c2.2 g hg
  · rw [List.mem_singleton.mp hg]
    refine ⟨fun e => ?_, fun e => ?_, fun e => ?_⟩
    · rw [a1 0 e]; exact ⟨zero_mul _, zero_mul _⟩
    · rw [b1 0 e]; exact ⟨mul_zero _, mul_zero _⟩
    · rw [c1 0 e]; exact neg_zero

theorem addConstraintSum_guard (lc : LC F) (st : St F) (h : GuardedSt st) : GuardedSt (addConstraintSum lc st) := by
  unfold addConstraintSum
  obtain ⟨c1, c2⟩ := reduceCoefs_guard lc 3 st h
  refine ⟨c2.1, fun g hg => ?_⟩
  rcases List.mem_append.mp hg with hg | hg
  · exact c2.2 g hg
  · rw [List.mem_singleton.mp hg]
    exact ⟨fun e => ⟨c1 0 e, rfl⟩, fun e => ⟨c1 1 e, rfl⟩, fun e => c1 2 e⟩

theorem process_guard (c : Con F) (st st' : St F) (h : GuardedSt st) (hp : process c st = some st') : GuardedSt st' := by
  unfold process at hp
  obtain ⟨ma, -, hp⟩ := Option.bind_eq_some_iff.mp hp
  obtain ⟨mb, -, hp⟩ := Option.bind_eq_some_iff.mp hp
  obtain ⟨mc, -, hp⟩ := Option.bind_eq_some_iff.mp hp
  dsimp only at hp
  split at hp
  · simp only [pure, Option.some.injEq] at hp
    subst hp
    exact addConstraintSum_guard _ _ h
  · split at hp
    · obtain ⟨k, -, hp⟩ := Option.bind_eq_some_iff.mp hp
      simp only [pure, Option.some.injEq] at hp
      subst hp
      exact addConstraintSum_guard _ _ h
    · split at hp
      · obtain ⟨k, -, hp⟩ := Option.bind_eq_some_iff.mp hp
        simp only [pure, Option.some.injEq] at hp
        subst hp
        exact addConstraintSum_guard _ _ h
      · simp only [pure, Option.some.injEq] at hp
        subst hp
        exact addConstraintMul_guard _ _ _ _ h

/-- **No gate reads wire 0**: in every gate of the conversion, the coefficients that multiply a cell carrying wire 0 are zero. -/
theorem r1cs2plonk_guarded (n : Nat) (hn : 0 < n) (cs : List (Con F)) (st : St F) (h : r1cs2plonk n cs = some st) :
    ∀ g ∈ st.gates, g.Guarded := by
  have key : ∀ (cs : List (Con F)) (st0 : St F), GuardedSt st0 → cs.foldlM (fun st c => process c st) st0 = some st → GuardedSt st := by
    intro cs
    induction cs with
    | nil =>
      intro st0 h0 h
      simp only [List.foldlM_nil, pure, Option.some.injEq] at h
      exact h ▸ h0
    | cons c cs ih =>
      intro st0 h0 h
      rw [List.foldlM_cons] at h
      obtain ⟨st1, h1, h2⟩ := Option.bind_eq_some_iff.mp h
      exact ih st1 (process_guard c st0 st1 h0 h1) h2
  exact (key cs _ ⟨hn, by simp⟩ h).2

/-- a guarded gate evaluates the same on any values that agree with the wires except on wire 0 -/
theorem Guarded.eval {g : Gate F} (hg : g.Guarded) (v : Nat → F) (a b c : F) (ha : g.sl ≠ 0 → a = v g.sl) (hb : g.sr ≠ 0 → b = v g.sr)
    (hc : g.so ≠ 0 → c = v g.so) :
    (g.qm * (a * b) + g.ql * a + g.qr * b + g.qo * c + g.qc = 0) ↔ g.Holds v := by
  obtain ⟨g1, g2, g3⟩ := hg
  unfold Gate.Holds cell
  by_cases h1 : g.sl = 0
  · obtain ⟨e1, e2⟩ := g1 h1
    by_cases h2 : g.sr = 0
    · obtain ⟨e3, -⟩ := g2 h2
      by_cases h3 : g.so = 0
      · rw [e1, e2, e3, g3 h3]; simp
      · rw [e1, e2, e3, hc h3, if_neg h3]; simp
    · by_cases h3 : g.so = 0
      · rw [e1, e2, hb h2, if_neg h2, g3 h3]; simp
      · rw [e1, e2, hb h2, if_neg h2, hc h3, if_neg h3]; simp
  · by_cases h2 : g.sr = 0
    · obtain ⟨e3, e2⟩ := g2 h2
      by_cases h3 : g.so = 0
      · rw [e2, e3, ha h1, if_neg h1, g3 h3]; simp
      · rw [e2, e3, ha h1, if_neg h1, hc h3, if_neg h3]; simp
    · by_cases h3 : g.so = 0
      · rw [ha h1, if_neg h1, hb h2, if_neg h2, g3 h3]; simp [mul_assoc]
      · rw [ha h1, if_neg h1, hb h2, if_neg h2, hc h3, if_neg h3, mul_assoc]

/-- a guarded gate with an unused left wire -/
example : (⟨0, 2, 3, 0, 0, 1, -1, 0⟩ : Gate (ZMod 101)).Guarded := by
  simp [Gate.Guarded]

/-- the gates of a concrete system, which uses the constant wire, are guarded -/
example : ∃ st, r1cs2plonk 4 [(⟨[(0, 1), (1, 1)], [(2, 1)], [(0, 5), (3, 1)]⟩ : Con (ZMod 101))] = some st ∧ ∀ g ∈ st.gates, g.Guarded := by
  have h : (r1cs2plonk 4 [(⟨[(0, 1), (1, 1)], [(2, 1)], [(0, 5), (3, 1)]⟩ : Con (ZMod 101))]).isSome := by decide +kernel
  exact ⟨_, (Option.some_get h).symm, r1cs2plonk_guarded 4 (by norm_num) _ _ (Option.some_get h).symm⟩

end Verif.Plonk
