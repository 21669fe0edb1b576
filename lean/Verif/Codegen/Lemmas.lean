import Verif.Codegen.Spec

namespace Verif.Codegen
open Spec

variable {E : Type} {K : Ops E} {exps : List (Expr E)} {σ0 : Store E}

/-- An expression has at most one value. -/
theorem val_unique {d d' p e v v'} (h : Val K exps σ0 d p e v) (h' : Val K exps σ0 d' p e v') : v = v' := by
  induction h generalizing d' v' with
  | add ho _ _ hz iha ihb =>
    cases h' with
    | add _ ha hb hz' => rw [iha ha, ihb hb] at hz; simp_all
    | _ => simp_all
  | sub ho _ _ hz iha ihb =>
    cases h' with
    | sub _ ha hb hz' => rw [iha ha, ihb hb] at hz; simp_all
    | _ => simp_all
  | mul ho _ _ hz iha ihb =>
    cases h' with
    | mul _ ha hb hz' => rw [iha ha, ihb hb] at hz; simp_all
    | _ => simp_all
  | muladd ho _ _ _ hxy hz iha ihb ihc =>
    cases h' with
    | muladd _ ha hb hc hxy' hz' => rw [iha ha, ihb hb] at hxy; rw [ihc hc] at hz; simp_all
  | addc ho hk _ hz iha =>
    cases h' with
    | addc _ hk' ha hz' => rw [iha ha] at hz; simp_all
    | _ => simp_all
  | mulc ho hk _ hz iha =>
    cases h' with
    | mulc _ hk' ha hz' => rw [iha ha] at hz; simp_all
    | _ => simp_all
  | neg ho _ hz iha =>
    cases h' with
    | neg _ ha hz' => rw [iha ha] at hz; simp_all
    | _ => simp_all
  | number ho hv => cases h' <;> simp_all [colTy, idTy, nullTy]
  | @col d p l t i v ho hi _ hv => cases h' <;> cases h : l.op <;> simp_all [colTy, idTy, nullTy]
  | @byId d p l t i v ho hi hv => cases h' <;> cases h : l.op <;> simp_all [colTy, idTy, nullTy]
  | @nullary d p l t v ho hv => cases h' <;> cases h : l.op <;> simp_all [colTy, idTy, nullTy]
  | exp ho hi hn he _ ih =>
    cases h' with
    | exp _ hi' _ he' hv =>
      rw [hi] at hi'
      cases hi'
      rw [he] at he'
      cases he'
      exact ih hv
    | _ => simp_all [colTy, idTy, nullTy]

theorem val_mono {d d' p e v} (h : Val K exps σ0 d p e v) (hd : d ≤ d') : Val K exps σ0 d' p e v := by
  induction h generalizing d' with
  | add ho _ _ hz iha ihb => exact .add ho (iha hd) (ihb hd) hz
  | sub ho _ _ hz iha ihb => exact .sub ho (iha hd) (ihb hd) hz
  | mul ho _ _ hz iha ihb => exact .mul ho (iha hd) (ihb hd) hz
  | muladd ho _ _ _ hxy hz iha ihb ihc => exact .muladd ho (iha hd) (ihb hd) (ihc hd) hxy hz
  | addc ho hk _ hz iha => exact .addc ho hk (iha hd) hz
  | mulc ho hk _ hz iha => exact .mulc ho hk (iha hd) hz
  | neg ho _ hz iha => exact .neg ho (iha hd) hz
  | number ho hv => exact .number ho hv
  | col ho hi hn hv => exact .col ho hi hn hv
  | byId ho hi hv => exact .byId ho hi hv
  | nullary ho hv => exact .nullary ho hv
  | exp ho hi hn he _ ih =>
    obtain ⟨d'', rfl⟩ : ∃ d'', d' = d'' + 1 := ⟨d' - 1, by omega⟩
    exact .exp ho hi hn he (ih (by omega))

theorem expVal_unique {p id v v'} (h : ExpVal K exps σ0 p id v) (h' : ExpVal K exps σ0 p id v') : v = v' := by
  obtain ⟨d, e, he, hv⟩ := h
  obtain ⟨d', e', he', hv'⟩ := h'
  rw [he] at he'
  cases he'
  exact val_unique hv hv'

/-! ### `exec` -/

theorem exec_append (a b : List (Instr E)) (σ : Store E) : exec K (a ++ b) σ = (exec K a σ).bind (exec K b) := by
  simp only [exec, List.foldlM_append]
  rfl

theorem exec_one {i : Instr E} {σ : Store E} : exec K [i] σ = step K σ i := by
  simp [exec]

@[simp] theorem exec_nil {σ : Store E} : exec K [] σ = some σ := rfl

/-! ### `find_muladd` -/

theorem val_mul_inv {d p l vs v} (h : Val K exps σ0 d p (.node l vs) v) (ho : l.op = .mul) :
    ∃ a b x y, vs = [a, b] ∧ Val K exps σ0 d p a x ∧ Val K exps σ0 d p b y ∧ K.mul x y = some v := by
  cases h with
  | mul _ ha hb hz => exact ⟨_, _, _, _, rfl, ha, hb, hz⟩
  | _ => simp_all [colTy, idTy, nullTy]

theorem findMuladdL_one {a a' : Expr E} (h : findMuladd a = some a') : findMuladdL [a] = some [a'] := by
  simp [findMuladdL, h]

theorem findMuladdL_two {a a' b b' : Expr E} (h : findMuladd a = some a') (h2 : findMuladd b = some b') :
    findMuladdL [a, b] = some [a', b'] := by
  simp [findMuladdL, h, h2]

theorem findMuladd_other {l : Label E} {vs vs' : List (Expr E)} (ho : l.op ≠ .add) (h : findMuladdL vs = some vs') :
    findMuladd (.node l vs) = some (.node l vs') := by
  rw [findMuladd.eq_def]
  split <;> simp_all

theorem findMuladd_add {l l0 l1 : Label E} {vs0 vs1 : List (Expr E)} (ho : l.op = .add) :
    findMuladd (.node l [.node l0 vs0, .node l1 vs1]) =
      (if l0.op = .mul then
        match vs0 with
        | a :: b :: _ => do
          let a' ← findMuladd a
          let b' ← findMuladd b
          let c' ← findMuladd (.node l1 vs1)
          some (.node { op := .muladd } [a', b', c'])
        | _ => none
      else if l1.op = .mul then
        match vs1 with
        | a :: b :: _ => do
          let a' ← findMuladd a
          let b' ← findMuladd b
          let c' ← findMuladd (.node l0 vs0)
          some (.node { op := .muladd } [a', b', c'])
        | _ => none
      else do
        let x ← findMuladd (.node l0 vs0)
        let y ← findMuladd (.node l1 vs1)
        some (.node l [x, y])) := by
  rw [findMuladd.eq_def]
  simp only [ho]
  rcases vs0 with _ | ⟨_, _ | _⟩ <;> rcases vs1 with _ | ⟨_, _ | _⟩ <;> rfl

/-- **C44**: `find_muladd` does not change the value of an expression (addition being commutative). -/
theorem findMuladd_val (hcomm : ∀ a b, K.add a b = K.add b a) {d p e v} (h : Val K exps σ0 d p e v) :
    ∃ e', findMuladd e = some e' ∧ Val K exps σ0 d p e' v := by
  have main : ∀ n e v, Tree.size e ≤ n → Val K exps σ0 d p e v → ∃ e', findMuladd e = some e' ∧ Val K exps σ0 d p e' v := by
    intro n
    induction n with
    | zero => intro e v hs; cases e; simp [Tree.size] at hs
    | succ n ih =>
      intro e v hs h
      cases h with
      | @add _ _ l a b x y z ho ha hb hz =>
        obtain ⟨l0, vs0⟩ := a
        obtain ⟨l1, vs1⟩ := b
        simp only [Tree.size, Tree.sizeL] at hs
        obtain ⟨a', ea, va⟩ := ih (.node l0 vs0) x (by simp only [Tree.size]; omega) ha
        obtain ⟨b', eb, vb⟩ := ih (.node l1 vs1) y (by simp only [Tree.size]; omega) hb
        rw [findMuladd_add ho]
        split
        · rename_i h0
          obtain ⟨a1, b1, x1, y1, rfl, h1, h2, h3⟩ := val_mul_inv ha h0
          simp only [Tree.sizeL] at hs
          obtain ⟨a1', ea1, va1⟩ := ih a1 x1 (by omega) h1
          obtain ⟨b1', eb1, vb1⟩ := ih b1 y1 (by omega) h2
          simp only [ea1, eb1, eb]
          exact ⟨_, rfl, .muladd rfl va1 vb1 vb h3 hz⟩
        · split
          · rename_i h0
            obtain ⟨a1, b1, x1, y1, rfl, h1, h2, h3⟩ := val_mul_inv hb h0
            simp only [Tree.sizeL] at hs
            obtain ⟨a1', ea1, va1⟩ := ih a1 x1 (by omega) h1
            obtain ⟨b1', eb1, vb1⟩ := ih b1 y1 (by omega) h2
            simp only [ea1, eb1, ea]
            exact ⟨_, rfl, .muladd rfl va1 vb1 va h3 (by rw [hcomm]; exact hz)⟩
          · simp only [ea, eb]
            exact ⟨_, rfl, .add ho va vb hz⟩
      | @sub _ _ l a b x y z ho ha hb hz =>
        simp only [Tree.size, Tree.sizeL] at hs
        obtain ⟨a', ea, va⟩ := ih a x (by omega) ha
        obtain ⟨b', eb, vb⟩ := ih b y (by omega) hb
        exact ⟨_, findMuladd_other (by simp [ho]) (findMuladdL_two ea eb), .sub ho va vb hz⟩
      | @mul _ _ l a b x y z ho ha hb hz =>
        simp only [Tree.size, Tree.sizeL] at hs
        obtain ⟨a', ea, va⟩ := ih a x (by omega) ha
        obtain ⟨b', eb, vb⟩ := ih b y (by omega) hb
        exact ⟨_, findMuladd_other (by simp [ho]) (findMuladdL_two ea eb), .mul ho va vb hz⟩
      | @muladd _ _ l a b c x y w xy z ho ha hb hc hxy hz =>
        simp only [Tree.size, Tree.sizeL] at hs
        obtain ⟨a', ea, va⟩ := ih a x (by omega) ha
        obtain ⟨b', eb, vb⟩ := ih b y (by omega) hb
        obtain ⟨c', ec, vc⟩ := ih c w (by omega) hc
        refine ⟨.node l [a', b', c'], findMuladd_other (by simp [ho]) ?_, .muladd ho va vb vc hxy hz⟩
        simp [findMuladdL, ea, eb, ec]
      | @addc _ _ l a k x z ho hk ha hz =>
        simp only [Tree.size, Tree.sizeL] at hs
        obtain ⟨a', ea, va⟩ := ih a x (by omega) ha
        exact ⟨_, findMuladd_other (by simp [ho]) (findMuladdL_one ea), .addc ho hk va hz⟩
      | @mulc _ _ l a k x z ho hk ha hz =>
        simp only [Tree.size, Tree.sizeL] at hs
        obtain ⟨a', ea, va⟩ := ih a x (by omega) ha
        exact ⟨_, findMuladd_other (by simp [ho]) (findMuladdL_one ea), .mulc ho hk va hz⟩
      | @neg _ _ l a x z ho ha hz =>
        simp only [Tree.size, Tree.sizeL] at hs
        obtain ⟨a', ea, va⟩ := ih a x (by omega) ha
        exact ⟨_, findMuladd_other (by simp [ho]) (findMuladdL_one ea), .neg ho va hz⟩
      | @number _ _ l _ ho hv => exact ⟨_, findMuladd_other (by simp [ho]) rfl, .number ho hv⟩
      | @col _ _ l t i _ ho hi hn hv =>
        exact ⟨_, findMuladd_other (by intro h; simp [h, colTy] at ho) rfl, .col ho hi hn hv⟩
      | @byId _ _ l t i _ ho hi hv =>
        exact ⟨_, findMuladd_other (by intro h; simp [h, idTy] at ho) rfl, .byId ho hi hv⟩
      | @nullary _ _ l t _ ho hv =>
        exact ⟨_, findMuladd_other (by intro h; simp [h, nullTy] at ho) rfl, .nullary ho hv⟩
      | @exp d _ l i e _ ho hi hn he hv => exact ⟨_, findMuladd_other (by simp [ho]) rfl, .exp ho hi hn he hv⟩
  exact main _ e v (Nat.le_refl _) h

end Verif.Codegen
