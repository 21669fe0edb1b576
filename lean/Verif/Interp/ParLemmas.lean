import Verif.Interp.Par

/-! # Simulation of a chunk by the sequential evaluation (for C42) -/

set_option linter.unusedSectionVars false
set_option linter.unusedDecidableInType false

namespace Verif.Interp
open Spec

variable {E B : Type} [DecidableEq E] (K : Alg E B)

/-! ### Column writes by cells -/

/-- the cells a value occupies in a column of dimension `d` -/
def cellsOf (v : E) (d : Nat) : List E :=
  if d = 1 then [v] else if K.dim v = 3 then (K.elems v).map K.ofB else [v, K.zero, K.zero]

/-- the value fits the column, given the current second and third cells -/
def Fits (v : E) (d : Nat) (c1 c2 : Option E) : Prop :=
  (d = 1 ∧ K.dim v = 1) ∨ (d = 3 ∧ K.dim v = 3 ∧ (K.elems v).length = 3) ∨
  (d = 3 ∧ K.dim v = 1 ∧ c1 = some K.zero ∧ c2 = some K.zero)

theorem writeCol_get {m m' : Sec → List E} {col : Col} {row : Nat} {v : E} (h : writeCol K m col row v = some m') :
    Fits K v col.dim (m col.sec)[row * col.width + col.pos + 1]? (m col.sec)[row * col.width + col.pos + 2]? ∧
    (∀ t, t ≠ col.sec → m' t = m t) ∧ (m' col.sec).length = (m col.sec).length ∧
    ∀ j, (m' col.sec)[j]? = if row * col.width + col.pos ≤ j ∧ j < row * col.width + col.pos + col.dim
      then (cellsOf K v col.dim)[j - (row * col.width + col.pos)]? else (m col.sec)[j]? := by
  unfold writeCol at h
  simp only [] at h
  generalize hat : row * col.width + col.pos = at_ at h ⊢
  split at h
  · rename_i hl
    split at h
    · rename_i h1
      simp only [Option.some.injEq] at h
      subst h
      refine ⟨.inl h1, fun t ht => by simp [Function.update_of_ne ht], by simp, fun j => ?_⟩
      rw [h1.1] at hl ⊢
      simp only [Function.update_self, cellsOf, if_true]
      rw [List.getElem?_set]
      by_cases hj : at_ = j
      · subst hj
        simp [show at_ < (m col.sec).length by omega]
      · rw [if_neg hj, if_neg (by omega)]
    · split at h
      · rename_i h3
        split at h
        · rename_i a b d he
          simp only [Option.some.injEq] at h
          subst h
          refine ⟨.inr (.inl ⟨h3.1, h3.2, by simp [he]⟩), fun t ht => by simp [Function.update_of_ne ht], by simp, fun j => ?_⟩
          rw [h3.1] at hl ⊢
          simp only [Function.update_self, cellsOf, h3.2, he]
          by_cases h0 : j = at_
          · subst h0
            simp [show j < (m col.sec).length by omega]
          by_cases h1 : j = at_ + 1
          · subst h1
            simp [show at_ + 1 < (m col.sec).length by omega]
          by_cases h2 : j = at_ + 2
          · subst h2
            simp [show at_ + 2 < (m col.sec).length by omega]
          rw [List.getElem?_set_ne (by omega), List.getElem?_set_ne (by omega), List.getElem?_set_ne (by omega), if_neg (by omega)]
        · simp at h
      · split at h
        · rename_i h3
          simp only [Option.some.injEq] at h
          subst h
          refine ⟨.inr (.inr h3), fun t ht => by simp [Function.update_of_ne ht], by simp, fun j => ?_⟩
          rw [h3.1] at hl ⊢
          simp only [Function.update_self, cellsOf, h3.2.1]
          by_cases h0 : j = at_
          · subst h0
            simp [show j < (m col.sec).length by omega]
          by_cases h1 : j = at_ + 1
          · subst h1
            simp [show at_ + 1 < (m col.sec).length by omega]
          by_cases h2 : j = at_ + 2
          · subst h2
            simp [show at_ + 2 < (m col.sec).length by omega]
          rw [List.getElem?_set_ne (by omega), List.getElem?_set_ne (by omega), List.getElem?_set_ne (by omega), if_neg (by omega)]
        · simp at h
  · simp at h

theorem writeCol_isSome {m : Sec → List E} {col : Col} {row : Nat} {v : E}
    (hl : row * col.width + col.pos + col.dim ≤ (m col.sec).length)
    (hf : Fits K v col.dim (m col.sec)[row * col.width + col.pos + 1]? (m col.sec)[row * col.width + col.pos + 2]?) :
    ∃ m', writeCol K m col row v = some m' := by
  unfold writeCol
  simp only []
  rw [if_pos hl]
  rcases hf with h | ⟨h3, hv, he⟩ | h
  · rw [if_pos h]
    exact ⟨_, rfl⟩
  · rw [if_neg (by omega), if_pos ⟨h3, hv⟩]
    match hh : K.elems v with
    | [a, b, d] => exact ⟨_, rfl⟩
    | [] => simp [hh] at he
    | [_] => simp [hh] at he
    | [_, _] => simp [hh] at he
    | _ :: _ :: _ :: _ :: _ => simp [hh] at he
  · rw [if_neg (by omega), if_neg (by omega), if_pos h]
    exact ⟨_, rfl⟩

theorem inrange_iff {w ρ ρ' k pos d : Nat} (hk : k < w) (hp : pos + d ≤ w) :
    (ρ * w + pos ≤ ρ' * w + k ∧ ρ' * w + k < ρ * w + pos + d) ↔ (ρ' = ρ ∧ pos ≤ k ∧ k < pos + d) := by
  constructor
  · rintro ⟨h1, h2⟩
    rcases Nat.lt_trichotomy ρ' ρ with h | h | h
    · have : (ρ' + 1) * w ≤ ρ * w := Nat.mul_le_mul_right _ h
      rw [Nat.add_mul, Nat.one_mul] at this
      omega
    · subst h
      omega
    · have : (ρ + 1) * w ≤ ρ' * w := Nat.mul_le_mul_right _ h
      rw [Nat.add_mul, Nat.one_mul] at this
      omega
  · rintro ⟨rfl, h⟩
    omega

theorem cell_lt {w r R k : Nat} (hr : r < R) (hk : k < w) : r * w + k < R * w := by
  have : (r + 1) * w ≤ R * w := Nat.mul_le_mul_right _ hr
  rw [Nat.add_mul, Nat.one_mul] at this
  omega

/-! ### Conditions on the program -/

/-- A column lies in the table of the step. -/
def ColOk (ex : Exec) (col : Col) : Prop := col.width = ex.width col.sec ∧ col.pos + col.dim ≤ col.width

/-- The destination of an instruction: a temporary, or a column of an output section at the current row. -/
def DestOk (s : Info) (ex : Exec) (r : Node E) : Prop :=
  r.ty = .tmp ∨ (r.prime = false ∧ ∀ col, nodeCol s ex.dom r = some col → col.sec ∈ ex.out ∧ ColOk ex col)

/-- An operand: a temporary already computed on this row; a column of a section of the step, and, if it is read at the
next row, one that the program does not write; a public, challenge, evaluation, `Zi`, number; `xDivXSub..` in step 5. -/
def SrcOk (s : Info) (ex : Exec) (code : List (Instr E)) (defd : List Nat) (r : Node E) : Prop :=
  match r.ty with
  | .tmp => r.id ∈ defd
  | .xDivXSubXi | .xDivXSubWXi => ex.inBase = true
  | .cm | .tmpExp | .const_ | .x => ∀ col, nodeCol s ex.dom r = some col → col.sec ∈ ex.inp ++ ex.out ∧ ColOk ex col ∧
    (r.prime = true → ∀ ins ∈ code, ∀ col', nodeCol s ex.dom ins.dest = some col' → col'.sec = col.sec →
      col'.pos + col'.dim ≤ col.pos ∨ col.pos + col.dim ≤ col'.pos)
  | _ => True

/-- The conditions along the program, with the temporaries computed so far. -/
def CodeOk (s : Info) (ex : Exec) (all : List (Instr E)) : List Nat → List (Instr E) → Prop
  | _, [] => True
  | defd, ins :: rest => (∀ r ∈ ins.src, SrcOk s ex all defd r) ∧ DestOk s ex ins.dest ∧
    CodeOk s ex all (if ins.dest.ty = .tmp then ins.dest.id :: defd else defd) rest

/-- A cell position of a section that the program writes on no row. -/
def Clean (s : Info) (ex : Exec) (code : List (Instr E)) (t : Sec) (k : Nat) : Prop :=
  ∀ ins ∈ code, ∀ col, nodeCol s ex.dom ins.dest = some col → col.sec = t → ¬ (col.pos ≤ k ∧ k < col.pos + col.dim)

/-- The conditions on the table of the step. -/
structure ExecOk (ex : Exec) : Prop where
  outMem : ∀ t ∈ ex.out, t ≠ .tmp ∧ t ≠ .evals ∧ t ≠ .publics ∧ t ≠ .challenge
  inMem : ∀ t ∈ ex.inp, t ≠ .tmp ∧ t ≠ .evals ∧ t ≠ .publics ∧ t ≠ .challenge

/-! ### The simulation relation -/

/-- Chunk context `l` (rows `start .. start+cur` and `next` more) against the full context `g`. -/
structure Sim (s : Info) (ex : Exec) (code : List (Instr E)) (n next start cur : Nat) (g l : Ctx E B) (defd : List Nat) :
    Prop where
  rows : ∀ t ∈ ex.inp ++ ex.out, ∀ ρ k, ρ < cur → k < ex.width t →
    (l.mem t)[ρ * ex.width t + k]? = (g.mem t)[(start + ρ) * ex.width t + k]?
  ahead : ∀ t ∈ ex.inp ++ ex.out, ∀ ρ k, ρ < cur + next → k < ex.width t → Clean s ex code t k →
    (l.mem t)[ρ * ex.width t + k]? = (g.mem t)[(start + ρ) % n * ex.width t + k]?
  len : ∀ t ∈ ex.inp ++ ex.out, (l.mem t).length = (cur + next) * ex.width t
  scal : l.mem .evals = g.mem .evals ∧ l.mem .publics = g.mem .publics ∧ l.mem .challenge = g.mem .challenge
  base : ex.inBase = true → ∀ j, j < cur * 3 → l.xXi[j]? = g.xXi[start * 3 + j]? ∧ l.xWXi[j]? = g.xWXi[start * 3 + j]?
  zi : ∀ ρ, l.Zi ρ = g.Zi (start + ρ)
  tmpLen : (l.mem .tmp).length = (g.mem .tmp).length
  tmps : ∀ id ∈ defd, (l.mem .tmp)[id]? = (g.mem .tmp)[id]?

theorem readCol_congr {m m' : Sec → List E} {col : Col} {row row' : Nat}
    (h : ∀ k, col.pos ≤ k → k < col.pos + col.dim →
      (m col.sec)[row * col.width + k]? = (m' col.sec)[row' * col.width + k]?) :
    readCol K m col row = readCol K m' col row' := by
  unfold readCol cell
  split
  · rename_i h1
    exact h _ (by omega) (by omega)
  · split
    · rename_i h3
      rw [h col.pos (by omega) (by omega), h (col.pos + 1) (by omega) (by omega), h (col.pos + 2) (by omega) (by omega)]
    · rfl

variable {s : Info} {ex : Exec} {code : List (Instr E)} {n next start cur : Nat} {g l : Ctx E B} {defd : List Nat}

/-- the local row of a primed read corresponds to the global one -/
theorem primed_row (hn : start + cur ≤ n) (hc : (start = 0 ∧ cur = n) ∨ cur + next ≤ n) {ρ : Nat} (hρ : ρ < cur) :
    (ρ + next) % n < cur + next ∧ (start + (ρ + next) % n) % n = (start + ρ + next) % n := by
  rcases hc with ⟨rfl, rfl⟩ | hc
  · have := Nat.mod_lt (ρ + next) (show cur > 0 by omega)
    exact ⟨by omega, by simp⟩
  · rw [Nat.mod_eq_of_lt (show ρ + next < n by omega)]
    exact ⟨by omega, by rw [Nat.add_assoc]⟩

theorem meaning_sim (hsim : Sim s ex code n next start cur g l defd) (hn : start + cur ≤ n)
    (hc : (start = 0 ∧ cur = n) ∨ cur + next ≤ n) {ρ : Nat} (hρ : ρ < cur) {r : Node E} (hr : SrcOk s ex code defd r) :
    meaning K s ex.dom n next l ρ r = meaning K s ex.dom n next g (start + ρ) r := by
  have hcol : (∀ col, nodeCol s ex.dom r = some col → col.sec ∈ ex.inp ++ ex.out ∧ ColOk ex col ∧
      (r.prime = true → ∀ ins ∈ code, ∀ col', nodeCol s ex.dom ins.dest = some col' → col'.sec = col.sec →
        col'.pos + col'.dim ≤ col.pos ∨ col.pos + col.dim ≤ col'.pos)) →
      ∀ col, nodeCol s ex.dom r = some col →
        readCol K l.mem col (rowOf n next r.prime ρ) = readCol K g.mem col (rowOf n next r.prime (start + ρ)) := by
    intro h col hcc
    obtain ⟨hm, ⟨hw, hp⟩, hpr⟩ := h col hcc
    refine readCol_congr K fun k h1 h2 => ?_
    rw [hw] at hp ⊢
    cases hp' : r.prime
    · simp only [rowOf, Bool.false_eq_true, if_false]
      exact hsim.rows _ hm ρ k hρ (by omega)
    · simp only [rowOf, if_true]
      obtain ⟨h3, h4⟩ := primed_row (next := next) hn hc hρ
      rw [← h4]
      refine hsim.ahead _ hm _ k h3 (by omega) ?_
      intro ins hins col' hc' hs' hk
      rcases hpr hp' ins hins col' hc' hs' with h | h <;> omega
  have hcolx : (∀ col, nodeCol s ex.dom r = some col → col.sec ∈ ex.inp ++ ex.out ∧ ColOk ex col ∧
      (r.prime = true → ∀ ins ∈ code, ∀ col', nodeCol s ex.dom ins.dest = some col' → col'.sec = col.sec →
        col'.pos + col'.dim ≤ col.pos ∨ col.pos + col.dim ≤ col'.pos)) →
      ∀ col, nodeCol s ex.dom r = some col → readCol K l.mem col ρ = readCol K g.mem col (start + ρ) := by
    intro h col hcc
    obtain ⟨hm, ⟨hw, hp⟩, -⟩ := h col hcc
    refine readCol_congr K fun k h1 h2 => ?_
    rw [hw] at hp ⊢
    exact hsim.rows _ hm ρ k hρ (by omega)
  unfold SrcOk at hr
  unfold meaning
  have hb : ∀ (h : ex.inBase = true) (k : Nat), k < 3 → l.xXi[3 * ρ + k]? = g.xXi[3 * (start + ρ) + k]? ∧
      l.xWXi[3 * ρ + k]? = g.xWXi[3 * (start + ρ) + k]? := by
    intro h k hk
    have := hsim.base h (3 * ρ + k) (by omega)
    rwa [show start * 3 + (3 * ρ + k) = 3 * (start + ρ) + k by omega] at this
  cases hty : r.ty <;> simp only [hty] at hr ⊢
  case tmp => exact hsim.tmps _ hr
  case public_ => rw [hsim.scal.2.1]
  case challenge => rw [hsim.scal.2.2]
  case eval => rw [hsim.scal.1]
  case Zi => exact hsim.zi ρ
  case xDivXSubXi =>
    have h0 := (hb hr 0 (by omega)).1
    have h1 := (hb hr 1 (by omega)).1
    have h2 := (hb hr 2 (by omega)).1
    simp only [Nat.add_zero] at h0
    simp only [readBase, h0, h1, h2]
  case xDivXSubWXi =>
    have h0 := (hb hr 0 (by omega)).2
    have h1 := (hb hr 1 (by omega)).2
    have h2 := (hb hr 2 (by omega)).2
    simp only [Nat.add_zero] at h0
    simp only [readBase, h0, h1, h2]
  case x =>
    cases h : nodeCol s ex.dom r
    · rfl
    · exact hcolx hr _ h
  all_goals
    cases h : nodeCol s ex.dom r
    · rfl
    · exact hcol hr _ h

/-- what a store of a well-placed destination does: temporaries, or one column at row `i` -/
theorem store_cases {i : Nat} {c c' : Ctx E B} {r : Node E} {v : E} (hd : DestOk s ex r)
    (h : store K s ex.dom n next c i r v = some c') :
    (r.ty = .tmp ∧ r.id < (c.mem .tmp).length ∧ c' = { c with mem := Function.update c.mem .tmp ((c.mem .tmp).set r.id v) }) ∨
    (r.ty ≠ .tmp ∧ ∃ col m, nodeCol s ex.dom r = some col ∧ col.sec ∈ ex.out ∧ ColOk ex col ∧
      writeCol K c.mem col i v = some m ∧ c' = { c with mem := m }) := by
  unfold store at h
  rcases hd with hd | ⟨hp, hd⟩
  · rw [hd] at h
    simp only at h
    split at h
    · rename_i hl
      simp only [Option.some.injEq] at h
      exact .inl ⟨hd, hl, h.symm⟩
    · simp at h
  · cases hty : r.ty <;> simp only [hty] at h
    all_goals try (simp at h; done)
    case tmp =>
      split at h
      · rename_i hl
        simp only [Option.some.injEq] at h
        exact .inl ⟨rfl, hl, h.symm⟩
      · simp at h
    all_goals
      obtain ⟨col, hc, h⟩ := Option.bind_eq_some_iff.mp h
      obtain ⟨m, hm, h⟩ := Option.map_eq_some_iff.mp h
      try simp only [rowOf, hp, Bool.false_eq_true, if_false] at hm
      exact .inr ⟨by simp, col, m, hc, (hd col hc).1, (hd col hc).2, hm, h.symm⟩

theorem store_tmp {i : Nat} {c : Ctx E B} {r : Node E} {v : E} (ht : r.ty = .tmp) (hl : r.id < (c.mem .tmp).length) :
    store K s ex.dom n next c i r v = some { c with mem := Function.update c.mem .tmp ((c.mem .tmp).set r.id v) } := by
  unfold store
  rw [ht]
  simp [hl]

theorem store_col {i : Nat} {c c' : Ctx E B} {c2 : Ctx E B} {r : Node E} {v : E} {col : Col} {m : Sec → List E} {i2 : Nat}
    (hd : DestOk s ex r) (ht : r.ty ≠ .tmp) (h : store K s ex.dom n next c i r v = some c')
    (hc : nodeCol s ex.dom r = some col) (hw : writeCol K c2.mem col i2 v = some m) :
    store K s ex.dom n next c2 i2 r v = some { c2 with mem := m } := by
  have hp : r.prime = false := by
    rcases hd with hd | hd
    · exact absurd hd ht
    · exact hd.1
  unfold store at h ⊢
  cases hty : r.ty <;> simp only [hty] at h ht ⊢
  all_goals try (simp at h; done)
  all_goals try (simp at ht; done)
  all_goals simp [hc, rowOf, hp, hw]

theorem store_sim (hex : ExecOk ex) (hsim : Sim s ex code n next start cur g l defd) {ρ : Nat} (hρ : ρ < cur)
    {ins : Instr E} (hins : ins ∈ code) (hd : DestOk s ex ins.dest) {v : E} {g' : Ctx E B}
    (h : store K s ex.dom n next g (start + ρ) ins.dest v = some g') :
    ∃ l', store K s ex.dom n next l ρ ins.dest v = some l' ∧
      Sim s ex code n next start cur g' l' (if ins.dest.ty = .tmp then ins.dest.id :: defd else defd) := by
  rcases store_cases K hd h with ⟨ht, hl, rfl⟩ | ⟨ht, col, m, hc, hout, ⟨hw, hp⟩, hm, rfl⟩
  · refine ⟨_, store_tmp K ht (by rw [hsim.tmpLen]; exact hl), ?_⟩
    have hne : ∀ t ∈ ex.inp ++ ex.out, t ≠ .tmp := by
      intro t h
      rcases List.mem_append.mp h with h | h
      · exact (hex.inMem t h).1
      · exact (hex.outMem t h).1
    rw [if_pos ht]
    refine ⟨?_, ?_, ?_, ?_, hsim.base, hsim.zi, ?_, ?_⟩
    · intro t h ρ' k h1 h2
      simp only [Function.update_of_ne (hne t h)]
      exact hsim.rows t h ρ' k h1 h2
    · intro t h ρ' k h1 h2 h3
      simp only [Function.update_of_ne (hne t h)]
      exact hsim.ahead t h ρ' k h1 h2 h3
    · intro t h
      simp only [Function.update_of_ne (hne t h)]
      exact hsim.len t h
    · simpa using hsim.scal
    · simpa using hsim.tmpLen
    · intro id hid
      simp only [Function.update_self, List.getElem?_set, hsim.tmpLen]
      split
      · rfl
      · rename_i hne
        rcases List.mem_cons.mp hid with h | h
        · exact absurd h.symm hne
        · exact hsim.tmps id h
  · have hio : col.sec ∈ ex.inp ++ ex.out := List.mem_append.mpr (.inr hout)
    obtain ⟨hfit, hne, hlen, hget⟩ := writeCol_get K hm
    have hrow : ∀ k, col.pos ≤ k → k < col.pos + col.dim →
        (l.mem col.sec)[ρ * col.width + k]? = (g.mem col.sec)[(start + ρ) * col.width + k]? := by
      intro k h1 h2
      rw [hw] at hp ⊢
      exact hsim.rows _ hio ρ k hρ (by omega)
    obtain ⟨m2, hm2⟩ : ∃ m2, writeCol K l.mem col ρ v = some m2 := by
      refine writeCol_isSome K ?_ ?_
      · rw [hsim.len _ hio, ← hw]
        have h1 : (ρ + 1) * col.width ≤ (cur + next) * col.width := Nat.mul_le_mul_right _ (by omega)
        rw [Nat.add_mul, Nat.one_mul] at h1
        omega
      · rcases hfit with h | h | h
        · exact .inl h
        · exact .inr (.inl h)
        · refine .inr (.inr ⟨h.1, h.2.1, ?_, ?_⟩)
          · have := hrow (col.pos + 1) (by omega) (by omega)
            rw [← Nat.add_assoc, ← Nat.add_assoc] at this
            rw [this]; exact h.2.2.1
          · have := hrow (col.pos + 2) (by omega) (by omega)
            rw [← Nat.add_assoc, ← Nat.add_assoc] at this
            rw [this]; exact h.2.2.2
    obtain ⟨-, hne2, hlen2, hget2⟩ := writeCol_get K hm2
    refine ⟨_, store_col K hd ht h hc hm2, ?_⟩
    rw [if_neg ht]
    have hnt := hex.outMem _ hout
    have hmem : ∀ t, t ≠ col.sec → ({ g with mem := m } : Ctx E B).mem t = g.mem t ∧ ({ l with mem := m2 } : Ctx E B).mem t = l.mem t :=
      fun t ht => ⟨hne t ht, hne2 t ht⟩
    refine ⟨?_, ?_, ?_, ?_, hsim.base, hsim.zi, ?_, ?_⟩
    · intro t h ρ' k h1 h2
      by_cases hts : t = col.sec
      · subst hts
        show (m2 col.sec)[_]? = (m col.sec)[_]?
        rw [hget, hget2, ← hw]
        rw [← hw] at h2
        simp only [inrange_iff h2 hp]
        by_cases hcond : ρ' = ρ ∧ col.pos ≤ k ∧ k < col.pos + col.dim
        · rw [if_pos hcond, if_pos ⟨by omega, hcond.2⟩]
          obtain ⟨rfl, h3, h4⟩ := hcond
          congr 1
          omega
        · rw [if_neg hcond, if_neg (fun hh => hcond ⟨by omega, hh.2⟩), hw]
          exact hsim.rows _ hio ρ' k h1 (by rw [← hw]; exact h2)
      · rw [(hmem t hts).1, (hmem t hts).2]
        exact hsim.rows t h ρ' k h1 h2
    · intro t h ρ' k h1 h2 h3
      by_cases hts : t = col.sec
      · subst hts
        have hno := h3 ins hins col hc rfl
        show (m2 col.sec)[_]? = (m col.sec)[_]?
        rw [hget, hget2, ← hw]
        rw [← hw] at h2
        simp only [inrange_iff h2 hp]
        rw [if_neg (fun hh => hno hh.2), if_neg (fun hh => hno hh.2), hw]
        exact hsim.ahead _ hio ρ' k h1 (by rw [← hw]; exact h2) h3
      · rw [(hmem t hts).1, (hmem t hts).2]
        exact hsim.ahead t h ρ' k h1 h2 h3
    · intro t h
      by_cases hts : t = col.sec
      · subst hts
        show (m2 col.sec).length = _
        rw [hlen2]
        exact hsim.len _ h
      · rw [(hmem t hts).2]
        exact hsim.len t h
    · rw [(hmem _ hnt.2.1.symm).1, (hmem _ hnt.2.1.symm).2, (hmem _ hnt.2.2.1.symm).1, (hmem _ hnt.2.2.1.symm).2,
        (hmem _ hnt.2.2.2.symm).1, (hmem _ hnt.2.2.2.symm).2]
      exact hsim.scal
    · rw [(hmem _ hnt.1.symm).1, (hmem _ hnt.1.symm).2]
      exact hsim.tmpLen
    · intro id hid
      rw [(hmem _ hnt.1.symm).1, (hmem _ hnt.1.symm).2]
      exact hsim.tmps id hid

theorem run_sim (hex : ExecOk ex) (hn : start + cur ≤ n) (hc : (start = 0 ∧ cur = n) ∨ cur + next ≤ n) {ρ : Nat}
    (hρ : ρ < cur) : ∀ {rest : List (Instr E)} {defd : List Nat} {g l g' : Ctx E B}, (∀ x ∈ rest, x ∈ code) →
    CodeOk s ex code defd rest → Sim s ex code n next start cur g l defd →
    run K s ex.dom n next rest g (start + ρ) = some g' →
    ∃ l', run K s ex.dom n next rest l ρ = some l' ∧ Sim s ex code n next start cur g' l' []
  | [], defd, g, l, g', _, _, hsim, h => by
    simp [run] at h
    subst h
    exact ⟨l, by simp [run], { hsim with tmps := by simp }⟩
  | ins :: rest, defd, g, l, g', hsub, hok, hsim, h => by
    obtain ⟨hsrc, hdest, hok⟩ := hok
    simp only [run, List.foldlM_cons, Option.bind_eq_bind] at h
    obtain ⟨g1, h1, h⟩ := Option.bind_eq_some_iff.mp h
    unfold stepI at h1
    simp only [Option.bind_eq_bind] at h1
    obtain ⟨vs, hvs, h1⟩ := Option.bind_eq_some_iff.mp h1
    obtain ⟨v, hv, h1⟩ := Option.bind_eq_some_iff.mp h1
    obtain ⟨l1, hl1, hsim1⟩ := store_sim K hex hsim hρ (hsub ins (by simp)) hdest h1
    obtain ⟨l', hl', hsim'⟩ := run_sim hex hn hc hρ (fun x hx => hsub x (by simp [hx])) hok hsim1 h
    have hvs' : ins.src.mapM (meaning K s ex.dom n next l ρ) = some vs := by
      rw [← hvs]
      have : ∀ (rs : List (Node E)), (∀ r ∈ rs, SrcOk s ex code defd r) →
          rs.mapM (meaning K s ex.dom n next l ρ) = rs.mapM (meaning K s ex.dom n next g (start + ρ)) := by
        intro rs
        induction rs with
        | nil => intro _; simp
        | cons r rs ih =>
          intro hh
          simp only [List.mapM_cons]
          rw [meaning_sim K hsim hn hc hρ (hh r (by simp)), ih fun x hx => hh x (by simp [hx])]
      exact this _ hsrc
    refine ⟨l', ?_, hsim'⟩
    simp only [run, List.foldlM_cons, stepI, Option.bind_eq_bind]
    rw [hvs', Option.bind_some, hv, Option.bind_some, hl1, Option.bind_some]
    exact hl'

/-- the simulation over the rows of a chunk -/
theorem rows_sim (hex : ExecOk ex) (hn : start + cur ≤ n) (hc : (start = 0 ∧ cur = n) ∨ cur + next ≤ n)
    (hok : CodeOk s ex code [] code) (G : Nat → Ctx E B)
    (hG : ∀ i < n, run K s ex.dom n next code (G i) i = some (G (i + 1))) {l : Ctx E B}
    (hsim : Sim s ex code n next start cur (G start) l []) :
    ∀ r ≤ cur, ∃ l', (List.range r).foldlM (run K s ex.dom n next code) l = some l' ∧
      Sim s ex code n next start cur (G (start + r)) l' []
  | 0, _ => ⟨l, by simp, by simpa using hsim⟩
  | r + 1, hr => by
    obtain ⟨l1, h1, hs1⟩ := rows_sim hex hn hc hok G hG hsim r (by omega)
    obtain ⟨l2, h2, hs2⟩ := run_sim K hex hn hc (ρ := r) (by omega) (fun x hx => hx) hok hs1 (hG (start + r) (by omega))
    exact ⟨l2, by rw [List.range_succ, List.foldlM_append]; simp [h1, h2], by rw [← Nat.add_assoc]; exact hs2⟩

end Verif.Interp
