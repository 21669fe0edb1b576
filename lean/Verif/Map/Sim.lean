import Verif.Map.Fix
import Verif.Interp.Props
import Verif.Stark.VerCodeSim
import Verif.F3G.Props

/-!
# Running the fixed code on the prover's buffers

The generated code computes on named registers (`Codegen.Spec.exec`); after `fix_prover_code` the same code computes on the prover's
buffers (`Interp.Spec.run`, which is what `calculate_exps` does, C41).  Here: the buffers follow the registers, one instruction, one
row and all rows at a time.
-/
namespace Verif.Map
open Verif.Codegen (NTy IOp)
open Verif.Codegen.Spec (Store readN exec)
open Verif.Interp (NodeTy OpTy Dom Sec Info algF3)
open Verif.Interp.Spec (Col cell readCol writeCol nodeCol rowOf meaning store stepI run)
open Verif.Ext3 (F3G K coord val WF ofF)
open Verif.Stark (fieldOps)
open Verif.GL (F)

noncomputable section

/-- the layout of a program: where expressions are stored and how rows are addressed -/
structure Lay where
  s : Info
  dom : Dom
  N : Nat
  step : Nat
  tgt : Nat → Option (NodeTy × Nat)
  em : Bool → Nat → Nat
  lit : K → F3G

/-- the column of an expression, or of the result `f` -/
def Lay.col (L : Lay) : NTy → Nat → Option Col
  | .exp, id => (L.tgt id).bind fun tk => nodeCol L.s L.dom ({ ty := tk.1, id := tk.2 } : Interp.Node F3G)
  | .f, id => nodeCol L.s L.dom ({ ty := .f, id := id } : Interp.Node F3G)
  | _, _ => none

/-- Column `col` of the buffers `m` holds `v` at row `r`: its cells are base field elements, the coordinates of `v`. -/
def Hold (m : Sec → List F3G) (col : Col) (r : Nat) (v : K) : Prop :=
  if col.dim = 1 then ∃ a, cell (m col.sec) col.width r col.pos = some (ofF a) ∧ algebraMap F K a = v
  else ∃ a b d, cell (m col.sec) col.width r col.pos = some (ofF a) ∧ cell (m col.sec) col.width r (col.pos + 1) = some (ofF b) ∧
    cell (m col.sec) col.width r (col.pos + 2) = some (ofF d) ∧ coord a b d = v

/-- the second and third cell of a row of a three-cell column are zero, as in a new buffer -/
def Blank (m : Sec → List F3G) (col : Col) (r : Nat) : Prop :=
  col.dim = 3 → cell (m col.sec) col.width r (col.pos + 1) = some Ext3.ZERO ∧ cell (m col.sec) col.width r (col.pos + 2) = some Ext3.ZERO

/-- an element of the extension and the value it stands for -/
structure Rel (v : K) (w : F3G) (d : Nat) : Prop where
  wf : WF w
  val : val w = v
  dim : w.dim ≤ d

theorem Rel.mono {v : K} {w : F3G} {d d' : Nat} (h : Rel v w d) (hd : d ≤ d') : Rel v w d' := ⟨h.wf, h.val, le_trans h.dim hd⟩

theorem Rel.cases {v : K} {w : F3G} {d : Nat} (h : Rel v w d) :
    (∃ a b c, w = ⟨a, b, c, 3⟩ ∧ coord a b c = v ∧ 3 ≤ d) ∨ ∃ a, w = ofF a ∧ algebraMap F K a = v ∧ 1 ≤ d := by
  obtain ⟨hw, hv, hd⟩ := h
  obtain ⟨x, y, z, n⟩ := w
  rcases hw with hw | ⟨h1, h2, h3⟩
  · dsimp only at hw hd
    subst hw
    exact .inl ⟨x, y, z, rfl, hv, hd⟩
  · dsimp only at h1 h2 h3 hd
    subst h1 h2 h3
    refine .inr ⟨x, rfl, ?_, hd⟩
    rw [← hv, Ext3.val, coord]
    simp

/-- what is held is what is read -/
theorem Hold.read {m : Sec → List F3G} {col : Col} {r : Nat} {v : K} (h : Hold m col r v) (hd : col.dim = 1 ∨ col.dim = 3) :
    ∃ w, readCol algF3 m col r = some w ∧ Rel v w col.dim := by
  unfold Hold at h
  unfold readCol
  rcases hd with hd | hd
  · rw [if_pos hd] at h ⊢
    obtain ⟨a, h1, h2⟩ := h
    refine ⟨_, h1, ?_⟩
    rw [hd]
    exact ⟨.inr ⟨rfl, rfl, rfl⟩, by rw [← h2]; simp [Ext3.val, ofF, coord], le_refl _⟩
  · rw [if_neg (by omega)] at h ⊢
    obtain ⟨a, b, d, h1, h2, h3, h4⟩ := h
    rw [if_pos hd]
    refine ⟨⟨a, b, d, 3⟩, ?_, ?_⟩
    · rw [h1, h2, h3]
      rfl
    · rw [hd]
      exact ⟨.inl rfl, h4, le_refl _⟩

theorem coord_base_zero {a b c x : F} (h : coord a b c = algebraMap F K x) : b = 0 ∧ c = 0 := by
  have : coord a b c = coord x 0 0 := by rw [h]; simp [coord]
  exact (Ext3.coord_inj this).2

theorem Hold.blank {m : Sec → List F3G} {col : Col} {r : Nat} {x : F} (h : Hold m col r (algebraMap F K x)) : Blank m col r := by
  intro hd
  unfold Hold at h
  rw [if_neg (by omega)] at h
  obtain ⟨a, b, d, h1, h2, h3, h4⟩ := h
  obtain ⟨rfl, rfl⟩ := coord_base_zero h4
  exact ⟨h2, h3⟩

theorem cell_lt {l w r c n : Nat} (hr : r < n) (hc : c < w) (hl : n * w ≤ l) : r * w + c < l := by
  have : (r + 1) * w ≤ n * w := Nat.mul_le_mul_right w hr
  rw [Nat.add_mul, Nat.one_mul] at this
  omega

/-- Writing a value that fits: the column holds it, other cells and all lengths are unchanged. -/
theorem write_hold {m : Sec → List F3G} {col : Col} {r N : Nat} {v : K} {w : F3G} (hw : Rel v w col.dim) (hd : col.dim = 1 ∨ col.dim = 3)
    (hfit : col.pos + col.dim ≤ col.width) (hlen : N * col.width ≤ (m col.sec).length) (hr : r < N)
    (hb : Blank m col r ∨ Hold m col r v) :
    ∃ m', writeCol algF3 m col r w = some m' ∧ Hold m' col r v ∧ ∀ t, (m' t).length = (m t).length := by
  have hlt : r * col.width + col.pos + col.dim ≤ (m col.sec).length := by
    have := cell_lt hr (show col.pos + col.dim - 1 < col.width by omega) hlen
    omega
  unfold writeCol
  simp only []
  rw [if_pos hlt]
  rcases hw.cases with ⟨a, b, c, rfl, hv, h3⟩ | ⟨a, rfl, hv, -⟩
  · have hd3 : col.dim = 3 := by omega
    rw [if_neg (by rw [hd3]; simp), if_pos ⟨hd3, rfl⟩]
    have he : algF3.elems (⟨a, b, c, 3⟩ : F3G) = [a, b, c] := rfl
    rw [he]
    refine ⟨_, rfl, ?_, fun t => ?_⟩
    · unfold Hold
      rw [if_neg (by omega), Function.update_self]
      unfold cell
      have e1 : r * col.width + (col.pos + 1) = r * col.width + col.pos + 1 := by omega
      have e2 : r * col.width + (col.pos + 2) = r * col.width + col.pos + 2 := by omega
      rw [e1, e2]
      generalize r * col.width + col.pos = x at hlt ⊢
      refine ⟨a, b, c, ?_, ?_, ?_, hv⟩
      · rw [List.getElem?_set_ne (by omega), List.getElem?_set_ne (by omega), List.getElem?_set_self (by omega)]
        rfl
      · rw [List.getElem?_set_ne (by omega), List.getElem?_set_self (by rw [List.length_set]; omega)]
        rfl
      · rw [List.getElem?_set_self (by rw [List.length_set, List.length_set]; omega)]
        rfl
    · by_cases ht : t = col.sec
      · subst ht
        rw [Function.update_self, List.length_set, List.length_set, List.length_set]
      · rw [Function.update_of_ne ht]
  · rcases hd with hd | hd
    · rw [if_pos ⟨hd, rfl⟩]
      refine ⟨_, rfl, ?_, fun t => ?_⟩
      · unfold Hold
        rw [if_pos hd, Function.update_self]
        unfold cell
        exact ⟨a, List.getElem?_set_self (by omega), hv⟩
      · by_cases ht : t = col.sec
        · subst ht
          rw [Function.update_self, List.length_set]
        · rw [Function.update_of_ne ht]
    · have hbl : Blank m col r := by
        rcases hb with hb | hb
        · exact hb
        · rw [← hv] at hb
          exact hb.blank
      obtain ⟨b1, b2⟩ := hbl hd
      unfold cell at b1 b2
      have e1 : r * col.width + (col.pos + 1) = r * col.width + col.pos + 1 := by omega
      have e2 : r * col.width + (col.pos + 2) = r * col.width + col.pos + 2 := by omega
      rw [e1] at b1
      rw [e2] at b2
      rw [if_neg (by rw [hd]; simp), if_neg (by rintro ⟨-, h⟩; exact absurd h (by show ¬ ((1 : Nat) = 3); decide)), if_pos ⟨hd, rfl, b1, b2⟩]
      refine ⟨_, rfl, ?_, fun t => ?_⟩
      · unfold Hold
        rw [if_neg (by omega), Function.update_self]
        unfold cell
        rw [e1, e2]
        generalize r * col.width + col.pos = x at hlt ⊢
        refine ⟨a, 0, 0, ?_, ?_, ?_, by rw [← hv]; simp [coord]⟩
        · rw [List.getElem?_set_ne (by omega), List.getElem?_set_ne (by omega), List.getElem?_set_self (by omega)]
        · rw [List.getElem?_set_ne (by omega), List.getElem?_set_self (by rw [List.length_set]; omega)]
          rfl
        · rw [List.getElem?_set_self (by rw [List.length_set, List.length_set]; omega)]
          rfl
      · by_cases ht : t = col.sec
        · subst ht
          rw [Function.update_self, List.length_set, List.length_set, List.length_set]
        · rw [Function.update_of_ne ht]

/-! ### Operations -/

/-- the largest dimension of the operands -/
def maxTag : List Nat → Nat
  | [] => 1
  | d :: ds => max d (maxTag ds)

theorem joinDim_le {a b : F3G} {d e : Nat} (ha : a.dim ≤ d) (hb : b.dim ≤ e) (wa : WF a) (wb : WF b) : Ext3.joinDim a b ≤ max d e := by
  unfold Ext3.joinDim
  split_ifs with h
  · omega
  · rcases wa with h1 | ⟨h1, -, -⟩ <;> rcases wb with h2 | ⟨h2, -, -⟩ <;> omega

/-- the arithmetic of the interpreter is the arithmetic of the field -/
theorem apply_rel {op : IOp} (hop : op ≠ .muladd) {vs : List K} {ws : List F3G} {ds : List Nat} {v : K}
    (hl : List.Forall₂ (fun v wd => Rel v wd.1 wd.2) vs (ws.zip ds)) (hlen : ws.length = ds.length)
    (h : Codegen.Spec.apply (fieldOps K) op vs = some v) : ∃ w, Interp.Spec.apply algF3 (fixOp op) ws = some w ∧ Rel v w (maxTag ds) := by
  have two : ∀ x y, vs = [x, y] → ∃ a b d e, ws = [a, b] ∧ ds = [d, e] ∧ Rel x a d ∧ Rel y b e := by
    rintro x y rfl
    rcases ws with _ | ⟨a, _ | ⟨b, ws⟩⟩ <;> rcases ds with _ | ⟨d, _ | ⟨e, ds⟩⟩ <;> simp_all
    rcases hl.2.2 with rfl | rfl <;> simp_all [eq_comm]
  have one : ∀ x, vs = [x] → ∃ a d, ws = [a] ∧ ds = [d] ∧ Rel x a d := by
    rintro x rfl
    rcases ws with _ | ⟨a, ws⟩ <;> rcases ds with _ | ⟨d, ds⟩ <;> simp_all
    rcases hl.2 with rfl | rfl <;> simp_all [eq_comm]
  cases op with
  | muladd => exact absurd rfl hop
  | copy =>
    rcases vs with _ | ⟨x, _ | ⟨y, vs⟩⟩ <;> simp only [Codegen.Spec.apply, reduceCtorEq, Option.some.injEq] at h
    subst h
    obtain ⟨a, d, rfl, rfl, ha⟩ := one _ rfl
    exact ⟨a, rfl, ha.mono (by simp [maxTag])⟩
  | add =>
    rcases vs with _ | ⟨x, _ | ⟨y, _ | ⟨z, vs⟩⟩⟩ <;> simp only [Codegen.Spec.apply, fieldOps, reduceCtorEq, Option.some.injEq] at h
    subst h
    obtain ⟨a, b, d, e, rfl, rfl, ha, hb⟩ := two _ _ rfl
    obtain ⟨w, h1, h2, h3, h4⟩ := Ext3.add_spec ha.wf hb.wf
    exact ⟨w, h1, h2, by rw [h4, ha.val, hb.val], by rw [h3]; exact (joinDim_le ha.dim hb.dim ha.wf hb.wf).trans (by simp only [maxTag]; omega)⟩
  | sub =>
    rcases vs with _ | ⟨x, _ | ⟨y, _ | ⟨z, vs⟩⟩⟩ <;> simp only [Codegen.Spec.apply, fieldOps, reduceCtorEq, Option.some.injEq] at h
    subst h
    obtain ⟨a, b, d, e, rfl, rfl, ha, hb⟩ := two _ _ rfl
    obtain ⟨w, h1, h2, h3, h4⟩ := Ext3.sub_spec ha.wf hb.wf
    exact ⟨w, h1, h2, by rw [h4, ha.val, hb.val], by rw [h3]; exact (joinDim_le ha.dim hb.dim ha.wf hb.wf).trans (by simp only [maxTag]; omega)⟩
  | mul =>
    rcases vs with _ | ⟨x, _ | ⟨y, _ | ⟨z, vs⟩⟩⟩ <;> simp only [Codegen.Spec.apply, fieldOps, reduceCtorEq, Option.some.injEq] at h
    subst h
    obtain ⟨a, b, d, e, rfl, rfl, ha, hb⟩ := two _ _ rfl
    obtain ⟨w, h1, h2, h3, h4⟩ := Ext3.mul_spec ha.wf hb.wf
    exact ⟨w, h1, h2, by rw [h4, ha.val, hb.val], by rw [h3]; exact (joinDim_le ha.dim hb.dim ha.wf hb.wf).trans (by simp only [maxTag]; omega)⟩

/-! ### The relation between registers and buffers -/

/-- the dimension an operand can have: `τ` of the temporaries, `T` of the expressions, `tg` of everything else -/
def tagOf (T : Nat → Nat) (tg : Codegen.Node K → Nat) (τ : Nat → Nat) (r : Codegen.Node K) : Nat :=
  match r.ty with
  | .tmp => τ r.id
  | .exp => T r.id
  | _ => tg r

/-- the values of the expressions fit their columns: following the code, an expression gets at most the dimension `T` -/
def Tagged (T : Nat → Nat) (tg : Codegen.Node K → Nat) : (Nat → Nat) → List (Codegen.Instr K) → Prop
  | _, [] => True
  | τ, c :: cs =>
    match c.dest.ty with
    | .tmp => Tagged T tg (Function.update τ c.dest.id (maxTag (c.src.map (tagOf T tg τ)))) cs
    | .exp => maxTag (c.src.map (tagOf T tg τ)) ≤ T c.dest.id ∧ Tagged T tg τ cs
    | _ => Tagged T tg τ cs

/-- the shape of an instruction of the prover: temporaries below `t0` -/
structure InsOk (L : Lay) (t0 : Nat) (Occ : Bool → Nat → Prop) (ins : Codegen.Instr K) : Prop where
  op : ins.op ≠ .muladd
  src : ∀ r ∈ ins.src, r.ty ≠ .f ∧ r.ty ≠ .q ∧ (r.ty = .tmp → r.prime = false ∧ r.id < t0) ∧ (r.ty = .exp → L.tgt r.id = none → Occ r.prime r.id)
  dest : (ins.dest.ty = .tmp ∧ ins.dest.prime = false ∧ ins.dest.id < t0) ∨ (ins.dest.ty = .exp ∧ (L.tgt ins.dest.id = none → Occ ins.dest.prime ins.dest.id)) ∨
    (ins.dest.ty = .f ∧ ins.dest.prime = false ∧ ∃ col, L.col .f ins.dest.id = some col)

/-- no register other than a temporary is written twice -/
def Once (code : List (Codegen.Instr K)) : Prop :=
  code.Pairwise fun a b => b.dest.ty ≠ .tmp → ¬(a.dest.ty = b.dest.ty ∧ a.dest.id = b.dest.id ∧ a.dest.prime = b.dest.prime)

/-- the columns of the expressions lie in the buffers and do not overlap; the temporaries of the other expressions are distinct -/
structure LayOk (L : Lay) (T : Nat → Nat) (t0 t1 : Nat) (Occ : Bool → Nat → Prop) (m : Sec → List F3G) : Prop where
  tgtTy : ∀ id t k, L.tgt id = some (t, k) → (t = .cm ∨ t = .tmpExp) ∧ ∃ col, L.col .exp id = some col
  dim : ∀ ty id col, L.col ty id = some col → col.dim = 1 ∨ col.dim = 3
  sec : ∀ ty id col, L.col ty id = some col → col.sec ≠ .tmp
  fit : ∀ ty id col, L.col ty id = some col → col.pos + col.dim ≤ col.width ∧ L.N * col.width ≤ (m col.sec).length
  disj : ∀ ty id col ty' id' col', L.col ty id = some col → L.col ty' id' = some col' → ¬(ty = ty' ∧ id = id') →
    col.sec ≠ col'.sec ∨ (col.width = col'.width ∧ (col.pos + col.dim ≤ col'.pos ∨ col'.pos + col'.dim ≤ col.pos))
  tag : ∀ id col, L.col .exp id = some col → T id = col.dim
  tmps : t1 ≤ (m .tmp).length
  le : t0 ≤ t1
  occ : ∀ p id, Occ p id → t0 ≤ L.em p id ∧ L.em p id < t1
  inj : ∀ p id p' id', Occ p id → Occ p' id' → L.em p id = L.em p' id' → p = p' ∧ id = id'

/-- only temporaries and the columns of the expressions have changed -/
structure Frame (L : Lay) (c0 c : Interp.Ctx F3G F) : Prop where
  nbits : c.nbits = c0.nbits
  nbitsExt : c.nbitsExt = c0.nbitsExt
  xXi : c.xXi = c0.xXi
  xWXi : c.xWXi = c0.xWXi
  Zi : c.Zi = c0.Zi
  len : ∀ t, (c.mem t).length = (c0.mem t).length
  cells : ∀ t k, t ≠ .tmp → (∀ ty id col, L.col ty id = some col → t = col.sec → ∀ r < L.N,
    ¬(r * col.width + col.pos ≤ k ∧ k < r * col.width + col.pos + col.dim)) → (c.mem t)[k]? = (c0.mem t)[k]?

theorem Frame.refl (L : Lay) (c : Interp.Ctx F3G F) : Frame L c c := ⟨rfl, rfl, rfl, rfl, rfl, fun _ => rfl, fun _ _ _ _ => rfl⟩

theorem Frame.trans {L : Lay} {a b c : Interp.Ctx F3G F} (h : Frame L a b) (h' : Frame L b c) : Frame L a c :=
  ⟨h'.nbits.trans h.nbits, h'.nbitsExt.trans h.nbitsExt, h'.xXi.trans h.xXi, h'.xWXi.trans h.xWXi, h'.Zi.trans h.Zi,
    fun t => (h'.len t).trans (h.len t), fun t k h1 h2 => (h'.cells t k h1 h2).trans (h.cells t k h1 h2)⟩

/-- every row of every column is new or holds its value -/
def Fresh (L : Lay) (X : NTy → Nat → Nat → K) (m : Sec → List F3G) : Prop :=
  ∀ ty id col, L.col ty id = some col → ∀ r < L.N, Blank m col r ∨ Hold m col r (X ty id r)

/-- the cells of a column at a row are as before -/
def Same (m m' : Sec → List F3G) (col : Col) (r : Nat) : Prop :=
  ∀ j < col.dim, cell (m' col.sec) col.width r (col.pos + j) = cell (m col.sec) col.width r (col.pos + j)

/-- every row of a column is as before or holds its value -/
def KeepsCols (L : Lay) (X : NTy → Nat → Nat → K) (m m' : Sec → List F3G) : Prop :=
  ∀ ty id col r, L.col ty id = some col → r < L.N → Same m m' col r ∨ Hold m' col r (X ty id r)

/-- At row `i`: the registers `σ` are in the buffers `c`. -/
structure Sim (L : Lay) (T : Nat → Nat) (X : NTy → Nat → Nat → K) (t0 : Nat) (Occ : Bool → Nat → Prop) (c0 : Interp.Ctx F3G F) (σ0 : Store K) (i : Nat)
    (τ : Nat → Nat) (σ : Store K) (c : Interp.Ctx F3G F) : Prop where
  tmp : ∀ t v, t < t0 → σ .tmp t false = some v → ∃ w, (c.mem .tmp)[t]? = some w ∧ Rel v w (τ t)
  un : ∀ p id v, Occ p id → L.tgt id = none → σ .exp id p = some v → ∃ w, (c.mem .tmp)[L.em p id]? = some w ∧ Rel v w (T id)
  reg : ∀ ty id p v col, L.col ty id = some col → σ ty id p = some v → Hold c.mem col (rowOf L.N L.step p i) v ∧ v = X ty id (rowOf L.N L.step p i)
  leaf : ∀ t k p, t ≠ .tmp → t ≠ .exp → t ≠ .f → σ t k p = σ0 t k p
  frame : Frame L c0 c
  fresh : Fresh L X c.mem
  keep : KeepsCols L X c0.mem c.mem

variable {L : Lay} {T : Nat → Nat} {X : NTy → Nat → Nat → K} {t0 t1 : Nat} {Occ : Bool → Nat → Prop} {c0 : Interp.Ctx F3G F} {σ0 : Store K} {i : Nat}
  {tg : Codegen.Node K → Nat}

theorem rowOf_lt {N step i : Nat} {p : Bool} (hi : i < N) : rowOf N step p i < N := by
  unfold rowOf
  split_ifs
  · exact Nat.mod_lt _ (by omega)
  · exact hi

/-- the cells of a column at a row after a change elsewhere -/
theorem Hold.congr {m m' : Sec → List F3G} {col : Col} {r : Nat} {v : K} (hd : col.dim = 1 ∨ col.dim = 3)
    (h : ∀ j < col.dim, cell (m' col.sec) col.width r (col.pos + j) = cell (m col.sec) col.width r (col.pos + j)) (hh : Hold m col r v) : Hold m' col r v := by
  unfold Hold at hh ⊢
  have h0 := h 0 (by omega)
  rw [Nat.add_zero] at h0
  rcases hd with hd | hd
  · rw [if_pos hd] at hh ⊢
    rwa [h0]
  · rw [if_neg (by omega)] at hh ⊢
    rwa [h0, h 1 (by omega), h 2 (by omega)]

theorem Blank.congr {m m' : Sec → List F3G} {col : Col} {r : Nat}
    (h : ∀ j < col.dim, cell (m' col.sec) col.width r (col.pos + j) = cell (m col.sec) col.width r (col.pos + j)) (hh : Blank m col r) : Blank m' col r := by
  intro hd
  rw [h 1 (by omega), h 2 (by omega)]
  exact hh hd

/-- reading an operand -/
theorem meaning_src (hL : LayOk L T t0 t1 Occ c0.mem) {τ : Nat → Nat} {σ : Store K} {c : Interp.Ctx F3G F} (hS : Sim L T X t0 Occ c0 σ0 i τ σ c)
    {r : Codegen.Node K} {v : K} (h1 : r.ty ≠ .f) (h3 : r.ty = .tmp → r.prime = false ∧ r.id < t0) (h4 : r.ty = .exp → L.tgt r.id = none → Occ r.prime r.id)
    (hleaf : r.ty ≠ .tmp → r.ty ≠ .exp → ∀ v, readN σ0 r = some v → ∃ w, meaning algF3 L.s L.dom L.N L.step c i (fixNode L.tgt L.lit L.em r) = some w ∧ Rel v w (tg r))
    (hv : readN σ r = some v) : ∃ w, meaning algF3 L.s L.dom L.N L.step c i (fixNode L.tgt L.lit L.em r) = some w ∧ Rel v w (tagOf T tg τ r) := by
  by_cases ht : r.ty = .tmp
  · obtain ⟨hp, hlt⟩ := h3 ht
    unfold readN at hv
    rw [if_neg (by rw [ht]; decide), ht, hp] at hv
    obtain ⟨w, hw, hr⟩ := hS.tmp _ _ hlt hv
    refine ⟨w, ?_, ?_⟩
    · unfold fixNode meaning
      simp only [ht, sameTy]
      exact hw
    · unfold tagOf
      simp only [ht]
      exact hr
  by_cases he : r.ty = .exp
  · unfold readN at hv
    rw [if_neg (by rw [he]; decide), he] at hv
    have htag : tagOf T tg τ r = T r.id := by
      unfold tagOf
      simp only [he]
    rw [htag]
    cases htg : L.tgt r.id with
    | none =>
      obtain ⟨w, hw, hr⟩ := hS.un _ _ _ (h4 he htg) htg hv
      refine ⟨w, ?_, hr⟩
      unfold fixNode meaning
      simp only [he, htg]
      exact hw
    | some tk =>
      obtain ⟨t, k⟩ := tk
      obtain ⟨hty, col, hcol⟩ := hL.tgtTy _ _ _ htg
      obtain ⟨hH, -⟩ := hS.reg _ _ _ _ _ hcol hv
      obtain ⟨w, hw, hr⟩ := hH.read (hL.dim _ _ _ hcol)
      rw [← hL.tag _ _ hcol] at hr
      refine ⟨w, ?_, hr⟩
      have hnc : ∀ p, nodeCol L.s L.dom ({ ty := t, id := k, prime := p } : Interp.Node F3G) = some col := by
        intro p
        have hcol' : (L.tgt r.id).bind (fun tk => nodeCol L.s L.dom ({ ty := tk.1, id := tk.2 } : Interp.Node F3G)) = some col := hcol
        rw [htg, Option.bind_some] at hcol'
        rw [← hcol']
        rfl
      unfold fixNode meaning
      simp only [he, htg]
      rcases hty with rfl | rfl
      · simp only
        rw [hnc, Option.bind_some]
        exact hw
      · simp only
        rw [hnc, Option.bind_some]
        exact hw
  · have hr0 : readN σ0 r = some v := by
      unfold readN at hv ⊢
      split_ifs at hv ⊢ with hn
      · exact hv
      · rw [← hS.leaf _ _ _ ht he h1]
        exact hv
    have htag : tagOf T tg τ r = tg r := by
      unfold tagOf
      split
      · contradiction
      · contradiction
      · rfl
    rw [htag]
    exact hleaf ht he v hr0

/-- reading all operands -/
theorem meaning_srcs (hL : LayOk L T t0 t1 Occ c0.mem) {τ : Nat → Nat} {σ : Store K} {c : Interp.Ctx F3G F} (hS : Sim L T X t0 Occ c0 σ0 i τ σ c) :
    ∀ (rs : List (Codegen.Node K)) (vs : List K),
    (∀ r ∈ rs, r.ty ≠ .f ∧ r.ty ≠ .q ∧ (r.ty = .tmp → r.prime = false ∧ r.id < t0) ∧ (r.ty = .exp → L.tgt r.id = none → Occ r.prime r.id)) →
    (∀ r ∈ rs, r.ty ≠ .tmp → r.ty ≠ .exp → ∀ v, readN σ0 r = some v →
      ∃ w, meaning algF3 L.s L.dom L.N L.step c i (fixNode L.tgt L.lit L.em r) = some w ∧ Rel v w (tg r)) →
    rs.mapM (readN σ) = some vs →
    ∃ ws, (rs.map (fixNode L.tgt L.lit L.em)).mapM (meaning algF3 L.s L.dom L.N L.step c i) = some ws ∧ ws.length = (rs.map (tagOf T tg τ)).length ∧
      List.Forall₂ (fun v wd => Rel v wd.1 wd.2) vs (ws.zip (rs.map (tagOf T tg τ)))
  | [], vs, _, _, h => by
    simp only [List.mapM_nil, Option.pure_def, Option.some.injEq] at h
    subst h
    exact ⟨[], rfl, rfl, by simp⟩
  | r :: rs, vs, h1, h2, h => by
    simp only [List.mapM_cons, Option.bind_eq_bind, Option.pure_def] at h
    obtain ⟨v, hv, h⟩ := Option.bind_eq_some_iff.mp h
    obtain ⟨vs', hvs, h⟩ := Option.bind_eq_some_iff.mp h
    obtain rfl := Option.some.inj h
    obtain ⟨a1, -, a3, a4⟩ := h1 r (by simp)
    obtain ⟨w, hw, hr⟩ := meaning_src hL hS a1 a3 a4 (h2 r (by simp)) hv
    obtain ⟨ws, hws, hlen, hf⟩ := meaning_srcs hL hS rs vs' (fun x hx => h1 x (by simp [hx])) (fun x hx => h2 x (by simp [hx])) hvs
    refine ⟨w :: ws, ?_, by simp [hlen], ?_⟩
    · simp only [List.map_cons, List.mapM_cons, Option.bind_eq_bind, Option.pure_def, hw, hws, Option.bind_some]
    · simp only [List.map_cons, List.zip_cons_cons]
      exact .cons hr hf

theorem cell_inj {w a b k l : Nat} (hk : k < w) (hl : l < w) (h : a * w + k = b * w + l) : a = b ∧ k = l := by
  have h1 : (k + a * w) / w = (l + b * w) / w := by rw [show k + a * w = l + b * w by omega]
  rw [Nat.add_mul_div_right _ _ (by omega), Nat.add_mul_div_right _ _ (by omega), Nat.div_eq_of_lt hk, Nat.div_eq_of_lt hl] at h1
  have h2 : a = b := by omega
  subst h2
  omega

/-- a write does not change another column, or another row of the same column -/
theorem write_other {m m' : Sec → List F3G} {col col' : Col} {r r' : Nat} {w : F3G} (h : writeCol algF3 m col r w = some m')
    (hf : col.pos + col.dim ≤ col.width) (hf' : col'.pos + col'.dim ≤ col'.width)
    (hd : (col.sec ≠ col'.sec ∨ (col.width = col'.width ∧ (col.pos + col.dim ≤ col'.pos ∨ col'.pos + col'.dim ≤ col.pos))) ∨ (col' = col ∧ r' ≠ r)) :
    ∀ j < col'.dim, cell (m' col'.sec) col'.width r' (col'.pos + j) = cell (m col'.sec) col'.width r' (col'.pos + j) := by
  intro j hj
  unfold cell
  refine Interp.writeCol_frame algF3 h _ _ ?_
  rintro ⟨hs, h1, h2⟩
  have key : col.width = col'.width → r' = r ∧ col.pos ≤ col'.pos + j ∧ col'.pos + j < col.pos + col.dim := by
    intro hw
    rw [hw] at h1 h2 hf
    have := cell_inj (w := col'.width) (a := r') (b := r) (k := col'.pos + j) (l := r' * col'.width + (col'.pos + j) - r * col'.width) (by omega) (by omega) (by omega)
    obtain ⟨rfl, -⟩ := this
    omega
  rcases hd with (hd | ⟨hw, hd⟩) | ⟨rfl, hr⟩
  · exact hd hs.symm
  · have := key hw
    omega
  · exact hr (key rfl).1

/-- storing a value in its column -/
theorem sim_col (hL : LayOk L T t0 t1 Occ c0.mem) {τ : Nat → Nat} {σ : Store K} {c : Interp.Ctx F3G F} (hS : Sim L T X t0 Occ c0 σ0 i τ σ c) (hi : i < L.N)
    {d : Codegen.Node K} {col : Col} (hty : d.ty = .exp ∨ d.ty = .f) (hcol : L.col d.ty d.id = some col) {v : K} {w : F3G} (hw : Rel v w col.dim)
    (hX : v = X d.ty d.id (rowOf L.N L.step d.prime i)) :
    ∃ m', writeCol algF3 c.mem col (rowOf L.N L.step d.prime i) w = some m' ∧ Sim L T X t0 Occ c0 σ0 i τ (σ.set d v) { c with mem := m' } := by
  have hd := hL.dim _ _ _ hcol
  obtain ⟨hf1, hf2⟩ := hL.fit _ _ _ hcol
  have hr : rowOf L.N L.step d.prime i < L.N := rowOf_lt hi
  have hfr := hS.fresh _ _ _ hcol _ hr
  rw [← hX] at hfr
  obtain ⟨m', h1, h2, h3⟩ := write_hold (N := L.N) hw hd hf1 (by rw [hS.frame.len]; exact hf2) hr hfr
  have hoth : ∀ ty id col' r', L.col ty id = some col' → ¬(ty = d.ty ∧ id = d.id ∧ r' = rowOf L.N L.step d.prime i) →
      ∀ j < col'.dim, cell (m' col'.sec) col'.width r' (col'.pos + j) = cell (c.mem col'.sec) col'.width r' (col'.pos + j) := by
    intro ty id col' r' hc' hne
    refine write_other h1 hf1 (hL.fit _ _ _ hc').1 ?_
    by_cases he : d.ty = ty ∧ d.id = id
    · obtain ⟨e1, e2⟩ := he
      subst e1 e2
      rw [hcol] at hc'
      exact .inr ⟨(Option.some.inj hc').symm, fun h => hne ⟨rfl, rfl, h⟩⟩
    · exact .inl (hL.disj _ _ _ _ _ _ hcol hc' he)
  have htmp : m' .tmp = c.mem .tmp := by
    refine List.ext_getElem? fun k => ?_
    exact Interp.writeCol_frame algF3 h1 _ _ (by rintro ⟨h, -⟩; exact hL.sec _ _ _ hcol h.symm)
  have hold : ∀ ty id col' r', L.col ty id = some col' → Hold c.mem col' r' (X ty id r') → Hold m' col' r' (X ty id r') := by
    intro ty id col' r' hc' hh
    by_cases he : ty = d.ty ∧ id = d.id ∧ r' = rowOf L.N L.step d.prime i
    · obtain ⟨e1, e2, e3⟩ := he
      subst e1 e2 e3
      rw [hcol] at hc'
      obtain rfl := Option.some.inj hc'
      rw [← hX]
      exact h2
    · exact Hold.congr (hL.dim _ _ _ hc') (hoth _ _ _ _ hc' he) hh
  refine ⟨m', h1, ?_, ?_, ?_, ?_, ?_, ?_, ?_⟩
  · intro t v' ht hv
    dsimp only
    rw [htmp]
    refine hS.tmp t v' ht ?_
    unfold Store.set at hv
    rw [if_neg (by rintro ⟨h, -⟩; rcases hty with e | e <;> rw [e] at h <;> cases h)] at hv
    exact hv
  · intro p id v' ho hn hv
    dsimp only
    rw [htmp]
    refine hS.un p id v' ho hn ?_
    unfold Store.set at hv
    rw [if_neg] at hv
    · exact hv
    · rintro ⟨e1, e2, -⟩
      rw [← e1, ← e2] at hcol
      have : (L.tgt id).bind (fun tk => nodeCol L.s L.dom ({ ty := tk.1, id := tk.2 } : Interp.Node F3G)) = some col := hcol
      rw [hn] at this
      cases this
  · intro ty id p v' col' hc' hv
    dsimp only
    unfold Store.set at hv
    by_cases he : ty = d.ty ∧ id = d.id ∧ p = d.prime
    · rw [if_pos he] at hv
      obtain ⟨e1, e2, e3⟩ := he
      subst e1 e2 e3
      rw [hcol] at hc'
      obtain rfl := Option.some.inj hc'
      obtain rfl := Option.some.inj hv
      exact ⟨h2, hX⟩
    · rw [if_neg he] at hv
      obtain ⟨g1, g2⟩ := hS.reg _ _ _ _ _ hc' hv
      refine ⟨?_, g2⟩
      rw [g2] at g1 ⊢
      exact hold _ _ _ _ hc' g1
  · intro t k p g1 g2 g3
    rw [← hS.leaf t k p g1 g2 g3]
    unfold Store.set
    rw [if_neg (by rintro ⟨h, -⟩; rcases hty with e | e <;> rw [e] at h <;> contradiction)]
  · refine hS.frame.trans ⟨rfl, rfl, rfl, rfl, rfl, h3, fun t k ht hk => ?_⟩
    refine Interp.writeCol_frame algF3 h1 _ _ ?_
    rintro ⟨h, g⟩
    exact hk _ _ _ hcol h _ hr g
  · intro ty id col' hc' r' hr'
    dsimp only
    rcases hS.fresh _ _ _ hc' _ hr' with hb | hh
    · by_cases he : ty = d.ty ∧ id = d.id ∧ r' = rowOf L.N L.step d.prime i
      · obtain ⟨e1, e2, e3⟩ := he
        subst e1 e2 e3
        rw [hcol] at hc'
        obtain rfl := Option.some.inj hc'
        rw [← hX]
        exact .inr h2
      · exact .inl (Blank.congr (hoth _ _ _ _ hc' he) hb)
    · exact .inr (hold _ _ _ _ hc' hh)
  · intro ty id col' r' hc' hr'
    dsimp only
    by_cases he : ty = d.ty ∧ id = d.id ∧ r' = rowOf L.N L.step d.prime i
    · obtain ⟨e1, e2, e3⟩ := he
      subst e1 e2 e3
      rw [hcol] at hc'
      obtain rfl := Option.some.inj hc'
      rw [← hX]
      exact .inr h2
    · rcases hS.keep _ _ _ _ hc' hr' with hs | hh
      · exact .inl fun j hj => (hoth _ _ _ _ hc' he j hj).trans (hs j hj)
      · exact .inr (hold _ _ _ _ hc' hh)

/-- storing a value in a temporary: `key` is the register of the temporary `k` -/
theorem sim_tmp (hL : LayOk L T t0 t1 Occ c0.mem) {τ : Nat → Nat} {σ : Store K} {c : Interp.Ctx F3G F} (hS : Sim L T X t0 Occ c0 σ0 i τ σ c)
    {d : Codegen.Node K} {k dm : Nat} {v : K} {w : F3G} (hw : Rel v w dm) (hk : k < t1)
    (hd : (d.ty = .tmp ∧ d.prime = false ∧ k = d.id ∧ d.id < t0) ∨ (d.ty = .exp ∧ L.tgt d.id = none ∧ Occ d.prime d.id ∧ k = L.em d.prime d.id ∧ dm ≤ T d.id)) :
    k < (c.mem .tmp).length ∧ Sim L T X t0 Occ c0 σ0 i (if d.ty = .tmp then Function.update τ d.id dm else τ) (σ.set d v)
      { c with mem := Function.update c.mem .tmp ((c.mem .tmp).set k w) } := by
  have hlen : k < (c.mem .tmp).length := by
    rw [hS.frame.len]
    exact lt_of_lt_of_le hk hL.tmps
  have hsec : ∀ t, t ≠ .tmp → Function.update c.mem .tmp ((c.mem .tmp).set k w) t = c.mem t := fun t ht => Function.update_of_ne ht _ _
  have hcell : ∀ ty id col r j, L.col ty id = some col →
      cell (Function.update c.mem .tmp ((c.mem .tmp).set k w) col.sec) col.width r j = cell (c.mem col.sec) col.width r j := by
    intro ty id col r j hc
    rw [hsec _ (hL.sec _ _ _ hc)]
  have hold : ∀ ty id col r v', L.col ty id = some col → Hold c.mem col r v' → Hold (Function.update c.mem .tmp ((c.mem .tmp).set k w)) col r v' :=
    fun ty id col r v' hc hh => Hold.congr (hL.dim _ _ _ hc) (fun j _ => hcell _ _ _ _ _ hc) hh
  refine ⟨hlen, ?_, ?_, ?_, ?_, ?_, ?_, ?_⟩
  · intro t v' ht hv
    dsimp only
    rw [Function.update_self]
    unfold Store.set at hv
    rcases hd with ⟨e1, e2, e3, e4⟩ | ⟨e1, -, e3, e4, -⟩
    · rw [if_pos e1]
      by_cases he : t = d.id
      · rw [if_pos ⟨e1.symm, he, e2.symm⟩] at hv
        obtain rfl := Option.some.inj hv
        refine ⟨w, ?_, ?_⟩
        · rw [he, ← e3]
          exact List.getElem?_set_self hlen
        · rw [he, Function.update_self]
          exact hw
      · rw [if_neg (by rintro ⟨-, h, -⟩; exact he h)] at hv
        obtain ⟨w', hw', hr⟩ := hS.tmp t v' ht hv
        refine ⟨w', ?_, ?_⟩
        · rw [List.getElem?_set_ne (by omega)]
          exact hw'
        · rw [Function.update_of_ne he]
          exact hr
    · rw [if_neg (by rintro ⟨h, -⟩; rw [e1] at h; cases h)] at hv
      obtain ⟨w', hw', hr⟩ := hS.tmp t v' ht hv
      have := hL.occ _ _ e3
      refine ⟨w', ?_, ?_⟩
      · rw [List.getElem?_set_ne (by omega)]
        exact hw'
      · rw [if_neg (by rw [e1]; decide)]
        exact hr
  · intro p id v' ho hn hv
    dsimp only
    rw [Function.update_self]
    unfold Store.set at hv
    rcases hd with ⟨e1, e2, e3, e4⟩ | ⟨e1, -, e3, e4, e5⟩
    · rw [if_neg (by rintro ⟨h, -⟩; rw [e1] at h; cases h)] at hv
      obtain ⟨w', hw', hr⟩ := hS.un p id v' ho hn hv
      have := hL.occ _ _ ho
      refine ⟨w', ?_, hr⟩
      rw [List.getElem?_set_ne (by omega)]
      exact hw'
    · by_cases he : id = d.id ∧ p = d.prime
      · rw [if_pos ⟨e1.symm, he⟩] at hv
        obtain rfl := Option.some.inj hv
        refine ⟨w, ?_, ?_⟩
        · rw [he.1, he.2, ← e4]
          exact List.getElem?_set_self hlen
        · rw [he.1]
          exact hw.mono e5
      · rw [if_neg (by rintro ⟨-, h⟩; exact he h)] at hv
        obtain ⟨w', hw', hr⟩ := hS.un p id v' ho hn hv
        refine ⟨w', ?_, hr⟩
        rw [List.getElem?_set_ne]
        · exact hw'
        · intro h
          rw [e4] at h
          obtain ⟨g1, g2⟩ := hL.inj _ _ _ _ e3 ho h
          exact he ⟨g2.symm, g1.symm⟩
  · intro ty id p v' col hc hv
    have hv' : σ ty id p = some v' := by
      unfold Store.set at hv
      rw [if_neg] at hv
      · exact hv
      · rintro ⟨h1, h2, h3⟩
        rcases hd with ⟨e1, -⟩ | ⟨e1, e2, -⟩
        · rw [h1, e1] at hc
          cases hc
        · rw [h1, e1, h2] at hc
          have : (L.tgt d.id).bind (fun tk => nodeCol L.s L.dom ({ ty := tk.1, id := tk.2 } : Interp.Node F3G)) = some col := hc
          rw [e2] at this
          cases this
    obtain ⟨g1, g2⟩ := hS.reg _ _ _ _ _ hc hv'
    exact ⟨hold _ _ _ _ _ hc g1, g2⟩
  · intro t k' p g1 g2 g3
    rw [← hS.leaf t k' p g1 g2 g3]
    unfold Store.set
    rw [if_neg]
    rintro ⟨h, -⟩
    rcases hd with ⟨e1, -⟩ | ⟨e1, -⟩ <;> rw [e1] at h <;> contradiction
  · refine hS.frame.trans ⟨rfl, rfl, rfl, rfl, rfl, fun t => ?_, fun t k' ht _ => ?_⟩
    · dsimp only
      by_cases ht : t = .tmp
      · subst ht
        rw [Function.update_self, List.length_set]
      · rw [hsec t ht]
    · dsimp only
      rw [hsec t ht]
  · intro ty id col hc r hr
    rcases hS.fresh _ _ _ hc _ hr with hb | hh
    · exact .inl (Blank.congr (fun j _ => hcell _ _ _ _ _ hc) hb)
    · exact .inr (hold _ _ _ _ _ hc hh)
  · intro ty id col r hc hr
    rcases hS.keep _ _ _ _ hc hr with hs | hh
    · exact .inl fun j hj => (hcell _ _ _ _ _ hc).trans (hs j hj)
    · exact .inr (hold _ _ _ _ _ hc hh)

/-! ### One row -/

/-- a register that is not written keeps its value -/
theorem exec_keep : ∀ (code : List (Codegen.Instr K)) (σ σ' : Store K), exec (fieldOps K) code σ = some σ' → ∀ t k p,
    (∀ ins ∈ code, ¬(ins.dest.ty = t ∧ ins.dest.id = k ∧ ins.dest.prime = p)) → σ' t k p = σ t k p
  | [], σ, σ', h, t, k, p, _ => by
    obtain rfl := Option.some.inj h
    rfl
  | ins :: code, σ, σ', h, t, k, p, hn => by
    have h' : (Codegen.Spec.step (fieldOps K) σ ins).bind (fun σ1 => exec (fieldOps K) code σ1) = some σ' := h
    obtain ⟨σ1, h1, h2⟩ := Option.bind_eq_some_iff.mp h'
    rw [exec_keep code σ1 σ' h2 t k p fun x hx => hn x (by simp [hx])]
    unfold Codegen.Spec.step at h1
    obtain ⟨vs, -, h1⟩ := Option.bind_eq_some_iff.mp h1
    obtain ⟨v, -, rfl⟩ := Option.map_eq_some_iff.mp h1
    unfold Store.set
    rw [if_neg]
    rintro ⟨e1, e2, e3⟩
    exact hn ins (by simp) ⟨e1.symm, e2.symm, e3.symm⟩

/-- what the operands that are neither temporaries nor expressions read in the buffers -/
def LeafOk (L : Lay) (tg : Codegen.Node K → Nat) (c0 : Interp.Ctx F3G F) (σ0 : Store K) (i : Nat) (code : List (Codegen.Instr K)) : Prop :=
  ∀ c, Frame L c0 c → ∀ ins ∈ code, ∀ r ∈ ins.src, r.ty ≠ .tmp → r.ty ≠ .exp → ∀ v, readN σ0 r = some v →
    ∃ w, meaning algF3 L.s L.dom L.N L.step c i (fixNode L.tgt L.lit L.em r) = some w ∧ Rel v w (tg r)

theorem rel_three {v : K} {w : F3G} {d : Nat} (h : Rel v w d) : Rel v w 3 := by
  refine ⟨h.wf, h.val, ?_⟩
  rcases h.wf with h | ⟨h, -, -⟩ <;> omega

/-- **The code at one row.** -/
theorem run_row (hL : LayOk L T t0 t1 Occ c0.mem) (hi : i < L.N) : ∀ (code : List (Codegen.Instr K)) (τ : Nat → Nat) (σ σf : Store K) (c : Interp.Ctx F3G F),
    Sim L T X t0 Occ c0 σ0 i τ σ c → exec (fieldOps K) code σ = some σf → (∀ ins ∈ code, InsOk L t0 Occ ins) → Once code → Tagged T tg τ code →
    LeafOk L tg c0 σ0 i code →
    (∀ ty id p v col, L.col ty id = some col → σf ty id p = some v → v = X ty id (rowOf L.N L.step p i)) →
    ∃ τ' c', run algF3 L.s L.dom L.N L.step (code.map (fixInstr L.tgt L.lit L.em)) c i = some c' ∧ Sim L T X t0 Occ c0 σ0 i τ' σf c'
  | [], τ, σ, σf, c, hS, h, _, _, _, _, _ => by
    obtain rfl := Option.some.inj h
    exact ⟨τ, c, rfl, hS⟩
  | ins :: code, τ, σ, σf, c, hS, h, hok, honce, htag, hleaf, hX => by
    have h' : (Codegen.Spec.step (fieldOps K) σ ins).bind (fun σ1 => exec (fieldOps K) code σ1) = some σf := h
    obtain ⟨σ1, h1, h2⟩ := Option.bind_eq_some_iff.mp h'
    have hins := hok ins (by simp)
    unfold Codegen.Spec.step at h1
    obtain ⟨vs, hvs, h1⟩ := Option.bind_eq_some_iff.mp h1
    obtain ⟨v, hv, rfl⟩ := Option.map_eq_some_iff.mp h1
    obtain ⟨ws, hws, hlen, hrel⟩ := meaning_srcs (tg := tg) hL hS ins.src vs hins.src (fun r hr => hleaf c hS.frame ins (by simp) r hr) hvs
    obtain ⟨w, hw, hr⟩ := apply_rel hins.op hrel hlen hv
    have hstep : ∀ c1, store algF3 L.s L.dom L.N L.step c i (fixNode L.tgt L.lit L.em ins.dest) w = some c1 →
        stepI algF3 L.s L.dom L.N L.step i c (fixInstr L.tgt L.lit L.em ins) = some c1 := by
      intro c1 hc1
      unfold stepI fixInstr
      simp only [Option.bind_eq_bind, hws, Option.bind_some, hw]
      exact hc1
    have hfin : ins.dest.ty ≠ .tmp → σf ins.dest.ty ins.dest.id ins.dest.prime = some v := by
      intro hne
      rw [exec_keep code _ _ h2 _ _ _ fun x hx => ?_]
      · unfold Store.set
        rw [if_pos ⟨rfl, rfl, rfl⟩]
      · rintro ⟨e1, e2, e3⟩
        exact (List.pairwise_cons.mp honce).1 x hx (by rw [e1]; exact hne) ⟨e1.symm, e2.symm, e3.symm⟩
    have hrest : ∀ τ1 c1, Sim L T X t0 Occ c0 σ0 i τ1 (σ.set ins.dest v) c1 → Tagged T tg τ1 code →
        store algF3 L.s L.dom L.N L.step c i (fixNode L.tgt L.lit L.em ins.dest) w = some c1 →
        ∃ τ' c', run algF3 L.s L.dom L.N L.step ((ins :: code).map (fixInstr L.tgt L.lit L.em)) c i = some c' ∧ Sim L T X t0 Occ c0 σ0 i τ' σf c' := by
      intro τ1 c1 hS1 ht1 hc1
      obtain ⟨τ', c', hrun, hS'⟩ := run_row hL hi code τ1 _ σf c1 hS1 h2 (fun x hx => hok x (by simp [hx])) (List.pairwise_cons.mp honce).2 ht1
        (fun c hc x hx => hleaf c hc x (by simp [hx])) hX
      refine ⟨τ', c', ?_, hS'⟩
      unfold run at hrun ⊢
      rw [List.map_cons, List.foldlM_cons, hstep c1 hc1]
      exact hrun
    rcases hins.dest with ⟨e1, e2, e3⟩ | ⟨e1, e2⟩ | ⟨e1, e2, col, hcol⟩
    · obtain ⟨g1, g2⟩ := sim_tmp hL hS (d := ins.dest) hr (lt_of_lt_of_le e3 hL.le) (.inl ⟨e1, e2, rfl, e3⟩)
      rw [if_pos e1] at g2
      refine hrest _ _ g2 ?_ ?_
      · unfold Tagged at htag
        rw [e1] at htag
        exact htag
      · unfold fixNode store
        simp only [e1, sameTy]
        rw [if_pos g1]
    · unfold Tagged at htag
      rw [e1] at htag
      dsimp only at htag
      cases htg : L.tgt ins.dest.id with
      | none =>
        have ho := e2 htg
        obtain ⟨g1, g2⟩ := sim_tmp hL hS (d := ins.dest) hr (hL.occ _ _ ho).2 (.inr ⟨e1, htg, ho, rfl, htag.1⟩)
        rw [if_neg (by rw [e1]; decide)] at g2
        refine hrest _ _ g2 htag.2 ?_
        unfold fixNode store
        simp only [e1, htg]
        rw [if_pos g1]
      | some tk =>
        obtain ⟨t, k⟩ := tk
        obtain ⟨hty, col, hcol⟩ := hL.tgtTy _ _ _ htg
        have hcol2 : L.col ins.dest.ty ins.dest.id = some col := by rw [e1]; exact hcol
        have hXv := hX _ _ _ _ _ hcol2 (hfin (by rw [e1]; decide))
        obtain ⟨m', g1, g2⟩ := sim_col hL hS hi (.inl e1) hcol2 (hr.mono (by rw [← hL.tag _ _ hcol]; exact htag.1)) hXv
        refine hrest _ _ g2 htag.2 ?_
        have hnc : ∀ p, nodeCol L.s L.dom ({ ty := t, id := k, prime := p } : Interp.Node F3G) = some col := by
          intro p
          have hcol' : (L.tgt ins.dest.id).bind (fun tk => nodeCol L.s L.dom ({ ty := tk.1, id := tk.2 } : Interp.Node F3G)) = some col := hcol
          rw [htg, Option.bind_some] at hcol'
          rw [← hcol']
          rfl
        unfold fixNode store
        simp only [e1, htg]
        rcases hty with rfl | rfl
        · simp only
          rw [hnc, Option.bind_some, g1]
          rfl
        · simp only
          rw [hnc, Option.bind_some, g1]
          rfl
    · unfold Tagged at htag
      rw [e1] at htag
      have hcol2 : L.col ins.dest.ty ins.dest.id = some col := by rw [e1]; exact hcol
      have hXv := hX _ _ _ _ _ hcol2 (hfin (by rw [e1]; decide))
      have hcol' : nodeCol L.s L.dom ({ ty := .f, id := ins.dest.id } : Interp.Node F3G) = some col := hcol
      have hdim : col.dim = 3 := by
        unfold nodeCol at hcol'
        simp only at hcol'
        split at hcol' <;> simp_all
        rw [← hcol']
      obtain ⟨m', g1, g2⟩ := sim_col hL hS hi (.inr e1) hcol2 (by rw [hdim]; exact rel_three hr) hXv
      refine hrest _ _ g2 htag ?_
      have hnc : ∀ p o, nodeCol L.s L.dom ({ ty := .f, id := ins.dest.id, prime := p, value := o } : Interp.Node F3G) = some col := by
        intro p o
        rw [← hcol']
        rfl
      have hrow : rowOf L.N L.step ins.dest.prime i = i := by rw [e2]; rfl
      rw [hrow] at g1
      unfold fixNode store
      simp only [e1, sameTy]
      rw [hnc, Option.bind_some, g1]
      rfl

/-! ### All rows -/

theorem LayOk.frame {c : Interp.Ctx F3G F} (hL : LayOk L T t0 t1 Occ c0.mem) (hf : Frame L c0 c) : LayOk L T t0 t1 Occ c.mem :=
  ⟨hL.tgtTy, hL.dim, hL.sec, fun ty id col h => by rw [hf.len]; exact hL.fit ty id col h, hL.disj, hL.tag, by rw [hf.len]; exact hL.tmps, hL.le, hL.occ, hL.inj⟩

theorem KeepsCols.refl (L : Lay) (X : NTy → Nat → Nat → K) (m : Sec → List F3G) : KeepsCols L X m m := fun _ _ _ _ _ _ => .inl fun _ _ => rfl

theorem KeepsCols.hold {m m' : Sec → List F3G} (h : KeepsCols L X m m') (hd : ∀ ty id col, L.col ty id = some col → col.dim = 1 ∨ col.dim = 3) {ty : NTy} {id : Nat} {col : Col}
    {r : Nat} (hc : L.col ty id = some col) (hr : r < L.N) (hh : Hold m col r (X ty id r)) : Hold m' col r (X ty id r) := by
  rcases h _ _ _ _ hc hr with hs | hh'
  · exact Hold.congr (hd _ _ _ hc) hs hh
  · exact hh'

theorem KeepsCols.trans {m m' m'' : Sec → List F3G} (h : KeepsCols L X m m') (hd : ∀ ty id col, L.col ty id = some col → col.dim = 1 ∨ col.dim = 3)
    (h' : KeepsCols L X m' m'') : KeepsCols L X m m'' := by
  intro ty id col r hc hr
  rcases h' _ _ _ _ hc hr with hs | hh
  · rcases h _ _ _ _ hc hr with hs' | hh
    · exact .inl fun j hj => (hs j hj).trans (hs' j hj)
    · exact .inr (Hold.congr (hd _ _ _ hc) hs hh)
  · exact .inr hh

/-- the registers at the start of a row: no temporaries, and only expressions whose column is already filled -/
structure Start (L : Lay) (X : NTy → Nat → Nat → K) (t0 : Nat) (c0 : Interp.Ctx F3G F) (σ0 : Store K) (i : Nat) : Prop where
  tmp : ∀ t, t < t0 → σ0 .tmp t false = none
  un : ∀ p id, L.tgt id = none → σ0 .exp id p = none
  reg : ∀ ty id p v col, L.col ty id = some col → σ0 ty id p = some v → Hold c0.mem col (rowOf L.N L.step p i) v ∧ v = X ty id (rowOf L.N L.step p i)

/-- **The code at the first `n` rows.** -/
theorem run_rows {σ0 σf : Nat → Store K} {code : List (Codegen.Instr K)} {τ : Nat → Nat} (hL : LayOk L T t0 t1 Occ c0.mem) (hfresh : Fresh L X c0.mem)
    {m : Nat} (hm : m ≤ L.N)
    (hok : ∀ ins ∈ code, InsOk L t0 Occ ins) (honce : Once code) (htag : Tagged T tg τ code)
    (hleaf : ∀ i < m, LeafOk L tg c0 (σ0 i) i code) (hstart : ∀ i < m, Start L X t0 c0 (σ0 i) i)
    (hexec : ∀ i < m, exec (fieldOps K) code (σ0 i) = some (σf i))
    (hX : ∀ i < m, ∀ ty id p v col, L.col ty id = some col → σf i ty id p = some v → v = X ty id (rowOf L.N L.step p i)) :
    ∀ n ≤ m, ∃ c, (List.range n).foldlM (run algF3 L.s L.dom L.N L.step (code.map (fixInstr L.tgt L.lit L.em))) c0 = some c ∧ Frame L c0 c ∧ Fresh L X c.mem ∧
      KeepsCols L X c0.mem c.mem ∧
      ∀ r < n, ∀ ty id p v col, L.col ty id = some col → σf r ty id p = some v → Hold c.mem col (rowOf L.N L.step p r) v := by
  intro n
  induction n with
  | zero => exact fun _ => ⟨c0, rfl, .refl _ _, hfresh, .refl _ _ _, fun r hr => absurd hr (by omega)⟩
  | succ n ih =>
    intro hn
    obtain ⟨c, h1, h2, h3, h4, h5⟩ := ih (by omega)
    have hs := hstart n (by omega)
    have hS : Sim L T X t0 Occ c (σ0 n) n τ (σ0 n) c := by
      refine ⟨fun t v ht hv => ?_, fun p id v _ hn hv => ?_, fun ty id p v col hc hv => ?_, fun _ _ _ _ _ _ => rfl, .refl _ _, h3, .refl _ _ _⟩
      · rw [hs.tmp t ht] at hv; cases hv
      · rw [hs.un p id hn] at hv; cases hv
      · obtain ⟨g1, g2⟩ := hs.reg _ _ _ _ _ hc hv
        refine ⟨?_, g2⟩
        rw [g2] at g1 ⊢
        exact h4.hold hL.dim hc (rowOf_lt (by omega)) g1
    obtain ⟨τ', c', hrun, hS'⟩ := run_row (hL.frame h2) (i := n) (by omega) code τ _ _ c hS (hexec n (by omega)) hok honce htag
      (fun d hd => hleaf n (by omega) d (h2.trans hd)) (hX n (by omega))
    refine ⟨c', ?_, h2.trans hS'.frame, hS'.fresh, h4.trans hL.dim hS'.keep, ?_⟩
    · rw [List.range_succ, List.foldlM_append, h1]
      simp only [Option.bind_eq_bind, Option.bind_some, List.foldlM_cons, List.foldlM_nil, hrun, Option.pure_def]
    · intro r hr ty id p v col hc hv
      by_cases e : r = n
      · subst e
        exact (hS'.reg _ _ _ _ _ hc hv).1
      · have h6 := h5 r (by omega) _ _ _ _ _ hc hv
        have h7 := hX r (by omega) _ _ _ _ _ hc hv
        rw [h7] at h6 ⊢
        exact hS'.keep.hold hL.dim hc (rowOf_lt (by omega)) h6

/-- the meaning of a node depends on the rows it names -/
theorem meaning_rows {s : Info} {dom : Dom} {N step N' step' i : Nat} (h : ∀ p, rowOf N step p i = rowOf N' step' p i) (c : Interp.Ctx F3G F) (r : Interp.Node F3G) :
    meaning algF3 s dom N step c i r = meaning algF3 s dom N' step' c i r := by
  unfold meaning
  rw [h]

theorem stepI_rows {s : Info} {dom : Dom} {N step N' step' i : Nat} (h : ∀ p, rowOf N step p i = rowOf N' step' p i) (c : Interp.Ctx F3G F) (ins : Interp.Instr F3G) :
    stepI algF3 s dom N step i c ins = stepI algF3 s dom N' step' i c ins := by
  unfold stepI store
  rw [h]
  have : meaning algF3 s dom N step c i = meaning algF3 s dom N' step' c i := funext fun r => meaning_rows h c r
  rw [this]

theorem run_rowOf {s : Info} {dom : Dom} {N step N' step' i : Nat} (h : ∀ p, rowOf N step p i = rowOf N' step' p i) (code : List (Interp.Instr F3G)) (c : Interp.Ctx F3G F) :
    run algF3 s dom N step code c i = run algF3 s dom N' step' code c i := by
  unfold run
  have : stepI algF3 s dom N step i = stepI algF3 s dom N' step' i := funext fun c => funext fun ins => stepI_rows h c ins
  rw [this]

theorem foldlM_rows {s : Info} {dom : Dom} {N step N' step' : Nat} {code : List (Interp.Instr F3G)} : ∀ (l : List Nat) (c : Interp.Ctx F3G F),
    (∀ i ∈ l, ∀ p, rowOf N step p i = rowOf N' step' p i) → l.foldlM (run algF3 s dom N step code) c = l.foldlM (run algF3 s dom N' step' code) c
  | [], _, _ => rfl
  | i :: l, c, h => by
    rw [List.foldlM_cons, List.foldlM_cons, run_rowOf (h i (by simp))]
    congr 1
    funext c'
    exact foldlM_rows l c' fun j hj => h j (by simp [hj])

/-- `calculate_exps` on the first `m` rows of buffers of `L.N` rows; the rows named by primed nodes are those of the whole domain. -/
theorem calculate_part {σ0 σf : Nat → Store K} {code : List (Codegen.Instr K)} {τ : Nat → Nat} {c : Interp.Ctx F3G F} {tmpUsed m : Nat}
    (hc0 : c0 = { c with mem := Function.update c.mem .tmp (List.replicate tmpUsed Ext3.ZERO) }) (hm : m ≤ L.N) (hpos : 0 < m)
    (hN : m ≤ Interp.modOf c.nbits c.nbitsExt L.dom)
    (hrow : ∀ i < m, ∀ p, rowOf L.N L.step p i = rowOf (Interp.modOf c.nbits c.nbitsExt L.dom) (Interp.nextOf c.nbits c.nbitsExt L.dom) p i)
    (hL : LayOk L T t0 t1 Occ c0.mem) (hfresh : Fresh L X c0.mem)
    (hok : ∀ ins ∈ code, InsOk L t0 Occ ins) (honce : Once code) (htag : Tagged T tg τ code)
    (hleaf : ∀ i < m, LeafOk L tg c0 (σ0 i) i code) (hstart : ∀ i < m, Start L X t0 c0 (σ0 i) i)
    (hexec : ∀ i < m, exec (fieldOps K) code (σ0 i) = some (σf i))
    (hX : ∀ i < m, ∀ ty id p v col, L.col ty id = some col → σf i ty id p = some v → v = X ty id (rowOf L.N L.step p i)) :
    ∃ c', Interp.calculateExps algF3 L.s (code.map (fixInstr L.tgt L.lit L.em)) tmpUsed L.dom m c = some c' ∧ Frame L c0 c' ∧
      KeepsCols L X c0.mem c'.mem ∧
      ∀ r < m, ∀ ty id p v col, L.col ty id = some col → σf r ty id p = some v → Hold c'.mem col (rowOf L.N L.step p r) v := by
  obtain ⟨c', h1, h2, -, h4, h5⟩ := run_rows hL hfresh hm hok honce htag hleaf hstart hexec hX m (le_refl _)
  refine ⟨c', ?_, h2, h4, h5⟩
  refine Interp.calculateExps_spec algF3 hpos hN ?_
  rw [foldlM_rows _ _ (fun i hi => hrow i (List.mem_range.mp hi)), hc0] at h1
  exact h1

/-- **`calculate_exps` on the fixed code**: every register of the generated code is in its column at every row, and nothing but those
columns and the temporaries has changed. -/
theorem calculate_sim {σ0 σf : Nat → Store K} {code : List (Codegen.Instr K)} {τ : Nat → Nat} {c : Interp.Ctx F3G F} {tmpUsed : Nat}
    (hc0 : c0 = { c with mem := Function.update c.mem .tmp (List.replicate tmpUsed Ext3.ZERO) })
    (hN : L.N = Interp.modOf c.nbits c.nbitsExt L.dom) (hstep : L.step = Interp.nextOf c.nbits c.nbitsExt L.dom) (hpos : 0 < L.N)
    (hL : LayOk L T t0 t1 Occ c0.mem) (hfresh : Fresh L X c0.mem)
    (hok : ∀ ins ∈ code, InsOk L t0 Occ ins) (honce : Once code) (htag : Tagged T tg τ code)
    (hleaf : ∀ i < L.N, LeafOk L tg c0 (σ0 i) i code) (hstart : ∀ i < L.N, Start L X t0 c0 (σ0 i) i)
    (hexec : ∀ i < L.N, exec (fieldOps K) code (σ0 i) = some (σf i))
    (hX : ∀ i < L.N, ∀ ty id p v col, L.col ty id = some col → σf i ty id p = some v → v = X ty id (rowOf L.N L.step p i)) :
    ∃ c', Interp.calculateExps algF3 L.s (code.map (fixInstr L.tgt L.lit L.em)) tmpUsed L.dom L.N c = some c' ∧ Frame L c0 c' ∧
      KeepsCols L X c0.mem c'.mem ∧
      ∀ r < L.N, ∀ ty id p v col, L.col ty id = some col → σf r ty id p = some v → Hold c'.mem col (rowOf L.N L.step p r) v := by
  exact calculate_part hc0 (le_refl _) hpos (le_of_eq hN) (fun i _ p => by rw [← hN, ← hstep]) hL hfresh hok honce htag hleaf hstart hexec hX

end

end Verif.Map
