import Verif.Map.Rows
import Verif.Interp.ParChunks

/-!
# What `calculate_exps_parallel` computes from the buffers

Code generation, `fix_prover_code` and `calculate_exps_parallel` (starky/src/stark_gen.rs L786-965) together, for the programs the code generator
produces.  A generated program may write the column of an expression at the next row, so C42 (destinations at the current row) does not apply to it; here
the chunks are followed one by one.
-/
namespace Verif.Map
open Verif.Codegen
open Verif.Codegen.Spec (Store readN exec Val ExpVal)
open Verif.Interp (Dom Sec Info algF3 Exec ExecOk ChunkOk SameRest cleared chunkCtx modOf nextOf)
open Verif.Interp.Spec (Col rowOf meaning nodeCol readCol readBase cell)
open Verif.Ext3 (F3G K WF val ofF coord)
open Verif.Stark (fieldOps)
open Verif.GL (F)

noncomputable section

variable {L : Lay} {exps : List (Expr K)}

/-! ### Moving rows -/

/-- row `r` of a column in `m` is row `r'` in `m'` -/
def Moved (m m' : Sec → List F3G) (col : Col) (r r' : Nat) : Prop :=
  ∀ j < col.dim, cell (m' col.sec) col.width r' (col.pos + j) = cell (m col.sec) col.width r (col.pos + j)

theorem Hold.move {m m' : Sec → List F3G} {col : Col} {r r' : Nat} {v : K} (hd : col.dim = 1 ∨ col.dim = 3) (h : Moved m m' col r r') (hh : Hold m col r v) :
    Hold m' col r' v := by
  unfold Hold at hh ⊢
  have h0 := h 0 (by omega)
  rw [Nat.add_zero] at h0
  rcases hd with hd | hd
  · rw [if_pos hd] at hh ⊢
    rwa [h0]
  · rw [if_neg (by omega)] at hh ⊢
    rwa [h0, h 1 (by omega), h 2 (by omega)]

theorem Blank.move {m m' : Sec → List F3G} {col : Col} {r r' : Nat} (h : Moved m m' col r r') (hh : Blank m col r) : Blank m' col r' := by
  intro hd
  rw [h 1 (by omega), h 2 (by omega)]
  exact hh hd

theorem readCol_move {m m' : Sec → List F3G} {col : Col} {r r' : Nat} (h : Moved m m' col r r') : readCol algF3 m' col r' = readCol algF3 m col r := by
  unfold readCol
  split_ifs with h1 h3
  · exact h 0 (by omega)
  · have h0 := h 0 (by omega)
    rw [Nat.add_zero] at h0
    rw [h0, h 1 (by omega), h 2 (by omega)]
  · rfl

/-! ### References -/

/-- an expression with a value refers to expressions with values -/
theorem val_refs {σ : Store K} {d : Nat} {p : Bool} {e : Expr K} {v : K} (h : Val (fieldOps K) exps σ d p e v) :
    ∀ l j, HasLabel l e → l.op = .exp → l.id = some j → ∃ v', ExpVal (fieldOps K) exps σ (p || l.next) j v' := by
  have two : ∀ {l l' : Label K} {a b : Expr K}, HasLabel l (.node l' [a, b]) → l.op = .exp → l'.op ≠ .exp → HasLabel l a ∨ HasLabel l b := by
    intro l l' a b h ho hn
    cases h with
    | here => exact absurd ho hn
    | child hm hl =>
      rcases List.mem_cons.mp hm with rfl | hm
      · exact .inl hl
      · rcases List.mem_cons.mp hm with rfl | hm
        · exact .inr hl
        · cases hm
  have one : ∀ {l l' : Label K} {a : Expr K}, HasLabel l (.node l' [a]) → l.op = .exp → l'.op ≠ .exp → HasLabel l a := by
    intro l l' a h ho hn
    cases h with
    | here => exact absurd ho hn
    | child hm hl =>
      rcases List.mem_cons.mp hm with rfl | hm
      · exact hl
      · cases hm
  have leaf : ∀ {l l' : Label K}, HasLabel l (.node l' []) → l = l' := by
    intro l l' h
    cases h with
    | here => rfl
    | child hm _ => cases hm
  induction h with
  | add ho _ _ _ iha ihb =>
    intro l j hl hop hj
    rcases two hl hop (by rw [ho]; simp) with h | h
    · exact iha l j h hop hj
    · exact ihb l j h hop hj
  | sub ho _ _ _ iha ihb =>
    intro l j hl hop hj
    rcases two hl hop (by rw [ho]; simp) with h | h
    · exact iha l j h hop hj
    · exact ihb l j h hop hj
  | mul ho _ _ _ iha ihb =>
    intro l j hl hop hj
    rcases two hl hop (by rw [ho]; simp) with h | h
    · exact iha l j h hop hj
    · exact ihb l j h hop hj
  | muladd ho _ _ _ _ _ iha ihb ihc =>
    intro l j hl hop hj
    cases hl with
    | here => rw [ho] at hop; cases hop
    | child hm hl =>
      rcases List.mem_cons.mp hm with rfl | hm
      · exact iha l j hl hop hj
      · rcases List.mem_cons.mp hm with rfl | hm
        · exact ihb l j hl hop hj
        · rcases List.mem_cons.mp hm with rfl | hm
          · exact ihc l j hl hop hj
          · cases hm
  | addc ho _ _ _ ih => exact fun l j hl hop hj => ih l j (one hl hop (by rw [ho]; simp)) hop hj
  | mulc ho _ _ _ ih => exact fun l j hl hop hj => ih l j (one hl hop (by rw [ho]; simp)) hop hj
  | neg ho _ _ ih => exact fun l j hl hop hj => ih l j (one hl hop (by rw [ho]; simp)) hop hj
  | number ho _ =>
    intro l j hl hop hj
    rw [leaf hl, ho] at hop
    cases hop
  | col ho _ _ _ =>
    intro l j hl hop hj
    rw [← leaf hl, hop] at ho
    cases ho
  | byId ho _ _ =>
    intro l j hl hop hj
    rw [← leaf hl, hop] at ho
    cases ho
  | nullary ho _ =>
    intro l j hl hop hj
    rw [← leaf hl, hop] at ho
    cases ho
  | @exp d p l i e v ho hi hn he hv ih =>
    intro l' j hl hop hj
    obtain rfl := leaf hl
    rw [hi] at hj
    cases hj
    exact ⟨v, d, e, he, by rw [Bool.or_comm]; exact hv⟩

/-- every expression the program needs has a value if the requested ones have -/
theorem needed_val {σ : Store K} {reqs : List Req} (h : ∀ r ∈ reqs, ∃ v, ExpVal (fieldOps K) exps σ r.prime r.id v) {p : Bool} {id : Nat} (hn : Needed exps reqs p id) :
    ∃ v, ExpVal (fieldOps K) exps σ p id v := by
  induction hn with
  | req hr => exact h _ hr
  | ref _ he hl ho hj ih =>
    obtain ⟨v, d, e', he', hv⟩ := ih
    rw [he] at he'
    cases he'
    exact val_refs hv _ _ hl ho hj

/-- the values of the expressions at every row, as a function -/
theorem exists_values (exps : List (Expr K)) (env : Nat → Store K) : ∃ X : NTy → Nat → Nat → K, ∀ id r v, ExpVal (fieldOps K) exps (env r) false id v → X .exp id r = v := by
  classical
  refine ⟨fun ty id r => if h : ty = .exp ∧ ∃ v, ExpVal (fieldOps K) exps (env r) false id v then Classical.choose h.2 else 0, fun id r v h => ?_⟩
  have hh : (NTy.exp = .exp) ∧ ∃ v, ExpVal (fieldOps K) exps (env r) false id v := ⟨rfl, v, h⟩
  show (if h : (NTy.exp = .exp) ∧ ∃ v, ExpVal (fieldOps K) exps (env r) false id v then Classical.choose h.2 else 0) = v
  rw [dif_pos hh]
  exact expVal_unique (Classical.choose_spec hh.2) h

/-! ### What the inputs provide -/

/-- the column is copied into the chunks -/
def InCol (ex : Exec) (col : Col) : Prop := col.sec ∈ ex.inp ∧ col.pos + col.dim ≤ col.width ∧ col.width = ex.width col.sec

/-- Specification: the values `σ` at row `i` are those of the buffers `c`, in sections that the step copies into its chunks. -/
structure Provided (s : Info) (ex : Exec) (n next : Nat) (c : Interp.Ctx F3G F) (i : Nat) (σ : Store K) : Prop where
  le : ∀ t k p v, σ t k p = some v → rowEnv s ex.dom n next c i t k p = some v
  cm : ∀ k p v, σ .cm k p = some v → ∃ col, nodeCol s ex.dom ({ ty := .cm, id := k } : Interp.Node F3G) = some col ∧ InCol ex col
  const_ : ∀ k p v, σ .const_ k p = some v → ∃ col, nodeCol s ex.dom ({ ty := .const_, id := k } : Interp.Node F3G) = some col ∧ InCol ex col
  x : ∀ k p v, σ .x k p = some v → ∃ col, nodeCol s ex.dom ({ ty := .x, id := k } : Interp.Node F3G) = some col ∧ InCol ex col
  noXi : ∀ k p, σ .xDivXSubXi k p = none ∧ σ .xDivXSubWXi k p = none

variable {s : Info} {ex : Exec} {n next start cur : Nat} {g t : Interp.Ctx F3G F}

/-- the rows of a chunk of `cur` rows -/
theorem chunk_rows (hn : start + cur ≤ n) (hc : (start = 0 ∧ cur = n) ∨ cur + next ≤ n) {ρ : Nat} (hρ : ρ < cur) (p : Bool) :
    rowOf (min (cur + next) n) next p ρ = rowOf n next p ρ ∧ rowOf n next p ρ < min (cur + next) n ∧ (start + rowOf n next p ρ) % n = rowOf n next p (start + ρ) := by
  cases p with
  | false =>
    simp only [rowOf, Bool.false_eq_true, if_false]
    exact ⟨trivial, by omega, Nat.mod_eq_of_lt (by omega)⟩
  | true =>
    simp only [rowOf, if_true]
    have h1 := Interp.primed_row hn hc hρ
    refine ⟨?_, ?_, h1.2⟩
    · rcases hc with ⟨rfl, rfl⟩ | hc
      · rw [Nat.min_eq_right (by omega)]
      · rw [Nat.min_eq_left hc, Nat.mod_eq_of_lt (by omega), Nat.mod_eq_of_lt (by omega)]
    · have := Nat.mod_lt (ρ + next) (show n > 0 by omega)
      omega

theorem chunk_moved (h : ChunkOk ex n next start cur g t) {col : Col} (hs : col.sec ∈ ex.inp ++ ex.out) (hf : col.pos + col.dim ≤ col.width)
    (hw : col.width = ex.width col.sec) {r : Nat} (hr : r < cur + next) : Moved g.mem t.mem col ((start + r) % n) r := by
  intro j hj
  unfold cell
  rw [hw]
  exact h.cells col.sec hs r (col.pos + j) hr (by omega)

/-- the rows of a chunk provide what the rows of the buffers provide -/
theorem chunk_env {c : Interp.Ctx F3G F} (h : ChunkOk ex n next start cur (cleared algF3 ex n c) t) (hex : ExecOk ex) (hn : start + cur ≤ n)
    (hc : (start = 0 ∧ cur = n) ∨ cur + next ≤ n) {ρ : Nat} (hρ : ρ < cur) {σ : Store K} (hσ : Provided s ex n next c (start + ρ) σ) (ty : NTy) (k : Nat) (p : Bool) (v : K)
    (hv : σ ty k p = some v) : rowEnv s ex.dom (min (cur + next) n) next t ρ ty k p = some v := by
  have hle := hσ.le ty k p v hv
  obtain ⟨r1, r2, r3⟩ := chunk_rows hn hc hρ p
  obtain ⟨q1, q2, q3⟩ := chunk_rows hn hc hρ false
  have hcol : ∀ {col : Col} {r r' : Nat}, InCol ex col → r < cur + next → (start + r) % n = r' → readCol algF3 t.mem col r = readCol algF3 c.mem col r' := by
    intro col r r' ⟨hi, hf, hw⟩ hr e
    rw [readCol_move (chunk_moved h (List.mem_append.mpr (.inl hi)) hf hw hr), e]
    refine readCol_move fun j _ => ?_
    have : (cleared algF3 ex n c).mem col.sec = c.mem col.sec := if_neg fun hh => hh.2 hi
    rw [this]
  have hscal : ∀ x, x = .evals ∨ x = .publics ∨ x = .challenge → t.mem x = c.mem x := by
    intro x hx
    rw [h.scal x hx]
    refine if_neg fun hh => ?_
    have := hex.outMem x hh.1
    tauto
  cases ty with
  | cm =>
    obtain ⟨col, h1, h2⟩ := hσ.cm k p v hv
    dsimp only [rowEnv] at hle ⊢
    rw [h1, Option.bind_some] at hle ⊢
    rw [r1, hcol h2 (by omega) r3]
    exact hle
  | const_ =>
    obtain ⟨col, h1, h2⟩ := hσ.const_ k p v hv
    dsimp only [rowEnv] at hle ⊢
    rw [h1, Option.bind_some] at hle ⊢
    rw [r1, hcol h2 (by omega) r3]
    exact hle
  | x =>
    obtain ⟨col, h1, h2⟩ := hσ.x k p v hv
    dsimp only [rowEnv] at hle ⊢
    rw [h1, Option.bind_some] at hle ⊢
    have e : (start + ρ) % n = start + ρ := q3
    rw [hcol h2 (by omega) e]
    exact hle
  | public_ =>
    dsimp only [rowEnv] at hle ⊢
    rw [hscal _ (by simp)]
    exact hle
  | challenge =>
    dsimp only [rowEnv] at hle ⊢
    rw [hscal _ (by simp)]
    exact hle
  | eval =>
    dsimp only [rowEnv] at hle ⊢
    rw [hscal _ (by simp)]
    exact hle
  | xDivXSubXi => rw [(hσ.noXi k p).1] at hv; cases hv
  | xDivXSubWXi => rw [(hσ.noXi k p).2] at hv; cases hv
  | _ => cases hle

theorem cleared_cells {c : Interp.Ctx F3G F} (h : CellsOk c) : CellsOk (cleared algF3 ex n c) := by
  refine ⟨fun x hx w hw => ?_, fun x hx w hw => ?_⟩ <;> simp only [cleared] at hw <;> split at hw
  · exact ⟨0, (List.mem_replicate.mp hw).2⟩
  · exact h.base x hx w hw
  · rw [(List.mem_replicate.mp hw).2]
    exact .inr ⟨rfl, rfl, rfl⟩
  · exact h.ext x hx w hw

theorem chunk_cells (h : ChunkOk ex n next start cur g t) (hg : CellsOk g) : CellsOk t := by
  refine ⟨fun x hx w hw => ?_, fun x hx w hw => ?_⟩
  · by_cases hio : x ∈ ex.inp ++ ex.out
    · obtain ⟨k, hk, rfl⟩ := List.getElem_of_mem hw
      have hl := h.len x hio
      have hk' := hk
      rw [hl] at hk'
      have hw0 : 0 < ex.width x := by
        rcases Nat.eq_zero_or_pos (ex.width x) with e | e
        · rw [e] at hk'; omega
        · exact e
      have hρ : k / ex.width x < cur + next := Nat.div_lt_of_lt_mul (by rw [Nat.mul_comm]; exact hk')
      have hc := h.cells x hio (k / ex.width x) (k % ex.width x) hρ (Nat.mod_lt _ hw0)
      rw [Nat.mul_comm (k / ex.width x), Nat.div_add_mod, List.getElem?_eq_getElem hk] at hc
      exact hg.base x hx _ (List.mem_of_getElem? hc.symm)
    · by_cases hp : x = .publics
      · rw [h.scal x (.inr (.inl hp))] at hw
        exact hg.base x hx w hw
      · have := h.rest x hio (fun e => hx (by simp [extSec, e])) hp (fun e => hx (by simp [extSec, e]))
        rw [this] at hw
        cases hw
  · rw [h.scal x (by tauto)] at hw
    exact hg.ext x hx w hw

/-! ### One chunk -/

/-- the layout of a chunk -/
def Lay.part (L : Lay) (N : Nat) : Lay := { L with N := N }

/-- A chunk of `cur` rows from row `start`: every row of a column is afterwards as before or holds its value, the requested columns hold theirs. -/
theorem chunk_program {c t : Interp.Ctx F3G F} {T : Nat → Nat} {X : NTy → Nat → Nat → K} {σ : Nat → Store K} {fuel t0 m nCols tU : Nat} {reqs : List Req} {ctx : Codegen.Ctx K}
    {out : List (Interp.Instr F3G)} (hex : ExecOk ex)
    (hgen : genAll 0 exps fuel reqs ⟨t0, [], []⟩ = some ctx) (hfix : fixProverCode L.tgt nCols L.lit ctx.tmpUsed (linearCode ctx) = some (out, tU)) (hm : tU ≤ m)
    (hreqs : ∀ r ∈ reqs, r.prime = false ∧ r.res = none ∧ r.muladd = false)
    (hops : PlainOps exps (Needed exps reqs)) (hdim : DimOk exps (Needed exps reqs) T (leafTag L.s L.dom L.lit))
    (hlit : ∀ v, WF (L.lit v) ∧ val (L.lit v) = v)
    (hdom : L.dom = ex.dom) (hN : L.N = modOf c.nbits c.nbitsExt ex.dom) (hstep : L.step = nextOf c.nbits c.nbitsExt ex.dom)
    (hplace : PlaceOk L T (cleared algF3 ex L.N c).mem) (hwid : ∀ ty id col, L.col ty id = some col → col.sec ∈ ex.out ∧ col.width = ex.width col.sec)
    (hread : ReadOk L exps (Needed exps reqs)) (hcells : CellsOk c) (hfresh : Fresh L X (cleared algF3 ex L.N c).mem)
    (hσ : ∀ i < L.N, Provided L.s ex L.N L.step c i (σ i))
    (hval : ∀ i < L.N, ∀ r ∈ reqs, ∃ d e v, d < fuel ∧ exps[r.id]? = some e ∧ Val (fieldOps K) exps (σ i) d false e v)
    (hX : ∀ p id i v, Needed exps reqs p id → i < L.N → ExpVal (fieldOps K) exps (σ i) p id v → X .exp id (rowOf L.N L.step p i) = v)
    {start cur : Nat} (hpos : 0 < cur) (hsc : start + cur ≤ L.N) (hcc : (start = 0 ∧ cur = L.N) ∨ cur + L.step ≤ L.N)
    (hch : ChunkOk ex L.N L.step start cur (cleared algF3 ex L.N c) t) :
    ∃ t', Interp.calculateExps algF3 L.s out m ex.dom cur t = some t' ∧
      KeepsCols (L.part (min (cur + L.step) L.N)) (fun ty id ρ => X ty id ((start + ρ) % L.N)) t.mem t'.mem ∧
      Frame (L.part (min (cur + L.step) L.N)) (withTmp t m) t' ∧
      ∀ r ∈ reqs, ∀ col, L.col .exp r.id = some col → ∀ ρ < cur, Hold t'.mem col ρ (X .exp r.id ((start + ρ) % L.N)) := by
  have hcol : ∀ ty id, (L.part (min (cur + L.step) L.N)).col ty id = L.col ty id := fun ty id => by cases ty <;> rfl
  have hnb : modOf t.nbits t.nbitsExt ex.dom = L.N := by rw [hch.nbits, hch.nbitsExt, hN]; rfl
  have hnx : nextOf t.nbits t.nbitsExt ex.dom = L.step := by rw [hch.nbits, hch.nbitsExt, hstep]; rfl
  have henv : ∀ ρ < cur, ∀ ty k p v, σ (start + ρ) ty k p = some v → rowEnv L.s L.dom (min (cur + L.step) L.N) L.step t ρ ty k p = some v := by
    intro ρ hρ ty k p v hv
    rw [hdom]
    exact chunk_env hch hex hsc hcc hρ (hσ _ (by omega)) ty k p v hv
  obtain ⟨t', h1, h2, h3, h4⟩ := rows_part (L := L.part (min (cur + L.step) L.N)) (exps := exps) (c := t) (T := T) (X := fun ty id ρ => X ty id ((start + ρ) % L.N)) (m := cur)
    hgen hfix hm hreqs hops hdim hlit (by show cur ≤ min (cur + L.step) L.N; omega) hpos
    (by show cur ≤ modOf t.nbits t.nbitsExt L.dom; rw [hdom, hnb]; omega)
    (by
      intro ρ hρ p
      show rowOf (min (cur + L.step) L.N) L.step p ρ = rowOf (modOf t.nbits t.nbitsExt L.dom) (nextOf t.nbits t.nbitsExt L.dom) p ρ
      rw [hdom, hnb, hnx]
      exact (chunk_rows hsc hcc hρ p).1)
    (by
      refine ⟨fun id ty k h => ?_, fun ty id col h => ?_, fun ty id col h => ?_, fun ty id col h => ?_, fun ty id col ty' id' col' h h' => ?_, fun id col h => ?_⟩
      · obtain ⟨a, col, b⟩ := hplace.tgtTy id ty k h
        exact ⟨a, col, by rw [hcol]; exact b⟩
      · exact hplace.dim ty id col (hcol ty id ▸ h)
      · exact hplace.sec ty id col (hcol ty id ▸ h)
      · rw [hcol] at h
        refine ⟨(hplace.fit ty id col h).1, ?_⟩
        obtain ⟨a, b⟩ := hwid ty id col h
        rw [hch.len _ (List.mem_append.mpr (.inr a)), b]
        exact Nat.mul_le_mul_right _ (Nat.min_le_left _ _)
      · exact hplace.disj ty id col ty' id' col' (hcol ty id ▸ h) (hcol ty' id' ▸ h')
      · exact hplace.tag id col (hcol .exp id ▸ h))
    (by
      refine ⟨fun ty id col h => hread.sec ty id col (hcol ty id ▸ h), fun p id e l k col a b d f u w => ?_, hread.const_⟩
      obtain ⟨w1, w2, w3, w4⟩ := hread.cm p id e l k col a b d f u w
      exact ⟨w1, w2, w3, fun ty id col' h => w4 ty id col' (hcol ty id ▸ h)⟩)
    (chunk_cells hch (cleared_cells hcells))
    (by
      intro ty id col h ρ hρ
      rw [hcol] at h
      obtain ⟨a, b⟩ := hwid ty id col h
      have hρ' : ρ < min (cur + L.step) L.N := hρ
      have hmv := chunk_moved hch (List.mem_append.mpr (.inr a)) (hplace.fit ty id col h).1 b (show ρ < cur + L.step by omega)
      have hlt : (start + ρ) % L.N < L.N := Nat.mod_lt _ (by omega)
      rcases hfresh ty id col h _ hlt with hb | hh
      · exact .inl (hb.move hmv)
      · exact .inr (hh.move (hplace.dim ty id col h) hmv))
    (by
      intro ρ hρ r hr
      obtain ⟨d, e, v, h1, h2, h3⟩ := hval (start + ρ) (by omega) r hr
      exact ⟨d, e, v, h1, h2, Stark.val_mono (henv ρ hρ) h3⟩)
    (by
      intro p id ρ v hR hρ hv
      obtain ⟨v', hv'⟩ := needed_val (fun r hr => by
        obtain ⟨d, e, v, -, h2, h3⟩ := hval (start + ρ) (by omega) r hr
        exact ⟨v, d, e, h2, by rw [(hreqs r hr).1]; exact h3⟩) hR
      have hv'' : ExpVal (fieldOps K) exps (rowEnv L.s L.dom (min (cur + L.step) L.N) L.step t ρ) p id v' := by
        obtain ⟨d, e, a, b⟩ := hv'
        exact ⟨d, e, a, Stark.val_mono (henv ρ hρ) b⟩
      have := expVal_unique hv hv''
      subst this
      obtain ⟨r1, -, r3⟩ := chunk_rows hsc hcc hρ p
      show X .exp id ((start + rowOf (min (cur + L.step) L.N) L.step p ρ) % L.N) = v
      rw [r1, r3]
      exact hX p id _ v hR (by omega) hv')
  refine ⟨t', ?_, h2, h3, fun r hr col h ρ hρ => h4 r hr col (by rw [hcol]; exact h) ρ hρ⟩
  have : Interp.calculateExps algF3 L.s out m L.dom cur t = some t' := h1
  rwa [hdom] at this

/-! ### All chunks -/

/-- `calculate_exps_parallel` with chunks of `npt` rows. -/
theorem parN_rows {c : Interp.Ctx F3G F} {T : Nat → Nat} {X : NTy → Nat → Nat → K} {σ : Nat → Store K} {fuel t0 m nCols tU npt : Nat} {reqs : List Req} {ctx : Codegen.Ctx K}
    {out : List (Interp.Instr F3G)} {zi : Nat → Nat → Option F3G} (hex : ExecOk ex) (hbase : ex.inBase = false)
    (hgen : genAll 0 exps fuel reqs ⟨t0, [], []⟩ = some ctx) (hfix : fixProverCode L.tgt nCols L.lit ctx.tmpUsed (linearCode ctx) = some (out, tU)) (hm : tU ≤ m)
    (hreqs : ∀ r ∈ reqs, r.prime = false ∧ r.res = none ∧ r.muladd = false)
    (hops : PlainOps exps (Needed exps reqs)) (hdim : DimOk exps (Needed exps reqs) T (leafTag L.s L.dom L.lit))
    (hlit : ∀ v, WF (L.lit v) ∧ val (L.lit v) = v)
    (hdom : L.dom = ex.dom) (hN : L.N = modOf c.nbits c.nbitsExt ex.dom) (hstep : L.step = nextOf c.nbits c.nbitsExt ex.dom) (hnpt : 0 < npt) (hle : L.step ≤ L.N)
    (hlast : ∀ q, (q + 1) * npt < L.N → (q + 1) * npt + L.step ≤ L.N) (hzi : ∀ off j, zi off j = c.Zi (off + j))
    (hlen : ∀ x ∈ ex.inp ++ ex.out, (c.mem x).length = L.N * ex.width x)
    (hplace : PlaceOk L T (cleared algF3 ex L.N c).mem) (hwid : ∀ ty id col, L.col ty id = some col → col.sec ∈ ex.out ∧ col.width = ex.width col.sec)
    (hread : ReadOk L exps (Needed exps reqs)) (hcells : CellsOk c) (hfresh : Fresh L X (cleared algF3 ex L.N c).mem)
    (hσ : ∀ i < L.N, Provided L.s ex L.N L.step c i (σ i))
    (hval : ∀ i < L.N, ∀ r ∈ reqs, ∃ d e v, d < fuel ∧ exps[r.id]? = some e ∧ Val (fieldOps K) exps (σ i) d false e v)
    (hX : ∀ p id i v, Needed exps reqs p id → i < L.N → ExpVal (fieldOps K) exps (σ i) p id v → X .exp id (rowOf L.N L.step p i) = v) :
    ∃ c', Interp.calcParN algF3 L.s ex zi out m npt c = some c' ∧ KeepsCols L X (cleared algF3 ex L.N c).mem c'.mem ∧ Frame L (cleared algF3 ex L.N c) c' ∧
      (∀ x, x ∉ ex.out → c'.mem x = c.mem x) ∧
      ∀ r ∈ reqs, ∀ col, L.col .exp r.id = some col → ∀ i < L.N, Hold c'.mem col i (X .exp r.id i) := by
  classical
  have hcolp : ∀ N ty id, (L.part N).col ty id = L.col ty id := fun N ty id => by cases ty <;> rfl
  -- one chunk
  have hchunk : ∀ q, q * npt < L.N → ∃ t t', chunkCtx algF3 ex zi c (q * npt) (min npt (L.N - q * npt)) L.N L.step = some t ∧
      ChunkOk ex L.N L.step (q * npt) (min npt (L.N - q * npt)) (cleared algF3 ex L.N c) t ∧
      Interp.calculateExps algF3 L.s out m ex.dom (min npt (L.N - q * npt)) t = some t' ∧
      KeepsCols (L.part (min (min npt (L.N - q * npt) + L.step) L.N)) (fun ty id ρ => X ty id ((q * npt + ρ) % L.N)) t.mem t'.mem ∧
      Frame (L.part (min (min npt (L.N - q * npt) + L.step) L.N)) (withTmp t m) t' ∧
      ∀ r ∈ reqs, ∀ col, L.col .exp r.id = some col → ∀ ρ < min npt (L.N - q * npt), Hold t'.mem col ρ (X .exp r.id ((q * npt + ρ) % L.N)) := by
    intro q hq
    have hl := hlast q
    have hl0 := hlast 0
    have hq1 : q = 0 ∨ 1 * npt ≤ q * npt := by
      rcases Nat.eq_zero_or_pos q with h | h
      · exact .inl h
      · exact .inr (Nat.mul_le_mul_right _ h)
    rw [Nat.add_mul, Nat.one_mul] at hl
    have hcur : 0 < min npt (L.N - q * npt) := by omega
    have hsc : q * npt + min npt (L.N - q * npt) ≤ L.N := by omega
    have hnx : (q * npt + min npt (L.N - q * npt)) % L.N + L.step ≤ L.N := by
      by_cases he : q * npt + min npt (L.N - q * npt) = L.N
      · rw [he, Nat.mod_self]; omega
      · rw [Nat.mod_eq_of_lt (by omega)]
        omega
    have hcc : (q * npt = 0 ∧ min npt (L.N - q * npt) = L.N) ∨ min npt (L.N - q * npt) + L.step ≤ L.N := by
      rcases hq1 with rfl | hq1 <;> omega
    obtain ⟨t, ht, hok⟩ := Interp.chunk_view (ex := ex) (n := L.N) (next := L.step) algF3 hex zi c _ _ hsc hnx hcur hzi
      (fun x hx => hlen x (List.mem_append.mpr (.inl hx))) (fun h => by rw [hbase] at h; cases h)
    obtain ⟨t', h1, h2, h3, h4⟩ := chunk_program hex hgen hfix hm hreqs hops hdim hlit hdom hN hstep hplace hwid hread hcells hfresh hσ hval hX hcur hsc hcc hok
    exact ⟨t, t', ht, hok, h1, h2, h3, h4⟩
  have : Nonempty (Interp.Ctx F3G F) := ⟨c⟩
  choose! t T' hT using hchunk
  obtain ⟨c', h1, hrest, hother, hout⟩ := Interp.calcParN_chunks (s := L.s) (code := out) (n := L.N) (next := L.step) (ex := ex) algF3 zi c m npt hN hstep
    (fun x hx => hlen x (List.mem_append.mpr (.inr hx))) hnpt T' (by
      intro q hq
      obtain ⟨a1, a2, a3, -, a5, -⟩ := hT q hq
      refine ⟨⟨_, a1, a3⟩, fun x hx => ?_⟩
      rw [a5.len x, withTmp_mem (hex.outMem x hx).1, a2.len x (List.mem_append.mpr (.inr hx))])
  -- row `r` of the result
  have hrow : ∀ r < L.N, r / npt * npt < L.N ∧ r % npt < min npt (L.N - r / npt * npt) ∧ r / npt * npt + r % npt = r := by
    intro r hr
    have h1 := Nat.div_add_mod r npt
    have h2 := Nat.mod_lt r hnpt
    rw [Nat.mul_comm] at h1
    omega
  have hcell : ∀ r < L.N, ∀ x ∈ ex.out, ∀ k < ex.width x, (c'.mem x)[r * ex.width x + k]? = ((T' (r / npt)).mem x)[r % npt * ex.width x + k]? := by
    intro r hr x hx k hk
    obtain ⟨b1, b2, b3⟩ := hrow r hr
    have := (hout x hx).2 (r / npt) (r % npt) k (by omega) (by omega) hk
    rwa [b3] at this
  have hmv : ∀ {ty : NTy} {id : Nat} {col : Col}, L.col ty id = some col → ∀ r < L.N, Moved (T' (r / npt)).mem c'.mem col (r % npt) r := by
    intro ty id col h r hr j hj
    obtain ⟨a, b⟩ := hwid ty id col h
    have := (hplace.fit ty id col h).1
    unfold cell
    rw [b]
    exact hcell r hr col.sec a _ (by omega)
  refine ⟨c', h1, ?_, ?_, hother, ?_⟩
  · intro ty id col r hc hr
    obtain ⟨b1, b2, b3⟩ := hrow r hr
    obtain ⟨-, a2, -, a4, -⟩ := hT (r / npt) b1
    obtain ⟨a, b⟩ := hwid ty id col hc
    have hm1 := chunk_moved a2 (List.mem_append.mpr (.inr a)) (hplace.fit ty id col hc).1 b (show r % npt < _ by omega)
    rw [b3, Nat.mod_eq_of_lt hr] at hm1
    rcases a4 ty id col (r % npt) (by rw [hcolp]; exact hc) (by show _ < min _ _; omega) with hs | hh
    · refine .inl fun j hj => ?_
      rw [hmv hc r hr j hj, hs j hj, hm1 j hj]
    · refine .inr ?_
      have := hh.move (hplace.dim ty id col hc) (hmv hc r hr)
      dsimp only at this
      rwa [b3, Nat.mod_eq_of_lt hr] at this
  · refine ⟨hrest.1, hrest.2.1, hrest.2.2.1, hrest.2.2.2.1, hrest.2.2.2.2, fun x => ?_, fun x k hxt hk => ?_⟩
    · by_cases hx : x ∈ ex.out
      · rw [(hout x hx).1]
        simp only [cleared]
        split
        · rw [List.length_replicate]
        · rw [hlen x (List.mem_append.mpr (.inr hx))]
      · rw [hother x hx]
        simp only [cleared]
        rw [if_neg (fun h => hx h.1)]
    · by_cases hx : x ∈ ex.out
      · have hlg : ((cleared algF3 ex L.N c).mem x).length = L.N * ex.width x := by
          simp only [cleared]
          split
          · rw [List.length_replicate]
          · rw [hlen x (List.mem_append.mpr (.inr hx))]
        by_cases hkl : k < L.N * ex.width x
        · have hw0 : 0 < ex.width x := by
            rcases Nat.eq_zero_or_pos (ex.width x) with e | e
            · rw [e] at hkl; omega
            · exact e
          have hr : k / ex.width x < L.N := Nat.div_lt_of_lt_mul (by rw [Nat.mul_comm]; exact hkl)
          have hkk := Nat.mod_lt k hw0
          have hk1 : k / ex.width x * ex.width x + k % ex.width x = k := by rw [Nat.mul_comm]; exact Nat.div_add_mod k _
          generalize k / ex.width x = r at hr hk1
          generalize k % ex.width x = j at hkk hk1
          subst hk1
          obtain ⟨b1, b2, b3⟩ := hrow r hr
          obtain ⟨-, a2, -, -, a5, -⟩ := hT (r / npt) b1
          have hcc := a2.cells x (List.mem_append.mpr (.inr hx)) (r % npt) j (by omega) hkk
          rw [b3, Nat.mod_eq_of_lt hr] at hcc
          rw [hcell r hr x hx j hkk, ← hcc]
          have := a5.cells x (r % npt * ex.width x + j) hxt ?_
          · rw [this, withTmp_mem hxt]
          · intro ty id col h hs r' hr' ⟨u1, u2⟩
            rw [hcolp] at h
            obtain ⟨a, b⟩ := hwid ty id col h
            have hf := (hplace.fit ty id col h).1
            rw [← hs] at b
            obtain ⟨q, hq⟩ := Nat.exists_eq_add_of_le u1
            have e := cell_row_ne (w := ex.width x) (r := r % npt) (r' := r') (p := j) (q := col.pos + q) hkk (by omega) (by rw [b] at hq; omega)
            refine hk ty id col h hs r hr ⟨?_, ?_⟩
            · rw [b]; omega
            · rw [b]; rw [← e.1, b] at u2; omega
        · rw [List.getElem?_eq_none (by rw [(hout x hx).1]; omega), List.getElem?_eq_none (by rw [hlg]; omega)]
      · rw [hother x hx]
        simp only [cleared]
        rw [if_neg (fun h => hx h.1)]
  · intro r hr col hc i hi
    obtain ⟨b1, b2, b3⟩ := hrow i hi
    obtain ⟨-, -, -, -, -, a6⟩ := hT (i / npt) b1
    have := (a6 r hr col hc (i % npt) b2).move (hplace.dim _ _ col hc) (hmv hc i hi)
    rwa [b3, Nat.mod_eq_of_lt hi] at this

/-- **C99** The parallel run of a generated program.  `σ i` are values at row `i` that the input sections of the step provide.  If every requested
expression has a value at every row, the run on any number of workers (up to 2048) succeeds; afterwards the column of every requested expression holds its value at
every row, every other column of an expression is at every row as before (cleared, if its section is only an output of the step) or holds its value, every
other cell is as before, and so are the sections that are not outputs. -/
theorem par_rows {c : Interp.Ctx F3G F} {T : Nat → Nat} {X : NTy → Nat → Nat → K} {σ : Nat → Store K} {fuel t0 m nCols tU workers : Nat} {reqs : List Req} {ctx : Codegen.Ctx K}
    {out : List (Interp.Instr F3G)} {zi : Nat → Nat → Option F3G} {st : Interp.Step} (hst : st ≠ .step5)
    (hgen : genAll 0 exps fuel reqs ⟨t0, [], []⟩ = some ctx) (hfix : fixProverCode L.tgt nCols L.lit ctx.tmpUsed (linearCode ctx) = some (out, tU)) (hm : tU ≤ m)
    (hreqs : ∀ r ∈ reqs, r.prime = false ∧ r.res = none ∧ r.muladd = false)
    (hops : PlainOps exps (Needed exps reqs)) (hdim : DimOk exps (Needed exps reqs) T (leafTag L.s L.dom L.lit))
    (hlit : ∀ v, WF (L.lit v) ∧ val (L.lit v) = v)
    (hdom : L.dom = (Interp.execInfo L.s st).dom) (hN : L.N = modOf c.nbits c.nbitsExt L.dom) (hstep : L.step = nextOf c.nbits c.nbitsExt L.dom)
    (hle : L.step ≤ L.N) (hle' : L.step ≤ 2048) (hw1 : 1 ≤ workers) (hw : workers ≤ 2048) (hzi : ∀ off j, zi off j = c.Zi (off + j))
    (hlen : ∀ x ∈ (Interp.execInfo L.s st).inp ++ (Interp.execInfo L.s st).out, (c.mem x).length = L.N * Interp.setWidth L.s x)
    (hplace : PlaceOk L T (cleared algF3 (Interp.execInfo L.s st) L.N c).mem)
    (hwid : ∀ ty id col, L.col ty id = some col → col.sec ∈ (Interp.execInfo L.s st).out ∧ col.width = Interp.setWidth L.s col.sec)
    (hread : ReadOk L exps (Needed exps reqs)) (hcells : CellsOk c) (hfresh : Fresh L X (cleared algF3 (Interp.execInfo L.s st) L.N c).mem)
    (hσ : ∀ i < L.N, Provided L.s (Interp.execInfo L.s st) L.N L.step c i (σ i))
    (hval : ∀ i < L.N, ∀ r ∈ reqs, ∃ d e v, d < fuel ∧ exps[r.id]? = some e ∧ Val (fieldOps K) exps (σ i) d false e v)
    (hX : ∀ p id i v, Needed exps reqs p id → i < L.N → ExpVal (fieldOps K) exps (σ i) p id v → X .exp id (rowOf L.N L.step p i) = v) :
    ∃ c', Interp.calcPar algF3 L.s zi out m workers st c = some c' ∧ KeepsCols L X (cleared algF3 (Interp.execInfo L.s st) L.N c).mem c'.mem ∧
      Frame L (cleared algF3 (Interp.execInfo L.s st) L.N c) c' ∧ (∀ x, x ∉ (Interp.execInfo L.s st).out → c'.mem x = c.mem x) ∧
      ∀ r ∈ reqs, ∀ col, L.col .exp r.id = some col → ∀ i < L.N, Hold c'.mem col i (X .exp r.id i) := by
  have hwd : ∀ x, (Interp.execInfo L.s st).width x = Interp.setWidth L.s x := fun x => by cases st <;> rfl
  unfold Interp.calcPar
  obtain ⟨k, hk⟩ : ∃ k, modOf c.nbits c.nbitsExt (Interp.execInfo L.s st).dom = 2 ^ k := by
    cases (Interp.execInfo L.s st).dom
    · exact ⟨_, rfl⟩
    · exact ⟨_, rfl⟩
  have hN' := hN
  have hstep' := hstep
  rw [hdom] at hN' hstep'
  refine parN_rows (Interp.execOk _ _) (by cases st <;> first | rfl | exact absurd rfl hst) hgen hfix hm hreqs hops hdim hlit hdom hN' hstep' ?_ hle ?_ hzi ?_ hplace ?_ hread hcells hfresh hσ hval hX
  · unfold Interp.perThread
    dsimp only
    split_ifs <;> omega
  · intro q
    rw [hN', hk]
    exact Interp.perThread_ok hw1 hw hle' q
  · intro x hx
    rw [hwd]
    exact hlen x hx
  · intro ty id col h
    rw [hwd]
    exact hwid ty id col h

end

end Verif.Map
