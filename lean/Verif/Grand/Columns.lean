import Verif.Grand.ScopedGen
import Verif.Stark.ProverTotal

/-!
# The columns of the second and third round, as the prover computes them

`stark_gen` (starky/src/stark_gen.rs L296-362): after `u`, `defVal` the program `step2prev` is run on all rows, `calculate_H1H2` is applied to the two
sides of every lookup and the results are written to the section `cm2_n`; after `gamma`, `beta` the program `step3prev` is run, `calculate_Z` is
applied to every numerator and denominator, the results are written to `cm3_n`, and `step3` writes the intermediate polynomials.

Simplifications: programs run on named registers (`Codegen.Spec.exec`), before `fix_prover_code` (`Map.rows_spec` relates them to the buffers); a read of a committed column that has not
been computed yet or of a challenge that has not been drawn yet is `none` (in the code it would return a zero); the programs are generated from the final list of expressions (the code generates
them while the list grows, from a prefix that contains everything they mention).
-/
set_option linter.unusedSectionVars false

namespace Verif.Grand
open Codegen Codegen.Spec Stark ImPols ImPols.Spec FFT Fri
open Verif.GL (F)
open Verif.Ext3 (K coord)

noncomputable section

/-! ### Cells -/

/-- one iteration of the loop of `set_pol`, stark_gen.rs L602-616: one cell or three -/
def setRow (c : ColPos) (width : Nat) (b : FftP.Buf F) (i : Nat) (v : K) : FftP.Buf F :=
  if c.dim = 1 then Function.update b (c.pos + i * width) ((encK.enc v).getD 0 0)
  else Function.update (Function.update (Function.update b (c.pos + i * width) ((encK.enc v).getD 0 0))
    (c.pos + i * width + 1) ((encK.enc v).getD 1 0)) (c.pos + i * width + 2) ((encK.enc v).getD 2 0)

/-- `set_pol`, stark_gen.rs L594-620; panics for other dimensions and when the polynomial is too short -/
def setPol (N width : Nat) (b : FftP.Buf F) (c : ColPos) (vals : List K) : Option (FftP.Buf F) :=
  if (c.dim = 1 ∨ c.dim = 3) ∧ N ≤ vals.length then some ((List.range N).foldl (fun b i => setRow c width b i (vals.getD i 0)) b) else none

/-- what `get_pol` (stark_gen.rs L683-708) reads back after the program stored `v` in a column of dimension `dim` -/
def stored (dim : Nat) (v : K) : K := if dim = 1 then algebraMap F K ((encK.enc v).getD 0 0) else v

/-! ### Programs -/

/-- the programs of the second and third round -/
structure Progs where
  step2prev : List (Instr K)
  step3prev : List (Instr K)
  step3 : List (Instr K)

/-- the requests of `step2prev`, starkinfo.rs L380-381: for every lookup the two sides -/
def reqs2 (cx : ArgCtx) : List Req := cx.pu.flatMap fun c => [{ id := c.fExp }, { id := c.tExp }]

/-- the requests of `step3prev`, starkinfo_Z.rs L195-196 (lookups), L277-278 (permutations), L418-419 (connections) -/
def reqs3 (cx : ArgCtx) : List Req := (cx.pu ++ cx.pe ++ cx.ci).flatMap fun c => [{ id := c.num }, { id := c.den }]

/-- the requests of `step3`, starkinfo_cp_prover.rs L86-90 -/
def reqsIm (S : Finset Nat) : List Req := (S.sort (· ≤ ·)).map fun k => { id := k }

/-- the generation of the programs; `ctx.calculated` is cleared after `step2prev` (starkinfo.rs L404) and `step3prev` (starkinfo_Z.rs L28),
the counter of temporaries is kept -/
def genProgs (fuel : Nat) (exps : List (Expr K)) (cx : ArgCtx) (S : Finset Nat) : Option Progs :=
  (genAll 0 exps fuel (reqs2 cx) ⟨0, [], []⟩).bind fun c2 =>
  (genAll 0 exps fuel (reqs3 cx) ⟨c2.tmpUsed, [], []⟩).bind fun c3 =>
  (genAll 0 exps fuel (reqsIm S) ⟨c3.tmpUsed, [], []⟩).map fun ci => ⟨linearCode c2, linearCode c3, linearCode ci⟩

/-! ### Running a program on all rows -/

/-- row `i` when the columns below `lim` have been computed -/
def stageStore (R : Run) (T : Trace) (ch : List K) (lim i : Nat) : Store K := fun t k p =>
  if t = .cm ∧ lim ≤ k then none else traceStore R T ch i t k p

/-- `calculate_exps_parallel` on the trace domain: the registers of every row (C42: the chunks do not matter) -/
def runRows (R : Run) (T : Trace) (ch : List K) (lim : Nat) (code : List (Instr K)) : Option (List (Store K)) :=
  (List.range (2 ^ R.nb)).mapM fun i => exec (fieldOps K) code (stageStore R T ch lim i)

/-- the values of expression `id` after a program, read by `get_pol` from a column of dimension `dim` -/
def readExp (σs : List (Store K)) (dim id : Nat) : Option (List K) := σs.mapM fun σ => (σ .exp id false).map (stored dim)

/-- a sequence of `set_pol` -/
def setPols (N width : Nat) : List (ColPos × List K) → FftP.Buf F → Option (FftP.Buf F)
  | [], b => some b
  | w :: ws, b => (setPol N width b w.1 w.2).bind (setPols N width ws)

variable (R : Run) (T : Trace) (nCm1 : Nat) (P : Progs) (cx : ArgCtx)

/-- one lookup, stark_gen.rs L301-309: `n` counts the lookups, the columns are `cm_n[n_cm]`, `cm_n[n_cm + 1]`; the two sides are stored with the
dimension of the columns (starkinfo_map.rs L44-98) -/
def h1h2Cols (σs : List (Store K)) (c : PCtx) (n : Nat) : Option (List (ColPos × List K)) :=
  (R.pos (nCm1 + 2 * n)).bind fun p1 => (R.pos (nCm1 + 2 * n + 1)).bind fun p2 =>
  (readExp σs p1.dim c.fExp).bind fun f => (readExp σs p1.dim c.tExp).bind fun t =>
  (h1h2 f t).map fun h => [(p1, h.1), (p2, h.2)]

/-- the section `cm2_n`, stark_gen.rs L299-309, from its initial contents -/
def cm2Of (init2 : FftP.Buf F) (u dv : K) : Option (FftP.Buf F) :=
  (runRows R T [u, dv] nCm1 P.step2prev).bind fun σs =>
  ((cx.pu.zipIdx).mapM fun cn => h1h2Cols R nCm1 σs cn.1 cn.2).bind fun ws => setPols (2 ^ R.nb) (T.width 2) ws.flatten init2

/-- one grand product, stark_gen.rs L331-354 (numerators and denominators are stored with dimension 3, starkinfo_map.rs L123-150) -/
def zCols (σs : List (Store K)) (c : PCtx) (n : Nat) : Option (ColPos × List K) :=
  (R.pos n).bind fun p => (readExp σs 3 c.num).bind fun num => (readExp σs 3 c.den).bind fun den => (calculateZ num den).map fun z => (p, z)

/-- the section `cm3_n` before step 3, stark_gen.rs L326-354 -/
def cm3Zs (init3 : FftP.Buf F) (u dv ga be : K) : Option (FftP.Buf F) :=
  (runRows R T [u, dv, ga, be] (nCm1 + 2 * cx.pu.length) P.step3prev).bind fun σs =>
  (((cx.pu ++ cx.pe ++ cx.ci).zipIdx).mapM fun cn => zCols R σs cn.1 (nCm1 + 2 * cx.pu.length + cn.2)).bind fun ws =>
  setPols (2 ^ R.nb) (T.width 3) ws init3

/-- one intermediate polynomial: step 3 writes its values to its column (starkinfo_map.rs L441-452: the register becomes the column) -/
def imCols (σs : List (Store K)) (k n : Nat) : Option (ColPos × List K) :=
  (R.pos n).bind fun p => (σs.mapM fun σ : Store K => σ .exp k false).map fun v => (p, v)

/-- the section `cm3_n` after step 3, stark_gen.rs L356 -/
def cm3Of (S : Finset Nat) (b3 : FftP.Buf F) (u dv ga be : K) : Option (FftP.Buf F) :=
  (runRows R T [u, dv, ga, be] R.nCm P.step3).bind fun σs =>
  (((S.sort (· ≤ ·)).zipIdx).mapM fun kn => imCols R σs kn.1 (R.nCm + kn.2)).bind fun ws => setPols (2 ^ R.nb) (T.width 3) ws b3

/-- the trace with given contents of the sections `cm2_n` and `cm3_n` -/
def withCm (T : Trace) (b2 b3 : FftP.Buf F) : Trace := { T with cm2 := fun _ _ => b2, cm3 := fun _ _ _ _ => b3 }

/-- the columns of the second and third round for given challenges; `none` when the prover panics -/
def columns (S : Finset Nat) (init2 init3 : FftP.Buf F) (u dv ga be : K) : Option (FftP.Buf F × FftP.Buf F) :=
  (cm2Of R T nCm1 P cx init2 u dv).bind fun b2 =>
  (cm3Zs R (withCm T b2 init3) nCm1 P cx init3 u dv ga be).bind fun z3 =>
  (cm3Of R (withCm T b2 z3) P S z3 u dv ga be).map fun b3 => (b2, b3)

/-- The prover's trace: the first section and the constants are given, the other sections are computed from the challenges (zeros where the prover
panics; `proverRounds` stops there). -/
def argTrace (S : Finset Nat) (init2 init3 : FftP.Buf F) : Trace :=
  { T with
    cm2 := fun u dv => (cm2Of R T nCm1 P cx init2 u dv).getD fun _ => 0
    cm3 := fun u dv ga be => ((columns R T nCm1 P cx S init2 init3 u dv ga be).map Prod.snd).getD fun _ => 0 }

/-- The rounds of the prover, which stops when the computation of the columns panics. -/
def proverRounds {Ps Root Path Tree : Type} (U : Setup K) (S : Finset Nat) (init2 init3 : FftP.Buf F) (mt : MT F Root Path Tree) (ofK : K → Ps)
    (val : Ps → K) (publics : List Ps) (fixed : List F) (ctree : Tree) : Rounds K Ps Tree :=
  let w := rounds R U (argTrace R T nCm1 P cx S init2 init3) mt ofK val publics fixed ctree
  { w with
    tree2 := fun ch => (cm2Of R T nCm1 P cx init2 (ch.getD 0 0) (ch.getD 1 0)).bind fun _ => w.tree2 ch
    tree3 := fun ch => (columns R T nCm1 P cx S init2 init3 (ch.getD 0 0) (ch.getD 1 0) (ch.getD 2 0) (ch.getD 3 0)).bind fun _ => w.tree3 ch }

end

/-! ### Reading back what was written -/

/-- a column of a section at a row -/
noncomputable def colB (b : FftP.Buf F) (c : ColPos) (width r : Nat) : K :=
  if c.dim = 1 then algebraMap F K (b (r * width + c.pos))
  else coord (b (c.pos + r * width)) (b (c.pos + r * width + 1)) (b (c.pos + r * width + 2))

theorem colVal_colB (b : FftP.Buf F) (c : ColPos) {width N r : Nat} (hd : c.dim = 1 ∨ c.dim = 3) (hw : c.pos + c.dim ≤ width) (hr : r < N) :
    colVal (algebraMap F K) coord (cellsOf b width N) c.pos width c.dim r = colB b c width r := by
  have h : ∀ k < width, (cellsOf b width N).getD (c.pos + r * width - c.pos + k) 0 = b (r * width + k) := by
    intro k hk
    have e : c.pos + r * width - c.pos + k = r * width + k := by omega
    rw [e]
    exact cellsOf_getD b (cell_lt hr hk)
  have g : ∀ k < width, (cellsOf b width N).getD (r * width + k) 0 = b (r * width + k) := fun k hk => cellsOf_getD b (cell_lt hr hk)
  unfold colVal colB
  rcases hd with hd | hd
  · rw [if_pos hd, if_pos hd, g _ (by omega)]
  · rw [if_neg (by omega), if_neg (by omega)]
    have e0 : c.pos + r * width = r * width + c.pos := by omega
    have e1 : c.pos + r * width + 1 = r * width + (c.pos + 1) := by omega
    have e2 : c.pos + r * width + 2 = r * width + (c.pos + 2) := by omega
    rw [e1, e2, e0, g _ (by omega), g _ (by omega), g _ (by omega)]

theorem cell_inj {w a b k l : Nat} (hk : k < w) (hl : l < w) (h : k + a * w = l + b * w) : a = b ∧ k = l := by
  have h1 : (k + a * w) / w = (l + b * w) / w := by rw [h]
  rw [Nat.add_mul_div_right _ _ (by omega), Nat.add_mul_div_right _ _ (by omega), Nat.div_eq_of_lt hk, Nat.div_eq_of_lt hl] at h1
  have h2 : a = b := by omega
  subst h2
  omega

/-- a cell that is not in the row of the column is not changed -/
theorem setRow_other {c : ColPos} {w : Nat} (hd : c.dim = 1 ∨ c.dim = 3) (hw : c.pos + c.dim ≤ w) (b : FftP.Buf F) {i r k : Nat} {v : K} (hk : k < w)
    (h : r ≠ i ∨ k < c.pos ∨ c.pos + c.dim ≤ k) : setRow c w b i v (k + r * w) = b (k + r * w) := by
  have key : ∀ j, j < c.dim → k + r * w ≠ c.pos + j + i * w := by
    intro j hj e
    obtain ⟨e1, e2⟩ := cell_inj hk (by omega) e
    omega
  unfold setRow
  rcases hd with hd | hd
  · rw [if_pos hd, Function.update_of_ne (by have := key 0 (by omega); omega)]
  · rw [if_neg (by omega), Function.update_of_ne (by have := key 2 (by omega); omega), Function.update_of_ne (by have := key 1 (by omega); omega),
      Function.update_of_ne (by have := key 0 (by omega); omega)]

theorem enc_base (x : F) : (encK.enc (algebraMap F K x)).getD 0 0 = x := by
  rw [← coord_base, enc_coord]
  rfl

theorem enc_all (v : K) : coord ((encK.enc v).getD 0 0) ((encK.enc v).getD 1 0) ((encK.enc v).getD 2 0) = v := coords_spec v

theorem stored_base {dim : Nat} {v : K} (h : dim = 1 → Base v) : stored dim v = v := by
  unfold stored
  split_ifs with h1
  · obtain ⟨x, rfl⟩ := h h1
    rw [enc_base]
  · rfl

/-- the row that was written -/
theorem setRow_same {c : ColPos} {w : Nat} (hd : c.dim = 1 ∨ c.dim = 3) (b : FftP.Buf F) {i : Nat} {v : K} (hv : c.dim = 1 → Base v) :
    colB (setRow c w b i v) c w i = v := by
  unfold colB setRow
  rcases hd with hd | hd
  · rw [if_pos hd, if_pos hd, show i * w + c.pos = c.pos + i * w by omega, Function.update_self]
    obtain ⟨x, rfl⟩ := hv hd
    rw [enc_base]
  · rw [if_neg (by omega), if_neg (by omega)]
    rw [Function.update_of_ne (by omega), Function.update_of_ne (by omega), Function.update_self, Function.update_of_ne (by omega), Function.update_self,
      Function.update_self]
    exact enc_all v

theorem colB_congr {b b' : FftP.Buf F} {c : ColPos} {w r : Nat} (h : ∀ j < c.dim, b (c.pos + j + r * w) = b' (c.pos + j + r * w))
    (hd : c.dim = 1 ∨ c.dim = 3) : colB b c w r = colB b' c w r := by
  unfold colB
  rcases hd with hd | hd
  · rw [if_pos hd, if_pos hd]
    have := h 0 (by omega)
    rw [show r * w + c.pos = c.pos + 0 + r * w by omega, this]
  · rw [if_neg (by omega), if_neg (by omega)]
    have h0 := h 0 (by omega)
    have h1 := h 1 (by omega)
    have h2 := h 2 (by omega)
    rw [show c.pos + r * w + 1 = c.pos + 1 + r * w by omega, show c.pos + r * w + 2 = c.pos + 2 + r * w by omega,
      show c.pos + r * w = c.pos + 0 + r * w by omega, h0, h1, h2]

theorem setRows_spec {c : ColPos} {w : Nat} (hd : c.dim = 1 ∨ c.dim = 3) (hw : c.pos + c.dim ≤ w) (vals : Nat → K) (b : FftP.Buf F) :
    ∀ n, (∀ r k, k < w → (n ≤ r ∨ k < c.pos ∨ c.pos + c.dim ≤ k) → ((List.range n).foldl (fun b i => setRow c w b i (vals i)) b) (k + r * w) = b (k + r * w)) ∧
      ∀ r < n, (c.dim = 1 → Base (vals r)) → colB ((List.range n).foldl (fun b i => setRow c w b i (vals i)) b) c w r = vals r := by
  intro n
  induction n with
  | zero => exact ⟨fun r k _ _ => rfl, by omega⟩
  | succ n ih =>
    rw [List.range_succ, List.foldl_append]
    simp only [List.foldl_cons, List.foldl_nil]
    refine ⟨fun r k hk h => ?_, fun r hr hb => ?_⟩
    · rw [setRow_other hd hw _ hk (by omega), ih.1 r k hk (by omega)]
    · by_cases e : r = n
      · subst e
        exact setRow_same hd _ hb
      · rw [← ih.2 r (by omega) hb]
        exact colB_congr (fun j hj => setRow_other hd hw _ (by omega) (.inl e)) hd

/-- two columns of one section do not overlap -/
def Disj (c c' : ColPos) : Prop := c.pos + c.dim ≤ c'.pos ∨ c'.pos + c'.dim ≤ c.pos

theorem setPol_same {N w : Nat} {b b' : FftP.Buf F} {c : ColPos} {vals : List K} (h : setPol N w b c vals = some b') (hw : c.pos + c.dim ≤ w) {r : Nat}
    (hr : r < N) (hb : c.dim = 1 → Base (vals.getD r 0)) : colB b' c w r = vals.getD r 0 := by
  unfold setPol at h
  split_ifs at h with hc
  obtain rfl := Option.some.inj h
  exact (setRows_spec hc.1 hw (fun i => vals.getD i 0) b N).2 r hr hb

theorem setPol_other {N w : Nat} {b b' : FftP.Buf F} {c c' : ColPos} {vals : List K} (h : setPol N w b c vals = some b') (hw : c.pos + c.dim ≤ w)
    (hd' : c'.dim = 1 ∨ c'.dim = 3) (hw' : c'.pos + c'.dim ≤ w) (hdis : Disj c c') (r : Nat) : colB b' c' w r = colB b c' w r := by
  unfold setPol at h
  split_ifs at h with hc
  obtain rfl := Option.some.inj h
  refine colB_congr (fun j hj => (setRows_spec hc.1 hw (fun i => vals.getD i 0) b N).1 r (c'.pos + j) (by omega) (.inr ?_)) hd'
  unfold Disj at hdis
  omega

/-- a column that is not among those written keeps its contents -/
theorem setPols_other {N w : Nat} : ∀ (ws : List (ColPos × List K)) (b b' : FftP.Buf F), setPols N w ws b = some b' →
    (∀ x ∈ ws, x.1.pos + x.1.dim ≤ w) → ∀ c' : ColPos, (c'.dim = 1 ∨ c'.dim = 3) → c'.pos + c'.dim ≤ w → (∀ x ∈ ws, Disj x.1 c') → ∀ r,
    colB b' c' w r = colB b c' w r
  | [], b, b', h, _, c', _, _, _, r => by
    simp only [setPols, Option.some.injEq] at h
    rw [h]
  | x :: ws, b, b', h, hw, c', hd, hw', hdis, r => by
    rw [setPols] at h
    obtain ⟨b1, h1, h2⟩ := Option.bind_eq_some_iff.mp h
    rw [setPols_other ws b1 b' h2 (fun y hy => hw y (by simp [hy])) c' hd hw' (fun y hy => hdis y (by simp [hy])) r]
    exact setPol_other h1 (hw x (by simp)) hd hw' (hdis x (by simp)) r

/-- every column that was written reads back, when the columns do not overlap -/
theorem setPols_same {N w : Nat} : ∀ (ws : List (ColPos × List K)) (b b' : FftP.Buf F), setPols N w ws b = some b' →
    (∀ x ∈ ws, x.1.pos + x.1.dim ≤ w) → (ws.map Prod.fst).Pairwise Disj → ∀ x ∈ ws, ∀ r < N, (x.1.dim = 1 → Base (x.2.getD r 0)) →
    colB b' x.1 w r = x.2.getD r 0
  | [], b, b', h, _, _, x, hx, _, _, _ => by simp at hx
  | y :: ws, b, b', h, hw, hp, x, hx, r, hr, hb => by
    rw [setPols] at h
    obtain ⟨b1, h1, h2⟩ := Option.bind_eq_some_iff.mp h
    rw [List.map_cons, List.pairwise_cons] at hp
    rcases List.mem_cons.mp hx with rfl | hx
    · rw [setPols_other ws b1 b' h2 (fun y hy => hw y (by simp [hy])) x.1 ?_ (hw x (by simp)) ?_ r]
      · exact setPol_same h1 (hw x (by simp)) hr hb
      · unfold setPol at h1
        split_ifs at h1 with hc
        exact hc.1
      · intro z hz
        have := hp.1 z.1 (List.mem_map_of_mem hz)
        unfold Disj at this ⊢
        omega
    · exact setPols_same ws b1 b' h2 (fun y hy => hw y (by simp [hy])) hp.2 x hx r hr hb

theorem setPols_total {N w : Nat} : ∀ (ws : List (ColPos × List K)) (b : FftP.Buf F), (∀ x ∈ ws, (x.1.dim = 1 ∨ x.1.dim = 3) ∧ N ≤ x.2.length) →
    ∃ b', setPols N w ws b = some b'
  | [], b, _ => ⟨b, rfl⟩
  | x :: ws, b, h => by
    have : ∃ b1, setPol N w b x.1 x.2 = some b1 := by
      unfold setPol
      rw [if_pos (h x (by simp))]
      exact ⟨_, rfl⟩
    obtain ⟨b1, h1⟩ := this
    obtain ⟨b', h2⟩ := setPols_total ws b1 fun y hy => h y (by simp [hy])
    exact ⟨b', by rw [setPols, h1]; exact h2⟩

end Verif.Grand
