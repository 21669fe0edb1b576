import Verif.Stage.ExtRows
import Verif.Map.Place
import Verif.Stark.ProverComplete

/-!
# The programs of the extended domain: from the generated code to the rows
-/
set_option linter.unusedSectionVars false

namespace Verif.Stage
open Verif.Codegen (NTy IOp Expr Label linearCode pilCodeGen)
open Verif.Codegen.Spec (Store readN exec)
open Verif.Interp (NodeTy OpTy Dom Sec Info algF3 execInfo setWidth cleared calcPar modOf nextOf CodeOk)
open Verif.Interp.Spec (Col cell readCol writeCol nodeCol rowOf meaning store stepI run readBase)
open Verif.Ext3 (F3G K coord val WF ofF)
open Verif.Stark (fieldOps Run Setup Trace ColPos extStore width4 xExt colVal zhInv im2cmOf imDone withIm)
open Verif.FFT (mgK shiftK)
open Verif.Fri (encK)
open Verif.GL (F)
open Verif.Map (Lay Rel fixNode fixInstr fixOp sameTy Hold Blank tgtOf sec2 HasLabel leafOf)

noncomputable section

/-- Specification: the buffers of the extended domain describe the columns `cells`, the constants, the points, the publics, the challenges, the
evaluations, the tables `x / (x - xi)`, and the inverses of the vanishing polynomial (stark_gen.rs L232-251, L481-517, `extend_and_merkelize` L705-735,
stark_setup.rs L32-41).  Sections up to `mt` are filled. -/
structure ExtBufs (R : Run) (U : Setup K) (T : Trace) (s : Info) (mt : Nat) (cells : Nat → List F) (fixed : List F) (chal evals xd xdw : List K)
    (c : Interp.Ctx F3G F) : Prop where
  nbits : c.nbits = R.nb
  nbitsExt : c.nbitsExt = R.nb + R.ext
  mem : ∀ t, 1 ≤ t → t ≤ mt → c.mem (sec2 t) = (cells t).map ofF
  size : ∀ t, 1 ≤ t → t ≤ mt → (cells t).length = width4 R U T t * 2 ^ (R.nb + R.ext)
  constMem : c.mem .const_2ns = fixed.map ofF
  constSize : fixed.length = T.nConst * 2 ^ (R.nb + R.ext)
  x : c.mem .x_2ns = (List.range (2 ^ (R.nb + R.ext))).map fun j => ofF (Roots.shift * Roots.mg (R.nb + R.ext) ^ j)
  publics : ∀ (i : Nat) (v : K), R.publics[i]? = some v → ∃ w, (c.mem .publics)[i]? = some w ∧ Rel v w 1
  chal : ∀ (i : Nat) (v : K), chal[i]? = some v → ∃ w, (c.mem .challenge)[i]? = some w ∧ Rel v w 3
  evals : ∀ (i : Nat) (v : K), evals[i]? = some v → ∃ w, (c.mem .evals)[i]? = some w ∧ Rel v w 3
  xXi : c.xXi = xd.flatMap encK.enc
  xWXi : c.xWXi = xdw.flatMap encK.enc
  Zi : ∀ j, c.Zi j = some (ofF (zhInv Roots.mg Roots.shift R.nb R.ext 0 j))

/-- the layout of the extended sections -/
structure ExtLay (R : Run) (U : Setup K) (T : Trace) (s : Info) : Prop where
  col : ∀ k cp, R.pos k = some cp → nodeCol s .ns2 ({ ty := .cm, id := k } : Interp.Node F3G) = some ⟨sec2 cp.tree, cp.pos, cp.dim, width4 R U T cp.tree⟩
  dims : ∀ k cp, R.pos k = some cp → (cp.dim = 1 ∨ cp.dim = 3) ∧ 1 ≤ cp.tree ∧ cp.tree ≤ 4 ∧ cp.pos + cp.dim ≤ width4 R U T cp.tree
  width : ∀ t, 1 ≤ t → t ≤ 4 → s.sectionsN (sec2 t) = width4 R U T t
  const_ : s.nConstants = T.nConst
  q : s.qDim = R.qDim
  qWidth : s.sectionsN .q_2ns = R.qDim
  fWidth : s.sectionsN .f_2ns = 3

/-- the layout the programs of the extended domain run on -/
def lay2 (R : Run) (s : Info) (im : List Nat) (im2cm : Nat → Option Nat) (tmpexps : List (Nat × Nat)) (em : Bool → Nat → Nat) (lit : K → F3G) : Lay where
  s := s
  dom := .ns2
  N := 2 ^ (R.nb + R.ext)
  step := 2 ^ R.ext
  tgt := tgtOf im im2cm tmpexps .ns2
  em := em
  lit := lit

theorem zhInv_map (nb ext off i : Nat) : algebraMap F K (zhInv Roots.mg Roots.shift nb ext off i) = zhInv mgK shiftK nb ext off i := by
  have hsq : ∀ n (x : F), algebraMap F K (Stark.sqTimes n x) = Stark.sqTimes n (algebraMap F K x) := by
    intro n
    induction n with
    | zero => intro x; rfl
    | succ n ih =>
      intro x
      rw [Stark.sqTimes, Stark.sqTimes, ih, map_mul]
  have hl : ∀ n (sn m w : F), (Stark.zhLoop sn m n w).map (algebraMap F K) = Stark.zhLoop (algebraMap F K sn) (algebraMap F K m) n (algebraMap F K w) := by
    intro n
    induction n with
    | zero => intro _ _ _; rfl
    | succ n ih =>
      intro sn m w
      rw [Stark.zhLoop, Stark.zhLoop, List.map_cons, ih, map_inv₀, map_sub, map_mul, map_one, map_mul]
  unfold zhInv
  dsimp only
  have := hl (2 ^ ext) (Stark.sqTimes nb Roots.shift) (Roots.mg ext) 1
  rw [hsq, map_one] at this
  unfold mgK shiftK
  rw [← this, List.length_map, List.getD_eq_getElem?_getD, List.getD_eq_getElem?_getD, List.getElem?_map]
  cases (Stark.zhLoop (Stark.sqTimes nb Roots.shift) (Roots.mg ext) (2 ^ ext) 1)[(i + off) % (Stark.zhLoop (Stark.sqTimes nb Roots.shift) (Roots.mg ext) (2 ^ ext) 1).length]? with
  | none => simp
  | some v => rfl

theorem rel_ofF (a : F) {D : Nat} (hD : 1 ≤ D) : Rel (algebraMap F K a) (ofF a) D := ⟨.inr ⟨rfl, rfl, rfl⟩, by simp [val, ofF, coord], hD⟩

/-- a column of a section of base field cells -/
theorem read_cells {l : List F} {w N off dim r : Nat} (hl : l.length = w * N) (hr : r < N) (hd : dim = 1 ∨ dim = 3) (ho : off + dim ≤ w) {sec : Sec} {m : Sec → List F3G}
    (hm : m sec = l.map ofF) : ∃ x, readCol algF3 m ⟨sec, off, dim, w⟩ r = some x ∧ Rel (colVal (algebraMap F K) coord l off w dim r) x dim := by
  have hget : ∀ k, k < w → (m sec)[r * w + k]? = some (ofF (l.getD (r * w + k) 0)) := by
    intro k hk
    have hlt : r * w + k < l.length := by
      have := Nat.mul_le_mul_right w (Nat.succ_le_of_lt hr)
      rw [hl, Nat.mul_comm w N]
      have : (r + 1) * w ≤ N * w := this
      rw [Nat.add_mul] at this
      omega
    rw [hm, List.getElem?_map, List.getElem?_eq_getElem hlt, Option.map_some, List.getD_eq_getElem?_getD, List.getElem?_eq_getElem hlt]
    rfl
  unfold readCol colVal cell
  rcases hd with rfl | rfl
  · rw [if_pos rfl, if_pos rfl]
    exact ⟨_, hget off (by omega), rel_ofF _ (le_refl _)⟩
  · rw [if_neg (by simp), if_pos rfl, if_neg (by decide)]
    dsimp only
    rw [hget off (by omega), hget (off + 1) (by omega), hget (off + 2) (by omega)]
    refine ⟨⟨l.getD (r * w + off) 0, l.getD (r * w + (off + 1)) 0, l.getD (r * w + (off + 2)) 0, 3⟩, rfl, .inl rfl, ?_, le_refl _⟩
    show coord _ _ _ = _
    rw [Nat.add_comm off (r * w), Nat.add_assoc, Nat.add_assoc]

/-- a table of extension elements -/
theorem read_enc {l : List K} {j : Nat} {v : K} (h : l[j]? = some v) : ∃ w, readBase algF3 (l.flatMap encK.enc) j = some w ∧ Rel v w 3 := by
  have hlen : ∀ x : K, ∃ a b d, encK.enc x = [a, b, d] ∧ coord a b d = x := fun x => by
    obtain ⟨a, b, d, h1, h2⟩ := Fri.encK_ok.three x
    exact ⟨a, b, d, h1, h2⟩
  have key : ∀ (l : List K) (j : Nat) (v : K), l[j]? = some v → ∀ a b d, encK.enc v = [a, b, d] →
      (l.flatMap encK.enc)[3 * j]? = some a ∧ (l.flatMap encK.enc)[3 * j + 1]? = some b ∧ (l.flatMap encK.enc)[3 * j + 2]? = some d := by
    intro l
    induction l with
    | nil => intro j v h; simp at h
    | cons x l ih =>
      intro j v h a b d he
      rw [List.flatMap_cons]
      cases j with
      | zero =>
        simp only [List.getElem?_cons_zero, Option.some.injEq] at h
        subst h
        rw [he]
        exact ⟨rfl, rfl, rfl⟩
      | succ j =>
        rw [List.getElem?_cons_succ] at h
        obtain ⟨x1, x2, x3, hx, -⟩ := hlen x
        rw [hx]
        obtain ⟨h1, h2, h3⟩ := ih j v h a b d he
        exact ⟨h1, h2, h3⟩
  obtain ⟨a, b, d, h1, h2⟩ := hlen v
  obtain ⟨g1, g2, g3⟩ := key l j v h a b d h1
  refine ⟨⟨a, b, d, 3⟩, ?_, .inl rfl, h2, le_refl _⟩
  unfold readBase
  rw [g1, g2, g3]
  rfl

/-- the dimension of the value of an operand -/
def LeafDim (R : Run) (im2cm : Nat → Option Nat) (lit : K → F3G) (D : Nat) (r : Codegen.Node K) : Prop :=
  D = 3 ∨ match r.ty with
    | .cm => ∀ cp, R.pos r.id = some cp → cp.dim = 1
    | .exp => ∀ k cp, im2cm r.id = some k → R.pos k = some cp → cp.dim = 1
    | .number => ∀ v, r.value = some v → (lit v).dim = 1
    | .const_ | .public_ | .x => True
    | _ => False

/-- the tree of the column of an operand is at most `mt` -/
def LeafTree (R : Run) (im2cm : Nat → Option Nat) (mt : Nat) (r : Codegen.Node K) : Prop :=
  (r.ty = .cm → ∀ cp, R.pos r.id = some cp → cp.tree ≤ mt) ∧ (r.ty = .exp → ∀ k cp, im2cm r.id = some k → R.pos k = some cp → cp.tree ≤ mt)

theorem rowOf_ext {N step i : Nat} (hi : i < N) (p : Bool) : rowOf N step p i = (i + if p then step else 0) % N := by
  unfold rowOf
  cases p
  · simp [Nat.mod_eq_of_lt hi]
  · simp

theorem sec2_ne (t : Nat) : sec2 t ≠ .tmp ∧ sec2 t ≠ .q_2ns ∧ sec2 t ≠ .f_2ns := by
  unfold sec2
  split <;> exact ⟨by decide, by decide, by decide⟩

theorem tgtOf_some {im : List Nat} {im2cm : Nat → Option Nat} {tmpexps : List (Nat × Nat)} {id : Nat} (h : ¬ tgtOf im im2cm tmpexps .ns2 id = none) :
    ∃ k, im2cm id = some k ∧ tgtOf im im2cm tmpexps .ns2 id = some (.cm, k) := by
  unfold tgtOf at h ⊢
  rw [if_neg (show ¬Dom.ns2 = Dom.n by decide)] at h ⊢
  split_ifs at h ⊢ with h1
  · cases hk : im2cm id with
    | none => rw [hk] at h; exact absurd rfl h
    | some k => exact ⟨k, rfl, by simp⟩
  · exact absurd rfl h

section leaf

variable {R : Run} {U : Setup K} {T : Trace} {s : Info} {mt : Nat} {cells : Nat → List F} {fixed : List F} {chal evals xd xdw : List K} {c0 : Interp.Ctx F3G F}
  {im : List Nat} {im2cm : Nat → Option Nat} {tmpexps : List (Nat × Nat)} {em : Bool → Nat → Nat} {lit : K → F3G} {out : Sec} {D i : Nat} {σ0 : Store K}

/-- what the registers hold before the program: the values of the columns at the row; an intermediate polynomial is its column -/
structure Start0 (R : Run) (U : Setup K) (T : Trace) (cells : Nat → List F) (fixed : List F) (chal evals xd xdw : List K) (im2cm : Nat → Option Nat) (i : Nat)
    (σ0 : Store K) : Prop where
  same : ∀ t k p, t ≠ .exp → σ0 t k p = extStore R U T cells fixed chal evals xd xdw i t k p
  exp : ∀ k p v, σ0 .exp k p = some v → ∃ m, im2cm k = some m ∧ extStore R U T cells fixed chal evals xd xdw i .cm m p = some v

theorem col_mem (hB : ExtBufs R U T s mt cells fixed chal evals xd xdw c0) (hL : ExtLay R U T s) (hout : out = .q_2ns ∨ out = .f_2ns) (hi : i < 2 ^ (R.nb + R.ext))
    {k : Nat} {p : Bool} {v : K} (hv : extStore R U T cells fixed chal evals xd xdw i .cm k p = some v) (ht : ∀ cp, R.pos k = some cp → cp.tree ≤ mt) :
    ∃ cp w, R.pos k = some cp ∧ Rel v w cp.dim ∧ ∀ c, Agree out c0 c →
      (nodeCol s .ns2 ({ ty := .cm, id := k } : Interp.Node F3G)).bind (fun col => readCol algF3 c.mem col (rowOf (2 ^ (R.nb + R.ext)) (2 ^ R.ext) p i)) = some w := by
  obtain ⟨cp, h1, h2⟩ := Option.map_eq_some_iff.mp hv
  obtain ⟨d1, d2, d3, d4⟩ := hL.dims k cp h1
  have hr : (i + if p then 2 ^ R.ext else 0) % 2 ^ (R.nb + R.ext) < 2 ^ (R.nb + R.ext) := Nat.mod_lt _ (by positivity)
  obtain ⟨w, w1, w2⟩ := read_cells (m := c0.mem) (sec := sec2 cp.tree) (hB.size cp.tree d2 (ht cp h1)) hr d1 d4 (hB.mem cp.tree d2 (ht cp h1))
  rw [h2] at w2
  refine ⟨cp, w, h1, w2, fun c hA => ?_⟩
  rw [hL.col k cp h1, Option.bind_some, rowOf_ext hi, ← w1]
  refine Map.readCol_congr fun j _ => ?_
  dsimp only
  rw [hA.mem _ (sec2_ne _).1 (by rcases hout with rfl | rfl; exact (sec2_ne _).2.1; exact (sec2_ne _).2.2)]

/-- an operand that is not a temporary -/
theorem leafE (hB : ExtBufs R U T s mt cells fixed chal evals xd xdw c0) (hL : ExtLay R U T s) (hlit : ∀ v, WF (lit v) ∧ val (lit v) = v) (hD : D = 1 ∨ D = 3)
    (hout : out = .q_2ns ∨ out = .f_2ns) (hi : i < 2 ^ (R.nb + R.ext)) (hσ : Start0 R U T cells fixed chal evals xd xdw im2cm i σ0)
    {r : Codegen.Node K} (h1 : r.ty ≠ .tmp) (h2 : ¬(r.ty = .exp ∧ tgtOf im im2cm tmpexps .ns2 r.id = none)) (ht : LeafTree R im2cm mt r) (hd : LeafDim R im2cm lit D r)
    {v : K} (hv : readN σ0 r = some v) :
    ∃ w, Rel v w D ∧ ∀ c, Agree out c0 c → meaning algF3 s .ns2 (2 ^ (R.nb + R.ext)) (2 ^ R.ext) c i (fixNode (tgtOf im im2cm tmpexps .ns2) lit em r) = some w := by
  have h13 : 1 ≤ D ∧ D ≤ 3 := by omega
  have hne : ∀ t, t ≠ .tmp → t ≠ .q_2ns → t ≠ .f_2ns → ∀ c, Agree out c0 c → c.mem t = c0.mem t := by
    intro t a b d c hA
    exact hA.mem t a (by rcases hout with rfl | rfl <;> assumption)
  unfold readN at hv
  by_cases hn : r.ty = .number
  · rw [if_pos hn] at hv
    refine ⟨lit v, ⟨(hlit v).1, (hlit v).2, ?_⟩, fun c _ => ?_⟩
    · rcases hd with rfl | hd
      · exact Map.wf_dim (hlit v).1
      · rw [hn] at hd
        rw [hd v hv]
        exact h13.1
    · unfold fixNode meaning
      simp only [hn, sameTy, hv, Option.map_some]
  rw [if_neg hn] at hv
  by_cases he : r.ty = .exp
  · obtain ⟨k, hk1, hk2⟩ := tgtOf_some (fun hh => h2 ⟨he, hh⟩)
    rw [he] at hv
    obtain ⟨m, hm1, hm2⟩ := hσ.exp _ _ _ hv
    rw [hk1] at hm1
    obtain rfl := Option.some.inj hm1
    obtain ⟨cp, w, w1, w2, w3⟩ := col_mem hB hL hout hi hm2 (fun cp hcp => ht.2 he k cp hk1 hcp)
    refine ⟨w, w2.mono ?_, fun c hA => ?_⟩
    · rcases hd with rfl | hd
      · rcases (hL.dims _ _ w1).1 with h | h <;> omega
      · rw [he] at hd
        rw [hd k cp hk1 w1]
        exact h13.1
    · rw [← w3 c hA]
      unfold fixNode meaning
      simp only [he, hk2]
      rfl
  rw [hσ.same _ _ _ he] at hv
  cases hty : r.ty with
  | tmp => exact absurd hty h1
  | exp => exact absurd hty he
  | number => exact absurd hty hn
  | q => rw [hty] at hv; cases hv
  | f => rw [hty] at hv; cases hv
  | cm =>
    rw [hty] at hv
    obtain ⟨cp, w, w1, w2, w3⟩ := col_mem hB hL hout hi hv (ht.1 hty)
    refine ⟨w, w2.mono ?_, fun c hA => ?_⟩
    · rcases hd with rfl | hd
      · rcases (hL.dims _ _ w1).1 with h | h <;> omega
      · rw [hty] at hd
        rw [hd cp w1]
        exact h13.1
    · rw [← w3 c hA]
      unfold fixNode meaning
      simp only [hty]
      rfl
  | const_ =>
    rw [hty] at hv
    have hk : r.id < T.nConst := by
      by_contra hk
      unfold extStore at hv
      dsimp only at hv
      rw [if_neg hk] at hv
      cases hv
    unfold extStore at hv
    dsimp only at hv
    rw [if_pos hk] at hv
    have hr : (i + if r.prime then 2 ^ R.ext else 0) % 2 ^ (R.nb + R.ext) < 2 ^ (R.nb + R.ext) := Nat.mod_lt _ (by positivity)
    obtain ⟨w, w1, w2⟩ := read_cells (m := c0.mem) (sec := .const_2ns) (off := r.id) (dim := 1) hB.constSize hr (.inl rfl) (by omega) hB.constMem
    rw [Option.some.inj hv] at w2
    refine ⟨w, w2.mono h13.1, fun c hA => ?_⟩
    unfold fixNode meaning
    simp only [hty, sameTy]
    show (nodeCol s .ns2 _).bind _ = _
    unfold nodeCol
    dsimp only
    rw [Option.bind_some, rowOf_ext hi, hL.const_, ← w1]
    refine Map.readCol_congr fun j _ => ?_
    dsimp only
    rw [hne _ (by decide) (by decide) (by decide) c hA]
  | public_ =>
    rw [hty] at hv
    obtain ⟨w, w1, w2⟩ := hB.publics _ _ hv
    refine ⟨w, w2.mono h13.1, fun c hA => ?_⟩
    unfold fixNode meaning
    simp only [hty, sameTy]
    rw [hne _ (by decide) (by decide) (by decide) c hA]
    exact w1
  | challenge =>
    rw [hty] at hv
    obtain ⟨w, w1, w2⟩ := hB.chal _ _ hv
    refine ⟨w, ?_, fun c hA => ?_⟩
    · rcases hd with rfl | hd
      · exact w2
      · rw [hty] at hd; exact hd.elim
    unfold fixNode meaning
    simp only [hty, sameTy]
    rw [hne _ (by decide) (by decide) (by decide) c hA]
    exact w1
  | eval =>
    rw [hty] at hv
    obtain ⟨w, w1, w2⟩ := hB.evals _ _ hv
    refine ⟨w, ?_, fun c hA => ?_⟩
    · rcases hd with rfl | hd
      · exact w2
      · rw [hty] at hd; exact hd.elim
    unfold fixNode meaning
    simp only [hty, sameTy]
    rw [hne _ (by decide) (by decide) (by decide) c hA]
    exact w1
  | xDivXSubXi =>
    rw [hty] at hv
    obtain ⟨w, w1, w2⟩ := read_enc hv
    refine ⟨w, ?_, fun c hA => ?_⟩
    · rcases hd with rfl | hd
      · exact w2
      · rw [hty] at hd; exact hd.elim
    unfold fixNode meaning
    simp only [hty, sameTy]
    rw [hA.xXi, hB.xXi]
    exact w1
  | xDivXSubWXi =>
    rw [hty] at hv
    obtain ⟨w, w1, w2⟩ := read_enc hv
    refine ⟨w, ?_, fun c hA => ?_⟩
    · rcases hd with rfl | hd
      · exact w2
      · rw [hty] at hd; exact hd.elim
    unfold fixNode meaning
    simp only [hty, sameTy]
    rw [hA.xWXi, hB.xWXi]
    exact w1
  | x =>
    rw [hty] at hv
    have hv' : xExt R i = v := Option.some.inj hv
    refine ⟨ofF (Roots.shift * Roots.mg (R.nb + R.ext) ^ i), ?_, fun c hA => ?_⟩
    · have := rel_ofF (Roots.shift * Roots.mg (R.nb + R.ext) ^ i) h13.1
      rw [← Stark.xExt_eq, hv'] at this
      exact this
    unfold fixNode meaning
    simp only [hty, sameTy]
    show (nodeCol s .ns2 _).bind _ = _
    unfold nodeCol
    dsimp only
    rw [Option.bind_some]
    unfold readCol cell
    dsimp only
    rw [if_pos rfl, hne _ (by decide) (by decide) (by decide) c hA, hB.x, List.getElem?_map, Nat.mul_one, Nat.add_zero, List.getElem?_range hi]
    rfl

/-- the condition of the parallel evaluation on such an operand -/
theorem srcE (hL : ExtLay R U T s) {ex : Interp.Exec} (hdom : ex.dom = .ns2) (hwx : ∀ t, ex.width t = setWidth s t) (hsec : ∀ t, 1 ≤ t → t ≤ mt → sec2 t ∈ ex.inp)
    (hconst : .const_2ns ∈ ex.inp) (hout : out = .q_2ns ∨ out = .f_2ns) {all : List (Interp.Instr F3G)}
    (hall : ∀ ins ∈ all, ∀ col, nodeCol s .ns2 ins.dest = some col → col.sec = out) (hσ : Start0 R U T cells fixed chal evals xd xdw im2cm i σ0)
    {r : Codegen.Node K} (h1 : r.ty ≠ .tmp) (h2 : ¬(r.ty = .exp ∧ tgtOf im im2cm tmpexps .ns2 r.id = none)) (ht : LeafTree R im2cm mt r)
    (hx : r.ty = .x → .x_2ns ∈ ex.inp) (hxd : r.ty = .xDivXSubXi ∨ r.ty = .xDivXSubWXi → ex.inBase = true)
    {v : K} (hv : readN σ0 r = some v) (defd : List Nat) : Interp.SrcOk s ex all defd (fixNode (tgtOf im im2cm tmpexps .ns2) lit em r) := by
  have hcm : ∀ k (p : Bool) v, extStore R U T cells fixed chal evals xd xdw i .cm k p = some v → (∀ cp, R.pos k = some cp → cp.tree ≤ mt) →
      ∀ n : Interp.Node F3G, n.ty = .cm → n.id = k → Interp.SrcOk s ex all defd n := by
    intro k p v hv ht n hn1 hn2
    obtain ⟨cp, h1, -⟩ := Option.map_eq_some_iff.mp hv
    obtain ⟨d1, d2, d3, d4⟩ := hL.dims k cp h1
    have hnc : nodeCol s .ns2 n = some ⟨sec2 cp.tree, cp.pos, cp.dim, width4 R U T cp.tree⟩ := by
      rw [← hL.col k cp h1]
      unfold nodeCol
      rw [hn1, hn2]
    unfold Interp.SrcOk
    simp only [hn1]
    intro col hcol
    rw [hdom, hnc] at hcol
    obtain rfl := Option.some.inj hcol
    refine ⟨List.mem_append_left _ (hsec _ d2 (ht cp h1)), ⟨?_, d4⟩, fun _ ins hins col' hc' he => ?_⟩
    · show width4 R U T cp.tree = ex.width (sec2 cp.tree)
      rw [hwx, ← hL.width cp.tree d2 d3]
      unfold sec2 setWidth
      split <;> rfl
    · rw [hdom] at hc'
      have := hall ins hins col' hc'
      rw [he] at this
      have hs := sec2_ne cp.tree
      rcases hout with rfl | rfl
      · exact absurd this hs.2.1
      · exact absurd this hs.2.2
  unfold readN at hv
  by_cases he : r.ty = .exp
  · obtain ⟨k, hk1, hk2⟩ := tgtOf_some (fun hh => h2 ⟨he, hh⟩)
    rw [if_neg (by rw [he]; decide), he] at hv
    obtain ⟨m, hm1, hm2⟩ := hσ.exp _ _ _ hv
    rw [hk1] at hm1
    obtain rfl := Option.some.inj hm1
    refine hcm k _ _ hm2 (fun cp hcp => ht.2 he k cp hk1 hcp) _ ?_ ?_ <;> (unfold fixNode; simp only [he, hk2])
  by_cases hn : r.ty = .number
  · unfold Interp.SrcOk fixNode
    simp only [hn, sameTy]
  rw [if_neg hn, hσ.same _ _ _ he] at hv
  cases hty : r.ty with
  | tmp => exact absurd hty h1
  | exp => exact absurd hty he
  | number => exact absurd hty hn
  | q => rw [hty] at hv; cases hv
  | f => rw [hty] at hv; cases hv
  | cm =>
    rw [hty] at hv
    refine hcm r.id _ _ hv (ht.1 hty) _ ?_ ?_ <;> (unfold fixNode; simp only [hty])
  | const_ =>
    rw [hty] at hv
    have hk : r.id < T.nConst := by
      by_contra hk
      unfold extStore at hv
      dsimp only at hv
      rw [if_neg hk] at hv
      cases hv
    unfold Interp.SrcOk fixNode
    simp only [hty, sameTy]
    intro col hcol
    rw [hdom] at hcol
    obtain rfl := Option.some.inj hcol
    refine ⟨List.mem_append_left _ hconst, ⟨?_, ?_⟩, fun _ ins hins col' hc' he => ?_⟩
    · show s.nConstants = ex.width .const_2ns
      rw [hwx]; rfl
    · show r.id + 1 ≤ s.nConstants
      rw [hL.const_]; omega
    · rw [hdom] at hc'
      have := hall ins hins col' hc'
      rw [he] at this
      rcases hout with rfl | rfl <;> cases this
  | x =>
    unfold Interp.SrcOk fixNode
    simp only [hty, sameTy]
    intro col hcol
    rw [hdom] at hcol
    obtain rfl := Option.some.inj hcol
    refine ⟨List.mem_append_left _ (hx hty), ⟨?_, le_refl _⟩, fun _ ins hins col' hc' he => ?_⟩
    · show 1 = ex.width .x_2ns
      rw [hwx]; rfl
    · rw [hdom] at hc'
      have := hall ins hins col' hc'
      rw [he] at this
      rcases hout with rfl | rfl <;> cases this
  | xDivXSubXi =>
    unfold Interp.SrcOk fixNode
    simp only [hty, sameTy]
    exact hxd (.inl hty)
  | xDivXSubWXi =>
    unfold Interp.SrcOk fixNode
    simp only [hty, sameTy]
    exact hxd (.inr hty)
  | public_ => unfold Interp.SrcOk fixNode; simp only [hty, sameTy]
  | challenge => unfold Interp.SrcOk fixNode; simp only [hty, sameTy]
  | eval => unfold Interp.SrcOk fixNode; simp only [hty, sameTy]

end leaf

end

end Verif.Stage
