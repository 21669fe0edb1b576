import Verif.Grand.Generated
import Verif.Grand.Example
import Verif.Stark.ProverExample

/-!
# A concrete circuit with a lookup, a permutation and a connection

The table of `Grand.Example` as a prover trace: two columns `a = 5, 6`, `b = 6, 5`, the pair `(a, b)` looked up in `(b, a)`, `a` a permutation of `b`,
every cell of `a` connected to the cell of `b` in the other row.  With a blowup of two the setup selects the numerator of the lookup as an
intermediate polynomial and splits the quotient in two.
-/
set_option linter.unusedSectionVars false

namespace Verif.Grand.Ex
open Codegen Codegen.Spec Stark ImPols ImPols.Spec FFT Fri
open Verif.GL (F)
open Verif.Ext3 (K coord)
open Verif.Stark.Example (ones rest)

noncomputable def exps : List (Expr K) := [eCm 0, eCm 1, eCol .const_ 1, eCol .const_ 2, eNum 1]
noncomputable def st : PilSt K := ⟨exps, [], 2⟩
abbrev lk : LookupId := ⟨[0, 1], [1, 0], none, some 4⟩
abbrev pm : LookupId := ⟨[0], [1], none, none⟩
abbrev cn : ConnId := ⟨[0, 1], [2, 3]⟩
def args : Args := ⟨[lk], [pm], [cn]⟩
noncomputable def k1 : K := algebraMap F K Roots.kMul
noncomputable def exps' : List (Expr K) := exps ++
  [select (lcT [1, 0]) eDef (some 4), lcF [0, 1], lcT [1], lcF [0],
   zStart 0 4, lookupNum 6 5, lookupDen 2 3, zStep 4 10 11,
   zStart 0 5, eAdd (eExp 8) eBeta, eAdd (eExp 7) eBeta, zStep 5 14 15,
   connFactor 0 eX, connFactor 0 (eExp 2), eMul (eExp 17) (eAdd (eAdd (eExp 1) (eMul (eMul eBeta (eNum k1)) eX)) eGamma),
   eMul (eExp 18) (connFactor 1 (eExp 3)), zStart 0 6, zStep 6 19 20]
noncomputable def st' : PilSt K := ⟨exps', [9, 12, 13, 16, 21, 22], 7⟩
def cx : ArgCtx :=
  ⟨[{ fExp := 6, tExp := 5, h1 := 2, h2 := 3, z := 4, c1 := 9, num := 10, den := 11, c2 := 12 }],
   [{ fExp := 8, tExp := 7, z := 5, c1 := 13, num := 14, den := 15, c2 := 16 }],
   [{ z := 6, c1 := 21, num := 19, den := 20, c2 := 22 }]⟩

theorem gen : genArgs (algebraMap F K) (some 0) st args = some (st', cx) := by
  have h : Roots.getKs 1 = some [Roots.kMul] := by decide +kernel
  simp only [genArgs, runAll, args, step2One, permLCOne, plookupZOne, connZOne, connLoop, h, Option.bind_some, Option.map_some, List.length,
    List.map_cons, List.map_nil]
  rfl

def pos : Nat → Option ColPos
  | 0 => some ⟨1, 0, 1⟩
  | 1 => some ⟨1, 1, 1⟩
  | 2 => some ⟨2, 0, 3⟩
  | 3 => some ⟨2, 3, 3⟩
  | 4 => some ⟨3, 0, 3⟩
  | 5 => some ⟨3, 3, 3⟩
  | 6 => some ⟨3, 6, 3⟩
  | 7 => some ⟨3, 9, 3⟩
  | 8 => some ⟨4, 0, 3⟩
  | 9 => some ⟨4, 3, 3⟩
  | _ => none

def step (c : Expr K) (i : Nat) : Expr K := .node { op := .add } [.node { op := .mul } [vcE, c], expE i]
def cI : Expr K := step (step (step (step (step (expE 9) 12) 13) 16) 21) 22
noncomputable def cE : Expr K := .node { op := .add } [.node { op := .mul } [vcE, cI], .node { op := .sub } [lookupNum 6 5, cmE 7]]

theorem sel : selectLoop 30 exps' cI 3 = some ({10}, 2) := by decide +kernel

theorem generated : generate 30 exps' [9, 12, 13, 16, 21, 22] 7 3 = some ({10}, 2, cE) := by
  have h : identExp [9, 12, 13, 16, 21, 22] = some cI := rfl
  have hs : ({10} : Finset Nat).sort (· ≤ ·) = [10] := by simp
  rw [generate, h, Option.bind_some, sel, Option.bind_some]
  dsimp only
  rw [if_pos (by decide), hs]
  rfl

theorem im : im2cmOf {10} 7 = fun k => if k = 10 then some 7 else none := by
  funext k
  unfold im2cmOf
  by_cases h : k = 10
  · subst h; simp
  · simp [h]

theorem done : imDone {10} = [(false, 10), (true, 10)] := by simp [imDone]

theorem setup_some : ∃ U, setup 30 40 exps' [9, 12, 13, 16, 21, 22] 7 1 pos rest = some U ∧ U.S = {10} ∧ U.qDeg = 2 ∧ U.cExp = cE := by
  have hs : ({10} : Finset Nat).sort (· ≤ ·) = [10] := by simp
  have h : (setup 30 40 exps' [9, 12, 13, 16, 21, 22] 7 1 pos rest).isSome = true := by
    unfold setup
    rw [show 2 ^ 1 + 1 = 3 from rfl, generated, Option.bind_some]
    simp only
    rw [hs, im, done]
    decide +kernel
  obtain ⟨U, hU⟩ := Option.isSome_iff_exists.mp h
  obtain ⟨ctx, out, fe, ctx5, S⟩ := setup_ok hU
  have := S.gen
  rw [show 2 ^ 1 + 1 = 3 from rfl, generated] at this
  simp only [Option.some.injEq, Prod.mk.injEq] at this
  exact ⟨U, hU, this.1.symm, this.2.1.symm, this.2.2.symm⟩

theorem progs_some : ∃ P, genProgs 40 exps' cx {10} = some P := by
  have hs : ({10} : Finset Nat).sort (· ≤ ·) = [10] := by simp
  rw [← Option.isSome_iff_exists]
  unfold genProgs reqsIm
  rw [hs]
  decide +kernel

/-! ### The trace -/

noncomputable def run : Run := ⟨2, 1, 1, fun _ _ => 7, pos, 3, 7, [(6 : F), 5].map (algebraMap F K)⟩

/-- the point of a row and the label of a cell, in the base field -/
def lab (j i : Nat) : F := Roots.kMul ^ j * Roots.mg 1 ^ i

/-- the constant columns: `L1` and the labels of the connected cells -/
def fixedOf (g : Nat → Nat → F) (i : Nat) : F :=
  if i = 0 then 1 else if i = 1 then g 1 1 else if i = 2 then g 0 1 else if i = 3 then 0 else if i = 4 then g 1 0 else g 0 0

theorem fixedOf_label (g : Nat → Nat → F) : fixedOf g 1 = g 1 1 ∧ fixedOf g 4 = g 1 0 ∧ fixedOf g 2 = g 0 1 ∧ fixedOf g 5 = g 0 0 := ⟨rfl, rfl, rfl, rfl⟩

noncomputable def trace : Trace where
  width s := if s = 1 then 2 else if s = 2 then 6 else 12
  nConst := 3
  cm1 i := if i = 0 ∨ i = 3 then 5 else 6
  cm2 _ _ _ := 0
  cm3 _ _ _ _ _ := 0
  fixed := fixedOf lab

def va (i : Nat) : F := if i = 0 then 5 else 6
def vb (i : Nat) : F := if i = 0 then 6 else 5

noncomputable def av (i : Nat) : K := algebraMap F K (va i)
noncomputable def bv (i : Nat) : K := algebraMap F K (vb i)
noncomputable def x (i : Nat) : K := mgK 1 ^ i
noncomputable def l1v (i : Nat) : K := label (algebraMap F K) x 1 (1 - i)
noncomputable def l0v (i : Nat) : K := label (algebraMap F K) x 0 (1 - i)

theorem lab_eq (j i : Nat) : algebraMap F K (lab j i) = label (algebraMap F K) x j i := by
  simp only [lab, label, x, map_mul, map_pow]
  rfl

theorem cm0 : ∀ i < 2, trCm run trace [] 0 i = some (av i) := by
  intro i hi
  rw [trCm_eq (c := ⟨1, 0, 1⟩) [] rfl (.inl rfl) ⟨le_refl 1, by decide⟩ (by decide)]
  interval_cases i <;> rfl

theorem cm1 : ∀ i < 2, trCm run trace [] 1 i = some (bv i) := by
  intro i hi
  rw [trCm_eq (c := ⟨1, 1, 1⟩) [] rfl (.inl rfl) ⟨le_refl 1, by decide⟩ (by decide)]
  interval_cases i <;> rfl

theorem fix_cell (k i : Nat) (hk : k < 3) (hi : i < 2) : trFx run trace k i = some (algebraMap F K (trace.fixed (i * 3 + k))) := by
  have hc : (cellsOf trace.fixed trace.nConst (2 ^ run.nb)).getD (i % 2 ^ run.nb * trace.nConst + k) 0 = trace.fixed (i * 3 + k) := by
    show (cellsOf trace.fixed 3 2).getD (i % 2 * 3 + k) 0 = _
    rw [Nat.mod_eq_of_lt hi, cellsOf, List.getD_eq_getElem?_getD, List.getElem?_map, List.getElem?_range (by omega)]
    rfl
  unfold trFx traceStore
  simp only [Bool.false_eq_true, if_false, Nat.add_zero]
  rw [if_pos (show k < trace.nConst from hk), colVal, if_pos rfl, hc]

theorem fx1 : ∀ i < 2, trFx run trace 1 i = some (l1v i) := by
  intro i hi
  rw [fix_cell 1 i (by omega) hi, l1v, ← lab_eq]
  have : trace.fixed (i * 3 + 1) = lab 1 (1 - i) := by
    obtain rfl | rfl : i = 0 ∨ i = 1 := by omega
    · exact (fixedOf_label lab).1
    · exact (fixedOf_label lab).2.1
  rw [this]

theorem fx2 : ∀ i < 2, trFx run trace 2 i = some (l0v i) := by
  intro i hi
  rw [fix_cell 2 i (by omega) hi, l0v, ← lab_eq]
  have : trace.fixed (i * 3 + 2) = lab 0 (1 - i) := by
    obtain rfl | rfl : i = 0 ∨ i = 1 := by omega
    · exact (fixedOf_label lab).2.2.1
    · exact (fixedOf_label lab).2.2.2
  rw [this]

/-- the store of the first round -/
noncomputable abbrev row : Nat → Store K := rowStore 2 (sections 2 2 (trCm run trace []) (fun _ _ => none) fun _ _ => none) (trFx run trace) run.publics [] x

theorem col0 : Col exps 2 row 1 0 av := by
  intro i hi
  refine v_exp (e := eCm 0) rfl rfl (v_cm rfl ?_)
  simp only [rowStore, Bool.or_self, Bool.false_eq_true, if_false, Nat.add_zero, Nat.mod_eq_of_lt hi]
  exact cm0 i hi

theorem col1 : Col exps 2 row 1 1 bv := by
  intro i hi
  refine v_exp (e := eCm 1) rfl rfl (v_cm rfl ?_)
  simp only [rowStore, Bool.or_self, Bool.false_eq_true, if_false, Nat.add_zero, Nat.mod_eq_of_lt hi]
  exact cm1 i hi

theorem col2 : Col exps 2 row 1 2 l1v := by
  intro i hi
  refine v_exp (e := eCol .const_ 1) rfl rfl (v_const ?_)
  simp only [rowStore, Bool.or_self, Bool.false_eq_true, if_false, Nat.add_zero, Nat.mod_eq_of_lt hi]
  exact fx1 i hi

theorem col3 : Col exps 2 row 1 3 l0v := by
  intro i hi
  refine v_exp (e := eCol .const_ 2) rfl rfl (v_const ?_)
  simp only [rowStore, Bool.or_self, Bool.false_eq_true, if_false, Nat.add_zero, Nat.mod_eq_of_lt hi]
  exact fx2 i hi

theorem col4 : Col exps 2 row 1 4 fun _ => 1 := fun _ _ => v_exp (e := eNum 1) rfl rfl (v_num 1)

theorem lookupSides : Sides st.exps 2 row 1 lk [av, bv] [bv, av] (fun _ => 1) fun _ => 1 where
  f := .cons col0 (.cons col1 .nil)
  t := .cons col1 (.cons col0 .nil)
  selF := by simp
  selT := by rintro k ⟨⟩; exact col4
  noF := by simp
  noT := by simp
  boolF := by simp
  boolT := by simp
  len := rfl
  pos := by simp

theorem permSides : Sides st.exps 2 row 1 pm [av] [bv] (fun _ => 1) fun _ => 1 where
  f := .cons col0 .nil
  t := .cons col1 .nil
  selF := by simp
  selT := by simp
  noF := by simp
  noT := by simp
  boolF := by simp
  boolT := by simp
  len := rfl
  pos := by simp

theorem nextRow : NextRow st.exps 2 row 1 lk [bv, av] fun _ => 1 where
  t := by
    refine .cons (fun i hi => ?_) (.cons (fun i hi => ?_) .nil)
    · refine v_exp (e := eCm 1) rfl rfl (v_cm rfl ?_)
      exact cm1 _ (nxt_lt (by norm_num))
    · refine v_exp (e := eCm 0) rfl rfl (v_cm rfl ?_)
      exact cm0 _ (nxt_lt (by norm_num))
  sel := by rintro k ⟨⟩ i hi; exact v_exp (e := eNum 1) rfl rfl (v_num 1)

theorem contained : Contained 2 [av, bv] [bv, av] (fun _ => (1 : K)) fun _ => 1 := by
  intro i hi _
  refine ⟨1 - i, by omega, rfl, ?_⟩
  interval_cases i <;> rfl

theorem permuted : selected 2 [av] (fun _ => (1 : K)) = selected 2 [bv] fun _ => 1 := by
  have e : ∀ v : Nat → K, selected 2 [v] (fun _ => 1) = {[v 0], [v 1]} := by
    intro v
    simp [selected, tuple, Multiset.range_succ]
    exact Multiset.cons_swap _ _ _
  rw [e, e]
  exact Multiset.cons_swap _ _ _

theorem connected : Connected 2 (algebraMap F K) x [av, bv] [l1v, l0v] := by
  refine ⟨(Equiv.prodCongr Fin.revPerm Fin.revPerm : Equiv.Perm (Fin 2 × Fin 2)), ?_⟩
  rintro ⟨i, j⟩
  fin_cases i <;> fin_cases j <;> exact ⟨rfl, rfl⟩

/-- the table fulfils its relations -/
theorem fulfils : Fulfils (algebraMap F K) st args (2 ^ run.nb) (trCm run trace []) (trFx run trace) run.publics fun i => mgK run.nb ^ i where
  ids := by simp [Holds, st]
  lookup := by
    intro pi hpi
    obtain rfl := List.mem_singleton.mp hpi
    exact ⟨1, [av, bv], [bv, av], fun _ => 1, fun _ => 1, lookupSides, nextRow, contained⟩
  perm := by
    intro pi hpi
    obtain rfl := List.mem_singleton.mp hpi
    exact ⟨1, [av], [bv], fun _ => 1, fun _ => 1, permSides, permuted⟩
  conn := by
    intro ci hci
    obtain rfl := List.mem_singleton.mp hci
    exact ⟨1, [av, bv], [l1v, l0v], .cons col0 (.cons col1 .nil), .cons col2 (.cons col3 .nil), connected⟩

/-! ### The circuit -/

/-- the limits of the expressions of the PIL -/
def lims : List Lim := [⟨2, 0, true⟩, ⟨2, 0, true⟩, ⟨2, 0, true⟩, ⟨2, 0, true⟩, ⟨2, 0, true⟩]

theorem scopedPil : Scoped 3 2 exps lims := by
  have h0 : Scoped (A := K) 3 2 [] [] := .nil
  have h1 := Scoped.snoc (e := eCm 0) (L := ⟨2, 0, true⟩) h0 (.cm rfl rfl (by decide) fun _ => rfl)
  have h2 := Scoped.snoc (e := eCm 1) (L := ⟨2, 0, true⟩) h1 (.cm rfl rfl (by decide) fun _ => rfl)
  have h3 := Scoped.snoc (e := eCol .const_ 1) (L := ⟨2, 0, true⟩) h2 (.const_ rfl rfl (by decide) fun _ => rfl)
  have h4 := Scoped.snoc (e := eCol .const_ 2) (L := ⟨2, 0, true⟩) h3 (.const_ rfl rfl (by decide) fun _ => rfl)
  exact Scoped.snoc (e := eNum 1) (L := ⟨2, 0, true⟩) h4 (.num rfl rfl)

theorem bnd (j : Nat) (hj : j < 5) (p : Bool) : Bnd lims j 2 2 p := by
  interval_cases j <;> cases p <;> exact ⟨⟨2, 0, true⟩, rfl, by decide, by decide, by simp⟩

theorem numBase : ∀ e ∈ exps', NumBase e := by
  refine stable_numBase.gen ?_ ?_ gen ?_ ?_ ?_
  · exact ⟨by rintro v ⟨⟩; exact ⟨1, (map_one _).symm⟩, by simp, by simp⟩
  · exact fun w => ⟨by rintro v ⟨⟩; exact ⟨w, rfl⟩, by simp, by simp⟩
  · intro pi h
    obtain rfl := List.mem_singleton.mp h
    simp
  · intro pi h
    obtain rfl := List.mem_singleton.mp h
    simp
  · intro e he
    simp only [st, exps, List.mem_cons, List.not_mem_nil, or_false] at he
    rcases he with rfl | rfl | rfl | rfl | rfl
    · exact ⟨by simp, by simp, by simp⟩
    · exact ⟨by simp, by simp, by simp⟩
    · exact ⟨by simp, by simp, by simp⟩
    · exact ⟨by simp, by simp, by simp⟩
    · exact ⟨by rintro v ⟨⟩; exact ⟨1, (map_one _).symm⟩, by simp, by simp⟩

theorem pos_cases {k : Nat} {c : ColPos} (h : pos k = some c) :
    (k = 0 ∧ c = ⟨1, 0, 1⟩) ∨ (k = 1 ∧ c = ⟨1, 1, 1⟩) ∨ (k = 2 ∧ c = ⟨2, 0, 3⟩) ∨ (k = 3 ∧ c = ⟨2, 3, 3⟩) ∨ (k = 4 ∧ c = ⟨3, 0, 3⟩) ∨
    (k = 5 ∧ c = ⟨3, 3, 3⟩) ∨ (k = 6 ∧ c = ⟨3, 6, 3⟩) ∨ (k = 7 ∧ c = ⟨3, 9, 3⟩) ∨ (k = 8 ∧ c = ⟨4, 0, 3⟩) ∨ (k = 9 ∧ c = ⟨4, 3, 3⟩) := by
  match k, h with
  | 0, h | 1, h | 2, h | 3, h | 4, h | 5, h | 6, h | 7, h | 8, h | 9, h => obtain rfl := Option.some.inj h; simp

theorem circuit {P : Progs} (hP : genProgs 40 exps' cx {10} = some P) : ArgCircuit run trace {10} (some 0) st st' args cx lims 40 P where
  gen := gen
  nCm := rfl
  sc := scopedPil
  bounds := by
    intro m hm
    have : m = ⟨2, 0, true⟩ := by simpa [lims] using hm
    subst this
    exact ⟨le_refl 2, by decide⟩
  args := by
    refine ⟨?_, ?_, ?_⟩
    · intro pi h
      obtain rfl := List.mem_singleton.mp h
      refine ⟨by simp, by simp, ?_, ?_, by simp, ?_⟩
      · intro j hj
        exact bnd j (by simp at hj; omega) _
      · intro j hj
        exact bnd j (by simp at hj; omega) _
      · rintro k ⟨⟩
        exact bnd 4 (by omega) _
    · intro pi h
      obtain rfl := List.mem_singleton.mp h
      refine ⟨by simp, by simp, ?_, ?_, by simp, by simp⟩
      · intro j hj
        exact bnd j (by simp at hj; omega) _
      · intro j hj
        exact bnd j (by simp at hj; omega) _
    · intro ci h
      obtain rfl := List.mem_singleton.mp h
      refine ⟨?_, ?_⟩
      · intro j hj
        exact bnd j (by simp at hj; omega) _
      · intro j hj
        exact bnd j (by simp at hj; omega) _
  l1c := by
    rintro l ⟨⟩
    refine ⟨by decide, fun i hi => ?_⟩
    have hi' : i < 2 := hi
    interval_cases i <;> rfl
  plain := by
    intro e he
    simp only [st, exps, List.mem_cons, List.not_mem_nil, or_false] at he
    rcases he with rfl | rfl | rfl | rfl | rfl <;> exact p_leaf (by simp) (by simp)
  layout := by
    refine ⟨by decide, ?_, ?_, ?_, ?_, ?_⟩
    · intro k hk
      have hk' : k < 2 := hk
      interval_cases k <;> exact ⟨_, rfl, rfl⟩
    · intro k h1 h2
      have h1' : 2 ≤ k := h1
      have h2' : k < 4 := h2
      interval_cases k <;> exact ⟨_, rfl, rfl⟩
    · intro k h1 h2
      have h1' : 4 ≤ k := h1
      have h2' : k < 7 := h2
      interval_cases k <;> exact ⟨_, rfl, rfl, rfl⟩
    · intro k h1 h2
      have h1' : 7 ≤ k := h1
      have h2' : k < 8 := h2
      interval_cases k
      exact ⟨_, rfl, rfl⟩
    · intro k k' c c' h1 _ h3 h4 h5
      rcases pos_cases h3 with ⟨rfl, rfl⟩ | ⟨rfl, rfl⟩ | ⟨rfl, rfl⟩ | ⟨rfl, rfl⟩ | ⟨rfl, rfl⟩ | ⟨rfl, rfl⟩ | ⟨rfl, rfl⟩ | ⟨rfl, rfl⟩ | ⟨rfl, rfl⟩ | ⟨rfl, rfl⟩ <;>
      rcases pos_cases h4 with ⟨rfl, rfl⟩ | ⟨rfl, rfl⟩ | ⟨rfl, rfl⟩ | ⟨rfl, rfl⟩ | ⟨rfl, rfl⟩ | ⟨rfl, rfl⟩ | ⟨rfl, rfl⟩ | ⟨rfl, rfl⟩ | ⟨rfl, rfl⟩ | ⟨rfl, rfl⟩ <;>
      simp_all [Disj]
  fit := by
    intro k c h
    rcases pos_cases h with ⟨rfl, rfl⟩ | ⟨rfl, rfl⟩ | ⟨rfl, rfl⟩ | ⟨rfl, rfl⟩ | ⟨rfl, rfl⟩ | ⟨rfl, rfl⟩ | ⟨rfl, rfl⟩ | ⟨rfl, rfl⟩ | ⟨rfl, rfl⟩ | ⟨rfl, rfl⟩ <;>
      simp [trace]
  dims := by
    refine ⟨numBase, fun v hv => by obtain ⟨b, -, rfl⟩ := List.mem_map.mp hv; exact ⟨b, rfl⟩, ?_, ?_⟩
    · intro n c p1 p2 hc h1 h2
      have hn : n = 0 := by
        have := (List.getElem?_eq_some_iff.mp hc).1
        simp [cx] at this
        exact this
      subst hn
      obtain rfl := Option.some.inj h1
      obtain rfl := Option.some.inj h2
      exact ⟨rfl, by simp⟩
    · intro n k c hn hc hd
      have hn' : n = 0 := by
        have := (List.getElem?_eq_some_iff.mp hn).1
        simp at this
        exact this
      subst hn'
      obtain rfl := Option.some.inj hc
      simp at hd
  progs := hP
  fuel := by decide
  ims := by intro k hk; obtain rfl : k = 10 := by simpa using hk
            decide

/-! ### The challenges `1 + ξ + ξ^2` -/

noncomputable def ch : K := coord 1 1 1

/-- `1`, `ch`, `ch^2` are independent over the base field -/
theorem indep {p q r : F} (h : algebraMap F K p + algebraMap F K q * ch + algebraMap F K r * ch ^ 2 = 0) : p = 0 := by
  have e : algebraMap F K p + algebraMap F K q * ch + algebraMap F K r * ch ^ 2 = coord (p + q + 3 * r) (q + 5 * r) (q + 4 * r) := by
    rw [pow_two, ch, Ext3.coord_mul]
    simp only [coord, map_add, map_mul, map_one, map_ofNat]
    ring
  rw [e] at h
  obtain ⟨h1, h2, h3⟩ := Ext3.coord_eq_zero h
  have hr : r = 0 := by linear_combination h2 - h3
  have hq : q = 0 := by linear_combination h2 - 5 * hr
  linear_combination h1 - hq - 3 * hr

theorem five_six : (5 : F) ≠ 0 ∧ (6 : F) ≠ 0 := ⟨by decide +kernel, by decide +kernel⟩
theorem va_ne (i : Nat) : va i ≠ 0 := by unfold va; split_ifs; exacts [five_six.1, five_six.2]
theorem vb_ne (i : Nat) : vb i ≠ 0 := by unfold vb; split_ifs; exacts [five_six.2, five_six.1]

/-- both sides of the lookup are `p + q ch` with `p` nonzero -/
theorem tSide (i : Nat) : tVal ch ch [bv, av] (fun _ => 1) i = algebraMap F K (va i) + algebraMap F K (vb i) * ch := by
  simp only [tVal, horner, tuple, List.map_cons, List.map_nil, List.foldl_cons, List.foldl_nil, av, bv]
  ring

theorem fSide (i : Nat) : fVal ch ch [av, bv] [bv, av] (fun _ => 1) (fun _ => 1) i = algebraMap F K (vb i) + algebraMap F K (va i) * ch := by
  simp only [fVal, horner, tuple, List.map_cons, List.map_nil, List.foldl_cons, List.foldl_nil, av, bv]
  ring

/-- the prover's columns exist for the challenges `ch` -/
theorem columns_ok {P : Progs} (hP : genProgs 40 exps' cx {10} = some P) (init2 init3 : FftP.Buf F) :
    ∃ b, columns run trace 2 P cx {10} init2 init3 ch ch ch ch = some b := by
  obtain ⟨A, B, hh, hA, hB⟩ := lookup_h1h2 (N := 2) (fv := [av, bv]) (tv := [bv, av]) (sF := fun _ => (1 : K)) (sT := fun _ => 1) (by simp) contained ch ch
  have hm : ∀ v, v ∈ A ∨ v ∈ B → ∃ p q : F, p ≠ 0 ∧ v = algebraMap F K p + algebraMap F K q * ch := by
    intro v hv
    obtain ⟨i, _, h | h⟩ := h1h2_mem hh hA hB v hv
    · exact ⟨vb i, va i, vb_ne i, by rw [h, fSide]⟩
    · exact ⟨va i, vb i, va_ne i, by rw [h, tSide]⟩
  have hg : ∀ (l : List K) (i : Nat), l.length = 2 → i < 2 → l.getD i 0 ∈ l := by
    intro l i hl hi
    rw [List.getD_eq_getElem?_getD, List.getElem?_eq_getElem (by omega)]
    exact List.getElem_mem _
  have hden : ∀ v w : K, (v ∈ A ∨ v ∈ B) → (w ∈ A ∨ w ∈ B) → v + w * ch + ch * (1 + ch) ≠ 0 := by
    intro v w hv hw h
    obtain ⟨p, q, hp, rfl⟩ := hm v hv
    obtain ⟨p', q', _, rfl⟩ := hm w hw
    refine hp (indep (p := p) (q := q + p' + 1) (r := q' + 1) ?_)
    rw [← h]
    simp only [map_add, map_one]
    ring
  obtain ⟨b2, b3, h⟩ := columns_some (N := 2) (x := x) (c1 := trCm run trace []) (fx := trFx run trace) (u := ch) (dv := ch) (β := ch) (γ := ch)
    (circuit hP) rfl rfl rfl rfl init2 init3 (ld := fun _ => 1) (pd := fun _ => 1) (cd := fun _ => 1)
    (lf := fun _ => [av, bv]) (lt := fun _ => [bv, av]) (lsF := fun _ _ => 1) (lsT := fun _ _ => 1)
    (pf := fun _ => [av]) (pt := fun _ => [bv]) (psF := fun _ _ => 1) (psT := fun _ _ => 1) (cf := fun _ => [av, bv]) (cs := fun _ => [l1v, l0v])
    (h1 := fun _ => A) (h2 := fun _ => B)
    (fun pi h => by obtain rfl := List.mem_singleton.mp h; exact ⟨lookupSides, nextRow, contained⟩)
    (fun pi h => by obtain rfl := List.mem_singleton.mp h; exact ⟨permSides, permuted⟩)
    (fun ci h => by
      obtain rfl := List.mem_singleton.mp h
      exact ⟨.cons col0 (.cons col1 .nil), .cons col2 (.cons col3 .nil), connected⟩)
    (fun _ _ => ⟨hh, hA, hB⟩)
    (fun _ _ i _ h => by
      refine vb_ne i (indep (p := vb i) (q := 1) (r := 0) ?_)
      rw [← h]
      simp only [tVal, horner, tuple, List.map_cons, List.map_nil, List.foldl_cons, List.foldl_nil, bv, map_one, map_zero]
      ring)
    (fun _ _ i hi => mul_ne_zero (hden _ _ (.inl (hg A i hA hi)) (.inr (hg B i hB hi)))
      (hden _ _ (.inr (hg B i hB hi)) (.inl (hg A _ hA (nxt_lt (by norm_num))))))
    (fun _ _ i hi => by
      refine List.prod_ne_zero fun h0 => ?_
      obtain ⟨j, hj, h⟩ := List.mem_map.mp h0
      have hj' : j < 2 := List.mem_range.mp hj
      have hl : ∀ j' i', ∃ b : F, label (algebraMap F K) x j' i' = algebraMap F K b := fun j' i' => ⟨_, (lab_eq j' i').symm⟩
      obtain rfl | rfl : j = 0 ∨ j = 1 := by omega
      · obtain ⟨b, hb⟩ := hl 1 (1 - i)
        refine va_ne i (indep (p := va i) (q := b + 1) (r := 0) ?_)
        rw [← h]
        simp only [tuple, List.map_cons, List.map_nil, List.getD_cons_zero, av, l1v, hb, map_one, map_zero, map_add]
        ring
      · obtain ⟨b, hb⟩ := hl 0 (1 - i)
        refine vb_ne i (indep (p := vb i) (q := b + 1) (r := 0) ?_)
        rw [← h]
        simp only [tuple, List.map_cons, List.map_nil, List.getD_cons_succ, List.getD_cons_zero, bv, l0v, hb, map_one, map_zero, map_add]
        ring)
  exact ⟨_, h⟩

open Verif.Stark.Example (J J_putAll J_put J_field J_commit) in
theorem drawn {P Tree Root Path : Type} {mt : MT F Root Path Tree} {els : P → List F} {w : Rounds K P Tree} {l : List K}
    (h : draws mt (glTr ones) els TranscriptGL.new w = some l) : l = [ch, ch, ch, ch, ch] := by
  unfold draws at h
  obtain ⟨t0, h0, h⟩ := Option.bind_eq_some_iff.mp h
  have j0 := J_putAll _ h0 (by intro x hx; simp [TranscriptGL.new] at hx)
  obtain ⟨tree1, h1, h⟩ := Option.bind_eq_some_iff.mp h
  obtain ⟨t1, h2, h⟩ := Option.bind_eq_some_iff.mp h
  have j1 := J_put h2 j0
  obtain ⟨⟨u, t2⟩, h3, h⟩ := Option.bind_eq_some_iff.mp h
  have j2 := J_field h3 j1
  dsimp only at h
  obtain ⟨⟨dv, t3⟩, h4, h⟩ := Option.bind_eq_some_iff.mp h
  have j3 := J_field h4 j2.2
  dsimp only at h
  obtain ⟨tree2, h5, h⟩ := Option.bind_eq_some_iff.mp h
  obtain ⟨t4, h6, h⟩ := Option.bind_eq_some_iff.mp h
  have j4 := J_put h6 j3.2
  obtain ⟨⟨ga, t5⟩, h7, h⟩ := Option.bind_eq_some_iff.mp h
  have j5 := J_field h7 j4
  dsimp only at h
  obtain ⟨⟨be, t6⟩, h8, h⟩ := Option.bind_eq_some_iff.mp h
  have j6 := J_field h8 j5.2
  dsimp only at h
  obtain ⟨tree3, h9, h⟩ := Option.bind_eq_some_iff.mp h
  obtain ⟨t7, h10, h⟩ := Option.bind_eq_some_iff.mp h
  have j7 := J_put h10 j6.2
  obtain ⟨⟨vc, t8⟩, h11, h⟩ := Option.map_eq_some_iff.mp h
  have j8 := J_field h11 j7
  rw [← h, j2.1, j3.1, j5.1, j6.1, j8.1]
  rfl

/-! ### The proof is accepted -/

theorem sizeOk (w : Nat) (hw : w ≤ 12) : SizeOk 2 1 1 w := ⟨by decide, by decide, by decide, by decide, by omega, by omega⟩

theorem wellFormed {U : Setup K} (hU : setup 30 40 exps' [9, 12, 13, 16, 21, 22] 7 1 pos rest = some U) (hS : U.S = {10}) (hq : U.qDeg = 2)
    (hc : U.cExp = cE) {P : Progs} (hP : genProgs 40 exps' cx {10} = some P) (init2 init3 : FftP.Buf F) :
    WellFormed run U (argTrace run trace st.nCm P cx U.S init2 init3) st'.exps st'.ids 30 40 rest := by
  have C := circuit hP
  rw [← hS] at C
  refine C.wellFormed hU (fun _ _ h => h) (by simp [st]) ?_ rfl ?_ ?_ ⟨40, ?_⟩ ?_ ?_ (by decide) (by decide) (by rw [hq]; decide)
  · intro e he
    simp only [st, exps, List.mem_cons, List.not_mem_nil, or_false] at he
    rcases he with rfl | rfl | rfl | rfl | rfl
    · exact .var rfl (by omega)
    · exact .var rfl (by omega)
    · exact .var rfl (by omega)
    · exact .var rfl (by omega)
    · exact .const rfl
  · intro p hp
    rw [hq] at hp
    rw [hS]
    interval_cases p <;> rfl
  · intro k c h
    rw [hq]
    rcases pos_cases h with ⟨rfl, rfl⟩ | ⟨rfl, rfl⟩ | ⟨rfl, rfl⟩ | ⟨rfl, rfl⟩ | ⟨rfl, rfl⟩ | ⟨rfl, rfl⟩ | ⟨rfl, rfl⟩ | ⟨rfl, rfl⟩ | ⟨rfl, rfl⟩ | ⟨rfl, rfl⟩ <;>
      simp [run]
  · rw [hc]; rfl
  · intro k hk e n d he hd c hcm
    rw [hS] at hk hcm
    obtain rfl : k = 10 := by simpa using hk
    obtain rfl := Option.some.inj he
    have him : im2cmOf {10} run.nCm 10 = some 7 := by
      show im2cmOf {10} 7 10 = some 7
      rw [im]; rfl
    rw [him] at hcm
    obtain rfl := Option.some.inj hcm
    have h1 := expDim_mono n (n + 40) _ d (by omega) hd
    have h2 := expDim_mono 40 (n + 40) (lookupNum 6 5) 3 (by omega) (show expDim st'.exps (fun k => (run.pos k).map ColPos.dim) 40 (lookupNum 6 5) = some 3 from rfl)
    have h3 : some d = some 3 := h1.symm.trans h2
    rw [Option.some.inj h3]
    rfl
  · refine ⟨fun s h1 h3 => sizeOk _ ?_, sizeOk _ (by show 3 ≤ 12; decide)⟩
    show (if s = 1 then 2 else if s = 2 then 6 else 12) ≤ 12
    split_ifs <;> omega

/-- non-vacuity of `columns_accepted` and of all the hypotheses of `columns_satisfy`, `columns_exist` and `args_accepted` on the circuit: the prover
computes the columns of the lookup, the permutation and the connection, returns a proof, and the verifier accepts it -/
theorem accepted (init2 init3 : FftP.Buf F) :
    ∃ (U : Setup K) (P : Progs) (fixed : List F) (ctree : MerkleGL.MT F), setup 30 40 st'.exps st'.ids 7 1 pos rest = some U ∧
    genProgs 40 st'.exps cx U.S = some P ∧
    ∃ proof t', starkGen (glMT ones 3) (glTr ones) encK (run.cfg 8 [1]) encK.enc TranscriptGL.new
        (proverRounds run trace 2 P cx U U.S init2 init3 (glMT ones 3) id id run.publics fixed ctree) = some (proof, t') ∧
      starkVerify (glMT ones 3) (glTr ones) encK ⟨algebraMap F K, coord⟩ (run.cfg 8 [1]) encK.enc id TranscriptGL.new U.info
        ((glMT ones 3).root ctree) proof = some (true, t') := by
  have hp : Linear.IsState ones := fun s h => by simp [ones]
  obtain ⟨U, hU, hS, hq, hc⟩ := setup_some
  obtain ⟨P, hP⟩ := progs_some
  have W := wellFormed hU hS hq hc hP init2 init3
  have C := circuit hP
  have hk := columns_ok hP init2 init3
  rw [← hS] at C hk
  obtain ⟨fixed, ctree, hfix, hct⟩ := const_total (Tc := argTrace run trace st.nCm P cx U.S init2 init3) (R := run) hp (workers := 3) (by decide) W.sizes.fixed
    ⟨by show 3 < 2 ^ 21 + 8; decide, by decide⟩
  refine ⟨U, P, fixed, ctree, hU, by rw [hS]; exact hP, ?_⟩
  refine columns_accepted (steps := [1]) (nQueries := 8) hp (by decide) C W ⟨?_, ?_⟩ (show 23 < 40 by decide) ?_ (fun _ => rfl) _ (List.map_id _) (by decide)
    (by decide) ⟨by decide, trivial⟩ ⟨⟨by decide, by decide⟩, trivial⟩ hfix hct ?_ ?_
  · intro s h1 h4
    refine ⟨?_, by decide⟩
    have : width4 run U (argTrace run trace st.nCm P cx U.S init2 init3) s ≤ 12 := by
      unfold width4
      rw [hq]
      show (if s = 4 then 3 * 2 else if s = 1 then 2 else if s = 2 then 6 else 12) ≤ 12
      split_ifs <;> omega
    omega
  · exact ⟨by show 3 < 2 ^ 21 + 8; decide, by decide⟩
  · intro i _ id hid
    simp [st] at hid
  · intro u dv ga be vc h
    have := drawn h
    simp only [List.cons.injEq] at this
    obtain ⟨rfl, rfl, rfl, rfl, -⟩ := this
    exact hk
  · intro cm hcm j hj
    rw [Stark.Example.J_commit hcm, xExt_eq, show mgK run.nb = algebraMap F K (Roots.mg run.nb) from rfl]
    refine ⟨fun h => ?_, fun h => ?_⟩
    · rw [← coord_base] at h
      have := (Ext3.coord_inj h).2.1
      exact zero_ne_one this
    · rw [← coord_base, ← coord_base, Ext3.coord_mul] at h
      have h1 := (Ext3.coord_inj h).2.1
      simp only [mul_zero, one_mul, add_zero, zero_add] at h1
      have h2 := Roots.mg_inv run.nb
      rw [← h1, zero_mul] at h2
      exact zero_ne_one h2

/-- the hypotheses of `columns_exist` -/
example : ∃ P, ArgCircuit run trace {10} (some 0) st st' args cx lims 40 P ∧
    Fulfils (algebraMap F K) st args (2 ^ run.nb) (trCm run trace []) (trFx run trace) run.publics fun i => mgK run.nb ^ i := by
  obtain ⟨P, hP⟩ := progs_some
  exact ⟨P, circuit hP, fulfils⟩

end Verif.Grand.Ex
