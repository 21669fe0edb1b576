import Verif.Stark.ProverCols

/-!
# From a satisfied trace to the quotient polynomial
-/
set_option linter.unusedSectionVars false

namespace Verif.Stark
open Fri FFT Codegen Codegen.Spec Polynomial Finset ImPols ImPols.Spec
open Verif.GL (F)
open Verif.Ext3 (K coord ξ)

/-! ### Specification: a trace that satisfies the constraints -/

/-- Row `i` of the trace as the constraints see it, for the challenges `ch`: a column at row `i` or, primed, at the next row,
cyclically; the publics; the point `w^i` of the trace domain. -/
noncomputable def traceStore (R : Run) (T : Trace) (ch : List K) (i : Nat) : Store K := fun t k p =>
  let r := (i + if p then 1 else 0) % 2 ^ R.nb
  match t with
  | .cm => (R.pos k).bind fun c => if 1 ≤ c.tree ∧ c.tree ≤ 3 then
      some (colVal (algebraMap F K) coord (cellsOf (T.sec ch c.tree) (T.width c.tree) (2 ^ R.nb)) c.pos (T.width c.tree) c.dim r) else none
  | .const_ => if k < T.nConst then
      some (colVal (algebraMap F K) coord (cellsOf T.fixed T.nConst (2 ^ R.nb)) k T.nConst 1 r) else none
  | .public_ => R.publics[k]?
  | .challenge => ch[k]?
  | .x => some (mgK R.nb ^ i)
  | _ => none

/-- The trace satisfies the constraint system for the challenges `ch`: on every row, every identity evaluates to zero, and the
column of every intermediate expression holds the value of that expression, references to intermediate expressions being read
from their columns (`substIm`). -/
structure Satisfied (R : Run) (T : Trace) (exps : List (Expr K)) (ids : List Nat) (S : Finset Nat) (ch : List K) (d : Nat) : Prop where
  identity : ∀ i < 2 ^ R.nb, ∀ id ∈ ids,
    Val (fieldOps K) (substIm (S.sort (· ≤ ·)) (im2cmOf S R.nCm) exps) (traceStore R T ch i) d false (expE id) 0
  intermediate : ∀ i < 2 ^ R.nb, ∀ k ∈ S, ∃ e v c, exps[k]? = some e ∧
    Val (fieldOps K) (substIm (S.sort (· ≤ ·)) (im2cmOf S R.nCm) exps) (traceStore R T ch i) d false e v ∧
    im2cmOf S R.nCm k = some c ∧ traceStore R T ch i .cm c false = some v

/-- The layout is sound: every column lies inside its section and has dimension 1 or 3; the committed and intermediate columns
are in the first three sections, the pieces of the quotient in the fourth. -/
structure Layout (R : Run) (U : Setup K) (T : Trace) : Prop where
  dims : ∀ k c, R.pos k = some c → (c.dim = 1 ∨ c.dim = 3) ∧ 1 ≤ c.tree ∧ c.tree ≤ 4 ∧ c.pos + c.dim ≤ width4 R U T c.tree
  cols : ∀ k < R.nCm + U.S.card, ∃ c, R.pos k = some c ∧ c.tree ≤ 3
  quot : ∀ p < U.qDeg, R.pos (R.nCm + U.S.card + p) = some ⟨4, R.qDim * p, R.qDim⟩

/-! ### The constraint polynomial and its quotient -/

theorem mgK_pow {k : Nat} (hk : k ≤ 32) : mgK k ^ 2 ^ k = 1 := ((rootsK hk).primitive two_neK).pow_eq_one

theorem mgK_step {k : Nat} (hk : k ≤ 32) (i : Nat) : mgK k ^ ((i + 1) % 2 ^ k) = mgK k * mgK k ^ i := by
  have h := Nat.div_add_mod (i + 1) (2 ^ k)
  calc mgK k ^ ((i + 1) % 2 ^ k) = (mgK k ^ 2 ^ k) ^ ((i + 1) / 2 ^ k) * mgK k ^ ((i + 1) % 2 ^ k) := by
        rw [mgK_pow hk, one_pow, one_mul]
    _ = mgK k ^ (i + 1) := by rw [← pow_mul, ← pow_add, h]
    _ = mgK k * mgK k ^ i := by rw [pow_succ, mul_comm]

/-- the polynomials of the columns of the first three sections, from the polynomials of their cells -/
noncomputable def cmPolys (R : Run) (P : Nat → Nat → F[X]) (k : Nat) : Option K[X] :=
  (R.pos k).bind fun c => if 1 ≤ c.tree ∧ c.tree ≤ 3 then some (colPoly (P c.tree) c.pos c.dim) else none

/-- the polynomials of the constant columns -/
noncomputable def fxPolys (T : Trace) (P : Nat → F[X]) (k : Nat) : Option K[X] := if k < T.nConst then some (colPoly P k 1) else none

/-- the polynomials `P s k` interpolate the cells of section `s` on the trace domain -/
def OnTrace (R : Run) (T : Trace) (ch : List K) (P : Nat → Nat → F[X]) (Pc : Nat → F[X]) : Prop :=
  (∀ s, 1 ≤ s → s ≤ 3 → ∀ k < T.width s, (P s k).natDegree < 2 ^ R.nb ∧
    ∀ i < 2 ^ R.nb, (P s k).eval (Roots.mg R.nb ^ i) = T.sec ch s (i * T.width s + k)) ∧
  ∀ k < T.nConst, (Pc k).natDegree < 2 ^ R.nb ∧ ∀ i < 2 ^ R.nb, (Pc k).eval (Roots.mg R.nb ^ i) = T.fixed (i * T.nConst + k)

section
variable {R : Run} {U : Setup K} {T : Trace} {ch : List K} {P : Nat → Nat → F[X]} {Pc : Nat → F[X]}

theorem width4_le {s : Nat} (hs : s ≤ 3) : width4 R U T s = T.width s := if_neg (by omega)

theorem cmPolys_deg (hL : Layout R U T) (hP : OnTrace R T ch P Pc) {k : Nat} {Q : K[X]} (h : cmPolys R P k = some Q) :
    Q.natDegree < 2 ^ R.nb := by
  obtain ⟨c, hc, h⟩ := Option.bind_eq_some_iff.mp h
  split_ifs at h with hs
  cases h
  obtain ⟨h1, h2, h3, h4⟩ := hL.dims k c hc
  rw [width4_le hs.2] at h4
  exact colPoly_deg (fun k hk => (hP.1 _ hs.1 hs.2 k hk).1) h1 h4

theorem fxPolys_deg (hP : OnTrace R T ch P Pc) {k : Nat} {Q : K[X]} (h : fxPolys T Pc k = some Q) : Q.natDegree < 2 ^ R.nb := by
  unfold fxPolys at h
  split_ifs at h with hs
  cases h
  exact colPoly_deg (width := T.nConst) (fun k hk => (hP.2 k hk).1) (.inl rfl) (by omega)

/-- the trace is the restriction of the polynomials to the trace domain -/
theorem trace_le (hnb : R.nb ≤ 32) (hL : Layout R U T) (hP : OnTrace R T ch P Pc) (i : Nat) :
    ∀ t k p v, traceStore R T ch i t k p = some v →
      pointEnv (cmPolys R P) (fxPolys T Pc) (mgK R.nb) R.publics ch (mgK R.nb ^ i) t k p = some v := by
  have hpt : ∀ p : Bool, algebraMap F K (Roots.mg R.nb ^ ((i + if p then 1 else 0) % 2 ^ R.nb)) =
      if p then mgK R.nb * mgK R.nb ^ i else mgK R.nb ^ i := by
    intro p
    rw [map_pow]
    change mgK R.nb ^ _ = _
    cases p
    · have hm := mgK_pow hnb
      simp only [Bool.false_eq_true, if_false, Nat.add_zero]
      have h := Nat.div_add_mod i (2 ^ R.nb)
      calc mgK R.nb ^ (i % 2 ^ R.nb) = (mgK R.nb ^ 2 ^ R.nb) ^ (i / 2 ^ R.nb) * mgK R.nb ^ (i % 2 ^ R.nb) := by rw [hm, one_pow, one_mul]
        _ = mgK R.nb ^ i := by rw [← pow_mul, ← pow_add, h]
    · simp only [if_true]; exact mgK_step hnb i
  have hr : ∀ p : Bool, (i + if p then 1 else 0) % 2 ^ R.nb < 2 ^ R.nb := fun p => Nat.mod_lt _ (by positivity)
  intro t k p v h
  unfold traceStore at h
  unfold pointEnv
  cases t <;> simp only at h ⊢ <;> try exact h
  case cm =>
    obtain ⟨c, hc, h⟩ := Option.bind_eq_some_iff.mp h
    by_cases hs : 1 ≤ c.tree ∧ c.tree ≤ 3
    swap
    · rw [if_neg hs] at h; cases h
    rw [if_pos hs] at h; cases h
    obtain ⟨h1, h2, h3, h4⟩ := hL.dims k c hc
    rw [width4_le hs.2] at h4
    unfold cmPolys
    rw [hc, Option.bind_some, if_pos hs, Option.map_some, ← hpt,
      colVal_eval (P := P c.tree) (pt := fun r => Roots.mg R.nb ^ r) (fun k hk r hr => ((hP.1 _ hs.1 hs.2 k hk).2 r hr).symm) h1 h4 (hr p)]
  case const_ =>
    by_cases hs : k < T.nConst
    swap
    · rw [if_neg hs] at h; cases h
    rw [if_pos hs] at h; cases h
    unfold fxPolys
    rw [if_pos hs, Option.map_some, ← hpt,
      colVal_eval (P := Pc) (pt := fun r => Roots.mg R.nb ^ r) (fun k hk r hr => ((hP.2 k hk).2 r hr).symm) (off := k) (.inl rfl) (by omega) (hr p)]

end

theorem inLe_ident {E : Type} {ids : List Nat} {c : Expr E} (h : identExp ids = some c) : InLe c 2 := by
  have main : ∀ (ids : List Nat) (o : Option (Expr E)), (∀ c, o = some c → InLe c 2) →
      ∀ c, ids.foldl (fun c i => combine c (expE i)) o = some c → InLe c 2 := by
    intro ids
    induction ids with
    | nil => intro o ho c h; exact ho c h
    | cons id ids ih =>
      intro o ho c h
      rw [List.foldl_cons] at h
      refine ih _ ?_ c h
      intro c1 h1
      have hE : InLe (expE id : Expr E) 2 := .exp rfl (by omega)
      cases o with
      | none => simp only [combine, Option.some.injEq] at h1; subst h1; exact hE
      | some c0 =>
        simp only [combine, Option.some.injEq] at h1
        subst h1
        refine .lin rfl fun v hv => ?_
        simp only [List.mem_cons, List.not_mem_nil, or_false] at hv
        rcases hv with rfl | rfl
        · exact .mul (x := 0) (y := 2) rfl (.const rfl) (ho c0 rfl) (by omega)
        · exact hE
  exact main ids none (by simp) c h

theorem closed_ident {E : Type} {exps : List (Expr E)} (hcl : ∀ e ∈ exps, Closed exps e) {ids : List Nat} (hids : ∀ id ∈ ids, id < exps.length)
    {c : Expr E} (h : identExp ids = some c) : Closed exps c := by
  have main : ∀ (ids : List Nat) (o : Option (Expr E)), (∀ c, o = some c → Closed exps c) → (∀ id ∈ ids, id < exps.length) →
      ∀ c, ids.foldl (fun c i => combine c (expE i)) o = some c → Closed exps c := by
    intro ids
    induction ids with
    | nil => intro o ho _ c h; exact ho c h
    | cons id ids ih =>
      intro o ho hid c h
      rw [List.foldl_cons] at h
      refine ih _ ?_ (fun i hi => hid i (by simp [hi])) c h
      intro c1 h1
      have hE : Closed exps (expE id) :=
        .exp rfl rfl (List.getElem?_eq_getElem (hid id (by simp))) (hcl _ (List.getElem_mem _))
      cases o with
      | none => simp only [combine, Option.some.injEq] at h1; subst h1; exact hE
      | some c0 =>
        simp only [combine, Option.some.injEq] at h1
        subst h1
        refine .lin rfl fun v hv => ?_
        simp only [List.mem_cons, List.not_mem_nil, or_false] at hv
        rcases hv with rfl | rfl
        · exact .mul rfl (.leaf (.inl rfl)) (ho c0 rfl)
        · exact hE
  exact main ids none (by simp) hids c h

/-- On a satisfied trace the constraint polynomial `f` of the committed polynomials is a multiple `t * (X^N - 1)` of the
vanishing polynomial, `t` of degree below `q_deg * N`. -/
theorem quotient_exists {R : Run} {U : Setup K} {T : Trace} {P : Nat → Nat → F[X]} {Pc : Nat → F[X]} {ch : List K} {exps : List (Expr K)}
    {ids : List Nat} {fuelI d : Nat} (hnb : R.nb ≤ 32) (hnb0 : 0 < R.nb) (hext : R.ext < 30) (hL : Layout R U T) (hP : OnTrace R T ch P Pc)
    (hcl : ∀ e ∈ exps, Closed exps e) (hids : ∀ id ∈ ids, id < exps.length) (hin : ∀ e ∈ exps, InLe e 2)
    (hg : generate fuelI exps ids R.nCm (2 ^ R.ext + 1) = some (U.S, U.qDeg, U.cExp)) (hvc : ∃ vc, ch[4]? = some vc)
    (hsat : Satisfied R T exps ids U.S ch d) :
    U.qDeg ≤ 2 ^ R.ext ∧ ∃ f t : K[X], f = t * (X ^ 2 ^ R.nb - 1) ∧ t.degree < U.qDeg * 2 ^ R.nb ∧
      ∀ z, Val (fieldOps K) (substIm (U.S.sort (· ≤ ·)) (im2cmOf U.S R.nCm) exps)
        (pointEnv (cmPolys R P) (fxPolys T Pc) (mgK R.nb) R.publics ch z) d false U.cExp (f.eval z) := by
  obtain ⟨vc, hvc⟩ := hvc
  have hv0 : ∀ i < 2 ^ R.nb, Val (fieldOps K) (substIm (U.S.sort (· ≤ ·)) (im2cmOf U.S R.nCm) exps)
      (pointEnv (cmPolys R P) (fxPolys T Pc) (mgK R.nb) R.publics ch (mgK R.nb ^ i)) d false U.cExp 0 := by
    intro i hi
    have hle := trace_le hnb hL hP i
    refine val_generate (vc := vc) ?_ hg (fun id hid => val_mono hle (hsat.identity i hi id hid)) fun k hk => ?_
    · exact hvc
    · obtain ⟨e, v, c, h1, h2, h3, h4⟩ := hsat.intermediate i hi k hk
      exact ⟨e, v, c, h1, val_mono hle h2, h3, hle _ _ _ _ h4⟩
  have hcc := closed_generate hg hcl hids
  have hB : ∀ n, n < 2 ^ R.nb ↔ n ≤ 2 ^ R.nb - 1 := fun n => by have : 0 < 2 ^ R.nb := by positivity
                                                                omega
  have hbound := polyEnv_bounded (cmP := cmPolys R P) (fxP := fxPolys T Pc) (B := 2 ^ R.nb - 1) (by have := Nat.one_lt_two_pow (n := R.nb) (by omega); omega)
    (fun i Q h => (hB _).1 (cmPolys_deg hL hP h)) (fun i Q h => (hB _).1 (fxPolys_deg hP h)) (mgK R.nb) R.publics ch (im2cmOf U.S R.nCm)
  obtain ⟨f, hf1, -, hf⟩ := polyOf_of_val (S := U.S) (fun k => by simp) (hv0 0 (by positivity)) (.inr hcc)
  have hdeg := generate_degree fuelI exps ids R.nCm R.ext hext U.S U.qDeg U.cExp
    (fun c hc => ⟨closed_ident hcl hids hc, inLe_ident hc⟩) (fun i e he => hin e (List.mem_of_getElem? he)) hg _ (2 ^ R.nb) (by positivity) hbound
  obtain ⟨t, ht⟩ := vanish_dvd (N := 2 ^ R.nb) (by positivity) ((rootsK hnb).primitive two_neK) (f := f)
    fun i hi => val_unique (hf _) (hv0 i hi)
  exact ⟨hdeg.1, f, t, ht, (hdeg.2 _ _ (hf1 hcc)).2 t ht, hf⟩

end Verif.Stark
