import Verif.Stark.ProverOpen

/-!
# What the honest prover computes in each round
-/
set_option linter.unusedSectionVars false

namespace Verif.Stark
open Fri FFT Codegen Codegen.Spec Polynomial Finset ImPols ImPols.Spec
open Verif.GL (F)
open Verif.Ext3 (K coord ξ)

noncomputable local instance : DecidableEq K := Classical.decEq _

/-! ### Extension of the sections -/

/-- the sections and the constants have sizes on which the extension works -/
structure Sizes (R : Run) (T : Trace) : Prop where
  sec : ∀ s, 1 ≤ s → s ≤ 3 → SizeOk R.workers R.nb R.ext (T.width s)
  fixed : SizeOk R.workers R.nb R.ext T.nConst

theorem extend_all {R : Run} {T : Trace} (hS : Sizes R T) {fixed : List F} (hfix : constCells R T = some fixed) (ch : List K) :
    ∃ (cells : Nat → List F) (P : Nat → Nat → F[X]) (Pc : Nat → F[X]), (∀ s, 1 ≤ s → s ≤ 3 → extCells R T ch s = some (cells s)) ∧
      OnTrace R T ch P Pc ∧ (∀ s, 1 ≤ s → s ≤ 3 → OnExt R (T.width s) (cells s) (P s)) ∧ OnExt R T.nConst fixed Pc := by
  have hsec : ∀ s, ∃ (c : List F) (P : Nat → F[X]), 1 ≤ s → s ≤ 3 → extCells R T ch s = some c ∧ OnExt R (T.width s) c P ∧
      ∀ k < T.width s, (P k).natDegree < 2 ^ R.nb ∧ ∀ i < 2 ^ R.nb, (P k).eval (Roots.mg R.nb ^ i) = T.sec ch s (i * T.width s + k) := by
    intro s
    by_cases h : 1 ≤ s ∧ s ≤ 3
    · obtain ⟨out, h1, P, h2⟩ := sec_poly (hS.sec s h.1 h.2) (T.sec ch s) (R.dirty s)
      refine ⟨cellsOf out (T.width s) (2 ^ (R.nb + R.ext)), P, fun _ _ => ⟨?_, ⟨by simp [cellsOf], fun k hk r hr => ?_⟩, fun k hk => ⟨(h2 k hk).1, (h2 k hk).2.1⟩⟩⟩
      · unfold extCells; rw [h1]; rfl
      · rw [cellsOf_getD _ (cell_lt hr hk)]; exact (h2 k hk).2.2 r hr
    · exact ⟨[], fun _ => 0, fun h1 h2 => absurd ⟨h1, h2⟩ h⟩
  choose cells P hP using hsec
  obtain ⟨out, h1, Pc, h2⟩ := sec_poly hS.fixed T.fixed fun _ => 0
  have hfx : fixed = cellsOf out T.nConst (2 ^ (R.nb + R.ext)) := by
    unfold constCells at hfix
    rw [h1] at hfix
    exact (Option.some.inj hfix).symm
  refine ⟨cells, P, Pc, fun s a b => (hP s a b).1, ⟨fun s a b => (hP s a b).2.2, fun k hk => ⟨(h2 k hk).1, (h2 k hk).2.1⟩⟩,
    fun s a b => (hP s a b).2.1, ?_, ?_⟩
  · rw [hfx]; simp [cellsOf]
  · intro k hk r hr
    rw [hfx, cellsOf_getD _ (cell_lt hr hk)]; exact (h2 k hk).2.2 r hr

theorem sec_congr (T : Trace) {ch ch' : List K} {s : Nat}
    (h : ∀ i, i < (if s = 1 then 0 else if s = 2 then 2 else 4) → ch.getD i 0 = ch'.getD i 0) : T.sec ch s = T.sec ch' s := by
  unfold Trace.sec
  by_cases h1 : s = 1
  · rw [if_pos h1, if_pos h1]
  rw [if_neg h1, if_neg h1]
  rw [if_neg h1] at h
  by_cases h2 : s = 2
  · rw [if_pos h2, if_pos h2]
    rw [if_pos h2] at h
    rw [h 0 (by omega), h 1 (by omega)]
  rw [if_neg h2, if_neg h2]
  rw [if_neg h2] at h
  rw [h 0 (by omega), h 1 (by omega), h 2 (by omega), h 3 (by omega)]

theorem extCells_congr (R : Run) (T : Trace) {ch ch' : List K} {s : Nat}
    (h : ∀ i, i < (if s = 1 then 0 else if s = 2 then 2 else 4) → ch.getD i 0 = ch'.getD i 0) : extCells R T ch s = extCells R T ch' s := by
  unfold extCells; rw [sec_congr T h]

/-! ### All columns -/

/-- the polynomials of the four sections -/
def sections (P : Nat → Nat → F[X]) (Q : Nat → F[X]) (s : Nat) : Nat → F[X] := if s = 4 then Q else P s

/-- the polynomial of the column an opening refers to -/
noncomputable def colOf (R : Run) (P : Nat → Nat → F[X]) (Pc : Nat → F[X]) (k : EvKey) : K[X] :=
  if k.1 = .const_ then colPoly Pc k.2.2 1 else ((R.pos k.2.2).map fun c => colPoly (P c.tree) c.pos c.dim).getD 0

theorem cmPolys_sections {R : Run} {P : Nat → Nat → F[X]} (Q : Nat → F[X]) {k : Nat} {p : K[X]} (h : cmPolys R P k = some p) (Pc : Nat → F[X]) (b : Bool) :
    colOf R (sections P Q) Pc (.cm, b, k) = p := by
  unfold cmPolys at h
  obtain ⟨c, hc, h⟩ := Option.bind_eq_some_iff.mp h
  by_cases hs : 1 ≤ c.tree ∧ c.tree ≤ 3
  swap
  · rw [if_neg hs] at h; cases h
  rw [if_pos hs] at h; cases h
  unfold colOf sections
  rw [if_neg (by simp), hc, Option.map_some, Option.getD_some, if_neg (by omega)]

theorem openEval_col {R : Run} (hnb : R.nb + R.ext ≤ 32) (hlt : R.nb < 32) {w : Nat} {cells : List F} {P : Nat → F[X]} (hO : OnExt R w cells P)
    {off dim : Nat} (hd : dim = 1 ∨ dim = 3) (ho : off + dim ≤ w) (hdeg : ∀ k < w, (P k).natDegree < 2 ^ R.nb) {x : K} {l : List K}
    (hl : lev mgK shiftK x R.nb = some l) :
    openEval l (colVal (algebraMap F K) coord cells off w dim) R.nb R.ext = (colPoly P off dim).eval x := by
  obtain ⟨l', h1, h2⟩ := openEval_K hnb hlt x (colPoly P off dim) (colPoly_deg hdeg hd ho) cells off w dim
    (fun j hj => by rw [onExt_colVal hO hd ho hj]; rfl)
  rw [hl] at h1
  rw [Option.some.inj h1]; exact h2

theorem lev_some {nb : Nat} (hlt : nb < 32) (x : K) : ∃ l, lev mgK shiftK x nb = some l := by
  obtain ⟨l, h, -⟩ := openEval_K (ext := 0) (by omega) hlt x 0 (by simp) [] 0 0 1 (fun j _ => by simp [colVal])
  exact ⟨l, h⟩

theorem mapM_map {α β : Type} {f : α → Option β} {g : α → β} (l : List α) (h : ∀ a ∈ l, f a = some (g a)) : l.mapM f = some (l.map g) := by
  induction l with
  | nil => rfl
  | cons a l ih =>
    rw [List.mapM_cons, h a (by simp), ih fun j hj => h j (by simp [hj])]
    rfl

section
variable {R : Run} {U : Setup K} {T : Trace} {P : Nat → Nat → F[X]} {Pc : Nat → F[X]} {cells : Nat → List F} {fixed : List F}

/-- a key whose column exists -/
def KeyOk (R : Run) (T : Trace) (k : EvKey) : Prop := (k.1 = .const_ ∧ k.2.2 < T.nConst) ∨ (k.1 = .cm ∧ R.pos k.2.2 ≠ none)

/-- **the openings** are the values of the columns at `xi` and, for the next row, at `w * xi` -/
theorem openings_spec (hnb : R.nb + R.ext ≤ 32) (hlt : R.nb < 32) (hL : Layout R U T)
    (hO : ∀ s, 1 ≤ s → s ≤ 4 → OnExt R (width4 R U T s) (cells s) (P s) ∧ ∀ k < width4 R U T s, (P s k).natDegree < 2 ^ R.nb)
    (hOc : OnExt R T.nConst fixed Pc) (hdc : ∀ k < T.nConst, (Pc k).natDegree < 2 ^ R.nb)
    (hk : ∀ k ∈ U.evMap, KeyOk R T k) {ch : List K} {xi : K} (hxi : ch.getD 7 0 = xi) :
    openings R U T ch fixed cells = some (U.evMap.map fun k => (colOf R P Pc k).eval (if k.2.1 then mgK R.nb * xi else xi)) := by
  subst hxi
  obtain ⟨l, hl⟩ := lev_some hlt (ch.getD 7 0)
  obtain ⟨lp, hlp⟩ := lev_some hlt (ch.getD 7 0 * mgK R.nb)
  unfold openings
  rw [hl, hlp, Option.bind_some, Option.bind_some]
  refine mapM_map _ fun k hkm => ?_
  have hlev : lev mgK shiftK (if k.2.1 then mgK R.nb * ch.getD 7 0 else ch.getD 7 0) R.nb = some (if k.2.1 then lp else l) := by
    cases k.2.1
    · exact hl
    · simp only [if_true]; rw [mul_comm]; exact hlp
  simp only
  rcases hk k hkm with ⟨h1, h2⟩ | ⟨h1, h2⟩
  · rw [if_pos h1, openEval_col hnb hlt hOc (.inl rfl) (by omega) hdc hlev]
    unfold colOf; rw [if_pos h1]
  · obtain ⟨c, hc⟩ := Option.ne_none_iff_exists'.mp h2
    have hne : k.1 ≠ .const_ := by rw [h1]; simp
    obtain ⟨d1, d2, d3, d4⟩ := hL.dims _ c hc
    rw [if_neg hne, if_pos h1, hc, Option.map_some, openEval_col hnb hlt (hO _ d2 d3).1 d1 d4 (hO _ d2 d3).2 hlev]
    unfold colOf; rw [if_neg hne, hc]; rfl

theorem colOf_deg (hL : Layout R U T) (hdeg : ∀ s, 1 ≤ s → s ≤ 4 → ∀ k < width4 R U T s, (P s k).natDegree < 2 ^ R.nb)
    (hdc : ∀ k < T.nConst, (Pc k).natDegree < 2 ^ R.nb) {k : EvKey} (hk : KeyOk R T k) : (colOf R P Pc k).natDegree < 2 ^ R.nb := by
  rcases hk with ⟨h1, h2⟩ | ⟨h1, h2⟩
  · unfold colOf; rw [if_pos h1]
    exact colPoly_deg hdc (.inl rfl) (by omega)
  · obtain ⟨c, hc⟩ := Option.ne_none_iff_exists'.mp h2
    obtain ⟨d1, d2, d3, d4⟩ := hL.dims _ c hc
    unfold colOf; rw [if_neg (by rw [h1]; simp), hc]
    exact colPoly_deg (hdeg _ d2 d3) d1 d4

theorem xDivs_get {a : K} (ha : ∀ j < 2 ^ (R.nb + R.ext), xExt R j ≠ a) {j : Nat} (hj : j < 2 ^ (R.nb + R.ext)) :
    (xDivs R a)[j]? = some (xExt R j / (xExt R j - a)) := by
  unfold xDivs
  simp only
  rw [batchInverse_spec _ (by
    intro x hx
    simp only [List.mem_map, List.mem_range] at hx
    obtain ⟨y, ⟨i, hi, rfl⟩, rfl⟩ := hx
    exact sub_ne_zero.2 (ha i hi)), List.getElem?_zipWith, List.getElem?_map, List.getElem?_map, List.getElem?_map, List.getElem?_range hj]
  simp only [Option.map_some]
  rw [div_eq_mul_inv, mul_comm]

/-- **step 5 and the query code**: on every row both compute the value of one polynomial of degree below `N` -/
theorem fri_spec (hnb : R.nb + R.ext ≤ 32) (hL : Layout R U T)
    (hO : ∀ s, 1 ≤ s → s ≤ 4 → OnExt R (width4 R U T s) (cells s) (P s) ∧ ∀ k < width4 R U T s, (P s k).natDegree < 2 ^ R.nb)
    (hOc : OnExt R T.nConst fixed Pc) (hdc : ∀ k < T.nConst, (Pc k).natDegree < 2 ^ R.nb)
    (hk : ∀ k ∈ U.evMap, KeyOk R T k) (hne : ∃ k ∈ U.evMap, k.2.1 = false) (hq0 : 0 < U.qDeg)
    {fuelI fuel : Nat} {exps : List (Expr K)} {ids : List Nat} {rest : List (Code K) → List (Instr K)} (hrest : SubCode rest)
    {ctx : Ctx K} {out : VerOut K} {fe : Expr K} {ctx5 : Ctx K} (hS : SetupOk U fuelI fuel exps ids R.nCm R.ext R.pos rest ctx out fe ctx5)
    (him : ∀ k ∈ U.S, k < exps.length) (hfuel : 0 < fuel) {chal : List K} {v1 v2 xi : K} (h5 : chal[5]? = some v1) (h6 : chal[6]? = some v2)
    (h7 : chal.getD 7 0 = xi) (hxi : ∀ j < 2 ^ (R.nb + R.ext), xExt R j ≠ xi ∧ xExt R j ≠ xi * mgK R.nb) :
    ∃ (Fp : K[X]) (pol : List K), Fp.natDegree < 2 ^ R.nb ∧
      friRows R U T chal (U.evMap.map fun k => (colOf R P Pc k).eval (if k.2.1 then mgK R.nb * xi else xi)) fixed cells = some pol ∧
      pol.length = 2 ^ (R.nb + R.ext) ∧ (∀ j < 2 ^ (R.nb + R.ext), pol.getD j 0 = Fp.eval (xExt R j)) ∧
      ∀ j < 2 ^ (R.nb + R.ext), ∀ vc : VCtx F K, vc.evals = (U.evMap.map fun k => (colOf R P Pc k).eval (if k.2.1 then mgK R.nb * xi else xi)) →
        vc.publics = R.publics → vc.challenge = chal → vc.xDiv = some (xExt R j / (xExt R j - xi)) →
        vc.xDivW = some (xExt R j / (xExt R j - xi * mgK R.nb)) →
        (∀ s, 1 ≤ s → s ≤ 4 → vc.tree s = ((cells s).drop (j * width4 R U T s)).take (width4 R U T s)) →
        vc.consts = (fixed.drop (j * T.nConst)).take T.nConst →
        executeCode ⟨algebraMap F K, coord⟩ vc U.info.queryCode = some (pol.getD j 0) := by
  set evals := U.evMap.map fun k => (colOf R P Pc k).eval (if k.2.1 then mgK R.nb * xi else xi) with hevals
  set nT := R.nCm + U.S.card + U.qDeg with hnT
  have hpos : ∀ i < nT, KeyOk R T (.cm, false, i) := by
    intro i hi
    refine .inr ⟨rfl, ?_⟩
    by_cases h : i < R.nCm + U.S.card
    · obtain ⟨c, hc, -⟩ := hL.cols i h
      show R.pos i ≠ none
      rw [hc]; simp
    · have := hL.quot (i - (R.nCm + U.S.card)) (by omega)
      rw [show R.nCm + U.S.card + (i - (R.nCm + U.S.card)) = i by omega] at this
      show R.pos i ≠ none
      rw [this]; simp
  have hdeg : ∀ k, KeyOk R T k → (colOf R P Pc k).natDegree < 2 ^ R.nb := fun k hk =>
    colOf_deg hL (fun s a b => (hO s a b).2) hdc hk
  obtain ⟨Fp, hF1, hF2⟩ := fri_low_degree (n := 2 ^ R.nb) (by positivity) (cms := (List.range nT).map fun i => colOf R P Pc (.cm, false, i))
    (by
      intro p hp
      simp only [List.mem_map, List.mem_range] at hp
      obtain ⟨i, hi, rfl⟩ := hp
      exact hdeg _ (hpos i hi)) (colP := colOf R P Pc) (evMap := U.evMap) (fun k hkm => hdeg k (hk k hkm)) v1 v2 xi (mgK R.nb * xi)
  have hval : ∀ j < 2 ^ (R.nb + R.ext), ∀ (exps' : List (Expr K)) (σ : Store K), σ .challenge 5 false = some v1 → σ .challenge 6 false = some v2 →
      σ .xDivXSubXi 0 false = some (xExt R j / (xExt R j - xi)) → σ .xDivXSubWXi 0 false = some (xExt R j / (xExt R j - mgK R.nb * xi)) →
      (∀ k, KeyOk R T k → σ k.1 k.2.2 false = some ((colOf R P Pc k).eval (xExt R j))) → (∀ i : Nat, σ .eval i false = evals[i]?) →
      refs fe = [] ∧ Val (fieldOps K) exps' σ 0 false fe (Fp.eval (xExt R j)) := by
    intro j hj exps' σ a5 a6 ax aw ak ae
    obtain ⟨e, g1, g2, g3⟩ := friExpr_spec (exps := exps') (σ := σ) (nCm := nT) (evMap := U.evMap)
      (cm := fun i => (colOf R P Pc (.cm, false, i)).eval (xExt R j)) (col := fun k => (colOf R P Pc k).eval (xExt R j))
      (ev := fun k => (colOf R P Pc k).eval (if k.2.1 then mgK R.nb * xi else xi)) a5 a6 ax aw (by omega) hne
      (fun i hi => ak _ (hpos i hi))
      (fun k hkm => ⟨(hk k hkm).elim (fun h => .inr h.1) (fun h => .inl h.1), ak k (hk k hkm)⟩)
      (fun i k hik => by rw [ae, hevals, List.getElem?_map, hik]; rfl)
    rw [hS.fri] at g1
    obtain rfl := Option.some.inj g1
    refine ⟨g2, ?_⟩
    rw [hF2 _ (hxi j hj).1 (by rw [mul_comm]; exact (hxi j hj).2), List.map_map]
    exact g3
  have hget : (exps ++ [U.cExp] ++ [fe])[exps.length + 1]? = some fe := by simp
  have hcalc : (false, exps.length + 1) ∉ ctx.calculated := by
    intro hm
    have := pilCodeGen_calculated_lt fuel hS.gen4 (by
      intro k hk'
      have : k.2 ∈ U.S := by
        have := (imDone_mem U.S k.1 k.2).1 hk'
        simpa using this
      have := him _ this
      simp; omega) _ hm
    simp at this
  have hstore : ∀ j < 2 ^ (R.nb + R.ext), refs fe = [] ∧ Val (fieldOps K) (exps ++ [U.cExp] ++ [fe])
      (extStore R U T cells fixed chal evals (xDivs R (chal.getD 7 0)) (xDivs R (chal.getD 7 0 * mgK R.nb)) j) 0 false fe (Fp.eval (xExt R j)) := by
    intro j hj
    refine hval j hj _ _ h5 h6 ?_ ?_ ?_ (fun _ => rfl)
    · show (xDivs R (chal.getD 7 0))[j]? = _
      rw [h7]; exact xDivs_get (fun i hi => (hxi i hi).1) hj
    · show (xDivs R (chal.getD 7 0 * mgK R.nb))[j]? = _
      rw [h7, mul_comm (mgK R.nb) xi]; exact xDivs_get (fun i hi => (hxi i hi).2) hj
    · rintro ⟨kt, kp, ki⟩ (⟨h1, h2⟩ | ⟨h1, h2⟩)
      · dsimp only at h1 h2 ⊢
        subst h1
        rw [ext_fixed hnb hOc h2]
        unfold colOf; rw [if_pos rfl]; rfl
      · dsimp only at h1 h2 ⊢
        subst h1
        obtain ⟨c, hc⟩ := Option.ne_none_iff_exists'.mp h2
        obtain ⟨d1, d2, d3, d4⟩ := hL.dims _ c hc
        rw [ext_cm hnb hL hc (hO _ d2 d3).1]
        unfold colOf; rw [if_neg (by simp)]; dsimp only; rw [hc]; rfl
  have hrow : ∀ j < 2 ^ (R.nb + R.ext), ((exec (fieldOps K) U.step52 (extStore R U T cells fixed chal evals (xDivs R (chal.getD 7 0))
      (xDivs R (chal.getD 7 0 * mgK R.nb)) j)).bind fun σ => σ .f 0 false) = some (Fp.eval (xExt R j)) := by
    intro j hj
    obtain ⟨hr, hv⟩ := hstore j hj
    obtain ⟨ctx', g1, σ', g2, g3⟩ := fri_code (t0 := ctx.tmpUsed) hget hr hcalc hfuel hv
    rw [hS.gen5] at g1
    obtain rfl := Option.some.inj g1
    rw [hS.step52, g2, Option.bind_some, g3]
  have hpol : ∀ j < 2 ^ (R.nb + R.ext), ((List.range (2 ^ (R.nb + R.ext))).map fun j => Fp.eval (xExt R j)).getD j 0 = Fp.eval (xExt R j) := by
    intro j hj
    rw [List.getD_eq_getElem?_getD, List.getElem?_map, List.getElem?_range hj]; rfl
  refine ⟨Fp, (List.range (2 ^ (R.nb + R.ext))).map fun j => Fp.eval (xExt R j), hF1, mapM_range _ _ _ hrow, by simp, hpol, ?_⟩
  intro j hj vc e1 e2 e3 e4 e5 e6 e7
  let cm : Nat → Option K := fun i => if R.pos i = none then none else some ((colOf R P Pc (.cm, false, i)).eval (xExt R j))
  let const : Nat → Option K := fun i => if i < T.nConst then some ((colOf R P Pc (.const_, false, i)).eval (xExt R j)) else none
  obtain ⟨hr, hv⟩ := hval j hj (exps ++ [U.cExp] ++ [fe]) (rowEnv cm const evals R.publics chal (some (xExt R j / (xExt R j - xi)))
      (some (xExt R j / (xExt R j - mgK R.nb * xi)))) h5 h6 rfl rfl (by
    rintro ⟨kt, kp, ki⟩ (⟨h1, h2⟩ | ⟨h1, h2⟩)
    · dsimp only at h1 h2 ⊢
      subst h1
      show const ki = _
      simp only [const]; rw [if_pos h2]; rfl
    · dsimp only at h1 h2 ⊢
      subst h1
      show cm ki = _
      simp only [cm]; rw [if_neg h2]; rfl) (fun _ => rfl)
  obtain ⟨code, q1, q2⟩ := query_code (G := F) (im := U.S.sort (· ≤ ·)) (im2cm := im2cmOf U.S R.nCm) (pos := R.pos) (friExp := exps.length + 1)
    (fun h => by
      have := him (exps.length + 1) (by simpa using h)
      omega) hrest (fun c hc hp => hc (by simp only [cm]; rw [if_pos hp])) hfuel hget hr hv
  rw [hS.query] at q1
  obtain rfl := Option.some.inj q1
  rw [hpol j hj]
  refine q2 ⟨algebraMap F K, coord⟩ vc e1 e2 e3 e4 (by rw [e5, mul_comm xi]) ?_ ?_
  · intro c w p hw hp
    simp only [cm] at hw
    rw [if_neg (by rw [hp]; simp)] at hw
    obtain rfl := Option.some.inj hw
    obtain ⟨d1, d2, d3, d4⟩ := hL.dims _ p hp
    rw [e6 _ d2 d3, extractVal_row (hO _ d2 d3).1.1 d1 d4 hj, onExt_colVal (hO _ d2 d3).1 d1 d4 hj]
    unfold colOf; rw [if_neg (by simp)]; dsimp only; rw [hp]; rfl
  · intro c w hw
    simp only [const] at hw
    by_cases hc : c < T.nConst
    swap
    · rw [if_neg hc] at hw; cases hw
    rw [if_pos hc] at hw
    obtain rfl := Option.some.inj hw
    have := extractVal_row (off := c) hOc.1 (.inl rfl) (by omega) hj
    rw [onExt_colVal hOc (.inl rfl) (by omega) hj] at this
    unfold extractVal at this
    rw [if_pos rfl] at this
    rw [e7]
    unfold colOf; rw [if_pos rfl]
    exact this

end

end Verif.Stark
