import Verif.Stark.ProverAir

/-!
# Step 4 of the prover: the quotient columns
-/
set_option linter.unusedSectionVars false

namespace Verif.Stark
open Fri FFT Codegen Codegen.Spec Polynomial Finset ImPols ImPols.Spec
open Verif.GL (F)
open Verif.Ext3 (K coord ξ)

/-! ### Running generated code -/

theorem val_prefix {A : Type} {K : Ops A} {exps exps' : List (Expr A)} (h : ∀ (i : Nat) e, exps[i]? = some e → exps'[i]? = some e) {σ : Store A}
    {d p e v} (hv : Val K exps σ d p e v) : Val K exps' σ d p e v := by
  induction hv with
  | add a _ _ b ih1 ih2 => exact .add a ih1 ih2 b
  | sub a _ _ b ih1 ih2 => exact .sub a ih1 ih2 b
  | mul a _ _ b ih1 ih2 => exact .mul a ih1 ih2 b
  | muladd a _ _ _ b c ih1 ih2 ih3 => exact .muladd a ih1 ih2 ih3 b c
  | addc a b _ c ih => exact .addc a b ih c
  | mulc a b _ c ih => exact .mulc a b ih c
  | neg a _ b ih => exact .neg a ih b
  | number a b => exact .number a b
  | col a b c e => exact .col a b c e
  | byId a b c => exact .byId a b c
  | nullary a b => exact .nullary a b
  | exp a b c e _ ih => exact .exp a b c (h _ _ e) ih

theorem substIm_append {E : Type} (im : List Nat) (im2cm : Nat → Option Nat) (a b : List (Expr E)) (i : Nat) (e : Expr E)
    (h : (substIm im im2cm a)[i]? = some e) : (substIm im im2cm (a ++ b))[i]? = some e := by
  unfold substIm at h ⊢
  rw [List.getElem?_mapIdx] at h ⊢
  obtain ⟨x, hx, rfl⟩ := Option.map_eq_some_iff.mp h
  rw [prefix_getElem? (List.prefix_append a b) hx]; rfl

section
variable {A : Type} [Field A] [DecidableEq A]

/-- the code generated for expression `id` computes its value when the intermediate polynomials are read from their columns; all
that it reads is defined -/
theorem step_code {exps : List (Expr A)} {fuel : Nat} {im : List Nat}
    {im2cm : Nat → Option Nat} (him : ∀ k ∈ im, k < exps.length ∧ ∃ c, im2cm k = some c) {pre : List (Bool × Nat)}
    (hpre : ∀ p k, (p, k) ∈ pre ↔ k ∈ im) {id : Nat} (hid : id ∉ im) (m : Bool) {σ : Store A}
    (hσc : ∀ k ∈ im, ∀ c, im2cm k = some c → ∀ p, σ .cm c p ≠ none)
    {d : Nat} {e : Expr A} {v : A} (hd : d < fuel) (he : exps[id]? = some e)
    (hv : Val (fieldOps A) (substIm im im2cm exps) σ d false e v) :
    ∃ ctx σ', pilCodeGen (0 : A) exps fuel ⟨0, [], pre⟩ id false none m = some ctx ∧
      exec (fieldOps A) (linearCode ctx) (withIm σ im im2cm) = some σ' ∧ σ' .exp id false = some v ∧
      rowValue (linearCode ctx) (withIm σ im im2cm) = some v := by
  have hag : ∀ i, ¬(i ∈ im) → exps[i]? = (substIm im im2cm exps)[i]? := by
    intro i hi
    rw [substIm, List.getElem?_mapIdx]
    cases exps[i]? with
    | none => rfl
    | some e => simp [hi]
  have hcg := pilCodeGen_congr (zero := (0 : A)) hag fuel (ctx := ⟨0, [], pre⟩) (id := id) (p := false) (muladd := m) (res := none)
    (fun i hi q => (hpre q i).mpr hi)
  have hsame : ∀ t i p, t ≠ .exp → t ≠ .tmp → σ t i p = withIm σ im im2cm t i p := by
    intro t i p h1 _
    rw [withIm, if_neg (fun h => h1 h.1)]
  have hv' := val_congr hsame hv
  obtain ⟨ctx, σ', g1, g2, g3, g4, g5⟩ := codegen_spec (K := fieldOps A) (exps := substIm im im2cm exps)
    (σ0 := withIm σ im im2cm) fuel 0 pre [{ id := id, muladd := m }]
    (by
      intro p k hk
      have hkim := (hpre p k).mp hk
      obtain ⟨hlt, c, hc⟩ := him k hkim
      obtain ⟨w, hw⟩ := Option.ne_none_iff_exists'.mp (hσc k hkim c hc p)
      have hx : withIm σ im im2cm .exp k p = some w := by
        rw [withIm, if_pos ⟨rfl, hkim⟩, hc, Option.bind_some, hw]
      refine ⟨w, ⟨0, .node { op := .cm, id := im2cm k } [], ?_, ?_⟩, hx⟩
      · rw [substIm, List.getElem?_mapIdx, List.getElem?_eq_getElem hlt]
        simp [hkim]
      · refine .col (t := .cm) (i := c) rfl hc (by simp) ?_
        rw [← hsame _ _ _ (by simp) (by simp)]
        simpa using hw)
    (fun _ _ _ a b => by simp [fieldOps, add_comm])
    (by
      intro r hr
      rw [List.mem_singleton] at hr
      subst hr
      exact ⟨d, e, v, hd, by rw [← hag id hid]; exact he, hv'⟩)
    (by simp) (by simp)
  have hgen : pilCodeGen (0 : A) exps fuel ⟨0, [], pre⟩ id false none m = some ctx := by
    rw [hcg]
    have : genAll (fieldOps A).zero (substIm im im2cm exps) fuel [{ id := id, muladd := m }] ⟨0, [], pre⟩
        = pilCodeGen (0 : A) (substIm im im2cm exps) fuel ⟨0, [], pre⟩ id false none m := by
      simp only [genAll, List.foldlM_cons, List.foldlM_nil]
      simp only [bind, pure]
      change Option.bind (pilCodeGen (0 : A) _ fuel _ id false none m) _ = _
      cases pilCodeGen (0 : A) (substIm im im2cm exps) fuel ⟨0, [], pre⟩ id false none m <;> rfl
    rw [← this]
    exact g1
  have hval : σ' .exp id false = some v :=
    (g3 { id := id, muladd := m } (by simp) v ⟨d, e, by rw [← hag id hid]; exact he, hv'⟩).1
  refine ⟨ctx, σ', hgen, g2, hval, ?_⟩
  obtain ⟨init, last, l1, l2, l3, l4⟩ := pilCodeGen_last (S := pre) (fun h => hid ((hpre _ _).mp h)) (fun _ h => h) (by simp [linearCode]) hgen
  unfold rowValue
  rw [l1, List.getLast?_append, List.getLast?_singleton, Option.some_or, Option.bind_some, ← l1, g2, Option.bind_some]
  unfold readN
  rw [l2, l3, l4]
  simpa using hval

end

/-! ### The extended domain -/

theorem xExt_eq (R : Run) (j : Nat) : xExt R j = algebraMap F K (Roots.shift * Roots.mg (R.nb + R.ext) ^ j) := by
  rw [map_mul, map_pow]; rfl

theorem xExt_mod {R : Run} (h : R.nb + R.ext ≤ 32) (j : Nat) : xExt R (j % 2 ^ (R.nb + R.ext)) = xExt R j := by
  have hd := Nat.div_add_mod j (2 ^ (R.nb + R.ext))
  unfold xExt
  congr 1
  calc mgK (R.nb + R.ext) ^ (j % 2 ^ (R.nb + R.ext))
      = (mgK (R.nb + R.ext) ^ 2 ^ (R.nb + R.ext)) ^ (j / 2 ^ (R.nb + R.ext)) * mgK (R.nb + R.ext) ^ (j % 2 ^ (R.nb + R.ext)) := by
        rw [mgK_pow h, one_pow, one_mul]
    _ = mgK (R.nb + R.ext) ^ j := by rw [← pow_mul, ← pow_add, hd]

theorem xExt_next {R : Run} (h : R.nb + R.ext ≤ 32) (j : Nat) : xExt R (j + 2 ^ R.ext) = mgK R.nb * xExt R j := by
  unfold xExt
  rw [pow_add, Roots.pow_two' (rootsK h)]; ring

/-- the cells of section `s` on the extended domain are the values of the polynomials `P s` -/
def OnExt (R : Run) (w : Nat) (cells : List F) (P : Nat → F[X]) : Prop :=
  cells.length = w * 2 ^ (R.nb + R.ext) ∧
  ∀ k < w, ∀ r < 2 ^ (R.nb + R.ext), cells.getD (r * w + k) 0 = (P k).eval (Roots.shift * Roots.mg (R.nb + R.ext) ^ r)

theorem onExt_colVal {R : Run} {w : Nat} {cells : List F} {P : Nat → F[X]} (hO : OnExt R w cells P) {off dim : Nat} (hd : dim = 1 ∨ dim = 3)
    (ho : off + dim ≤ w) {r : Nat} (hr : r < 2 ^ (R.nb + R.ext)) :
    colVal (algebraMap F K) coord cells off w dim r = (colPoly P off dim).eval (xExt R r) := by
  rw [xExt_eq, colPoly_eval]
  unfold colVal
  rcases hd with rfl | rfl
  · rw [if_pos rfl, if_pos rfl, hO.2 _ (by omega) r hr]
  · rw [if_neg (by omega), if_neg (by omega), Nat.add_comm off (r * w), hO.2 _ (by omega) r hr, Nat.add_assoc, hO.2 _ (by omega) r hr,
      Nat.add_assoc, hO.2 _ (by omega) r hr]

theorem next_eq {R : Run} (h : R.nb + R.ext ≤ 32) (j : Nat) (p : Bool) :
    xExt R ((j + if p then 2 ^ R.ext else 0) % 2 ^ (R.nb + R.ext)) = if p then mgK R.nb * xExt R j else xExt R j := by
  rw [xExt_mod h]
  cases p
  · rfl
  · simp only [if_true]; exact xExt_next h j

section
variable {R : Run} {U : Setup K} {T : Trace} {P : Nat → Nat → F[X]} {Pc : Nat → F[X]} {cells : Nat → List F} {fixed : List F}

theorem ext_cm (hnb : R.nb + R.ext ≤ 32) (hL : Layout R U T) {k : Nat} {c : ColPos} (hc : R.pos k = some c)
    (hO : OnExt R (width4 R U T c.tree) (cells c.tree) (P c.tree)) (chal evals xd xdw : List K) (j : Nat) (p : Bool) :
    extStore R U T cells fixed chal evals xd xdw j .cm k p =
      some ((colPoly (P c.tree) c.pos c.dim).eval (if p then mgK R.nb * xExt R j else xExt R j)) := by
  obtain ⟨h1, h2, h3, h4⟩ := hL.dims k c hc
  unfold extStore
  simp only
  rw [hc, Option.map_some, onExt_colVal hO h1 h4 (Nat.mod_lt _ (by positivity)), next_eq hnb]

theorem ext_fixed (hnb : R.nb + R.ext ≤ 32) (hO : OnExt R T.nConst fixed Pc) {k : Nat} (hk : k < T.nConst) (chal evals xd xdw : List K) (j : Nat) (p : Bool) :
    extStore R U T cells fixed chal evals xd xdw j .const_ k p =
      some ((colPoly Pc k 1).eval (if p then mgK R.nb * xExt R j else xExt R j)) := by
  unfold extStore
  simp only
  rw [if_pos hk, onExt_colVal hO (.inl rfl) (by omega) (Nat.mod_lt _ (by positivity)), next_eq hnb]

/-- row `j` of the extended domain holds the values of the polynomials at `x_j` and `w * x_j` -/
theorem ext_le (hnb : R.nb + R.ext ≤ 32) (hL : Layout R U T)
    (hO : ∀ s, 1 ≤ s → s ≤ 3 → OnExt R (T.width s) (cells s) (P s)) (hOc : OnExt R T.nConst fixed Pc) {ch chal : List K}
    (hch : ∀ (i : Nat) v, ch[i]? = some v → chal[i]? = some v) (evals xd xdw : List K) (j : Nat) :
    ∀ t k p v, pointEnv (cmPolys R P) (fxPolys T Pc) (mgK R.nb) R.publics ch (xExt R j) t k p = some v →
      extStore R U T cells fixed chal evals xd xdw j t k p = some v := by
  intro t k p v h
  cases t
  case cm =>
    unfold pointEnv at h
    simp only at h
    obtain ⟨Q, hQ, rfl⟩ := Option.map_eq_some_iff.mp h
    obtain ⟨c, hc, hQ⟩ := Option.bind_eq_some_iff.mp hQ
    by_cases hs : 1 ≤ c.tree ∧ c.tree ≤ 3
    swap
    · rw [if_neg hs] at hQ; cases hQ
    rw [if_pos hs] at hQ; cases hQ
    exact ext_cm hnb hL hc (by rw [width4_le hs.2]; exact hO _ hs.1 hs.2) _ _ _ _ _ _
  case const_ =>
    unfold pointEnv at h
    simp only at h
    obtain ⟨Q, hQ, rfl⟩ := Option.map_eq_some_iff.mp h
    unfold fxPolys at hQ
    by_cases hs : k < T.nConst
    swap
    · rw [if_neg hs] at hQ; cases hQ
    rw [if_pos hs] at hQ; cases hQ
    exact ext_fixed hnb hOc hs _ _ _ _ _ _
  all_goals unfold pointEnv at h; unfold extStore; simp only at h ⊢
  all_goals first | exact h | exact hch _ _ h | simp at h

end

/-! ### Coordinates of a polynomial over `K` -/

theorem coord_poly (t : K[X]) : ∃ P : Nat → F[X], (∀ k, ∀ n : Nat, t.degree < n → (P k).degree < n) ∧ t = colPoly P 0 3 := by
  let g : Nat → K → F := fun k a => if k = 0 then (coords a).1 else if k = 1 then (coords a).2.1 else (coords a).2.2
  have h0 : ∀ k, g k 0 = 0 := by
    intro k
    have := coords_spec 0
    obtain ⟨a, b, c⟩ := Ext3.coord_eq_zero this
    simp only [g]; split_ifs <;> assumption
  let P : Nat → F[X] := fun k => ∑ i ∈ range (t.natDegree + 1), C (g k (t.coeff i)) * X ^ i
  have hP : ∀ k i, (P k).coeff i = g k (t.coeff i) := by
    intro k i
    simp only [P, finsetSum_coeff, coeff_C_mul, coeff_X_pow]
    by_cases hi : i ≤ t.natDegree
    · rw [Finset.sum_eq_single i (by intro b _ hb; rw [if_neg (Ne.symm hb), mul_zero]) (by intro h; simp at h; omega)]
      simp
    · rw [Finset.sum_eq_zero (by
        intro b hb
        rw [Finset.mem_range] at hb
        rw [if_neg (by omega), mul_zero]), coeff_eq_zero_of_natDegree_lt (by omega), h0]
  refine ⟨P, fun k n hn => ?_, ?_⟩
  · refine lt_of_le_of_lt ?_ hn
    rw [degree_le_iff_coeff_zero]
    intro m hm
    rw [hP, coeff_eq_zero_of_degree_lt hm, h0]
  · ext i
    unfold colPoly
    rw [if_neg (by decide)]
    simp only [coeff_add, coeff_mul_C, coeff_map, hP]
    conv_lhs => rw [← coords_spec (t.coeff i)]
    simp [g, coord]


theorem enc_coord (a b c : F) : encK.enc (coord a b c) = [a, b, c] := by
  obtain ⟨h1, h2, h3⟩ := Ext3.coord_inj (coords_spec (coord a b c))
  show [(coords (coord a b c)).1, (coords (coord a b c)).2.1, (coords (coord a b c)).2.2] = _
  rw [h1, h2, h3]

theorem coord_base (a : F) : coord a 0 0 = algebraMap F K a := by simp [coord]

theorem ptsF {bits : Nat} (hb : bits ≤ 32) : Set.InjOn (fun j : Nat => Roots.shift * Roots.mg bits ^ j) (range (2 ^ bits) : Finset Nat) := by
  intro i hi j hj h
  have hs : Roots.shift ≠ 0 := fun h => by
    have := Roots.shift_inv; rw [h, zero_mul] at this; exact zero_ne_one this
  have h' : Roots.mg bits ^ i = Roots.mg bits ^ j := mul_left_cancel₀ hs h
  exact ((rootsF hb).primitive two_neF).pow_inj (by simpa using hi) (by simpa using hj) h'

/-- the `q_dim` coordinate polynomials of the quotient -/
theorem coord_dim {R : Run} (hnb : R.nb + R.ext ≤ 32) (t : K[X]) {D : Nat} (hD : D ≤ 2 ^ (R.nb + R.ext)) (ht : t.degree < D)
    (hq : R.qDim = 3 ∨ R.qDim = 1 ∧ ∀ j < 2 ^ (R.nb + R.ext), ∃ b, t.eval (xExt R j) = algebraMap F K b) :
    ∃ P : Nat → F[X], (∀ k, (P k).degree < D) ∧ t = colPoly P 0 R.qDim ∧
      ∀ k < R.qDim, ∀ x : F, (encK.enc (t.eval (algebraMap F K x))).getD k 0 = (P k).eval x := by
  obtain ⟨P, h1, h2⟩ := coord_poly t
  have h3 : ∀ x : F, t.eval (algebraMap F K x) = coord ((P 0).eval x) ((P 1).eval x) ((P 2).eval x) := by
    intro x
    conv_lhs => rw [h2]
    rw [colPoly_eval]; rfl
  refine ⟨P, fun k => h1 k D ht, ?_, ?_⟩
  · rcases hq with hq | ⟨hq, hb⟩
    · rw [hq]; exact h2
    · have hz : ∀ k, k = 1 ∨ k = 2 → P k = 0 := by
        intro k hk
        refine eq_zero_of_degree_lt_of_eval_index_eq_zero (range (2 ^ (R.nb + R.ext))) (ptsF hnb) ?_ ?_
        · rw [card_range]; exact lt_of_lt_of_le (h1 k D ht) (by exact_mod_cast hD)
        · intro j hj
          obtain ⟨b, hb⟩ := hb j (by simpa using hj)
          rw [xExt_eq, h3, ← coord_base] at hb
          obtain ⟨-, e1, e2⟩ := Ext3.coord_inj hb
          rcases hk with rfl | rfl
          · exact e1
          · exact e2
      rw [hq]
      conv_lhs => rw [h2]
      unfold colPoly
      rw [if_neg (by decide), if_pos rfl, hz 1 (.inl rfl), hz 2 (.inr rfl)]
      simp
  · intro k hk x
    rw [h3, enc_coord]
    have : k < 3 := by rcases hq with hq | hq <;> omega
    rcases k with _ | _ | _ | k
    · rfl
    · rfl
    · rfl
    · omega

theorem mapM_range {α : Type} (n : Nat) (f : Nat → Option α) (g : Nat → α) (h : ∀ j < n, f j = some (g j)) :
    (List.range n).mapM f = some ((List.range n).map g) := by
  have : ∀ l : List Nat, (∀ j ∈ l, f j = some (g j)) → l.mapM f = some (l.map g) := by
    intro l
    induction l with
    | nil => intro _; rfl
    | cons a l ih =>
      intro h
      rw [List.mapM_cons, h a (by simp), ih fun j hj => h j (by simp [hj])]
      rfl
  exact this _ fun j hj => h j (by simpa using hj)

theorem natDegree_lt_of_degree' {P : F[X]} {n : Nat} (hn : 0 < n) (h : P.degree < n) : P.natDegree < n := natDegree_lt_of_degree hn h

/-- from the values of the quotient on the extended domain to the columns of section 4 -/
theorem split_cells {R : Run} (hnb : R.nb + R.ext ≤ 32) (hnb0 : 0 < R.nb) (hwk : 0 < R.workers) {qDeg : Nat} (hq0 : 0 < qDeg) (hq1 : qDeg ≤ 2 ^ R.ext)
    {t : K[X]} (ht : t.degree < (qDeg * 2 ^ R.nb : Nat))
    (hq : R.qDim = 3 ∨ R.qDim = 1 ∧ ∀ j < 2 ^ (R.nb + R.ext), ∃ b, t.eval (xExt R j) = algebraMap F K b) :
    ∃ (out : FftP.Buf F) (Q : Nat → F[X]), splitQ Roots.mg Roots.shift R.workers R.nb (R.nb + R.ext) qDeg R.qDim
        (fun x => (encK.enc (((List.range (2 ^ (R.nb + R.ext))).map fun j => t.eval (xExt R j)).getD (x / R.qDim) 0)).getD (x % R.qDim) 0)
        (fun _ => 0) (fun _ => 0) = some out ∧
      OnExt R (R.qDim * qDeg) (cellsOf out (R.qDim * qDeg) (2 ^ (R.nb + R.ext))) Q ∧ (∀ k, (Q k).natDegree < 2 ^ R.nb) ∧
      ∀ x : K, recombine (x ^ 2 ^ R.nb) ((List.range qDeg).map fun p => (colPoly Q (R.qDim * p) R.qDim).eval x) 1 0 = t.eval x := by
  have hfit : qDeg * 2 ^ R.nb ≤ 2 ^ (R.nb + R.ext) := by
    rw [pow_add, Nat.mul_comm]; exact Nat.mul_le_mul_left _ hq1
  have hD0 : 0 < qDeg * 2 ^ R.nb := by positivity
  have hqd : 0 < R.qDim := by rcases hq with hq | hq <;> omega
  obtain ⟨P, h1, h2, h3⟩ := coord_dim hnb t hfit ht hq
  obtain ⟨out, g1, Q, g2, g3, g4⟩ := splitQ_spec (rootsF hnb) two_neF hnb (by omega) Roots.shift
    (fun h => by have := Roots.shift_inv; rw [h, zero_mul] at this; exact zero_ne_one this) hwk hqd hq0 hfit
    (fun x => (encK.enc (((List.range (2 ^ (R.nb + R.ext))).map fun j => t.eval (xExt R j)).getD (x / R.qDim) 0)).getD (x % R.qDim) 0)
    (fun _ => 0) (fun _ => 0) P (fun k _ => natDegree_lt_of_degree hD0 (h1 k)) (by
      intro k hk j hj
      have e1 : (j * R.qDim + k) / R.qDim = j := by
        rw [Nat.mul_comm, Nat.mul_add_div hqd, Nat.div_eq_of_lt hk, Nat.add_zero]
      have e2 : (j * R.qDim + k) % R.qDim = k := by
        rw [Nat.mul_comm, Nat.mul_add_mod, Nat.mod_eq_of_lt hk]
      simp only [e1, e2]
      rw [List.getD_eq_getElem?_getD (l := List.map _ _), List.getElem?_map, List.getElem?_range hj]
      simp only [Option.map_some, Option.getD_some]
      rw [xExt_eq, h3 k hk])
  refine ⟨out, fun k => Q (k / R.qDim) (k % R.qDim), g1, ⟨by simp [cellsOf], ?_⟩, fun k => g2 _ _, ?_⟩
  · intro k hk r hr
    rw [cellsOf_getD _ (cell_lt hr hk)]
    have hk1 : k % R.qDim < R.qDim := Nat.mod_lt _ hqd
    have hk2 : k / R.qDim < qDeg := (Nat.div_lt_iff_lt_mul hqd).2 (by rw [Nat.mul_comm]; exact hk)
    have := g4 (k % R.qDim) hk1 (k / R.qDim) hk2 r hr
    rw [Nat.div_add_mod] at this
    exact this
  · intro x
    rw [recombine_eq, zero_add, one_mul, List.length_map, List.length_range]
    have hget : ∀ p ∈ range qDeg, (x ^ 2 ^ R.nb) ^ p * ((List.range qDeg).map fun p =>
        (colPoly (fun k => Q (k / R.qDim) (k % R.qDim)) (R.qDim * p) R.qDim).eval x).getD p 0 =
        (X ^ (p * 2 ^ R.nb) * colPoly (Q p) 0 R.qDim : K[X]).eval x := by
      intro p hp
      rw [Finset.mem_range] at hp
      rw [List.getD_eq_getElem?_getD, List.getElem?_map, List.getElem?_range hp]
      simp only [Option.map_some, Option.getD_some, eval_mul, eval_pow, eval_X]
      rw [← pow_mul, Nat.mul_comm (2 ^ R.nb)]
      congr 2
      unfold colPoly
      have e1 : ∀ a, a < R.qDim → (R.qDim * p + a) / R.qDim = p ∧ (R.qDim * p + a) % R.qDim = a := fun a ha => by
        rw [Nat.mul_add_div hqd, Nat.div_eq_of_lt ha, Nat.add_zero, Nat.mul_add_mod, Nat.mod_eq_of_lt ha]; exact ⟨rfl, rfl⟩
      have e0 := e1 0 hqd
      rw [Nat.add_zero] at e0
      rcases hq with hq | ⟨hq, -⟩
      · have a1 := e1 1 (by omega)
        have a2 := e1 2 (by omega)
        rw [if_neg (by omega), if_neg (by omega)]
        simp only [e0.1, e0.2, a1.1, a1.2, a2.1, a2.2, Nat.zero_add]
      · rw [if_pos hq, if_pos hq]
        simp only [e0.1, e0.2]
    rw [Finset.sum_congr rfl hget, ← eval_finsetSum]
    congr 1
    conv_rhs => rw [h2]
    have hmap : ∀ k < R.qDim, (P k).map (algebraMap F K) = ∑ p ∈ range qDeg, X ^ (p * 2 ^ R.nb) * (Q p k).map (algebraMap F K) := by
      intro k hk
      conv_lhs => rw [g3 k hk]
      simp only [Polynomial.map_sum, Polynomial.map_mul, Polynomial.map_pow, map_X]
    unfold colPoly
    rcases hq with hq | ⟨hq, -⟩
    · rw [if_neg (by omega), hmap 0 (by omega), hmap (0 + 1) (by omega), hmap (0 + 2) (by omega), Finset.sum_mul, Finset.sum_mul,
        ← Finset.sum_add_distrib, ← Finset.sum_add_distrib]
      refine Finset.sum_congr rfl fun p _ => ?_
      rw [if_neg (by omega)]; ring
    · rw [if_pos hq, hmap 0 (by omega)]
      refine Finset.sum_congr rfl fun p _ => ?_
      rw [if_pos hq]

noncomputable local instance : DecidableEq K := Classical.decEq _

theorem imDone_mem (S : Finset Nat) (p : Bool) (k : Nat) : (p, k) ∈ imDone S ↔ k ∈ S.sort (· ≤ ·) := by
  unfold imDone
  cases p <;> simp

theorem im2cmOf_mem {S : Finset Nat} {nCm k : Nat} (h : k ∈ S) : ∃ c, im2cmOf S nCm k = some c := ⟨_, if_pos h⟩

/-- an intermediate column has a polynomial -/
theorem im_col {R : Run} {U : Setup K} {T : Trace} (hL : Layout R U T) (P : Nat → Nat → F[X]) {k c : Nat} (h : im2cmOf U.S R.nCm k = some c) :
    cmPolys R P c ≠ none := by
  obtain ⟨-, -, h3⟩ := im2cmOf_lt h
  obtain ⟨q, hq, hq3⟩ := hL.cols c h3
  obtain ⟨-, h1, -, -⟩ := hL.dims c q hq
  unfold cmPolys
  rw [hq, Option.bind_some, if_pos ⟨h1, hq3⟩]
  simp

/-- **step 4**: the code of the constraint polynomial, run on every row of the extended domain and divided by the vanishing
polynomial, gives the values of `t`; its pieces, interpolated and extended, are the columns of section 4 -/
theorem cells4_spec {R : Run} {U : Setup K} {T : Trace} {P : Nat → Nat → F[X]} {Pc : Nat → F[X]} {cells : Nat → List F} {fixed : List F}
    (hnb : R.nb + R.ext ≤ 32) (hnb0 : 0 < R.nb) (hwk : 0 < R.workers) (hL : Layout R U T)
    (hO : ∀ s, 1 ≤ s → s ≤ 3 → OnExt R (T.width s) (cells s) (P s)) (hOc : OnExt R T.nConst fixed Pc) {ch chal : List K}
    (hch : ∀ (i : Nat) v, ch[i]? = some v → chal[i]? = some v) {exps : List (Expr K)} (him : ∀ k ∈ U.S, k < exps.length) {fuel d : Nat} (hd : d < fuel)
    {ctx : Ctx K} (hctx : pilCodeGen (0 : K) (exps ++ [U.cExp]) fuel ⟨0, [], imDone U.S⟩ exps.length false none false = some ctx)
    (h42 : U.step42 = linearCode ctx) {f t : K[X]} (hft : f = t * (X ^ 2 ^ R.nb - 1)) (ht : t.degree < (U.qDeg * 2 ^ R.nb : Nat))
    (hval : ∀ z, Val (fieldOps K) (substIm (U.S.sort (· ≤ ·)) (im2cmOf U.S R.nCm) exps)
        (pointEnv (cmPolys R P) (fxPolys T Pc) (mgK R.nb) R.publics ch z) d false U.cExp (f.eval z))
    (hq0 : 0 < U.qDeg) (hq1 : U.qDeg ≤ 2 ^ R.ext)
    (hq : R.qDim = 3 ∨ R.qDim = 1 ∧ ∀ j < 2 ^ (R.nb + R.ext), ∃ b, t.eval (xExt R j) = algebraMap F K b) :
    ∃ c4 Q, cells4 R U T chal fixed cells = some c4 ∧ OnExt R (R.qDim * U.qDeg) c4 Q ∧ (∀ k, (Q k).natDegree < 2 ^ R.nb) ∧
      ∀ x : K, recombine (x ^ 2 ^ R.nb) ((List.range U.qDeg).map fun p => (colPoly Q (R.qDim * p) R.qDim).eval x) 1 0 = t.eval x := by
  obtain ⟨out, Q, g1, g2, g3, g4⟩ := split_cells hnb hnb0 hwk hq0 hq1 ht hq
  have hrow : ∀ j < 2 ^ (R.nb + R.ext), quotRow R U (extStore R U T cells fixed chal [] [] [] j) j = some (t.eval (xExt R j)) := by
    intro j _
    have hle := ext_le (U := U) hnb hL hO hOc hch [] [] [] j
    obtain ⟨ctx', σ', k1, -, -, k4⟩ := step_code (exps := exps ++ [U.cExp]) (fuel := fuel) (im := U.S.sort (· ≤ ·)) (im2cm := im2cmOf U.S R.nCm)
      (fun k hk => by
        have hk' : k ∈ U.S := by simpa using hk
        have := him k hk'
        exact ⟨by simp; omega, im2cmOf_mem hk'⟩) (imDone_mem U.S) (id := exps.length)
      (fun h => by
        have := him exps.length (by simpa using h)
        omega) false (σ := extStore R U T cells fixed chal [] [] [] j)
      (fun k hk c hc p => by
        obtain ⟨Q', hQ'⟩ := Option.ne_none_iff_exists'.mp (im_col hL P hc)
        have : pointEnv (cmPolys R P) (fxPolys T Pc) (mgK R.nb) R.publics ch (xExt R j) .cm c p = some (Q'.eval (if p then mgK R.nb * xExt R j else xExt R j)) := by
          unfold pointEnv; simp only; rw [hQ']; rfl
        rw [hle _ _ _ _ this]; simp) hd (by simp)
      (val_prefix (substIm_append _ _ exps [U.cExp]) (val_mono hle (hval (xExt R j))))
    rw [hctx] at k1
    obtain rfl := Option.some.inj k1
    unfold quotRow
    rw [h42, k4, Option.map_some]
    congr 1
    have hz := zhInv_K hnb 0 j
    rw [Nat.add_zero] at hz
    rw [hft]
    simp only [eval_mul, eval_sub, eval_pow, eval_X, eval_one]
    unfold xExt
    linear_combination (t.eval (shiftK * mgK (R.nb + R.ext) ^ j)) * hz
  refine ⟨_, Q, ?_, g2, g3, g4⟩
  unfold cells4
  rw [mapM_range _ _ _ hrow, Option.bind_some]
  simp only
  rw [g1, Option.map_some]

end Verif.Stark
