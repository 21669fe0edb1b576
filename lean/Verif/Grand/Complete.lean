import Verif.Grand.Conn
import Verif.Stark.H1H2
import Verif.Stark.Zh

/-!
# Completeness of the lookup, permutation and connection identities

When the relations hold, the columns that the prover computes (`calculate_H1H2`, `calculate_Z`) exist for all challenges outside small sets and
satisfy the identities added by the setup.
-/
set_option linter.unusedSectionVars false

namespace Verif.Grand
open Codegen Codegen.Spec Stark

variable {A : Type} [Field A] [DecidableEq A]

/-- the values of a column on all rows -/
def rows (N : Nat) (v : Nat → A) : List A := (List.range N).map v

theorem rows_length (N : Nat) (v : Nat → A) : (rows N v).length = N := by simp [rows]

theorem rows_getD {N i : Nat} (v : Nat → A) (h : i < N) : (rows N v).getD i 0 = v i := by
  simp [rows, List.getD_eq_getElem?_getD, List.getElem?_map, List.getElem?_range h]

theorem rows_prod (N : Nat) (v : Nat → A) : (rows N v).prod = ∏ i ∈ Finset.range N, v i := by
  unfold rows
  rw [← List.prod_toFinset _ List.nodup_range, List.toFinset_range]

theorem z_exists {N : Nat} (hN : 0 < N) {num den : Nat → A} (hp : ∏ i ∈ Finset.range N, num i = ∏ i ∈ Finset.range N, den i)
    (hd : ∀ i < N, den i ≠ 0) : ∃ z, calculateZ (rows N num) (rows N den) = some z := by
  refine (calculateZ_spec _ _ (by simp [rows_length]) ?_ ?_).1.mpr ?_
  · intro h
    have := congrArg List.length h
    simp [rows_length] at this
    omega
  · intro v hv
    obtain ⟨i, hi, rfl⟩ := List.mem_map.mp hv
    exact hd i (List.mem_range.mp hi)
  · rw [rows_prod, rows_prod, hp]

section
variable {exps : List (Expr A)} {N : Nat} {cm fx : Nat → Nat → Option A} {pub chal : List A} {x : Nat → A}

/-- the column computed by `calculate_Z` satisfies the two identities of the argument -/
theorem z_complete (hN : 0 < N) {num den : Nat → A} {z : List A} {l zI c1 c2 nI dI d : Nat}
    (hz : calculateZ (rows N num) (rows N den) = some z) (hcm : ∀ i < N, cm zI i = z[i]?)
    (hl : ∀ i < N, fx l i = some (if i = 0 then 1 else 0))
    (he1 : exps[c1]? = some (zStart l zI)) (he2 : exps[c2]? = some (zStep zI nI dI))
    (hn : Col exps N (rowStore N cm fx pub chal x) d nI num) (hd : Col exps N (rowStore N cm fx pub chal x) d dI den) :
    ∀ i < N, Val (fieldOps A) exps (rowStore N cm fx pub chal x i) (d + 1) false (ImPols.expE c1) 0 ∧
      Val (fieldOps A) exps (rowStore N cm fx pub chal x i) (d + 1) false (ImPols.expE c2) 0 := by
  have hne : rows N num ≠ [] := by
    intro h
    have := congrArg List.length h
    simp [rows_length] at this
    omega
  have hnz : ∀ v ∈ rows N den, v ≠ 0 := by
    rintro v hv rfl
    rw [calculateZ_zero_den _ _ hv] at hz
    simp at hz
  obtain ⟨hlen, h0, hstep⟩ := (calculateZ_spec _ _ (by simp [rows_length]) hne hnz).2 z hz
  rw [rows_length] at hlen hstep
  have hcm' : ∀ i < N, cm zI i = some (z.getD i 0) := by
    intro i hi
    rw [hcm i hi, List.getD_eq_getElem?_getD, List.getElem?_eq_getElem (by omega)]
    rfl
  intro i hi
  have hnx : nxt N i < N := nxt_lt hN
  refine ⟨?_, ?_⟩
  · have e : (0 : A) = (if i = 0 then 1 else 0) * (z.getD i 0 - 1) := by
      by_cases h : i = 0
      · rw [if_pos h, h, h0]; simp
      · rw [if_neg h]; simp
    have hv : Val (fieldOps A) exps (rowStore N cm fx pub chal x i) d false (zStart l zI) 0 := by
      rw [e]
      refine v_mul (v_const ?_) (v_sub (v_cm rfl ?_) (v_num 1))
      · simp only [rowStore, Bool.false_eq_true, if_false, Nat.add_zero, Nat.mod_eq_of_lt hi]; exact hl i hi
      · simp only [rowStore, Bool.or_self, Bool.false_eq_true, if_false, Nat.add_zero, Nat.mod_eq_of_lt hi]; exact hcm' i hi
    exact v_exp (n := false) rfl he1 hv
  · have e : (0 : A) = z.getD (nxt N i) 0 * den i - z.getD i 0 * num i := by
      have := hstep i hi
      rw [rows_getD _ hi, rows_getD _ hi] at this
      rw [← this]; simp [nxt]
    have hv : Val (fieldOps A) exps (rowStore N cm fx pub chal x i) d false (zStep zI nI dI) 0 := by
      rw [e]
      refine v_sub (v_mul (v_cm rfl ?_) (hd i hi)) (v_mul (v_cm rfl ?_) (hn i hi))
      · simp only [rowStore, Bool.true_or, if_true]; exact hcm' _ hnx
      · simp only [rowStore, Bool.or_self, Bool.false_eq_true, if_false, Nat.add_zero, Nat.mod_eq_of_lt hi]; exact hcm' i hi
    exact v_exp (n := false) rfl he2 hv

end

/-! ### The sides -/

/-- the table side on row `i` -/
def tVal (u dv : A) (tv : List (Nat → A)) (sT : Nat → A) (i : Nat) : A := (horner u (tuple tv i) - dv) * sT i + dv
/-- the looked-up side on row `i` -/
def fVal (u dv : A) (fv tv : List (Nat → A)) (sF sT : Nat → A) (i : Nat) : A :=
  (horner u (tuple fv i) - tVal u dv tv sT i) * sF i + tVal u dv tv sT i

/-- The table columns can be read at the next row: the primed expressions have, on row `i`, the value of row `i + 1`. -/
structure NextRow (exps : List (Expr A)) (N : Nat) (σ : Nat → Store A) (d : Nat) (pi : LookupId) (tv : List (Nat → A)) (sT : Nat → A) : Prop where
  t : List.Forall₂ (fun j v => ∀ i < N, Val (fieldOps A) exps (σ i) d true (eExp j) (v (nxt N i))) pi.t tv
  sel : ∀ k, pi.selT = some k → ∀ i < N, Val (fieldOps A) exps (σ i) d true (eExp k) (sT (nxt N i))

section
variable {exps : List (Expr A)} {N : Nat} {cm fx : Nat → Nat → Option A} {pub chal : List A} {x : Nat → A}

theorem forall₂_rowP {σ : Nat → Store A} {d i : Nat} (hi : i < N) :
    ∀ {l : List Nat} {vs : List (Nat → A)}, List.Forall₂ (fun j v => ∀ i < N, Val (fieldOps A) exps (σ i) d true (eExp j) (v (nxt N i))) l vs →
      List.Forall₂ (fun j v => Val (fieldOps A) exps (σ i) d true (eExp j) v) l (tuple vs (nxt N i))
  | _, _, .nil => .nil
  | _, _, .cons h t => .cons (h i hi) (forall₂_rowP hi t)

theorem v_tSideNext {u dv : A} (h0 : chal[0]? = some u) (h1 : chal[1]? = some dv) {d : Nat} {pi : LookupId} {fv tv : List (Nat → A)} {sF sT : Nat → A}
    (hs : Sides exps N (rowStore N cm fx pub chal x) d pi fv tv sF sT) (hnx : NextRow exps N (rowStore N cm fx pub chal x) d pi tv sT)
    {i : Nat} (hi : i < N) {tI : Nat} (he : exps[tI]? = some (select (lcT pi.t) eDef pi.selT)) :
    Val (fieldOps A) exps (rowStore N cm fx pub chal x i) (d + 1) false (eExp tI true) (tVal u dv tv sT (nxt N i)) := by
  have hne : pi.t ≠ [] := by
    have := hs.len
    intro h
    rw [h] at this
    exact hs.pos (List.length_eq_zero_iff.mp (by simpa using this))
  refine v_exp rfl he ?_
  exact v_select (v_lcT h0 hne (forall₂_rowP hi hnx.t)) (v_chal h1) (fun k hk => hnx.sel k hk i hi) (fun hk => hs.noT hk _)

/-- the two identities of a plookup hold when the columns are computed by `calculate_H1H2` and `calculate_Z` from the values of the
expressions -/
theorem plookup_identities (hN : 0 < N) {u dv γ β : A} (h0 : chal[0]? = some u) (h1 : chal[1]? = some dv) (h2 : chal[2]? = some γ)
    (h3 : chal[3]? = some β) {d : Nat} {pi : LookupId} {fv tv : List (Nat → A)} {sF sT : Nat → A}
    (hs : Sides exps N (rowStore N cm fx pub chal x) d pi fv tv sF sT) (hnx : NextRow exps N (rowStore N cm fx pub chal x) d pi tv sT)
    {l : Nat} {c : PCtx} (g1 : exps[c.tExp]? = some (select (lcT pi.t) eDef pi.selT))
    (g2 : exps[c.fExp]? = some (select (lcF pi.f) (eExp c.tExp) pi.selF)) (g3 : exps[c.c1]? = some (zStart l c.z))
    (g4 : exps[c.num]? = some (lookupNum c.fExp c.tExp)) (g5 : exps[c.den]? = some (lookupDen c.h1 c.h2))
    (g6 : exps[c.c2]? = some (zStep c.z c.num c.den)) {a b : Nat → A} {z : List A} (ha : ∀ i < N, cm c.h1 i = some (a i))
    (hb : ∀ i < N, cm c.h2 i = some (b i))
    (hz : calculateZ (rows N fun i => plookupNum β γ (fVal u dv fv tv sF sT i) (tVal u dv tv sT i) (tVal u dv tv sT (nxt N i)))
      (rows N fun i => plookupDen β γ (a i) (b i) (a (nxt N i))) = some z)
    (hcm : ∀ i < N, cm c.z i = z[i]?) (hl : ∀ i < N, fx l i = some (if i = 0 then 1 else 0)) :
    ∀ i < N, Val (fieldOps A) exps (rowStore N cm fx pub chal x i) (d + 4) false (ImPols.expE c.c1) 0 ∧
      Val (fieldOps A) exps (rowStore N cm fx pub chal x i) (d + 4) false (ImPols.expE c.c2) 0 := by
  refine z_complete (d := d + 3) hN hz hcm hl g3 g6 (fun i hi => ?_) (fun i hi => ?_)
  · have hf := v_fSideP h0 h1 hs hi g1 g2
    have ht : Val (fieldOps A) exps (rowStore N cm fx pub chal x i) (d + 2) false (eExp c.tExp) (tVal u dv tv sT i) :=
      Stark.val_depth (v_tSide h0 h1 hs hi g1) (by omega)
    have ht' : Val (fieldOps A) exps (rowStore N cm fx pub chal x i) (d + 2) false (eExp c.tExp true) (tVal u dv tv sT (nxt N i)) :=
      Stark.val_depth (v_tSideNext h0 h1 hs hnx hi g1) (by omega)
    have hg : rowStore N cm fx pub chal x i .challenge 2 false = some γ := h2
    have hbe : rowStore N cm fx pub chal x i .challenge 3 false = some β := h3
    exact v_exp rfl g4 (v_mul (v_mul (v_add hf (v_chal hg)) (v_add (v_add ht (v_mul ht' (v_chal hbe)))
      (v_mul (v_chal hg) (v_add (v_num 1) (v_chal hbe))))) (v_add (v_num 1) (v_chal hbe)))
  · have hg : rowStore N cm fx pub chal x i .challenge 2 false = some γ := h2
    have hbe : rowStore N cm fx pub chal x i .challenge 3 false = some β := h3
    have e1 : rowStore N cm fx pub chal x i .cm c.h1 false = some (a i) := by
      simp only [rowStore, Bool.false_eq_true, if_false, Nat.add_zero, Nat.mod_eq_of_lt hi]; exact ha i hi
    have e2 : rowStore N cm fx pub chal x i .cm c.h2 false = some (b i) := by
      simp only [rowStore, Bool.false_eq_true, if_false, Nat.add_zero, Nat.mod_eq_of_lt hi]; exact hb i hi
    have e3 : rowStore N cm fx pub chal x i .cm c.h1 true = some (a (nxt N i)) := by
      simp only [rowStore, if_true]; exact ha _ (nxt_lt hN)
    refine Stark.val_depth (d := d + 1) (v_exp rfl g5 ?_) (by omega)
    exact v_mul (v_add (v_add (v_cm rfl e1) (v_mul (v_cm rfl e2) (v_chal hbe))) (v_mul (v_chal hg) (v_add (v_num 1) (v_chal hbe))))
      (v_add (v_add (v_cm rfl e2) (v_mul (v_cm rfl e3) (v_chal hbe))) (v_mul (v_chal hg) (v_add (v_num 1) (v_chal hbe))))

/-- the two identities of a permutation hold when the column is computed by `calculate_Z` -/
theorem perm_identities (hN : 0 < N) {u dv β : A} (h0 : chal[0]? = some u) (h1 : chal[1]? = some dv) (h3 : chal[3]? = some β)
    {d : Nat} {pi : LookupId} {fv tv : List (Nat → A)} {sF sT : Nat → A}
    (hs : Sides exps N (rowStore N cm fx pub chal x) d pi fv tv sF sT)
    {l : Nat} {c : PCtx} (g1 : exps[c.tExp]? = some (select (lcT pi.t) eDef pi.selT))
    (g2 : exps[c.fExp]? = some (select (lcF pi.f) eDef pi.selF)) (g3 : exps[c.c1]? = some (zStart l c.z))
    (g4 : exps[c.num]? = some (eAdd (eExp c.fExp) eBeta)) (g5 : exps[c.den]? = some (eAdd (eExp c.tExp) eBeta))
    (g6 : exps[c.c2]? = some (zStep c.z c.num c.den)) {z : List A}
    (hz : calculateZ (rows N fun i => tVal u dv fv sF i + β) (rows N fun i => tVal u dv tv sT i + β) = some z)
    (hcm : ∀ i < N, cm c.z i = z[i]?) (hl : ∀ i < N, fx l i = some (if i = 0 then 1 else 0)) :
    ∀ i < N, Val (fieldOps A) exps (rowStore N cm fx pub chal x i) (d + 3) false (ImPols.expE c.c1) 0 ∧
      Val (fieldOps A) exps (rowStore N cm fx pub chal x i) (d + 3) false (ImPols.expE c.c2) 0 := by
  refine z_complete (d := d + 2) hN hz hcm hl g3 g6 (fun i hi => ?_) (fun i hi => ?_)
  · have hbe : rowStore N cm fx pub chal x i .challenge 3 false = some β := h3
    exact v_exp rfl g4 (v_add (v_fSide h0 h1 hs hi g2) (v_chal hbe))
  · have hbe : rowStore N cm fx pub chal x i .challenge 3 false = some β := h3
    exact v_exp rfl g5 (v_add (v_tSide h0 h1 hs hi g1) (v_chal hbe))

end

/-! ### The products -/

theorem zipWith3_rows {B : Type} {N : Nat} (g : A → A → A → B) (a b c : Nat → A) :
    ((rows N a).zip ((rows N b).zip (rows N c))).map (fun r => g r.1 r.2.1 r.2.2) = (List.range N).map fun i => g (a i) (b i) (c i) := by
  apply List.ext_getElem?
  intro j
  by_cases hj : j < N
  · simp [rows, List.getElem?_zip_eq_some, hj, List.zip_map', List.getElem?_range hj]
  · rw [List.getElem?_eq_none (by simp [rows]; omega), List.getElem?_eq_none (by simp; omega)]

theorem next_rows {N : Nat} (hN : 0 < N) (v : Nat → A) : Stark.next (rows N v) = rows N fun i => v (nxt N i) := by
  apply List.ext_getElem?
  intro j
  unfold Stark.next
  by_cases hj : j < N
  · rw [List.getElem?_rotate (by simp [rows_length, hj])]
    simp only [rows, List.length_map, List.length_range, List.getElem?_map]
    rw [List.getElem?_range (Nat.mod_lt _ hN), List.getElem?_range hj]
    rfl
  · rw [List.getElem?_eq_none (by simp [rows]; omega), List.getElem?_eq_none (by simp [rows]; omega)]

theorem rows_of_list {N : Nat} {l : List A} (h : l.length = N) : l = rows N fun i => l.getD i 0 := by
  apply List.ext_getElem?
  intro j
  by_cases hj : j < N
  · simp [rows, List.getElem?_range hj, List.getElem?_eq_getElem (by omega : j < l.length)]
  · rw [List.getElem?_eq_none (by omega), List.getElem?_eq_none (by simp [rows]; omega)]

/-- the products of a plookup agree for the columns of `calculate_H1H2` -/
theorem lookup_products {N : Nat} (hN : 0 < N) {f t : Nat → A} {a b : List A} (hh : h1h2 (rows N f) (rows N t) = some (a, b)) (β γ : A) :
    ∏ i ∈ Finset.range N, plookupNum β γ (f i) (t i) (t (nxt N i)) =
      ∏ i ∈ Finset.range N, plookupDen β γ (a.getD i 0) (b.getD i 0) (a.getD (nxt N i) 0) := by
  have hall : ∀ e ∈ rows N f, e ∈ rows N t := by
    intro e he
    by_contra hn
    rw [h1h2_missing _ _ e he hn] at hh
    simp at hh
  obtain ⟨a', b', e1, e2, e3, -⟩ := h1h2_spec (rows N f) (rows N t) (by simp [rows_length]) hall
  rw [hh] at e1
  obtain ⟨rfl, rfl⟩ := Prod.mk.inj (Option.some.inj e1)
  rw [rows_length] at e2 e3
  have := plookup_product (rows N f) (rows N t) a b id (by simp [rows_length]) hh β γ
  simp only [List.map_id] at this
  rw [rows_of_list e2, rows_of_list e3, next_rows hN, next_rows hN, zipWith3_rows, zipWith3_rows] at this
  have e4 : ∀ i < N, (rows N fun i => a.getD i 0).getD i 0 = a.getD i 0 := fun i hi => rows_getD _ hi
  rw [← rows_prod, ← rows_prod]
  exact this

/-- the products of a permutation agree when the selected rows agree -/
theorem perm_products {N : Nat} {fv tv : List (Nat → A)} {sF sT : Nat → A} (hbF : ∀ i < N, sF i = 0 ∨ sF i = 1) (hbT : ∀ i < N, sT i = 0 ∨ sT i = 1)
    (he : selected N fv sF = selected N tv sT) (u dv β : A) :
    ∏ i ∈ Finset.range N, (tVal u dv fv sF i + β) = ∏ i ∈ Finset.range N, (tVal u dv tv sT i + β) := by
  have key : ∀ (cols : List (Nat → A)) (s : Nat → A), (∀ i < N, s i = 0 ∨ s i = 1) →
      ∏ i ∈ Finset.range N, (tVal u dv cols s i + β) = ((selected N cols s).map fun l => horner u l + β).prod *
        (dv + β) ^ (N - Multiset.card (selected N cols s)) := by
    intro cols s hb
    have h1 : ∏ i ∈ Finset.range N, (tVal u dv cols s i + β) = ((Multiset.range N).map fun i => tVal u dv cols s i + β).prod := rfl
    rw [h1, ← Multiset.filter_add_not (fun i => s i = 1) (Multiset.range N), Multiset.map_add, Multiset.prod_add]
    congr 1
    · unfold selected
      rw [Multiset.map_map]
      congr 1
      refine Multiset.map_congr rfl fun i hi => ?_
      have := (Multiset.mem_filter.mp hi).2
      simp [tVal, this]
    · have h2 : ((Multiset.range N).filter fun i => ¬ s i = 1).map (fun i => tVal u dv cols s i + β) =
          Multiset.replicate (Multiset.card ((Multiset.range N).filter fun i => ¬ s i = 1)) (dv + β) := by
        rw [← Multiset.map_const']
        refine Multiset.map_congr rfl fun i hi => ?_
        obtain ⟨m1, m2⟩ := Multiset.mem_filter.mp hi
        rcases hb i (Multiset.mem_range.mp m1) with h | h
        · simp [tVal, h]
        · exact absurd h m2
      rw [h2, Multiset.prod_replicate]
      congr 1
      have h3 := congrArg Multiset.card (Multiset.filter_add_not (fun i => s i = 1) (Multiset.range N))
      rw [Multiset.card_add, Multiset.card_range] at h3
      have h4 : Multiset.card (selected N cols s) = Multiset.card ((Multiset.range N).filter fun i => s i = 1) := by
        unfold selected; rw [Multiset.card_map]
      omega
  rw [key fv sF hbF, key tv sT hbT, he]

/-- the products of a connection agree when the connection columns hold the labels of a rearrangement of the cells that preserves the values -/
theorem conn_products {N m : Nat} {f s lab : Nat → Nat → A} (π : Equiv.Perm (Fin N × Fin m))
    (hs : ∀ c, s c.1 c.2 = lab (π c).1 (π c).2) (hf : ∀ c, f c.1 c.2 = f (π c).1 (π c).2) (β γ : A) :
    ∏ i ∈ Finset.range N, ((List.range m).map fun j => f i j + β * lab i j + γ).prod =
      ∏ i ∈ Finset.range N, ((List.range m).map fun j => f i j + β * s i j + γ).prod := by
  have key : ∀ g : Nat → Nat → A, ∏ i ∈ Finset.range N, ((List.range m).map fun j => g i j).prod = ∏ c : Fin N × Fin m, g c.1 c.2 := by
    intro g
    have : ∀ i, ((List.range m).map fun j => g i j).prod = ∏ j : Fin m, g i j := by
      intro i
      rw [← List.prod_toFinset _ List.nodup_range, List.toFinset_range, Finset.prod_range]
    simp only [this]
    rw [Finset.prod_range, Fintype.prod_prod_type]
  rw [key, key]
  rw [← Equiv.prod_comp π]
  exact Finset.prod_congr rfl fun c _ => by rw [hs c, ← hf c]

end Verif.Grand
