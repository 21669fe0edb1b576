import Verif.Grand.Shape
import Verif.Stark.Air

/-!
# Soundness of the lookup, permutation and connection identities

If a looked-up tuple is missing from the table (or the two sides of a permutation are different multisets, or a connection is violated), then
for all challenges outside small sets no choice of the later columns satisfies the generated identities.
-/
set_option linter.unusedSectionVars false

namespace Verif.Grand
open Codegen Codegen.Spec Stark

variable {A : Type} [Field A]

/-! ### Specification -/

/-- columns committed in three rounds: `k < n1` from `c1`, `n1 ≤ k < n2` from `c2`, the others from `c3` -/
def sections (n1 n2 : Nat) (c1 c2 c3 : Nat → Nat → Option A) (k : Nat) : Nat → Option A :=
  if k < n1 then c1 k else if k < n2 then c2 k else c3 k

/-- all identities of the system evaluate to zero on all rows -/
def Holds (st : PilSt A) (N : Nat) (cm fx : Nat → Nat → Option A) (pub chal : List A) (x : Nat → A) : Prop :=
  ∀ i < N, ∀ id ∈ st.ids, ∃ d, Val (fieldOps A) st.exps (rowStore N cm fx pub chal x i) d false (ImPols.expE id) 0

/-- the expression number `id` has the value `v i` on row `i` -/
def Col (exps : List (Expr A)) (N : Nat) (σ : Nat → Store A) (d id : Nat) (v : Nat → A) : Prop :=
  ∀ i < N, Val (fieldOps A) exps (σ i) d false (eExp id) (v i)

/-- The two sides of a lookup or permutation identity: the columns `f`, `t` and the selectors have the values `fv`, `tv`, `sF`, `sT`; selectors
are 0 or 1, a missing selector is 1 everywhere. -/
structure Sides (exps : List (Expr A)) (N : Nat) (σ : Nat → Store A) (d : Nat) (pi : LookupId) (fv tv : List (Nat → A)) (sF sT : Nat → A) :
    Prop where
  f : List.Forall₂ (Col exps N σ d) pi.f fv
  t : List.Forall₂ (Col exps N σ d) pi.t tv
  selF : ∀ k, pi.selF = some k → Col exps N σ d k sF
  selT : ∀ k, pi.selT = some k → Col exps N σ d k sT
  noF : pi.selF = none → ∀ i, sF i = 1
  noT : pi.selT = none → ∀ i, sT i = 1
  boolF : ∀ i < N, sF i = 0 ∨ sF i = 1
  boolT : ∀ i < N, sT i = 0 ∨ sT i = 1
  len : pi.f.length = pi.t.length
  pos : pi.f ≠ []

/-- the tuple of a list of columns on row `i` -/
def tuple (cols : List (Nat → A)) (i : Nat) : List A := cols.map fun c => c i

/-- the multiset of the tuples on the selected rows -/
def selected [DecidableEq A] (N : Nat) (cols : List (Nat → A)) (s : Nat → A) : Multiset (List A) :=
  ((Multiset.range N).filter fun i => s i = 1).map (tuple cols)

/-! ### Values on the rows -/

theorem sections_up {n1 n2 : Nat} {c1 c2 c3 : Nat → Nat → Option A} {N : Nat} {fx : Nat → Nat → Option A} {pub chal : List A} {x : Nat → A} {i : Nat} :
    ∀ t k p v, rowStore N (sections n1 n1 c1 (fun _ _ => none) fun _ _ => none) fx pub [] x i t k p = some v →
      rowStore N (sections n1 n2 c1 c2 c3) fx pub chal x i t k p = some v := by
  intro t k p v h
  cases t <;> simp only [rowStore] at h ⊢ <;> try exact h
  · unfold sections at h ⊢
    by_cases h1 : k < n1
    · rw [if_pos h1] at h ⊢; exact h
    · rw [if_neg h1, if_neg h1] at h; simp at h
  · simp at h

/-- values computed from the first section are not changed by later columns, challenges and expressions -/
theorem v_up {exps more : List (Expr A)} {n1 n2 : Nat} {c1 c2 c3 : Nat → Nat → Option A} {N : Nat} {fx : Nat → Nat → Option A}
    {pub chal : List A} {x : Nat → A} {i d : Nat} {p : Bool} {e : Expr A} {v : A}
    (h : Val (fieldOps A) exps (rowStore N (sections n1 n1 c1 (fun _ _ => none) fun _ _ => none) fx pub [] x i) d p e v) :
    Val (fieldOps A) (exps ++ more) (rowStore N (sections n1 n2 c1 c2 c3) fx pub chal x i) d p e v :=
  v_append (Stark.val_mono sections_up h) more

theorem forall₂_row {exps : List (Expr A)} {N : Nat} {σ : Nat → Store A} {d i : Nat} (hi : i < N) :
    ∀ {l : List Nat} {vs : List (Nat → A)}, List.Forall₂ (Col exps N σ d) l vs →
      List.Forall₂ (fun j v => Val (fieldOps A) exps (σ i) d false (eExp j) v) l (tuple vs i)
  | _, _, .nil => .nil
  | _, _, .cons h t => .cons (h i hi) (forall₂_row hi t)

/-- `Col` for the extended system -/
theorem col_up {exps more : List (Expr A)} {n1 n2 : Nat} {c1 c2 c3 : Nat → Nat → Option A} {N : Nat} {fx : Nat → Nat → Option A}
    {pub chal : List A} {x : Nat → A} {d id : Nat} {v : Nat → A}
    (h : Col exps N (rowStore N (sections n1 n1 c1 (fun _ _ => none) fun _ _ => none) fx pub [] x) d id v) :
    Col (exps ++ more) N (rowStore N (sections n1 n2 c1 c2 c3) fx pub chal x) d id v := fun i hi => v_up (h i hi)

theorem Sides.up {exps more : List (Expr A)} {n1 n2 : Nat} {c1 c2 c3 : Nat → Nat → Option A} {N : Nat} {fx : Nat → Nat → Option A}
    {pub chal : List A} {x : Nat → A} {d : Nat} {pi : LookupId} {fv tv : List (Nat → A)} {sF sT : Nat → A}
    (h : Sides exps N (rowStore N (sections n1 n1 c1 (fun _ _ => none) fun _ _ => none) fx pub [] x) d pi fv tv sF sT) :
    Sides (exps ++ more) N (rowStore N (sections n1 n2 c1 c2 c3) fx pub chal x) d pi fv tv sF sT :=
  ⟨h.f.imp fun _ _ => col_up, h.t.imp fun _ _ => col_up, fun k hk => col_up (h.selF k hk), fun k hk => col_up (h.selT k hk),
    h.noF, h.noT, h.boolF, h.boolT, h.len, h.pos⟩

section
variable {exps : List (Expr A)} {N : Nat} {cm fx : Nat → Nat → Option A} {pub chal : List A} {x : Nat → A}

/-- the first identity of an argument: `L1 (z - 1) = 0` -/
theorem inv_start {i c1 l z : Nat} (hi : i < N) (he : exps[c1]? = some (zStart l z))
    (h : ∃ d, Val (fieldOps A) exps (rowStore N cm fx pub chal x i) d false (ImPols.expE c1) 0) :
    ∃ lv zv, fx l i = some lv ∧ cm z i = some zv ∧ lv * (zv - 1) = 0 := by
  obtain ⟨d, h⟩ := h
  obtain ⟨d', e, _, _, he', h⟩ := i_exp (n := false) h
  rw [he] at he'
  obtain rfl := Option.some.inj he'
  obtain ⟨lv, w, h1, h2, h3⟩ := i_mul h
  obtain ⟨zv, o, h4, h5, rfl⟩ := i_sub h2
  rw [i_num h5] at h3
  have g1 := i_const h1
  have g2 := (i_cm h4).2
  simp only [rowStore, Bool.false_eq_true, if_false, Nat.add_zero, Bool.or_self, Nat.mod_eq_of_lt hi] at g1 g2
  exact ⟨lv, zv, g1, g2, h3.symm⟩

/-- the second identity of an argument: `z' den = z num` -/
theorem inv_step {i c2 z num den : Nat} (hi : i < N) (he : exps[c2]? = some (zStep z num den))
    (h : ∃ d, Val (fieldOps A) exps (rowStore N cm fx pub chal x i) d false (ImPols.expE c2) 0) :
    ∃ zv zp n dn, cm z i = some zv ∧ cm z (nxt N i) = some zp ∧
      (∃ d, Val (fieldOps A) exps (rowStore N cm fx pub chal x i) d false (eExp num) n) ∧
      (∃ d, Val (fieldOps A) exps (rowStore N cm fx pub chal x i) d false (eExp den) dn) ∧ zp * dn = zv * n := by
  obtain ⟨d, h⟩ := h
  obtain ⟨d', e, _, _, he', h⟩ := i_exp (n := false) h
  rw [he] at he'
  obtain rfl := Option.some.inj he'
  obtain ⟨a, b, h1, h2, h3⟩ := i_sub h
  obtain ⟨zp, dn, h4, h5, rfl⟩ := i_mul h1
  obtain ⟨zv, n, h6, h7, rfl⟩ := i_mul h2
  have g1 := (i_cm h4).2
  have g2 := (i_cm h6).2
  simp only [rowStore, Bool.true_or, if_true, Bool.false_eq_true, if_false, Nat.add_zero, Bool.or_self, Nat.mod_eq_of_lt hi] at g1 g2
  exact ⟨zv, zp, n, dn, g2, g1, ⟨_, h7⟩, ⟨_, h5⟩, sub_eq_zero.mp h3.symm⟩

/-- If the identities of an argument hold on all rows and the numerator and denominator expressions have the values `num`, `den`, then the two
products are equal. -/
theorem args_product (hN : 0 < N) {l z c1 c2 nI dI : Nat} {num den : Nat → A} (hl : ∃ v, v ≠ 0 ∧ fx l 0 = some v)
    (he1 : exps[c1]? = some (zStart l z)) (he2 : exps[c2]? = some (zStep z nI dI))
    (h1 : ∀ i < N, ∃ d, Val (fieldOps A) exps (rowStore N cm fx pub chal x i) d false (ImPols.expE c1) 0)
    (h2 : ∀ i < N, ∃ d, Val (fieldOps A) exps (rowStore N cm fx pub chal x i) d false (ImPols.expE c2) 0)
    (hn : ∀ i < N, ∀ v d, Val (fieldOps A) exps (rowStore N cm fx pub chal x i) d false (eExp nI) v → v = num i)
    (hd : ∀ i < N, ∀ v d, Val (fieldOps A) exps (rowStore N cm fx pub chal x i) d false (eExp dI) v → v = den i) :
    ∏ i ∈ Finset.range N, num i = ∏ i ∈ Finset.range N, den i := by
  refine running_product hN (fun i => (cm z i).getD 0) num den ?_ fun i hi => ?_
  · obtain ⟨lv, zv, g1, g2, g3⟩ := inv_start hN he1 (h1 0 hN)
    obtain ⟨v, hv, hv2⟩ := hl
    rw [hv2] at g1
    obtain rfl := Option.some.inj g1
    rcases mul_eq_zero.mp g3 with h | h
    · exact absurd h hv
    · rw [g2, Option.getD_some]; exact sub_eq_zero.mp h
  · obtain ⟨zv, zp, n, dn, g1, g2, ⟨d3, g3⟩, ⟨d4, g4⟩, g5⟩ := inv_step hi he2 (h2 i hi)
    rw [hn i hi n d3 g3, hd i hi dn d4 g4] at g5
    have e : (i + 1) % N = nxt N i := rfl
    rw [e, g1, g2]
    exact g5

/-- the value of the table side on a row -/
theorem v_tSide {u dv : A} (h0 : chal[0]? = some u) (h1 : chal[1]? = some dv) {d : Nat} {pi : LookupId} {fv tv : List (Nat → A)} {sF sT : Nat → A}
    (hs : Sides exps N (rowStore N cm fx pub chal x) d pi fv tv sF sT) {i : Nat} (hi : i < N) {tI : Nat}
    (he : exps[tI]? = some (select (lcT pi.t) eDef pi.selT)) :
    Val (fieldOps A) exps (rowStore N cm fx pub chal x i) (d + 1) false (eExp tI) ((horner u (tuple tv i) - dv) * sT i + dv) := by
  have hne : pi.t ≠ [] := by
    have := hs.len
    intro h
    rw [h] at this
    exact hs.pos (List.length_eq_zero_iff.mp (by simpa using this))
  refine v_exp rfl he ?_
  exact v_select (v_lcT h0 hne (forall₂_row hi hs.t)) (v_chal h1) (fun k hk => hs.selT k hk i hi) (fun hk => hs.noT hk i)

/-- the value of the other side of a permutation on a row -/
theorem v_fSide {u dv : A} (h0 : chal[0]? = some u) (h1 : chal[1]? = some dv) {d : Nat} {pi : LookupId} {fv tv : List (Nat → A)} {sF sT : Nat → A}
    (hs : Sides exps N (rowStore N cm fx pub chal x) d pi fv tv sF sT) {i : Nat} (hi : i < N) {fI : Nat}
    (he : exps[fI]? = some (select (lcF pi.f) eDef pi.selF)) :
    Val (fieldOps A) exps (rowStore N cm fx pub chal x i) (d + 1) false (eExp fI) ((horner u (tuple fv i) - dv) * sF i + dv) := by
  refine v_exp rfl he ?_
  exact v_select (v_lcF h0 hs.pos (forall₂_row hi hs.f)) (v_chal h1) (fun k hk => hs.selF k hk i hi) (fun hk => hs.noF hk i)

/-- the value of the looked-up side of a plookup on a row: unselected rows look up the table's own row -/
theorem v_fSideP {u dv : A} (h0 : chal[0]? = some u) (h1 : chal[1]? = some dv) {d : Nat} {pi : LookupId} {fv tv : List (Nat → A)} {sF sT : Nat → A}
    (hs : Sides exps N (rowStore N cm fx pub chal x) d pi fv tv sF sT) {i : Nat} (hi : i < N) {tI fI : Nat}
    (ht : exps[tI]? = some (select (lcT pi.t) eDef pi.selT)) (he : exps[fI]? = some (select (lcF pi.f) (eExp tI) pi.selF)) :
    Val (fieldOps A) exps (rowStore N cm fx pub chal x i) (d + 2) false (eExp fI)
      ((horner u (tuple fv i) - ((horner u (tuple tv i) - dv) * sT i + dv)) * sF i + ((horner u (tuple tv i) - dv) * sT i + dv)) := by
  refine v_exp rfl he ?_
  refine v_select (Stark.val_depth (v_lcF h0 hs.pos (forall₂_row hi hs.f)) (Nat.le_succ _)) (v_tSide h0 h1 hs hi ht)
    (fun k hk => Stark.val_depth (hs.selF k hk i hi) (Nat.le_succ _)) (fun hk => hs.noF hk i)

end

end Verif.Grand
