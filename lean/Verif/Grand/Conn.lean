import Verif.Grand.SoundProps

/-!
# Connection identities
-/
set_option linter.unusedSectionVars false

namespace Verif.Grand
open Codegen Codegen.Spec Stark

variable {A : Type} [Field A]

/-- the loop over the columns computes the products -/
theorem connLoop_val {E : List (Expr A)} {σ : Store A} {β γ xv : A} (hb : σ .challenge 3 false = some β) (hg : σ .challenge 2 false = some γ)
    (hx : σ .x 0 false = some xv) : ∀ {ps cs : List Nat} {ks : List A} {exps : List (Expr A)} {num den : Nat} {r : List (Expr A) × Nat × Nat}
    {fv sv : List A} {d : Nat} {vn vd : A}, connLoop exps num den ps cs ks = some r → r.1 <+: E →
    List.Forall₂ (fun j v => Val (fieldOps A) E σ d false (eExp j) v) ps fv → List.Forall₂ (fun j v => Val (fieldOps A) E σ d false (eExp j) v) cs sv →
    Val (fieldOps A) E σ d false (eExp num) vn → Val (fieldOps A) E σ d false (eExp den) vd →
    Val (fieldOps A) E σ (d + ps.length) false (eExp r.2.1) (vn * (List.zipWith (fun f k => f + β * k * xv + γ) fv ks).prod) ∧
      Val (fieldOps A) E σ (d + ps.length) false (eExp r.2.2) (vd * (List.zipWith (fun f s => f + β * s + γ) fv sv).prod) := by
  intro ps
  induction ps with
  | nil =>
    intro cs ks exps num den r fv sv d vn vd h _ hp _ hn hd
    simp only [connLoop, Option.some.injEq] at h
    subst h
    cases hp
    simpa using ⟨hn, hd⟩
  | cons p ps ih =>
    intro cs ks exps num den r fv sv d vn vd h hE hp hc hn hd
    cases cs with
    | nil => simp [connLoop] at h
    | cons c cs =>
      cases ks with
      | nil => simp [connLoop] at h
      | cons k ks =>
        rw [connLoop] at h
        cases hp with
        | @cons _ f _ fv hp1 hp =>
        cases hc with
        | @cons _ s _ sv hc1 hc =>
        have hpre := (connLoop_ext _ _ _ _ _ _ r h).trans hE
        have hat : ∀ (i : Nat) (e : Expr A), (exps ++ [eMul (eExp num) (eAdd (eAdd (eExp p) (eMul (eMul eBeta (eNum k)) eX)) eGamma),
            eMul (eExp den) (connFactor p (eExp c))])[i]? = some e → E[i]? = some e := by
          intro i e he
          obtain ⟨m, hm⟩ := hpre
          rw [← hm, List.getElem?_append_left (List.getElem?_eq_some_iff.mp he).1]
          exact he
        have hn' : Val (fieldOps A) E σ (d + 1) false (eExp exps.length) (vn * (f + β * k * xv + γ)) :=
          v_exp rfl (hat _ _ (by simp; rfl)) (v_mul hn (v_add (v_add hp1 (v_mul (v_mul (v_chal hb) (v_num k)) (v_x hx))) (v_chal hg)))
        have hd' : Val (fieldOps A) E σ (d + 1) false (eExp (exps.length + 1)) (vd * (f + β * s + γ)) :=
          v_exp rfl (hat _ _ (by rw [List.getElem?_append_right (by omega)]; simp; rfl)) (v_mul hd (v_add (v_add hp1 (v_mul (v_chal hb) hc1)) (v_chal hg)))
        have := ih h hE (hp.imp fun _ _ h => Stark.val_depth h (Nat.le_succ d)) (hc.imp fun _ _ h => Stark.val_depth h (Nat.le_succ d)) hn' hd'
        have e : d + 1 + ps.length = d + (p :: ps).length := by simp; omega
        rw [e] at this
        simpa [List.zipWith_cons_cons, List.prod_cons, mul_assoc] using this

/-- label of the cell in column `j` and row `i`: `k^j * x_i` -/
def label (emb : GL.F → A) (x : Nat → A) (j i : Nat) : A := emb (Roots.kMul ^ j) * x i

/-- the products of a connection on one row -/
theorem conn_values {emb : GL.F → A} (hemb : emb 1 = 1) {l1 : Option Nat} {st st' : PilSt A} {a : Args} {cx : ArgCtx}
    (hgen : genArgs emb l1 st a = some (st', cx)) {n : Nat} {ci : ConnId} (hn : a.connections[n]? = some ci) {N : Nat}
    {cm fx : Nat → Nat → Option A} {pub : List A} {x : Nat → A} {u dv γ β : A} {rest : List A} {d : Nat} {fv sv : List (Nat → A)}
    (hf : List.Forall₂ (Col st'.exps N (rowStore N cm fx pub (u :: dv :: γ :: β :: rest) x) d) ci.pols fv)
    (hs : List.Forall₂ (Col st'.exps N (rowStore N cm fx pub (u :: dv :: γ :: β :: rest) x) d) ci.conns sv) :
    ∃ l c, l1 = some l ∧ cx.ci[n]? = some c ∧ c.z = st.nCm + 3 * a.plookups.length + a.permutations.length + n ∧
      st'.exps[c.c1]? = some (zStart l c.z) ∧ st'.exps[c.c2]? = some (zStep c.z c.num c.den) ∧ c.c1 ∈ st'.ids ∧ c.c2 ∈ st'.ids ∧ fv ≠ [] ∧ fv.length ≤ sv.length ∧
      ∀ i < N, Val (fieldOps A) st'.exps (rowStore N cm fx pub (u :: dv :: γ :: β :: rest) x i) (d + ci.pols.length) false (eExp c.num)
          ((List.range fv.length).map fun j => (tuple fv i).getD j 0 + β * label emb x j i + γ).prod ∧
        Val (fieldOps A) st'.exps (rowStore N cm fx pub (u :: dv :: γ :: β :: rest) x i) (d + ci.pols.length) false (eExp c.den)
          ((List.range fv.length).map fun j => (tuple fv i).getD j 0 + β * (tuple sv i).getD j 0 + γ).prod := by
  obtain ⟨l, c, p, ps, q, qs, ks, exps, r, g1, g2, g3, hp, hq, hk, hr, hpre, g4, g5, g6, g7, g8, g9⟩ := genArgs_conn hgen hn
  rw [hp] at hf
  rw [hq] at hs
  cases hf with
  | @cons _ f _ fv hf1 hf =>
  cases hs with
  | @cons _ s _ sv hs1 hs =>
  have hkspos : 0 < ps.length := by
    rcases Nat.eq_zero_or_pos ps.length with h | h
    · rw [h] at hk; simp [Roots.getKs] at hk
    · exact h
  obtain ⟨ks', hks1, hks2, hks3⟩ := Roots.getKs_spec hkspos
  rw [hk] at hks1
  obtain rfl := Option.some.inj hks1
  have hlen : ∀ (ps cs : List Nat) (ks : List A) (exps : List (Expr A)) (num den : Nat) (r : List (Expr A) × Nat × Nat),
      connLoop exps num den ps cs ks = some r → ps.length ≤ cs.length := by
    intro ps
    induction ps with
    | nil => intros; simp
    | cons p ps ih =>
      intro cs ks exps num den r h
      cases cs with
      | nil => simp [connLoop] at h
      | cons c cs =>
        cases ks with
        | nil => simp [connLoop] at h
        | cons k ks => rw [connLoop] at h; simpa using ih _ _ _ _ _ _ h
  have hl1 := hlen _ _ _ _ _ _ _ hr
  have hfl := hf.length_eq
  have hsl := hs.length_eq
  refine ⟨l, c, g1, g2, g3, g6, g7, g8, g9, by simp, by simp; omega, fun i hi => ?_⟩
  have hpre2 := (connLoop_ext _ _ _ _ _ _ r hr).trans hpre
  have hat : ∀ (i : Nat) (e : Expr A), (exps ++ [connFactor p eX, connFactor p (eExp q)])[i]? = some e → st'.exps[i]? = some e := by
    intro i e he
    obtain ⟨m, hm⟩ := hpre2
    rw [← hm, List.getElem?_append_left (List.getElem?_eq_some_iff.mp he).1]
    exact he
  have hb : rowStore N cm fx pub (u :: dv :: γ :: β :: rest) x i .challenge 3 false = some β := rfl
  have hg : rowStore N cm fx pub (u :: dv :: γ :: β :: rest) x i .challenge 2 false = some γ := rfl
  have hx : rowStore N cm fx pub (u :: dv :: γ :: β :: rest) x i .x 0 false = some (x i) := rfl
  have hn0 : Val (fieldOps A) st'.exps (rowStore N cm fx pub (u :: dv :: γ :: β :: rest) x i) (d + 1) false (eExp exps.length) (f i + β * x i + γ) :=
    v_exp rfl (hat _ _ (by simp; rfl)) (v_add (v_add (hf1 i hi) (v_mul (v_chal hb) (v_x hx))) (v_chal hg))
  have hd0 : Val (fieldOps A) st'.exps (rowStore N cm fx pub (u :: dv :: γ :: β :: rest) x i) (d + 1) false (eExp (exps.length + 1)) (f i + β * s i + γ) :=
    v_exp rfl (hat _ _ (by rw [List.getElem?_append_right (by omega)]; simp; rfl)) (v_add (v_add (hf1 i hi) (v_mul (v_chal hb) (hs1 i hi))) (v_chal hg))
  have main := connLoop_val hb hg hx hr hpre ((forall₂_row hi hf).imp fun _ _ h => Stark.val_depth h (Nat.le_succ d))
    ((forall₂_row hi hs).imp fun _ _ h => Stark.val_depth h (Nat.le_succ d)) hn0 hd0
  have e : d + 1 + ps.length = d + ci.pols.length := by rw [hp]; simp; omega
  rw [e, ← g4, ← g5] at main
  have zip : ∀ (fs ks : List A) (g : A → A → A), fs.length ≤ ks.length →
      List.zipWith g fs ks = (List.range fs.length).map fun j => g (fs.getD j 0) (ks.getD j 0) := by
    intro fs ks g hle
    apply List.ext_getElem?
    intro j
    rw [List.getElem?_zipWith, List.getElem?_map]
    by_cases hj : j < fs.length
    · rw [List.getElem?_range hj, List.getElem?_eq_getElem hj, List.getElem?_eq_getElem (by omega : j < ks.length)]
      simp [List.getD_eq_getElem?_getD, List.getElem?_eq_getElem hj, List.getElem?_eq_getElem (by omega : j < ks.length)]
    · rw [List.getElem?_eq_none (by omega : fs.length ≤ j), List.getElem?_eq_none (by simp; omega : (List.range fs.length).length ≤ j)]
      simp
  rw [zip _ _ _ (by simp [tuple]; omega), zip _ _ _ (by simp [tuple]; omega)] at main
  have hlt : (tuple fv i).length = fv.length := by simp [tuple]
  rw [hlt] at main
  rw [List.length_cons, List.range_succ_eq_map, List.map_cons, List.map_cons, List.map_map, List.map_map, List.prod_cons, List.prod_cons]
  refine ⟨?_, ?_⟩
  · convert main.1 using 2
    · simp [tuple, label, hemb]
    · refine congrArg List.prod (List.map_congr_left fun j hj => ?_)
      have hj' : j < fv.length := by simpa using hj
      simp only [tuple, label, List.map_cons, Function.comp_apply, List.getD_cons_succ, Nat.succ_eq_add_one]
      have : (ks.map emb).getD j 0 = emb (Roots.kMul ^ (j + 1)) := by
        rw [List.getD_eq_getElem?_getD, List.getElem?_map, hks3 j (by omega)]
        rfl
      rw [this]
      ring
  · convert main.2 using 2 <;> rfl

variable [DecidableEq A]

/-- **Connection identities are sound.**  If the connection column of a cell holds the label of another cell and the two cells carry different
values, then for all `β`, `γ` outside small sets no choice of later columns satisfies all identities. -/
theorem connection_sound {emb : GL.F → A} (hemb : emb 1 = 1) {l1 : Option Nat} {st st' : PilSt A} {a : Args} {cx : ArgCtx}
    (hgen : genArgs emb l1 st a = some (st', cx)) {ci : ConnId} (hci : ci ∈ a.connections) {N : Nat} (hN : 0 < N)
    {c1 fx : Nat → Nat → Option A} {pub : List A} {x : Nat → A} {d : Nat} {fv sv : List (Nat → A)}
    (hf : List.Forall₂ (Col st.exps N (rowStore N (sections st.nCm st.nCm c1 (fun _ _ => none) fun _ _ => none) fx pub [] x) d) ci.pols fv)
    (hs : List.Forall₂ (Col st.exps N (rowStore N (sections st.nCm st.nCm c1 (fun _ _ => none) fun _ _ => none) fx pub [] x) d) ci.conns sv)
    (hl : ∀ l, l1 = some l → ∃ v, v ≠ 0 ∧ fx l 0 = some v)
    (hlab : ∀ j < fv.length, ∀ i < N, ∀ j' < fv.length, ∀ i' < N, label emb x j i = label emb x j' i' → j = j' ∧ i = i')
    (hno : ∃ j < fv.length, ∃ i < N, ∃ j' < fv.length, ∃ i' < N, (tuple sv i).getD j 0 = label emb x j' i' ∧
      (tuple fv i).getD j 0 ≠ (tuple fv i').getD j' 0) :
    ∃ B : Finset A, B.card ≤ (2 * (N * fv.length)) ^ 2 ∧ ∀ β ∉ B, ∃ G : Finset A, G.card ≤ N * fv.length ∧ ∀ γ ∉ G,
      ∀ (u dv : A) (rest : List A) (n2 : Nat) (c2 c3 : Nat → Nat → Option A),
        ¬ Holds st' N (sections st.nCm n2 c1 c2 c3) fx pub (u :: dv :: γ :: β :: rest) x := by
  obtain ⟨cells, hcells⟩ : ∃ cells : List (Nat × Nat), cells = (List.range N) ×ˢ (List.range fv.length) := ⟨_, rfl⟩
  have hlen : cells.length = N * fv.length := by rw [hcells, List.length_product]; simp
  have hmem : ∀ i j, (i, j) ∈ cells ↔ i < N ∧ j < fv.length := by intro i j; rw [hcells]; simp [List.mem_product]
  have hne : ((cells : Multiset (Nat × Nat)).map fun c => ((tuple fv c.1).getD c.2 0, label emb x c.2 c.1)) ≠
      (cells : Multiset (Nat × Nat)).map fun c => ((tuple fv c.1).getD c.2 0, (tuple sv c.1).getD c.2 0) := by
    intro h
    obtain ⟨j, hj, i, hi, j', hj', i', hi', h1, h2⟩ := hno
    have : ((tuple fv i).getD j 0, (tuple sv i).getD j 0) ∈
        ((cells : Multiset (Nat × Nat)).map fun c => ((tuple fv c.1).getD c.2 0, label emb x c.2 c.1)) := by
      rw [h]
      exact Multiset.mem_map_of_mem (fun c : Nat × Nat => ((tuple fv c.1).getD c.2 0, (tuple sv c.1).getD c.2 0))
        (Multiset.mem_coe.mpr ((hmem i j).mpr ⟨hi, hj⟩))
    obtain ⟨⟨i2, j2⟩, hc, he⟩ := Multiset.mem_map.mp this
    obtain ⟨e1, e2⟩ := Prod.mk.inj he
    obtain ⟨hi2, hj2⟩ := (hmem _ _).mp (Multiset.mem_coe.mp hc)
    rw [h1] at e2
    obtain ⟨rfl, rfl⟩ := hlab j2 hj2 i2 hi2 j' hj' i' hi' e2
    exact h2 e1.symm
  obtain ⟨B, hB, h⟩ := pairs_challenge (n := N * fv.length) (by simp [hlen]) (by simp [hlen]) hne
  refine ⟨B, hB, fun β hβ => ?_⟩
  obtain ⟨G, hG, h⟩ := h β hβ
  refine ⟨G, hG, fun γ hγ u dv rest n2 c2 c3 hol => hγ (h γ ?_)⟩
  obtain ⟨n, hn⟩ := List.getElem?_of_mem hci
  obtain ⟨more, hmore⟩ := (genArgs_ext hgen).1.1
  have hf' : List.Forall₂ (Col st'.exps N (rowStore N (sections st.nCm n2 c1 c2 c3) fx pub (u :: dv :: γ :: β :: rest) x) d) ci.pols fv := by
    rw [← hmore]; exact hf.imp fun _ _ => col_up
  have hs' : List.Forall₂ (Col st'.exps N (rowStore N (sections st.nCm n2 c1 c2 c3) fx pub (u :: dv :: γ :: β :: rest) x) d) ci.conns sv := by
    rw [← hmore]; exact hs.imp fun _ _ => col_up
  obtain ⟨l, c, g1, _, _, g4, g7, g8, g9, _, _, hv⟩ := conn_values hemb hgen hn hf' hs'
  have := args_product hN (hl l g1) g4 g7 (fun i hi => hol i hi _ g8) (fun i hi => hol i hi _ g9)
    (fun i hi v d' h => val_unique h (hv i hi).1) (fun i hi v d' h => val_unique h (hv i hi).2)
  have hprod : ∀ g : Nat × Nat → A, ((cells : Multiset (Nat × Nat)).map g).prod =
      ∏ i ∈ Finset.range N, ((List.range fv.length).map fun j => g (i, j)).prod := by
    intro g
    rw [hcells, Multiset.map_coe, Multiset.prod_coe]
    have : ∀ l : List Nat, ((l ×ˢ (List.range fv.length)).map g).prod = (l.map fun i => ((List.range fv.length).map fun j => g (i, j)).prod).prod := by
      intro l
      induction l with
      | nil => rfl
      | cons a l ih =>
        rw [List.product_cons, List.map_append, List.prod_append, ih, List.map_map, List.map_cons, List.prod_cons]
        rfl
    rw [this]
    rw [← List.prod_toFinset _ List.nodup_range, List.toFinset_range]
  rw [Multiset.map_map, Multiset.map_map, hprod, hprod]
  exact this
  
end Verif.Grand
