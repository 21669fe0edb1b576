import Verif.Map.Positions

/-!
# Columns of the expressions: `tmpexp_n`, `exp2pol`, `q_2ns`, `f_2ns` (C93)
-/
namespace Verif.Map
open Verif.Interp (Sec PolType Info)
open Verif.StarkInfo
open Verif.Stark (ColPos)
open Verif.Codegen (Expr)
open Verif.Grand (PCtx)

variable {E : Type} {i : In E} {fuel : Nat} {o : Out}

/-! ### Two polynomials of one section -/

theorem posAt_fit {pols : List PolType} {a : Nat} {x : PolType} (hx : pols[a]? = some x) (hd : x.dim ≤ 3) :
    (posAt pols a x).sectionPos + x.dim ≤ cnt x.section_ 1 pols + 2 * cnt x.section_ 2 pols + 3 * cnt x.section_ 3 pols ∨ x.dim = 0 := by
  have h := cnt_take_total x.section_ x.dim pols a x hx ⟨rfl, rfl⟩
  unfold posAt
  obtain ⟨sec, p, d⟩ := x
  dsimp only at h hd ⊢
  interval_cases d <;> simp [start] <;> omega

theorem posAt_disj {pols : List PolType} {a b : Nat} {x y : PolType} (hab : a < b) (hx : pols[a]? = some x) (hy : pols[b]? = some y)
    (hs : x.section_ = y.section_) (hdx : x.dim ≤ 3) (hdy : y.dim ≤ 3) :
    (posAt pols a x).sectionPos + x.dim ≤ (posAt pols b y).sectionPos ∨ (posAt pols b y).sectionPos + y.dim ≤ (posAt pols a x).sectionPos ∨
      x.dim = 0 ∨ y.dim = 0 := by
  have h1 := cnt_take_total x.section_ x.dim pols a x hx ⟨rfl, rfl⟩
  have h2 := cnt_take_total y.section_ y.dim pols b y hy ⟨rfl, rfl⟩
  by_cases he : x.dim = y.dim
  · have h3 := cnt_take_lt x.section_ x.dim pols a b x hab hx ⟨rfl, rfl⟩
    unfold posAt
    obtain ⟨sec, p, d⟩ := x
    obtain ⟨sec', p', d'⟩ := y
    dsimp only at *
    subst hs he
    interval_cases d <;> simp [start] <;> omega
  · unfold posAt
    obtain ⟨sec, p, d⟩ := x
    obtain ⟨sec', p', d'⟩ := y
    dsimp only at *
    subst hs
    interval_cases d <;> interval_cases d' <;> simp [start] at he ⊢ <;> omega

/-! ### `exp2pol` -/

/-- what is known of the temporaries and `exp2pol` -/
def EInv (i : In E) (s : St) : Prop :=
  ∀ id j, s.tmpexps.lookup id = some j → i.imExps id = false ∧ ∃ a, s.tmpexpN[j]? = some a ∧ s.exp2pol.lookup id = some a

theorem foldlM_inv {α β : Type} {f : β → α → Option β} {P : β → Prop} : ∀ (l : List α) (s s' : β), (∀ x ∈ l, ∀ s s', P s → f s x = some s' → P s') →
    P s → l.foldlM f s = some s' → P s'
  | [], s, s', _, h, hs => by
    simp only [List.foldlM_nil] at hs
    obtain rfl := Option.some.inj hs
    exact h
  | x :: l, s, s', hf, h, hs => by
    rw [List.foldlM_cons] at hs
    obtain ⟨s1, h1, h2⟩ := Option.bind_eq_some_iff.mp hs
    exact foldlM_inv l s1 s' (fun y hy => hf y (List.mem_cons_of_mem _ hy)) (hf x (by simp) s s1 h h1) h2

theorem EInv.cm {s s' : St} {a b : Sec} {dim slot : Nat} (h : EInv i s) (hs : addCm a b dim slot s = some s') : EInv i s' := by
  obtain ⟨-, -, e1, e2, e3, -⟩ := addCm_dims hs
  intro id j hj
  rw [e2] at hj
  rw [e3, e1]
  exact h id j hj

theorem EInv.tmp {s : St} (h : EInv i s) (id dim : Nat) : EInv i (addTmp i id dim s) := by
  unfold addTmp
  split_ifs with hc
  · intro id' j hj
    dsimp only at hj ⊢
    rw [lookup_cons_ite] at hj
    rw [lookup_cons_ite]
    split_ifs at hj ⊢ with he
    · obtain rfl := Option.some.inj hj
      subst he
      exact ⟨hc.1, s.pols.length, by simp, rfl⟩
    · obtain ⟨g1, a, g2, g3⟩ := h id' j hj
      exact ⟨g1, a, get_append g2, g3⟩
  · exact h

/-- the intermediate polynomials treated so far -/
def IInv (base : Nat) (done : List Nat) (s : St) : Prop :=
  s.cmN.length = base + done.length ∧ ∀ (n k : Nat), done[n]? = some k → ∃ a, s.cmN[base + n]? = some a ∧ s.exp2pol.lookup k = some a

theorem addCm_cmN {s s' : St} {a b : Sec} {dim slot : Nat} (hs : addCm a b dim slot s = some s') :
    s'.cmN = s.cmN ++ [s.pols.length] := by
  unfold addCm at hs
  split_ifs at hs
  obtain rfl := Option.some.inj hs
  rfl

theorem addTmp_cmN (id dim : Nat) (s : St) : (addTmp i id dim s).cmN = s.cmN := by
  unfold addTmp
  split_ifs <;> rfl

theorem ims_exp2pol (him : ∀ k ∈ i.imList, i.imExps k = true) : ∀ (ks : List Nat) (m base : Nat) (done : List Nat) (s s' : St), (∀ k ∈ ks, k ∈ i.imList) →
    (done ++ ks).Nodup → EInv i s → IInv base done s → (ks.zipIdx m).foldlM (im1 i fuel) s = some s' →
    EInv i s' ∧ IInv base (done ++ ks) s'
  | [], m, base, done, s, s', _, _, h, h', hs => by
    simp only [List.zipIdx_nil, List.foldlM_nil] at hs
    obtain rfl := Option.some.inj hs
    exact ⟨h, by simpa using h'⟩
  | k :: ks, m, base, done, s, s', hk, hnd, h, h', hs => by
    rw [List.zipIdx_cons, List.foldlM_cons] at hs
    obtain ⟨s1, h1, h2⟩ := Option.bind_eq_some_iff.mp hs
    have hnd' : (done ++ [k] ++ ks).Nodup := by simpa using hnd
    have key : EInv i s1 ∧ IInv base (done ++ [k]) s1 := by
      unfold im1 at h1
      dsimp only at h1
      obtain ⟨d, hd, h1⟩ := Option.bind_eq_some_iff.mp h1
      obtain ⟨s0, h0, h1⟩ := Option.map_eq_some_iff.mp h1
      obtain ⟨-, -, e1, e2, e3, -⟩ := addCm_dims h0
      have eN := addCm_cmN h0
      subst h1
      refine ⟨fun id j hj => ?_, ?_, fun n k' hn => ?_⟩
      · dsimp only at hj ⊢
        obtain ⟨g1, a, g2, g3⟩ := h.cm h0 id j hj
        refine ⟨g1, a, g2, ?_⟩
        rw [lookup_cons_ite, if_neg]
        · exact g3
        · rintro rfl
          rw [him _ (hk _ (by simp))] at g1
          cases g1
      · dsimp only
        rw [eN, List.length_append, h'.1]
        simp
        omega
      · dsimp only
        rw [eN]
        by_cases hlt : n < done.length
        · rw [List.getElem?_append_left hlt] at hn
          obtain ⟨a, g1, g2⟩ := h'.2 n k' hn
          refine ⟨a, get_append g1, ?_⟩
          rw [lookup_cons_ite, if_neg, e1]
          · exact g2
          · rintro rfl
            have := List.nodup_append.mp hnd
            exact this.2.2 _ (List.mem_of_getElem? hn) _ (by simp) rfl
        · have hn' : n = done.length := by
            have := lt_of_get hn
            simp at this
            omega
          subst hn'
          simp only [List.getElem?_concat_length, Option.some.injEq] at hn
          subst hn
          exact ⟨s.pols.length, by rw [← h'.1]; simp, by simp⟩
    obtain ⟨g1, g2⟩ := ims_exp2pol him ks (m + 1) base (done ++ [k]) s1 s' (fun x hx => hk x (List.mem_cons_of_mem _ hx)) hnd' key.1 key.2 h2
    exact ⟨g1, by simpa using g2⟩

/-- `exp2pol` at the end -/
theorem columns_exp2pol {r : St × Nat} (h : columns i fuel = some r) (hn2 : i.nCm2 = 2 * i.pu.length) (him : ∀ k ∈ i.imList, i.imExps k = true)
    (hnd : i.imList.Nodup) : EInv i r.1 ∧
      ∀ (n k : Nat), i.imList[n]? = some k → ∃ a, r.1.cmN[i.nCm1 + 2 * i.pu.length + (i.pu.length + i.pe.length + i.ci.length) + n]? = some a ∧
        r.1.exp2pol.lookup k = some a := by
  obtain ⟨ds0, es0, b1, b2, ff, -⟩ := columns_full (ok := fun _ _ => True) h hn2 (fun _ => trivial) (fun _ _ _ _ _ => ⟨trivial, trivial⟩)
  have hlenN : r.1.cmN.length = i.nCols := by rw [ff.inv.lenN, colList_length _ _ _ b1 b2]
  unfold columns at h
  obtain ⟨s1, h1, h⟩ := Option.bind_eq_some_iff.mp h
  obtain ⟨s2, h2, h⟩ := Option.bind_eq_some_iff.mp h
  obtain ⟨s3, h3, h⟩ := Option.bind_eq_some_iff.mp h
  obtain ⟨s4, h4, h⟩ := Option.bind_eq_some_iff.mp h
  obtain ⟨qDim, h5, h⟩ := Option.bind_eq_some_iff.mp h
  obtain ⟨s5, h6, h⟩ := Option.map_eq_some_iff.mp h
  subst h
  have e1 : EInv i s1 := by
    refine foldlM_inv _ _ _ (fun k _ s s' hs hk => hs.cm hk) ?_ h1
    intro id j hj
    simp at hj
  have e2 : EInv i s2 := by
    refine foldlM_inv _ _ _ (fun k _ s s' hs hk => ?_) e1 h2
    unfold lookup1 at hk
    obtain ⟨df, -, hk⟩ := Option.bind_eq_some_iff.mp hk
    obtain ⟨dt, -, hk⟩ := Option.bind_eq_some_iff.mp hk
    obtain ⟨sa, ha, hk⟩ := Option.bind_eq_some_iff.mp hk
    obtain ⟨sb, hb, hk⟩ := Option.map_eq_some_iff.mp hk
    subst hk
    exact (((hs.cm ha).cm hb).tmp _ _).tmp _ _
  have e3 : EInv i s3 := by
    refine foldlM_inv _ _ _ (fun k _ s s' hs hk => ?_) e2 h3
    unfold product1 at hk
    obtain ⟨sa, ha, hk⟩ := Option.map_eq_some_iff.mp hk
    subst hk
    exact ((hs.cm ha).tmp _ _).tmp _ _
  -- the number of columns before the intermediate polynomials
  have hl4 : s3.cmN.length = i.nCm1 + 2 * i.pu.length + (i.pu.length + i.pe.length + i.ci.length) := by
    have hc : ∀ (ks : List Nat) (m : Nat) (s s' : St), (ks.zipIdx m).foldlM (im1 i fuel) s = some s' → s'.cmN.length = s.cmN.length + ks.length := by
      intro ks
      induction ks with
      | nil =>
        intro m s s' hs
        simp only [List.zipIdx_nil, List.foldlM_nil] at hs
        obtain rfl := Option.some.inj hs
        simp
      | cons k ks ih =>
        intro m s s' hs
        rw [List.zipIdx_cons, List.foldlM_cons] at hs
        obtain ⟨s1, h1, h2⟩ := Option.bind_eq_some_iff.mp hs
        unfold im1 at h1
        obtain ⟨d, hd, h1⟩ := Option.bind_eq_some_iff.mp h1
        obtain ⟨s0, h0, h1⟩ := Option.map_eq_some_iff.mp h1
        have := ih _ _ _ h2
        rw [this, ← h1]
        dsimp only
        rw [addCm_cmN h0]
        simp
        omega
    have hq : ∀ (n : Nat) (s s' : St), (List.range n).foldlM (quot1 i qDim) s = some s' → s'.cmN.length = s.cmN.length + n := by
      intro n
      induction n with
      | zero =>
        intro s s' hs
        simp only [List.range_zero, List.foldlM_nil] at hs
        obtain rfl := Option.some.inj hs
        simp
      | succ n ih =>
        intro s s' hs
        rw [List.range_succ, List.foldlM_append] at hs
        obtain ⟨sa, ha, hs⟩ := Option.bind_eq_some_iff.mp hs
        simp only [List.foldlM_cons, List.foldlM_nil] at hs
        obtain ⟨sb, hb, hs'⟩ := Option.bind_eq_some_iff.mp hs
        obtain rfl := Option.some.inj hs'
        unfold quot1 at hb
        rw [addCm_cmN hb, List.length_append, ih _ _ ha]
        simp
        omega
    have q1 := hq _ _ _ h6
    have q2 := hc _ _ _ _ h4
    dsimp only at hlenN
    rw [In.nCols] at hlenN
    omega
  obtain ⟨e4, i4⟩ := ims_exp2pol him i.imList 0 _ [] s3 s4 (fun k hk => hk) (by simpa using hnd) e3 ⟨by simpa using hl4, by simp⟩ h4
  have e5 : EInv i s5 := foldlM_inv _ _ _ (fun k _ s s' hs hk => hs.cm hk) e4 h6
  have i5 : ∀ (n k : Nat), i.imList[n]? = some k → ∃ a,
      s5.cmN[i.nCm1 + 2 * i.pu.length + (i.pu.length + i.pe.length + i.ci.length) + n]? = some a ∧ s5.exp2pol.lookup k = some a := by
    refine foldlM_inv (P := fun s : St => ∀ (n k : Nat), i.imList[n]? = some k → ∃ a,
      s.cmN[i.nCm1 + 2 * i.pu.length + (i.pu.length + i.pe.length + i.ci.length) + n]? = some a ∧ s.exp2pol.lookup k = some a) _ _ _
      (fun k _ s s' hs hk => ?_) ?_ h6
    · intro n k' hn
      obtain ⟨a, g1, g2⟩ := hs n k' hn
      rw [addCm_cmN hk, (addCm_dims hk).2.2.1]
      exact ⟨a, get_append g1, g2⟩
    · intro n k hn
      simpa using i4.2 n k (by simpa using hn)
  exact ⟨e5, i5⟩

/-! ### Specification -/

/-- the expressions whose values the prover reads back: the two sides of the lookups, the numerators and the denominators -/
def In.argIds (i : In E) : List Nat :=
  (i.pu.flatMap fun c => [c.fExp, c.tExp]) ++ (i.pu ++ i.pe ++ i.ci).flatMap fun c => [c.num, c.den]

/-- where `get_pol(exp2pol[id])` reads: section, position in the row, cells -/
def Out.expPol (o : Out) (id : Nat) : Option PolType := (o.st.exp2pol.lookup id).bind fun a => o.lay.pols[a]?

/-- two polynomials of one section have no cell in common -/
def Apart (x y : PolType) : Prop := x.section_ = y.section_ → ∀ k, ¬ ((x.sectionPos ≤ k ∧ k < x.sectionPos + x.dim) ∧ (y.sectionPos ≤ k ∧ k < y.sectionPos + y.dim))

/-! ### Proofs -/

theorem mapSection_dims {pols : List PolType} {a : Nat} {x : PolType} (hx : pols[a]? = some x) (hs : x.section_ ∈ names) (hd : x.dim ≤ 3) :
    ∃ y, (mapSection pols).pols[a]? = some y ∧ y.section_ = x.section_ ∧ y.dim = x.dim ∧
      ((x.dim = 0 → x.sectionPos = 0) → y.sectionPos + y.dim ≤ (mapSection pols).n y.section_) := by
  refine ⟨_, mapSection_get pols a x hx hs, ?_, ?_, ?_⟩
  · unfold posAt; split_ifs <;> rfl
  · unfold posAt; split_ifs <;> rfl
  · intro h0
    have e1 : (posAt pols a x).section_ = x.section_ := by unfold posAt; split_ifs <;> rfl
    have e2 : (posAt pols a x).dim = x.dim := by unfold posAt; split_ifs <;> rfl
    rw [e1, e2, mapSection_width pols _ hs]
    rcases posAt_fit hx hd with h | h
    · exact h
    · have : (posAt pols a x).sectionPos = 0 := by
        unfold posAt
        rw [if_neg (by omega)]
        exact h0 h
      omega

theorem apart_of_ne {pols : List PolType} {a b : Nat} {x y x' y' : PolType} (hab : a ≠ b) (hx : pols[a]? = some x) (hy : pols[b]? = some y)
    (hsx : x.section_ ∈ names) (hsy : y.section_ ∈ names) (hdx : x.dim ≤ 3) (hdy : y.dim ≤ 3) (hx' : (mapSection pols).pols[a]? = some x')
    (hy' : (mapSection pols).pols[b]? = some y') : Apart x' y' := by
  rw [mapSection_get pols a x hx hsx] at hx'
  rw [mapSection_get pols b y hy hsy] at hy'
  obtain rfl := Option.some.inj hx'
  obtain rfl := Option.some.inj hy'
  have e1 : ∀ (k : Nat) (z : PolType), (posAt pols k z).section_ = z.section_ := by intro k z; unfold posAt; split_ifs <;> rfl
  have e2 : ∀ (k : Nat) (z : PolType), (posAt pols k z).dim = z.dim := by intro k z; unfold posAt; split_ifs <;> rfl
  intro hs k
  rw [e1, e1] at hs
  rw [e2, e2]
  rcases Nat.lt_or_gt_of_ne hab with h | h
  · have := posAt_disj h hx hy hs hdx hdy
    omega
  · have := posAt_disj h hy hx hs.symm hdy hdx
    omega

/-- **C93** the expressions of the arguments have columns of the trace domain, in the temporary section or, for an intermediate polynomial,
in its committed column; they lie inside the rows, and different expressions have columns without common cells -/
theorem map_exps (h : map i fuel = some o) (hn2 : i.nCm2 = 2 * i.pu.length) (him : ∀ k, i.imExps k = true ↔ k ∈ i.imList) (hnd : i.imList.Nodup) :
    (∀ id ∈ i.argIds, ∃ x, o.expPol id = some x ∧ (x.section_ = .tmpexp_n ∨ id ∈ i.imList) ∧ x.dim ≤ 3 ∧ x.sectionPos + x.dim ≤ o.lay.n x.section_) ∧
    (∀ (n k : Nat), i.imList[n]? = some k → ∃ c, o.base (i.nCm1 + 2 * i.pu.length + (i.pu.length + i.pe.length + i.ci.length) + n) = some c ∧
      o.expPol k = some ⟨.cm3_n, c.pos, c.dim⟩) ∧
    (∀ id id' x x', id ≠ id' → o.expPol id = some x → o.expPol id' = some x' → (id ∈ i.argIds ∨ id ∈ i.imList) → (id' ∈ i.argIds ∨ id' ∈ i.imList) →
      Apart x x') := by
  have hmap := h
  unfold map at h
  obtain ⟨r, hr, h⟩ := Option.map_eq_some_iff.mp h
  obtain ⟨hE, hIm⟩ := columns_exp2pol hr hn2 (fun k hk => (him k).mpr hk) hnd
  obtain ⟨ds, es, a1, a2, f, a3, a4, a5, c1, c2⟩ := columns_full (ok := fun _ d => d ≤ 3) hr hn2 (fun _ => le_refl 3) (fun ds c d _ hd => by
    obtain ⟨s, df, dt, hc, h1, h2, rfl⟩ := hd
    have := hc.dimOf_le h1
    have := hc.dimOf_le h2
    omega)
  have ho := h
  subst h
  obtain ⟨pols, hpols⟩ : ∃ pols, pols = r.1.pols ++ [(⟨.q_2ns, 0, r.2⟩ : PolType), ⟨.f_2ns, 0, 3⟩] := ⟨_, rfl⟩
  have hlay : ∀ id, Out.expPol ⟨{ r.1 with pols := pols }, r.2, r.1.pols.length, r.1.pols.length + 1, mapSection pols⟩ id =
      (r.1.exp2pol.lookup id).bind fun a => (mapSection pols).pols[a]? := fun id => rfl
  rw [← hpols] at ho ⊢
  -- the polynomial of an expression before `map_section`
  have hraw : ∀ id, (id ∈ i.argIds ∨ id ∈ i.imList) → ∃ a d, r.1.exp2pol.lookup id = some a ∧ d ≤ 3 ∧
      ((pols[a]? = some ⟨.tmpexp_n, 0, d⟩ ∧ ∃ j, r.1.tmpexps.lookup id = some j ∧ r.1.tmpexpN[j]? = some a) ∨
       (pols[a]? = some ⟨.cm3_n, 0, d⟩ ∧ ∃ n, i.imList[n]? = some id ∧
         r.1.cmN[i.nCm1 + 2 * i.pu.length + (i.pu.length + i.pe.length + i.ci.length) + n]? = some a)) := by
    intro id hid
    by_cases hm : id ∈ i.imList
    · obtain ⟨n, hn⟩ := List.mem_iff_getElem?.mp hm
      obtain ⟨a, g1, g2⟩ := hIm n id hn
      have hkc : i.nCm1 + 2 * i.pu.length + (i.pu.length + i.pe.length + i.ci.length) + n < (colList i ds es r.2).length := by
        rw [colList_length _ _ _ a1 a2, In.nCols]
        have := lt_of_get hn
        omega
      obtain ⟨⟨t, e⟩, hte⟩ : ∃ c, (colList i ds es r.2)[i.nCm1 + 2 * i.pu.length + (i.pu.length + i.pe.length + i.ci.length) + n]? = some c :=
        ⟨_, List.getElem?_eq_getElem hkc⟩
      have ht : t = 3 := by
        have := (colList_get a1 a2 hte).1
        rw [this, In.tree, if_neg (by omega), if_neg (by omega), if_pos (by have := lt_of_get hn; omega)]
      obtain ⟨a', b', k1, -, k3, -⟩ := f.inv.col _ t e hte
      rw [g1] at k1
      obtain rfl := Option.some.inj k1
      subst ht
      refine ⟨a, e, g2, full_dims_le f.cmd a1 a4 a2 a5 hte, .inr ⟨?_, n, hn, g1⟩⟩
      rw [hpols]
      exact get_append k3
    · have hcol : HasCol i r.1 id := by
        rcases hid with hid | hid
        · unfold In.argIds at hid
          rw [List.mem_append, List.mem_flatMap, List.mem_flatMap] at hid
          rcases hid with ⟨c, hc, hid⟩ | ⟨c, hc, hid⟩
          · simp only [List.mem_cons, List.not_mem_nil, or_false] at hid
            rcases hid with rfl | rfl
            · exact (c1 c hc).1
            · exact (c1 c hc).2
          · simp only [List.mem_cons, List.not_mem_nil, or_false] at hid
            rcases hid with rfl | rfl
            · exact (c2 c hc).1
            · exact (c2 c hc).2
        · exact absurd hid hm
      rcases hcol with hc | ⟨j, hj⟩
      · exact absurd ((him id).mp hc) hm
      · obtain ⟨-, a, g1, g2⟩ := hE id j hj
        obtain ⟨d, hd⟩ := f.inv.tmpPol j a g1
        have hd3 := f.tmps.dims id j a _ hj g1 hd
        refine ⟨a, d, g2, hd3, .inl ⟨?_, j, hj, g1⟩⟩
        rw [hpols]
        exact get_append hd
  have hnm : Sec.tmpexp_n ∈ names ∧ Sec.cm3_n ∈ names := by decide
  refine ⟨fun id hid => ?_, fun n k hn => ?_, fun id id' x x' hne hx hx' hid hid' => ?_⟩
  · obtain ⟨a, d, g1, g2, g3⟩ := hraw id (.inl hid)
    rw [hlay, g1, Option.bind_some]
    rcases g3 with ⟨g3, -⟩ | ⟨g3, n, hn, -⟩
    · obtain ⟨y, y1, y2, y3, y4⟩ := mapSection_dims g3 hnm.1 g2
      exact ⟨y, y1, .inl y2, by rw [y3]; exact g2, y4 fun _ => rfl⟩
    · obtain ⟨y, y1, y2, y3, y4⟩ := mapSection_dims g3 hnm.2 g2
      exact ⟨y, y1, .inr (List.mem_of_getElem? hn), by rw [y3]; exact g2, y4 fun _ => rfl⟩
  · obtain ⟨a, g1, g2⟩ := hIm n k hn
    obtain ⟨a', d, q1, q2, q3⟩ := hraw k (.inr (List.mem_of_getElem? hn))
    rw [g2] at q1
    obtain rfl := Option.some.inj q1
    rcases q3 with ⟨-, j, hj, -⟩ | ⟨g3, -⟩
    · have := (hE k j hj).1
      rw [(him k).mpr (List.mem_of_getElem? hn)] at this
      cases this
    · obtain ⟨y, y1, y2, y3, -⟩ := mapSection_dims g3 hnm.2 q2
      refine ⟨⟨3, y.sectionPos, y.dim⟩, ?_, ?_⟩
      · unfold Out.base
        dsimp only
        rw [g1, Option.bind_some, y1, Option.bind_some, y2]
        rfl
      · rw [hlay, g2, Option.bind_some, y1]
        obtain ⟨ys, yp, yd⟩ := y
        dsimp only at y2
        rw [y2]
  · obtain ⟨a, d, g1, g2, g3⟩ := hraw id hid
    obtain ⟨a', d', g1', g2', g3'⟩ := hraw id' hid'
    rw [hlay, g1, Option.bind_some] at hx
    rw [hlay, g1', Option.bind_some] at hx'
    rcases g3 with ⟨p1, j, j1, j2⟩ | ⟨p1, n, n1, n2⟩
    · rcases g3' with ⟨p1', j', j1', j2'⟩ | ⟨p1', n', n1', n2'⟩
      · refine apart_of_ne ?_ p1 p1' hnm.1 hnm.1 g2 g2' hx hx'
        rintro rfl
        have hjj : j = j' := by
          by_contra hne'
          rcases Nat.lt_or_gt_of_ne hne' with hl | hl
          · exact absurd (f.inv.tmpLt j j' a a hl j2 j2') (lt_irrefl _)
          · exact absurd (f.inv.tmpLt j' j a a hl j2' j2) (lt_irrefl _)
        subst hjj
        exact hne (f.inv.tmpInj id id' j j1 j1')
      · intro hs
        obtain ⟨y, y1, y2, -, -⟩ := mapSection_dims p1 hnm.1 g2
        obtain ⟨y', y1', y2', -, -⟩ := mapSection_dims p1' hnm.2 g2'
        rw [y1] at hx; rw [y1'] at hx'
        obtain rfl := Option.some.inj hx
        obtain rfl := Option.some.inj hx'
        rw [y2, y2'] at hs
        cases hs
    · rcases g3' with ⟨p1', j', j1', j2'⟩ | ⟨p1', n', n1', n2'⟩
      · intro hs
        obtain ⟨y, y1, y2, -, -⟩ := mapSection_dims p1 hnm.2 g2
        obtain ⟨y', y1', y2', -, -⟩ := mapSection_dims p1' hnm.1 g2'
        rw [y1] at hx; rw [y1'] at hx'
        obtain rfl := Option.some.inj hx
        obtain rfl := Option.some.inj hx'
        rw [y2, y2'] at hs
        cases hs
      · refine apart_of_ne ?_ p1 p1' hnm.2 hnm.2 g2 g2' hx hx'
        rintro rfl
        -- different committed columns are different polynomials
        have hnn : n = n' := by
          by_contra hne'
          have hb : ∀ n, i.imList[n]? = some id ∨ i.imList[n]? = some id' →
              i.nCm1 + 2 * i.pu.length + (i.pu.length + i.pe.length + i.ci.length) + n < (colList i ds es r.2).length := by
            intro n hn
            rw [colList_length _ _ _ a1 a2, In.nCols]
            rcases hn with hn | hn <;> (have := lt_of_get hn; omega)
          obtain ⟨⟨t, e⟩, ht⟩ : ∃ c, (colList i ds es r.2)[i.nCm1 + 2 * i.pu.length + (i.pu.length + i.pe.length + i.ci.length) + n]? = some c :=
            ⟨_, List.getElem?_eq_getElem (hb n (.inl n1))⟩
          obtain ⟨⟨t', e'⟩, ht'⟩ : ∃ c, (colList i ds es r.2)[i.nCm1 + 2 * i.pu.length + (i.pu.length + i.pe.length + i.ci.length) + n']? = some c :=
            ⟨_, List.getElem?_eq_getElem (hb n' (.inr n1'))⟩
          obtain ⟨b, -, k1, -, k3, -, k5, -⟩ := f.inv.col _ t e ht
          obtain ⟨b', -, k1', -, k3', -, k5', -⟩ := f.inv.col _ t' e' ht'
          rw [n2] at k1; rw [n2'] at k1'
          obtain rfl := Option.some.inj k1
          obtain rfl := Option.some.inj k1'
          rw [k3] at k3'
          have hp := Option.some.inj k3'
          have tt := f.inv.trees _ (List.mem_of_getElem? ht)
          have tt' := f.inv.trees _ (List.mem_of_getElem? ht')
          have et : t = t' := secN_inj tt.1 tt.2 tt'.1 tt'.2 (congrArg PolType.section_ hp)
          have ee : e = e' := congrArg PolType.dim hp
          subst et ee
          rw [k5] at k5'
          rcases Nat.lt_or_gt_of_ne hne' with hl | hl
          · have := cntC_take_lt (k' := i.nCm1 + 2 * i.pu.length + (i.pu.length + i.pe.length + i.ci.length) + n') (by omega) ht
            omega
          · have := cntC_take_lt (k' := i.nCm1 + 2 * i.pu.length + (i.pu.length + i.pe.length + i.ci.length) + n) (by omega) ht'
            omega
        subst hnn
        rw [n1] at n1'
        exact hne (Option.some.inj n1')

/-- **C93** the quotient and the FRI polynomial have sections of their own, as wide as their values -/
theorem map_q_f (h : map i fuel = some o) (hn2 : i.nCm2 = 2 * i.pu.length) (hq : o.qDim = 1 ∨ o.qDim = 2 ∨ o.qDim = 3) :
    o.lay.pols[o.q2ns]? = some ⟨.q_2ns, 0, o.qDim⟩ ∧ o.lay.pols[o.f2ns]? = some ⟨.f_2ns, 0, 3⟩ ∧ o.lay.n .q_2ns = o.qDim ∧ o.lay.n .f_2ns = 3 := by
  unfold map at h
  obtain ⟨r, hr, h⟩ := Option.map_eq_some_iff.mp h
  obtain ⟨ds, es, a1, a2, f, -⟩ := columns_full (ok := fun _ _ => True) hr hn2 (fun _ => trivial) (fun _ _ _ _ _ => ⟨trivial, trivial⟩)
  subst h
  dsimp only at hq ⊢
  have hz : ∀ (s : Sec) (e : Nat), (s = .q_2ns ∨ s = .f_2ns) → cnt s e r.1.pols = 0 := by
    intro s e hs
    unfold cnt
    rw [List.countP_eq_zero]
    intro x hx hc
    have := f.inv.secs x hx
    simp only [isPol, decide_eq_true_eq] at hc
    rcases hs with rfl | rfl
    · exact this.2.1 hc.1
    · exact this.2.2 hc.1
  have hsplit : ∀ (s : Sec) (e : Nat), (s = .q_2ns ∨ s = .f_2ns) → cnt s e (r.1.pols ++ [(⟨.q_2ns, 0, r.2⟩ : PolType), ⟨.f_2ns, 0, 3⟩]) =
      (if Sec.q_2ns = s ∧ r.2 = e then 1 else 0) + (if Sec.f_2ns = s ∧ 3 = e then 1 else 0) := by
    intro s e hs
    rw [show r.1.pols ++ [(⟨.q_2ns, 0, r.2⟩ : PolType), ⟨.f_2ns, 0, 3⟩] = r.1.pols ++ ([⟨.q_2ns, 0, r.2⟩] ++ [⟨.f_2ns, 0, 3⟩]) from rfl, cnt_append, cnt_append,
      hz s e hs, cnt_one, cnt_one, Nat.zero_add]
  have hnm : Sec.q_2ns ∈ names ∧ Sec.f_2ns ∈ names := by decide
  have hne : Sec.f_2ns ≠ Sec.q_2ns := by decide
  have hne' : Sec.q_2ns ≠ Sec.f_2ns := by decide
  refine ⟨?_, ?_, ?_, ?_⟩
  · rw [mapSection_get _ r.1.pols.length ⟨.q_2ns, 0, r.2⟩ (by simp) hnm.1]
    unfold posAt
    dsimp only
    rw [take_append (le_refl _), List.take_length, hz _ _ (.inl rfl)]
    unfold start
    have w1 := hsplit .q_2ns 1 (.inl rfl)
    have w2 := hsplit .q_2ns 2 (.inl rfl)
    generalize r.1.pols ++ [(⟨.q_2ns, 0, r.2⟩ : PolType), ⟨.f_2ns, 0, 3⟩] = L at w1 w2
    rcases hq with hq | hq | hq <;> simp [hq, hne] at w1 w2 <;> simp [hq, w1, w2]
  · rw [mapSection_get _ (r.1.pols.length + 1) ⟨.f_2ns, 0, 3⟩ (by simp) hnm.2]
    unfold posAt
    dsimp only
    rw [List.take_append, List.take_of_length_le (by omega), Nat.add_sub_cancel_left, cnt_append, hz _ _ (.inr rfl),
      show [(⟨.q_2ns, 0, r.2⟩ : PolType), ⟨.f_2ns, 0, 3⟩].take 1 = [⟨.q_2ns, 0, r.2⟩] from rfl, cnt_one]
    unfold start
    simp [hsplit, hne']
  · rw [mapSection_width _ _ hnm.1]
    have w1 := hsplit .q_2ns 1 (.inl rfl)
    have w2 := hsplit .q_2ns 2 (.inl rfl)
    have w3 := hsplit .q_2ns 3 (.inl rfl)
    generalize r.1.pols ++ [(⟨.q_2ns, 0, r.2⟩ : PolType), ⟨.f_2ns, 0, 3⟩] = L at w1 w2 w3
    rcases hq with hq | hq | hq <;> simp [hq, hne] at w1 w2 w3 <;> simp [hq, w1, w2, w3]
  · rw [mapSection_width _ _ hnm.2]
    simp [hsplit, hne']

end Verif.Map
