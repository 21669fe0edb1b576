import Verif.Map.Layout

/-!
# Running `map`: the columns of every round
-/
namespace Verif.Map
open Verif.Interp (Sec PolType Info)
open Verif.StarkInfo
open Verif.Codegen (Expr)
open Verif.Grand (PCtx)

variable {E : Type} {i : In E} {fuel : Nat}

/-- number of slots of `pil.cm_dims` -/
def In.total (i : In E) : Nat := i.nCm1 + i.nCm2 + i.nCm3 + i.nCm4

/-- what is known of `pil.cm_dims`: the first round has dimension 1, the lookups treated so far have the dimensions `ds` -/
structure CmD (i : In E) (ds : List Nat) (s : St) : Prop where
  len : s.cmDims.length = i.total
  first : ∀ k < i.nCm1, s.cmDims[k]? = some 1
  pair : ∀ (n d : Nat), ds[n]? = some d → s.cmDims[i.nCm1 + 2 * n]? = some d ∧ s.cmDims[i.nCm1 + 2 * n + 1]? = some d
  le : ∀ d ∈ s.cmDims, d ≤ 3

theorem addCm_dims {a b : Sec} {dim slot : Nat} {s s' : St} (h : addCm a b dim slot s = some s') :
    slot < s.cmDims.length ∧ s'.cmDims = s.cmDims.set slot dim ∧ s'.exp2pol = s.exp2pol ∧ s'.tmpexps = s.tmpexps ∧ s'.tmpexpN = s.tmpexpN ∧
      s'.pols = s.pols ++ [⟨a, 0, dim⟩, ⟨b, 0, dim⟩] := by
  unfold addCm at h
  split_ifs at h with hlt
  obtain rfl := Option.some.inj h
  exact ⟨hlt, rfl, rfl, rfl, rfl, rfl⟩

theorem addTmp_dims (i : In E) (id dim : Nat) (s : St) : (addTmp i id dim s).cmDims = s.cmDims := by
  unfold addTmp
  split_ifs <;> rfl

theorem maxDim_le {rec : Expr E → Option Nat} (hr : ∀ e d, rec e = some d → d ≤ 3) : ∀ (vs : List (Expr E)) (md d : Nat), md ≤ 3 →
    Stark.maxDim rec vs md = some d → d ≤ 3
  | [], md, d, hm, h => by
    simp only [Stark.maxDim, Option.some.injEq] at h
    omega
  | v :: vs, md, d, hm, h => by
    rw [Stark.maxDim] at h
    obtain ⟨x, h1, h2⟩ := Option.bind_eq_some_iff.mp h
    have := hr v x h1
    exact maxDim_le hr vs _ d (by split_ifs <;> omega) h2

theorem expDim_le {exps : List (Expr E)} {D : Nat → Option Nat} (hD : ∀ k d, D k = some d → d ≤ 3) : ∀ (n : Nat) (e : Expr E) (d : Nat),
    Stark.expDim exps D n e = some d → d ≤ 3
  | 0, e, d, h => by simp [Stark.expDim] at h
  | n + 1, .node l vs, d, h => by
    rw [Stark.expDim] at h
    split at h
    all_goals first
      | cases h; done
      | exact maxDim_le (fun e d => expDim_le hD n e d) vs 1 d (by omega) h
      | (simp only [Option.some.injEq] at h; omega)
      | (obtain ⟨k, -, h⟩ := Option.bind_eq_some_iff.mp h; exact hD k d h)
      | (obtain ⟨k, -, h⟩ := Option.bind_eq_some_iff.mp h
         obtain ⟨e, -, h⟩ := Option.bind_eq_some_iff.mp h
         exact expDim_le hD n e d h)
      | (simp at h)

theorem CmD.dimOf_le {ds : List Nat} {s : St} (h : CmD i ds s) {id d : Nat} (hd : dimOf i fuel s id = some d) : d ≤ 3 := by
  unfold dimOf at hd
  obtain ⟨e, -, hd⟩ := Option.bind_eq_some_iff.mp hd
  exact expDim_le (fun k x hx => h.le x (List.mem_of_getElem? hx)) _ _ _ hd

theorem CmD.set {ds : List Nat} {s s' : St} (h : CmD i ds s) {slot dim : Nat} (hd : dim ≤ 3) (hslot : i.nCm1 + 2 * ds.length ≤ slot)
    (he : s'.cmDims = s.cmDims.set slot dim) : CmD i ds s' := by
  refine ⟨by rw [he]; simp [h.len], fun k hk => ?_, fun n d hn => ?_, fun d hd' => ?_⟩
  · rw [he, List.getElem?_set_ne (by omega)]; exact h.first k hk
  · have := lt_of_get hn
    rw [he, List.getElem?_set_ne (by omega), List.getElem?_set_ne (by omega)]; exact h.pair n d hn
  · rw [he] at hd'
    rcases List.mem_or_eq_of_mem_set hd' with h' | rfl
    · exact h.le d h'
    · exact hd

theorem CmD.congr {ds : List Nat} {s s' : St} (h : CmD i ds s) (he : s'.cmDims = s.cmDims) : CmD i ds s' :=
  ⟨by rw [he]; exact h.len, by rw [he]; exact h.first, by rw [he]; exact h.pair, by rw [he]; exact h.le⟩

/-- the temporaries: the expressions that have a column, and the dimension of that column -/
structure Tmps (i : In E) (ok : Nat → Nat → Prop) (s : St) : Prop where
  dims : ∀ (id j a : Nat) (x : PolType), s.tmpexps.lookup id = some j → s.tmpexpN[j]? = some a → s.pols[a]? = some x → ok id x.dim

theorem Tmps.cm {cols : List (Nat × Nat)} {ok : Nat → Nat → Prop} {s s' : St} (hI : Inv i cols s) (h : Tmps i ok s) {a b : Sec} {dim slot : Nat}
    (hs : addCm a b dim slot s = some s') : Tmps i ok s' := by
  obtain ⟨-, -, -, e1, e2, e3⟩ := addCm_dims hs
  refine ⟨fun id j p x h1 h2 h3 => ?_⟩
  rw [e1] at h1; rw [e2] at h2; rw [e3] at h3
  obtain ⟨d, hd⟩ := hI.tmpPol j p h2
  refine h.dims id j p x h1 h2 ?_
  rwa [List.getElem?_append_left (lt_of_get hd)] at h3

theorem Tmps.tmp {cols : List (Nat × Nat)} {ok : Nat → Nat → Prop} {s : St} (hI : Inv i cols s) (h : Tmps i ok s) {id dim : Nat}
    (hok : ok id dim) : Tmps i ok (addTmp i id dim s) ∧ (i.imExps id = true ∨ ∃ j, (addTmp i id dim s).tmpexps.lookup id = some j) := by
  unfold addTmp
  split_ifs with hc
  · refine ⟨⟨fun id' j p x h1 h2 h3 => ?_⟩, .inr ⟨s.tmpexpN.length, by simp⟩⟩
    dsimp only at h1 h2 h3
    rw [lookup_cons_ite] at h1
    split_ifs at h1 with he
    · obtain rfl := Option.some.inj h1
      simp only [List.getElem?_concat_length, Option.some.injEq] at h2
      subst h2 he
      simp only [List.getElem?_concat_length, Option.some.injEq] at h3
      subst h3
      exact hok
    · obtain ⟨-, a, ha⟩ := hI.tmpId id' j h1
      rw [List.getElem?_append_left (lt_of_get ha)] at h2
      obtain ⟨d, hd⟩ := hI.tmpPol j p h2
      rw [List.getElem?_append_left (lt_of_get hd)] at h3
      exact h.dims id' j p x h1 h2 h3
  · refine ⟨h, ?_⟩
    by_cases h1 : i.imExps id = true
    · exact .inl h1
    · right
      cases h2 : s.tmpexps.lookup id with
      | none => exact absurd ⟨by simpa using h1, h2⟩ hc
      | some j => exact ⟨j, rfl⟩

theorem addTmp_mono (i : In E) (id dim : Nat) (s : St) {id' j : Nat} (h : s.tmpexps.lookup id' = some j) :
    (addTmp i id dim s).tmpexps.lookup id' = some j := by
  unfold addTmp
  split_ifs with hc
  · rw [lookup_cons_ite, if_neg]
    · exact h
    · rintro rfl
      rw [hc.2] at h
      cases h
  · exact h

/-- everything that is known -/
structure Full (i : In E) (ok : Nat → Nat → Prop) (cols : List (Nat × Nat)) (ds : List Nat) (s : St) : Prop where
  inv : Inv i cols s
  cmd : CmD i ds s
  tmps : Tmps i ok s

variable {ok : Nat → Nat → Prop} {cols : List (Nat × Nat)} {ds : List Nat} {s s' : St}

theorem Full.cm (h : Full i ok cols ds s) {t : Nat} (h1 : 1 ≤ t) (h2 : t ≤ 4) {dim slot : Nat} (hd : dim ≤ 3)
    (hslot : i.nCm1 + 2 * ds.length ≤ slot) (hs : addCm (secN t) (sec2 t) dim slot s = some s') :
    Full i ok (cols ++ [(t, dim)]) ds s' ∧ s'.tmpexps = s.tmpexps :=
  ⟨⟨(inv_cm h.inv h1 h2 hs).1, h.cmd.set hd hslot (addCm_dims hs).2.1, h.tmps.cm h.inv hs⟩, (inv_cm h.inv h1 h2 hs).2.1⟩

theorem Full.tmp (h : Full i ok cols ds s) {id dim : Nat} (hok : ok id dim) : Full i ok cols ds (addTmp i id dim s) :=
  ⟨inv_tmp h.inv id dim, h.cmd.congr (addTmp_dims i id dim s), (h.tmps.tmp h.inv hok).1⟩

/-! ### The rounds -/

theorem stage1_spec (hs : stage1 i { cmDims := List.replicate i.total 0 } = some s) :
    Full i ok (List.replicate i.nCm1 (1, 1)) [] s := by
  unfold stage1 at hs
  have main : ∀ (n : Nat) (s : St), (List.range n).foldlM (fun s k => addCm .cm1_n .cm1_2ns 1 k s) { cmDims := List.replicate i.total 0 } = some s →
      Inv i (List.replicate n (1, 1)) s ∧ Tmps i ok s ∧ s.cmDims.length = i.total ∧ (∀ k < n, s.cmDims[k]? = some 1) ∧ ∀ d ∈ s.cmDims, d ≤ 3 := by
    intro n
    induction n with
    | zero =>
      intro s h
      simp only [List.range_zero, List.foldlM_nil] at h
      obtain rfl := Option.some.inj h
      refine ⟨inv_empty i _, ⟨fun id j a x h => by simp at h⟩, by simp, by simp, fun d hd => ?_⟩
      have := List.eq_of_mem_replicate hd
      omega
    | succ n ih =>
      intro s h
      rw [List.range_succ, List.foldlM_append] at h
      obtain ⟨s1, h1, h2⟩ := Option.bind_eq_some_iff.mp h
      simp only [List.foldlM_cons, List.foldlM_nil] at h2
      obtain ⟨s2, h2', h3⟩ := Option.bind_eq_some_iff.mp h2
      obtain rfl := Option.some.inj h3
      obtain ⟨g1, g2, g3, g4, g5⟩ := ih s1 h1
      obtain ⟨hlt, he, -⟩ := addCm_dims h2'
      refine ⟨?_, g2.cm g1 h2', by rw [he]; simp [g3], fun k hk => ?_, fun d hd => ?_⟩
      · rw [List.replicate_succ']
        exact (inv_cm g1 (t := 1) (by omega) (by omega) h2').1
      · rw [he]
        by_cases hkn : k = n
        · subst hkn
          rw [List.getElem?_set_self hlt]
        · rw [List.getElem?_set_ne (by omega)]
          exact g4 k (by omega)
      · rw [he] at hd
        rcases List.mem_or_eq_of_mem_set hd with h' | rfl
        · exact g5 d h'
        · omega
  obtain ⟨g1, g2, g3, g4, g5⟩ := main _ _ hs
  exact ⟨g1, ⟨g3, g4, by simp, g5⟩, g2⟩

/-- the dimension of a lookup as `map` computes it, at some moment when the earlier lookups `ds` have been treated -/
def PairDim (i : In E) (fuel : Nat) (ds : List Nat) (c : PCtx) (d : Nat) : Prop :=
  ∃ s df dt, CmD i ds s ∧ dimOf i fuel s c.fExp = some df ∧ dimOf i fuel s c.tExp = some dt ∧ d = max df dt

/-- the dimension of an intermediate polynomial as `map` computes it, at some moment after the lookups -/
def ImDim (i : In E) (fuel : Nat) (ds : List Nat) (k d : Nat) : Prop := ∃ s, CmD i ds s ∧ dimOf i fuel s k = some d

/-- a temporary expression has a column or is an intermediate polynomial -/
def HasCol (i : In E) (s : St) (id : Nat) : Prop := i.imExps id = true ∨ ∃ j, s.tmpexps.lookup id = some j

/-- temporaries stay -/
def Keeps (s s' : St) : Prop := ∀ id j, s.tmpexps.lookup id = some j → s'.tmpexps.lookup id = some j

theorem HasCol.keep {id : Nat} (h : HasCol i s id) (hk : Keeps s s') : HasCol i s' id :=
  h.imp (fun x => x) fun ⟨j, hj⟩ => ⟨j, hk _ _ hj⟩

theorem Full.mono {ok' : Nat → Nat → Prop} (h : Full i ok cols ds s) (hok : ∀ id d, ok id d → ok' id d) : Full i ok' cols ds s :=
  ⟨h.inv, h.cmd, ⟨fun id j a x h1 h2 h3 => hok _ _ (h.tmps.dims id j a x h1 h2 h3)⟩⟩

theorem lookup1_spec (h' : Full i ok cols ds s) {c : PCtx} (hs : lookup1 i fuel s (c, ds.length) = some s') :
    ∃ d, PairDim i fuel ds c d ∧ Full i (fun id e => ok id e ∨ (e = d ∧ (id = c.fExp ∨ id = c.tExp))) (cols ++ [(2, d), (2, d)]) (ds ++ [d]) s' ∧ Keeps s s' ∧
      HasCol i s' c.fExp ∧ HasCol i s' c.tExp := by
  unfold lookup1 at hs
  dsimp only at hs
  obtain ⟨df, hf, hs⟩ := Option.bind_eq_some_iff.mp hs
  obtain ⟨dt, ht, hs⟩ := Option.bind_eq_some_iff.mp hs
  obtain ⟨s1, h1, hs⟩ := Option.bind_eq_some_iff.mp hs
  obtain ⟨s2, h2, hs⟩ := Option.map_eq_some_iff.mp hs
  obtain ⟨ok', hok'⟩ : ∃ ok' : Nat → Nat → Prop, ok' = fun id e => ok id e ∨ (e = max df dt ∧ (id = c.fExp ∨ id = c.tExp)) := ⟨_, rfl⟩
  have hok : ok' c.fExp (max df dt) ∧ ok' c.tExp (max df dt) := by rw [hok']; exact ⟨.inr ⟨rfl, .inl rfl⟩, .inr ⟨rfl, .inr rfl⟩⟩
  have h : Full i ok' cols ds s := h'.mono fun id d hd => by rw [hok']; exact .inl hd
  have hd : max df dt ≤ 3 := Nat.max_le.mpr ⟨h.cmd.dimOf_le hf, h.cmd.dimOf_le ht⟩
  have hp : PairDim i fuel ds c (max df dt) := ⟨s, df, dt, h.cmd, hf, ht, rfl⟩
  obtain ⟨f1, e1⟩ := h.cm (t := 2) (by omega) (by omega) hd (by omega) h1
  obtain ⟨f2, e2⟩ := f1.cm (t := 2) (by omega) (by omega) hd (by omega) h2
  have hl : ds.length * 2 = 2 * ds.length := by omega
  obtain ⟨l1, d1, -⟩ := addCm_dims h1
  obtain ⟨l2, d2, -⟩ := addCm_dims h2
  have f3 : Full i ok' (cols ++ [(2, max df dt), (2, max df dt)]) (ds ++ [max df dt]) s2 := by
    refine ⟨by simpa using f2.inv, ⟨f2.cmd.len, f2.cmd.first, fun n d hn => ?_, f2.cmd.le⟩, f2.tmps⟩
    by_cases hlt : n < ds.length
    · rw [List.getElem?_append_left hlt] at hn
      exact f2.cmd.pair n d hn
    · have hn' : n = ds.length := by
        have := lt_of_get hn
        simp at this
        omega
      subst hn'
      simp only [List.getElem?_concat_length, Option.some.injEq] at hn
      subst hn
      rw [d2, d1, ← hl]
      rw [d1] at l2
      constructor
      · rw [List.getElem?_set_ne (by omega), List.getElem?_set_self l1]
      · rw [List.getElem?_set_self l2]
  subst hs
  have f4 := f3.tmp hok.1
  refine ⟨_, hp, hok' ▸ f4.tmp hok.2, ?_, ?_, ?_⟩
  · intro id j hj
    refine addTmp_mono _ _ _ _ (addTmp_mono _ _ _ _ ?_)
    rw [e2, e1]
    exact hj
  · exact HasCol.keep (f3.tmps.tmp f3.inv hok.1).2 fun id j hj => addTmp_mono _ _ _ _ hj
  · exact (f4.tmps.tmp f4.inv hok.2).2

/-- `id` is an argument of the lookup whose columns have dimension `d` -/
def PairTmp (pu : List PCtx) (ds : List Nat) (id d : Nat) : Prop :=
  ∃ (n : Nat) (c : PCtx), pu[n]? = some c ∧ ds[n]? = some d ∧ (id = c.fExp ∨ id = c.tExp)

theorem lookups_spec : ∀ (pu : List PCtx) (ok : Nat → Nat → Prop) (cols : List (Nat × Nat)) (ds : List Nat) (s s' : St), Full i ok cols ds s →
    (pu.zipIdx ds.length).foldlM (lookup1 i fuel) s = some s' →
    ∃ es : List Nat, es.length = pu.length ∧ Full i (fun id d => ok id d ∨ PairTmp pu es id d) (cols ++ es.flatMap fun d => [(2, d), (2, d)]) (ds ++ es) s' ∧
      (∀ (n : Nat) (c : PCtx) (d : Nat), pu[n]? = some c → es[n]? = some d → PairDim i fuel (ds ++ es.take n) c d) ∧
      Keeps s s' ∧ ∀ c ∈ pu, HasCol i s' c.fExp ∧ HasCol i s' c.tExp
  | [], ok, cols, ds, s, s', h, hs => by
    simp only [List.zipIdx_nil, List.foldlM_nil] at hs
    obtain rfl := Option.some.inj hs
    exact ⟨[], rfl, by simpa using h.mono fun _ _ h => .inl h, by simp, fun _ _ h => h, by simp⟩
  | c :: pu, ok, cols, ds, s, s', h, hs => by
    rw [List.zipIdx_cons, List.foldlM_cons] at hs
    obtain ⟨s1, h1, h2⟩ := Option.bind_eq_some_iff.mp hs
    obtain ⟨d, p1, f1, k1, c1, c2⟩ := lookup1_spec h h1
    have hlen : ds.length + 1 = (ds ++ [d]).length := by simp
    rw [hlen] at h2
    obtain ⟨es, e1, e2, e3, e4, e5⟩ := lookups_spec pu _ _ _ s1 s' f1 h2
    have hmono : ∀ id x, ((ok id x ∨ (x = d ∧ (id = c.fExp ∨ id = c.tExp))) ∨ PairTmp pu es id x) → ok id x ∨ PairTmp (c :: pu) (d :: es) id x := by
      rintro id x ((h | ⟨rfl, h⟩) | ⟨n, c', g1, g2, g3⟩)
      · exact .inl h
      · exact .inr ⟨0, c, rfl, rfl, h⟩
      · exact .inr ⟨n + 1, c', by simpa using g1, by simpa using g2, g3⟩
    refine ⟨d :: es, by simp [e1], by simpa using e2.mono hmono, ?_, fun id j hj => e4 _ _ (k1 _ _ hj), ?_⟩
    · intro n c' d' hn hd
      cases n with
      | zero =>
        simp only [List.getElem?_cons_zero, Option.some.injEq] at hn hd
        subst hn hd
        simpa using p1
      | succ n =>
        have := e3 n c' d' (by simpa using hn) (by simpa using hd)
        simpa using this
    · intro c' hc'
      rcases List.mem_cons.mp hc' with rfl | hc'
      · exact ⟨c1.keep e4, c2.keep e4⟩
      · exact e5 c' hc'

theorem products_spec (h2 : i.nCm2 = 2 * ds.length) : ∀ (zs : List PCtx) (m : Nat) (cols : List (Nat × Nat)) (s s' : St),
    (∀ c ∈ zs, ok c.num 3 ∧ ok c.den 3) → Full i ok cols ds s → (zs.zipIdx m).foldlM (product1 i) s = some s' →
    Full i ok (cols ++ List.replicate zs.length (3, 3)) ds s' ∧ Keeps s s' ∧ ∀ c ∈ zs, HasCol i s' c.num ∧ HasCol i s' c.den
  | [], m, cols, s, s', _, h, hs => by
    simp only [List.zipIdx_nil, List.foldlM_nil] at hs
    obtain rfl := Option.some.inj hs
    exact ⟨by simpa using h, fun _ _ h => h, by simp⟩
  | c :: zs, m, cols, s, s', hok, h, hs => by
    rw [List.zipIdx_cons, List.foldlM_cons] at hs
    obtain ⟨s1, h1, hs⟩ := Option.bind_eq_some_iff.mp hs
    unfold product1 at h1
    obtain ⟨s0, h0, h1⟩ := Option.map_eq_some_iff.mp h1
    obtain ⟨f1, e1⟩ := h.cm (t := 3) (by omega) (by omega) (le_refl 3) (by omega) h0
    have f2 := f1.tmp (hok c (by simp)).1
    have f3 := f2.tmp (hok c (by simp)).2
    subst h1
    obtain ⟨g1, g2, g3⟩ := products_spec h2 zs (m + 1) _ _ s' (fun c' hc' => hok c' (by simp [hc'])) f3 hs
    refine ⟨?_, ?_, ?_⟩
    · rw [List.length_cons, List.replicate_succ]
      simpa using g1
    · intro id j hj
      refine g2 _ _ (addTmp_mono _ _ _ _ (addTmp_mono _ _ _ _ ?_))
      rw [e1]; exact hj
    · intro c' hc'
      rcases List.mem_cons.mp hc' with rfl | hc'
      · exact ⟨HasCol.keep (HasCol.keep (f1.tmps.tmp f1.inv (hok c' (by simp)).1).2 fun id j hj => addTmp_mono _ _ _ _ hj) g2,
          HasCol.keep (f2.tmps.tmp f2.inv (hok c' (by simp)).2).2 g2⟩
      · exact g3 c' hc'

theorem ims_spec (h2 : i.nCm2 = 2 * ds.length) : ∀ (ks : List Nat) (m : Nat) (cols : List (Nat × Nat)) (s s' : St), Full i ok cols ds s →
    (ks.zipIdx m).foldlM (im1 i fuel) s = some s' →
    ∃ es : List Nat, es.length = ks.length ∧ Full i ok (cols ++ es.map fun d => (3, d)) ds s' ∧
      (∀ (n k d : Nat), ks[n]? = some k → es[n]? = some d → ImDim i fuel ds k d) ∧ Keeps s s'
  | [], m, cols, s, s', h, hs => by
    simp only [List.zipIdx_nil, List.foldlM_nil] at hs
    obtain rfl := Option.some.inj hs
    exact ⟨[], rfl, by simpa using h, by simp, fun _ _ h => h⟩
  | k :: ks, m, cols, s, s', h, hs => by
    rw [List.zipIdx_cons, List.foldlM_cons] at hs
    obtain ⟨s1, h1, hs⟩ := Option.bind_eq_some_iff.mp hs
    unfold im1 at h1
    dsimp only at h1
    obtain ⟨d, hd, h1⟩ := Option.bind_eq_some_iff.mp h1
    obtain ⟨s0, h0, h1⟩ := Option.map_eq_some_iff.mp h1
    obtain ⟨f1, e1⟩ := h.cm (t := 3) (by omega) (by omega) (h.cmd.dimOf_le hd) (by omega) h0
    have f2 : Full i ok (cols ++ [(3, d)]) ds s1 := by
      subst h1
      exact ⟨inv_exp2pol f1.inv _, f1.cmd.congr rfl, ⟨f1.tmps.dims⟩⟩
    obtain ⟨es, g1, g2, g3, g4⟩ := ims_spec h2 ks (m + 1) _ _ s' f2 hs
    refine ⟨d :: es, by simp [g1], by simpa using g2, ?_, ?_⟩
    · intro n k' d' hn hd'
      cases n with
      | zero =>
        simp only [List.getElem?_cons_zero, Option.some.injEq] at hn hd'
        subst hn hd'
        exact ⟨s, h.cmd, hd⟩
      | succ n => exact g3 n k' d' (by simpa using hn) (by simpa using hd')
    · intro id j hj
      refine g4 _ _ ?_
      rw [← h1]
      show s0.tmpexps.lookup id = _
      rw [e1]; exact hj

theorem quots_spec (h2 : i.nCm2 = 2 * ds.length) {qDim : Nat} (hq : qDim ≤ 3) : ∀ (n : Nat) (s s' : St), Full i ok cols ds s →
    (List.range n).foldlM (quot1 i qDim) s = some s' → Full i ok (cols ++ List.replicate n (4, qDim)) ds s' ∧ Keeps s s' := by
  intro n
  induction n with
  | zero =>
    intro s s' h hs
    simp only [List.range_zero, List.foldlM_nil] at hs
    obtain rfl := Option.some.inj hs
    exact ⟨by simpa using h, fun _ _ h => h⟩
  | succ n ih =>
    intro s s' h hs
    rw [List.range_succ, List.foldlM_append] at hs
    obtain ⟨s1, h1, hs⟩ := Option.bind_eq_some_iff.mp hs
    simp only [List.foldlM_cons, List.foldlM_nil] at hs
    obtain ⟨s3, h3, hs⟩ := Option.bind_eq_some_iff.mp hs
    obtain rfl := Option.some.inj hs
    obtain ⟨g1, g2⟩ := ih s s1 h h1
    unfold quot1 at h3
    obtain ⟨f1, e1⟩ := g1.cm (t := 4) (by omega) (by omega) hq (by omega) h3
    refine ⟨?_, fun id j hj => ?_⟩
    · rw [List.replicate_succ', ← List.append_assoc]
      exact f1
    · rw [e1]; exact g2 _ _ hj

/-- the trees and dimensions of the committed columns: the first round, the pairs of the lookups, the grand products, the intermediate
polynomials, the quotient -/
def colList (i : In E) (ds es : List Nat) (qDim : Nat) : List (Nat × Nat) :=
  List.replicate i.nCm1 (1, 1) ++ (ds.flatMap fun d => [(2, d), (2, d)]) ++ List.replicate (i.pu ++ i.pe ++ i.ci).length (3, 3) ++
    (es.map fun d => (3, d)) ++ List.replicate i.qDeg (4, qDim)

/-- `id` is a numerator or a denominator -/
def In.FracId (i : In E) (id : Nat) : Prop := ∃ c ∈ i.pu ++ i.pe ++ i.ci, id = c.num ∨ id = c.den

/-- all the rounds -/
theorem columns_tmps {r : St × Nat} (h : columns i fuel = some r) (hn2 : i.nCm2 = 2 * i.pu.length) :
    ∃ ds es : List Nat, ds.length = i.pu.length ∧ es.length = i.imList.length ∧ Full i (fun id d => (d = 3 ∧ i.FracId id) ∨ PairTmp i.pu ds id d) (colList i ds es r.2) ds r.1 ∧
      (∀ (n : Nat) (c : PCtx) (d : Nat), i.pu[n]? = some c → ds[n]? = some d → PairDim i fuel (ds.take n) c d) ∧
      (∀ (n k d : Nat), i.imList[n]? = some k → es[n]? = some d → ImDim i fuel ds k d) ∧ ImDim i fuel ds i.cExp r.2 ∧
      (∀ c ∈ i.pu, HasCol i r.1 c.fExp ∧ HasCol i r.1 c.tExp) ∧ ∀ c ∈ i.pu ++ i.pe ++ i.ci, HasCol i r.1 c.num ∧ HasCol i r.1 c.den := by
  unfold columns at h
  obtain ⟨s1, h1, h⟩ := Option.bind_eq_some_iff.mp h
  obtain ⟨s2, h2, h⟩ := Option.bind_eq_some_iff.mp h
  obtain ⟨s3, h3, h⟩ := Option.bind_eq_some_iff.mp h
  obtain ⟨s4, h4, h⟩ := Option.bind_eq_some_iff.mp h
  obtain ⟨qDim, h5, h⟩ := Option.bind_eq_some_iff.mp h
  obtain ⟨s5, h6, h⟩ := Option.map_eq_some_iff.mp h
  subst h
  have f1 : Full i (fun id d => d = 3 ∧ i.FracId id) (List.replicate i.nCm1 (1, 1)) [] s1 := stage1_spec h1
  obtain ⟨ds, a1, f2, a2, -, a4⟩ := lookups_spec i.pu _ _ [] s1 s2 f1 h2
  rw [List.nil_append] at f2
  have hn2' : i.nCm2 = 2 * ds.length := by omega
  obtain ⟨f3, b1, b2⟩ := products_spec hn2' _ 0 _ s2 s3 (fun c hc => ⟨.inl ⟨rfl, c, hc, .inl rfl⟩, .inl ⟨rfl, c, hc, .inr rfl⟩⟩) f2 h3
  obtain ⟨es, c1, f4, c2, c3⟩ := ims_spec hn2' i.imList 0 _ s3 s4 f3 h4
  obtain ⟨f5, d1⟩ := quots_spec hn2' (f4.cmd.dimOf_le h5) i.qDeg s4 s5 f4 h6
  refine ⟨ds, es, a1, c1, f5, ?_, c2, ⟨s4, f4.cmd, h5⟩, ?_, ?_⟩
  · intro n c d hn hd
    simpa using a2 n c d hn hd
  · intro c hc
    obtain ⟨g1, g2⟩ := a4 c hc
    exact ⟨((g1.keep b1).keep c3).keep d1, ((g2.keep b1).keep c3).keep d1⟩
  · intro c hc
    obtain ⟨g1, g2⟩ := b2 c hc
    exact ⟨(g1.keep c3).keep d1, (g2.keep c3).keep d1⟩

@[inherit_doc columns_tmps] theorem columns_full {r : St × Nat} (h : columns i fuel = some r) (hn2 : i.nCm2 = 2 * i.pu.length) (hok3 : ∀ id, ok id 3)
    (hok : ∀ ds c d, c ∈ i.pu → PairDim i fuel ds c d → ok c.fExp d ∧ ok c.tExp d) :
    ∃ ds es : List Nat, ds.length = i.pu.length ∧ es.length = i.imList.length ∧ Full i ok (colList i ds es r.2) ds r.1 ∧
      (∀ (n : Nat) (c : PCtx) (d : Nat), i.pu[n]? = some c → ds[n]? = some d → PairDim i fuel (ds.take n) c d) ∧
      (∀ (n k d : Nat), i.imList[n]? = some k → es[n]? = some d → ImDim i fuel ds k d) ∧ ImDim i fuel ds i.cExp r.2 ∧
      (∀ c ∈ i.pu, HasCol i r.1 c.fExp ∧ HasCol i r.1 c.tExp) ∧ ∀ c ∈ i.pu ++ i.pe ++ i.ci, HasCol i r.1 c.num ∧ HasCol i r.1 c.den := by
  obtain ⟨ds, es, a1, a2, f, a3, a4⟩ := columns_tmps h hn2
  refine ⟨ds, es, a1, a2, f.mono ?_, a3, a4⟩
  rintro id d (⟨rfl, -⟩ | ⟨n, c, h1, h2, rfl | rfl⟩)
  · exact hok3 id
  · exact (hok _ c d (List.mem_of_getElem? h1) (a3 n c d h1 h2)).1
  · exact (hok _ c d (List.mem_of_getElem? h1) (a3 n c d h1 h2)).2

end Verif.Map
