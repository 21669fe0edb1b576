import Verif.Map.Temps

/-!
# Dimensions of the columns that `map` creates (C94)
-/
namespace Verif.Map
open Verif.Interp (Sec PolType Info)
open Verif.StarkInfo
open Verif.Stark (ColPos expDim)
open Verif.Codegen (Expr Op)
open Verif.Grand (PCtx Disj)

variable {E : Type} {i : In E} {fuel : Nat} {o : Out}

/-! ### Specification -/

/-- the operations whose operands count for the dimension -/
def Arith (op : Op) : Prop := op = .add ∨ op = .sub ∨ op = .mul ∨ op = .muladd ∨ op = .addc ∨ op = .mulc ∨ op = .neg

/-- the expression refers, possibly through other expressions, to column `k` -/
inductive Uses (exps : List (Expr E)) (k : Nat) : Expr E → Prop
  | cm {l vs} : l.op = .cm → l.id = some k → Uses exps k (.node l vs)
  | arith {l vs v} : Arith l.op → v ∈ vs → Uses exps k v → Uses exps k (.node l vs)
  | exp {l vs j e} : l.op = .exp → l.id = some j → exps[j]? = some e → Uses exps k e → Uses exps k (.node l vs)

/-- the expression contains, possibly through other expressions, a challenge -/
inductive HasChal (exps : List (Expr E)) : Expr E → Prop
  | chal {l vs} : l.op = .challenge → HasChal exps (.node l vs)
  | arith {l vs v} : Arith l.op → v ∈ vs → HasChal exps v → HasChal exps (.node l vs)
  | exp {l vs j e} : l.op = .exp → l.id = some j → exps[j]? = some e → HasChal exps e → HasChal exps (.node l vs)

/-- number of cells of column `k` in the result -/
def Out.dim (o : Out) (k : Nat) : Option Nat := (o.pos k).map ColPos.dim

/-- the expression number `id` refers only to columns below `b` -/
def Below (i : In E) (b id : Nat) : Prop := ∀ e, i.exps[id]? = some e → ∀ k, Uses i.exps k e → k < b

/-- the first column of the grand products -/
def In.zBase (i : In E) : Nat := i.nCm1 + 2 * i.pu.length
/-- number of grand products -/
def In.nZ (i : In E) : Nat := i.pu.length + i.pe.length + i.ci.length

/-- Expression `id` refers only to the first two rounds, or it refers only to committed columns and contains a challenge. -/
def Safe (i : In E) (id : Nat) : Prop :=
  Below i i.zBase id ∨ (Below i (i.zBase + i.nZ + i.imList.length) id ∧ ∀ e, i.exps[id]? = some e → HasChal i.exps e)

/-- the dimension of expression `id`, computed from the final dimensions of the columns -/
def Out.expDim (o : Out) (i : In E) (fuel id : Nat) : Option Nat := i.exps[id]?.bind fun e => Stark.expDim i.exps o.dim fuel e

/-! ### Proofs -/

theorem maxDim_congr {r r' : Expr E → Option Nat} : ∀ (vs : List (Expr E)) (md : Nat), (∀ v ∈ vs, r v = r' v) → Stark.maxDim r vs md = Stark.maxDim r' vs md
  | [], _, _ => rfl
  | v :: vs, md, h => by
    rw [Stark.maxDim, Stark.maxDim, h v (by simp)]
    congr 1
    funext d
    exact maxDim_congr vs _ fun w hw => h w (by simp [hw])

theorem expDim_congr {exps : List (Expr E)} {D D' : Nat → Option Nat} : ∀ (n : Nat) (e : Expr E), (∀ k, Uses exps k e → D k = D' k) →
    expDim exps D n e = expDim exps D' n e
  | 0, _, _ => rfl
  | n + 1, .node l vs, h => by
    have ha : Arith l.op → Stark.maxDim (expDim exps D n) vs 1 = Stark.maxDim (expDim exps D' n) vs 1 := fun ha =>
      maxDim_congr vs 1 fun v hv => expDim_congr n v fun k hk => h k (.arith ha hv hk)
    have hA : l.op = .add ∨ l.op = .sub ∨ l.op = .mul ∨ l.op = .muladd ∨ l.op = .addc ∨ l.op = .mulc ∨ l.op = .neg →
      Stark.maxDim (expDim exps D n) vs 1 = Stark.maxDim (expDim exps D' n) vs 1 := ha
    rw [expDim, expDim]
    split
    all_goals first
      | rfl
      | (exact hA (by simp_all))
      | (cases hi : l.id with
         | none => rfl
         | some k => simp only [Option.bind_some]; exact h k (.cm (by assumption) hi))
      | (cases hi : l.id with
         | none => rfl
         | some k =>
           simp only [Option.bind_some]
           cases he : exps[k]? with
           | none => rfl
           | some e => simp only [Option.bind_some]; exact expDim_congr n e fun k' hk' => h k' (.exp (by assumption) hi he hk'))

theorem maxDim_ge {r : Expr E → Option Nat} : ∀ (vs : List (Expr E)) (md d : Nat), Stark.maxDim r vs md = some d →
    md ≤ d ∧ ∀ v ∈ vs, ∃ x, r v = some x ∧ x ≤ d
  | [], md, d, h => by
    simp only [Stark.maxDim, Option.some.injEq] at h
    exact ⟨by omega, by simp⟩
  | v :: vs, md, d, h => by
    rw [Stark.maxDim] at h
    obtain ⟨x, h1, h2⟩ := Option.bind_eq_some_iff.mp h
    obtain ⟨h3, h4⟩ := maxDim_ge vs _ d h2
    refine ⟨by split_ifs at h3 <;> omega, fun w hw => ?_⟩
    rcases List.mem_cons.mp hw with rfl | hw
    · exact ⟨x, h1, by split_ifs at h3 <;> omega⟩
    · exact h4 w hw

theorem expDim_chal {exps : List (Expr E)} {D : Nat → Option Nat} (hD : ∀ k d, D k = some d → d ≤ 3) {e : Expr E} (hc : HasChal exps e) :
    ∀ {n d : Nat}, expDim exps D n e = some d → d = 3 := by
  induction hc with
  | chal hl =>
    rintro (_ | n) d h
    · simp [expDim] at h
    · rw [expDim, hl] at h
      simpa using h.symm
  | @arith l vs v ha hv _ ih =>
    rintro (_ | n) d h
    · simp [expDim] at h
    · have h3 := expDim_le hD _ _ _ h
      rw [expDim] at h
      have h' : Stark.maxDim (expDim exps D n) vs 1 = some d := by
        rcases ha with ha | ha | ha | ha | ha | ha | ha <;> rw [ha] at h <;> exact h
      obtain ⟨-, h4⟩ := maxDim_ge vs 1 d h'
      obtain ⟨x, h5, h6⟩ := h4 v hv
      have := ih h5
      omega
  | @exp l vs j e hl hj he _ ih =>
    rintro (_ | n) d h
    · simp [expDim] at h
    · rw [expDim, hl] at h
      simp only [hj, he, Option.bind_some] at h
      exact ih h

theorem maxDim_some {r r' : Expr E → Option Nat} : ∀ (vs : List (Expr E)) (md md' : Nat), (∀ v ∈ vs, (r v).isSome → (r' v).isSome) →
    (Stark.maxDim r vs md).isSome → (Stark.maxDim r' vs md').isSome
  | [], _, _, _, _ => rfl
  | v :: vs, md, md', h, hs => by
    rw [Stark.maxDim] at hs ⊢
    cases hv : r v with
    | none => simp [hv] at hs
    | some x =>
      obtain ⟨y, hy⟩ := Option.isSome_iff_exists.mp (h v (by simp) (by simp [hv]))
      rw [hv, Option.bind_some] at hs
      rw [hy, Option.bind_some]
      exact maxDim_some vs _ _ (fun w hw => h w (by simp [hw])) hs

theorem expDim_some {exps : List (Expr E)} {D D' : Nat → Option Nat} : ∀ (n : Nat) (e : Expr E), (∀ k, Uses exps k e → (D k).isSome → (D' k).isSome) →
    (expDim exps D n e).isSome → (expDim exps D' n e).isSome
  | 0, _, _, h => by simp [expDim] at h
  | n + 1, .node l vs, h, hs => by
    have hA : l.op = .add ∨ l.op = .sub ∨ l.op = .mul ∨ l.op = .muladd ∨ l.op = .addc ∨ l.op = .mulc ∨ l.op = .neg →
      (Stark.maxDim (expDim exps D n) vs 1).isSome → (Stark.maxDim (expDim exps D' n) vs 1).isSome := fun ha =>
      maxDim_some vs 1 1 fun v hv => expDim_some n v fun k hk => h k (.arith ha hv hk)
    rw [expDim] at hs ⊢
    split at hs
    all_goals first
      | (exact hA (by simp_all) (by simpa using hs))
      | (simp at hs; done)
      | (cases hi : l.id with
         | none => simp [hi] at hs
         | some k =>
           simp only [hi, Option.bind_some] at hs ⊢
           exact h k (.cm (by assumption) hi) hs)
      | (cases hi : l.id with
         | none => simp [hi] at hs
         | some k =>
           simp only [hi, Option.bind_some] at hs ⊢
           cases he : exps[k]? with
           | none => simp [he] at hs
           | some e =>
             simp only [he, Option.bind_some] at hs ⊢
             exact expDim_some n e (fun k' hk' => h k' (.exp (by assumption) hi he hk')) hs)
      | rfl

theorem expDim_13 {exps : List (Expr E)} {D : Nat → Option Nat} : ∀ (n : Nat) (e : Expr E) (d : Nat),
    (∀ k d, Uses exps k e → D k = some d → d = 1 ∨ d = 3) → expDim exps D n e = some d → d = 1 ∨ d = 3
  | 0, _, _, _, h => by simp [expDim] at h
  | n + 1, .node l vs, d, hu, h => by
    have aux : ∀ (ws : List (Expr E)) (md d : Nat), (∀ w ∈ ws, w ∈ vs) → Arith l.op → (md = 1 ∨ md = 3) →
        Stark.maxDim (expDim exps D n) ws md = some d → d = 1 ∨ d = 3 := by
      intro ws
      induction ws with
      | nil => intro md d _ _ hm h; simp only [Stark.maxDim, Option.some.injEq] at h; omega
      | cons w ws ih =>
        intro md d hw ha hm h
        rw [Stark.maxDim] at h
        obtain ⟨x, h1, h2⟩ := Option.bind_eq_some_iff.mp h
        have := expDim_13 n w x (fun k d hk => hu k d (.arith ha (hw w (by simp)) hk)) h1
        exact ih _ d (fun w' hw' => hw w' (by simp [hw'])) ha (by split_ifs <;> omega) h2
    have hA : l.op = .add ∨ l.op = .sub ∨ l.op = .mul ∨ l.op = .muladd ∨ l.op = .addc ∨ l.op = .mulc ∨ l.op = .neg →
      Stark.maxDim (expDim exps D n) vs 1 = some d → d = 1 ∨ d = 3 := fun ha => aux vs 1 d (fun _ h => h) ha (.inl rfl)
    rw [expDim] at h
    split at h
    all_goals first
      | (exact hA (by simp_all) h)
      | (simp only [Option.some.injEq] at h; omega)
      | (obtain ⟨k, hi, h⟩ := Option.bind_eq_some_iff.mp h; exact hu k d (.cm (by assumption) hi) h)
      | (obtain ⟨k, hi, h⟩ := Option.bind_eq_some_iff.mp h
         obtain ⟨e, he, h⟩ := Option.bind_eq_some_iff.mp h
         exact expDim_13 n e d (fun k' d' hk' => hu k' d' (.exp (by assumption) hi he hk')) h)
      | (simp at h)

theorem cols_dim {cols : List (Nat × Nat)} (hC : Cols i cols o) (k : Nat) : o.dim k = cols[k]?.map Prod.snd := by
  unfold Out.dim
  cases hk : cols[k]? with
  | none =>
    rw [(hC.none k (by simpa using hk)).1]
    rfl
  | some te => rw [(hC.pos k te.1 te.2 hk).1]; rfl

/-- the columns, by their number -/
theorem colList_at {ds es : List Nat} {qDim : Nat} (h1 : ds.length = i.pu.length) (h2 : es.length = i.imList.length) :
    (∀ k < i.nCm1, ((colList i ds es qDim)[k]?).map Prod.snd = some 1) ∧
    (∀ n d, ds[n]? = some d → ((colList i ds es qDim)[i.nCm1 + 2 * n]?).map Prod.snd = some d ∧
      ((colList i ds es qDim)[i.nCm1 + 2 * n + 1]?).map Prod.snd = some d) ∧
    (∀ k, i.zBase ≤ k → k < i.zBase + i.nZ → ((colList i ds es qDim)[k]?).map Prod.snd = some 3) ∧
    (∀ n d, es[n]? = some d → ((colList i ds es qDim)[i.zBase + i.nZ + n]?).map Prod.snd = some d) ∧
    (∀ p < i.qDeg, ((colList i ds es qDim)[i.zBase + i.nZ + i.imList.length + p]?).map Prod.snd = some qDim) := by
  have key : ∀ k, k < i.nCols → ∃ e, ((colList i ds es qDim)[k]?).map Prod.snd = some e ∧
      (k < i.nCm1 ∧ e = 1 ∨
       (∃ n, n < i.pu.length ∧ (k = i.nCm1 + 2 * n ∨ k = i.nCm1 + 2 * n + 1) ∧ ds[n]? = some e) ∨
       (i.nCm1 + 2 * i.pu.length ≤ k ∧ k < i.nCm1 + 2 * i.pu.length + (i.pu.length + i.pe.length + i.ci.length) ∧ e = 3) ∨
       (∃ n, n < i.imList.length ∧ k = i.nCm1 + 2 * i.pu.length + (i.pu.length + i.pe.length + i.ci.length) + n ∧ es[n]? = some e) ∨
       (i.nCm1 + 2 * i.pu.length + (i.pu.length + i.pe.length + i.ci.length) + i.imList.length ≤ k ∧ e = qDim)) := by
    intro k hk
    have hlt : k < (colList i ds es qDim).length := by rw [colList_length _ _ _ h1 h2]; exact hk
    have := colList_get h1 h2 (k := k) (t := ((colList i ds es qDim)[k]).1) (e := ((colList i ds es qDim)[k]).2) (by rw [List.getElem?_eq_getElem hlt])
    exact ⟨_, by rw [List.getElem?_eq_getElem hlt]; rfl, this.2⟩
  have hN : i.nCols = i.nCm1 + 2 * i.pu.length + (i.pu.length + i.pe.length + i.ci.length) + i.imList.length + i.qDeg := rfl
  simp only [In.zBase, In.nZ]
  refine ⟨fun k hk => ?_, fun n d hn => ?_, fun k hk hk' => ?_, fun n d hn => ?_, fun p hp => ?_⟩
  · obtain ⟨e, g1, g2⟩ := key k (by omega)
    rw [g1]
    rcases g2 with ⟨-, rfl⟩ | ⟨n, hb, h, -⟩ | ⟨h, -⟩ | ⟨n, hb, h, -⟩ | ⟨h, -⟩
    · rfl
    all_goals omega
  · have := lt_of_get hn
    constructor
    · obtain ⟨e, g1, g2⟩ := key (i.nCm1 + 2 * n) (by omega)
      rw [g1]
      rcases g2 with ⟨h, rfl⟩ | ⟨n', hb, h, h'⟩ | ⟨h, -⟩ | ⟨n, hb, h, -⟩ | ⟨h, -⟩
      · omega
      · rw [show n' = n by omega, hn] at h'
        exact h'.symm
      all_goals omega
    · obtain ⟨e, g1, g2⟩ := key (i.nCm1 + 2 * n + 1) (by omega)
      rw [g1]
      rcases g2 with ⟨h, rfl⟩ | ⟨n', hb, h, h'⟩ | ⟨h, -⟩ | ⟨n, hb, h, -⟩ | ⟨h, -⟩
      · omega
      · rw [show n' = n by omega, hn] at h'
        exact h'.symm
      all_goals omega
  · obtain ⟨e, g1, g2⟩ := key k (by omega)
    rw [g1]
    rcases g2 with ⟨h, rfl⟩ | ⟨n, hb, h, -⟩ | ⟨-, -, rfl⟩ | ⟨n, hb, h, -⟩ | ⟨h, -⟩
    · omega
    · omega
    · rfl
    all_goals omega
  · have := lt_of_get hn
    obtain ⟨e, g1, g2⟩ := key (i.nCm1 + 2 * i.pu.length + (i.pu.length + i.pe.length + i.ci.length) + n) (by omega)
    rw [g1]
    rcases g2 with ⟨h, rfl⟩ | ⟨n', hb, h, -⟩ | ⟨-, h, -⟩ | ⟨n', hb, h, h'⟩ | ⟨h, -⟩
    · omega
    · omega
    · omega
    · rw [show n' = n by omega, hn] at h'
      exact h'.symm
    · omega
  · obtain ⟨e, g1, g2⟩ := key (i.nCm1 + 2 * i.pu.length + (i.pu.length + i.pe.length + i.ci.length) + i.imList.length + p) (by omega)
    rw [g1]
    rcases g2 with ⟨h, rfl⟩ | ⟨n', hb, h, -⟩ | ⟨-, h, -⟩ | ⟨n', hb, h, h'⟩ | ⟨-, rfl⟩
    all_goals first
      | rfl
      | omega

theorem get_take_lt {α : Type} {l : List α} {n m : Nat} {a : α} (h : l[m]? = some a) (hm : m < n) : (l.take n)[m]? = some a := by
  rw [List.getElem?_take, if_pos hm]; exact h

/-- below the columns it knows, `cm_dims` is the final dimension -/
theorem CmD.agree {ds : List Nat} {s : St} (h : CmD i ds s) (h1 : ∀ k < i.nCm1, o.dim k = some 1)
    (h2 : ∀ (n d : Nat), ds[n]? = some d → o.dim (i.nCm1 + 2 * n) = some d ∧ o.dim (i.nCm1 + 2 * n + 1) = some d) {k : Nat}
    (hk : k < i.nCm1 + 2 * ds.length) : s.cmDims[k]? = o.dim k := by
  by_cases hk1 : k < i.nCm1
  · rw [h.first k hk1, h1 k hk1]
  · obtain ⟨n, hn⟩ : ∃ n, k = i.nCm1 + 2 * n ∨ k = i.nCm1 + 2 * n + 1 := ⟨(k - i.nCm1) / 2, by omega⟩
    have hlt : n < ds.length := by omega
    have hd := List.getElem?_eq_getElem hlt
    rcases hn with rfl | rfl
    · rw [(h.pair n _ hd).1, (h2 n _ hd).1]
    · rw [(h.pair n _ hd).2, (h2 n _ hd).2]

/-- **C94** The number of cells of every committed column is the dimension of the expression it holds, computed from the final
dimensions of the columns: 1 in the first round, the larger dimension of the two sides of a lookup, 3 for a grand product, and the
dimension of the expression for an intermediate polynomial and for the quotient, provided that the two sides of a lookup refer only
to columns of earlier lookups and that every intermediate polynomial and the constraint expression is `Safe`. -/
theorem map_dims (h : map i fuel = some o) (hn2 : i.nCm2 = 2 * i.pu.length) :
    (∀ k < i.nCm1, o.dim k = some 1) ∧
    (∀ (n : Nat) (c : PCtx), i.pu[n]? = some c → Below i (i.nCm1 + 2 * n) c.fExp → Below i (i.nCm1 + 2 * n) c.tExp →
      ∃ df dt, o.expDim i fuel c.fExp = some df ∧ o.expDim i fuel c.tExp = some dt ∧
        o.dim (i.nCm1 + 2 * n) = some (max df dt) ∧ o.dim (i.nCm1 + 2 * n + 1) = some (max df dt)) ∧
    (∀ k, i.zBase ≤ k → k < i.zBase + i.nZ → o.dim k = some 3) ∧
    (∀ (n k : Nat), i.imList[n]? = some k → Safe i k → ∃ d, o.expDim i fuel k = some d ∧ o.dim (i.zBase + i.nZ + n) = some d) ∧
    (Safe i i.cExp → o.expDim i fuel i.cExp = some o.qDim) ∧
    (∀ p < i.qDeg, o.dim (i.zBase + i.nZ + i.imList.length + p) = some o.qDim) := by
  obtain ⟨ds, es, a1, a2, hC, hp, him, hq⟩ := map_cols h hn2
  obtain ⟨b1, b2, b3, b4, b5⟩ := colList_at (i := i) (qDim := o.qDim) a1 a2
  simp only [← cols_dim hC] at b1 b2 b3 b4 b5
  have hle : ∀ k d, o.dim k = some d → d ≤ 3 := by
    intro k d hk
    rw [cols_dim hC] at hk
    obtain ⟨te, h1, rfl⟩ := Option.map_eq_some_iff.mp hk
    exact (hC.trees k te.1 te.2 h1).2
  have hsafe : ∀ k d, ImDim i fuel ds k d → Safe i k → o.expDim i fuel k = some d := by
    rintro k d ⟨s, hs, hd⟩ hk
    unfold dimOf at hd
    obtain ⟨e, he, hd⟩ := Option.bind_eq_some_iff.mp hd
    unfold Out.expDim
    rw [he, Option.bind_some]
    rcases hk with hb | ⟨hb, hc⟩
    · rw [← expDim_congr fuel e fun k' hk' => hs.agree b1 b2 (by have := hb e he k' hk'; rw [In.zBase] at this; omega), hd]
    · have hd3 := expDim_chal (fun k x hx => hs.le x (List.mem_of_getElem? hx)) (hc e he) hd
      subst hd3
      obtain ⟨x, hx⟩ := Option.isSome_iff_exists.mp (expDim_some (D' := o.dim) fuel e (fun k' hk' hs' => by
        have hlt := hb e he k' hk'
        by_cases hz : k' < i.zBase
        · rw [← hs.agree b1 b2 (by rw [In.zBase] at hz; omega)]; exact hs'
        · by_cases hz' : k' < i.zBase + i.nZ
          · rw [b3 k' (by omega) hz']; rfl
          · rw [show k' = i.zBase + i.nZ + (k' - (i.zBase + i.nZ)) by omega,
              b4 _ _ (List.getElem?_eq_getElem (show k' - (i.zBase + i.nZ) < es.length by omega))]; rfl) (by rw [hd]; rfl))
      rw [hx, expDim_chal hle (hc e he) hx]
  refine ⟨b1, fun n c hc hbf hbt => ?_, b3, fun n k hk hs => ?_, hsafe _ _ hq, b5⟩
  · have hlt : n < ds.length := by rw [a1]; exact lt_of_get hc
    have hd := List.getElem?_eq_getElem hlt
    obtain ⟨s, df, dt, hs, g1, g2, g3⟩ := hp n c _ hc hd
    have hag : ∀ id d, Below i (i.nCm1 + 2 * n) id → dimOf i fuel s id = some d → o.expDim i fuel id = some d := by
      intro id d hb hd
      unfold dimOf at hd
      obtain ⟨e, he, hd⟩ := Option.bind_eq_some_iff.mp hd
      unfold Out.expDim
      rw [he, Option.bind_some, ← expDim_congr fuel e fun k' hk' => hs.agree b1 (fun m d hm => b2 m d (by
        rw [List.getElem?_take] at hm; split_ifs at hm; exact hm))
        (by have := hb e he k' hk'; rw [List.length_take]; omega), hd]
    refine ⟨df, dt, hag _ _ hbf g1, hag _ _ hbt g2, ?_⟩
    rw [← g3]
    exact b2 n _ hd
  · have hlt : n < es.length := by rw [a2]; exact lt_of_get hk
    exact ⟨es[n], hsafe _ _ (him n k _ hk (List.getElem?_eq_getElem hlt)) hs, b4 n _ (List.getElem?_eq_getElem hlt)⟩

/-- **C94** … and then every column has one or three cells. -/
theorem map_dims_13 (h : map i fuel = some o) (hn2 : i.nCm2 = 2 * i.pu.length)
    (hpu : ∀ (n : Nat) (c : PCtx), i.pu[n]? = some c → Below i (i.nCm1 + 2 * n) c.fExp ∧ Below i (i.nCm1 + 2 * n) c.tExp)
    (him : ∀ k ∈ i.imList, Safe i k) (hq : Safe i i.cExp) {k d : Nat} (hd : o.dim k = some d) : d = 1 ∨ d = 3 := by
  obtain ⟨c1, c2, c3, c4, c5, c6⟩ := map_dims h hn2
  have hbelow : ∀ id b d, Below i b id → (∀ k < b, ∀ d, o.dim k = some d → d = 1 ∨ d = 3) → o.expDim i fuel id = some d → d = 1 ∨ d = 3 := by
    intro id b d hb hx hd
    unfold Out.expDim at hd
    obtain ⟨e, he, hd⟩ := Option.bind_eq_some_iff.mp hd
    exact expDim_13 fuel e d (fun k x hk hx' => hx k (hb e he k hk) x hx') hd
  have hpair : ∀ m ≤ i.pu.length, ∀ k < i.nCm1 + 2 * m, ∀ d, o.dim k = some d → d = 1 ∨ d = 3 := by
    intro m
    induction m with
    | zero =>
      intro _ k hk d hd
      rw [c1 k (by omega)] at hd
      obtain rfl := Option.some.inj hd
      exact .inl rfl
    | succ m ih =>
      intro hm k hk d hd
      by_cases hlt : k < i.nCm1 + 2 * m
      · exact ih (by omega) k hlt d hd
      have hc := List.getElem?_eq_getElem (show m < i.pu.length by omega)
      obtain ⟨hf, ht⟩ := hpu m _ hc
      obtain ⟨df, dt, g1, g2, g3, g4⟩ := c2 m _ hc hf ht
      have e1 := hbelow _ _ _ hf (ih (by omega)) g1
      have e2 := hbelow _ _ _ ht (ih (by omega)) g2
      have : d = max df dt := by
        rcases (show k = i.nCm1 + 2 * m ∨ k = i.nCm1 + 2 * m + 1 by omega) with rfl | rfl
        · rw [g3] at hd; exact (Option.some.inj hd).symm
        · rw [g4] at hd; exact (Option.some.inj hd).symm
      omega
  have hz : ∀ k < i.zBase + i.nZ, ∀ d, o.dim k = some d → d = 1 ∨ d = 3 := by
    intro k hk d hd
    by_cases hlt : k < i.zBase
    · exact hpair _ (le_refl _) k hlt d hd
    · rw [c3 k (by omega) hk] at hd
      obtain rfl := Option.some.inj hd
      exact .inr rfl
  have hsafe : ∀ id d, Safe i id → o.expDim i fuel id = some d → d = 1 ∨ d = 3 := by
    intro id d hs hd
    rcases hs with hb | ⟨-, hc⟩
    · exact hbelow id _ d hb (fun k hk => hz k (by omega)) hd
    · unfold Out.expDim at hd
      obtain ⟨e, he, hd⟩ := Option.bind_eq_some_iff.mp hd
      refine .inr (expDim_chal (fun k x hx => ?_) (hc e he) hd)
      obtain ⟨c, hk, rfl⟩ := Option.map_eq_some_iff.mp hx
      have hkl : k < i.nCols := by
        by_contra hge
        rw [((map_pos h hn2).2.1 k (by omega)).1] at hk
        simp at hk
      obtain ⟨c', g1, -, -, g4, -⟩ := (map_pos h hn2).1 k hkl
      rw [g1] at hk
      obtain rfl := Option.some.inj hk
      exact g4
  by_cases k1 : k < i.zBase + i.nZ
  · exact hz k k1 d hd
  by_cases k2 : k < i.zBase + i.nZ + i.imList.length
  · have hlt : k - (i.zBase + i.nZ) < i.imList.length := by omega
    obtain ⟨d', g1, g2⟩ := c4 _ _ (List.getElem?_eq_getElem hlt) (him _ (List.getElem_mem hlt))
    rw [show i.zBase + i.nZ + (k - (i.zBase + i.nZ)) = k by omega, hd] at g2
    obtain rfl := Option.some.inj g2
    exact hsafe _ _ (him _ (List.getElem_mem hlt)) g1
  by_cases k3 : k < i.zBase + i.nZ + i.imList.length + i.qDeg
  · have g := c6 (k - (i.zBase + i.nZ + i.imList.length)) (by omega)
    rw [show i.zBase + i.nZ + i.imList.length + (k - (i.zBase + i.nZ + i.imList.length)) = k by omega, hd] at g
    obtain rfl := Option.some.inj g
    exact hsafe _ _ hq (c5 hq)
  · have := ((map_pos h hn2).2.1 k (by simp only [In.nCols]; simp only [In.zBase, In.nZ] at k3; omega)).1
    rw [Out.dim, this] at hd
    simp at hd

end Verif.Map
