import Verif.Grand.Scoped

/-!
# The setup's generation preserves scopes
-/
set_option linter.unusedSectionVars false

namespace Verif.Grand
open Codegen Codegen.Spec Stark

variable {A : Type} [Field A] {nC nP : Nat}

/-- the identities of the PIL refer to expressions in scope; the table side of a lookup can be evaluated for the next row -/
structure ArgsScoped (a : Args) (lims : List Lim) (n : Nat) : Prop where
  lookup : ∀ pi ∈ a.plookups, pi.f ≠ [] ∧ pi.t ≠ [] ∧ (∀ j ∈ pi.f, Bnd lims j n 2 false) ∧ (∀ j ∈ pi.t, Bnd lims j n 2 true) ∧
    (∀ k, pi.selF = some k → Bnd lims k n 2 false) ∧ ∀ k, pi.selT = some k → Bnd lims k n 2 true
  perm : ∀ pi ∈ a.permutations, pi.f ≠ [] ∧ pi.t ≠ [] ∧ (∀ j ∈ pi.f, Bnd lims j n 2 false) ∧ (∀ j ∈ pi.t, Bnd lims j n 2 false) ∧
    (∀ k, pi.selF = some k → Bnd lims k n 2 false) ∧ ∀ k, pi.selT = some k → Bnd lims k n 2 false
  conn : ∀ ci ∈ a.connections, (∀ j ∈ ci.pols, Bnd lims j n 2 false) ∧ ∀ j ∈ ci.conns, Bnd lims j n 2 false

/-- one phase of the generation -/
theorem runAll_scoped {X Y : Type} {one : PilSt A → X → Option (PilSt A × Y)} {Pre : X → List Lim → Prop} {Post : Y → List Lim → Prop} {k n3 : Nat}
    (hpre : ∀ x lims more, Pre x lims → Pre x (lims ++ more)) (hpost : ∀ y lims more, Post y lims → Post y (lims ++ more))
    (hext : ∀ st x st1 y, one st x = some (st1, y) → Ext st st1 ∧ st1.nCm = st.nCm + k)
    (h : ∀ st x st1 y lims, Scoped nC nP st.exps lims → Pre x lims → st1.nCm ≤ n3 → one st x = some (st1, y) →
      ∃ more, Scoped nC nP st1.exps (lims ++ more) ∧ Post y (lims ++ more) ∧ ∀ m ∈ more, m.cols ≤ n3 ∧ m.chals ≤ 4) :
    ∀ (xs : List X) (st st' : PilSt A) (ys : List Y) (lims : List Lim), Scoped nC nP st.exps lims → (∀ x ∈ xs, Pre x lims) → st'.nCm ≤ n3 →
      runAll one st xs = some (st', ys) →
      ∃ more, Scoped nC nP st'.exps (lims ++ more) ∧ (∀ y ∈ ys, Post y (lims ++ more)) ∧ ∀ m ∈ more, m.cols ≤ n3 ∧ m.chals ≤ 4
  | [], st, st', ys, lims, hs, _, _, hr => by
    simp only [runAll, Option.some.injEq, Prod.mk.injEq] at hr
    obtain ⟨rfl, rfl⟩ := hr
    exact ⟨[], by simpa using hs, by simp, by simp⟩
  | x :: xs, st, st', ys, lims, hs, hx, hn, hr => by
    rw [runAll] at hr
    obtain ⟨⟨s1, y⟩, ha, hr⟩ := Option.bind_eq_some_iff.mp hr
    obtain ⟨⟨s2, ys2⟩, hb, hr⟩ := Option.map_eq_some_iff.mp hr
    obtain ⟨rfl, rfl⟩ := Prod.mk.inj hr
    have hle : s1.nCm ≤ n3 := by
      have := (runAll_spec hext xs s1 s2 ys2 hb).2.1
      dsimp only at hn
      omega
    obtain ⟨m1, i1, i2, i3⟩ := h st x s1 y lims hs (hx x (by simp)) hle ha
    obtain ⟨m2, j1, j2, j3⟩ := runAll_scoped hpre hpost hext h xs s1 s2 ys2 (lims ++ m1) i1 (fun z hz => hpre _ _ _ (hx z (by simp [hz]))) hn hb
    refine ⟨m1 ++ m2, by rw [← List.append_assoc]; exact j1, ?_, ?_⟩
    · intro z hz
      rw [← List.append_assoc]
      rcases List.mem_cons.mp hz with rfl | hz
      · exact hpost _ _ _ i2
      · exact j2 z hz
    · intro m hm
      rcases List.mem_append.mp hm with hm | hm
      · exact i3 m hm
      · exact j3 m hm

theorem Scoped.two {exps : List (Expr A)} {lims : List Lim} {a b : Expr A} {La Lb : Lim} (h : Scoped nC nP exps lims) (ha : Sc nC nP lims La a)
    (hb : Sc nC nP (lims ++ [La]) Lb b) : Scoped nC nP (exps ++ [a, b]) (lims ++ [La, Lb]) := by
  have := Scoped.snoc (Scoped.snoc h ha) hb
  rw [List.append_assoc, List.append_assoc] at this
  exact this

theorem Scoped.four {exps : List (Expr A)} {lims : List Lim} {a b c d : Expr A} {La Lb Lc Ld : Lim} (h : Scoped nC nP exps lims)
    (ha : Sc nC nP lims La a) (hb : Sc nC nP lims Lb b) (hc : Sc nC nP lims Lc c) (hd : Sc nC nP (lims ++ [La, Lb, Lc]) Ld d) :
    Scoped nC nP (exps ++ [a, b, c, d]) (lims ++ [La, Lb, Lc, Ld]) := by
  have h2 := h.two ha hb.mono
  have h4 := h2.two (a := c) (b := d) (La := Lc) (Lb := Ld) hc.mono (by rw [List.append_assoc]; exact hd)
  rw [List.append_assoc, List.append_assoc] at h4
  exact h4

/-! ### The phases -/

section
variable {n1 n2 n3 : Nat}

/-- what is known about the context of a lookup after the first phase -/
def SidesOk (n1 n2 : Nat) (c : PCtx) (lims : List Lim) : Prop :=
  Bnd lims c.fExp n1 2 false ∧ Bnd lims c.tExp n1 2 true ∧ c.h1 < n2 ∧ c.h2 < n2

theorem step2_scoped (h2 : n2 ≤ n3) (h12 : n1 ≤ n3) (st : PilSt A) (pi : LookupId) (st1 : PilSt A) (y : PCtx) (lims : List Lim) (hs : Scoped nC nP st.exps lims)
    (hpi : pi.f ≠ [] ∧ pi.t ≠ [] ∧ (∀ j ∈ pi.f, Bnd lims j n1 2 false) ∧ (∀ j ∈ pi.t, Bnd lims j n1 2 true) ∧
      (∀ k, pi.selF = some k → Bnd lims k n1 2 false) ∧ ∀ k, pi.selT = some k → Bnd lims k n1 2 true) (hn : st1.nCm ≤ n2)
    (h : some (step2One st pi) = some (st1, y)) :
    ∃ more, Scoped nC nP st1.exps (lims ++ more) ∧ SidesOk n1 n2 y (lims ++ more) ∧ ∀ m ∈ more, m.cols ≤ n3 ∧ m.chals ≤ 4 := by
  obtain ⟨f1, t1, hf, ht, hsf, hst⟩ := hpi
  simp only [step2One, Option.some.injEq, Prod.mk.injEq] at h
  obtain ⟨rfl, rfl⟩ := h
  have hlen := hs.length
  have sT : Sc nC nP lims ⟨n1, 2, true⟩ (select (lcT pi.t) eDef pi.selT : Expr A) :=
    s_select (s_lcT (by simp) t1 ht) (s_chal (by simp)) hst
  have sF : Sc nC nP (lims ++ [⟨n1, 2, true⟩]) ⟨n1, 2, false⟩ (select (lcF pi.f) (eExp st.exps.length) pi.selF : Expr A) :=
    s_select (s_lcF (by simp) f1 fun j hj => (hf j hj).mono)
      (s_exp (by rw [← hlen]; exact bnd_last.le (le_refl _) (le_refl _) (by simp))) fun k hk => (hsf k hk).mono
  refine ⟨[⟨n1, 2, true⟩, ⟨n1, 2, false⟩], hs.two sT sF, ⟨?_, ?_, ?_, ?_⟩, ?_⟩
  · have := bnd_at (lims ++ [⟨n1, 2, true⟩]) [] ⟨n1, 2, false⟩ (i := st.exps.length + 1) (by simp [hlen])
    rw [List.append_assoc] at this
    exact this
  · exact bnd_at lims [⟨n1, 2, false⟩] ⟨n1, 2, true⟩ (by rw [hlen])
  · dsimp only at hn ⊢; omega
  · dsimp only at hn ⊢; omega
  · intro m hm
    simp at hm
    rcases hm with rfl | rfl <;> exact ⟨h12, by simp⟩

theorem permLC_scoped (h12 : n1 ≤ n3) (st : PilSt A) (pi : LookupId) (st1 : PilSt A) (y : PCtx) (lims : List Lim) (hs : Scoped nC nP st.exps lims)
    (hpi : pi.f ≠ [] ∧ pi.t ≠ [] ∧ (∀ j ∈ pi.f, Bnd lims j n1 2 false) ∧ (∀ j ∈ pi.t, Bnd lims j n1 2 false) ∧
      (∀ k, pi.selF = some k → Bnd lims k n1 2 false) ∧ ∀ k, pi.selT = some k → Bnd lims k n1 2 false)
    (h : permLCOne st pi = some (st1, y)) :
    ∃ more, Scoped nC nP st1.exps (lims ++ more) ∧ (Bnd (lims ++ more) y.fExp n1 2 false ∧ Bnd (lims ++ more) y.tExp n1 2 false) ∧
      ∀ m ∈ more, m.cols ≤ n3 ∧ m.chals ≤ 4 := by
  obtain ⟨f1, t1, hf, ht, hsf, hst⟩ := hpi
  unfold permLCOne at h
  dsimp only at h
  split at h
  · simp at h
  simp only [Option.some.injEq, Prod.mk.injEq] at h
  obtain ⟨rfl, rfl⟩ := h
  have hlen := hs.length
  have sT : Sc nC nP lims ⟨n1, 2, false⟩ (select (lcT pi.t) eDef pi.selT : Expr A) :=
    s_select (s_lcT (by simp) t1 ht) (s_chal (by simp)) hst
  have sF : Sc nC nP lims ⟨n1, 2, false⟩ (select (lcF pi.f) eDef pi.selF : Expr A) :=
    s_select (s_lcF (by simp) f1 hf) (s_chal (by simp)) hsf
  refine ⟨[⟨n1, 2, false⟩, ⟨n1, 2, false⟩], hs.two sT sF.mono, ⟨?_, ?_⟩, ?_⟩
  · have := bnd_at (lims ++ [⟨n1, 2, false⟩]) [] ⟨n1, 2, false⟩ (i := st.exps.length + 1) (by simp [hlen])
    rw [List.append_assoc] at this
    exact this
  · exact bnd_at lims [⟨n1, 2, false⟩] ⟨n1, 2, false⟩ (by rw [hlen])
  · intro m hm
    simp at hm
    rcases hm with rfl | rfl <;> exact ⟨h12, by simp⟩

theorem s_zStart {L : Lim} {lims : List Lim} {l z : Nat} (hl : l < nC) (hz : z < L.cols) (hp : L.prim = false) : Sc nC nP lims L (zStart l z : Expr A) :=
  s_mul (s_const hl) (s_sub (s_cm hz (by simp)) s_num)

theorem s_zStep {L : Lim} {lims : List Lim} {z num den : Nat} (hz : z < L.cols) (hp : L.prim = false) (hn : Bnd lims num L.cols L.chals false)
    (hd : Bnd lims den L.cols L.chals false) : Sc nC nP lims L (zStep z num den : Expr A) :=
  s_sub (s_mul (s_cm hz (by simp [hp])) (s_exp (hp ▸ hd))) (s_mul (s_cm hz (by simp)) (s_exp (hp ▸ hn)))

/-- what is known about the numerator and the denominator -/
def FracOk (n2 n3 : Nat) (c : PCtx) (lims : List Lim) : Prop :=
  Bnd lims c.num n2 4 false ∧ Bnd lims c.den n2 4 false ∧ Bnd lims c.c1 n3 4 false ∧ Bnd lims c.c2 n3 4 false

theorem frac_four {exps : List (Expr A)} {lims : List Lim} {num den : Expr A} {l z : Nat} (h23 : n2 ≤ n3) (hs : Scoped nC nP exps lims) (hl : l < nC) (hz : z < n3)
    (hn : Sc nC nP lims ⟨n2, 4, false⟩ num) (hd : Sc nC nP lims ⟨n2, 4, false⟩ den) (c : PCtx) (h1 : c.c1 = exps.length) (h2 : c.num = exps.length + 1)
    (h3 : c.den = exps.length + 2) (h4 : c.c2 = exps.length + 3) :
    ∃ more, Scoped nC nP (exps ++ [zStart l z, num, den, zStep z (exps.length + 1) (exps.length + 2)]) (lims ++ more) ∧ FracOk n2 n3 c (lims ++ more) ∧
      ∀ m ∈ more, m.cols ≤ n3 ∧ m.chals ≤ 4 := by
  have hlen := hs.length
  have b2 : Bnd (lims ++ [⟨n3, 4, false⟩, ⟨n2, 4, false⟩, ⟨n2, 4, false⟩]) (exps.length + 1) n2 4 false := by
    have := bnd_at (lims ++ [⟨n3, 4, false⟩]) [⟨n2, 4, false⟩] ⟨n2, 4, false⟩ (i := exps.length + 1) (by simp [hlen])
    rw [List.append_assoc] at this
    exact this
  have b3 : Bnd (lims ++ [⟨n3, 4, false⟩, ⟨n2, 4, false⟩, ⟨n2, 4, false⟩]) (exps.length + 2) n2 4 false := by
    have := bnd_at (lims ++ [⟨n3, 4, false⟩, ⟨n2, 4, false⟩]) [] ⟨n2, 4, false⟩ (i := exps.length + 2) (by simp [hlen])
    rw [List.append_assoc] at this
    exact this
  have app : ∀ X : Lim, lims ++ [⟨n3, 4, false⟩, ⟨n2, 4, false⟩, ⟨n2, 4, false⟩, X] = (lims ++ [⟨n3, 4, false⟩, ⟨n2, 4, false⟩, ⟨n2, 4, false⟩]) ++ [X] := by
    intro X; rw [List.append_assoc]; rfl
  refine ⟨[⟨n3, 4, false⟩, ⟨n2, 4, false⟩, ⟨n2, 4, false⟩, ⟨n3, 4, false⟩], hs.four (s_zStart hl hz rfl) hn hd (s_zStep hz rfl ?_ ?_), ⟨?_, ?_, ?_, ?_⟩, ?_⟩
  · exact b2.le h23 (le_refl _) (by simp)
  · exact b3.le h23 (le_refl _) (by simp)
  · rw [h2, app]; exact b2.mono
  · rw [h3, app]; exact b3.mono
  · rw [h1]; exact bnd_at lims _ ⟨n3, 4, false⟩ (by rw [hlen])
  · have := bnd_at (lims ++ [⟨n3, 4, false⟩, ⟨n2, 4, false⟩, ⟨n2, 4, false⟩]) [] ⟨n3, 4, false⟩ (i := exps.length + 3) (by simp [hlen])
    rw [h4, app]
    exact this
  · intro m hm
    simp at hm
    rcases hm with rfl | rfl | rfl | rfl <;> exact ⟨by dsimp only; omega, by simp⟩

theorem plookupZ_scoped {l1 : Option Nat} (hl : ∀ l, l1 = some l → l < nC) (h12 : n1 ≤ n2) (h23 : n2 ≤ n3) (st : PilSt A) (c : PCtx) (st1 : PilSt A) (y : PCtx)
    (lims : List Lim) (hs : Scoped nC nP st.exps lims) (hc : SidesOk n1 n2 c lims) (hn : st1.nCm ≤ n3) (h : plookupZOne l1 st c = some (st1, y)) :
    ∃ more, Scoped nC nP st1.exps (lims ++ more) ∧ (SidesOk n1 n2 y (lims ++ more) ∧ FracOk n2 n3 y (lims ++ more)) ∧
      ∀ m ∈ more, m.cols ≤ n3 ∧ m.chals ≤ 4 := by
  unfold plookupZOne at h
  obtain ⟨l, hl', h⟩ := Option.map_eq_some_iff.mp h
  obtain ⟨rfl, rfl⟩ := Prod.mk.inj h
  obtain ⟨c1, c2, c3, c4⟩ := hc
  dsimp only at hn ⊢
  have hf : Bnd lims c.fExp n2 4 false := c1.le h12 (by simp) (by simp)
  have ht : Bnd lims c.tExp n2 4 false := c2.le h12 (by simp) (by simp)
  have hN : Sc nC nP lims ⟨n2, 4, false⟩ (lookupNum c.fExp c.tExp : Expr A) :=
    s_mul (s_mul (s_add (s_exp hf) (s_chal (by simp))) (s_add (s_add (s_exp ht) (s_mul (s_expN rfl (c2.le h12 (by simp) (by simp))) (s_chal (by simp))))
      (s_mul (s_chal (by simp)) (s_add s_num (s_chal (by simp)))))) (s_add s_num (s_chal (by simp)))
  have hD : Sc nC nP lims ⟨n2, 4, false⟩ (lookupDen c.h1 c.h2 : Expr A) :=
    s_mul (s_add (s_add (s_cm c3 (by simp)) (s_mul (s_cm c4 (by simp)) (s_chal (by simp)))) (s_mul (s_chal (by simp)) (s_add s_num (s_chal (by simp)))))
      (s_add (s_add (s_cm c4 (by simp)) (s_mul (s_cm c3 (by simp)) (s_chal (by simp)))) (s_mul (s_chal (by simp)) (s_add s_num (s_chal (by simp)))))
  obtain ⟨more, i1, i2, i3⟩ := frac_four (l := l) (z := st.nCm) h23 hs (hl l hl') (by omega) hN hD
    { c with z := st.nCm, c1 := st.exps.length, num := st.exps.length + 1, den := st.exps.length + 2, c2 := st.exps.length + 3 } rfl rfl rfl rfl
  exact ⟨more, i1, ⟨⟨c1.mono, c2.mono, c3, c4⟩, i2⟩, i3⟩

theorem permZ_scoped {l1 : Option Nat} (hl : ∀ l, l1 = some l → l < nC) (h12 : n1 ≤ n2) (h23 : n2 ≤ n3) (st : PilSt A) (c : PCtx) (st1 : PilSt A) (y : PCtx)
    (lims : List Lim) (hs : Scoped nC nP st.exps lims) (hc : Bnd lims c.fExp n1 2 false ∧ Bnd lims c.tExp n1 2 false) (hn : st1.nCm ≤ n3)
    (h : permZOne l1 st c = some (st1, y)) :
    ∃ more, Scoped nC nP st1.exps (lims ++ more) ∧ FracOk n2 n3 y (lims ++ more) ∧ ∀ m ∈ more, m.cols ≤ n3 ∧ m.chals ≤ 4 := by
  unfold permZOne at h
  obtain ⟨l, hl', h⟩ := Option.map_eq_some_iff.mp h
  obtain ⟨rfl, rfl⟩ := Prod.mk.inj h
  obtain ⟨c1, c2⟩ := hc
  dsimp only at hn ⊢
  exact frac_four (l := l) (z := st.nCm) h23 hs (hl l hl') (by omega) (s_add (s_exp (c1.le h12 (by simp) (by simp))) (s_chal (by simp)))
    (s_add (s_exp (c2.le h12 (by simp) (by simp))) (s_chal (by simp)))
    { c with z := st.nCm, c1 := st.exps.length, num := st.exps.length + 1, den := st.exps.length + 2, c2 := st.exps.length + 3 } rfl rfl rfl rfl

theorem connLoop_scoped : ∀ (ps cs : List Nat) (ks : List A) (exps : List (Expr A)) (num den : Nat) (r : List (Expr A) × Nat × Nat) (lims : List Lim),
    Scoped nC nP exps lims → Bnd lims num n2 4 false → Bnd lims den n2 4 false → (∀ j ∈ ps, Bnd lims j n2 4 false) → (∀ j ∈ cs, Bnd lims j n2 4 false) →
    connLoop exps num den ps cs ks = some r →
    ∃ more, Scoped nC nP r.1 (lims ++ more) ∧ Bnd (lims ++ more) r.2.1 n2 4 false ∧ Bnd (lims ++ more) r.2.2 n2 4 false ∧
      ∀ m ∈ more, m.cols = n2 ∧ m.chals = 4
  | [], _, _, exps, num, den, r, lims, hs, hn, hd, _, _, h => by
    simp only [connLoop, Option.some.injEq] at h
    subst h
    exact ⟨[], by simpa using hs, by simpa using hn, by simpa using hd, by simp⟩
  | p :: ps, c :: cs, k :: ks, exps, num, den, r, lims, hs, hn, hd, hp, hc, h => by
    rw [connLoop] at h
    have hlen := hs.length
    have sN : Sc nC nP lims ⟨n2, 4, false⟩ (eMul (eExp num) (eAdd (eAdd (eExp p) (eMul (eMul eBeta (eNum k)) eX)) eGamma) : Expr A) :=
      s_mul (s_exp hn) (s_add (s_add (s_exp (hp p (by simp))) (s_mul (s_mul (s_chal (by simp)) s_num) s_x)) (s_chal (by simp)))
    have sD : Sc nC nP lims ⟨n2, 4, false⟩ (eMul (eExp den) (connFactor p (eExp c)) : Expr A) :=
      s_mul (s_exp hd) (s_add (s_add (s_exp (hp p (by simp))) (s_mul (s_chal (by simp)) (s_exp (hc c (by simp))))) (s_chal (by simp)))
    have b2 : Bnd (lims ++ [⟨n2, 4, false⟩, ⟨n2, 4, false⟩]) (exps.length + 1) n2 4 false := by
      have := bnd_at (lims ++ [⟨n2, 4, false⟩]) [] ⟨n2, 4, false⟩ (i := exps.length + 1) (by simp [hlen])
      rw [List.append_assoc] at this
      exact this
    obtain ⟨more, i1, i2, i3, i4⟩ := connLoop_scoped ps cs ks _ _ _ r (lims ++ [⟨n2, 4, false⟩, ⟨n2, 4, false⟩]) (hs.two sN sD.mono)
      (bnd_at lims [⟨n2, 4, false⟩] ⟨n2, 4, false⟩ (by rw [hlen])) b2 (fun j hj => (hp j (by simp [hj])).mono) (fun j hj => (hc j (by simp [hj])).mono) h
    rw [List.append_assoc] at i1 i2 i3
    refine ⟨_, i1, i2, i3, ?_⟩
    intro m hm
    rcases List.mem_append.mp hm with hm | hm
    · simp at hm
      subst hm; simp
    · exact i4 m hm
  | p :: ps, [], ks, exps, num, den, r, lims, _, _, _, _, _, h => by simp [connLoop] at h
  | p :: ps, c :: cs, [], exps, num, den, r, lims, _, _, _, _, _, h => by simp [connLoop] at h

theorem connZ_scoped {emb : GL.F → A} {l1 : Option Nat} (hl : ∀ l, l1 = some l → l < nC) (h12 : n1 ≤ n2) (h23 : n2 ≤ n3) (st : PilSt A) (ci : ConnId)
    (st1 : PilSt A) (y : PCtx) (lims : List Lim) (hs : Scoped nC nP st.exps lims)
    (hc : (∀ j ∈ ci.pols, Bnd lims j n1 2 false) ∧ ∀ j ∈ ci.conns, Bnd lims j n1 2 false) (hn : st1.nCm ≤ n3) (h : connZOne emb l1 st ci = some (st1, y)) :
    ∃ more, Scoped nC nP st1.exps (lims ++ more) ∧ FracOk n2 n3 y (lims ++ more) ∧ ∀ m ∈ more, m.cols ≤ n3 ∧ m.chals ≤ 4 := by
  unfold connZOne at h
  obtain ⟨h1, h2⟩ := hc
  split at h
  · rename_i p ps c cs hp hc
    obtain ⟨ks, hk, h⟩ := Option.bind_eq_some_iff.mp h
    obtain ⟨r, hr, h⟩ := Option.bind_eq_some_iff.mp h
    obtain ⟨l, hl', h⟩ := Option.map_eq_some_iff.mp h
    obtain ⟨rfl, rfl⟩ := Prod.mk.inj h
    dsimp only at hn ⊢
    have hlen := hs.length
    have g1 : ∀ j ∈ p :: ps, Bnd lims j n2 4 false := fun j hj => (h1 j (by rw [hp]; exact hj)).le h12 (by simp) (by simp)
    have g2 : ∀ j ∈ c :: cs, Bnd lims j n2 4 false := fun j hj => (h2 j (by rw [hc]; exact hj)).le h12 (by simp) (by simp)
    have sN : Sc nC nP lims ⟨n2, 4, false⟩ (connFactor p eX : Expr A) :=
      s_add (s_add (s_exp (g1 p (by simp))) (s_mul (s_chal (by simp)) s_x)) (s_chal (by simp))
    have sD : Sc nC nP lims ⟨n2, 4, false⟩ (connFactor p (eExp c) : Expr A) :=
      s_add (s_add (s_exp (g1 p (by simp))) (s_mul (s_chal (by simp)) (s_exp (g2 c (by simp))))) (s_chal (by simp))
    have b2 : Bnd (lims ++ [⟨n2, 4, false⟩, ⟨n2, 4, false⟩]) (st.exps.length + 1) n2 4 false := by
      have := bnd_at (lims ++ [⟨n2, 4, false⟩]) [] ⟨n2, 4, false⟩ (i := st.exps.length + 1) (by simp [hlen])
      rw [List.append_assoc] at this
      exact this
    obtain ⟨more, i1, i2, i3, i4⟩ := connLoop_scoped ps cs _ _ _ _ r (lims ++ [⟨n2, 4, false⟩, ⟨n2, 4, false⟩]) (hs.two sN sD.mono)
      (bnd_at lims [⟨n2, 4, false⟩] ⟨n2, 4, false⟩ (by rw [hlen])) b2 (fun j hj => (g1 j (by simp [hj])).mono) (fun j hj => (g2 j (by simp [hj])).mono) hr
    rw [List.append_assoc] at i1 i2 i3
    have hlen2 := i1.length
    have fin := i1.two (s_zStart (L := ⟨n3, 4, false⟩) (l := l) (z := st.nCm) (hl l hl') (by dsimp only; omega) rfl)
      (s_zStep (L := ⟨n3, 4, false⟩) (z := st.nCm) (num := r.2.1) (den := r.2.2) (by dsimp only; omega) rfl (i2.mono.le h23 (le_refl _) (by simp))
        (i3.mono.le h23 (le_refl _) (by simp)))
    rw [List.append_assoc] at fin
    refine ⟨_, fin, ⟨?_, ?_, ?_, ?_⟩, ?_⟩
    · rw [← List.append_assoc lims]; exact i2.mono
    · rw [← List.append_assoc lims]; exact i3.mono
    · rw [← List.append_assoc lims]; exact bnd_at _ _ ⟨n3, 4, false⟩ (by rw [hlen2])
    · have := bnd_at ((lims ++ ([⟨n2, 4, false⟩, ⟨n2, 4, false⟩] ++ more)) ++ [⟨n3, 4, false⟩]) [] ⟨n3, 4, false⟩ (i := r.1.length + 1) (by
        rw [List.length_append, hlen2]; rfl)
      rw [List.append_assoc] at this
      rw [← List.append_assoc lims]
      exact this
    · intro m hm
      rcases List.mem_append.mp hm with hm | hm
      · rcases List.mem_append.mp hm with hm | hm
        · simp at hm
          subst hm; exact ⟨h23, by simp⟩
        · obtain ⟨e1, e2⟩ := i4 m hm
          omega
      · simp at hm
        subst hm; simp
  · simp at h

end

/-- the expressions after `generate_step2` and `generate_step3` are in scope; the two sides of a lookup or permutation read the columns of the first
round and two challenges, numerators and denominators read the columns of the first two rounds -/
theorem genArgs_scoped {emb : GL.F → A} {l1 : Option Nat} {st st' : PilSt A} {a : Args} {cx : ArgCtx} (hgen : genArgs emb l1 st a = some (st', cx))
    {lims : List Lim} (hs : Scoped nC nP st.exps lims) (hl : ∀ l, l1 = some l → l < nC) (ha : ArgsScoped a lims st.nCm)
    (hb : ∀ m ∈ lims, m.cols ≤ st.nCm ∧ m.chals ≤ 4) :
    ∃ more, Scoped nC nP st'.exps (lims ++ more) ∧ (∀ m ∈ lims ++ more, m.cols ≤ st'.nCm ∧ m.chals ≤ 4) ∧
      (∀ c ∈ cx.pu, Bnd (lims ++ more) c.fExp st.nCm 2 false ∧ Bnd (lims ++ more) c.tExp st.nCm 2 true) ∧
      ∀ c ∈ cx.pu ++ cx.pe ++ cx.ci, FracOk (st.nCm + 2 * a.plookups.length) st'.nCm c (lims ++ more) := by
  obtain ⟨s2, pu, sl, pe, sp, se, r1, r2, r3, r4, r5⟩ := genArgs_split hgen
  have e1 := (runAll_spec step2One_ext a.plookups st s2 pu r1).2.1
  have e2 := (runAll_spec permLCOne_ext a.permutations s2 sl pe r2).2.1
  have e3 := (runAll_spec (plookupZOne_ext l1) pu sl sp cx.pu r3).2.1
  have e4 := (runAll_spec (permZOne_ext l1) pe sp se cx.pe r4).2.1
  have e5 := (runAll_spec (connZOne_ext emb l1) a.connections se st' cx.ci r5).2.1
  have h12 : st.nCm ≤ st.nCm + 2 * a.plookups.length := by omega
  have h23 : st.nCm + 2 * a.plookups.length ≤ st'.nCm := by omega
  have h13 : st.nCm ≤ st'.nCm := by omega
  obtain ⟨m1, i1, i2, i3⟩ := runAll_scoped (nC := nC) (nP := nP) (n3 := st.nCm + 2 * a.plookups.length)
    (Pre := fun pi lims => pi.f ≠ [] ∧ pi.t ≠ [] ∧ (∀ j ∈ pi.f, Bnd lims j st.nCm 2 false) ∧ (∀ j ∈ pi.t, Bnd lims j st.nCm 2 true) ∧
      (∀ k, pi.selF = some k → Bnd lims k st.nCm 2 false) ∧ ∀ k, pi.selT = some k → Bnd lims k st.nCm 2 true)
    (Post := SidesOk st.nCm (st.nCm + 2 * a.plookups.length))
    (fun x l m ⟨h1, h2, h3, h4, h5, h6⟩ => ⟨h1, h2, fun j hj => (h3 j hj).mono, fun j hj => (h4 j hj).mono, fun j hj => (h5 j hj).mono, fun j hj => (h6 j hj).mono⟩)
    (fun y l m ⟨h1, h2, h3, h4⟩ => ⟨h1.mono, h2.mono, h3, h4⟩) step2One_ext
    (fun s x s1 y l h1 h2 h3 h4 => step2_scoped (le_refl _) h12 s x s1 y l h1 h2 h3 h4) a.plookups st s2 pu lims hs ha.lookup (by omega) r1
  obtain ⟨m2, j1, j2, j3⟩ := runAll_scoped (nC := nC) (nP := nP) (n3 := st'.nCm)
    (Pre := fun pi lims => pi.f ≠ [] ∧ pi.t ≠ [] ∧ (∀ j ∈ pi.f, Bnd lims j st.nCm 2 false) ∧ (∀ j ∈ pi.t, Bnd lims j st.nCm 2 false) ∧
      (∀ k, pi.selF = some k → Bnd lims k st.nCm 2 false) ∧ ∀ k, pi.selT = some k → Bnd lims k st.nCm 2 false)
    (Post := fun y lims => Bnd lims y.fExp st.nCm 2 false ∧ Bnd lims y.tExp st.nCm 2 false)
    (fun x l m ⟨h1, h2, h3, h4, h5, h6⟩ => ⟨h1, h2, fun j hj => (h3 j hj).mono, fun j hj => (h4 j hj).mono, fun j hj => (h5 j hj).mono, fun j hj => (h6 j hj).mono⟩)
    (fun y l m ⟨h1, h2⟩ => ⟨h1.mono, h2.mono⟩) permLCOne_ext
    (fun s x s1 y l h1 h2 _ h4 => permLC_scoped h13 s x s1 y l h1 h2 h4) a.permutations s2 sl pe (lims ++ m1) i1
    (fun x hx => by
      obtain ⟨h1, h2, h3, h4, h5, h6⟩ := ha.perm x hx
      exact ⟨h1, h2, fun j hj => (h3 j hj).mono, fun j hj => (h4 j hj).mono, fun j hj => (h5 j hj).mono, fun j hj => (h6 j hj).mono⟩) (by omega) r2
  obtain ⟨m3, k1, k2, k3⟩ := runAll_scoped (nC := nC) (nP := nP) (n3 := st'.nCm) (Pre := SidesOk st.nCm (st.nCm + 2 * a.plookups.length))
    (Post := fun y l => SidesOk st.nCm (st.nCm + 2 * a.plookups.length) y l ∧ FracOk (st.nCm + 2 * a.plookups.length) st'.nCm y l)
    (fun y l m ⟨h1, h2, h3, h4⟩ => ⟨h1.mono, h2.mono, h3, h4⟩)
    (fun y l m ⟨⟨h1, h2, h3, h4⟩, g1, g2, g3, g4⟩ => ⟨⟨h1.mono, h2.mono, h3, h4⟩, g1.mono, g2.mono, g3.mono, g4.mono⟩) (plookupZOne_ext l1)
    (fun s x s1 y l h1 h2 h3 h4 => plookupZ_scoped hl h12 h23 s x s1 y l h1 h2 h3 h4) pu sl sp cx.pu (lims ++ m1 ++ m2) j1
    (fun x hx => by obtain ⟨h1, h2, h3, h4⟩ := i2 x hx; exact ⟨h1.mono, h2.mono, h3, h4⟩) (by omega) r3
  obtain ⟨m4, l1', l2, l3⟩ := runAll_scoped (nC := nC) (nP := nP) (n3 := st'.nCm)
    (Pre := fun y lims => Bnd lims y.fExp st.nCm 2 false ∧ Bnd lims y.tExp st.nCm 2 false) (Post := FracOk (st.nCm + 2 * a.plookups.length) st'.nCm)
    (fun y l m ⟨h1, h2⟩ => ⟨h1.mono, h2.mono⟩) (fun y l m ⟨g1, g2, g3, g4⟩ => ⟨g1.mono, g2.mono, g3.mono, g4.mono⟩) (permZOne_ext l1)
    (fun s x s1 y l h1 h2 h3 h4 => permZ_scoped hl h12 h23 s x s1 y l h1 h2 h3 h4) pe sp se cx.pe (lims ++ m1 ++ m2 ++ m3) k1
    (fun x hx => by obtain ⟨h1, h2⟩ := j2 x hx; exact ⟨h1.mono, h2.mono⟩) (by omega) r4
  obtain ⟨m5, n1, n2, n3⟩ := runAll_scoped (nC := nC) (nP := nP) (n3 := st'.nCm)
    (Pre := fun (ci : ConnId) lims => (∀ j ∈ ci.pols, Bnd lims j st.nCm 2 false) ∧ ∀ j ∈ ci.conns, Bnd lims j st.nCm 2 false)
    (Post := FracOk (st.nCm + 2 * a.plookups.length) st'.nCm)
    (fun y l m ⟨h1, h2⟩ => ⟨fun j hj => (h1 j hj).mono, fun j hj => (h2 j hj).mono⟩)
    (fun y l m ⟨g1, g2, g3, g4⟩ => ⟨g1.mono, g2.mono, g3.mono, g4.mono⟩) (connZOne_ext emb l1)
    (fun s x s1 y l h1 h2 h3 h4 => connZ_scoped hl h12 h23 s x s1 y l h1 h2 h3 h4) a.connections se st' cx.ci (lims ++ m1 ++ m2 ++ m3 ++ m4) l1'
    (fun x hx => by
      obtain ⟨h1, h2⟩ := ha.conn x hx
      exact ⟨fun j hj => (h1 j hj).mono.mono.mono.mono, fun j hj => (h2 j hj).mono.mono.mono.mono⟩) (by omega) r5
  have eq : lims ++ (m1 ++ m2 ++ m3 ++ m4 ++ m5) = lims ++ m1 ++ m2 ++ m3 ++ m4 ++ m5 := by simp
  refine ⟨m1 ++ m2 ++ m3 ++ m4 ++ m5, by rw [eq]; exact n1, ?_, ?_, ?_⟩
  · intro m hm
    rw [eq] at hm
    simp only [List.mem_append] at hm
    rcases hm with ((((hm | hm) | hm) | hm) | hm) | hm
    · have := hb m hm; omega
    · have := i3 m hm; omega
    · exact j3 m hm
    · exact k3 m hm
    · exact l3 m hm
    · exact n3 m hm
  · intro c hc
    rw [eq]
    exact ⟨(k2 c hc).1.1.mono.mono, (k2 c hc).1.2.1.mono.mono⟩
  · intro c hc
    rw [eq]
    rcases List.mem_append.mp hc with hc | hc
    · rcases List.mem_append.mp hc with hc | hc
      · obtain ⟨g1, g2, g3, g4⟩ := (k2 c hc).2
        exact ⟨g1.mono.mono, g2.mono.mono, g3.mono.mono, g4.mono.mono⟩
      · obtain ⟨g1, g2, g3, g4⟩ := l2 c hc
        exact ⟨g1.mono, g2.mono, g3.mono, g4.mono⟩
    · exact n2 c hc

end Verif.Grand
