import Verif.Model.PFBusData
import Mathlib.Tactic.Ring
import Mathlib.Tactic.Linarith
import Mathlib.Tactic.FieldSimp
import Mathlib.Tactic.NormNum

/-! Lemmas about the bus data of the power flow. -/
namespace GridPACK.PFBusData

/-! ### Loading -/

theorem normalise_some {gs gs' : List Gen} (h : normalise gs = some gs') :
    (∃ f : Gen → ℝ, ∃ k : Gen → ℝ, gs' = gs.map (fun g => { g with pFac := f g, pFacOrig := k g })) ∨
    ∃ g r, gs = g :: r ∧ gs' = { g with pFac := 1, pFacOrig := 1 } :: r := by
  unfold normalise at h
  simp only [] at h
  split at h
  · simp only [Option.some.injEq] at h
    exact Or.inl ⟨_, _, h.symm⟩
  · cases gs with
    | nil => simp at h
    | cons g r =>
      simp only [Option.some.injEq] at h
      exact Or.inr ⟨g, r, rfl, h.symm⟩

/-- Normalising changes nothing but the participation factors. -/
theorem normalise_map {α : Type} {gs gs' : List Gen} (h : normalise gs = some gs') (f : Gen → α)
    (hf : ∀ (g : Gen) a b, f { g with pFac := a, pFacOrig := b } = f g) : gs'.map f = gs.map f := by
  rcases normalise_some h with ⟨k, j, rfl⟩ | ⟨g, r, rfl, rfl⟩
  · rw [List.map_map]
    exact List.map_congr_left (fun g _ => hf g _ _)
  · simp [hf]

theorem load_some {d : Data} {b b' : Bus} (h : load d b = some b') :
    (∃ gens, (match d.gens with
        | none => some []
        | some _ => normalise (((d.gens.getD []).filterMap genOf).map Prod.fst)) = some gens ∧ b'.gens = gens) ∧
    b'.savePg = b.savePg ++ ((d.gens.getD []).filterMap genOf).map (fun g : Gen × ℝ => g.1.pg) ∧
    b'.loads = (d.loads.getD []).filterMap loadOf ∧
    b'.savePl = b.savePl ++ ((d.loads.getD []).filterMap loadOf).map Load.pl ∧
    b'.saveQl = b.saveQl ++ ((d.loads.getD []).filterMap loadOf).map Load.ql ∧
    b'.sbase = d.sbase ∧
    b'.v = ((d.gens.getD []).filterMap genOf).foldl (fun v g => if g.1.status = 1 then g.2 else v) d.vmag ∧
    b'.voltage = d.vmag ∧
    b'.ref = (if d.type = 3 then true else b.ref) ∧
    b'.isPV = (((d.gens.getD []).filterMap genOf).any (fun g => decide (g.1.status = 1)) && decide (d.type = 2)) ∧
    b'.saveIsPV = b'.isPV ∧
    b'.area = d.area.getD 1 ∧ b'.zone = d.zone.getD 1 := by
  unfold load at h
  simp only [] at h
  split at h
  · simp at h
  · next gens hg =>
    simp only [Option.some.injEq] at h
    subst h
    exact ⟨⟨gens, hg, rfl⟩, rfl, rfl, rfl, rfl, rfl, rfl, rfl, rfl, rfl, rfl, rfl, rfl⟩

/-- The generators of a loaded bus are the complete records of the data, up to the participation factors. -/
theorem load_gens {α : Type} {d : Data} {b b' : Bus} (h : load d b = some b') (f : Gen → α)
    (hf : ∀ (g : Gen) x y, f { g with pFac := x, pFacOrig := y } = f g) :
    b'.gens.map f = ((d.gens.getD []).filterMap genOf).map (fun g => f g.1) := by
  obtain ⟨⟨gens, hg, e⟩, -⟩ := load_some h
  rw [e]
  cases hd : d.gens with
  | none =>
    rw [hd] at hg
    simp only [Option.some.injEq] at hg
    subst hg
    simp
  | some l =>
    rw [hd] at hg
    simp only [] at hg
    rw [normalise_map hg f hf, List.map_map]
    rfl

theorem load_savePg {d : Data} {b b' : Bus} (h : load d b = some b') :
    b'.savePg = b.savePg ++ b'.gens.map Gen.pg := by
  rw [load_gens h Gen.pg (fun _ _ _ => rfl)]
  exact (load_some h).2.1

theorem load_savePl {d : Data} {b b' : Bus} (h : load d b = some b') :
    b'.savePl = b.savePl ++ b'.loads.map Load.pl := by
  rw [(load_some h).2.2.1]
  exact (load_some h).2.2.2.1

theorem load_saveQl {d : Data} {b b' : Bus} (h : load d b = some b') :
    b'.saveQl = b.saveQl ++ b'.loads.map Load.ql := by
  rw [(load_some h).2.2.1]
  exact (load_some h).2.2.2.2.1

/-! ### Restoring -/

theorem restorePg_pg : ∀ (gs : List Gen) (ps : List ℝ), gs.length ≤ ps.length →
    (restorePg gs ps).map Gen.pg = ps.take gs.length := by
  intro gs
  induction gs with
  | nil => intro ps _; cases ps <;> simp [restorePg]
  | cons g gs ih =>
    intro ps h
    cases ps with
    | nil => simp at h
    | cons p ps =>
      have := ih ps (by simpa using h)
      simp [restorePg, this]

theorem restorePg_map {α : Type} (f : Gen → α) (hf : ∀ (g : Gen) x, f { g with pg := x } = f g) :
    ∀ (gs : List Gen) (ps : List ℝ), (restorePg gs ps).map f = gs.map f := by
  intro gs
  induction gs with
  | nil => intro ps; cases ps <;> simp [restorePg]
  | cons g gs ih =>
    intro ps
    cases ps with
    | nil => simp [restorePg]
    | cons p ps => simp [restorePg, ih ps, hf]

theorem restoreLoads_pl : ∀ (ls : List Load) (ps qs : List ℝ), ls.length ≤ ps.length → ls.length ≤ qs.length →
    (restoreLoads ls ps qs).map (fun l => (l.pl, l.ql)) = (ps.take ls.length).zip (qs.take ls.length) := by
  intro ls
  induction ls with
  | nil => intro ps qs _ _; simp [restoreLoads]
  | cons l ls ih =>
    intro ps qs h1 h2
    cases ps with
    | nil => simp at h1
    | cons p ps =>
      cases qs with
      | nil => simp at h2
      | cons q qs =>
        have := ih ps qs (by simpa using h1) (by simpa using h2)
        simp [restoreLoads, this]

theorem restoreLoads_map {α : Type} (f : Load → α) (hf : ∀ (l : Load) x y, f { l with pl := x, ql := y } = f l) :
    ∀ (ls : List Load) (ps qs : List ℝ), (restoreLoads ls ps qs).map f = ls.map f := by
  intro ls
  induction ls with
  | nil => intro ps qs; simp [restoreLoads]
  | cons l ls ih =>
    intro ps qs
    cases ps with
    | nil => simp [restoreLoads]
    | cons p ps =>
      cases qs with
      | nil => simp [restoreLoads]
      | cons q qs => simp [restoreLoads, ih ps qs, hf]

/-! ### Functions that keep the identities -/

theorem setGenStatusL_map {α : Type} (tag : String) (s : Bool) (f : Gen → α)
    (hf : ∀ (g : Gen) a b c e, f { g with status := a, pFac := b, qmax := c, qmin := e } = f g) :
    ∀ gs : List Gen, (setGenStatusL tag s gs).map f = gs.map f := by
  intro gs
  induction gs with
  | nil => rfl
  | cons g gs ih =>
    unfold setGenStatusL
    by_cases h : tag = g.id
    · rw [if_pos h]; cases s <;> simp [hf]
    · rw [if_neg h, List.map_cons, List.map_cons, ih]

theorem scaleGenL_map {α : Type} (tag : String) (x : ℝ) (f : Gen → α) (hf : ∀ (g : Gen) p, f { g with pg := p } = f g) :
    ∀ gs : List Gen, (scaleGenL tag x gs).map f = gs.map f := by
  intro gs
  induction gs with
  | nil => rfl
  | cons g gs ih =>
    unfold scaleGenL
    by_cases h : g.id = tag ∧ g.status ≠ 0
    · rw [if_pos h]
      by_cases hx : x > 0 <;> simp [hx, hf]
    · rw [if_neg h, List.map_cons, List.map_cons, ih]

theorem scaleLoadL_map {α : Type} (tag : String) (x : ℝ) (f : Load → α)
    (hf : ∀ (l : Load) p q, f { l with pl := p, ql := q } = f l) :
    ∀ ls : List Load, (scaleLoadL tag x ls).map f = ls.map f := by
  intro ls
  induction ls with
  | nil => rfl
  | cons l ls ih =>
    unfold scaleLoadL
    by_cases h : l.id = tag ∧ l.status = 1
    · rw [if_pos h]; simp [hf]
    · rw [if_neg h, List.map_cons, List.map_cons, ih]

theorem modify_map {α β : Type} (f : α → β) (k : α → α) (hf : ∀ a, f (k a) = f a) :
    ∀ (l : List α) (i : Nat), (l.modify i k).map f = l.map f := by
  intro l
  induction l with
  | nil => intro i; cases i <;> simp
  | cons a l ih =>
    intro i
    cases i with
    | zero => simp [hf]
    | succ i => simp [ih]

end GridPACK.PFBusData
