import Verif.Lemmas.DaeMatrix
import Verif.Lemmas.DaeDerivCtl

/-! The assignments of each device hit different entries of its own rows. -/
namespace GridPACK.Dae

theorem Cls.tidy (p : Cls) (m : Mode) (s : ℝ) (X : Ix → ℝ) (b c : ℕ) : Tidy 2 b c (p.jac m s X) := by
  cases m <;> exact Tidy.of_keys rfl rfl

theorem Cls.rows (p : Cls) (m : Mode) (s : ℝ) (X : Ix → ℝ) : ∀ w ∈ p.jac m s X, w.r.kind = 0 := by
  cases m <;> simp [Cls.jac, set, plus, Ix.kind]

/-- The names in the two lists are those of the variables of the controls. -/
structure Drive.Named (u : Drive) : Prop where
  exc : u.dEfd.map Prod.fst = [] ∧ u.hasExc = false ∨
    u.dEfd.map Prod.fst = [.exc 0, .exc 1, .exc 2, .exc 3, .exc 4] ∧ u.hasExc = true
  gov : u.dPmech.map Prod.fst = [] ∨ u.dPmech.map Prod.fst = [.gov 0, .gov 1, .gov 2, .gov 3, .gov 4, .gov 5]

theorem keys_mapSet (l : List (Ix × ℝ)) (r : Ix) (f : ℝ → ℝ) :
    (l.map (fun e => set e.1 r (f e.2))).map key = (l.map Prod.fst).map (fun ix => (ix.code, r.code, false)) := by
  simp [key, set, Function.comp_def]

/-- Numbers of variables of the controls. -/
def Drive.ne (u : Drive) : ℕ := u.dEfd.length
@[inherit_doc Drive.ne] def Drive.nv (u : Drive) : ℕ := u.dPmech.length

theorem all_mapSet (l : List (Ix × ℝ)) (r : Ix) (f : ℝ → ℝ) (a b c : ℕ) :
    (l.map (fun e => set e.1 r (f e.2))).all (keyOk a b c) = (l.map Prod.fst).all (fun ix => keyOk a b c (set ix r 0)) := by
  simp [keyOk, set, Function.comp_def]

theorem Rou.tidy (p : Rou) (X : Ix → ℝ) (u : Drive) (hu : u.Named) (m : Mode) (s : ℝ) :
    Tidy 6 u.ne u.nv (p.jac X u m s) := by
  cases m
  · have hne : u.ne = (u.dEfd.map Prod.fst).length := by simp [Drive.ne]
    have hnv : u.nv = (u.dPmech.map Prod.fst).length := by simp [Drive.nv]
    rw [hne, hnv]
    apply Tidy.of_keys
    · simp only [Rou.jac, Rou.jacRows, List.map_append]
      rw [keys_mapSet u.dPmech (.gen 1) (fun x => 1 / (2 * p.H) * x / (1 + X (.gen 1))),
        keys_mapSet u.dEfd (.gen 2) (fun x => x / p.Tdop)]
      rcases hu.exc with ⟨h1, h2⟩ | ⟨h1, h2⟩ <;> rcases hu.gov with h3 | h3 <;> rw [h1, h2, h3] <;> rfl
    · simp only [Rou.jac, Rou.jacRows, List.all_append]
      rw [all_mapSet u.dPmech (.gen 1) (fun x => 1 / (2 * p.H) * x / (1 + X (.gen 1))),
        all_mapSet u.dEfd (.gen 2) (fun x => x / p.Tdop)]
      rcases hu.exc with ⟨h1, h2⟩ | ⟨h1, h2⟩ <;> rcases hu.gov with h3 | h3 <;> rw [h1, h2, h3] <;> rfl
  · exact Tidy.of_keys rfl rfl

theorem kind_of_all {ws : List (Wr Ix)} {n : ℕ} (h : ws.all (fun w => Nat.beq w.r.kind n) = true) :
    ∀ w ∈ ws, w.r.kind = n := by
  intro w hw
  exact Nat.eq_of_beq_eq_true (List.all_eq_true.mp h w hw)

theorem kind_mapSet (l : List (Ix × ℝ)) (r : Ix) (f : ℝ → ℝ) (n : ℕ) (hr : Nat.beq r.kind n = true) :
    (l.map (fun e => set e.1 r (f e.2))).all (fun w => Nat.beq w.r.kind n) = true := by
  simp only [List.all_map, Function.comp_def, set, hr]
  simp

theorem Rou.rows (p : Rou) (X : Ix → ℝ) (u : Drive) (m : Mode) (s : ℝ) : ∀ w ∈ p.jac X u m s, w.r.kind = 0 := by
  apply kind_of_all
  cases m
  · simp only [Rou.jac, Rou.jacRows, List.all_append]
    rw [kind_mapSet u.dPmech (.gen 1) (fun x => 1 / (2 * p.H) * x / (1 + X (.gen 1))) 0 rfl,
      kind_mapSet u.dEfd (.gen 2) (fun x => x / p.Tdop) 0 rfl]
    cases u.hasExc <;> rfl
  · rfl

theorem Sal.tidy (p : Sal) (X : Ix → ℝ) (u : Drive) (hu : u.Named) (m : Mode) (s : ℝ) :
    Tidy 5 u.ne u.nv (p.jac X u m s) := by
  cases m
  · have hne : u.ne = (u.dEfd.map Prod.fst).length := by simp [Drive.ne]
    have hnv : u.nv = (u.dPmech.map Prod.fst).length := by simp [Drive.nv]
    rw [hne, hnv]
    apply Tidy.of_keys
    · simp only [Sal.jac, Sal.jacRows, List.map_append]
      rw [keys_mapSet u.dPmech (.gen 1) (fun x => 1 / (2 * p.H) * x / (1 + X (.gen 1))),
        keys_mapSet u.dEfd (.gen 2) (fun x => x / p.Tdop)]
      rcases hu.exc with ⟨h1, h2⟩ | ⟨h1, h2⟩ <;> rcases hu.gov with h3 | h3 <;> rw [h1, h2, h3] <;> rfl
    · simp only [Sal.jac, Sal.jacRows, List.all_append]
      rw [all_mapSet u.dPmech (.gen 1) (fun x => 1 / (2 * p.H) * x / (1 + X (.gen 1))),
        all_mapSet u.dEfd (.gen 2) (fun x => x / p.Tdop)]
      rcases hu.exc with ⟨h1, h2⟩ | ⟨h1, h2⟩ <;> rcases hu.gov with h3 | h3 <;> rw [h1, h2, h3] <;> rfl
  · exact Tidy.of_keys rfl rfl

theorem Sal.rows (p : Sal) (X : Ix → ℝ) (u : Drive) (m : Mode) (s : ℝ) : ∀ w ∈ p.jac X u m s, w.r.kind = 0 := by
  apply kind_of_all
  cases m
  · simp only [Sal.jac, Sal.jacRows, List.all_append]
    rw [kind_mapSet u.dPmech (.gen 1) (fun x => 1 / (2 * p.H) * x / (1 + X (.gen 1))) 0 rfl,
      kind_mapSet u.dEfd (.gen 2) (fun x => x / p.Tdop) 0 rfl]
    cases u.hasExc <;> rfl
  · rfl

theorem Exdc1.tidy (e : Exdc1) (X : Ix → ℝ) (m : Mode) (s : ℝ) (a c : ℕ) : Tidy a 5 c (e.jac X m s) := by
  cases m <;> simp only [Exdc1.jac] <;>
    cases e.diff0 <;> cases e.diff1 <;> cases e.diff2 <;> cases e.VRatmin <;> cases e.VRatmax <;>
    exact Tidy.of_keys rfl rfl

theorem Exdc1.rows (e : Exdc1) (X : Ix → ℝ) (m : Mode) (s : ℝ) : ∀ w ∈ e.jac X m s, w.r.kind = 1 := by
  apply kind_of_all
  cases m <;> simp only [Exdc1.jac] <;>
    cases e.diff0 <;> cases e.diff1 <;> cases e.diff2 <;> cases e.VRatmin <;> cases e.VRatmax <;> rfl

set_option maxHeartbeats 1000000 in
theorem Esst1a.tidy (e : Esst1a) (X : Ix → ℝ) (m : Mode) (s : ℝ) (a c : ℕ) : Tidy a 5 c (e.jac X m s) := by
  cases m <;> simp only [Esst1a.jac] <;>
    cases e.diff0 <;> cases e.diff1 <;> cases e.diff2 <;> cases e.diff3 <;> cases e.Vaatmin || e.Vaatmax <;>
    cases e.free <;> exact Tidy.of_keys rfl rfl

theorem Esst1a.rows (e : Esst1a) (X : Ix → ℝ) (m : Mode) (s : ℝ) : ∀ w ∈ e.jac X m s, w.r.kind = 1 := by
  apply kind_of_all
  cases m <;> simp only [Esst1a.jac] <;>
    cases e.diff0 <;> cases e.diff1 <;> cases e.diff2 <;> cases e.diff3 <;> cases e.Vaatmin || e.Vaatmax <;>
    cases e.free <;> rfl

theorem Wsieg1.lagJac_keys (T s : ℝ) (k : ℕ) : (Wsieg1.lagJac T s k).map key =
    [((Ix.gov k).code, (Ix.gov (k + 1)).code, false), ((Ix.gov (k + 1)).code, (Ix.gov (k + 1)).code, false)] := by
  unfold Wsieg1.lagJac
  split <;> rfl

theorem Wsieg1.lagJac_all (T s : ℝ) (k a b c : ℕ) : (Wsieg1.lagJac T s k).all (keyOk a b c) =
    [set (Ix.gov k) (.gov (k + 1)) 0, set (.gov (k + 1)) (.gov (k + 1)) 0].all (keyOk a b c) := by
  unfold Wsieg1.lagJac
  split <;> rfl

set_option maxHeartbeats 1000000 in
theorem Wsieg1.tidy (g : Wsieg1) (loc : Ix) (hl : loc = .gen 1 ∨ loc = .net 0) (m : Mode) (s : ℝ) (a b : ℕ) (ha : 2 ≤ a) :
    Tidy a b 6 (g.jac loc m s) := by
  suffices h : Tidy 2 b 6 (g.jac loc m s) by
    exact ⟨h.fresh, fun w hw => (h.col w hw).mono ha le_rfl le_rfl, fun w hw => (h.row w hw).mono ha le_rfl le_rfl, h.own⟩
  rcases hl with rfl | rfl
  all_goals
    cases m
    · apply Tidy.of_keys
      · simp only [Wsieg1.jac, List.map_append, Wsieg1.lagJac_keys]
        cases g.diff0 <;> cases g.xatmin || g.xatmax <;> cases !g.uatmin && !g.uatmax <;> rfl
      · simp only [Wsieg1.jac, List.all_append, Wsieg1.lagJac_all]
        cases g.diff0 <;> cases g.xatmin || g.xatmax <;> cases !g.uatmin && !g.uatmax <;> rfl
    · simp only [Wsieg1.jac, Wsieg1.lagFault]
      cases g.diff0 <;>
        cases Wsieg1.lag g.T4 <;> cases Wsieg1.lag g.T5 <;> cases Wsieg1.lag g.T6 <;> cases Wsieg1.lag g.T7 <;>
        exact Tidy.of_keys rfl rfl

theorem Wsieg1.rows (g : Wsieg1) (loc : Ix) (m : Mode) (s : ℝ) : ∀ w ∈ g.jac loc m s, w.r.kind = 2 := by
  apply kind_of_all
  cases m
  · simp only [Wsieg1.jac, Wsieg1.lagJac]
    cases g.diff0 <;> cases g.xatmin || g.xatmax <;> cases !g.uatmin && !g.uatmax <;>
      cases Wsieg1.lag g.T4 <;> cases Wsieg1.lag g.T5 <;> cases Wsieg1.lag g.T6 <;> cases Wsieg1.lag g.T7 <;> rfl
  · simp only [Wsieg1.jac, Wsieg1.lagFault]
    cases g.diff0 <;>
      cases Wsieg1.lag g.T4 <;> cases Wsieg1.lag g.T5 <;> cases Wsieg1.lag g.T6 <;> cases Wsieg1.lag g.T7 <;> rfl

/-! ### A generator with its controls -/

theorem Gen.drive_named (g : Gen) (X : Ix → ℝ) : (g.drive X).Named ∧ (g.drive X).ne = g.nexc ∧ (g.drive X).nv = g.ngov := by
  refine ⟨⟨?_, ?_⟩, ?_, ?_⟩
  · rcases h : g.exc with _ | ⟨_⟩ | ⟨_⟩ <;> simp [Gen.drive, h, Exdc1.dEfd, Esst1a.dEfd]
  · rcases h : g.gov with _ | _ <;> simp [Gen.drive, h, Wsieg1.dPmech]
  · rcases h : g.exc with _ | ⟨_⟩ | ⟨_⟩ <;> simp [Gen.drive, Gen.nexc, Drive.ne, h, Exdc1.dEfd, Esst1a.dEfd]
  · rcases h : g.gov with _ | _ <;> simp [Gen.drive, Gen.ngov, Drive.nv, h, Wsieg1.dPmech]

/-- The names belonging to a generator. -/
def Gen.Valid (g : Gen) (ix : Ix) : Prop := ix.Valid g.mach.size g.nexc g.ngov

theorem Gen.tidy (g : Gen) (m : Mode) (s : ℝ) (X : Ix → ℝ) : Tidy g.mach.size g.nexc g.ngov (g.jac m s X) := by
  obtain ⟨hu, hne, hnv⟩ := g.drive_named X
  have hnil : ∀ a b c, Tidy a b c [] := fun a b c => ⟨List.Pairwise.nil, by simp, by simp, by simp⟩
  have hm : Tidy g.mach.size g.nexc g.ngov (match g.mach with
      | .cls p => p.jac m s X
      | .rou p => p.jac X (g.drive X) m s
      | .sal p => p.jac X (g.drive X) m s) ∧ ∀ w ∈ (match g.mach with
      | .cls p => p.jac m s X
      | .rou p => p.jac X (g.drive X) m s
      | .sal p => p.jac X (g.drive X) m s), w.r.kind = 0 := by
    cases g.mach with
    | cls p => exact ⟨p.tidy m s X _ _, p.rows m s X⟩
    | rou p => exact ⟨hne ▸ hnv ▸ p.tidy X _ hu m s, p.rows X _ m s⟩
    | sal p => exact ⟨hne ▸ hnv ▸ p.tidy X _ hu m s, p.rows X _ m s⟩
  have he : Tidy g.mach.size g.nexc g.ngov (match g.exc with
      | none => []
      | some (.exdc1 e) => e.jac X m s
      | some (.esst1a e _) => e.jac X m s) ∧ ∀ w ∈ (match g.exc with
      | none => []
      | some (.exdc1 e) => e.jac X m s
      | some (.esst1a e _) => e.jac X m s), w.r.kind = 1 := by
    rcases h : g.exc with _ | e | ⟨e, VT⟩
    · exact ⟨hnil _ _ _, by simp⟩
    · have : g.nexc = 5 := by simp [Gen.nexc, h]
      rw [this]
      exact ⟨e.tidy X m s _ _, e.rows X m s⟩
    · have : g.nexc = 5 := by simp [Gen.nexc, h]
      rw [this]
      exact ⟨e.tidy X m s _ _, e.rows X m s⟩
  have hv : Tidy g.mach.size g.nexc g.ngov (match g.gov with
      | none => []
      | some w => w.jac g.dwLoc m s) ∧ ∀ w ∈ (match g.gov with
      | none => []
      | some w => w.jac g.dwLoc m s), w.r.kind = 2 := by
    rcases h : g.gov with _ | w
    · exact ⟨hnil _ _ _, by simp⟩
    · have : g.ngov = 6 := by simp [Gen.ngov, h]
      rw [this]
      refine ⟨w.tidy _ ?_ m s _ _ ?_, w.rows _ m s⟩
      · unfold Gen.dwLoc
        cases g.mach <;> simp
      · cases g.mach <;> simp [Mach.size]
  unfold Gen.jac
  refine Tidy.append (Tidy.append hm.1 he.1 ?_) hv.1 ?_
  · intro w hw v hv' h
    have h1 := hm.2 w hw
    have h2 := he.2 v hv'
    rw [h, h2] at h1
    cases h1
  · intro w hw v hv' h
    have h2 := hv.2 v hv'
    rcases List.mem_append.mp hw with hw | hw
    · have h1 := hm.2 w hw
      rw [h, h2] at h1
      cases h1
    · have h1 := he.2 w hw
      rw [h, h2] at h1
      cases h1

end GridPACK.Dae
