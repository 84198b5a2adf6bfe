import Verif.Lemmas.DaeTidy
import Verif.Spec.DaeJacobian

/-! Derivatives of the equations of a generator with its controls, and the places of its variables. -/
namespace GridPACK.Dae

theorem lin_zero_of_kind {ws : List (Wr Ix)} {n : ℕ} (h : ∀ w ∈ ws, w.r.kind = n) (d : Ix → ℝ) {r : Ix} (hr : r.kind ≠ n) :
    lin ws d r = 0 := by
  unfold lin
  apply sum_eq_zero_of_forall
  intro x hx
  obtain ⟨w, hw, rfl⟩ := List.mem_map.mp hx
  rw [if_neg]
  rintro rfl
  exact hr (h w hw)

namespace Gen
variable (g : Gen) {Y : ℝ → Ix → ℝ} {Z : ℝ → Ix → ℝ} {d : Ix → ℝ} {s : ℝ}

/-- The assignments of the machine. -/
noncomputable def machJac (m : Mode) (shift : ℝ) (X : Ix → ℝ) : List (Wr Ix) :=
  match g.mach with
    | .cls p => p.jac m shift X
    | .rou p => p.jac X (g.drive X) m shift
    | .sal p => p.jac X (g.drive X) m shift

/-- The assignments of the exciter. -/
noncomputable def excJac (m : Mode) (shift : ℝ) (X : Ix → ℝ) : List (Wr Ix) :=
  match g.exc with
    | none => []
    | some (.exdc1 e) => e.jac X m shift
    | some (.esst1a e _) => e.jac X m shift

/-- The assignments of the governor. -/
noncomputable def govJac (m : Mode) (shift : ℝ) : List (Wr Ix) :=
  match g.gov with
    | none => []
    | some w => w.jac g.dwLoc m shift

theorem jac_eq (m : Mode) (X : Ix → ℝ) : g.jac m s X = g.machJac m s X ++ g.excJac m s X ++ g.govJac m s := rfl

theorem machJac_kind (m : Mode) (X : Ix → ℝ) : ∀ w ∈ g.machJac m s X, w.r.kind = 0 := by
  unfold machJac
  cases g.mach with
  | cls p => exact p.rows m s X
  | rou p => exact p.rows X _ m s
  | sal p => exact p.rows X _ m s

theorem excJac_kind (m : Mode) (X : Ix → ℝ) : ∀ w ∈ g.excJac m s X, w.r.kind = 1 := by
  unfold excJac
  rcases g.exc with _ | e | ⟨e, VT⟩
  · simp
  · exact e.rows X m s
  · exact e.rows X m s

theorem govJac_kind (m : Mode) : ∀ w ∈ g.govJac m s, w.r.kind = 2 := by
  unfold govJac
  rcases g.gov with _ | w
  · simp
  · exact w.rows _ m s

theorem lin_jac_mach (m : Mode) (X : Ix → ℝ) {r : Ix} (hr : r.kind = 0) : lin (g.jac m s X) d r = lin (g.machJac m s X) d r := by
  rw [jac_eq, lin_append, lin_append, lin_zero_of_kind (g.excJac_kind m X) d (by simp [hr]),
    lin_zero_of_kind (g.govJac_kind m) d (by simp [hr])]
  ring

theorem lin_jac_exc (m : Mode) (X : Ix → ℝ) {r : Ix} (hr : r.kind = 1) : lin (g.jac m s X) d r = lin (g.excJac m s X) d r := by
  rw [jac_eq, lin_append, lin_append, lin_zero_of_kind (g.machJac_kind m X) d (by simp [hr]),
    lin_zero_of_kind (g.govJac_kind m) d (by simp [hr])]
  ring

theorem lin_jac_gov (m : Mode) (X : Ix → ℝ) {r : Ix} (hr : r.kind = 2) : lin (g.jac m s X) d r = lin (g.govJac m s) d r := by
  rw [jac_eq, lin_append, lin_append, lin_zero_of_kind (g.machJac_kind m X) d (by simp [hr]),
    lin_zero_of_kind (g.excJac_kind m X) d (by simp [hr])]
  ring

section
variable (hY : ∀ ix, HasDerivAt (fun t => Y t ix) (d ix) 0)
include hY

theorem fieldCurrent_cont : ContinuousAt (fun t => g.fieldCurrent (Y t)) 0 := by
  unfold fieldCurrent
  cases g.mach with
  | cls p => exact continuousAt_const
  | rou p => exact (p.fieldCurrent_deriv hY).continuousAt
  | sal p => exact (p.fieldCurrent_deriv hY).continuousAt

theorem pmech_deriv : HasDerivAt (fun t => (g.drive (Y t)).Pmech) (dsum (g.drive (Y 0)).dPmech d) 0 := by
  unfold drive
  cases g.gov with
  | none => simpa [dsum] using hasDerivAt_const (0:ℝ) g.Pmech
  | some w => exact w.pmech_deriv hY

theorem efd_deriv (hs : g.Smooth (Y 0)) :
    HasDerivAt (fun t => (g.drive (Y t)).Efd) (dsum (g.drive (Y 0)).dEfd d) 0 := by
  have hs2 := hs.2
  have hI := g.fieldCurrent_cont hY
  unfold drive
  revert hs2
  rcases g.exc with _ | e | ⟨e, VT⟩
  · intro _
    simpa [dsum] using hasDerivAt_const (0:ℝ) g.Efd
  · intro _
    have : dsum Exdc1.dEfd d = d (.exc 3) := by simp [dsum, Exdc1.dEfd]
    simp only [this]
    exact hY (.exc 3)
  · intro h
    have : dsum Esst1a.dEfd d = d (.exc 3) := by simp [dsum, Esst1a.dEfd]
    simp only [this]
    exact e.efd_deriv hY VT hI h.2.1 h.2.2

theorem dw_deriv : HasDerivAt (fun t => g.dw (Y t)) (match g.mach with
    | .cls _ => 0
    | _ => d (.gen 1)) 0 := by
  unfold dw
  cases g.mach with
  | cls p => exact hasDerivAt_const (0:ℝ) 0
  | rou p => exact hY (.gen 1)
  | sal p => exact hY (.gen 1)

end

theorem sq_ne {X : Ix → ℝ} (h : X (.net 0) ^ 2 + X (.net 1) ^ 2 ≠ 0) : X VD * X VD + X VQ * X VQ ≠ 0 := by
  rwa [pow_two, pow_two] at h

theorem machResid_deriv (hY : ∀ ix, HasDerivAt (fun t => Y t ix) (d ix) 0)
    (hZ : ∀ k, HasDerivAt (fun t => Z t (.gen k)) (s * d (.gen k)) 0) (hs : g.Smooth (Y 0)) (P : Ix → ℝ) (k : ℕ)
    (hk : k < g.mach.size) :
    HasDerivAt (fun t => g.resid .resid (Y t) (Z t) P (.gen k)) (lin (g.jac .resid s (Y 0)) d (.gen k)) 0 := by
  have hE := g.efd_deriv hY hs
  have hP := g.pmech_deriv hY
  rw [lin_jac_mach _ _ _ rfl]
  have h1 := hs.1
  unfold resid machJac
  revert hk h1
  generalize hm : g.mach = q
  cases q with
  | cls p => intro hk _; exact p.resid_deriv hY hZ P k hk
  | rou p => intro hk h1; exact p.resid_deriv hY hZ hE hP h1 P k hk
  | sal p => intro hk h1; exact p.resid_deriv hY hZ hE hP h1 P k hk

theorem machFault_deriv (hY : ∀ ix, HasDerivAt (fun t => Y t ix) (d ix) 0) (P : Ix → ℝ) (k : ℕ) (hk : k < g.mach.size) :
    HasDerivAt (fun t => g.resid .fault (Y t) (Z t) P (.gen k)) (lin (g.jac .fault s (Y 0)) d (.gen k)) 0 := by
  rw [lin_jac_mach _ _ _ rfl]
  unfold resid machJac
  revert hk
  generalize hm : g.mach = q
  cases q with
  | cls p => intro hk; exact p.fault_deriv hY P k hk
  | rou p => intro hk; exact p.fault_deriv hY (fun t => g.drive (Y t)) P k hk
  | sal p => intro hk; exact p.fault_deriv hY (fun t => g.drive (Y t)) P k hk

theorem excResid_deriv (hY : ∀ ix, HasDerivAt (fun t => Y t ix) (d ix) 0)
    (hZ : ∀ k, HasDerivAt (fun t => Z t (.exc k)) (s * d (.exc k)) 0) (hs : g.Smooth (Y 0)) (hc : g.Covered)
    (P : Ix → ℝ) (k : ℕ) (hk : k < g.nexc) :
    HasDerivAt (fun t => g.resid .resid (Y t) (Z t) P (.exc k)) (lin (g.jac .resid s (Y 0)) d (.exc k)) 0 := by
  rw [lin_jac_exc _ _ _ rfl]
  have h2 := hs.2
  unfold Covered at hc
  unfold resid excJac
  unfold nexc at hk
  revert hk h2 hc
  rcases g.exc with _ | e | ⟨e, VT⟩
  · intro _ hk; simp at hk
  · intro hc hk h2
    refine e.resid_deriv hY hZ (sq_ne h2.1) ?_ ?_ ?_ h2.2.1 h2.2.2 P k (by simpa using hk)
    · intro h
      simp only [Exdc1.diff1, Bool.not_eq_true', decide_eq_false_iff_not] at h
      rcases hc with h' | h'
      · exact absurd h'.1 h
      · exact h'.2.1
    · intro h
      simp only [Exdc1.diff1, Bool.not_eq_false', decide_eq_true_eq] at h
      rcases hc with h' | h'
      · simp [h'.2]
      · rw [h'.2.1] at h
        exact absurd h (by simp [h'.1])
    · intro a b h
      simp only [Exdc1.diff1, Bool.not_eq_true', decide_eq_false_iff_not] at h
      rcases hc with h' | h'
      · exact absurd h'.1 h
      · rcases h'.2.2 with h'' | h'' | h''
        · simp [h'']
        · simp [a] at h''
        · simp [b] at h''
  · intro hc hk h2
    refine e.resid_deriv hY hZ (sq_ne h2.1) ?_ ?_ P k (by simpa using hk)
    · intro h
      simp only [Esst1a.free, Bool.and_eq_true, Bool.not_eq_true'] at h
      rcases hc.1 with h' | h' | h'
      · simp [h']
      · simp [h.1] at h'
      · simp [h.2] at h'
    · intro h
      rcases hc.2 with h' | h' | h'
      · simp [Esst1a.diff2, h'] at h
      · simp [Esst1a.diff2, h'] at h
      · exact h'

theorem excFault_deriv (hY : ∀ ix, HasDerivAt (fun t => Y t ix) (d ix) 0) (hc : g.FaultCovered (Y 0))
    (P : Ix → ℝ) (k : ℕ) (hk : k < g.nexc) :
    HasDerivAt (fun t => g.resid .fault (Y t) (Z t) P (.exc k)) (lin (g.jac .fault s (Y 0)) d (.exc k)) 0 := by
  rw [lin_jac_exc _ _ _ rfl]
  have h2 := hc.2
  unfold resid excJac
  unfold nexc at hk
  revert hk h2
  rcases g.exc with _ | e | ⟨e, VT⟩
  · intro hk; simp at hk
  · intro hk h2
    refine e.fault_deriv hY (fun h => sq_ne (h2.1 (by simpa [Exdc1.diff0] using h))) ?_ ?_ P k (by simpa using hk)
    · intro h
      simp only [Exdc1.diff1, Bool.not_eq_false', decide_eq_true_eq] at h
      rcases h2.2 with h' | h'
      · simp [h']
      · exact absurd h (by simp [h'.1, h'.2.1])
    · intro a b h _
      rcases h2.2 with h' | h'
      · simp [h']
      · simp [Exdc1.diff2, a, b] at h h'
        exact absurd h h'.2.2
  · intro hk h2
    refine e.fault_deriv hY (fun h => sq_ne (h2.1 (by simpa [Esst1a.diff0] using h))) ?_ P k (by simpa using hk)
    intro h hf
    simp only [Esst1a.free, Bool.and_eq_true, Bool.not_eq_true'] at hf
    rcases h2.2 with h' | h' | h' | h'
    · simp [h']
    · simp [hf.1] at h'
    · simp [hf.2] at h'
    · obtain ⟨a1, a2, a3, a4, a5⟩ := h'
      simp only [Esst1a.diff1, Esst1a.diff2, Esst1a.diff3, Bool.not_eq_false', decide_eq_true_eq] at h
      rcases h with h | h | h
      · exact absurd h (by simp [a1, a2])
      · exact absurd h (by simp [a3, a4])
      · exact absurd a5 (by simp [h.1, h.2.1, h.2.2])

theorem govDeriv (hY : ∀ ix, HasDerivAt (fun t => Y t ix) (d ix) 0)
    (hZ : ∀ k, HasDerivAt (fun t => Z t (.gov k)) (s * d (.gov k)) 0)
    (hK : ∀ p, g.mach = .cls p → ∀ w, g.gov = some w → w.K = 0) (m : Mode) (P : Ix → ℝ) (k : ℕ) (hk : k < g.ngov) :
    HasDerivAt (fun t => g.resid m (Y t) (Z t) P (.gov k)) (lin (g.jac m s (Y 0)) d (.gov k)) 0 := by
  rw [lin_jac_gov _ _ _ rfl]
  have hw := g.dw_deriv hY
  have hK' : ∀ w, g.gov = some w → w.K * (match g.mach with
    | .cls _ => 0
    | _ => d (.gen 1)) = w.K * d g.dwLoc := by
    intro w hw
    unfold dwLoc
    generalize hq : g.mach = q
    cases q with
    | cls p => simp [hK p hq w hw]
    | rou p => rfl
    | sal p => rfl
  unfold resid govJac
  unfold ngov at hk
  revert hk hK'
  rcases g.gov with _ | w
  · intro hk; simp at hk
  · intro hk hK'
    cases m
    · exact w.resid_deriv hY hZ hw (hK' w rfl) P k (by simpa using hk)
    · exact w.fault_deriv hY hw (hK' w rfl) P k (by simpa using hk)

theorem igq_deriv (hY : ∀ ix, HasDerivAt (fun t => Y t ix) (d ix) 0) (m : Mode)
    (hm : m = .fault → ∀ p, g.mach = .cls p → p.Ep = 0) :
    HasDerivAt (fun t => g.igq (Y t)) (lin (g.jac m s (Y 0)) d rowIGQ) 0 := by
  rw [lin_jac_mach _ _ _ rfl]
  unfold igq machJac
  revert hm
  generalize g.mach = q
  cases q with
  | cls p =>
    intro hm
    cases m
    · exact p.igq_deriv hY
    · refine (p.igq_deriv (s := s) hY).congr_deriv ?_
      simp [Cls.jac, lin_set, lin_plus, lin_nil, hm rfl p rfl]
  | rou p => intro _; exact p.igq_deriv hY _ m
  | sal p => intro _; exact p.igq_deriv hY _ m

theorem igd_deriv (hY : ∀ ix, HasDerivAt (fun t => Y t ix) (d ix) 0) (m : Mode)
    (hm : m = .fault → ∀ p, g.mach = .cls p → p.Ep = 0) :
    HasDerivAt (fun t => g.igd (Y t)) (lin (g.jac m s (Y 0)) d rowIGD) 0 := by
  rw [lin_jac_mach _ _ _ rfl]
  unfold igd machJac
  revert hm
  generalize g.mach = q
  cases q with
  | cls p =>
    intro hm
    cases m
    · exact p.igd_deriv hY
    · refine (p.igd_deriv (s := s) hY).congr_deriv ?_
      simp [Cls.jac, lin_set, lin_plus, lin_nil, hm rfl p rfl]
  | rou p => intro _; exact p.igd_deriv hY _ m
  | sal p => intro _; exact p.igd_deriv hY _ m

/-- The condition for the mode. -/
def Okay (g : Gen) (m : Mode) (X : Ix → ℝ) : Prop :=
  match m with
  | .resid => g.Smooth X ∧ g.Covered
  | .fault => g.FaultCovered X

/-- All rows of the devices. -/
theorem resid_deriv (hY : ∀ ix, HasDerivAt (fun t => Y t ix) (d ix) 0)
    (hZ : ∀ ix : Ix, ix.isNet = false → HasDerivAt (fun t => Z t ix) (s * d ix) 0) (m : Mode) (hs : g.Okay m (Y 0))
    (P : Ix → ℝ) (ix : Ix) (hv : g.Valid ix) (hn : ix.isNet = false) :
    HasDerivAt (fun t => g.resid m (Y t) (Z t) P ix) (lin (g.jac m s (Y 0)) d ix) 0 := by
  have hK : ∀ p, g.mach = .cls p → ∀ w, g.gov = some w → w.K = 0 := by
    intro p hp
    cases m
    · have := hs.1.1
      rw [hp] at this
      exact this
    · have := hs.1
      rw [hp] at this
      exact this.2
  cases ix with
  | net k => cases hn
  | gen k =>
    cases m
    · exact g.machResid_deriv hY (fun k => hZ _ rfl) hs.1 P k hv
    · exact g.machFault_deriv hY P k hv
  | exc k =>
    cases m
    · exact g.excResid_deriv hY (fun k => hZ _ rfl) hs.1 hs.2 P k hv
    · exact g.excFault_deriv hY hs P k hv
  | gov k => exact g.govDeriv hY (fun k => hZ _ rfl) hK m P k hv

theorem okay_ep {m : Mode} {X : Ix → ℝ} (h : g.Okay m X) : m = .fault → ∀ p, g.mach = .cls p → p.Ep = 0 := by
  rintro rfl p hp
  have := h.1
  rw [hp] at this
  exact this.1

/-! ### Places -/

theorem pos_range {n : ℕ} {ix : Ix} (hv : g.Valid ix) (hn : ix.isNet = false) : n ≤ g.pos n ix ∧ g.pos n ix < n + g.size := by
  cases ix <;> simp only [Valid, Ix.Valid, Ix.isNet, pos, size] at * <;> first | omega | cases hn

theorem pos_net {n k : ℕ} : g.pos n (.net k) = k := rfl

theorem pos_inj {n : ℕ} (h2 : 2 ≤ n) {a b : Ix} (ha : g.Valid a) (hb : g.Valid b) (h : g.pos n a = g.pos n b) : a = b := by
  cases a <;> cases b <;> simp only [Valid, Ix.Valid, pos] at ha hb h <;>
    first | exact congrArg _ h | (congr 1; omega) | omega

theorem pos_surj {n q : ℕ} (h1 : n ≤ q) (h2 : q < n + g.size) : ∃ ix, g.Valid ix ∧ ix.isNet = false ∧ g.pos n ix = q := by
  unfold size at h2
  by_cases ha : q < n + g.mach.size
  · exact ⟨.gen (q - n), by simp only [Valid, Ix.Valid]; omega, rfl, by simp only [pos]; omega⟩
  · by_cases hb : q < n + g.mach.size + g.nexc
    · exact ⟨.exc (q - n - g.mach.size), by simp only [Valid, Ix.Valid]; omega, rfl, by simp only [pos]; omega⟩
    · exact ⟨.gov (q - n - g.mach.size - g.nexc), by simp only [Valid, Ix.Valid]; omega, rfl, by simp only [pos]; omega⟩

theorem after_exc (p : ℕ) : (if g.exc.isSome then p + g.nexc else p) = p + g.nexc := by
  unfold nexc; split <;> simp

theorem after_gov (p : ℕ) : (if g.gov.isSome then p + g.ngov else p) = p + g.ngov := by
  unfold ngov; split <;> simp

/-- Values are read where the device was placed. -/
theorem pushed_pos (v : ℝ × ℝ) (vals : ℕ → ℝ) (p : ℕ) (ix : Ix) (hn : ix.isNet = false) :
    g.pushed v vals p ix = vals (g.pos p ix) := by
  cases ix with
  | net k => cases hn
  | gen k => rfl
  | exc k => rfl
  | gov k => simp only [pushed, pos, after_exc]

/-- The assignments of a generator at a given place. -/
noncomputable def placedJac (m : Mode) (s : ℝ) (X : Ix → ℝ) (n : ℕ) : List (Wr ℕ) :=
  (g.jac m s X).map (fun w => { c := g.pos n w.c, r := g.pos n w.r, add := w.add, v := w.v })

theorem placedJac_lin (m : Mode) (X : Ix → ℝ) {n : ℕ} (h2 : 2 ≤ n) (d : ℕ → ℝ) (ix : Ix) (hv : g.Valid ix) :
    linN (g.placedJac m s X n) d (g.pos n ix) = lin (g.jac m s X) (g.pushed (d 0, d 1) d n) ix := by
  have ht := g.tidy m s X
  unfold placedJac linN lin
  rw [List.map_map]
  congr 1
  apply List.map_congr_left
  intro w hw
  have hc : g.pushed (d 0, d 1) d n w.c = d (g.pos n w.c) := by
    have := ht.col w hw
    cases hcw : w.c with
    | net k =>
      rw [hcw] at this
      simp only [Ix.Valid] at this
      interval_cases k <;> rfl
    | gen k => exact g.pushed_pos _ _ _ _ rfl
    | exc k => exact g.pushed_pos _ _ _ _ rfl
    | gov k => exact g.pushed_pos _ _ _ _ rfl
  simp only [Function.comp_apply, hc]
  by_cases h : w.r = ix
  · simp [h]
  · have : g.pos n w.r ≠ g.pos n ix := fun e => h (g.pos_inj h2 (ht.row w hw) hv e)
    simp [h, this]

/-- Rows and columns of a placed generator. -/
theorem placedJac_mem (m : Mode) (X : Ix → ℝ) {n : ℕ} {w : Wr ℕ} (hw : w ∈ g.placedJac m s X n) :
    (w.c < 2 ∨ n ≤ w.c ∧ w.c < n + g.size) ∧ (w.r < 2 ∨ n ≤ w.r ∧ w.r < n + g.size) ∧
    (w.add = false → (n ≤ w.c ∧ w.c < n + g.size) ∨ (n ≤ w.r ∧ w.r < n + g.size)) := by
  have ht := g.tidy m s X
  obtain ⟨a, ha, rfl⟩ := List.mem_map.mp hw
  have key : ∀ ix : Ix, g.Valid ix → (g.pos n ix < 2 ∧ ix.isNet = true) ∨ (n ≤ g.pos n ix ∧ g.pos n ix < n + g.size) := by
    intro ix hv
    cases h : ix.isNet
    · exact Or.inr (g.pos_range hv h)
    · cases ix with
      | net k => exact Or.inl ⟨hv, rfl⟩
      | gen k => cases h
      | exc k => cases h
      | gov k => cases h
  have hc := key a.c (ht.col a ha)
  have hr := key a.r (ht.row a ha)
  refine ⟨hc.imp And.left id, hr.imp And.left id, ?_⟩
  intro had
  have := ht.own a ha had
  rcases hc with hc | hc
  · rcases hr with hr | hr
    · simp [hc.2, hr.2] at this
    · exact Or.inr hr
  · exact Or.inl hc

theorem placedJac_fresh (m : Mode) (X : Ix → ℝ) {n : ℕ} (h2 : 2 ≤ n) : Fresh (g.placedJac m s X n) := by
  have ht := g.tidy m s X
  unfold Fresh placedJac
  rw [List.pairwise_map]
  refine List.Pairwise.imp_of_mem ?_ ht.fresh
  intro a b ha hb hab
  rcases hab with h | h
  · exact Or.inl h
  · right
    rintro ⟨h1, h3⟩
    exact h ⟨g.pos_inj h2 (ht.col a ha) (ht.col b hb) h1, g.pos_inj h2 (ht.row a ha) (ht.row b hb) h3⟩

end Gen
end GridPACK.Dae
