import Verif.Model.DsEvents
import Mathlib.Algebra.BigOperators.Group.List.Basic
import Mathlib.Data.Complex.BigOperators
import Mathlib.Tactic.Ring
import Mathlib.Tactic.Linarith
import Mathlib.Tactic.LinearCombination

/-! Lemmas about events in the dynamic simulation. -/
namespace GridPACK.DsEvents

/-! ### Specification of the matrix -/

/-- What a circuit between buses `b1` and `b2` contributes to element `(i, j)`. -/
def Circuit.part (c : Circuit) (b1 b2 i j : Nat) : ℂ :=
  (if i = b1 ∧ j = b1 then c.yii else 0) + (if i = b1 ∧ j = b2 then c.yij else 0) +
  (if i = b2 ∧ j = b1 then c.yji else 0) + (if i = b2 ∧ j = b2 then c.yjj else 0)

/-- The circuits of a branch that are in service. -/
def Branch.part (b : Branch) (i j : Nat) : ℂ :=
  ((b.cks.filter (·.status)).map (fun c => c.part b.bus1 b.bus2 i j)).sum

/-- The generators in service and the fault at a bus. -/
def Bus.part (b : Bus) : ℂ := ((b.gens.filter (·.status)).map Gen.y).sum - (if b.fault then b.yf else 0)

/-- Element `(i, j)` of the matrix of everything in service and of the faults. -/
def State.network (s : State) (i j : Nat) : ℂ :=
  (s.branches.map (fun b => b.part i j)).sum + (if i = j then ((s.buses[i]?).map Bus.part).getD 0 else 0)

/-! ### Incrementing the matrix -/

theorem add_eq (m : Nat → Nat → ℂ) (i j : Nat) (v : Option ℂ) (a b : Nat) :
    add m i j v a b = m a b + (if a = i ∧ b = j then v.getD 0 else 0) := by
  cases v with
  | none => simp [add]
  | some v => simp only [add, Option.getD_some]; split <;> simp

theorem loadBuses_spec (mode : Mode) (k : Nat) (bs : List Bus) (m : Nat → Nat → ℂ) :
    (loadBuses mode k bs m).1 = bs.map (fun b => (b.diagValues mode).1) ∧
    ∀ a b, (loadBuses mode k bs m).2 a b = m a b + (if a = b ∧ k ≤ a then
      ((bs[a - k]?).map (fun b => (b.diagValues mode).2.getD 0)).getD 0 else 0) := by
  induction bs generalizing k m with
  | nil => simp [loadBuses]
  | cons x bs ih =>
    obtain ⟨h1, h2⟩ := ih (k + 1) (add m k k (x.diagValues mode).2)
    refine ⟨by simp [loadBuses, h1], ?_⟩
    intro a b
    simp only [loadBuses]
    rw [h2, add_eq]
    by_cases hab : a = b
    · subst hab
      by_cases hk : a = k
      · subst hk
        simp
      · by_cases hle : k ≤ a
        · have h3 : k + 1 ≤ a := by omega
          obtain ⟨d, hd⟩ : ∃ d, a - k = d + 1 := ⟨a - k - 1, by omega⟩
          have h4 : a - (k + 1) = d := by omega
          simp [hk, hle, h3, hd, h4]
        · have h3 : ¬ k + 1 ≤ a := by omega
          simp [hk, hle, h3]
    · have h5 : ¬ (a = k ∧ b = k) := by omega
      simp [hab, h5]

/-- What a branch adds to element `(a, b)`. -/
def Branch.added (mode : Mode) (x : Branch) (a b : Nat) : ℂ :=
  (if a = x.bus1 ∧ b = x.bus2 then (x.forward mode).getD 0 else 0) +
  (if a = x.bus2 ∧ b = x.bus1 then (x.reverse mode).2.getD 0 else 0)

theorem loadBranches_spec (mode : Mode) (bs : List Branch) (m : Nat → Nat → ℂ) :
    (loadBranches mode bs m).1 = bs.map (fun b => (b.reverse mode).1) ∧
    ∀ a b, (loadBranches mode bs m).2 a b = m a b + (bs.map (fun x => x.added mode a b)).sum := by
  induction bs generalizing m with
  | nil => simp [loadBranches]
  | cons x bs ih =>
    obtain ⟨h1, h2⟩ := ih (add (add m x.bus1 x.bus2 (x.forward mode)) x.bus2 x.bus1 (x.reverse mode).2)
    refine ⟨by simp [loadBranches, h1], ?_⟩
    intro a b
    simp only [loadBranches]
    rw [h2, add_eq, add_eq, List.map_cons, List.sum_cons]
    unfold Branch.added
    ring

theorem increment_spec (mode : Mode) (s : State) :
    (increment mode s).buses = s.buses.map (fun b => (b.diagValues mode).1) ∧
    (increment mode s).branches = s.branches.map (fun b => (b.reverse mode).1) ∧
    ∀ a b, (increment mode s).m a b = s.m a b +
      (if a = b then ((s.buses[a]?).map (fun b => (b.diagValues mode).2.getD 0)).getD 0 else 0) +
      (s.branches.map (fun x => x.added mode a b)).sum := by
  obtain ⟨h1, h2⟩ := loadBuses_spec mode 0 s.buses s.m
  obtain ⟨h3, h4⟩ := loadBranches_spec mode s.branches (loadBuses mode 0 s.buses s.m).2
  refine ⟨h1, h3, ?_⟩
  intro a b
  simp only [increment]
  rw [h4, h2]
  simp

/-! ### Pending changes -/

/-- No change is pending: the state between events. -/
structure Settled (s : State) : Prop where
  buses : ∀ b ∈ s.buses, b.lineChange = false ∧ b.genChange = false
  branches : ∀ b ∈ s.branches, b.change = false

/-- The network: every branch has a circuit in service when loaded and connects two different buses. -/
structure Proper (s : State) : Prop where
  active : ∀ b ∈ s.branches, b.active = true
  ends : ∀ b ∈ s.branches, b.bus1 ≠ b.bus2 ∧ b.bus1 < s.buses.length ∧ b.bus2 < s.buses.length

/-- No bus has a fault. -/
def NoFault (s : State) : Prop := ∀ b ∈ s.buses, b.fault = false

theorem sum_set {α : Type} (f : α → ℂ) (l : List α) (k : Nat) (x y : α) (h : l[k]? = some y) :
    ((l.set k x).map f).sum = (l.map f).sum + f x - f y := by
  induction l generalizing k with
  | nil => simp at h
  | cons a l ih =>
    cases k with
    | zero =>
      simp only [List.getElem?_cons_zero, Option.some.injEq] at h
      subst h
      simp only [List.set_cons_zero, List.map_cons, List.sum_cons]
      ring
    | succ k =>
      simp only [List.getElem?_cons_succ] at h
      simp only [List.set_cons_succ, List.map_cons, List.sum_cons, ih k h]
      ring

theorem sum_zero {α : Type} (f : α → ℂ) (l : List α) (h : ∀ x ∈ l, f x = 0) : (l.map f).sum = 0 := by
  induction l with
  | nil => rfl
  | cons a l ih =>
    rw [List.map_cons, List.sum_cons, h a (by simp), ih (fun x hx => h x (by simp [hx]))]
    simp

/-! ### Circuits -/

/-- 1 for closing, -1 for opening. -/
def sgn (status : Bool) : ℂ := if status then 1 else -1

theorem circuits_sum (tag : List Char) (st : Bool) (cks : List Circuit) (b1 b2 i j : Nat) :
    (((setStatus tag st cks).filter (·.status)).map (fun c => c.part b1 b2 i j)).sum =
      ((cks.filter (·.status)).map (fun c => c.part b1 b2 i j)).sum +
      (if lineStatus cks tag != st then
        (if i = b1 ∧ j = b1 then sgn st * (elements cks tag).1 else 0) +
        (if i = b1 ∧ j = b2 then sgn st * (elements cks tag).2.1 else 0) +
        (if i = b2 ∧ j = b1 then sgn st * (elements cks tag).2.2.1 else 0) +
        (if i = b2 ∧ j = b2 then sgn st * (elements cks tag).2.2.2 else 0) else 0) := by
  induction cks with
  | nil =>
    cases st <;> simp [setStatus, lineStatus, elements]
  | cons c cs ih =>
    by_cases hc : c.tag = tag
    · simp only [setStatus, hc, if_true, lineStatus, elements, List.find?_cons, decide_true]
      generalize hrest : ((cs.filter (·.status)).map (fun c => c.part b1 b2 i j)).sum = r
      have hp : ∀ (x : Circuit), x.yii = c.yii → x.yij = c.yij → x.yji = c.yji → x.yjj = c.yjj →
          x.part b1 b2 i j = (if i = b1 ∧ j = b1 then c.yii else 0) + (if i = b1 ∧ j = b2 then c.yij else 0) +
            (if i = b2 ∧ j = b1 then c.yji else 0) + (if i = b2 ∧ j = b2 then c.yjj else 0) := by
        intro x h1 h2 h3 h4
        simp only [Circuit.part, h1, h2, h3, h4]
      have hneg : ∀ (p : Prop) [Decidable p] (z : ℂ), (if p then -1 * z else 0) = -(if p then z else 0) := by
        intro p _ z; split <;> simp
      cases h1 : c.status <;> cases st <;>
        simp only [List.filter_cons, h1, sgn, if_true, Bool.false_eq_true, if_false, List.map_cons, List.sum_cons, hrest,
          bne_self_eq_false, Bool.bne_true, Bool.bne_false, Bool.not_false, one_mul, hneg, add_zero]
      · rw [hp { c with tag := tag, status := true } rfl rfl rfl rfl]; ring
      · rw [hp c rfl rfl rfl rfl]; ring
      · rw [hp c rfl rfl rfl rfl, hp { c with tag := tag, status := true } rfl rfl rfl rfl]
    · have h1 : lineStatus (c :: cs) tag = lineStatus cs tag := by simp [lineStatus, hc]
      have h2 : elements (c :: cs) tag = elements cs tag := by simp [elements, hc]
      rw [h1, h2]
      simp only [setStatus, hc, if_false]
      cases h3 : c.status
      · simp only [List.filter_cons, h3, Bool.false_eq_true, if_false]
        exact ih
      · simp only [List.filter_cons, h3, if_true, List.map_cons, List.sum_cons]
        rw [ih]
        ring

theorem gens_sum (tag : List Char) (st : Bool) (gens : List Gen) (g : Gen)
    (hg : gens.find? (fun g => g.tag = tag) = some g) :
    (((setGens tag st gens).filter (·.status)).map Gen.y).sum = ((gens.filter (·.status)).map Gen.y).sum +
      (if st != g.status then sgn st * g.y else 0) := by
  induction gens with
  | nil => simp at hg
  | cons x gs ih =>
    by_cases hx : x.tag = tag
    · simp only [List.find?_cons, hx, decide_true, Option.some.injEq] at hg
      subst hg
      simp only [setGens, hx, if_true]
      cases h1 : x.status <;> cases st <;> simp [h1, sgn]
      ring
    · simp only [List.find?_cons, hx, decide_false] at hg
      simp only [setGens, hx, if_false]
      cases h3 : x.status
      · simp only [List.filter_cons, h3, Bool.false_eq_true, if_false]
        exact ih hg
      · simp only [List.filter_cons, h3, if_true, List.map_cons, List.sum_cons]
        rw [ih hg]
        ring

/-! ### One event -/

/-- The difference between the matrix and the network does not change; the network stays proper and settled. -/
def Kept (s s' : State) : Prop :=
  (∀ i j, s'.m i j - s'.network i j = s.m i j - s.network i j) ∧ (Settled s → Settled s') ∧ (Proper s → Proper s')

theorem diagValues_bus (mode : Mode) (b : Bus) :
    (b.diagValues mode).1.lineChange = (match mode with | .lineStatus => false | _ => b.lineChange) ∧
    (b.diagValues mode).1.genChange = (match mode with | .genStatus => false | _ => b.genChange) ∧
    (b.diagValues mode).1.gens = b.gens ∧ (b.diagValues mode).1.yf = b.yf ∧
    (b.diagValues mode).1.fault = (match mode with | .faultOff => false | _ => b.fault) := by
  cases mode
  · simp only [Bus.diagValues]; split <;> simp
  · simp only [Bus.diagValues]; split <;> simp_all
  · simp only [Bus.diagValues]; split <;> simp_all
  · simp only [Bus.diagValues]; split <;> simp_all

theorem reverse_branch (mode : Mode) (b : Branch) :
    (b.reverse mode).1.bus1 = b.bus1 ∧ (b.reverse mode).1.bus2 = b.bus2 ∧ (b.reverse mode).1.active = b.active ∧
    (b.reverse mode).1.cks = b.cks ∧
    (b.active = true → (b.reverse mode).1.change = (match mode with | .lineStatus => false | _ => b.change)) := by
  cases mode
  · simp [Branch.reverse]
  · simp [Branch.reverse]
  · simp only [Branch.reverse]; split <;> simp_all
  · simp [Branch.reverse]

theorem reverse_part (mode : Mode) (b : Branch) (i j : Nat) : (b.reverse mode).1.part i j = b.part i j := by
  obtain ⟨h1, h2, _, h4, _⟩ := reverse_branch mode b
  simp [Branch.part, h1, h2, h4]

theorem added_zero (mode : Mode) (b : Branch) (h : b.change = false) (i j : Nat) : b.added mode i j = 0 := by
  cases mode <;> simp [Branch.added, Branch.forward, Branch.reverse, h]

theorem proper_increment (mode : Mode) (s : State) (h : Proper s) : Proper (increment mode s) := by
  obtain ⟨h1, h2, _⟩ := increment_spec mode s
  constructor
  · intro b hb
    rw [h2] at hb
    obtain ⟨x, hx, rfl⟩ := List.mem_map.mp hb
    rw [(reverse_branch mode x).2.2.1]
    exact h.active x hx
  · intro b hb
    rw [h2] at hb
    obtain ⟨x, hx, rfl⟩ := List.mem_map.mp hb
    obtain ⟨e1, e2, _⟩ := reverse_branch mode x
    rw [e1, e2, h1, List.length_map]
    exact h.ends x hx

theorem network_increment_branches (mode : Mode) (s : State) (i j : Nat) :
    ((increment mode s).branches.map (fun b => b.part i j)).sum = (s.branches.map (fun b => b.part i j)).sum := by
  rw [(increment_spec mode s).2.1, List.map_map]
  congr 1
  apply List.map_congr_left
  intro b _
  exact reverse_part mode b i j

/-- Fault on. -/
theorem faultOn_kept (s : State) (hs : Settled s) (hn : NoFault s) (bus : Nat) (y : ℂ) :
    Kept s (increment .faultOn (setFault bus y s)) := by
  obtain ⟨h1, h2, h3⟩ := increment_spec .faultOn (setFault bus y s)
  refine ⟨?_, ?_, ?_⟩
  · intro i j
    have hb : (s.branches.map (fun x => x.added .faultOn i j)).sum = 0 :=
      sum_zero _ _ (fun x hx => added_zero _ x (hs.branches x hx) i j)
    unfold State.network
    rw [network_increment_branches, h3, h1]
    show s.m i j + _ + (s.branches.map (fun x => x.added .faultOn i j)).sum - ((s.branches.map _).sum + _) = _
    rw [hb]
    by_cases hij : i = j
    · subst hij
      simp only [if_true, setFault, List.getElem?_map, List.getElem?_mapIdx]
      cases hbi : s.buses[i]? with
      | none => simp
      | some b =>
        have hf := hn b (List.mem_of_getElem? hbi)
        by_cases hib : i = bus
        · subst hib
          simp [Bus.diagValues, Bus.part, hf]
          ring
        · simp [hib, Bus.diagValues, Bus.part, hf]
    · simp [hij]
  · intro _
    constructor
    · intro b hb
      rw [h1] at hb
      obtain ⟨x, hx, rfl⟩ := List.mem_map.mp hb
      obtain ⟨e1, e2, _⟩ := diagValues_bus .faultOn x
      rw [e1, e2]
      simp only [setFault] at hx
      obtain ⟨k, hk, rfl⟩ := List.mem_mapIdx.mp hx
      have := hs.buses s.buses[k] (List.getElem_mem _)
      by_cases hkb : k = bus
      · simpa [hkb] using this
      · simpa [hkb] using this
    · intro b hb
      rw [h2] at hb
      obtain ⟨x, hx, rfl⟩ := List.mem_map.mp hb
      exact hs.branches x hx
  · intro hp
    apply proper_increment
    exact ⟨hp.active, by intro b hb; simpa [setFault] using hp.ends b hb⟩

theorem faultOff_kept (s : State) (hs : Settled s) : Kept s (increment .faultOff s) := by
  obtain ⟨h1, h2, h3⟩ := increment_spec .faultOff s
  refine ⟨?_, ?_, proper_increment _ s⟩
  · intro i j
    have hb : (s.branches.map (fun x => x.added .faultOff i j)).sum = 0 :=
      sum_zero _ _ (fun x hx => added_zero _ x (hs.branches x hx) i j)
    unfold State.network
    rw [network_increment_branches, h3, h1, hb]
    by_cases hij : i = j
    · subst hij
      simp only [if_true, List.getElem?_map]
      cases hbi : s.buses[i]? with
      | none => simp
      | some b =>
        cases hf : b.fault
        · simp [Bus.diagValues, Bus.part, hf]
        · simp [Bus.diagValues, Bus.part, hf]; ring
    · simp [hij]
  · intro _
    constructor
    · intro b hb
      rw [h1] at hb
      obtain ⟨x, hx, rfl⟩ := List.mem_map.mp hb
      obtain ⟨e1, e2, _⟩ := diagValues_bus .faultOff x
      rw [e1, e2]
      exact hs.buses x hx
    · intro b hb
      rw [h2] at hb
      obtain ⟨x, hx, rfl⟩ := List.mem_map.mp hb
      exact hs.branches x hx

/-- Nothing pending: the matrix stays. -/
theorem line_idle (s : State) (hs : Settled s) : Kept s (increment .lineStatus s) := by
  obtain ⟨h1, h2, h3⟩ := increment_spec .lineStatus s
  refine ⟨?_, ?_, proper_increment _ s⟩
  · intro i j
    have hb : (s.branches.map (fun x => x.added .lineStatus i j)).sum = 0 :=
      sum_zero _ _ (fun x hx => added_zero _ x (hs.branches x hx) i j)
    unfold State.network
    rw [network_increment_branches, h3, h1, hb]
    by_cases hij : i = j
    · subst hij
      simp only [if_true, List.getElem?_map]
      cases hbi : s.buses[i]? with
      | none => simp
      | some b =>
        have := (hs.buses b (List.mem_of_getElem? hbi)).1
        simp [Bus.diagValues, this]
    · simp [hij]
  · intro _
    constructor
    · intro b hb
      rw [h1] at hb
      obtain ⟨x, hx, rfl⟩ := List.mem_map.mp hb
      obtain ⟨e1, e2, _⟩ := diagValues_bus .lineStatus x
      rw [e1, e2]
      exact ⟨rfl, (hs.buses x hx).2⟩
    · intro b hb
      rw [h2] at hb
      obtain ⟨x, hx, rfl⟩ := List.mem_map.mp hb
      simp [Branch.reverse, hs.branches x hx]

theorem insertDiag_get (i : Nat) (v : ℂ) (buses : List Bus) (a : Nat) :
    (insertDiag i v buses)[a]? = (buses[a]?).map (fun b => if a = i then { b with lineChange := true, yii := v } else b) := by
  simp [insertDiag, List.getElem?_mapIdx]

theorem line_kept (s : State) (hs : Settled s) (hp : Proper s) (k : Nat) (tag : List Char) (st : Bool) :
    Kept s (increment .lineStatus (setLineStatus k tag st s)) := by
  unfold setLineStatus
  cases hk : s.branches[k]? with
  | none => exact line_idle s hs
  | some b =>
    have hbm : b ∈ s.branches := List.mem_of_getElem? hk
    by_cases hc : (lineStatus b.cks tag != st) = true
    swap
    · simp only [if_neg hc]; exact line_idle s hs
    simp only [if_pos hc]
    set e := elements b.cks tag with he
    rw [show (if st = true then (1 : ℂ) else -1) = sgn st from rfl]
    set b' : Branch := { b with yft := sgn st * e.2.1, ytf := sgn st * e.2.2.1, change := true,
                                cks := setStatus tag st b.cks } with hb'
    set s1 : State := { s with
        buses := insertDiag b.bus2 (sgn st * e.2.2.2) (insertDiag b.bus1 (sgn st * e.1) s.buses)
        branches := s.branches.set k b' } with hs1
    obtain ⟨h1, h2, h3⟩ := increment_spec .lineStatus s1
    obtain ⟨hne, hlt1, hlt2⟩ := hp.ends b hbm
    have hact := hp.active b hbm
    have hp1 : Proper s1 := by
      constructor
      · intro x hx
        rcases List.mem_or_eq_of_mem_set hx with hx | rfl
        · exact hp.active x hx
        · exact hact
      · intro x hx
        have hl : s1.buses.length = s.buses.length := by simp [hs1, insertDiag]
        rw [hl]
        rcases List.mem_or_eq_of_mem_set hx with hx | rfl
        · exact hp.ends x hx
        · exact hp.ends b hbm
    refine ⟨?_, ?_, fun _ => proper_increment _ _ hp1⟩
    · intro i j
      have hb : (s1.branches.map (fun x => x.added .lineStatus i j)).sum =
          (if i = b.bus1 ∧ j = b.bus2 then sgn st * e.2.1 else 0) +
          (if i = b.bus2 ∧ j = b.bus1 then sgn st * e.2.2.1 else 0) := by
        show ((s.branches.set k b').map _).sum = _
        rw [sum_set _ _ k b' b hk, sum_zero _ _ (fun x hx => added_zero _ x (hs.branches x hx) i j),
          added_zero _ b (hs.branches b hbm)]
        simp [Branch.added, Branch.forward, Branch.reverse, hb', hact]
      have hpart : (s1.branches.map (fun x => x.part i j)).sum = (s.branches.map (fun x => x.part i j)).sum +
          ((if i = b.bus1 ∧ j = b.bus1 then sgn st * e.1 else 0) +
           (if i = b.bus1 ∧ j = b.bus2 then sgn st * e.2.1 else 0) +
           (if i = b.bus2 ∧ j = b.bus1 then sgn st * e.2.2.1 else 0) +
           (if i = b.bus2 ∧ j = b.bus2 then sgn st * e.2.2.2 else 0)) := by
        show ((s.branches.set k b').map _).sum = _
        rw [sum_set _ _ k b' b hk]
        have := circuits_sum tag st b.cks b.bus1 b.bus2 i j
        rw [if_pos hc] at this
        have e1 : b'.part i j = (((setStatus tag st b.cks).filter (·.status)).map
          (fun c => c.part b.bus1 b.bus2 i j)).sum := rfl
        rw [e1, this]
        have e2 : b.part i j = ((b.cks.filter (·.status)).map (fun c => c.part b.bus1 b.bus2 i j)).sum := rfl
        rw [e2]
        ring
      have hbus : ∀ a, s1.buses[a]? = (s.buses[a]?).map (fun x =>
          if a = b.bus2 then { x with lineChange := true, yii := sgn st * e.2.2.2 }
          else if a = b.bus1 then { x with lineChange := true, yii := sgn st * e.1 } else x) := by
        intro a
        simp only [hs1]
        rw [insertDiag_get, insertDiag_get]
        cases s.buses[a]? with
        | none => rfl
        | some x =>
          simp only [Option.map_some]
          by_cases ha2 : a = b.bus2
          · have ha1 : ¬ a = b.bus1 := by omega
            simp only [if_pos ha2, if_neg ha1]
          · simp only [if_neg ha2]
      unfold State.network
      rw [network_increment_branches, h3, h1, hb, hpart]
      by_cases hij : i = j
      · subst hij
        simp only [if_true, List.getElem?_map, hbus]
        cases hbi : s.buses[i]? with
        | none =>
          have hge : s.buses.length ≤ i := List.getElem?_eq_none_iff.mp hbi
          have n1 : ¬ i = b.bus1 := by omega
          have n2 : ¬ i = b.bus2 := by omega
          simp [n1, n2, hs1]
        | some x =>
          have hx := (hs.buses x (List.mem_of_getElem? hbi)).1
          by_cases ha2 : i = b.bus2
          · have ha1 : ¬ i = b.bus1 := by omega
            have hne' : ¬ b.bus2 = b.bus1 := by omega
            subst ha2
            simp [hne', Bus.diagValues, Bus.part, hs1]
            ring
          · by_cases ha1 : i = b.bus1
            · subst ha1
              simp [hne, Bus.diagValues, Bus.part, hs1]
              ring
            · simp [ha1, ha2, Bus.diagValues, Bus.part, hx, hs1]
      · have n1 : ¬ (i = b.bus1 ∧ j = b.bus1) := by omega
        have n2 : ¬ (i = b.bus2 ∧ j = b.bus2) := by omega
        simp only [hij, if_false, n1, n2]
        show s.m i j + _ + _ - _ = _
        ring
    · intro _
      constructor
      · intro x hx
        rw [h1] at hx
        obtain ⟨y, hy, rfl⟩ := List.mem_map.mp hx
        obtain ⟨e1, e2, _⟩ := diagValues_bus .lineStatus y
        rw [e1, e2]
        refine ⟨rfl, ?_⟩
        simp only [hs1, insertDiag] at hy
        obtain ⟨a, ha, rfl⟩ := List.mem_mapIdx.mp hy
        have hga : ∀ (h : a < s.buses.length), (s.buses[a]).genChange = false :=
          fun h => (hs.buses _ (List.getElem_mem h)).2
        simp only [List.getElem_mapIdx]
        have := hga (by simpa using ha)
        split <;> split <;> exact this
      · intro x hx
        rw [h2] at hx
        obtain ⟨y, hy, rfl⟩ := List.mem_map.mp hx
        rw [(reverse_branch .lineStatus y).2.2.2.2 (hp1.active y hy)]
  
theorem gen_idle (s : State) (hs : Settled s) : Kept s (increment .genStatus s) := by
  obtain ⟨h1, h2, h3⟩ := increment_spec .genStatus s
  refine ⟨?_, ?_, proper_increment _ s⟩
  · intro i j
    have hb : (s.branches.map (fun x => x.added .genStatus i j)).sum = 0 :=
      sum_zero _ _ (fun x hx => added_zero _ x (hs.branches x hx) i j)
    unfold State.network
    rw [network_increment_branches, h3, h1, hb]
    by_cases hij : i = j
    · subst hij
      simp only [if_true, List.getElem?_map]
      cases hbi : s.buses[i]? with
      | none => simp
      | some b =>
        have := (hs.buses b (List.mem_of_getElem? hbi)).2
        simp [Bus.diagValues, this]
    · simp [hij]
  · intro _
    constructor
    · intro b hb
      rw [h1] at hb
      obtain ⟨x, hx, rfl⟩ := List.mem_map.mp hb
      obtain ⟨e1, e2, _⟩ := diagValues_bus .genStatus x
      rw [e1, e2]
      exact ⟨(hs.buses x hx).1, rfl⟩
    · intro b hb
      rw [h2] at hb
      obtain ⟨x, hx, rfl⟩ := List.mem_map.mp hb
      exact hs.branches x hx

theorem gen_kept (s : State) (hs : Settled s) (bus : Nat) (b : Bus) (hb : s.buses[bus]? = some b) (tag : List Char)
    (st : Bool) (b' : Bus) (hset : b.setGenStatus tag st = some b') :
    Kept s (increment .genStatus { s with buses := s.buses.set bus b' }) := by
  have hlt : bus < s.buses.length := by
    by_contra h
    rw [List.getElem?_eq_none_iff.mpr (by omega)] at hb
    cases hb
  unfold Bus.setGenStatus at hset
  cases hg : b.gens.find? (fun g => g.tag = tag) with
  | none => rw [hg] at hset; cases hset
  | some g =>
    rw [hg] at hset
    by_cases hc : (st != g.status) = true
    swap
    · simp only [if_neg hc, Option.some.injEq] at hset
      subst hset
      have : { s with buses := s.buses.set bus b } = s := by
        have : s.buses.set bus b = s.buses := by
          apply List.ext_getElem?
          intro i
          rw [List.getElem?_set]
          split
          · rename_i h
            subst h
            exact hb.symm
          · rfl
        rw [this]
      rw [this]
      exact gen_idle s hs
    simp only [if_pos hc, Option.some.injEq] at hset
    have hbm := List.mem_of_getElem? hb
    set s1 : State := { s with buses := s.buses.set bus b' } with hs1
    obtain ⟨h1, h2, h3⟩ := increment_spec .genStatus s1
    refine ⟨?_, ?_, ?_⟩
    · intro i j
      have hbr : (s1.branches.map (fun x => x.added .genStatus i j)).sum = 0 :=
        sum_zero _ _ (fun x hx => added_zero _ x (hs.branches x hx) i j)
      unfold State.network
      rw [network_increment_branches, h3, h1, hbr]
      by_cases hij : i = j
      · subst hij
        simp only [if_true, List.getElem?_map, hs1, List.getElem?_set]
        by_cases hi : bus = i
        · subst hi
          have hsum := gens_sum tag st b.gens g hg
          rw [if_pos hc] at hsum
          simp only [if_true, hlt, hb, Option.map_some, Option.getD_some]
          subst hset
          simp only [Bus.diagValues, if_true, Option.getD_some, Bus.part, hsum]
          cases st <;> simp [sgn] <;> ring
        · simp only [hi, if_false]
          cases hbi : s.buses[i]? with
          | none => simp
          | some x =>
            have := (hs.buses x (List.mem_of_getElem? hbi)).2
            simp [Bus.diagValues, this]
      · simp [hij, hs1]
    · intro _
      constructor
      · intro x hx
        rw [h1] at hx
        obtain ⟨y, hy, rfl⟩ := List.mem_map.mp hx
        obtain ⟨e1, e2, _⟩ := diagValues_bus .genStatus y
        rw [e1, e2]
        refine ⟨?_, rfl⟩
        rcases List.mem_or_eq_of_mem_set hy with hy | rfl
        · exact (hs.buses y hy).1
        · subst hset
          exact (hs.buses b hbm).1
      · intro x hx
        rw [h2] at hx
        obtain ⟨y, hy, rfl⟩ := List.mem_map.mp hx
        exact hs.branches y hy
    · intro hp
      apply proper_increment
      exact ⟨hp.active, by intro x hx; simpa [hs1] using hp.ends x hx⟩

end GridPACK.DsEvents
