import Verif.Spec.KalmanMachine
import Mathlib.Tactic.FieldSimp
import Mathlib.Tactic.Linarith
import Mathlib.Data.Complex.BigOperators

/-! Machines and network of the dynamic state estimation. -/
namespace GridPACK.KalmanMachine
open Complex

theorem vterm_eq (v a : ℝ) : vterm v a = phasor v a := by
  unfold vterm phasor
  rw [exp_mul_I, ofReal_cos, ofReal_sin, mul_comm I]

theorem norm_mul_sin (E V : ℂ) : ‖E‖ * ‖V‖ * Real.sin (E.arg - V.arg) = (E * (starRingEnd ℂ) V).im := by
  have hE := norm_mul_exp_arg_mul_I E
  have hV := norm_mul_exp_arg_mul_I V
  have e1 : E.re = ‖E‖ * Real.cos E.arg := by
    conv_lhs => rw [← hE]
    rw [re_ofReal_mul, exp_ofReal_mul_I_re]
  have e2 : E.im = ‖E‖ * Real.sin E.arg := by
    conv_lhs => rw [← hE]
    rw [im_ofReal_mul, exp_ofReal_mul_I_im]
  have v1 : V.re = ‖V‖ * Real.cos V.arg := by
    conv_lhs => rw [← hV]
    rw [re_ofReal_mul, exp_ofReal_mul_I_re]
  have v2 : V.im = ‖V‖ * Real.sin V.arg := by
    conv_lhs => rw [← hV]
    rw [im_ofReal_mul, exp_ofReal_mul_I_im]
  rw [mul_im, conj_re, conj_im, Real.sin_sub]
  rw [e1, e2, v1, v2]
  ring

theorem phasor_ne {v : ℝ} (hv : v ≠ 0) (a : ℝ) : phasor v a ≠ 0 := by
  unfold phasor
  exact mul_ne_zero (by exact_mod_cast hv) (exp_ne_zero _)

theorem phasor_sq (v a : ℝ) : phasor v a * (starRingEnd ℂ) (phasor v a) = (v * v : ℝ) := by
  rw [mul_conj, normSq_eq_norm_sq]
  unfold phasor
  rw [norm_mul, norm_exp_ofReal_mul_I, mul_one, norm_real, Real.norm_eq_abs, sq_abs, sq]

/-- Internal voltage less terminal voltage. -/
theorem egen_sub (sbase v a : ℝ) (g : GenData) :
    egen sbase v a g = phasor v a +
      (starRingEnd ℂ) ((⟨(power g).1, (power g).2⟩ : ℂ) / phasor v a) * ((sbase / g.mva : ℝ) : ℂ) * I * (g.xd : ℂ) := by
  unfold egen
  simp only [vterm_eq]
  push_cast
  ring

/-- The electric power at the initial state. -/
theorem electric (sbase v a : ℝ) (hv : v ≠ 0) (g : GenData) (hx : g.xd ≠ 0) :
    ‖egen sbase v a g‖ * ‖phasor v a‖ * Real.sin ((egen sbase v a g).arg - (phasor v a).arg) / g.xd
      = (power g).1 * sbase / g.mva := by
  rw [norm_mul_sin, egen_sub, add_mul, phasor_sq]
  have hne := phasor_ne hv a
  have hc : (starRingEnd ℂ) (phasor v a) ≠ 0 := by simpa using hne
  have e : (starRingEnd ℂ) ((⟨(power g).1, (power g).2⟩ : ℂ) / phasor v a) * ((sbase / g.mva : ℝ) : ℂ) * I * (g.xd : ℂ) *
      (starRingEnd ℂ) (phasor v a)
      = (starRingEnd ℂ) (⟨(power g).1, (power g).2⟩ : ℂ) * I * (((sbase / g.mva) * g.xd : ℝ) : ℂ) := by
    rw [map_div₀]
    push_cast
    field_simp
  rw [e, add_im, ofReal_im, zero_add, im_mul_ofReal, mul_I_im, conj_re]
  field_simp

/-- The machine of a generator with machine parameters. -/
noncomputable def machOf (sbase v a : ℝ) (g : GenData) (dh : ℝ × ℝ) : Mach :=
  ⟨(power g).1 * sbase / g.mva, dh.1, dh.2, g.mva, g.r, g.dstr, g.xd, ‖egen sbase v a g‖, (egen sbase v a g).arg⟩

theorem machs_of (sbase v a : ℝ) (gs : List GenData) (hg : ∀ g ∈ gs, g.stat = 1 → g.vs = v) (b : BusState) (hb : b.v = v) :
    (gs.foldl (addGen sbase a) b).v = v ∧
    (gs.foldl (addGen sbase a) b).machs = b.machs ++ gs.filterMap (fun g => g.dyn.map (machOf sbase v a g)) := by
  induction gs generalizing b with
  | nil => simp [hb]
  | cons g gs ih =>
    have hg' : ∀ g ∈ gs, g.stat = 1 → g.vs = v := fun x hx => hg x (List.mem_cons_of_mem _ hx)
    rw [List.foldl_cons]
    cases hd : g.dyn with
    | none =>
      have e : addGen sbase a b g = ⟨b.v, b.pl - (power g).1 * sbase, b.ql - (power g).2 * sbase, b.machs⟩ := by
        simp only [addGen, hd]
      have := ih hg' (addGen sbase a b g) (by rw [e]; exact hb)
      rw [this.1, this.2, e]
      simp [hd]
    | some dh =>
      have e : addGen sbase a b g = ⟨if g.stat = 1 then g.vs else b.v, b.pl, b.ql, b.machs ++ [machOf sbase v a g dh]⟩ := by
        simp only [addGen, hd, machOf, hb]
      have hv : (addGen sbase a b g).v = v := by
        rw [e]
        show (if g.stat = 1 then g.vs else b.v) = v
        split_ifs with h
        · exact hg g List.mem_cons_self h
        · exact hb
      have := ih hg' (addGen sbase a b g) hv
      rw [this.1, this.2, e]
      simp [hd]

/-- The initial state is an equilibrium: with the set voltage of the generators equal to the voltage of the bus, a step of any
length from the initial angle and synchronous speed, with the voltage of the bus at its initial value, changes neither. -/
theorem C277_steady_partial (sbase v a pl ql : ℝ) (hv : v ≠ 0) (gs : List GenData)
    (hg : ∀ g ∈ gs, (g.stat = 1 → g.vs = v) ∧ g.xd ≠ 0) (m : Mach) (hm : m ∈ (loadBus sbase v a pl ql gs).machs) (dt : ℝ) :
    step dt m (m.delta, 1) (phasor v a) (phasor v a) = (m.delta, 1) := by
  unfold loadBus at hm
  rw [(machs_of sbase v a gs (fun g h => (hg g h).1) ⟨v, pl, ql, []⟩ rfl).2, List.nil_append, List.mem_filterMap] at hm
  obtain ⟨g, hgm, hm⟩ := hm
  rw [Option.map_eq_some_iff] at hm
  obtain ⟨dh, -, rfl⟩ := hm
  have h1 := electric sbase v a hv g (hg g hgm).2
  have h2 : dOmega (machOf sbase v a g dh) (egen sbase v a g).arg 1 (phasor v a) = 0 := by
    unfold dOmega machOf
    simp only
    rw [h1]
    simp
  have h3 : (machOf sbase v a g dh).delta = (egen sbase v a g).arg := rfl
  unfold step dDelta
  simp only [h3, sub_self, mul_zero, zero_mul, add_zero, h2]

/-- One generator in the balance of a bus: its current through the machine admittance or, without machine parameters, through
the load admittance is that of the load flow. -/
theorem gen_current (sbase v a : ℝ) (hs : sbase ≠ 0) (g : GenData) (hr : Regular v g) (dh : ℝ × ℝ) :
    yA sbase (machOf sbase v a g dh) * (internal (machOf sbase v a g dh) (machOf sbase v a g dh).delta - phasor v a)
      = (starRingEnd ℂ) (genPower sbase g / phasor v a) := by
  obtain ⟨hpf, -, hmva, hxd, hr0, hd0⟩ := hr
  have hp : (⟨(power g).1, (power g).2⟩ : ℂ) = genPower sbase g := by
    unfold power genPower
    cases h : g.pf with
    | none => rw [h] at hpf; cases hpf
    | some pq => rfl
  have hi : internal (machOf sbase v a g dh) (machOf sbase v a g dh).delta = egen sbase v a g := by
    unfold internal machOf
    simp only
    have := norm_mul_exp_arg_mul_I (egen sbase v a g)
    conv_rhs => rw [← this]
    congr 1
    apply Complex.ext
    · rw [exp_ofReal_mul_I_re]
    · rw [exp_ofReal_mul_I_im]
  rw [hi, egen_sub, add_sub_cancel_left, hp]
  have hz : zOf sbase (machOf sbase v a g dh) = I * ((g.xd * sbase / g.mva : ℝ) : ℂ) := by
    apply Complex.ext
    · simp [zOf, machOf, hr0]
    · simp [zOf, machOf, hd0]
  unfold yA
  rw [hz]
  have h1 : ((g.xd : ℝ) : ℂ) ≠ 0 := by exact_mod_cast hxd
  have h2 : ((g.mva : ℝ) : ℂ) ≠ 0 := by exact_mod_cast hmva
  have h3 : ((sbase : ℝ) : ℂ) ≠ 0 := by exact_mod_cast hs
  have h4 : I ≠ 0 := I_ne_zero
  push_cast
  field_simp

/-- The load admittance times the voltage is the load current. -/
theorem load_current (sbase v a : ℝ) (hv : v ≠ 0) (p q : ℝ) :
    (⟨p / (v * v * sbase), (-q) / (v * v * sbase)⟩ : ℂ) * phasor v a
      = (starRingEnd ℂ) ((⟨p / sbase, q / sbase⟩ : ℂ) / phasor v a) := by
  have hne := phasor_ne hv a
  have hc : (starRingEnd ℂ) (phasor v a) ≠ 0 := by simpa using hne
  have e : (⟨p / (v * v * sbase), (-q) / (v * v * sbase)⟩ : ℂ)
      = (starRingEnd ℂ) (⟨p / sbase, q / sbase⟩ : ℂ) / ((v * v : ℝ) : ℂ) := by
    apply Complex.ext
    · rw [div_ofReal_re, conj_re, div_div, mul_comm sbase]
    · rw [div_ofReal_im, conj_im, ← neg_div, div_div, mul_comm sbase]
  rw [e, ← phasor_sq v a, map_div₀]
  field_simp

theorem balance (sbase v a : ℝ) (hs : sbase ≠ 0) (gs : List GenData) (hg : ∀ g ∈ gs, Regular v g) (b : BusState)
    (hb : b.v = v) :
    (((gs.foldl (addGen sbase a) b).machs.map (fun m => yA sbase m * (internal m m.delta - phasor v a))).sum
      - (starRingEnd ℂ) ((⟨(gs.foldl (addGen sbase a) b).pl / sbase, (gs.foldl (addGen sbase a) b).ql / sbase⟩ : ℂ) / phasor v a))
    = ((b.machs.map (fun m => yA sbase m * (internal m m.delta - phasor v a))).sum
      - (starRingEnd ℂ) ((⟨b.pl / sbase, b.ql / sbase⟩ : ℂ) / phasor v a))
      + (gs.map (fun g => (starRingEnd ℂ) (genPower sbase g / phasor v a))).sum := by
  induction gs generalizing b with
  | nil => simp
  | cons g gs ih =>
    have hg' : ∀ g ∈ gs, Regular v g := fun x hx => hg x (List.mem_cons_of_mem _ hx)
    have hgg := hg g List.mem_cons_self
    rw [List.foldl_cons]
    cases hd : g.dyn with
    | none =>
      have e : addGen sbase a b g = ⟨b.v, b.pl - (power g).1 * sbase, b.ql - (power g).2 * sbase, b.machs⟩ := by
        simp only [addGen, hd]
      rw [ih hg' (addGen sbase a b g) (by rw [e]; exact hb), e]
      have hp : genPower sbase g = (⟨(power g).1, (power g).2⟩ : ℂ) := by
        unfold power genPower
        cases h : g.pf with
        | none => have := hgg.1; rw [h] at this; cases this
        | some pq => rfl
      have e2 : (⟨(b.pl - (power g).1 * sbase) / sbase, (b.ql - (power g).2 * sbase) / sbase⟩ : ℂ)
          = (⟨b.pl / sbase, b.ql / sbase⟩ : ℂ) - genPower sbase g := by
        rw [hp]
        apply Complex.ext
        · simp only [sub_re]; field_simp
        · simp only [sub_im]; field_simp
      simp only [List.map_cons, List.sum_cons]
      rw [e2, sub_div, map_sub]
      ring
    | some dh =>
      have e : addGen sbase a b g = ⟨if g.stat = 1 then g.vs else b.v, b.pl, b.ql, b.machs ++ [machOf sbase v a g dh]⟩ := by
        simp only [addGen, hd, machOf, hb]
      have hvv : (addGen sbase a b g).v = v := by
        rw [e]
        show (if g.stat = 1 then g.vs else b.v) = v
        split_ifs with h
        · exact hgg.2.1 h
        · exact hb
      rw [ih hg' (addGen sbase a b g) hvv, e]
      simp only [List.map_append, List.map_cons, List.map_nil, List.sum_append, List.sum_cons, List.sum_nil, add_zero]
      rw [gen_current sbase v a hs g hgg dh]
      ring

theorem sum_mul_sub (sbase : ℝ) (V : ℂ) (ms : List Mach) :
    (ms.map (fun m => yA sbase m * (internal m m.delta - V))).sum
      = (ms.map (fun m => yA sbase m * internal m m.delta)).sum - (ms.map (yA sbase)).sum * V := by
  induction ms with
  | nil => simp
  | cons m ms ih => simp only [List.map_cons, List.sum_cons, ih]; ring

/-- The voltages of the load flow are the ones of the network with the machines: when the load flow balances the bus - the
current `y V + off` into the network is that of the generators less the loads - the row of the bus in the equations for the
voltages holds with the initial internal voltages. -/
theorem C277_network_partial (sbase v a pl ql : ℝ) (hs : sbase ≠ 0) (hv : v ≠ 0) (gs : List GenData)
    (hg : ∀ g ∈ gs, Regular v g) (y off : ℂ)
    (hbal : y * phasor v a + off = (starRingEnd ℂ)
      (((gs.map (genPower sbase)).sum - (⟨pl / sbase, ql / sbase⟩ : ℂ)) / phasor v a)) :
    diag sbase y (loadBus sbase v a pl ql gs) * phasor v a + off
      = ((loadBus sbase v a pl ql gs).machs.map (fun m => yA sbase m * internal m m.delta)).sum := by
  have h := balance sbase v a hs gs hg ⟨v, pl, ql, []⟩ rfl
  have hvv := (machs_of sbase v a gs (fun g hgm => (hg g hgm).2.1) ⟨v, pl, ql, []⟩ rfl).1
  unfold diag loadBus
  generalize hB : gs.foldl (addGen sbase a) ⟨v, pl, ql, []⟩ = B at h hvv ⊢
  rw [sum_mul_sub] at h
  simp only [List.map_nil, List.sum_nil, zero_sub] at h
  have hl := load_current sbase v a hv B.pl B.ql
  rw [hvv]
  have hsum : (gs.map (fun g => (starRingEnd ℂ) (genPower sbase g / phasor v a))).sum
      = (starRingEnd ℂ) ((gs.map (genPower sbase)).sum / phasor v a) := by
    clear h hB hbal hg hvv hl
    induction gs with
    | nil => simp
    | cons g gs ih => simp only [List.map_cons, List.sum_cons, ih, add_div, map_add]
  rw [hsum] at h
  rw [sub_div, map_sub] at hbal
  linear_combination hbal - h + hl

/-- Where the load flow left nothing, the mechanical power is the power in MW taken as per unit: it is too large by the factor of
the system base. -/
theorem C277_units_violated (sbase v a pl ql : ℝ) (g : GenData) (dh : ℝ × ℝ) (hpf : g.pf = none) (hd : g.dyn = some dh) :
    (loadBus sbase v a pl ql [g]).machs.map (·.pm) = [sbase * (g.pg / g.mva)] := by
  unfold loadBus
  simp only [List.foldl_cons, List.foldl_nil, addGen, hd, List.nil_append, List.map_cons, List.map_nil, power, hpf,
    Option.getD_none]
  congr 1
  ring

/-- With a subtransient reactance in the data and no resistance the admittance of the machine is one over zero. -/
theorem C277_subtransient_violated (sbase v a pl ql : ℝ) (g : GenData) (dh : ℝ × ℝ) (hd : g.dyn = some dh) (hr : g.r = 0)
    (hs : g.dstr ≠ 0) : (loadBus sbase v a pl ql [g]).machs.map (zOf sbase) = [0] := by
  unfold loadBus
  simp only [List.foldl_cons, List.foldl_nil, addGen, hd, List.nil_append, List.map_cons, List.map_nil]
  congr 1
  apply Complex.ext
  · simp [zOf, hr]
  · simp [zOf, hs]

/-- The load is converted to an admittance with the set voltage of the last generator in service in place of the voltage of the
bus. -/
theorem C277_set_voltage_violated (sbase v a pl ql : ℝ) (g : GenData) (dh : ℝ × ℝ) (hd : g.dyn = some dh) (h1 : g.stat = 1)
    (hs : 0 < sbase) (hv : 0 < v) (hvs : 0 < g.vs) (hne : g.vs ≠ v) (hpl : pl ≠ 0) (y : ℂ) :
    (diag sbase y (loadBus sbase v a pl ql [g])).re
      ≠ (y + ((loadBus sbase v a pl ql [g]).machs.map (yA sbase)).sum).re + pl / (v * v * sbase) := by
  unfold loadBus
  simp only [List.foldl_cons, List.foldl_nil, addGen, hd, h1, if_true, diag]
  rw [add_re]
  intro h
  have h2 := add_left_cancel h
  simp only at h2
  rw [div_eq_div_iff (by positivity) (by positivity)] at h2
  have h3 : v * v * sbase = g.vs * g.vs * sbase := mul_left_cancel₀ hpl h2
  have h4 : v * v = g.vs * g.vs := mul_right_cancel₀ hs.ne' h3
  have h5 : (v - g.vs) * (v + g.vs) = 0 := by linarith [h4, (by ring : (v - g.vs) * (v + g.vs) = v * v - g.vs * g.vs)]
  rcases mul_eq_zero.1 h5 with h | h
  · exact hne (by linarith)
  · linarith

/-- A generator for the examples. -/
noncomputable def sampleGen : GenData := ⟨50, 10, 1, 1, 100, 0, 0, 3 / 10, some (1 / 2, 1 / 10), some (2, 5)⟩

/-- C277: hypotheses met. -/
example : Regular 1 sampleGen ∧ (loadBus 100 1 0 20 5 [sampleGen]).machs.length = 1 := by
  refine ⟨⟨rfl, fun _ => rfl, by norm_num [sampleGen], by norm_num [sampleGen], rfl, rfl⟩, rfl⟩

/-! ### Generators out of service -/

/-- Generators out of service are among the machines: the service flag does not matter for which generators are kept. -/
theorem C278_status_violated (sbase v a pl ql : ℝ) (gs : List GenData) (hd : ∀ g ∈ gs, g.dyn.isSome) :
    (loadBus sbase v a pl ql gs).machs.length = gs.length := by
  unfold loadBus
  have key : ∀ (b : BusState), (gs.foldl (addGen sbase a) b).machs.length = b.machs.length + gs.length := by
    induction gs with
    | nil => intro b; simp
    | cons g gs ih =>
      intro b
      rw [List.foldl_cons, ih (fun x hx => hd x (List.mem_cons_of_mem _ hx))]
      have h := hd g List.mem_cons_self
      cases hh : g.dyn with
      | none => rw [hh] at h; cases h
      | some dh => simp only [addGen, hh, List.length_append, List.length_cons, List.length_nil]; omega
  simpa using key ⟨v, pl, ql, []⟩

example : (loadBus 100 1 0 20 5 [sampleGen, { sampleGen with stat := 0 }]).machs.length = 2 :=
  C278_status_violated _ _ _ _ _ _ (by intro g hg; simp [sampleGen] at hg; rcases hg with rfl | rfl <;> rfl)

/-! ### Voltages -/

/-- Where no bus has more than one generator, every generator gets the voltage of its bus. -/
theorem C279_voltage_partial {α : Type} (buses : List (ℕ × α)) (h1 : ∀ x ∈ buses, x.1 ≤ 1) (b : ℕ) (n : ℕ) (V : α)
    (h : buses[b]? = some (n, V)) : genVoltages buses b = List.replicate n (some V) := by
  have hn : n ≤ 1 := h1 (n, V) (List.mem_of_getElem? h)
  unfold genVoltages voltageRows
  rw [h]
  rcases (by omega : n = 0 ∨ n = 1) with rfl | rfl
  · rfl
  · simp [List.range_succ, h]

/-- The second generator of a bus gets the voltage of the next bus of the process. -/
theorem C279_voltage_violated {α : Type} (buses : List (ℕ × α)) (b n n' : ℕ) (V V' : α) (hn : 2 ≤ n)
    (h : buses[b]? = some (n, V)) (h' : buses[b + 1]? = some (n', V')) : (genVoltages buses b)[1]? = some (some V') := by
  unfold genVoltages voltageRows
  rw [h]
  simp [List.getElem?_range (by omega : 1 < n), h']

/-- On the last bus of a process the second generator gets what lies behind the rows. -/
theorem C279_last_violated {α : Type} (buses : List (ℕ × α)) (b n : ℕ) (V : α) (hn : 2 ≤ n) (h : buses[b]? = some (n, V))
    (hb : b + 1 = buses.length) : (genVoltages buses b)[1]? = some none := by
  unfold genVoltages voltageRows
  rw [h]
  simp [List.getElem?_range (by omega : 1 < n)]
  omega

example : genVoltages [(1, 'a'), (2, 'b'), (1, 'c')] 1 = [some 'b', some 'c'] := by decide

/-! ### Loads -/

/-- One load, in service, in a file of version 33 or later: it is the load of the bus. -/
theorem C280_load_partial (l : Load) (h : l.stat = 1) : kalmanPl false [l] = totalPl [l] := by
  simp [kalmanPl, plainPl, totalPl, h]

/-- Loads of files of version 23 are not seen. -/
theorem C280_v23_violated (loads : List Load) : kalmanPl true loads = 0 := rfl

/-- With several loads at a bus only the first counts, and its service flag does not. -/
theorem C280_first_violated (l : Load) (ls : List Load) : kalmanPl false (l :: ls) = l.pl := rfl

example : kalmanPl true [⟨20, 1⟩] ≠ totalPl [⟨20, 1⟩] ∧ kalmanPl false [⟨20, 1⟩, ⟨5, 1⟩] ≠ totalPl [⟨20, 1⟩, ⟨5, 1⟩] ∧
    kalmanPl false [⟨20, 0⟩] ≠ totalPl [⟨20, 0⟩] := by
  simp [kalmanPl, plainPl, totalPl]

/-! ### Fault -/

theorem fromFlags_iff (branches : List (ℤ × ℤ)) (i j : ℤ) (b : ℤ) :
    fromFlags branches i j b = true ↔ b = i ∧ (i, j) ∈ branches := by
  unfold fromFlags
  have key : ∀ (fl : ℤ → Bool), (∀ b, fl b = true → b = i) →
      (branches.foldl (fun fl br => if br.1 = i ∧ br.2 = j then
        fun b => if b = br.1 then decide (br.1 = b) else if b = br.2 then decide (br.1 = b) else fl b else fl) fl b = true
      ↔ b = i ∧ ((i, j) ∈ branches ∨ fl b = true)) := by
    induction branches with
    | nil => intro fl hfl; simp; exact fun h => hfl b h
    | cons br bs ih =>
      intro fl hfl
      rw [List.foldl_cons]
      by_cases h : br.1 = i ∧ br.2 = j
      · rw [if_pos h, ih]
        · constructor
          · rintro ⟨rfl, -⟩
            exact ⟨rfl, Or.inl (by rw [List.mem_cons]; exact Or.inl (Prod.ext h.1.symm h.2.symm))⟩
          · rintro ⟨rfl, -⟩
            refine ⟨rfl, Or.inr ?_⟩
            simp [h.1]
        · intro b' hb'
          by_cases hb1 : b' = br.1
          · rw [hb1, h.1]
          · simp only [hb1, if_false] at hb'
            split_ifs at hb' with h2
            · simp at hb'; omega
            · exact hfl b' hb'
      · rw [if_neg h, ih fl hfl]
        have : (i, j) ∈ br :: bs ↔ (i, j) ∈ bs := by
          rw [List.mem_cons]
          constructor
          · rintro (e | e)
            · exact absurd ⟨by rw [← e], by rw [← e]⟩ h
            · exact e
          · exact Or.inr
        rw [this]
  simpa using key (fun _ => false) (by simp)

/-- A fault on a branch given in the order of the network short-circuits the first bus given and no other; two branches
between the buses or other branches make no difference. -/
theorem C281_fault_partial (branches : List (ℤ × ℤ)) (i j b : ℤ) (h : (i, j) ∈ branches) :
    fromFlags branches i j b = true ↔ b = i := by
  rw [fromFlags_iff]
  exact ⟨fun h' => h'.1, fun h' => ⟨h', h⟩⟩

/-- A fault on a branch given in the other order has no effect at all. -/
theorem C281_reversed_violated (branches : List (ℤ × ℤ)) (i j : ℤ) (_h : (j, i) ∈ branches) (hn : (i, j) ∉ branches) :
    ∀ b, fromFlags branches i j b = false := by
  intro b
  rw [Bool.eq_false_iff]
  intro hb
  exact hn ((fromFlags_iff _ _ _ _).1 hb).2

example : fromFlags [(1, 2), (3, 2), (1, 2)] 3 2 3 = true ∧ fromFlags [(1, 2), (3, 2), (1, 2)] 2 3 2 = false := by decide

/-! ### Network -/

/-- After `readNetwork` every bus of the file is in the network twice as often as in the file. -/
theorem C282_twice_violated (file : List ℤ) (b : ℤ) : (readNetwork file).count b = 2 * file.count b := by
  unfold readNetwork parse
  rw [List.nil_append, List.count_append]
  omega

example : readNetwork [1, 2] = [1, 2, 1, 2] := rfl

end GridPACK.KalmanMachine
