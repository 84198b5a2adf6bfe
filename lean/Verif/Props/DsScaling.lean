import Verif.Spec.DsScaling
import Mathlib.Tactic.Linarith
import Mathlib.Tactic.NormNum
import Mathlib.Tactic.Ring
import Mathlib.Tactic.FieldSimp
import Mathlib.Tactic.Positivity
import Mathlib.Tactic.LinearCombination
import Mathlib.Algebra.BigOperators.Group.List.Lemmas
import Mathlib.Algebra.Order.BigOperators.Group.List

/-! C235 (resetting), C236 (scaling generators), C237 (totals and margins), C238 (transfer of the power flow solution)
in the dynamic simulation. -/
namespace GridPACK.DsScaling

/-- What no call changes. -/
structure Same (s t : Bus × Data) : Prop where
  genid : t.1.genid = s.1.genid
  save : t.1.save = s.1.save
  pmin : t.1.pmin = s.1.pmin
  pmax : t.1.pmax = s.1.pmax
  pSave : t.1.pSave = s.1.pSave
  qSave : t.1.qSave = s.1.qSave
  pg : t.1.pg.length = s.1.pg.length
  p : t.1.p.length = s.1.p.length
  q : t.1.q.length = s.1.q.length
  gens : t.2.gens.length = s.2.gens.length

theorem Same.trans {s t u : Bus × Data} (h : Same s t) (k : Same t u) : Same s u :=
  ⟨k.1.trans h.1, k.2.trans h.2, k.3.trans h.3, k.4.trans h.4, k.5.trans h.5, k.6.trans h.6, k.7.trans h.7, k.8.trans h.8,
   k.9.trans h.9, k.10.trans h.10⟩

theorem run_same (a : Act) (s : Bus × Data) : Same s (a.run s) := by
  cases a with
  | scaleGen tag v =>
    simp only [Act.run, scaleGen]
    split <;> constructor <;> simp [Data.setPg]
  | scaleLoad tag v =>
    simp only [Act.run, scaleLoad]
    split <;> constructor <;> simp
  | setPower tag v =>
    simp only [Act.run, setPower]
    split <;> constructor <;> simp [Data.setPg]
  | setStatus tag st =>
    simp only [Act.run, setStatus]
    split
    · constructor <;> rfl
    · split <;> constructor <;> simp [Data.setPg]
  | reset => constructor <;> simp [Act.run, resetPower]

theorem runAll_same (as : List Act) (s : Bus × Data) : Same s (runAll as s) := by
  induction as generalizing s with
  | nil => constructor <;> rfl
  | cons a as ih => exact (run_same a s).trans (ih (a.run s))

theorem mapIdx_getD (l m : List ℝ) (h : l.length = m.length) : l.mapIdx (fun i _ => m.getD i 0) = m := by
  apply List.ext_getElem (by simp [h])
  intro i h1 h2
  simp [List.getD_eq_getElem?_getD, List.getElem?_eq_getElem h2]

theorem mapIdx_getD_append {β : Type} (l : List β) (m k : List ℝ) (h : l.length = m.length) :
    l.mapIdx (fun i _ => (m ++ k).getD i 0) = m := by
  apply List.ext_getElem (by simp [h])
  intro i h1 h2
  simp [List.getD_eq_getElem?_getD, List.getElem?_append_left h2, List.getElem?_eq_getElem h2]

/-- A bus after some calls. -/
theorem Same.facts {d : Data} {b : Bus} {t : Bus × Data} (h : Same (load d b, d) t) :
    t.1.genid.length = d.gens.length ∧ t.1.pg.length = d.gens.length ∧ t.1.p.length = d.loads.length ∧
    t.1.q.length = d.loads.length ∧ t.2.gens.length = d.gens.length ∧ t.1.save = b.save ++ d.gens.map GenRec.pg ∧
    t.1.pmin = b.pmin ++ d.gens.map GenRec.pmin ∧ t.1.pmax = b.pmax ++ d.gens.map GenRec.pmax ∧
    t.1.pSave = d.loads.map LoadRec.p ∧ t.1.qSave = d.loads.map LoadRec.q := by
  obtain ⟨h1, h2, h3, h4, h5, h6, h7, h8, h9, h10⟩ := h
  refine ⟨?_, ?_, ?_, ?_, h10, h2, h3, h4, h5, h6⟩
  · rw [h1]; simp [load]
  · rw [h7]; simp [load]
  · rw [h8]; simp [load]
  · rw [h9]; simp [load]

/-- C235 (partial: the bus has been loaded once): after any history of scaling, setting powers and statuses and
resetting, `resetPower` gives every generator and load of the bus the power it had in the network data when the bus was
loaded, and writes the powers of the generators to the network data. -/
theorem C235_reset_partial (d : Data) (as : List Act) :
    let s := resetPower (runAll as (load d fresh, d))
    s.1.pg = d.gens.map GenRec.pg ∧ s.1.p = d.loads.map LoadRec.p ∧ s.1.q = d.loads.map LoadRec.q ∧
    s.2.gens.map GenRec.pg = d.gens.map GenRec.pg := by
  obtain ⟨hg, l1, l2, l3, l4, hs, -, -, hp, hq⟩ := (runAll_same as (load d fresh, d)).facts
  generalize runAll as (load d fresh, d) = t at hg l1 l2 l3 l4 hs hp hq ⊢
  simp only [fresh, List.nil_append] at hs
  refine ⟨?_, ?_, ?_, ?_⟩
  · simp only [resetPower]; rw [hs]; exact mapIdx_getD _ _ (by simp [l1])
  · simp only [resetPower]; rw [hp]; exact mapIdx_getD _ _ (by simp [l2])
  · simp only [resetPower]; rw [hq]; exact mapIdx_getD _ _ (by simp [l3])
  · simp only [resetPower]; rw [hs, hg]
    apply List.ext_getElem (by simp [l4])
    intro i h1 h2
    have h2' : i < d.gens.length := by simpa using h2
    simp [h2', List.getD_eq_getElem?_getD]

/-- C235 violated when a bus is loaded again (as `DSFullApp::reload` does before every contingency): whatever data `ds`
have been loaded since the first data `d`, and whatever has happened since, resetting a bus with as many generators as
at first brings back the powers of the first load, in the bus and in the network data. -/
theorem C235_reload_violated (d last : Data) (ds : List Data) (hl : last.gens.length = d.gens.length) (as : List Act) :
    let s := resetPower (runAll as (load last (ds.foldl (fun b e => load e b) (load d fresh)), last))
    s.1.pg = d.gens.map GenRec.pg ∧ s.2.gens.map GenRec.pg = d.gens.map GenRec.pg := by
  have hk : ∃ k, (ds.foldl (fun b e => load e b) (load d fresh)).save = d.gens.map GenRec.pg ++ k := by
    have : ∀ (ds : List Data) (b : Bus) (k : List ℝ), b.save = d.gens.map GenRec.pg ++ k →
        ∃ k, (ds.foldl (fun b e => load e b) b).save = d.gens.map GenRec.pg ++ k := by
      intro ds
      induction ds with
      | nil => intro b k h; exact ⟨k, h⟩
      | cons e es ih =>
        intro b k h
        exact ih (load e b) (k ++ e.gens.map GenRec.pg) (by simp [load, h])
    exact this ds _ [] (by simp [load, fresh])
  obtain ⟨k, hk⟩ := hk
  obtain ⟨hg, l1, -, -, l4, hs, -⟩ :=
    (runAll_same as (load last (ds.foldl (fun b e => load e b) (load d fresh)), last)).facts
  rw [hk, List.append_assoc] at hs
  generalize runAll as (load last (ds.foldl (fun b e => load e b) (load d fresh)), last) = t at hg l1 l4 hs ⊢
  refine ⟨?_, ?_⟩
  · simp only [resetPower]
    rw [hs]
    exact mapIdx_getD_append t.1.pg _ _ (by rw [List.length_map]; omega)
  · simp only [resetPower]
    apply List.ext_getElem (by simp only [List.length_map, List.length_mapIdx]; omega)
    intro i h1 h2
    have h2' : i < d.gens.length := by simpa using h2
    have h3 : i < (d.gens.map GenRec.pg).length := h2
    have h4 : i < t.1.genid.length := by omega
    simp only [List.getElem_map, List.getElem_mapIdx, h4, if_true, hs, List.getD_eq_getElem?_getD,
      List.getElem?_append_left h3, List.getElem?_eq_getElem h3, Option.getD_some]

/-- Two generators and a load. -/
noncomputable def data1 : Data := ⟨[⟨"1 ", 1, 50, 10, 90⟩, ⟨"2 ", 0, 0, 5, 40⟩], [⟨"1 ", 30, 8⟩]⟩
/-- The same bus after another power flow. -/
noncomputable def data2 : Data := ⟨[⟨"1 ", 1, 70, 10, 90⟩, ⟨"2 ", 0, 20, 5, 40⟩], [⟨"1 ", 30, 8⟩]⟩

/-- C235: a history with scaling, an outage and an earlier reset. -/
example : (resetPower (runAll [.scaleGen "1 " (1 / 2), .setStatus "2 " 0, .reset, .scaleLoad "1 " 3, .setPower "2 " 7]
    (load data1 fresh, data1))).1.pg = [50, 0] := by
  rw [(C235_reset_partial data1 _).1]; rfl

/-- C235: the bus is loaded with 70 and 20 MW, and the reset gives 50 and 0. -/
example : (resetPower (load data2 (load data1 fresh), data2)).1.pg = [50, 0] := by
  have := (C235_reload_violated data1 data2 [] rfl []).1
  exact this

/-! ### C236 -/

theorem scaled_within {v pg lo hi : ℝ} (hv : -1 ≤ v ∧ v ≤ 1) (h : lo ≤ pg ∧ pg ≤ hi) :
    lo ≤ scaled v pg lo hi ∧ scaled v pg lo hi ≤ hi := by
  unfold scaled
  split
  · constructor <;> nlinarith
  · constructor <;> nlinarith

theorem modify_map_pg (gs : List GenRec) (i : ℕ) (x : ℝ) :
    (gs.modify i (fun g => { g with pg := x })).map GenRec.pg = (gs.map GenRec.pg).set i x := by
  apply List.ext_getElem (by simp)
  intro j h1 h2
  simp only [List.getElem_map, List.getElem_modify, List.getElem_set]
  split <;> simp_all

/-- C236 (partial: the bus has been loaded once and the powers are in the unit of the limits): scaling generators of a bus
any number of times by factors between -1 and 1 keeps every generator within its limits, and the network data hold the
powers of the bus. -/
theorem C236_within_partial (d : Data) (hd : ∀ g ∈ d.gens, g.pmin ≤ g.pg ∧ g.pg ≤ g.pmax) (calls : List (String × ℝ))
    (hc : ∀ c ∈ calls, -1 ≤ c.2 ∧ c.2 ≤ 1) :
    let s := calls.foldl (fun s c => scaleGen c.1 c.2 s) (load d fresh, d)
    Within s.1 ∧ s.2.gens.map GenRec.pg = s.1.pg := by
  have key : ∀ (calls : List (String × ℝ)) (s : Bus × Data), (∀ c ∈ calls, -1 ≤ c.2 ∧ c.2 ≤ 1) → Within s.1 →
      s.2.gens.map GenRec.pg = s.1.pg → s.1.genid.length = s.1.pg.length →
      Within (calls.foldl (fun s c => scaleGen c.1 c.2 s) s).1 ∧
      (calls.foldl (fun s c => scaleGen c.1 c.2 s) s).2.gens.map GenRec.pg = (calls.foldl (fun s c => scaleGen c.1 c.2 s) s).1.pg := by
    intro calls
    induction calls with
    | nil => intro s _ h1 h2 _; exact ⟨h1, h2⟩
    | cons c cs ih =>
      intro s hc h1 h2 h3
      rw [List.foldl_cons]
      refine ih _ (fun x hx => hc x (List.mem_cons_of_mem _ hx)) ?_ ?_ ?_
      · simp only [scaleGen]
        split
        · exact h1
        · rename_i i hi
          intro j x hj
          dsimp only at hj ⊢
          rw [List.getElem?_set] at hj
          split at hj
          · rename_i hij; subst hij
            split at hj
            · rename_i hlt
              obtain ⟨lo, hi', e1, e2, e3⟩ := h1 i (s.1.pg[i]) (List.getElem?_eq_getElem hlt)
              refine ⟨lo, hi', e1, e2, ?_⟩
              have hx := Option.some.inj hj
              rw [List.getD_eq_getElem?_getD, List.getD_eq_getElem?_getD, List.getD_eq_getElem?_getD, e1, e2,
                List.getElem?_eq_getElem hlt] at hx
              rw [← hx]
              exact scaled_within (hc c List.mem_cons_self) e3
            · cases hj
          · exact h1 j x hj
      · simp only [scaleGen]
        split
        · exact h2
        · simp only [Data.setPg]
          rw [modify_map_pg, h2]
      · simp only [scaleGen]
        split <;> simp [h3]
  refine key calls _ hc ?_ rfl (by simp [load])
  intro i x hi
  simp only [load, fresh, List.nil_append, List.getElem?_map, Option.map_eq_some_iff] at hi ⊢
  obtain ⟨g, hg, rfl⟩ := hi
  exact ⟨g.pmin, g.pmax, ⟨g, hg, rfl⟩, ⟨g, hg, rfl⟩, hd g (List.mem_of_getElem? hg)⟩

/-- C236: scaling a generator by a factor between 0 and 1 moves it by that part of its room upwards, by a factor between -1
and 0 by that part of its room downwards. -/
theorem C236_amount (g : GenRec) (gs : List GenRec) (ls : List LoadRec) (v : ℝ) :
    (scaleGen g.id v (load ⟨g :: gs, ls⟩ fresh, ⟨g :: gs, ls⟩)).1.pg =
      (if 0 < v then g.pg + v * (g.pmax - g.pg) else g.pg + v * (g.pg - g.pmin)) :: gs.map GenRec.pg := by
  simp [scaleGen, load, fresh, List.findIdx?_cons, scaled]

/-- C236 for loads: the first load with the id gets both its powers multiplied, whatever stands before and behind it
and whatever the generators are called; nothing else on the bus changes. -/
theorem C236_load (gs : List GenRec) (before behind : List LoadRec) (l : LoadRec) (v : ℝ)
    (hb : ∀ x ∈ before, x.id ≠ l.id) :
    let d : Data := ⟨gs, before ++ l :: behind⟩
    let s := scaleLoad l.id v (load d fresh, d)
    s.1.p = before.map LoadRec.p ++ v * l.p :: behind.map LoadRec.p ∧
    s.1.q = before.map LoadRec.q ++ v * l.q :: behind.map LoadRec.q ∧
    s.1.pg = gs.map GenRec.pg ∧ s.2 = d := by
  have hi : (load ⟨gs, before ++ l :: behind⟩ fresh).loadid.findIdx? (fun t => t = l.id) = some before.length := by
    show ((before ++ l :: behind).map LoadRec.id).findIdx? (fun t => t = l.id) = _
    rw [List.findIdx?_eq_some_iff_getElem]
    refine ⟨by simp, by simp, fun j hj => ?_⟩
    have hj' : j < before.length := hj
    simp only [List.getElem_map, List.getElem_append_left hj', decide_eq_true_eq]
    exact hb _ (List.getElem_mem hj')
  have hm : ∀ (f : LoadRec → ℝ), ((before ++ l :: behind).map f).modify before.length (fun x => v * x) =
      before.map f ++ v * f l :: behind.map f := by
    intro f
    have hl : before.length = (before.map f).length := by simp
    rw [List.map_append, List.map_cons, hl]
    generalize before.map f = xs
    induction xs with
    | nil => rfl
    | cons x xs ih => simpa using ih
  simp only [scaleLoad, hi]
  exact ⟨hm _, hm _, rfl, trivial⟩

example : (scaleLoad "2 " 3 (load ⟨[⟨"2 ", 1, 50, 10, 90⟩], [⟨"1 ", 5, 6⟩, ⟨"2 ", 7, 8⟩]⟩ fresh,
    ⟨[⟨"2 ", 1, 50, 10, 90⟩], [⟨"1 ", 5, 6⟩, ⟨"2 ", 7, 8⟩]⟩)).1.p = [5, 3 * 7] :=
  (C236_load [⟨"2 ", 1, 50, 10, 90⟩] [⟨"1 ", 5, 6⟩] [] ⟨"2 ", 7, 8⟩ 3 (by
    intro x hx
    rw [List.mem_singleton.1 hx]
    decide)).1

/-- C236 violated by the units: a generator that runs at its maximum `x` (in MW) has the power `x / sbase` after the
power flow solution has been transferred, while the maximum stays `x`; raising the generation by any factor then raises
this generator, and its power in MW is above its maximum. -/
theorem C236_units_violated (id : String) (stat : Int) (x lo sbase v : ℝ) (hx : 0 < x) (hs : 1 < sbase) (hv : 0 < v) :
    ∃ y, (scaleGen id v (load ⟨[⟨id, stat, x / sbase, lo, x⟩], []⟩ fresh, ⟨[⟨id, stat, x / sbase, lo, x⟩], []⟩)).1.pg = [y] ∧
      x < y * sbase := by
  refine ⟨_, C236_amount ⟨id, stat, x / sbase, lo, x⟩ [] [] v, ?_⟩
  simp only [hv, if_true]
  have h0 : (0 : ℝ) < sbase := by linarith
  have e : (x / sbase + v * (x - x / sbase)) * sbase = x + v * x * (sbase - 1) := by field_simp
  rw [e]
  have := mul_pos (mul_pos hv hx) (sub_pos.2 hs)
  linarith

/-- C236 violated for generators out of service: they are raised like the others. -/
theorem C236_off_violated (id : String) (pg lo hi v : ℝ) (hv : 0 < v) (hp : pg < hi) :
    ∃ y, (scaleGen id v (load ⟨[⟨id, 0, pg, lo, hi⟩], []⟩ fresh, ⟨[⟨id, 0, pg, lo, hi⟩], []⟩)).1.pg = [y] ∧ pg < y := by
  refine ⟨_, C236_amount ⟨id, 0, pg, lo, hi⟩ [] [] v, ?_⟩
  simp only [hv, if_true]
  nlinarith

/-- C236 violated when a bus is loaded again: the limits of the first load are used (here: a generator whose maximum has been
lowered from `hi` to `hi'` is raised to the old maximum). -/
theorem C236_reload_violated (id : String) (pg lo hi hi' : ℝ) (h : hi' < hi) :
    ∃ y, (scaleGen id 1 (load ⟨[⟨id, 1, pg, lo, hi'⟩], []⟩ (load ⟨[⟨id, 1, pg, lo, hi⟩], []⟩ fresh),
      ⟨[⟨id, 1, pg, lo, hi'⟩], []⟩)).1.pg = [y] ∧ hi' < y := by
  refine ⟨hi, ?_, h⟩
  simp [scaleGen, load, fresh, List.findIdx?_cons, scaled]

/-- C236: half up, all down, all up, for two generators. -/
example : Within ([("1 ", 1 / 2), ("2 ", -1), ("1 ", -1), ("1 ", 1)].foldl (fun s c => scaleGen c.1 c.2 s)
    (load ⟨[⟨"1 ", 1, 50, 10, 90⟩, ⟨"2 ", 1, 20, 5, 40⟩], []⟩ fresh, ⟨[⟨"1 ", 1, 50, 10, 90⟩, ⟨"2 ", 1, 20, 5, 40⟩], []⟩)).1 :=
  (C236_within_partial _ (by intro g hg; simp at hg; rcases hg with rfl | rfl <;> norm_num) _ (by
    intro c hc; simp at hc; rcases hc with rfl | rfl | rfl | rfl <;> norm_num)).1

/-! ### C237 -/

theorem scope_iff (area zone : Int) (l : Local) :
    scope area zone l = ((l.area = area) && (zone ≤ 0 || l.zone = zone)) := by
  unfold scope
  by_cases h : zone > 0
  · have : ¬ zone ≤ 0 := by omega
    simp [h, this, eq_comm]
  · have : zone ≤ 0 := by omega
    simp [h, this]

theorem busLoad_loaded {l : Local × Data} (h : ∃ as, l.1.bus = (runAll as (load l.2 fresh, l.2)).1) :
    busLoad l.1.bus = (l.2.loads.map LoadRec.p).sum := by
  obtain ⟨as, h⟩ := h
  obtain ⟨-, -, hl, -, -, -, -, -, hp, -⟩ := (runAll_same as (load l.2 fresh, l.2)).facts
  rw [← h] at hl hp
  unfold busLoad
  rw [hp, mapIdx_getD _ _ (by simp [hl])]

theorem busMargins_loaded {l : Local × Data} (h : ∃ as, l.1.bus = (runAll as (load l.2 fresh, l.2)).1) :
    busMargins l.1.bus = ((l.2.gens.map GenRec.pg).sum, (l.2.gens.map GenRec.pmin).sum, (l.2.gens.map GenRec.pmax).sum) := by
  obtain ⟨as, h⟩ := h
  obtain ⟨hl, -, -, -, -, e1, e2, e3, -, -⟩ := (runAll_same as (load l.2 fresh, l.2)).facts
  rw [← h] at hl e1 e2 e3
  simp only [fresh, List.nil_append] at e1 e2 e3
  have key : ∀ (m : List ℝ), l.1.bus.genid.length = m.length → l.1.bus.genid.mapIdx (fun i _ => m.getD i 0) = m := by
    intro m hm
    have := mapIdx_getD_append l.1.bus.genid m [] hm
    simpa using this
  unfold busMargins
  rw [e1, e2, e3, key _ (by simp [hl]), key _ (by simp [hl]), key _ (by simp [hl])]

theorem sum_split {α : Type} (f g : α → Bool) (x : α → ℝ) (l : List α) :
    ((l.filter f).map x).sum = ((l.filter (fun a => g a && f a)).map x).sum + ((l.filter (fun a => !g a && f a)).map x).sum := by
  induction l with
  | nil => simp
  | cons a l ih =>
    simp only [List.filter_cons]
    cases hf : f a <;> cases hg : g a <;> simp [ih] <;> ring

/-- The network as the functions see it. -/
def locals (procs : List (List (Local × Data))) : List (List Local) := procs.map (fun ls => ls.map Prod.fst)

/-- C237 violated: the total load counts the copies of buses that belong to other processes: for every network it is the
load of the area plus the load of the copies. -/
theorem C237_copies_violated (area zone : Int) (procs : List (List (Local × Data))) (h : Loaded procs) :
    totalLoad area zone (locals procs) = trueLoad area zone procs + copiedLoad area zone procs := by
  unfold totalLoad trueLoad copiedLoad locals
  induction procs with
  | nil => simp
  | cons ls ps ih =>
    simp only [List.map_cons, List.sum_cons]
    rw [ih (fun x hx => h x (List.mem_cons_of_mem _ hx))]
    have e : localLoad area zone (ls.map Prod.fst) =
        ((ls.filter (fun l => (l.1.area = area) && (zone ≤ 0 || l.1.zone = zone))).map (fun l => (l.2.loads.map LoadRec.p).sum)).sum := by
      unfold localLoad
      have h1 := h ls List.mem_cons_self
      clear ih h
      induction ls with
      | nil => rfl
      | cons l ls ih =>
        have h2 := ih (fun x hx => h1 x (List.mem_cons_of_mem _ hx))
        simp only [List.map_cons, List.filter_cons, scope_iff] at h2 ⊢
        split
        · simp only [List.map_cons, List.sum_cons]
          rw [h2, busLoad_loaded (h1 l List.mem_cons_self)]
        · exact h2
    rw [e, sum_split _ (fun l => l.1.active)]
    simp only [Bool.and_assoc]
    ring

/-- C237 (partial: no process has copies of buses of other processes): the total load is that of the area. -/
theorem C237_load_partial (area zone : Int) (procs : List (List (Local × Data))) (h : Loaded procs)
    (ha : ∀ ls ∈ procs, ∀ l ∈ ls, l.1.active = true) : totalLoad area zone (locals procs) = trueLoad area zone procs := by
  rw [C237_copies_violated area zone procs h]
  have : copiedLoad area zone procs = 0 := by
    unfold copiedLoad
    apply List.sum_eq_zero
    intro x hx
    obtain ⟨ls, hls, rfl⟩ := List.mem_map.1 hx
    have : ls.filter (fun l => !l.1.active && (l.1.area = area) && (zone ≤ 0 || l.1.zone = zone)) = [] := by
      rw [List.filter_eq_nil_iff]
      intro l hl; simp [ha ls hls l hl]
    rw [this]; rfl
  rw [this, add_zero]

theorem margins_loaded (area zone : Int) (ls : List (Local × Data))
    (h : ∀ l ∈ ls, ∃ as, l.1.bus = (runAll as (load l.2 fresh, l.2)).1) (ha : ∀ l ∈ ls, l.1.active = true) :
    margins area zone (ls.map Prod.fst) = trueMargins (fun _ => true) area zone [ls] := by
  unfold margins trueMargins
  induction ls with
  | nil => simp; rfl
  | cons l ls ih =>
    have h2 := ih (fun x hx => h x (List.mem_cons_of_mem _ hx)) (fun x hx => ha x (List.mem_cons_of_mem _ hx))
    simp only [List.map_cons, List.filter_cons, scope_iff, ha l List.mem_cons_self, Bool.true_and] at h2 ⊢
    split
    · simp only [List.map_cons, List.sum_cons]
      rw [h2, busMargins_loaded (h l List.mem_cons_self)]
      simp
    · exact h2

/-- C237 (partial: one process, all generators in service): generation and limits are those of the area. -/
theorem C237_margins_partial (area zone : Int) (ls : List (Local × Data)) (h : Loaded [ls])
    (ha : ∀ l ∈ ls, l.1.active = true) (hs : ∀ l ∈ ls, ∀ g ∈ l.2.gens, g.stat = 1) :
    margins area zone (ls.map Prod.fst) = trueMargins (fun g => g.stat = 1) area zone [ls] := by
  rw [margins_loaded area zone ls (h ls List.mem_cons_self) ha]
  have e : ∀ (f : GenRec → ℝ), (ls.filter (fun l => l.1.active && (l.1.area = area) && (zone ≤ 0 || l.1.zone = zone))).map
      (fun l => ((l.2.gens.filter (fun _ => true)).map f).sum) =
      (ls.filter (fun l => l.1.active && (l.1.area = area) && (zone ≤ 0 || l.1.zone = zone))).map
      (fun l => ((l.2.gens.filter (fun g => g.stat = 1)).map f).sum) := by
    intro f
    apply List.map_congr_left
    intro l hl
    have hl' := (List.mem_filter.1 hl).1
    have : l.2.gens.filter (fun g => g.stat = 1) = l.2.gens.filter (fun _ => true) := by
      apply List.filter_congr
      intro g hg; simp [hs l hl' g hg]
    rw [this]
  unfold trueMargins
  simp only [List.map_cons, List.map_nil, e]

theorem trueMargins_cons (f : GenRec → Bool) (area zone : Int) (ls : List (Local × Data)) (ps : List (List (Local × Data))) :
    trueMargins f area zone (ls :: ps) = trueMargins f area zone [ls] + trueMargins f area zone ps := by
  unfold trueMargins
  simp

/-- C237 violated with several processes: a process knows only its own buses; whatever they are, it gets the wrong generation
and limits as soon as those of the other processes do not vanish. -/
theorem C237_processes_violated (area zone : Int) (ls : List (Local × Data)) (others : List (List (Local × Data)))
    (h : Loaded [ls]) (ha : ∀ l ∈ ls, l.1.active = true) (ho : trueMargins (fun _ => true) area zone others ≠ 0) :
    margins area zone (ls.map Prod.fst) ≠ trueMargins (fun _ => true) area zone (ls :: others) := by
  rw [margins_loaded area zone ls (h ls List.mem_cons_self) ha, trueMargins_cons _ _ _ ls others]
  intro e
  exact ho (left_eq_add.1 e)

/-- C237 violated for generators out of service: their power and limits are counted. -/
theorem C237_status_violated (area zone : Int) (hz : zone ≤ 0) (id : String) (pg lo hi : ℝ) (hh : hi ≠ 0) :
    let d : Data := ⟨[⟨id, 0, pg, lo, hi⟩], []⟩
    let ls : List (Local × Data) := [(⟨area, 1, true, load d fresh⟩, d)]
    margins area zone (ls.map Prod.fst) = (pg, lo, hi) ∧
    trueMargins (fun g => g.stat = 1) area zone [ls] = (0, 0, 0) ∧ margins area zone (ls.map Prod.fst) ≠ (0, 0, 0) := by
  have e : margins area zone ([((⟨area, 1, true, load ⟨[⟨id, 0, pg, lo, hi⟩], []⟩ fresh⟩ : Local), (⟨[⟨id, 0, pg, lo, hi⟩], []⟩ : Data))].map
      Prod.fst) = (pg, lo, hi) := by
    have := margins_loaded area zone [((⟨area, 1, true, load ⟨[⟨id, 0, pg, lo, hi⟩], []⟩ fresh⟩ : Local),
      (⟨[⟨id, 0, pg, lo, hi⟩], []⟩ : Data))] (by intro l hl; rw [List.mem_singleton.1 hl]; exact ⟨[], rfl⟩)
      (by intro l hl; rw [List.mem_singleton.1 hl])
    rw [this]
    simp [trueMargins, hz]
  refine ⟨e, ?_, ?_⟩
  · simp [trueMargins, hz]
  · intro h
    rw [e] at h
    exact hh (Prod.mk.inj (Prod.mk.inj h).2).2

/-- C237 violated after scaling: the reported generation and load of a bus are those loaded, whatever has been done since. -/
theorem C237_current_violated (d : Data) (as : List Act) :
    busMargins (runAll as (load d fresh, d)).1 = busMargins (load d fresh) ∧
    busLoad (runAll as (load d fresh, d)).1 = busLoad (load d fresh) := by
  have e1 := busMargins_loaded (l := ((⟨0, 0, true, (runAll as (load d fresh, d)).1⟩ : Local), d)) ⟨as, rfl⟩
  have e2 := busMargins_loaded (l := ((⟨0, 0, true, load d fresh⟩ : Local), d)) ⟨[], rfl⟩
  have e3 := busLoad_loaded (l := ((⟨0, 0, true, (runAll as (load d fresh, d)).1⟩ : Local), d)) ⟨as, rfl⟩
  have e4 := busLoad_loaded (l := ((⟨0, 0, true, load d fresh⟩ : Local), d)) ⟨[], rfl⟩
  exact ⟨e1.trans e2.symm, e3.trans e4.symm⟩

/-- C237: two processes that share a bus of area 1 with a load of 30: the total is 60. -/
example : totalLoad 1 0 [[⟨1, 1, true, load data1 fresh⟩], [⟨1, 1, false, load data1 fresh⟩]] = 60 := by
  have := C237_copies_violated 1 0 [[(⟨1, 1, true, load data1 fresh⟩, data1)], [(⟨1, 1, false, load data1 fresh⟩, data1)]]
    (by intro ls hls l hl; simp at hls; rcases hls with rfl | rfl <;> (rw [List.mem_singleton.1 hl]; exact ⟨[], rfl⟩))
  refine this.trans ?_
  simp [trueLoad, copiedLoad, data1]; norm_num

/-- C237: after scaling, the load of the bus is 90 and 30 is reported. -/
example : (runAll [.scaleLoad "1 " 3] (load data1 fresh, data1)).1.p = [90] ∧
    busLoad (runAll [.scaleLoad "1 " 3] (load data1 fresh, data1)).1 = 30 := by
  refine ⟨?_, ?_⟩
  · simp [runAll, Act.run, scaleLoad, load, data1, List.findIdx?_cons]; norm_num
  · rw [(C237_current_violated data1 _).2]; simp [busLoad, load, data1]

/-! ### C238 -/

theorem set_same (d : Store) (k : String) (i : Option ℕ) (v : ℝ) : d.set k i v k i = (d k i).map (fun _ => v) := by
  simp [Store.set]

theorem set_other (d : Store) (k : String) (i : Option ℕ) (v : ℝ) {k' : String} {i' : Option ℕ} (h : ¬ (k' = k ∧ i' = i)) :
    d.set k i v k' i' = d k' i' := by
  simp [Store.set, h]

theorem transferGens_other (pf : Store) (n : ℕ) (s : Store × ℝ) (k : String) (i : Option ℕ)
    (h : ¬ (k = "GENERATOR_PG") ∧ ¬ (k = "GENERATOR_QG")) : (transferGens pf n s).1 k i = s.1 k i := by
  induction n with
  | zero => rfl
  | succ n ih =>
    simp only [transferGens]
    rw [set_other _ _ _ _ (fun e => h.2 e.1), set_other _ _ _ _ (fun e => h.1 e.1)]
    exact ih

theorem transferGens_later (pf : Store) (n : ℕ) (s : Store × ℝ) (k : String) (j : ℕ) (hj : n ≤ j) :
    (transferGens pf n s).1 k (some j) = s.1 k (some j) := by
  induction n with
  | zero => rfl
  | succ n ih =>
    simp only [transferGens]
    have hne : ¬ (some j = some n) := fun e => by have := Option.some.inj e; omega
    rw [set_other _ _ _ _ (fun e => hne e.2), set_other _ _ _ _ (fun e => hne e.2)]
    exact ih (by omega)

theorem transferGens_value (pf : Store) (n : ℕ) (s : Store × ℝ) (j : ℕ) (hj : j < n) (p q : ℝ)
    (hp : pf "GENERATOR_PF_PGEN" (some j) = some p) (hq : pf "GENERATOR_PF_QGEN" (some j) = some q) :
    (transferGens pf n s).1 "GENERATOR_PG" (some j) = (s.1 "GENERATOR_PG" (some j)).map (fun _ => p) ∧
    (transferGens pf n s).1 "GENERATOR_QG" (some j) = (s.1 "GENERATOR_QG" (some j)).map (fun _ => q) := by
  induction n with
  | zero => omega
  | succ n ih =>
    simp only [transferGens]
    by_cases h : j = n
    · subst h
      simp only [Store.get, hp, hq, Option.getD_some]
      constructor
      · rw [set_other _ _ _ _ (by intro e; exact absurd e.1 (by decide)), set_same, transferGens_later _ _ _ _ _ le_rfl]
      · rw [set_same, set_other _ _ _ _ (by intro e; exact absurd e.1 (by decide)), transferGens_later _ _ _ _ _ le_rfl]
    · have hne : ¬ (some j = some n) := fun e => h (Option.some.inj e)
      rw [set_other _ _ _ _ (fun e => hne e.2), set_other _ _ _ _ (fun e => hne e.2), set_other _ _ _ _ (fun e => hne e.2),
        set_other _ _ _ _ (fun e => hne e.2)]
      exact ih (by omega)

theorem transferBus_load (ngen : ℕ) (pf ds : Store) (r : ℝ) (k : String) (i : ℕ) (hk : k = "LOAD_PL" ∨ k = "LOAD_QL") :
    (transferBus ngen pf ds r).1 k (some i) = ds k (some i) := by
  simp only [transferBus]
  rw [transferGens_other _ _ _ _ _ (by rcases hk with rfl | rfl <;> decide)]
  dsimp only
  iterate 6 rw [set_other _ _ _ _ (by rintro ⟨-, h⟩; cases h)]

/-- A bus of the power flow has a solution: voltage, angle and the powers of its `ngen` generators. -/
structure Solved (ngen : ℕ) (pf : Store) (v a : ℝ) (p q : ℕ → ℝ) : Prop where
  v : pf "BUS_PF_VMAG" none = some v
  a : pf "BUS_PF_VANG" none = some a
  p : ∀ j < ngen, pf "GENERATOR_PF_PGEN" (some j) = some (p j)
  q : ∀ j < ngen, pf "GENERATOR_PF_QGEN" (some j) = some (q j)

/-- C238 (partial: not for loads): after the transfer, every bus of the simulation takes the voltage and angle of the power
flow, and its generators have the powers of the power flow, provided the entries exist on both sides.  Bus `k` is any bus of
the process. -/
theorem C238_solution_partial (buses : List (ℕ × Store × Store)) (r : ℝ) (k : ℕ) (ngen : ℕ) (pf ds : Store)
    (hk : buses[k]? = some (ngen, pf, ds)) (v a : ℝ) (p q : ℕ → ℝ) (h : Solved ngen pf v a p q)
    (hv : (ds "BUS_VOLTAGE_MAG" none).isSome) (ha : (ds "BUS_VOLTAGE_ANG" none).isSome)
    (hg : ∀ j < ngen, (ds "GENERATOR_PG" (some j)).isSome ∧ (ds "GENERATOR_QG" (some j)).isSome) (old : ℝ) :
    ∃ s, (transfer buses r)[k]? = some s ∧ voltage s old = v ∧ angle s old = a ∧
      ∀ j < ngen, s "GENERATOR_PG" (some j) = some (p j) ∧ s "GENERATOR_QG" (some j) = some (q j) := by
  induction buses generalizing r k with
  | nil => simp at hk
  | cons b bs ih =>
    obtain ⟨n', pf', ds'⟩ := b
    cases k with
    | succ k =>
      simp only [List.getElem?_cons_succ] at hk
      obtain ⟨s, h1, h2⟩ := ih (transferBus n' pf' ds' r).2 k hk
      exact ⟨s, by simpa [transfer] using h1, h2⟩
    | zero =>
      simp only [List.getElem?_cons_zero, Option.some.injEq, Prod.mk.injEq] at hk
      obtain ⟨rfl, rfl, rfl⟩ := hk
      refine ⟨(transferBus n' pf' ds' r).1, by simp [transfer], ?_, ?_, ?_⟩
      · simp only [voltage, transferBus, Store.get, h.v, Option.getD_some]
        rw [transferGens_other _ _ _ _ _ (by decide), transferGens_other _ _ _ _ _ (by decide)]
        dsimp only
        iterate 4 rw [set_other (k' := "BUS_PF_VMAG") _ _ _ _ (by decide)]
        rw [set_other (k' := "BUS_PF_VMAG") _ _ _ _ (by decide), set_same]
        iterate 4 rw [set_other (k' := "BUS_VOLTAGE_MAG") _ _ _ _ (by decide)]
        rw [set_same, set_other _ _ _ _ (by decide)]
        obtain ⟨x, hx⟩ := Option.isSome_iff_exists.1 hv
        rw [hx]
        cases ds' "BUS_PF_VMAG" none <;> rfl
      · simp only [angle, transferBus, Store.get, h.a, Option.getD_some]
        rw [transferGens_other _ _ _ _ _ (by decide), transferGens_other _ _ _ _ _ (by decide)]
        dsimp only
        iterate 3 rw [set_other (k' := "BUS_PF_VANG") _ _ _ _ (by decide)]
        rw [set_same]
        iterate 2 rw [set_other (k' := "BUS_PF_VANG") _ _ _ _ (by decide)]
        iterate 2 rw [set_other (k' := "BUS_VOLTAGE_ANG") _ _ _ _ (by decide)]
        rw [set_same]
        iterate 3 rw [set_other (k' := "BUS_VOLTAGE_ANG") _ _ _ _ (by decide)]
        obtain ⟨x, hx⟩ := Option.isSome_iff_exists.1 ha
        rw [hx]
        cases ds' "BUS_PF_VANG" none <;> rfl
      · intro j hj
        simp only [transferBus]
        rw [(transferGens_value pf' n' _ j hj (p j) (q j) (h.p j hj) (h.q j hj)).1,
          (transferGens_value pf' n' _ j hj (p j) (q j) (h.p j hj) (h.q j hj)).2]
        dsimp only
        obtain ⟨x, hx⟩ := Option.isSome_iff_exists.1 (hg j hj).1
        obtain ⟨y, hy⟩ := Option.isSome_iff_exists.1 (hg j hj).2
        constructor
        · iterate 6 rw [set_other (k' := "GENERATOR_PG") _ _ _ _ (by rintro ⟨-, h⟩; cases h)]
          rw [hx]; rfl
        · iterate 6 rw [set_other (k' := "GENERATOR_QG") _ _ _ _ (by rintro ⟨-, h⟩; cases h)]
          rw [hy]; rfl

/-- C238 violated for loads: the loads that the simulation reads (`LOAD_PL`, `LOAD_QL` with index) are never changed by the
transfer, whatever the loads of the power flow are. -/
theorem C238_loads_violated (buses : List (ℕ × Store × Store)) (r : ℝ) (k : ℕ) (ngen : ℕ) (pf ds : Store)
    (hk : buses[k]? = some (ngen, pf, ds)) (i : ℕ) :
    ∃ s, (transfer buses r)[k]? = some s ∧ s "LOAD_PL" (some i) = ds "LOAD_PL" (some i) ∧
      s "LOAD_QL" (some i) = ds "LOAD_QL" (some i) := by
  induction buses generalizing r k with
  | nil => simp at hk
  | cons b bs ih =>
    obtain ⟨n', pf', ds'⟩ := b
    cases k with
    | succ k =>
      simp only [List.getElem?_cons_succ] at hk
      obtain ⟨s, h1, h2⟩ := ih (transferBus n' pf' ds' r).2 k hk
      exact ⟨s, by simpa [transfer] using h1, h2⟩
    | zero =>
      simp only [List.getElem?_cons_zero, Option.some.injEq, Prod.mk.injEq] at hk
      obtain ⟨rfl, rfl, rfl⟩ := hk
      exact ⟨(transferBus n' pf' ds' r).1, by simp [transfer], transferBus_load _ _ _ _ _ _ (Or.inl rfl), transferBus_load _ _ _ _ _ _ (Or.inr rfl)⟩

/-- C238 violated for buses without load: where the data of the simulation have an entry `LOAD_PL` of the bus and the power
flow has no load, the voltage angle becomes the load. -/
theorem C238_angle_violated (ngen : ℕ) (pf ds : Store) (r a : ℝ) (ha : pf "BUS_PF_VANG" none = some a)
    (hl : pf "LOAD_PL" (some 0) = none) (hd : (ds "LOAD_PL" none).isSome) :
    (transferBus ngen pf ds r).1 "LOAD_PL" none = some a := by
  simp only [transferBus]
  rw [transferGens_other _ _ _ _ _ (by decide)]
  dsimp only
  rw [set_other _ _ _ _ (by decide), set_same]
  iterate 4 rw [set_other (k' := "LOAD_PL") _ _ _ _ (by decide)]
  obtain ⟨x, hx⟩ := Option.isSome_iff_exists.1 hd
  rw [hx]
  simp [Store.get, hl, ha]

/-- C238: a solved bus with one generator and a load. -/
noncomputable def pf1 : Store := fun k i =>
  if k = "BUS_PF_VMAG" ∧ i = none then some (103 / 100) else if k = "BUS_PF_VANG" ∧ i = none then some 5
  else if k = "GENERATOR_PF_PGEN" ∧ i = some 0 then some (1 / 2) else if k = "GENERATOR_PF_QGEN" ∧ i = some 0 then some (1 / 5)
  else if k = "LOAD_PL" ∧ i = some 0 then some 40 else none
noncomputable def ds1 : Store := fun k i =>
  if (k = "BUS_VOLTAGE_MAG" ∨ k = "BUS_VOLTAGE_ANG") ∧ i = none then some 1
  else if (k = "GENERATOR_PG" ∨ k = "GENERATOR_QG") ∧ i = some 0 then some 60
  else if k = "LOAD_PL" ∧ i = some 0 then some 30 else none

example : ∃ s, (transfer [(1, pf1, ds1)] 0)[0]? = some s ∧ voltage s 0 = 103 / 100 ∧ angle s 0 = 5 ∧
    ∀ j < 1, s "GENERATOR_PG" (some j) = some (1 / 2) ∧ s "GENERATOR_QG" (some j) = some (1 / 5) :=
  C238_solution_partial [(1, pf1, ds1)] 0 0 1 pf1 ds1 rfl (103 / 100) 5 (fun _ => 1 / 2) (fun _ => 1 / 5)
    ⟨by simp [pf1], by simp [pf1], by intro j hj; obtain rfl : j = 0 := by omega
                                      simp [pf1], by intro j hj; obtain rfl : j = 0 := by omega
                                                     simp [pf1]⟩ (by simp [ds1]) (by simp [ds1])
    (by intro j hj; obtain rfl : j = 0 := by omega
        simp [ds1]) 0

/-- C238: the load of 40 MW of the power flow does not reach the simulation, which keeps 30 MW. -/
example : ∃ s, (transfer [(1, pf1, ds1)] 0)[0]? = some s ∧ s "LOAD_PL" (some 0) = some 30 := by
  obtain ⟨s, h, e, -⟩ := C238_loads_violated [(1, pf1, ds1)] 0 0 1 pf1 ds1 rfl 0
  exact ⟨s, h, e.trans (by simp [ds1])⟩

end GridPACK.DsScaling
