import Verif.Lemmas.Raw23Branch

/-! Auxiliary facts for a whole file of version 23. -/
namespace GridPACK.Raw23
open StringUtils BlockParser DataCollection RawBus

/-! ### Buses -/

theorem readBus_ok (cv : Conv) (sbase : ℝ) (caseId : Int) (t : Tables) (r : List Str) (h : 10 ≤ r.length) :
    ∃ d, readBus cv sbase caseId t r = some { t with
        bus := t.bus ++ [d]
        busMap := t.busMap ++ [(num cv r, t.bus.length)] } ∧ busData cv sbase caseId (num cv r) r = some d := by
  cases r with
  | nil => simp at h
  | cons a r =>
    obtain ⟨c, h1, _⟩ := busData_spec cv sbase caseId (cv.atoi a) (a :: r)
    refine ⟨c, ?_, h1⟩
    have : ¬ (a :: r).length < 10 := by omega
    simp only [readBus, if_neg this, h1, Option.map_some]
    rfl

theorem readBuses_ok (cv : Conv) (sbase : ℝ) (caseId : Int) : ∀ (recs : List (List Str)) (t : Tables),
    (∀ r ∈ recs, 10 ≤ r.length) →
    ∃ ds, readBuses cv sbase caseId t recs = some { t with
        bus := t.bus ++ ds
        busMap := t.busMap ++ recs.mapIdx (fun i r => (num cv r, t.bus.length + i)) } ∧
      ds.length = recs.length ∧
      ∀ (i : ℕ) r d, recs[i]? = some r → ds[i]? = some d → busData cv sbase caseId (num cv r) r = some d := by
  intro recs
  induction recs with
  | nil => intro t _; exact ⟨[], by simp [readBuses], rfl, by simp⟩
  | cons r rs ih =>
    intro t h
    obtain ⟨d, h1, hd⟩ := readBus_ok cv sbase caseId t r (h r (by simp))
    obtain ⟨ds, h2, h3, h4⟩ := ih { t with
        bus := t.bus ++ [d]
        busMap := t.busMap ++ [(num cv r, t.bus.length)] } (fun x hx => h x (by simp [hx]))
    refine ⟨d :: ds, ?_, by simp [h3], ?_⟩
    · simp only [readBuses, h1, Option.bind_some, h2]
      simp only [List.append_assoc, List.cons_append, List.nil_append, List.mapIdx_cons,
        List.length_append, List.length_cons, List.length_nil, Option.some.injEq, Tables.mk.injEq, true_and,
        Nat.add_zero, and_true]
      congr 3
      funext i r'
      simp only [Prod.mk.injEq, true_and]
      omega
    · intro i r' d' hr' hd'
      cases i with
      | zero => simp at hr' hd'; rw [← hr', ← hd']; exact hd
      | succ i => simp at hr' hd'; exact h4 i r' d' hr' hd'

/-- All names of the values of a bus line. -/
def lineNames : List Str := (keysOf (busGroups 0 0 true true)).map (fun k => k.2.1)

theorem keys_lineNames (sbase : ℝ) (caseId : Int) (sh ld : Bool) :
    ∀ k ∈ keysOf (busGroups sbase caseId sh ld), k.2.1 ∈ lineNames := by
  rw [keys_busGroups]
  cases sh <;> cases ld <;> decide +kernel

def swNames : List Str := swFields.map Field.name

theorem line_gen : ∀ s ∈ lineNames, s ∉ genKind.names := by decide +kernel
theorem line_sw : ∀ s ∈ lineNames, s ∉ swNames := by decide +kernel
theorem sw_gen : ∀ s ∈ swNames, s ∉ genKind.names := by decide +kernel
theorem line_colon : ∀ s ∈ lineNames, ':' ∉ s := by decide +kernel
theorem sw_colon : ∀ s ∈ swNames, ':' ∉ s := by decide +kernel

theorem sw_keep {cv : Conv} {c c' : Data} {devs : List (List Str)} (h : HasSw23 cv c c' devs) (u : Ty) (x : Key)
    (hx : ':' ∉ x.name) (hn : x.name ∉ swNames) : RawBus.get c' u x = RawBus.get c u x := by
  refine h.frame u x hx ?_
  intro f hf he
  simp only [Prod.mk.injEq] at he
  exact hn (by rw [he.2]; exact List.mem_map_of_mem hf)

/-- Buses, generators and switched shunts of a file. -/
theorem buses_spec (cv : Conv) (f : File) (h : Good cv f) :
    ∃ t t', (readBuses cv f.sbase f.caseId ⟨[], [], []⟩ f.buses).bind (fun t => readGens cv t f.gens) = some t ∧
      readSws cv t f.switched = some t' ∧ t'.bus.length = f.buses.length ∧
      ∀ (l : ℕ) r, f.buses[l]? = some r → ∃ c0 c1 c,
        t'.bus[l]? = some c ∧
        busData cv f.sbase f.caseId (num cv r) r = some c0 ∧
        Has cv genKind (num cv r) c0 c1 (f.gens.filter (fun d => num cv d = num cv r)) ∧
        HasSw23 cv c1 c (f.switched.filter (fun d => num cv d = num cv r)) := by
  obtain ⟨ds, h0, hlen, hds⟩ := readBuses_ok cv f.sbase f.caseId f.buses ⟨[], [], []⟩ h.buses
  simp only [List.nil_append, List.length_nil, Nat.zero_add] at h0
  set t0 : Tables := ⟨ds, f.buses.mapIdx (fun i r => (num cv r, i)), []⟩ with ht0
  have h0' : readBuses cv f.sbase f.caseId ⟨[], [], []⟩ f.buses = some t0 := h0
  have hlook := busMap_lookup cv f.buses h.distinct
  have hmap : ∀ t : Tables, t.busMap = t0.busMap → t.bus.length = t0.bus.length → MapOk23 t := by
    intro t h1 h2
    refine ⟨?_, ?_⟩
    · intro n l hl
      rw [h1] at hl
      obtain ⟨r, hr, _⟩ := (hlook n l).mp hl
      rw [h2, show t0.bus.length = f.buses.length from hlen]
      exact (List.getElem?_eq_some_iff.mp hr).1
    · intro n n' l hl hl'
      rw [h1] at hl hl'
      obtain ⟨r, hr, hn⟩ := (hlook n l).mp hl
      obtain ⟨r', hr', hn'⟩ := (hlook n' l).mp hl'
      rw [hr] at hr'
      obtain rfl : r = r' := by simpa using hr'
      rw [← hn, ← hn']
  have hfresh : ∀ (l : ℕ) c, t0.bus[l]? = some c → ∀ u (x : Key), x.name ∈ genKind.names → RawBus.get c u x = none := by
    intro l c hc u x hx
    have hlt : l < f.buses.length := by
      rw [← hlen]; exact (List.getElem?_eq_some_iff.mp hc).1
    have had := hds l _ c (List.getElem?_eq_getElem hlt) hc
    obtain ⟨c', e1, _, e3⟩ := busData_spec cv f.sbase f.caseId (num cv f.buses[l]) f.buses[l]
    rw [had] at e1
    obtain rfl : c = c' := by simpa using e1
    refine e3 u x (colons_names genKind_ok _ hx) ?_
    intro hm
    exact line_gen _ (keys_lineNames _ _ _ _ _ hm) hx
  have hf0 : FilledBy cv (fun n c0 c devs => Has cv genKind n c0 c devs) t0 t0 [] := by
    refine ⟨rfl, rfl, ?_⟩
    intro n l c0 hl hc
    exact ⟨c0, hc, has_nil cv _ n c0 (fresh_of _ _ (hfresh l c0 hc))⟩
  obtain ⟨t1, h1, F1⟩ := readBy_filled cv (fun ts => ts.length < 2 ∨ ts.length = 10 ∨ ts.length = 12)
    (addDev cv genKind) (fun n c0 c devs => Has cv genKind n c0 c devs) (top + 1)
    (by
      intro n c0 c devs r hP hb
      exact has_step cv genKind genKind_ok n c0 c devs hP (by omega) r)
    t0 (hmap t0 rfl rfl) f.gens [] t0 hf0
    (by
      intro r hr
      obtain ⟨g1, g2, g3⟩ := h.gens r hr
      exact ⟨by rintro rfl; simp at g1, fun _ => by omega⟩)
    (by have := h.few.1; simp only [List.length_nil, Nat.zero_add, top_eq]; omega)
  simp only [List.nil_append] at F1
  rw [← readGens_by] at h1
  have hw0 : FilledBy cv (fun _ c0 c devs => HasSw23 cv c0 c devs) t1 t1 [] := by
    refine ⟨rfl, rfl, ?_⟩
    intro n l c0 hl hc
    exact ⟨c0, hc, by intro g hg; simp, fun _ _ _ _ => rfl⟩
  obtain ⟨t2, h2, F2⟩ := readBy_filled cv (fun ts => ts.length < 7)
    (fun _ c ts => addFields cv 0 0 ts none swFields c) (fun _ c0 c devs => HasSw23 cv c0 c devs) f.switched.length
    (by
      intro n c0 c devs r hP _
      exact hasSw_step cv c0 c devs hP r)
    t1 (hmap t1 F1.busMap F1.length) f.switched [] t1 hw0
    (by
      intro r hr
      have := h.switched r hr
      exact ⟨by rintro rfl; simp at this, fun _ => by omega⟩)
    (by simp)
  simp only [List.nil_append] at F2
  rw [← readSws_by] at h2
  refine ⟨t1, t2, by rw [h0']; exact h1, h2, ?_, ?_⟩
  · rw [F2.length, F1.length]; exact hlen
  · intro l r hr
    have hl : lookup t0.busMap (num cv r) = some l := (hlook (num cv r) l).mpr ⟨r, hr, rfl⟩
    have hlt : l < ds.length := by rw [hlen]; exact (List.getElem?_eq_some_iff.mp hr).1
    have hc0 : t0.bus[l]? = some ds[l] := List.getElem?_eq_getElem hlt
    obtain ⟨c1, hc1, hh1⟩ := F1.bus _ l _ hl hc0
    obtain ⟨c2, hc2, hh2⟩ := F2.bus _ l c1 (by rw [F1.busMap]; exact hl) hc1
    exact ⟨ds[l], c1, c2, hc2, hds l r _ hr hc0, hh1, hh2⟩

/-! ### What a user finds -/

theorem fits_gen : Fits genKind genColumns := by
  constructor
  · rfl
  · unfold genKind genColumns; member
  all_goals
    unfold genColumns
    simp only [List.forall_mem_cons, List.not_mem_nil, false_imp_iff, implies_true, and_true]
  all_goals
    unfold genKind
    try and_intros
  all_goals member

theorem dblOr_col (cv : Conv) (r : List Str) (n : ℕ) (h : n < r.length) : dblOr cv r n = colOf cv r n := by
  unfold dblOr colOf
  rw [List.getElem?_eq_getElem h, List.getD_eq_getElem?_getD, List.getElem?_eq_getElem h]; rfl

theorem bus_tells (cv : Conv) (f : File) (r : List Str) (hr : 10 ≤ r.length) (c0 c1 c : Data)
    (gens sws : List (List Str)) (h0 : busData cv f.sbase f.caseId (num cv r) r = some c0)
    (h1 : Has cv genKind (num cv r) c0 c1 gens) (h2 : HasSw23 cv c1 c sws) :
    TellsBus cv f c r ∧ TellsLoad cv c r ∧ TellsShunt cv c r ∧
      ∀ old : Str, getValue c .string ⟨"BUS_NAME".toList, none⟩ old = answer (r[9]?.map busName) old := by
  obtain ⟨c', e1, e2, e3⟩ := busData_spec cv f.sbase f.caseId (num cv r) r
  rw [h0] at e1
  obtain rfl : c0 = c' := by simpa using e1
  have keep : ∀ u (x : Key), x.name ∈ lineNames → RawBus.get c u x = RawBus.get c0 u x := by
    intro u x hx
    rw [sw_keep h2 u x (line_colon _ hx) (line_sw _ hx),
      h1.frame u x (line_colon _ hx) (not_owns _ u x (line_gen _ hx))]
  have hval : ∀ g ∈ busGroups f.sbase f.caseId (hasShunt cv r) (hasLoad cv r), ∀ x ∈ g.1,
      RawBus.get c x.ty ⟨x.name, g.2⟩ = x.value cv (num cv r) 0 r := by
    intro g hg x hx
    rw [keep _ _ (keys_lineNames f.sbase f.caseId (hasShunt cv r) (hasLoad cv r) (x.ty, x.name, g.2)
      (List.mem_flatMap.mpr ⟨g, hg, List.mem_map.mpr ⟨x, hx, rfl⟩⟩)), e2 g hg x hx]
  have hnone : ∀ u (x : Key), x.name ∈ lineNames →
      (u, x.name, x.idx) ∉ keysOf (busGroups f.sbase f.caseId (hasShunt cv r) (hasLoad cv r)) →
      RawBus.get c u x = none := by
    intro u x hx hn
    rw [keep u x hx, e3 u x (line_colon _ hx) hn]
  have hbus : ∀ x ∈ busFields f.sbase f.caseId, RawBus.get c x.ty ⟨x.name, none⟩ = x.value cv (num cv r) 0 r :=
    fun x hx => hval (busFields f.sbase f.caseId, none) (by simp [busGroups]) x hx
  have hL : hasLoad cv r = (open Classical in decide (colOf cv r 2 ≠ 0 ∨ colOf cv r 3 ≠ 0)) := by
    unfold hasLoad; rw [dblOr_col cv r 2 (by omega), dblOr_col cv r 3 (by omega)]
  have hS : hasShunt cv r = (open Classical in decide (colOf cv r 4 ≠ 0 ∨ colOf cv r 5 ≠ 0)) := by
    unfold hasShunt; rw [dblOr_col cv r 4 (by omega), dblOr_col cv r 5 (by omega)]
  have hcol : ∀ n, n < 10 → r[n]? = some (r.getD n []) := by
    intro n hn
    rw [List.getD_eq_getElem?_getD, List.getElem?_eq_getElem (by omega)]; rfl
  have hload : (colOf cv r 2 ≠ 0 ∨ colOf cv r 3 ≠ 0) → (∀ x ∈ loadIdx, RawBus.get c x.ty ⟨x.name, some 0⟩ =
      x.value cv (num cv r) 0 r) ∧ ∀ x ∈ loadPlain, RawBus.get c x.ty ⟨x.name, none⟩ = x.value cv (num cv r) 0 r := by
    intro hh
    have : hasLoad cv r = true := by rw [hL]; simpa using hh
    exact ⟨fun x hx => hval (loadIdx, some 0) (by simp [busGroups, this]) x hx,
      fun x hx => hval (loadPlain, none) (by simp [busGroups, this]) x hx⟩
  have hshunt : (colOf cv r 4 ≠ 0 ∨ colOf cv r 5 ≠ 0) → (∀ x ∈ shuntIdx, RawBus.get c x.ty ⟨x.name, some 0⟩ =
      x.value cv (num cv r) 0 r) ∧ ∀ x ∈ shuntPlain, RawBus.get c x.ty ⟨x.name, none⟩ = x.value cv (num cv r) 0 r := by
    intro hh
    have : hasShunt cv r = true := by rw [hS]; simpa using hh
    exact ⟨fun x hx => hval (shuntIdx, some 0) (by simp [busGroups, this]) x hx,
      fun x hx => hval (shuntPlain, none) (by simp [busGroups, this]) x hx⟩
  have h00 : (0 : ℕ) ≤ top := Nat.zero_le _
  refine ⟨⟨?_, ?_, ?_, ?_⟩, ⟨?_, ?_, ?_, ?_, ?_⟩, ⟨?_, ?_, ?_⟩, ?_⟩
  · intro old
    exact read_plain c .double _ old (some f.sbase)
      (hbus ⟨"CASE_SBASE".toList, .double, fun _ _ _ _ => some f.sbase⟩ (by simp [busFields]))
  · intro old
    exact read_plain c .int _ old (some f.caseId)
      (hbus ⟨"CASE_ID".toList, .int, fun _ _ _ _ => some f.caseId⟩ (by simp [busFields]))
  · intro p hp old
    exact read_plain c .int _ old _ (hbus (intAt p.1 p.2) (by revert p; simp [busInts, busFields]))
  · intro p hp old
    exact read_plain c .double _ old _ (hbus (dblAt p.1 p.2) (by revert p; simp [busDbls, busFields]))
  · intro z1 z2 old
    refine read_plain c .int _ old none (hnone .int ⟨"LOAD_NUMBER".toList, none⟩ (by decide +kernel) ?_)
    rw [keys_busGroups, hL]
    simp only [z1, z2, ne_eq, not_true_eq_false, or_self, decide_false]
    cases hasShunt cv r <;> decide +kernel
  · intro hh old
    exact read_plain c .int _ old (some (1 : Int)) ((hload hh).2 (intC "LOAD_NUMBER" 1) (by simp [loadPlain]))
  · intro hh old
    exact read_indexed c .int _ 0 h00 old (some (1 : Int)) ((hload hh).1 (intC "LOAD_STATUS" 1) (by simp [loadIdx]))
  · intro hh old
    have p1 := (hload hh).1 (dblAt "LOAD_PL" 2) (by simp [loadIdx])
    have p2 := (hload hh).1 (dblAt "LOAD_QL" 3) (by simp [loadIdx])
    refine ⟨read_indexed c .double _ 0 h00 old (some (colOf cv r 2)) (p1.trans ?_),
      read_indexed c .double _ 0 h00 old (some (colOf cv r 3)) (p2.trans ?_)⟩
    · show (r[2]?).map cv.atof = _; rw [hcol 2 (by omega)]; rfl
    · show (r[3]?).map cv.atof = _; rw [hcol 3 (by omega)]; rfl
  · intro hh name hn old
    exact read_indexed c .double _ 0 h00 old (some (0 : ℝ)) ((hload hh).1 (dblC name 0) (by
      revert name; simp [loadIdx]))
  · intro z1 z2
    constructor
    · intro old
      refine read_plain c .int _ old none (hnone .int ⟨"SHUNT_NUMBER".toList, none⟩ (by decide +kernel) ?_)
      rw [keys_busGroups, hS]
      simp only [z1, z2, ne_eq, not_true_eq_false, or_self, decide_false]
      cases hasLoad cv r <;> decide +kernel
    · intro name hn old
      refine read_indexed c .double _ 0 h00 old none (hnone .double ⟨name.toList, some 0⟩ ?_ ?_)
      · simp only [List.mem_cons, List.not_mem_nil, or_false] at hn
        rcases hn with rfl | rfl <;> decide +kernel
      · rw [keys_busGroups, hS]
        simp only [z1, z2, ne_eq, not_true_eq_false, or_self, decide_false]
        simp only [List.mem_cons, List.not_mem_nil, or_false] at hn
        rcases hn with rfl | rfl <;> cases hasLoad cv r <;> decide +kernel
  · intro hh old
    exact read_plain c .int _ old (some (1 : Int)) ((hshunt hh).2 (intC "SHUNT_NUMBER" 1) (by simp [shuntPlain]))
  · intro hh old
    have p1 := (hshunt hh).1 (dblAt "BUS_SHUNT_GL" 4) (by simp [shuntIdx])
    have p2 := (hshunt hh).1 (dblAt "BUS_SHUNT_BL" 5) (by simp [shuntIdx])
    refine ⟨read_indexed c .double _ 0 h00 old (some (colOf cv r 4)) (p1.trans ?_),
      read_indexed c .double _ 0 h00 old (some (colOf cv r 5)) (p2.trans ?_)⟩
    · show (r[4]?).map cv.atof = _; rw [hcol 4 (by omega)]; rfl
    · show (r[5]?).map cv.atof = _; rw [hcol 5 (by omega)]; rfl
  · intro old
    exact read_plain c .string _ old _
      (hbus ⟨"BUS_NAME".toList, .string, fun _ _ _ ts => ts[9]?.map busName⟩ (by simp [busFields]))

theorem gen_tells (cv : Conv) (n : Int) (c0 c1 c : Data) (gens sws : List (List Str)) (hg : gens.length ≤ 9999999)
    (h1 : Has cv genKind n c0 c1 gens) (h2 : HasSw23 cv c1 c sws) : Tells cv genColumns c gens := by
  refine tells cv genKind genColumns fits_gen _ c0 c1 c _ (by omega) h1 ?_
  intro u x hx
  have hcol := colons_names genKind_ok _ hx
  rw [sw_keep h2 u x hcol (fun hs => sw_gen _ hs hx)]

theorem sw_tells (cv : Conv) (f : File) (r : List Str) (c0 c1 c : Data)
    (gens sws : List (List Str)) (h0 : busData cv f.sbase f.caseId (num cv r) r = some c0)
    (h1 : Has cv genKind (num cv r) c0 c1 gens) (h2 : HasSw23 cv c1 c sws) : TellsSw cv c sws := by
  obtain ⟨c', e1, e2, e3⟩ := busData_spec cv f.sbase f.caseId (num cv r) r
  rw [h0] at e1
  obtain rfl : c0 = c' := by simpa using e1
  have hval : ∀ x ∈ swFields, RawBus.get c x.ty ⟨x.name, none⟩ = sws.findSome? (fun r => x.value cv 0 0 r) := by
    intro x hx
    have hm : x.name ∈ swNames := List.mem_map_of_mem hx
    rw [h2.fields x hx, h1.frame x.ty ⟨x.name, none⟩ (sw_colon _ hm) (not_owns _ _ _ (sw_gen _ hm)),
      e3 x.ty ⟨x.name, none⟩ (sw_colon _ hm) (fun hk => line_sw _ (keys_lineNames _ _ _ _ _ hk) hm)]
    rfl
  have one : ∀ x ∈ swFields, ∀ s, sws = [s] → RawBus.get c x.ty ⟨x.name, none⟩ = x.value cv 0 0 s := by
    intro x hx s hs
    rw [hval x hx, hs]
    simp only [List.findSome?_cons, List.findSome?_nil]
    cases x.value cv 0 0 s <;> rfl
  have hi : ∀ p ∈ swInts, intAt p.1 p.2 ∈ swFields := by
    unfold swInts
    simp only [List.forall_mem_cons, List.not_mem_nil, false_imp_iff, implies_true, and_true]
    unfold swFields
    and_intros
    all_goals member
  have hd : ∀ p ∈ swDbls, dblAt p.1 p.2 ∈ swFields := by
    unfold swDbls
    simp only [List.forall_mem_cons, List.not_mem_nil, false_imp_iff, implies_true, and_true]
    unfold swFields
    and_intros
    all_goals member
  refine ⟨?_, ?_, ?_⟩
  · intro hs p hp old
    refine read_plain c .double _ old none ((hval _ (hd p hp)).trans ?_)
    rw [hs]; rfl
  · intro s hs p hp old
    exact read_plain c .int _ old _ (one _ (hi p hp) s hs)
  · intro s hs p hp old
    exact read_plain c .double _ old _ (one _ (hd p hp) s hs)

/-! ### Areas -/

def areaNames : List Str := areaFields.map Field.name

theorem readAreas_ok (cv : Conv) (c0 : Data) (areas : List (List Str)) :
    ∀ (done : List (List Str)) (c : Data), (∀ r ∈ areas, 5 ≤ r.length) → done.length + areas.length ≤ 9999999 →
    (∀ f ∈ areaFields, ∀ j : ℕ, j ≤ top →
      RawBus.get c f.ty ⟨f.name, some (j : Int)⟩ = done[j]?.bind (fun r => f.value cv 0 0 r)) →
    RawBus.get c .int ⟨"AREA_TOTAL".toList, none⟩ = none →
    ∃ c', readAreas cv (done.length : Int) c areas = some c' ∧
      (∀ f ∈ areaFields, ∀ j : ℕ, j ≤ top →
        RawBus.get c' f.ty ⟨f.name, some (j : Int)⟩ = (done ++ areas)[j]?.bind (fun r => f.value cv 0 0 r)) ∧
      RawBus.get c' .int ⟨"AREA_TOTAL".toList, none⟩ = some (((done ++ areas).length : ℕ) : Int) := by
  have hcolon : ∀ f ∈ areaFields, ':' ∉ f.name := areaFields_ok.1
  have htotal : ∀ f ∈ areaFields, "AREA_TOTAL".toList ≠ f.name := by decide +kernel
  induction areas with
  | nil =>
    intro done c _ _ hf ht
    obtain ⟨s, hs⟩ := mapKey_some "AREA_TOTAL".toList none (by intro i hi; simp at hi)
    have hadd : ∃ c', addValue c .int ⟨"AREA_TOTAL".toList, none⟩ ((done.length : ℕ) : Int) = some c' := by
      unfold addValue
      simp only [hs]
      exact ⟨_, rfl⟩
    obtain ⟨c', hc'⟩ := hadd
    refine ⟨c', hc', ?_, ?_⟩
    · intro f hfm j hj
      rw [get_add_other hc']
      · simpa using hf f hfm j hj
      all_goals first
        | exact hcolon f hfm
        | decide +kernel
        | (intro he; simp only [Prod.mk.injEq, Key.mk.injEq] at he; exact htotal f hfm he.2.1.symm)
        | (intro he; simp only [Prod.mk.injEq, Key.mk.injEq] at he; exact htotal f hfm he.2.1)
    · rw [get_add hc', ht, List.append_nil]
      rfl
  | cons r rs ih =>
    intro done c hlen hfew hf ht
    have hl := hlen r (by simp)
    simp only [List.length_cons] at hfew
    have hidx : idxOk (some (done.length : Int)) := by
      intro i hi
      simp only [Option.some.injEq] at hi
      omega
    obtain ⟨c1, h1⟩ := addFields_ok cv 0 0 r (some (done.length : Int)) hidx areaFields c
    obtain ⟨c', e1, e2, e3⟩ := ih (done ++ [r]) c1 (fun x hx => hlen x (by simp [hx]))
      (by simp only [List.length_append, List.length_cons, List.length_nil]; omega)
      (by
        intro f hfm j hj
        by_cases hj' : j = done.length
        · subst hj'
          rw [addFields_get cv 0 0 r _ areaFields areaFields_ok c c1 h1 f hfm, hf f hfm _ hj]
          simp
        · rw [addFields_get_other cv 0 0 r _ areaFields hcolon f.ty ⟨f.name, some (j : Int)⟩ (hcolon f hfm) c c1 h1]
          · rw [hf f hfm j hj]
            by_cases hlt : j < done.length
            · rw [List.getElem?_append_left hlt]
            · rw [List.getElem?_eq_none (by omega), List.getElem?_eq_none (by simp; omega)]
          · intro g hg he
            simp only [Prod.mk.injEq, Key.mk.injEq, Option.some.injEq] at he
            omega)
      (by
        rw [addFields_get_other cv 0 0 r _ areaFields hcolon .int ⟨"AREA_TOTAL".toList, none⟩ (by decide +kernel) c c1 h1]
        · exact ht
        · intro g hg he
          simp at he)
    refine ⟨c', ?_, by simpa using e2, by simpa using e3⟩
    have : ¬ r.length < 5 := by omega
    simp only [readAreas, if_neg this, h1, Option.bind_some]
    rw [← e1]
    simp

theorem noAreas_get (c : Data) (h : NoAreas c) (name : String)
    (hn : name ∈ ["AREA_TOTAL", "AREAINTG_NUMBER", "AREAINTG_ISW", "AREAINTG_PDES", "AREAINTG_PTOL", "AREAINTG_NAME"])
    (u : Ty) (idx : Option Int) (old : Val u) : RawBus.get c u ⟨name.toList, idx⟩ = none := by
  cases hg : RawBus.get c u ⟨name.toList, idx⟩ with
  | none => rfl
  | some v =>
    exfalso
    refine h name hn u idx old v ?_
    rw [getValue_get c u _ old (by
      unfold RawBus.get at hg
      cases hm : mapKey ⟨name.toList, idx⟩ with
      | none => rw [hm] at hg; simp at hg
      | some s => rfl), hg]

theorem areas_tell (cv : Conv) (net : Data) (hn : NoAreas net) (areas : List (List Str))
    (hlen : ∀ r ∈ areas, 5 ≤ r.length) (hfew : areas.length ≤ 9999999) :
    ∃ c, readAreas cv 0 net areas = some c ∧ TellsAreas cv c areas := by
  have hnone : ∀ f ∈ areaFields, ∀ j : ℕ, RawBus.get net f.ty ⟨f.name, some (j : Int)⟩ = none := by
    unfold areaFields
    simp only [List.forall_mem_cons, List.not_mem_nil, false_imp_iff, implies_true, and_true]
    refine ⟨?_, ?_, ?_, ?_, ?_⟩
    · intro j; exact noAreas_get net hn "AREAINTG_NUMBER" (by simp) .int _ (0 : Int)
    · intro j; exact noAreas_get net hn "AREAINTG_ISW" (by simp) .int _ (0 : Int)
    · intro j; exact noAreas_get net hn "AREAINTG_PDES" (by simp) .double _ (0 : ℝ)
    · intro j; exact noAreas_get net hn "AREAINTG_PTOL" (by simp) .double _ (0 : ℝ)
    · intro j; exact noAreas_get net hn "AREAINTG_NAME" (by simp) .string _ ([] : Str)
  obtain ⟨c, h1, h2, h3⟩ := readAreas_ok cv net areas [] net hlen (by simpa using hfew)
    (by intro f hf j hj; rw [hnone f hf j]; rfl)
    (noAreas_get net hn "AREA_TOTAL" (by simp) .int _ (0 : Int))
  simp only [List.nil_append] at h2 h3
  have hval : ∀ f ∈ areaFields, ∀ (j : ℕ) r, areas[j]? = some r →
      j ≤ top ∧ RawBus.get c f.ty ⟨f.name, some (j : Int)⟩ = f.value cv 0 0 r := by
    intro f hf j r hr
    have hj : j ≤ top := by
      have := (List.getElem?_eq_some_iff.mp hr).1
      rw [top_eq]; omega
    refine ⟨hj, ?_⟩
    rw [h2 f hf j hj, hr]; rfl
  refine ⟨c, h1, ?_, ?_, ?_, ?_⟩
  · intro old
    exact read_plain c .int _ old (some ((areas.length : ℕ) : Int)) h3
  · intro j r hr p hp old
    obtain ⟨hj, hv⟩ := hval (intAt p.1 p.2) (by revert p; simp [areaFields]) j r hr
    exact read_indexed c .int _ j hj old _ hv
  · intro j r hr p hp old
    obtain ⟨hj, hv⟩ := hval (dblAt p.1 p.2) (by revert p; simp [areaFields]) j r hr
    exact read_indexed c .double _ j hj old _ hv
  · intro j r hr old
    obtain ⟨hj, hv⟩ := hval ⟨"AREAINTG_NAME".toList, .string, fun _ _ _ ts => ts[4]?⟩ (by simp [areaFields]) j r hr
    exact read_indexed c .string _ j hj old _ hv

end GridPACK.Raw23
