import Verif.Lemmas.SeqStore

/-! Reading a sequence file from the first line to the data of the components. -/
namespace GridPACK.SeqParser
open StringUtils DataCollection Dyr
open RawBus (Val Data get idxOk)
open DyrSpec (count deviceName)

/-- What a new parser does with a file. -/
structure Outcome (cv : Conv) (n : Nat) (bound : Nat → Nat → Nat) (puts : List Nat) (me : Nat) (f : File)
    (recs : List (Struct × Str)) (busNo : List Int) (ends : List (Int × Int)) (bus branch bus' branch' : List Data)
    (J : Prop) (x : ℝ) (t : Tables) : Prop where
  run : parse cv n bound puts me recs busNo ends bus branch = some (bus', branch')
  buses : bus'.length = bus.length
  branches : branch'.length = branch.length
  gen : GenInv cv f.gens t.gens
  shunt : BusInv cv J x f.negShunts f.zeroShunts t.buses
  line : BranchInv cv (branchRows f) t.branches
  atBus : ∀ (i : Nat) b c, busNo[i]? = some b → bus[i]? = some c → ∃ c1 c', bus'[i]? = some c' ∧
    Spread t.gens (fun k => k.1) (putGen cv) (GenTouch cv) b c c1 ∧ Spread t.buses id putBus BusTouch b c1 c'
  atBranch : ∀ (i : Nat) e c, ends[i]? = some e → branch[i]? = some c → ∃ c', branch'[i]? = some c' ∧
    Spread t.branches (fun k => k.1) (putBranch cv) (BranchTouch cv) e c c'

theorem parse_ok (cv : Conv) (me : Nat) {n : Nat} {bound : Nat → Nat → Nat} {puts : List Nat} {f : File}
    {recs : List (Struct × Str)} {busNo : List Int} {ends : List (Int × Int)} {bus branch : List Data}
    (h : Setting n bound puts f recs busNo ends bus branch) {J : Prop} {x : ℝ} (hj : ∀ r ∈ recs, Holds J x r.1) :
    ∃ bus' branch' t, Outcome cv n bound puts me f recs busNo ends bus branch bus' branch' J x t := by
  obtain ⟨first, e, rest, hfirst, he, htext⟩ := h.text
  obtain ⟨t, h1, h2, h3, h4⟩ := readFile_ok (cv := cv) h.rows hfirst he htext hj
  obtain ⟨b1, s1, l1, c1⟩ := spread_table h.procs h.bounds h.order me (f := putGen cv) h2.wf
    (keyOf := fun k => k.1) (vk := fun s => s .int "bus_id") (fun x s hs => (h2.some x s hs).bus) h.buses
    (T := GenTouch cv) (fun c hc x s _ => putGen_step (h.usableBuses c hc) s)
  obtain ⟨b2, s2, l2, c2⟩ := spread_table h.procs h.bounds h.order me (f := putBus) h3.wf
    (keyOf := id) (vk := fun s => s .int "bus_id") (fun x s hs => (h3.some x s hs).bus) (h.buses.trans l1.symm)
    (T := BusTouch) (fun c hc x s _ => putBus_step c s)
  obtain ⟨b3, s3, l3, c3⟩ := spread_table h.procs h.bounds h.order me (f := putBranch cv) h4.wf
    (keyOf := fun k => k.1) (vk := fun s => (s .int "from_bus", s .int "to_bus"))
    (fun x s hs => by
      obtain ⟨r, -, hr⟩ := h4.some x s hs
      exact Prod.ext hr.ends.1 hr.ends.2) h.branches
    (T := BranchTouch cv) (fun c hc x s _ => putBranch_step (h.usableBranches c hc) s)
  refine ⟨b2, b3, t, ?_, l2.trans l1, l3, h2, h3, h4, ?_, ?_⟩
  · unfold parse sortData
    rw [h1, Option.bind_some]
    unfold genVec busVec branchVec
    rw [s1, Option.bind_some, s2, Option.bind_some, s3, Option.map_some]
  · intro i b c hi hc
    obtain ⟨d, hd, -, hs⟩ := c1 i b c hi hc
    obtain ⟨d', hd', -, hs'⟩ := c2 i b d hi hd
    exact ⟨d, d', hd', hs, hs'⟩
  · intro i b c hi hc
    obtain ⟨d, hd, -, hs⟩ := c3 i b c hi hc
    exact ⟨d, hd, hs⟩

theorem last_mem {P : Row → Prop} {rows : List Row} {r : Row} (h : Last P rows r) : r ∈ rows ∧ P r := by
  obtain ⟨pre, post, rfl, h2, -⟩ := h
  exact ⟨by simp, h2⟩

theorem element_unique {cv : Conv} {c : Data} {num id : String} {g : Nat} {a b : Str}
    (h : IsElement cv c num id g a) (h' : IsElement cv c num id g b) : a = b := h.2.1.symm.trans h'.2.1

theorem genName_mem (q : Sequence) (e : Entry FSrc) : e ∈ genExtract q →
    e.addKey = (genNames q).1 ∨ e.addKey = (genNames q).2 := by
  cases q <;> simp [genExtract, genNames, eDbl] <;> rintro (rfl | rfl) <;> simp

theorem genNames_plain (q : Sequence) : ':' ∉ (genNames q).1.toList ∧ ':' ∉ (genNames q).2.toList := by
  cases q <;> exact ⟨noColon_of (by decide +kernel), noColon_of (by decide +kernel)⟩

theorem index_of {cv : Conv} {c : Data} {num id : String} {tag : Str} :
    Index cv c num id tag (some (seqIndex cv c num id tag)) := by
  by_cases h : ∃ g, IsElement cv c num id g tag
  · obtain ⟨g, hg⟩ := h
    exact .inl ⟨g, by rw [seqIndex_iff.mpr hg], hg⟩
  · exact .inr ⟨by rw [seqIndex_none.mpr (fun g hg => h ⟨g, hg⟩)], fun g hg => h ⟨g, hg⟩⟩

section outcome
variable {cv : Conv} {n : Nat} {bound : Nat → Nat → Nat} {puts : List Nat} {me : Nat} {f : File}
  {recs : List (Struct × Str)} {busNo : List Int} {ends : List (Int × Int)} {bus branch bus' branch' : List Data}
  {J : Prop} {x : ℝ} {t : Tables}

/-- The value of a generator. -/
theorem gen_value {h : Sequence → List Row} {tg : Table (Int × Str)} (hg : GenInv cv h tg) {b : Int} {c c1 : Data}
    (hc : count c "GENERATOR_NUMBER" ≤ 10000000)
    (hs : Spread tg (fun k => k.1) (putGen cv) (GenTouch cv) b c c1) {q : Sequence} {r : Row} {tag : Str} {g : Nat}
    (hl : Last (ForGen cv b tag) (h q) r) (hlen : 4 ≤ r.length)
    (he : IsElement cv c "GENERATOR_NUMBER" "GENERATOR_ID" g tag) :
    Number cv c1 (some (g : Int)) r (genNames q).1 2 ∧ Number cv c1 (some (g : Int)) r (genNames q).2 3 := by
  obtain ⟨t2, h2⟩ : ∃ w, r[2]? = some w := ⟨_, List.getElem?_eq_getElem (by omega)⟩
  obtain ⟨t3, h3⟩ : ∃ w, r[3]? = some w := ⟨_, List.getElem?_eq_getElem (by omega)⟩
  cases hlook : tg.look (b, tag) with
  | none => exact absurd (last_mem hl).2 (hg.none _ hlook q r (last_mem hl).1)
  | some s =>
    have hst := hg.some _ s hlook
    have huse := (hst.use q).mpr ⟨r, (last_mem hl).1, (last_mem hl).2⟩
    obtain ⟨v1, v2⟩ := hst.val q r hl t2 t3 h2 h3
    have hid : Eq (s .string "gen_id") tag := hst.gen
    have hidx : genIdx cv c (s .string "gen_id") = some (g : Int) :=
      (congrArg (genIdx cv c) hid).trans (congrArg some (seqIndex_iff.mpr he))
    have hothers : ∀ name, ∀ x' s', tg.look x' = some s' → x' ≠ (b, tag) → x'.1 = b →
        ¬ GenTouch cv c s' ⟨name, some (g : Int)⟩ := by
      rintro name x' s' hx' hne hb ⟨q', _, hidx', _⟩
      have hid' : Eq (s' .string "gen_id") x'.2 := (hg.some _ s' hx').gen
      have h4 : some (g : Int) = genIdx cv c x'.2 := hidx'.trans (congrArg (genIdx cv c) hid')
      have h5 := seqIndex_iff.mp (Option.some.inj h4).symm
      exact hne (Prod.ext hb (element_unique h5 he))
    obtain ⟨ca, cb, hca, hput, hget⟩ := hs.gives (b, tag) s ⟨(genNames q).1.toList, some (g : Int)⟩ hlook rfl
      (genNames_plain q).1 (hothers _)
    obtain ⟨ca', cb', hca', hput', hget'⟩ := hs.gives (b, tag) s ⟨(genNames q).2.toList, some (g : Int)⟩ hlook rfl
      (genNames_plain q).2 (hothers _)
    have g1 := (putGen_gives hc hca hput huse).1
    have g2 := (putGen_gives hc hca' hput' huse).2
    rw [hidx] at g1 g2
    refine ⟨⟨t2, h2, (hget .double).trans (g1.trans ?_)⟩, ⟨t3, h3, (hget' .double).trans (g2.trans ?_)⟩⟩
    · exact congrArg some v1
    · exact congrArg some v2

/-- What does not change at a bus. -/
theorem bus_keep (o : Outcome cv n bound puts me f recs busNo ends bus branch bus' branch' J x t) {b : Int}
    {c c1 c' : Data} (hs : Spread t.gens (fun k => k.1) (putGen cv) (GenTouch cv) b c c1)
    (hs' : Spread t.buses id putBus BusTouch b c1 c') {u : Ty} {k : Key} (hk : ':' ∉ k.name)
    (hno : ¬ BusEntry cv f b c k) : get c' u k = get c u k := by
  rw [hs'.keep u k hk ?_, hs.keep u k hk ?_]
  · rintro ⟨b', tag⟩ s hl rfl ⟨q, huse, hi0, e, he, hname⟩
    have hst := o.gen.some _ s hl
    obtain ⟨r, hr, hfor⟩ := (hst.use q).mp huse
    have hid : Eq (s .string "gen_id") tag := hst.gen
    have hidx : k.idx = some (seqIndex cv c "GENERATOR_NUMBER" "GENERATOR_ID" tag) :=
      hi0.trans (congrArg (genIdx cv c) hid)
    clear hi0
    obtain ⟨kn, ki⟩ := k
    simp only at hname hidx
    subst hname hidx
    exact hno (.gen hr hfor (genName_mem q e he) index_of)
  · rintro b' s hl rfl ht
    have hst := o.shunt.some _ s hl
    obtain ⟨r, hr, hfor⟩ := hst.row
    rcases ht with ⟨-, hidx, e, he, hname⟩ | ⟨hz, -⟩
    · obtain ⟨kn, ki⟩ := k
      simp only at hname hidx
      subst hname hidx
      refine hno (.shunt hr hfor ?_)
      simp [negExtract, eDbl] at he
      rcases he with rfl | rfl <;> simp
    · rw [hst.zero] at hz
      cases hz

/-- The shunts of a bus. -/
theorem bus_value {hn hz : List Row} {tb : Table Int} (hb : BusInv cv J x hn hz tb) {b : Int} {c1 c' : Data}
    (hs : Spread tb id putBus BusTouch b c1 c') {s : Struct} (hl : tb.look b = some s) :
    get c' .double ⟨"BUS_SEQ_GNEG".toList, none⟩ = some (s .double "gneg") ∧
    get c' .double ⟨"BUS_SEQ_BNEG".toList, none⟩ = some (s .double "bneg") := by
  have hst := hb.some _ s hl
  have hothers : ∀ name, ∀ x' s', tb.look x' = some s' → x' ≠ b → id x' = b → ¬ BusTouch c1 s' ⟨name, none⟩ :=
    fun name x' s' _ hne hx => absurd hx hne
  obtain ⟨ca, cb, hca, hput, hget⟩ := hs.gives b s ⟨"BUS_SEQ_GNEG".toList, none⟩ hl rfl (noColon_of (by decide +kernel))
    (hothers _)
  obtain ⟨ca', cb', hca', hput', hget'⟩ := hs.gives b s ⟨"BUS_SEQ_BNEG".toList, none⟩ hl rfl
    (noColon_of (by decide +kernel)) (hothers _)
  exact ⟨(hget .double).trans (putBus_gives hput hst.neg hst.zero).1,
    (hget' .double).trans (putBus_gives hput' hst.neg hst.zero).2⟩

/-- The values of a branch. -/
theorem branch_value {h : List BranchRow} {tb : Table ((Int × Int) × Str)} (hb : BranchInv cv h tb) {e : Int × Int}
    {c c' : Data} (hc : count c "BRANCH_NUM_ELEMENTS" ≤ 10000000)
    (hs : Spread tb (fun k => k.1) (putBranch cv) (BranchTouch cv) e c c') {r : BranchRow} {tag : Str} {g : Nat}
    (hl : LastRow cv (e, tag) h r) (hfull : RowFull r)
    (he : IsElement cv c "BRANCH_NUM_ELEMENTS" "BRANCH_CKT" g tag) :
    (∀ p ∈ tabOf r, Number cv c' (some (g : Int)) r.2 p.1 p.2.2) ∧
    (r.1 = true → ∀ p ∈ wholeTab, Whole cv c' (some (g : Int)) r.2 p.1 p.2.2) := by
  cases hlook : tb.look (e, tag) with
  | none => exact absurd (lastRow_mem hl).2 (hb.none _ hlook r (lastRow_mem hl).1)
  | some s =>
    obtain ⟨r', hl', hst⟩ := hb.some _ s hlook
    obtain rfl : r = r' := by
      obtain ⟨p, q, e1, e2, e3⟩ := hl
      obtain ⟨p', q', e1', e2', e3'⟩ := hl'
      rw [e1] at e1'
      rcases List.append_eq_append_iff.mp e1' with ⟨a, ha, hb⟩ | ⟨a, ha, hb⟩
      · cases a with
        | nil => simp at hb; exact hb.1
        | cons y a =>
          simp only [List.cons_append, List.cons.injEq] at hb
          exact absurd e2' (e3 r' (by rw [hb.2]; simp))
      · cases a with
        | nil => simp at hb; exact hb.1.symm
        | cons y a =>
          simp only [List.cons_append, List.cons.injEq] at hb
          exact absurd e2 (e3' r (by rw [hb.2]; simp))
    have hid : Eq (s .string "branch_id") tag := hst.name
    have hidx : branchIdx cv c (s .string "branch_id") = some (g : Int) :=
      (congrArg (branchIdx cv c) hid).trans (congrArg some (seqIndex_iff.mpr he))
    have hothers : ∀ name, ∀ x' s', tb.look x' = some s' → x' ≠ (e, tag) → x'.1 = e →
        ¬ BranchTouch cv c s' ⟨name, some (g : Int)⟩ := by
      rintro name x' s' hx' hne hb' ⟨hidx', _⟩
      obtain ⟨_, _, hst'⟩ := hb.some _ s' hx'
      have hid' : Eq (s' .string "branch_id") x'.2 := hst'.name
      have h4 : some (g : Int) = branchIdx cv c x'.2 := hidx'.trans (congrArg (branchIdx cv c) hid')
      have h5 := seqIndex_iff.mp (Option.some.inj h4).symm
      exact hne (Prod.ext hb' (element_unique h5 he))
    obtain ⟨ft, fw⟩ := extract_tab hst.kind hst.wind
    have hlen : ∀ p ∈ tabOf r ++ (if r.1 then wholeTab else []), p.2.2 < r.2.length := by
      obtain ⟨xf, r⟩ := r
      obtain ⟨f1, f2⟩ := hfull
      simp only at f1 f2
      cases xf
      · simp [tabOf, lineTab]; omega
      · have f2 := f2 rfl
        cases h3 : three r
        · have : r.length = 11 := by simpa [three] using h3
          simp [tabOf, h3, xformTab, twoTab, wholeTab]; omega
        · have : r.length ≠ 11 := by simpa [three] using h3
          simp [tabOf, h3, xformTab, threeTab, wholeTab]; omega
    refine ⟨fun p hp => ?_, fun hx p hp => ?_⟩
    · obtain ⟨w, hw⟩ : ∃ w, r.2[p.2.2]? = some w := ⟨_, List.getElem?_eq_getElem (hlen p (by simp [hp]))⟩
      obtain ⟨ca, cb, hca, hput, hget⟩ := hs.gives (e, tag) s ⟨p.1.toList, some (g : Int)⟩ hlook rfl
        (noColon_of (ft p hp).2) (hothers _)
      have g1 := putBranch_gives hc hca hput (ft p hp).2 (ft p hp).1
      rw [hidx] at g1
      exact ⟨w, hw, (hget .double).trans (g1.trans (congrArg some (hst.val p hp w hw)))⟩
    · obtain ⟨w, hw⟩ : ∃ w, r.2[p.2.2]? = some w := ⟨_, List.getElem?_eq_getElem (hlen p (by simp [hp, hx]))⟩
      obtain ⟨ca, cb, hca, hput, hget⟩ := hs.gives (e, tag) s ⟨p.1.toList, some (g : Int)⟩ hlook rfl
        (noColon_of (fw hx p hp).2) (hothers _)
      have g1 := putBranch_gives hc hca hput (fw hx p hp).2 (fw hx p hp).1
      rw [hidx] at g1
      exact ⟨w, hw, (hget .int).trans (g1.trans (congrArg some (hst.whole hx p hp w hw)))⟩

/-- What does not change at a branch. -/
theorem branch_keep (o : Outcome cv n bound puts me f recs busNo ends bus branch bus' branch' J x t) {e : Int × Int}
    {c c' : Data} (hs : Spread t.branches (fun k => k.1) (putBranch cv) (BranchTouch cv) e c c') {u : Ty} {k : Key}
    (hk : ':' ∉ k.name) (hno : ¬ BranchEntry cv f e c k) : get c' u k = get c u k := by
  refine hs.keep u k hk ?_
  rintro ⟨e', tag⟩ s hl rfl ⟨hi0, en, hen, hname⟩
  obtain ⟨r, hlast, hst⟩ := o.line.some _ s hl
  obtain ⟨hr, hfor⟩ := lastRow_mem hlast
  have hid : Eq (s .string "branch_id") tag := hst.name
  have hidx : k.idx = some (seqIndex cv c "BRANCH_NUM_ELEMENTS" "BRANCH_CKT" tag) :=
    hi0.trans (congrArg (branchIdx cv c) hid)
  clear hi0
  obtain ⟨kn, ki⟩ := k
  simp only at hname hidx
  subst hname hidx
  unfold branchExtract at hen
  rw [hst.kind] at hen
  obtain ⟨xf, r⟩ := r
  simp only [branchRows, List.mem_append, List.mem_map, Prod.mk.injEq] at hr
  cases xf
  · obtain ⟨y, hy, -, rfl⟩ : ∃ a ∈ f.lines, false = false ∧ a = r := by simpa using hr
    have : ∃ m, (en.addKey, m) ∈ lineFormat := by
      have hall : ∀ z ∈ lineExtract, ∃ m, (z.addKey, m) ∈ lineFormat := by
        simp [lineExtract, lineFormat, eDbl]
      exact hall en (by simpa using hen)
    obtain ⟨m, hm⟩ := this
    exact hno (.line hy hfor hm index_of)
  · obtain ⟨y, hy, -, rfl⟩ : ∃ a ∈ f.xforms, true = true ∧ a = r := by simpa using hr
    rw [hst.wind rfl] at hen
    have : ∃ m, (en.addKey, m) ∈ xformWhole ++ xformFormat ++ (if y.length = 11 then twoFormat else threeFormat) := by
      by_cases h11 : y.length = 11
      · have h3 : three y = false := by simp [three, h11]
        rw [h3] at hen
        have hall : ∀ z ∈ xformExtract ++ twoExtract, ∃ m, (z.addKey, m) ∈ xformWhole ++ xformFormat ++ twoFormat := by
          simp [xformExtract, twoExtract, xformWhole, xformFormat, twoFormat, eDbl, eInt]
        rw [if_pos h11]
        exact hall en (by simpa using hen)
      · have h3 : three y = true := by simp [three, h11]
        rw [h3] at hen
        have hall : ∀ z ∈ xformExtract ++ threeExtract, ∃ m, (z.addKey, m) ∈ xformWhole ++ xformFormat ++ threeFormat := by
          simp [xformExtract, threeExtract, xformWhole, xformFormat, threeFormat, eDbl, eInt]
        rw [if_neg h11]
        exact hall en (by simpa using hen)
    obtain ⟨m, hm⟩ := this
    exact hno (.xform hy hfor hm index_of)

end outcome

end GridPACK.SeqParser
