import Verif.Lemmas.RawBus
import Verif.Props.BlockParser
import Mathlib.Data.List.Nodup

/-! Properties C177–C180: buses and devices read from a RAW file. -/
namespace GridPACK.RawBus
open StringUtils BlockParser DataCollection

/-! ### Specification -/

/-- Columns of a block in the documentation of the format; the first column is the bus, the second the name of the
device. -/
structure Columns where
  count : String
  id : String
  ints : List (String × ℕ)
  dbls : List (String × ℕ)
  cplx : List (String × ℕ)

/-- `I, ID, STATUS, AREA, ZONE, PL, QL, IP, IQ, YP, YQ`. -/
def loadColumns : Columns :=
  ⟨"LOAD_NUMBER", "LOAD_ID", [("LOAD_STATUS", 2), ("LOAD_AREA", 3), ("LOAD_ZONE", 4)],
    [("LOAD_PL", 5), ("LOAD_QL", 6), ("LOAD_IP", 7), ("LOAD_IQ", 8), ("LOAD_YP", 9), ("LOAD_YQ", 10)], []⟩

/-- `I, ID, STATUS, GL, BL`. -/
def shuntColumns : Columns :=
  ⟨"SHUNT_NUMBER", "SHUNT_ID", [("SHUNT_STATUS", 2)], [("BUS_SHUNT_GL", 3), ("BUS_SHUNT_BL", 4)], []⟩

/-- `I, ID, PG, QG, QT, QB, VS, IREG, MBASE, ZR, ZX, RT, XT, GTAP, STAT, RMPCT, PT, PB, O1, F1, ..., O4, F4, WMOD,
WPF`; the owners are left out. -/
def genColumns : Columns :=
  ⟨"GENERATOR_NUMBER", "GENERATOR_ID", [("GENERATOR_IREG", 7), ("GENERATOR_STAT", 14), ("GENERATOR_WMOD", 26)],
    [("GENERATOR_PG", 2), ("GENERATOR_QG", 3), ("GENERATOR_QMAX", 4), ("GENERATOR_QMIN", 5), ("GENERATOR_VS", 6),
      ("GENERATOR_MBASE", 8), ("GENERATOR_GTAP", 13), ("GENERATOR_RMPCT", 15), ("GENERATOR_PMAX", 16),
      ("GENERATOR_PMIN", 17), ("GENERATOR_WPF", 27)],
    [("GENERATOR_ZSOURCE", 9), ("GENERATOR_XTRAN", 11)]⟩

/-- What `getValue` gives for a value that is there or not. -/
def answer {α : Type} (v : Option α) (old : α) : Option (Bool × α) :=
  some (match v with
    | some v => (true, v)
    | none => (false, old))

/-- A user finds in the data collection exactly the given devices, in their order. -/
structure Tells (cv : Conv) (cols : Columns) (c : Data) (devs : List (List Str)) : Prop where
  count : ∀ old : Int, getValue c .int ⟨cols.count.toList, none⟩ old =
    answer (if devs = [] then none else some (devs.length : Int)) old
  id : ∀ (j : ℕ) r, devs[j]? = some r → ∀ old : Str, getValue c .string ⟨cols.id.toList, some (j : Int)⟩ old =
    answer (r[1]?.map cv.tag) old
  ints : ∀ (j : ℕ) r, devs[j]? = some r → ∀ p ∈ cols.ints, ∀ old : Int,
    getValue c .int ⟨p.1.toList, some (j : Int)⟩ old = answer (r[p.2]?.map cv.atoi) old
  dbls : ∀ (j : ℕ) r, devs[j]? = some r → ∀ p ∈ cols.dbls, ∀ old : ℝ,
    getValue c .double ⟨p.1.toList, some (j : Int)⟩ old = answer (r[p.2]?.map cv.atof) old
  cplx : ∀ (j : ℕ) r, devs[j]? = some r → ∀ p ∈ cols.cplx, ∀ old : ℝ × ℝ,
    getValue c .complex ⟨p.1.toList, some (j : Int)⟩ old =
      answer (match r[p.2]?, r[p.2 + 1]? with
        | some a, some b => some (cv.atof a, cv.atof b)
        | _, _ => none) old

/-- Columns of the bus block. -/
def busInts : List (String × ℕ) := [("BUS_NUMBER", 0), ("BUS_TYPE", 3), ("BUS_AREA", 4), ("BUS_ZONE", 5), ("BUS_OWNER", 6)]

def busDbls : List (String × ℕ) :=
  [("BUS_BASEKV", 2), ("BUS_VOLTAGE_MAG", 7), ("BUS_VOLTAGE_ANG", 8), ("BUS_VOLTAGE_MAX", 9), ("BUS_VOLTAGE_MIN", 10)]

/-- A user finds the values of the bus. -/
structure TellsBus (cv : Conv) (f : File) (name : Str) (c : Data) (r : List Str) : Prop where
  sbase : ∀ old : ℝ, getValue c .double ⟨"CASE_SBASE".toList, none⟩ old = some (true, f.sbase)
  caseId : ∀ old : Int, getValue c .int ⟨"CASE_ID".toList, none⟩ old = some (true, f.caseId)
  name : ∀ old : Str, getValue c .string ⟨"BUS_NAME".toList, none⟩ old = some (true, name)
  ints : ∀ p ∈ busInts, ∀ old : Int, getValue c .int ⟨p.1.toList, none⟩ old = answer (r[p.2]?.map cv.atoi) old
  dbls : ∀ p ∈ busDbls, ∀ old : ℝ, getValue c .double ⟨p.1.toList, none⟩ old = answer (r[p.2]?.map cv.atof) old

/-- The names by which devices can refer to buses: those of files read before, and those of this file. -/
def nameTable (cv : Conv) (names : List (Str × Int)) (f : File) (nm : List Str → Str) : List (Str × Int) :=
  names ++ f.buses.map (fun r => (nm r, |num cv r|))

/-- `b` is the text `'x'`, possibly with blanks before and something after, and `t` is `x` without surrounding
blanks. -/
def Quoted (b t : Str) : Prop :=
  ∃ lead x post, b = List.replicate lead ' ' ++ ['\''] ++ x ++ ['\''] ++ post ∧ '\'' ∉ x ∧ 2 ≤ x.length ∧
    (∃ c ∈ x, c ≠ ' ') ∧ IsStripOf t x

/-- The first token of a device record and the number of the bus it refers to: a number; a name of at most twelve
characters; a longer name; or a name, at least three blanks and a voltage. -/
inductive Refers (cv : Conv) (tbl : List (Str × Int)) : Str → Int → Prop
  | number (s : Str) (hne : s ≠ []) (hb : ' ' ∉ s) (hq : s.head? ≠ some '\'') : Refers cv tbl s |cv.atoi s|
  | name (s t : Str) (hs : Quoted s t) (ht : t.length ≤ 12 ∨ findTriple t = none) (pre post : List (Str × Int))
      (n : Int) (htbl : tbl = pre ++ (t, n) :: post) (hpre : ∀ e ∈ pre, e.1 ≠ t) : Refers cv tbl s n
  | voltage (s t : Str) (k : ℕ) (c : Char) (volt : Str)
      (hs : Quoted s (t ++ List.replicate (k + 3) ' ' ++ c :: volt))
      (hlen : 12 < (t ++ List.replicate (k + 3) ' ' ++ c :: volt).length) (hc : c ≠ ' ')
      (ht : findTriple t = none) (hlast : ∀ d, t.getLast? = some d → d ≠ ' ') (pre post : List (Str × Int))
      (n : Int) (htbl : tbl = pre ++ (t, n) :: post) (hpre : ∀ e ∈ pre, e.1 ≠ t) : Refers cv tbl s n

/-- A file whose bus numbers are different and not negative, and whose lines are long enough.  `nm r` is the name in
a bus record, `home r` the number of the bus a device record refers to. -/
structure Good (cv : Conv) (names : List (Str × Int)) (f : File) (nm : List Str → Str) (home : List Str → Int) :
    Prop where
  buses : ∀ r ∈ f.buses, ∃ a b ss, r = a :: b :: ss ∧ Quoted b (nm r)
  distinct : (f.buses.map (num cv)).Nodup
  nonneg : ∀ r ∈ f.buses, 0 ≤ num cv r
  home : ∀ r ∈ f.loads ++ f.shunts ++ f.gens, ∃ s ss, r = s :: ss ∧ Refers cv (nameTable cv names f nm) s (home r)
  tags : ∀ r ∈ f.gens, 2 ≤ r.length
  switched : ∀ r ∈ f.switched, 10 ≤ r.length
  few : f.loads.length ≤ 10000000 ∧ f.shunts.length ≤ 10000000 ∧ f.gens.length ≤ 10000000

/-! ### Proof -/

/-- What the proof needs of a file. -/
structure Sound (cv : Conv) (names : List (Str × Int)) (f : File) (nm : List Str → Str) (home : List Str → Int) :
    Prop where
  buses : ∀ r ∈ f.buses, ∃ a b ss q, r = a :: b :: ss ∧ checkString b = .ok (q, nm r)
  distinct : (f.buses.map (num cv)).Nodup
  nonneg : ∀ r ∈ f.buses, 0 ≤ num cv r
  home : ∀ r ∈ f.loads ++ f.shunts ++ f.gens, ∃ s ss, r = s :: ss ∧
    getBusIndex cv (nameTable cv names f nm) s = some (home r)
  tags : ∀ r ∈ f.gens, 2 ≤ r.length
  switched : ∀ r ∈ f.switched, 10 ≤ r.length
  few : f.loads.length ≤ 10000000 ∧ f.shunts.length ≤ 10000000 ∧ f.gens.length ≤ 10000000

theorem strip_unique {t t' x : Str} (h : IsStripOf t x) (h' : IsStripOf t' x) (hx : ∃ c ∈ x, c ≠ ' ') : t = t' := by
  obtain ⟨a, b, h1, h2, h3⟩ := h
  have key : ∀ t a b, x = List.replicate a ' ' ++ t ++ List.replicate b ' ' → (∀ c, t.head? = some c → c ≠ ' ') →
      (∀ c, t.getLast? = some c → c ≠ ' ') → t = ((x.dropWhile (· = ' ')).reverse.dropWhile (· = ' ')).reverse := by
    intro t a b h1 h2 h3
    have drop : ∀ (n : ℕ) (s : Str), (List.replicate n ' ' ++ s).dropWhile (· = ' ') = s.dropWhile (· = ' ') := by
      intro n s
      induction n with
      | zero => simp
      | succ n ih => simp [List.replicate_succ, ih]
    have head : ∀ (s : Str), (∀ c, s.head? = some c → c ≠ ' ') → s.dropWhile (· = ' ') = s := by
      intro s hs
      cases s with
      | nil => rfl
      | cons c s => simp [hs c rfl]
    have hne : t ≠ [] := by
      rintro rfl
      obtain ⟨c, hc, hcb⟩ := hx
      rw [h1] at hc
      simp only [List.append_nil, List.mem_append] at hc
      rcases hc with hc | hc <;> exact hcb (List.eq_of_mem_replicate hc)
    rw [h1, List.append_assoc, drop, head (t ++ List.replicate b ' ') (by
      intro c hc
      obtain ⟨d, t', rfl⟩ := List.exists_cons_of_ne_nil hne
      exact h2 c (by simpa using hc)),
      List.reverse_append, List.reverse_replicate, drop, head _ (by
        intro c hc
        rw [List.head?_reverse] at hc
        exact h3 c hc), List.reverse_reverse]
  obtain ⟨a', b', h1', h2', h3'⟩ := h'
  rw [key t a b h1 h2 h3, key t' a' b' h1' h2' h3']

theorem quoted_check {b t : Str} (h : Quoted b t) : checkString b = .ok (true, t) := by
  obtain ⟨lead, x, post, rfl, h1, h2, h3, h4⟩ := h
  obtain ⟨t', ht', hs⟩ := C30_check_string_partial lead x post h1 h2 h3
  rw [ht', strip_unique hs h4 h3]

theorem lookup_split {κ α : Type} [DecidableEq κ] (pre post : List (κ × α)) (k : κ) (v : α)
    (h : ∀ e ∈ pre, e.1 ≠ k) : lookup (pre ++ (k, v) :: post) k = some v := by
  unfold lookup
  rw [List.find?_append, List.find?_eq_none.mpr (by simpa using h)]
  simp

theorem number_check (s : Str) (hne : s ≠ []) (hb : ' ' ∉ s) (hq : s.head? ≠ some '\'') :
    checkString s = .ok (false, s) := by
  have hfn : findNot ' ' s 0 = 0 := by
    obtain ⟨c, r, rfl⟩ := List.exists_cons_of_ne_nil hne
    have := findNot_hit ' ' [] 0 c r (by rintro rfl; simp at hb)
    simpa using this
  have hch : charAt s 0 = s.head? := by
    obtain ⟨c, r, rfl⟩ := List.exists_cons_of_ne_nil hne
    simp [charAt, slen]
    omega
  obtain ⟨t, ht, hs⟩ := removeBlanks_spec s (by
    obtain ⟨c, r, rfl⟩ := List.exists_cons_of_ne_nil hne
    exact ⟨c, by simp, by rintro rfl; simp at hb⟩)
  have hts : t = s := by
    obtain ⟨a, b, h1, _, _⟩ := hs
    have ha : a = 0 := by
      cases a with
      | zero => rfl
      | succ a => exact absurd (by rw [h1]; simp [List.replicate_succ]) hb
    have hb' : b = 0 := by
      cases b with
      | zero => rfl
      | succ a => exact absurd (by rw [h1]; simp [List.replicate_succ]) hb
    rw [h1, ha, hb']; simp
  unfold checkString
  rw [hfn, hch, if_neg (by simp [hq]), ht, hts]

theorem refers_index {cv : Conv} {tbl : List (Str × Int)} {s : Str} {n : Int} (h : Refers cv tbl s n) :
    getBusIndex cv tbl s = some n := by
  cases h with
  | number hne hb hq => simp only [getBusIndex, number_check s hne hb hq]
  | name t hs ht pre post n htbl hpre =>
    have hp : parseBusName t = (t, none) := by
      by_cases hl : t.length ≤ 12
      · exact C64_short_name t hl
      · unfold parseBusName
        rw [if_pos (by omega), ht.resolve_left hl]
    simp only [getBusIndex, quoted_check hs, hp, htbl, lookup_split pre post t n hpre]
  | voltage t k c volt hs hlen hc ht hlast pre post n htbl hpre =>
    simp only [getBusIndex, quoted_check hs, C64_parseBusName t volt k c ht hlast hc hlen, htbl,
      lookup_split pre post t n hpre]

theorem Good.sound {cv : Conv} {names : List (Str × Int)} {f : File} {nm : List Str → Str} {home : List Str → Int}
    (h : Good cv names f nm home) : Sound cv names f nm home where
  buses := fun r hr => by
    obtain ⟨a, b, ss, h1, h2⟩ := h.buses r hr
    exact ⟨a, b, ss, true, h1, quoted_check h2⟩
  distinct := h.distinct
  nonneg := h.nonneg
  home := fun r hr => by
    obtain ⟨s, ss, h1, h2⟩ := h.home r hr
    exact ⟨s, ss, h1, refers_index h2⟩
  tags := h.tags
  switched := h.switched
  few := h.few

theorem lookup_mem {κ α : Type} [DecidableEq κ] (m : List (κ × α)) (h : (m.map Prod.fst).Nodup) (k : κ) (v : α) :
    lookup m k = some v ↔ (k, v) ∈ m := by
  unfold lookup
  induction m with
  | nil => simp
  | cons e m ih =>
    simp only [List.map_cons, List.nodup_cons] at h
    rw [List.find?_cons]
    by_cases he : e.1 = k
    · subst he
      simp only [decide_true, Option.map_some, Option.some.injEq, List.mem_cons]
      constructor
      · rintro rfl; exact Or.inl rfl
      · rintro (he | he)
        · rw [← he]
        · exact absurd (List.mem_map.mpr ⟨_, he, rfl⟩) h.1
    · simp only [he, decide_false, ih h.2, List.mem_cons]
      constructor
      · exact fun hm => Or.inr hm
      · rintro (rfl | hm)
        · exact absurd rfl he
        · exact hm

theorem busMap_lookup (cv : Conv) (recs : List (List Str)) (h : (recs.map (num cv)).Nodup) (n : Int) (l : ℕ) :
    lookup (recs.mapIdx (fun i r => (num cv r, i))) n = some l ↔ ∃ r, recs[l]? = some r ∧ num cv r = n := by
  have hfst : (recs.mapIdx (fun i r => (num cv r, i))).map Prod.fst = recs.map (num cv) := by
    apply List.ext_getElem?
    intro i
    simp only [List.getElem?_map, List.getElem?_mapIdx]
    cases recs[i]? <;> rfl
  rw [lookup_mem _ (by rw [hfst]; exact h)]
  rw [List.mem_iff_getElem?]
  constructor
  · rintro ⟨i, hi⟩
    rw [List.getElem?_mapIdx] at hi
    cases hr : recs[i]? with
    | none => simp [hr] at hi
    | some r =>
      simp only [hr, Option.map_some, Option.some.injEq, Prod.mk.injEq] at hi
      obtain ⟨h1, rfl⟩ := hi
      exact ⟨r, hr, h1⟩
  · rintro ⟨r, hr, h1⟩
    exact ⟨l, by simp [List.getElem?_mapIdx, hr, h1]⟩

/-- What a file leaves in the collections of the buses. -/
theorem getCase_spec (cv : Conv) (names : List (Str × Int)) (f : File) (nm : List Str → Str)
    (home : List Str → Int) (h : Sound cv names f nm home) :
    ∃ t, getCase cv names f = some t ∧ t.bus.length = f.buses.length ∧
      ∀ (l : ℕ) r, f.buses[l]? = some r → ∃ c0 c1 c2 c3 c,
        t.bus[l]? = some c ∧
        addFields cv 0 0 r none (busFields f.sbase f.caseId (nm r)) empty = some c0 ∧
        Has cv loadKind (num cv r) c0 c1 (f.loads.filter (fun d => home d = num cv r)) ∧
        Has cv shuntKind (num cv r) c1 c2 (f.shunts.filter (fun d => home d = num cv r)) ∧
        Has cv genKind (num cv r) c2 c3 (f.gens.filter (fun d => home d = num cv r)) ∧
        HasSw cv c3 c (f.switched.filter (fun d => num cv d = num cv r)) := by
  obtain ⟨ds, h0, hlen, hds⟩ := readBuses_eq cv f.sbase f.caseId nm f.buses ⟨[], [], names⟩ h.buses
  simp only [List.nil_append, List.length_nil, Nat.zero_add] at h0
  set t0 : Tables := ⟨ds, f.buses.mapIdx (fun i r => (num cv r, i)), nameTable cv names f nm⟩ with ht0
  have h0' : readBuses cv f.sbase f.caseId ⟨[], [], names⟩ f.buses = some t0 := h0
  have hlook := busMap_lookup cv f.buses h.distinct
  have hmap : ∀ t : Tables, t.busMap = t0.busMap → t.bus.length = t0.bus.length → MapOk t := by
    intro t h1 h2
    refine ⟨?_, ?_, ?_⟩
    · intro n l hl
      rw [h1] at hl
      obtain ⟨r, hr, _⟩ := (hlook n l).mp hl
      rw [h2, show t0.bus.length = f.buses.length from hlen]
      exact (List.getElem?_eq_some_iff.mp hr).1
    · intro n n' l hl hl'
      rw [h1] at hl hl'
      obtain ⟨r, hr, hn⟩ := (hlook n l).mp hl
      obtain ⟨r', hr', hn'⟩ := (hlook n' l).mp hl'
      rw [hr] at hr'
      obtain rfl : r = r' := by simpa using hr'
      rw [← hn, ← hn']
    · intro n l hl
      rw [h1] at hl
      obtain ⟨r, hr, hn⟩ := (hlook n l).mp hl
      rw [← hn]
      exact h.nonneg r (List.mem_of_getElem? hr)
  -- the collections of the buses have none of the names of devices
  have hget0 : ∀ (l : ℕ) c, t0.bus[l]? = some c → ∀ u (k : Key), ':' ∉ k.name → k.name ∉ busNames →
      get c u k = none := by
    intro l c hc u k hk hn
    have hlt : l < f.buses.length := by
      rw [← hlen]; exact (List.getElem?_eq_some_iff.mp hc).1
    have had := hds l _ c (List.getElem?_eq_getElem hlt) hc
    rw [addFields_get_other cv 0 0 _ none _ (busFields_ok _ _ _).1 u k hk empty c had]
    · unfold get
      cases mapKey k <;> rfl
    · intro g hg he
      simp only [Prod.mk.injEq] at he
      apply hn
      rw [he.2, ← busFields_names f.sbase f.caseId]
      exact List.mem_map_of_mem hg
  have hfresh : ∀ k, KindOk k → (∀ s ∈ busNames, s ∉ k.names) →
      ∀ (l : ℕ) c, t0.bus[l]? = some c → ∀ u (x : Key), x.name ∈ k.names → get c u x = none := by
    intro k hk hd l c hc u x hx
    exact hget0 l c hc u x (colons_names hk _ hx) (fun hb => hd _ hb hx)
  have hframe : ∀ {k n c c' devs}, Has cv k n c c' devs → ∀ u (x : Key), ':' ∉ x.name → x.name ∉ k.names →
      get c' u x = get c u x := fun hh u x hx hn => hh.frame u x hx (not_owns _ u x hn)
  -- loads
  have hf0 : Filled cv loadKind home t0 t0 [] := by
    refine ⟨rfl, rfl, rfl, ?_⟩
    intro n l c0 hl hc
    exact ⟨c0, hc, has_nil cv _ n c0 (fresh_of _ _ (hfresh _ loadKind_ok bus_load l c0 hc))⟩
  obtain ⟨t1, h1, F1⟩ := readDevs_filled cv loadKind loadKind_ok home t0 (hmap t0 rfl rfl) f.loads [] t0 hf0
    (fun r hr => h.home r (by simp [hr])) (by
      intro r hr _
      obtain ⟨s, ss, rfl, _⟩ := h.home r (by simp [hr])
      show 1 ≤ (s :: ss).length
      simp) (by simpa using h.few.1)
  simp only [List.nil_append] at F1
  -- shunts
  have hm1 := hmap t1 F1.busMap F1.length
  have back : ∀ (t : Tables), t.bus.length = t0.bus.length → ∀ (l : ℕ) c, t.bus[l]? = some c →
      ∃ c0, t0.bus[l]? = some c0 := by
    intro t hl l c hc
    have := (List.getElem?_eq_some_iff.mp hc).1
    rw [hl] at this
    exact ⟨_, List.getElem?_eq_getElem this⟩
  have hfs0 : Filled cv shuntKind home t1 t1 [] := by
    refine ⟨rfl, rfl, rfl, ?_⟩
    intro n l c1 hl hc
    obtain ⟨c0, hc0⟩ := back t1 F1.length l c1 hc
    obtain ⟨c, hc', hh⟩ := F1.bus n l c0 (by rw [← F1.busMap]; exact hl) hc0
    rw [hc] at hc'
    obtain rfl : c1 = c := by simpa using hc'
    refine ⟨c1, hc, has_nil cv _ n c1 (fresh_of _ _ ?_)⟩
    intro u x hx
    rw [hframe hh u x (colons_names shuntKind_ok _ hx) (load_shunt _ hx)]
    exact hfresh _ shuntKind_ok bus_shunt l c0 hc0 u x hx
  obtain ⟨t2, h2, F2⟩ := readDevs_filled cv shuntKind shuntKind_ok home t1 hm1 f.shunts [] t1 hfs0
    (fun r hr => by rw [F1.nameMap]; exact h.home r (by simp [hr])) (by
      intro r hr _
      obtain ⟨s, ss, rfl, _⟩ := h.home r (by simp [hr])
      show 1 ≤ (s :: ss).length
      simp) (by simpa using h.few.2.1)
  simp only [List.nil_append] at F2
  have hb2 : t2.busMap = t0.busMap := F2.busMap.trans F1.busMap
  have hl2 : t2.bus.length = t0.bus.length := F2.length.trans F1.length
  have hm2 := hmap t2 hb2 hl2
  -- generators
  have hfg0 : Filled cv genKind home t2 t2 [] := by
    refine ⟨rfl, rfl, rfl, ?_⟩
    intro n l c2 hl hc
    obtain ⟨c0, hc0⟩ := back t2 hl2 l c2 hc
    rw [hb2] at hl
    obtain ⟨c1, hc1, hh1⟩ := F1.bus n l c0 hl hc0
    obtain ⟨c, hc', hh2⟩ := F2.bus n l c1 (by rw [F1.busMap]; exact hl) hc1
    rw [hc] at hc'
    obtain rfl : c2 = c := by simpa using hc'
    refine ⟨c2, hc, has_nil cv _ n c2 (fresh_of _ _ ?_)⟩
    intro u x hx
    rw [hframe hh2 u x (colons_names genKind_ok _ hx) (shunt_gen _ hx),
      hframe hh1 u x (colons_names genKind_ok _ hx) (load_gen _ hx)]
    exact hfresh _ genKind_ok bus_gen l c0 hc0 u x hx
  obtain ⟨t3, h3, F3⟩ := readDevs_filled cv genKind genKind_ok home t2 hm2 f.gens [] t2 hfg0
    (fun r hr => by rw [F2.nameMap, F1.nameMap]; exact h.home r (by simp [hr]))
    (fun r hr _ => h.tags r hr) (by simpa using h.few.2.2)
  simp only [List.nil_append] at F3
  have hb3 : t3.busMap = t0.busMap := F3.busMap.trans hb2
  have hl3 : t3.bus.length = t0.bus.length := F3.length.trans hl2
  -- switched shunts
  have hfw0 : FilledSw cv (num cv) t3 t3 [] := by
    refine ⟨rfl, rfl, rfl, ?_⟩
    intro n l c3 hl hc
    refine ⟨c3, hc, ?_, fun _ _ _ _ => rfl⟩
    intro g hg
    simp
  obtain ⟨t4, h4, F4⟩ := readSws_filled cv (num cv) t3 (hmap t3 hb3 hl3) f.switched [] t3 hfw0
    (by
      intro r hr
      have := h.switched r hr
      cases r with
      | nil => simp at this
      | cons s ss => exact ⟨s, ss, rfl, rfl⟩)
    (fun r hr _ => h.switched r hr)
  simp only [List.nil_append] at F4
  refine ⟨t4, ?_, ?_, ?_⟩
  · simp only [getCase, h0', h1, h2, h3, h4, Option.bind_some]
  · rw [F4.length, hl3]; exact hlen
  · intro l r hr
    have hl : lookup t0.busMap (num cv r) = some l := (hlook (num cv r) l).mpr ⟨r, hr, rfl⟩
    have hlt : l < ds.length := by rw [hlen]; exact (List.getElem?_eq_some_iff.mp hr).1
    have hc0 : t0.bus[l]? = some ds[l] := List.getElem?_eq_getElem hlt
    obtain ⟨c1, hc1, hh1⟩ := F1.bus _ l _ hl hc0
    obtain ⟨c2, hc2, hh2⟩ := F2.bus _ l c1 (by rw [F1.busMap]; exact hl) hc1
    obtain ⟨c3, hc3, hh3⟩ := F3.bus _ l c2 (by rw [hb2]; exact hl) hc2
    obtain ⟨c4, hc4, hh4⟩ := F4.bus _ l c3 (by rw [hb3]; exact hl) hc3
    exact ⟨ds[l], c1, c2, c3, c4, hc4, hds l r _ hr hc0, hh1, hh2, hh3, hh4⟩

theorem mapKey_isSome (name : Str) (j : ℕ) (h : j ≤ top) : (mapKey ⟨name, some (j : Int)⟩).isSome := by
  obtain ⟨s, hs⟩ := mapKey_some name (some (j : Int)) (by
    intro i hi
    simp only [Option.some.injEq] at hi
    rw [top_eq] at h
    omega)
  simp [hs]

/-- Reading an unindexed value. -/
theorem read_plain (c : Data) (t : Ty) (name : Str) (old : Val t) (v : Option (Val t))
    (h : get c t ⟨name, none⟩ = v) : getValue c t ⟨name, none⟩ old = answer v old := by
  rw [getValue_get c t _ old (by simp [mapKey]), h]
  cases v <;> rfl

theorem read_indexed (c : Data) (t : Ty) (name : Str) (j : ℕ) (hj : j ≤ top) (old : Val t)
    (v : Option (Val t)) (h : get c t ⟨name, some (j : Int)⟩ = v) :
    getValue c t ⟨name, some (j : Int)⟩ old = answer v old := by
  rw [getValue_get c t _ old (mapKey_isSome name j hj), h]
  cases v <;> rfl

/-- The columns are values of the block. -/
structure Fits (k : Kind) (cols : Columns) : Prop where
  count : k.count = cols.count.toList
  id : tagAt cols.id 1 ∈ k.fields
  ints : ∀ p ∈ cols.ints, intAt p.1 p.2 ∈ k.fields
  dbls : ∀ p ∈ cols.dbls, dblAt p.1 p.2 ∈ k.fields
  cplx : ∀ p ∈ cols.cplx, cplxAt p.1 p.2 ∈ k.fields

theorem tells (cv : Conv) (k : Kind) (cols : Columns) (hf : Fits k cols) (n : Int) (c0 c c' : Data)
    (devs : List (List Str)) (hlen : devs.length ≤ 10000000) (h : Has cv k n c0 c devs)
    (hkeep : ∀ u (x : Key), x.name ∈ k.names → get c' u x = get c u x) : Tells cv cols c' devs := by
  have hnames : ∀ f ∈ k.fields, f.name ∈ k.names := by
    intro f hf
    simp only [Kind.names, List.mem_cons, List.mem_map, List.mem_append]
    exact Or.inr ⟨f, Or.inl hf, rfl⟩
  have hval : ∀ f ∈ k.fields, ∀ (j : ℕ) r, devs[j]? = some r →
      j ≤ top ∧ get c' f.ty ⟨f.name, some (j : Int)⟩ = f.value cv n (intVal c0 "BUS_OWNER".toList) r := by
    intro f hf j r hr
    have hj : j ≤ top := by
      have := (List.getElem?_eq_some_iff.mp hr).1
      rw [top_eq]; omega
    refine ⟨hj, ?_⟩
    rw [hkeep f.ty ⟨f.name, some (j : Int)⟩ (hnames f hf), h.fields f hf j hj, hr]
    rfl
  refine ⟨?_, ?_, ?_, ?_, ?_⟩
  · intro old
    rw [← hf.count]
    refine read_plain c' .int _ old _ ?_
    rw [hkeep .int ⟨k.count, none⟩ (by simp [Kind.names])]
    exact h.count
  · intro j r hr old
    obtain ⟨hj, hv⟩ := hval _ hf.id j r hr
    exact read_indexed c' .string _ j hj old _ hv
  · intro j r hr p hp old
    obtain ⟨hj, hv⟩ := hval _ (hf.ints p hp) j r hr
    exact read_indexed c' .int _ j hj old _ hv
  · intro j r hr p hp old
    obtain ⟨hj, hv⟩ := hval _ (hf.dbls p hp) j r hr
    exact read_indexed c' .double _ j hj old _ hv
  · intro j r hr p hp old
    obtain ⟨hj, hv⟩ := hval _ (hf.cplx p hp) j r hr
    exact read_indexed c' .complex _ j hj old _ hv

/-- Membership in a list written out. -/
macro "member" : tactic =>
  `(tactic| with_reducible (repeat (first | exact List.mem_cons_self | apply List.mem_cons_of_mem)))

theorem fits_load : Fits loadKind loadColumns := by
  constructor
  · rfl
  · unfold loadKind loadColumns; member
  all_goals
    unfold loadColumns
    simp only [List.forall_mem_cons, List.not_mem_nil, false_imp_iff, implies_true, and_true]
  all_goals
    unfold loadKind
    try and_intros
  all_goals member

theorem fits_shunt : Fits shuntKind shuntColumns := by
  constructor
  · rfl
  · unfold shuntKind shuntColumns; member
  all_goals
    unfold shuntColumns
    simp only [List.forall_mem_cons, List.not_mem_nil, false_imp_iff, implies_true, and_true]
  all_goals
    unfold shuntKind
    try and_intros
  all_goals member

theorem fits_gen : Fits genKind genColumns := by
  constructor
  · rfl
  · unfold genKind genColumns; member
  all_goals
    unfold genColumns
    simp only [List.forall_mem_cons, List.not_mem_nil, false_imp_iff, implies_true, and_true]
  all_goals
    unfold genKind
    try and_intros
  all_goals member

/-- Values no switched shunt has are kept. -/
theorem sw_keep {cv : Conv} {c c' : Data} {devs : List (List Str)} (h : HasSw cv c c' devs) (u : Ty) (x : Key)
    (hx : ':' ∉ x.name) (hn : x.name ∉ swNames) : get c' u x = get c u x := by
  refine h.frame u x hx ?_
  intro f hf he
  simp only [Prod.mk.injEq] at he
  exact hn (by rw [he.2]; exact List.mem_map_of_mem hf)

/-- The statement of C177 under the weaker hypotheses of the proof. -/
theorem case_tells (cv : Conv) (names : List (Str × Int)) (f : File) (nm : List Str → Str)
    (home : List Str → Int) (h : Sound cv names f nm home) :
    ∃ t, getCase cv names f = some t ∧ t.bus.length = f.buses.length ∧
      ∀ (l : ℕ) r, f.buses[l]? = some r → ∃ c, t.bus[l]? = some c ∧
        TellsBus cv f (nm r) c r ∧
        Tells cv loadColumns c (f.loads.filter (fun d => home d = num cv r)) ∧
        Tells cv shuntColumns c (f.shunts.filter (fun d => home d = num cv r)) ∧
        Tells cv genColumns c (f.gens.filter (fun d => home d = num cv r)) := by
  obtain ⟨t, h1, h2, h3⟩ := getCase_spec cv names f nm home h
  refine ⟨t, h1, h2, ?_⟩
  intro l r hr
  obtain ⟨c0, c1, c2, c3, c, hc, hb, hL, hS, hG, hW⟩ := h3 l r hr
  have few : ∀ (p : List Str → Bool) (ds : List (List Str)), ds.length ≤ 10000000 →
      (ds.filter p).length ≤ 10000000 := fun p ds hd => (List.length_filter_le p ds).trans hd
  have kG : ∀ u (x : Key), ':' ∉ x.name → x.name ∉ genKind.names → get c3 u x = get c2 u x :=
    fun u x hx hn => hG.frame u x hx (not_owns _ u x hn)
  have kS : ∀ u (x : Key), ':' ∉ x.name → x.name ∉ shuntKind.names → get c2 u x = get c1 u x :=
    fun u x hx hn => hS.frame u x hx (not_owns _ u x hn)
  have kL : ∀ u (x : Key), ':' ∉ x.name → x.name ∉ loadKind.names → get c1 u x = get c0 u x :=
    fun u x hx hn => hL.frame u x hx (not_owns _ u x hn)
  refine ⟨c, hc, ?_, ?_, ?_, ?_⟩
  · have hcol : ∀ s ∈ busNames, ':' ∉ s := by decide +kernel
    have hval : ∀ g ∈ busFields f.sbase f.caseId (nm r), get c g.ty ⟨g.name, none⟩ = g.value cv 0 0 r := by
      intro g hg
      have hn : g.name ∈ busNames := by
        rw [← busFields_names f.sbase f.caseId (nm r)]; exact List.mem_map_of_mem hg
      rw [sw_keep hW g.ty ⟨g.name, none⟩ (hcol _ hn) (bus_sw _ hn),
        kG g.ty ⟨g.name, none⟩ (hcol _ hn) (bus_gen _ hn), kS g.ty ⟨g.name, none⟩ (hcol _ hn) (bus_shunt _ hn),
        kL g.ty ⟨g.name, none⟩ (hcol _ hn) (bus_load _ hn),
        addFields_get cv 0 0 r none _ (busFields_ok f.sbase f.caseId (nm r)) empty c0 hb g hg]
      simp [get, mapKey, empty, DataCollection.find]
    refine ⟨?_, ?_, ?_, ?_, ?_⟩
    · intro old
      exact read_plain c .double _ old (some f.sbase)
        (hval ⟨"CASE_SBASE".toList, .double, fun _ _ _ _ => some f.sbase⟩ (by simp [busFields]))
    · intro old
      exact read_plain c .int _ old (some f.caseId)
        (hval ⟨"CASE_ID".toList, .int, fun _ _ _ _ => some f.caseId⟩ (by simp [busFields]))
    · intro old
      exact read_plain c .string _ old (some (nm r))
        (hval ⟨"BUS_NAME".toList, .string, fun _ _ _ _ => some (nm r)⟩ (by simp [busFields]))
    · intro p hp old
      exact read_plain c .int _ old _ (hval (intAt p.1 p.2) (by
        revert p; simp [busInts, busFields]))
    · intro p hp old
      exact read_plain c .double _ old _ (hval (dblAt p.1 p.2) (by
        revert p; simp [busDbls, busFields]))
  · refine tells cv loadKind loadColumns fits_load _ c0 c1 c _ (few _ _ h.few.1) hL ?_
    intro u x hx
    have hcol := colons_names loadKind_ok _ hx
    rw [sw_keep hW u x hcol (fun hs => sw_load _ hs hx), kG u x hcol (fun hs => load_gen _ hs hx),
      kS u x hcol (fun hs => load_shunt _ hs hx)]
  · refine tells cv shuntKind shuntColumns fits_shunt _ c1 c2 c _ (few _ _ h.few.2.1) hS ?_
    intro u x hx
    have hcol := colons_names shuntKind_ok _ hx
    rw [sw_keep hW u x hcol (fun hs => sw_shunt _ hs hx), kG u x hcol (fun hs => shunt_gen _ hs hx)]
  · refine tells cv genKind genColumns fits_gen _ c2 c3 c _ (few _ _ h.few.2.2) hG ?_
    intro u x hx
    have hcol := colons_names genKind_ok _ hx
    rw [sw_keep hW u x hcol (fun hs => sw_gen _ hs hx)]

/-- C177: for every bus of a file a user finds the values of the bus, and exactly the loads, fixed shunts and
generators whose records refer to this bus, in the order of the file, each with its own values; nothing is undefined
on the way. -/
theorem C177_case (cv : Conv) (names : List (Str × Int)) (f : File) (nm : List Str → Str)
    (home : List Str → Int) (h : Good cv names f nm home) :
    ∃ t, getCase cv names f = some t ∧ t.bus.length = f.buses.length ∧
      ∀ (l : ℕ) r, f.buses[l]? = some r → ∃ c, t.bus[l]? = some c ∧
        TellsBus cv f (nm r) c r ∧
        Tells cv loadColumns c (f.loads.filter (fun d => home d = num cv r)) ∧
        Tells cv shuntColumns c (f.shunts.filter (fun d => home d = num cv r)) ∧
        Tells cv genColumns c (f.gens.filter (fun d => home d = num cv r)) := by
  exact case_tells cv names f nm home h.sound

/-! #### An example -/

/-- Decimal numbers. -/
def nat (s : Str) : ℕ := s.foldl (fun n c => 10 * n + (c.toNat - 48)) 0

noncomputable def dec : Conv := ⟨fun s => (nat s : Int), fun s => (nat s : ℝ), fun s => s⟩

/-- Two buses; two loads and a generator at the second, one of them by name. -/
def small : File where
  sbase := 100
  caseId := 0
  buses := [["1".toList, "'BUS A'".toList, "138".toList], ["2".toList, "'BUS B  '".toList, "138".toList]]
  loads := [["2".toList, "A1".toList, "1".toList], ["'BUS B'".toList, "A2".toList, "1".toList],
    ["1".toList, "A3".toList, "1".toList]]
  shunts := []
  gens := [["2".toList, "G1".toList, "50".toList]]
  switched := []

def smallName (r : List Str) : Str := if r.head? = some "1".toList then "BUS A".toList else "BUS B".toList

def smallHome (r : List Str) : Int := if r.head? = some "1".toList then 1 else 2

theorem small_good : Good dec [] small smallName smallHome where
  buses := by
    intro r hr
    simp only [small, List.mem_cons, List.not_mem_nil, or_false] at hr
    rcases hr with rfl | rfl
    · exact ⟨_, _, _, rfl, 0, "BUS A".toList, [], by decide, by decide, by decide, by decide, 0, 0, by decide,
        by decide, by decide⟩
    · exact ⟨_, _, _, rfl, 0, "BUS B  ".toList, [], by decide, by decide, by decide, by decide, 0, 2, by decide,
        by decide, by decide⟩
  distinct := by
    simp only [small, num, dec, List.map_cons, List.map_nil]
    decide
  nonneg := by
    intro r _
    unfold num dec
    cases r <;> simp
  home := by
    intro r hr
    simp only [small, List.append_nil, List.cons_append, List.nil_append, List.mem_cons, List.not_mem_nil,
      or_false] at hr
    rcases hr with rfl | rfl | rfl | rfl
    · exact ⟨_, _, rfl, Refers.number _ (by decide) (by decide) (by decide)⟩
    · refine ⟨_, _, rfl, Refers.name _ "BUS B".toList ⟨0, "BUS B".toList, [], by decide, by decide, by decide,
        by decide, 0, 0, by decide, by decide, by decide⟩ (by decide) [("BUS A".toList, 1)] [] 2 ?_ (by decide)⟩
      rfl
    · exact ⟨_, _, rfl, Refers.number _ (by decide) (by decide) (by decide)⟩
    · exact ⟨_, _, rfl, Refers.number _ (by decide) (by decide) (by decide)⟩
  tags := by decide
  switched := by decide
  few := by decide

example : (small.loads.filter (fun d => smallHome d = 2)).length = 2 := by decide

/-! ### C178 -/

theorem home_of (cv : Conv) (names : List (Str × Int)) (f : File) (nm : List Str → Str)
    (home : List Str → Int) (h : Good cv names f nm home) (d : List Str) (hd : d ∈ f.loads) (s : Str) (ss : List Str)
    (hs : d = s :: ss) (n : Int) (hn : Refers cv (nameTable cv names f nm) s n) : home d = n := by
  obtain ⟨s', ss', h1, h2⟩ := h.home d (by simp [hd])
  rw [hs] at h1
  obtain ⟨rfl, rfl⟩ : s = s' ∧ ss = ss' := by simpa using h1
  have e1 := refers_index h2
  rw [refers_index hn] at e1
  exact (Option.some.inj e1).symm

theorem loads_at (cv : Conv) (names : List (Str × Int)) (f : File) (nm : List Str → Str)
    (home : List Str → Int) (h : Good cv names f nm home) : ∃ t, getCase cv names f = some t ∧
      ∀ (l : ℕ) r, f.buses[l]? = some r → ∃ c devs, t.bus[l]? = some c ∧ Tells cv loadColumns c devs ∧
        ∀ d ∈ f.loads, d ∈ devs ↔ home d = num cv r := by
  obtain ⟨t, h1, _, h2⟩ := C177_case cv names f nm home h
  refine ⟨t, h1, ?_⟩
  intro l r hr
  obtain ⟨c, hc, _, hL, _⟩ := h2 l r hr
  refine ⟨c, _, hc, hL, ?_⟩
  intro d hd
  simp [hd]

/-- C178, the part that holds: when no two names are the same, in this file and those read before, a load whose
record has the quoted name of a bus is stored at this bus (names of one character excluded).  Missing: buses of the
same name told apart by their voltages, names of one character, names used by an earlier file. -/
theorem C178_names_partial (cv : Conv) (names : List (Str × Int)) (f : File) (nm : List Str → Str)
    (home : List Str → Int) (h : Good cv names f nm home)
    (hnodup : ((nameTable cv names f nm).map Prod.fst).Nodup) (l : ℕ) (r : List Str) (hr : f.buses[l]? = some r)
    (d : List Str) (hd : d ∈ f.loads) (s : Str) (ss : List Str) (hs : d = s :: ss) (hq : Quoted s (nm r))
    (ht : (nm r).length ≤ 12 ∨ findTriple (nm r) = none) :
    ∃ t c devs, getCase cv names f = some t ∧ t.bus[l]? = some c ∧ Tells cv loadColumns c devs ∧ d ∈ devs := by
  obtain ⟨t, h1, h2⟩ := loads_at cv names f nm home h
  obtain ⟨c, devs, hc, hL, hm⟩ := h2 l r hr
  refine ⟨t, c, devs, h1, hc, hL, (hm d hd).mpr ?_⟩
  have hmem : r ∈ f.buses := List.mem_of_getElem? hr
  have hin : (nm r, num cv r) ∈ nameTable cv names f nm := by
    have : (nm r, |num cv r|) ∈ nameTable cv names f nm :=
      List.mem_append_right _ (List.mem_map.mpr ⟨r, hmem, rfl⟩)
    rwa [abs_of_nonneg (h.nonneg r hmem)] at this
  obtain ⟨pre, post, he⟩ := List.append_of_mem hin
  refine home_of cv names f nm home h d hd s ss hs _ (Refers.name s (nm r) hq ht pre post _ he ?_)
  intro e hepre hname
  rw [he, List.map_append, List.map_cons, List.nodup_append] at hnodup
  exact hnodup.2.2 e.1 (List.mem_map_of_mem hepre) (nm r) (by simp) hname

example : ((nameTable dec [] small smallName).map Prod.fst).Nodup ∧
    Quoted "'BUS B'".toList (smallName ["2".toList, "'BUS B  '".toList, "138".toList]) :=
  ⟨by decide, 0, "BUS B".toList, [], by decide, by decide, by decide, by decide, 0, 0, by decide, by decide,
    by decide⟩

/-- C178 fails for two buses of the same name: whatever voltage the record of a load gives after the name, the load
is stored at the first of them and not at the second. -/
theorem C178_voltage_violated (cv : Conv) (names : List (Str × Int)) (f : File) (nm : List Str → Str)
    (home : List Str → Int) (h : Good cv names f nm home) (l₁ l₂ : ℕ) (r₁ r₂ : List Str) (hl : l₁ ≠ l₂)
    (hr₁ : f.buses[l₁]? = some r₁) (hr₂ : f.buses[l₂]? = some r₂)
    (hnames : ∀ e ∈ names, e.1 ≠ nm r₁) (hfirst : ∀ (i : ℕ) r, i < l₁ → f.buses[i]? = some r → nm r ≠ nm r₁)
    (d : List Str) (hd : d ∈ f.loads) (s : Str) (ss : List Str) (hs : d = s :: ss)
    (k : ℕ) (c : Char) (volt : Str) (hq : Quoted s (nm r₁ ++ List.replicate (k + 3) ' ' ++ c :: volt))
    (hlen : 12 < (nm r₁ ++ List.replicate (k + 3) ' ' ++ c :: volt).length) (hc : c ≠ ' ')
    (ht : findTriple (nm r₁) = none) (hlast : ∀ d, (nm r₁).getLast? = some d → d ≠ ' ') :
    ∃ t c₁ devs₁ c₂ devs₂, getCase cv names f = some t ∧
      t.bus[l₁]? = some c₁ ∧ Tells cv loadColumns c₁ devs₁ ∧ d ∈ devs₁ ∧
      t.bus[l₂]? = some c₂ ∧ Tells cv loadColumns c₂ devs₂ ∧ d ∉ devs₂ := by
  obtain ⟨t, h1, h2⟩ := loads_at cv names f nm home h
  obtain ⟨c₁, devs₁, hc₁, hL₁, hm₁⟩ := h2 l₁ r₁ hr₁
  obtain ⟨c₂, devs₂, hc₂, hL₂, hm₂⟩ := h2 l₂ r₂ hr₂
  have hmem : r₁ ∈ f.buses := List.mem_of_getElem? hr₁
  have hsplit : f.buses = f.buses.take l₁ ++ r₁ :: f.buses.drop (l₁ + 1) := by
    obtain ⟨hlt, he⟩ := List.getElem?_eq_some_iff.mp hr₁
    rw [← he, List.getElem_cons_drop, List.take_append_drop]
  have hhome : home d = num cv r₁ := by
    refine home_of cv names f nm home h d hd s ss hs _ (Refers.voltage s (nm r₁) k c volt hq hlen hc ht hlast
      (names ++ (f.buses.take l₁).map (fun r => (nm r, |num cv r|)))
      ((f.buses.drop (l₁ + 1)).map (fun r => (nm r, |num cv r|))) _ ?_ ?_)
    · unfold nameTable
      conv_lhs => rw [hsplit]
      rw [List.map_append, List.map_cons, abs_of_nonneg (h.nonneg r₁ hmem), List.append_assoc]
    · intro e he
      rcases List.mem_append.mp he with he | he
      · exact hnames e he
      · obtain ⟨r, hr, rfl⟩ := List.mem_map.mp he
        obtain ⟨i, hi⟩ := List.mem_iff_getElem?.mp hr
        rw [List.getElem?_take] at hi
        split at hi
        · rename_i hlt
          exact hfirst i r hlt hi
        · cases hi
  refine ⟨t, c₁, devs₁, c₂, devs₂, h1, hc₁, hL₁, (hm₁ d hd).mpr hhome, hc₂, hL₂, ?_⟩
  rw [hm₂ d hd, hhome]
  intro he
  apply hl
  have hn := List.nodup_iff_injective_getElem.mp h.distinct
  obtain ⟨hlt₁, he₁⟩ := List.getElem?_eq_some_iff.mp hr₁
  obtain ⟨hlt₂, he₂⟩ := List.getElem?_eq_some_iff.mp hr₂
  have := @hn ⟨l₁, by simpa using hlt₁⟩ ⟨l₂, by simpa using hlt₂⟩ (by simp [he₁, he₂, he])
  simpa using this

/-- C178 fails after another file was read: a name of the earlier file goes to the number it had there, not to the
bus of this name in the file being read. -/
theorem C178_earlier_violated (cv : Conv) (t : Str) (n : Int) (pre post : List (Str × Int)) (f : File)
    (nm : List Str → Str) (home : List Str → Int) (h : Good cv (pre ++ (t, n) :: post) f nm home)
    (hpre : ∀ e ∈ pre, e.1 ≠ t) (l : ℕ) (r : List Str) (hr : f.buses[l]? = some r) (_hname : nm r = t)
    (hn : num cv r ≠ n) (d : List Str) (hd : d ∈ f.loads) (s : Str) (ss : List Str) (hs : d = s :: ss)
    (hq : Quoted s t) (ht : t.length ≤ 12) :
    ∃ tb c devs, getCase cv (pre ++ (t, n) :: post) f = some tb ∧ tb.bus[l]? = some c ∧
      Tells cv loadColumns c devs ∧ d ∉ devs := by
  obtain ⟨tb, h1, h2⟩ := loads_at cv _ f nm home h
  obtain ⟨c, devs, hc, hL, hm⟩ := h2 l r hr
  refine ⟨tb, c, devs, h1, hc, hL, ?_⟩
  rw [hm d hd, home_of cv _ f nm home h d hd s ss hs n (Refers.name s t hq (Or.inl ht) pre
    (post ++ f.buses.map (fun r => (nm r, |num cv r|))) n (by simp [nameTable]) hpre)]
  exact fun he => hn he.symm

/-- C178 fails for names of one character: of two buses `'A'` and `'B'`, a load with the name of the second is stored
at the first. -/
theorem C178_one_character_violated (cv : Conv) (sbase : ℝ) (caseId : Int) (a b : Char) (ha : a ≠ '\'')
    (hb : b ≠ '\'') (s₁ s₂ : Str) (ss₁ ss₂ ss : List Str) (h₁ : 0 ≤ cv.atoi s₁) (h₂ : 0 ≤ cv.atoi s₂)
    (hne : cv.atoi s₁ ≠ cv.atoi s₂) :
    ∃ t c₁ c₂, getCase cv [] ⟨sbase, caseId, [s₁ :: ['\'', a, '\''] :: ss₁, s₂ :: ['\'', b, '\''] :: ss₂],
        [['\'', b, '\''] :: ss], [], [], []⟩ = some t ∧
      t.bus[0]? = some c₁ ∧ Tells cv loadColumns c₁ [['\'', b, '\''] :: ss] ∧
      t.bus[1]? = some c₂ ∧ Tells cv loadColumns c₂ [] := by
  have hcs : ∀ c : Char, c ≠ '\'' → checkString ['\'', c, '\''] = .ok (true, []) := by
    intro c hc
    exact C30_one_character_violated 0 c [] hc
  obtain ⟨t, h1, _, h2⟩ := case_tells cv [] ⟨sbase, caseId, [s₁ :: ['\'', a, '\''] :: ss₁,
    s₂ :: ['\'', b, '\''] :: ss₂], [['\'', b, '\''] :: ss], [], [], []⟩ (fun _ => []) (fun _ => cv.atoi s₁) {
      buses := by
        intro r hr
        simp only [List.mem_cons, List.not_mem_nil, or_false] at hr
        rcases hr with rfl | rfl
        · exact ⟨_, _, _, true, rfl, hcs a ha⟩
        · exact ⟨_, _, _, true, rfl, hcs b hb⟩
      distinct := by simpa [num] using hne
      nonneg := by
        intro r hr
        simp only [List.mem_cons, List.not_mem_nil, or_false] at hr
        rcases hr with rfl | rfl
        · exact h₁
        · exact h₂
      home := by
        intro r hr
        simp only [List.append_nil, List.mem_cons, List.not_mem_nil, or_false] at hr
        subst hr
        refine ⟨_, _, rfl, ?_⟩
        simp only [getBusIndex, hcs b hb, nameTable, num]
        simp [lookup, parseBusName, abs_of_nonneg h₁]
      tags := by simp
      switched := by simp
      few := by simp }
  obtain ⟨c₁, hc₁, _, hL₁, _⟩ := h2 0 _ rfl
  obtain ⟨c₂, hc₂, _, hL₂, _⟩ := h2 1 _ rfl
  refine ⟨t, c₁, c₂, h1, hc₁, ?_, hc₂, ?_⟩
  · simpa [num] using hL₁
  · simpa [num, hne] using hL₂

example : dec.atoi "1".toList ≠ dec.atoi "2".toList := by decide

/-- Two buses of the same name; a load at the one with 69 kV. -/
def twins : File where
  sbase := 100
  caseId := 0
  buses := [["1".toList, "'SAME'".toList, "138".toList], ["2".toList, "'SAME'".toList, "69".toList]]
  loads := [["'SAME          69.0'".toList, "A1".toList, "1".toList]]
  shunts := []
  gens := []
  switched := []

theorem twins_good (names : List (Str × Int)) (hn : ∀ e ∈ names, e.1 ≠ "SAME".toList) :
    Good dec names twins (fun _ => "SAME".toList) (fun _ => 1) where
  buses := by
    intro r hr
    simp only [twins, List.mem_cons, List.not_mem_nil, or_false] at hr
    rcases hr with rfl | rfl
    · exact ⟨_, _, _, rfl, 0, "SAME".toList, [], by decide, by decide, by decide, by decide, 0, 0, by decide,
        by decide, by decide⟩
    · exact ⟨_, _, _, rfl, 0, "SAME".toList, [], by decide, by decide, by decide, by decide, 0, 0, by decide,
        by decide, by decide⟩
  distinct := by
    simp only [twins, num, dec, List.map_cons, List.map_nil]
    decide
  nonneg := by
    intro r _
    unfold num dec
    cases r <;> simp
  home := by
    intro r hr
    simp only [twins, List.append_nil, List.mem_cons, List.not_mem_nil, or_false] at hr
    subst hr
    exact ⟨_, _, rfl, Refers.voltage _ "SAME".toList 7 '6' "9.0".toList ⟨0, "SAME          69.0".toList, [],
      by decide, by decide, by decide, by decide, 0, 0, by decide, by decide, by decide⟩ (by decide) (by decide)
      (by decide) (by decide) names [("SAME".toList, 2)] 1 rfl hn⟩
  tags := by decide
  switched := by decide
  few := by decide

/-! ### C179 -/

/-- Sum of a column over the records whose status column is not 0. -/
noncomputable def inService (cv : Conv) (status col : ℕ) (devs : List (List Str)) : ℝ :=
  (devs.map (fun r => if cv.atoi (r.getD status []) = 0 then 0 else cv.atof (r.getD col []))).sum

/-- The shunt admittance of a bus: all its fixed shunts (`GL`, `BL`) and switched shunts (`BINIT`) in service, in
units of the base power of the case. -/
noncomputable def shuntOf (cv : Conv) (sbase : ℝ) (fixed switched : List (List Str)) : ℝ × ℝ :=
  (inService cv 2 3 fixed / sbase, (inService cv 2 4 fixed + inService cv 3 9 switched) / sbase)

/-- What the matrix gets for a bus. -/
theorem loadShunt_eq (cv : Conv) (names : List (Str × Int)) (f : File) (nm : List Str → Str)
    (home : List Str → Int) (h : Good cv names f nm home) (hlong : ∀ r ∈ f.shunts, 5 ≤ r.length) (l : ℕ)
    (r : List Str) (hr : f.buses[l]? = some r) :
    ∃ t c, getCase cv names f = some t ∧ t.bus[l]? = some c ∧
      loadShunt c =
        (!(f.shunts.filter (fun d => home d = num cv r)).isEmpty ||
            !(f.switched.filter (fun d => num cv d = num cv r)).isEmpty,
          (match f.shunts.filter (fun d => home d = num cv r) with
            | [] => 0
            | d :: _ => cv.atof (d.getD 3 [])) / f.sbase,
          (match f.switched.filter (fun d => num cv d = num cv r),
              f.shunts.filter (fun d => home d = num cv r) with
            | s :: _, _ => cv.atof (s.getD 9 [])
            | [], d :: _ => cv.atof (d.getD 4 [])
            | [], [] => 0) / f.sbase) := by
  obtain ⟨t, h1, _, h3⟩ := getCase_spec cv names f nm home h.sound
  obtain ⟨t', h1', _, h3'⟩ := C177_case cv names f nm home h
  obtain rfl : t = t' := by rw [h1] at h1'; simpa using h1'
  obtain ⟨c0, c1, c2, c3, c, hc, hb, hL, hS, hG, hW⟩ := h3 l r hr
  obtain ⟨c', hc', hB, _, hS', _⟩ := h3' l r hr
  obtain rfl : c = c' := by rw [hc] at hc'; simpa using hc'
  refine ⟨t, c, h1, hc, ?_⟩
  have hsb : (dblVal c ⟨"CASE_SBASE".toList, none⟩ 0).2 = f.sbase := by
    unfold dblVal; rw [hB.sbase 0]
  -- switched shunts
  have hbin : dblVal c ⟨"SHUNT_BINIT".toList, none⟩ 0 =
      (match f.switched.filter (fun d => num cv d = num cv r) with
        | [] => (false, 0)
        | s :: _ => (true, cv.atof (s.getD 9 []))) := by
    have hn : "SHUNT_BINIT".toList ∈ swNames := by decide +kernel
    have hcol : ':' ∉ "SHUNT_BINIT".toList := by decide
    have h3 : get c3 .double ⟨"SHUNT_BINIT".toList, none⟩ = none := by
      rw [hG.frame .double ⟨"SHUNT_BINIT".toList, none⟩ hcol (not_owns _ _ _ (sw_gen _ hn)),
        hS.frame .double ⟨"SHUNT_BINIT".toList, none⟩ hcol (not_owns _ _ _ (sw_shunt _ hn)),
        hL.frame .double ⟨"SHUNT_BINIT".toList, none⟩ hcol (not_owns _ _ _ (sw_load _ hn)),
        addFields_get_other cv 0 0 r none _ (busFields_ok _ _ _).1 .double ⟨"SHUNT_BINIT".toList, none⟩ hcol empty c0 hb
          (by
            intro g hg he
            simp only [Prod.mk.injEq, Key.mk.injEq] at he
            refine bus_sw g.name ?_ (by rw [← he.2.1]; exact hn)
            rw [← busFields_names f.sbase f.caseId (nm r)]
            exact List.mem_map_of_mem hg)]
      simp [get, mapKey, empty, DataCollection.find]
    have hg := hW.fields (dblAt "SHUNT_BINIT" 9) (by unfold swFields; member)
    have hg' : get c .double ⟨"SHUNT_BINIT".toList, none⟩ =
        (f.switched.filter (fun d => num cv d = num cv r)).findSome? (fun s => s[9]?.map cv.atof) := by
      refine hg.trans ?_
      refine (congrArg (fun o : Option ℝ => o.or _) h3).trans ?_
      rfl
    unfold dblVal
    rw [read_plain c .double _ (0 : ℝ) _ hg']
    cases hsw : f.switched.filter (fun d => num cv d = num cv r) with
    | nil => rfl
    | cons s ss =>
      have hlen : 10 ≤ s.length := h.switched s (List.mem_of_mem_filter (by rw [hsw]; simp))
      have h9 : s[9]? = some (s.getD 9 []) := by
        simp [List.getD, List.getElem?_eq_getElem (show 9 < s.length by omega)]
      simp only [List.findSome?_cons, h9, Option.map_some, answer]
      rfl
  have hfix : ∀ (name : String) (n : ℕ), dblAt name n ∈ shuntKind.fields → n < 5 →
      dblVal c ⟨name.toList, some 0⟩ 0 =
        (match f.shunts.filter (fun d => home d = num cv r) with
          | [] => (false, 0)
          | d :: _ => (true, cv.atof (d.getD n []))) := by
    intro name n hmem hn
    have hx : name.toList ∈ shuntKind.names := by
      simp only [Kind.names, List.mem_cons, List.mem_map, List.mem_append]
      exact Or.inr ⟨_, Or.inl hmem, rfl⟩
    have hcol := colons_names shuntKind_ok _ hx
    have hg : get c .double ⟨name.toList, some ((0 : ℕ) : Int)⟩ =
        (f.shunts.filter (fun d => home d = num cv r))[0]?.bind (fun d => d[n]?.map cv.atof) := by
      refine (sw_keep hW .double ⟨name.toList, some ((0 : ℕ) : Int)⟩ hcol (fun hs => sw_shunt _ hs hx)).trans ?_
      refine (hG.frame .double ⟨name.toList, some ((0 : ℕ) : Int)⟩ hcol
        (not_owns _ _ _ (fun hs => shunt_gen _ hs hx))).trans ?_
      exact hS.fields _ hmem 0 (Nat.zero_le _)
    unfold dblVal
    have hrd := read_indexed c .double name.toList 0 (Nat.zero_le _) (0 : ℝ) _ hg
    rw [show (0 : Int) = ((0 : ℕ) : Int) from rfl, hrd]
    cases hsh : f.shunts.filter (fun d => home d = num cv r) with
    | nil => rfl
    | cons d ds =>
      have hlen : 5 ≤ d.length := hlong d (List.mem_of_mem_filter (by rw [hsh]; simp))
      have h9 : d[n]? = some (d.getD n []) := by
        simp [List.getD, List.getElem?_eq_getElem (show n < d.length by omega)]
      simp only [List.getElem?_cons_zero, Option.bind_some, h9, Option.map_some, answer]
      rfl
  have hG3 := hfix "BUS_SHUNT_GL" 3 (by unfold shuntKind; member) (by omega)
  have hB4 := hfix "BUS_SHUNT_BL" 4 (by unfold shuntKind; member) (by omega)
  unfold loadShunt
  rw [hsb, hbin, hG3, hB4]
  cases f.shunts.filter (fun d => home d = num cv r) <;>
    cases f.switched.filter (fun d => num cv d = num cv r) <;> simp

/-- C179, the part that holds: a bus with one fixed shunt in service and no switched shunt, or with one switched
shunt in service and no fixed shunt, or with none, gets its shunt admittance.  Missing: more shunts at a bus, and
shunts out of service. -/
theorem C179_shunt_partial (cv : Conv) (names : List (Str × Int)) (f : File) (nm : List Str → Str)
    (home : List Str → Int) (h : Good cv names f nm home) (hlong : ∀ r ∈ f.shunts, 5 ≤ r.length) (l : ℕ)
    (r : List Str) (hr : f.buses[l]? = some r) (fixed switched : List (List Str))
    (hfixed : fixed = f.shunts.filter (fun d => home d = num cv r))
    (hswitched : switched = f.switched.filter (fun d => num cv d = num cv r))
    (hfew : fixed.length + switched.length ≤ 1) (hf : ∀ d ∈ fixed, cv.atoi (d.getD 2 []) ≠ 0)
    (hs : ∀ d ∈ switched, cv.atoi (d.getD 3 []) ≠ 0) :
    ∃ t c, getCase cv names f = some t ∧ t.bus[l]? = some c ∧
      loadShunt c = (decide (0 < fixed.length + switched.length), shuntOf cv f.sbase fixed switched) := by
  obtain ⟨t, c, h1, h2, h3⟩ := loadShunt_eq cv names f nm home h hlong l r hr
  refine ⟨t, c, h1, h2, ?_⟩
  rw [h3, ← hfixed, ← hswitched]
  match fixed, switched, hfew, hf, hs with
  | [], [], _, _, _ => simp [shuntOf, inService]
  | [d], [], _, hf, _ => simp [shuntOf, inService, -List.getD_eq_getElem?_getD, hf d (by simp)]
  | [], [s], _, _, hs => simp [shuntOf, inService, -List.getD_eq_getElem?_getD, hs s (by simp)]
  | _ :: _, _ :: _, hfew, _, _ => simp at hfew; omega
  | _ :: _ :: _, [], hfew, _, _ => simp at hfew
  | [], _ :: _ :: _, hfew, _, _ => simp at hfew

/-- C179 fails for a bus with several fixed shunts, whenever the others in service add up to something. -/
theorem C179_second_fixed_violated (cv : Conv) (names : List (Str × Int)) (f : File) (nm : List Str → Str)
    (home : List Str → Int) (h : Good cv names f nm home) (hlong : ∀ r ∈ f.shunts, 5 ≤ r.length) (l : ℕ)
    (r : List Str) (hr : f.buses[l]? = some r) (d : List Str) (ds switched : List (List Str))
    (hfixed : d :: ds = f.shunts.filter (fun d => home d = num cv r)) (hsbase : f.sbase ≠ 0)
    (hd : cv.atoi (d.getD 2 []) ≠ 0) (hds : inService cv 2 3 ds ≠ 0) :
    ∃ t c, getCase cv names f = some t ∧ t.bus[l]? = some c ∧
      (loadShunt c).2.1 ≠ (shuntOf cv f.sbase (d :: ds) switched).1 := by
  obtain ⟨t, c, h1, h2, h3⟩ := loadShunt_eq cv names f nm home h hlong l r hr
  refine ⟨t, c, h1, h2, ?_⟩
  rw [h3, ← hfixed]
  simp only [shuntOf, ne_eq, div_left_inj' hsbase]
  have : inService cv 2 3 (d :: ds) = cv.atof (d.getD 3 []) + inService cv 2 3 ds := by
    simp [inService, -List.getD_eq_getElem?_getD, hd]
  rw [this]
  intro he
  exact hds (by linarith)

/-- C179 fails for a fixed shunt out of service: it is counted. -/
theorem C179_out_of_service_violated (cv : Conv) (names : List (Str × Int)) (f : File) (nm : List Str → Str)
    (home : List Str → Int) (h : Good cv names f nm home) (hlong : ∀ r ∈ f.shunts, 5 ≤ r.length) (l : ℕ)
    (r : List Str) (hr : f.buses[l]? = some r) (d : List Str) (switched : List (List Str))
    (hfixed : [d] = f.shunts.filter (fun d => home d = num cv r)) (hsbase : f.sbase ≠ 0)
    (hd : cv.atoi (d.getD 2 []) = 0) (hg : cv.atof (d.getD 3 []) ≠ 0) :
    ∃ t c, getCase cv names f = some t ∧ t.bus[l]? = some c ∧
      (loadShunt c).2.1 ≠ (shuntOf cv f.sbase [d] switched).1 := by
  obtain ⟨t, c, h1, h2, h3⟩ := loadShunt_eq cv names f nm home h hlong l r hr
  refine ⟨t, c, h1, h2, ?_⟩
  rw [h3, ← hfixed]
  simp only [shuntOf, ne_eq, div_left_inj' hsbase]
  simp only [inService, List.map_cons, List.map_nil, List.sum_cons, List.sum_nil, hd, if_true]
  simpa using hg

/-- C179 fails for a bus with a fixed and a switched shunt: the susceptance of the fixed one is forgotten. -/
theorem C179_switched_replaces_violated (cv : Conv) (names : List (Str × Int)) (f : File) (nm : List Str → Str)
    (home : List Str → Int) (h : Good cv names f nm home) (hlong : ∀ r ∈ f.shunts, 5 ≤ r.length) (l : ℕ)
    (r : List Str) (hr : f.buses[l]? = some r) (fixed : List (List Str)) (s : List Str)
    (hfixed : fixed = f.shunts.filter (fun d => home d = num cv r))
    (hswitched : [s] = f.switched.filter (fun d => num cv d = num cv r)) (hsbase : f.sbase ≠ 0)
    (hs : cv.atoi (s.getD 3 []) ≠ 0) (hb : inService cv 2 4 fixed ≠ 0) :
    ∃ t c, getCase cv names f = some t ∧ t.bus[l]? = some c ∧
      (loadShunt c).2.2 ≠ (shuntOf cv f.sbase fixed [s]).2 := by
  obtain ⟨t, c, h1, h2, h3⟩ := loadShunt_eq cv names f nm home h hlong l r hr
  refine ⟨t, c, h1, h2, ?_⟩
  rw [h3, ← hfixed, ← hswitched]
  simp only [shuntOf, ne_eq, div_left_inj' hsbase]
  have : inService cv 3 9 [s] = cv.atof (s.getD 9 []) := by
    simp [inService, -List.getD_eq_getElem?_getD, hs]
  rw [this]
  intro he
  exact hb (by linarith)

/-- C179 fails for a bus with several switched shunts: only the first counts. -/
theorem C179_second_switched_violated (cv : Conv) (names : List (Str × Int)) (f : File) (nm : List Str → Str)
    (home : List Str → Int) (h : Good cv names f nm home) (hlong : ∀ r ∈ f.shunts, 5 ≤ r.length) (l : ℕ)
    (r : List Str) (hr : f.buses[l]? = some r) (s : List Str) (ss : List (List Str))
    (hfixed : [] = f.shunts.filter (fun d => home d = num cv r))
    (hswitched : s :: ss = f.switched.filter (fun d => num cv d = num cv r)) (hsbase : f.sbase ≠ 0)
    (hs : cv.atoi (s.getD 3 []) ≠ 0) (hb : inService cv 3 9 ss ≠ 0) :
    ∃ t c, getCase cv names f = some t ∧ t.bus[l]? = some c ∧
      (loadShunt c).2.2 ≠ (shuntOf cv f.sbase [] (s :: ss)).2 := by
  obtain ⟨t, c, h1, h2, h3⟩ := loadShunt_eq cv names f nm home h hlong l r hr
  refine ⟨t, c, h1, h2, ?_⟩
  rw [h3, ← hfixed, ← hswitched]
  simp only [shuntOf, ne_eq, div_left_inj' hsbase]
  have : inService cv 3 9 (s :: ss) = cv.atof (s.getD 9 []) + inService cv 3 9 ss := by
    simp [inService, -List.getD_eq_getElem?_getD, hs]
  have h0 : inService cv 2 4 [] = 0 := by simp [inService]
  rw [this, h0]
  intro he
  exact hb (by linarith)

/-- Files with shunts at one bus. -/
def oneBus (shunts switched : List (List Str)) : File where
  sbase := 100
  caseId := 0
  buses := [["1".toList, "'BUS A'".toList, "138".toList]]
  loads := []
  shunts := shunts
  gens := []
  switched := switched

theorem oneBus_good (shunts switched : List (List Str)) (h : ∀ r ∈ shunts, ∃ ss, r = "1".toList :: ss)
    (hsw : ∀ r ∈ switched, 10 ≤ r.length) (hlen : shunts.length ≤ 10000000) :
    Good dec [] (oneBus shunts switched) (fun _ => "BUS A".toList) (fun _ => 1) where
  buses := by
    intro r hr
    simp only [oneBus, List.mem_cons, List.not_mem_nil, or_false] at hr
    subst hr
    exact ⟨_, _, _, rfl, 0, "BUS A".toList, [], by decide, by decide, by decide, by decide, 0, 0, by decide,
        by decide, by decide⟩
  distinct := by simp [oneBus]
  nonneg := by
    intro r _
    unfold num dec
    cases r <;> simp
  home := by
    intro r hr
    simp only [oneBus, List.append_nil, List.nil_append] at hr
    obtain ⟨ss, rfl⟩ := h r hr
    exact ⟨_, _, rfl, Refers.number _ (by decide) (by decide) (by decide)⟩
  tags := by simp [oneBus]
  switched := hsw
  few := by simpa [oneBus] using hlen

/-- A fixed shunt with conductance 5 and susceptance 7. -/
def fixedShunt : List Str := ["1".toList, "1".toList, "1".toList, "5".toList, "7".toList]

/-- A switched shunt with susceptance 3. -/
def switchedShunt : List Str :=
  ["1".toList, "1".toList, "0".toList, "1".toList, "1".toList, "1".toList, "0".toList, "100".toList, "X".toList,
    "3".toList]

example : Good dec [] (oneBus [fixedShunt, fixedShunt] []) (fun _ => "BUS A".toList) (fun _ => 1) ∧
    dec.atoi (fixedShunt.getD 2 []) ≠ 0 ∧ inService dec 2 3 [fixedShunt] ≠ 0 := by
  refine ⟨oneBus_good _ _ ?_ (by simp) (by simp), by decide, ?_⟩
  · intro r hr
    simp only [List.mem_cons, List.not_mem_nil, or_false, or_self] at hr
    exact ⟨_, hr⟩
  · simp [inService, fixedShunt, dec, nat]

example : Good dec [] (oneBus [fixedShunt] [switchedShunt]) (fun _ => "BUS A".toList) (fun _ => 1) ∧
    inService dec 2 4 [fixedShunt] ≠ 0 := by
  refine ⟨oneBus_good _ _ ?_ (by decide) (by simp), ?_⟩
  · intro r hr
    simp only [List.mem_cons, List.not_mem_nil, or_false] at hr
    exact ⟨_, hr⟩
  · simp [inService, fixedShunt, dec, nat]

/-! ### C180 -/

theorem single (fs : List (Str × Str)) : (fs.map (fun x => (x.1, [x.2]))).flatMap (·.2) = fs.map (·.2) := by
  induction fs with
  | nil => rfl
  | cons x fs ih => simp [ih]

/-- C180 fails for the owner: a generator line whose owner (field 19) is empty, all other fields being single
tokens, gives the owner `atoi("0")`, whatever the owner of its bus is. -/
theorem C180_owner_violated (cv : Conv) (names : List (Str × Int)) (f : File) (nm : List Str → Str)
    (home : List Str → Int) (h : Good cv names f nm home) (fs : List (Str × Str)) (k : ℕ)
    (hfs : ∀ x ∈ fs, ',' ∉ x.1 ∧ BlockParser.Field x.1 [x.2])
    (hblank : fs[18]? = some (List.replicate k ' ', "0".toList)) :
    splitPSSELine (joinComma (fs.map (·.1))) = .ok (fs.map (·.2)) ∧
    ∃ t, getCase cv names f = some t ∧
      ∀ (l : ℕ) r, f.buses[l]? = some r → ∃ c, t.bus[l]? = some c ∧
        ∀ j : ℕ, (f.gens.filter (fun d => home d = num cv r))[j]? = some (fs.map (·.2)) →
          ∀ old : Int, getValue c .int ⟨"GENERATOR_OWNER1".toList, some (j : Int)⟩ old =
            some (true, cv.atoi "0".toList) := by
  constructor
  · have hne : fs ≠ [] := by rintro rfl; simp at hblank
    have := C63_splitPSSELine_partial (fs.map (fun x => (x.1, [x.2]))) (by simpa using hne) (by
      intro x hx
      obtain ⟨y, hy, rfl⟩ := List.mem_map.mp hx
      exact hfs y hy)
    rw [single] at this
    simpa [Function.comp_def] using this
  · obtain ⟨t, h1, _, h3⟩ := getCase_spec cv names f nm home h.sound
    refine ⟨t, h1, ?_⟩
    intro l r hr
    obtain ⟨c0, c1, c2, c3, c, hc, hb, hL, hS, hG, hW⟩ := h3 l r hr
    refine ⟨c, hc, ?_⟩
    intro j hj old
    have hmem : ownerAt "GENERATOR_OWNER1" 18 true ∈ genKind.fields := by unfold genKind; member
    have hx : "GENERATOR_OWNER1".toList ∈ genKind.names := by
      simp only [Kind.names, List.mem_cons, List.mem_map, List.mem_append]
      exact Or.inr ⟨_, Or.inl hmem, rfl⟩
    have hjt : j ≤ top := by
      have h1 := (List.getElem?_eq_some_iff.mp hj).1
      have h2 := List.length_filter_le (fun d => decide (home d = num cv r)) f.gens
      have h3 := h.few.2.2
      rw [top_eq]; omega
    have hcol := colons_names genKind_ok _ hx
    have hg : get c .int ⟨"GENERATOR_OWNER1".toList, some (j : Int)⟩ = some (cv.atoi "0".toList) := by
      refine (sw_keep hW .int ⟨"GENERATOR_OWNER1".toList, some (j : Int)⟩ hcol
        (fun hs => sw_gen _ hs hx)).trans ?_
      refine (hG.fields _ hmem j hjt).trans ?_
      rw [hj]
      have h18 : (fs.map (·.2))[18]? = some "0".toList := by simp [hblank]
      simp only [Option.bind_some, ownerAt, h18, Option.map_some]
      rfl
    exact read_indexed c .int _ j hjt old _ hg

/-- C180 fails for the status: an empty status (field 15 of a generator) is read as `atoi("0")`, out of service; the
format has 1 as the default. -/
theorem C180_status_violated (cv : Conv) (names : List (Str × Int)) (f : File) (nm : List Str → Str)
    (home : List Str → Int) (h : Good cv names f nm home) (fs : List (Str × Str)) (k : ℕ)
    (hfs : ∀ x ∈ fs, ',' ∉ x.1 ∧ BlockParser.Field x.1 [x.2])
    (hblank : fs[14]? = some (List.replicate k ' ', "0".toList)) :
    splitPSSELine (joinComma (fs.map (·.1))) = .ok (fs.map (·.2)) ∧
    ∃ t, getCase cv names f = some t ∧
      ∀ (l : ℕ) r, f.buses[l]? = some r → ∃ c, t.bus[l]? = some c ∧
        ∀ j : ℕ, (f.gens.filter (fun d => home d = num cv r))[j]? = some (fs.map (·.2)) →
          ∀ old : Int, getValue c .int ⟨"GENERATOR_STAT".toList, some (j : Int)⟩ old =
            some (true, cv.atoi "0".toList) := by
  constructor
  · have hne : fs ≠ [] := by rintro rfl; simp at hblank
    have := C63_splitPSSELine_partial (fs.map (fun x => (x.1, [x.2]))) (by simpa using hne) (by
      intro x hx
      obtain ⟨y, hy, rfl⟩ := List.mem_map.mp hx
      exact hfs y hy)
    rw [single] at this
    simpa [Function.comp_def] using this
  · obtain ⟨t, h1, _, h3⟩ := C177_case cv names f nm home h
    refine ⟨t, h1, ?_⟩
    intro l r hr
    obtain ⟨c, hc, _, _, _, hG⟩ := h3 l r hr
    refine ⟨c, hc, ?_⟩
    intro j hj old
    have := hG.ints j _ hj ("GENERATOR_STAT", 14) (by simp [genColumns]) old
    rw [this]
    simp [hblank, answer]
    rfl

/-- A generator line with empty owner: its tokens, as `splitPSSELine` gives them. -/
example : splitPSSELine "1,G1,2,3,4,5,6,7,8,9,10,11,12,13,1,15,16,17, ,1".toList =
    .ok (["1", "G1", "2", "3", "4", "5", "6", "7", "8", "9", "10", "11", "12", "13", "1", "15", "16", "17", "0",
      "1"].map String.toList) := by decide

end GridPACK.RawBus
