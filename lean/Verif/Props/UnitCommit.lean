import Verif.Lemmas.UnitCommit
import Verif.Props.DyrRecords
import Verif.Props.DyrShared

/-! C202: files with the parameters of a unit commitment. -/
namespace GridPACK.UnitCommit
open StringUtils DataCollection Dyr
open RawBus (Val Data get idxOk)
open DyrSpec (Par Complete Rest IsDevice deviceName)
open DyrRecords (tokens TokenOk)
open HashDistr (exactBound exactBound_ok)

/-- C202, the part that holds: whatever the number of processes and the division of the lines among them, after
reading a file of complete lines each parameter of a line for a generator of a bus held by this process can be read
from the data of that bus, at the index of the generator and with the value in the file, unless another line is for
the same generator.  Missing: the maximum operating generation, blank and short lines. -/
theorem C202_parameters_partial {cv : Conv} {n : Nat} {bound : Nat → Nat → Nat} {puts : List Nat}
    {head : Struct × Str} {recs : List (Struct × Str)} {busNo : List Int} {bus : List Data}
    (h : Setting n bound puts recs busNo bus) (me : Nat) :
    ∃ bus', getUC cv n bound puts me (head :: recs) busNo bus = some bus' ∧ bus'.length = bus.length ∧
      ∀ pre line post, recs.map (·.2) = pre ++ line :: post →
      ∀ (i g : Nat) b tag c, IsFor cv line b tag → busNo[i]? = some b → bus[i]? = some c →
        IsDevice c "GENERATOR_NUMBER" "GENERATOR_ID" g tag → (∀ l ∈ pre ++ post, ¬ IsFor cv l b tag) →
        ∃ c', bus'[i]? = some c' ∧ ∀ p ∈ format, p.key ≠ "GENERATOR_MAX_OP_GEN" →
          p.Stored cv (tokens line) c' (some (g : Int)) := by
  obtain ⟨bus', h1, h2, h3⟩ := getUC_ok (cv := cv) (head := head) h me
  refine ⟨bus', h1, h2, ?_⟩
  intro pre line post hl i g b tag c hf hi hc hd ho
  obtain ⟨c', h4, h5⟩ := h3 i b c hi hc
  exact ⟨c', h4, (h5.gens pre line post hl tag g hf hd ho).1⟩

/-- C202 (nothing else changes): of the data of a bus only the parameters of the format, at the generators that have a
line, are changed. -/
theorem C202_others {cv : Conv} {n : Nat} {bound : Nat → Nat → Nat} {puts : List Nat}
    {head : Struct × Str} {recs : List (Struct × Str)} {busNo : List Int} {bus : List Data}
    (h : Setting n bound puts recs busNo bus) (me : Nat) :
    ∃ bus', getUC cv n bound puts me (head :: recs) busNo bus = some bus' ∧
      ∀ (i : Nat) b c, busNo[i]? = some b → bus[i]? = some c → ∃ c', bus'[i]? = some c' ∧
        ∀ t (k : Key), ':' ∉ k.name →
          (∀ g : Nat, k.idx = some (g : Int) → (∃ p ∈ format, k.name = p.key.toList) →
            ∀ r ∈ recs, ¬ IsFor cv r.2 b (deviceName c "GENERATOR_ID" g)) → get c' t k = get c t k := by
  obtain ⟨bus', h1, h2, h3⟩ := getUC_ok (cv := cv) (head := head) h me
  refine ⟨bus', h1, ?_⟩
  intro i b c hi hc
  obtain ⟨c', h4, h5⟩ := h3 i b c hi hc
  refine ⟨c', h4, fun t k hk hno => h5.rest t k hk ?_⟩
  intro g hg hp line hl
  obtain ⟨r, hr, rfl⟩ := List.mem_map.mp hl
  exact hno g hg hp r hr

/-- C202 is violated for the maximum operating generation: for every such file and generator the value stored under
its name is the maximum generation of the line, so it is wrong whenever the two columns differ. -/
theorem C202_max_operating_violated {cv : Conv} {n : Nat} {bound : Nat → Nat → Nat} {puts : List Nat}
    {head : Struct × Str} {recs : List (Struct × Str)} {busNo : List Int} {bus : List Data}
    (h : Setting n bound puts recs busNo bus) (me : Nat) {pre post : List Str} {line : Str}
    (hl : recs.map (·.2) = pre ++ line :: post) {i g : Nat} {b : Int} {tag : Str} {c : Data}
    (hf : IsFor cv line b tag) (hi : busNo[i]? = some b) (hc : bus[i]? = some c)
    (hd : IsDevice c "GENERATOR_NUMBER" "GENERATOR_ID" g tag) (ho : ∀ l ∈ pre ++ post, ¬ IsFor cv l b tag)
    {t4 t5 : Str} (h4 : (tokens line)[4]? = some t4) (h5 : (tokens line)[5]? = some t5)
    (hne : cv.atof t4 ≠ cv.atof t5) :
    ∃ bus' c', getUC cv n bound puts me (head :: recs) busNo bus = some bus' ∧ bus'[i]? = some c' ∧
      ¬ (Par.num "GENERATOR_MAX_OP_GEN" 5).Stored cv (tokens line) c' (some (g : Int)) := by
  obtain ⟨bus', h1, h2, h3⟩ := getUC_ok (cv := cv) (head := head) h me
  obtain ⟨c', e4, e5⟩ := h3 i b c hi hc
  refine ⟨bus', c', h1, e4, ?_⟩
  have hst := (e5.gens pre line post hl tag g hf hd ho).2 (.num "GENERATOR_MAX_OP_GEN" 4)
    (mem_replaced (by decide +kernel))
  rintro ⟨t, ht, hg⟩
  obtain ⟨t', ht', hg'⟩ := hst
  rw [h5] at ht
  rw [h4] at ht'
  obtain rfl := Option.some.inj ht
  obtain rfl := Option.some.inj ht'
  rw [hg] at hg'
  exact hne (Option.some.inj hg').symm

theorem runStore_skip {cv : Conv} {ts : List Str} : ∀ {es : List SEntry} (s : Struct),
    (∀ e ∈ es, passes ts.length e.guard = false) → runStore cv ts es s = some s := by
  intro es
  induction es with
  | nil => intro s _; rfl
  | cons e es ih =>
    intro s h
    rw [runStore]
    simp only [h e (by simp), Bool.false_eq_true, if_false]
    exact ih s (fun x hx => h x (by simp [hx]))

/-- A blank line leaves the struct as the memory was. -/
theorem ucVector_blank (cv : Conv) (junk : Struct) (k : Nat) :
    ucVector cv [(junk, List.replicate k ' ')] = some [(junk .int "bus_id", junk)] := by
  have hs : ucStruct cv junk [['0']] = some junk := by
    have h : ∀ es ∈ [ucWhere, uc.store], ∀ e ∈ es, passes (List.length [['0']]) e.guard = false := by decide +kernel
    rw [ucStruct, runStore_skip junk (h ucWhere (by simp))]
    exact runStore_skip junk (h uc.store (by simp))
  rw [ucVector, DyrRecords.split_blanks]
  simp only [hs, ucVector, Option.bind_some, Option.map_some]
  rfl

/-- A line of zeros. -/
def zeros : Str := "0 0 0 0 0 0 0 0 0 0 0 0 0 0 0 0 0 0 0".toList

theorem zeros_ok : LineOk zeros where
  noTab := by decide +kernel
  noReturn := by decide +kernel
  words := by
    have h : tokens zeros = List.replicate 19 ['0'] := by decide +kernel
    rw [h]
    intro w hw
    obtain rfl := List.eq_of_mem_replicate hw
    exact DyrRecords.tokenOk_word '0' [] (by decide) (by decide)
  full := by decide +kernel

/-- A struct of zeros. -/
noncomputable def noStruct : Struct := fun t _ => match t with
  | .int => (0 : Int) | .long => (0 : Int) | .bool => false | .string => ([] : Str) | .float => (0 : ℝ)
  | .double => (0 : ℝ) | .complex => ((0, 0) : ℝ × ℝ)

/-- C202 is violated by a blank line, also one at the end of the file: it counts as a line for the bus and generator
that happen to be in memory.  For every bus of every process, every generator there and every number the memory can be
such that reading a file of a header and a blank line makes this number the cost of this generator. -/
theorem C202_blank_line_violated (cv : Conv) {n : Nat} (hn : 0 < n) {bound : Nat → Nat → Nat}
    (hb : ∀ total, HashDistr.BoundOk n total (bound total)) {puts : List Nat} (hp : puts.Perm (List.range n)) (me : Nat)
    (head : Struct × Str) (k : Nat) {busNo : List Int} {bus : List Data} (hlen : busNo.length = bus.length)
    (hu : ∀ c ∈ bus, DyrSpec.Usable 0 c) {i g : Nat} {b : Int} {tag : Str} {c : Data} (hi : busNo[i]? = some b)
    (hc : bus[i]? = some c) (hd : IsDevice c "GENERATOR_NUMBER" "GENERATOR_ID" g tag) (x : ℝ) :
    ∃ junk bus' c', getUC cv n bound puts me [head, (junk, List.replicate k ' ')] busNo bus = some bus' ∧
      bus'[i]? = some c' ∧ get c' .double ⟨"GENERATOR_LIN_COST".toList, some (g : Int)⟩ = some x := by
  -- the memory may be what a complete line for this generator leaves
  let cv' : Conv := ⟨fun _ => b, fun _ => x, fun _ => tag, id, id, fun _ => 0⟩
  obtain ⟨t17, t18, h17, h18⟩ : ∃ t17 t18, (tokens zeros)[17]? = some t17 ∧ (tokens zeros)[18]? = some t18 :=
    ⟨['0'], ['0'], by decide +kernel, by decide +kernel⟩
  obtain ⟨s, hs, -⟩ := ucStruct_ok cv' noStruct h17 h18
  have hset : Setting n bound puts [(noStruct, zeros)] busNo bus :=
    ⟨hn, hb, hp, by simpa using zeros_ok, hlen, hu⟩
  obtain ⟨bus', h1, -, h3⟩ := C202_parameters_partial (cv := cv') (head := head) hset me
  have hfor : IsFor cv' zeros b tag := ⟨t17, t18, h17, h18, rfl, rfl⟩
  obtain ⟨c', h4, h5⟩ := h3 [] zeros [] rfl i g b tag c hfor hi hc hd (by simp)
  refine ⟨s, bus', c', ?_, h4, ?_⟩
  · rw [← h1, getUC, getUC, List.drop_one, List.tail_cons, List.drop_one, List.tail_cons, ucVector_blank, ucVector,
      line_tokens zeros_ok]
    simp only [hs, ucVector, Option.bind_some, Option.map_some]
    rfl
  · obtain ⟨t, -, ht⟩ := h5 (.num "GENERATOR_LIN_COST" 12) (by simp [format, DyrSpec.nums]) (by simp [Par.key])
    exact ht

/-! Examples. -/

/-- Unit "U": type 1, then 2, 3, ... 16, bus 1 and generator 1. -/
def unitLine : Str := "U,1,2,3,4,5,6,7,8,9,10,11,12,13,14,15,16,1,1".toList

/-- Names are filled up to two characters. -/
noncomputable def dec2 : Conv := ⟨dec.atoi, dec.atof, fun s => s ++ [' '], id, id, fun _ => 0⟩

theorem unitLine_for : IsFor dec2 unitLine 1 "1 ".toList :=
  ⟨['1'], ['1'], by decide +kernel, by decide +kernel, by decide +kernel, by decide +kernel⟩

theorem unitLine_ok : LineOk unitLine where
  noTab := by decide +kernel
  noReturn := by decide +kernel
  words := by
    have h : (tokens unitLine).all (fun w => match w with | c :: _ => c != '\'' && c != '"' | [] => false) = true := by
      decide +kernel
    intro w hw
    have := List.all_eq_true.mp h w hw
    cases w with
    | nil => cases this
    | cons c w =>
      simp only [Bool.and_eq_true, bne_iff_ne] at this
      exact DyrRecords.tokenOk_word c w this.1 this.2
  full := by decide +kernel

theorem unit_setting (junk : Struct) :
    Setting 3 (exactBound 3) [2, 0, 1] [(junk, unitLine)] [7, 1] [oneOfEach, oneOfEach] where
  procs := by decide
  bounds := fun total => exactBound_ok 3 total (by decide)
  order := by decide
  lines := by simpa using unitLine_ok
  buses := rfl
  usable := by
    intro c hc
    obtain rfl : c = oneOfEach := by simpa using hc
    exact oneOfEach_usable (by decide)

/-- The linear cost of generator 1 of bus 1 is 12. -/
example (head : Struct × Str) (junk : Struct) (me : Nat) : ∃ bus' c',
    getUC dec2 3 (exactBound 3) [2, 0, 1] me [head, (junk, unitLine)] [7, 1] [oneOfEach, oneOfEach] = some bus' ∧
    bus'[1]? = some c' ∧ get c' .double ⟨"GENERATOR_LIN_COST".toList, some 0⟩ = some (digits "12".toList : ℝ) := by
  obtain ⟨bus', h1, -, h2⟩ := C202_parameters_partial (cv := dec2) (head := head) (unit_setting junk) me
  obtain ⟨c', h3, h4⟩ := h2 [] unitLine [] rfl 1 0 1 _ oneOfEach unitLine_for rfl rfl oneOfEach_gen (by simp)
  refine ⟨bus', c', h1, h3, ?_⟩
  obtain ⟨t, ht, hs⟩ := h4 (.num "GENERATOR_LIN_COST" 12) (by simp [format, DyrSpec.nums]) (by simp [Par.key])
  have h12 : (tokens unitLine)[12]? = some "12".toList := by decide +kernel
  rw [h12] at ht
  obtain rfl := Option.some.inj ht
  exact hs

/-- Its data of the generator are as before, say its name. -/
example (head : Struct × Str) (junk : Struct) (me : Nat) : ∃ bus' c',
    getUC dec2 3 (exactBound 3) [2, 0, 1] me [head, (junk, unitLine)] [7, 1] [oneOfEach, oneOfEach] = some bus' ∧
    bus'[1]? = some c' ∧ Eq (get c' .string ⟨"GENERATOR_ID".toList, some 0⟩) (some "1 ".toList) := by
  obtain ⟨bus', h1, h2⟩ := C202_others (cv := dec2) (head := head) (unit_setting junk) me
  obtain ⟨c', h3, h4⟩ := h2 1 1 oneOfEach rfl rfl
  refine ⟨bus', c', h1, h3, ?_⟩
  rw [h4 .string _ (by decide) ?_]
  · exact oneOfEach_genId
  · intro g _ ⟨p, hp, he⟩
    exact absurd (List.mem_map_of_mem (f := Par.key) hp) (by
      have h : among (format.map Par.key) "GENERATOR_ID" = false := by decide +kernel
      have : p.key = "GENERATOR_ID" := String.toList_inj.mp he.symm
      rw [this, ← among_iff, h]
      simp)

/-- The maximum operating generation, 5 in the line, is not 5. -/
example (head : Struct × Str) (junk : Struct) (me : Nat) : ∃ bus' c',
    getUC dec2 3 (exactBound 3) [2, 0, 1] me [head, (junk, unitLine)] [7, 1] [oneOfEach, oneOfEach] = some bus' ∧
    bus'[1]? = some c' ∧ ¬ (Par.num "GENERATOR_MAX_OP_GEN" 5).Stored dec2 (tokens unitLine) c' (some 0) :=
  C202_max_operating_violated (unit_setting junk) me (pre := []) (post := []) (line := unitLine) rfl (i := 1) (g := 0) unitLine_for rfl rfl
    oneOfEach_gen (by simp) (t4 := ['4']) (t5 := ['5']) (by decide +kernel) (by decide +kernel)
    (by
      have h4 : digits ['4'] = 4 := by decide +kernel
      have h5 : digits ['5'] = 5 := by decide +kernel
      simp [dec2, Dyr.dec, h4, h5])

/-- A header and a blank line: the cost of a generator becomes 1000000. -/
example (head : Struct × Str) (me : Nat) : ∃ junk bus' c',
    getUC dec2 3 (exactBound 3) [2, 0, 1] me [head, (junk, [' '])] [7, 1] [oneOfEach, oneOfEach] = some bus' ∧
    bus'[1]? = some c' ∧ get c' .double ⟨"GENERATOR_LIN_COST".toList, some 0⟩ = some (1000000 : ℝ) :=
  C202_blank_line_violated dec2 (by decide) (fun total => exactBound_ok 3 total (by decide)) (by decide) me head 1 rfl
    (fun c hc => by
      obtain rfl : c = oneOfEach := by simpa using hc
      exact oneOfEach_usable (by decide)) (i := 1) (g := 0) rfl rfl oneOfEach_gen 1000000

end GridPACK.UnitCommit
