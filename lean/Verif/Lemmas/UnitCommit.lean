import Verif.Lemmas.DyrWrong
import Verif.Lemmas.DyrRecords
import Verif.Model.UnitCommit
import Verif.Spec.UnitCommit

namespace GridPACK.UnitCommit
open StringUtils DataCollection Dyr
open RawBus (Val Data get idxOk)
open DyrSpec (Par Complete Rest IsDevice)
open DyrRecords (tokens TokenOk split_tokens)

theorem format_ok : formatOk format = true := by decide +kernel

/-- The parameters that are stored right. -/
theorem uc_ok : extOk uc format ["GENERATOR_MAX_OP_GEN"] = true := by decide +kernel

/-- What is stored indeed. -/
def actual : List Par := replaced (.num "GENERATOR_MAX_OP_GEN" 4) format

theorem actual_ok : formatOk actual = true := by decide +kernel

theorem uc_actual : extOk uc actual [] = true := by decide +kernel

theorem format_free : ∀ p ∈ format, p.key ∉ reserved := by
  have : format.all (fun p => !among reserved p.key) = true := by decide +kernel
  intro p hp hr
  have h := List.all_eq_true.mp this p hp
  rw [among_iff.mpr hr] at h
  cases h

theorem complete {ts : List Str} (h : 18 < ts.length) : Complete format ts := by
  have hl : lastPlace format = 16 := by decide +kernel
  intro p hp n hn
  have := le_lastPlace p hp n hn
  omega

theorem complete_actual {ts : List Str} (h : 18 < ts.length) : Complete actual ts := by
  have hl : lastPlace actual = 16 := by decide +kernel
  intro p hp n hn
  have := le_lastPlace p hp n hn
  omega

/-- What the struct of a line has. -/
structure Carried (cv : Conv) (ts : List Str) (b : Int) (tag : Str) (s : Struct) : Prop where
  bus : Eq (s .int "bus_id") b
  gen : Eq (s .string "gen_id") tag
  stored : ∀ {idx : Option Int}, idxOk idx → ∀ c, ∃ c', uc.runExtract s idx c = some c' ∧
    (∀ p ∈ format, p.key ≠ "GENERATOR_MAX_OP_GEN" → p.Stored cv ts c' idx) ∧
    (∀ p ∈ actual, p.Stored cv ts c' idx) ∧ Rest format idx c c'

theorem ucStruct_ok (cv : Conv) (junk : Struct) {ts : List Str} {t17 t18 : Str} (h17 : ts[17]? = some t17)
    (h18 : ts[18]? = some t18) : ∃ s, ucStruct cv junk ts = some s ∧ Carried cv ts (cv.atoi t17) (cv.tag t18) s := by
  have hlen : 18 < ts.length := (List.getElem?_eq_some_iff.mp h18).1
  have hw : ∀ e ∈ ucWhere, passes ts.length e.guard = true ∧ (e.src.eval cv ts).isSome := by
    intro e he
    simp only [ucWhere, List.mem_cons, List.not_mem_nil, or_false] at he
    rcases he with rfl | rfl
    · exact ⟨by simp [sInt, passes]; omega, by simp [sInt, Src.eval, h17]⟩
    · exact ⟨by simp [passes]; omega, by simp [Src.eval, h18]⟩
  obtain ⟨s0, hs0⟩ := runStore_some (cv := cv) (ts := ts) (es := ucWhere) junk (fun e he _ => (hw e he).2)
  obtain ⟨s, h1, h2, h3, h4⟩ := ext_ok format_ok uc_ok cv (complete hlen) s0
  refine ⟨s, by rw [ucStruct, hs0]; exact h1, ?_, ?_, ?_⟩
  · rw [h3 .int "bus_id" (by decide +kernel)]
    exact runStore_member (v := ⟨.int, cv.atoi t17⟩) (a := .int 17) (by simp [Src.eval, h17]) (by decide +kernel)
      (fun e he => (hw e he).1) hs0
  · rw [h3 .string "gen_id" (by decide +kernel)]
    exact runStore_member (v := ⟨.string, cv.tag t18⟩) (a := .tag 18) (by simp [Src.eval, h18]) (by decide +kernel)
      (fun e he => (hw e he).1) hs0
  · intro idx hi c
    obtain ⟨c', e1, e2, e3⟩ := h4 hi c
    refine ⟨c', e1, fun p hp hne => e2 p hp (by simpa using hne), ?_, e3⟩
    intro p hp
    exact actual_ext actual_ok uc_actual (complete_actual hlen) h1 hi e1 p hp (by simp)

/-- The tokens of a line. -/
theorem line_tokens {line : Str} (h : LineOk line) : BlockParser.splitPSSELine line = .ok (tokens line) :=
  split_tokens h.noTab h.noReturn h.words

theorem line_for (cv : Conv) {line : Str} (h : LineOk line) : ∃ b tag, IsFor cv line b tag := by
  obtain ⟨t, ht⟩ : ∃ t, (tokens line)[18]? = some t := ⟨_, List.getElem?_eq_getElem h.full⟩
  obtain ⟨t', ht'⟩ : ∃ t, (tokens line)[17]? = some t :=
    ⟨_, List.getElem?_eq_getElem (Nat.lt_of_succ_lt h.full)⟩
  exact ⟨_, _, t', t, ht', ht, rfl, rfl⟩

theorem ucVector_ok (cv : Conv) (recs : List (Struct × Str)) (h : ∀ r ∈ recs, LineOk r.2) :
    ∃ zs : List (Int × (List Str × Struct)), ucVector cv recs = some (zs.map (fun kv => (kv.1, kv.2.2))) ∧
      zs.map (fun kv => kv.2.1) = recs.map (fun r => tokens r.2) ∧
      ∀ kv ∈ zs, ∃ t17 t18, kv.2.1[17]? = some t17 ∧ kv.2.1[18]? = some t18 ∧ kv.1 = cv.atoi t17 ∧
        Carried cv kv.2.1 kv.1 (cv.tag t18) kv.2.2 := by
  induction recs with
  | nil => exact ⟨[], rfl, rfl, by simp⟩
  | cons r recs ih =>
    obtain ⟨zs, h1, h2, h3⟩ := ih (fun x hx => h x (List.mem_cons_of_mem _ hx))
    have hr := h r (by simp)
    obtain ⟨b, tag, t17, t18, h17, h18, -, -⟩ := line_for cv hr
    obtain ⟨s, hs, hc⟩ := ucStruct_ok cv r.1 h17 h18
    refine ⟨(cv.atoi t17, (tokens r.2, s)) :: zs, ?_, by simp [h2], ?_⟩
    · rw [ucVector, line_tokens hr]
      simp [hs, h1, hc.bus]
    · intro kv hkv
      rcases List.mem_cons.mp hkv with rfl | hkv
      · exact ⟨t17, t18, h17, h18, rfl, hc⟩
      · exact h3 kv hkv

/-- The keys that a line changes at bus `b`. -/
def Touch (cv : Conv) (c0 : Data) (ts : List Str) (K : Key) : Prop :=
  ∃ t18 g, ts[18]? = some t18 ∧ devIndex c0 "GENERATOR_NUMBER" "GENERATOR_ID" (cv.tag t18) = some g ∧
    K.idx = some (g : Int) ∧ ∃ p ∈ format, K.name = p.key.toList

theorem putUC_step {cv : Conv} {c0 : Data} (hs : Sized c0) {ts : List Str} {b : Int} {s : Struct} {t18 : Str}
    (h18 : ts[18]? = some t18) (h : Carried cv ts b (cv.tag t18) s) : StepOk c0 (putUC s) (Touch cv c0 ts) := by
  intro c hag
  have hdev := devIndex_congr hag (num := "GENERATOR_NUMBER") (id := "GENERATOR_ID") (by decide) (by decide) (cv.tag t18)
  unfold putUC
  rw [h.gen, hdev]
  cases hg : devIndex c0 "GENERATOR_NUMBER" "GENERATOR_ID" (cv.tag t18) with
  | none => exact ⟨c, rfl, hag, fun _ _ _ _ => rfl⟩
  | some g =>
    obtain ⟨c', h1, -, -, h3⟩ := h.stored (hs.gen hg) c
    refine ⟨c', h1, hag.trans (agree_of_rest format_free h3), ?_⟩
    intro t K hK hT
    exact h3 t K hK (fun hi p hp hn => hT ⟨t18, g, h18, hg, hi, p, hp, hn⟩)

theorem putUC_stored {cv : Conv} {c0 : Data} (hs : Sized c0) {ts : List Str} {b : Int} {s : Struct} {tag : Str}
    (h : Carried cv ts b tag s) {g : Nat} (hg : devIndex c0 "GENERATOR_NUMBER" "GENERATOR_ID" tag = some g)
    {c c' : Data} (hag : Agree c0 c) (hput : putUC s c = some c') :
    (∀ p ∈ format, p.key ≠ "GENERATOR_MAX_OP_GEN" → p.Stored cv ts c' (some (g : Int))) ∧
      ∀ p ∈ actual, p.Stored cv ts c' (some (g : Int)) := by
  have hdev := devIndex_congr hag (num := "GENERATOR_NUMBER") (id := "GENERATOR_ID") (by decide) (by decide) tag
  unfold putUC at hput
  rw [h.gen, hdev, hg] at hput
  obtain ⟨d, h1, h2, h3, -⟩ := h.stored (hs.gen hg) c
  simp only at hput
  rw [hput] at h1
  obtain rfl := Option.some.inj h1
  exact ⟨h2, h3⟩

/-- What the file does to a bus. -/
structure After (cv : Conv) (lines : List Str) (b : Int) (c c' : Data) : Prop where
  gens : ∀ pre line post, lines = pre ++ line :: post → ∀ tag g, IsFor cv line b tag →
    IsDevice c "GENERATOR_NUMBER" "GENERATOR_ID" g tag → (∀ l ∈ pre ++ post, ¬ IsFor cv l b tag) →
    (∀ p ∈ format, p.key ≠ "GENERATOR_MAX_OP_GEN" → p.Stored cv (tokens line) c' (some (g : Int))) ∧
      ∀ p ∈ actual, p.Stored cv (tokens line) c' (some (g : Int))
  rest : ∀ t (k : Key), ':' ∉ k.name →
    (∀ g : Nat, k.idx = some (g : Int) → (∃ p ∈ format, k.name = p.key.toList) →
      ∀ line ∈ lines, ¬ IsFor cv line b (DyrSpec.deviceName c "GENERATOR_ID" g)) → get c' t k = get c t k

theorem getUC_ok {cv : Conv} {n : Nat} {bound : Nat → Nat → Nat} {puts : List Nat} {head : Struct × Str}
    {recs : List (Struct × Str)} {busNo : List Int} {bus : List Data} (h : Setting n bound puts recs busNo bus)
    (me : Nat) : ∃ bus', getUC cv n bound puts me (head :: recs) busNo bus = some bus' ∧ bus'.length = bus.length ∧
      ∀ (i : Nat) b c, busNo[i]? = some b → bus[i]? = some c →
        ∃ c', bus'[i]? = some c' ∧ After cv (recs.map (·.2)) b c c' := by
  obtain ⟨zs, h1, h2, h3⟩ := ucVector_ok cv recs h.lines
  have steps : ∀ b c, Sized c → ∀ l : List (List Str × Struct),
      l.Perm ((zs.filter (fun kv => decide (kv.1 = b))).map (·.2)) →
      ∀ x ∈ l, StepOk c (putUC x.2) (Touch cv c x.1) := by
    intro b c hc l hl x hx
    obtain ⟨kv, hkv, rfl⟩ := List.mem_map.mp (hl.subset hx)
    obtain ⟨t17, t18, -, h18, -, hcar⟩ := h3 kv (List.mem_filter.mp hkv).1
    exact putUC_step hc h18 hcar
  have sized : ∀ (i : Nat) c, bus[i]? = some c → Sized c := 
    fun i c hi => Usable.sized (h.usable c (List.mem_of_getElem? hi))
  obtain ⟨bus', e1, e2, e3⟩ := spread_ok h.procs h.bounds h.order me putUC zs busNo bus h.buses (by
    intro i b c _ hc l hl
    obtain ⟨c', hc', -⟩ := runList_ok (steps b c (sized i c hc) l hl) c (.refl c)
    exact ⟨c', hc'⟩)
  refine ⟨bus', by rw [getUC]; simp [h1, e1], e2, ?_⟩
  intro i b c hi hc
  obtain ⟨c', l, f1, f2, f3⟩ := e3 i b c hi hc
  have hsz := sized i c hc
  have isFor : ∀ kv ∈ zs, kv.1 = b → ∀ tag, (∃ t18, kv.2.1[18]? = some t18 ∧ cv.tag t18 = tag) →
      ∀ line, tokens line = kv.2.1 → IsFor cv line b tag := by
    rintro kv hkv hb tag ⟨t18, h18, rfl⟩ line hline
    obtain ⟨t17, t18', h17, h18', hb', -⟩ := h3 kv hkv
    exact ⟨t17, t18, by rw [hline]; exact h17, by rw [hline]; exact h18, by rw [← hb', hb], rfl⟩
  refine ⟨c', f1, ?_, ?_⟩
  · intro pre line post hlines tag g hfor hdev hothers
    have hz : zs.map (fun kv => kv.2.1) = (pre ++ line :: post).map tokens := by
      rw [h2, ← hlines, List.map_map]; rfl
    rw [List.map_append, List.map_cons] at hz
    obtain ⟨z1, z2', rfl, hz1, hz2⟩ := List.map_eq_append_iff.mp hz
    obtain ⟨kv, z2, rfl, hkv, hz2⟩ := List.map_eq_cons_iff.mp hz2
    obtain ⟨t17, t18, h17, h18, hb, hcar⟩ := h3 kv (by simp)
    obtain ⟨u17, u18, g17, g18, gb, gt⟩ := hfor
    rw [← hkv, h17] at g17
    rw [← hkv, h18] at g18
    obtain rfl := Option.some.inj g17
    obtain rfl := Option.some.inj g18
    have hkb : kv.1 = b := by rw [hb, gb]
    rw [gt] at hcar
    have hperm : l.Perm (kv.2 :: ((z1.filter (fun kv => decide (kv.1 = b))).map (·.2) ++
        (z2.filter (fun kv => decide (kv.1 = b))).map (·.2))) := by
      refine f2.trans ?_
      rw [List.filter_append, List.filter_cons, if_pos (by simp [hkb]), List.map_append, List.map_cons]
      exact List.perm_middle
    have hgdev := devIndex_device hdev
    have key : ∀ p ∈ format, ∃ ca cb, Agree c ca ∧ putUC kv.2.2 ca = some cb ∧
        ∀ t, get c' t ⟨p.key.toList, some (g : Int)⟩ = get cb t ⟨p.key.toList, some (g : Int)⟩ := by
      intro p hp
      refine runList_decides (f := fun x : List Str × Struct => putUC x.2) (T := fun x => Touch cv c x.1) hperm
        (steps b c hsz l f2) (K := ⟨p.key.toList, some (g : Int)⟩) (key_plain format_ok p hp) ?_ (.refl c) f3
      rintro x hx ⟨t, g', ht, hg', hidx, -⟩
      have hgg : g' = g := by
        have := Option.some.inj hidx
        omega
      subst hgg
      have htag : cv.tag t = tag := by
        rw [← (devIndex_some hg').2, (devIndex_some hgdev).2]
      have hzz : ∃ kv' ∈ z1 ++ z2, kv'.1 = b ∧ kv'.2 = x := by
        rw [← List.map_append, ← List.filter_append] at hx
        obtain ⟨kv', hkv', rfl⟩ := List.mem_map.mp hx
        have := List.mem_filter.mp hkv'
        exact ⟨kv', this.1, by simpa using this.2, rfl⟩
      obtain ⟨kv', hkv', hb', rfl⟩ := hzz
      have hline : ∃ line' ∈ pre ++ post, tokens line' = kv'.2.1 := by
        have : kv'.2.1 ∈ (pre ++ post).map tokens := by
          rw [List.map_append, ← hz1, ← hz2, ← List.map_append]
          exact List.mem_map.mpr ⟨kv', hkv', rfl⟩
        obtain ⟨line', hl', he⟩ := List.mem_map.mp this
        exact ⟨line', hl', he⟩
      obtain ⟨line', hl', he⟩ := hline
      refine hothers line' hl' (isFor kv' ?_ hb' tag ⟨t, ht, htag⟩ line' he)
      simp only [List.mem_append, List.mem_cons] at hkv' ⊢
      tauto
    have hkeys : ∀ p ∈ actual, ∃ q ∈ format, q.key = p.key := by
      have : actual.all (fun p => among (format.map Par.key) p.key) = true := by decide +kernel
      intro p hp
      have := List.all_eq_true.mp this p hp
      rw [among_iff] at this
      obtain ⟨q, hq, he⟩ := List.mem_map.mp this
      exact ⟨q, hq, he⟩
    rw [← hkv]
    constructor
    · intro p hp hne
      obtain ⟨ca, cb, ha, hb, hget⟩ := key p hp
      exact stored_congr hget ((putUC_stored hsz hcar hgdev ha hb).1 p hp hne)
    · intro p hp
      obtain ⟨q, hq, he⟩ := hkeys p hp
      obtain ⟨ca, cb, ha, hb, hget⟩ := key q hq
      rw [he] at hget
      exact stored_congr hget ((putUC_stored hsz hcar hgdev ha hb).2 p hp)
  · intro t k hk hno
    obtain ⟨d, hd, -, hget⟩ := runList_ok (steps b c hsz l f2) c (.refl c)
    rw [f3] at hd
    obtain rfl := Option.some.inj hd
    refine hget t k hk ?_
    rintro ⟨x, hx, t18, g, h18, hg, hidx, hp⟩
    obtain ⟨kv, hkv, rfl⟩ := List.mem_map.mp (f2.subset hx)
    obtain ⟨hkv, hb⟩ := List.mem_filter.mp hkv
    have hline : ∃ line ∈ recs.map (·.2), tokens line = kv.2.1 := by
      have : kv.2.1 ∈ recs.map (fun r => tokens r.2) := by
        rw [← h2]
        exact List.mem_map.mpr ⟨kv, hkv, rfl⟩
      obtain ⟨r, hr, he⟩ := List.mem_map.mp this
      exact ⟨r.2, List.mem_map.mpr ⟨r, hr, rfl⟩, he⟩
    obtain ⟨line, hl, he⟩ := hline
    refine hno g hidx hp line hl (isFor kv hkv (by simpa using hb) _ ⟨t18, h18, ?_⟩ line he)
    rw [← strVal_name, (devIndex_some hg).2]

end GridPACK.UnitCommit
