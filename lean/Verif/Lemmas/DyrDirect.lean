import Verif.Lemmas.DyrExternal

/-! Lemmas about reading .dyr files: the direct reading. -/
namespace GridPACK.Dyr
open StringUtils DataCollection
open RawBus (Val Data get idxOk intVal getInt intVal_get getValue_get)
open DyrSpec (Par Complete Rest IsDevice Describes Gives Proper Unknown Place directErrors count deviceName Usable)

/-! ## One bus -/

/-- What a record does to the bus with number `b`. -/
def busRec (cv : Conv) (b : Int) (ts : List Str) (c : Data) : Option Data :=
  match ts[0]?, ts[1]? with
  | some t0, some t1 =>
    if isIn genModels (cv.name t1) then
      if cv.atoi t0 = b then directGen cv ts (cv.name t1) c else some c
    else if isIn busModels (cv.name t1) then
      match (if cv.name t1 = "LVSHBL".toList then some t0 else ts[3]?), pick busKinds (cv.name t1) with
      | some t, some k => if cv.atoi t = b then parseRelay cv k ts c else some c
      | _, _ => none
    else if isIn loadModels (cv.name t1) then
      if cv.atoi t0 = b then directLoad cv ts (cv.name t1) c else some c
    else some c
  | _, _ => none

/-- The keys that the record of a load changes if there is no such load. -/
def StrayTouch (cv : Conv) (c0 : Data) (b : Int) (ts : List Str) (K : Key) : Prop :=
  ∃ tag m ps, Describes cv ts (.load b tag) m ps ∧
    devIndex c0 "LOAD_NUMBER" "LOAD_ID" tag = none ∧ K.idx = some (-1) ∧ ∃ p ∈ ps, K.name = p.key.toList

/-- The keys that the record of a generator or load changes. -/
def DirTouch (cv : Conv) (c0 : Data) (b : Int) (ts : List Str) (K : Key) : Prop :=
  GenTouch cv c0 b ts K ∨ LoadTouch cv c0 b ts K ∨ StrayTouch cv c0 b ts K

theorem stepOk_id (c0 : Data) (T : Key → Prop) : StepOk c0 some T := fun c hc => ⟨c, rfl, hc, fun _ _ _ _ => rfl⟩

theorem stepOk_of {c0 : Data} {f : Data → Option Data} {T : Key → Prop} (h : ∀ c, f c = some c) : StepOk c0 f T := by
  rw [show f = some from funext h]
  exact stepOk_id c0 T

theorem directGen_eq {cv : Conv} {ts : List Str} {s t2 : Str} {c : Data} (h2 : ts[2]? = some t2) :
    directGen cv ts s c = match devIndex c "GENERATOR_NUMBER" "GENERATOR_ID" (cv.tag t2) with
      | none => some c
      | some g => match pick genDirect s with
        | none => some c
        | some k => k.runParse cv ts (some (g : Int)) c := by
  unfold directGen
  rw [h2]
  by_cases h : 0 < intVal c "GENERATOR_NUMBER".toList
  · rw [if_pos h]
    rfl
  · rw [if_neg h]
    cases hd : devIndex c "GENERATOR_NUMBER" "GENERATOR_ID" (cv.tag t2) with
    | none => rfl
    | some g =>
      have := (devIndex_some hd).1
      omega

/-- A complete record of a generator, at its bus. -/
theorem busRec_gen {cv : Conv} {ts : List Str} {b : Int} {tag : Str} {m : String} {ps : List Par}
    (hd : Describes cv ts (.gen b tag) m ps) (hc : Complete ps ts) {c0 : Data} (hs : Sized c0) {c : Data}
    (hag : Agree c0 c) : ∃ c', busRec cv b ts c = some c' ∧ Agree c0 c' ∧
      (∀ t k, ':' ∉ k.name → ¬ GenTouch cv c0 b ts k → get c' t k = get c t k) ∧
      ∀ g, devIndex c0 "GENERATOR_NUMBER" "GENERATOR_ID" tag = some g → m ≠ "ESST4B" →
        ∀ p ∈ ps, (m, p.key) ∉ directErrors → p.Stored cv ts c' (some (g : Int)) := by
  have hd' := hd
  cases hd with
  | gen hm h0 h1 h2 hn =>
    rename_i t0 t1 t2
    have hkn := (gens_ext _ hm).known
    have e : busRec cv (cv.atoi t0) ts c = directGen cv ts m.toList c := by
      unfold busRec
      rw [h0, h1]
      simp only [hn, hkn, if_true]
    have hdev := devIndex_congr hag (num := "GENERATOR_NUMBER") (id := "GENERATOR_ID") (by decide) (by decide) (cv.tag t2)
    rw [e, directGen_eq h2, hdev]
    cases hg : devIndex c0 "GENERATOR_NUMBER" "GENERATOR_ID" (cv.tag t2) with
    | none => exact ⟨c, rfl, hag, fun _ _ _ _ => rfl, by simp⟩
    | some g =>
      by_cases hx : m = "ESST4B"
      · subst hx
        rw [pick_none (tab := genDirect) (by
          have : genDirect.all (fun x => !(same x.1 "ESST4B")) = true := by decide +kernel
          rw [List.all_eq_true] at this
          intro x hx he
          have := this x hx
          rw [Bool.not_eq_true', ← Bool.not_eq_true, same_iff] at this
          exact this (String.toList_injective he))]
        exact ⟨c, rfl, hag, fun _ _ _ _ => rfl, by simp⟩
      · have hgd := gens_dir _ hm hx
        obtain ⟨k, bad, hk, hok, hbad⟩ := hgd.cls
        obtain ⟨c', p1, p2, p3⟩ := parse_ok hgd.format hok cv hc (hs.gen hg) c
        simp only [hk]
        refine ⟨c', p1, hag.trans (agree_of_rest (fun p hp hn => ?_) p3), ?_, ?_⟩
        · exact avoids_use gens_names hm hp (List.mem_cons_of_mem _ hn)
        · intro t K hK hT
          exact p3 t K hK (fun hi p hp hn => hT ⟨cv.tag t2, m, ps, g, hd', hg, hi, p, hp, hn⟩)
        · intro g' hg' _ p hp hne
          obtain rfl := Option.some.inj hg'
          exact p2 p hp (fun hb => hne (hbad _ hb))

theorem directLoad_eq {cv : Conv} {ts : List Str} {s t2 : Str} {c : Data} (h2 : ts[2]? = some t2) :
    directLoad cv ts s c =
      (let l : Int := match devIndex c "LOAD_NUMBER" "LOAD_ID" (cv.tag t2) with
        | none => -1
        | some l => (l : Int)
      if s = "USRLOD".toList then
        match ts[3]? with
        | none => none
        | some u =>
          match pick userLoads (cv.plain u) with
          | none => some c
          | some k => k.runParse cv ts (some l) c
      else
        match pick loadStore s with
        | none => some c
        | some k => k.runParse cv ts (some l) c) := by
  unfold directLoad
  rw [h2]
  by_cases h : 0 < intVal c "LOAD_NUMBER".toList
  · rw [if_pos h]
    rfl
  · rw [if_neg h]
    cases hd : devIndex c "LOAD_NUMBER" "LOAD_ID" (cv.tag t2) with
    | none => rfl
    | some g =>
      have := (devIndex_some hd).1
      omega

/-- A complete record of a load, at its bus. -/
theorem busRec_load {cv : Conv} {ts : List Str} {b : Int} {tag : Str} {m : String} {ps : List Par}
    (hd : Describes cv ts (.load b tag) m ps) (hc : Complete ps ts) {c0 : Data} (hs : Sized c0) {c : Data}
    (hag : Agree c0 c) : ∃ c', busRec cv b ts c = some c' ∧ Agree c0 c' ∧
      (∀ t k, ':' ∉ k.name → ¬ LoadTouch cv c0 b ts k → ¬ StrayTouch cv c0 b ts k → get c' t k = get c t k) ∧
      ∀ g, devIndex c0 "LOAD_NUMBER" "LOAD_ID" tag = some g →
        ∀ p ∈ ps, (m, p.key) ∉ directErrors → p.Stored cv ts c' (some (g : Int)) := by
  have hd' := hd
  have fin : ∀ (k : Kind) (bad : List String), formatOk ps = true → dirOk k ps bad = true →
      (∀ x ∈ bad, (m, x) ∈ directErrors) →
      busRec cv b ts c = k.runParse cv ts (some (match devIndex c "LOAD_NUMBER" "LOAD_ID" tag with
        | none => -1
        | some l => (l : Int))) c → ∃ c', busRec cv b ts c = some c' ∧ Agree c0 c' ∧
      (∀ t k, ':' ∉ k.name → ¬ LoadTouch cv c0 b ts k → ¬ StrayTouch cv c0 b ts k → get c' t k = get c t k) ∧
      ∀ g, devIndex c0 "LOAD_NUMBER" "LOAD_ID" tag = some g →
        ∀ p ∈ ps, (m, p.key) ∉ directErrors → p.Stored cv ts c' (some (g : Int)) := by
    intro k bad hf hok hbad e
    have hdev := devIndex_congr hag (num := "LOAD_NUMBER") (id := "LOAD_ID") (by decide) (by decide) tag
    rw [e, hdev]
    cases hg : devIndex c0 "LOAD_NUMBER" "LOAD_ID" tag with
    | none =>
      simp only
      obtain ⟨c', p1, p2, p3⟩ := parse_ok hf hok cv hc (idx := some (-1)) (by
        intro i hi
        obtain rfl := Option.some.inj hi
        omega) c
      refine ⟨c', p1, hag.trans (agree_of_rest (fun p hp hn => ?_) p3), ?_, by simp⟩
      · exact avoids_use loads_names (loads_mem rfl hd') hp (List.mem_cons_of_mem _ hn)
      · intro t K hK _ hT
        exact p3 t K hK (fun hi p hp hn => hT ⟨tag, m, ps, hd', hg, hi, p, hp, hn⟩)
    | some g =>
      simp only
      obtain ⟨c', p1, p2, p3⟩ := parse_ok hf hok cv hc (hs.load hg) c
      refine ⟨c', p1, hag.trans (agree_of_rest (fun p hp hn => ?_) p3), ?_, ?_⟩
      · exact avoids_use loads_names (loads_mem rfl hd') hp (List.mem_cons_of_mem _ hn)
      · intro t K hK hT _
        exact p3 t K hK (fun hi p hp hn => hT ⟨tag, m, ps, g, hd', hg, hi, p, hp, hn⟩)
      · intro g' hg' p hp hne
        obtain rfl := Option.some.inj hg'
        exact p2 p hp (fun hb => hne (hbad _ hb))
  cases hd with
  | load hm h0 h1 h2 hn =>
    rename_i t0 t1 t2
    obtain ⟨n1, n2, n3, n4⟩ := loads_kind _ hm
    have hld := loads_dir _ hm
    obtain ⟨k, bad, hk, hok, hbad⟩ := hld.cls
    refine fin k bad hld.format hok hbad ?_
    unfold busRec
    simp only [h0, h1, hn, n1, n2, n3, if_true, if_false, Bool.false_eq_true]
    rw [directLoad_eq h2]
    simp only at hk
    simp only [n4, if_false, hk]
  | userLoad hm h0 h1 h2 h3 hn hp hp' =>
    rename_i t0 t1 t2 t3
    obtain ⟨n1, n2, n3⟩ := usrlod_kind
    have hld := userLoads_dir _ hm
    obtain ⟨k, bad, hk, hok, hbad⟩ := hld.cls
    refine fin k bad hld.format hok hbad ?_
    unfold busRec
    simp only [h0, h1, hn, n1, n2, n3, if_true, if_false, Bool.false_eq_true]
    rw [directLoad_eq h2]
    simp only at hk
    simp only [if_true, h3, hp, hk]

/-- A complete record of a relay, at its bus. -/
theorem busRec_relay {cv : Conv} {ts : List Str} {b : Int} {m : String} {ps : List Par}
    (hd : Describes cv ts (.relay b) m ps) (hc : Complete ps ts) (c : Data) (h0 : 0 ≤ relays c)
    (h7 : relays c < 10000000) :
    ∃ c', busRec cv b ts c = some c' ∧ relays c' = relays c + 1 ∧ (∀ p ∈ ps, p.Stored cv ts c' (some (relays c))) ∧
      ∀ t k, ':' ∉ k.name → k.name ≠ "RELAY_NUMBER".toList →
        (k.idx = some (relays c) → ∀ p ∈ ps, k.name ≠ p.key.toList) → get c' t k = get c t k := by
  have hd' := hd
  have hidx : idxOk (some (relays c)) := by
    intro i hi
    obtain rfl := Option.some.inj hi
    omega
  have fin : ∀ k : Kind, formatOk ps = true → dirOk k ps [] = true → busRec cv b ts c = parseRelay cv k ts c →
      ∃ c', busRec cv b ts c = some c' ∧ relays c' = relays c + 1 ∧
      (∀ p ∈ ps, p.Stored cv ts c' (some (relays c))) ∧
      ∀ t k, ':' ∉ k.name → k.name ≠ "RELAY_NUMBER".toList →
        (k.idx = some (relays c) → ∀ p ∈ ps, k.name ≠ p.key.toList) → get c' t k = get c t k := by
    intro k hf hok e
    obtain ⟨c1, hn, hr1, hk1⟩ := nextRelay_ok c
    obtain ⟨c2, p1, p2, p3⟩ := parse_ok hf hok cv hc hidx c1
    refine ⟨c2, by rw [e]; simp [parseRelay, hn, p1], ?_, fun p hp => p2 p hp (by simp), ?_⟩
    · rw [relays_get, p3 .int ⟨"RELAY_NUMBER".toList, none⟩ relayNumber_plain (by intro hi; simp at hi), ← relays_get, hr1]
    · intro t k hk hne hnn
      rw [p3 t k hk hnn, hk1 t k hk hne]
  cases hd with
  | voltage h0 h1 hn =>
    obtain ⟨n1, n2, n3, _⟩ := lvshbl_kind
    refine fin lvshbl lvshbl_format lvshbl_dir ?_
    unfold busRec
    simp only [h0, h1, hn, n1, n2, n3, if_true, if_false, Bool.false_eq_true]
  | frequency h0 h1 h3 hn =>
    obtain ⟨n1, n2, n4, n3, _⟩ := frqtpat_kind
    refine fin frqtpat frqtpat_format frqtpat_dir ?_
    unfold busRec
    simp only [h0, h1, h3, hn, n1, n2, n3, n4, if_true, if_false, Bool.false_eq_true]

/-- The bus of a place. -/
def atPlace (b : Int) : Place → Prop
  | .gen b' _ | .load b' _ | .relay b' => b' = b
  | .line _ _ => False

/-- A record for another place. -/
theorem busRec_other {cv : Conv} {ts : List Str} {b : Int} {w : Place} {m : String} {ps : List Par}
    (hd : Describes cv ts w m ps) (hw : ¬ atPlace b w) (c : Data) : busRec cv b ts c = some c := by
  cases hd with
  | gen hm h0 h1 h2 hn =>
    simp only [atPlace] at hw
    simp only [busRec, h0, h1, hn, (gens_ext _ hm).known, if_true, hw, if_false]
  | load hm h0 h1 h2 hn =>
    obtain ⟨n1, n2, n3, n4⟩ := loads_kind _ hm
    simp only [atPlace] at hw
    simp only [busRec, h0, h1, hn, n1, n2, n3, if_true, hw, if_false, Bool.false_eq_true]
  | userLoad hm h0 h1 h2 h3 hn hp hp' =>
    obtain ⟨n1, n2, n3⟩ := usrlod_kind
    simp only [atPlace] at hw
    simp only [busRec, h0, h1, hn, n1, n2, n3, if_true, hw, if_false, Bool.false_eq_true]
  | voltage h0 h1 hn =>
    obtain ⟨n1, n2, n3, _⟩ := lvshbl_kind
    simp only [atPlace] at hw
    simp only [busRec, h0, h1, hn, n1, n2, n3, if_true, hw, if_false, Bool.false_eq_true]
  | frequency h0 h1 h3 hn =>
    obtain ⟨n1, n2, n4, n3, _⟩ := frqtpat_kind
    simp only [atPlace] at hw
    simp only [busRec, h0, h1, h3, hn, n1, n2, n3, n4, if_true, hw, if_false, Bool.false_eq_true]
  | line h0 h1 h2 hn =>
    obtain ⟨n1, n2, n3, n4, _⟩ := distr1_kind
    simp only [busRec, h0, h1, hn, n1, n2, n3, if_false, Bool.false_eq_true]

theorem unknown_isIn {cv : Conv} {t1 : Str} (hne : ∀ m ∈ DyrSpec.models, cv.name t1 ≠ m.toList) {l : List String}
    (hl : ∀ x ∈ l, x ∈ genModels ++ busModels ++ loadModels ++ branchModels) : isIn l (cv.name t1) = false := by
  rw [← Bool.not_eq_true]
  simp only [isIn, List.any_eq_true, decide_eq_true_eq, not_exists, not_and]
  intro x hx he
  have := models_known
  rw [List.all_eq_true] at this
  exact hne x (among_iff.mp (this x (hl x hx))) he.symm

theorem busRec_unknown {cv : Conv} {ts : List Str} {b : Int} (hu : Unknown cv ts) (c : Data) :
    busRec cv b ts c = some c := by
  obtain ⟨t0, t1, h0, h1, hne⟩ := hu
  simp only [busRec, h0, h1, unknown_isIn hne (l := genModels) (by simp +contextual),
    unknown_isIn hne (l := busModels) (by simp +contextual),
    unknown_isIn hne (l := loadModels) (by simp +contextual), Bool.false_eq_true, if_false]

/-- One record and one bus. -/
theorem busRec_one {cv : Conv} {ts : List Str} {b : Int} (h : Proper cv ts) {c0 : Data} (hs : Sized c0) :
    (¬ IsRelay cv b ts ∧ StepOk c0 (busRec cv b ts) (DirTouch cv c0 b ts)) ∨
    ∃ m ps, Describes cv ts (.relay b) m ps ∧ Complete ps ts := by
  rcases h with ⟨w, m, ps, hd, hc⟩ | hu
  · by_cases hw : atPlace b w
    · cases w with
      | gen b' tag =>
        obtain rfl : b' = b := hw
        refine Or.inl ⟨fun ⟨m', ps', hd'⟩ => by simpa using (describes_unique hd hd').1, ?_⟩
        intro c hag
        obtain ⟨c', h1, h2, h3, _⟩ := busRec_gen hd hc hs hag
        exact ⟨c', h1, h2, fun t k hk hT => h3 t k hk (fun h => hT (Or.inl h))⟩
      | load b' tag =>
        obtain rfl : b' = b := hw
        refine Or.inl ⟨fun ⟨m', ps', hd'⟩ => by simpa using (describes_unique hd hd').1, ?_⟩
        intro c hag
        obtain ⟨c', h1, h2, h3, _⟩ := busRec_load hd hc hs hag
        exact ⟨c', h1, h2, fun t k hk hT => h3 t k hk (fun h => hT (Or.inr (Or.inl h))) (fun h => hT (Or.inr (Or.inr h)))⟩
      | relay b' =>
        obtain rfl : b' = b := hw
        exact Or.inr ⟨m, ps, hd, hc⟩
      | line a' b' => exact absurd hw (by simp [atPlace])
    · refine Or.inl ⟨fun ⟨m', ps', hd'⟩ => ?_, stepOk_of (busRec_other hd hw)⟩
      rw [(describes_unique hd hd').1] at hw
      exact hw rfl
  · exact Or.inl ⟨fun ⟨m', ps', hd'⟩ => models_all hd' hu, stepOk_of (busRec_unknown hu)⟩

theorem dirTouch_name {cv : Conv} {c0 : Data} {b : Int} {ts : List Str} {K : Key} (h : DirTouch cv c0 b ts K) :
    K.name ≠ "RELAY_NUMBER".toList ∧ ∀ s ∈ keysOf DyrSpec.relays, K.name ≠ s.toList := by
  have hl : ∀ {tag : Str} {m : String} {ps : List Par}, Describes cv ts (.load b tag) m ps →
      ∀ p ∈ ps, K.name = p.key.toList → K.name ≠ "RELAY_NUMBER".toList ∧ ∀ s ∈ keysOf DyrSpec.relays, K.name ≠ s.toList := by
    intro tag m ps hd p hp hn
    rw [hn]
    refine ⟨fun he => ?_, fun s hs he => ?_⟩
    · exact avoids_use loads_names (loads_mem rfl hd) hp (by rw [String.toList_injective he]; simp)
    · exact avoids_use loads_relays (loads_mem rfl hd) hp (String.toList_injective he ▸ hs)
  rcases h with ⟨tag, m, ps, g, hd, hg, hi, p, hp, hn⟩ | ⟨tag, m, ps, g, hd, hg, hi, p, hp, hn⟩ |
      ⟨tag, m, ps, hd, hg, hi, p, hp, hn⟩
  · rw [hn]
    refine ⟨fun he => ?_, fun s hs he => ?_⟩
    · exact avoids_use gens_names (gens_mem rfl hd) hp (by rw [String.toList_injective he]; simp)
    · exact avoids_use gens_relays (gens_mem rfl hd) hp (String.toList_injective he ▸ hs)
  · exact hl hd p hp hn
  · exact hl hd p hp hn

/-- The records of a file, at one bus. -/
theorem busRecs_ok {cv : Conv} {b : Int} {c0 : Data} (hs : Sized c0) :
    ∀ (recs : List (List Str)) (c : Data), (∀ r ∈ recs, Proper cv r) → Agree c0 c → 0 ≤ relays c →
      relays c + recs.length ≤ 10000000 →
      ∃ c', runList (busRec cv b) recs c = some c' ∧ Agree c0 c' ∧
        (open Classical in relays c' = relays c + (recs.filter (fun r => decide (IsRelay cv b r))).length) ∧
        (open Classical in ∀ (j : Nat) r, (recs.filter (fun r => decide (IsRelay cv b r)))[j]? = some r →
          ∀ m ps, Describes cv r (.relay b) m ps → ∀ p ∈ ps, p.Stored cv r c' (some (relays c + j))) ∧
        ∀ t k, ':' ∉ k.name → (∀ r ∈ recs, ¬ DirTouch cv c0 b r k) →
          ((∃ r ∈ recs, IsRelay cv b r) → k.name ≠ "RELAY_NUMBER".toList ∧
            ((∃ j : Nat, k.idx = some (relays c + j)) → ∀ s ∈ keysOf DyrSpec.relays, k.name ≠ s.toList)) →
          get c' t k = get c t k := by
  intro recs
  induction recs with
  | nil => intro c _ hag _ _; exact ⟨c, rfl, hag, by simp, by simp, fun _ _ _ _ _ => rfl⟩
  | cons r recs ih =>
    intro c hall hag h0 hlen
    simp only [List.length_cons, Nat.cast_add, Nat.cast_one] at hlen
    rcases busRec_one (b := b) (hall r (by simp)) hs with ⟨hno, hstep⟩ | ⟨m, ps, hd, hc⟩
    · obtain ⟨c1, e1, a1, k1⟩ := hstep c hag
      have hr1 : relays c1 = relays c := by
        rw [relays_get, relays_get, k1 .int ⟨"RELAY_NUMBER".toList, none⟩ relayNumber_plain]
        intro hT
        exact (dirTouch_name hT).1 rfl
      obtain ⟨c2, e2, a2, r2, s2, k2⟩ := ih c1 (fun x hx => hall x (by simp [hx])) a1 (by omega) (by omega)
      refine ⟨c2, by simp [runList, e1, e2], a2, ?_, ?_, ?_⟩
      · rw [r2, hr1, List.filter_cons, if_neg (by simpa using hno)]
      · intro j x hj
        rw [List.filter_cons, if_neg (by simpa using hno)] at hj
        rw [← hr1]
        exact s2 j x hj
      · intro t k hk hT hR
        rw [k2 t k hk (fun x hx => hT x (by simp [hx])) ?_, k1 t k hk (hT r (by simp))]
        rintro ⟨x, hx, hxr⟩
        rw [hr1]
        exact hR ⟨x, by simp [hx], hxr⟩
    · have hyes : IsRelay cv b r := ⟨m, ps, hd⟩
      obtain ⟨c1, e1, r1, s1, k1⟩ := busRec_relay hd hc c h0 (by omega)
      have a1 : Agree c0 c1 := by
        refine agree_relay hag ?_
        intro t k hk hne hks
        refine k1 t k hk hne (fun _ p hp => hks _ (mem_keysOf (relays_mem rfl hd) hp))
      obtain ⟨c2, e2, a2, r2, s2, k2⟩ := ih c1 (fun x hx => hall x (by simp [hx])) a1 (by omega) (by omega)
      have hout : ∀ p ∈ ps, ∀ t, get c2 t ⟨p.key.toList, some (relays c)⟩ = get c1 t ⟨p.key.toList, some (relays c)⟩ := by
        intro p hp t
        refine k2 t _ (key_plain (format_of hd) p hp) ?_ ?_
        · intro x hx hT
          exact (dirTouch_name hT).2 p.key (mem_keysOf (relays_mem rfl hd) hp) rfl
        · intro _
          refine ⟨fun he => ?_, ?_⟩
          · exact avoids_use relays_names1 (relays_mem rfl hd) hp (by rw [String.toList_injective he]; simp)
          · rintro ⟨j, hj⟩
            simp only [Option.some.injEq] at hj
            omega
      refine ⟨c2, by simp [runList, e1, e2], a2, ?_, ?_, ?_⟩
      · rw [r2, r1, List.filter_cons, if_pos (by simpa using hyes)]
        push_cast [List.length_cons]
        omega
      · intro j x hj m' ps' hd' p hp
        rw [List.filter_cons, if_pos (by simpa using hyes)] at hj
        cases j with
        | zero =>
          simp only [List.getElem?_cons_zero, Option.some.injEq] at hj
          subst hj
          obtain ⟨_, rfl, rfl⟩ := describes_unique hd hd'
          simp only [Nat.cast_zero, add_zero]
          exact stored_congr (hout p hp) (s1 p hp)
        | succ j =>
          simp only [List.getElem?_cons_succ] at hj
          have := s2 j x hj m' ps' hd' p hp
          rw [r1] at this
          have hcast : relays c + ((j + 1 : Nat) : Int) = relays c + 1 + (j : Int) := by push_cast; omega
          rw [hcast]
          exact this
      · intro t k hk hT hR
        have hR' := hR ⟨r, by simp, hyes⟩
        rw [k2 t k hk (fun x hx => hT x (by simp [hx])) ?_, k1 t k hk hR'.1 ?_]
        · intro hi p hp
          exact hR'.2 ⟨0, by simpa using hi⟩ p.key (mem_keysOf (relays_mem rfl hd) hp)
        · intro _
          refine ⟨hR'.1, ?_⟩
          rintro ⟨j, hj⟩
          refine hR'.2 ⟨j + 1, ?_⟩
          rw [hj, r1]
          push_cast
          congr 1
          omega

/-- What a file does to the collection of a bus, read directly. -/
structure DirectAfter (cv : Conv) (texts : List (List Str)) (b : Int) (c c' : Data) : Prop where
  gens : ∀ pre r post tag m ps p g, texts = pre ++ r :: post → Describes cv r (.gen b tag) m ps →
    IsDevice c "GENERATOR_NUMBER" "GENERATOR_ID" g tag → p ∈ ps → m ≠ "ESST4B" → (m, p.key) ∉ directErrors →
    (∀ r' ∈ post, ¬ Gives cv r' (.gen b tag) p.key) → p.Stored cv r c' (some (g : Int))
  loads : ∀ pre r post tag m ps p g, texts = pre ++ r :: post → Describes cv r (.load b tag) m ps →
    IsDevice c "LOAD_NUMBER" "LOAD_ID" g tag → p ∈ ps → (m, p.key) ∉ directErrors →
    (∀ r' ∈ post, ¬ Gives cv r' (.load b tag) p.key) → p.Stored cv r c' (some (g : Int))
  relays : open Classical in
    count c' "RELAY_NUMBER" = count c "RELAY_NUMBER" + (texts.filter (fun r => decide (IsRelay cv b r))).length ∧
    ∀ (j : Nat) r, (texts.filter (fun r => decide (IsRelay cv b r)))[j]? = some r →
      ∀ m ps, Describes cv r (.relay b) m ps → ∀ p ∈ ps, p.Stored cv r c' (some (count c "RELAY_NUMBER" + j))
  rest : ∀ t k, ':' ∉ k.name →
    (∀ (g : Nat) (name : String) r, k = ⟨name.toList, some (g : Int)⟩ → r ∈ texts →
      ¬ Gives cv r (.gen b (deviceName c "GENERATOR_ID" g)) name ∧
      ¬ Gives cv r (.load b (deviceName c "LOAD_ID" g)) name) →
    (∀ (name : String) r tag, k = ⟨name.toList, some (-1)⟩ → r ∈ texts → ¬ Gives cv r (.load b tag) name) →
    ((∃ r ∈ texts, IsRelay cv b r) → k.name ≠ "RELAY_NUMBER".toList ∧
      ((∃ j : Nat, k.idx = some (count c "RELAY_NUMBER" + j)) → ∀ s ∈ keysOf DyrSpec.relays, k.name ≠ s.toList)) →
    get c' t k = get c t k

theorem directAfter_of {cv : Conv} {b : Int} {c : Data} {texts : List (List Str)} (hall : ∀ r ∈ texts, Proper cv r)
    (hu : Usable texts.length c) :
    ∃ c', runList (busRec cv b) texts c = some c' ∧ DirectAfter cv texts b c c' := by
  have hsz := Usable.sized hu
  obtain ⟨_, _, u3, u4⟩ := hu
  rw [← relays_count] at u3 u4
  obtain ⟨c', h1, h2, h3, h4, h5⟩ := busRecs_ok (b := b) hsz texts c hall (.refl c) u3 u4
  -- the last record that gives a parameter decides
  have last : ∀ pre r post (K : Key), texts = pre ++ r :: post → ':' ∉ K.name → ¬ IsRelay cv b r →
      K.name ≠ "RELAY_NUMBER".toList → (∀ s ∈ keysOf DyrSpec.relays, K.name ≠ s.toList) →
      (∀ r' ∈ post, ¬ DirTouch cv c b r' K) →
      ∃ c1 c2, Agree c c1 ∧ busRec cv b r c1 = some c2 ∧ ∀ t, get c' t K = get c2 t K := by
    rintro pre r post K rfl hK hnr hn1 hn2 hpost
    simp only [List.length_append, List.length_cons] at u4
    push_cast at u4
    obtain ⟨c1, a1, a2, a3, _, _⟩ := busRecs_ok (b := b) hsz pre c (fun x hx => hall x (by simp [hx])) (.refl c) u3 (by omega)
    have hlen : (open Classical in ((pre.filter (fun r => decide (IsRelay cv b r))).length : Int)) ≤ pre.length := by
      have := List.length_filter_le (open Classical in (fun r => decide (IsRelay cv b r))) pre
      exact_mod_cast this
    rcases busRec_one (b := b) (hall r (by simp)) hsz with ⟨_, hstep⟩ | ⟨m, ps, hd, hc⟩
    swap
    · exact absurd ⟨m, ps, hd⟩ hnr
    obtain ⟨c2, b1, b2, b3⟩ := hstep c1 a2
    have hr2 : relays c2 = relays c1 := by
      rw [relays_get, relays_get, b3 .int ⟨"RELAY_NUMBER".toList, none⟩ relayNumber_plain]
      intro hT
      exact (dirTouch_name hT).1 rfl
    obtain ⟨c3, d1, d2, d3, _, d5⟩ := busRecs_ok (b := b) hsz post c2 (fun x hx => hall x (by simp [hx])) b2
      (by omega) (by omega)
    have : runList (busRec cv b) (pre ++ r :: post) c = some c3 := by
      rw [runList_append, a1]
      simp [runList, b1, d1]
    rw [h1] at this
    obtain rfl := Option.some.inj this
    exact ⟨c1, c2, a2, b1, fun t => d5 t K hK hpost (fun _ => ⟨hn1, fun _ => hn2⟩)⟩
  have dev : ∀ {K : Key} {r : List Str} {g : Nat} {name : String}, K = ⟨name.toList, some (g : Int)⟩ →
      DirTouch cv c b r K → Gives cv r (.gen b (deviceName c "GENERATOR_ID" g)) name ∨
        Gives cv r (.load b (deviceName c "LOAD_ID" g)) name := by
    rintro K r g name rfl hT
    rcases hT with hT | hT | hT
    · obtain ⟨g', name', he, hg⟩ := gives_of_touch hT
      rw [Key.mk.injEq, Option.some.injEq] at he
      obtain rfl := String.toList_injective he.1
      obtain rfl : g = g' := by exact_mod_cast he.2
      exact Or.inl hg
    · obtain ⟨g', name', he, hg⟩ := gives_of_loadTouch hT
      rw [Key.mk.injEq, Option.some.injEq] at he
      obtain rfl := String.toList_injective he.1
      obtain rfl : g = g' := by exact_mod_cast he.2
      exact Or.inr hg
    · obtain ⟨_, _, _, _, _, hi, _⟩ := hT
      simp only [Option.some.injEq] at hi
      omega
  refine ⟨c', h1, ?_, ?_, ?_, ?_⟩
  · intro pre r post tag m ps p g ht hd hdev hp hx hne hothers
    have hg := devIndex_device hdev
    have hT : DirTouch cv c b r ⟨p.key.toList, some (g : Int)⟩ := Or.inl ⟨tag, m, ps, g, hd, hg, rfl, p, hp, rfl⟩
    obtain ⟨c1, c2, a1, a2, a3⟩ := last pre r post ⟨p.key.toList, some (g : Int)⟩ ht
      (key_plain (format_of hd) p hp) (fun ⟨m', ps', hd'⟩ => by simpa using (describes_unique hd hd').1)
      (dirTouch_name hT).1 (dirTouch_name hT).2 (by
        intro r' hr' hT'
        rcases dev rfl hT' with h | h
        · rw [device_name hdev] at h
          exact hothers r' hr' h
        · obtain ⟨m', ps', hd', hk'⟩ := h
          obtain ⟨p', hp', he⟩ := List.mem_map.mp hk'
          exact avoids_use gens_loads (gens_mem rfl hd) hp (he ▸ mem_keysOf (loads_mem rfl hd') hp'))
    have hprop := hall r (by rw [ht]; simp)
    rcases hprop with ⟨w, m', ps', hd', hc⟩ | hu'
    swap
    · exact absurd hu' (models_all hd)
    obtain ⟨rfl, rfl, rfl⟩ := describes_unique hd hd'
    obtain ⟨c2', e1, _, _, e4⟩ := busRec_gen hd hc hsz a1
    rw [a2] at e1
    obtain rfl := Option.some.inj e1
    exact stored_congr a3 (e4 g hg hx p hp hne)
  · intro pre r post tag m ps p g ht hd hdev hp hne hothers
    have hg := devIndex_device hdev
    have hT : DirTouch cv c b r ⟨p.key.toList, some (g : Int)⟩ :=
      Or.inr (Or.inl ⟨tag, m, ps, g, hd, hg, rfl, p, hp, rfl⟩)
    obtain ⟨c1, c2, a1, a2, a3⟩ := last pre r post ⟨p.key.toList, some (g : Int)⟩ ht
      (key_plain (format_of hd) p hp) (fun ⟨m', ps', hd'⟩ => by simpa using (describes_unique hd hd').1)
      (dirTouch_name hT).1 (dirTouch_name hT).2 (by
        intro r' hr' hT'
        rcases dev rfl hT' with h | h
        · obtain ⟨m', ps', hd', hk'⟩ := h
          obtain ⟨p', hp', he⟩ := List.mem_map.mp hk'
          exact avoids_use gens_loads (gens_mem rfl hd') hp' (he ▸ mem_keysOf (loads_mem rfl hd) hp)
        · rw [device_name hdev] at h
          exact hothers r' hr' h)
    have hprop := hall r (by rw [ht]; simp)
    rcases hprop with ⟨w, m', ps', hd', hc⟩ | hu'
    swap
    · exact absurd hu' (models_all hd)
    obtain ⟨rfl, rfl, rfl⟩ := describes_unique hd hd'
    obtain ⟨c2', e1, _, _, e4⟩ := busRec_load hd hc hsz a1
    rw [a2] at e1
    obtain rfl := Option.some.inj e1
    exact stored_congr a3 (e4 g hg p hp hne)
  · rw [← relays_count, ← relays_count]
    exact ⟨h3, h4⟩
  · intro t k hk hg hst hR
    refine h5 t k hk ?_ (by rw [relays_count]; exact hR)
    intro r hr hT
    have hT0 := hT
    rcases hT with hT | hT | hT
    · obtain ⟨g', name', he, hgv⟩ := gives_of_touch hT
      exact (hg g' name' r he hr).1 hgv
    · obtain ⟨g', name', he, hgv⟩ := gives_of_loadTouch hT
      exact (hg g' name' r he hr).2 hgv
    · obtain ⟨tag, m, ps, hd, _, hi, p, hp, hn⟩ := hT
      refine hst p.key r tag ?_ hr ⟨m, ps, hd, List.mem_map.mpr ⟨p, hp, rfl⟩⟩
      obtain ⟨nm, ix⟩ := k
      simp only at hi hn
      rw [hi, hn]

/-! ## All buses -/

theorem atBus_ok {net : Net} (hnd : (net.buses.map (·.1)).Nodup) {o : Int} {f : Data → Option Data}
    (hf : ∀ c, (o, c) ∈ net.buses → ∃ c', f c = some c') :
    ∃ net', atBus net o f = some net' ∧ net'.branches = net.branches ∧ net'.buses.map (·.1) = net.buses.map (·.1) ∧
      ∀ (i : Nat) b c, net.buses[i]? = some (b, c) → ∃ c', net'.buses[i]? = some (b, c') ∧
        (if o = b then f c else some c) = some c' := by
  unfold atBus
  cases h : net.buses.findIdx? (fun b => decide (b.1 = o)) with
  | none =>
    rw [List.findIdx?_eq_none_iff] at h
    refine ⟨net, rfl, rfl, rfl, fun i b c hi => ⟨c, hi, ?_⟩⟩
    have := h _ (List.mem_of_getElem? hi)
    simp only [decide_eq_false_iff_not] at this
    rw [if_neg (fun he => this he.symm)]
  | some j =>
    rw [List.findIdx?_eq_some_iff_getElem] at h
    obtain ⟨hj, hjo, _⟩ := h
    simp only [decide_eq_true_eq] at hjo
    obtain ⟨d, hd⟩ : ∃ d, net.buses[j] = (o, d) := ⟨net.buses[j].2, by rw [← hjo]⟩
    have hget : net.buses[j]? = some (o, d) := by rw [List.getElem?_eq_getElem hj, hd]
    obtain ⟨c', hc'⟩ := hf d (List.mem_of_getElem? hget)
    simp only
    rw [modifyAt_some hget (b := (o, c')) (by simp [hc'])]
    refine ⟨_, rfl, rfl, ?_, ?_⟩
    · simp only
      apply List.ext_getElem?
      intro i
      rw [List.getElem?_map, List.getElem?_map, List.getElem?_set]
      by_cases hij : j = i
      · subst hij
        simp [hj, hd]
      · simp [hij]
    · intro i b c hi
      simp only
      by_cases hij : j = i
      · subst hij
        rw [hget] at hi
        obtain ⟨rfl, rfl⟩ := Prod.mk.inj (Option.some.inj hi)
        exact ⟨c', List.getElem?_set_self hj, by rw [if_pos rfl, hc']⟩
      · refine ⟨c, by rw [List.getElem?_set_ne hij, hi], ?_⟩
        rw [if_neg]
        intro he
        apply hij
        have e1 : (net.buses.map (·.1))[j]? = some o := by rw [List.getElem?_map, hget]; rfl
        have e2 : (net.buses.map (·.1))[i]? = some o := by rw [List.getElem?_map, hi, ← he]; rfl
        exact (List.getElem?_inj (by simpa using hj) hnd).mp (e1.trans e2.symm)

theorem directRec_ok {cv : Conv} {ts : List Str} {net : Net} (hnd : (net.buses.map (·.1)).Nodup) (hpr : Proper cv ts)
    (hline : ∀ e ∈ net.branches, ¬ IsLine cv e ts)
    (hf : ∀ b c, (b, c) ∈ net.buses → ∃ c', busRec cv b ts c = some c') :
    ∃ net', directRec cv ts net = some net' ∧ net'.branches = net.branches ∧
      net'.buses.map (·.1) = net.buses.map (·.1) ∧
      ∀ (i : Nat) b c, net.buses[i]? = some (b, c) → ∃ c', net'.buses[i]? = some (b, c') ∧
        busRec cv b ts c = some c' := by
  have fin : ∀ (o : Int) (f : Data → Option Data), directRec cv ts net = atBus net o f →
      (∀ b c, busRec cv b ts c = if o = b then f c else some c) →
      ∃ net', directRec cv ts net = some net' ∧ net'.branches = net.branches ∧
      net'.buses.map (·.1) = net.buses.map (·.1) ∧
      ∀ (i : Nat) b c, net.buses[i]? = some (b, c) → ∃ c', net'.buses[i]? = some (b, c') ∧
        busRec cv b ts c = some c' := by
    intro o f h1 h2
    obtain ⟨net', e1, e2, e3, e4⟩ := atBus_ok hnd (o := o) (f := f) (by
      intro c hc
      obtain ⟨c', h⟩ := hf o c hc
      rw [h2, if_pos rfl] at h
      exact ⟨c', h⟩)
    refine ⟨net', by rw [h1, e1], e2, e3, ?_⟩
    intro i b c hi
    obtain ⟨c', h3, h4⟩ := e4 i b c hi
    exact ⟨c', h3, by rw [h2, h4]⟩
  have skip : directRec cv ts net = some net → (∀ b c, busRec cv b ts c = some c) →
      ∃ net', directRec cv ts net = some net' ∧ net'.branches = net.branches ∧
      net'.buses.map (·.1) = net.buses.map (·.1) ∧
      ∀ (i : Nat) b c, net.buses[i]? = some (b, c) → ∃ c', net'.buses[i]? = some (b, c') ∧
        busRec cv b ts c = some c' :=
    fun h1 h2 => ⟨net, h1, rfl, rfl, fun i b c hi => ⟨c, hi, h2 b c⟩⟩
  rcases hpr with ⟨w, m, ps, hd, hc⟩ | hu
  · have hd' := hd
    cases hd with
    | @gen m ps t0 t1 t2 hm h0 h1 h2 hn =>
      refine fin (cv.atoi t0) (directGen cv ts m.toList) ?_ ?_
      · unfold directRec
        simp only [h0, h1, hn, (gens_ext _ hm).known, if_true]
      · intro b c
        simp only [busRec, h0, h1, hn, (gens_ext _ hm).known, if_true]
    | @load m ps t0 t1 t2 hm h0 h1 h2 hn =>
      obtain ⟨n1, n2, n3, n4⟩ := loads_kind _ hm
      refine fin (cv.atoi t0) (directLoad cv ts m.toList) ?_ ?_
      · unfold directRec
        simp only [h0, h1, hn, n1, n2, n3, if_true, if_false, Bool.false_eq_true]
      · intro b c
        simp only [busRec, h0, h1, hn, n1, n2, n3, if_true, if_false, Bool.false_eq_true]
    | @userLoad m ps t0 t1 t2 t3 hm h0 h1 h2 h3 hn hp hp' =>
      obtain ⟨n1, n2, n3⟩ := usrlod_kind
      refine fin (cv.atoi t0) (directLoad cv ts "USRLOD".toList) ?_ ?_
      · unfold directRec
        simp only [h0, h1, hn, n1, n2, n3, if_true, if_false, Bool.false_eq_true]
      · intro b c
        simp only [busRec, h0, h1, hn, n1, n2, n3, if_true, if_false, Bool.false_eq_true]
    | @voltage t0 t1 h0 h1 hn =>
      obtain ⟨n1, n2, n3, _⟩ := lvshbl_kind
      refine fin (cv.atoi t0) (parseRelay cv lvshbl ts) ?_ ?_
      · unfold directRec
        simp only [h0, h1, hn, n1, n2, n3, if_true, if_false, Bool.false_eq_true]
      · intro b c
        simp only [busRec, h0, h1, hn, n1, n2, n3, if_true, if_false, Bool.false_eq_true]
    | @frequency t0 t1 t3 h0 h1 h3 hn =>
      obtain ⟨n1, n2, n4, n3, _⟩ := frqtpat_kind
      refine fin (cv.atoi t3) (parseRelay cv frqtpat ts) ?_ ?_
      · unfold directRec
        simp only [h0, h1, h3, hn, n1, n2, n3, n4, if_true, if_false, Bool.false_eq_true]
      · intro b c
        simp only [busRec, h0, h1, h3, hn, n1, n2, n3, n4, if_true, if_false, Bool.false_eq_true]
    | line h0 h1 h2 hn =>
      rename_i t0 t1 t2
      obtain ⟨n1, n2, n3, n4, _⟩ := distr1_kind
      refine skip ?_ (fun b c => busRec_other hd' (by simp [atPlace]) c)
      have : (cv.atoi t0, cv.atoi t2) ∉ net.branches := fun hm => hline _ hm ⟨_, _, hd'⟩
      unfold directRec
      simp only [h0, h1, h2, hn, n1, n2, n3, n4, this, if_true, if_false, Bool.false_eq_true]
  · refine skip ?_ (fun b c => busRec_unknown hu c)
    obtain ⟨t0, t1, h0, h1, hne⟩ := hu
    simp only [directRec, h0, h1, unknown_isIn hne (l := genModels) (by simp +contextual),
      unknown_isIn hne (l := busModels) (by simp +contextual),
      unknown_isIn hne (l := loadModels) (by simp +contextual),
      unknown_isIn hne (l := branchModels) (by simp +contextual), Bool.false_eq_true, if_false]

/-- The direct reading goes bus by bus. -/
theorem direct_buses {cv : Conv} : ∀ (recs : List (List Str)) (net : Net), (net.buses.map (·.1)).Nodup →
    (∀ r ∈ recs, Proper cv r) → (∀ r ∈ recs, ∀ e ∈ net.branches, ¬ IsLine cv e r) →
    (∀ b c, (b, c) ∈ net.buses → ∃ c', runList (busRec cv b) recs c = some c') →
    ∃ net', direct cv recs net = some net' ∧ net'.buses.map (·.1) = net.buses.map (·.1) ∧
      ∀ (i : Nat) b c, net.buses[i]? = some (b, c) → ∃ c', net'.buses[i]? = some (b, c') ∧
        runList (busRec cv b) recs c = some c' := by
  intro recs
  induction recs with
  | nil => intro net _ _ _ _; exact ⟨net, rfl, rfl, fun i b c hi => ⟨c, hi, rfl⟩⟩
  | cons r recs ih =>
    intro net hnd hall hline hf
    obtain ⟨net1, e1, e2, e3, e4⟩ := directRec_ok hnd (hall r (by simp)) (hline r (by simp)) (by
      intro b c hbc
      obtain ⟨c', hc'⟩ := hf b c hbc
      simp only [runList, Option.bind_eq_some_iff] at hc'
      obtain ⟨d, hd, _⟩ := hc'
      exact ⟨d, hd⟩)
    obtain ⟨net2, f1, f2, f3⟩ := ih net1 (by rw [e3]; exact hnd) (fun x hx => hall x (by simp [hx]))
      (by rw [e2]; exact fun x hx => hline x (by simp [hx])) (by
        intro b c1 hbc
        obtain ⟨i, hi⟩ := List.getElem?_of_mem hbc
        have hlt : i < net.buses.length := by
          have h1 := congrArg List.length e3
          simp only [List.length_map] at h1
          rw [← h1]
          exact (List.getElem?_eq_some_iff.mp hi).1
        obtain ⟨c1', g1, g2⟩ := e4 i net.buses[i].1 net.buses[i].2 (List.getElem?_eq_getElem hlt)
        rw [hi] at g1
        obtain ⟨rfl, rfl⟩ := Prod.mk.inj (Option.some.inj g1)
        obtain ⟨c', hc'⟩ := hf net.buses[i].1 net.buses[i].2 (List.getElem_mem hlt)
        simp only [runList, g2, Option.bind_some] at hc'
        exact ⟨c', hc'⟩)
    refine ⟨net2, by simp [direct, e1, f1], by rw [f2, e3], ?_⟩
    intro i b c hi
    obtain ⟨c1, g1, g2⟩ := e4 i b c hi
    obtain ⟨c2, g3, g4⟩ := f3 i b c1 g1
    exact ⟨c2, g3, by simp [runList, g2, g4]⟩

/-- The direct reading of a file. -/
theorem direct_ok {cv : Conv} (texts : List (List Str)) (net : Net) (hnd : (net.buses.map (·.1)).Nodup)
    (hall : ∀ r ∈ texts, Proper cv r) (hline : ∀ r ∈ texts, ∀ e ∈ net.branches, ¬ IsLine cv e r)
    (hu : ∀ b c, (b, c) ∈ net.buses → Usable texts.length c) :
    ∃ net', direct cv texts net = some net' ∧ net'.buses.map (·.1) = net.buses.map (·.1) ∧
      ∀ (i : Nat) b c, net.buses[i]? = some (b, c) → ∃ c', net'.buses[i]? = some (b, c') ∧
        DirectAfter cv texts b c c' := by
  obtain ⟨net', h1, h2, h3⟩ := direct_buses texts net hnd hall hline (by
    intro b c hbc
    obtain ⟨c', hc', _⟩ := directAfter_of (b := b) hall (hu b c hbc)
    exact ⟨c', hc'⟩)
  refine ⟨net', h1, h2, ?_⟩
  intro i b c hi
  obtain ⟨c', g1, g2⟩ := h3 i b c hi
  obtain ⟨d, d1, d2⟩ := directAfter_of (b := b) hall (hu b c (List.mem_of_getElem? hi))
  rw [g2] at d1
  obtain rfl := Option.some.inj d1
  exact ⟨c', g1, d2⟩

end GridPACK.Dyr
