import Verif.Spec.PetscOptions
import Mathlib.Tactic.Common
import Mathlib.Data.List.Induction

/-! Auxiliary lemmas about the option table of PETSc. -/
namespace GridPACK.PetscOptions

theorem wordsAux_append (w : Str) : ∀ (cur rest : Str), (∀ c ∈ w, isSep c = false) →
    wordsAux cur (w ++ rest) = wordsAux (w.reverse ++ cur) rest := by
  induction w with
  | nil => intro cur rest _; rfl
  | cons c w ih =>
    intro cur rest h
    have hc : isSep c = false := h c (by simp)
    simp only [List.cons_append, wordsAux, hc]
    rw [if_neg (by simp), ih _ _ (fun d hd => h d (by simp [hd]))]
    simp

theorem words_join (ws : List Str) (h : ∀ w ∈ ws, w ≠ [] ∧ ∀ c ∈ w, isSep c = false) :
    words (ws.flatMap (fun w => w ++ [' '])) = ws := by
  induction ws with
  | nil => rfl
  | cons w ws ih =>
    have hw := h w (by simp)
    have ih' := ih (fun v hv => h v (by simp [hv]))
    unfold words at ih' ⊢
    rw [List.flatMap_cons, List.append_assoc, wordsAux_append _ _ _ hw.2]
    have hs : isSep ' ' = true := by decide
    simp only [List.append_nil, List.cons_append, List.nil_append, wordsAux, hs]
    rw [if_pos trivial, if_neg (by simpa using hw.1), ih', List.reverse_reverse]

theorem wordsAux_mem : ∀ (s cur : Str), (∀ c ∈ cur, isSep c = false) → ∀ w ∈ wordsAux cur s,
    w ≠ [] ∧ ∀ c ∈ w, isSep c = false := by
  intro s
  induction s with
  | nil =>
    intro cur h w hw
    unfold wordsAux at hw
    split at hw
    · simp at hw
    · rename_i hne
      simp only [List.mem_singleton] at hw
      subst hw
      exact ⟨by simpa using hne, fun c hc => h c (by simpa using hc)⟩
  | cons c s ih =>
    intro cur h w hw
    unfold wordsAux at hw
    split at hw
    · split at hw
      · exact ih [] (by simp) w hw
      · rename_i hne
        rcases List.mem_cons.1 hw with rfl | hw
        · exact ⟨by simpa using hne, fun c hc => h c (by simpa using hc)⟩
        · exact ih [] (by simp) w hw
    · rename_i hc
      refine ih (c :: cur) ?_ w hw
      intro d hd
      rcases List.mem_cons.1 hd with rfl | hd
      · simpa using hc
      · exact h d hd

theorem words_mem (s : Str) (w : Str) (hw : w ∈ words s) : w ≠ [] ∧ ∀ c ∈ w, isSep c = false :=
  wordsAux_mem s [] (by simp) w hw

theorem dash_notSep : isSep '-' = false := by decide

theorem prefixOptionMaybe_ok (pre w : Str) (hp : ∀ c ∈ pre, isSep c = false)
    (hw : w ≠ [] ∧ ∀ c ∈ w, isSep c = false) :
    prefixOptionMaybe pre w ≠ [] ∧ ∀ c ∈ prefixOptionMaybe pre w, isSep c = false := by
  unfold prefixOptionMaybe
  split
  · split
    · refine ⟨by simp, ?_⟩
      intro c hc
      rcases List.mem_cons.1 hc with rfl | hc
      · exact dash_notSep
      · rcases List.mem_append.1 hc with hc | hc
        · exact hp c hc
        · exact hw.2 c (by simp only [List.mem_cons] at hc ⊢; tauto)
    · exact hw
  · exact hw

theorem words_loaded (pre opts : Str) (hp : ∀ c ∈ pre, isSep c = false) :
    words (loadedString pre opts) = (words opts).map (prefixOptionMaybe pre) := by
  unfold loadedString
  rw [show (words opts).flatMap (fun w => prefixOptionMaybe pre w ++ [' ']) =
    ((words opts).map (prefixOptionMaybe pre)).flatMap (fun w => w ++ [' ']) from by rw [List.flatMap_map]]
  apply words_join
  intro w hw
  obtain ⟨v, hv, rfl⟩ := List.mem_map.1 hw
  exact prefixOptionMaybe_ok pre v hp (words_mem _ _ hv)

theorem keyOf_lower {c : Char} {r : Str} (h : c.isAlpha = true) : keyOf ('-' :: c :: r) = some (c :: r) := by
  unfold keyOf
  simp [h]

theorem isAlpha_of_isLower {c : Char} (h : c.isLower = true) : c.isAlpha = true := by
  unfold Char.isAlpha
  simp [h]

/-- A value is left alone. -/
theorem prefixOptionMaybe_value (pre v : Str) (h : keyOf v = none) : prefixOptionMaybe pre v = v := by
  unfold prefixOptionMaybe
  split
  · rename_i d c r
    split
    · rename_i hd
      rw [hd.1, keyOf_lower (isAlpha_of_isLower hd.2)] at h
      simp at h
    · rfl
  · rfl

/-- An option with the prefix put before its name. -/
def Opt.pre (p : Str) (o : Opt) : Opt := ⟨p ++ o.name, o.value⟩

theorem map_prefix_words (pre : Str) (o : Opt) (h : o.Wf) :
    o.words.map (prefixOptionMaybe pre) = (o.pre pre).words := by
  obtain ⟨⟨c, r, hn, hc⟩, hv⟩ := h
  have h1 : prefixOptionMaybe pre ('-' :: o.name) = '-' :: (pre ++ o.name) := by
    rw [hn]
    simp [prefixOptionMaybe, hc]
  unfold Opt.words Opt.pre
  cases hval : o.value with
  | none => simp [h1]
  | some v => simp [h1, prefixOptionMaybe_value pre v (hv v hval)]

theorem map_prefix_all (pre : Str) (os : List Opt) (h : ∀ o ∈ os, o.Wf) :
    (os.flatMap Opt.words).map (prefixOptionMaybe pre) = (os.map (Opt.pre pre)).flatMap Opt.words := by
  induction os with
  | nil => rfl
  | cons o os ih =>
    rw [List.flatMap_cons, List.map_append, map_prefix_words pre o (h o (by simp)),
      ih (fun x hx => h x (by simp [hx])), List.map_cons, List.flatMap_cons]

/-- An option as PETSc takes it. -/
def Opt.Ok (o : Opt) : Prop :=
  (∃ c r, o.name = c :: r ∧ c.isAlpha = true) ∧ ∀ v, o.value = some v → keyOf v = none

theorem insertWords_opts (os : List Opt) : (∀ o ∈ os, o.Ok) → ∀ db,
    insertWords (os.flatMap Opt.words) db = os.foldl (fun db o => setValue db o.name o.value) db := by
  induction os with
  | nil => intro _ db; rfl
  | cons o os ih =>
    intro h db
    obtain ⟨⟨c, r, hn, hc⟩, hv⟩ := h o (by simp)
    have ih' := ih (fun x hx => h x (by simp [hx]))
    have hk : keyOf ('-' :: o.name) = some o.name := by rw [hn]; exact keyOf_lower hc
    rw [List.flatMap_cons, List.foldl_cons, ← ih']
    unfold Opt.words
    cases hval : o.value with
    | some v =>
      simp only [List.cons_append, List.nil_append]
      rw [insertWords]
      simp only [hk, hv v hval]
    | none =>
      simp only [List.cons_append, List.nil_append]
      cases os with
      | nil => rw [List.flatMap_nil]; unfold insertWords; rw [hk]
      | cons o2 os2 =>
        obtain ⟨⟨c2, r2, hn2, hc2⟩, hv2⟩ := h o2 (by simp)
        have hk2 : keyOf ('-' :: o2.name) = some o2.name := by rw [hn2]; exact keyOf_lower hc2
        rw [List.flatMap_cons]
        have : ∃ t, Opt.words o2 ++ List.flatMap Opt.words os2 = ('-' :: o2.name) :: t := by
          unfold Opt.words
          cases o2.value <;> simp
        obtain ⟨t, ht⟩ := this
        have ht' : (match o2.value with
            | none => ['-' :: o2.name]
            | some v => ['-' :: o2.name, v]) ++ List.flatMap Opt.words os2 = ('-' :: o2.name) :: t := ht
        change insertWords (('-' :: o.name) :: (Opt.words o2 ++ List.flatMap Opt.words os2)) db =
          insertWords (Opt.words o2 ++ List.flatMap Opt.words os2) (setValue db o.name none)
        rw [ht, insertWords]
        simp only [hk, hk2]

theorem foldl_setValue (os : List Opt) (k : Str) : ∀ db : Db,
    os.foldl (fun db o => setValue db o.name o.value) db k =
      (((os.filter (fun o => k = lower o.name)).getLast?).map Opt.value).or (db k) := by
  induction os using List.reverseRecOn with
  | nil => intro db; rfl
  | append_singleton os o ih =>
    intro db
    rw [List.foldl_append, List.filter_append]
    simp only [List.foldl_cons, List.foldl_nil, setValue]
    by_cases h : k = lower o.name
    · simp [h]
    · simp [h, ih]

theorem lower_append (a b : Str) : lower (a ++ b) = lower a ++ lower b := by simp [lower]

theorem ok_pre (pre : Str) (hp : ∃ c r, pre = c :: r ∧ c.isAlpha = true) (o : Opt) (h : o.Wf) : (o.pre pre).Ok := by
  obtain ⟨c, r, hpc, hc⟩ := hp
  exact ⟨⟨c, r ++ o.name, by simp [Opt.pre, hpc], hc⟩, h.2⟩

theorem process_db (pre opts : Str) (os : List Opt) (hs : Says opts os)
    (hp : ∃ c r, pre = c :: r ∧ c.isAlpha = true) (hb : ∀ c ∈ pre, isSep c = false) (db : Db) (k : Str) :
    insertWords (words (loadedString pre opts)) db k =
      (((os.filter (fun o => k = lower (pre ++ o.name))).getLast?).map Opt.value).or (db k) := by
  rw [words_loaded _ _ hb, hs.2, map_prefix_all pre os hs.1, insertWords_opts, foldl_setValue]
  · congr 1
    rw [List.filter_map]
    simp only [Function.comp_def]
    rw [List.getLast?_map, Option.map_map]
    rfl
  · intro o ho
    obtain ⟨q, hq, rfl⟩ := List.mem_map.1 ho
    exact ok_pre pre hp q (hs.1 q hq)

theorem normPrefix_ok (p : Str) (P : Char → Prop) (h : ∃ c r, p = c :: r ∧ P c) :
    ∃ c r, normPrefix p = c :: r ∧ P c := by
  obtain ⟨c, r, rfl, hc⟩ := h
  unfold normPrefix
  split
  · exact ⟨c, r, rfl, hc⟩
  · exact ⟨c, r ++ ['_'], rfl, hc⟩

theorem normPrefix_blank (p : Str) (h : ∀ c ∈ p, isSep c = false) : ∀ c ∈ normPrefix p, isSep c = false := by
  unfold normPrefix
  split
  · exact h
  · intro c hc
    rcases List.mem_append.1 hc with hc | hc
    · exact h c hc
    · simp only [List.mem_singleton] at hc
      subst hc
      decide

theorem filter_saysAbout (pre : Str) (os : List Opt) (n : Str) :
    ((os.filter (fun o => lower (pre ++ n) = lower (pre ++ o.name))).getLast?).map Opt.value = saysAbout os n := by
  unfold saysAbout
  congr 3
  funext o
  simp only [lower_append, List.append_cancel_left_eq]
  exact decide_eq_decide.2 eq_comm

/-- Clearing. -/
theorem foldl_clear (ws : List Str) (k : Str) : ∀ db : Db,
    ws.foldl (fun db w => if looksLoaded w then clearValue db w else db) db k =
      if ∃ w ∈ ws, looksLoaded w = true ∧ (keyOf w).map lower = some k then none else db k := by
  induction ws with
  | nil => intro db; simp
  | cons w ws ih =>
    intro db
    rw [List.foldl_cons, ih]
    by_cases h : ∃ v ∈ ws, looksLoaded v = true ∧ (keyOf v).map lower = some k
    · rw [if_pos h, if_pos]
      obtain ⟨v, hv, hh⟩ := h
      exact ⟨v, by simp [hv], hh⟩
    · rw [if_neg h]
      by_cases hw : looksLoaded w = true ∧ (keyOf w).map lower = some k
      · have e : ∃ v ∈ w :: ws, looksLoaded v = true ∧ (keyOf v).map lower = some k := ⟨w, by simp, hw⟩
        rw [if_pos e]
        simp only [hw.1, if_true]
        unfold clearValue
        cases hk : keyOf w with
        | none => rw [hk] at hw; simp at hw
        | some n =>
          rw [hk] at hw
          simp only [Option.map_some, Option.some.injEq] at hw
          simp [hw.2]
      · have e : ¬ ∃ v ∈ w :: ws, looksLoaded v = true ∧ (keyOf v).map lower = some k := by
          rintro ⟨v, hv, hh⟩
          rcases List.mem_cons.1 hv with h1 | hv
          · rw [h1] at hh; exact hw hh
          · exact h ⟨v, hv, hh⟩
        rw [if_neg e]
        by_cases hl : looksLoaded w = true
        · simp only [hl, if_true]
          unfold clearValue
          cases hk : keyOf w with
          | none => rfl
          | some n =>
            simp only
            rw [if_neg]
            intro hkn
            exact hw ⟨hl, by simp [hk, hkn]⟩
        · simp only [hl, if_false, Bool.false_eq_true]

/-- A value word is never cleared. -/
theorem looksLoaded_key {w : Str} (h : looksLoaded w = true) : ∃ n, keyOf w = some n := by
  unfold looksLoaded at h
  split at h
  · rename_i d c r
    simp only [Bool.and_eq_true, decide_eq_true_eq] at h
    refine ⟨c :: r, ?_⟩
    rw [h.1]
    exact keyOf_lower (isAlpha_of_isLower h.2)
  · simp at h

theorem unprocess_db (pre opts : Str) (os : List Opt) (hs : Says opts os)
    (hp : ∃ c r, pre = c :: r ∧ c.isLower = true) (hb : ∀ c ∈ pre, isSep c = false) (db : Db) (k : Str) :
    unprocessOptions ⟨pre, loadedString pre opts⟩ db k =
      if ∃ o ∈ os, k = lower (pre ++ o.name) then none else db k := by
  unfold unprocessOptions
  rw [foldl_clear]
  simp only
  rw [words_loaded _ _ hb, hs.2, map_prefix_all pre os hs.1]
  obtain ⟨c, r, hpc, hc⟩ := hp
  congr 1
  apply propext
  constructor
  · rintro ⟨w, hw, hl, hk⟩
    obtain ⟨q, hq, hwq⟩ := List.mem_flatMap.1 hw
    obtain ⟨o, ho, rfl⟩ := List.mem_map.1 hq
    refine ⟨o, ho, ?_⟩
    have hkey : keyOf ('-' :: (pre ++ o.name)) = some (pre ++ o.name) := by
      rw [hpc]; exact keyOf_lower (isAlpha_of_isLower hc)
    have hv := (hs.1 o ho).2
    unfold Opt.words Opt.pre at hwq
    cases hval : o.value with
    | none =>
      simp only [hval, List.mem_singleton] at hwq
      subst hwq
      rw [hkey] at hk
      simpa using hk.symm
    | some v =>
      simp only [hval, List.mem_cons, List.not_mem_nil, or_false] at hwq
      rcases hwq with rfl | rfl
      · rw [hkey] at hk
        simpa using hk.symm
      · rw [hv _ hval] at hk
        simp at hk
  · rintro ⟨o, ho, hk⟩
    refine ⟨'-' :: (pre ++ o.name), ?_, ?_, ?_⟩
    · refine List.mem_flatMap.2 ⟨o.pre pre, List.mem_map.2 ⟨o, ho, rfl⟩, ?_⟩
      unfold Opt.words Opt.pre
      cases o.value <;> simp
    · rw [hpc]
      simp [looksLoaded, hc]
    · rw [hpc]
      simp only [List.cons_append]
      rw [keyOf_lower (isAlpha_of_isLower hc)]
      simp [hk, hpc]

theorem lastOf_append_configure (ops : List Op) (i j : Nat) (p o : Str) :
    lastOf (ops ++ [.configure i p o]) j = if i = j then some (.configure i p o) else lastOf ops j := by
  unfold lastOf
  rw [List.filter_append]
  by_cases h : i = j <;> simp [h]

theorem lastOf_append_destroy (ops : List Op) (i j : Nat) :
    lastOf (ops ++ [.destroy i]) j = if i = j then some (.destroy i) else lastOf ops j := by
  unfold lastOf
  rw [List.filter_append]
  by_cases h : i = j <;> simp [h]

theorem run_append (db : Db) (ops : List Op) (o : Op) : run db (ops ++ [o]) = step (run db ops) o := by
  unfold run
  rw [List.foldl_append]
  rfl

end GridPACK.PetscOptions
