import Verif.Lemmas.PetscOptions

/-! C262–C264: the options of solver objects. -/
namespace GridPACK.PetscOptions

/-- C262.  After `configure` an object finds, under every name, the value of the last option of its own option
string with that name, and under all other names what the table held before.  Entries whose names do not begin
with its prefix stay as they are. -/
theorem C262_configure (p opts : Str) (os : List Opt) (db : Db)
    (hp : (∃ c r, p = c :: r ∧ c.isAlpha = true) ∧ ∀ c ∈ p, isSep c = false) (hs : Says opts os) :
    (processOptions p opts db).1.pre = normPrefix p ∧
    (∀ n, view (processOptions p opts db).2 (normPrefix p) n =
      (saysAbout os n).or (view db (normPrefix p) n)) ∧
    (∀ k, ¬ lower (normPrefix p) <+: k → (processOptions p opts db).2 k = db k) := by
  refine ⟨rfl, ?_, ?_⟩
  · intro n
    unfold view processOptions
    simp only
    rw [process_db _ _ os hs (normPrefix_ok p _ hp.1) (normPrefix_blank p hp.2), filter_saysAbout]
  · intro k hk
    unfold processOptions
    simp only
    rw [process_db _ _ os hs (normPrefix_ok p _ hp.1) (normPrefix_blank p hp.2)]
    rw [show os.filter (fun o => decide (k = lower (normPrefix p ++ o.name))) = [] from ?_]
    · rfl
    · rw [List.filter_eq_nil_iff]
      intro o _ h
      simp only [decide_eq_true_eq] at h
      exact hk ⟨lower o.name, by rw [h, lower_append]⟩

/-- The states of the objects along a clean history. -/
theorem run_obj (pre : Nat → Str) (db0 : Db) (ops : List Op) (h : Clean pre ops) (i : Nat) :
    (∀ q o, lastOf ops i = some (.configure i q o) →
      q = pre i ∧ (∃ os, Says o os) ∧
      (run db0 ops).obj i = ⟨normPrefix (pre i), loadedString (normPrefix (pre i)) o⟩) ∧
    ((∀ q o, lastOf ops i ≠ some (.configure i q o)) → (run db0 ops).obj i = Obj.new) := by
  induction h with
  | nil => exact ⟨by simp [lastOf], fun _ => rfl⟩
  | configure ops j opts os hc hs hn ih =>
    rw [run_append, lastOf_append_configure]
    by_cases hij : j = i
    · subst hij
      simp only [if_true, step]
      refine ⟨?_, fun h => absurd rfl (h _ _)⟩
      intro q o hq
      simp only [Option.some.injEq, Op.configure.injEq, true_and] at hq
      obtain ⟨rfl, rfl⟩ := hq
      exact ⟨rfl, ⟨os, hs⟩, rfl⟩
    · rw [if_neg hij]
      have : (step (run db0 ops) (.configure j (pre j) opts)).obj i = (run db0 ops).obj i := by
        simp [step, Ne.symm hij]
      rw [this]
      exact ih
  | destroy ops j hc ih =>
    rw [run_append, lastOf_append_destroy]
    by_cases hij : j = i
    · subst hij
      simp [step]
    · rw [if_neg hij]
      have : (step (run db0 ops) (.destroy j)).obj i = (run db0 ops).obj i := by
        simp [step, Ne.symm hij]
      rw [this]
      exact ih

theorem unprocess_new (db : Db) : unprocessOptions Obj.new db = db := rfl

/-- C263, C264.  In every history of solver objects that are configured once each and whose prefixes begin with
small letters and are apart, every living object finds exactly its own options, a destroyed object leaves
nothing behind, and entries of others (for instance of the command line) stay as they are. -/
theorem C263_history_partial (pre : Nat → Str) (db0 : Db) (ops : List Op)
    (hgood : ∀ i, GoodPrefix (pre i))
    (hapart : ∀ i j, i ≠ j → Apart (normPrefix (pre i)) (normPrefix (pre j)))
    (hfree : ∀ i n, view db0 (normPrefix (pre i)) n = none)
    (h : Clean pre ops) :
    (∀ i p opts os, lastOf ops i = some (.configure i p opts) → Says opts os →
      ∀ n, view (run db0 ops).db (normPrefix (pre i)) n = saysAbout os n) ∧
    (∀ i, (∀ p opts, lastOf ops i ≠ some (.configure i p opts)) →
      ∀ n, view (run db0 ops).db (normPrefix (pre i)) n = none) ∧
    (∀ k, (∀ i, ¬ lower (normPrefix (pre i)) <+: k) → (run db0 ops).db k = db0 k) := by
  have sayUnique : ∀ (s : Str) (o1 o2 : List Opt) (q : Str), GoodPrefix q → Says s o1 → Says s o2 →
      ∀ n, saysAbout o1 n = saysAbout o2 n := by
    intro s o1 o2 q hq h1 h2 n
    have e1 := (C262_configure q s o1 (fun _ => none) ⟨by
      obtain ⟨c, r, e, hc⟩ := hq.1; exact ⟨c, r, e, isAlpha_of_isLower hc⟩, hq.2⟩ h1).2.1 n
    have e2 := (C262_configure q s o2 (fun _ => none) ⟨by
      obtain ⟨c, r, e, hc⟩ := hq.1; exact ⟨c, r, e, isAlpha_of_isLower hc⟩, hq.2⟩ h2).2.1 n
    rw [e1] at e2
    simpa [view] using e2
  have alpha : ∀ i, (∃ c r, pre i = c :: r ∧ c.isAlpha = true) ∧ ∀ c ∈ pre i, isSep c = false := by
    intro i
    obtain ⟨⟨c, r, e, hc⟩, hb⟩ := hgood i
    exact ⟨⟨c, r, e, isAlpha_of_isLower hc⟩, hb⟩
  have noext : ∀ i j n, i ≠ j → ¬ lower (normPrefix (pre j)) <+: lower (normPrefix (pre i) ++ n) := by
    intro i j n hij hpre
    have h1 : lower (normPrefix (pre i)) <+: lower (normPrefix (pre i) ++ n) :=
      ⟨lower n, (lower_append _ _).symm⟩
    rcases List.prefix_or_prefix_of_prefix h1 hpre with h2 | h2
    · exact (hapart i j hij).1 h2
    · exact (hapart i j hij).2 h2
  induction h with
  | nil =>
    refine ⟨fun i p opts os h => by simp [lastOf] at h, fun i _ n => hfree i n, fun k _ => rfl⟩
  | configure ops j opts os hc hs hn ih =>
    obtain ⟨ih1, ih2, ih3⟩ := ih
    obtain ⟨_, c1, c2⟩ := C262_configure (pre j) opts os (run db0 ops).db (alpha j) hs
    rw [run_append]
    have hdb : (step (run db0 ops) (.configure j (pre j) opts)).db =
      (processOptions (pre j) opts (run db0 ops).db).2 := rfl
    rw [hdb]
    refine ⟨?_, ?_, ?_⟩
    · intro i p o os' hl hs' n
      rw [lastOf_append_configure] at hl
      by_cases hij : j = i
      · subst hij
        simp only [if_true, Option.some.injEq, Op.configure.injEq, true_and] at hl
        obtain ⟨rfl, rfl⟩ := hl
        rw [c1, ih2 j hn, sayUnique _ os os' _ (hgood j) hs hs' n]
        simp
      · rw [if_neg hij] at hl
        unfold view
        rw [c2 _ (noext i j n (Ne.symm hij))]
        exact ih1 i p o os' hl hs' n
    · intro i hl n
      rw [lastOf_append_configure] at hl
      by_cases hij : j = i
      · subst hij
        exact absurd (by simp) (hl (pre j) opts)
      · simp only [if_neg hij] at hl
        unfold view
        rw [c2 _ (noext i j n (Ne.symm hij))]
        exact ih2 i hl n
    · intro k hk
      rw [c2 _ (hk j)]
      exact ih3 k hk
  | destroy ops j hc ih =>
    obtain ⟨ih1, ih2, ih3⟩ := ih
    rw [run_append]
    have hdb : (step (run db0 ops) (.destroy j)).db = unprocessOptions ((run db0 ops).obj j) (run db0 ops).db := rfl
    rw [hdb]
    obtain ⟨o1, o2⟩ := run_obj pre db0 ops hc j
    by_cases hlive : ∃ q o, lastOf ops j = some (.configure j q o)
    · obtain ⟨q, o, hl⟩ := hlive
      obtain ⟨rfl, ⟨os, hs⟩, hobj⟩ := o1 q o hl
      rw [hobj]
      have hu := unprocess_db _ _ os hs (normPrefix_ok (pre j) _ (hgood j).1)
        (normPrefix_blank (pre j) (hgood j).2) (run db0 ops).db
      refine ⟨?_, ?_, ?_⟩
      · intro i p o' os' hl' hs' n
        rw [lastOf_append_destroy] at hl'
        by_cases hij : j = i
        · subst hij
          simp at hl'
        · rw [if_neg hij] at hl'
          unfold view
          rw [hu, if_neg]
          · exact ih1 i p o' os' hl' hs' n
          · rintro ⟨x, _, hx⟩
            exact noext i j n (Ne.symm hij) (by rw [hx, lower_append]; exact ⟨_, rfl⟩)
      · intro i hl' n
        rw [lastOf_append_destroy] at hl'
        unfold view
        rw [hu]
        by_cases hij : j = i
        · subst hij
          split
          · rfl
          · rename_i hne
            have e := ih1 j _ o os hl hs n
            unfold view at e
            rw [e]
            unfold saysAbout
            rw [show os.filter (fun x => decide (lower x.name = lower n)) = [] from ?_]
            · rfl
            · rw [List.filter_eq_nil_iff]
              intro x hx hx'
              simp only [decide_eq_true_eq] at hx'
              exact hne ⟨x, hx, by rw [lower_append, lower_append, hx']⟩
        · simp only [if_neg hij] at hl'
          split
          · rfl
          · exact ih2 i hl' n
      · intro k hk
        rw [hu, if_neg]
        · exact ih3 k hk
        · rintro ⟨x, _, hx⟩
          exact hk j (by rw [hx, lower_append]; exact ⟨_, rfl⟩)
    · have hnl : ∀ q o, lastOf ops j ≠ some (.configure j q o) := fun q o h => hlive ⟨q, o, h⟩
      rw [o2 hnl, unprocess_new]
      refine ⟨?_, ?_, ih3⟩
      · intro i p o' os' hl' hs' n
        rw [lastOf_append_destroy] at hl'
        by_cases hij : j = i
        · subst hij
          simp at hl'
        · rw [if_neg hij] at hl'
          exact ih1 i p o' os' hl' hs' n
      · intro i hl' n
        rw [lastOf_append_destroy] at hl'
        by_cases hij : j = i
        · subst hij
          exact ih2 j hnl n
        · simp only [if_neg hij] at hl'
          exact ih2 i hl' n

/-- C263.  Prefixes that the library makes up (four letters each, 53-64) are good, and two of them that differ
in more than case are apart. -/
theorem C263_generated (p q : Str) (hp : p.length = 4) (hq : q.length = 4)
    (lp : ∀ c ∈ p, c.isLower = true ∧ isSep c = false) (lq : ∀ c ∈ q, c.isLower = true ∧ isSep c = false)
    (hne : lower p ≠ lower q) :
    GoodPrefix p ∧ GoodPrefix q ∧ Apart (normPrefix p) (normPrefix q) := by
  have good : ∀ s : Str, s.length = 4 → (∀ c ∈ s, c.isLower = true ∧ isSep c = false) → GoodPrefix s := by
    intro s hl hs
    match s, hl with
    | c :: r, _ => exact ⟨⟨c, r, rfl, (hs c (by simp)).1⟩, fun d hd => (hs d hd).2⟩
  have norm : ∀ s : Str, s.length = 4 → (∀ c ∈ s, c.isLower = true ∧ isSep c = false) →
      normPrefix s = s ++ ['_'] := by
    intro s _ hs
    unfold normPrefix
    rw [if_neg]
    intro h
    have := (hs '_' (List.mem_of_getLast? h)).1
    exact absurd this (by decide)
  refine ⟨good p hp lp, good q hq lq, ?_⟩
  rw [norm p hp lp, norm q hq lq]
  unfold Apart
  rw [lower_append, lower_append]
  have len : ∀ s : Str, (lower s).length = s.length := fun s => by simp [lower]
  constructor <;> intro h
  · have := h.eq_of_length (by simp [len, hp, hq])
    exact hne (List.append_cancel_right this)
  · have := h.eq_of_length (by simp [len, hp, hq])
    exact hne (List.append_cancel_right this).symm

/-- C263 fails for prefixes that begin with one another: an option `-Bname` in the configuration of the object
with prefix `A` is the option `-name` of every object whose prefix is `AB`, whatever is written there. -/
theorem C263_longer_prefix_violated (p q opts : Str) (os : List Opt) (db : Db)
    (hp : (∃ c r, p = c :: r ∧ c.isAlpha = true) ∧ ∀ c ∈ p, isSep c = false) (hs : Says opts os)
    (hq : q.getLast? = some '_') :
    ∀ n, normPrefix (normPrefix p ++ q) = normPrefix p ++ q ∧
      view (processOptions p opts db).2 (normPrefix p ++ q) n =
        (saysAbout os (q ++ n)).or (view db (normPrefix p ++ q) n) := by
  intro n
  constructor
  · have : (normPrefix p ++ q).getLast? = some '_' := by
      rw [List.getLast?_append, hq]; rfl
    generalize hx : normPrefix p ++ q = x at this
    unfold normPrefix
    rw [if_pos this]
  · have := (C262_configure p opts os db hp hs).2.1 (q ++ n)
    unfold view at this ⊢
    rw [List.append_assoc]
    exact this

/-- C264 (part).  An object that is configured once, with a prefix that begins with a small letter, and then
destroyed takes its own entries with it and leaves all others alone. -/
theorem C264_destroy_partial (p opts : Str) (os : List Opt) (db : Db) (hp : GoodPrefix p) (hs : Says opts os) (k : Str) :
    let r := processOptions p opts db
    unprocessOptions r.1 r.2 k = if ∃ o ∈ os, k = lower (normPrefix p ++ o.name) then none else db k := by
  intro r
  have ha : ∃ c r, p = c :: r ∧ c.isAlpha = true := by
    obtain ⟨c, r, e, hc⟩ := hp.1; exact ⟨c, r, e, isAlpha_of_isLower hc⟩
  have hr : r = (⟨normPrefix p, loadedString (normPrefix p) opts⟩,
    insertWords (words (loadedString (normPrefix p) opts)) db) := rfl
  rw [hr]
  simp only
  rw [unprocess_db _ _ os hs (normPrefix_ok p _ hp.1) (normPrefix_blank p hp.2)]
  split
  · rfl
  · rename_i h
    rw [process_db _ _ os hs (normPrefix_ok p _ ha) (normPrefix_blank p hp.2)]
    rw [show os.filter (fun o => decide (k = lower (normPrefix p ++ o.name))) = [] from ?_]
    · rfl
    · rw [List.filter_eq_nil_iff]
      intro o ho h'
      simp only [decide_eq_true_eq] at h'
      exact h ⟨o, ho, h'⟩

/-- C264 fails for every prefix that begins with a capital letter: destroying the object leaves all its options in
the table, where the next object with this prefix finds them. -/
theorem C264_capital_violated (p opts : Str) (os : List Opt) (db : Db)
    (hp : (∃ c r, p = c :: r ∧ c.isUpper = true) ∧ ∀ c ∈ p, isSep c = false) (hs : Says opts os) (n : Str) :
    let r := processOptions p opts db
    view (unprocessOptions r.1 r.2) (normPrefix p) n = (saysAbout os n).or (view db (normPrefix p) n) := by
  intro r
  obtain ⟨⟨c, t, hpc, hc⟩, hb⟩ := hp
  have ha : c.isAlpha = true := by unfold Char.isAlpha; simp [hc]
  have hnl : c.isLower = false := by
    cases h : c.isLower with
    | false => rfl
    | true =>
      exfalso
      simp only [Char.isUpper, Char.isLower, Bool.and_eq_true, decide_eq_true_eq] at hc h
      exact absurd (UInt32.le_trans h.1 hc.2) (by decide)
  have key : unprocessOptions r.1 r.2 = r.2 := by
    funext k
    have hr : r = (⟨normPrefix p, loadedString (normPrefix p) opts⟩,
      insertWords (words (loadedString (normPrefix p) opts)) db) := rfl
    unfold unprocessOptions
    rw [foldl_clear, if_neg]
    rintro ⟨w, hw, hl, hk⟩
    rw [hr] at hw
    simp only at hw
    rw [words_loaded _ _ (normPrefix_blank p hb), hs.2, map_prefix_all _ os hs.1] at hw
    obtain ⟨x, hx, hwx⟩ := List.mem_flatMap.1 hw
    obtain ⟨o, ho, rfl⟩ := List.mem_map.1 hx
    obtain ⟨c', r', hnp, rfl⟩ := normPrefix_ok p (fun d => d = c) ⟨c, t, hpc, rfl⟩
    have hno : looksLoaded ('-' :: (normPrefix p ++ o.name)) = false := by
      rw [hnp]
      simp [looksLoaded, hnl]
    unfold Opt.words Opt.pre at hwx
    cases hval : o.value with
    | none =>
      simp only [hval, List.mem_singleton] at hwx
      rw [hwx, hno] at hl
      simp at hl
    | some v =>
      simp only [hval, List.mem_cons, List.not_mem_nil, or_false] at hwx
      rcases hwx with rfl | rfl
      · rw [hno] at hl
        simp at hl
      · rw [(hs.1 o ho).2 _ hval] at hk
        simp at hk
  rw [key]
  exact (C262_configure p opts os db ⟨⟨c, t, hpc, ha⟩, hb⟩ hs).2.1 n

/-- C264 fails for an object that is configured twice: the options of the first time that the second option string
does not mention stay in force at the second time, and are still in the table when the object is gone. -/
theorem C264_twice_violated (p opts1 opts2 : Str) (os1 os2 : List Opt) (db : Db) (hp : GoodPrefix p)
    (hs1 : Says opts1 os1) (hs2 : Says opts2 os2) (n : Str)
    (hno : ∀ o ∈ os2, lower o.name ≠ lower n) :
    let r1 := processOptions p opts1 db
    let r2 := processOptions p opts2 r1.2
    view r2.2 (normPrefix p) n = (saysAbout os1 n).or (view db (normPrefix p) n) ∧
    view (unprocessOptions r2.1 r2.2) (normPrefix p) n = (saysAbout os1 n).or (view db (normPrefix p) n) := by
  intro r1 r2
  have ha : ∃ c r, p = c :: r ∧ c.isAlpha = true := by
    obtain ⟨c, r, e, hc⟩ := hp.1; exact ⟨c, r, e, isAlpha_of_isLower hc⟩
  have h1 := (C262_configure p opts1 os1 db ⟨ha, hp.2⟩ hs1).2.1 n
  have h2 := (C262_configure p opts2 os2 r1.2 ⟨ha, hp.2⟩ hs2).2.1 n
  have hnone : saysAbout os2 n = none := by
    unfold saysAbout
    rw [show os2.filter (fun o => decide (lower o.name = lower n)) = [] from ?_]
    · rfl
    · rw [List.filter_eq_nil_iff]
      intro o ho h'
      simp only [decide_eq_true_eq] at h'
      exact hno o ho h'
  rw [hnone, Option.none_or, h1] at h2
  refine ⟨h2, ?_⟩
  have h3 := C264_destroy_partial p opts2 os2 r1.2 hp hs2 (lower (normPrefix p ++ n))
  simp only at h3
  unfold view
  change unprocessOptions (processOptions p opts2 r1.2).1 (processOptions p opts2 r1.2).2 _ = _
  rw [h3, if_neg]
  · exact h1
  · rintro ⟨o, ho, hx⟩
    rw [lower_append, lower_append, List.append_cancel_left_eq] at hx
    exact hno o ho hx.symm

/-- C264 fails for entries that were there before (from the command line, or of another object with the same
prefix): if the object mentions the option, its destruction takes the earlier entry away too. -/
theorem C264_earlier_entry_violated (p opts : Str) (os : List Opt) (db : Db) (hp : GoodPrefix p)
    (hs : Says opts os) (o : Opt) (ho : o ∈ os) :
    let r := processOptions p opts db
    view (unprocessOptions r.1 r.2) (normPrefix p) o.name = none := by
  intro r
  have := C264_destroy_partial p opts os db hp hs (lower (normPrefix p ++ o.name))
  simp only at this
  unfold view
  rw [this, if_pos ⟨o, ho, rfl⟩]

/-- Not vacuous: prefixes for any number of objects. -/
def exPre : Nat → Str := fun i => 'x' :: List.replicate i 'y'

theorem exPre_norm (i : Nat) : normPrefix (exPre i) = exPre i ++ ['_'] := by
  unfold normPrefix
  rw [if_neg]
  intro h
  have := List.mem_of_getLast? h
  simp only [exPre, List.mem_cons, List.mem_replicate] at this
  rcases this with h | ⟨_, h⟩ <;> exact absurd h (by decide)

theorem exPre_lower (i : Nat) : lower (normPrefix (exPre i)) = exPre i ++ ['_'] := by
  rw [exPre_norm, lower_append]
  simp only [exPre, lower, List.map_cons, List.map_replicate]
  rfl

example : (∀ i, GoodPrefix (exPre i)) ∧
    ∀ i j, i ≠ j → Apart (normPrefix (exPre i)) (normPrefix (exPre j)) := by
  refine ⟨fun i => ⟨⟨'x', _, rfl, by decide⟩, ?_⟩, ?_⟩
  · intro c hc
    simp only [exPre, List.mem_cons, List.mem_replicate] at hc
    rcases hc with rfl | ⟨_, rfl⟩ <;> decide
  · have main : ∀ i j, i ≠ j → ¬ (exPre i ++ ['_']) <+: (exPre j ++ ['_']) := by
      intro i j hij h
      have hlen := h.length_le
      simp only [exPre, List.length_append, List.length_cons, List.length_replicate, List.length_nil] at hlen
      have h1 := h.getElem (i := i + 1) (by simp [exPre])
      have e1 : (exPre i ++ ['_'])[i + 1]'(by simp [exPre]) = '_' := by
        rw [List.getElem_append_right (by simp [exPre])]
        simp [exPre]
      have e2 : (exPre j ++ ['_'])[i + 1]'(by simp [exPre]; omega) = 'y' := by
        rw [List.getElem_append_left (by simp [exPre]; omega)]
        simp [exPre]
      rw [e1, e2] at h1
      exact absurd h1 (by decide)
    intro i j hij
    unfold Apart
    rw [exPre_lower, exPre_lower]
    exact ⟨main i j hij, main j i (Ne.symm hij)⟩

def exOpts : Str := "\n -ksp_type gmres\n -ksp_monitor\n -ksp_rtol 1.0e-8 ".toList
def exOs : List Opt := [⟨"ksp_type".toList, some "gmres".toList⟩, ⟨"ksp_monitor".toList, none⟩,
  ⟨"ksp_rtol".toList, some "1.0e-8".toList⟩]

theorem exSays : Says exOpts exOs := by
  refine ⟨?_, by decide +kernel⟩
  intro o ho
  simp only [exOs, List.mem_cons, List.not_mem_nil, or_false] at ho
  rcases ho with rfl | rfl | rfl
  · exact ⟨⟨'k', _, rfl, by decide⟩, fun v hv => by cases hv; decide +kernel⟩
  · exact ⟨⟨'k', _, rfl, by decide⟩, fun v hv => by cases hv⟩
  · exact ⟨⟨'k', _, rfl, by decide⟩, fun v hv => by cases hv; decide +kernel⟩

example : view (run (fun _ => none)
      [.configure 0 "nrs".toList exOpts, .configure 1 "ls".toList "-ksp_type preonly".toList]).db
    "nrs_".toList "ksp_type".toList = some (some "gmres".toList) := by decide +kernel

example : view (run (fun _ => none)
      [.configure 0 "nrs".toList exOpts, .configure 1 "ls".toList "-ksp_type preonly".toList, .destroy 0]).db
    "nrs_".toList "ksp_type".toList = none := by decide +kernel

example : view (run (fun _ => none)
      [.configure 0 "NRS".toList exOpts, .destroy 0]).db
    "NRS_".toList "ksp_monitor".toList = some none := by decide +kernel

example : Clean (fun i => if i = 0 then "nrs".toList else "ls".toList)
    ([] ++ [.configure 0 "nrs".toList exOpts] ++ [.configure 1 "ls".toList exOpts] ++ [.destroy 0] ++
      [.configure 0 "nrs".toList exOpts]) :=
  .configure _ 0 _ exOs (.destroy _ 0 (.configure _ 1 _ exOs (.configure _ 0 _ exOs .nil exSays
    (by intro p o h; simp [lastOf] at h)) exSays (by intro p o h; simp [lastOf] at h))) exSays
    (by intro p o h; simp [lastOf] at h)

example : GoodPrefix "nrs".toList ∧ Apart (normPrefix "nrs".toList) (normPrefix "ls".toList) := by
  refine ⟨⟨⟨'n', _, rfl, by decide⟩, by decide +kernel⟩, by unfold Apart; decide +kernel⟩

end GridPACK.PetscOptions
