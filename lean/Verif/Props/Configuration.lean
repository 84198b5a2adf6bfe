import Verif.Model.Configuration
import Mathlib.Tactic.Linarith

/-! Properties C36 (lookup), C73 (cursors), C74 (several files), C75 (collective opening). -/
namespace GridPACK.Configuration

/-! ### Specification: what is stored under a path -/

/-- `At t path r`: following the names from `t`, always into the first child of that name, leads to `r`. -/
inductive At : Tree → List Str → Tree → Prop
  | here (t : Tree) : At t [] t
  | into (d : Str) (pre post : List (Str × Tree)) (n : Str) (c r : Tree) (ns : List Str)
      (first : ∀ k ∈ pre, k.1 ≠ n) (rest : At c ns r) : At (.node d (pre ++ (n, c) :: post)) (n :: ns) r

theorem findKid_some (n : Str) (kids : List (Str × Tree)) (c : Tree) :
    findKid n kids = some c ↔
      ∃ pre post, kids = pre ++ (n, c) :: post ∧ ∀ k ∈ pre, k.1 ≠ n := by
  induction kids with
  | nil => simp [findKid]
  | cons k kids ih =>
    obtain ⟨m, t⟩ := k
    unfold findKid
    by_cases h : m = n
    · rw [if_pos h]
      constructor
      · intro e; injection e with e; subst e; subst h
        exact ⟨[], kids, rfl, by simp⟩
      · rintro ⟨pre, post, e, hf⟩
        cases pre with
        | nil => simp at e; rw [e.1.2]
        | cons p pre =>
          simp at e
          exact absurd (by rw [← e.1]; exact h) (hf p (by simp))
    · rw [if_neg h, ih]
      constructor
      · rintro ⟨pre, post, e, hf⟩
        refine ⟨(m, t) :: pre, post, by rw [e]; rfl, ?_⟩
        intro k hk
        rcases List.mem_cons.mp hk with rfl | hk
        · exact h
        · exact hf k hk
      · rintro ⟨pre, post, e, hf⟩
        cases pre with
        | nil => simp at e; exact absurd e.1.1 h
        | cons p pre =>
          simp at e
          exact ⟨pre, post, e.2, fun k hk => hf k (List.mem_cons_of_mem _ hk)⟩

theorem walk_iff (ns : List Str) (t r : Tree) : walk ns t = some r ↔ At t ns r := by
  induction ns generalizing t with
  | nil =>
    simp only [walk, Option.some.injEq]
    constructor
    · rintro rfl; exact .here t
    · intro h; cases h; rfl
  | cons n ns ih =>
    obtain ⟨d, kids⟩ := t
    simp only [walk, Tree.kids]
    constructor
    · intro h
      cases hf : findKid n kids with
      | none => rw [hf] at h; cases h
      | some c =>
        rw [hf] at h
        obtain ⟨pre, post, e, hfirst⟩ := (findKid_some n kids c).mp hf
        subst e
        exact .into d pre post n c r ns hfirst ((ih c).mp h)
    · intro h
      cases h with
      | into d pre post n c r ns first rest =>
        have : findKid n (pre ++ (n, c) :: post) = some c :=
          (findKid_some n _ c).mpr ⟨pre, post, rfl, first⟩
        rw [this]
        exact (ih c).mpr rest

/-! ### C36 -/

/-- The key exists and its text converts to `v`. -/
def Stored (parse : Str → Option α) (t : Tree) (key : Str) (v : α) : Prop :=
  ∃ r, At t (fragments key) r ∧ parse r.data = some v

/-- C36 for bool, int and double: the stored value when there is one, otherwise `false` and the output is
left alone; the default variant returns the default. -/
theorem C36_scalar (parse : Str → Option α) (t : Tree) (key : Str) (old : α) :
    (∀ v, Stored parse t key v → get0Bool parse t key old = (true, v) ∧ get0 parse t key old = v) ∧
    ((¬ ∃ v, Stored parse t key v) →
      get0Bool parse t key old = (false, old) ∧ get0 parse t key old = old) := by
  have hopt : ∀ v, getOptional parse t key = some v ↔ Stored parse t key v := by
    intro v
    unfold getOptional getCursor Stored
    constructor
    · intro h
      cases hw : walk (fragments key) t with
      | none => rw [hw] at h; cases h
      | some r =>
        rw [hw] at h
        exact ⟨r, (walk_iff _ _ _).mp hw, h⟩
    · rintro ⟨r, hr, hp⟩
      rw [(walk_iff _ _ _).mpr hr]
      exact hp
  constructor
  · intro v hv
    have := (hopt v).mpr hv
    unfold get0Bool get0
    rw [this]
    exact ⟨rfl, rfl⟩
  · intro h
    have : getOptional parse t key = none := by
      cases ho : getOptional parse t key with
      | none => rfl
      | some v => exact absurd ⟨v, (hopt v).mp ho⟩ h
    unfold get0Bool get0
    rw [this]
    exact ⟨rfl, rfl⟩

/-- Spec of trimming: `s` is `r` with blanks around it, and `r` neither starts nor ends with a blank. -/
def IsTrim (s r : Str) : Prop :=
  (∃ a b : Nat, s = List.replicate a ' ' ++ r ++ List.replicate b ' ') ∧
  r.head? ≠ some ' ' ∧ r.getLast? ≠ some ' '

theorem dropWhile_blank (s : Str) :
    (∃ a : Nat, s = List.replicate a ' ' ++ s.dropWhile (· = ' ')) ∧
    (s.dropWhile (· = ' ')).head? ≠ some ' ' := by
  induction s with
  | nil => exact ⟨⟨0, rfl⟩, by simp⟩
  | cons c s ih =>
    rw [List.dropWhile_cons]
    by_cases h : c = ' '
    · simp only [h, decide_true, if_true]
      obtain ⟨⟨a, ha⟩, h2⟩ := ih
      refine ⟨⟨a + 1, ?_⟩, h2⟩
      rw [List.replicate_succ, List.cons_append, ← ha]
    · simp only [h, decide_false]
      exact ⟨⟨0, rfl⟩, by simpa using h⟩

theorem trimBlanks_isTrim (s : Str) : IsTrim s (trimBlanks s) := by
  unfold trimBlanks
  obtain ⟨⟨a, ha⟩, h1⟩ := dropWhile_blank s
  generalize s.dropWhile (· = ' ') = m at ha h1
  obtain ⟨⟨b, hb⟩, h2⟩ := dropWhile_blank m.reverse
  generalize m.reverse.dropWhile (· = ' ') = r at hb h2
  have hm : m = r.reverse ++ List.replicate b ' ' := by
    have := congrArg List.reverse hb
    simpa using this
  refine ⟨⟨a, b, ?_⟩, ?_, ?_⟩
  · rw [List.append_assoc, ← hm]; exact ha
  · intro hh
    apply h1
    rw [hm]
    cases hr : r.reverse with
    | nil => rw [hr] at hh; simp at hh
    | cons c l => rw [hr] at hh; simpa using hh
  · simpa using h2

/-- C36 for strings, exactly: a stored text is delivered without surrounding blanks; when the key is
missing the result is `false`, but the output location is trimmed. -/
theorem C36_string_partial (t : Tree) (key old : Str) :
    (∀ r, At t (fragments key) r →
      (getString t key old).1 = true ∧ IsTrim r.data (getString t key old).2) ∧
    ((¬ ∃ r, At t (fragments key) r) →
      (getString t key old).1 = false ∧ IsTrim old (getString t key old).2) := by
  obtain ⟨h1, h2⟩ := C36_scalar (α := Str) some t key old
  constructor
  · intro r hr
    have := (h1 r.data ⟨r, hr, rfl⟩).1
    unfold getString
    rw [this]
    exact ⟨rfl, trimBlanks_isTrim _⟩
  · intro h
    have := (h2 (by rintro ⟨v, r, hr, _⟩; exact h ⟨r, hr⟩)).1
    unfold getString
    rw [this]
    exact ⟨rfl, trimBlanks_isTrim _⟩

/-- C36 fails for strings: whenever the key is missing and the caller's string starts with a blank, it is
changed although `false` is returned. -/
theorem C36_string_violated (t : Tree) (key s : Str) (h : ¬ ∃ r, At t (fragments key) r) :
    (getString t key (' ' :: s)).1 = false ∧ (getString t key (' ' :: s)).2 ≠ ' ' :: s := by
  obtain ⟨h1, h2⟩ := (C36_string_partial t key (' ' :: s)).2 h
  refine ⟨h1, ?_⟩
  intro e
  apply h2.2.1
  rw [e]; rfl

/-- C36 for vectors, exactly: components are appended to what the caller's vector already holds. -/
theorem C36_vector_partial (parse : Str → Option α) (zero : α) (t : Tree) (key : Str) (old : List α) :
    (∀ r, At t (fragments key) r → ∃ x y z, getVector parse zero t key old = (true, old ++ [x, y, z]) ∧
      (∀ v, Stored parse r ['x'] v → x = v) ∧ (∀ v, Stored parse r ['y'] v → y = v) ∧
      (∀ v, Stored parse r ['z'] v → z = v)) ∧
    ((¬ ∃ r, At t (fragments key) r) → getVector parse zero t key old = (false, old)) := by
  constructor
  · intro r hr
    have hw : getCursor t key = some r := (walk_iff _ _ _).mpr hr
    refine ⟨_, _, _, by unfold getVector; rw [hw], ?_, ?_, ?_⟩
    · intro v hv; exact ((C36_scalar parse r ['x'] zero).1 v hv).2
    · intro v hv; exact ((C36_scalar parse r ['y'] zero).1 v hv).2
    · intro v hv; exact ((C36_scalar parse r ['z'] zero).1 v hv).2
  · intro h
    have hw : getCursor t key = none := by
      cases hc : getCursor t key with
      | none => rfl
      | some r => exact absurd ⟨r, (walk_iff _ _ _).mp hc⟩ h
    unfold getVector
    rw [hw]

/-- C36 fails for vectors: reading into a vector that is not empty never yields the stored three
components. -/
theorem C36_vector_violated (parse : Str → Option α) (zero : α) (t : Tree) (key : Str) (old : List α)
    (hold : old ≠ []) (r : Tree) (hr : At t (fragments key) r) :
    (getVector parse zero t key old).2.length ≠ 3 := by
  obtain ⟨x, y, z, h, _⟩ := (C36_vector_partial parse zero t key old).1 r hr
  rw [h]
  have := List.length_pos_iff.mpr hold
  simp
  omega

/-! ### C73 -/

theorem fragAux_sep (a b cur : Str) :
    fragAux cur (a ++ '.' :: b) = fragAux cur (a ++ ['.']) ++ fragAux [] b := by
  induction a generalizing cur with
  | nil => simp [fragAux]
  | cons c a ih =>
    simp only [List.cons_append, fragAux]
    by_cases h : c = '.'
    · rw [if_pos h, if_pos h, ih]; rfl
    · rw [if_neg h, if_neg h, ih]

theorem fragAux_trailing (a cur : Str) (h : cur ++ a ≠ []) (hl : a.getLast? ≠ some '.')
    (hc : a = [] → cur ≠ []) : fragAux cur (a ++ ['.']) = fragAux cur a := by
  induction a generalizing cur with
  | nil => simp [fragAux, hc rfl]
  | cons c a ih =>
    simp only [List.cons_append, fragAux]
    by_cases hd : c = '.'
    · rw [if_pos hd, if_pos hd]
      have hane : a ≠ [] := by
        rintro rfl
        apply hl
        rw [hd]; rfl
      rw [ih [] (by simpa using hane) (by
        rw [List.getLast?_cons] at hl
        intro e
        apply hl
        rw [e]; rfl) (fun e => absurd e hane)]
    · rw [if_neg hd, if_neg hd]
      apply ih
      · simp
      · intro e
        apply hl
        rw [List.getLast?_cons, e]; rfl
      · intro _; simp

theorem walk_append (as bs : List Str) (t : Tree) :
    walk (as ++ bs) t = (walk as t).bind (walk bs) := by
  induction as generalizing t with
  | nil => rfl
  | cons n as ih =>
    simp only [List.cons_append, walk]
    cases findKid n t.kids with
    | none => rfl
    | some c => exact ih c

/-- C73.  Looking up `b` relative to the cursor for `a` is the same as looking up `a.b`, for every tree and
all keys `a` (not empty, not ending with the separator) and `b`. -/
theorem C73_cursor (t : Tree) (a b : Str) (h : a ≠ []) (hl : a.getLast? ≠ some '.') :
    getCursor t (a ++ '.' :: b) = (getCursor t a).bind (fun c => getCursor c b) := by
  unfold getCursor fragments
  rw [fragAux_sep, fragAux_trailing a [] (by simpa using h) hl (fun e => absurd e h), walk_append]

/-- C73, values: reading through a cursor gives the value of the full key. -/
theorem C73_value (parse : Str → Option α) (t c : Tree) (a b : Str) (old : α) (h : a ≠ [])
    (hl : a.getLast? ≠ some '.') (hc : getCursor t a = some c) :
    get0Bool parse c b old = get0Bool parse t (a ++ '.' :: b) old := by
  unfold get0Bool getOptional
  rw [C73_cursor t a b h hl, hc]
  rfl

/-! ### C74 -/

theorem findKid_append (n : Str) (k1 k2 : List (Str × Tree)) :
    findKid n (k1 ++ k2) = (findKid n k1).or (findKid n k2) := by
  induction k1 with
  | nil => rfl
  | cons k k1 ih =>
    obtain ⟨m, t⟩ := k
    simp only [List.cons_append, findKid]
    by_cases h : m = n
    · rw [if_pos h, if_pos h]; rfl
    · rw [if_neg h, if_neg h]; exact ih

/-- C74, the part that holds: after opening two files, a key whose top element occurs in the first file is
answered from the first file, any other key from the second. -/
theorem C74_two_files_partial (t1 t2 : Tree) (n : Str) (ns : List Str) :
    ((findKid n t1.kids).isSome → walk (n :: ns) (merge t1 t2) = walk (n :: ns) t1) ∧
    (findKid n t1.kids = none → walk (n :: ns) (merge t1 t2) = walk (n :: ns) t2) := by
  constructor
  · intro h
    simp only [walk, merge, Tree.kids]
    rw [findKid_append]
    obtain ⟨c, hc⟩ := Option.isSome_iff_exists.mp h
    have : findKid n t1.kids = some c := hc
    simp only [Tree.kids] at this
    rw [this]; rfl
  · intro h
    simp only [walk, merge, Tree.kids]
    simp only [Tree.kids] at h
    rw [findKid_append, h]; rfl

/-- C74 fails for two files with the same top element, which is the normal case ("Configuration"): every
key that only the second file has cannot be found. -/
theorem C74_second_file_hidden_violated (t1 t2 : Tree) (n : Str) (ns : List Str)
    (h1 : (findKid n t1.kids).isSome) (hmiss : walk (n :: ns) t1 = none)
    (r : Tree) (_h2 : walk (n :: ns) t2 = some r) :
    walk (n :: ns) (merge t1 t2) = none := by
  rw [(C74_two_files_partial t1 t2 n ns).1 h1, hmiss]

/-- Such files exist: both have the top element `c`; only the second has `c.k`. -/
example : (findKid ['c'] (Tree.node [] [(['c'], .node [] [])]).kids).isSome = true ∧
    walk [['c'], ['k']] (Tree.node [] [(['c'], .node [] [])]) = none ∧
    (walk [['c'], ['k']] (Tree.node [] [(['c'], .node [] [(['k'], .node ['1'] [])])])).isSome = true := by
  refine ⟨rfl, rfl, rfl⟩

/-- Concrete lookups: `c.k` and `c.k.` find the same node. -/
example : getString (Tree.node [] [(['c'], .node [] [(['k'], .node [' ', '1'] [])])]) ['c', '.', 'k'] []
    = (true, ['1']) := rfl

/-! ### C75 -/

/-- C75, the part that holds: for a vector with at least one string (and less than 2^30 characters) every
process performs the same collective calls and ends with the same result, and equal trees stay equal. -/
theorem C75_open_partial (readXml : Str → Option Tree) (t : Tree) (file : List Str) (h : file ≠ [])
    (hs : (file.flatten.length : Int) < 2 ^ 30) :
    openOther readXml t (rootN file) file.flatten = openRoot readXml t file := by
  unfold openOther openRoot
  have hn : rootN file = (file.flatten.length : Int) := by unfold rootN; rw [if_neg h]
  rw [hn]
  by_cases h0 : (file.flatten.length : Int) = 0
  · rw [if_pos h0, h0]; simp
  · have hp : (file.flatten.length : Int) > 0 := by omega
    rw [if_neg h0, if_pos ⟨hp, hs⟩, if_pos hp]

/-- C75 fails for an empty vector: process 0 returns `false`, every other process stops in an assertion. -/
theorem C75_empty_vector_violated (readXml : Str → Option Tree) (t : Tree) :
    (openRoot readXml t []).result = some false ∧ (openOther readXml t (rootN []) []).result = none := by
  constructor <;> rfl

example : (openRoot (fun _ => some (.node [] [])) (.node [] []) [['a'], ['b']]).calls =
    [.bcastInt, .bcastChars 2] := rfl

end GridPACK.Configuration
