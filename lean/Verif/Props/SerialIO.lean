import Verif.Model.SerialIO
import Mathlib.Data.List.Perm.Basic
import Mathlib.Tactic.Linarith

/-! Property C24: output through process 0 is complete and in order of the global index. -/
namespace GridPACK.SerialIO

/-! ### Specification -/

/-- `line g` is the text contributed by the owner of the component with global index `g`. -/
def IsContribution (ps : List Proc) (line : Nat → Option (List Nat)) : Prop :=
  ∀ g t, line g = some t ↔ ∃ p ∈ ps, ∃ it ∈ p, it.active = true ∧ it.gid = g ∧ it.text = some t

/-! ### Proof -/

theorem mem_entries (size : Nat) (junk : List Nat) (p : Proc) (e : Nat × List Nat) :
    e ∈ entries size junk p ↔
      ∃ it ∈ p, ∃ t, it.active = true ∧ it.text = some t ∧ e = (it.gid, slot size t junk) := by
  unfold entries
  rw [List.mem_filterMap]
  constructor
  · rintro ⟨it, hit, he⟩
    by_cases ha : it.active = true
    · rw [if_pos ha] at he
      cases ht : it.text with
      | none => rw [ht] at he; simp at he
      | some t =>
        rw [ht] at he
        simp at he
        exact ⟨it, hit, t, ha, ht, he.symm⟩
    · rw [if_neg ha] at he; simp at he
  · rintro ⟨it, hit, t, ha, ht, he⟩
    exact ⟨it, hit, by rw [if_pos ha, ht]; simp [he]⟩

theorem foldl_store_other (es : List (Nat × List Nat)) (a : Arrays) (g : Nat)
    (h : ∀ e ∈ es, e.1 ≠ g) : (es.foldl store a).mask g = a.mask g := by
  induction es generalizing a with
  | nil => rfl
  | cons e es ih =>
    rw [List.foldl_cons, ih _ (fun e' he' => h e' (List.mem_cons_of_mem _ he'))]
    simp only [store]
    rw [if_neg]
    intro he; exact h e (by simp) he.symm

theorem foldl_store_str_other (es : List (Nat × List Nat)) (a : Arrays) (g : Nat)
    (h : ∀ e ∈ es, e.1 ≠ g) : (es.foldl store a).str g = a.str g := by
  induction es generalizing a with
  | nil => rfl
  | cons e es ih =>
    rw [List.foldl_cons, ih _ (fun e' he' => h e' (List.mem_cons_of_mem _ he'))]
    simp only [store]
    rw [if_neg]
    intro he; exact h e (by simp) he.symm

theorem foldl_store_mem (es : List (Nat × List Nat)) (a : Arrays) (g : Nat) (s : List Nat)
    (h : ∀ e ∈ es, e.1 = g → e.2 = s) (hex : ∃ e ∈ es, e.1 = g) :
    (es.foldl store a).mask g = true ∧ (es.foldl store a).str g = s := by
  induction es generalizing a with
  | nil => obtain ⟨e, he, _⟩ := hex; simp at he
  | cons e es ih =>
    rw [List.foldl_cons]
    by_cases hx : ∃ e' ∈ es, e'.1 = g
    · exact ih _ (fun e' he' => h e' (List.mem_cons_of_mem _ he')) hx
    · have hall : ∀ e' ∈ es, e'.1 ≠ g := fun e' he' he => hx ⟨e', he', he⟩
      rw [foldl_store_other es _ g hall, foldl_store_str_other es _ g hall]
      obtain ⟨e', he', hg⟩ := hex
      rcases List.mem_cons.mp he' with rfl | hm
      · simp only [store]
        rw [if_pos hg.symm, if_pos hg.symm]
        exact ⟨rfl, h _ (by simp) hg⟩
      · exact absurd hg (hall e' hm)

section
variable {ps : List Proc} {line : Nat → Option (List Nat)} (hline : IsContribution ps line)
  {size : Nat} {junk : Nat → List Nat} (a : Arrays) {es : List (Nat × List Nat)}
  (hes : es.Perm (ps.zipIdx.flatMap (fun e => entries size (junk e.2) e.1)))

include hline hes

/-- Contents of the arrays at the synchronisation point. -/
theorem filled_spec (g : Nat) :
    (filled a es).mask g = (line g).isSome ∧
    ∀ t, line g = some t → t.length < size →
      ∃ rest, (filled a es).str g = t ++ 0 :: rest ∧
        ((∀ k, size ≤ (junk k).length) → ((filled a es).str g).length = size) := by
  have hmem : ∀ e, e ∈ es ↔ ∃ k p, ps[k]? = some p ∧ e ∈ entries size (junk k) p := by
    intro e
    rw [hes.mem_iff, List.mem_flatMap]
    constructor
    · rintro ⟨⟨p, k⟩, h, he⟩
      rw [List.mem_zipIdx_iff_getElem?] at h
      exact ⟨k, p, h, he⟩
    · rintro ⟨k, p, h, he⟩
      exact ⟨(p, k), by rw [List.mem_zipIdx_iff_getElem?]; exact h, he⟩
  cases hl : line g with
  | none =>
    constructor
    · unfold filled
      rw [foldl_store_other]
      · rfl
      · intro e he hg
        obtain ⟨k, p, hp, he⟩ := (hmem e).mp he
        obtain ⟨it, hit, t, ha, ht, rfl⟩ := (mem_entries _ _ _ _).mp he
        have : line g = some t := (hline g t).mpr ⟨p, List.mem_of_getElem? hp, it, hit, ha, hg, ht⟩
        rw [hl] at this; cases this
    · intro t ht; cases ht
  | some t =>
    obtain ⟨p, hp, it, hit, ha, hg, ht⟩ := (hline g t).mp hl
    obtain ⟨k, hk⟩ := List.mem_iff_getElem?.mp hp
    have hin : (g, slot size t (junk k)) ∈ es :=
      (hmem _).mpr ⟨k, p, hk, (mem_entries _ _ _ _).mpr ⟨it, hit, t, ha, ht, by rw [hg]⟩⟩
    have htext : ∀ e ∈ es, e.1 = g → ∃ k, e.2 = slot size t (junk k) := by
      intro e he heg
      obtain ⟨k', p', hp', he'⟩ := (hmem e).mp he
      obtain ⟨it', hit', t', ha', ht', rfl⟩ := (mem_entries _ _ _ _).mp he'
      have : line g = some t' :=
        (hline g t').mpr ⟨p', List.mem_of_getElem? hp', it', hit', ha', heg, ht'⟩
      rw [hl] at this; cases this
      exact ⟨k', rfl⟩
    have hkey : ∀ (l : List (Nat × List Nat)) (b : Arrays),
        (∀ e ∈ l, e.1 = g → ∃ k, e.2 = slot size t (junk k)) → (∃ e ∈ l, e.1 = g) →
        (l.foldl store b).mask g = true ∧ ∃ k, (l.foldl store b).str g = slot size t (junk k) := by
      intro l
      induction l with
      | nil => rintro b _ ⟨e, he, _⟩; simp at he
      | cons e l ih =>
        intro b h hex
        rw [List.foldl_cons]
        by_cases hx : ∃ e' ∈ l, e'.1 = g
        · exact ih _ (fun e' he' => h e' (List.mem_cons_of_mem _ he')) hx
        · have hall : ∀ e' ∈ l, e'.1 ≠ g := fun e' he' he => hx ⟨e', he', he⟩
          rw [foldl_store_other l _ g hall, foldl_store_str_other l _ g hall]
          obtain ⟨e', he', hg⟩ := hex
          rcases List.mem_cons.mp he' with rfl | hm
          · simp only [store]
            rw [if_pos hg.symm, if_pos hg.symm]
            exact ⟨rfl, h _ (by simp) hg⟩
          · exact absurd hg (hall e' hm)
    obtain ⟨h1, k', h2⟩ := hkey es (zeroMask a) htext ⟨_, hin, rfl⟩
    refine ⟨h1, ?_⟩
    intro t' ht' hlen
    cases ht'
    refine ⟨(junk k').take (size - t.length - 1), ?_, ?_⟩
    · unfold filled
      rw [h2]
      unfold slot
      rw [List.take_append, List.take_of_length_le (by omega)]
      congr 1
      obtain ⟨m, hm⟩ : ∃ m, size - t.length = m + 1 := ⟨size - t.length - 1, by omega⟩
      rw [hm, List.take_succ_cons]
      rfl
    · intro hj
      have := hj k'
      unfold filled
      rw [h2]
      unfold slot
      rw [List.length_take, List.length_append, List.length_cons]
      omega

end

/-- Piece `k` of a buffer made of equally long pieces. -/
theorem drop_pieces {A : Type} (f : A → List Nat) (size : Nat) (l : List A)
    (hlen : ∀ x ∈ l, (f x).length = size) (k : Nat) (x : A) (hx : l[k]? = some x) :
    ∃ rest, (l.flatMap f).drop (k * size) = f x ++ rest := by
  induction l generalizing k with
  | nil => simp at hx
  | cons y l ih =>
    cases k with
    | zero =>
      simp at hx
      subst hx
      exact ⟨l.flatMap f, by simp [List.flatMap_cons]⟩
    | succ k =>
      rw [List.getElem?_cons_succ] at hx
      obtain ⟨rest, hr⟩ := ih (fun z hz => hlen z (List.mem_cons_of_mem _ hz)) k hx
      refine ⟨rest, ?_⟩
      rw [List.flatMap_cons, ← hr, Nat.succ_mul, List.drop_append]
      have := hlen y (by simp)
      rw [List.drop_of_length_le (by rw [this]; omega), List.nil_append, this]
      congr 1
      omega

theorem cstring_text (t rest : List Nat) (h : 0 ∉ t) : cstring (t ++ 0 :: rest) = t := by
  unfold cstring
  induction t with
  | nil => simp
  | cons c t ih =>
    simp only [List.mem_cons, not_or] at h
    rw [List.cons_append, List.takeWhile_cons, ih h.2]
    simp [Ne.symm h.1]

theorem readStrings_eq {A : Type} (f : A → List Nat) (size : Nat) (l : List A)
    (txt : A → List Nat)
    (h : ∀ x ∈ l, (f x).length = size ∧ 0 ∉ txt x ∧ ∃ rest, f x = txt x ++ 0 :: rest) :
    readStrings size (l.flatMap f) l.length = l.map txt := by
  unfold readStrings
  apply List.ext_getElem
  · simp
  · intro k h1 h2
    rw [List.length_map] at h2
    rw [List.getElem_map, List.getElem_range, List.getElem_map]
    obtain ⟨rest, hr⟩ := drop_pieces f size l (fun x hx => (h x hx).1) k _
      (List.getElem?_eq_getElem h2)
    obtain ⟨_, h0, rest', hf⟩ := h _ (List.getElem_mem h2)
    rw [hr, hf, List.append_assoc]
    exact cstring_text _ _ h0

/-- C24.  For every distribution, every state of the global arrays left by earlier calls, every order of
the scatter writes and every block layout of the global array: if each contributed string fits its
slot with the terminator, process 0 obtains exactly the strings of the owned components, each once,
in order of the global index. -/
theorem C24_strings_complete_and_ordered (ps : List Proc) (line : Nat → Option (List Nat))
    (hline : IsContribution ps line) (size : Nat) (junk : Nat → List Nat)
    (hjunk : ∀ k, size ≤ (junk k).length)
    (hfit : ∀ g t, line g = some t → t.length < size ∧ 0 ∉ t) (a : Arrays)
    (es : List (Nat × List Nat))
    (hes : es.Perm (ps.zipIdx.flatMap (fun e => entries size (junk e.2) e.1)))
    (blocks : List Nat) :
    writeStrings size a es blocks = (List.range blocks.sum).filterMap line := by
  have hspec := filled_spec hline a hes
  have key : ∀ (blocks : List Nat) (lo : Nat), collect size (filled a es) lo blocks =
      (List.range' lo blocks.sum).filterMap line := by
    intro blocks
    induction blocks with
    | nil => intro lo; rfl
    | cons ld blocks ih =>
      intro lo
      rw [collect, ih, List.sum_cons, ← List.range'_append_1, List.filterMap_append]
      congr 1
      unfold iobuf
      rw [readStrings_eq (filled a es).str size _ (fun g => (line g).getD [])]
      · unfold maskedIndices
        generalize List.range' lo ld = l
        induction l with
        | nil => rfl
        | cons g l ih =>
          rw [List.filter_cons, List.filterMap_cons, (hspec g).1]
          cases hg : line g with
          | none => simpa using ih
          | some t => simp [hg, ih]
      · intro g hg
        unfold maskedIndices at hg
        rw [List.mem_filter, (hspec g).1] at hg
        obtain ⟨t, ht⟩ := Option.isSome_iff_exists.mp hg.2
        obtain ⟨hf, h0⟩ := hfit g t ht
        obtain ⟨rest, hr, hl⟩ := (hspec g).2 t ht hf
        refine ⟨hl hjunk, ?_, rest, ?_⟩
        · rw [ht]; exact h0
        · rw [ht]; exact hr
  unfold writeStrings
  rw [key, List.range_eq_range']

/-- C24 for the stream: the bytes written are the concatenation of those strings. -/
theorem C24_write_stream (ps : List Proc) (line : Nat → Option (List Nat))
    (hline : IsContribution ps line) (size : Nat) (junk : Nat → List Nat)
    (hjunk : ∀ k, size ≤ (junk k).length)
    (hfit : ∀ g t, line g = some t → t.length < size ∧ 0 ∉ t) (a : Arrays)
    (es : List (Nat × List Nat))
    (hes : es.Perm (ps.zipIdx.flatMap (fun e => entries size (junk e.2) e.1)))
    (blocks : List Nat) :
    write size a es blocks = (List.range blocks.sum).flatMap (fun g => (line g).getD []) := by
  unfold write
  rw [C24_strings_complete_and_ordered ps line hline size junk hjunk hfit a es hes blocks]
  generalize List.range blocks.sum = l
  induction l with
  | nil => rfl
  | cons g l ih =>
    rw [List.filterMap_cons, List.flatMap_cons, ← ih]
    cases line g <;> simp

/-- C24, independence of the distribution: two runs of the same network on any two distributions, with
any layouts, buffers and write orders, print the same bytes. -/
theorem C24_distribution_independent (ps qs : List Proc) (line : Nat → Option (List Nat))
    (hp : IsContribution ps line) (hq : IsContribution qs line) (size : Nat)
    (junk junk' : Nat → List Nat)
    (hjunk : ∀ k, size ≤ (junk k).length) (hjunk' : ∀ k, size ≤ (junk' k).length)
    (hfit : ∀ g t, line g = some t → t.length < size ∧ 0 ∉ t) (a a' : Arrays)
    (es es' : List (Nat × List Nat))
    (hes : es.Perm (ps.zipIdx.flatMap (fun e => entries size (junk e.2) e.1)))
    (hes' : es'.Perm (qs.zipIdx.flatMap (fun e => entries size (junk' e.2) e.1)))
    (blocks blocks' : List Nat) (hb : blocks.sum = blocks'.sum) :
    write size a es blocks = write size a' es' blocks' := by
  rw [C24_write_stream ps line hp size junk hjunk hfit a es hes,
    C24_write_stream qs line hq size junk' hjunk' hfit a' es' hes', hb]

/-- C24 for binary data: `gatherData` returns the records of the owned components in order of the
global index, when a record is not larger than the slot.  The records are whole, so no terminator is
needed: `rec` gives `dsize` bytes, the slot holds them followed by anything. -/
theorem C24_gatherData (size dsize : Nat) (hd : dsize ≤ size) (a : Arrays)
    (rec_ : Nat → Option (List Nat)) (hmask : ∀ g, a.mask g = (rec_ g).isSome)
    (hstr : ∀ g t, rec_ g = some t → t.length = dsize ∧ (a.str g).length = size ∧
      (a.str g).take dsize = t) (blocks : List Nat) (lo : Nat) :
    gatherData size dsize a lo blocks = (List.range' lo blocks.sum).filterMap rec_ := by
  induction blocks generalizing lo with
  | nil => rfl
  | cons ld blocks ih =>
    rw [gatherData, ih, List.sum_cons, ← List.range'_append_1, List.filterMap_append]
    congr 1
    have h1 : readData size dsize (iobuf a (maskedIndices a lo ld)) (maskedIndices a lo ld).length =
        (maskedIndices a lo ld).map (fun g => (rec_ g).getD []) := by
      unfold readData
      apply List.ext_getElem
      · simp
      · intro k h1 h2
        rw [List.length_map] at h2
        rw [List.getElem_map, List.getElem_range, List.getElem_map]
        have hin : ∀ g ∈ maskedIndices a lo ld, ∃ t, rec_ g = some t := by
          intro g hg
          unfold maskedIndices at hg
          rw [List.mem_filter, hmask] at hg
          exact Option.isSome_iff_exists.mp hg.2
        obtain ⟨rest, hr⟩ := drop_pieces a.str size (maskedIndices a lo ld)
          (fun g hg => by obtain ⟨t, ht⟩ := hin g hg; exact (hstr g t ht).2.1) k _
          (List.getElem?_eq_getElem h2)
        obtain ⟨t, ht⟩ := hin _ (List.getElem_mem h2)
        obtain ⟨_, hl, htk⟩ := hstr _ t ht
        unfold iobuf
        rw [hr, List.take_append_of_le_length (by omega), htk, ht]
        rfl
    rw [h1]
    unfold maskedIndices
    generalize List.range' lo ld = l
    induction l with
    | nil => rfl
    | cons g l ih' =>
      rw [List.filter_cons, List.filterMap_cons, hmask]
      cases hg : rec_ g with
      | none => simpa using ih'
      | some t => simp [hg, ih']

/-- Example: three components on two processes, one silent, one ghost copy; stale strings in the array. -/
def exProcs : List Proc :=
  [[⟨true, 2, some [67]⟩, ⟨false, 0, some [65, 65]⟩], [⟨true, 0, some [65, 65]⟩, ⟨true, 1, none⟩]]

def exLine : Nat → Option (List Nat)
  | 0 => some [65, 65]
  | 2 => some [67]
  | _ => none

example : IsContribution exProcs exLine := by
  intro g t
  match g with
  | 0 => simp [exLine, exProcs]
  | 1 => simp [exLine, exProcs]
  | 2 => simp [exLine, exProcs]
  | g + 3 => simp [exLine, exProcs]

example : writeStrings 4 ⟨fun _ => [90, 90, 90, 90], fun _ => true⟩
    (exProcs.zipIdx.flatMap (fun e => entries 4 [7, 7, 7, 7] e.1)) [2, 0, 1] =
      [[65, 65], [67]] := by decide

/-- The length limit is sharp: a string that exactly fills its slot leaves no room for the terminator
and the following string is printed with it. -/
theorem C24_full_slot_runs_on :
    writeStrings 2 ⟨fun _ => [], fun _ => false⟩
      ([[(⟨true, 0, some [65, 65]⟩ : Item), ⟨true, 1, some [66]⟩]].flatMap (entries 2 [0, 0])) [2] =
      [[65, 65, 66], [66]] := by decide

end GridPACK.SerialIO
