import Verif.Model.DAEEvent
import Mathlib.Algebra.BigOperators.Group.List.Basic
import Mathlib.Tactic.Linarith

/-! Properties C41 (numbering and dispatch of events) and C78 (termination). -/
namespace GridPACK.DAEEvent

/-- A manager to which sources were added, with size queries at any time. -/
inductive Op (σ : Type)
  | add (e : Source σ)
  | size

def step (m : Manager σ) : Op σ → Manager σ
  | .add e => add m e
  | .size => (size m).2

/-- The sources of a history, in order. -/
def sources : List (Op σ) → List (Source σ)
  | [] => []
  | .add e :: ops => e :: sources ops
  | .size :: ops => sources ops

/-- Specification: position of the first event value of the next source. -/
def totalSize (es : List (Source σ)) : Nat := (es.map (·.size)).sum

/-- Records as the documentation describes them: consecutive ranges. -/
def recs (off : Nat) : List (Source σ) → List (Rec σ)
  | [] => []
  | e :: es => ⟨e, off, e.size⟩ :: recs (off + e.size) es

theorem recs_append (off : Nat) (es : List (Source σ)) (e : Source σ) :
    recs off (es ++ [e]) = recs off es ++ [⟨e, off + totalSize es, e.size⟩] := by
  induction es generalizing off with
  | nil => simp [recs, totalSize]
  | cons a es ih =>
    simp only [List.cons_append, recs, ih, totalSize, List.map_cons, List.sum_cons]
    simp [Nat.add_assoc]

theorem recs_last (off : Nat) (es : List (Source σ)) :
    (match (recs off es).getLast? with | some r => r.evidx + r.nval | none => off) = off + totalSize es := by
  induction es generalizing off with
  | nil => simp [recs, totalSize]
  | cons a es ih =>
    have h := ih (off + a.size)
    simp only [recs, totalSize, List.map_cons, List.sum_cons]
    cases hr : recs (off + a.size) es with
    | nil =>
      have : es = [] := by
        cases es with
        | nil => rfl
        | cons b es => simp [recs] at hr
      subst this
      simp
    | cons r rs =>
      rw [hr] at h
      rw [List.getLast?_cons_cons]
      rw [List.getLast?_eq_some_getLast (by simp)] at h ⊢
      simp only at h ⊢
      rw [h]
      simp [totalSize, Nat.add_assoc]

theorem size_fold (rs : List (Rec σ)) (a : Int) :
    rs.foldl (fun (acc : Int) r => acc + r.nval) a = a + ((rs.map (·.nval)).sum : Nat) := by
  induction rs generalizing a with
  | nil => simp
  | cons r rs ih => rw [List.foldl_cons, ih]; simp; omega

theorem recs_nval (off : Nat) (es : List (Source σ)) : ((recs off es).map (·.nval)).sum = totalSize es := by
  induction es generalizing off with
  | nil => rfl
  | cons a es ih => simp only [recs, List.map_cons, List.sum_cons, ih, totalSize]

theorem run_inv (ops : List (Op σ)) (es : List (Source σ)) (m : Manager σ) (h : m.events = recs 0 es)
    (hs : m.pSize = -1 ∨ m.pSize = totalSize es) :
    (ops.foldl step m).events = recs 0 (es ++ sources ops) ∧
    ((ops.foldl step m).pSize = -1 ∨ (ops.foldl step m).pSize = totalSize (es ++ sources ops)) ∧
    (ops.foldl step m).terminated = m.terminated := by
  induction ops generalizing es m with
  | nil => simpa [sources] using ⟨h, hs⟩
  | cons o ops ih =>
    cases o with
    | add e =>
      have h1 : (step m (.add e)).events = recs 0 (es ++ [e]) := by
        simp only [step, add]
        rw [recs_append, h]
        have := recs_last 0 es
        exact congrArg (fun k => recs 0 es ++ [(⟨e, k, e.size⟩ : Rec σ)]) this
      have := ih (es ++ [e]) (step m (.add e)) h1 (.inl rfl)
      simp only [List.foldl_cons, sources]
      rw [List.append_assoc] at this
      exact this
    | size =>
      have h1 : (step m (.size)).events = m.events ∧ (step m .size).terminated = m.terminated ∧
          ((step m .size).pSize = -1 ∨ (step m .size).pSize = totalSize es) := by
        simp only [step, size]
        split
        · exact ⟨rfl, rfl, hs⟩
        · refine ⟨rfl, rfl, .inr ?_⟩
          simp only
          rw [size_fold, h, recs_nval]; simp
      have := ih es (step m .size) (h1.1.trans h) h1.2.2
      simp only [List.foldl_cons, sources]
      rw [h1.2.1] at this
      exact this

/-- C41, size and order: after any history the size is the total number of event values, and directions,
termination flags and values are those of the sources in the order of their addition. -/
theorem C41_arrays (ops : List (Op σ)) (s : σ) :
    let m := ops.foldl step (new : Manager σ)
    let es := sources ops
    (size m).1 = totalSize es ∧ directions m = es.flatMap (·.dirs) ∧
    terminateFlags m = es.flatMap (·.terms) ∧ values m s = es.flatMap (fun e => e.values s) := by
  intro m es
  obtain ⟨he, hs, _⟩ := run_inv ops [] (new : Manager σ) rfl (.inr rfl)
  simp only [List.nil_append] at he hs
  have hflat : ∀ {β : Type} (f : Source σ → List β) (off : Nat) (es : List (Source σ)),
      (recs off es).flatMap (fun r => f r.event) = es.flatMap f := by
    intro β f off es
    induction es generalizing off with
    | nil => rfl
    | cons a es ih => simp only [recs, List.flatMap_cons, ih]
  refine ⟨?_, ?_, ?_, ?_⟩
  · show (size m).1 = _
    unfold size
    split
    · rename_i h
      rcases hs with h' | h'
      · have : m.pSize = -1 := h'
        omega
      · exact h'
    · show m.events.foldl (fun (acc : Int) r => acc + r.nval) 0 = _
      have : m.events = recs 0 es := he
      rw [size_fold, this, recs_nval]; simp
  · show m.events.flatMap _ = _
    have : m.events = recs 0 es := he
    rw [this]; exact hflat (fun e => e.dirs) 0 es
  · show m.events.flatMap _ = _
    have : m.events = recs 0 es := he
    rw [this]; exact hflat (fun e => e.terms) 0 es
  · show m.events.flatMap _ = _
    have : m.events = recs 0 es := he
    rw [this]; exact hflat (fun e => e.values s) 0 es

/-! ### Dispatch -/

/-- Specification of the flags a source sees: one per own event value, whose global number starts at `off`. -/
def flags (idx : List Nat) (off n : Nat) : List Bool := (List.range n).map (fun j => decide (off + j ∈ idx))

/-- Specification of the handling: each source with a triggered own event is called once, in order. -/
def dispatch (idx : List Nat) : Nat → List (Source σ) → σ → σ
  | _, [], s => s
  | off, e :: es, s =>
    dispatch idx (off + e.size) es
      (if true ∈ flags idx off e.size then e.handler (flags idx off e.size) s else s)

/-- The first triggered own event of a source terminates. -/
def firstTerminates (idx : List Nat) (off : Nat) (e : Source σ) : Prop :=
  ∃ j, j < e.size ∧ off + j ∈ idx ∧ e.terms[j]? = some true ∧ ∀ k, k < j → off + k ∉ idx

def anyFirst (idx : List Nat) : Nat → List (Source σ) → Prop
  | _, [] => False
  | off, e :: es => firstTerminates idx off e ∨ anyFirst idx (off + e.size) es

theorem fold_dispatch (idx : List Nat) (total : Nat) (es : List (Source σ)) (off : Nat) (pre : List Bool)
    (hpre : pre.length = off) (ht : ∀ e ∈ es, e.terms.length = e.size) (htot : off + totalSize es = total)
    (s : σ) (b : Bool) :
    let trigger := (List.range total).map (fun i => decide (i ∈ idx))
    let term := pre ++ es.flatMap (·.terms)
    ((recs off es).foldl (handleRec trigger term) (s, b)).1 = dispatch idx off es s ∧
    (((recs off es).foldl (handleRec trigger term) (s, b)).2 = true ↔ b = true ∨ anyFirst idx off es) := by
  induction es generalizing off pre s b with
  | nil => simp [recs, dispatch, anyFirst]
  | cons e es ih =>
    intro trigger term
    have hte : e.terms.length = e.size := ht e (by simp)
    have htot' : off + e.size + totalSize es = total := by
      simp only [totalSize, List.map_cons, List.sum_cons] at htot
      unfold totalSize; omega
    have hget : ∀ i, i < e.size → trigger.getD (off + i) false = decide (off + i ∈ idx) := by
      intro i hi
      have hlt : off + i < total := by omega
      simp [trigger, List.getD_eq_getElem?_getD, hlt]
    have hterm : ∀ i, i < e.size → term.getD (off + i) false = e.terms.getD i false := by
      intro i hi
      simp only [term, List.flatMap_cons, List.getD_eq_getElem?_getD]
      rw [List.getElem?_append_right (by omega), hpre]
      have : off + i - off = i := by omega
      rw [this, List.getElem?_append_left (by omega)]
    have hslice : (trigger.drop off).take e.size = flags idx off e.size := by
      apply List.ext_getElem?
      intro i
      unfold flags
      rw [List.getElem?_take]
      by_cases hi : i < e.size
      · rw [if_pos hi, List.getElem?_drop]
        have hlt : off + i < total := by omega
        simp [trigger, hlt, hi]
      · rw [if_neg hi]
        rw [List.getElem?_eq_none (by simp; omega)]
    have hpre' : (pre ++ e.terms).length = off + e.size := by simp [hpre, hte]
    have ihs := ih (off + e.size) (pre ++ e.terms) hpre' (fun x hx => ht x (List.mem_cons_of_mem _ hx))
      htot'
    have hterm2 : (pre ++ e.terms) ++ es.flatMap (·.terms) = term := by
      simp [term]
    rw [hterm2] at ihs
    simp only [recs, List.foldl_cons, dispatch, anyFirst]
    have hmem : true ∈ flags idx off e.size ↔ ∃ i, i < e.size ∧ off + i ∈ idx := by
      unfold flags; simp
    cases hf : (List.range e.size).find? (fun i => trigger.getD (off + i) false) with
    | none =>
      have hnone : ∀ i, i < e.size → off + i ∉ idx := by
        intro i hi hmem
        have := List.find?_eq_none.mp hf i (List.mem_range.mpr hi)
        rw [hget i hi] at this
        simp [hmem] at this
      have hstep : handleRec trigger term (s, b) ⟨e, off, e.size⟩ = (s, b) := by
        unfold handleRec; simp only [hf]
      rw [hstep]
      have hn : ¬ true ∈ flags idx off e.size := by
        rw [hmem]; rintro ⟨i, hi, hm⟩; exact hnone i hi hm
      rw [if_neg hn]
      obtain ⟨h1, h2⟩ := ihs s b
      refine ⟨h1, h2.trans ?_⟩
      have : ¬ firstTerminates idx off e := by
        rintro ⟨j, hj, hm, _⟩; exact hnone j hj hm
      simp [this]
    | some i =>
      have hi := List.mem_range.mp (List.mem_of_find?_eq_some hf)
      have hp : off + i ∈ idx := by
        have := List.find?_some hf
        rw [hget i hi] at this
        simpa using this
      have hfirst : ∀ k, k < i → off + k ∉ idx := by
        intro k hk hm
        obtain ⟨_, as, bs, happ, hbefore⟩ := List.find?_eq_some_iff_append.mp hf
        have hlen : as.length = i := by
          have h1 : (List.range e.size)[as.length]? = some i := by rw [happ]; simp
          have hl : as.length < e.size := by
            have := congrArg List.length happ
            simp at this; omega
          rw [List.getElem?_range hl] at h1
          exact Option.some.inj h1
        have hk' : k ∈ as := by
          have h1 : (List.range e.size)[k]? = as[k]? := by
            rw [happ, List.getElem?_append_left (by omega)]
          rw [List.getElem?_range (by omega)] at h1
          exact List.mem_iff_getElem?.mpr ⟨k, h1.symm⟩
        have := hbefore k hk'
        rw [hget k (by omega)] at this
        simp [hm] at this
      have hstep : handleRec trigger term (s, b) ⟨e, off, e.size⟩ =
          (e.handler (flags idx off e.size) s, if e.terms.getD i false then true else b) := by
        unfold handleRec
        simp only [hf, hslice, hterm i hi]
      rw [hstep]
      have hm : true ∈ flags idx off e.size := hmem.mpr ⟨i, hi, hp⟩
      rw [if_pos hm]
      obtain ⟨h1, h2⟩ := ihs (e.handler (flags idx off e.size) s) (if e.terms.getD i false then true else b)
      refine ⟨h1, h2.trans ?_⟩
      have hft : firstTerminates idx off e ↔ e.terms.getD i false = true := by
        constructor
        · rintro ⟨j, hj, hjm, hjt, hjf⟩
          have : j = i := by
            rcases Nat.lt_trichotomy j i with h | h | h
            · exact absurd hjm (hfirst j h)
            · exact h
            · exact absurd hp (hjf i h)
          subst this
          rw [List.getD_eq_getElem?_getD, hjt]; rfl
        · intro h
          have hlt : i < e.terms.length := by omega
          refine ⟨i, hi, hp, ?_, hfirst⟩
          rw [List.getD_eq_getElem?_getD, List.getElem?_eq_getElem hlt] at h
          rw [List.getElem?_eq_getElem hlt]
          simpa using h
      rw [hft]
      cases e.terms.getD i false <;> simp

/-- C41, dispatch: whatever events are reported, every source with a triggered event of its own is handled
exactly once, in order of addition, with flags telling exactly which of its own events were triggered, and
no other source is. -/
theorem C41_dispatch (ops : List (Op σ)) (idx : List Nat) (s : σ)
    (ht : ∀ e ∈ sources ops, e.terms.length = e.size) :
    (handle (ops.foldl step (new : Manager σ)) idx s).1 = dispatch idx 0 (sources ops) s := by
  obtain ⟨he, hs, hb⟩ := run_inv ops [] (new : Manager σ) rfl (.inr rfl)
  simp only [List.nil_append] at he hs
  obtain ⟨hsz, _, htf, _⟩ := C41_arrays ops s
  unfold handle
  simp only
  rw [hsz, htf, he]
  have := fold_dispatch idx (totalSize (sources ops)) (sources ops) 0 [] rfl ht (by simp) s
    ((ops.foldl step (new : Manager σ)).terminated)
  simp only [List.nil_append] at this
  simpa using this.1

/-! ### C78 -/

/-- Specification: a triggered event with termination flag exists. -/
def anyTerminating (idx : List Nat) : Nat → List (Source σ) → Prop
  | _, [] => False
  | off, e :: es => (∃ j, off + j ∈ idx ∧ e.terms[j]? = some true) ∨ anyTerminating idx (off + e.size) es

/-- C78, exactly: the termination flag is raised exactly if for some source the first of its triggered
events terminates. -/
theorem C78_exact (ops : List (Op σ)) (idx : List Nat) (s : σ)
    (ht : ∀ e ∈ sources ops, e.terms.length = e.size) :
    (handle (ops.foldl step (new : Manager σ)) idx s).2.terminated = true ↔
      anyFirst idx 0 (sources ops) := by
  obtain ⟨he, hs, hb⟩ := run_inv ops [] (new : Manager σ) rfl (.inr rfl)
  simp only [List.nil_append] at he hs
  obtain ⟨hsz, _, htf, _⟩ := C41_arrays ops s
  unfold handle
  simp only
  rw [hsz, htf, he, hb]
  have := fold_dispatch idx (totalSize (sources ops)) (sources ops) 0 [] rfl ht (by simp) s
    (new : Manager σ).terminated
  simp only [List.nil_append] at this
  have h2 := this.2
  simp only [new] at h2
  simpa [new] using h2

/-- C78, the part that holds: when each source has at most one event (or uses one flag for all of its
events), the solver is told to stop exactly if a triggered event has its termination flag set. -/
theorem C78_terminates_partial (ops : List (Op σ)) (idx : List Nat) (s : σ)
    (ht : ∀ e ∈ sources ops, e.terms.length = e.size)
    (hu : ∀ e ∈ sources ops, ∀ a ∈ e.terms, ∀ b ∈ e.terms, a = b) :
    (handle (ops.foldl step (new : Manager σ)) idx s).2.terminated = true ↔
      anyTerminating idx 0 (sources ops) := by
  rw [C78_exact ops idx s ht]
  have : ∀ (es : List (Source σ)) (off : Nat), (∀ e ∈ es, e.terms.length = e.size) →
      (∀ e ∈ es, ∀ a ∈ e.terms, ∀ b ∈ e.terms, a = b) → (anyFirst idx off es ↔ anyTerminating idx off es) := by
    intro es
    induction es with
    | nil => intro off _ _; exact Iff.rfl
    | cons e es ih =>
      intro off ht hu
      simp only [anyFirst, anyTerminating]
      rw [ih (off + e.size) (fun x hx => ht x (List.mem_cons_of_mem _ hx))
        (fun x hx => hu x (List.mem_cons_of_mem _ hx))]
      refine or_congr_left ?_
      constructor
      · rintro ⟨j, _, hm, hj, _⟩; exact ⟨j, hm, hj⟩
      · rintro ⟨j, hm, hj⟩
        have hjl : j < e.terms.length := (List.getElem?_eq_some_iff.mp hj).1
        have hjs : j < e.size := by rw [← ht e (by simp)]; exact hjl
        classical
        have hex : ∃ k, off + k ∈ idx := ⟨j, hm⟩
        have hle : Nat.find hex ≤ j := Nat.find_min' hex hm
        have hkl : Nat.find hex < e.terms.length := by omega
        refine ⟨Nat.find hex, by omega, Nat.find_spec hex, ?_, fun k hk => Nat.find_min hex hk⟩
        rw [List.getElem?_eq_getElem hkl]
        rw [hu e (by simp) _ (List.getElem_mem hkl) true (List.mem_iff_getElem?.mpr ⟨j, hj⟩)]
  exact this (sources ops) 0 ht hu

/-- C78 fails in general: a source with two triggered events, the first not terminating and the second
terminating, does not stop the solver. -/
theorem C78_violated (e : Source σ) (s : σ) (i j : Nat) (hij : i < j) (ht : e.terms.length = e.size)
    (hi : e.terms[i]? = some false) (hj : e.terms[j]? = some true) :
    anyTerminating [i, j] 0 [e] ∧
    (handle ([Op.add e].foldl step (new : Manager σ)) [i, j] s).2.terminated = false := by
  constructor
  · exact .inl ⟨j, by simp, hj⟩
  · cases hh : (handle ([Op.add e].foldl step (new : Manager σ)) [i, j] s).2.terminated with
    | false => rfl
    | true =>
      have := (C78_exact [Op.add e] [i, j] s (by intro x hx; simp [sources] at hx; rw [hx]; exact ht)).mp hh
      simp only [sources, anyFirst, or_false] at this
      obtain ⟨k, _, hm, hk, hf⟩ := this
      simp at hm
      rcases hm with rfl | rfl
      · rw [hi] at hk; cases hk
      · exact absurd (by simp) (hf i hij)

/-- A source as in `C78_violated`, and two sources being dispatched. -/
example : anyTerminating [0, 1] 0 [(⟨2, [0, 0], [false, true], fun _ => [0, 0], fun _ s => s⟩ : Source Nat)] :=
  .inl ⟨1, by simp, rfl⟩
example : dispatch [1, 2] 0 [(⟨2, [], [], fun _ => [], fun l s => s ++ [l]⟩ : Source (List (List Bool))),
    ⟨1, [], [], fun _ => [], fun l s => s ++ [l]⟩, ⟨1, [], [], fun _ => [], fun l s => s ++ [l]⟩] [] =
    [[false, true], [true]] := by decide

end GridPACK.DAEEvent
