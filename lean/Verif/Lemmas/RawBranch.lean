import Verif.Model.RawBranch
import Verif.Props.YMatrix
import Mathlib.Data.List.Basic
import Mathlib.Tactic.Ring
import Mathlib.Tactic.LinearCombination

/-! Auxiliary facts for reading branches and transformers. -/
namespace GridPACK.RawBranch

open GridPACK.YMatrix

/-- A piece of equipment between two buses. -/
structure Link where
  a : Int
  b : Int
  port : TwoPort

/-- The off-diagonal entry a list of two-ports gives. -/
noncomputable def linkEntry (ls : List Link) (p q : Int) : ℂ :=
  (ls.map (fun l => (if l.a = p ∧ l.b = q then l.port.ft else 0) +
    (if l.a = q ∧ l.b = p then l.port.tf else 0))).sum

/-- The diagonal entry a list of two-ports gives. -/
noncomputable def linkDiag (ls : List Link) (p : Int) : ℂ :=
  (ls.map (fun l => (if l.a = p then l.port.ff else 0) + (if l.b = p then l.port.tt else 0))).sum

theorem linkEntry_append (xs ys : List Link) (p q : Int) :
    linkEntry (xs ++ ys) p q = linkEntry xs p q + linkEntry ys p q := by
  simp [linkEntry]

theorem linkDiag_append (xs ys : List Link) (p : Int) :
    linkDiag (xs ++ ys) p = linkDiag xs p + linkDiag ys p := by
  simp [linkDiag]

/-- Part of one loaded element in the diagonal entry. -/
noncomputable def diagPart (e : Elem) (s : Side) : ℂ := -e.admittance - e.transformer s + e.shuntOf s

theorem diagOf_cons (e : Elem) (es : List Elem) (s : Side) :
    diagOf (e :: es) s = diagPart e s + diagOf es s := by
  simp only [diagOf, diagPart, getAdmittance, getTransformer, getShunt, List.map_cons, List.sum_cons]
  ring

theorem diagOf_nil (s : Side) : diagOf [] s = 0 := by
  simp [diagOf, getAdmittance, getTransformer, getShunt]

theorem diagOf_append (xs : List Elem) (e : Elem) (s : Side) :
    diagOf (xs ++ [e]) s = diagOf xs s + diagPart e s := by
  induction xs with
  | nil => simp [diagOf_cons, diagOf_nil]
  | cons x xs ih => rw [List.cons_append, diagOf_cons, diagOf_cons, ih]; ring

theorem setYBus_append (xs : List Elem) (e : Elem) :
    setYBus (xs ++ [e]) = ((setYBus xs).1 + e.frwd, (setYBus xs).2 + e.rvrs) := by
  simp [setYBus]

theorem loadElems_append (es : List El) (e : El) : ∀ rv, ∃ rv',
    loadElems rv (es ++ [e]) = loadElems rv es ++ [(loadElem rv' e).1] := by
  induction es with
  | nil => intro rv; exact ⟨rv, rfl⟩
  | cons x xs ih =>
    intro rv
    obtain ⟨rv', h⟩ := ih (loadElem rv x).2
    exact ⟨rv', by simp [loadElems, h]⟩

/-- The stored element acts as the two-port `P`. -/
def Acts (e : El) (P : TwoPort) : Prop :=
  ∀ rv, (loadElem rv e).1.frwd = P.ft ∧ (loadElem rv e).1.rvrs = P.tf ∧
    diagPart (loadElem rv e).1 .bus1 = P.ff ∧ diagPart (loadElem rv e).1 .bus2 = P.tt

/-- The two-port with its ends exchanged. -/
def flip (P : TwoPort) : TwoPort := ⟨P.tt, P.tf, P.ft, P.ff⟩

/-- The branches `bs'` have what the branches `bs` have, and the two-ports `ls`. -/
def Adds (bs bs' : List BrData) (ls : List Link) : Prop :=
  ∀ rv, (∀ p q, entry rv bs' p q = entry rv bs p q + linkEntry ls p q) ∧
    ∀ p, diag rv bs' p = diag rv bs p + linkDiag ls p

theorem Adds.refl (bs : List BrData) : Adds bs bs [] := by
  intro rv; constructor <;> intros <;> simp [linkEntry, linkDiag]

theorem Adds.trans {a b c : List BrData} {xs ys : List Link} (h : Adds a b xs) (k : Adds b c ys) :
    Adds a c (xs ++ ys) := by
  intro rv
  obtain ⟨h1, h2⟩ := h rv
  obtain ⟨k1, k2⟩ := k rv
  constructor
  · intro p q; rw [k1, h1, linkEntry_append]; ring
  · intro p; rw [k2, h2, linkDiag_append]; ring

theorem adds_new (bs : List BrData) (i j : Int) (n : Nat) (e : El) (P : TwoPort) (h : Acts e P) :
    Adds bs (bs ++ [⟨i, j, n, [e]⟩]) [⟨i, j, P⟩] := by
  intro rv
  obtain ⟨h1, h2, h3, h4⟩ := h rv
  constructor
  · intro p q
    simp [entry, linkEntry, loadElems, setYBus, h1, h2]
  · intro p
    simp [diag, linkDiag, loadElems, diagOf_cons, diagOf_nil, h3, h4]

theorem adds_three (bs : List BrData) (i j k s : Int) (n1 n2 n3 : Nat) (e1 e2 e3 : El) (P1 P2 P3 : TwoPort)
    (h1 : Acts e1 P1) (h2 : Acts e2 P2) (h3 : Acts e3 P3) :
    Adds bs (bs ++ [⟨i, s, n1, [e1]⟩, ⟨j, s, n2, [e2]⟩, ⟨k, s, n3, [e3]⟩])
      [⟨i, s, P1⟩, ⟨j, s, P2⟩, ⟨k, s, P3⟩] := by
  have k1 := adds_new bs i s n1 e1 P1 h1
  have k2 := adds_new (bs ++ [⟨i, s, n1, [e1]⟩]) j s n2 e2 P2 h2
  have k3 := adds_new ((bs ++ [⟨i, s, n1, [e1]⟩]) ++ [⟨j, s, n2, [e2]⟩]) k s n3 e3 P3 h3
  have h := (k1.trans k2).trans k3
  simpa only [List.append_assoc, List.cons_append, List.nil_append] using h

theorem sum_modify (l : List BrData) (n : Nat) (b : BrData) (h : l[n]? = some b) (f : BrData → BrData)
    (g : BrData → ℂ) : ((l.modify n f).map g).sum = (l.map g).sum + (g (f b) - g b) := by
  induction l generalizing n with
  | nil => simp at h
  | cons x xs ih =>
    cases n with
    | zero => simp at h; subst h; simp; ring
    | succ n => simp at h; simp [ih n h]; ring

theorem adds_at (bs : List BrData) (n : Nat) (b : BrData) (hb : bs[n]? = some b) (e : El) (P : TwoPort)
    (h : Acts e P) : Adds bs (addEl bs n e) [⟨b.frm, b.tob, P⟩] := by
  intro rv
  obtain ⟨rv', hl⟩ := loadElems_append b.elems e rv
  obtain ⟨h1, h2, h3, h4⟩ := h rv'
  constructor
  · intro p q
    unfold entry addEl
    rw [sum_modify bs n b hb]
    simp only [hl, setYBus_append, h1, h2, linkEntry, List.map_cons, List.map_nil, List.sum_cons,
      List.sum_nil]
    split_ifs <;> ring
  · intro p
    unfold diag addEl
    rw [sum_modify bs n b hb]
    simp only [hl, diagOf_append, h3, h4, linkDiag, List.map_cons, List.map_nil, List.sum_cons,
      List.sum_nil]
    split_ifs <;> ring

theorem adds_flip (bs bs' : List BrData) (i j : Int) (P : TwoPort) (h : Adds bs bs' [⟨j, i, flip P⟩]) :
    Adds bs bs' [⟨i, j, P⟩] := by
  intro rv
  obtain ⟨h1, h2⟩ := h rv
  constructor
  · intro p q
    rw [h1]
    simp only [linkEntry, flip, List.map_cons, List.map_nil, List.sum_cons, List.sum_nil]
    have e1 : (j = p ∧ i = q) = (i = q ∧ j = p) := propext and_comm
    have e2 : (j = q ∧ i = p) = (i = p ∧ j = q) := propext and_comm
    simp only [e1, e2]
    ring
  · intro p
    rw [h2]
    simp only [linkDiag, flip, List.map_cons, List.map_nil, List.sum_cons, List.sum_nil]
    ring

/-- Every entry of the branch map leads to the branch with these buses; keys occur once. -/
structure Inv (st : St) : Prop where
  leads : ∀ i j n, find st.map (i, j) = some n → ∃ b, st.branches[n]? = some b ∧ b.frm = i ∧ b.tob = j

theorem find_insert (m : List ((Int × Int) × Nat)) (k k' : Int × Int) (n : Nat) (h : find m k = none) :
    find (insert m k n) k' = if k' = k then some n else find m k' := by
  unfold insert
  simp only [h, Option.isSome_none, Bool.false_eq_true, if_false]
  unfold find at h ⊢
  rw [Option.map_eq_none_iff] at h
  rw [List.find?_append]
  by_cases hk : k' = k
  · subst hk
    simp [h]
  · have hk' : ¬ k = k' := fun h => hk h.symm
    simp only [hk, if_false]
    cases List.find? (fun e : (Int × Int) × Nat => decide (e.1 = k')) m <;> simp [hk']

theorem insert_same (m : List ((Int × Int) × Nat)) (k : Int × Int) (n n' : Nat) :
    insert (insert m k n) k n' = insert m k n := by
  by_cases h : (find m k) = none
  · have := find_insert m k k n h
    simp only [if_true] at this
    rw [insert, this]
    simp
  · obtain ⟨v, hv⟩ := Option.ne_none_iff_exists'.mp h
    have : insert m k n = m := by simp [insert, hv]
    rw [this]
    simp [insert, hv]

theorem addEl_get (bs : List BrData) (n : Nat) (e : El) (m : Nat) (b : BrData) (h : bs[m]? = some b) :
    ∃ b', (addEl bs n e)[m]? = some b' ∧ b'.frm = b.frm ∧ b'.tob = b.tob := by
  unfold addEl
  rw [List.getElem?_modify]
  simp only [h, Option.map_eq_map, Option.map_some]
  by_cases hnm : n = m
  · exact ⟨_, rfl, by simp [hnm]⟩
  · exact ⟨_, rfl, by simp [hnm]⟩

theorem Inv.addEl {st : St} (h : Inv st) (n : Nat) (e : El) :
    Inv { st with branches := addEl st.branches n e } := by
  constructor
  intro i j m hm
  obtain ⟨b, hb, h1, h2⟩ := h.leads i j m hm
  obtain ⟨b', hb', k1, k2⟩ := addEl_get st.branches n e m b hb
  exact ⟨b', hb', by rw [k1, h1], by rw [k2, h2]⟩

theorem Inv.append {st : St} (h : Inv st) (bs : List BrData) (idx : Nat) (mb : Int) (nb : List Int) :
    Inv ⟨st.branches ++ bs, st.map, idx, mb, nb⟩ := by
  constructor
  intro i j m hm
  obtain ⟨b, hb, h1, h2⟩ := h.leads i j m hm
  exact ⟨b, by
    rw [List.getElem?_append_left]
    · exact hb
    · exact (List.getElem?_eq_some_iff.mp hb).1, h1, h2⟩

theorem Inv.new {st : St} (h : Inv st) (i j : Int) (hk : find st.map (i, j) = none) (n idx : Nat)
    (es : List El) : Inv ⟨st.branches ++ [⟨i, j, n, es⟩], insert st.map (i, j) st.branches.length, idx,
      st.maxBus, st.newBuses⟩ := by
  constructor
  intro i' j' m hm
  simp only at hm
  rw [find_insert _ _ _ _ hk] at hm
  by_cases hij : (i', j') = (i, j)
  · simp only [hij, if_true, Option.some.injEq] at hm
    subst hm
    rw [Prod.mk.injEq] at hij
    exact ⟨⟨i, j, n, es⟩, by simp, hij.1.symm, hij.2.symm⟩
  · simp only [hij, if_false] at hm
    obtain ⟨b, hb, h1, h2⟩ := h.leads i' j' m hm
    exact ⟨b, by
      simp only
      rw [List.getElem?_append_left]
      · exact hb
      · exact (List.getElem?_eq_some_iff.mp hb).1, h1, h2⟩

end GridPACK.RawBranch
