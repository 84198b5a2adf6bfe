import Verif.Lemmas.SeqAll
import Verif.Props.DyrShared

/-! Sequence data from a file: what the buses and branches of a process have afterwards. -/
namespace GridPACK.SeqParser
open StringUtils DataCollection
open Dyr (Conv Struct runStore SEntry)
open RawBus (Val Data get)
open DyrSpec (count deviceName)
open HashDistr (exactBound exactBound_ok)

section
variable {n : Nat} {bound : Nat → Nat → Nat} {puts : List Nat} {f : File}
  {recs : List (Struct × Str)} {busNo : List Int} {ends : List (Int × Int)} {bus branch : List Data}

/-- A generator of a bus has in each sequence the resistance and reactance of its last row in the file. -/
theorem C211_generators (cv : Conv) (h : Setting n bound puts f recs busNo ends bus branch) (me : Nat) :
    ∃ bus' branch', parse cv n bound puts me recs busNo ends bus branch = some (bus', branch') ∧
      bus'.length = bus.length ∧ ∀ (i : Nat) (b : Int) (c : Data), busNo[i]? = some b → bus[i]? = some c →
        ∃ c', bus'[i]? = some c' ∧ ∀ (q : Sequence) (r : Row) (tag : Str) (g : Nat),
          Last (ForGen cv b tag) (f.gens q) r → IsElement cv c "GENERATOR_NUMBER" "GENERATOR_ID" g tag →
          Number cv c' (some (g : Int)) r (genNames q).1 2 ∧ Number cv c' (some (g : Int)) r (genNames q).2 3 := by
  obtain ⟨bus', branch', t, o⟩ := parse_ok cv me h (J := False) (x := 0) (fun _ _ hf => hf.elim)
  refine ⟨bus', branch', o.run, o.buses, ?_⟩
  intro i b c hi hc
  obtain ⟨c1, c', hc', hs, hs'⟩ := o.atBus i b c hi hc
  refine ⟨c', hc', ?_⟩
  intro q r tag g hl he
  obtain ⟨⟨w1, h1, v1⟩, w2, h2, v2⟩ := gen_value o.gen (h.usableBuses c (List.mem_of_getElem? hc)) hs hl
    (h.rows.gens q r (last_mem hl).1).full he
  have hkeep : ∀ name : Str, ':' ∉ name → get c' .double ⟨name, some (g : Int)⟩ = get c1 .double ⟨name, some (g : Int)⟩ := by
    intro name hname
    refine hs'.keep .double _ hname ?_
    rintro x s - - (⟨-, hx, -⟩ | ⟨-, hx, -⟩) <;> cases hx
  exact ⟨⟨w1, h1, (hkeep _ (genNames_plain q).1).trans v1⟩, w2, h2, (hkeep _ (genNames_plain q).2).trans v2⟩

/-- Everything else that a bus had remains: only the values of generators and shunts with a row in the file change. -/
theorem C211_others (cv : Conv) (h : Setting n bound puts f recs busNo ends bus branch) (me : Nat) :
    ∃ bus' branch', parse cv n bound puts me recs busNo ends bus branch = some (bus', branch') ∧
      ∀ (i : Nat) (b : Int) (c : Data), busNo[i]? = some b → bus[i]? = some c → ∃ c', bus'[i]? = some c' ∧
        ∀ (u : Ty) (k : Key), ':' ∉ k.name → ¬ BusEntry cv f b c k → get c' u k = get c u k := by
  obtain ⟨bus', branch', t, o⟩ := parse_ok cv me h (J := False) (x := 0) (fun _ _ hf => hf.elim)
  refine ⟨bus', branch', o.run, ?_⟩
  intro i b c hi hc
  obtain ⟨c1, c', hc', hs, hs'⟩ := o.atBus i b c hi hc
  exact ⟨c', hc', fun u k hk hno => bus_keep o hs hs' hk hno⟩

/-- A bus with rows for its negative sequence shunt has the values of the last of them.  Missing: buses that have only
a row for the zero sequence, and the zero sequence itself (see below). -/
theorem C212_negative_partial (cv : Conv) (h : Setting n bound puts f recs busNo ends bus branch) (me : Nat) :
    ∃ bus' branch', parse cv n bound puts me recs busNo ends bus branch = some (bus', branch') ∧
      ∀ (i : Nat) (b : Int) (c : Data), busNo[i]? = some b → bus[i]? = some c → ∃ c', bus'[i]? = some c' ∧
        ∀ r : Row, Last (ForBus cv b) f.negShunts r →
          Number cv c' none r "BUS_SEQ_GNEG" 1 ∧ Number cv c' none r "BUS_SEQ_BNEG" 2 := by
  obtain ⟨bus', branch', t, o⟩ := parse_ok cv me h (J := False) (x := 0) (fun _ _ hf => hf.elim)
  refine ⟨bus', branch', o.run, ?_⟩
  intro i b c hi hc
  obtain ⟨c1, c', hc', hs, hs'⟩ := o.atBus i b c hi hc
  refine ⟨c', hc', ?_⟩
  intro r hl
  have hlen := (h.rows.negShunts r (last_mem hl).1).full
  obtain ⟨t1, h1⟩ : ∃ w, r[1]? = some w := ⟨_, List.getElem?_eq_getElem (by omega)⟩
  obtain ⟨t2, h2⟩ : ∃ w, r[2]? = some w := ⟨_, List.getElem?_eq_getElem (by omega)⟩
  cases hlook : t.buses.look b with
  | none => exact absurd (last_mem hl).2 (o.shunt.none b hlook r (by simp [(last_mem hl).1]))
  | some s =>
    obtain ⟨v1, v2⟩ := (o.shunt.some b s hlook).val r hl t1 t2 h1 h2
    obtain ⟨g1, g2⟩ := bus_value o.shunt hs' hlook
    exact ⟨⟨t1, h1, g1.trans (congrArg some v1)⟩, t2, h2, g2.trans (congrArg some v2)⟩

/-- Zero sequence shunts are lost: whatever the file says, no bus gets them. -/
theorem C212_zero_violated (cv : Conv) (h : Setting n bound puts f recs busNo ends bus branch) (me : Nat) :
    ∃ bus' branch', parse cv n bound puts me recs busNo ends bus branch = some (bus', branch') ∧
      ∀ (i : Nat) (c : Data), bus[i]? = some c → ∃ c', bus'[i]? = some c' ∧ ∀ u,
        get c' u ⟨"BUS_SEQ_GZERO".toList, none⟩ = get c u ⟨"BUS_SEQ_GZERO".toList, none⟩ ∧
        get c' u ⟨"BUS_SEQ_BZERO".toList, none⟩ = get c u ⟨"BUS_SEQ_BZERO".toList, none⟩ := by
  obtain ⟨bus', branch', hrun, hall⟩ := C211_others cv h me
  refine ⟨bus', branch', hrun, ?_⟩
  intro i c hc
  have hi : i < busNo.length := by rw [h.buses]; exact (List.getElem?_eq_some_iff.mp hc).1
  obtain ⟨c', hc', hkeep⟩ := hall i _ c (List.getElem?_eq_getElem hi) hc
  have hno : ∀ b : Int, ∀ name : String, name ≠ "BUS_SEQ_GNEG" → name ≠ "BUS_SEQ_BNEG" →
      ¬ BusEntry cv f b c ⟨name.toList, none⟩ := by
    intro b name n1 n2 hb
    generalize hk : (⟨name.toList, none⟩ : Key) = k at hb
    cases hb with
    | gen _ _ _ hidx =>
      simp only [Key.mk.injEq] at hk
      rcases hidx with ⟨g, hg, -⟩ | ⟨hg, -⟩ <;> rw [← hk.2] at hg <;> cases hg
    | shunt _ _ hn =>
      simp only [Key.mk.injEq] at hk
      have := String.toList_injective hk.1
      rcases hn with rfl | rfl
      · exact n1 this
      · exact n2 this
  exact ⟨c', hc', fun u => ⟨hkeep u _ (Dyr.noColon_of (by decide +kernel)) (hno _ _ (by decide) (by decide)),
    hkeep u _ (Dyr.noColon_of (by decide +kernel)) (hno _ _ (by decide) (by decide))⟩⟩

/-- A bus that has only a row for its zero sequence shunt gets a negative sequence shunt that nobody specified:
whatever was in the memory of the new struct. -/
theorem C212_negative_violated (cv : Conv) (h : Setting n bound puts f recs busNo ends bus branch) (me : Nat)
    {x : ℝ} (hx : ∀ r ∈ recs, Eq (r.1 .double "gneg") x ∧ Eq (r.1 .double "bneg") x) :
    ∃ bus' branch', parse cv n bound puts me recs busNo ends bus branch = some (bus', branch') ∧
      ∀ (i : Nat) (b : Int) (c : Data), busNo[i]? = some b → bus[i]? = some c →
        (∃ r ∈ f.zeroShunts, ForBus cv b r) → (∀ r ∈ f.negShunts, ¬ ForBus cv b r) → ∃ c', bus'[i]? = some c' ∧
          Eq (get c' .double ⟨"BUS_SEQ_GNEG".toList, none⟩) (some x) ∧
          Eq (get c' .double ⟨"BUS_SEQ_BNEG".toList, none⟩) (some x) := by
  obtain ⟨bus', branch', t, o⟩ := parse_ok cv me h (J := True) (x := x) (fun r hr _ => hx r hr)
  refine ⟨bus', branch', o.run, ?_⟩
  rintro i b c hi hc ⟨r, hr, hfor⟩ hnone
  obtain ⟨c1, c', hc', hs, hs'⟩ := o.atBus i b c hi hc
  refine ⟨c', hc', ?_⟩
  cases hlook : t.buses.look b with
  | none => exact absurd hfor (o.shunt.none b hlook r (by simp [hr]))
  | some s =>
    obtain ⟨v1, v2⟩ := (o.shunt.some b s hlook).left trivial hnone
    obtain ⟨g1, g2⟩ := bus_value o.shunt hs' hlook
    exact ⟨g1.trans (congrArg some v1), g2.trans (congrArg some v2)⟩

/-- A line has the seven values of its last row.  Missing: lines whose row names the buses in the other order (see
below), and lines with the name of a transformer between the same buses. -/
theorem C213_lines_partial (cv : Conv) (h : Setting n bound puts f recs busNo ends bus branch) (me : Nat) :
    ∃ bus' branch', parse cv n bound puts me recs busNo ends bus branch = some (bus', branch') ∧
      branch'.length = branch.length ∧
      ∀ (i : Nat) (e : Int × Int) (c : Data), ends[i]? = some e → branch[i]? = some c → ∃ c', branch'[i]? = some c' ∧
        ∀ (r : Row) (tag : Str) (g : Nat), Last (ForBranch cv 2 e tag) f.lines r →
          (∀ y ∈ f.xforms, ¬ ForBranch cv 3 e tag y) → IsElement cv c "BRANCH_NUM_ELEMENTS" "BRANCH_CKT" g tag →
          ∀ p ∈ lineFormat, Number cv c' (some (g : Int)) r p.1 p.2 := by
  obtain ⟨bus', branch', t, o⟩ := parse_ok cv me h (J := False) (x := 0) (fun _ _ hf => hf.elim)
  refine ⟨bus', branch', o.run, o.branches, ?_⟩
  intro i e c hi hc
  obtain ⟨c', hc', hs⟩ := o.atBranch i e c hi hc
  refine ⟨c', hc', ?_⟩
  intro r tag g hl hx he p hp
  have hfull : RowFull (false, r) := ⟨(h.rows.lines r (last_mem hl).1).full, by simp⟩
  have hlast : LastRow cv (e, tag) (branchRows f) (false, r) := by
    obtain ⟨pre, post, e1, e2, e3⟩ := hl
    refine ⟨pre.map (fun r => (false, r)), post.map (fun r => (false, r)) ++ f.xforms.map (fun r => (true, r)),
      by simp [branchRows, e1], e2, ?_⟩
    intro y hy
    rcases List.mem_append.mp hy with hy | hy
    · obtain ⟨z, hz, rfl⟩ := List.mem_map.mp hy
      exact e3 z hz
    · obtain ⟨z, hz, rfl⟩ := List.mem_map.mp hy
      exact hx z hz
  have hval := (branch_value o.line (h.usableBranches c (List.mem_of_getElem? hc)) hs hlast hfull he).1
  have : ∃ m, (p.1, m, p.2) ∈ lineTab := by
    have hall : ∀ p ∈ lineFormat, ∃ m, (p.1, m, p.2) ∈ lineTab := by simp [lineFormat, lineTab]
    exact hall p hp
  obtain ⟨m, hm⟩ := this
  exact hval (p.1, m, p.2) hm

/-- A transformer has the values of its last row: those for two windings if the row has eleven words, else those for
three.  Missing: rows of twelve to fourteen words and rows with the buses in the other order (see below). -/
theorem C213_transformers_partial (cv : Conv) (h : Setting n bound puts f recs busNo ends bus branch) (me : Nat) :
    ∃ bus' branch', parse cv n bound puts me recs busNo ends bus branch = some (bus', branch') ∧
      branch'.length = branch.length ∧
      ∀ (i : Nat) (e : Int × Int) (c : Data), ends[i]? = some e → branch[i]? = some c → ∃ c', branch'[i]? = some c' ∧
        ∀ (r : Row) (tag : Str) (g : Nat), Last (ForBranch cv 3 e tag) f.xforms r →
          IsElement cv c "BRANCH_NUM_ELEMENTS" "BRANCH_CKT" g tag →
          (∀ p ∈ xformFormat ++ (if r.length = 11 then twoFormat else threeFormat),
            Number cv c' (some (g : Int)) r p.1 p.2) ∧
          ∀ p ∈ xformWhole, Whole cv c' (some (g : Int)) r p.1 p.2 := by
  obtain ⟨bus', branch', t, o⟩ := parse_ok cv me h (J := False) (x := 0) (fun _ _ hf => hf.elim)
  refine ⟨bus', branch', o.run, o.branches, ?_⟩
  intro i e c hi hc
  obtain ⟨c', hc', hs⟩ := o.atBranch i e c hi hc
  refine ⟨c', hc', ?_⟩
  intro r tag g hl he
  have hok := h.rows.xforms r (last_mem hl).1
  have hfull : RowFull (true, r) := ⟨by have := hok.1.full; simp only; omega, fun _ => hok.2⟩
  have hlast : LastRow cv (e, tag) (branchRows f) (true, r) := by
    obtain ⟨pre, post, e1, e2, e3⟩ := hl
    refine ⟨f.lines.map (fun r => (false, r)) ++ pre.map (fun r => (true, r)), post.map (fun r => (true, r)),
      by simp [branchRows, e1], e2, ?_⟩
    intro y hy
    obtain ⟨z, hz, rfl⟩ := List.mem_map.mp hy
    exact e3 z hz
  obtain ⟨hval, hwhole⟩ := branch_value o.line (h.usableBranches c (List.mem_of_getElem? hc)) hs hlast hfull he
  refine ⟨fun p hp => ?_, fun p hp => ?_⟩
  · have : ∃ m, (p.1, m, p.2) ∈ tabOf (true, r) := by
      by_cases h11 : r.length = 11
      · have h3 : three r = false := by simp [three, h11]
        rw [if_pos h11] at hp
        have hall : ∀ p ∈ xformFormat ++ twoFormat, ∃ m, (p.1, m, p.2) ∈ xformTab ++ twoTab := by
          simp [xformFormat, twoFormat, xformTab, twoTab]
        simpa [tabOf, h3] using hall p hp
      · have h3 : three r = true := by simp [three, h11]
        rw [if_neg h11] at hp
        have hall : ∀ p ∈ xformFormat ++ threeFormat, ∃ m, (p.1, m, p.2) ∈ xformTab ++ threeTab := by
          simp [xformFormat, threeFormat, xformTab, threeTab]
        simpa [tabOf, h3] using hall p hp
    obtain ⟨m, hm⟩ := this
    exact hval (p.1, m, p.2) hm
  · have : ∃ m, (p.1, m, p.2) ∈ wholeTab := by
      have hall : ∀ p ∈ xformWhole, ∃ m, (p.1, m, p.2) ∈ wholeTab := by simp [xformWhole, wholeTab]
      exact hall p hp
    obtain ⟨m, hm⟩ := this
    exact hwhole rfl (p.1, m, p.2) hm

/-- Everything else that a branch had remains. -/
theorem C213_others (cv : Conv) (h : Setting n bound puts f recs busNo ends bus branch) (me : Nat) :
    ∃ bus' branch', parse cv n bound puts me recs busNo ends bus branch = some (bus', branch') ∧
      ∀ (i : Nat) (e : Int × Int) (c : Data), ends[i]? = some e → branch[i]? = some c → ∃ c', branch'[i]? = some c' ∧
        ∀ (u : Ty) (k : Key), ':' ∉ k.name → ¬ BranchEntry cv f e c k → get c' u k = get c u k := by
  obtain ⟨bus', branch', t, o⟩ := parse_ok cv me h (J := False) (x := 0) (fun _ _ hf => hf.elim)
  refine ⟨bus', branch', o.run, ?_⟩
  intro i e c hi hc
  obtain ⟨c', hc', hs⟩ := o.atBranch i e c hi hc
  exact ⟨c', hc', fun u k hk hno => branch_keep o hs hk hno⟩

/-- The buses of a branch have no order in the format, but a row is lost if it names them in the other order than the
network: if all rows do, the branch has no values. -/
theorem C213_reversed_violated (cv : Conv) (h : Setting n bound puts f recs busNo ends bus branch) (me : Nat) :
    ∃ bus' branch', parse cv n bound puts me recs busNo ends bus branch = some (bus', branch') ∧
      ∀ (i : Nat) (e : Int × Int) (c : Data), ends[i]? = some e → branch[i]? = some c → e.1 ≠ e.2 →
        (∀ r ∈ f.lines, ∃ tag, ForBranch cv 2 (e.2, e.1) tag r) →
        (∀ r ∈ f.xforms, ∃ tag, ForBranch cv 3 (e.2, e.1) tag r) → ∃ c', branch'[i]? = some c' ∧
          ∀ (u : Ty) (k : Key), ':' ∉ k.name → get c' u k = get c u k := by
  obtain ⟨bus', branch', hrun, hall⟩ := C213_others cv h me
  refine ⟨bus', branch', hrun, ?_⟩
  intro i e c hi hc hne hlines hxforms
  obtain ⟨c', hc', hkeep⟩ := hall i e c hi hc
  have hclash : ∀ {m : Nat} {r : Row} {tag tag' : Str}, ForBranch cv m (e.2, e.1) tag r → ¬ ForBranch cv m e tag' r := by
    rintro m r tag tag' ⟨t0, _, _, h0, _, _, a0, _, _⟩ ⟨t0', _, _, h0', _, _, a0', _, _⟩
    rw [h0] at h0'
    obtain rfl := Option.some.inj h0'
    exact hne (a0'.symm.trans a0)
  refine ⟨c', hc', fun u k hk => hkeep u k hk ?_⟩
  intro hb
  cases hb with
  | line hr hf =>
    obtain ⟨tag, ht⟩ := hlines _ hr
    exact hclash ht hf
  | xform hr hf =>
    obtain ⟨tag, ht⟩ := hxforms _ hr
    exact hclash ht hf

end

/-! ### A row that is too short -/

theorem runStore_stuck {cv : Conv} {ts : List Str} {es : List SEntry} {e : SEntry} (he : e ∈ es) (hp : Plain es)
    (hn : e.src.eval cv ts = none) : ∀ s, runStore cv ts es s = none := by
  induction es with
  | nil => simp at he
  | cons x es ih =>
    intro s
    have hx : Dyr.passes ts.length x.guard = true := hp.passes _ x (by simp)
    rw [runStore, if_pos hx]
    rcases List.mem_cons.mp he with rfl | he
    · rw [hn]; rfl
    · cases hv : x.src.eval cv ts with
      | none => rfl
      | some v => exact ih he (fun y hy => hp y (by simp [hy])) _

theorem read_stuck {K : Type} [DecidableEq K] {sec : Sec K} {cv : Conv} {m m' : Nat} {rows : List Row}
    (hrows : ∀ r ∈ rows, RowOk m r) {bad : Row} (hbad : RowOk m' bad)
    (hstep : ∀ t junk, sec.step cv t (junk, bad) = none) :
    ∀ {recs : List (Struct × Str)} {rest : List Str}, recs.map (·.2) = rows.map rowText ++ rowText bad :: rest →
      ∀ t, sec.read cv recs t = none := by
  induction rows with
  | nil =>
    intro recs rest hr t
    obtain ⟨r, recs', rfl, h1, h2⟩ := List.map_eq_cons_iff.mp hr
    rw [Sec.read, h1, testEnd_row hbad, split_row hbad.words]
    simp [hstep]
  | cons row rows ih =>
    intro recs rest hr t
    obtain ⟨r, recs', rfl, h1, h2⟩ := List.map_eq_cons_iff.mp hr
    have hok := hrows row (by simp)
    rw [Sec.read, h1, testEnd_row hok, split_row hok.words]
    simp only [if_true]
    cases sec.step cv t (r.1, row) with
    | none => rfl
    | some t' => exact ih (fun x hx => hrows x (by simp [hx])) h2 t'

/-- The row of a transformer with twelve to fourteen words - the eleven of two windings and some of the optional ones -
is taken for one with three windings, and words after its end are used: the run is undefined. -/
theorem C213_short_violated (cv : Conv) (n : Nat) (bound : Nat → Nat → Nat) (puts : List Nat) (me : Nat) {f : File}
    (hf : f.Ok) {bad : Row} (hbad : RowOk 12 bad) (hlen : bad.length ≤ 14) (post : List Row)
    {first : Row} (hfirst : Words first) {e : Nat → Str} (he : ∀ j, IsEnd (e j)) (rest : List Str)
    {recs : List (Struct × Str)}
    (htext : recs.map (·.2) = ({ f with xforms := f.xforms ++ bad :: post }).text (rowText first) e rest)
    (busNo : List Int) (ends : List (Int × Int)) (bus branch : List Data) :
    parse cv n bound puts me recs busNo ends bus branch = none := by
  have hstep : ∀ t junk, xformSec.step cv t (junk, bad) = none := by
    intro t junk
    have h3 : three bad = true := by have := hbad.full; simp [three]; omega
    have hst : ∀ s, runStore cv bad (xformStore bad) s = none := by
      intro s
      refine runStore_stuck (e := aDbl "x3" 14) ?_ (storeOf_plain (true, bad)) ?_ s
      · show _ ∈ xformStore bad
        simp [xformStore, h3]
      · simp [aDbl, Dyr.Src.eval]
        omega
    unfold Sec.step
    cases xformSec.key cv (junk, bad).2 with
    | none => rfl
    | some k =>
      simp only [Option.bind_some, xformSec]
      split
      · rename_i i _
        cases t.data[i]? with
        | none => rfl
        | some s => simp [hst]
      · simp [hst]
  obtain ⟨r0, rs, rfl, h1, h2⟩ := List.map_eq_cons_iff.mp htext
  obtain ⟨g1, l1, a1, b1, c1, d1⟩ := gen_read (q := .pos) (hf.gens .pos) (he 0) h2 (gen_fresh cv)
  obtain ⟨g2, l2, a2, b2, c2, d2⟩ := gen_read (q := .neg) (hf.gens .neg) (he 1) b1 d1
  obtain ⟨g3, l3, a3, b3, c3, d3⟩ := gen_read (q := .zero) (hf.gens .zero) (he 2) b2 d2
  obtain ⟨g4, l4, a4, b4, c4, d4⟩ := neg_read (cv := cv) (J := False) (x := 0) hf.negShunts (he 3) b3
  obtain ⟨g5, l5, a5, b5, c5, d5⟩ := zero_read hf.zeroShunts (he 4) b4 (fun _ _ h => h.elim) d4
  obtain ⟨g6, l6, a6, b6, c6, d6⟩ := branch_read (x := false) hf.lines
    (fun r hr => ⟨(hf.lines r hr).full, by simp⟩) (he 5) b5 (branch_fresh cv)
  obtain ⟨b7, c7⟩ := skip_ok (he 6) hf.mutuals b6
  have b7' : (skip l6).map (·.2) = f.xforms.map rowText ++ rowText bad :: (post.map rowText ++ e 7 :: rest) := by
    rw [b7]; simp
  have hnone := read_stuck (m := 11) (fun r hr => (hf.xforms r hr).1) hbad hstep b7' g6
  unfold parse
  have : readFile cv (r0 :: rs) fresh = none := by
    simp only [readFile, List.map_cons, List.headD_cons, h1, split_row hfirst, List.tail_cons, fresh]
    cases first with
    | nil => exact absurd rfl hfirst.1
    | cons w first =>
      simp only [secOf] at a1 a2 a3
      simp only [branchSec] at a6
      simp [a1, a2, a3, a4, a5, a6, hnone]
  rw [this]
  rfl

/-! ### A parser used twice -/

/-- A parser remembers the places of the generators of the last file but not their structs.  If process 0 holds none of
the buses of a first file, and a second file starts with a row for a generator of the first, the struct sought is
outside the vector: the run is undefined. -/
theorem C214_reuse_violated (cv : Conv) {n : Nat} {bound : Nat → Nat → Nat} {puts : List Nat} {f : File}
    {recs : List (Struct × Str)} {busNo : List Int} {ends : List (Int × Int)} {bus branch : List Data}
    (h : Setting n bound puts f recs busNo ends bus branch)
    (hbus : ∀ q, ∀ r ∈ f.gens q, ∀ b tag, ForGen cv b tag r → b ∉ busNo) :
    ∃ t g, readFile cv recs fresh = some t ∧ gensAfter n bound puts t busNo = some g ∧
      ∀ (q : Sequence) (r r' : Row) (b : Int) (tag : Str), r ∈ f.gens q → ForGen cv b tag r → RowOk 4 r' →
        ForGen cv b tag r' → ∀ (first : Row), Words first → ∀ (recs' : List (Struct × Str)) (rest : List Str),
        recs'.map (·.2) = rowText first :: rowText r' :: rest → ∀ buses branches,
        readFile cv recs' ⟨g, buses, branches⟩ = none := by
  obtain ⟨first, e, rest, hfirst, he, htext⟩ := h.text
  obtain ⟨t, h1, h2, -, -⟩ := readFile_ok (cv := cv) h.rows hfirst he htext (J := False) (x := 0) (fun _ _ hf => hf.elim)
  have hall : (List.range n).flatMap (fun p => if p = 0 then genVec t else []) = genVec t := by
    obtain ⟨k, rfl⟩ : ∃ k, n = k + 1 := ⟨n - 1, by have := h.procs; omega⟩
    rw [List.range_succ_eq_map, List.flatMap_cons, if_pos rfl]
    have : ((List.range k).map Nat.succ).flatMap (fun p => if p = 0 then genVec t else []) = [] := by
      rw [List.flatMap_eq_nil_iff]
      intro x hx
      obtain ⟨y, _, rfl⟩ := List.mem_map.mp hx
      simp
    rw [this, List.append_nil]
  obtain ⟨out, hout, hperm⟩ := HashDistr.C10_distribute_exact n h.procs (bound (genVec t).length)
    (fun p => if p = 0 then genVec t else []) puts h.order (by rw [hall]; exact h.bounds _) busNo 0
  rw [hall] at hperm
  have hnil : out = [] := by
    have : (genVec t).flatMap (fun kv => ((List.range busNo.length).filter
        (fun i => decide (busNo[i]? = some kv.1))).map (fun i => (i, kv.2))) = [] := by
      rw [List.flatMap_eq_nil_iff]
      intro kv hkv
      rw [List.map_eq_nil_iff, List.filter_eq_nil_iff]
      intro i _
      rw [decide_eq_true_eq]
      intro hi
      obtain ⟨s, hs, rfl⟩ := List.mem_map.mp hkv
      obtain ⟨k, hk⟩ := h2.wf.mem hs
      have hst := h2.some k s hk
      have hb : Eq (s .int "bus_id") k.1 := hst.bus
      obtain ⟨q, r, hr, hfor⟩ := h2.row k s hk
      refine hbus q r hr k.1 k.2 hfor ?_
      have : k.1 ∈ busNo := List.mem_of_getElem? (hi.trans (congrArg some hb))
      exact this
    rw [this] at hperm
    exact hperm.eq_nil
  subst hnil
  refine ⟨t, ⟨[], t.gens.ids⟩, h1, ?_, ?_⟩
  · unfold gensAfter
    rw [hout]
    rfl
  · intro q r r' b tag hr hfor hok hfor' first' hfirst' recs' rest' hrec buses branches
    obtain ⟨r0, rs, rfl, e1, e2⟩ := List.map_eq_cons_iff.mp hrec
    obtain ⟨r1, rs, rfl, e3, e4⟩ := List.map_eq_cons_iff.mp e2
    have hstep : posSec.step cv ⟨[], t.gens.ids⟩ (r1.1, r') = none := by
      obtain ⟨t0, t1, g0, g1, rfl, rfl⟩ := hfor'
      unfold Sec.step
      have hkey : posSec.key cv (r1.1, r').2 = some (cv.atoi t0, cv.tag t1) := by
        simp [posSec, genKey, g0, g1]
      rw [hkey, Option.bind_some]
      have hplace : ∃ i, t.gens.place (cv.atoi t0, cv.tag t1) = some i := by
        cases hp : t.gens.place (cv.atoi t0, cv.tag t1) with
        | none => exact absurd hfor (h2.none _ (h2.wf.look_none.mpr hp) q r hr)
        | some i => exact ⟨i, rfl⟩
      obtain ⟨i, hi⟩ := hplace
      have : Table.place (⟨[], t.gens.ids⟩ : Table (Int × Str)) (cv.atoi t0, cv.tag t1) = some i := hi
      rw [this]
      simp
    have hread : posSec.read cv (r1 :: rs) ⟨[], t.gens.ids⟩ = none := by
      rw [Sec.read, e3, testEnd_row hok, split_row hok.words]
      simp [hstep]
    simp only [readFile, List.map_cons, List.headD_cons, e1, split_row hfirst', List.tail_cons]
    cases first' with
    | nil => exact absurd rfl hfirst'.1
    | cons w ws => simp [hread]

/-! ### Examples -/

open Dyr (dec oneOfEach)

/-- A branch with one line. -/
noncomputable def oneLine : Data :=
  ((addValue (fun _ => []) .int ⟨"BRANCH_NUM_ELEMENTS".toList, none⟩ (1 : Int)).bind
    (fun c => addValue c .string ⟨"BRANCH_CKT".toList, some 0⟩ "1 ".toList)).getD (fun _ => [])

/-- A row by its words. -/
def words (ws : List String) : Row := ws.map String.toList

/-- A generator, two shunts, a line from bus 1 to bus 2 and a transformer from bus 2 to bus 3; the generator has two
rows in the positive sequence. -/
def small : File where
  pos := [words ["1", "1 ", "3", "4"], words ["1", "1 ", "5", "6"]]
  neg := [words ["1", "1 ", "7", "8"]]
  zero := []
  negShunts := [words ["1", "2", "3"]]
  zeroShunts := [words ["7", "4", "5"]]
  lines := [words ["1", "2", "1 ", "1", "2", "3", "4", "5", "6", "7"]]
  mutuals := []
  xforms := [words ["2", "3", "4", "1 ", "5", "6", "7", "8", "9", "1", "2"]]

theorem rowOk_words {m : Nat} {w : String} {ws : List String} (h : (w :: ws).all (fun x => decide (x.toList ≠ []) &&
    decide (',' ∉ x.toList)) = true) (hm : m ≤ ws.length + 1) {c : Char} {r : Str} (hc : w.toList = c :: r)
    (h1 : c ≠ ' ') (h2 : c ≠ '0') : RowOk m (words (w :: ws)) where
  words := by
    refine ⟨by simp [words], ?_⟩
    intro x hx
    obtain ⟨y, hy, rfl⟩ := List.mem_map.mp hx
    rw [List.all_eq_true] at h
    simpa using h y hy
  full := by simpa [words] using hm
  start := ⟨0, c, r, by simp [words, hc], h1, h2⟩

theorem small_ok : small.Ok where
  gens := by
    intro q
    cases q <;> simp only [small, File.gens, List.mem_cons, List.not_mem_nil, or_false, false_implies, implies_true,
      forall_eq_or_imp, forall_eq]
    · exact ⟨rowOk_words (by decide +kernel) (by decide) (c := '1') rfl (by decide) (by decide),
        rowOk_words (by decide +kernel) (by decide) (c := '1') rfl (by decide) (by decide)⟩
    · exact rowOk_words (by decide +kernel) (by decide) (c := '1') rfl (by decide) (by decide)
  negShunts := by
    simp only [small, List.mem_singleton, forall_eq]
    exact rowOk_words (by decide +kernel) (by decide) (c := '1') rfl (by decide) (by decide)
  zeroShunts := by
    simp only [small, List.mem_singleton, forall_eq]
    exact rowOk_words (by decide +kernel) (by decide) (c := '7') rfl (by decide) (by decide)
  lines := by
    simp only [small, List.mem_singleton, forall_eq]
    exact rowOk_words (by decide +kernel) (by decide) (c := '1') rfl (by decide) (by decide)
  mutuals := by simp [small]
  xforms := by
    simp only [small, List.mem_singleton, forall_eq]
    exact ⟨rowOk_words (by decide +kernel) (by decide) (c := '2') rfl (by decide) (by decide), .inl (by decide)⟩

/-- The lines of the file with the same memory for all structs. -/
def smallLines (junk : Struct) : List (Struct × Str) :=
  (small.text (rowText (words ["0", "seq"])) (fun _ => ['0']) []).map (fun l => (junk, l))

theorem small_setting (junk : Struct) : Setting 3 (exactBound 3) [2, 0, 1] small (smallLines junk) [7, 1] [(1, 2), (2, 3)]
    [oneOfEach, oneOfEach] [oneLine, oneLine] where
  procs := by decide
  bounds := fun total => exactBound_ok 3 total (by decide)
  order := by decide
  rows := small_ok
  text := ⟨words ["0", "seq"], fun _ => ['0'], [], ⟨by decide, by
      intro w hw
      obtain ⟨y, hy, rfl⟩ := List.mem_map.mp hw
      have : ["0", "seq"].all (fun x => decide (x.toList ≠ []) && decide (',' ∉ x.toList)) = true := by decide +kernel
      rw [List.all_eq_true] at this
      simpa using this y hy⟩, fun _ => .inl ⟨[], rfl⟩, by
      rw [smallLines, List.map_map]
      exact List.map_id _⟩
  buses := rfl
  branches := rfl
  usableBuses := by
    intro c hc
    obtain rfl : c = oneOfEach := by simpa using hc
    exact (Dyr.oneOfEach_usable (n := 0) (by decide)).1
  usableBranches := by
    intro c hc
    obtain rfl : c = oneLine := by simpa using hc
    have h1 : count oneLine "BRANCH_NUM_ELEMENTS" = 1 := by decide +kernel
    rw [h1]
    decide

theorem oneOfEach_element : IsElement dec oneOfEach "GENERATOR_NUMBER" "GENERATOR_ID" 0 "1 ".toList :=
  ⟨by
    have h1 : count oneOfEach "GENERATOR_NUMBER" = 1 := by decide +kernel
    rw [h1]; decide, by
    show deviceName oneOfEach "GENERATOR_ID" 0 = "1 ".toList
    decide +kernel, by simp⟩

theorem oneLine_element : IsElement dec oneLine "BRANCH_NUM_ELEMENTS" "BRANCH_CKT" 0 "1 ".toList :=
  ⟨by
    have h1 : count oneLine "BRANCH_NUM_ELEMENTS" = 1 := by decide +kernel
    rw [h1]; decide, by
    show deviceName oneLine "BRANCH_CKT" 0 = "1 ".toList
    decide +kernel, by simp⟩

/-- The generator has the values of its second row. -/
example (junk : Struct) (me : Nat) : ∃ bus' branch' c', parse dec 3 (exactBound 3) [2, 0, 1] me (smallLines junk) [7, 1]
    [(1, 2), (2, 3)] [oneOfEach, oneOfEach] [oneLine, oneLine] = some (bus', branch') ∧ bus'[1]? = some c' ∧
    Eq (get c' .double ⟨"GENERATOR_SEQ_ZRPOS".toList, some 0⟩) (some (5 : ℝ)) := by
  obtain ⟨bus', branch', h1, -, h2⟩ := C211_generators dec (small_setting junk) me
  obtain ⟨c', h3, h4⟩ := h2 1 1 oneOfEach rfl rfl
  obtain ⟨⟨w, hw, hv⟩, -⟩ := h4 .pos (words ["1", "1 ", "5", "6"]) "1 ".toList 0
    ⟨[words ["1", "1 ", "3", "4"]], [], rfl, ⟨_, _, rfl, rfl, by decide +kernel, rfl⟩, by simp⟩ oneOfEach_element
  refine ⟨bus', branch', c', h1, h3, ?_⟩
  obtain rfl : "5".toList = w := by simpa [words] using hw
  refine hv.trans ?_
  have : (Dyr.digits "5".toList) = 5 := by decide +kernel
  show some ((Dyr.digits "5".toList : ℕ) : ℝ) = some 5
  rw [this]
  norm_num

/-- The line and the transformer. -/
example (junk : Struct) (me : Nat) : ∃ bus' branch' c' d', parse dec 3 (exactBound 3) [2, 0, 1] me (smallLines junk)
    [7, 1] [(1, 2), (2, 3)] [oneOfEach, oneOfEach] [oneLine, oneLine] = some (bus', branch') ∧
    branch'[0]? = some c' ∧ branch'[1]? = some d' ∧
    Number dec c' (some 0) (words ["1", "2", "1 ", "1", "2", "3", "4", "5", "6", "7"]) "BRANCH_SEQ_BJ" 9 ∧
    Number dec d' (some 0) (words ["2", "3", "4", "1 ", "5", "6", "7", "8", "9", "1", "2"]) "TRANSFORMER_SEQ_XG2" 10 := by
  obtain ⟨bus', branch', h1, -, h2⟩ := C213_lines_partial dec (small_setting junk) me
  obtain ⟨bus2, branch2, h1', -, h2'⟩ := C213_transformers_partial dec (small_setting junk) me
  rw [h1] at h1'
  obtain ⟨rfl, rfl⟩ : bus' = bus2 ∧ branch' = branch2 := by simpa using h1'
  obtain ⟨c', h3, h4⟩ := h2 0 (1, 2) oneLine rfl rfl
  obtain ⟨d', h3', h4'⟩ := h2' 1 (2, 3) oneLine rfl rfl
  refine ⟨bus', branch', c', d', h1, h3, h3', ?_, ?_⟩
  · refine h4 _ "1 ".toList 0 ⟨[], [], rfl, ⟨_, _, _, rfl, rfl, rfl, by decide +kernel, by decide +kernel, rfl⟩, by simp⟩
      ?_ oneLine_element ("BRANCH_SEQ_BJ", 9) (by simp [lineFormat])
    simp only [small, List.mem_singleton, forall_eq]
    rintro ⟨t0, t1, t, h0, -, -, a0, -⟩
    obtain rfl : "2".toList = t0 := by simpa [words] using h0
    exact absurd a0 (by decide +kernel)
  · refine (h4' _ "1 ".toList 0 ⟨[], [], rfl, ⟨_, _, _, rfl, rfl, rfl, by decide +kernel, by decide +kernel, rfl⟩, by simp⟩
      oneLine_element).1 ("TRANSFORMER_SEQ_XG2", 10) ?_
    have : (words ["2", "3", "4", "1 ", "5", "6", "7", "8", "9", "1", "2"]).length = 11 := rfl
    rw [if_pos this]
    simp [twoFormat]

/-- Bus 7 has only a zero sequence shunt: its negative sequence shunt is 99, from the memory. -/
example (me : Nat) (junk : Struct) (h : Eq (junk .double "gneg") (99 : ℝ) ∧ Eq (junk .double "bneg") (99 : ℝ)) :
    ∃ bus' branch' c', parse dec 3 (exactBound 3) [2, 0, 1] me (smallLines junk) [7, 1] [(1, 2), (2, 3)]
      [oneOfEach, oneOfEach] [oneLine, oneLine] = some (bus', branch') ∧ bus'[0]? = some c' ∧
      Eq (get c' .double ⟨"BUS_SEQ_GNEG".toList, none⟩) (some (99 : ℝ)) := by
  obtain ⟨bus', branch', h1, h2⟩ := C212_negative_violated dec (small_setting junk) me (x := 99) (by
    intro r hr
    obtain ⟨l, -, rfl⟩ := List.mem_map.mp hr
    exact h)
  obtain ⟨c', h3, h4, -⟩ := h2 0 7 oneOfEach rfl rfl
    ⟨words ["7", "4", "5"], by simp [small], _, rfl, by decide +kernel⟩ (by
      simp only [small, List.mem_singleton, forall_eq]
      rintro ⟨t0, h0, a0⟩
      obtain rfl : "1".toList = t0 := by simpa [words] using h0
      exact absurd a0 (by decide +kernel))
  exact ⟨bus', branch', c', h1, h3, h4⟩

/-- The row of the negative sequence shunt of bus 1 counts. -/
example : Last (ForBus dec 1) small.negShunts (words ["1", "2", "3"]) :=
  ⟨[], [], rfl, ⟨_, rfl, by decide +kernel⟩, by simp⟩

/-- Branch (2, 1) of a network, with the line given as 1, 2. -/
example (e : Int × Int) (he : e = (2, 1)) : e.1 ≠ e.2 ∧ ∀ r ∈ small.lines, ∃ tag, ForBranch dec 2 (e.2, e.1) tag r := by
  subst he
  refine ⟨by decide, ?_⟩
  simp only [small, List.mem_singleton, forall_eq]
  exact ⟨_, _, _, _, rfl, rfl, rfl, by decide +kernel, by decide +kernel, rfl⟩

/-- A transformer row of twelve words. -/
example : RowOk 12 (words ["2", "3", "4", "1 ", "5", "6", "7", "8", "9", "1", "2", "3"]) ∧
    (words ["2", "3", "4", "1 ", "5", "6", "7", "8", "9", "1", "2", "3"]).length ≤ 14 :=
  ⟨rowOk_words (by decide +kernel) (by decide) (c := '2') rfl (by decide) (by decide), by decide⟩

/-- Process 0 holds bus 5 only. -/
example : ∀ q, ∀ r ∈ small.gens q, ∀ b tag, ForGen dec b tag r → b ∉ [(5 : Int)] := by
  rintro q r hr b tag ⟨t0, t1, h0, -, rfl, -⟩
  have : t0 = "1".toList := by
    cases q <;> simp [File.gens, small] at hr
    · rcases hr with rfl | rfl <;> simpa [words] using h0.symm
    · subst hr; simpa [words] using h0.symm
  subst this
  decide +kernel

end GridPACK.SeqParser
