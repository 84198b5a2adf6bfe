import Verif.Lemmas.SeqParser

/-! What the structs of a sequence file hold. -/
namespace GridPACK.SeqParser
open StringUtils DataCollection Dyr
open RawBus (Val Data get idxOk)

theorem flag_put (s : Struct) (f g : String) (b : Bool) :
    flag (s.put f ⟨.bool, b⟩) g = if g = f then b else flag s g := by
  unfold flag Struct.put
  by_cases h : g = f
  · simp [h]
  · simp [h]
    rfl

theorem put_bool_other (s : Struct) (f g : String) (b : Bool) {t : Ty} (ht : t ≠ .bool) :
    (s.put f ⟨.bool, b⟩) t g = s t g := by
  unfold Struct.put
  simp [Ne.symm ht]

theorem setFlags_other (fs : List (String × Bool)) (s : Struct) {t : Ty} (ht : t ≠ .bool) (g : String) :
    setFlags fs s t g = s t g := by
  unfold setFlags
  induction fs generalizing s with
  | nil => rfl
  | cons f fs ih => rw [List.foldl_cons, ih, put_bool_other _ _ _ _ ht]

/-- Entries without a test. -/
def Plain (es : List SEntry) : Prop := ∀ e ∈ es, e.guard = none

theorem Plain.passes {es : List SEntry} (h : Plain es) (n : Nat) : ∀ e ∈ es, passes n e.guard = true := by
  intro e he
  rw [h e he]
  rfl

/-- The last word a source uses. -/
def Src.need : Src → Nat
  | .int n => n + 1
  | .dbl n => n + 1
  | .trunc n => n + 1
  | .name n => n + 1
  | .tag n => n + 1
  | .yes => 0

theorem eval_some (cv : Conv) {ts : List Str} {a : Src} (h : Src.need a ≤ ts.length) : (a.eval cv ts).isSome := by
  cases a <;> simp only [Src.need] at h <;> simp [Src.eval] <;> omega

theorem store_some (cv : Conv) {ts : List Str} {es : List SEntry} (h : ∀ e ∈ es, Src.need e.src ≤ ts.length)
    (s : Struct) : ∃ s', runStore cv ts es s = some s' :=
  runStore_some s (fun e he _ => eval_some cv (h e he))

theorem store_dbl {cv : Conv} {ts : List Str} {es : List SEntry} (hp : Plain es) {s s' : Struct}
    (h : runStore cv ts es s = some s') {f : String} {n : Nat} (hm : memberSrc es f = some (.dbl n)) {w : Str}
    (hw : ts[n]? = some w) : Eq (s' .double f) (cv.atof w) :=
  runStore_member (v := ⟨.double, cv.atof w⟩) (by simp [Src.eval, hw]) hm (hp.passes _) h

theorem store_int {cv : Conv} {ts : List Str} {es : List SEntry} (hp : Plain es) {s s' : Struct}
    (h : runStore cv ts es s = some s') {f : String} {n : Nat} (hm : memberSrc es f = some (.int n)) {w : Str}
    (hw : ts[n]? = some w) : Eq (s' .int f) (cv.atoi w) :=
  runStore_member (v := ⟨.int, cv.atoi w⟩) (by simp [Src.eval, hw]) hm (hp.passes _) h

theorem store_tag {cv : Conv} {ts : List Str} {es : List SEntry} (hp : Plain es) {s s' : Struct}
    (h : runStore cv ts es s = some s') {f : String} {n : Nat} (hm : memberSrc es f = some (.tag n)) {w : Str}
    (hw : ts[n]? = some w) : Eq (s' .string f) (cv.tag w) :=
  runStore_member (v := ⟨.string, cv.tag w⟩) (by simp [Src.eval, hw]) hm (hp.passes _) h

theorem store_keep {cv : Conv} {ts : List Str} {es : List SEntry} {s s' : Struct}
    (h : runStore cv ts es s = some s') {f : String} (hm : memberSrc es f = none) (t : Ty) : s' t f = s t f :=
  runStore_other (memberSrc_none hm) h

/-! ### Generators -/

/-- The members of a sequence. -/
def useOf : Sequence → String
  | .pos => "use_pos" | .neg => "use_neg" | .zero => "use_zero"
def rOf : Sequence → String
  | .pos => "zrpos" | .neg => "zrneg" | .zero => "rzero"
def xOf : Sequence → String
  | .pos => "zxpos" | .neg => "zxneg" | .zero => "xzero"

def secOf : Sequence → Sec (Int × Str)
  | .pos => posSec | .neg => negSec | .zero => zeroSec

theorem genKey_iff {cv : Conv} {r : Row} {k : Int × Str} : genKey cv r = some k ↔ ForGen cv k.1 k.2 r := by
  unfold genKey ForGen
  obtain ⟨b, tag⟩ := k
  cases r[0]? <;> cases r[1]? <;> simp

/-- What the struct of generator `k` holds after the rows `h`. -/
structure GenStruct (cv : Conv) (h : Sequence → List Row) (k : Int × Str) (s : Struct) : Prop where
  bus : Eq (s .int "bus_id") k.1
  gen : Eq (s .string "gen_id") k.2
  use : ∀ q, flag s (useOf q) = true ↔ ∃ r ∈ h q, ForGen cv k.1 k.2 r
  val : ∀ q r, Last (ForGen cv k.1 k.2) (h q) r → ∀ t2 t3, r[2]? = some t2 → r[3]? = some t3 →
    Eq (s .double (rOf q)) (cv.atof t2) ∧ Eq (s .double (xOf q)) (cv.atof t3)

/-- The table of generators after the rows `h`. -/
structure GenInv (cv : Conv) (h : Sequence → List Row) (t : Table (Int × Str)) : Prop where
  wf : t.WF
  none : ∀ k, t.look k = none → ∀ q, ∀ r ∈ h q, ¬ ForGen cv k.1 k.2 r
  some : ∀ k s, t.look k = some s → GenStruct cv h k s
  row : ∀ k s, t.look k = Option.some s → ∃ q, ∃ r ∈ h q, ForGen cv k.1 k.2 r

/-- One more row. -/
def more (h : Sequence → List Row) (q : Sequence) (rows : List Row) : Sequence → List Row :=
  fun q' => if q' = q then h q' ++ rows else h q'

theorem last_snoc {P : Row → Prop} {rows : List Row} {r x : Row} (h : Last P (rows ++ [r]) x) :
    (P r ∧ x = r) ∨ (¬ P r ∧ Last P rows x) := by
  obtain ⟨pre, post, h1, h2, h3⟩ := h
  rcases List.eq_nil_or_concat post with rfl | ⟨post, y, rfl⟩
  · obtain ⟨rfl, h4⟩ := List.append_inj' h1 rfl
    obtain rfl : r = x := by simpa using h4
    exact Or.inl ⟨h2, rfl⟩
  · have h1' : rows ++ [r] = (pre ++ x :: post) ++ [y] := by rw [h1]; simp
    obtain ⟨rfl, h4⟩ := List.append_inj' h1' rfl
    obtain rfl : r = y := by simpa using h4
    exact Or.inr ⟨h3 r (by simp), pre, post, rfl, h2, fun z hz => h3 z (by simp [hz])⟩

theorem last_exists {P : Row → Prop} {rows : List Row} (h : ∃ r ∈ rows, P r) : ∃ r, Last P rows r := by
  induction rows using List.reverseRecOn with
  | nil => simp at h
  | append_singleton rows r ih =>
    by_cases hr : P r
    · exact ⟨r, rows, [], rfl, hr, by simp⟩
    · obtain ⟨y, hy, hp⟩ := h
      rcases List.mem_append.mp hy with hy | hy
      · obtain ⟨x, pre, post, h1, h2, h3⟩ := ih ⟨y, hy, hp⟩
        refine ⟨x, pre, post ++ [r], by simp [h1], h2, ?_⟩
        intro z hz
        rcases List.mem_append.mp hz with hz | hz
        · exact h3 z hz
        · obtain rfl : z = r := by simpa using hz
          exact hr
      · obtain rfl : y = r := by simpa using hy
        exact absurd hp hr

theorem Last.mem {P : Row → Prop} {rows : List Row} {r : Row} (h : Last P rows r) : r ∈ rows ∧ P r := by
  obtain ⟨pre, post, rfl, h2, -⟩ := h
  exact ⟨by simp, h2⟩

theorem gen_plain (q : Sequence) (r : Row) : Plain ((secOf q).old r) ∧ Plain ((secOf q).new r) := by
  cases q <;> simp [Plain, secOf, posSec, negSec, zeroSec, aDbl, aInt, aTag]

theorem gen_need {q : Sequence} {r : Row} (h : 4 ≤ r.length) :
    (∀ e ∈ (secOf q).old r, Src.need e.src ≤ r.length) ∧ ∀ e ∈ (secOf q).new r, Src.need e.src ≤ r.length := by
  cases q <;> simp [secOf, posSec, negSec, zeroSec, aDbl, aInt, aTag, Src.need] <;> omega

theorem gen_const (q : Sequence) (r : Row) : (secOf q).old r = (secOf q).old [] ∧ (secOf q).new r = (secOf q).new [] := by
  cases q <;> exact ⟨rfl, rfl⟩

theorem gen_mem (q : Sequence) (r : Row) : memberSrc ((secOf q).old r) (rOf q) = some (.dbl 2) ∧
    memberSrc ((secOf q).old r) (xOf q) = some (.dbl 3) ∧ memberSrc ((secOf q).new r) (rOf q) = some (.dbl 2) ∧
    memberSrc ((secOf q).new r) (xOf q) = some (.dbl 3) ∧ memberSrc ((secOf q).new r) "bus_id" = some (.int 0) ∧
    memberSrc ((secOf q).new r) "gen_id" = some (.tag 1) ∧ memberSrc ((secOf q).old r) "bus_id" = none ∧
    memberSrc ((secOf q).old r) "gen_id" = none := by
  rw [(gen_const q r).1, (gen_const q r).2]
  cases q <;> exact ⟨by decide +kernel, by decide +kernel, by decide +kernel, by decide +kernel, by decide +kernel,
    by decide +kernel, by decide +kernel, by decide +kernel⟩

theorem gen_flag (q q' : Sequence) (r : Row) : memberSrc ((secOf q).old r) (useOf q') = none ∧
    memberSrc ((secOf q).new r) (useOf q') = none := by
  rw [(gen_const q r).1, (gen_const q r).2]
  cases q <;> cases q' <;> exact ⟨by decide +kernel, by decide +kernel⟩

theorem gen_other {q q' : Sequence} (h : q' ≠ q) (r : Row) : memberSrc ((secOf q).old r) (rOf q') = none ∧
    memberSrc ((secOf q).old r) (xOf q') = none := by
  rw [(gen_const q r).1]
  cases q <;> cases q' <;> first | exact absurd rfl h | exact ⟨by decide +kernel, by decide +kernel⟩

theorem gen_oldFlag (q q' : Sequence) (r : Row) (s : Struct) :
    flag (setFlags ((secOf q).oldFlags r) s) (useOf q') = if q' = q then true else flag s (useOf q') := by
  cases q <;> cases q' <;> simp [secOf, posSec, negSec, zeroSec, setFlags, flag_put, useOf]

theorem gen_newFlag (q q' : Sequence) (r : Row) (s : Struct) :
    flag (setFlags ((secOf q).newFlags r) s) (useOf q') = decide (q' = q) := by
  cases q <;> cases q' <;> simp [secOf, posSec, negSec, zeroSec, setFlags, flag_put, useOf]

theorem secOf_key (q : Sequence) : (secOf q).key = genKey := by cases q <;> rfl

theorem gen_step {cv : Conv} {h : Sequence → List Row} {t : Table (Int × Str)} (hi : GenInv cv h t) (q : Sequence)
    {r : Row} (hr : 4 ≤ r.length) (junk : Struct) :
    ∃ t', (secOf q).step cv t (junk, r) = some t' ∧ GenInv cv (more h q [r]) t' := by
  obtain ⟨t0, h0⟩ : ∃ w, r[0]? = some w := ⟨_, List.getElem?_eq_getElem (by omega)⟩
  obtain ⟨t1, h1⟩ : ∃ w, r[1]? = some w := ⟨_, List.getElem?_eq_getElem (by omega)⟩
  obtain ⟨t2, h2⟩ : ∃ w, r[2]? = some w := ⟨_, List.getElem?_eq_getElem (by omega)⟩
  obtain ⟨t3, h3⟩ : ∃ w, r[3]? = some w := ⟨_, List.getElem?_eq_getElem (by omega)⟩
  have hfor : ∀ k : Int × Str, ForGen cv k.1 k.2 r ↔ k = (cv.atoi t0, cv.tag t1) := by
    rintro ⟨b, tag⟩
    simp only [ForGen, h0, h1, Option.some.injEq, exists_eq_left', exists_and_left, Prod.mk.injEq]
    constructor
    · rintro ⟨rfl, rfl⟩; exact ⟨rfl, rfl⟩
    · rintro ⟨rfl, rfl⟩; exact ⟨rfl, rfl⟩
  have hkey : (secOf q).key cv r = some (cv.atoi t0, cv.tag t1) := by
    rw [secOf_key]; exact genKey_iff.mpr ((hfor _).mpr rfl)
  obtain ⟨t', s', e1, e2, e3, e4, e5⟩ := step_ok hi.wf (junk := junk) hkey
    (fun s _ => store_some cv (gen_need hr).1 _) (fun _ => store_some cv (gen_need hr).2 _)
  refine ⟨t', e1, e2, ?_, ?_, fun k s hs => ?_⟩
  rotate_left 2
  · by_cases hk : k = (cv.atoi t0, cv.tag t1)
    · exact ⟨q, r, by simp [more], (hfor k).mpr hk⟩
    · rw [e4 k hk] at hs
      obtain ⟨q', r', hr', hf⟩ := hi.row k s hs
      refine ⟨q', r', ?_, hf⟩
      unfold more
      split
      · exact List.mem_append_left _ hr'
      · exact hr'
  · intro k hk q' r' hr' hf
    have hne : k ≠ (cv.atoi t0, cv.tag t1) := by
      rintro rfl
      rw [e3] at hk
      cases hk
    rw [e4 k hne] at hk
    unfold more at hr'
    split at hr'
    · rcases List.mem_append.mp hr' with hr' | hr'
      · exact hi.none k hk q' r' hr' hf
      · obtain rfl : r' = r := by simpa using hr'
        exact hne ((hfor k).mp hf)
    · exact hi.none k hk q' r' hr' hf
  · intro k s hs
    by_cases hk : k = (cv.atoi t0, cv.tag t1)
    · rw [hk, e3] at hs
      obtain rfl := Option.some.inj hs
      have hfr : ForGen cv k.1 k.2 r := (hfor k).mpr hk
      rcases e5 with ⟨s0, hs0, hst⟩ | ⟨hno, hst⟩
      · rw [← hk] at hs0
        have old := hi.some k s0 hs0
        obtain ⟨m1, m2, -, -, -, -, m7, m8⟩ := gen_mem q r
        refine ⟨?_, ?_, ?_, ?_⟩
        · rw [store_keep hst m7, setFlags_other _ _ (by decide)]; exact old.bus
        · rw [store_keep hst m8, setFlags_other _ _ (by decide)]; exact old.gen
        · intro q'
          have : flag s' (useOf q') = flag (setFlags ((secOf q).oldFlags r) s0) (useOf q') :=
            store_keep hst (gen_flag q q' r).1 .bool
          rw [this, gen_oldFlag]
          by_cases hq : q' = q
          · simp only [hq, if_true, true_iff, more]
            exact ⟨r, by simp, hfr⟩
          · simp only [hq, if_false, more]
            exact old.use q'
        · intro q' x hx w2 w3 hw2 hw3
          unfold more at hx
          by_cases hq : q' = q
          · subst hq
            rw [if_pos rfl] at hx
            rcases last_snoc hx with ⟨_, rfl⟩ | ⟨hn, _⟩
            · exact ⟨store_dbl (gen_plain q' x).1 hst m1 hw2, store_dbl (gen_plain q' x).1 hst m2 hw3⟩
            · exact absurd hfr hn
          · rw [if_neg hq] at hx
            rw [store_keep hst (gen_other hq r).1, store_keep hst (gen_other hq r).2, setFlags_other _ _ (by decide),
              setFlags_other _ _ (by decide)]
            exact old.val q' x hx w2 w3 hw2 hw3
      · rw [← hk] at hno
        obtain ⟨-, -, m3, m4, m5, m6, -, -⟩ := gen_mem q r
        have hnone := hi.none k hno
        refine ⟨?_, ?_, ?_, ?_⟩
        · rw [store_int (gen_plain q r).2 hst m5 h0, hk]
        · rw [store_tag (gen_plain q r).2 hst m6 h1, hk]
        · intro q'
          have : flag s' (useOf q') = flag (setFlags ((secOf q).newFlags r) junk) (useOf q') :=
            store_keep hst (gen_flag q q' r).2 .bool
          rw [this, gen_newFlag, decide_eq_true_eq]
          unfold more
          by_cases hq : q' = q
          · simp only [hq, if_true, true_iff]
            exact ⟨r, by simp, hfr⟩
          · simp only [hq, if_false, false_iff]
            rintro ⟨x, hx, hf⟩
            exact hnone q' x hx hf
        · intro q' x hx w2 w3 hw2 hw3
          unfold more at hx
          by_cases hq : q' = q
          · subst hq
            rw [if_pos rfl] at hx
            rcases last_snoc hx with ⟨_, rfl⟩ | ⟨hn, _⟩
            · exact ⟨store_dbl (gen_plain q' x).2 hst m3 hw2, store_dbl (gen_plain q' x).2 hst m4 hw3⟩
            · exact absurd hfr hn
          · rw [if_neg hq] at hx
            exact absurd hx.mem.2 (hnone q' x hx.mem.1)
    · rw [e4 k hk] at hs
      have old := hi.some k s hs
      have hnr : ¬ ForGen cv k.1 k.2 r := fun hf => hk ((hfor k).mp hf)
      refine ⟨old.bus, old.gen, ?_, ?_⟩
      · intro q'
        rw [old.use q']
        unfold more
        split
        · constructor
          · rintro ⟨x, hx, hf⟩
            exact ⟨x, by simp [hx], hf⟩
          · rintro ⟨x, hx, hf⟩
            rcases List.mem_append.mp hx with hx | hx
            · exact ⟨x, hx, hf⟩
            · obtain rfl : x = r := by simpa using hx
              exact absurd hf hnr
        · exact Iff.rfl
      · intro q' x hx
        unfold more at hx
        split at hx
        · rcases last_snoc hx with ⟨hp, _⟩ | ⟨_, hl⟩
          · exact absurd hp hnr
          · exact old.val q' x hl
        · exact old.val q' x hx

theorem more_more (h : Sequence → List Row) (q : Sequence) (a b : List Row) :
    more (more h q a) q b = more h q (a ++ b) := by
  funext q'
  unfold more
  split <;> simp [List.append_assoc]

/-- A section of generators. -/
theorem gen_read {cv : Conv} {q : Sequence} {rows : List Row} (hrows : ∀ r ∈ rows, RowOk 4 r) {e : Str} (he : IsEnd e)
    {recs : List (Struct × Str)} {rest : List Str} (hr : recs.map (·.2) = rows.map rowText ++ e :: rest)
    {h : Sequence → List Row} {t : Table (Int × Str)} (hi : GenInv cv h t) :
    ∃ t' recs', (secOf q).read cv recs t = some (t', recs') ∧ recs'.map (·.2) = rest ∧ (∀ r ∈ recs', r ∈ recs) ∧
      GenInv cv (more h q rows) t' := by
  obtain ⟨t', recs', h1, h2, h3, h4⟩ := read_ok (sec := secOf q) (cv := cv) he (fun d t => GenInv cv (more h q d) t) hrows
    (fun _ => True) (by
      intro d r t junk hr _ hi
      obtain ⟨t', h1, h2⟩ := gen_step hi q (hrows r hr).full junk
      rw [more_more] at h2
      exact ⟨t', h1, h2⟩) hr (fun _ _ => trivial) (done := []) (t := t) (by
        have : more h q [] = h := by funext q'; simp [more]
        rw [this]; exact hi)
  exact ⟨t', recs', h1, h2, h3, by simpa using h4⟩

theorem gen_fresh (cv : Conv) : GenInv cv (fun _ => []) ⟨[], []⟩ :=
  ⟨fresh_wf, by simp, (by intro k s hs; rw [fresh_look] at hs; cases hs),
    (by intro k s hs; rw [fresh_look] at hs; cases hs)⟩

/-! ### Buses -/

/-- What the struct of bus `k` holds after the rows `hn` and `hz`; `J` says that new structs held `x` as negative
sequence shunts. -/
structure BusStruct (cv : Conv) (J : Prop) (x : ℝ) (hn hz : List Row) (k : Int) (s : Struct) : Prop where
  bus : Eq (s .int "bus_id") k
  neg : flag s "use_neg" = true
  zero : flag s "use_zero" = false
  row : ∃ r ∈ hn ++ hz, ForBus cv k r
  val : ∀ r, Last (ForBus cv k) hn r → ∀ t1 t2, r[1]? = some t1 → r[2]? = some t2 →
    Eq (s .double "gneg") (cv.atof t1) ∧ Eq (s .double "bneg") (cv.atof t2)
  left : J → (∀ r ∈ hn, ¬ ForBus cv k r) → Eq (s .double "gneg") x ∧ Eq (s .double "bneg") x

/-- The table of buses. -/
structure BusInv (cv : Conv) (J : Prop) (x : ℝ) (hn hz : List Row) (t : Table Int) : Prop where
  wf : t.WF
  none : ∀ k, t.look k = none → ∀ r ∈ hn ++ hz, ¬ ForBus cv k r
  some : ∀ k s, t.look k = some s → BusStruct cv J x hn hz k s

/-- The memory of a new struct. -/
def Holds (J : Prop) (x : ℝ) (junk : Struct) : Prop := J → Eq (junk .double "gneg") x ∧ Eq (junk .double "bneg") x

theorem bus_fresh (cv : Conv) (J : Prop) (x : ℝ) : BusInv cv J x [] [] ⟨[], []⟩ :=
  ⟨fresh_wf, by simp, by intro k s hs; rw [fresh_look] at hs; cases hs⟩

theorem busKey_iff {cv : Conv} {r : Row} {t0 : Str} (h0 : r[0]? = some t0) (k : Int) :
    ForBus cv k r ↔ k = cv.atoi t0 := by
  simp only [ForBus, h0, Option.some.injEq, exists_eq_left']
  exact eq_comm

theorem negShunt_mem : memberSrc (negShunt.old []) "gneg" = some (.dbl 1) ∧
    memberSrc (negShunt.old []) "bneg" = some (.dbl 2) ∧ memberSrc (negShunt.old []) "bus_id" = none ∧
    memberSrc (negShunt.old []) "use_neg" = none ∧ memberSrc (negShunt.old []) "use_zero" = none ∧
    memberSrc (negShunt.new []) "gneg" = some (.dbl 1) ∧
    memberSrc (negShunt.new []) "bneg" = some (.dbl 2) ∧ memberSrc (negShunt.new []) "bus_id" = some (.int 0) ∧
    memberSrc (negShunt.new []) "use_neg" = none ∧ memberSrc (negShunt.new []) "use_zero" = none := by
  decide +kernel

theorem zeroShunt_mem : memberSrc (zeroShunt.old []) "gneg" = none ∧
    memberSrc (zeroShunt.old []) "bneg" = none ∧ memberSrc (zeroShunt.old []) "bus_id" = none ∧
    memberSrc (zeroShunt.old []) "use_neg" = none ∧ memberSrc (zeroShunt.old []) "use_zero" = none ∧
    memberSrc (zeroShunt.new []) "gneg" = none ∧
    memberSrc (zeroShunt.new []) "bneg" = none ∧ memberSrc (zeroShunt.new []) "bus_id" = some (.int 0) ∧
    memberSrc (zeroShunt.new []) "use_neg" = none ∧ memberSrc (zeroShunt.new []) "use_zero" = none := by
  decide +kernel

theorem shunt_plain : Plain (negShunt.old []) ∧ Plain (negShunt.new []) ∧ Plain (zeroShunt.old []) ∧
    Plain (zeroShunt.new []) := by
  simp [Plain, negShunt, zeroShunt, aDbl, aInt]

theorem shunt_need {r : Row} (h : 3 ≤ r.length) : (∀ e ∈ negShunt.old r, Src.need e.src ≤ r.length) ∧
    (∀ e ∈ negShunt.new r, Src.need e.src ≤ r.length) ∧ (∀ e ∈ zeroShunt.old r, Src.need e.src ≤ r.length) ∧
    ∀ e ∈ zeroShunt.new r, Src.need e.src ≤ r.length := by
  simp [negShunt, zeroShunt, aDbl, aInt, Src.need]
  omega

theorem last_keep {P : Row → Prop} {rows : List Row} {r x : Row} (hr : ¬ P r) (h : Last P (rows ++ [r]) x) :
    Last P rows x := by
  rcases last_snoc h with ⟨hp, -⟩ | ⟨-, hl⟩
  · exact absurd hp hr
  · exact hl

theorem neg_step {cv : Conv} {J : Prop} {x : ℝ} {hn : List Row} {t : Table Int} (hi : BusInv cv J x hn [] t)
    {r : Row} (hr : 3 ≤ r.length) (junk : Struct) :
    ∃ t', negShunt.step cv t (junk, r) = some t' ∧ BusInv cv J x (hn ++ [r]) [] t' := by
  obtain ⟨t0, h0⟩ : ∃ w, r[0]? = some w := ⟨_, List.getElem?_eq_getElem (by omega)⟩
  have hfor := busKey_iff (cv := cv) h0
  have hkey : negShunt.key cv r = some (cv.atoi t0) := by simp [negShunt, busKey, h0]
  obtain ⟨n1, n2, -, -⟩ := shunt_need hr
  obtain ⟨t', s', e1, e2, e3, e4, e5⟩ := step_ok hi.wf (junk := junk) hkey
    (fun s _ => store_some cv n1 _) (fun _ => store_some cv n2 _)
  obtain ⟨p1, p2, -, -⟩ := shunt_plain
  obtain ⟨m1, m2, m3, m4, m5, m6, m7, m8, m9, m10⟩ := negShunt_mem
  refine ⟨t', e1, e2, ?_, ?_⟩
  · intro k hk r' hr' hf
    have hne : k ≠ cv.atoi t0 := by
      rintro rfl
      rw [e3] at hk
      cases hk
    rw [e4 k hne] at hk
    simp only [List.append_nil, List.mem_append, List.mem_singleton] at hr'
    rcases hr' with hr' | rfl
    · exact hi.none k hk r' (by simpa using hr') hf
    · exact hne ((hfor k).mp hf)
  · intro k s hs
    by_cases hk : k = cv.atoi t0
    · subst hk
      rw [e3] at hs
      obtain rfl := Option.some.inj hs
      have hfr : ForBus cv (cv.atoi t0) r := (hfor _).mpr rfl
      have hval : ∀ (es : List SEntry), Plain es → memberSrc es "gneg" = some (.dbl 1) →
          memberSrc es "bneg" = some (.dbl 2) → ∀ s0, runStore cv r es s0 = some s' →
          ∀ y, Last (ForBus cv (cv.atoi t0)) (hn ++ [r]) y → ∀ t1 t2, y[1]? = some t1 → y[2]? = some t2 →
          Eq (s' .double "gneg") (cv.atof t1) ∧ Eq (s' .double "bneg") (cv.atof t2) := by
        intro es hp hg hb s0 hst y hy t1 t2 ht1 ht2
        rcases last_snoc hy with ⟨_, rfl⟩ | ⟨hn, _⟩
        · exact ⟨store_dbl hp hst hg ht1, store_dbl hp hst hb ht2⟩
        · exact absurd hfr hn
      rcases e5 with ⟨s0, hs0, hst⟩ | ⟨hno, hst⟩
      · have old := hi.some _ s0 hs0
        refine ⟨?_, ?_, ?_, ⟨r, by simp, hfr⟩, hval _ p1 m1 m2 _ hst, fun _ hno => absurd hfr (hno r (by simp))⟩
        · rw [store_keep hst m3, setFlags_other _ _ (by decide)]; exact old.bus
        · have : flag (setFlags (negShunt.oldFlags r) s0) "use_neg" = true := by
            simp [negShunt, setFlags, flag_put]
          exact (store_keep hst m4 .bool).trans this
        · have : flag (setFlags (negShunt.oldFlags r) s0) "use_zero" = flag s0 "use_zero" := by
            simp [negShunt, setFlags, flag_put]
          exact (store_keep hst m5 .bool).trans (this.trans old.zero)
      · refine ⟨store_int p2 hst m8 h0, ?_, ?_, ⟨r, by simp, hfr⟩, hval _ p2 m6 m7 _ hst,
          fun _ hno => absurd hfr (hno r (by simp))⟩
        · have : flag (setFlags (negShunt.newFlags r) junk) "use_neg" = true := by
            simp [negShunt, setFlags, flag_put]
          exact (store_keep hst m9 .bool).trans this
        · have : flag (setFlags (negShunt.newFlags r) junk) "use_zero" = false := by
            simp [negShunt, setFlags, flag_put]
          exact (store_keep hst m10 .bool).trans this
    · rw [e4 k hk] at hs
      have old := hi.some k s hs
      have hnr : ¬ ForBus cv k r := fun hf => hk ((hfor k).mp hf)
      obtain ⟨y, hy, hfy⟩ := old.row
      exact ⟨old.bus, old.neg, old.zero, ⟨y, by simp at hy; simp [hy], hfy⟩, fun z hz => old.val z (last_keep hnr hz),
        fun hJ hno => old.left hJ (fun z hz => hno z (by simp [hz]))⟩

theorem zero_step {cv : Conv} {J : Prop} {x : ℝ} {hn hz : List Row} {t : Table Int} (hi : BusInv cv J x hn hz t)
    {r : Row} (hr : 3 ≤ r.length) {junk : Struct} (hj : Holds J x junk) :
    ∃ t', zeroShunt.step cv t (junk, r) = some t' ∧ BusInv cv J x hn (hz ++ [r]) t' := by
  obtain ⟨t0, h0⟩ : ∃ w, r[0]? = some w := ⟨_, List.getElem?_eq_getElem (by omega)⟩
  have hfor := busKey_iff (cv := cv) h0
  have hkey : zeroShunt.key cv r = some (cv.atoi t0) := by simp [zeroShunt, busKey, h0]
  obtain ⟨-, -, n1, n2⟩ := shunt_need hr
  obtain ⟨t', s', e1, e2, e3, e4, e5⟩ := step_ok hi.wf (junk := junk) hkey
    (fun s _ => store_some cv n1 _) (fun _ => store_some cv n2 _)
  obtain ⟨-, -, p1, p2⟩ := shunt_plain
  obtain ⟨m1, m2, m3, m4, m5, m6, m7, m8, m9, m10⟩ := zeroShunt_mem
  refine ⟨t', e1, e2, ?_, ?_⟩
  · intro k hk r' hr' hf
    have hne : k ≠ cv.atoi t0 := by
      rintro rfl
      rw [e3] at hk
      cases hk
    rw [e4 k hne] at hk
    rw [← List.append_assoc, List.mem_append, List.mem_singleton] at hr'
    rcases hr' with hr' | rfl
    · exact hi.none k hk r' hr' hf
    · exact hne ((hfor k).mp hf)
  · intro k s hs
    by_cases hk : k = cv.atoi t0
    · subst hk
      rw [e3] at hs
      obtain rfl := Option.some.inj hs
      have hfr : ForBus cv (cv.atoi t0) r := (hfor _).mpr rfl
      rcases e5 with ⟨s0, hs0, hst⟩ | ⟨hno, hst⟩
      · have old := hi.some _ s0 hs0
        refine ⟨?_, ?_, ?_, ⟨r, by simp, hfr⟩, ?_, ?_⟩
        · rw [store_keep hst m3, setFlags_other _ _ (by decide)]; exact old.bus
        · exact (store_keep hst m4 .bool).trans old.neg
        · exact (store_keep hst m5 .bool).trans old.zero
        · intro y hy t1 t2 ht1 ht2
          rw [store_keep hst m1, store_keep hst m2]
          exact old.val y hy t1 t2 ht1 ht2
        · intro hJ hno
          rw [store_keep hst m1, store_keep hst m2]
          exact old.left hJ hno
      · refine ⟨store_int p2 hst m8 h0, ?_, ?_, ⟨r, by simp, hfr⟩, ?_, ?_⟩
        · have : flag (setFlags (zeroShunt.newFlags r) junk) "use_neg" = true := by
            simp [zeroShunt, setFlags, flag_put]
          exact (store_keep hst m9 .bool).trans this
        · have : flag (setFlags (zeroShunt.newFlags r) junk) "use_zero" = false := by
            simp [zeroShunt, setFlags, flag_put]
          exact (store_keep hst m10 .bool).trans this
        · intro y hy
          exact absurd hy.mem.2 (hi.none _ hno y (by simp [hy.mem.1]))
        · intro hJ _
          rw [store_keep hst m6, store_keep hst m7, setFlags_other _ _ (by decide), setFlags_other _ _ (by decide)]
          exact hj hJ
    · rw [e4 k hk] at hs
      have old := hi.some k s hs
      obtain ⟨y, hy, hfy⟩ := old.row
      refine ⟨old.bus, old.neg, old.zero, ⟨y, ?_, hfy⟩, old.val, old.left⟩
      rw [← List.append_assoc]
      exact List.mem_append_left _ hy

theorem neg_read {cv : Conv} {J : Prop} {x : ℝ} {rows : List Row} (hrows : ∀ r ∈ rows, RowOk 3 r) {e : Str} (he : IsEnd e)
    {recs : List (Struct × Str)} {rest : List Str} (hr : recs.map (·.2) = rows.map rowText ++ e :: rest) :
    ∃ t' recs', negShunt.read cv recs ⟨[], []⟩ = some (t', recs') ∧ recs'.map (·.2) = rest ∧
      (∀ r ∈ recs', r ∈ recs) ∧ BusInv cv J x rows [] t' := by
  obtain ⟨t', recs', h1, h2, h3, h4⟩ := read_ok (sec := negShunt) (cv := cv) he (fun d t => BusInv cv J x d [] t) hrows
    (fun _ => True) (fun d r t junk hr _ hi => neg_step hi (hrows r hr).full junk) hr (fun _ _ => trivial)
    (bus_fresh cv J x)
  exact ⟨t', recs', h1, h2, h3, by simpa using h4⟩

theorem zero_read {cv : Conv} {J : Prop} {x : ℝ} {rows : List Row} (hrows : ∀ r ∈ rows, RowOk 3 r) {e : Str} (he : IsEnd e)
    {recs : List (Struct × Str)} {rest : List Str} (hr : recs.map (·.2) = rows.map rowText ++ e :: rest)
    (hj : ∀ r ∈ recs, Holds J x r.1) {hn : List Row} {t : Table Int} (hi : BusInv cv J x hn [] t) :
    ∃ t' recs', zeroShunt.read cv recs t = some (t', recs') ∧ recs'.map (·.2) = rest ∧
      (∀ r ∈ recs', r ∈ recs) ∧ BusInv cv J x hn rows t' := by
  obtain ⟨t', recs', h1, h2, h3, h4⟩ := read_ok (sec := zeroShunt) (cv := cv) he (fun d t => BusInv cv J x hn d t) hrows
    (Holds J x) (fun d r t junk hr hj hi => zero_step hi (hrows r hr).full hj) hr hj hi
  exact ⟨t', recs', h1, h2, h3, by simpa using h4⟩

/-! ### Branches -/

/-- A row of a line (`false`) or a transformer (`true`). -/
abbrev BranchRow := Bool × Row

def nameWord : Bool → Nat
  | false => 2
  | true => 3

def ForRow (cv : Conv) (k : (Int × Int) × Str) (r : BranchRow) : Prop := ForBranch cv (nameWord r.1) k.1 k.2 r.2

def branchSec : Bool → Sec ((Int × Int) × Str)
  | false => lineSec
  | true => xformSec

/-- Name, member and word of the numbers of a row. -/
def lineTab : List (String × String × Nat) :=
  [("BRANCH_SEQ_RLINZ", "rlinz", 3), ("BRANCH_SEQ_XLINZ", "xlinz", 4), ("BRANCH_SEQ_BCHZ", "bchz", 5),
    ("BRANCH_SEQ_GI", "gi", 6), ("BRANCH_SEQ_BI", "bi", 7), ("BRANCH_SEQ_GJ", "gj", 8), ("BRANCH_SEQ_BJ", "bj", 9)]

def xformTab : List (String × String × Nat) :=
  [("TRANSFORMER_SEQ_RG", "rg", 5), ("TRANSFORMER_SEQ_XG", "xg", 6), ("TRANSFORMER_SEQ_R1", "r1", 7),
    ("TRANSFORMER_SEQ_X1", "x1", 8)]

def twoTab : List (String × String × Nat) := [("TRANSFORMER_SEQ_RG2", "rg2", 9), ("TRANSFORMER_SEQ_XG2", "xg2", 10)]

def threeTab : List (String × String × Nat) :=
  [("TRANSFORMER_SEQ_R2", "r2", 11), ("TRANSFORMER_SEQ_X2", "x2", 12), ("TRANSFORMER_SEQ_R3", "r3", 13),
    ("TRANSFORMER_SEQ_X3", "x3", 14)]

def wholeTab : List (String × String × Nat) := [("TRANSFORMER_SEQ_K", "k", 2), ("TRANSFORMER_SEQ_CC", "cc", 4)]

def tabOf (r : BranchRow) : List (String × String × Nat) :=
  match r.1 with
  | false => lineTab
  | true => xformTab ++ if three r.2 then threeTab else twoTab

/-- What the struct of a branch holds after its last row. -/
structure BranchStruct (cv : Conv) (r : BranchRow) (k : (Int × Int) × Str) (s : Struct) : Prop where
  ends : Eq (s .int "from_bus") k.1.1 ∧ Eq (s .int "to_bus") k.1.2
  name : Eq (s .string "branch_id") k.2
  kind : flag s "is_xform" = r.1
  wind : r.1 = true → flag s "three_winding" = three r.2
  val : ∀ p ∈ tabOf r, ∀ t, r.2[p.2.2]? = some t → Eq (s .double p.2.1) (cv.atof t)
  whole : r.1 = true → ∀ p ∈ wholeTab, ∀ t, r.2[p.2.2]? = some t → Eq (s .int p.2.1) (cv.atoi t)

/-- `r` is the last of the rows `h` for `k`. -/
def LastRow (cv : Conv) (k : (Int × Int) × Str) (h : List BranchRow) (r : BranchRow) : Prop :=
  ∃ pre post, h = pre ++ r :: post ∧ ForRow cv k r ∧ ∀ x ∈ post, ¬ ForRow cv k x

structure BranchInv (cv : Conv) (h : List BranchRow) (t : Table ((Int × Int) × Str)) : Prop where
  wf : t.WF
  none : ∀ k, t.look k = none → ∀ r ∈ h, ¬ ForRow cv k r
  some : ∀ k s, t.look k = some s → ∃ r, LastRow cv k h r ∧ BranchStruct cv r k s

theorem branch_fresh (cv : Conv) : BranchInv cv [] ⟨[], []⟩ :=
  ⟨fresh_wf, by simp, by intro k s hs; rw [fresh_look] at hs; cases hs⟩

/-- Enough words. -/
def RowFull (r : BranchRow) : Prop := 10 ≤ r.2.length ∧ (r.1 = true → r.2.length = 11 ∨ 15 ≤ r.2.length)

theorem branch_same (x : Bool) (r : Row) : (branchSec x).old r = (branchSec x).new r ∧
    (branchSec x).oldFlags r = (branchSec x).newFlags r := by
  cases x <;> exact ⟨rfl, rfl⟩

/-- The members of a row of a branch. -/
def storeOf (r : BranchRow) : List SEntry := (branchSec r.1).old r.2

theorem storeOf_eq (r : BranchRow) : storeOf r =
    match r.1 with
    | false => lineStore
    | true => if three r.2 then xformStore [] else xformStore [[], [], [], [], [], [], [], [], [], [], []] := by
  obtain ⟨x, r⟩ := r
  cases x
  · rfl
  · have h1 : three [] = true := by decide
    have h2 : three [[], [], [], [], [], [], [], [], [], [], []] = false := by decide
    show xformStore r = _
    cases h : three r <;> simp [xformStore, h, h1, h2]

theorem store_tab (r : BranchRow) : (∀ p ∈ tabOf r, memberSrc (storeOf r) p.2.1 = some (.dbl p.2.2)) ∧
    (r.1 = true → ∀ p ∈ wholeTab, memberSrc (storeOf r) p.2.1 = some (.int p.2.2)) ∧
    memberSrc (storeOf r) "from_bus" = some (.int 0) ∧ memberSrc (storeOf r) "to_bus" = some (.int 1) ∧
    memberSrc (storeOf r) "branch_id" = some (.tag (nameWord r.1)) ∧ memberSrc (storeOf r) "is_xform" = none ∧
    memberSrc (storeOf r) "three_winding" = none := by
  rw [storeOf_eq]
  obtain ⟨x, r⟩ := r
  cases x
  · refine ⟨?_, by simp, ?_⟩
    · show ∀ p ∈ lineTab, memberSrc lineStore p.2.1 = some (.dbl p.2.2)
      decide +kernel
    · simp only [nameWord]
      decide +kernel
  · simp only [tabOf]
    cases h : three r <;> simp only [Bool.false_eq_true, if_false, if_true] <;>
      exact ⟨by decide +kernel, fun _ => by decide +kernel, by decide +kernel⟩

theorem storeOf_plain (r : BranchRow) : Plain (storeOf r) := by
  rw [storeOf_eq]
  obtain ⟨x, r⟩ := r
  have h1 : three [] = true := by decide
  have h2 : three [[], [], [], [], [], [], [], [], [], [], []] = false := by decide
  cases x
  · simp [Plain, lineStore, aDbl, aInt, aTag]
  · cases h : three r <;> simp [Plain, xformStore, h1, h2, aDbl, aInt, aTag]

theorem storeOf_need {r : BranchRow} (h : RowFull r) : ∀ e ∈ storeOf r, Src.need e.src ≤ r.2.length := by
  rw [storeOf_eq]
  obtain ⟨x, r⟩ := r
  obtain ⟨h0, h'⟩ := h
  simp only at h0 h'
  have h1 : three [] = true := by decide
  have h2 : three [[], [], [], [], [], [], [], [], [], [], []] = false := by decide
  cases x
  · simp [lineStore, aDbl, aInt, aTag, Src.need]
    omega
  · have h' := h' rfl
    cases h : three r
    · have : r.length = 11 := by simpa [three] using h
      simp [xformStore, h2, aDbl, aInt, aTag, Src.need]
      omega
    · have : r.length ≠ 11 := by simpa [three] using h
      simp [xformStore, h1, aDbl, aInt, aTag, Src.need]
      omega

theorem lastRow_mem {cv : Conv} {k : (Int × Int) × Str} {h : List BranchRow} {r : BranchRow} (hl : LastRow cv k h r) :
    r ∈ h ∧ ForRow cv k r := by
  obtain ⟨pre, post, rfl, h2, -⟩ := hl
  exact ⟨by simp, h2⟩

theorem branch_step {cv : Conv} {h : List BranchRow} {t : Table ((Int × Int) × Str)} (hi : BranchInv cv h t)
    {r : BranchRow} (hr : RowFull r) (junk : Struct) :
    ∃ t', (branchSec r.1).step cv t (junk, r.2) = some t' ∧ BranchInv cv (h ++ [r]) t' := by
  have hr10 := hr.1
  obtain ⟨t0, h0⟩ : ∃ w, r.2[0]? = some w := ⟨_, List.getElem?_eq_getElem (by omega)⟩
  obtain ⟨t1, h1⟩ : ∃ w, r.2[1]? = some w := ⟨_, List.getElem?_eq_getElem (by omega)⟩
  obtain ⟨tn, hn⟩ : ∃ w, r.2[nameWord r.1]? = some w :=
    ⟨_, List.getElem?_eq_getElem (by cases r.1 <;> simp [nameWord] <;> omega)⟩
  have hfor : ∀ k : (Int × Int) × Str, ForRow cv k r ↔ k = ((cv.atoi t0, cv.atoi t1), cv.tag tn) := by
    rintro ⟨⟨a, b⟩, tag⟩
    simp only [ForRow, ForBranch, h0, h1, hn, Option.some.injEq, Prod.mk.injEq]
    constructor
    · rintro ⟨x, y, z, rfl, rfl, rfl, rfl, rfl, rfl⟩; exact ⟨⟨rfl, rfl⟩, rfl⟩
    · rintro ⟨⟨rfl, rfl⟩, rfl⟩; exact ⟨_, _, _, rfl, rfl, rfl, rfl, rfl, rfl⟩
  have hkey : (branchSec r.1).key cv r.2 = some ((cv.atoi t0, cv.atoi t1), cv.tag tn) := by
    obtain ⟨x, r⟩ := r
    cases x <;> simp only [nameWord] at hn h0 h1 <;> simp [branchSec, lineSec, xformSec, branchKey, h0, h1, hn]
  obtain ⟨t', s', e1, e2, e3, e4, e5⟩ := step_ok hi.wf (junk := junk) hkey
    (fun s _ => store_some cv (storeOf_need hr) _)
    (fun _ => by rw [← (branch_same r.1 r.2).1]; exact store_some cv (storeOf_need hr) _)
  have hst : ∃ s0, runStore cv r.2 (storeOf r) (setFlags ((branchSec r.1).oldFlags r.2) s0) = some s' := by
    rcases e5 with ⟨s0, -, hst⟩ | ⟨-, hst⟩
    · exact ⟨s0, hst⟩
    · rw [← (branch_same r.1 r.2).1, ← (branch_same r.1 r.2).2] at hst
      exact ⟨junk, hst⟩
  refine ⟨t', e1, e2, ?_, ?_⟩
  · intro k hk r' hr' hf
    have hne : k ≠ ((cv.atoi t0, cv.atoi t1), cv.tag tn) := by
      rintro rfl
      rw [e3] at hk
      cases hk
    rw [e4 k hne] at hk
    rcases List.mem_append.mp hr' with hr' | hr'
    · exact hi.none k hk r' hr' hf
    · obtain rfl : r' = r := by simpa using hr'
      exact hne ((hfor k).mp hf)
  · intro k s hs
    by_cases hk : k = ((cv.atoi t0, cv.atoi t1), cv.tag tn)
    · have hfr := (hfor k).mpr hk
      subst hk
      rw [e3] at hs
      obtain rfl := Option.some.inj hs
      obtain ⟨s0, hst⟩ := hst
      refine ⟨r, ⟨h, [], by simp, hfr, by simp⟩, ?_⟩
      have hp := storeOf_plain r
      obtain ⟨m1, m2, m3, m4, m5, m6, m7⟩ := store_tab r
      refine ⟨⟨store_int hp hst m3 h0, store_int hp hst m4 h1⟩, store_tag hp hst m5 hn, ?_, ?_,
        fun p hpt t ht => store_dbl hp hst (m1 p hpt) ht, fun hx p hpt t ht => store_int hp hst (m2 hx p hpt) ht⟩
      · have : flag (setFlags ((branchSec r.1).oldFlags r.2) s0) "is_xform" = r.1 := by
          cases r.1 <;> simp [branchSec, lineSec, xformSec, setFlags, flag_put]
        exact (store_keep hst m6 .bool).trans this
      · intro hx
        have : flag (setFlags ((branchSec r.1).oldFlags r.2) s0) "three_winding" = three r.2 := by
          rw [hx]; simp [branchSec, xformSec, setFlags, flag_put]
        exact (store_keep hst m7 .bool).trans this
    · rw [e4 k hk] at hs
      obtain ⟨r', ⟨pre, post, g1, g2, g3⟩, hb⟩ := hi.some k s hs
      refine ⟨r', ⟨pre, post ++ [r], by simp [g1], g2, ?_⟩, hb⟩
      intro y hy
      rcases List.mem_append.mp hy with hy | hy
      · exact g3 y hy
      · obtain rfl : y = r := by simpa using hy
        exact fun hf => hk ((hfor k).mp hf)

theorem branch_read {cv : Conv} {x : Bool} {m : Nat} {rows : List Row} (hrows : ∀ r ∈ rows, RowOk m r)
    (hfull : ∀ r ∈ rows, RowFull (x, r)) {e : Str} (he : IsEnd e)
    {recs : List (Struct × Str)} {rest : List Str} (hr : recs.map (·.2) = rows.map rowText ++ e :: rest)
    {h : List BranchRow} {t : Table ((Int × Int) × Str)} (hi : BranchInv cv h t) :
    ∃ t' recs', (branchSec x).read cv recs t = some (t', recs') ∧ recs'.map (·.2) = rest ∧ (∀ r ∈ recs', r ∈ recs) ∧
      BranchInv cv (h ++ rows.map (fun r => (x, r))) t' := by
  obtain ⟨t', recs', h1, h2, h3, h4⟩ := read_ok (sec := branchSec x) (cv := cv) he
    (fun d t => BranchInv cv (h ++ d.map (fun r => (x, r))) t) hrows (fun _ => True) (by
      intro d r t junk hr _ hi
      obtain ⟨t', h1, h2⟩ := branch_step hi (hfull r hr) junk
      refine ⟨t', h1, ?_⟩
      rw [List.map_append, ← List.append_assoc]
      exact h2) hr (fun _ _ => trivial) (done := []) (t := t) (by simpa using hi)
  exact ⟨t', recs', h1, h2, h3, by simpa using h4⟩

/-! ### The file -/

/-- The rows of branches in the order of the file. -/
def branchRows (f : File) : List BranchRow := f.lines.map (fun r => (false, r)) ++ f.xforms.map (fun r => (true, r))

theorem readFile_ok {cv : Conv} {f : File} (hf : f.Ok) {first : Row} (hfirst : Words first) {e : Nat → Str}
    (he : ∀ j, IsEnd (e j)) {rest : List Str} {recs : List (Struct × Str)}
    (hr : recs.map (·.2) = f.text (rowText first) e rest) {J : Prop} {x : ℝ} (hj : ∀ r ∈ recs, Holds J x r.1) :
    ∃ t, readFile cv recs fresh = some t ∧ GenInv cv f.gens t.gens ∧
      BusInv cv J x f.negShunts f.zeroShunts t.buses ∧ BranchInv cv (branchRows f) t.branches := by
  obtain ⟨r0, rs, rfl, h1, h2⟩ := List.map_eq_cons_iff.mp hr
  have hj' : ∀ r ∈ rs, Holds J x r.1 := fun r hr => hj r (by simp [hr])
  obtain ⟨g1, l1, a1, b1, c1, d1⟩ := gen_read (q := .pos) (hf.gens .pos) (he 0) h2 (gen_fresh cv)
  obtain ⟨g2, l2, a2, b2, c2, d2⟩ := gen_read (q := .neg) (hf.gens .neg) (he 1) b1 d1
  obtain ⟨g3, l3, a3, b3, c3, d3⟩ := gen_read (q := .zero) (hf.gens .zero) (he 2) b2 d2
  obtain ⟨g4, l4, a4, b4, c4, d4⟩ := neg_read (cv := cv) (J := J) (x := x) hf.negShunts (he 3) b3
  obtain ⟨g5, l5, a5, b5, c5, d5⟩ := zero_read hf.zeroShunts (he 4) b4
    (fun r hr => hj' r (c1 r (c2 r (c3 r (c4 r hr))))) d4
  obtain ⟨g6, l6, a6, b6, c6, d6⟩ := branch_read (x := false) hf.lines
    (fun r hr => ⟨(hf.lines r hr).full, by simp⟩) (he 5) b5 (branch_fresh cv)
  obtain ⟨b7, c7⟩ := skip_ok (he 6) hf.mutuals b6
  obtain ⟨g8, l8, a8, b8, c8, d8⟩ := branch_read (x := true) (fun r hr => (hf.xforms r hr).1)
    (fun r hr => ⟨by have := (hf.xforms r hr).1.full; simp only; omega, fun _ => (hf.xforms r hr).2⟩) (he 7) b7 d6
  refine ⟨⟨g3, g5, g8⟩, ?_, ?_, d5, by simpa [branchRows] using d8⟩
  · simp only [readFile, List.map_cons, List.headD_cons, h1, split_row hfirst, List.tail_cons, fresh]
    cases first with
    | nil => exact absurd rfl hfirst.1
    | cons w first =>
      simp only [secOf] at a1 a2 a3
      simp only [branchSec] at a6 a8
      simp [a1, a2, a3, a4, a5, a6, a8]
  · have : more (more (more (fun _ => []) .pos f.pos) .neg f.neg) .zero f.zero = f.gens := by
      funext q
      cases q <;> simp [more, File.gens]
    rw [← this]
    exact d3

end GridPACK.SeqParser
