import Mathlib.Algebra.Order.Archimedean.Real.Basic
import Verif.Lemmas.PFBusData
import Mathlib.Algebra.BigOperators.Ring.List
import Mathlib.Algebra.Order.Archimedean.Basic

/-! C136 (scaling an area), C137 (balance of the path rating), C138 (several processes), C145 (list of violations),
C146 and C147 (search for the rating). -/
namespace GridPACK.PFBusData

/-! ### Specification -/

/-- The bus belongs to the area, and to the zone if a zone (a positive number) is given. -/
def inScope (area zone : Int) (b : Bus) : Prop := b.area = area ∧ (0 < zone → b.zone = zone)

instance (area zone : Int) (b : Bus) : Decidable (inScope area zone b) := by unfold inScope; infer_instance

theorem scope_iff (area zone : Int) (b : Bus) : scope area zone b = true ↔ inScope area zone b := by
  unfold scope inScope
  simp only [decide_eq_true_eq]
  by_cases h : 0 < zone
  · rw [if_pos h]
    constructor
    · rintro ⟨p, q⟩; exact ⟨p, fun _ => q.symm⟩
    · rintro ⟨p, q⟩; exact ⟨p, (q h).symm⟩
  · rw [if_neg h]
    constructor
    · rintro ⟨p, -⟩; exact ⟨p, fun q => absurd q h⟩
    · rintro ⟨p, -⟩; exact ⟨p, rfl⟩

/-- The generators in service of an area. -/
def gensOn (area zone : Int) (bs : List Bus) : List Gen :=
  (bs.filter (fun b => decide (inScope area zone b))).flatMap (fun b => b.gens.filter (fun g => decide (g.status ≠ 0)))

/-- The loads in service of an area. -/
def loadsOn (area zone : Int) (bs : List Bus) : List Load :=
  (bs.filter (fun b => decide (inScope area zone b))).flatMap (fun b => b.loads.filter (fun l => decide (l.status ≠ 0)))

/-- A total. -/
def tot {α : Type} (f : α → ℝ) (l : List α) : ℝ := (l.map f).sum

/-- Moved towards the maximum by the fraction `s` of the room left, or for `s ≤ 0` towards the minimum by the fraction
`-s` of what is above it. -/
noncomputable def moved (s : ℝ) (g : Gen) : ℝ :=
  if 0 < s then g.pg + s * (g.pt - g.pg) else g.pg + s * (g.pg - g.pb)

/-! ### C136: scaling an area -/

theorem scaleGenL_nodup (tag : String) (s : ℝ) : ∀ gs : List Gen, (gs.map (·.id)).Nodup →
    scaleGenL tag s gs = gs.map (fun g => if g.id = tag ∧ g.status ≠ 0 then { g with pg := moved s g } else g) := by
  intro gs
  induction gs with
  | nil => intro _; rfl
  | cons a gs ih =>
    intro h
    simp only [List.map_cons, List.nodup_cons] at h
    unfold scaleGenL
    rw [List.map_cons]
    by_cases hc : a.id = tag ∧ a.status ≠ 0
    · rw [if_pos hc, if_pos hc]
      have e : gs.map (fun g => if g.id = tag ∧ g.status ≠ 0 then { g with pg := moved s g } else g) = gs := by
        conv => rhs; rw [← List.map_id gs]
        apply List.map_congr_left
        intro g hg
        rw [if_neg]
        · rfl
        · rintro ⟨q, -⟩
          exact h.1 (List.mem_map.mpr ⟨g, hg, by rw [q, hc.1]⟩)
      rw [e]
      unfold moved
      by_cases hs : 0 < s <;> simp [hs]
    · rw [if_neg hc, if_neg hc, ih h.2]

theorem fold_scaleGen (s : ℝ) : ∀ (T : List String), T.Nodup → ∀ (b : Bus), (b.gens.map (·.id)).Nodup →
    T.foldl (fun b t => scaleGen t s b) b =
      { b with gens := b.gens.map (fun g => if g.id ∈ T ∧ g.status ≠ 0 then { g with pg := moved s g } else g) } := by
  intro T
  induction T with
  | nil =>
    intro _ b _
    simp
  | cons t T ih =>
    intro hT b hb
    simp only [List.nodup_cons] at hT
    have hid : ((scaleGen t s b).gens.map (·.id)) = b.gens.map (·.id) := scaleGenL_map _ _ _ (fun _ _ => rfl) _
    show T.foldl _ (scaleGen t s b) = _
    rw [ih hT.2 _ (by rw [hid]; exact hb)]
    unfold scaleGen
    simp only []
    rw [scaleGenL_nodup t s b.gens hb, List.map_map]
    congr 1
    apply List.map_congr_left
    intro g _
    simp only [Function.comp_def]
    by_cases h1 : g.id = t <;> by_cases h2 : g.status = 0 <;> simp [h1, h2, hT.1]

/-- C136: scaling the generation of an area moves every generator in service of the area by the same fraction of its
room, once, and changes nothing else; outside the area nothing changes at all.

Partial: the generators of a bus must have different names, see `C136_same_name_violated`. -/
theorem C136_generators_partial (s : ℝ) (area zone : Int) (bs : List Bus)
    (hn : ∀ b ∈ bs, (b.gens.map (·.id)).Nodup) :
    scaleGens s area zone bs = bs.map (fun b =>
      if inScope area zone b then
        { b with gens := b.gens.map (fun g => if g.status ≠ 0 then { g with pg := moved s g } else g) }
      else b) := by
  unfold scaleGens
  apply List.map_congr_left
  intro b hb
  by_cases h : inScope area zone b
  · rw [if_pos ((scope_iff area zone b).mpr h), if_pos h, fold_scaleGen s _ (hn b hb) b (hn b hb)]
    congr 1
    apply List.map_congr_left
    intro g hg
    by_cases h2 : g.status = 0
    · simp [h2]
    · rw [if_pos ⟨List.mem_map.mpr ⟨g, hg, rfl⟩, h2⟩, if_pos h2]
  · rw [if_neg (fun q => h ((scope_iff area zone b).mp q)), if_neg h]

/-- C136 violated: of two generators in service with the same name on a bus (names missing in the data are all "-1") the
first is scaled twice and the second never. -/
theorem C136_same_name_violated (s : ℝ) (hs : 0 < s) (area zone : Int) (b : Bus) (g k : Gen) (hb : b.gens = [g, k])
    (hid : g.id = k.id) (hg : g.status ≠ 0) (ha : inScope area zone b) :
    ∃ b', scaleGens s area zone [b] = [b'] ∧
      b'.gens.map (·.pg) = [moved s { g with pg := moved s g }, k.pg] := by
  refine ⟨(b.gens.map (·.id)).foldl (fun b t => scaleGen t s b) b, ?_, ?_⟩
  · unfold scaleGens
    rw [List.map_cons, List.map_nil, if_pos ((scope_iff area zone b).mpr ha)]
  · rw [hb]
    simp only [List.map_cons, List.map_nil, List.foldl_cons, List.foldl_nil]
    unfold scaleGen
    simp [hb, scaleGenL, ← hid, hs, hg, moved]

theorem scaleLoadL_nodup (tag : String) (s : ℝ) : ∀ ls : List Load, (ls.map (·.id)).Nodup →
    scaleLoadL tag s ls =
      ls.map (fun l => if l.id = tag ∧ l.status = 1 then { l with pl := s * l.pl, ql := s * l.ql } else l) := by
  intro ls
  induction ls with
  | nil => intro _; rfl
  | cons a ls ih =>
    intro h
    simp only [List.map_cons, List.nodup_cons] at h
    unfold scaleLoadL
    rw [List.map_cons]
    by_cases hc : a.id = tag ∧ a.status = 1
    · rw [if_pos hc, if_pos hc]
      have e : ls.map (fun l => if l.id = tag ∧ l.status = 1 then { l with pl := s * l.pl, ql := s * l.ql } else l) =
          ls := by
        conv => rhs; rw [← List.map_id ls]
        apply List.map_congr_left
        intro g hg
        rw [if_neg]
        · rfl
        · rintro ⟨q, -⟩
          exact h.1 (List.mem_map.mpr ⟨g, hg, by rw [q, hc.1]⟩)
      rw [e]
    · rw [if_neg hc, if_neg hc, ih h.2]

theorem fold_scaleLoad (s : ℝ) : ∀ (T : List String), T.Nodup → ∀ (b : Bus), (b.loads.map (·.id)).Nodup →
    T.foldl (fun b t => scaleLoad t s b) b =
      { b with loads := b.loads.map (fun l =>
          if l.id ∈ T ∧ l.status = 1 then { l with pl := s * l.pl, ql := s * l.ql } else l) } := by
  intro T
  induction T with
  | nil =>
    intro _ b _
    simp
  | cons t T ih =>
    intro hT b hb
    simp only [List.nodup_cons] at hT
    have hid : ((scaleLoad t s b).loads.map (·.id)) = b.loads.map (·.id) := scaleLoadL_map _ _ _ (fun _ _ _ => rfl) _
    show T.foldl _ (scaleLoad t s b) = _
    rw [ih hT.2 _ (by rw [hid]; exact hb)]
    unfold scaleLoad
    simp only []
    rw [scaleLoadL_nodup t s b.loads hb, List.map_map]
    congr 1
    apply List.map_congr_left
    intro g _
    simp only [Function.comp_def]
    by_cases h1 : g.id = t <;> by_cases h2 : g.status = 1 <;> simp [h1, h2, hT.1]

/-- C136: scaling the load of an area multiplies the real and the reactive power of every load in service of the area by
the factor, and changes nothing else.

Partial: the loads of a bus must have different names. -/
theorem C136_loads_partial (s : ℝ) (area zone : Int) (bs : List Bus) (hn : ∀ b ∈ bs, (b.loads.map (·.id)).Nodup) :
    scaleLoads s area zone bs = bs.map (fun b =>
      if inScope area zone b then
        { b with loads := b.loads.map (fun l =>
            if l.status = 1 then { l with pl := s * l.pl, ql := s * l.ql } else l) }
      else b) := by
  unfold scaleLoads
  apply List.map_congr_left
  intro b hb
  by_cases h : inScope area zone b
  · rw [if_pos ((scope_iff area zone b).mpr h), if_pos h, fold_scaleLoad s _ (hn b hb) b (hn b hb)]
    congr 1
    apply List.map_congr_left
    intro g hg
    by_cases h2 : g.status = 1
    · rw [if_pos ⟨List.mem_map.mpr ⟨g, hg, rfl⟩, h2⟩, if_pos h2]
    · simp [h2]
  · rw [if_neg (fun q => h ((scope_iff area zone b).mp q)), if_neg h]

/-! Totals. -/

theorem sum_flatMap {α β : Type} (p : α → Bool) (q : β → Bool) (k : α → List β) (f : β → ℝ) : ∀ l : List α,
    (((l.filter p).flatMap (fun a => (k a).filter q)).map f).sum =
      (l.map (fun a => if p a then ((k a).map (fun x => if q x then f x else 0)).sum else 0)).sum := by
  have inner : ∀ m : List β, ((m.filter q).map f).sum = (m.map (fun x => if q x then f x else 0)).sum := by
    intro m
    induction m with
    | nil => rfl
    | cons x m ih => cases h : q x <;> simp [h, ih]
  intro l
  induction l with
  | nil => rfl
  | cons a l ih =>
    cases h : p a with
    | true =>
      rw [List.filter_cons_of_pos h, List.flatMap_cons, List.map_append, List.sum_append, ih, inner]
      simp [h]
    | false =>
      rw [List.filter_cons_of_neg (by simp [h]), ih]
      simp [h]

theorem tot_gensOn (f : Gen → ℝ) (area zone : Int) (bs : List Bus) :
    tot f (gensOn area zone bs) = (bs.map (fun b => if inScope area zone b then
      (b.gens.map (fun g => if g.status ≠ 0 then f g else 0)).sum else 0)).sum := by
  unfold tot gensOn
  rw [sum_flatMap]
  simp

theorem tot_loadsOn (f : Load → ℝ) (area zone : Int) (bs : List Bus) :
    tot f (loadsOn area zone bs) = (bs.map (fun b => if inScope area zone b then
      (b.loads.map (fun l => if l.status ≠ 0 then f l else 0)).sum else 0)).sum := by
  unfold tot loadsOn
  rw [sum_flatMap]
  simp

theorem gensOn_scaled (s : ℝ) (area zone : Int) (bs : List Bus) (hn : ∀ b ∈ bs, (b.gens.map (·.id)).Nodup)
    (f : Gen → ℝ) :
    tot f (gensOn area zone (scaleGens s area zone bs)) =
      tot (fun g => f { g with pg := moved s g }) (gensOn area zone bs) := by
  rw [C136_generators_partial s area zone bs hn, tot_gensOn, tot_gensOn, List.map_map]
  congr 1
  apply List.map_congr_left
  intro b _
  simp only [Function.comp_def]
  by_cases h : inScope area zone b
  · rw [if_pos h]
    have h' : inScope area zone { b with gens := b.gens.map (fun g =>
      if g.status ≠ 0 then { g with pg := moved s g } else g) } := h
    rw [if_pos h', if_pos h]
    simp only [List.map_map]
    congr 1
    apply List.map_congr_left
    intro g _
    by_cases h2 : g.status = 0 <;> simp [h2]
  · rw [if_neg h, if_neg h, if_neg h]

/-- C136: the total generation of the area is moved by the fraction of the total room, as the diagnostics print it.

Partial: different names, as above. -/
theorem C136_total_partial (s : ℝ) (area zone : Int) (bs : List Bus) (hn : ∀ b ∈ bs, (b.gens.map (·.id)).Nodup) :
    (0 < s → tot Gen.pg (gensOn area zone (scaleGens s area zone bs)) =
      tot Gen.pg (gensOn area zone bs) +
        s * (tot Gen.pt (gensOn area zone bs) - tot Gen.pg (gensOn area zone bs))) ∧
    (s ≤ 0 → tot Gen.pg (gensOn area zone (scaleGens s area zone bs)) =
      tot Gen.pg (gensOn area zone bs) +
        s * (tot Gen.pg (gensOn area zone bs) - tot Gen.pb (gensOn area zone bs))) := by
  rw [gensOn_scaled s area zone bs hn]
  generalize gensOn area zone bs = l
  constructor
  · intro hs
    unfold tot moved
    simp only [hs, if_true]
    induction l with
    | nil => simp
    | cons g l ih => simp only [List.map_cons, List.sum_cons, ih]; ring
  · intro hs
    unfold tot moved
    simp only [not_lt.mpr hs, if_false]
    induction l with
    | nil => simp
    | cons g l ih => simp only [List.map_cons, List.sum_cons, ih]; ring

theorem loadsOn_scaled (s : ℝ) (area zone : Int) (bs : List Bus) (hn : ∀ b ∈ bs, (b.loads.map (·.id)).Nodup)
    (hst : ∀ b ∈ bs, ∀ l ∈ b.loads, l.status = 0 ∨ l.status = 1) :
    tot Load.pl (loadsOn area zone (scaleLoads s area zone bs)) = s * tot Load.pl (loadsOn area zone bs) := by
  rw [C136_loads_partial s area zone bs hn, tot_loadsOn, tot_loadsOn, List.map_map, ← List.sum_map_mul_left]
  congr 1
  apply List.map_congr_left
  intro b hb
  simp only [Function.comp_def]
  by_cases h : inScope area zone b
  · rw [if_pos h]
    have h' : inScope area zone { b with loads := b.loads.map (fun l =>
      if l.status = 1 then { l with pl := s * l.pl, ql := s * l.ql } else l) } := h
    rw [if_pos h', if_pos h]
    simp only [List.map_map]
    rw [← List.sum_map_mul_left]
    congr 1
    apply List.map_congr_left
    intro l hl
    rcases hst b hb l hl with h2 | h2 <;> simp [h2]
  · rw [if_neg h, if_neg h, mul_zero]

/-! ### C137: balance -/

/-- The powers are the saved ones (a bus loaded once, or loaded once and reset). -/
def Bus.settled (b : Bus) : Prop := b.savePg = b.gens.map Gen.pg ∧ b.savePl = b.loads.map Load.pl

theorem localLoad_eq (area zone : Int) (bs : List Bus) (h : ∀ b ∈ bs, b.settled) :
    localLoad area zone bs = tot Load.pl (loadsOn area zone bs) := by
  rw [tot_loadsOn]
  unfold localLoad
  congr 1
  apply List.map_congr_left
  intro b hb
  have e : (getLoadPower b) = b.loads.map (fun l => (l.pl, l.status)) := by
    unfold getLoadPower
    rw [(h b hb).2]
    generalize b.loads = ls
    induction ls with
    | nil => rfl
    | cons l ls ih => simp [ih]
  by_cases hs : inScope area zone b
  · rw [if_pos ((scope_iff area zone b).mpr hs), if_pos hs, e, List.map_map]
    rfl
  · rw [if_neg (fun q => hs ((scope_iff area zone b).mp q)), if_neg hs]

theorem margins_eq (area zone : Int) (bs : List Bus) (h : ∀ b ∈ bs, b.settled) :
    margins area zone bs = (tot Gen.pg (gensOn area zone bs), tot Gen.pb (gensOn area zone bs),
      tot Gen.pt (gensOn area zone bs)) := by
  have e : ∀ b ∈ bs, getGeneratorMargins b = b.gens.map (fun g => (g.pg, g.pb, g.pt, g.status)) := by
    intro b hb
    unfold getGeneratorMargins
    rw [(h b hb).1]
    generalize b.gens = gs
    induction gs with
    | nil => rfl
    | cons l ls ih => simp [ih]
  unfold margins
  simp only [tot_gensOn]
  have key : ∀ (f : ℝ × ℝ × ℝ × Int → ℝ) (k : Gen → ℝ), (∀ g : Gen, f (g.pg, g.pb, g.pt, g.status) = k g) →
      (bs.map (fun b => if scope area zone b then
        ((getGeneratorMargins b).map (fun e => if e.2.2.2 ≠ 0 then f e else 0)).sum else 0)).sum =
      (bs.map (fun b => if inScope area zone b then
        (b.gens.map (fun g => if g.status ≠ 0 then k g else 0)).sum else 0)).sum := by
    intro f k hf
    congr 1
    apply List.map_congr_left
    intro b hb
    by_cases hs : inScope area zone b
    · rw [if_pos ((scope_iff area zone b).mpr hs), if_pos hs, e b hb, List.map_map]
      congr 1
      apply List.map_congr_left
      intro g _
      simp only [Function.comp_def, hf]
    · rw [if_neg (fun q => hs ((scope_iff area zone b).mp q)), if_neg hs]
  refine Prod.ext ?_ (Prod.ext ?_ ?_)
  · exact key _ Gen.pg (fun _ => rfl)
  · exact key _ Gen.pb (fun _ => rfl)
  · exact key _ Gen.pt (fun _ => rfl)

theorem gensOn_map (f : Bus → Bus) (hf : ∀ b, (f b).area = b.area ∧ (f b).zone = b.zone ∧ (f b).gens = b.gens)
    (area zone : Int) (bs : List Bus) : gensOn area zone (bs.map f) = gensOn area zone bs := by
  unfold gensOn inScope
  rw [List.filter_map, List.flatMap_map]
  simp only [Function.comp_def, (hf _).1, (hf _).2.1, (hf _).2.2]

theorem loadsOn_map (f : Bus → Bus) (hf : ∀ b, (f b).area = b.area ∧ (f b).zone = b.zone ∧ (f b).loads = b.loads)
    (area zone : Int) (bs : List Bus) : loadsOn area zone (bs.map f) = loadsOn area zone bs := by
  unfold loadsOn inScope
  rw [List.filter_map, List.flatMap_map]
  simp only [Function.comp_def, (hf _).1, (hf _).2.1, (hf _).2.2]

theorem gensOn_loads (s : ℝ) (a z area zone : Int) (bs : List Bus) (hn : ∀ b ∈ bs, (b.loads.map (·.id)).Nodup) :
    gensOn area zone (scaleLoads s a z bs) = gensOn area zone bs ∧
    ∀ b ∈ scaleLoads s a z bs, ∃ c ∈ bs, b.gens = c.gens := by
  rw [C136_loads_partial s a z bs hn]
  constructor
  · apply gensOn_map
    intro b
    by_cases h2 : inScope a z b <;> simp [h2]
  · intro b hb
    obtain ⟨c, hc, rfl⟩ := List.mem_map.mp hb
    refine ⟨c, hc, ?_⟩
    by_cases h2 : inScope a z c <;> simp [h2]

theorem loadsOn_gens (s : ℝ) (a z area zone : Int) (bs : List Bus) (hn : ∀ b ∈ bs, (b.gens.map (·.id)).Nodup) :
    loadsOn area zone (scaleGens s a z bs) = loadsOn area zone bs := by
  rw [C136_generators_partial s a z bs hn]
  apply loadsOn_map
  intro b
  by_cases h2 : inScope a z b <;> simp [h2]

/-- C137: on one process, adjusting the rating changes the load of the destination and the generation of the source by the
same amount.  It succeeds exactly if the generators of the source have enough room; then the load is the rating times
the old load.  If not, the generation goes to its limit.

Partial: one process (see `C138_margin_violated`), powers as loaded, different names on each bus, load statuses 0 or 1, a
positive load, and a generation of the source between its total limits. -/
theorem C137_balance_partial (p : Path) (rating : ℝ) (bs : List Bus) (hset : ∀ b ∈ bs, b.settled)
    (hg : ∀ b ∈ bs, (b.gens.map (·.id)).Nodup) (hl : ∀ b ∈ bs, (b.loads.map (·.id)).Nodup)
    (hst : ∀ b ∈ bs, ∀ l ∈ b.loads, l.status = 0 ∨ l.status = 1)
    (hL : 0 < tot Load.pl (loadsOn p.dstArea p.dstZone bs))
    (hmin : tot Gen.pb (gensOn p.srcArea p.srcZone bs) ≤ tot Gen.pg (gensOn p.srcArea p.srcZone bs))
    (hmax : tot Gen.pg (gensOn p.srcArea p.srcZone bs) ≤ tot Gen.pt (gensOn p.srcArea p.srcZone bs)) :
    let bs' := (adjustRating p rating [bs] bs).2
    let ok := (adjustRating p rating [bs] bs).1
    let L := tot Load.pl (loadsOn p.dstArea p.dstZone bs)
    let G := tot Gen.pg (gensOn p.srcArea p.srcZone bs)
    tot Load.pl (loadsOn p.dstArea p.dstZone bs') - L = tot Gen.pg (gensOn p.srcArea p.srcZone bs') - G ∧
    (ok = true ↔ (1 < rating → (rating - 1) * L ≤ tot Gen.pt (gensOn p.srcArea p.srcZone bs) - G) ∧
      (rating ≤ 1 → (1 - rating) * L ≤ G - tot Gen.pb (gensOn p.srcArea p.srcZone bs))) ∧
    (ok = true → tot Load.pl (loadsOn p.dstArea p.dstZone bs') = rating * L) ∧
    (ok = false → 1 < rating →
      tot Gen.pg (gensOn p.srcArea p.srcZone bs') = tot Gen.pt (gensOn p.srcArea p.srcZone bs)) ∧
    (ok = false → rating ≤ 1 →
      tot Gen.pg (gensOn p.srcArea p.srcZone bs') = tot Gen.pb (gensOn p.srcArea p.srcZone bs)) := by
  intro bs' ok L G
  have eL : totalLoad p.dstArea p.dstZone [bs] = L := by
    unfold totalLoad
    rw [List.map_cons, List.map_nil, List.sum_cons, List.sum_nil, add_zero, localLoad_eq _ _ _ hset]
  have eM := margins_eq p.srcArea p.srcZone bs hset
  have ebs : (adjustRating p rating [bs] bs) =
      ((ratings rating L G (tot Gen.pb (gensOn p.srcArea p.srcZone bs)) (tot Gen.pt (gensOn p.srcArea p.srcZone bs))).1,
       scaleGens (ratings rating L G (tot Gen.pb (gensOn p.srcArea p.srcZone bs))
         (tot Gen.pt (gensOn p.srcArea p.srcZone bs))).2.2 p.srcArea p.srcZone
         (scaleLoads (ratings rating L G (tot Gen.pb (gensOn p.srcArea p.srcZone bs))
         (tot Gen.pt (gensOn p.srcArea p.srcZone bs))).2.1 p.dstArea p.dstZone bs)) := by
    unfold adjustRating
    simp only [eL, eM]
    rfl
  generalize hr : ratings rating L G (tot Gen.pb (gensOn p.srcArea p.srcZone bs))
    (tot Gen.pt (gensOn p.srcArea p.srcZone bs)) = r at ebs
  have hgl : ∀ b ∈ scaleLoads r.2.1 p.dstArea p.dstZone bs, (b.gens.map (·.id)).Nodup := by
    intro b hb
    obtain ⟨c, hc, e⟩ := (gensOn_loads r.2.1 p.dstArea p.dstZone 0 0 bs hl).2 b hb
    rw [e]
    exact hg c hc
  have newL : tot Load.pl (loadsOn p.dstArea p.dstZone bs') = r.2.1 * L := by
    show tot Load.pl (loadsOn p.dstArea p.dstZone (adjustRating p rating [bs] bs).2) = _
    rw [ebs]
    simp only []
    rw [loadsOn_gens _ _ _ _ _ _ hgl, loadsOn_scaled _ _ _ _ hl hst]
  have newG : (0 < r.2.2 → tot Gen.pg (gensOn p.srcArea p.srcZone bs') =
        G + r.2.2 * (tot Gen.pt (gensOn p.srcArea p.srcZone bs) - G)) ∧
      (r.2.2 ≤ 0 → tot Gen.pg (gensOn p.srcArea p.srcZone bs') =
        G + r.2.2 * (G - tot Gen.pb (gensOn p.srcArea p.srcZone bs))) := by
    show (0 < r.2.2 → tot Gen.pg (gensOn p.srcArea p.srcZone (adjustRating p rating [bs] bs).2) = _) ∧
      (r.2.2 ≤ 0 → tot Gen.pg (gensOn p.srcArea p.srcZone (adjustRating p rating [bs] bs).2) = _)
    rw [ebs]
    simp only []
    have t := C136_total_partial r.2.2 p.srcArea p.srcZone _ hgl
    rw [(gensOn_loads r.2.1 p.dstArea p.dstZone p.srcArea p.srcZone bs hl).1] at t
    exact t
  have hok : ok = r.1 := by
    show (adjustRating p rating [bs] bs).1 = _
    rw [ebs]
  rw [newL, hok]
  generalize tot Gen.pg (gensOn p.srcArea p.srcZone bs') = G' at newG
  generalize tot Gen.pt (gensOn p.srcArea p.srcZone bs) = M at *
  generalize tot Gen.pb (gensOn p.srcArea p.srcZone bs) = m at *
  have hL' : 0 < L := hL
  have hmin' : m ≤ G := hmin
  have hmax' : G ≤ M := hmax
  clear_value L G
  clear hset hg hl hst hL hmin hmax eL eM ebs hgl newL hok
  unfold ratings at hr
  by_cases h1 : rating > 1
  · rw [if_pos h1] at hr
    simp only [] at hr
    by_cases h2 : (rating - 1) * L ≤ M - G
    · rw [if_pos h2] at hr
      have hpos : 0 < (rating - 1) * L := mul_pos (by linarith) hL'
      have hM : M > G := by linarith
      rw [if_pos hM] at hr
      subst hr
      simp only [] at newG ⊢
      have hfac : 0 < (rating - 1) * L / (M - G) := div_pos hpos (by linarith)
      have := newG.1 hfac
      rw [div_mul_cancel₀ _ (by linarith)] at this
      refine ⟨by rw [this]; ring, ⟨fun _ => ⟨fun _ => h2, fun q => absurd q (not_le.mpr h1)⟩, fun _ => trivial⟩,
        fun _ => trivial, by simp, by simp⟩
    · rw [if_neg h2] at hr
      subst hr
      simp only [] at newG ⊢
      have hG : G' = M := by
        by_cases hM : M > G
        · rw [if_pos hM] at newG
          rw [div_self (by linarith)] at newG
          have := newG.1 one_pos
          linarith
        · rw [if_neg hM] at newG
          have := newG.2 le_rfl
          rw [this]
          linarith
      refine ⟨?_, ⟨by simp, fun q => absurd (q.1 h1) h2⟩, by simp, fun _ _ => hG, fun _ q => absurd q (not_le.mpr h1)⟩
      rw [div_mul_cancel₀ _ hL'.ne', hG]
      ring
  · rw [if_neg h1] at hr
    simp only [] at hr
    have h1' := not_lt.mp h1
    have hnn : 0 ≤ (1 - rating) * L := mul_nonneg (by linarith) hL'.le
    by_cases h2 : (1 - rating) * L ≤ G - m
    · rw [if_pos h2] at hr
      subst hr
      simp only [] at newG ⊢
      have hG : G' = G - (1 - rating) * L := by
        by_cases hM : G > m
        · rw [if_pos hM] at newG
          have := newG.2 (div_nonpos_of_nonpos_of_nonneg (by linarith) (by linarith))
          rw [div_mul_cancel₀ _ (by linarith)] at this
          linarith
        · rw [if_neg hM] at newG
          have := newG.2 le_rfl
          rw [this]
          linarith
      refine ⟨by rw [hG]; ring, ⟨fun _ => ⟨fun q => absurd q h1, fun _ => h2⟩, fun _ => trivial⟩, fun _ => trivial,
        by simp, by simp⟩
    · rw [if_neg h2] at hr
      subst hr
      simp only [] at newG ⊢
      have hG : G' = m := by
        by_cases hM : G > m
        · rw [if_pos hM] at newG
          have := newG.2 (div_nonpos_of_nonpos_of_nonneg (by linarith) (by linarith))
          rw [div_mul_cancel₀ _ (by linarith)] at this
          linarith
        · rw [if_neg hM] at newG
          have := newG.2 le_rfl
          rw [this]
          linarith
      refine ⟨?_, ⟨by simp, fun q => absurd (q.2 h1') h2⟩, by simp, fun _ q => absurd q h1, fun _ _ => hG⟩
      rw [div_mul_cancel₀ _ hL'.ne', hG]
      ring

/-! ### C138: several processes -/

/-- C138: without copies of buses of other processes the total load is the load in service of the area over all processes.

Partial: see `C138_ghost_load_violated`. -/
theorem C138_total_partial (area zone : Int) (procs : List (List Bus)) (h : ∀ bs ∈ procs, ∀ b ∈ bs, b.settled) :
    totalLoad area zone procs = tot Load.pl (loadsOn area zone procs.flatten) := by
  unfold totalLoad
  induction procs with
  | nil => rfl
  | cons bs procs ih =>
    rw [List.map_cons, List.sum_cons, ih (fun bs hb => h bs (List.mem_cons_of_mem _ hb)),
      localLoad_eq _ _ _ (h bs (List.mem_cons_self ..)), List.flatten_cons]
    simp [tot, loadsOn, List.filter_append]

/-- C138 violated: the load of every copy of a bus held by another process is counted again. -/
theorem C138_ghost_load_violated (area zone : Int) (owned ghosts : List (List Bus)) (hl : owned.length = ghosts.length) :
    totalLoad area zone (List.zipWith (· ++ ·) owned ghosts) =
      totalLoad area zone owned + totalLoad area zone ghosts := by
  unfold totalLoad
  induction owned generalizing ghosts with
  | nil =>
    cases ghosts with
    | nil => simp
    | cons g gs => simp at hl
  | cons o os ih =>
    cases ghosts with
    | nil => simp at hl
    | cons g gs =>
      have hlen : os.length = gs.length := by simpa using hl
      have e : localLoad area zone (o ++ g) = localLoad area zone o + localLoad area zone g := by
        simp [localLoad]
      simp only [List.zipWith_cons_cons, List.map_cons, List.sum_cons, ih gs hlen, e]
      ring

/-- C138 violated: the margins are those of the process itself.  For a rating above 1 and a positive load, a process
without generators of the source reports failure while a process whose own generators have enough room reports
success, so the processes of one search take different paths. -/
theorem C138_margin_violated (p : Path) (rating : ℝ) (h1 : 1 < rating) (procs : List (List Bus)) (bs₁ bs₂ : List Bus)
    (hL : 0 < totalLoad p.dstArea p.dstZone procs) (he : ∀ b ∈ bs₁, inScope p.srcArea p.srcZone b → b.gens = [])
    (hm : (rating - 1) * totalLoad p.dstArea p.dstZone procs ≤
      (margins p.srcArea p.srcZone bs₂).2.2 - (margins p.srcArea p.srcZone bs₂).1) :
    (adjustRating p rating procs bs₁).1 = false ∧ (adjustRating p rating procs bs₂).1 = true := by
  have e1 : margins p.srcArea p.srcZone bs₁ = (0, 0, 0) := by
    unfold margins
    have : ∀ (f : ℝ × ℝ × ℝ × Int → ℝ), (bs₁.map (fun b => if scope p.srcArea p.srcZone b then
        ((getGeneratorMargins b).map (fun e => if e.2.2.2 ≠ 0 then f e else 0)).sum else 0)).sum = 0 := by
      intro f
      apply List.sum_eq_zero
      intro x hx
      obtain ⟨b, hb, rfl⟩ := List.mem_map.mp hx
      by_cases hs : inScope p.srcArea p.srcZone b
      · simp [getGeneratorMargins, he b hb hs]
      · rw [if_neg (fun q => hs ((scope_iff _ _ b).mp q))]
    simp only [this]
  have hpos : 0 < (rating - 1) * totalLoad p.dstArea p.dstZone procs := mul_pos (by linarith) hL
  constructor
  · unfold adjustRating ratings
    simp only [e1]
    rw [if_pos h1, if_neg (by linarith)]
  · unfold adjustRating ratings
    simp only []
    rw [if_pos h1, if_pos hm]

/-! ### C145: list of violations -/

/-- C145: if process 0 has no violations, the processes store theirs one after the other without gap or overlap.

Partial: see `C145_overlap_violated`. -/
theorem C145_order_partial (sizes : List Nat) (h0 : sizes.getD 0 0 = 0) (n : Nat) :
    (List.range n).flatMap (violationIdx sizes) =
      List.range (((List.range n).map (fun i => sizes.getD i 0)).sum) := by
  have hoff : ∀ n, (((List.range n).filter (fun i => decide (1 ≤ i))).map (fun i => sizes.getD i 0)).sum =
      ((List.range n).map (fun i => sizes.getD i 0)).sum := by
    intro n
    induction n with
    | zero => rfl
    | succ n ih =>
      rw [List.range_succ, List.filter_append, List.map_append, List.sum_append, ih, List.map_append, List.sum_append]
      cases n with
      | zero => simpa using h0.symm
      | succ n => simp
  induction n with
  | zero => rfl
  | succ n ih =>
    rw [List.range_succ, List.flatMap_append, ih, List.map_append, List.sum_append]
    unfold violationIdx
    simp only [hoff, List.flatMap_cons, List.flatMap_nil, List.append_nil, List.map_cons, List.map_nil, List.sum_cons,
      List.sum_nil, add_zero]
    rw [List.range_add]

/-- C145 violated: if process 0 and process 1 both have violations, both store one under index 0, and all indices
together are fewer than the violations, so some are lost. -/
theorem C145_overlap_violated (s₀ s₁ : Nat) (rest : List Nat) (h0 : 0 < s₀) (h1 : 0 < s₁) :
    0 ∈ violationIdx (s₀ :: s₁ :: rest) 0 ∧ 0 ∈ violationIdx (s₀ :: s₁ :: rest) 1 ∧
    ∃ k, k < (s₀ :: s₁ :: rest).sum ∧ ∀ me, me < (s₀ :: s₁ :: rest).length →
      ∀ i ∈ violationIdx (s₀ :: s₁ :: rest) me, i < k := by
  refine ⟨by simp [violationIdx, h0], by simp [violationIdx, h1, List.range_succ], max s₀ (s₁ :: rest).sum, ?_, ?_⟩
  · simp only [List.sum_cons]
    omega
  · intro me hme i hi
    unfold violationIdx at hi
    obtain ⟨k, hk, rfl⟩ := List.mem_map.mp hi
    have hk' := List.mem_range.mp hk
    cases me with
    | zero =>
      simp only [List.getD_cons_zero] at hk'
      simp only [List.range_zero, List.filter_nil, List.map_nil, List.sum_nil, zero_add]
      exact lt_of_lt_of_le hk' (le_max_left _ _)
    | succ me =>
      apply lt_of_lt_of_le _ (le_max_right _ _)
      have e : (((List.range (me + 1)).filter (fun i => decide (1 ≤ i))).map
          (fun i => (s₀ :: s₁ :: rest).getD i 0)) = (List.range me).map (fun i => (s₁ :: rest).getD i 0) := by
        rw [List.range_succ_eq_map, List.filter_cons_of_neg (by simp), List.filter_map, List.map_map]
        have : (fun i : Nat => decide (1 ≤ i)) ∘ Nat.succ = fun _ => true := by
          funext i; simp
        rw [this, List.filter_true]
        rfl
      rw [e]
      simp only [List.getD_cons_succ] at hk'
      have hme' : me < (s₁ :: rest).length := by simpa using hme
      have key : ∀ (l : List Nat) (m : Nat), m < l.length →
          ((List.range m).map (fun i => l.getD i 0)).sum + l.getD m 0 ≤ l.sum := by
        intro l m hm
        have e2 : (List.range m).map (fun i => l.getD i 0) = l.take m := by
          apply List.ext_getElem?
          intro j
          rw [List.getElem?_map, List.getElem?_take]
          by_cases hj : j < m
          · rw [List.getElem?_range hj, if_pos hj]
            simp [List.getD_eq_getElem?_getD, List.getElem?_eq_getElem (lt_trans hj hm)]
          · rw [if_neg hj, List.getElem?_eq_none (by simpa using hj)]
            rfl
        have e3 := List.sum_take_add_sum_drop l m
        rw [List.drop_eq_getElem_cons hm, List.sum_cons] at e3
        rw [e2, List.getD_eq_getElem?_getD, List.getElem?_eq_getElem hm, Option.getD_some]
        omega
      have := key (s₁ :: rest) me hme'
      omega

/-! ### C146: search for the power flow rating -/

/-- A rating passes: enough room and all contingencies secure. -/
def passes (ok sec : ℝ → Bool) (r : ℝ) : Prop := ok r = true ∧ sec r = true

theorem up_spec (ok sec : ℝ → Bool) (h : ℝ) : ∀ (n : Nat) (r r' : ℝ), up ok sec h n r = some r' →
    ¬ passes ok sec (r' + h) ∧ ∃ k : Nat, r' = r + k * h ∧ ∀ j : Nat, 1 ≤ j → j ≤ k → passes ok sec (r + j * h) := by
  intro n
  induction n with
  | zero => intro r r' e; simp [up] at e
  | succ n ih =>
    intro r r' e
    unfold up at e
    simp only [] at e
    have stop : ¬ passes ok sec (r + h) → some (r + h - h) = some r' → ¬ passes ok sec (r' + h) ∧
        ∃ k : Nat, r' = r + k * h ∧ ∀ j : Nat, 1 ≤ j → j ≤ k → passes ok sec (r + j * h) := by
      intro hn e
      simp only [Option.some.injEq, add_sub_cancel_right] at e
      subst e
      exact ⟨hn, 0, by simp, fun j h1 h2 => by omega⟩
    cases h1 : ok (r + h) with
    | false =>
      rw [h1] at e
      exact stop (fun q => by rw [q.1] at h1; simp at h1) (by simpa using e)
    | true =>
      rw [h1] at e
      simp only [Bool.not_true, Bool.false_eq_true, if_false] at e
      cases h2 : sec (r + h) with
      | false =>
        rw [h2] at e
        exact stop (fun q => by rw [q.2] at h2; simp at h2) (by simpa using e)
      | true =>
        rw [h2] at e
        simp only [if_true] at e
        obtain ⟨a, k, hk, hall⟩ := ih (r + h) r' e
        refine ⟨a, k + 1, by rw [hk]; push_cast; ring, ?_⟩
        intro j hj1 hj2
        cases j with
        | zero => omega
        | succ j =>
          cases j with
          | zero => simpa [passes] using And.intro h1 h2
          | succ j =>
            have := hall (j + 1) (by omega) (by omega)
            have e2 : r + h + ((j + 1 : Nat) : ℝ) * h = r + ((j + 1 + 1 : Nat) : ℝ) * h := by push_cast; ring
            rwa [e2] at this

/-- C146: if the system is secure as it is, a reported rating is at least 1, was itself tested (unless it is 1), and the
next step of one hundredth does not pass. -/
theorem C146_up (ok sec : ℝ → Bool) (h1 : sec 1 = true) (n : Nat) (r : ℝ) (h : search ok sec n = some r) :
    1 ≤ r ∧ (r = 1 ∨ (ok r = true ∧ sec r = true)) ∧ ¬ (ok (r + 1 / 100) = true ∧ sec (r + 1 / 100) = true) := by
  unfold search at h
  rw [h1, if_pos rfl] at h
  cases hu : up ok sec (5 / 100) n 1 with
  | none => rw [hu] at h; simp at h
  | some r₁ =>
    rw [hu] at h
    simp only [Option.bind_some] at h
    obtain ⟨-, k, hk, hall⟩ := up_spec ok sec (5 / 100) n 1 r₁ hu
    obtain ⟨hn, m, hm, hall2⟩ := up_spec ok sec (1 / 100) n r₁ r h
    have hk0 : (0 : ℝ) ≤ (k : ℝ) * (5 / 100) := by positivity
    have hm0 : (0 : ℝ) ≤ (m : ℝ) * (1 / 100) := by positivity
    refine ⟨by linarith, ?_, hn⟩
    by_cases hm1 : m = 0
    · subst hm1
      simp only [Nat.cast_zero, zero_mul, add_zero] at hm
      by_cases hk1 : k = 0
      · subst hk1
        left
        simpa [hm] using hk
      · right
        have := hall k (by omega) le_rfl
        rw [← hk, ← hm] at this
        exact this
    · right
      have := hall2 m (by omega) le_rfl
      rw [← hm] at this
      exact this

theorem down_spec (ok sec : ℝ → Bool) (h : ℝ) : ∀ (n : Nat) (r r' : ℝ), down ok sec h false n r = some r' →
    r' < 0 ∨ ok (r' - h) = false ∨ passes ok sec r' := by
  intro n
  induction n with
  | zero => intro r r' e; simp [down] at e
  | succ n ih =>
    intro r r' e
    unfold down at e
    by_cases h0 : r ≥ 0
    · rw [if_pos h0] at e
      simp only [] at e
      cases h1 : ok (r - h) with
      | false =>
        rw [h1] at e
        simp only [Bool.not_false, if_true, Option.some.injEq, sub_add_cancel] at e
        subst e
        exact Or.inr (Or.inl h1)
      | true =>
        rw [h1] at e
        simp only [Bool.not_true, Bool.false_eq_true, if_false] at e
        cases h2 : sec (r - h) with
        | true =>
          rw [h2] at e
          simp only [if_true, Option.some.injEq] at e
          subst e
          exact Or.inr (Or.inr ⟨h1, h2⟩)
        | false =>
          rw [h2] at e
          simp only [Bool.false_eq_true, if_false] at e
          exact ih (r - h) r' e
    · rw [if_neg h0] at e
      simp only [Option.some.injEq] at e
      subst e
      exact Or.inl (not_le.mp h0)

/-- C146: if the system is not secure as it is, a reported rating passed the test, or it is negative, or the generators
have no room for the next step down.

Partial: in the last two cases the rating need not be secure, see `C146_no_room_violated`, `C146_negative_violated`. -/
theorem C146_down_partial (ok sec : ℝ → Bool) (h1 : sec 1 = false) (n : Nat) (r : ℝ) (h : search ok sec n = some r) :
    r < 0 ∨ ok (r - 1 / 100) = false ∨ (ok r = true ∧ sec r = true) := by
  unfold search at h
  rw [h1] at h
  simp only [Bool.false_eq_true, if_false] at h
  cases hu : down ok sec (5 / 100) true n 1 with
  | none => rw [hu] at h; simp at h
  | some r₁ =>
    rw [hu] at h
    exact down_spec ok sec (1 / 100) n r₁ r h

/-- Started at an insecure rating, a loop downwards ends at an insecure rating, or (only without `back`) at the first
secure one. -/
theorem down_first (ok sec : ℝ → Bool) (h : ℝ) (back : Bool) : ∀ (n : Nat) (r r' : ℝ), sec r = false →
    down ok sec h back n r = some r' → sec r' = false ∨ (back = false ∧ sec (r' + h) = false) := by
  intro n
  induction n with
  | zero => intro r r' _ e; simp [down] at e
  | succ n ih =>
    intro r r' hr e
    unfold down at e
    by_cases h0 : r ≥ 0
    · rw [if_pos h0] at e
      simp only [] at e
      cases h1 : ok (r - h) with
      | false =>
        rw [h1] at e
        simp only [Bool.not_false, if_true, Option.some.injEq, sub_add_cancel] at e
        subst e
        exact Or.inl hr
      | true =>
        rw [h1] at e
        simp only [Bool.not_true, Bool.false_eq_true, if_false] at e
        cases h2 : sec (r - h) with
        | true =>
          rw [h2] at e
          cases back with
          | true =>
            simp only [if_true, Option.some.injEq, sub_add_cancel] at e
            subst e
            exact Or.inl hr
          | false =>
            simp only [if_true, Bool.false_eq_true, if_false, Option.some.injEq] at e
            subst e
            exact Or.inr ⟨rfl, by simpa using hr⟩
        | false =>
          rw [h2] at e
          simp only [Bool.false_eq_true, if_false] at e
          exact ih (r - h) r' h2 e
    · rw [if_neg h0] at e
      simp only [Option.some.injEq] at e
      subst e
      exact Or.inl hr

/-- C146: if the system is not secure as it is and the rating reported is secure, the next hundredth above it is not. -/
theorem C146_down_largest (ok sec : ℝ → Bool) (h1 : sec 1 = false) (n : Nat) (r : ℝ) (h : search ok sec n = some r)
    (hr : sec r = true) : sec (r + 1 / 100) = false := by
  unfold search at h
  rw [h1] at h
  simp only [Bool.false_eq_true, if_false] at h
  cases hu : down ok sec (5 / 100) true n 1 with
  | none => rw [hu] at h; simp at h
  | some r₁ =>
    rw [hu] at h
    have e1 : sec r₁ = false := by
      rcases down_first ok sec _ _ n 1 r₁ h1 hu with q | q
      · exact q
      · simp at q
    rcases down_first ok sec _ _ n r₁ r e1 h with q | q
    · rw [q] at hr; simp at hr
    · exact q.2

theorem down_ends (ok sec : ℝ → Bool) (h : ℝ) (hh : 0 < h) (back : Bool) : ∀ (k : Nat) (r : ℝ), r < k * h →
    ∀ n, k < n → ∃ r', down ok sec h back n r = some r' := by
  intro k
  induction k with
  | zero =>
    intro r hr n hn
    cases n with
    | zero => omega
    | succ n =>
      unfold down
      rw [if_neg (by simpa using hr)]
      exact ⟨r, rfl⟩
  | succ k ih =>
    intro r hr n hn
    cases n with
    | zero => omega
    | succ n =>
      unfold down
      by_cases h0 : r ≥ 0
      · rw [if_pos h0]
        simp only []
        cases ok (r - h) with
        | false => simp
        | true =>
          cases sec (r - h) with
          | true => simp
          | false =>
            simp only [Bool.not_true, Bool.false_eq_true, if_false]
            refine ih (r - h) ?_ n (by omega)
            push_cast at hr
            linarith
      · rw [if_neg h0]
        exact ⟨r, rfl⟩

/-- C146: the search ends whenever the system is not secure as it is. -/
theorem C146_down_ends (ok sec : ℝ → Bool) (h1 : sec 1 = false) : ∃ N, ∀ n, N ≤ n → ∃ r, search ok sec n = some r := by
  obtain ⟨r₁, h₁⟩ := down_ends ok sec (5 / 100) (by norm_num) true 21 1 (by norm_num) 22 (by omega)
  have mono : ∀ (h : ℝ) (back : Bool) (n : Nat) (r r' : ℝ), down ok sec h back n r = some r' →
      ∀ m, n ≤ m → down ok sec h back m r = some r' := by
    intro h back n
    induction n with
    | zero => intro r r' e; simp [down] at e
    | succ n ih =>
      intro r r' e m hm
      cases m with
      | zero => omega
      | succ m =>
        unfold down at e ⊢
        by_cases h0 : r ≥ 0
        · rw [if_pos h0] at e ⊢
          simp only [] at e ⊢
          cases hok : ok (r - h) with
          | false => rw [hok] at e; exact e
          | true =>
            rw [hok] at e
            cases hsec : sec (r - h) with
            | true => rw [hsec] at e; exact e
            | false =>
              rw [hsec] at e
              simp only [Bool.not_true, Bool.false_eq_true, if_false] at e ⊢
              exact ih _ _ e m (by omega)
        · rw [if_neg h0] at e ⊢
          exact e
  obtain ⟨k, hk⟩ := exists_nat_gt (r₁ * 100)
  refine ⟨max 22 (k + 1), fun n hn => ?_⟩
  obtain ⟨r₂, h₂⟩ := down_ends ok sec (1 / 100) (by norm_num) false k r₁ (by linarith) n (by omega)
  refine ⟨r₂, ?_⟩
  unfold search
  rw [h1]
  simp only [Bool.false_eq_true, if_false]
  rw [mono _ _ _ _ _ h₁ n (by omega)]
  exact h₂

/-- C146 violated: if the system is not secure as it is and the generators have no room to go down, the rating 1 is
reported although it is not secure. -/
theorem C146_no_room_violated (ok sec : ℝ → Bool) (h1 : sec 1 = false) (h2 : ok (1 - 5 / 100) = false)
    (h3 : ok (1 - 1 / 100) = false) (n : Nat) : search ok sec (n + 1) = some 1 := by
  unfold search
  rw [h1]
  simp only [Bool.false_eq_true, if_false]
  unfold down
  simp only []
  rw [if_pos (by norm_num), h2]
  simp only [Bool.not_false, if_true, sub_add_cancel, Option.bind_some]
  rw [if_pos (by norm_num), h3]
  simp

/-- C146 violated: if nothing is secure, a negative rating is reported. -/
theorem C146_negative_violated (ok sec : ℝ → Bool) (hok : ∀ r, ok r = true) (hsec : ∀ r, sec r = false) (n : Nat)
    (r : ℝ) (h : search ok sec n = some r) : r < 0 := by
  have key : ∀ (h : ℝ) (back : Bool) (n : Nat) (r r' : ℝ), down ok sec h back n r = some r' → r' < 0 := by
    intro h back n
    induction n with
    | zero => intro r r' e; simp [down] at e
    | succ n ih =>
      intro r r' e
      unfold down at e
      by_cases h0 : r ≥ 0
      · rw [if_pos h0] at e
        simp only [hok, hsec, Bool.not_true, Bool.false_eq_true, if_false] at e
        exact ih _ _ e
      · rw [if_neg h0] at e
        simp only [Option.some.injEq] at e
        rw [← e]
        exact not_le.mp h0
  unfold search at h
  rw [hsec] at h
  simp only [Bool.false_eq_true, if_false] at h
  cases hu : down ok sec (5 / 100) true n 1 with
  | none => rw [hu] at h; simp at h
  | some r₁ =>
    rw [hu] at h
    exact key _ _ _ _ _ h

/-- C146 violated: the search upwards need not end: with no load at the destination every rating is accepted, whatever
the margins, as long as the generation is within them; and if the contingencies are always secure no rating is ever
reported. -/
theorem C146_no_end_violated (gtotal pmin pmax : ℝ) (hmin : pmin ≤ gtotal) (hmax : gtotal ≤ pmax) (sec : ℝ → Bool)
    (hsec : ∀ r, sec r = true) (n : Nat) : search (fun r => (ratings r 0 gtotal pmin pmax).1) sec n = none := by
  have hok : ∀ r, (ratings r 0 gtotal pmin pmax).1 = true := by
    intro r
    unfold ratings
    by_cases h : r > 1
    · rw [if_pos h, if_pos (by linarith)]
    · rw [if_neg h, if_pos (by linarith)]
  have hf : (fun r => (ratings r 0 gtotal pmin pmax).1) = fun _ => true := funext hok
  rw [hf]
  have key : ∀ (n : Nat) (h r : ℝ), up (fun _ => true) sec h n r = none := by
    intro n
    induction n with
    | zero => intro h r; rfl
    | succ n ih =>
      intro h r
      unfold up
      simp only [hsec, Bool.not_true, Bool.false_eq_true, if_false, if_true]
      exact ih h (r + h)
  unfold search
  rw [hsec, if_pos rfl, key]
  rfl

/-! ### C147: search for the dynamic simulation rating -/

/-- C147: a reported dynamic simulation rating passed the test, or it is negative, or the generators have no room for the
next step down.

Partial: it need not be close to the limit, see `C147_lowered_violated`. -/
theorem C147_tested_partial (ok sec : ℝ → Bool) (n : Nat) (r₀ r : ℝ) (h : dynSearch ok sec n r₀ = some r) :
    r < 0 ∨ ok (r - 1 / 100) = false ∨ (ok r = true ∧ sec r = true) := by
  unfold dynSearch at h
  cases hu : (if sec r₀ then some r₀ else down ok sec (5 / 100) false n r₀) with
  | none => rw [hu] at h; simp at h
  | some r₁ =>
    rw [hu] at h
    exact down_spec ok sec (1 / 100) n r₁ r h

/-- C147 violated: a power flow rating that passes the dynamic simulation is lowered all the same. -/
theorem C147_lowered_violated (ok sec : ℝ → Bool) (n : Nat) (r₀ : ℝ) (h0 : 0 ≤ r₀) (hs : sec r₀ = true)
    (hok : ok (r₀ - 1 / 100) = true) (hs' : sec (r₀ - 1 / 100) = true) :
    dynSearch ok sec (n + 1) r₀ = some (r₀ - 1 / 100) := by
  unfold dynSearch
  rw [hs, if_pos rfl, Option.bind_some]
  unfold down
  rw [if_pos h0]
  simp only [hok, hs', Bool.not_true, Bool.false_eq_true, if_false, if_true]

/-! ### Concrete cases -/

/-- Two buses: a source in area 1 and a destination in area 2. -/
noncomputable def srcBus : Bus :=
  ⟨[⟨"1", 1, 10, 1, 5, -5, 5, -5, 20, 0, 1/4, 1/4⟩, ⟨"2", 1, 30, 2, 9, -9, 9, -9, 60, 0, 3/4, 3/4⟩],
   [10, 30], [], [], [], 100, 1, 1, false, true, true, 1, 1⟩
noncomputable def dstBus : Bus := ⟨[], [], [⟨"1", 1, 50, 20⟩], [50], [20], 100, 1, 1, false, false, false, 2, 1⟩

/-- The hypotheses of C137 hold for them, and a rating of 1.2 raises load and generation by 10. -/
example : ∃ bs', adjustRating ⟨1, 0, 2, 0⟩ (6/5) [[srcBus, dstBus]] [srcBus, dstBus] = (true, bs') ∧
    tot Load.pl (loadsOn 2 0 bs') = 60 ∧ tot Gen.pg (gensOn 1 0 bs') = 50 := by
  have eL : tot Load.pl (loadsOn 2 0 [srcBus, dstBus]) = 50 := by
    norm_num [tot, loadsOn, inScope, srcBus, dstBus]
  have eG : tot Gen.pg (gensOn 1 0 [srcBus, dstBus]) = 40 := by
    norm_num [tot, gensOn, inScope, srcBus, dstBus]
  have eM : tot Gen.pt (gensOn 1 0 [srcBus, dstBus]) = 80 := by
    norm_num [tot, gensOn, inScope, srcBus, dstBus]
  have em : tot Gen.pb (gensOn 1 0 [srcBus, dstBus]) = 0 := by
    norm_num [tot, gensOn, inScope, srcBus, dstBus]
  have H := C137_balance_partial ⟨1, 0, 2, 0⟩ (6/5) [srcBus, dstBus]
    (by intro b hb; simp only [List.mem_cons, List.not_mem_nil, or_false] at hb
        rcases hb with rfl | rfl <;> simp [Bus.settled, srcBus, dstBus])
    (by intro b hb; simp only [List.mem_cons, List.not_mem_nil, or_false] at hb
        rcases hb with rfl | rfl <;> simp [srcBus, dstBus])
    (by intro b hb; simp only [List.mem_cons, List.not_mem_nil, or_false] at hb
        rcases hb with rfl | rfl <;> simp [srcBus, dstBus])
    (by intro b hb l hl; simp only [List.mem_cons, List.not_mem_nil, or_false] at hb
        rcases hb with rfl | rfl
        · simp [srcBus] at hl
        · simp only [dstBus, List.mem_cons, List.not_mem_nil, or_false] at hl; subst hl; simp)
    (by rw [eL]; norm_num) (by rw [eG, em]; norm_num) (by rw [eG, eM]; norm_num)
  simp only [eL, eG, eM, em] at H
  have hok : (adjustRating ⟨1, 0, 2, 0⟩ (6/5) [[srcBus, dstBus]] [srcBus, dstBus]).1 = true :=
    H.2.1.mpr ⟨fun _ => by norm_num, fun q => absurd q (by norm_num)⟩
  have h60 := H.2.2.1 hok
  refine ⟨_, Prod.ext hok rfl, ?_, ?_⟩
  · rw [h60]; norm_num
  · have := H.1
    rw [h60] at this
    linarith

/-- C136: half of the room, area 1 only. -/
example : (scaleGens (1/2) 1 0 [srcBus, dstBus]).map (fun b => b.gens.map (·.pg)) = [[15, 45], []] := by
  rw [C136_generators_partial (1/2) 1 0 [srcBus, dstBus]
    (by intro b hb; simp only [List.mem_cons, List.not_mem_nil, or_false] at hb
        rcases hb with rfl | rfl <;> simp [srcBus, dstBus])]
  simp [inScope, srcBus, dstBus, moved]
  norm_num

/-- C138: a copy of the destination bus on the source's process doubles the total. -/
example : totalLoad 2 0 [[srcBus, dstBus], [dstBus]] = 100 := by
  norm_num [totalLoad, localLoad, scope, getLoadPower, srcBus, dstBus]

/-- C145: with two violations on process 1 and one on process 2 there is no overlap. -/
example : (List.range 3).flatMap (violationIdx [0, 2, 1]) = [0, 1, 2] := by
  rw [C145_order_partial [0, 2, 1] rfl 3]
  rfl

/-- C145: with one violation each on processes 0 and 1 there is. -/
example : violationIdx [1, 1] 0 = [0] ∧ violationIdx [1, 1] 1 = [0] := by decide

/-- C146: secure exactly up to 1.07, room up to 2. -/
example : search (fun r => decide (r ≤ 2)) (fun r => decide (r ≤ 107/100)) 9 = some (107/100) := by
  norm_num [search, up]

/-- C146: not secure at 1, secure up to 0.93: that is what is reported. -/
example : search (fun _ => true) (fun r => decide (r ≤ 93/100)) 9 = some (93/100) := by
  norm_num [search, down]

/-- C147: the dynamic simulation is as secure as the power flow, and the rating is lowered from 1.07 to 1.06. -/
example : dynSearch (fun r => decide (r ≤ 2)) (fun r => decide (r ≤ 107/100)) 9 (107/100) = some (106/100) := by
  rw [C147_lowered_violated _ _ 8 (107/100) (by norm_num) (by norm_num) (by norm_num) (by norm_num)]
  norm_num

end GridPACK.PFBusData
