import Verif.Spec.WatchSeries
import Mathlib.Data.List.Nodup
import Mathlib.Data.List.Flatten
import Mathlib.Data.List.Indexes

/-! The time series of watched generators and their labels. -/
namespace GridPACK.WatchSeries
open GridPACK.StringUtils (Str)

variable {α : Type}

/-! ### Setting the flags -/

/-- The bus with the flags of the generators in `ws` set. -/
def mark (ws : List (Int × Str)) (b : Bus α) : Bus α :=
  { b with gens := b.gens.map (fun g => { g with watch := g.watch || decide ((b.orig, g.id) ∈ ws) }) }

theorem modify_first (tag : Str) (l : List (Gen α)) (h : (l.map (·.id)).Nodup) :
    l.modify (l.findIdx (fun g => g.id == tag)) (fun g => { g with watch := true })
      = l.map (fun g => { g with watch := g.watch || decide (g.id = tag) }) := by
  induction l with
  | nil => rfl
  | cons g l ih =>
    rw [List.map_cons, List.nodup_cons] at h
    rw [List.findIdx_cons]
    by_cases e : g.id = tag
    · have e' : (g.id == tag) = true := by simpa using e
      rw [e']
      simp only [cond_true, List.modify_zero_cons, List.map_cons, e, decide_true, Bool.or_true]
      congr 1
      symm
      conv_rhs => rw [← List.map_id l]
      apply List.map_congr_left
      intro x hx
      have : x.id ≠ tag := fun h' => h.1 (e ▸ h' ▸ List.mem_map_of_mem hx)
      simp [this]
    · have e' : (g.id == tag) = false := by simpa using e
      rw [e']
      simp only [cond_false, List.modify_succ_cons, List.map_cons, e, decide_false, Bool.or_false]
      rw [ih h.2]

theorem setWatch_eq (w : Int × Str) (b : Bus α) (h : (b.gens.map (·.id)).Nodup) :
    (if b.orig = w.1 then setWatch w.2 b else b) = mark [w] b := by
  unfold mark setWatch
  split_ifs with e
  · rw [modify_first w.2 b.gens h]
    congr 1
    apply List.map_congr_left
    intro g _
    congr 2
    have : (b.orig, g.id) ∈ [w] ↔ g.id = w.2 := by
      rw [List.mem_singleton]
      constructor
      · intro h; rw [← h]
      · intro h; exact Prod.ext e h
    exact (decide_eq_decide.2 this).symm
  · have : b.gens.map (fun g => { g with watch := g.watch || decide ((b.orig, g.id) ∈ [w]) }) = b.gens := by
      conv_rhs => rw [← List.map_id b.gens]
      apply List.map_congr_left
      intro g _
      have : ¬ (b.orig, g.id) ∈ [w] := by
        rw [List.mem_singleton]; intro h; exact e (by rw [← h])
      simp [this]
    rw [this]

theorem mark_mark (ws vs : List (Int × Str)) (b : Bus α) : mark vs (mark ws b) = mark (ws ++ vs) b := by
  unfold mark
  simp only [List.map_map]
  congr 1
  apply List.map_congr_left
  intro g _
  simp [Bool.or_assoc]

theorem mark_ids (ws : List (Int × Str)) (b : Bus α) : (mark ws b).gens.map (·.id) = b.gens.map (·.id) := by
  simp [mark]

/-- Places of the owned copies of bus `id`. -/
def found (bs : List (Bus α)) (id : Int) : List Nat :=
  (bs.zipIdx.filter (fun b => b.1.orig == id && b.1.active)).map (·.2)

theorem found_mark (ws : List (Int × Str)) (bs : List (Bus α)) (id : Int) : found (bs.map (mark ws)) id = found bs id := by
  unfold found
  rw [List.zipIdx_map, List.filter_map, List.map_map]
  rfl

theorem fold_watch (ws : List (Int × Str)) (n : Nat) (a : App α) (h : ∀ b ∈ a.buses, (b.gens.map (·.id)).Nodup) :
    let a' := (ws.zipIdx n).foldl watchOne a
    a'.buses = a.buses.map (mark ws) ∧ a'.watchBus = a.watchBus ++ ws.map (·.1) ∧ a'.watchGen = a.watchGen ++ ws.map (·.2) ∧
      a'.save = a.save ∧ a'.watchList = (ws.zipIdx n).foldl insertMap a.watchList ∧
      a'.genBuses = a.genBuses ++ ws.flatMap (fun w => found a.buses w.1) ∧
      a'.genIds = a.genIds ++ ws.flatMap (fun w => (found a.buses w.1).map (fun _ => w.2)) := by
  induction ws generalizing n a with
  | nil =>
    have : (fun b : Bus α => mark [] b) = id := by
      funext b
      simp [mark]
    simp only [List.zipIdx_nil, List.foldl_nil, List.map_nil, List.append_nil, List.flatMap_nil, and_true]
    show a.buses = a.buses.map (fun b => mark [] b)
    rw [this, List.map_id]
  | cons w ws ih =>
    simp only [List.zipIdx_cons, List.foldl_cons]
    have hb : (watchOne a (w, n)).buses = a.buses.map (mark [w]) := by
      apply List.map_congr_left
      intro b hb
      exact setWatch_eq w b (h b hb)
    have ih' := ih (n + 1) (watchOne a (w, n)) (by
      rw [hb]
      intro b hb'
      obtain ⟨b0, hb0, rfl⟩ := List.mem_map.1 hb'
      rw [mark_ids]
      exact h b0 hb0)
    simp only at ih'
    rw [hb] at ih'
    obtain ⟨h1, h2, h3, h4, h5, h6, h7⟩ := ih'
    refine ⟨?_, ?_, ?_, h4, h5, ?_, ?_⟩
    · rw [h1, List.map_map]
      apply List.map_congr_left
      intro b _
      exact mark_mark [w] ws b
    · rw [h2]; simp [watchOne]
    · rw [h3]; simp [watchOne]
    · rw [h6]
      simp only [found_mark, List.flatMap_cons, ← List.append_assoc]
      rfl
    · rw [h7]
      simp only [found_mark, List.flatMap_cons, ← List.append_assoc]
      rfl

/-- The map of a list without repetitions. -/
theorem fold_insert (ws : List (Int × Str)) (n : Nat) (m : List ((Int × Str) × Nat)) (hn : ws.Nodup)
    (hd : ∀ w ∈ ws, m.lookup w = none) : (ws.zipIdx n).foldl insertMap m = m ++ ws.zipIdx n := by
  induction ws generalizing n m with
  | nil => simp
  | cons w ws ih =>
    rw [List.nodup_cons] at hn
    rw [List.zipIdx_cons, List.foldl_cons]
    have e : insertMap m (w, n) = m ++ [(w, n)] := by
      unfold insertMap
      rw [hd w (by simp)]
      rfl
    rw [e, ih (n + 1) _ hn.2, List.append_assoc]
    · rfl
    · intro v hv
      rw [List.lookup_append, hd v (by simp [hv])]
      have : v ≠ w := fun h => hn.1 (h ▸ hv)
      have e1 : (v == w) = false := by simpa using this
      simp [List.lookup, e1]

theorem lookup_zipIdx (ws : List (Int × Str)) (n : Nat) (w : Int × Str) (hw : w ∈ ws) :
    (ws.zipIdx n).lookup w = some (n + ws.idxOf w) := by
  induction ws generalizing n with
  | nil => simp at hw
  | cons v ws ih =>
    rw [List.zipIdx_cons, List.lookup_cons, List.idxOf_cons]
    by_cases e : w = v
    · subst e; simp
    · have e1 : (w == v) = false := by simpa using e
      have e2 : (v == w) = false := by simpa using fun h => e h.symm
      rw [e1, e2]
      simp only [cond_false]
      rw [ih (n + 1) (by rcases List.mem_cons.1 hw with h | h; exact absurd h e; exact h)]
      congr 1
      omega

/-! ### Lists of blocks -/

theorem flatMap_four {β γ : Type} (l : List β) (f : β → List γ) (h : ∀ x ∈ l, (f x).length = 4) :
    (l.flatMap f).length = 4 * l.length ∧ ∀ k, (l.flatMap f)[k]? = (l[k / 4]?).bind (fun x => (f x)[k % 4]?) := by
  induction l with
  | nil => simp
  | cons x l ih =>
    have hx := h x (by simp)
    obtain ⟨i1, i2⟩ := ih (fun y hy => h y (by simp [hy]))
    rw [List.flatMap_cons]
    refine ⟨by rw [List.length_append, i1, hx, List.length_cons]; omega, ?_⟩
    intro k
    by_cases hk : k < 4
    · rw [List.getElem?_append_left (by omega), Nat.div_eq_of_lt hk, Nat.mod_eq_of_lt hk]
      rfl
    · rw [List.getElem?_append_right (by omega), hx, i2 (k - 4)]
      have e1 : k / 4 = (k - 4) / 4 + 1 := by omega
      have e2 : k % 4 = (k - 4) % 4 := by omega
      rw [e1, e2, List.getElem?_cons_succ]

theorem found_flatMap {β : Type} (bs : List (Bus α)) (id : Int) (n : Nat) (f : Bus α → List β) (all : List (Bus α))
    (hall : ∀ i < bs.length, all[n + i]? = bs[i]?) :
    (((bs.zipIdx n).filter (fun b => b.1.orig == id && b.1.active)).map (·.2)).flatMap (fun i => match all[i]? with
        | some b => if b.active then f b else []
        | none => [])
      = (bs.filter (fun b => b.orig == id && b.active)).flatMap f := by
  induction bs generalizing n with
  | nil => rfl
  | cons b bs ih =>
    have h0 := hall 0 (by simp)
    rw [Nat.add_zero, List.getElem?_cons_zero] at h0
    have ih' := ih (n + 1) (fun i hi => by
      have := hall (i + 1) (by simpa using hi)
      rw [List.getElem?_cons_succ] at this
      rw [← this]; congr 1; omega)
    rw [List.zipIdx_cons]
    by_cases e : (b.orig == id && b.active) = true
    · rw [List.filter_cons_of_pos (by exact e), List.filter_cons_of_pos (by exact e), List.map_cons, List.flatMap_cons,
        List.flatMap_cons, ih', h0]
      have : b.active = true := by simp at e; exact e.2
      simp [this]
    · rw [List.filter_cons_of_neg (by exact e), List.filter_cons_of_neg (by exact e), ih']

/-- What is reported for the entry `w` of the list. -/
def valsOf (bs : List (Bus α)) (t : Nat) (w : Int × Str) : List α :=
  (bs.filter (fun b => b.orig == w.1 && b.active)).flatMap (fun b => (b.gens.filter (fun g => g.id == w.2)).flatMap (fun g => g.out t))

theorem zip_blocks {β : Type} (ws : List (Int × Str)) (F : Int → List Nat) (f : Nat × Str → List β) :
    ((ws.flatMap (fun w => F w.1)).zip (ws.flatMap (fun w => (F w.1).map (fun _ => w.2)))).flatMap f
      = ws.flatMap (fun w => (F w.1).flatMap (fun i => f (i, w.2))) := by
  induction ws with
  | nil => rfl
  | cons w ws ih =>
    simp only [List.flatMap_cons]
    rw [List.zip_append (by simp), List.flatMap_append, ih]
    congr 1
    generalize F w.1 = l
    induction l with
    | nil => rfl
    | cons i l ih => rw [List.map_cons, List.zip_cons_cons, List.flatMap_cons, List.flatMap_cons, ih]

theorem stepValues_eq (a : App α) (ws : List (Int × Str)) (t : Nat) (ha : Fresh a) :
    stepValues (setGeneratorWatch a ws) t = ws.flatMap (valsOf a.buses t) := by
  have hf := fold_watch ws 0 { a with watchBus := [], watchGen := [], genBuses := [], genIds := [] } ha.gens
  simp only at hf
  obtain ⟨h1, -, -, -, -, h6, h7⟩ := hf
  have hb : ∀ (x : App α), (if x.save then { x with series := List.replicate (4 * x.genBuses.length) [] } else x).buses = x.buses ∧
      (if x.save then { x with series := List.replicate (4 * x.genBuses.length) [] } else x).genBuses = x.genBuses ∧
      (if x.save then { x with series := List.replicate (4 * x.genBuses.length) [] } else x).genIds = x.genIds := by
    intro x; split_ifs <;> exact ⟨rfl, rfl, rfl⟩
  unfold stepValues setGeneratorWatch
  simp only
  rw [(hb _).1, (hb _).2.1, (hb _).2.2, h1, h6, h7, List.nil_append, List.nil_append]
  rw [zip_blocks ws (found a.buses)]
  rw [List.flatMap_def, List.flatMap_def]
  congr 1
  apply List.map_congr_left
  intro w hw
  have hfnd := found_flatMap (a.buses.map (mark ws)) w.1 0 (fun b => watchedValues b w.2 t) (a.buses.map (mark ws))
    (by intro i _; rw [Nat.zero_add])
  have e := found_mark ws a.buses w.1
  unfold found at e ⊢
  rw [← e]
  refine hfnd.trans ?_
  rw [List.filter_map]
  unfold valsOf
  rw [List.flatMap_map]
  rw [List.flatMap_def, List.flatMap_def]
  congr 1
  apply List.map_congr_left
  intro b hb'
  have hb'' := (List.mem_filter.1 hb').2
  simp only [Function.comp, Bool.and_eq_true, beq_iff_eq] at hb''
  unfold watchedValues mark
  simp only
  rw [List.filter_map, List.flatMap_map]
  congr 1
  apply List.filter_congr
  intro g _
  simp only [Function.comp]
  by_cases eg : g.id = w.2
  · have : (b.orig, g.id) ∈ ws := by
      have : b.orig = w.1 := hb''.1
      rw [this, eg]; exact hw
    rw [decide_eq_true this, eg]
    simp
  · simp [eg]

theorem flatMap_filter_nil {β γ : Type} (l : List β) (p : β → Bool) (f : β → List γ) (h : ∀ x ∈ l, p x = false → f x = []) :
    l.flatMap f = (l.filter p).flatMap f := by
  induction l with
  | nil => rfl
  | cons x l ih =>
    have ih' := ih (fun y hy => h y (by simp [hy]))
    cases hp : p x with
    | true => rw [List.filter_cons_of_pos hp, List.flatMap_cons, List.flatMap_cons, ih']
    | false => rw [List.filter_cons_of_neg (by simp [hp]), List.flatMap_cons, h x (by simp) hp, List.nil_append, ih']

theorem flatMap_one {β γ : Type} (l : List β) (f : β → List γ) (h : ∀ x ∈ l, (f x).length = 1) : (l.flatMap f).length = l.length := by
  induction l with
  | nil => rfl
  | cons x l ih =>
    rw [List.flatMap_cons, List.length_append, h x (by simp), ih (fun y hy => h y (by simp [hy])), List.length_cons]
    omega

theorem filter_unique {β γ : Type} [DecidableEq γ] (l : List β) (key : β → γ) (h : (l.map key).Nodup) (x : β) (hx : x ∈ l) :
    l.filter (fun y => decide (key y = key x)) = [x] := by
  induction l with
  | nil => simp at hx
  | cons y l ih =>
    rw [List.map_cons, List.nodup_cons] at h
    rcases List.mem_cons.1 hx with rfl | hx
    · rw [List.filter_cons_of_pos (by simp)]
      congr 1
      rw [List.filter_eq_nil_iff]
      intro z hz e
      have e : key z = key x := by simpa using e
      exact h.1 (e ▸ List.mem_map_of_mem hz)
    · have : key y ≠ key x := fun e => h.1 (e ▸ List.mem_map_of_mem hx)
      rw [List.filter_cons_of_neg (by simpa using this), ih h.2 hx]

theorem filter_bus (a : App α) (ha : Fresh a) (b : Bus α) (hb : b ∈ a.buses) (hact : b.active = true) :
    a.buses.filter (fun c => c.orig == b.orig && c.active) = [b] := by
  have h := filter_unique a.buses (·.orig) ha.buses b hb
  have : a.buses.filter (fun c => c.orig == b.orig && c.active)
      = (a.buses.filter (fun c => decide (c.orig = b.orig))).filter (·.active) := by
    rw [List.filter_filter]
    apply List.filter_congr
    intro c _
    rw [Bool.and_comm]
    rfl
  rw [this, h]
  simp [hact]

theorem mem_allGens (a : App α) (w : Int × Str) (hw : w ∈ allGens a) :
    ∃ b ∈ a.buses, b.active = true ∧ ∃ g ∈ b.gens, w = (b.orig, g.id) := by
  unfold allGens at hw
  rw [List.mem_flatMap] at hw
  obtain ⟨b, hb, hw⟩ := hw
  obtain ⟨g, hg, rfl⟩ := List.mem_map.1 hw
  have := List.mem_filter.1 hb
  exact ⟨b, this.1, this.2, g, hg, rfl⟩

theorem valsOf_eq (a : App α) (ha : Fresh a) (b : Bus α) (hb : b ∈ a.buses) (hact : b.active = true) (g : Gen α)
    (hg : g ∈ b.gens) (t : Nat) : valsOf a.buses t (b.orig, g.id) = g.out t := by
  unfold valsOf
  rw [filter_bus a ha b hb hact]
  have := filter_unique b.gens (·.id) (ha.gens b hb) g hg
  have e : b.gens.filter (fun x => x.id == g.id) = [g] := by
    rw [← this]
    apply List.filter_congr
    intro x _
    by_cases h : x.id = g.id <;> simp [h]
  simp [e]

theorem setGeneratorWatch_fields (a : App α) (ws : List (Int × Str)) (ha : Fresh a) (hn : ws.Nodup) :
    (setGeneratorWatch a ws).buses = a.buses.map (mark ws) ∧ (setGeneratorWatch a ws).watchBus = ws.map (·.1) ∧
      (setGeneratorWatch a ws).watchGen = ws.map (·.2) ∧ (setGeneratorWatch a ws).save = true ∧
      (setGeneratorWatch a ws).watchList = ws.zipIdx ∧
      (setGeneratorWatch a ws).series = List.replicate (4 * (ws.flatMap (fun w => found a.buses w.1)).length) [] := by
  have hf := fold_watch ws 0 { a with watchBus := [], watchGen := [], genBuses := [], genIds := [] } ha.gens
  simp only at hf
  obtain ⟨h1, h2, h3, h4, h5, h6, h7⟩ := hf
  unfold setGeneratorWatch
  simp only
  have h4 := h4.trans ha.save
  rw [if_pos h4]
  refine ⟨h1, by rw [h2]; rfl, by rw [h3]; rfl, h4, ?_, ?_⟩
  · simp only
    rw [h5, ha.none, fold_insert ws 0 [] hn (by simp)]
    rfl
  · simp only
    rw [h6]; rfl

theorem run_fields (a : App α) (ts : List Nat) :
    (run a ts).buses = a.buses ∧ (run a ts).watchBus = a.watchBus ∧ (run a ts).watchGen = a.watchGen ∧
      (run a ts).save = a.save ∧ (run a ts).watchList = a.watchList := by
  unfold run
  induction ts generalizing a with
  | nil => exact ⟨rfl, rfl, rfl, rfl, rfl⟩
  | cons t ts ih =>
    rw [List.foldl_cons]
    obtain ⟨h1, h2, h3, h4, h5⟩ := ih (saveTimeStep a t)
    have : (saveTimeStep a t).buses = a.buses ∧ (saveTimeStep a t).watchBus = a.watchBus ∧
        (saveTimeStep a t).watchGen = a.watchGen ∧ (saveTimeStep a t).save = a.save ∧
        (saveTimeStep a t).watchList = a.watchList := by
      unfold saveTimeStep; split_ifs <;> exact ⟨rfl, rfl, rfl, rfl, rfl⟩
    obtain ⟨g1, g2, g3, g4, g5⟩ := this
    exact ⟨h1.trans g1, h2.trans g2, h3.trans g3, h4.trans g4, h5.trans g5⟩

theorem run_series (a : App α) (ts : List Nat) (hs : a.save = true) (hl : ∀ t, (stepValues a t).length = a.series.length) :
    (run a ts).series.length = a.series.length ∧
      ∀ (k : Nat) (s0 : List α), a.series[k]? = some s0 →
        ∃ s : List α, (run a ts).series[k]? = some s ∧ s.map some = s0.map some ++ ts.map (fun t => (stepValues a t)[k]?) := by
  unfold run
  induction ts generalizing a with
  | nil => exact ⟨rfl, fun k s0 h => ⟨s0, h, by simp⟩⟩
  | cons t ts ih =>
    rw [List.foldl_cons]
    have e : saveTimeStep a t = { a with series := a.series.mapIdx (fun k s => match (stepValues a t)[k]? with
        | some v => s ++ [v]
        | none => s) } := by
      unfold saveTimeStep; rw [if_pos hs]; rfl
    have hsv : ∀ u, stepValues (saveTimeStep a t) u = stepValues a u := by intro u; rw [e]; rfl
    have hsl : (saveTimeStep a t).series.length = a.series.length := by rw [e]; simp
    obtain ⟨h1, h2⟩ := ih (saveTimeStep a t) (by rw [e]; exact hs) (fun u => by rw [hsv, hsl]; exact hl u)
    refine ⟨h1.trans hsl, ?_⟩
    intro k s0 hk
    have hk1 : k < a.series.length := by
      by_contra h
      rw [List.getElem?_eq_none (by omega)] at hk; cases hk
    have hk2 : k < (stepValues a t).length := by rw [hl]; exact hk1
    obtain ⟨s, g1, g2⟩ := h2 k (s0 ++ [(stepValues a t)[k]]) (by
      rw [e]
      simp only
      rw [List.getElem?_mapIdx, hk, Option.map_some, List.getElem?_eq_getElem hk2])
    refine ⟨s, g1, ?_⟩
    rw [g2]
    simp only [hsv]
    rw [List.map_append, List.append_assoc, List.map_cons (l := ts), List.getElem?_eq_getElem hk2]
    rfl

theorem map_eq (a : App α) (ws : List (Int × Str)) (ts : List Nat) (ha : Fresh a) (hn : ws.Nodup) (hs : Sound a ws) :
    timeSeriesMap (run (setGeneratorWatch a ws) ts) = ((allGens a).filter (fun w => decide (w ∈ ws))).flatMap
      (fun w => [4 * ws.idxOf w, 4 * ws.idxOf w + 1, 4 * ws.idxOf w + 2, 4 * ws.idxOf w + 3]) := by
  obtain ⟨r1, -, -, r4, r5⟩ := run_fields (setGeneratorWatch a ws) ts
  obtain ⟨s1, -, -, s4, s5, -⟩ := setGeneratorWatch_fields a ws ha hn
  unfold timeSeriesMap
  rw [r4, s4, if_pos rfl, r1, s1, r5, s5]
  unfold allGens
  rw [List.filter_flatMap, List.flatMap_assoc, List.flatMap_map]
  rw [flatMap_filter_nil a.buses (·.active) _ (by
    intro b _ hb
    have : (mark ws b).active = false := hb
    simp [this])]
  rw [List.flatMap_def, List.flatMap_def]
  congr 1
  apply List.map_congr_left
  intro b hb
  obtain ⟨hb, hact⟩ := List.mem_filter.1 hb
  have : (mark ws b).active = true := hact
  rw [if_pos this]
  have hw : watchedGenerators (mark ws b) = (b.gens.filter (fun g => decide ((b.orig, g.id) ∈ ws))).map (·.id) := by
    unfold watchedGenerators mark
    simp only
    rw [List.filter_map, List.map_map]
    have : b.gens.filter ((fun g : Gen α => g.status && g.watch) ∘ fun g =>
        { g with watch := g.watch || decide ((b.orig, g.id) ∈ ws) }) = b.gens.filter (fun g => decide ((b.orig, g.id) ∈ ws)) := by
      apply List.filter_congr
      intro g hg
      simp only [Function.comp]
      rw [ha.off b hb g hg, Bool.false_or]
      by_cases hm : (b.orig, g.id) ∈ ws
      · rw [(hs b hb hact g hg hm).1]; simp
      · simp [hm]
    rw [this]
    rfl
  rw [hw, List.flatMap_map, List.filter_map, List.flatMap_map, List.flatMap_def, List.flatMap_def]
  congr 1
  apply List.map_congr_left
  intro g hg
  have hm : (b.orig, g.id) ∈ ws := by simpa using (List.mem_filter.1 hg).2
  have e := lookup_zipIdx ws 0 (b.orig, g.id) hm
  rw [Nat.zero_add] at e
  have eo : (mark ws b).orig = b.orig := rfl
  rw [eo, e]

/-- If the generators are listed in the order of the network, exist, are in service and report four values, each once, then
every saved series is labelled with the right generator and quantity. -/
theorem C286_labels_partial (a : App α) (ws : List (Int × Str)) (ts : List Nat) (ha : Fresh a) (hn : ws.Nodup)
    (ho : InOrder a ws) (hs : Sound a ws) : Labelled (run (setGeneratorWatch a ws) ts) ts := by
  have hmap := map_eq a ws ts ha hn hs
  obtain ⟨r1, r2, r3, r4, r5⟩ := run_fields (setGeneratorWatch a ws) ts
  obtain ⟨s1, s2, s3, s4, s5, s6⟩ := setGeneratorWatch_fields a ws ha hn
  generalize hL : (allGens a).filter (fun w => decide (w ∈ ws)) = L at hmap
  have hLm : ∀ w ∈ L, w ∈ ws ∧ ∃ b ∈ a.buses, b.active = true ∧ ∃ g ∈ b.gens, w = (b.orig, g.id) := by
    intro w hw
    rw [← hL] at hw
    obtain ⟨h1, h2⟩ := List.mem_filter.1 hw
    exact ⟨by simpa using h2, mem_allGens a w h1⟩
  have hval : ∀ t, stepValues (setGeneratorWatch a ws) t = L.flatMap (valsOf a.buses t) := by
    intro t
    rw [stepValues_eq a ws t ha, ← hL, ← ho]
    apply flatMap_filter_nil
    intro w _ hw
    unfold valsOf
    rw [List.filter_eq_nil_iff.2]
    · rfl
    · intro b hb hc
      rw [List.any_eq_false] at hw
      exact hw b hb hc
  have hv4 : ∀ t, ∀ w ∈ L, (valsOf a.buses t w).length = 4 := by
    intro t w hw
    obtain ⟨h1, b, hb, hact, g, hg, rfl⟩ := hLm w hw
    rw [valsOf_eq a ha b hb hact g hg]
    exact (hs b hb hact g hg h1).2 t
  have hgb : (ws.flatMap (fun w => found a.buses w.1)).length = L.length := by
    have : ws.flatMap (fun w => found a.buses w.1) = L.flatMap (fun w => found a.buses w.1) := by
      rw [← hL, ← ho]
      apply flatMap_filter_nil
      intro w _ hw
      unfold found
      rw [List.filter_eq_nil_iff.2]
      · rfl
      · intro b hb hc
        rw [List.any_eq_false] at hw
        exact hw b.1 (List.fst_mem_of_mem_zipIdx hb) hc
    rw [this]
    apply flatMap_one
    intro w hw
    obtain ⟨h1, b, hb, hact, g, hg, rfl⟩ := hLm w hw
    have e := filter_bus a ha b hb hact
    unfold found
    rw [List.length_map]
    have e2 : a.buses.filter (fun c => c.orig == b.orig && c.active)
        = (a.buses.zipIdx.filter (fun c => c.1.orig == b.orig && c.1.active)).map (·.1) := by
      conv_lhs => rw [← List.zipIdx_map_fst 0 a.buses]
      rw [List.filter_map]
      rfl
    have e3 := congrArg List.length e2
    rw [e, List.length_map] at e3
    exact e3.symm
  rw [hgb] at s6
  have hfour := fun t => flatMap_four L (valsOf a.buses t) (hv4 t)
  obtain ⟨q1, q2⟩ := run_series (setGeneratorWatch a ws) ts s4 (fun t => by
    rw [hval, (hfour t).1, s6, List.length_replicate])
  have hm4 := flatMap_four L (fun w => [4 * ws.idxOf w, 4 * ws.idxOf w + 1, 4 * ws.idxOf w + 2, 4 * ws.idxOf w + 3])
    (fun _ _ => rfl)
  have hgts : generatorTimeSeries (run (setGeneratorWatch a ws) ts) = (run (setGeneratorWatch a ws) ts).series := by
    unfold generatorTimeSeries; rw [r4, s4, if_pos rfl]
  refine ⟨by rw [hmap, hm4.1, hgts, q1, s6, List.length_replicate], ?_⟩
  intro k m hk
  rw [hmap, hm4.2 k] at hk
  cases hw : L[k / 4]? with
  | none => rw [hw] at hk; simp at hk
  | some w =>
    rw [hw, Option.bind_some] at hk
    have hwL : w ∈ L := List.mem_of_getElem? hw
    obtain ⟨h1, b, hb, hact, g, hg, he⟩ := hLm w hwL
    have hmod : k % 4 < 4 := Nat.mod_lt _ (by omega)
    have hm : m = 4 * ws.idxOf w + k % 4 := by
      have : k % 4 = 0 ∨ k % 4 = 1 ∨ k % 4 = 2 ∨ k % 4 = 3 := by omega
      rcases this with h | h | h | h <;> rw [h] at hk ⊢ <;> simp at hk <;> omega
    have hd : m / 4 = ws.idxOf w := by omega
    have hr : m % 4 = k % 4 := by omega
    have hidx : ws[ws.idxOf w]? = some w := by
      rw [List.getElem?_eq_getElem (List.idxOf_lt_length_of_mem h1), List.getElem_idxOf]
    have hkL : k < 4 * L.length := by
      have : k / 4 < L.length := by
        by_contra h
        rw [List.getElem?_eq_none (by omega)] at hw; cases hw
      omega
    refine ⟨mark ws b, ?_, { g with watch := g.watch || decide ((b.orig, g.id) ∈ ws) }, ?_, hact, ?_, ?_, ?_⟩
    · rw [r1, s1]; exact List.mem_map_of_mem hb
    · unfold mark
      exact List.mem_map.2 ⟨g, hg, rfl⟩
    · rw [r2, s2, hd, List.getElem?_map, hidx, he]; rfl
    · rw [r3, s3, hd, List.getElem?_map, hidx, he]; rfl
    · obtain ⟨s, g1, g2⟩ := q2 k [] (by
        rw [s6, List.getElem?_replicate, if_pos hkL])
      refine ⟨s, by rw [hgts]; exact g1, ?_⟩
      rw [g2, List.map_nil, List.nil_append]
      apply List.map_congr_left
      intro t _
      rw [hval, (hfour t).2 k, hw, Option.bind_some, he, valsOf_eq a ha b hb hact g hg, hr]

/-- A process that owns two buses with one generator each. -/
def twoBuses (i j : Int) (g h : Gen α) : App α := ⟨[⟨i, true, [g]⟩, ⟨j, true, [h]⟩], [], [], [], [], [], true, []⟩

theorem twoBuses_fresh (i j : Int) (g h : Gen α) (hij : i ≠ j) (hg : g.watch = false) (hh : h.watch = false) :
    Fresh (twoBuses i j g h) := by
  refine ⟨rfl, rfl, ?_, by simp [twoBuses, hij], ?_⟩
  · intro b hb x hx
    simp only [twoBuses, List.mem_cons, List.not_mem_nil, or_false] at hb
    rcases hb with rfl | rfl
    · rw [List.mem_singleton.1 hx]; exact hg
    · rw [List.mem_singleton.1 hx]; exact hh
  · intro b hb
    simp only [twoBuses, List.mem_cons, List.not_mem_nil, or_false] at hb
    rcases hb with rfl | rfl <;> simp

/-- The series are stored in the order of the list of watched generators and the map is written in the order of the network: two
generators listed in the other order get each other's label. -/
theorem C286_order_violated (i j : Int) (g h : Gen α) (hij : i ≠ j) (hg : g.watch = false) (hh : h.watch = false)
    (hgs : g.status = true) (hhs : h.status = true) (hg4 : ∀ t, (g.out t).length = 4) (hh4 : ∀ t, (h.out t).length = 4) (t : Nat)
    (hd : (g.out t)[0]? ≠ (h.out t)[0]?) :
    ¬ Labelled (run (setGeneratorWatch (twoBuses i j g h) [(j, h.id), (i, g.id)]) [t]) [t] := by
  intro hl
  have hf := twoBuses_fresh i j g h hij hg hh
  have hn : [(j, h.id), (i, g.id)].Nodup := by simp [Ne.symm hij]
  have hs : Sound (twoBuses i j g h) [(j, h.id), (i, g.id)] := by
    intro b hb _ x hx _
    simp only [twoBuses, List.mem_cons, List.not_mem_nil, or_false] at hb
    rcases hb with rfl | rfl
    · rw [List.mem_singleton.1 hx]; exact ⟨hgs, hg4⟩
    · rw [List.mem_singleton.1 hx]; exact ⟨hhs, hh4⟩
  have hm := map_eq _ _ [t] hf hn hs
  obtain ⟨r1, r2, r3, r4, r5⟩ := run_fields (setGeneratorWatch (twoBuses i j g h) [(j, h.id), (i, g.id)]) [t]
  obtain ⟨s1, s2, s3, s4, s5, s6⟩ := setGeneratorWatch_fields _ _ hf hn
  have hv : ∀ u, stepValues (setGeneratorWatch (twoBuses i j g h) [(j, h.id), (i, g.id)]) u = h.out u ++ g.out u := by
    intro u
    rw [stepValues_eq _ _ u hf, List.flatMap_cons, List.flatMap_cons, List.flatMap_nil, List.append_nil,
      valsOf_eq _ hf ⟨j, true, [h]⟩ (by simp [twoBuses]) rfl h (by simp),
      valsOf_eq _ hf ⟨i, true, [g]⟩ (by simp [twoBuses]) rfl g (by simp)]
  have hser : (setGeneratorWatch (twoBuses i j g h) [(j, h.id), (i, g.id)]).series = List.replicate 8 [] := by
    rw [s6]
    congr 1
    simp [found, twoBuses, List.zipIdx, hij, Ne.symm hij]
  obtain ⟨q1, q2⟩ := run_series _ [t] s4 (fun u => by rw [hv, hser, List.length_append, hg4, hh4]; rfl)
  obtain ⟨-, hl⟩ := hl
  have hk : (timeSeriesMap (run (setGeneratorWatch (twoBuses i j g h) [(j, h.id), (i, g.id)]) [t]))[0]? = some 4 := by
    rw [hm]
    have : (allGens (twoBuses i j g h)).filter (fun w => decide (w ∈ [(j, h.id), (i, g.id)])) = [(i, g.id), (j, h.id)] := by
      simp [allGens, twoBuses]
    rw [this]
    have e1 : ((j, h.id) == (i, g.id)) = false := by simp [Ne.symm hij]
    simp [List.idxOf_cons, e1]
  obtain ⟨b, hb, x, hx, -, l1, l2, s, l3, l4⟩ := hl 0 4 hk
  obtain ⟨s', p1, p2⟩ := q2 0 [] (by rw [hser]; rfl)
  have e : s' = s := by
    unfold generatorTimeSeries at l3
    rw [r4, s4, if_pos rfl, p1] at l3
    exact Option.some.inj l3
  rw [e, l4, List.map_cons, List.map_nil, List.map_nil, List.nil_append, List.map_cons, List.map_nil, hv] at p2
  have p2 := List.head_eq_of_cons_eq p2
  rw [r2, s2] at l1
  have l1 : i = b.orig := by simpa using l1
  rw [r1, s1] at hb
  simp only [twoBuses, List.map_cons, List.map_nil, List.mem_cons, List.not_mem_nil, or_false] at hb
  rcases hb with rfl | rfl
  · simp only [mark, List.map_cons, List.map_nil, List.mem_singleton] at hx
    subst hx
    apply hd
    have : (h.out t ++ g.out t)[0]? = (h.out t)[0]? := List.getElem?_append_left (by rw [hh4]; omega)
    rw [← this]
    exact p2
  · exact hij l1

/-- A watched generator that is out of service has series but no entries of the map. -/
theorem C286_out_of_service_violated (i : Int) (g : Gen α) (hg : g.watch = false) (hs : g.status = false) (ts : List Nat) :
    timeSeriesMap (run (setGeneratorWatch ⟨[⟨i, true, [g]⟩], [], [], [], [], [], true, []⟩ [(i, g.id)]) ts) = [] ∧
    (setGeneratorWatch (⟨[⟨i, true, [g]⟩], [], [], [], [], [], true, []⟩ : App α) [(i, g.id)]).series.length = 4 ∧
    ¬ Labelled (setGeneratorWatch ⟨[⟨i, true, [g]⟩], [], [], [], [], [], true, []⟩ [(i, g.id)]) [] := by
  obtain ⟨r1, r2, r3, r4, r5⟩ := run_fields (setGeneratorWatch ⟨[⟨i, true, [g]⟩], [], [], [], [], [], true, []⟩ [(i, g.id)]) ts
  have hf : Fresh (⟨[⟨i, true, [g]⟩], [], [], [], [], [], true, []⟩ : App α) := ⟨rfl, rfl, by
    intro b hb x hx
    rw [List.mem_singleton.1 hb] at hx
    rw [List.mem_singleton.1 hx]; exact hg, by simp, by
    intro b hb
    rw [List.mem_singleton.1 hb]; simp⟩
  obtain ⟨s1, s2, s3, s4, s5, s6⟩ := setGeneratorWatch_fields _ [(i, g.id)] hf (by simp)
  have key : ∀ us, timeSeriesMap (run (setGeneratorWatch ⟨[⟨i, true, [g]⟩], [], [], [], [], [], true, []⟩ [(i, g.id)]) us) = [] := by
    intro us
    obtain ⟨r1, -, -, r4, -⟩ := run_fields (setGeneratorWatch ⟨[⟨i, true, [g]⟩], [], [], [], [], [], true, []⟩ [(i, g.id)]) us
    unfold timeSeriesMap
    rw [r4, s4, if_pos rfl, r1, s1]
    simp [mark, watchedGenerators, hs]
  have hlen : (setGeneratorWatch (⟨[⟨i, true, [g]⟩], [], [], [], [], [], true, []⟩ : App α) [(i, g.id)]).series.length = 4 := by
    rw [s6]
    simp [found, List.zipIdx]
  refine ⟨key ts, hlen, ?_⟩
  intro hl
  have h0 := hl.1
  have hk := key []
  unfold run at hk
  rw [List.foldl_nil] at hk
  rw [hk] at h0
  unfold generatorTimeSeries at h0
  rw [s4, if_pos rfl, hlen] at h0
  simp at h0

/-- Setting a shorter list leaves the generators of the former list watched: the map describes eight series and there are
four. -/
theorem C287_again_violated (i j : Int) (g h : Gen α) (hij : i ≠ j) (hgs : g.status = true) (hhs : h.status = true) :
    timeSeriesMap (setGeneratorWatch (setGeneratorWatch (twoBuses i j g h) [(i, g.id), (j, h.id)]) [(j, h.id)])
      = [0, 1, 2, 3, 4, 5, 6, 7] ∧
    (generatorTimeSeries (setGeneratorWatch (setGeneratorWatch (twoBuses i j g h) [(i, g.id), (j, h.id)]) [(j, h.id)])).length
      = 4 ∧
    ¬ Labelled (setGeneratorWatch (setGeneratorWatch (twoBuses i j g h) [(i, g.id), (j, h.id)]) [(j, h.id)]) [] := by
  have hji := Ne.symm hij
  have key : setGeneratorWatch (setGeneratorWatch (twoBuses i j g h) [(i, g.id), (j, h.id)]) [(j, h.id)]
      = ⟨[⟨i, true, [{ g with watch := true }]⟩, ⟨j, true, [{ h with watch := true }]⟩], [((i, g.id), 0), ((j, h.id), 1)],
        [j], [h.id], [1], [h.id], true, List.replicate 4 []⟩ := by
    have e1 : ((j, h.id) == (i, g.id)) = false := by simp [hji]
    simp [setGeneratorWatch, twoBuses, watchOne, insertMap, setWatch, List.zipIdx, hij, hji, List.lookup, List.findIdx_cons,
      List.modify, e1]
  have h1 : timeSeriesMap (setGeneratorWatch (setGeneratorWatch (twoBuses i j g h) [(i, g.id), (j, h.id)]) [(j, h.id)])
      = [0, 1, 2, 3, 4, 5, 6, 7] := by
    rw [key]
    have e1 : ((j, h.id) == (i, g.id)) = false := by simp [hji]
    simp [timeSeriesMap, watchedGenerators, hgs, hhs, List.lookup, e1]
  have h2 : (generatorTimeSeries (setGeneratorWatch (setGeneratorWatch (twoBuses i j g h) [(i, g.id), (j, h.id)])
      [(j, h.id)])).length = 4 := by
    rw [key]; rfl
  refine ⟨h1, h2, ?_⟩
  intro hl
  have := hl.1
  rw [h1, h2] at this
  simp at this

/-- Machines reporting `v, v+1, v+2, v+3` at each step. -/
def exGen (c : Char) (v : Nat) : Gen Nat := ⟨[c], true, false, fun t => [v + t, v + 1, v + 2, v + 3]⟩

/-- Two buses of this process, one with two generators, and a copy of a third. -/
def exApp : App Nat := ⟨[⟨7, true, [exGen '1' 10, exGen '2' 20]⟩, ⟨9, false, [exGen '1' 30]⟩, ⟨4, true, [exGen '1' 40]⟩],
  [], [], [], [], [], true, []⟩

example : Fresh exApp ∧ InOrder exApp [(9, ['1']), (7, ['2']), (4, ['1'])] ∧ Sound exApp [(9, ['1']), (7, ['2']), (4, ['1'])] := by
  refine ⟨⟨rfl, rfl, by decide, by decide, by decide⟩, by unfold InOrder; decide, ?_⟩
  intro b hb _ g hg _
  simp only [exApp, List.mem_cons, List.not_mem_nil, or_false] at hb
  rcases hb with rfl | rfl | rfl <;> simp only [List.mem_cons, List.not_mem_nil, or_false] at hg
  · rcases hg with rfl | rfl <;> exact ⟨rfl, fun _ => rfl⟩
  · subst hg; exact ⟨rfl, fun _ => rfl⟩
  · subst hg; exact ⟨rfl, fun _ => rfl⟩

example : timeSeriesMap (run (setGeneratorWatch exApp [(9, ['1']), (7, ['2']), (4, ['1'])]) [0, 5]) = [4, 5, 6, 7, 8, 9, 10, 11] ∧
    generatorTimeSeries (run (setGeneratorWatch exApp [(9, ['1']), (7, ['2']), (4, ['1'])]) [0, 5])
      = [[20, 25], [21, 21], [22, 22], [23, 23], [40, 45], [41, 41], [42, 42], [43, 43]] := by decide

example : ((exGen '1' 10).out 0)[0]? ≠ ((exGen '1' 20).out 0)[0]? := by decide

end GridPACK.WatchSeries
