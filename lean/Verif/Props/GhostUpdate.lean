import Verif.Model.GhostUpdate
import Verif.Props.GlobalIndices

/-! Properties C16 (ghost update), C19 (matrix-vector numbering), C20 (collective tests) and C58
(matching collective calls in the exchange set-up). -/
namespace GridPACK.GhostUpdate
open GridPACK.GlobalIndices GridPACK.IndexHash

variable {K β : Type}

theorem foldl_put_notMem (ws : List (Int × β)) (ga : Nat → Option β) (i : Nat)
    (h : ∀ w ∈ ws, w.1.toNat ≠ i) : ws.foldl put ga i = ga i := by
  induction ws generalizing ga with
  | nil => rfl
  | cons w ws ih =>
    rw [List.foldl_cons, ih _ (fun w hw => h w (by simp [hw]))]
    unfold put
    rw [if_neg]
    intro hc; exact h w (by simp) hc.symm

theorem foldl_put_mem (ws : List (Int × β)) (ga : Nat → Option β) (w : Int × β) (hw : w ∈ ws)
    (hpos : ∀ w ∈ ws, 0 ≤ w.1) (hnd : (ws.map (·.1)).Nodup) :
    ws.foldl put ga w.1.toNat = some w.2 := by
  induction ws generalizing ga with
  | nil => simp at hw
  | cons v ws ih =>
    rw [List.foldl_cons]
    rw [List.map_cons, List.nodup_cons] at hnd
    rcases List.mem_cons.mp hw with rfl | hw
    · rw [foldl_put_notMem]
      · unfold put; rw [if_pos rfl]
      · intro u hu hc
        apply hnd.1
        have h1 := hpos u (by simp [hu])
        have h2 := hpos w (by simp)
        have : u.1 = w.1 := by omega
        rw [← this]; exact List.mem_map.mpr ⟨u, hu, rfl⟩
    · exact ih _ hw (fun w hw => hpos w (by simp [hw])) hnd.2

theorem zip_map_map {α γ δ : Type} (l : List α) (f : α → γ) (g : α → δ) :
    List.zip (l.map f) (l.map g) = l.map (fun x => (f x, g x)) := by
  induction l with
  | nil => rfl
  | cons a l ih => simp only [List.map_cons, List.zip_cons_cons, ih]

theorem gather_eq (ga : Nat → Option β) (val : Int → β) (is : List Int)
    (h : ∀ i ∈ is, ga i.toNat = some (val i)) : gather ga is = some (is.map val) := by
  induction is with
  | nil => rfl
  | cons i is ih =>
    unfold gather
    rw [h i (by simp), ih (fun j hj => h j (by simp [hj]))]; rfl

theorem unpack_eq (l : List (XComp K β)) (val : Int → β) :
    unpack l ((l.filter (fun x => !x.active)).map (fun x => val x.gid)) =
      some (l.map (fun x => if x.active then x else { x with buf := val x.gid })) := by
  induction l with
  | nil => rfl
  | cons x l ih =>
    unfold unpack
    by_cases h : x.active = true
    · rw [if_pos h, List.filter_cons, if_neg (by simp [h]), ih, List.map_cons, if_pos h]; rfl
    · rw [if_neg h, List.filter_cons, if_pos (by simp [h]), List.map_cons]
      simp only
      rw [ih, List.map_cons, if_neg h]; rfl

/-- Owned components have distinct global indices, exactly `0..N-1`; ghosts carry an index in
that range. -/
def Numbered (n : Nat) (net : Nat → List (XComp K β)) : Prop :=
  ((((List.range n).flatMap net).filter (·.active)).map (·.gid)).Perm
    ((List.range (((List.range n).flatMap net).countP (·.active))).map (fun (i : Nat) => (i : Int))) ∧
  ∀ p, p < n → ∀ x ∈ net p, ∃ q, q < n ∧ ∃ y ∈ net q, y.active = true ∧ y.gid = x.gid

theorem busTotal_eq (n : Nat) (net : Nat → List (XComp K β)) :
    busTotal n net = ((List.range n).flatMap net).countP (·.active) := by
  unfold busTotal; rw [List.countP_flatMap]; rfl

theorem Numbered.range {n : Nat} {net : Nat → List (XComp K β)} (h : Numbered n net) :
    ∀ p, p < n → ∀ x ∈ net p, 0 ≤ x.gid ∧ x.gid < busTotal n net := by
  intro p hp x hx
  obtain ⟨q, hq, y, hy, hya, hyg⟩ := h.2 p hp x hx
  have : y.gid ∈ (((List.range n).flatMap net).filter (·.active)).map (·.gid) :=
    List.mem_map.mpr ⟨y, List.mem_filter.mpr ⟨List.mem_flatMap.mpr
      ⟨q, List.mem_range.mpr hq, hy⟩, hya⟩, rfl⟩
  rw [h.1.mem_iff] at this
  obtain ⟨i, hi, he⟩ := List.mem_map.mp this
  rw [List.mem_range, ← busTotal_eq] at hi
  omega

theorem Numbered.nodup {n : Nat} {net : Nat → List (XComp K β)} (h : Numbered n net) :
    ((((List.range n).flatMap net).filter (·.active)).map (·.gid)).Nodup := by
  rw [h.1.nodup_iff]
  apply List.Nodup.map
  · intro a b hab; simp only at hab; omega
  · exact List.nodup_range

/-- C16.  If owned components are numbered `0..N-1` and ghosts carry their owner's number then,
for every order in which the writes reach the global array, the update succeeds; numbers and flags
are unchanged, owned buffers are unchanged, and every ghost buffer equals the buffer of the owned
component with the same global index (which exists). -/
theorem C16_update (n : Nat) (net : Nat → List (XComp K β)) (ws : List (Int × β))
    (hws : ws.Perm ((List.range n).flatMap (fun p => writes (net p)))) (hnum : Numbered n net) :
    ∃ out, updateAll n ws net = some out ∧ ∀ p, p < n → ∃ l, out p = some l ∧
      l.map (fun x => (x.key, x.gid, x.active)) = (net p).map (fun x => (x.key, x.gid, x.active)) ∧
      l.filter (·.active) = (net p).filter (·.active) ∧
      ∀ x ∈ l, x.active = false →
        (∃ q, q < n ∧ ∃ y ∈ net q, y.active = true ∧ y.gid = x.gid) ∧
        ∀ q, q < n → ∀ y ∈ net q, y.active = true → y.gid = x.gid → x.buf = y.buf := by
  have hr := hnum.range
  have hinit : initOk n net = true := by
    unfold initOk
    rw [List.all_eq_true]; intro p hp
    rw [List.all_eq_true]; intro x hx
    simpa using hr p (List.mem_range.mp hp) x hx
  unfold updateAll
  rw [if_pos hinit]
  refine ⟨_, rfl, ?_⟩
  -- the writes
  have hwr : (List.range n).flatMap (fun p => writes (net p)) =
      (((List.range n).flatMap net).filter (·.active)).map (fun x => (x.gid, x.buf)) := by
    rw [List.filter_flatMap, List.map_flatMap]
    congr 1; funext p
    unfold writes; rw [zip_map_map]
  have hnd : (ws.map (·.1)).Nodup := by
    rw [(hws.map _).nodup_iff, hwr, List.map_map]; exact hnum.nodup
  have hposw : ∀ w ∈ ws, 0 ≤ w.1 := by
    intro w hw
    rw [hws.mem_iff, hwr] at hw
    obtain ⟨x, hx, rfl⟩ := List.mem_map.mp hw
    obtain ⟨q, hq, hxq⟩ := List.mem_flatMap.mp (List.mem_filter.mp hx).1
    exact (hr q (List.mem_range.mp hq) x hxq).1
  have hcell : ∀ q, q < n → ∀ y ∈ net q, y.active = true →
      ws.foldl put (fun _ => none) y.gid.toNat = some y.buf := by
    intro q hq y hy hya
    have hm : (y.gid, y.buf) ∈ ws := by
      rw [hws.mem_iff, hwr]
      exact List.mem_map.mpr ⟨y, List.mem_filter.mpr ⟨List.mem_flatMap.mpr
        ⟨q, List.mem_range.mpr hq, hy⟩, hya⟩, rfl⟩
    exact foldl_put_mem ws _ (y.gid, y.buf) hm hposw hnd
  intro p hp
  by_cases hne : ∃ x ∈ net p, x.active = false
  · obtain ⟨x0, hx0, _⟩ := hne
    obtain ⟨q0, hq0, y0, hy0, hya0, _⟩ := hnum.2 p hp x0 hx0
    set val : Int → β := fun i =>
      (ws.foldl put (fun _ => none) i.toNat).getD y0.buf with hval
    have hg : gather (ws.foldl put (fun _ => none))
        (((net p).filter (fun x => !x.active)).map (·.gid)) =
        some (((net p).filter (fun x => !x.active)).map (fun x => val x.gid)) := by
      rw [gather_eq _ val]
      · rw [List.map_map]; rfl
      · intro i hi
        obtain ⟨x, hx, rfl⟩ := List.mem_map.mp hi
        obtain ⟨q, hq, y, hy, hya, hyg⟩ := hnum.2 p hp x (List.mem_filter.mp hx).1
        simp only [hval]
        rw [← hyg, hcell q hq y hy hya]; rfl
    refine ⟨(net p).map (fun x => if x.active then x else { x with buf := val x.gid }), ?_, ?_, ?_, ?_⟩
    · unfold receive; rw [hg]; exact unpack_eq _ _
    · rw [List.map_map]
      apply List.map_congr_left
      intro x _; simp only [Function.comp]; split <;> rfl
    · generalize net p = l
      induction l with
      | nil => rfl
      | cons x l ih =>
        rw [List.map_cons]
        by_cases h : x.active = true
        · rw [if_pos h, List.filter_cons, if_pos h, List.filter_cons, if_pos h, ih]
        · rw [if_neg h, List.filter_cons, if_neg h, List.filter_cons, if_neg h, ih]
    · intro x hx hxa
      obtain ⟨x1, hx1, rfl⟩ := List.mem_map.mp hx
      by_cases h : x1.active = true
      · rw [if_pos h] at hxa; rw [h] at hxa; cases hxa
      · rw [if_neg h]
        refine ⟨hnum.2 p hp x1 hx1, ?_⟩
        intro q hq y hy hya hyg
        show val x1.gid = y.buf
        simp only [hval]
        rw [← hyg, hcell q hq y hy hya]; rfl
  · have hall : ∀ x ∈ net p, x.active = true := by
      intro x hx
      by_contra hc
      exact hne ⟨x, hx, by simpa using hc⟩
    have hf : (net p).filter (fun x => !x.active) = [] := by
      rw [List.filter_eq_nil_iff]; intro x hx; simp [hall x hx]
    have hun : ∀ l : List (XComp K β), (∀ x ∈ l, x.active = true) → unpack l [] = some l := by
      intro l hl
      induction l with
      | nil => rfl
      | cons x l ih =>
        unfold unpack
        rw [if_pos (hl x (by simp)), ih (fun y hy => hl y (by simp [hy]))]; rfl
    refine ⟨net p, ?_, rfl, rfl, ?_⟩
    · unfold receive
      rw [hf]
      simp only [List.map_nil, gather]
      exact hun _ hall
    · intro x hx hxa
      rw [hall x hx] at hxa; cases hxa

/-- Component without its buffer. -/
def XComp.toComp (x : XComp K β) : Comp K := ⟨x.key, x.gid, x.active⟩

/-- C16 end to end.  Renumbering the network with `resetGlobalIndices` and then updating makes
every ghost's buffer equal to the buffer of the owned bus **with the same original number**,
whatever the global indices were before. -/
theorem C16_reset_then_update (n : Nat) (hn : 0 < n) (s0 s1 s2 : Sched)
    (comps : Nat → List (Comp Int)) (h0 : s0.Ok n) (h1 : s1.Ok n) (h2 : s2.Ok n)
    (hpos : ∀ p, p < n → ∀ x ∈ comps p, 0 ≤ x.key)
    (huniq : (((List.range n).flatMap comps).filter (·.active) |>.map (·.key)).Nodup)
    (hghost : ∀ x ∈ (List.range n).flatMap comps, x.active = false →
      ∃ y ∈ (List.range n).flatMap comps, y.active = true ∧ y.key = x.key) :
    ∃ comps', resetGlobalIndices n (hashValue n) s0 s1 s2 true comps = some comps' ∧
      ∀ (net : Nat → List (XComp Int β)), (∀ p, p < n → (net p).map XComp.toComp = comps' p) →
      ∀ ws, ws.Perm ((List.range n).flatMap (fun p => writes (net p))) →
      ∃ out, updateAll n ws net = some out ∧ ∀ p, p < n → ∃ l, out p = some l ∧
        l.filter (·.active) = (net p).filter (·.active) ∧
        ∀ x ∈ l, ∀ q, q < n → ∀ y ∈ net q, y.active = true → y.key = x.key → x.buf = y.buf := by
  obtain ⟨comps', e1, e2, e3, _, e5, e6⟩ := reset_spec n (hashValue n) s0 s1 s2 true comps h0 h1 h2
    (by intro p hp x hx
        have := hpos p hp x hx
        have hn' : (0:Int) < n := by exact_mod_cast hn
        rw [legal_iff]; unfold hashValue
        rw [Int.tmod_eq_emod_of_nonneg this]
        exact ⟨Int.emod_nonneg _ (by omega), Int.emod_lt_of_pos _ hn'⟩) huniq hghost
  refine ⟨comps', e1, ?_⟩
  intro net hnet ws hws
  have hflat : ((List.range n).flatMap net).map XComp.toComp = (List.range n).flatMap comps' := by
    rw [List.map_flatMap]
    apply List.flatMap_congr
    intro p hp; exact hnet p (List.mem_range.mp hp)
  have hmem : ∀ p, p < n → ∀ x ∈ net p, x.toComp ∈ comps' p := by
    intro p hp x hx
    rw [← hnet p hp]; exact List.mem_map.mpr ⟨x, hx, rfl⟩
  have hmemF : ∀ p, p < n → ∀ x ∈ net p, x.toComp ∈ (List.range n).flatMap comps' :=
    fun p hp x hx => List.mem_flatMap.mpr ⟨p, List.mem_range.mpr hp, hmem p hp x hx⟩
  have hgids : (((List.range n).flatMap net).filter (·.active)).map (·.gid) =
      (((List.range n).flatMap comps').filter (·.active)).map (·.gid) := by
    rw [← hflat, List.filter_map, List.map_map]; rfl
  have hcount : ((List.range n).flatMap net).countP (·.active) =
      countActive ((List.range n).flatMap comps) := by
    have hl := congrArg List.length (e3 rfl)
    rw [List.length_map, List.length_map, List.length_range, ← hflat, List.filter_map,
      List.length_map] at hl
    rw [List.countP_eq_length_filter]; exact hl
  have hnum : Numbered n net := by
    refine ⟨?_, ?_⟩
    · rw [hgids, e3 rfl, hcount]
    · intro p hp x hx
      by_cases hxa : x.active = true
      · exact ⟨p, hp, x, hx, hxa, rfl⟩
      · obtain ⟨q, hq, y, hy, hya, _, hyg⟩ := e5 p hp x.toComp (hmem p hp x hx) (by
          show x.active = false; simpa using hxa)
        rw [← hnet q hq] at hy
        obtain ⟨y', hy', rfl⟩ := List.mem_map.mp hy
        exact ⟨q, hq, y', hy', hya, hyg⟩
  obtain ⟨out, o1, o2⟩ := C16_update n net ws hws hnum
  refine ⟨out, o1, ?_⟩
  intro p hp
  obtain ⟨l, l1, l2, l3, l4⟩ := o2 p hp
  refine ⟨l, l1, l3, ?_⟩
  intro x hx q hq y hy hya hyk
  have hxm : (x.key, x.gid, x.active) ∈ (net p).map (fun x => (x.key, x.gid, x.active)) := by
    rw [← l2]; exact List.mem_map.mpr ⟨x, hx, rfl⟩
  obtain ⟨x', hx', hxe⟩ := List.mem_map.mp hxm
  simp only [Prod.mk.injEq] at hxe
  have hg := e6 y.toComp (hmemF q hq y hy) x'.toComp (hmemF p hp x' hx') hya
    (show x'.key = y.key by rw [hxe.1, hyk])
  have hgid : y.gid = x.gid := by
    have : x'.gid = y.gid := hg
    rw [← hxe.2.1, this]
  by_cases hxa : x.active = true
  · -- both owned with the same number: the same component
    have hxn : x ∈ net p := by
      have : x ∈ l.filter (·.active) := List.mem_filter.mpr ⟨hx, hxa⟩
      rw [l3] at this; exact (List.mem_filter.mp this).1
    have m1 : x ∈ ((List.range n).flatMap net).filter (·.active) :=
      List.mem_filter.mpr ⟨List.mem_flatMap.mpr ⟨p, List.mem_range.mpr hp, hxn⟩, hxa⟩
    have m2 : y ∈ ((List.range n).flatMap net).filter (·.active) :=
      List.mem_filter.mpr ⟨List.mem_flatMap.mpr ⟨q, List.mem_range.mpr hq, hy⟩, hya⟩
    rw [List.inj_on_of_nodup_map hnum.nodup m1 m2 hgid.symm]
  · exact (l4 x hx (by simpa using hxa)).2 q hq y hy hya hgid

/-- Two processes, one owned bus and one ghost each. -/
def exNet : Nat → List (XComp Int Char) := fun p =>
  if p = 0 then [⟨7, 1, false, 'x'⟩, ⟨5, 0, true, 'a'⟩]
  else if p = 1 then [⟨7, 1, true, 'b'⟩, ⟨5, 0, false, 'y'⟩] else []

example : (updateAll 2 [(1, 'b'), (0, 'a')] exNet).map (fun f => (f 0, f 1)) =
    some (some [⟨7, 1, false, 'b'⟩, ⟨5, 0, true, 'a'⟩],
          some [⟨7, 1, true, 'b'⟩, ⟨5, 0, false, 'a'⟩]) := by decide

example : Numbered 2 exNet := by
  constructor
  · decide
  · intro p hp
    have : p = 0 ∨ p = 1 := by omega
    rcases this with rfl | rfl
    · intro x hx
      have : x = ⟨7, 1, false, 'x'⟩ ∨ x = ⟨5, 0, true, 'a'⟩ := by simpa [exNet] using hx
      rcases this with rfl | rfl
      · exact ⟨1, by omega, ⟨7, 1, true, 'b'⟩, by decide, rfl, rfl⟩
      · exact ⟨0, by omega, ⟨5, 0, true, 'a'⟩, by decide, rfl, rfl⟩
    · intro x hx
      have : x = ⟨7, 1, true, 'b'⟩ ∨ x = ⟨5, 0, false, 'y'⟩ := by simpa [exNet] using hx
      rcases this with rfl | rfl
      · exact ⟨1, by omega, ⟨7, 1, true, 'b'⟩, by decide, rfl, rfl⟩
      · exact ⟨0, by omega, ⟨5, 0, true, 'a'⟩, by decide, rfl, rfl⟩

/-! ### C19 -/

/-- C19.  If owned buses are numbered `0..N-1` and ghosts carry their owner's number then, for
every order of the writes, `setComponents` succeeds and
* the matrix-vector indices of the owned buses, listed process by process in local order, are
  exactly `0, 1, ..., N-1`;
* two copies of the same bus (equal global index) on any processes have the same index. -/
theorem C19_bus_numbering (n : Nat) (net : Nat → List (XComp K β)) (ws : List (Int × Int))
    (hws : ws.Perm ((List.range n).flatMap (fun p => numberWrites (compOffset net p) (net p))))
    (hnum : Numbered n net) :
    ∃ mv, matVecIndices n ws net = some mv ∧
      (∀ p, (mv p).length = (net p).length) ∧
      ((List.range n).flatMap (fun p => ((List.zip (net p) (mv p)).filter (·.1.active)).map (·.2)))
        = (List.range (busTotal n net)).map (fun (i : Nat) => (i : Int)) ∧
      ∀ p, p < n → ∀ q, q < n → ∀ a ∈ List.zip (net p) (mv p), ∀ b ∈ List.zip (net q) (mv q),
        a.1.gid = b.1.gid → a.2 = b.2 := by
  have hr := hnum.range
  unfold matVecIndices
  rw [if_pos]
  swap
  · rw [List.all_eq_true]; intro p hp
    unfold inRange
    rw [List.all_eq_true]; intro x hx
    simpa using hr p (List.mem_range.mp hp) x hx
  refine ⟨_, rfl, fun p => by simp, ?_, ?_⟩
  · -- keys of the writes are the active gids
    have hlen : ∀ p, ((net p).filter (·.active)).length = (net p).countP (·.active) :=
      fun p => List.countP_eq_length_filter.symm
    have hkeys : ∀ p, (numberWrites (compOffset net p) (net p)).map (·.1) =
        ((net p).filter (·.active)).map (·.gid) := by
      intro p
      unfold numberWrites
      rw [List.map_fst_zip]
      rw [List.length_map, List.length_map, List.length_range, hlen]; exact Nat.le_refl _
    have hall : ((List.range n).flatMap (fun p => numberWrites (compOffset net p) (net p))).map
        (·.1) = (((List.range n).flatMap net).filter (·.active)).map (·.gid) := by
      rw [List.map_flatMap, List.filter_flatMap, List.map_flatMap]
      congr 1; funext p; exact hkeys p
    have hnd : (ws.map (·.1)).Nodup := by
      rw [(hws.map _).nodup_iff, hall]; exact hnum.nodup
    have hposw : ∀ w ∈ ws, 0 ≤ w.1 := by
      intro w hw
      have : w.1 ∈ ws.map (·.1) := List.mem_map.mpr ⟨w, hw, rfl⟩
      rw [(hws.map _).mem_iff, hall] at this
      obtain ⟨x, hx, he⟩ := List.mem_map.mp this
      obtain ⟨q, hq, hxq⟩ := List.mem_flatMap.mp (List.mem_filter.mp hx).1
      rw [← he]; exact (hr q (List.mem_range.mp hq) x hxq).1
    have hcell : ∀ w ∈ ws, ws.foldl put (fun _ => some 0) w.1.toNat = some w.2 :=
      fun w hw => foldl_put_mem ws _ w hw hposw hnd
    have hp : ∀ p, p < n → ((List.zip (net p) ((net p).map (fun x =>
        (ws.foldl put (fun _ => some 0) x.gid.toNat).getD 0))).filter (·.1.active)).map (·.2) =
        (List.range' (compOffset net p) ((net p).countP (·.active))).map
          (fun (i : Nat) => (i : Int)) := by
      intro p hp
      have e0 : List.zip (net p) ((net p).map (fun x =>
          (ws.foldl put (fun _ => some 0) x.gid.toNat).getD 0)) = (net p).map (fun x =>
          (x, (ws.foldl put (fun _ => some 0) x.gid.toNat).getD 0)) := by
        have := zip_map_map (net p) id (fun x =>
          (ws.foldl put (fun _ => some 0) x.gid.toNat).getD 0)
        rw [List.map_id] at this; exact this
      rw [e0, List.filter_map, List.map_map]
      have e1 : (((fun (x : XComp K β × Int) => x.2) ∘ fun (x : XComp K β) =>
          (x, (ws.foldl put (fun _ => some 0) x.gid.toNat).getD 0))) =
          (fun (g : Int) => (ws.foldl put (fun _ => some 0) g.toNat).getD 0) ∘ (·.gid) := rfl
      rw [e1]
      have e2 : ((fun (x : XComp K β × Int) => x.1.active) ∘ fun (x : XComp K β) =>
          (x, (ws.foldl put (fun _ => some 0) x.gid.toNat).getD 0)) = (·.active) := rfl
      rw [e2, ← List.map_map, ← hkeys p]
      have e3 : (numberWrites (compOffset net p) (net p)).map (·.2) =
          (List.range' (compOffset net p) ((net p).countP (·.active))).map
          (fun (i : Nat) => (i : Int)) := by
        unfold numberWrites
        rw [List.map_snd_zip]
        · rw [List.range'_eq_map_range, List.map_map]; rfl
        · rw [List.length_map, List.length_map, List.length_range, hlen]; exact Nat.le_refl _
      rw [← e3, List.map_map]
      apply List.map_congr_left
      intro w hw
      simp only [Function.comp]
      rw [hcell w]
      · rfl
      · rw [hws.mem_iff]
        exact List.mem_flatMap.mpr ⟨p, List.mem_range.mpr hp, hw⟩
    rw [List.flatMap_congr (fun p hp' => hp p (List.mem_range.mp hp')), ← List.map_flatMap]
    unfold compOffset
    rw [range'_flatMap (fun p => (net p).countP (·.active)) n]; rfl
  · intro p hp q hq a ha b hb hab
    have key : ∀ r, ∀ c ∈ List.zip (net r) ((net r).map (fun x =>
        (ws.foldl put (fun _ => some 0) x.gid.toNat).getD 0)),
        c.2 = (ws.foldl put (fun _ => some 0) c.1.gid.toNat).getD 0 := by
      intro r c hc
      have := zip_map_map (net r) id (fun x =>
          (ws.foldl put (fun _ => some 0) x.gid.toNat).getD 0)
      rw [List.map_id] at this
      rw [this] at hc
      obtain ⟨x, _, rfl⟩ := List.mem_map.mp hc
      rfl
    rw [key p a ha, key q b hb, hab]

/-- C19, branches.  A branch whose local ends are the local buses `x` and `y` gets exactly the
indices of `x` and `y`. -/
theorem C19_branch_indices (net : List (XComp K β)) (mv : List Int) (hl : mv.length = net.length)
    (ends : Int × Int) (h1 : 0 ≤ ends.1) (h2 : 0 ≤ ends.2) (x y : XComp K β)
    (hx : net[ends.1.toNat]? = some x) (hy : net[ends.2.toNat]? = some y) :
    ∃ a b, branchIndices mv ends = some (a, b) ∧ (x, a) ∈ List.zip net mv ∧
      (y, b) ∈ List.zip net mv := by
  have k1 : ends.1.toNat < net.length := by
    rw [List.getElem?_eq_some_iff] at hx; exact hx.1
  have k2 : ends.2.toNat < net.length := by
    rw [List.getElem?_eq_some_iff] at hy; exact hy.1
  have e1 : mv[ends.1.toNat]? = some mv[ends.1.toNat] := List.getElem?_eq_getElem (by omega)
  have e2 : mv[ends.2.toNat]? = some mv[ends.2.toNat] := List.getElem?_eq_getElem (by omega)
  refine ⟨mv[ends.1.toNat], mv[ends.2.toNat], ?_, ?_, ?_⟩
  · unfold branchIndices
    rw [if_pos ⟨h1, h2⟩, e1, e2]
  · apply List.mem_of_getElem? (i := ends.1.toNat)
    rw [List.getElem?_zip_eq_some]; exact ⟨hx, e1⟩
  · apply List.mem_of_getElem? (i := ends.2.toNat)
    rw [List.getElem?_zip_eq_some]; exact ⟨hy, e2⟩

example : (matVecIndices 2 [(0, 0), (1, 1)] exNet).map (fun f => (f 0, f 1)) =
    some ([1, 0], [1, 0]) := by decide

/-! ### C20 -/

theorem sum_flags (n : Nat) (flag : Nat → Bool) :
    ((List.range n).map (fun p => if flag p then (1 : Int) else 0)).sum =
      (((List.range n).countP flag : Nat) : Int) := by
  induction n with
  | zero => rfl
  | succ n ih =>
    rw [List.range_succ, List.map_append, List.sum_append, ih, List.countP_append]
    by_cases h : flag n = true <;> simp [h]

/-- C20: `checkTrue` answers whether the flag is true on all processes. -/
theorem C20_checkTrue (n : Nat) (flag : Nat → Bool) :
    checkTrue n flag = true ↔ ∀ p, p < n → flag p = true := by
  unfold checkTrue
  rw [decide_eq_true_eq, sum_flags]
  have : ((((List.range n).countP flag : Nat) : Int) = (n : Int)) ↔
      (List.range n).countP flag = (List.range n).length := by
    rw [List.length_range]; omega
  rw [this, List.countP_eq_length]
  simp

/-- C20: `checkTrueSomewhere` answers whether the flag is true on at least one process. -/
theorem C20_checkTrueSomewhere (n : Nat) (flag : Nat → Bool) :
    checkTrueSomewhere n flag = true ↔ ∃ p, p < n ∧ flag p = true := by
  unfold checkTrueSomewhere
  rw [decide_eq_true_eq, sum_flags]
  have : ((((List.range n).countP flag : Nat) : Int) > 0) ↔ 0 < (List.range n).countP flag := by
    omega
  rw [this, List.countP_pos_iff]
  simp

example : checkTrue 3 (fun p => decide (p ≠ 1)) = false ∧
    checkTrueSomewhere 3 (fun p => decide (p = 1)) = true := by decide

/-! ### C58 -/

/-- C58, exact answer: after `setExchange` the processes make the same collective calls in
`initBusUpdate` iff nothing is exchanged (`size = 0`) or all or none of the processes hold a
component. -/
theorem C58_matching_collectives_iff_partial (n size : Nat) (nbus : Nat → Nat) :
    (∀ p, p < n → ∀ q, q < n → initCollectives (xcBufSize (nbus p) size) =
        initCollectives (xcBufSize (nbus q) size)) ↔
      (size = 0 ∨ (∀ p, p < n → 0 < nbus p) ∨ (∀ p, p < n → nbus p = 0)) := by
  have hc : ∀ a b, initCollectives a = initCollectives b ↔ (0 < a ↔ 0 < b) := by
    intro a b
    unfold initCollectives
    by_cases ha : 0 < a <;> by_cases hb : 0 < b <;> simp [ha, hb]
  have hx : ∀ k, 0 < xcBufSize k size ↔ (0 < k ∧ 0 < size) := by
    intro k; unfold xcBufSize; split <;> omega
  simp only [hc, hx]
  constructor
  · intro h
    by_cases hs : size = 0
    · exact .inl hs
    · right
      by_cases h0 : ∀ p, p < n → nbus p = 0
      · exact .inr h0
      · left
        intro p hp
        by_contra hpc
        apply h0
        intro q hq
        have := h p hp q hq
        omega
  · rintro (h | h | h) p hp q hq
    · omega
    · have := h p hp; have := h q hq; omega
    · have := h p hp; have := h q hq; omega

/-- C58 is violated: three processes, one of which holds no bus. -/
theorem C58_violated : ∃ nbus : Nat → Nat, ¬ ∀ p, p < 3 → ∀ q, q < 3 →
    initCollectives (xcBufSize (nbus p) 16) = initCollectives (xcBufSize (nbus q) 16) := by
  refine ⟨fun p => if p = 2 then 0 else 5, ?_⟩
  intro h
  exact absurd (h 0 (by omega) 2 (by omega)) (by decide)

end GridPACK.GhostUpdate
