import Verif.Lemmas.DyrSteps

/-! Lemmas about reading .dyr files: relays. -/
namespace GridPACK.Dyr
open StringUtils DataCollection
open RawBus (Val Data get idxOk intVal getInt intVal_get getValue_get get_add get_add_other get_set get_set_other)
open DyrSpec (Par Complete Rest IsDevice Describes Gives Proper Unknown Place externalErrors)

/-- The number of relays so far. -/
def relays (c : Data) : Int := intVal c "RELAY_NUMBER".toList

theorem relays_get (c : Data) : relays c = (get c .int ⟨"RELAY_NUMBER".toList, none⟩).getD (0 : Int) :=
  intVal_get c _

theorem relayNumber_plain : ':' ∉ "RELAY_NUMBER".toList := by decide

theorem nextRelay_ok (c : Data) : ∃ c1, nextRelay c = some (relays c, c1) ∧ relays c1 = relays c + 1 ∧
    ∀ t k, ':' ∉ k.name → k.name ≠ "RELAY_NUMBER".toList → get c1 t k = get c t k := by
  have e := getValue_get c .int ⟨"RELAY_NUMBER".toList, none⟩ (show Int from 0) (by simp [mapKey])
  obtain ⟨s, hs⟩ := RawBus.mapKey_some "RELAY_NUMBER".toList none (by intro i hi; simp at hi)
  unfold nextRelay
  rw [show getValue c .int ⟨"RELAY_NUMBER".toList, none⟩ (0 : Int) = _ from e]
  cases hg : get c .int ⟨"RELAY_NUMBER".toList, none⟩ with
  | none =>
    simp only
    have h0 : relays c = 0 := by rw [relays_get, hg]; rfl
    obtain ⟨c1, hc1⟩ : ∃ c1, addValue c .int ⟨"RELAY_NUMBER".toList, none⟩ (1 : Int) = some c1 := by
      unfold addValue; rw [hs]; exact ⟨_, rfl⟩
    refine ⟨c1, by rw [hc1, h0]; rfl, ?_, ?_⟩
    · rw [h0, relays_get, get_add hc1, hg]; rfl
    · intro t k hk hne
      refine get_add_other hc1 relayNumber_plain hk ?_
      intro he
      rw [Prod.mk.injEq] at he
      exact hne (by rw [he.2])
  | some n =>
    simp only
    have h0 : relays c = n := by rw [relays_get, hg]; rfl
    obtain ⟨r, hr⟩ : ∃ r, setValue c .int ⟨"RELAY_NUMBER".toList, none⟩ (Int.add n 1) = some r := by
      unfold setValue; rw [hs]; exact ⟨_, rfl⟩
    obtain ⟨c1, b⟩ := r
    refine ⟨c1, by rw [hr, h0]; rfl, ?_, ?_⟩
    · rw [h0, relays_get, get_set hr, hg]; rfl
    · intro t k hk hne
      refine get_set_other hr relayNumber_plain hk ?_
      intro he
      rw [Prod.mk.injEq] at he
      exact hne (by rw [he.2])

/-- The struct of a relay with model `m` and format `ps`. -/
def RelayItem (cv : Conv) (tab : List (String × List Par)) (f : Struct → Data → Option Data) (x : List Str × Struct)
    (m : String) (ps : List Par) : Prop :=
  (m, ps) ∈ tab ∧ formatOk ps = true ∧ ∃ k, (∀ c, f x.2 c = extractRelay k x.2 c) ∧ Carries cv x.1 m ps k x.2

/-- What a list of relays leaves in a collection. -/
theorem relays_ok {cv : Conv} {tab : List (String × List Par)} (htab : avoids tab ["RELAY_NUMBER"] = true)
    {f : Struct → Data → Option Data} :
    ∀ (l : List (List Str × Struct)) (c : Data), (∀ x ∈ l, ∃ m ps, RelayItem cv tab f x m ps) → 0 ≤ relays c →
      relays c + l.length ≤ 10000000 →
      ∃ c', runList (fun x => f x.2) l c = some c' ∧ relays c' = relays c + l.length ∧
        (∀ (j : Nat) x, l[j]? = some x → ∀ m ps, RelayItem cv tab f x m ps → ∀ p ∈ ps, (m, p.key) ∉ externalErrors →
          p.Stored cv x.1 c' (some (relays c + j))) ∧
        ∀ t k, ':' ∉ k.name → k.name ≠ "RELAY_NUMBER".toList →
          ((∃ j < l.length, k.idx = some (relays c + j)) → ∀ s ∈ keysOf tab, k.name ≠ s.toList) →
          get c' t k = get c t k := by
  intro l
  induction l with
  | nil => intro c _ _ _; exact ⟨c, rfl, by simp, by simp, fun _ _ _ _ _ => rfl⟩
  | cons x l ih =>
    intro c hall h0 hlen
    obtain ⟨c1, hn, hr1, hk1⟩ := nextRelay_ok c
    have hidx : idxOk (some (relays c)) := by
      intro i hi
      obtain rfl := Option.some.inj hi
      simp only [List.length_cons, Nat.cast_add, Nat.cast_one] at hlen
      omega
    have hname : ∀ m ps, (m, ps) ∈ tab → ∀ p ∈ ps, p.key.toList ≠ "RELAY_NUMBER".toList := by
      intro m ps hm p hp he
      exact avoids_use htab hm hp (by rw [String.toList_injective he]; simp)
    -- one relay
    have hone : ∀ m ps, RelayItem cv tab f x m ps → ∃ c2, f x.2 c = some c2 ∧ relays c2 = relays c + 1 ∧
        (∀ p ∈ ps, (m, p.key) ∉ externalErrors → p.Stored cv x.1 c2 (some (relays c))) ∧
        ∀ t k, ':' ∉ k.name → k.name ≠ "RELAY_NUMBER".toList →
          (k.idx = some (relays c) → ∀ p ∈ ps, k.name ≠ p.key.toList) → get c2 t k = get c t k := by
      rintro m ps ⟨hm, hf, k, hfk, hcar⟩
      obtain ⟨c2, h1, h2, h3⟩ := hcar hidx c1
      refine ⟨c2, by rw [hfk]; simp [extractRelay, hn, h1], ?_, h2, ?_⟩
      · rw [relays_get, h3 .int ⟨"RELAY_NUMBER".toList, none⟩ relayNumber_plain (by intro hi; simp at hi), ← relays_get, hr1]
      · intro t k hk hne hnn
        rw [h3 t k hk hnn, hk1 t k hk hne]
    obtain ⟨m, ps, hitem⟩ := hall x (by simp)
    obtain ⟨c2, e1, e2, _, e4⟩ := hone m ps hitem
    obtain ⟨c3, g1, g2, g3, g4⟩ := ih c2 (fun y hy => hall y (by simp [hy])) (by omega) (by
      simp only [List.length_cons, Nat.cast_add, Nat.cast_one] at hlen
      omega)
    refine ⟨c3, by simp [runList, e1, g1], ?_, ?_, ?_⟩
    · rw [g2, e2]; push_cast [List.length_cons]; omega
    · intro j y hj m' ps' hy p hp hne
      cases j with
      | zero =>
        simp only [List.getElem?_cons_zero, Option.some.injEq] at hj
        subst hj
        obtain ⟨d, d1, _, d3, _⟩ := hone m' ps' hy
        rw [e1] at d1
        obtain rfl := Option.some.inj d1
        have := d3 p hp hne
        simp only [Nat.cast_zero, add_zero]
        refine stored_congr ?_ this
        intro t
        refine g4 t _ (key_plain hy.2.1 p hp) (hname m' ps' hy.1 p hp) ?_
        rintro ⟨i, _, hi⟩
        simp only [Option.some.injEq] at hi
        omega
      | succ j =>
        simp only [List.getElem?_cons_succ] at hj
        have := g3 j y hj m' ps' hy p hp hne
        rw [e2] at this
        have hcast : relays c + ((j + 1 : Nat) : Int) = relays c + 1 + (j : Int) := by push_cast; omega
        rw [hcast]
        exact this
    · intro t k hk hne hkeys
      rw [g4 t k hk hne ?_, e4 t k hk hne ?_]
      · intro hi p hp
        refine hkeys ⟨0, by simp, by simpa using hi⟩ p.key ?_
        exact List.mem_flatMap.mpr ⟨(m, ps), hitem.1, List.mem_map.mpr ⟨p, hp, rfl⟩⟩
      · rintro ⟨j, hj, hi⟩
        refine hkeys ⟨j + 1, by simpa using hj, ?_⟩
        rw [hi, e2]
        push_cast
        congr 1
        omega

theorem relays_names1 : avoids DyrSpec.relays ["RELAY_NUMBER"] = true := by decide +kernel
theorem lines_names1 : avoids DyrSpec.lines ["RELAY_NUMBER"] = true := by decide +kernel

theorem busRelay_item {cv : Conv} {ts : List Str} {b : Int} {s : Struct} (h : Made cv ts (.busRelay b s)) {m : String}
    {ps : List Par} (hd : Describes cv ts (.relay b) m ps) : RelayItem cv DyrSpec.relays putBusRelay (ts, s) m ps := by
  cases h with
  | relay hd' hc hk hcar =>
    rename_i m' ps' k
    obtain ⟨_, rfl, rfl⟩ := relay_unique rfl rfl hd hd'
    refine ⟨relays_mem rfl hd, format_of hd, k, ?_, hcar⟩
    intro c
    unfold putBusRelay
    rw [hk]

theorem line_item {cv : Conv} {ts : List Str} {a b : Int} {s : Struct} (h : Made cv ts (.branchRelay (a, b) s)) {m : String}
    {ps : List Par} (hd : Describes cv ts (.line a b) m ps) : RelayItem cv DyrSpec.lines putBranchRelay (ts, s) m ps := by
  cases h with
  | line hd' hc hk hcar =>
    rename_i m' ps'
    have hm : m' = "DISTR1" ∧ ps' = DyrSpec.distr1 := by cases hd'; exact ⟨rfl, rfl⟩
    have hm' : m = "DISTR1" ∧ ps = DyrSpec.distr1 := by cases hd; exact ⟨rfl, rfl⟩
    obtain ⟨rfl, rfl⟩ := hm
    obtain ⟨rfl, rfl⟩ := hm'
    refine ⟨List.mem_of_getElem? (i := 0) rfl, distr1_format, distr1, ?_, hcar⟩
    intro c
    unfold putBranchRelay
    rw [hk, if_pos rfl]

end GridPACK.Dyr
