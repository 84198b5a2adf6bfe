import Verif.Lemmas.DyrSpread

/-! Lemmas about reading .dyr files: what a list of structs leaves in a data collection. -/
namespace GridPACK.Dyr
open StringUtils DataCollection
open RawBus (Val Data get idxOk intVal getInt intVal_get getValue_get)
open DyrSpec (Par Complete Rest IsDevice Describes Gives Proper Unknown Place externalErrors)
open HashDistr (BoundOk)

/-! ## A record describes one thing -/

theorem gen_unique {cv : Conv} {ts : List Str} {w w' : Place} {m m' : String} {ps ps' : List Par} {b b' : Int}
    {tag tag' : Str} (hw : w = .gen b tag) (hw' : w' = .gen b' tag')
    (h : Describes cv ts w m ps) (h' : Describes cv ts w' m' ps') : w = w' ∧ m = m' ∧ ps = ps' := by
  subst hw hw'
  cases h with
  | gen hm h0 h1 h2 hn =>
    cases h' with
    | gen hm' h0' h1' h2' hn' =>
      rw [h0] at h0'; rw [h1] at h1'; rw [h2] at h2'
      obtain rfl := Option.some.inj h0'
      obtain rfl := Option.some.inj h1'
      obtain rfl := Option.some.inj h2'
      obtain rfl := String.toList_injective (hn.symm.trans hn')
      exact ⟨rfl, rfl, distinct_unique spec_gens_distinct hm hm'⟩

theorem load_unique {cv : Conv} {ts : List Str} {w w' : Place} {m m' : String} {ps ps' : List Par} {b b' : Int}
    {tag tag' : Str} (hw : w = .load b tag) (hw' : w' = .load b' tag')
    (h : Describes cv ts w m ps) (h' : Describes cv ts w' m' ps') : w = w' ∧ m = m' ∧ ps = ps' := by
  subst hw hw'
  cases h with
  | load hm h0 h1 h2 hn =>
    cases h' with
    | load hm' h0' h1' h2' hn' =>
      rw [h0] at h0'; rw [h1] at h1'; rw [h2] at h2'
      obtain rfl := Option.some.inj h0'
      obtain rfl := Option.some.inj h1'
      obtain rfl := Option.some.inj h2'
      obtain rfl := String.toList_injective (hn.symm.trans hn')
      exact ⟨rfl, rfl, distinct_unique spec_loads_distinct hm hm'⟩
    | userLoad hm' h0' h1' h2' h3' hn' hp' hq' =>
      rw [h1] at h1'
      obtain rfl := Option.some.inj h1'
      exact absurd (hn.symm.trans hn') (loads_kind _ hm).2.2.2
  | userLoad hm h0 h1 h2 h3 hn hp hq =>
    cases h' with
    | load hm' h0' h1' h2' hn' =>
      rw [h1] at h1'
      obtain rfl := Option.some.inj h1'
      exact absurd (hn'.symm.trans hn) (loads_kind _ hm').2.2.2
    | userLoad hm' h0' h1' h2' h3' hn' hp' hq' =>
      rw [h0] at h0'; rw [h1] at h1'; rw [h2] at h2'; rw [h3] at h3'
      obtain rfl := Option.some.inj h0'
      obtain rfl := Option.some.inj h1'
      obtain rfl := Option.some.inj h2'
      obtain rfl := Option.some.inj h3'
      obtain rfl := String.toList_injective (hp.symm.trans hp')
      exact ⟨rfl, rfl, distinct_unique spec_userLoads_distinct hm hm'⟩

theorem relay_unique {cv : Conv} {ts : List Str} {w w' : Place} {m m' : String} {ps ps' : List Par} {b b' : Int}
    (hw : w = .relay b) (hw' : w' = .relay b')
    (h : Describes cv ts w m ps) (h' : Describes cv ts w' m' ps') : w = w' ∧ m = m' ∧ ps = ps' := by
  subst hw hw'
  cases h with
  | voltage h0 h1 hn =>
    cases h' with
    | voltage h0' h1' hn' =>
      rw [h0] at h0'
      obtain rfl := Option.some.inj h0'
      exact ⟨rfl, rfl, rfl⟩
    | frequency h0' h1' h3' hn' =>
      rw [h1] at h1'
      obtain rfl := Option.some.inj h1'
      exact absurd (hn'.symm.trans hn) frqtpat_kind.2.2.1
  | frequency h0 h1 h3 hn =>
    cases h' with
    | voltage h0' h1' hn' =>
      rw [h1] at h1'
      obtain rfl := Option.some.inj h1'
      exact absurd (hn.symm.trans hn') frqtpat_kind.2.2.1
    | frequency h0' h1' h3' hn' =>
      rw [h3] at h3'
      obtain rfl := Option.some.inj h3'
      exact ⟨rfl, rfl, rfl⟩

theorem gens_mem {cv : Conv} {ts : List Str} {w : Place} {m : String} {ps : List Par} {b : Int} {tag : Str}
    (hw : w = .gen b tag) (h : Describes cv ts w m ps) : (m, ps) ∈ DyrSpec.gens := by
  subst hw
  cases h with
  | gen hm => exact hm

theorem loads_mem {cv : Conv} {ts : List Str} {w : Place} {m : String} {ps : List Par} {b : Int} {tag : Str}
    (hw : w = .load b tag) (h : Describes cv ts w m ps) : (m, ps) ∈ DyrSpec.loads ++ DyrSpec.userLoads := by
  subst hw
  cases h with
  | load hm => exact List.mem_append_left _ hm
  | userLoad hm => exact List.mem_append_right _ hm

theorem relays_mem {cv : Conv} {ts : List Str} {w : Place} {m : String} {ps : List Par} {b : Int}
    (hw : w = .relay b) (h : Describes cv ts w m ps) : (m, ps) ∈ DyrSpec.relays := by
  subst hw
  cases h with
  | voltage => exact List.mem_of_getElem? (i := 0) rfl
  | frequency => exact List.mem_of_getElem? (i := 1) rfl

theorem format_of {cv : Conv} {ts : List Str} {w : Place} {m : String} {ps : List Par}
    (h : Describes cv ts w m ps) : formatOk ps = true := by
  cases h with
  | gen hm => exact (gens_ext _ hm).format
  | load hm => exact (loads_ext _ hm).format
  | userLoad hm => exact (userLoads_ext _ hm).format
  | voltage => exact lvshbl_format
  | frequency => exact frqtpat_format
  | line => exact distr1_format

/-! ## Steps -/

/-- A step that keeps the devices and changes only the keys in `T`. -/
def StepOk (c0 : Data) (f : Data → Option Data) (T : Key → Prop) : Prop :=
  ∀ c, Agree c0 c → ∃ c', f c = some c' ∧ Agree c0 c' ∧ ∀ t k, ':' ∉ k.name → ¬ T k → get c' t k = get c t k

theorem runList_ok {σ : Type} {c0 : Data} {f : σ → Data → Option Data} {T : σ → Key → Prop} {l : List σ}
    (h : ∀ s ∈ l, StepOk c0 (f s) (T s)) : StepOk c0 (runList f l) (fun k => ∃ s ∈ l, T s k) := by
  induction l with
  | nil => intro c hc; exact ⟨c, rfl, hc, fun _ _ _ _ => rfl⟩
  | cons s l ih =>
    intro c hc
    obtain ⟨c1, h1, a1, k1⟩ := h s (by simp) c hc
    obtain ⟨c2, h2, a2, k2⟩ := ih (fun x hx => h x (by simp [hx])) c1 a1
    refine ⟨c2, by simp [runList, h1, h2], a2, ?_⟩
    intro t k hk hT
    rw [k2 t k hk (fun ⟨x, hx, hx'⟩ => hT ⟨x, by simp [hx], hx'⟩), k1 t k hk (fun hx => hT ⟨s, by simp, hx⟩)]

/-- The only step that changes a key decides. -/
theorem runList_decides {σ : Type} {c0 : Data} {f : σ → Data → Option Data} {T : σ → Key → Prop} {l rest : List σ} {x : σ}
    (hl : l.Perm (x :: rest)) (h : ∀ s ∈ l, StepOk c0 (f s) (T s)) {K : Key} (hK : ':' ∉ K.name)
    (hrest : ∀ s ∈ rest, ¬ T s K) {c c' : Data} (hc : Agree c0 c) (hr : runList f l c = some c') :
    ∃ ca cb, Agree c0 ca ∧ f x ca = some cb ∧ ∀ t, get c' t K = get cb t K := by
  obtain ⟨l1, l2, rfl⟩ := List.append_of_mem (hl.symm.subset (List.mem_cons_self ..))
  have hp : (l1 ++ l2).Perm rest := List.Perm.cons_inv (List.perm_middle.symm.trans hl)
  rw [runList_append, Option.bind_eq_some_iff] at hr
  obtain ⟨ca, ha, hr⟩ := hr
  simp only [runList, Option.bind_eq_some_iff] at hr
  obtain ⟨cb, hb, hr⟩ := hr
  obtain ⟨d, hd, ad, _⟩ := runList_ok (fun s hs => h s (by simp [hs])) (l := l1) c hc
  rw [ha] at hd
  obtain rfl := Option.some.inj hd
  obtain ⟨e, he, ae, _⟩ := h x (by simp) ca ad
  rw [hb] at he
  obtain rfl := Option.some.inj he
  obtain ⟨g, hg, _, kg⟩ := runList_ok (fun s hs => h s (by simp [hs])) (l := l2) cb ae
  rw [hr] at hg
  obtain rfl := Option.some.inj hg
  refine ⟨ca, cb, ad, hb, fun t => kg t K hK ?_⟩
  rintro ⟨s, hs, hT⟩
  exact hrest s (hp.subset (by simp [hs])) hT

theorem stored_congr {cv : Conv} {ts : List Str} {c c' : Data} {idx : Option Int} {p : Par}
    (h : ∀ t, get c' t ⟨p.key.toList, idx⟩ = get c t ⟨p.key.toList, idx⟩) (hs : p.Stored cv ts c idx) :
    p.Stored cv ts c' idx := by
  cases p <;> simp only [Par.key] at h <;> simp only [Par.Stored, h] at hs ⊢ <;> exact hs

theorem reserved_plain : ∀ n ∈ reserved, ':' ∉ n.toList := by
  intro n hn
  have : reserved.all plainName = true := by decide +kernel
  rw [List.all_eq_true] at this
  exact noColon_of (this n hn)

/-- Parameters without reserved names leave the devices as they are. -/
theorem agree_of_rest {ps : List Par} (hps : ∀ p ∈ ps, p.key ∉ reserved) {idx : Option Int} {c c' : Data}
    (h : Rest ps idx c c') : Agree c c' := by
  rintro t k ⟨n, hn, hk⟩
  refine h t k (by rw [hk]; exact reserved_plain n hn) ?_
  intro _ p hp he
  rw [hk] at he
  exact hps p hp (String.toList_injective he ▸ hn)

/-- The keys that the struct of a record changes at a generator. -/
def GenTouch (cv : Conv) (c0 : Data) (b : Int) (ts : List Str) (K : Key) : Prop :=
  ∃ tag m ps g, Describes cv ts (.gen b tag) m ps ∧
    devIndex c0 "GENERATOR_NUMBER" "GENERATOR_ID" tag = some g ∧ K.idx = some (g : Int) ∧
    ∃ p ∈ ps, K.name = p.key.toList

theorem putGen_step {cv : Conv} {c0 : Data} (hs : Sized c0) {ts : List Str} {b : Int} {s : Struct}
    (h : Made cv ts (.gen b s)) : StepOk c0 (putGen s) (GenTouch cv c0 b ts) := by
  cases h with
  | gen hd hc hid hk hcar =>
    rename_i tag m ps k
    intro c hag
    have hdev := devIndex_congr hag (num := "GENERATOR_NUMBER") (id := "GENERATOR_ID") (by decide) (by decide) tag
    unfold putGen
    rw [hid, hdev]
    cases hg : devIndex c0 "GENERATOR_NUMBER" "GENERATOR_ID" tag with
    | none => exact ⟨c, rfl, hag, fun _ _ _ _ => rfl⟩
    | some g =>
      simp only [hk]
      obtain ⟨c', h1, h2, h3⟩ := hcar (hs.gen hg) c
      refine ⟨c', h1, hag.trans (agree_of_rest (fun p hp hn => ?_) h3), ?_⟩
      · exact avoids_use gens_names (gens_mem rfl hd) hp (List.mem_cons_of_mem _ hn)
      · intro t K hK hT
        refine h3 t K hK (fun hi p hp hn => hT ⟨tag, m, ps, g, hd, hg, hi, p, hp, hn⟩)

theorem putGen_stored {cv : Conv} {c0 : Data} (hs : Sized c0) {ts : List Str} {b : Int} {s : Struct}
    (h : Made cv ts (.gen b s)) {tag : Str} {m : String} {ps : List Par} (hd : Describes cv ts (.gen b tag) m ps)
    {g : Nat} (hg : devIndex c0 "GENERATOR_NUMBER" "GENERATOR_ID" tag = some g) {p : Par} (hp : p ∈ ps)
    (hne : (m, p.key) ∉ externalErrors) {c c' : Data} (hag : Agree c0 c) (hput : putGen s c = some c') :
    p.Stored cv ts c' (some (g : Int)) := by
  cases h with
  | gen hd' hc hid hk hcar =>
    rename_i tag' m' ps' k
    obtain ⟨e1, e2, e3⟩ := gen_unique rfl rfl hd hd'
    obtain rfl := (Place.gen.inj e1).2
    subst e2 e3
    have hdev := devIndex_congr hag (num := "GENERATOR_NUMBER") (id := "GENERATOR_ID") (by decide) (by decide) tag
    unfold putGen at hput
    rw [hid, hdev, hg] at hput
    simp only [hk] at hput
    obtain ⟨d, h1, h2, h3⟩ := hcar (hs.gen hg) c
    rw [hput] at h1
    obtain rfl := Option.some.inj h1
    exact h2 p hp hne

/-- The keys that the struct of a record changes at a load. -/
def LoadTouch (cv : Conv) (c0 : Data) (b : Int) (ts : List Str) (K : Key) : Prop :=
  ∃ tag m ps g, Describes cv ts (.load b tag) m ps ∧
    devIndex c0 "LOAD_NUMBER" "LOAD_ID" tag = some g ∧ K.idx = some (g : Int) ∧
    ∃ p ∈ ps, K.name = p.key.toList

theorem putLoad_step {cv : Conv} {c0 : Data} (hs : Sized c0) {ts : List Str} {b : Int} {s : Struct}
    (h : Made cv ts (.load b s)) : StepOk c0 (putLoad s) (LoadTouch cv c0 b ts) := by
  cases h with
  | load hd hc hid hk hcar =>
    rename_i tag m ps k
    intro c hag
    have hdev := devIndex_congr hag (num := "LOAD_NUMBER") (id := "LOAD_ID") (by decide) (by decide) tag
    unfold putLoad
    rw [hid, hdev]
    cases hg : devIndex c0 "LOAD_NUMBER" "LOAD_ID" tag with
    | none => exact ⟨c, rfl, hag, fun _ _ _ _ => rfl⟩
    | some g =>
      simp only [hk]
      obtain ⟨c', h1, h2, h3⟩ := hcar (hs.load hg) c
      refine ⟨c', h1, hag.trans (agree_of_rest (fun p hp hn => ?_) h3), ?_⟩
      · exact avoids_use loads_names (loads_mem rfl hd) hp (List.mem_cons_of_mem _ hn)
      · intro t K hK hT
        refine h3 t K hK (fun hi p hp hn => hT ⟨tag, m, ps, g, hd, hg, hi, p, hp, hn⟩)

theorem putLoad_stored {cv : Conv} {c0 : Data} (hs : Sized c0) {ts : List Str} {b : Int} {s : Struct}
    (h : Made cv ts (.load b s)) {tag : Str} {m : String} {ps : List Par} (hd : Describes cv ts (.load b tag) m ps)
    {g : Nat} (hg : devIndex c0 "LOAD_NUMBER" "LOAD_ID" tag = some g) {p : Par} (hp : p ∈ ps)
    (hne : (m, p.key) ∉ externalErrors) {c c' : Data} (hag : Agree c0 c) (hput : putLoad s c = some c') :
    p.Stored cv ts c' (some (g : Int)) := by
  cases h with
  | load hd' hc hid hk hcar =>
    rename_i tag' m' ps' k
    obtain ⟨e1, e2, e3⟩ := load_unique rfl rfl hd hd'
    obtain rfl := (Place.load.inj e1).2
    subst e2 e3
    have hdev := devIndex_congr hag (num := "LOAD_NUMBER") (id := "LOAD_ID") (by decide) (by decide) tag
    unfold putLoad at hput
    rw [hid, hdev, hg] at hput
    simp only [hk] at hput
    obtain ⟨d, h1, h2, h3⟩ := hcar (hs.load hg) c
    rw [hput] at h1
    obtain rfl := Option.some.inj h1
    exact h2 p hp hne

end GridPACK.Dyr
