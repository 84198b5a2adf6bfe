import Verif.Lemmas.DeviceLoad

/-! Lemmas on the devices of a generator. -/
namespace GridPACK.DeviceLoad
open StringUtils DataCollection Dyr DyrSpec DeviceSpec
open RawBus (Val Data get idxOk mapKey_some getValue_get)

theorem device_on {c : Data} {i : Int} (hi : idxOk (some i)) (junk : Struct) {sl : Slot} {f : String}
    (hf : sl.flag = some f) (h : get c .bool ⟨f.toList, some i⟩ = some true) :
    device c i junk sl = (get c .string ⟨sl.model.toList, some i⟩).bind fun n =>
      (sl.create n).bind fun x => (load c i x.2 junk).map fun s => some (x.1, s) := by
  unfold device
  simp only [hf]
  rw [getValue_get c .bool _ (show Val .bool from false) (key_some hi f), Option.bind_some]
  rw [getValue_get c .string _ (show Val .string from ([] : Str)) (key_some hi sl.model), Option.bind_some, h]
  cases get c .string ⟨sl.model.toList, some i⟩ <;> simp

theorem device_off {c : Data} {i : Int} (hi : idxOk (some i)) (junk : Struct) {sl : Slot} {f : String}
    (hf : sl.flag = some f) (h : get c .bool ⟨f.toList, some i⟩ = none) : device c i junk sl = some none := by
  unfold device
  simp only [hf]
  rw [getValue_get c .bool _ (show Val .bool from false) (key_some hi f), Option.bind_some, h]
  simp

theorem allDevices_eq {c : Data} {i : Int} {junk : Slot → Struct} {x : String × List Step} {s : Struct}
    (hs : load c i x.2 (junk .generator) = some s) (devs : Devices) (hg : devs .generator = some (x.1, s))
    (hd : ∀ sl, sl ≠ .generator → device c i (junk sl) sl = some (devs sl)) :
    allDevices c i junk x = some devs := by
  unfold allDevices
  rw [hs, hd _ (show Slot.exciter ≠ .generator by decide),
    hd _ (show Slot.governor ≠ .generator by decide), hd _ (show Slot.pss ≠ .generator by decide),
    hd _ (show Slot.plant ≠ .generator by decide), hd _ (show Slot.torque ≠ .generator by decide),
    hd _ (show Slot.pitch ≠ .generator by decide), hd _ (show Slot.drivetrain ≠ .generator by decide),
    hd _ (show Slot.aero ≠ .generator by decide)]
  refine congrArg some ?_
  funext sl
  cases sl with
  | generator => exact hg.symm
  | _ => rfl

theorem allDevices_slots {c : Data} {i : Int} {junk : Slot → Struct} {x : String × List Step} {devs : Devices}
    (h : allDevices c i junk x = some devs) :
    (∃ s, load c i x.2 (junk .generator) = some s ∧ devs .generator = some (x.1, s)) ∧
    ∀ sl, sl ≠ .generator → device c i (junk sl) sl = some (devs sl) := by
  unfold allDevices at h
  obtain ⟨s, h2, h⟩ := Option.bind_eq_some_iff.mp h
  obtain ⟨gov, h3, h⟩ := Option.bind_eq_some_iff.mp h
  obtain ⟨ex, h4, h⟩ := Option.bind_eq_some_iff.mp h
  obtain ⟨pss, h5, h⟩ := Option.bind_eq_some_iff.mp h
  obtain ⟨pl, h6, h⟩ := Option.bind_eq_some_iff.mp h
  obtain ⟨tc, h7, h⟩ := Option.bind_eq_some_iff.mp h
  obtain ⟨pc, h8, h⟩ := Option.bind_eq_some_iff.mp h
  obtain ⟨dt, h9, h⟩ := Option.bind_eq_some_iff.mp h
  obtain ⟨ae, h10, h⟩ := Option.bind_eq_some_iff.mp h
  obtain rfl := Option.some.inj h
  refine ⟨⟨s, h2, rfl⟩, fun sl hsl => ?_⟩
  cases sl with
  | generator => exact absurd rfl hsl
  | exciter => exact h4
  | governor => exact h3
  | pss => exact h5
  | plant => exact h6
  | torque => exact h7
  | pitch => exact h8
  | drivetrain => exact h9
  | aero => exact h10

open Classical in
theorem loadGenerator_run {c : Data} {i : Int} (hi : idxOk (some i)) (pg : ℝ) (junk : Slot → Struct) {p : ℝ} {n : Str}
    (hp : get c .double ⟨"GENERATOR_PG".toList, some i⟩ = some p)
    (hn : get c .string ⟨"GENERATOR_MODEL".toList, some i⟩ = some n) (h0 : 0 ≤ p) :
    loadGenerator c i pg junk = (Slot.create .generator n).bind fun x => (allDevices c i junk x).map some := by
  unfold loadGenerator
  rw [getValue_get c .double _ (show Val .double from pg) (key_some hi "GENERATOR_PG"),
    getValue_get c .string _ (show Val .string from ([] : Str)) (key_some hi "GENERATOR_MODEL"), hp, hn,
    Option.bind_some, Option.bind_some]
  exact if_pos ⟨rfl, h0⟩

open Classical in
theorem loadGenerator_slots {c : Data} {i : Int} (hi : idxOk (some i)) {pg : ℝ} {junk : Slot → Struct}
    {devs : Devices} (h : loadGenerator c i pg junk = some (some devs)) :
    (∃ n m es s, get c .string ⟨"GENERATOR_MODEL".toList, some i⟩ = some n ∧
      Slot.create .generator n = some (m, es) ∧ load c i es (junk .generator) = some s ∧
      devs .generator = some (m, s)) ∧
    ∀ sl, sl ≠ .generator → device c i (junk sl) sl = some (devs sl) := by
  unfold loadGenerator at h
  rw [getValue_get c .double _ (show Val .double from pg) (key_some hi "GENERATOR_PG"),
    getValue_get c .string _ (show Val .string from ([] : Str)) (key_some hi "GENERATOR_MODEL"),
    Option.bind_some, Option.bind_some] at h
  cases hn : get c .string ⟨"GENERATOR_MODEL".toList, some i⟩ with
  | none => rw [hn] at h; simp at h
  | some n =>
    rw [hn] at h
    split_ifs at h
    · obtain ⟨⟨m, es⟩, h1, h2⟩ := Option.bind_eq_some_iff.mp h
      obtain ⟨d, h3, h4⟩ := Option.map_eq_some_iff.mp h2
      obtain rfl := Option.some.inj h4
      obtain ⟨⟨s, h5, h6⟩, h7⟩ := allDevices_slots h3
      exact ⟨⟨n, m, es, s, rfl, h1, h5, h6⟩, h7⟩
    · simp at h

theorem loadGenerator_none {c : Data} {i : Int} (hi : idxOk (some i)) (pg : ℝ) (junk : Slot → Struct) {p : ℝ} {n : Str}
    (hp : get c .double ⟨"GENERATOR_PG".toList, some i⟩ = some p)
    (hn : get c .string ⟨"GENERATOR_MODEL".toList, some i⟩ = some n) (h0 : 0 ≤ p) {sl : Slot}
    (hd : device c i (junk sl) sl = none) : loadGenerator c i pg junk = none := by
  rw [loadGenerator_run hi pg junk hp hn h0]
  cases hc : Slot.create .generator n with
  | none => rfl
  | some x =>
    rw [Option.bind_some]
    cases ha : allDevices c i junk x with
    | none => rfl
    | some devs =>
      by_cases hsl : sl = .generator
      · subst hsl; simp [device, Slot.flag] at hd
      · have := (allDevices_slots ha).2 sl hsl
        rw [hd] at this; simp at this

end GridPACK.DeviceLoad
