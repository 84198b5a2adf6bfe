import Verif.Model.Composite

/-! What is expected of a composite load at the start of the simulation. -/
namespace GridPACK.Composite

/-- Power in per unit taken from the bus of the load by the transformer of the composite load. -/
noncomputable def taken (d : Data) : ℂ := d.vt * (starRingEnd ℂ) (into1 d.xfmr d.vt d.voltLow)

/-- The initial voltages are a solution of the network: the power taken from the bus is the power of the load in the data, the
currents at the low side bus balance, and the power that arrives at the load bus is what the loads there take. -/
structure Balanced (d : Data) (react : StringUtils.Str → ℝ → ℝ) : Prop where
  power : taken d = ⟨d.p / d.sbase, d.q / d.sbase⟩
  low : into2 d.xfmr d.vt d.voltLow + into1 d.feeder d.voltLow d.voltLoad + (⟨0, d.lowShunt⟩ : ℂ) * d.voltLow = 0
  load : d.voltLoad * (starRingEnd ℂ) (-into2 d.feeder d.voltLow d.voltLoad) =
    ⟨((d.loads react).map (·.1)).sum / d.sbase + (d.static react).1,
      ((d.loads react).map (·.2)).sum / d.sbase + (d.static react).2⟩

end GridPACK.Composite
