import Mathlib.Tactic.Linarith

/-! Writes to an array in any order. -/
namespace GridPACK.PutFold

/-- If all writes to a place carry the same value, the place holds that value afterwards; a place
that is not written keeps its content. -/
theorem put_fold {K W : Type} [DecidableEq K] (step : (K → W) → K × W → K → W)
    (hs : ∀ g w i, step g w i = if i = w.1 then w.2 else g i) (ws : List (K × W)) (g : K → W) (i : K)
    (v : W) (h : ∀ w ∈ ws, w.1 = i → w.2 = v) :
    ((∃ w ∈ ws, w.1 = i) → ws.foldl step g i = v) ∧
    ((∀ w ∈ ws, w.1 ≠ i) → ws.foldl step g i = g i) := by
  induction ws generalizing g with
  | nil => exact ⟨fun ⟨w, hw, _⟩ => absurd hw (by simp), fun _ => rfl⟩
  | cons w ws ih =>
    obtain ⟨h1, h2⟩ := ih (step g w) (fun w' hw' => h w' (List.mem_cons_of_mem _ hw'))
    rw [List.foldl_cons]
    constructor
    · intro hx
      by_cases hex : ∃ w' ∈ ws, w'.1 = i
      · exact h1 hex
      · have hall : ∀ w' ∈ ws, w'.1 ≠ i := fun w' hw' he => hex ⟨w', hw', he⟩
        rw [h2 hall, hs]
        by_cases hw : i = w.1
        · rw [if_pos hw]; exact h w (by simp) hw.symm
        · exfalso
          obtain ⟨w', hw', he⟩ := hx
          rcases List.mem_cons.mp hw' with rfl | hm
          · exact hw he.symm
          · exact hall w' hm he
    · intro hall
      rw [h2 (fun w' hw' => hall w' (List.mem_cons_of_mem _ hw')), hs, if_neg]
      intro he; exact hall w (by simp) he.symm

end GridPACK.PutFold
