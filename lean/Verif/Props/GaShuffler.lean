import Verif.Model.GaShuffler
import Verif.Props.Shuffler

/-! C97: the shuffler using global arrays delivers the same as the one using messages. -/
namespace GridPACK.GaShuffler

variable {α : Type}

theorem round_loc (nprocs : Nat) (enc : List α → List Int) (dec : List Int → List α) (hdec : ∀ l, dec (enc l) = l)
    (tosend : Nat → Nat → List α) (s : State α) (src me : Nat) (hme : me < nprocs) :
    (round nprocs enc dec tosend s src).loc me =
      s.loc me ++ (if me = src then [] else tosend src me) := by
  unfold round receive send
  by_cases h : me = src
  · subst h; simp
  · simp only [hme, h, ne_eq, not_false_eq_true, and_self, if_true, if_false, true_and]
    congr 1
    have : (List.range (enc (tosend src me)).length).map
        (fun k => if k < (enc (tosend src me)).length then (enc (tosend src me)).getD k 0 else s.ga me k) =
        enc (tosend src me) := by
      apply List.ext_getElem?
      intro k
      by_cases hk : k < (enc (tosend src me)).length
      · rw [List.getElem?_map, List.getElem?_range hk]
        simp [hk, List.getD_eq_getElem?_getD]
      · rw [List.getElem?_eq_none (by simpa using hk), List.getElem?_eq_none (by omega)]
    rw [this, hdec]

theorem rounds_loc (nprocs : Nat) (enc : List α → List Int) (dec : List Int → List α) (hdec : ∀ l, dec (enc l) = l)
    (tosend : Nat → Nat → List α) (l : List Nat) (s : State α) (me : Nat) (hme : me < nprocs) :
    (l.foldl (round nprocs enc dec tosend) s).loc me =
      s.loc me ++ l.flatMap (fun src => if me = src then [] else tosend src me) := by
  induction l generalizing s with
  | nil => simp
  | cons a l ih =>
    rw [List.foldl_cons, ih, round_loc nprocs enc dec hdec tosend s a me hme, List.flatMap_cons, List.append_assoc]

/-- C97: for every serialisation that can be read back, whatever the global arrays contained, things addressed to
existing processes reach the same process in the same order with both shufflers. -/
theorem C97_same_as_messages (nprocs : Nat) (enc : List α → List Int) (dec : List Int → List α)
    (hdec : ∀ l, dec (enc l) = l) (garbage : Nat → Nat → Int) (garbageSize : Nat → Nat)
    (inp : Nat → List (α × Int)) (h : ∀ p, p < nprocs → ∀ it ∈ inp p, 0 ≤ it.2 ∧ it.2 < (nprocs : Int)) :
    ∃ out out', shuffle nprocs enc dec garbage garbageSize inp = some out ∧
      Shuffler.shuffle nprocs inp = some out' ∧ ∀ p, p < nprocs → out p = out' p := by
  by_cases hn : nprocs ≤ 1
  · exact ⟨_, _, by unfold shuffle; rw [if_pos hn], by unfold Shuffler.shuffle; rw [if_pos hn], fun _ _ => rfl⟩
  · by_cases htot : ((List.range nprocs).map (fun p => (inp p).length)).sum = 0
    · exact ⟨_, _, by unfold shuffle; rw [if_neg hn, if_pos htot],
        by unfold Shuffler.shuffle; rw [if_neg hn, if_pos htot], fun _ _ => rfl⟩
    · obtain ⟨out', h1, h2⟩ := Shuffler.shuffle_eq nprocs (by omega) inp h htot
      have hall : (List.range nprocs).all (fun p => (Shuffler.sortOut nprocs p (inp p)).isSome) = true := by
        rw [List.all_eq_true]
        intro p hp
        obtain ⟨ts, e, -⟩ := Shuffler.sortOut_spec nprocs p (inp p) (h p (List.mem_range.mp hp))
        rw [e]; rfl
      refine ⟨_, out', by unfold shuffle; rw [if_neg hn, if_neg htot, if_pos hall], h1, ?_⟩
      intro p hp
      rw [h2 p hp]
      rw [rounds_loc nprocs enc dec hdec _ _ _ p hp]
      obtain ⟨ts, e, -⟩ := Shuffler.sortOut_spec nprocs p (inp p) (h p hp)
      dsimp only
      rw [e]
      simp only [Option.map_some, Option.getD_some]
      congr 1
      apply List.flatMap_congr
      intro src hsrc
      by_cases hps : p = src
      · rw [if_pos hps, if_pos hps]
      · obtain ⟨ts', e', h'⟩ := Shuffler.sortOut_spec nprocs src (inp src) (h src (List.mem_range.mp hsrc))
        rw [if_neg hps, if_neg hps, e']
        simp only [Option.map_some, Option.getD_some]
        rw [h' p, if_neg hps]

example : ∃ (enc : List Int → List Int) (dec : List Int → List Int), (∀ l, dec (enc l) = l) ∧
    (shuffle 3 enc dec (fun _ _ => 77) (fun _ => 5)
      (fun p => if p = 0 then [(10, 1), (11, 2), (12, 0)] else if p = 1 then [(20, 2), (21, 1)] else [(30, 1)])).map
        (fun out => [out 0, out 1, out 2]) = some [[12], [21, 10, 30], [11, 20]] :=
  ⟨fun l => 22 :: l, fun l => l.tail, by intro l; rfl, by decide⟩

end GridPACK.GaShuffler
