import Mathlib.Data.List.Induction
import Verif.Spec.LinSolve

/-! Properties of the linear solver object: C250 (solutions of a sequence of calls), C251 (solving for the columns of
a matrix), C252 (tolerances). -/
namespace GridPACK.LinSolve

section
variable {M R : Type}

theorem setRange_length (v : List R) (lo hi : Nat) (x : List R) : (setRange v lo hi x).length = v.length := by
  simp [setRange]

theorem distribute_length (own : List (Nat × Nat)) (r x : List R) : (distribute own r x).length = x.length := by
  unfold distribute
  induction own generalizing x with
  | nil => rfl
  | cons p ps ih => rw [List.foldl_cons, ih, setRange_length]

theorem setRange_getElem? (v : List R) (lo hi : Nat) (x : List R) (i : Nat) :
    (setRange v lo hi x)[i]? = v[i]?.map (fun a => if lo ≤ i ∧ i < hi then x.getD (i - lo) a else a) := by
  simp [setRange]

theorem getRange_getElem? (v : List R) (lo hi i : Nat) (h : lo ≤ i) (h' : i < hi) :
    (getRange v lo hi)[i - lo]? = v[i]? := by
  unfold getRange
  rw [List.getElem?_take_of_lt (by omega), List.getElem?_drop]
  congr 1
  omega

theorem distribute_getElem? (own : List (Nat × Nat)) (r x : List R) (hl : x.length = r.length) (i : Nat) :
    (distribute own r x)[i]? = if ∃ p ∈ own, p.1 ≤ i ∧ i < p.2 then r[i]? else x[i]? := by
  unfold distribute
  induction own generalizing x with
  | nil => simp
  | cons p ps ih =>
    rw [List.foldl_cons, ih _ (by rw [setRange_length]; exact hl), setRange_getElem?]
    by_cases h : ∃ q ∈ ps, q.1 ≤ i ∧ i < q.2
    · rw [if_pos h, if_pos]
      obtain ⟨q, hq, h⟩ := h
      exact ⟨q, List.mem_cons_of_mem _ hq, h⟩
    · rw [if_neg h]
      by_cases hp : p.1 ≤ i ∧ i < p.2
      · rw [if_pos ⟨p, List.mem_cons_self, hp⟩]
        simp only [hp, and_self, if_true]
        simp only [List.getD_eq_getElem?_getD, getRange_getElem? r p.1 p.2 i hp.1 hp.2]
        by_cases hi : i < r.length
        · rw [List.getElem?_eq_getElem hi, List.getElem?_eq_getElem (by omega : i < x.length)]; rfl
        · rw [List.getElem?_eq_none (by omega), List.getElem?_eq_none (by omega)]; rfl
      · rw [if_neg]
        · simp [hp]
        · rintro ⟨q, hq, h'⟩
          rcases List.mem_cons.mp hq with rfl | hq
          · exact hp h'
          · exact h ⟨q, hq, h'⟩

theorem distribute_eq (own : List (Nat × Nat)) (r x : List R) (hl : x.length = r.length)
    (hc : Covers own r.length) : distribute own r x = r := by
  apply List.ext_getElem?
  intro i
  rw [distribute_getElem? own r x hl]
  by_cases h : i < r.length
  · rw [if_pos (hc i h)]
  · split
    · rfl
    · rw [List.getElem?_eq_none (by omega), List.getElem?_eq_none (by omega)]

/-- The collected right hand side of a later call keeps the last entry of the earlier one. -/
theorem prepRhs_some (o b : List R) (hl : o.length = b.length) :
    (prepRhs (some o) b).length = b.length ∧ (prepRhs (some o) b).getLast? = o.getLast? ∧
      (prepRhs (some o) b).dropLast = b.dropLast := by
  have h1 : (prepRhs (some o) b).length = b.length := by simp [prepRhs, setRange_length, hl]
  refine ⟨h1, ?_, ?_⟩
  · rw [List.getLast?_eq_getElem?, List.getLast?_eq_getElem?, h1, hl]
    simp only [prepRhs, setRange_getElem?]
    cases h : o[b.length - 1]? with
    | none => rfl
    | some v => simp
  · apply List.ext_getElem?
    intro i
    by_cases h : i < b.length - 1
    · rw [List.getElem?_dropLast, List.getElem?_dropLast, h1, if_pos h, if_pos h]
      simp only [prepRhs, setRange_getElem?]
      rw [List.getElem?_eq_getElem (by omega : i < o.length), List.getElem?_eq_getElem (by omega : i < b.length)]
      simp [h, List.getD_eq_getElem?_getD, List.getElem?_eq_getElem (by omega : i < b.length)]
    · rw [List.getElem?_dropLast, List.getElem?_dropLast, h1, if_neg h, if_neg h]

theorem eq_of_last (b c : List R) (hl : b.length = c.length) (h1 : b.getLast? = c.getLast?)
    (h2 : b.dropLast = c.dropLast) : b = c := by
  apply List.ext_getElem?
  intro i
  by_cases h : i < b.length - 1
  · have := congrArg (fun l => l[i]?) h2
    simp only [List.getElem?_dropLast] at this
    rw [if_pos h, if_pos (by omega)] at this
    exact this
  · by_cases h' : i = b.length - 1
    · rw [List.getLast?_eq_getElem?, List.getLast?_eq_getElem?, ← hl] at h1
      rw [h']; exact h1
    · rw [List.getElem?_eq_none (by omega), List.getElem?_eq_none (by omega)]

/-- The collected right hand side, in terms of the last entry kept. -/
theorem prepRhs_eq_iff (o b : List R) (hl : o.length = b.length) :
    prepRhs (some o) b = b ↔ o.getLast? = b.getLast? := by
  obtain ⟨h1, h2, h3⟩ := prepRhs_some o b hl
  constructor
  · intro h
    rw [← h2, h]
  · intro h
    exact eq_of_last _ _ h1 (by rw [h2, h]) h3

theorem after_append (ksp : M → List R → Option (List R) → Option (List R)) (cfg : Cfg) (own : List (Nat × Nat))
    (calls : List (Call M R)) (c : Call M R) :
    after ksp cfg own (calls ++ [c]) = (c.run ksp cfg own (after ksp cfg own calls)).1 := by
  simp [after]

theorem parallel_oper (ksp : M → List R → Option (List R) → Option (List R)) (cfg : Cfg) (own : List (Nat × Nat))
    (hs : cfg.serial = false) (calls : List (Call M R)) :
    (∀ c, (after ksp cfg own calls).oper ≠ .copy c) ∧
      ((after ksp cfg own calls).matrixSet = true → (after ksp cfg own calls).oper = .live) := by
  induction calls using List.reverseRecOn with
  | nil => exact ⟨(by intro c h; cases h), (by intro h; cases h)⟩
  | append_singleton cs c ih =>
    rw [after_append]
    cases c with
    | solve a b x =>
      simp only [Call.run, solve, hs, if_false, Bool.false_eq_true]
      split
      · rename_i h
        have h' := ih.2 (by simp at h; exact h.1)
        exact ⟨ih.1, fun _ => h'⟩
      · exact ⟨(by intro c h; cases h), fun _ => rfl⟩
    | resolve a b x => simpa only [Call.run, resolve, hs, if_false, Bool.false_eq_true] using ih

/-- **C250** (solving on all the processes together).  Without the serial mode, whatever was solved before with
whatever matrices, a solution delivered by `solve` or by `resolve` solves the system with the present matrix and the
right hand side of the call, and `resolve` of a solver that has not solved anything delivers nothing. -/
theorem C250_parallel_partial (mul : M → List R → List R) (ksp : M → List R → Option (List R) → Option (List R))
    (hk : Exact mul ksp) (cfg : Cfg) (own : List (Nat × Nat)) (hs : cfg.serial = false)
    (calls : List (Call M R)) (a : M) (b x r : List R) :
    ((solve ksp cfg own (after ksp cfg own calls) a b x).2 = some r → mul a r = b) ∧
    ((resolve ksp cfg own (after ksp cfg own calls) a b x).2 = some r → mul a r = b) ∧
    (resolve ksp cfg own (after ksp cfg own []) a b x).2 = none := by
  obtain ⟨h1, h2⟩ := parallel_oper ksp cfg own hs calls
  have key : ∀ op : Oper M, (∀ c, op ≠ .copy c) → kspSolve ksp cfg op a b x = some r → mul a r = b := by
    intro op hop h
    cases op with
    | unset => cases h
    | live => exact (hk a b _ r h).1
    | copy c => exact absurd rfl (hop c)
  refine ⟨?_, ?_, ?_⟩
  · intro h
    simp only [solve, hs, if_false, Bool.false_eq_true] at h
    refine key _ ?_ h
    split
    · exact h1
    · intro c h; cases h
  · intro h
    simp only [resolve, hs, if_false, Bool.false_eq_true] at h
    exact key _ h1 h
  · simp [resolve, hs, after, State.start, kspSolve]

/-- The operator and the collected matrix of the serial mode, in terms of the matrix in force. -/
def MatOk (st : State M R) : Option M → Prop
  | none => st.oper = .unset ∧ st.matrixSet = false ∧ st.serialMatrix = none
  | some m => st.oper = .copy m ∧ st.matrixSet = true ∧ st.serialMatrix = some m

/-- The collected right hand side of the serial mode, in terms of the first call. -/
def RhsOk (n : Nat) (rhs : Option (List R)) : Option (Call M R) → Prop
  | none => rhs = none
  | some c => ∃ o, rhs = some o ∧ o.length = n ∧ o.getLast? = c.rhs.getLast?

theorem serialRun_fst (ksp : M → List R → Option (List R) → Option (List R)) (cfg : Cfg) (own : List (Nat × Nat))
    (st' : State M R) (a : M) (b x : List R) :
    (serialRun ksp cfg own st' a b x).1.rhs = some (prepRhs st'.rhs b) ∧
    (serialRun ksp cfg own st' a b x).1.oper = st'.oper ∧
    (serialRun ksp cfg own st' a b x).1.matrixSet = st'.matrixSet ∧
    (serialRun ksp cfg own st' a b x).1.serialMatrix = st'.serialMatrix := by
  unfold serialRun
  dsimp only
  split <;> exact ⟨rfl, rfl, rfl, rfl⟩

/-- The collected objects of the serial mode after a sequence of calls: the operator is the matrix in force, and the
right hand side ends with the last entry of the first right hand side. -/
theorem serial_state (ksp : M → List R → Option (List R) → Option (List R)) (cfg : Cfg) (own : List (Nat × Nat))
    (hs : cfg.serial = true) (n : Nat) (calls : List (Call M R)) (hn : ∀ c ∈ calls, c.rhs.length = n) :
    MatOk (after ksp cfg own calls) (matrixInForce cfg.constMatrix calls) ∧
    RhsOk n (after ksp cfg own calls).rhs calls.head? := by
  induction calls using List.reverseRecOn with
  | nil => simp [matrixInForce, after, State.start, MatOk, RhsOk]
  | append_singleton cs c ih =>
    have hn' : ∀ c ∈ cs, c.rhs.length = n := fun d hd => hn d (by simp [hd])
    have hc : c.rhs.length = n := hn c (by simp)
    obtain ⟨i1, i2⟩ := ih hn'
    rw [after_append]
    generalize after ksp cfg own cs = st at i1 i2
    have hrhs : ∀ b : List R, b.length = n → ∀ c' : Call M R, c'.rhs = b →
        RhsOk n (some (prepRhs st.rhs b)) (cs ++ [c']).head? := by
      intro b hb c' hc'
      cases cs with
      | nil =>
        have i2 : st.rhs = none := i2
        exact ⟨b, by rw [i2]; rfl, hb, by rw [hc']⟩
      | cons d ds =>
        obtain ⟨o, ho, hol, hoe⟩ : ∃ o, st.rhs = some o ∧ o.length = n ∧ o.getLast? = d.rhs.getLast? := i2
        obtain ⟨p1, p2, _⟩ := prepRhs_some o b (by omega)
        exact ⟨_, rfl, by rw [ho]; omega, by rw [ho, p2, hoe]⟩
    cases c with
    | solve a b x =>
      simp only [Call.run, solve, hs, if_true]
      refine ⟨?_, ?_⟩
      · simp only [matrixInForce, List.foldl_append, List.foldl_cons, List.foldl_nil]
        simp only [matrixInForce] at i1
        generalize List.foldl _ none cs = m at i1 ⊢
        cases m with
        | none =>
          obtain ⟨j1, j2, j3⟩ := i1
          simp only [j3, j2, Bool.false_and, Bool.false_eq_true, if_false, Option.getD_none, ite_self]
          obtain ⟨r1, r2, r3, r4⟩ := serialRun_fst ksp cfg own
            { st with serialMatrix := some a, matrixSet := true, oper := .copy a } a b x
          exact ⟨r2, r3, r4⟩
        | some m0 =>
          obtain ⟨j1, j2, j3⟩ := i1
          cases hcm : cfg.constMatrix with
          | true =>
            simp only [j3, j2, j1, Bool.and_self, if_true, Option.getD_some]
            obtain ⟨r1, r2, r3, r4⟩ := serialRun_fst ksp cfg own
              { st with serialMatrix := some m0, matrixSet := true, oper := .copy m0 } a b x
            exact ⟨r2, r3, r4⟩
          | false =>
            simp only [j3, Bool.and_false, Bool.false_eq_true, if_false]
            obtain ⟨r1, r2, r3, r4⟩ := serialRun_fst ksp cfg own
              { st with serialMatrix := some a, matrixSet := true, oper := .copy a } a b x
            exact ⟨r2, r3, r4⟩
      · rw [(serialRun_fst ksp cfg own _ a b x).1]
        exact hrhs b hc (.solve a b x) rfl
    | resolve a b x =>
      simp only [Call.run, resolve, hs, if_true]
      obtain ⟨r1, r2, r3, r4⟩ := serialRun_fst ksp cfg own st a b x
      refine ⟨?_, ?_⟩
      · simp only [matrixInForce, List.foldl_append, List.foldl_cons, List.foldl_nil]
        simp only [matrixInForce] at i1
        generalize List.foldl _ none cs = m at i1 ⊢
        cases m <;> (simp only [MatOk] at i1 ⊢; rw [r2, r3, r4]; exact i1)
      · rw [r1]
        exact hrhs b hc (.resolve a b x) rfl

/-- A solution of the serial mode solves the system with the matrix in force and the collected right hand side. -/
theorem serial_call (mul : M → List R → List R) (ksp : M → List R → Option (List R) → Option (List R))
    (hk : Exact mul ksp) (cfg : Cfg) (own : List (Nat × Nat)) (hs : cfg.serial = true) (n : Nat)
    (hc : Covers own n) (calls : List (Call M R)) (c : Call M R)
    (hn : ∀ d ∈ calls ++ [c], d.rhs.length = n ∧ d.guess.length = n) (r : List R)
    (h : (c.run ksp cfg own (after ksp cfg own calls)).2 = some r) :
    ∃ m, matrixInForce cfg.constMatrix (calls ++ [c]) = some m ∧
      mul m r = prepRhs (after ksp cfg own calls).rhs c.rhs := by
  have hst := (serial_state ksp cfg own hs n (calls ++ [c]) (fun d hd => (hn d hd).1)).1
  have hst0 := (serial_state ksp cfg own hs n calls
    (fun d hd => (hn d (List.mem_append_left _ hd)).1)).2
  have hcl := hn c (by simp)
  have hlen : (prepRhs (after ksp cfg own calls).rhs c.rhs).length = n := by
    cases calls with
    | nil =>
      have : (after ksp cfg own ([] : List (Call M R))).rhs = none := rfl
      rw [this]; exact hcl.1
    | cons d ds =>
      obtain ⟨o, ho, hol, _⟩ := hst0
      rw [ho, (prepRhs_some o c.rhs (by omega)).1]; exact hcl.1
  rw [after_append] at hst
  generalize hstate : after ksp cfg own calls = st at *
  have hrun : ∀ (st' : State M R) (a : M) (b x : List R), st'.rhs = st.rhs → b = c.rhs → x = c.guess →
      (serialRun ksp cfg own st' a b x).2 = some r →
      MatOk (serialRun ksp cfg own st' a b x).1 (matrixInForce cfg.constMatrix (calls ++ [c])) →
      ∃ m, matrixInForce cfg.constMatrix (calls ++ [c]) = some m ∧ mul m r = prepRhs st.rhs c.rhs := by
    intro st' a b x e1 e2 e3 hr hm
    subst e2 e3
    have hoper := (serialRun_fst ksp cfg own st' a c.rhs c.guess).2.1
    unfold serialRun at hr
    dsimp only at hr
    split at hr
    · cases hr
    · rename_i r0 hr0
      have hr : distribute own r0 c.guess = r := Option.some.inj hr
      generalize matrixInForce cfg.constMatrix (calls ++ [c]) = mf at hm ⊢
      cases mf with
      | none =>
        have hm := hm.1
        rw [hoper] at hm
        rw [hm] at hr0
        cases hr0
      | some m =>
        have hm := hm.1
        rw [hoper] at hm
        rw [hm, e1] at hr0
        obtain ⟨q1, q2⟩ := hk m _ _ r0 hr0
        refine ⟨m, rfl, ?_⟩
        rw [← hr, distribute_eq own r0 c.guess (by rw [q2, hlen]; exact hcl.2) (by rw [q2, hlen]; exact hc)]
        exact q1
  cases c with
  | solve a b x =>
    simp only [Call.run, solve, hs, if_true] at h hst
    exact hrun _ a b x (by rfl) rfl rfl h hst
  | resolve a b x =>
    simp only [Call.run, resolve, hs, if_true] at h hst
    exact hrun _ a b x (by rfl) rfl rfl h hst

/-- **C250** (serial mode).  With the serial mode, after any calls with right hand sides whose last entry is that of
the present one, a solution solves the system with the matrix in force (that of the last `solve`, or of the first one
if the matrix is declared constant) and the right hand side of the call. -/
theorem C250_serial_partial (mul : M → List R → List R) (ksp : M → List R → Option (List R) → Option (List R))
    (hk : Exact mul ksp) (cfg : Cfg) (own : List (Nat × Nat)) (hs : cfg.serial = true) (n : Nat)
    (hc : Covers own n) (calls : List (Call M R)) (c : Call M R)
    (hn : ∀ d ∈ calls ++ [c], d.rhs.length = n ∧ d.guess.length = n)
    (hlast : ∀ d ∈ calls, d.rhs.getLast? = c.rhs.getLast?) (r : List R)
    (h : (c.run ksp cfg own (after ksp cfg own calls)).2 = some r) :
    ∃ m, matrixInForce cfg.constMatrix (calls ++ [c]) = some m ∧ mul m r = c.rhs := by
  obtain ⟨m, hm, he⟩ := serial_call mul ksp hk cfg own hs n hc calls c hn r h
  refine ⟨m, hm, ?_⟩
  rw [he]
  cases calls with
  | nil => rfl
  | cons d ds =>
    obtain ⟨o, ho, hol, hoe⟩ := (serial_state ksp cfg own hs n (d :: ds)
      (fun e he => (hn e (List.mem_append_left _ he)).1)).2
    rw [ho]
    exact (prepRhs_eq_iff o c.rhs (by rw [hol, (hn c (by simp)).1])).mpr
      (by rw [hoe]; exact hlast d List.mem_cons_self)

/-- **C250** (violated).  With the serial mode on several processes, from the second call on the last entry of the
right hand side is not passed to the solver: whatever the matrix, a solution delivered for a right hand side whose
last entry differs from that of the first call never solves the system of the call. -/
theorem C250_serial_violated (mul : M → List R → List R) (ksp : M → List R → Option (List R) → Option (List R))
    (hk : Exact mul ksp) (cfg : Cfg) (own : List (Nat × Nat)) (hs : cfg.serial = true) (n : Nat)
    (hc : Covers own n) (first : Call M R) (calls : List (Call M R)) (c : Call M R)
    (hn : ∀ d ∈ first :: calls ++ [c], d.rhs.length = n ∧ d.guess.length = n)
    (hlast : first.rhs.getLast? ≠ c.rhs.getLast?) (r : List R)
    (h : (c.run ksp cfg own (after ksp cfg own (first :: calls))).2 = some r) :
    ∃ m, matrixInForce cfg.constMatrix (first :: calls ++ [c]) = some m ∧ mul m r ≠ c.rhs ∧
      (mul m r).dropLast = c.rhs.dropLast ∧ (mul m r).getLast? = first.rhs.getLast? := by
  obtain ⟨m, hm, he⟩ := serial_call mul ksp hk cfg own hs n hc (first :: calls) c hn r h
  obtain ⟨o, ho, hol, hoe⟩ := (serial_state ksp cfg own hs n (first :: calls)
    (fun e he => (hn e (List.mem_append_left _ he)).1)).2
  have hl : o.length = c.rhs.length := by rw [hol, (hn c (by simp)).1]
  rw [ho] at he
  obtain ⟨_, p2, p3⟩ := prepRhs_some o c.rhs hl
  refine ⟨m, hm, ?_, ?_, ?_⟩
  · rw [he]
    intro hh
    exact hlast (by rw [← hoe]; exact (prepRhs_eq_iff o c.rhs hl).mp hh)
  · rw [he]; exact p3
  · rw [he, p2]; exact hoe

/-- A solver of diagonal systems of integers (for the examples). -/
def diagKsp (a b : List Int) (_ : Option (List Int)) : Option (List Int) :=
  if a.length = b.length ∧ (List.zip a b).all (fun p => p.1 == 1 || p.1 == -1) then
    some (List.zipWith (· * ·) a b) else none

/-- The settings of the input file `ForceSerial` = true on two processes; the second solve uses the old last entry. -/
example : let cfg := configure (some true) none none 2
    let st := after diagKsp cfg [(0, 1), (1, 2)] [.solve [1, 1] [5, 7] [0, 0]]
    cfg.serial = true ∧ (solve diagKsp cfg [(0, 1), (1, 2)] st [1, 1] [3, 4] [0, 0]).2 = some [3, 7] := by decide

/-- On one process `ForceSerial` has no effect. -/
example : (configure (some true) none none 1).serial = false ∧
    (solve diagKsp (configure (some true) none none 1) [(0, 2)]
      (after diagKsp (configure (some true) none none 1) [(0, 2)] [.solve [1, 1] [5, 7] [0, 0]])
      [1, 1] [3, 4] [0, 0]).2 = some [3, 4] := by decide

/-- The hypotheses on the solver and on the distribution can be met. -/
example : Exact (List.zipWith (· * ·)) diagKsp ∧ Covers [(0, 1), (1, 2)] 2 := by
  refine ⟨?_, ?_⟩
  · intro a b g x h
    unfold diagKsp at h
    split at h
    · rename_i hh
      obtain ⟨h1, h2⟩ := hh
      have h : List.zipWith (· * ·) a b = x := Option.some.inj h
      subst h
      clear g h
      induction a generalizing b with
      | nil => cases b with
        | nil => simp
        | cons _ _ => simp at h1
      | cons u us ih =>
        cases b with
        | nil => simp at h1
        | cons v vs =>
          simp only [List.zip_cons_cons, List.all_cons, Bool.and_eq_true] at h2
          obtain ⟨i1, i2⟩ := ih vs (by simpa using h1) h2.2
          have hu : u * (u * v) = v := by
            have := h2.1
            simp at this
            rcases this with e | e <;> subst e <;> omega
          simp only [List.zipWith_cons_cons, hu, i1, List.length_cons, i2, and_self]
    · cases h
  · intro i hi
    by_cases h : i < 1
    · exact ⟨(0, 1), by simp, by omega, h⟩
    · exact ⟨(1, 2), by simp, by dsimp only; omega, by dsimp only; omega⟩

/-! ### Several right hand sides -/

theorem columnsFrom_spec (ksp : M → List R → Option (List R) → Option (List R)) (cfg : Cfg)
    (own : List (Nat × Nat)) (a : M) (zero : List R) (st : State M R) (bs rs : List (List R))
    (h : (columnsFrom ksp cfg own a zero st bs).2 = some rs) :
    rs.length = bs.length ∧ ∀ j b, bs[j]? = some b → ∃ r, rs[j]? = some r ∧
      (resolve ksp cfg own ((bs.take j).foldl (fun s d => (resolve ksp cfg own s a d zero).1) st) a b zero).2
        = some r := by
  induction bs generalizing st rs with
  | nil =>
    simp only [columnsFrom, Option.some.injEq] at h
    subst h
    simp
  | cons b0 bs ih =>
    simp only [columnsFrom] at h
    split at h
    · cases h
    · rename_i st' r hr
      split at h
      · cases h
      · rename_i st'' rs' hrs
        have h : r :: rs' = rs := Option.some.inj h
        subst h
        obtain ⟨i1, i2⟩ := ih st' rs' (by rw [hrs])
        refine ⟨by simp [i1], ?_⟩
        intro j b hj
        cases j with
        | zero =>
          have : b0 = b := by simpa using hj
          subst this
          exact ⟨r, rfl, by simp [hr]⟩
        | succ j =>
          obtain ⟨r', h1, h2⟩ := i2 j b (by simpa using hj)
          refine ⟨r', by simpa using h1, ?_⟩
          rw [List.take_succ_cons, List.foldl_cons, hr]
          exact h2

/-- The solutions for the columns are those of the single calls: a `solve`, then a `resolve` for each column. -/
theorem solveColumns_spec (ksp : M → List R → Option (List R) → Option (List R)) (cfg : Cfg)
    (own : List (Nat × Nat)) (a : M) (zero : List R) (calls : List (Call M R)) (cols rs : List (List R))
    (h : (solveColumns ksp cfg own (after ksp cfg own calls) a zero cols).2 = some rs) :
    rs.length = cols.length ∧ ∀ (j : Nat) b, cols[j]? = some b → ∃ r, rs[j]? = some r ∧
      ∃ (hist : List (Call M R)) (c : Call M R), c.rhs = b ∧ c.guess = zero ∧
        (c.run ksp cfg own (after ksp cfg own (calls ++ hist))).2 = some r ∧
        hist.map Call.rhs = cols.take j ∧ (∀ d ∈ hist, d.guess = zero) ∧
        c.matrix = a ∧
        (cfg.constMatrix = false ∨ calls = [] →
          matrixInForce cfg.constMatrix (calls ++ hist ++ [c]) = some a) := by
  unfold solveColumns at h
  cases cols with
  | nil =>
    simp only [Option.some.injEq] at h
    subst h
    simp
  | cons b0 bs =>
    dsimp only at h
    split at h
    · cases h
    · rename_i st' r0 hr0
      split at h
      · cases h
      · rename_i st'' rs' hrs
        have h : r0 :: rs' = rs := Option.some.inj h
        subst h
        obtain ⟨i1, i2⟩ := columnsFrom_spec ksp cfg own a zero st' bs rs' (by rw [hrs])
        refine ⟨by simp [i1], ?_⟩
        intro j b hj
        cases j with
        | zero =>
          have : b0 = b := by simpa using hj
          subst this
          refine ⟨r0, rfl, [], .solve a b0 zero, rfl, rfl, ?_, rfl, by simp, rfl, ?_⟩
          · simp only [List.append_nil, Call.run, hr0]
          · rintro (h | h)
            · simp [matrixInForce, h]
            · simp [matrixInForce, h]
        | succ j =>
          obtain ⟨r', h1, h2⟩ := i2 j b (by simpa using hj)
          refine ⟨r', by simpa using h1,
            .solve a b0 zero :: (bs.take j).map (fun d => .resolve a d zero), .resolve a b zero, rfl, rfl, ?_, ?_,
            ?_, rfl, ?_⟩
          · have : after ksp cfg own (calls ++ .solve a b0 zero :: (bs.take j).map (fun d => .resolve a d zero))
                = (bs.take j).foldl (fun s d => (resolve ksp cfg own s a d zero).1) st' := by
              unfold after
              rw [List.foldl_append, List.foldl_cons, List.foldl_map]
              have : (Call.run ksp cfg own (List.foldl (fun st c => (Call.run ksp cfg own st c).1)
                  (State.start M R) calls) (.solve a b0 zero)).1 = st' := by
                have := congrArg Prod.fst hr0
                simpa only [Call.run, after] using this
              rw [this]
              rfl
            rw [this]
            exact h2
          · simp [Call.rhs, List.map_map, Function.comp_def]
          · intro d hd
            rcases List.mem_cons.mp hd with rfl | hd
            · rfl
            · obtain ⟨e, _, rfl⟩ := List.mem_map.mp hd
              rfl
          · have key : ∀ (cm : Bool) (l : List (List R)) (pre : List (Call M R)),
                matrixInForce cm (pre ++ l.map (fun d => Call.resolve a d zero)) = matrixInForce cm pre := by
              intro cm l
              induction l with
              | nil => intro pre; simp
              | cons e es ih =>
                intro pre
                have := ih (pre ++ [Call.resolve a e zero])
                rw [List.append_assoc] at this
                rw [List.map_cons]
                refine Eq.trans this ?_
                simp [matrixInForce]
            intro h
            have hk1 := key cfg.constMatrix (bs.take j ++ [b]) (calls ++ [.solve a b0 zero])
            have e : calls ++ Call.solve a b0 zero :: List.map (fun d => Call.resolve a d zero) (List.take j bs) ++
                [Call.resolve a b zero] = calls ++ [.solve a b0 zero] ++
                  (bs.take j ++ [b]).map (fun d => Call.resolve a d zero) := by simp
            rw [e, hk1]
            rcases h with h | h
            · simp [matrixInForce, h]
            · simp [matrixInForce, h]

/-- **C251** (on all the processes together).  Without the serial mode, solving for a matrix of right hand sides
gives one column for each column, and each solves its system, whatever was solved before. -/
theorem C251_parallel_partial (mul : M → List R → List R) (ksp : M → List R → Option (List R) → Option (List R))
    (hk : Exact mul ksp) (cfg : Cfg) (own : List (Nat × Nat)) (hs : cfg.serial = false)
    (calls : List (Call M R)) (a : M) (zero : List R) (cols rs : List (List R))
    (h : (solveColumns ksp cfg own (after ksp cfg own calls) a zero cols).2 = some rs) :
    rs.length = cols.length ∧ ∀ (j : Nat) b, cols[j]? = some b → ∃ r, rs[j]? = some r ∧ mul a r = b := by
  obtain ⟨h1, h2⟩ := solveColumns_spec ksp cfg own a zero calls cols rs h
  refine ⟨h1, fun j b hj => ?_⟩
  obtain ⟨r, hr, hist, c, e1, _, e2, _, _, e3, _⟩ := h2 j b hj
  refine ⟨r, hr, ?_⟩
  subst e1 e3
  cases c with
  | solve a b x => exact (C250_parallel_partial mul ksp hk cfg own hs (calls ++ hist) a b x r).1 e2
  | resolve a b x => exact (C250_parallel_partial mul ksp hk cfg own hs (calls ++ hist) a b x r).2.1 e2

/-- **C251** (violated).  With the serial mode a new solver solves the first column, and of the others just those
whose last entry is that of the first column: for every other column the result is not a solution. -/
theorem C251_serial_violated (mul : M → List R → List R) (ksp : M → List R → Option (List R) → Option (List R))
    (hk : Exact mul ksp) (cfg : Cfg) (own : List (Nat × Nat)) (hs : cfg.serial = true) (n : Nat)
    (hc : Covers own n) (a : M) (zero : List R) (hz : zero.length = n) (b0 : List R) (cols rs : List (List R))
    (hn : ∀ b ∈ b0 :: cols, b.length = n)
    (h : (solveColumns ksp cfg own (State.start M R) a zero (b0 :: cols)).2 = some rs) :
    rs.length = cols.length + 1 ∧ ∀ (j : Nat) b, (b0 :: cols)[j]? = some b → ∃ r, rs[j]? = some r ∧
      (mul a r).dropLast = b.dropLast ∧ (mul a r).getLast? = b0.getLast? ∧
      (mul a r = b ↔ b.getLast? = b0.getLast?) := by
  obtain ⟨h1, h2⟩ := solveColumns_spec ksp cfg own a zero [] (b0 :: cols) rs h
  refine ⟨h1, fun j b hj => ?_⟩
  obtain ⟨r, hr, hist, c, e1, e1', e2, e3, e4, e5, e6⟩ := h2 j b hj
  refine ⟨r, hr, ?_⟩
  have e6 := e6 (Or.inr rfl)
  simp only [List.nil_append] at e2 e6
  have hnn : ∀ d ∈ hist ++ [c], d.rhs.length = n ∧ d.guess.length = n := by
    intro d hd
    rcases List.mem_append.mp hd with hd | hd
    · refine ⟨?_, by rw [e4 d hd, hz]⟩
      have : d.rhs ∈ (b0 :: cols).take j := by rw [← e3]; exact List.mem_map_of_mem hd
      exact hn _ (List.mem_of_mem_take this)
    · have : d = c := by simpa using hd
      rw [this, e1, e1']
      exact ⟨hn b (List.mem_of_getElem? hj), hz⟩
  have same : mul a r = b → (mul a r).dropLast = b.dropLast ∧ (mul a r).getLast? = b.getLast? := by
    intro e; rw [e]; exact ⟨rfl, rfl⟩
  obtain ⟨m, hm, he⟩ := serial_call mul ksp hk cfg own hs n hc hist c hnn r e2
  rw [e6] at hm
  obtain rfl : a = m := Option.some.inj hm
  cases hist with
  | nil =>
    have hj0 : j = 0 := by
      have : ((b0 :: cols).take j).length = 0 := by rw [← e3]; rfl
      simp at this
      exact this
    subst hj0
    have hb : b0 = b := by simpa using hj
    have he' : mul a r = c.rhs := he
    rw [e1, ← hb] at he'
    rw [he', hb]
    exact ⟨rfl, rfl, by simp⟩
  | cons d ds =>
    have hd : d.rhs = b0 := by
      cases j with
      | zero => simp at e3
      | succ j => simp at e3; exact e3.1
    obtain ⟨o, ho, hol, hoe⟩ := (serial_state ksp cfg own hs n (d :: ds)
      (fun e he => (hnn e (List.mem_append_left _ he)).1)).2
    have hl : o.length = c.rhs.length := by rw [hol, (hnn c (by simp)).1]
    rw [ho] at he
    obtain ⟨_, p2, p3⟩ := prepRhs_some o c.rhs hl
    rw [he, e1] at *
    refine ⟨p3, by rw [p2, hoe, hd], ?_⟩
    rw [prepRhs_eq_iff o b hl, hoe, hd]
    exact eq_comm

/-- The inverse of the unit matrix computed in the serial mode: the last column comes out as zero. -/
example : (solveColumns diagKsp (configure (some true) none none 2) [(0, 1), (1, 2)] (State.start _ _) [1, 1]
    [0, 0] [[1, 0], [0, 1]]).2 = some [[1, 0], [0, 0]] ∧
    (solveColumns diagKsp (configure none none none 2) [(0, 1), (1, 2)] (State.start _ _) [1, 1]
    [0, 0] [[1, 0], [0, 1]]).2 = some [[1, 0], [0, 1]] := by decide

/-! ### Tolerances -/

/-- **C252**.  The tolerances and the limit of iterations used by the solver are those in force when it was last
configured: those of the input, or the ones set before; without a value in the input the values set before
`configure` are used. -/
theorem C252_tolerances_partial (s : Tol R) (sol rel : Option R) (it : Option Int)
    (later : List (TolCall R)) (hl : ∀ c ∈ later, ∀ a r n, c ≠ .configure a r n) :
    (later.foldl Tol.step (s.step (.configure sol rel it))).ksp =
      some (rel.getD s.relative, sol.getD s.solution, it.getD s.maxIt) := by
  have key : ∀ (l : List (TolCall R)) (t : Tol R), (∀ c ∈ l, ∀ a r n, c ≠ .configure a r n) →
      (l.foldl Tol.step t).ksp = t.ksp := by
    intro l
    induction l with
    | nil => intro t _; rfl
    | cons c cs ih =>
      intro t h
      rw [List.foldl_cons, ih _ (fun d hd => h d (List.mem_cons_of_mem _ hd))]
      cases c with
      | tolerance _ => rfl
      | maxIterations _ => rfl
      | configure a r n => exact absurd rfl (h _ List.mem_cons_self a r n)
  rw [key later _ hl]
  rfl

/-- **C252** (violated).  A tolerance or a limit of iterations set after `configure` is reported by the solver but
not used: whatever it is, the next solve uses the old one. -/
theorem C252_tolerances_violated (s : Tol R) (sol rel : Option R) (it : Option Int) (t : R) (n : Int)
    (ht : t ≠ sol.getD s.solution) (hn : n ≠ it.getD s.maxIt) :
    let s' := ((s.step (.configure sol rel it)).step (.tolerance t)).step (.maxIterations n)
    s'.solution = t ∧ s'.maxIt = n ∧ ∃ r t' n', s'.ksp = some (r, t', n') ∧ t' ≠ t ∧ n' ≠ n := by
  exact ⟨rfl, rfl, _, _, _, rfl, Ne.symm ht, Ne.symm hn⟩

example : (((⟨(6 : Int), 6, 100, none⟩ : Tol Int).step (.configure none (some 3) none)).step (.tolerance 9)).ksp =
    some (3, 6, 100) := by decide

end
end GridPACK.LinSolve
