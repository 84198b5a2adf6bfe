import Verif.Lemmas.TaskManager

/-! Properties C01, C02, C03, C53 of the task manager. -/
namespace GridPACK.TaskManager

/-- The reply a correct task pool of `n` tasks gives to the `k`-th request overall
when it is made by process `p`: task `k` while there are tasks, else failure. -/
def correctReply (n k p : Nat) : Reply :=
  if k < n then { proc := p, ok := true, next := k } else { proc := p, ok := false, next := -1 }

/-- C01.  Whatever happened before (`s` arbitrary), after `set(n)` and for every order in
which processes make calls (`callers`: any number of calls, any processes): the `k`-th
call gets task `k` if `k < n`, otherwise `false` and `-1`; and all successful calls
together receive `0,1,…,min(calls,n)-1`, each exactly once.
The 32-bit counter admits at most 2^31 calls. -/
theorem C01_each_task_exactly_once (s : Pool) (n : Nat) (callers : List Nat)
    (hcalls : callers.length ≤ 2147483648) :
    (replies s (.set n :: callers.map .next)).flatten
        = callers.mapIdx (fun k p => correctReply n k p) ∧
    (((replies s (.set n :: callers.map .next)).flatten.filter (·.ok)).map (·.next))
        = (List.range (min callers.length n)).map Int.ofNat := by
  have h1 : (replies s (.set n :: callers.map .next)).flatten
        = callers.mapIdx (fun k p => correctReply n k p) := by
    rw [replies]
    rw [replies_requests _ (by simp [requesters]) _ (by simp [step]) (by simp only [step, List.length_map]; omega)]
    simp only [step]
    rw [mapIdx_map']
    have : ∀ (l : List Nat) (f : Nat → Nat → Reply),
        (l.mapIdx (fun k p => [f k p])).flatten = l.mapIdx f := by
      intro l
      induction l with
      | nil => intro f; rfl
      | cons a l ih => intro f; simp [List.mapIdx_cons, ih]
    have e : (fun (i : Nat) => (fun (o : Op) => List.map (answer (↑n) (0 + ↑i)) (requesters o)) ∘ Op.next)
        = fun (k p : Nat) => [correctReply n k p] := by
      funext k p
      simp only [Function.comp, requesters, List.map_cons, List.map_nil, answer, correctReply]
      simp
    rw [e, List.flatten_cons, List.nil_append]
    exact this _ _
  refine ⟨h1, ?_⟩
  rw [h1]
  have key : ∀ (l : List Nat) (j : Nat),
      ((l.mapIdx (fun k p => correctReply n (k + j) p)).filter (·.ok)).map (·.next)
        = (List.range' j (min l.length (n - j))).map Int.ofNat := by
    intro l
    induction l with
    | nil => intro j; simp
    | cons a l ih =>
      intro j
      rw [List.mapIdx_cons]
      have e : (fun i p => correctReply n (i + 1 + j) p)
          = fun i p => correctReply n (i + (j + 1)) p := by
        funext i p; congr 1; omega
      rw [e]
      by_cases h : j < n
      · have hm : min (a :: l).length (n - j) = min l.length (n - (j + 1)) + 1 := by
          simp only [List.length_cons]; omega
        rw [hm, List.range'_succ, List.map_cons, ← ih (j + 1)]
        simp [correctReply, h]
      · have hm : min (a :: l).length (n - j) = 0 := by omega
        have hm' : min l.length (n - (j + 1)) = 0 := by omega
        have hh := ih (j + 1)
        rw [hm'] at hh
        rw [hm]
        rw [List.filter_cons]
        simp only [correctReply, h, Nat.zero_add, if_false, Bool.false_eq_true] at hh ⊢
        simpa using hh
  have := key callers 0
  simpa [List.range_eq_range'] using this

/-- Five calls by three processes on a pool of three tasks. -/
example : (replies ⟨17, 4, fun _ => 9⟩ (.set 3 :: [2,0,0,1,2].map .next)).flatten
    = [⟨2,true,0⟩, ⟨0,true,1⟩, ⟨0,true,2⟩, ⟨1,false,-1⟩, ⟨2,false,-1⟩] := by decide

/-- C02, the part that holds.  In any execution after `set(n)`, once a process has called
`cancel()`, every later request by any process or group fails, as long as the total
counter advance stays within a 32-bit integer: (number of requests) + n * (number of
cancels) < 2^31.  Missing: executions exceeding this bound, where the claim is false
(`C02_cancel_violated_by_overflow`). -/
theorem C02_cancel_stops_distribution_partial (s : Pool) (n : Nat) (p : Nat) (before after : List Op)
    (hset : ∀ o ∈ before ++ after, isSet o = false)
    (hbound : (((before ++ .cancel p :: after).map (cost n)).sum) < 2147483648) :
    ∀ r ∈ (replies (exec s (.set n :: before ++ [.cancel p])) after).flatten,
      r.ok = false ∧ r.next = -1 := by
  have e : exec s (.set n :: before ++ [.cancel p])
      = (step (exec (step s (.set n)).1 before) (.cancel p)).1 := by
    simp [exec, List.foldl_append]
  rw [e]
  simp only [List.map_append, List.map_cons, List.sum_append, List.sum_cons, cost] at hbound
  have hnn : (0:Int) ≤ n := by omega
  have c1 := costs_nonneg n hnn before
  have c2 := costs_nonneg n hnn after
  have hb := exec_mono before (fun o ho => hset o (by simp [ho])) (step s (.set n)).1
    (by simp [step]) (by simp [step]) (by simp only [step]; omega)
  simp only [step] at hb
  have hc := step_mono (exec (step s (.set n)).1 before) (.cancel p) rfl
    (by simp only [step]; omega) (by simp only [step]; omega)
    (by simp only [step, cost]; omega)
  have hval : (step (exec (step s (.set n)).1 before) (.cancel p)).1.counter
      = (exec (step s (.set n)).1 before).counter + n := by
    simp only [step]
    rw [wrap32_of_lt (by omega) (by omega)]
    omega
  refine replies_exhausted after (fun o ho => hset o (by simp [ho])) _ ?_ ?_ ?_
  · rw [hc.1]; simp only [step]; omega
  · rw [hval, hc.1]; simp only [step]; omega
  · rw [hval, hc.1]; simp only [step]
    rw [hb.1]
    omega

example : (replies (exec ⟨0, 0, fun _ => 0⟩ (.set 5 :: [.next 0, .groupNext [1,2]] ++ [.cancel 1]))
    [.next 0, .cancel 2, .groupNext [1,2]]).flatten
    = [⟨0,false,-1⟩, ⟨1,false,-1⟩, ⟨2,false,-1⟩] := by decide

/-- C02 fails without the bound: with 2^30 tasks, two cancels wrap the 32-bit counter and the
next request succeeds with a negative task index. -/
theorem C02_cancel_violated_by_overflow :
    (replies (exec ⟨0, 0, fun _ => 0⟩ [.set 1073741824, .cancel 0, .cancel 1]) [.next 2]).flatten
      = [⟨2, true, -2147483648⟩] := by decide

/-- C03.  For every sequence of single and group requests after `set(n)`: in the `k`-th
request all members receive the same reply, namely task `k` or failure.  Hence members
agree and no task is given to two different requests. -/
theorem C03_group_requests_agree_and_are_disjoint (s : Pool) (n : Nat) (reqs : List Op)
    (hreq : ∀ o ∈ reqs, requesters o ≠ []) (hlen : reqs.length ≤ 2147483648) :
    replies s (.set n :: reqs)
      = [] :: reqs.mapIdx (fun k o => (requesters o).map (correctReply n k)) := by
  rw [replies]
  rw [replies_requests _ hreq _ (by simp [step]) (by simp only [step]; omega)]
  simp only [step]
  congr 2
  funext k o
  congr 1
  funext p
  simp only [answer, correctReply]
  simp

/-- Consequence used by callers: two different requests never both succeed with one task. -/
theorem C03_no_task_shared (s : Pool) (n : Nat) (reqs : List Op)
    (hreq : ∀ o ∈ reqs, requesters o ≠ []) (hlen : reqs.length ≤ 2147483648)
    (i j : Nat) (ri rj : List Reply) (a b : Reply)
    (hi : (replies s (.set n :: reqs))[i]? = some ri)
    (hj : (replies s (.set n :: reqs))[j]? = some rj)
    (ha : a ∈ ri) (hb : b ∈ rj) (oka : a.ok = true) (okb : b.ok = true) :
    a.next = b.next ↔ i = j := by
  rw [C03_group_requests_agree_and_are_disjoint s n reqs hreq hlen] at hi hj
  have main : ∀ (i : Nat) (ri : List Reply) (a : Reply),
      ([] :: reqs.mapIdx (fun k o => (requesters o).map (correctReply n k)))[i]? = some ri →
      a ∈ ri → a.ok = true → a.next + 1 = i := by
    intro i ri a hi ha oka
    cases i with
    | zero => simp at hi; subst hi; simp at ha
    | succ i =>
      simp only [List.getElem?_cons_succ, List.getElem?_mapIdx, Option.map_eq_some_iff] at hi
      obtain ⟨o, _, rfl⟩ := hi
      obtain ⟨p, _, rfl⟩ := List.mem_map.mp ha
      simp only [correctReply] at oka ⊢
      split at oka
      · next h => simp [h]
      · simp at oka
  have h1 := main i ri a hi ha oka
  have h2 := main j rj b hj hb okb
  omega

example : replies ⟨3, 3, fun _ => 0⟩ (.set 2 :: [.groupNext [0,1], .next 4, .groupNext [2,3]])
    = [[], [⟨0,true,0⟩, ⟨1,true,0⟩], [⟨4,true,1⟩], [⟨2,false,-1⟩, ⟨3,false,-1⟩]] := by decide

/-- C53.  The per-process statistics count exactly the successful requests answered to that
process since the last `set`, in every execution (including cancels). -/
theorem C53_statistics_count_successes (s : Pool) (n : Int) (ops : List Op)
    (hset : ∀ o ∈ ops, isSet o = false) (q : Nat) :
    (exec s (.set n :: ops)).count q =
      ((replies s (.set n :: ops)).flatten).countP (fun r => r.ok && r.proc == q) := by
  have := exec_count ops hset q (step s (.set n)).1
  simpa [exec, replies, step] using this

example : (exec ⟨0, 0, fun _ => 5⟩ [.set 3, .next 0, .next 1, .next 0, .next 0]).count 0 = 2 := by
  decide

end GridPACK.TaskManager
