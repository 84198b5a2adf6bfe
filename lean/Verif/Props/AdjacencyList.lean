import Verif.Model.AdjacencyList
import Verif.Props.HashDistr

/-! Property C13: adjacency lists are the symmetric closure of the edges. -/
namespace GridPACK.AdjacencyList
open GridPACK.Exchange GridPACK.HashDistr

theorem readChunks_spec {K V : Type} (n : Nat) (hn : 0 < n) (inp : Nat → List (K × V))
    (puts : List Nat) (hp : puts.Perm (List.range n)) (bound : Nat → Nat)
    (hb : BoundOk n ((List.range n).flatMap inp).length bound) (me : Nat) :
    ∃ L, readChunks n (base (fun q => (inp q).length) n) bound (globalArray inp puts)
        (visitOrder n me) = some L ∧ L.Perm ((List.range n).flatMap inp) := by
  have hlen := base_eq_length n inp
  rw [← hlen] at hb
  set total := base (fun q => (inp q).length) n with htot
  set A := (List.range n).flatMap inp with hA
  have hread := globalArray_read n inp puts hp
  rw [← htot, ← hA] at hread
  have hg : ∀ i (hi : i < total), globalArray inp puts i = some (A[i]'(by omega)) := by
    intro i hi
    have h1 : ((List.range total).map (globalArray inp puts))[i]? = (A.map some)[i]? := by
      rw [hread]
    rw [List.getElem?_map, List.getElem?_range hi, List.getElem?_map,
      List.getElem?_eq_getElem (by omega)] at h1
    simpa using h1
  have hlt : ∀ idx, idx < n → ∀ i ∈ positions n total bound idx, i < total := by
    intro idx hidx i hi
    have : i ∈ (List.range n).flatMap (positions n total bound) :=
      List.mem_flatMap.mpr ⟨idx, List.mem_range.mpr hidx, hi⟩
    rw [C11_chunks_partition n total hn bound hb] at this
    exact List.mem_range.mp this
  have hchunk : ∀ idx, idx < n → allSome ((positions n total bound idx).map
      (globalArray inp puts)) = some ((positions n total bound idx).filterMap (fun i => A[i]?)) := by
    intro idx hidx
    have : ∀ l : List Nat, (∀ i ∈ l, i < total) →
        allSome (l.map (globalArray inp puts)) = some (l.filterMap (fun i => A[i]?)) := by
      intro l
      induction l with
      | nil => intro _; rfl
      | cons a l ih =>
        intro h
        have ha := h a (by simp)
        rw [List.map_cons, hg a ha]
        simp only [allSome]
        rw [ih (fun i hi => h i (by simp [hi])), List.filterMap_cons,
          List.getElem?_eq_getElem (by omega)]
        rfl
    exact this _ (hlt idx hidx)
  have hall : ∀ vs : List Nat, (∀ v ∈ vs, v < n) →
      readChunks n total bound (globalArray inp puts) vs
        = some (vs.flatMap (fun v => (positions n total bound v).filterMap (fun i => A[i]?))) := by
    intro vs
    induction vs with
    | nil => intro _; rfl
    | cons v vs ih =>
      intro h
      have h1 := hchunk v (h v (by simp))
      unfold positions at h1
      rw [readChunks, h1, ih (fun x hx => h x (by simp [hx]))]
      rfl
  have hvo := C11_every_chunk_visited_once n me hn
  refine ⟨_, hall _ (fun v hv => List.mem_range.mp (hvo.mem_iff.mp hv)), ?_⟩
  refine (hvo.flatMap_right _).trans ?_
  rw [← List.filterMap_flatMap, C11_chunks_partition n total hn bound hb]
  have : (List.range total).filterMap (fun i => A[i]?) = A := by
    rw [hlen]
    clear * -
    induction A using List.reverseRecOn with
    | nil => rfl
    | append_singleton l x ih =>
      rw [List.length_append, List.length_singleton, List.range_succ, List.filterMap_append]
      have : (List.range l.length).filterMap (fun i => (l ++ [x])[i]?)
          = (List.range l.length).filterMap (fun i => l[i]?) := by
        apply List.filterMap_congr
        intro i hi
        rw [List.getElem?_append_left (List.mem_range.mp hi)]
      rw [this, ih]; simp
  rw [this]

/-- The node data is consistent: global indices are `0,…,N-1` each once, original indices are
distinct. -/
structure NodesOk (n : Nat) (nodes : Nat → List (Nat × Int)) : Prop where
  gids : (((List.range n).flatMap nodes).map (·.1)).Perm
    (List.range ((List.range n).flatMap nodes).length)
  origs : (((List.range n).flatMap nodes).map (·.2)).Nodup

/-- The layout of the node array covers every position. -/
def BlocksOk (n N : Nat) (blocks : Nat → List Nat) : Prop :=
  ∀ i, i < N → ∃ q, q < n ∧ i ∈ blocks q

theorem gNodes_eq_some {n : Nat} {nodes : Nat → List (Nat × Int)} (h : NodesOk n nodes)
    (g : Nat) (o : Int) : gNodes n nodes g = some o ↔ (g, o) ∈ (List.range n).flatMap nodes := by
  unfold gNodes
  have hnd : (((List.range n).flatMap nodes).map (·.1)).Nodup :=
    h.gids.nodup_iff.mpr List.nodup_range
  generalize (List.range n).flatMap nodes = L at *
  clear h
  induction L with
  | nil => simp
  | cons a L ih =>
    rw [List.map_cons, List.nodup_cons] at hnd
    by_cases ha : a.1 = g
    · rw [List.find?_cons_of_pos (by simp [ha])]
      simp only [Option.map_some, Option.some.injEq, List.mem_cons]
      constructor
      · intro e; left; exact Prod.ext ha.symm e.symm
      · rintro (e | e)
        · rw [← e]
        · exfalso; apply hnd.1; rw [ha]; exact List.mem_map.mpr ⟨_, e, rfl⟩
    · rw [List.find?_cons_of_neg (by simp [ha])]
      refine (ih hnd.2).trans ?_
      simp only [List.mem_cons]
      constructor
      · exact .inr
      · rintro (e | e)
        · exact absurd (by rw [← e]) ha
        · exact e

theorem resolveEnd_eq (n : Nat) (hn : 0 < n) (me : Nat) (nodes : Nat → List (Nat × Int))
    (h : NodesOk n nodes) (blocks : Nat → List Nat)
    (hb : BlocksOk n ((List.range n).flatMap nodes).length blocks)
    (g : Nat) (o : Int) (hmem : (g, o) ∈ (List.range n).flatMap nodes) :
    resolveEnd n me (gNodes n nodes) blocks o = g := by
  have huniq : ∀ g', gNodes n nodes g' = some o → g' = g := by
    intro g' hg'
    rw [gNodes_eq_some h] at hg'
    have := List.inj_on_of_nodup_map h.origs hg' hmem rfl
    exact congrArg (·.1) this
  have hsome : gNodes n nodes g = some o := (gNodes_eq_some h g o).mpr hmem
  have hgN : g < ((List.range n).flatMap nodes).length := by
    have : g ∈ ((List.range n).flatMap nodes).map (·.1) := List.mem_map.mpr ⟨_, hmem, rfl⟩
    exact List.mem_range.mp (h.gids.mem_iff.mp this)
  obtain ⟨q, hq, hgq⟩ := hb g hgN
  have hlook : ∀ r, lookupBlock (gNodes n nodes) (blocks r) o
      = if g ∈ blocks r then some g else none := by
    intro r
    unfold lookupBlock
    by_cases hr : g ∈ blocks r
    · rw [if_pos hr]
      cases hf : (blocks r).find? (fun i => decide (gNodes n nodes i = some o)) with
      | none =>
        rw [List.find?_eq_none] at hf
        exact absurd (hf g hr) (by simp [hsome])
      | some i =>
        have := List.find?_some hf
        simp only [decide_eq_true_eq] at this
        rw [huniq i this]
    · rw [if_neg hr, List.find?_eq_none]
      intro i hi hs
      simp only [decide_eq_true_eq] at hs
      exact hr (huniq i hs ▸ hi)
  have hqv : q ∈ visitOrder n me :=
    (C11_every_chunk_visited_once n me hn).mem_iff.mpr (List.mem_range.mpr hq)
  unfold resolveEnd
  have key : ∀ (vs : List Nat) (cur : Nat), (cur = g ∨ q ∈ vs) →
      vs.foldl (fun cur r => match lookupBlock (gNodes n nodes) (blocks r) o with
        | some i => i | none => cur) cur = g := by
    intro vs
    induction vs with
    | nil => intro cur hc; simpa using hc
    | cons v vs ih =>
      intro cur hc
      rw [List.foldl_cons]
      apply ih
      rw [hlook v]
      by_cases hv : g ∈ blocks v
      · left; simp [hv]
      · simp only [if_neg hv]
        rcases hc with hc | hc
        · exact .inl hc
        · rcases List.mem_cons.mp hc with e | e
          · subst e; exact absurd hgq hv
          · exact .inr e
  exact key _ 0 (.inr hqv)

/-- Number of edges from `a` to `b` (original indices), over all processes. -/
def edgeCount (n : Nat) (edges : Nat → List (Int × Int)) (a b : Int) : Nat :=
  ((List.range n).flatMap edges).count (a, b)

/-- C13.  Provided global indices number the nodes, original indices are distinct and every edge
end is a node, `ready` succeeds on every process, and for each of its nodes `u` a node `v` is
listed exactly as often as there are edges from `u` to `v` plus edges from `v` to `u` among the
edges of all processes; nothing that is not a node is listed.  The distribution of nodes and
edges over processes, the layout of the arrays and the order of the writes are arbitrary. -/
theorem C13_adjacency_counts_edges (n : Nat) (hn : 0 < n) (nodes : Nat → List (Nat × Int))
    (h : NodesOk n nodes) (blocks : Nat → List Nat)
    (hbl : BlocksOk n ((List.range n).flatMap nodes).length blocks)
    (edges : Nat → List (Int × Int))
    (hends : ∀ e ∈ (List.range n).flatMap edges, ∀ o, o = e.1 ∨ o = e.2 →
      ∃ g, (g, o) ∈ (List.range n).flatMap nodes)
    (bound : Nat → Nat) (hb : BoundOk n ((List.range n).flatMap edges).length bound)
    (puts : List Nat) (hp : puts.Perm (List.range n)) (me : Nat) (hme : me < n) :
    ∃ adj, ready n nodes blocks edges bound puts me = some adj ∧
      adj.length = (nodes me).length ∧
      ∀ (i gu : Nat) (ou : Int), (nodes me)[i]? = some (gu, ou) → ∃ l : List Nat, adj[i]? = some l ∧
        (∀ gv ov, (gv, ov) ∈ (List.range n).flatMap nodes →
          l.count gv = edgeCount n edges ou ov + edgeCount n edges ov ou) ∧
        ∀ gv ∈ l, ∃ ov, (gv, ov) ∈ (List.range n).flatMap nodes := by
  set N := (List.range n).flatMap nodes with hN
  set E := (List.range n).flatMap edges with hE
  have hreslen : ((List.range n).flatMap (resolved n nodes blocks edges)).length = E.length := by
    rw [hE, List.length_flatMap, List.length_flatMap]; simp [resolved]
  obtain ⟨L, hL, hLp⟩ := readChunks_spec n hn (resolved n nodes blocks edges) puts hp bound
    (by rw [hreslen]; exact hb) me
  -- resolved edges = image of the edges under the node numbering
  have hres : ∀ p, p < n → ∀ e ∈ edges p,
      (resolveEnd n p (gNodes n nodes) blocks e.1, e.1) ∈ N ∧
      (resolveEnd n p (gNodes n nodes) blocks e.2, e.2) ∈ N := by
    intro p hpn e he
    have heE : e ∈ E := List.mem_flatMap.mpr ⟨p, List.mem_range.mpr hpn, he⟩
    obtain ⟨g1, h1⟩ := hends e heE e.1 (.inl rfl)
    obtain ⟨g2, h2⟩ := hends e heE e.2 (.inr rfl)
    rw [resolveEnd_eq n hn p nodes h blocks hbl g1 e.1 h1,
      resolveEnd_eq n hn p nodes h blocks hbl g2 e.2 h2]
    exact ⟨h1, h2⟩
  have hg_inj : ∀ g o o', (g, o) ∈ N → (g, o') ∈ N → o = o' := by
    intro g o o' h1 h2
    rw [hN, ← gNodes_eq_some h] at h1 h2
    rw [h1] at h2; exact Option.some.inj h2
  have ho_inj : ∀ g g' o, (g, o) ∈ N → (g', o) ∈ N → g = g' := by
    intro g g' o h1 h2
    exact congrArg (·.1) (List.inj_on_of_nodup_map h.origs h1 h2 rfl)
  have hcnt : ∀ ga oa gb ob, (ga, oa) ∈ N → (gb, ob) ∈ N →
      ((List.range n).flatMap (resolved n nodes blocks edges)).count (ga, gb)
        = E.count (oa, ob) := by
    intro ga oa gb ob ha hb'
    rw [hE]
    have : ∀ m, m ≤ n → ((List.range m).flatMap (resolved n nodes blocks edges)).count (ga, gb)
        = ((List.range m).flatMap edges).count (oa, ob) := by
      intro m
      induction m with
      | zero => intro _; rfl
      | succ m ih =>
        intro hm
        rw [List.range_succ, List.flatMap_append, List.flatMap_append, List.count_append,
          List.count_append, ih (by omega)]
        congr 1
        simp only [List.flatMap_cons, List.flatMap_nil, List.append_nil]
        have hloc := hres m (by omega)
        unfold resolved
        generalize edges m = es at hloc
        induction es with
        | nil => rfl
        | cons e es ihe =>
          rw [List.map_cons, List.count_cons, List.count_cons,
            ihe (fun x hx => hloc x (by simp [hx]))]
          congr 1
          have he := hloc e (by simp)
          have : ((resolveEnd n m (gNodes n nodes) blocks e.1,
              resolveEnd n m (gNodes n nodes) blocks e.2) = (ga, gb)) ↔ (e = (oa, ob)) := by
            constructor
            · intro heq
              rw [Prod.mk.injEq] at heq
              rw [heq.1, heq.2] at he
              exact Prod.ext (hg_inj ga _ _ he.1 ha) (hg_inj gb _ _ he.2 hb')
            · rintro rfl
              rw [ho_inj _ _ _ he.1 ha, ho_inj _ _ _ he.2 hb']
          simp only [beq_iff_eq, this]
    exact this n (Nat.le_refl n)
  refine ⟨(List.range ((nodes me).map (·.1)).length).map (neighbours ((nodes me).map (·.1)) L),
    ?_, by simp, ?_⟩
  · unfold ready; simp only; rw [hL]; rfl
  intro i gu ou hi
  have hil : i < (nodes me).length := by
    rw [List.getElem?_eq_some_iff] at hi; exact hi.1
  refine ⟨neighbours ((nodes me).map (·.1)) L i, ?_, ?_, ?_⟩
  · rw [List.getElem?_map, List.getElem?_range (by simpa using hil)]; rfl
  · -- counting
    intro gv ov hv
    have humem : (gu, ou) ∈ N :=
      List.mem_flatMap.mpr ⟨me, List.mem_range.mpr hme, List.mem_of_getElem? hi⟩
    have hndg : ((nodes me).map (·.1)).Nodup := by
      have hall : (N.map (·.1)).Nodup := h.gids.nodup_iff.mpr List.nodup_range
      refine List.Nodup.sublist ?_ hall
      rw [hN, List.map_flatMap]
      have := List.sublist_flatten_of_mem (L := (List.range n).map (fun p => (nodes p).map (·.1)))
        (l := (nodes me).map (·.1)) (List.mem_map.mpr ⟨me, List.mem_range.mpr hme, rfl⟩)
      rwa [← List.flatMap_def] at this
    have hidx : ∀ g, ((nodes me).map (·.1)).findIdx? (fun x => decide (x = g)) = some i ↔ g = gu := by
      intro g
      have hgi : ((nodes me).map (·.1))[i]? = some gu := by
        rw [List.getElem?_map, hi]; rfl
      generalize (nodes me).map (·.1) = l at *
      rw [List.findIdx?_eq_some_iff_getElem]
      have hlt : i < l.length := by
        rw [List.getElem?_eq_some_iff] at hgi; exact hgi.1
      have hli : l[i] = gu := by
        rw [List.getElem?_eq_some_iff] at hgi; exact hgi.2
      constructor
      · rintro ⟨h1, h2, -⟩
        simp only [decide_eq_true_eq] at h2
        rw [← h2, hli]
      · rintro rfl
        refine ⟨hlt, by simp [hli], ?_⟩
        intro j hj
        simp only [decide_eq_true_eq]
        intro hjj
        rw [← hli] at hjj
        have := (List.Nodup.getElem_inj_iff hndg).mp hjj
        omega
    have hcount : ∀ M : List (Nat × Nat), (neighbours ((nodes me).map (·.1)) M i).count gv
        = M.count (gu, gv) + M.count (gv, gu) := by
      intro M
      unfold neighbours
      induction M with
      | nil => rfl
      | cons e M ih =>
        rw [List.flatMap_cons, List.count_append, ih, List.count_cons, List.count_cons,
          List.count_append]
        simp only [hidx]
        have e1 : (if e.1 = gu then [e.2] else ([] : List Nat)).count gv
            = if (e == (gu, gv)) = true then 1 else 0 := by
          by_cases h1 : e.1 = gu
          · by_cases h2 : e.2 = gv
            · have : e = (gu, gv) := Prod.ext h1 h2
              simp [this]
            · have : ¬ e = (gu, gv) := fun he => h2 (by rw [he])
              simp [h1, h2, this]
          · have : ¬ e = (gu, gv) := fun he => h1 (by rw [he])
            simp [h1, this]
        have e2 : (if e.2 = gu then [e.1] else ([] : List Nat)).count gv
            = if (e == (gv, gu)) = true then 1 else 0 := by
          by_cases h1 : e.2 = gu
          · by_cases h2 : e.1 = gv
            · have : e = (gv, gu) := Prod.ext h2 h1
              simp [this]
            · have : ¬ e = (gv, gu) := fun he => h2 (by rw [he])
              simp [h1, h2, this]
          · have : ¬ e = (gv, gu) := fun he => h1 (by rw [he])
            simp [h1, this]
        rw [e1, e2]; omega
    rw [hcount, hLp.count_eq, hLp.count_eq, hcnt gu ou gv ov humem hv, hcnt gv ov gu ou hv humem]
    rfl
  · intro gv hgv
    unfold neighbours at hgv
    obtain ⟨e, he, hin⟩ := List.mem_flatMap.mp hgv
    have he' := hLp.mem_iff.mp he
    obtain ⟨p, hpn, hpe⟩ := List.mem_flatMap.mp he'
    obtain ⟨e0, he0, rfl⟩ := List.mem_map.mp hpe
    have hr := hres p (List.mem_range.mp hpn) e0 he0
    rcases List.mem_append.mp hin with hh | hh
    · split at hh
      · rw [List.mem_singleton.mp hh]; exact ⟨_, hr.2⟩
      · simp at hh
    · split at hh
      · rw [List.mem_singleton.mp hh]; exact ⟨_, hr.1⟩
      · simp at hh

/-- Two processes; three buses 10, 20, 30, two parallel edges and one other edge, stored away
from their nodes. -/
example : (List.range 2).map (ready 2
      (fun p => if p = 0 then [(0, 10), (2, 30)] else [(1, 20)])
      (fun q => if q = 0 then [0, 1] else [2])
      (fun p => if p = 0 then [(20, 10)] else [(10, 20), (20, 30)])
      (exactBound 2 3) [1, 0])
    = [some [[1, 1], [1]], some [[0, 2, 0]]] := by decide

/-- Without the hypothesis that both ends exist, an edge to an unknown bus is silently attached
to the node with global index 0 (here the edge 20–99). -/
theorem C13_unknown_end_becomes_node_zero :
    ready 1 (fun _ => [(0, 10), (1, 20)]) (fun _ => [0, 1]) (fun _ => [(20, 99)])
      (exactBound 1 1) [0] 0 = some [[1], [0]] := by decide

end GridPACK.AdjacencyList
