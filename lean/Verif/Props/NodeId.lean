import Verif.Lemmas.NodeId
/-!
# C02: node identifiers are unique and within range
-/

namespace Netlab

/-- **C02.**  If validation and transformation of the node list complete without an error,
every node has an integer identifier; the identifiers are pairwise different, between 1 and
250, and not reserved for another purpose; node order and names do not change, and every
identifier specified by the user (an integer, or a string that converts into one) is kept.
`pyInt` is Python's `int()` applied to a string. -/
theorem C02_node_ids (pyInt : String → Option Int) (reserved : IdVar)
    (nodes out : List NodeRec) (h : nodeIdPipeline pyInt reserved nodes = .ok out) :
    ∃ ids : List Int,
      out.map (·.name) = nodes.map (·.name) ∧
      out.map (·.id) = ids.map (fun i => some (.int i)) ∧
      ids.Nodup ∧
      (∀ i ∈ ids, 1 ≤ i ∧ i ≤ 250 ∧ .i i ∉ reserved.value) ∧
      (∀ (k : Nat) (n : NodeRec) (i : Int),
        nodes[k]? = some n → n.id = some (.int i) → ids[k]? = some i) ∧
      (∀ (k : Nat) (n : NodeRec) (s : String),
        nodes[k]? = some n → n.id = some (.str s) → ∃ i, pyInt s = some i ∧ ids[k]? = some i) := by
  unfold nodeIdPipeline at h
  cases hv : validateNodeIds pyInt nodes with
  | none => simp [hv] at h
  | some ns' =>
    simp only [hv] at h
    obtain ⟨hn, hc, hk⟩ := validateNodeIds_ok hv
    unfold transformNodeIds at h
    rcases hr : reserveStatic pyInt ns' reserved with ⟨r, v', e⟩
    cases e with
    | true => simp [hr] at h
    | false =>
      simp only [hr] at h
      obtain ⟨rfl, h2, h3, h4, h5⟩ := reserveStatic_ok hc hr
      obtain ⟨ids, e1, e2, e3, e4, e5⟩ :=
        assignMissing_ok (v := v'.setCounter 1 MAX_NODE_ID) (c := 1) hc rfl (by omega)
          (by simp [IdVar.setCounter, MAX_NODE_ID]) h2 (fun i hi => by
            simp only [IdVar.setCounter]
            exact (h4 _).2 (.inr ⟨i, hi, rfl⟩)) h
      refine ⟨ids, by rw [e2, hn], e1, e3, ?_, ?_, ?_⟩
      · intro i hi
        rcases e4 i hi with h | h
        · exact h3 i h
        · refine ⟨h.2.1, h.2.2, fun hm => h.1 ?_⟩
          simp only [IdVar.setCounter]
          exact (h4 _).2 (.inl hm)
      · intro k n i hnk hni
        obtain ⟨n', a1, -, a2, -⟩ := hk k n hnk
        exact e5 k n' i a1 (a2 i hni).1
      · intro k n s hnk hns
        obtain ⟨n', a1, -, -, a3⟩ := hk k n hnk
        obtain ⟨i, b1, b2⟩ := a3 s hns
        exact ⟨i, b1, e5 k n' i a1 b2⟩

/-- Validation accepts a list in which every `id` is missing or an integer from 1 to 150. -/
theorem validateNodeIds_accepts (pyInt : String → Option Int) (nodes : List NodeRec)
    (h : ∀ n ∈ nodes, n.id = none ∨ ∃ i, n.id = some (.int i) ∧ 1 ≤ i ∧ i ≤ 150) :
    validateNodeIds pyInt nodes = some nodes := by
  induction nodes with
  | nil => rfl
  | cons n ns ih =>
    have ih := ih (fun m hm => h m (List.mem_cons_of_mem _ hm))
    rcases h n (List.mem_cons_self ..) with hid | ⟨i, hid, h1, h2⟩
    · simp [validateNodeIds, hid, ih]
    · have hm : mustBeInt pyInt (some 1) (some 150) (.int i) = some (.int i) := by
        simp [mustBeInt, checkIntType]; omega
      simp only [validateNodeIds, hid, hm, ih, Option.map_some, Option.some.injEq, List.cons.injEq,
        and_true]
      cases n; simp_all

/-- The reservation loop accepts distinct unreserved integers in range. -/
theorem reserveStatic_accepts (pyInt : String → Option Int) (nodes : List NodeRec) (v : IdVar)
    (h : ∀ n ∈ nodes, n.id = none ∨
      ∃ i, n.id = some (.int i) ∧ 1 ≤ i ∧ i ≤ 150 ∧ .i i ∉ v.value)
    (hnd : (nodes.filterMap NodeRec.staticId).Nodup) :
    ∃ v', reserveStatic pyInt nodes v = (nodes, v', false) := by
  induction nodes generalizing v with
  | nil => exact ⟨v, rfl⟩
  | cons n ns ih =>
    rcases h n (List.mem_cons_self ..) with hid | ⟨i, hid, h1, h2, h3⟩
    · have hs : n.staticId = none := by simp [NodeRec.staticId, hid]
      obtain ⟨v', hv⟩ := ih v (fun m hm => h m (List.mem_cons_of_mem _ hm))
        (by simpa [List.filterMap_cons, hs] using hnd)
      exact ⟨v', by simp [reserveStatic, hid, hv]⟩
    · have hs : n.staticId = some i := by simp [NodeRec.staticId, hid]
      simp only [List.filterMap_cons, hs, List.nodup_cons] at hnd
      have hm : mustBeInt pyInt (some 1) (some MAX_NODE_ID) (.int i) = some (.int i) := by
        simp [mustBeInt, checkIntType, MAX_NODE_ID]; omega
      have hres : reserveId v i = some (v.extend [.i i]) := by
        simp [reserveId, IdVar.isUsed, h3]
      obtain ⟨v', hv⟩ := ih (v.extend [.i i]) (fun m hm' => by
        rcases h m (List.mem_cons_of_mem _ hm') with a | ⟨j, a, b, c, d⟩
        · exact .inl a
        · refine .inr ⟨j, a, b, c, ?_⟩
          simp only [IdVar.extend, List.cons_append, List.nil_append, List.mem_cons, IdVal.i.injEq,
            not_or]
          refine ⟨?_, d⟩
          rintro rfl
          exact hnd.1 (List.mem_filterMap.2 ⟨m, hm', by simp [NodeRec.staticId, a]⟩)) hnd.2
      have hne : (i != 0) = true := by simp; omega
      refine ⟨v', ?_⟩
      simp only [reserveStatic, hid, hm, Val.truthy, hne, Bool.not_true, Bool.false_eq_true,
        if_false, hres, hv, Prod.mk.injEq, and_true, List.cons.injEq]
      cases n; simp_all

/-- **C02 (completeness).**  A node list whose static identifiers are pairwise different
integers from 1 to 150 that are not reserved is always accepted, as long as nodes and
reserved identifiers together do not need more than 250 identifiers. -/
theorem C02_accepted (pyInt : String → Option Int) (reserved : IdVar) (nodes : List NodeRec)
    (h : ∀ n ∈ nodes, n.id = none ∨
      ∃ i, n.id = some (.int i) ∧ 1 ≤ i ∧ i ≤ 150 ∧ .i i ∉ reserved.value)
    (hnd : (nodes.filterMap NodeRec.staticId).Nodup)
    (hlen : reserved.value.length + nodes.length ≤ 250) :
    ∃ out, nodeIdPipeline pyInt reserved nodes = .ok out := by
  have hv := validateNodeIds_accepts pyInt nodes (fun n hn => by
    rcases h n hn with a | ⟨i, a, b, c, -⟩
    · exact .inl a
    · exact .inr ⟨i, a, b, c⟩)
  obtain ⟨v', hr⟩ := reserveStatic_accepts pyInt nodes reserved h hnd
  have hcl : ∀ n ∈ nodes, n.clean := fun n hn => by
    rcases h n hn with a | ⟨i, a, -⟩
    · exact .inl a
    · exact .inr ⟨i, a⟩
  obtain ⟨-, -, -, -, hl⟩ := reserveStatic_ok hcl hr
  have hsum : (nodes.filterMap NodeRec.staticId).length +
      (nodes.filter (fun n => n.id.isNone)).length = nodes.length := by
    clear hl hr hv hlen hnd h
    induction nodes with
    | nil => rfl
    | cons n ns ih =>
      have ih := ih (fun m hm => hcl m (List.mem_cons_of_mem _ hm))
      rcases hcl n (List.mem_cons_self ..) with hid | ⟨i, hid⟩
      · have hs : n.staticId = none := by simp [NodeRec.staticId, hid]
        simp only [List.filterMap_cons, hs, List.filter_cons, hid, Option.isNone_none, if_true,
          List.length_cons]
        omega
      · have hs : n.staticId = some i := by simp [NodeRec.staticId, hid]
        simp only [List.filterMap_cons, hs, List.filter_cons, hid, Option.isNone_some,
          Bool.false_eq_true, if_false, List.length_cons]
        omega
  simp only [nodeIdPipeline, hv, transformNodeIds, hr]
  exact assignMissing_total (c := 1) rfl (by omega) rfl (fun k h1 h2 => by omega)
    (by simp only [IdVar.setCounter]; omega)

/-- A static identifier used by two nodes is always rejected. -/
theorem C02_duplicate_rejected (pyInt : String → Option Int) (reserved : IdVar)
    (nodes : List NodeRec) (j k : Nat) (a b : NodeRec) (i : Int) (hjk : j ≠ k)
    (hj : nodes[j]? = some a) (hk : nodes[k]? = some b)
    (ha : a.id = some (.int i)) (hb : b.id = some (.int i)) :
    nodeIdPipeline pyInt reserved nodes = .error .fatal := by
  cases h : nodeIdPipeline pyInt reserved nodes with
  | error e => cases e; rfl
  | ok out =>
    obtain ⟨ids, -, -, hnd, -, h1, -⟩ := C02_node_ids pyInt reserved nodes out h
    have e1 := h1 j a i hj ha
    have e2 := h1 k b i hk hb
    obtain ⟨l1, e1⟩ := List.getElem?_eq_some_iff.1 e1
    obtain ⟨l2, e2⟩ := List.getElem?_eq_some_iff.1 e2
    exact absurd ((List.Nodup.getElem_inj_iff hnd).1 (e1.trans e2.symm)) hjk

/-- The documented limit for a static node identifier is 150, but an identifier written as a
string is converted without a range check, so `id: "200"` is accepted. -/
theorem C02_numeric_string_bypasses_limit :
    ∃ pyInt, ∃ out, nodeIdPipeline pyInt {} [⟨"r1", some (.str "200")⟩] = .ok out ∧
      out = [⟨"r1", some (.int 200)⟩] ∧
      nodeIdPipeline pyInt {} [⟨"r1", some (.int 200)⟩] = .error .fatal :=
  ⟨fun _ => some 200, _, rfl, rfl, rfl⟩

/-- Non-vacuity: a node list with static, automatic and reserved identifiers. -/
example :
    nodeIdPipeline (fun _ => none) { value := [.i 1] }
      [⟨"a", none⟩, ⟨"b", some (.int 2)⟩, ⟨"c", none⟩] =
      .ok [⟨"a", some (.int 3)⟩, ⟨"b", some (.int 2)⟩, ⟨"c", some (.int 4)⟩] := by
  simp [nodeIdPipeline, validateNodeIds, transformNodeIds, reserveStatic, mustBeInt, checkIntType,
    MAX_NODE_ID, Val.truthy, reserveId, IdVar.isUsed, IdVar.extend, assignMissing, IdVar.setCounter,
    IdVar.getNext, nextLoop]

end Netlab
