import Verif.Model.NodeId
import Verif.Lemmas.IdSet
import Mathlib.Data.List.Perm.Subperm
import Mathlib.Data.List.Nodup
import Mathlib.Tactic.Tauto
/-! # Helper lemmas for node identifiers -/

namespace Netlab

/-- The static identifier of a node, if it is an integer. -/
def NodeRec.staticId (n : NodeRec) : Option Int :=
  match n.id with
  | some (.int i) => some i
  | _ => none

/-- The `id` attribute is either missing or an integer. -/
def NodeRec.clean (n : NodeRec) : Prop := n.id = none ∨ ∃ i, n.id = some (.int i)

theorem mustBeInt_isInt {p mn mx v v'} (h : mustBeInt p mn mx v = some v') : ∃ i, v' = .int i := by
  unfold mustBeInt at h
  split at h
  · split at h
    · cases h; exact ⟨_, rfl⟩
    · simp [checkIntType] at h
  · cases v <;> simp [checkIntType] at h
    all_goals exact ⟨_, h.2.symm⟩

theorem mustBeInt_int {p a b i v'} (h : mustBeInt p (some a) (some b) (.int i) = some v') :
    v' = .int i ∧ a ≤ i ∧ i ≤ b := by
  simp [mustBeInt, checkIntType] at h
  exact ⟨h.2.symm, h.1⟩

/-- What validation does to the node list. -/
theorem validateNodeIds_ok {p : String → Option Int} {ns ns' : List NodeRec}
    (h : validateNodeIds p ns = some ns') :
    ns'.map (·.name) = ns.map (·.name) ∧ (∀ n ∈ ns', n.clean) ∧
    ∀ (k : Nat) (n : NodeRec), ns[k]? = some n →
      ∃ n', ns'[k]? = some n' ∧
        (n.id = none → n'.id = none) ∧
        (∀ i, n.id = some (.int i) → n'.id = some (.int i) ∧ 1 ≤ i ∧ i ≤ 150) ∧
        (∀ s, n.id = some (.str s) → ∃ i, p s = some i ∧ n'.id = some (.int i)) := by
  induction ns generalizing ns' with
  | nil => simp [validateNodeIds] at h; subst h; simp
  | cons n ns ih =>
    simp only [validateNodeIds] at h
    split at h
    · rename_i hid
      simp only [Option.map_eq_some_iff] at h
      obtain ⟨r, hr, rfl⟩ := h
      obtain ⟨h1, h2, h3⟩ := ih hr
      refine ⟨by simp [h1], ?_, ?_⟩
      · intro m hm
        rcases List.mem_cons.1 hm with rfl | hm
        · exact .inl hid
        · exact h2 m hm
      · intro k m hk
        cases k with
        | zero =>
          simp only [List.getElem?_cons_zero, Option.some.injEq] at hk
          subst hk
          refine ⟨n, by simp, fun _ => hid, ?_, ?_⟩ <;> simp [hid]
        | succ k => simpa using h3 k m (by simpa using hk)
    · rename_i v hid
      split at h
      · simp at h
      · rename_i v' hv
        simp only [Option.map_eq_some_iff] at h
        obtain ⟨r, hr, rfl⟩ := h
        obtain ⟨h1, h2, h3⟩ := ih hr
        obtain ⟨i, rfl⟩ := mustBeInt_isInt hv
        refine ⟨by simp [h1], ?_, ?_⟩
        · intro m hm
          rcases List.mem_cons.1 hm with rfl | hm
          · exact .inr ⟨i, rfl⟩
          · exact h2 m hm
        · intro k m hk
          cases k with
          | zero =>
            simp only [List.getElem?_cons_zero, Option.some.injEq] at hk
            subst hk
            refine ⟨_, by simp; rfl, by simp [hid], ?_, ?_⟩
            · intro j hj
              rw [hid] at hj
              cases hj
              obtain ⟨e, e2⟩ := mustBeInt_int hv
              exact ⟨by rw [e], e2⟩
            · intro s hs
              rw [hid] at hs
              cases hs
              simp only [mustBeInt] at hv
              split at hv
              · rename_i j hj
                cases hv
                exact ⟨i, hj, rfl⟩
              · simp [checkIntType] at hv
          | succ k => simpa using h3 k m (by simpa using hk)

/-- The reservation loop on a validated node list. -/
theorem reserveStatic_ok {p : String → Option Int} {ns r : List NodeRec} {v v' : IdVar}
    (hc : ∀ n ∈ ns, n.clean) (h : reserveStatic p ns v = (r, v', false)) :
    r = ns ∧ (ns.filterMap NodeRec.staticId).Nodup ∧
    (∀ i ∈ ns.filterMap NodeRec.staticId, 1 ≤ i ∧ i ≤ 250 ∧ .i i ∉ v.value) ∧
    (∀ x, x ∈ v'.value ↔ x ∈ v.value ∨ ∃ i ∈ ns.filterMap NodeRec.staticId, x = .i i) ∧
    v'.value.length = v.value.length + (ns.filterMap NodeRec.staticId).length := by
  induction ns generalizing r v v' with
  | nil =>
    simp only [reserveStatic, Prod.mk.injEq] at h
    obtain ⟨rfl, rfl, -⟩ := h
    simp
  | cons n ns ih =>
    have hc' : ∀ n ∈ ns, n.clean := fun m hm => hc m (List.mem_cons_of_mem _ hm)
    rcases hc n (List.mem_cons_self ..) with hid | ⟨i, hid⟩
    · simp only [reserveStatic, hid, Prod.mk.injEq] at h
      obtain ⟨rfl, rfl, he⟩ := h
      obtain ⟨h1, h2⟩ := ih (v := v) hc' (by rw [← he])
      have : n.staticId = none := by simp [NodeRec.staticId, hid]
      simp only [List.filterMap_cons, this]
      exact ⟨by rw [h1], h2⟩
    · have hs : n.staticId = some i := by simp [NodeRec.staticId, hid]
      simp only [reserveStatic, hid] at h
      cases hm : mustBeInt p (some 1) (some MAX_NODE_ID) (.int i) with
      | none => simp [hm] at h
      | some x' =>
        obtain ⟨rfl, hi1, hi2⟩ := mustBeInt_int hm
        have hne : (i != 0) = true := by simp; omega
        simp only [hm, Val.truthy, hne] at h
        cases hres : reserveId v i with
        | none => simp [hres] at h
        | some v1 =>
          simp only [hres, Bool.not_true, Bool.false_eq_true, if_false, Prod.mk.injEq] at h
          obtain ⟨rfl, rfl, he⟩ := h
          obtain ⟨h1, h2, h3, h4, h5⟩ := ih (v := v1) hc' (by rw [← he])
          simp only [reserveId] at hres
          split at hres
          · cases hres
          · rename_i hnu
            simp only [Option.some.injEq] at hres
            subst hres
            have hnu' : IdVal.i i ∉ v.value := by simpa [IdVar.isUsed] using hnu
            simp only [List.filterMap_cons, hs, IdVar.extend] at *
            refine ⟨?_, ?_, ?_, ?_, ?_⟩
            · rw [h1]
              congr 1
              cases n; simp_all
            · refine List.nodup_cons.2 ⟨fun hmem => ?_, h2⟩
              have := (h3 i hmem).2.2
              simp at this
            · intro j hj
              rcases List.mem_cons.1 hj with rfl | hj
              · exact ⟨hi1, hi2, hnu'⟩
              · have := h3 j hj
                refine ⟨this.1, this.2.1, fun hv => this.2.2 (by simp [hv])⟩
            · intro x
              rw [h4]
              simp only [List.mem_append, List.mem_cons, List.not_mem_nil, or_false,
                exists_eq_or_imp]
              tauto
            · rw [h5]; simp; omega

/-- The assignment loop on a validated node list whose static identifiers are reserved. -/
theorem assignMissing_ok {ns out : List NodeRec} {v : IdVar} {c : Int}
    (hc : ∀ n ∈ ns, n.clean) (hn : v.next = some c) (h1c : 1 ≤ c) (hcm : c ≤ v.max)
    (hnd : (ns.filterMap NodeRec.staticId).Nodup)
    (hres : ∀ i ∈ ns.filterMap NodeRec.staticId, .i i ∈ v.value)
    (h : assignMissing ns v = .ok out) :
    ∃ ids : List Int,
      out.map (·.id) = ids.map (fun i => some (.int i)) ∧
      out.map (·.name) = ns.map (·.name) ∧ ids.Nodup ∧
      (∀ i ∈ ids, i ∈ ns.filterMap NodeRec.staticId ∨ (.i i ∉ v.value ∧ 1 ≤ i ∧ i ≤ v.max)) ∧
      ∀ (k : Nat) (n : NodeRec) (i : Int), ns[k]? = some n → n.id = some (.int i) → ids[k]? = some i := by
  induction ns generalizing out v c with
  | nil =>
    simp only [assignMissing, Except.ok.injEq] at h
    subst h
    exact ⟨[], by simp⟩
  | cons n ns ih =>
    have hc' : ∀ n ∈ ns, n.clean := fun m hm => hc m (List.mem_cons_of_mem _ hm)
    rcases hc n (List.mem_cons_self ..) with hid | ⟨i, hid⟩
    · have hs : n.staticId = none := by simp [NodeRec.staticId, hid]
      simp only [List.filterMap_cons, hs] at hnd hres
      simp only [assignMissing, hid, IdVar.getNext, hn] at h
      cases hl : nextLoop v.value v.max c with
      | error e => simp [hl] at h
      | ok m =>
        simp only [hl] at h
        obtain ⟨hf, hcm', hmm, -⟩ := nextLoop_ok hl
        have hmm := hmm hcm
        cases hr : assignMissing ns { v with value := .i m :: v.value, next := some m } with
        | error e => simp [hr] at h
        | ok r =>
          simp only [hr, Except.ok.injEq] at h
          subst h
          obtain ⟨ids, e1, e2, e3, e4, e5⟩ :=
            ih (v := { v with value := .i m :: v.value, next := some m }) hc' rfl (by omega)
              hmm hnd (fun i hi => by simp [hres i hi]) hr
          refine ⟨m :: ids, by simp [e1], by simp [e2], ?_, ?_, ?_⟩
          · refine List.nodup_cons.2 ⟨fun hm => ?_, e3⟩
            rcases e4 m hm with h | h
            · exact hf (hres m h)
            · simp at h
          · simp only [List.filterMap_cons, hs]
            intro i hi
            rcases List.mem_cons.1 hi with rfl | hi
            · exact .inr ⟨hf, by omega, hmm⟩
            · rcases e4 i hi with h | h
              · exact .inl h
              · exact .inr ⟨fun hv => h.1 (by simp [hv]), h.2⟩
          · intro k n' i hk hi
            cases k with
            | zero =>
              simp only [List.getElem?_cons_zero, Option.some.injEq] at hk
              subst hk
              rw [hid] at hi; cases hi
            | succ k => simpa using e5 k n' i (by simpa using hk) hi
    · have hs : n.staticId = some i := by simp [NodeRec.staticId, hid]
      simp only [List.filterMap_cons, hs] at hnd hres
      simp only [assignMissing, hid] at h
      cases hr : assignMissing ns v with
      | error e => simp [hr] at h
      | ok r =>
        simp only [hr, Except.ok.injEq] at h
        subst h
        obtain ⟨ids, e1, e2, e3, e4, e5⟩ := ih hc' hn h1c hcm (List.nodup_cons.1 hnd).2
          (fun i hi => hres i (by simp [hi])) hr
        refine ⟨i :: ids, by simp [e1, hid], by simp [e2], ?_, ?_, ?_⟩
        · refine List.nodup_cons.2 ⟨fun hm => ?_, e3⟩
          rcases e4 i hm with h | h
          · exact (List.nodup_cons.1 hnd).1 h
          · exact h.1 (hres i (by simp))
        · simp only [List.filterMap_cons, hs]
          intro j hj
          rcases List.mem_cons.1 hj with rfl | hj
          · simp
          · rcases e4 j hj with h | h
            · exact .inl (by simp [h])
            · exact .inr h
        · intro k n' j hk hj
          cases k with
          | zero =>
            simp only [List.getElem?_cons_zero, Option.some.injEq] at hk
            subst hk
            rw [hid] at hj; cases hj; simp
          | succ k => simpa using e5 k n' j (by simpa using hk) hj

/-- A list containing all integers from 1 to `m` has at least `m` elements. -/
theorem length_of_full {l : List IdVal} {m : Nat}
    (h : ∀ k : Int, 1 ≤ k → k ≤ m → .i k ∈ l) : m ≤ l.length := by
  have hnd : ((List.range m).map (fun (k : Nat) => IdVal.i (k + 1))).Nodup := by
    refine List.Nodup.map ?_ List.nodup_range
    intro a b hab
    simp only [IdVal.i.injEq] at hab
    omega
  have hsub : ((List.range m).map (fun (k : Nat) => IdVal.i (k + 1))) ⊆ l := by
    intro x hx
    simp only [List.mem_map, List.mem_range] at hx
    obtain ⟨k, hk, rfl⟩ := hx
    exact h _ (by omega) (by omega)
  have := (List.subperm_of_subset hnd hsub).length_le
  simpa using this

/-- Enough free identifiers: the assignment loop does not fail. -/
theorem assignMissing_total {ns : List NodeRec} {v : IdVar} {c : Int}
    (hn : v.next = some c) (hcm : c ≤ 250) (hm : v.max = 250)
    (hused : ∀ k : Int, 1 ≤ k → k < c → .i k ∈ v.value)
    (hlen : v.value.length + (ns.filter (fun n => n.id.isNone)).length ≤ 250) :
    ∃ out, assignMissing ns v = .ok out := by
  induction ns generalizing v c with
  | nil => exact ⟨[], rfl⟩
  | cons n ns ih =>
    cases hid : n.id with
    | some x =>
      obtain ⟨out, ho⟩ := ih hn hcm hm hused (by simpa [List.filter_cons, hid] using hlen)
      exact ⟨n :: out, by simp [assignMissing, hid, ho]⟩
    | none =>
      have hlen' : v.value.length + 1 + (ns.filter (fun n => n.id.isNone)).length ≤ 250 := by
        simp [List.filter_cons, hid] at hlen
        omega
      simp only [assignMissing, hid, IdVar.getNext, hn]
      cases hl : nextLoop v.value v.max c with
      | error e =>
        exfalso
        have hall := (nextLoop_error hl).2
        have : 250 ≤ v.value.length := length_of_full (fun k h1 h2 => by
          by_cases hk : k < c
          · exact hused k h1 hk
          · exact hall k (by omega) (by rw [hm]; exact h2))
        omega
      | ok m =>
        obtain ⟨hf, hcm', hmm, hb⟩ := nextLoop_ok hl
        have hmm := hmm (by omega)
        obtain ⟨out, ho⟩ := ih (v := { v with value := .i m :: v.value, next := some m })
          (c := m) rfl (by omega) hm
          (fun k h1 h2 => by
            refine List.mem_cons_of_mem _ ?_
            by_cases hk : k < c
            · exact hused k h1 hk
            · exact hb k (by omega) h2)
          (by simp; omega)
        exact ⟨{ n with id := some (.int m) } :: out, by simp [ho]⟩

end Netlab
