import Verif.Spec.Stp
import Verif.Props.GroupInit
import Mathlib.Data.List.Forall2

namespace Netlab

open Spec

variable {α : Type}

theorem mapM_option_some {β γ : Type} (f : β → Option γ) (l : List β) (h : ∀ x ∈ l, ∃ y, f x = some y) : ∃ r, l.mapM f = some r := by
  induction l with
  | nil => exact ⟨[], rfl⟩
  | cons x r ih =>
    obtain ⟨y, hy⟩ := h x List.mem_cons_self
    obtain ⟨s, hs⟩ := ih (fun x hx => h x (List.mem_cons_of_mem _ hx))
    exact ⟨y :: s, by rw [List.mapM_cons, hy, hs]; rfl⟩

theorem mapM_forall₂ {β γ : Type} (f : β → Option γ) (l : List β) (r : List γ) (h : l.mapM f = some r) : List.Forall₂ (fun x y => f x = some y) l r := by
  induction l generalizing r with
  | nil => cases h; exact .nil
  | cons x l ih =>
    rw [List.mapM_cons] at h
    cases hx : f x with
    | none => rw [hx] at h; cases h
    | some y =>
      cases hl : l.mapM f with
      | none => rw [hx, hl] at h; cases h
      | some s => rw [hx, hl] at h; cases h; exact .cons hx (ih s hl)

theorem stHosts_iff (roles : List (String × Option String)) (l : List String) (b : Bool) (h : stHosts roles l = some b) :
    b = true ↔ ∀ x ∈ l, roles.lookup x = some (some "host") := by
  induction l with
  | nil => simp only [stHosts, Option.some.injEq] at h; simp [← h]
  | cons x r ih =>
    unfold stHosts at h
    cases hl : roles.lookup x with
    | none => rw [hl] at h; cases h
    | some y =>
      rw [hl] at h
      simp only at h
      by_cases hy : y = some "host"
      · rw [if_neg (by simp [hy])] at h
        rw [ih h]
        simp [hl, hy]
      · rw [if_pos hy] at h
        cases h
        simp [hl, hy]

theorem stHosts_some (roles : List (String × Option String)) (l : List String) (h : ∀ x ∈ l, (roles.lookup x).isSome = true) :
    ∃ b, stHosts roles l = some b := by
  induction l with
  | nil => exact ⟨true, rfl⟩
  | cons x r ih =>
    unfold stHosts
    obtain ⟨y, hy⟩ := Option.isSome_iff_exists.1 (h x List.mem_cons_self)
    rw [hy]
    simp only
    by_cases hh : y = some "host"
    · rw [if_neg (by simp [hh])]
      exact ih (fun x hx => h x (List.mem_cons_of_mem _ hx))
    · exact ⟨false, if_pos hh⟩

theorem st_neighbors (i : StIntf α) : stNbrs i = StpNeighbors i := by
  unfold stNbrs StpNeighbors
  cases i.nbrs <;> rfl

theorem isEmpty_false_iff (l : List String) : l.isEmpty = false ↔ ∃ x, x ∈ l := by
  cases l with
  | nil => simp
  | cons a r => simp only [List.isEmpty_cons, true_iff]; exact ⟨a, List.mem_cons_self⟩

theorem stStub_iff (t : StTopo) (i : StIntf α) (b : Bool) (h : stStub t.roles i = some b) : b = true ↔ HostPort t i := by
  unfold stStub at h
  unfold HostPort
  rw [← isEmpty_false_iff, ← isEmpty_false_iff]
  by_cases he : ((i.nbrs.getD []).isEmpty && (i.saved.getD []).isEmpty) = true
  · rw [if_pos he] at h
    cases h
    simp only [Bool.and_eq_true] at he
    simp [he.1, he.2]
  · rw [if_neg he, st_neighbors] at h
    rw [stHosts_iff _ _ _ h]
    have : (i.nbrs.getD []).isEmpty = false ∨ (i.saved.getD []).isEmpty = false := by
      cases h1 : (i.nbrs.getD []).isEmpty
      · exact Or.inl rfl
      · rw [h1] at he
        exact Or.inr (by simpa using he)
    exact ⟨fun h => ⟨this, h⟩, fun h => h.2⟩

theorem stInherit_spec (n : StNode α) (i o : StIntf α) (h : stInherit n i = some o) :
    (o = i ∧ n.portType = none ∧ ∀ s, ¬ VlanType n i s) ∨ (∃ s, o = stSet i s ∧ VlanType n i s) ∨
    (∃ s, o = stSet i s ∧ n.portType = some s ∧ ∀ s, ¬ VlanType n i s) := by
  unfold stInherit at h
  have hnode : ∀ (hv : ∀ s, ¬ VlanType n i s) (h : some (match n.portType with | none => i | some t => stSet i t) = some o),
      (o = i ∧ n.portType = none ∧ ∀ s, ¬ VlanType n i s) ∨ (∃ s, o = stSet i s ∧ VlanType n i s) ∨
      (∃ s, o = stSet i s ∧ n.portType = some s ∧ ∀ s, ¬ VlanType n i s) := by
    intro hv h
    cases hp : n.portType with
    | none => rw [hp] at h; cases h; exact Or.inl ⟨rfl, rfl, hv⟩
    | some s => rw [hp] at h; cases h; exact Or.inr (Or.inr ⟨s, rfl, rfl, hv⟩)
  cases ha : i.access with
  | none =>
    rw [ha] at h
    refine hnode ?_ h
    rintro s ⟨a, v, h1, _⟩
    rw [ha] at h1
    cases h1
  | some a =>
    rw [ha] at h
    simp only at h
    cases hv : n.vlans.lookup a with
    | none => rw [hv] at h; cases h
    | some v =>
      rw [hv] at h
      simp only at h
      cases hp : v.portType with
      | some s => rw [hp] at h; cases h; exact Or.inr (Or.inl ⟨s, rfl, a, v, ha, hv, hp⟩)
      | none =>
        rw [hp] at h
        refine hnode ?_ h
        rintro s ⟨a', v', h1, h2, h3⟩
        rw [ha] at h1
        cases h1
        rw [hv] at h2
        cases h2
        rw [hp] at h3
        cases h3

theorem stub_none (t : StTopo) (h : ¬ t.stub.getD "none" ≠ "none") (s : String) : ¬ StubType t s := by
  rintro ⟨h1, h2⟩
  rw [h1] at h
  exact h h2

/-- The port type of one interface -/
theorem stPort_spec (f : StFeat) (t : StTopo) (n : StNode α) (i o : StIntf α) (h : stPort f t n i = some o) :
    (o = i ∨ ∃ s, o = stSet i s) ∧ ((f.portType = false ∨ i.portType ≠ none ∨ ¬ StpPort i) → o = i) ∧
    (f.portType = true → i.portType = none → StpPort i → InheritedType t n i o.portType) := by
  unfold stPort at h
  cases hf : f.portType with
  | false => rw [hf] at h; cases h; simp
  | true =>
    rw [hf] at h
    simp only [Bool.not_true, Bool.false_eq_true, if_false] at h
    have hs : stSupports i = true ↔ StpPort i := by
      unfold stSupports StpPort
      cases i.l3 <;> cases i.virt <;> simp
    by_cases hc : (i.portType.isNone && stSupports i) = true
    · rw [if_pos hc] at h
      simp only [Bool.and_eq_true, Option.isNone_iff_eq_none, hs] at hc
      have hno : (true = false ∨ i.portType ≠ none ∨ ¬ StpPort i) → o = i := by
        rintro (h | h | h)
        · cases h
        · exact absurd hc.1 h
        · exact absurd hc.2 h
      have hinh : (∀ s, StubType t s → ¬ HostPort t i) → stInherit n i = some o →
          (o = i ∨ ∃ s, o = stSet i s) ∧ ((true = false ∨ i.portType ≠ none ∨ ¬ StpPort i) → o = i) ∧
          (true = true → i.portType = none → StpPort i → InheritedType t n i o.portType) := by
        intro hst h
        rcases stInherit_spec n i o h with ⟨rfl, hp, hv⟩ | ⟨s, rfl, hv⟩ | ⟨s, rfl, hp, hv⟩
        · refine ⟨Or.inl rfl, hno, fun _ _ _ => ?_⟩
          have := InheritedType.node hst hv
          rw [hp, ← hc.1] at this
          exact this
        · exact ⟨Or.inr ⟨s, rfl⟩, hno, fun _ _ _ => .vlan s hst hv⟩
        · refine ⟨Or.inr ⟨s, rfl⟩, hno, fun _ _ _ => ?_⟩
          have := InheritedType.node hst hv
          rw [hp] at this
          exact this
      by_cases hst : t.stub.getD "none" ≠ "none"
      · rw [if_pos hst] at h
        cases hb : stStub t.roles i with
        | none => rw [hb] at h; cases h
        | some b =>
          rw [hb] at h
          have hb' := stStub_iff t i b hb
          cases b with
          | true =>
            cases h
            refine ⟨Or.inr ⟨_, rfl⟩, hno, fun _ _ _ => ?_⟩
            refine .stub _ ⟨?_, hst⟩ (hb'.1 rfl)
            cases hx : t.stub with
            | none => rw [hx] at hst; exact absurd rfl hst
            | some s => rfl
          | false =>
            refine hinh (fun s _ hp => ?_) h
            cases hb'.2 hp
      · rw [if_neg hst] at h
        exact hinh (fun s hs => absurd hs (stub_none t hst s)) h
    · rw [if_neg hc] at h
      cases h
      refine ⟨Or.inl rfl, fun _ => rfl, fun _ h1 h2 => ?_⟩
      exact absurd (by simp [h1, hs.2 h2]) hc

/-- C90: the port type of an interface is unambiguous. -/
theorem C90_unique (t : StTopo) (n : StNode α) (i : StIntf α) (a b : Option String) (h1 : InheritedType t n i a) (h2 : InheritedType t n i b) : a = b := by
  have hst : ∀ s s', StubType t s → StubType t s' → s = s' := by
    rintro s s' ⟨h, _⟩ ⟨h', _⟩
    rw [h] at h'
    exact Option.some.inj h'
  have hvl : ∀ s s', VlanType n i s → VlanType n i s' → s = s' := by
    rintro s s' ⟨a, v, h1, h2, h3⟩ ⟨a', v', h1', h2', h3'⟩
    rw [h1] at h1'
    cases h1'
    rw [h2] at h2'
    cases h2'
    rw [h3] at h3'
    exact Option.some.inj h3'
  cases h1 with
  | stub s h hp =>
    cases h2 with
    | stub s' h' hp' => rw [hst s s' h h']
    | vlan s' h' hv' => exact absurd hp (h' s h)
    | node h' hv' => exact absurd hp (h' s h)
  | vlan s h hv =>
    cases h2 with
    | stub s' h' hp' => exact absurd hp' (h s' h')
    | vlan s' h' hv' => rw [hvl s s' hv hv']
    | node h' hv' => exact absurd hv (hv' s)
  | node h hv =>
    cases h2 with
    | stub s' h' hp' => exact absurd hp' (h s' h')
    | vlan s' h' hv' => exact absurd hv' (hv s')
    | node h' hv' => rfl

/-- C90: on a node with STP, explicit port types are kept, interfaces that cannot have a port type are not changed, and the port type of all other
interfaces is inherited in the documented order; nothing else changes. -/
theorem C90_result (f : StFeat) (t : StTopo) (n : StNode α) (l : List (StIntf α)) (e : Nat) (hen : n.enable ≠ some false) (h : stNode f t n = some (l, e)) :
    List.Forall₂ (fun i o =>
      (o = i ∨ ∃ s, o = { i with stp := true, portType := some s }) ∧
      (f.portType = false ∨ i.portType ≠ none ∨ ¬ StpPort i → o = i) ∧
      (f.portType = true → i.portType = none → StpPort i → InheritedType t n i o.portType)) n.intfs l := by
  unfold stNode at h
  have : (!n.enable.getD true) = false := by
    cases hx : n.enable with
    | none => rfl
    | some b => cases b
                · exact absurd hx hen
                · rfl
  rw [if_neg (by simp [this])] at h
  cases hm : n.intfs.mapM (stPort f t n) with
  | none => rw [hm] at h; cases h
  | some l' =>
    rw [hm] at h
    simp only [Option.map_some, Option.some.injEq, Prod.mk.injEq] at h
    obtain ⟨rfl, _⟩ := h
    refine List.Forall₂.imp ?_ (mapM_forall₂ _ _ _ hm)
    intro i o hio
    exact stPort_spec f t n i o hio

/-- C90: a node with STP disabled is accepted and left alone. -/
theorem C90_disabled (f : StFeat) (t : StTopo) (n : StNode α) (hen : n.enable = some false) : stNode f t n = some (n.intfs, 0) := by
  unfold stNode
  rw [if_pos (by rw [hen]; rfl)]

theorem stPort_some (f : StFeat) (t : StTopo) (n : StNode α) (i : StIntf α) (h1 : ∀ x ∈ StpNeighbors i, (t.roles.lookup x).isSome = true)
    (h2 : ∀ a, i.access = some a → (n.vlans.lookup a).isSome = true) : ∃ o, stPort f t n i = some o := by
  have hinh : ∃ o, stInherit n i = some o := by
    unfold stInherit
    cases ha : i.access with
    | none => exact ⟨_, rfl⟩
    | some a =>
      obtain ⟨v, hv⟩ := Option.isSome_iff_exists.1 (h2 a ha)
      simp only [hv]
      cases v.portType <;> exact ⟨_, rfl⟩
  unfold stPort
  by_cases hf : (!f.portType) = true
  · exact ⟨_, if_pos hf⟩
  · rw [if_neg hf]
    by_cases hc : (i.portType.isNone && stSupports i) = true
    · rw [if_pos hc]
      by_cases hst : t.stub.getD "none" ≠ "none"
      · rw [if_pos hst]
        have : ∃ b, stStub t.roles i = some b := by
          unfold stStub
          by_cases he : ((i.nbrs.getD []).isEmpty && (i.saved.getD []).isEmpty) = true
          · exact ⟨_, if_pos he⟩
          · rw [if_neg he, st_neighbors]
            exact stHosts_some _ _ h1
        obtain ⟨b, hb⟩ := this
        rw [hb]
        cases b
        · exact hinh
        · exact ⟨_, rfl⟩
      · rw [if_neg hst]
        exact hinh
    · exact ⟨_, if_neg hc⟩

theorem stIntfErr_zero (f : StFeat) (i : StIntf α) :
    stIntfErr f i = 0 ↔ (i.stp = true → i.l3 = false) ∧ (i.stp = true → i.enable = true → f.perPort = true) ∧
      (i.stp = true → i.portType ≠ none → f.portType = true) := by
  unfold stIntfErr
  cases i.stp <;> cases i.l3 <;> cases i.enable <;> cases f.perPort <;> cases i.portType <;> cases f.portType <;> simp

/-- C90: a node with STP is accepted exactly when its STP settings are correct. -/
theorem C90_accepted_iff (f : StFeat) (t : StTopo) (n : StNode α) (hr : StpRefs t n) (hen : n.enable ≠ some false) :
    (∃ l, stNode f t n = some (l, 0)) ↔ StpOk f t n := by
  unfold stNode
  have : (!n.enable.getD true) = false := by
    cases hx : n.enable with
    | none => rfl
    | some b => cases b
                · exact absurd hx hen
                · rfl
  rw [if_neg (by simp [this])]
  obtain ⟨l, hl⟩ := mapM_option_some (stPort f t n) n.intfs (fun i hi => stPort_some f t n i (hr i hi).1 (hr i hi).2)
  rw [hl]
  simp only [Option.map_some, Option.some.injEq, Prod.mk.injEq, exists_eq_left', Nat.add_eq_zero_iff, gi_sum_zero, stIntfErr_zero]
  have hp : (if n.priority.getD 0 ≠ 0 ∧ n.priority.getD 0 % 4096 ≠ 0 then 1 else 0) = 0 ↔ ∀ p, n.priority = some p → ∃ k : Int, p = 4096 * k := by
    cases n.priority with
    | none => simp
    | some p =>
      simp only [Option.getD_some, Option.some.injEq, forall_eq']
      by_cases hm : p % 4096 = 0
      · rw [if_neg (by simp [hm])]
        simp only [true_iff]
        exact ⟨p / 4096, by omega⟩
      · rw [if_pos ⟨by omega, hm⟩]
        simp only [Nat.one_ne_zero, false_iff]
        rintro ⟨k, rfl⟩
        omega
  have hpr : (if f.protocols.contains (t.protocol.getD "stp") then 0 else 1) = 0 ↔ t.protocol.getD "stp" ∈ f.protocols := by
    rw [← List.contains_iff_mem]
    cases f.protocols.contains (t.protocol.getD "stp") <;> simp
  rw [hp, hpr]
  constructor
  · rintro ⟨⟨⟨h1, h2⟩, h3⟩, h4⟩
    refine ⟨h1, h2, fun i hi => (h3 i hi).1, fun i hi => (h3 i hi).2.1, fun i hi => (h3 i hi).2.2, fun v hv p hpv hp0 => ?_⟩
    have := h4 v hv
    unfold stVlanErr at this
    rw [hpv, if_pos (by simpa using hp0)] at this
    by_cases hx : t.protocol.getD "stp" ≠ "pvrst"
    · rw [if_pos hx] at this
      cases this
    · cases ht : t.protocol with
      | none => rw [ht] at hx; exact absurd (by decide) hx
      | some s => rw [ht] at hx; simpa using hx
  · intro h
    refine ⟨⟨⟨h.protocol, h.priority⟩, fun i hi => ⟨h.l3 i hi, h.enable i hi, h.portType i hi⟩⟩, fun v hv => ?_⟩
    unfold stVlanErr
    by_cases h0 : v.2.priority.getD 0 ≠ 0
    · rw [if_pos h0]
      cases hx : v.2.priority with
      | none => rw [hx] at h0; exact absurd rfl h0
      | some p =>
        rw [hx] at h0
        have hpv := h.vlan v hv p hx h0
        have hm := h.protocol
        rw [hpv] at hm ⊢
        rw [if_neg (by simp)]
        rw [if_neg]
        have : f.protocols.contains "pvrst" = true := List.contains_iff_mem.2 hm
        rw [this]
        simp
    · rw [if_neg h0]

/-! ### Examples -/

/-- A switch with a trunk port, a port with two hosts, and an access port -/
def stExNode : StNode Nat :=
  { enable := none, priority := some 8192, portType := some "network", vlans := [("red", ⟨some "normal", none⟩), ("blue", ⟨none, some 4096⟩)]
    intfs := [⟨false, false, false, false, none, some ["s2"], none, none, 1⟩, ⟨false, false, false, false, none, none, some ["h1", "h2"], some "red", 2⟩,
      ⟨false, false, false, false, none, none, some ["h1", "s2"], some "red", 3⟩, ⟨false, false, true, false, some "auto", none, some ["h1"], some "blue", 4⟩,
      ⟨true, true, false, false, none, some ["s2"], none, none, 5⟩] }

/-- Topology for the example -/
def stExTopo : StTopo := ⟨some "pvrst", some "edge", [("s1", none), ("s2", none), ("h1", some "host"), ("h2", some "host")]⟩

example : ((stNode ⟨["stp", "pvrst"], false, true⟩ stExTopo stExNode).map (fun x => (x.1.map (·.portType), x.2))) =
      some ([some "network", some "edge", some "normal", some "auto", none], 0) ∧
    ((stNode ⟨["stp", "rstp"], false, true⟩ { stExTopo with protocol := some "rstp" } { stExNode with priority := some 100 }).map (·.2)) = some 2 := by
  decide

/-- C90 defect: an access port in a VLAN that is not a VLAN of the node is a crash. -/
theorem C90_vlan_crash :
    stNode ⟨["stp"], false, true⟩ ⟨none, none, []⟩ { stExNode with vlans := [], intfs := [⟨false, false, false, false, none, none, none, some "red", 1⟩] } = none := by
  decide

end Netlab
