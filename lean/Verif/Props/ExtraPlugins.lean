import Verif.Spec.ExtraPlugins
import Verif.Lemmas.Layers
import Mathlib.Data.List.Forall2
/-!
# C111: small plugins
-/

namespace Netlab
open Netlab.Spec

/-! ## Bonding -/

/-- Members of a bond -/
def bdMember (support : Bool) (count : Nat → Option Nat) (b : Nat) (i : BdIntf) : Bool := decide (i.bond = some b) && support && !i.virt && decide (count i.linkindex = some 2)

theorem bdMember_iff {support : Bool} {count : Nat → Option Nat} {b : Nat} {i : BdIntf} : bdMember support count b i = true ↔ i.bond = some b ∧ Bondable support count i := by
  unfold bdMember Bondable
  simp [and_assoc]

/-- Join interfaces, one after another -/
def bdJoinAll (topMode : String) : Option Bond → List BdIntf → Option Bond
  | x, [] => x
  | x, i :: r => bdJoinAll topMode (some (bdJoin topMode i x)) r

theorem lookup_map_set {β : Type} (s : List (Nat × β)) (b c : Nat) (v : β) (h : (s.lookup b).isSome = true) :
    (s.map (fun p => if p.1 = b then (b, v) else p)).lookup c = if c = b then some v else s.lookup c := by
  induction s with
  | nil => simp at h
  | cons p r ih =>
    obtain ⟨k, w⟩ := p
    rw [List.map_cons]
    by_cases hk : k = b
    · subst hk
      simp only [if_true]
      by_cases hc : c = k
      · subst hc; rw [lookup_cons_self, if_pos rfl]
      · rw [lookup_cons_ne _ _ hc, lookup_cons_ne _ _ hc, if_neg hc]
        clear ih h
        induction r with
        | nil => rfl
        | cons q r ih =>
          obtain ⟨j, u⟩ := q
          rw [List.map_cons]
          by_cases hj : j = k
          · subst hj
            simp only [if_true]
            rw [lookup_cons_ne _ _ hc, lookup_cons_ne _ _ hc, ih]
          · simp only [if_neg hj]
            by_cases hcj : c = j
            · subst hcj; rw [lookup_cons_self, lookup_cons_self]
            · rw [lookup_cons_ne _ _ hcj, lookup_cons_ne _ _ hcj, ih]
    · simp only [if_neg hk]
      rw [lookup_cons_ne _ _ (fun e => hk e.symm)] at h
      by_cases hc : c = k
      · subst hc; rw [lookup_cons_self, lookup_cons_self, if_neg hk]
      · rw [lookup_cons_ne _ _ hc, lookup_cons_ne _ _ hc, ih h]

theorem lookup_snoc {β : Type} (s : List (Nat × β)) (b c : Nat) (v : β) (h : s.lookup b = none) : (s ++ [(b, v)]).lookup c = if c = b then some v else s.lookup c := by
  induction s with
  | nil =>
    by_cases hc : c = b
    · subst hc; simp
    · rw [List.nil_append, lookup_cons_ne _ _ hc, if_neg hc]
  | cons p r ih =>
    obtain ⟨k, w⟩ := p
    by_cases hb : b = k
    · subst hb; rw [lookup_cons_self] at h; simp at h
    · rw [lookup_cons_ne _ _ hb] at h
      rw [List.cons_append]
      by_cases hc : c = k
      · subst hc; rw [lookup_cons_self, lookup_cons_self, if_neg (fun e => hb e.symm)]
      · rw [lookup_cons_ne _ _ hc, lookup_cons_ne _ _ hc, ih h]

/-- What happens to an interface of a bond: it becomes a layer-2 interface without the moved attributes. -/
def BdDone (support : Bool) (count : Nat → Option Nat) (i j : BdIntf) : Prop :=
  ((i.bond.isSome = true ∧ Bondable support count i) → j = { i with attrs := i.attrs.filter (fun a => !bdMove.contains a.1), l2 := true }) ∧
  (¬ (i.bond.isSome = true ∧ Bondable support count i) → j = i)

theorem bdIntf_spec (support : Bool) (count : Nat → Option Nat) (topMode : String) (s s' : List (Nat × Bond)) (i j : BdIntf) (e : Nat) (hn : (s.map (·.1)).Nodup)
    (h : bdIntf support count topMode s i = some (j, s', e)) :
    BdDone support count i j ∧ (s'.map (·.1)).Nodup ∧ (∀ b, s'.lookup b = if bdMember support count b i then some (bdJoin topMode i (s.lookup b)) else s.lookup b) ∧
    (e = 0 ∨ e = 1) ∧ (e = 1 ↔ i.bond.isSome = true ∧ ¬ Bondable support count i) := by
  unfold bdIntf at h
  cases hb : i.bond with
  | none =>
    rw [hb] at h
    simp only [Option.some.injEq, Prod.mk.injEq] at h
    obtain ⟨rfl, rfl, rfl⟩ := h
    refine ⟨⟨by simp [hb], fun _ => rfl⟩, hn, fun b => ?_, Or.inl rfl, by simp⟩
    simp [bdMember, hb]
  | some b =>
    rw [hb] at h
    simp only at h
    by_cases hs : support = true
    · simp only [hs, Bool.not_true, Bool.false_eq_true, if_false] at h
      cases hc : count i.linkindex with
      | none => rw [hc] at h; simp at h
      | some c =>
        rw [hc] at h
        simp only at h
        by_cases hv : (i.virt || c != 2) = true
        · rw [if_pos hv] at h
          simp only [Option.some.injEq, Prod.mk.injEq] at h
          obtain ⟨rfl, rfl, rfl⟩ := h
          have hnb : ¬ Bondable support count i := by
            rintro ⟨_, h2, h3⟩
            rw [hc] at h3
            simp only [Option.some.injEq] at h3
            rw [h2, h3] at hv
            simp at hv
          refine ⟨⟨fun hh => absurd hh.2 hnb, fun _ => rfl⟩, hn, fun b' => ?_, Or.inr rfl, by simp [hnb]⟩
          rw [if_neg (fun hm => hnb (bdMember_iff.1 hm).2)]
        · rw [if_neg hv] at h
          have hB : Bondable support count i := by
            refine ⟨hs, ?_, ?_⟩
            · cases hvv : i.virt with
              | true => rw [hvv] at hv; simp at hv
              | false => rfl
            · rw [hc]
              cases hvv : i.virt with
              | true => rw [hvv] at hv; simp at hv
              | false => rw [hvv] at hv; simpa using hv
          have hM : ∀ b', bdMember support count b' i = true ↔ b' = b := by
            intro b'
            rw [bdMember_iff, hb, Option.some.injEq]
            exact ⟨fun h => h.1.symm, fun h => ⟨h.symm, hB⟩⟩
          cases hl : s.lookup b with
          | some x =>
            rw [hl] at h
            simp only [Option.some.injEq, Prod.mk.injEq] at h
            obtain ⟨rfl, rfl, rfl⟩ := h
            refine ⟨⟨fun _ => by simp [hb], fun hh => absurd ⟨by simp [hb], hB⟩ hh⟩, ?_, fun b' => ?_, Or.inl rfl, by simp [hB]⟩
            · have : (s.map (fun p => if p.1 = b then (b, bdJoin topMode i (some x)) else p)).map (·.1) = s.map (·.1) := by
                rw [List.map_map]
                apply List.map_congr_left
                intro p _
                by_cases hp : p.1 = b
                · simp [hp]
                · simp [hp]
              rw [this]; exact hn
            · rw [lookup_map_set _ _ _ _ (by rw [hl]; rfl)]
              by_cases hbb : b' = b
              · subst hbb; rw [if_pos rfl, if_pos ((hM _).2 rfl), hl]
              · rw [if_neg hbb, if_neg (fun hm => hbb ((hM _).1 hm))]
          | none =>
            rw [hl] at h
            simp only [Option.some.injEq, Prod.mk.injEq] at h
            obtain ⟨rfl, rfl, rfl⟩ := h
            refine ⟨⟨fun _ => by simp [hb], fun hh => absurd ⟨by simp [hb], hB⟩ hh⟩, ?_, fun b' => ?_, Or.inl rfl, by simp [hB]⟩
            · rw [List.map_append, List.nodup_append]
              refine ⟨hn, by simp, ?_⟩
              intro a ha c' hc' he
              simp only [List.map_cons, List.map_nil, List.mem_singleton] at hc'
              subst hc'; subst he
              exact lookup_eq_none_iff.1 hl ha
            · rw [lookup_snoc _ _ _ _ hl]
              by_cases hbb : b' = b
              · subst hbb; rw [if_pos rfl, if_pos ((hM _).2 rfl), hl]
              · rw [if_neg hbb, if_neg (fun hm => hbb ((hM _).1 hm))]
    · have hs' : support = false := by simpa using hs
      simp only [hs', Bool.not_false, if_true, Option.some.injEq, Prod.mk.injEq] at h
      obtain ⟨rfl, rfl, rfl⟩ := h
      have hnb : ¬ Bondable support count i := fun hh => hs hh.1
      refine ⟨⟨fun hh => absurd hh.2 hnb, fun _ => rfl⟩, hn, fun b' => ?_, Or.inr rfl, by simp [hnb]⟩
      rw [if_neg (fun hm => hnb (bdMember_iff.1 hm).2)]

theorem bdIntfs_spec (support : Bool) (count : Nat → Option Nat) (topMode : String) (l : List BdIntf) : ∀ (s s' : List (Nat × Bond)) (l' : List BdIntf) (e : Nat), (s.map (·.1)).Nodup →
    bdIntfs support count topMode s l = some (l', s', e) →
    List.Forall₂ (BdDone support count) l l' ∧ (s'.map (·.1)).Nodup ∧ (∀ b, s'.lookup b = bdJoinAll topMode (s.lookup b) (l.filter (bdMember support count b))) ∧
    (e = 0 ↔ ∀ i ∈ l, i.bond.isSome = true → Bondable support count i) := by
  induction l with
  | nil =>
    intro s s' l' e hn h
    simp only [bdIntfs, Option.some.injEq, Prod.mk.injEq] at h
    obtain ⟨rfl, rfl, rfl⟩ := h
    exact ⟨List.Forall₂.nil, hn, fun b => rfl, by simp⟩
  | cons i r ih =>
    intro s s' l' e hn h
    simp only [bdIntfs] at h
    cases hi : bdIntf support count topMode s i with
    | none => rw [hi] at h; simp at h
    | some x =>
      obtain ⟨j, s1, e1⟩ := x
      rw [hi] at h
      simp only [Option.map_eq_some_iff] at h
      obtain ⟨⟨l2, s2, e2⟩, h2, h3⟩ := h
      simp only [Prod.mk.injEq] at h3
      obtain ⟨rfl, rfl, rfl⟩ := h3
      obtain ⟨a1, a2, a3, a4, a5⟩ := bdIntf_spec support count topMode s s1 i j e1 hn hi
      obtain ⟨b1, b2, b3, b4⟩ := ih s1 s2 l2 e2 a2 h2
      refine ⟨List.Forall₂.cons a1 b1, b2, fun b => ?_, ?_⟩
      · rw [b3, a3]
        by_cases hm : bdMember support count b i = true
        · rw [if_pos hm, List.filter_cons_of_pos hm]; rfl
        · rw [if_neg hm, List.filter_cons_of_neg hm]
      · constructor
        · intro he
          have he1 : ¬ e1 = 1 := by omega
          have he2 : e2 = 0 := by omega
          intro x hx hb
          rcases List.mem_cons.1 hx with rfl | hx
          · exact Classical.byContradiction (fun hno => he1 (a5.2 ⟨hb, hno⟩))
          · exact b4.1 he2 x hx hb
        · intro hall
          have h0 : e2 = 0 := b4.2 (fun x hx => hall x (List.mem_cons_of_mem _ hx))
          have h1 : ¬ e1 = 1 := fun he => (a5.1 he).2 (hall i List.mem_cons_self (a5.1 he).1)
          omega

theorem bdJoinAll_some (topMode : String) (l : List BdIntf) : ∀ x, ∃ b, bdJoinAll topMode (some x) l = some b ∧ b.members = x.members ++ l.map (·.ifname) ∧ b.mode = x.mode ∧ b.attrs = x.attrs ∧
    b.nbrs = x.nbrs ∧ b.primary = (((l.filter (·.primary)).getLast?).map (·.ifname)).or x.primary := by
  induction l with
  | nil => intro x; exact ⟨x, rfl, by simp, rfl, rfl, rfl, by simp⟩
  | cons i r ih =>
    intro x
    obtain ⟨b, h1, h2, h3, h4, h5, h6⟩ := ih (bdJoin topMode i (some x))
    refine ⟨b, h1, by rw [h2]; simp [bdJoin], by rw [h3]; rfl, by rw [h4]; rfl, by rw [h5]; rfl, ?_⟩
    rw [h6]
    unfold bdJoin
    simp only
    by_cases hp : i.primary = true
    · rw [if_pos hp, List.filter_cons_of_pos hp]
      cases hr : r.filter (·.primary) with
      | nil => simp
      | cons y t =>
        rw [List.getLast?_cons_cons]
        cases hg : (y :: t).getLast? with
        | none => simp at hg
        | some z => simp
    · rw [if_neg hp, List.filter_cons_of_neg hp]

theorem bdJoinAll_first (topMode : String) (f : BdIntf) (r : List BdIntf) : ∃ b, bdJoinAll topMode none (f :: r) = some b ∧ BondOf topMode f r b := by
  obtain ⟨b, h1, h2, h3, h4, h5, h6⟩ := bdJoinAll_some topMode r (bdJoin topMode f none)
  refine ⟨b, h1, ?_, by rw [h3]; rfl, ?_, by rw [h5]; rfl, ?_⟩
  · rw [h2]; simp [bdJoin]
  · rw [h4]
    unfold bdJoin bdMove
    simp only
    apply List.filter_congr
    intro a _
    rw [List.contains_eq_mem]
  · rw [h6]
    unfold bdJoin
    simp only
    by_cases hp : f.primary = true
    · rw [if_pos hp, List.filter_cons_of_pos hp]
      cases hr : r.filter (·.primary) with
      | nil => simp
      | cons y t =>
        rw [List.getLast?_cons_cons]
        cases hg : (y :: t).getLast? with
        | none => simp at hg
        | some z => simp
    · rw [if_neg hp, List.filter_cons_of_neg hp]; simp

/-- **C111**: interfaces with the same bond index become members of a single bond; there's a bond for every bond index used on an interface that can be a member of a bond, and no other bonds. -/
theorem C111_bonds (support : Bool) (count : Nat → Option Nat) (topMode : String) (l l' : List BdIntf) (bonds : List (Nat × Bond)) (e : Nat)
    (h : bdIntfs support count topMode [] l = some (l', bonds, e)) :
    (bonds.map (·.1)).Nodup ∧
    ∀ b, (bonds.lookup b = none ↔ ∀ i ∈ l, i.bond = some b → ¬ Bondable support count i) ∧
      ∀ x, bonds.lookup b = some x → ∃ f r, BondOf topMode f r x ∧ (f :: r).Sublist l ∧ (∀ i, i ∈ f :: r ↔ i ∈ l ∧ i.bond = some b ∧ Bondable support count i) ∧
        (f :: r).length = (l.filter (fun i => bdMember support count b i)).length := by
  obtain ⟨_, h2, h3, _⟩ := bdIntfs_spec support count topMode l [] bonds l' e (by simp) h
  refine ⟨h2, fun b => ?_⟩
  have hb := h3 b
  cases hf : l.filter (bdMember support count b) with
  | nil =>
    rw [hf] at hb
    have hb' : bonds.lookup b = none := hb
    refine ⟨⟨fun _ i hi hib hB => ?_, fun _ => hb'⟩, fun x hx => by rw [hb'] at hx; cases hx⟩
    have := List.filter_eq_nil_iff.1 hf i hi
    exact this (bdMember_iff.2 ⟨hib, hB⟩)
  | cons f r =>
    rw [hf] at hb
    obtain ⟨x, hx, hB⟩ := bdJoinAll_first topMode f r
    have hb' : bonds.lookup b = some x := hb.trans hx
    have hmem : ∀ i, i ∈ f :: r ↔ i ∈ l ∧ i.bond = some b ∧ Bondable support count i := by
      intro i
      rw [← hf, List.mem_filter, bdMember_iff]
    constructor
    · constructor
      · intro hno; rw [hb'] at hno; cases hno
      · intro hall
        obtain ⟨a1, a2, a3⟩ := (hmem f).1 List.mem_cons_self
        exact absurd a3 (hall f a1 a2)
    · intro y hy
      rw [hb'] at hy
      cases hy
      exact ⟨f, r, hB, hf ▸ List.filter_sublist, hmem, by rw [← hf]⟩

/-- **C111**: a member of a bond becomes a layer-2 interface without addresses, VLANs and gateways, other attributes are kept; all other interfaces stay the same.  There are no errors exactly when all
interfaces with a bond index can be members of a bond. -/
theorem C111_bond_members (support : Bool) (count : Nat → Option Nat) (topMode : String) (l l' : List BdIntf) (bonds : List (Nat × Bond)) (e : Nat)
    (h : bdIntfs support count topMode [] l = some (l', bonds, e)) :
    (e = 0 ↔ ∀ i ∈ l, i.bond.isSome = true → Bondable support count i) ∧
    List.Forall₂ (fun i j : BdIntf => ((i.bond = none ∨ ¬ Bondable support count i) → j = i) ∧
      ((i.bond ≠ none ∧ Bondable support count i) → j.l2 = true ∧ j.ifname = i.ifname ∧ j.ifindex = i.ifindex ∧ j.linkindex = i.linkindex ∧ j.bond = i.bond ∧
        ∀ a, a ∈ j.attrs ↔ a ∈ i.attrs ∧ a.1 ∉ ["ipv4", "ipv6", "vlan", "_vlan_mode", "vlan_name", "gateway"])) l l' := by
  obtain ⟨h1, _, _, h4⟩ := bdIntfs_spec support count topMode l [] bonds l' e (by simp) h
  refine ⟨h4, h1.imp ?_⟩
  rintro i j ⟨d1, d2⟩
  constructor
  · intro hh
    apply d2
    rintro ⟨a, b⟩
    rcases hh with hh | hh
    · rw [hh] at a; simp at a
    · exact hh b
  · rintro ⟨a, b⟩
    have := d1 ⟨by cases hb : i.bond with | none => exact absurd hb a | some _ => rfl, b⟩
    subst this
    refine ⟨rfl, rfl, rfl, rfl, rfl, ?_⟩
    intro x
    simp [bdMove]

theorem bdAdd_spec (fmt : Nat → String) (bonds : List (Nat × Bond)) : ∀ c, (bdAdd fmt c bonds).map (fun x => (x.1, x.2.2)) = bonds.map (fun b => (fmt b.1, b.2)) ∧
    ((bdAdd fmt c bonds).map (fun x => x.2.1)).Nodup ∧ ∀ x ∈ bdAdd fmt c bonds, 50000 + c ≤ x.2.1 := by
  induction bonds with
  | nil => intro c; simp [bdAdd]
  | cons b r ih =>
    intro c
    obtain ⟨b, x⟩ := b
    obtain ⟨h1, h2, h3⟩ := ih (c + 1)
    refine ⟨by simp [bdAdd, h1], ?_, ?_⟩
    · simp only [bdAdd, List.map_cons, List.nodup_cons]
      refine ⟨?_, h2⟩
      intro hm
      obtain ⟨y, hy, he⟩ := List.mem_map.1 hm
      have := h3 y hy
      omega
    · intro y hy
      simp only [bdAdd, List.mem_cons] at hy
      rcases hy with rfl | hy
      · simp
      · have := h3 y hy; omega

/-- **C111**: every bond becomes a new interface with the name derived from the bond index; new interfaces have different interface indices that are at least 50000. -/
theorem C111_bond_interfaces (fmt : Nat → String) (bonds : List (Nat × Bond)) :
    (bdAdd fmt 0 bonds).map (fun x => (x.1, x.2.2)) = bonds.map (fun b => (fmt b.1, b.2)) ∧ ((bdAdd fmt 0 bonds).map (fun x => x.2.1)).Nodup ∧ ∀ x ∈ bdAdd fmt 0 bonds, 50000 ≤ x.2.1 := by
  obtain ⟨h1, h2, h3⟩ := bdAdd_spec fmt bonds 0
  exact ⟨h1, h2, fun x hx => h3 x hx⟩

example : bdIntfs true (fun _ => some 2) "active-backup" [] [{ ifname := "eth1", ifindex := 1, linkindex := 1, bond := some 7, attrs := [("ipv4", .str "10.0.0.1/24"), ("mtu", .int 9000)] },
      { ifname := "eth2", ifindex := 2, linkindex := 2, bond := some 7, primary := true, attrs := [("ipv4", .str "10.0.1.1/24")] }] =
    some ([{ ifname := "eth1", ifindex := 1, linkindex := 1, bond := some 7, attrs := [("mtu", .int 9000)], l2 := true },
        { ifname := "eth2", ifindex := 2, linkindex := 2, bond := some 7, primary := true, l2 := true }],
      [(7, { members := ["eth1", "eth2"], mode := "active-backup", attrs := [("ipv4", .str "10.0.0.1/24")], primary := some "eth2", nbrs := [] })], 0) := by decide +kernel

/-- **C111** (defect): neighbors know the bond interface under its real name only when the bond index happens to be equal to the interface index of the member interface. -/
theorem C111_bond_peer_name (fmt : Nat → String) (hf : ∀ a b, fmt a = fmt b → a = b) (i : BdIntf) (b : Nat) : bdPeerName fmt i = fmt b ↔ i.ifindex = b := by
  unfold bdPeerName
  exact ⟨fun h => hf _ _ h, fun h => by rw [h]⟩

/-- **C111** (defect): the name of the bond is also used in the neighbor data of links that are not members of the bond. -/
theorem C111_bond_other_link (node name old : String) (h : old ≠ name) : bdRename node name [(node, old)] ≠ [(node, old)] := by
  unfold bdRename
  simp [Ne.symm h]

/-! ## Originated prefixes -/

theorem boLinks_spec (node : String) (l : List (Option String × Option String)) : ∀ idx n, (boLinks node idx n l).length = l.length ∧
    ∀ (k : Nat) (p : Option String × Option String), l[k]? = some p → (boLinks node idx n l)[k]? =
      some { name := "BGP originate #" ++ toString (n + k + 1), node := node, linkindex := idx + k, ipv4 := p.1, ipv6 := p.2, advertise := p.1.isSome || p.2.isSome } := by
  induction l with
  | nil => intro idx n; simp [boLinks]
  | cons x r ih =>
    intro idx n
    obtain ⟨v4, v6⟩ := x
    obtain ⟨i1, i2⟩ := ih (idx + 1) (n + 1)
    refine ⟨by simp [boLinks, i1], ?_⟩
    intro k p hp
    cases k with
    | zero =>
      simp only [List.getElem?_cons_zero, Option.some.injEq] at hp
      subst hp
      simp [boLinks]
    | succ k =>
      simp only [List.getElem?_cons_succ] at hp
      simp only [boLinks, List.getElem?_cons_succ]
      rw [i2 k p hp]
      have h1 : n + 1 + k + 1 = n + (k + 1) + 1 := by omega
      have h2 : idx + 1 + k = idx + (k + 1) := by omega
      rw [h1, h2]

/-- **C111**: every entry in the originate list of a BGP node becomes a loopback link of that node with the requested prefixes (advertised when there is a prefix); nodes without BGP get no loopbacks. -/
theorem C111_originate (nodes : List (String × Bool × List (Option String × Option String))) : ∀ idx,
    (boAll idx nodes).map (fun x => (x.node, x.ipv4, x.ipv6, x.advertise)) =
      (nodes.filter (fun n => n.2.1)).flatMap (fun n => n.2.2.map (fun p => (n.1, p.1, p.2, p.1.isSome || p.2.isSome))) ∧
    ∀ k x, (boAll idx nodes)[k]? = some x → x.linkindex = idx + k := by
  induction nodes with
  | nil => intro idx; simp [boAll]
  | cons n r ih =>
    intro idx
    obtain ⟨n, bgp, l⟩ := n
    cases bgp with
    | false =>
      simp only [boAll, Bool.false_eq_true, if_false, List.filter_cons]
      exact ih idx
    | true =>
      obtain ⟨i1, i2⟩ := ih (idx + l.length)
      obtain ⟨b1, b2⟩ := boLinks_spec n l idx 0
      simp only [boAll, if_true, List.filter_cons, List.flatMap_cons]
      constructor
      · rw [List.map_append, i1]
        congr 1
        apply List.ext_getElem?
        intro k
        rw [List.getElem?_map, List.getElem?_map]
        cases hk : l[k]? with
        | none =>
          have : (boLinks n idx 0 l)[k]? = none := by
            rw [List.getElem?_eq_none_iff] at hk ⊢
            omega
          rw [this]; rfl
        | some p => rw [b2 k p hk]; rfl
      · intro k x hx
        by_cases hk : k < l.length
        · rw [List.getElem?_append_left (by omega)] at hx
          rw [b2 k _ (List.getElem?_eq_getElem hk)] at hx
          cases hx
          rfl
        · rw [List.getElem?_append_right (by omega), b1] at hx
          rw [i2 _ x hx]
          omega

example : boAll 5 [("r1", true, [(some "10.0.0.0/24", none), (none, none)]), ("h", false, [(some "10.1.0.0/24", none)]), ("r2", true, [(none, some "2001:db8::/64")])] =
    [⟨"BGP originate #1", "r1", 5, some "10.0.0.0/24", none, true⟩, ⟨"BGP originate #2", "r1", 6, none, none, false⟩, ⟨"BGP originate #1", "r2", 7, none, some "2001:db8::/64", true⟩] := by
  decide +kernel

/-! ## Proxy ARP -/

/-- **C111**: proxy ARP is enabled exactly on LAN, point-to-point and VLAN interfaces with an address in a VRF with the `proxy_arp` attribute; the configuration template is added exactly to nodes with
such an interface. -/
theorem C111_proxy_arp (vrfs : List (String × Option Bool)) (intfs : List PaIntf) :
    let wanted (i : PaIntf) : Prop := (i.type = "lan" ∨ i.type = "p2p" ∨ i.type = "svi") ∧ (∃ v f, i.vrf = some v ∧ (v, some f) ∈ vrfs) ∧ (i.ipv4 = true ∨ i.ipv6 = true)
    List.Forall₂ (fun i j : PaIntf => (wanted i → j = { i with proxyArp := true }) ∧ (¬ wanted i → j = i)) intfs (paNode vrfs intfs).1 ∧
    ((paNode vrfs intfs).2 = true ↔ ∃ i ∈ intfs, wanted i) := by
  intro wanted
  have hm : ∀ i, paMatch vrfs i = true ↔ wanted i := by
    intro i
    unfold paMatch
    simp only [Bool.and_eq_true, Bool.or_eq_true]
    rw [and_assoc]
    refine and_congr (by simp) (and_congr ?_ Iff.rfl)
    cases hv : i.vrf with
    | none => simp
    | some v =>
      simp only [List.any_eq_true, List.mem_filter, beq_iff_eq, Option.some.injEq]
      constructor
      · rintro ⟨⟨a, b⟩, ⟨h1, h2⟩, rfl⟩
        cases b with
        | none => simp at h2
        | some f => exact ⟨a, f, rfl, h1⟩
      · rintro ⟨v', f, rfl, h1⟩
        exact ⟨(v, some f), ⟨h1, rfl⟩, rfl⟩
  unfold paNode
  by_cases he : vrfs.isEmpty = true
  · rw [if_pos he]
    have hno : ∀ i, ¬ wanted i := by
      rintro i ⟨_, ⟨v, f, _, h⟩, _⟩
      rw [List.isEmpty_iff.1 he] at h
      simp at h
    refine ⟨?_, by simp [hno]⟩
    simp only
    induction intfs with
    | nil => exact List.Forall₂.nil
    | cons i r ih => exact List.Forall₂.cons ⟨fun h => absurd h (hno i), fun _ => rfl⟩ ih
  · rw [if_neg he]
    constructor
    · simp only
      induction intfs with
      | nil => exact List.Forall₂.nil
      | cons i r ih =>
        rw [List.map_cons]
        refine List.Forall₂.cons ⟨fun h => ?_, fun h => ?_⟩ ih
        · rw [if_pos ((hm i).2 h)]
        · rw [if_neg (fun hh => h ((hm i).1 hh))]
    · simp only [List.any_eq_true, hm]

/-- **C111** (defect): `proxy_arp: False` in a VRF enables proxy ARP. -/
theorem C111_proxy_arp_false : paNode [("red", some false)] [{ type := "lan", vrf := some "red", ipv4 := true }] = ([{ type := "lan", vrf := some "red", ipv4 := true, proxyArp := true }], true) := by decide +kernel

/-! ## VRRP version -/

/-- **C111**: nodes using VRRP gateways get the additional configuration if the device supports it, otherwise there's an error; there are no other changes or errors. -/
theorem C111_vrrp (nodes : List (String × Bool × Bool × Bool)) :
    (vvNodes nodes).1 = (nodes.filter (fun n => n.2.1 && n.2.2.1 && n.2.2.2)).map (·.1) ∧ (vvNodes nodes).2 = (nodes.filter (fun n => n.2.1 && n.2.2.1 && !n.2.2.2)).map (·.1) := by
  induction nodes with
  | nil => exact ⟨rfl, rfl⟩
  | cons n r ih =>
    obtain ⟨n, g, v, f⟩ := n
    obtain ⟨h1, h2⟩ := ih
    cases g <;> cases v <;> cases f <;> simp [vvNodes, h1, h2]

/-! ## Shared VTEP addresses -/

/-- **C111**: shared VTEP addresses: every VXLAN node on an MLAG peer link (unless it's disabled) gets a loopback with the address allocated to that peer link, and there are no other loopbacks. -/
theorem C111_vtep {α : Type} (ok : String → Bool) (alloc : Nat → Option α) (links : List (Bool × List String)) : ∀ k r, mvLinks ok alloc k links = some r →
    ∀ n a, (n, a) ∈ r ↔ ∃ j nodes, (links.filter (·.1))[j]? = some (true, nodes) ∧ n ∈ nodes ∧ ok n = true ∧ alloc (k + j) = some a := by
  induction links with
  | nil => intro k r h n a; simp only [mvLinks, Option.some.injEq] at h; subst h; simp
  | cons l rest ih =>
    intro k r h n a
    obtain ⟨peer, nodes⟩ := l
    cases peer with
    | false =>
      simp only [mvLinks, Bool.not_false, if_true] at h
      rw [ih k r h n a, List.filter_cons_of_neg (by simp)]
    | true =>
      simp only [mvLinks, Bool.not_true, Bool.false_eq_true, if_false] at h
      cases ha : alloc k with
      | none => rw [ha] at h; simp at h
      | some x =>
        rw [ha] at h
        simp only [Option.map_eq_some_iff] at h
        obtain ⟨r', hr, rfl⟩ := h
        rw [List.mem_append, ih (k + 1) r' hr n a, List.filter_cons_of_pos rfl]
        simp only [List.mem_map, List.mem_filter, Prod.mk.injEq]
        constructor
        · rintro (⟨m, ⟨h1, h2⟩, rfl, rfl⟩ | ⟨j, ns, h1, h2, h3, h4⟩)
          · exact ⟨0, nodes, rfl, h1, h2, ha⟩
          · exact ⟨j + 1, ns, by simpa using h1, h2, h3, by rw [← h4]; congr 1; omega⟩
        · rintro ⟨j, ns, h1, h2, h3, h4⟩
          cases j with
          | zero =>
            simp only [List.getElem?_cons_zero, Option.some.injEq, Prod.mk.injEq, true_and] at h1
            subst h1
            rw [Nat.add_zero, ha] at h4
            cases h4
            exact Or.inl ⟨n, ⟨h2, h3⟩, rfl, rfl⟩
          | succ j =>
            exact Or.inr ⟨j, ns, by simpa using h1, h2, h3, by rw [← h4]; congr 1; omega⟩

/-- **C111**: nodes share a VTEP address exactly when they're on the same peer link (assuming the address pool never returns the same address twice). -/
theorem C111_vtep_shared {α : Type} (ok : String → Bool) (alloc : Nat → Option α) (hi : ∀ i j a, alloc i = some a → alloc j = some a → i = j) (links : List (Bool × List String)) (r : List (String × α))
    (h : mvLinks ok alloc 0 links = some r) (n n' : String) (a : α) (hn : (n, a) ∈ r) (hn' : (n', a) ∈ r) : ∃ nodes, (true, nodes) ∈ links ∧ n ∈ nodes ∧ n' ∈ nodes := by
  obtain ⟨j, ns, h1, h2, _, h4⟩ := (C111_vtep ok alloc links 0 r h n a).1 hn
  obtain ⟨j', ns', h1', h2', _, h4'⟩ := (C111_vtep ok alloc links 0 r h n' a).1 hn'
  have := hi _ _ _ h4 h4'
  have hj : j = j' := by omega
  subst hj
  rw [h1] at h1'
  cases h1'
  exact ⟨ns, (List.mem_filter.1 (List.mem_of_getElem? h1)).1, h2, h2'⟩

/-- **C111**: a node gets the shared address only if it uses VXLAN and the plugin is not disabled on the node. -/
theorem C111_vtep_ok (vxlan : Bool) (vtep : Option Bool) : mvOk vxlan vtep = true ↔ vxlan = true ∧ vtep ≠ some false := by
  unfold mvOk
  cases vxlan <;> rcases vtep with _ | _ | _ <;> simp

example : mvLinks (fun n => n != "s3") (fun k => some (10 + k)) 0 [(false, ["s1", "x"]), (true, ["s1", "s2"]), (true, ["s3", "s4"])] = some [("s1", 10), ("s2", 10), ("s4", 11)] := by decide +kernel

/-! ## Missing custom configurations -/

theorem mem_takeWhile_true {α : Type} (p : α → Bool) (l : List α) (x : α) (h : x ∈ l.takeWhile p) : p x = true := by
  have := List.all_takeWhile (p := p) (l := l)
  exact List.all_eq_true.1 this x h

theorem ckLoop_spec (found : String → Bool) (l : List String) : ∀ c, ckLoop found l c = (c.filter (fun x => !(l.takeWhile (fun f => !found f)).contains x), l.takeWhile (fun f => !found f)) := by
  induction l with
  | nil => intro c; simp [ckLoop]
  | cons f r ih =>
    intro c
    unfold ckLoop
    by_cases hf : found f = true
    · rw [if_pos hf]; simp [hf]
    · rw [if_neg hf, ih]
      have hf' : found f = false := by simpa using hf
      simp only [List.takeWhile_cons, hf', Bool.not_false, if_true, Prod.mk.injEq, and_true]
      rw [List.filter_filter]
      apply List.filter_congr
      intro x _
      rw [List.contains_cons, Bool.not_or, Bool.and_comm]
      rfl

/-- **C111**: only missing custom configurations are reported and removed from the node; the order of the other ones does not change.  Every configuration up to the first one that was found is
checked. -/
theorem C111_check (found : String → Bool) (config : List String) :
    (∀ f ∈ (ckLoop found config config).2, found f = false ∧ f ∈ config) ∧
    (∀ f, f ∈ (ckLoop found config config).1 ↔ f ∈ config ∧ f ∉ (ckLoop found config config).2) ∧
    (ckLoop found config config).1.Sublist config ∧
    (∀ pre f post, config = pre ++ f :: post → (∀ x ∈ pre, found x = false) → found f = false → f ∈ (ckLoop found config config).2) := by
  rw [ckLoop_spec]
  refine ⟨?_, ?_, List.filter_sublist, ?_⟩
  · intro f hf
    refine ⟨?_, (List.takeWhile_sublist _).subset hf⟩
    have := mem_takeWhile_true _ _ _ hf
    simpa using this
  · intro f
    simp
  · intro pre f post hc hp hf
    simp only
    rw [hc, List.takeWhile_append_of_pos (fun x hx => by simp [hp x hx]), List.takeWhile_cons_of_pos (by simp [hf])]
    simp

/-- **C111** (defect): missing configurations following one that was found are not reported. -/
theorem C111_check_stops : ckLoop (fun f => f == "a") ["a", "b"] ["a", "b"] = (["a", "b"], []) := by decide +kernel

/-! ## Changes in multilab scenarios -/

/-- The evaluation of a single value -/
def mlVal (ev : String → String) : Val → Val
  | .dict d => .dict (mlEval ev d)
  | .str s => if s.toList.contains '{' then .str (ev s) else .str s
  | v => v

theorem mlEval_cons (ev : String → String) (k : String) (v : Val) (r : List (String × Val)) : mlEval ev ((k, v) :: r) = (k, mlVal ev v) :: mlEval ev r := by
  cases v <;> simp [mlEval, mlVal]

theorem mlEval_lookup (ev : String → String) (d : List (String × Val)) (k : String) : (mlEval ev d).lookup k = (d.lookup k).map (mlVal ev) := by
  induction d with
  | nil => simp [mlEval]
  | cons p r ih =>
    obtain ⟨j, v⟩ := p
    rw [mlEval_cons]
    by_cases hk : k = j
    · subst hk; rw [lookup_cons_self, lookup_cons_self]; rfl
    · rw [lookup_cons_ne _ _ hk, lookup_cons_ne _ _ hk, ih]

theorem mlEval_keys (ev : String → String) (d : List (String × Val)) : (mlEval ev d).map (·.1) = d.map (·.1) := by
  induction d with
  | nil => simp [mlEval]
  | cons p r ih => obtain ⟨j, v⟩ := p; rw [mlEval_cons]; simp [ih]

theorem mlVal_at (ev : String → String) (p : List String) : ∀ v, Val.at (mlVal ev v) p = (Val.at v p).map (mlVal ev) := by
  induction p with
  | nil => intro v; simp [Val.at]
  | cons k p ih =>
    intro v
    cases v with
    | dict d =>
      simp only [mlVal, Val.at]
      rw [mlEval_lookup]
      cases d.lookup k with
      | none => rfl
      | some w => exact ih w
    | str s =>
      simp only [mlVal]
      split <;> simp [Val.at]
    | _ => simp [mlVal, Val.at]

theorem mlVal_evaluated (ev : String → String) (v : Val) : Evaluated ev v (mlVal ev v) := by
  refine ⟨?_, ?_, ?_⟩
  · rintro s rfl
    simp only [mlVal]
    by_cases h : '{' ∈ s.toList
    · rw [if_pos (by simpa using h), if_pos h]
    · rw [if_neg (by simpa using h), if_neg h]
  · intro hd hs
    cases v with
    | dict d => simp [Val.isDict] at hd
    | str s => exact absurd rfl (hs s)
    | _ => rfl
  · intro hd
    cases v with
    | dict d => rfl
    | _ => simp [Val.isDict] at hd

/-- **C111**: format strings in changed parameters are evaluated at any depth, all other values stay the same, and no value is added or lost. -/
theorem C111_multilab_eval (ev : String → String) (ch : List (String × Val)) (p : List String) :
    (Val.at (.dict (mlEval ev ch)) p = none ↔ Val.at (.dict ch) p = none) ∧
    ∀ v w, Val.at (.dict ch) p = some v → Val.at (.dict (mlEval ev ch)) p = some w → Evaluated ev v w := by
  have h := mlVal_at ev p (.dict ch)
  rw [show mlVal ev (.dict ch) = .dict (mlEval ev ch) from rfl] at h
  rw [h]
  refine ⟨by simp, ?_⟩
  intro v w hv hw
  rw [hv] at hw
  cases hw
  exact mlVal_evaluated ev v

theorem mlMerge_lookup (ch : List (String × Val)) : ∀ (t : List (String × Val)), (ch.map (·.1)).Nodup → ∀ k,
    (mlMerge t ch).lookup k = match ch.lookup k with | some v => some (mlOne (t.lookup k) v) | none => t.lookup k := by
  induction ch with
  | nil => intro t _ k; rfl
  | cons p r ih =>
    intro t hn k
    obtain ⟨j, v⟩ := p
    rw [List.map_cons, List.nodup_cons] at hn
    have hstep : mlMerge t ((j, v) :: r) = mlMerge (setKey t j (mlOne (t.lookup j) v)) r := rfl
    rw [hstep, ih _ hn.2 k]
    by_cases hk : k = j
    · subst hk
      have hno : r.lookup k = none := lookup_eq_none_iff.2 hn.1
      rw [hno, lookup_cons_self]
      simp only
      rw [lookup_setKey, if_pos rfl]
    · rw [lookup_cons_ne _ _ hk, lookup_setKey, if_neg hk]

/-- **C111**: multilab changes: a changed dictionary is merged with the dictionary in the topology (changed values win), a changed list is appended to the list in the topology, any other changed value
replaces the value in the topology; parameters that are not changed stay the same. -/
theorem C111_multilab_merge (t ch : List (String × Val)) (hn : (ch.map (·.1)).Nodup) (k : String) :
    (ch.lookup k = none → (mlMerge t ch).lookup k = t.lookup k) ∧
    (∀ a b, ch.lookup k = some (.dict a) → t.lookup k = some (.dict b) → (mlMerge t ch).lookup k = some (.dict (mergeDict b a))) ∧
    (∀ a b, ch.lookup k = some (.list a) → t.lookup k = some (.list b) → (mlMerge t ch).lookup k = some (.list (b ++ a))) ∧
    (∀ v, ch.lookup k = some v → (∀ a b, ¬ (v = .dict a ∧ t.lookup k = some (.dict b))) → (∀ a b, ¬ (v = .list a ∧ t.lookup k = some (.list b))) → (mlMerge t ch).lookup k = some v) := by
  have h := mlMerge_lookup ch t hn k
  refine ⟨?_, ?_, ?_, ?_⟩
  · intro hc; rw [h, hc]
  · intro a b hc ht; rw [h, hc, ht]; rfl
  · intro a b hc ht; rw [h, hc, ht]; rfl
  · intro v hc hd hl
    rw [h, hc]
    simp only [Option.some.injEq]
    unfold mlOne
    split
    · rename_i a b ht; exact absurd ⟨rfl, ht⟩ (hd a b)
    · rename_i a b ht; exact absurd ⟨rfl, ht⟩ (hl a b)
    · rfl

/-- **C111**: multilab identifiers: the topology is changed only if both the identifier and the changes are specified, and an identifier outside of the range 1-200 is an error. -/
theorem C111_multilab_init (ev : Int → String → String) (t mlab : List (String × Val)) :
    ((mlInit ev t mlab).2 = 0 ↔ ∃ i ch, mlab.lookup "id" = some (.int i) ∧ mlab.lookup "change" = some (.dict ch) ∧ 1 ≤ i ∧ i ≤ 200) ∧
    (∀ i ch, mlab.lookup "id" = some (.int i) → mlab.lookup "change" = some (.dict ch) → (mlInit ev t mlab).1 = mlMerge t (mlEval (ev i) ch)) ∧
    ((mlab.lookup "id" = none ∨ mlab.lookup "change" = none) → (mlInit ev t mlab).1 = t) := by
  refine ⟨?_, ?_, ?_⟩
  · unfold mlInit
    split
    · rename_i i ch h1 h2
      simp only [h1, h2, Option.some.injEq, Val.int.injEq, Val.dict.injEq]
      constructor
      · intro h
        split at h
        · rename_i hr; exact ⟨i, ch, rfl, rfl, hr⟩
        · simp at h
      · rintro ⟨_, _, rfl, rfl, hr⟩; rw [if_pos hr]
    · rename_i a b hno h1 h2
      constructor
      · intro h; simp at h
      · rintro ⟨i, ch, h3, h4, _⟩
        rw [h1] at h3; rw [h2] at h4
        cases h3; cases h4
        exact (hno i ch rfl rfl).elim
    · rename_i h1 h2
      constructor
      · intro h; simp at h
      · rintro ⟨i, ch, h3, _⟩; rw [h1] at h3; cases h3
    · rename_i h1 h2 h3
      constructor
      · intro h; simp at h
      · rintro ⟨i, ch, h4, h5, _⟩; exact absurd h5 (h1 i ch h4)
  · intro i ch h1 h2
    unfold mlInit
    rw [h1, h2]
  · intro h
    unfold mlInit
    rcases h with h | h
    · rw [h]; cases mlab.lookup "change" <;> rfl
    · rw [h]
      cases hi : mlab.lookup "id" with
      | none => rfl
      | some v => cases v <;> rfl

example : mlInit (fun i s => s ++ (if i = 7 then "!7" else "")) [("name", .str "x"), ("provider", .str "clab"), ("tools", .dict [("a", .int 1)])]
      [("id", .int 7), ("change", .dict [("name", .str "ml_{id}"), ("tools", .dict [("b", .str "{id}")])])] =
    ([("name", .str "ml_{id}!7"), ("provider", .str "clab"), ("tools", .dict [("a", .int 1), ("b", .str "{id}!7")])], 0) := by
  simp [mlInit, mlEval, mlMerge, mlOne, setKey, mergeDict, mergePair, List.lookup]

end Netlab
