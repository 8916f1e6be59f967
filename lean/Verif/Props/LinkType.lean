import Verif.Spec.LinkType
import Verif.Props.LinkNorm
import Verif.Props.Box
/-!
# C81: link types, link roles and group links
-/

namespace Netlab

open Netlab.Spec

/-! ### Link types -/

theorem ltLoopback_iff (dflt : Bool) (n : LtNode) : ltLoopback dflt n = true ↔ WantsLoopback dflt n := by
  unfold ltLoopback WantsLoopback
  cases n.stubLoopback with
  | none => simp
  | some b => simp

theorem ltType1_loopback {dflt : Bool} {l : LtLink} (h : LoopbackLink dflt l) : ltType1 dflt l = some "loopback" := by
  obtain ⟨n, hn, hw⟩ := h
  simp [ltType1, hn, (ltLoopback_iff dflt n).2 hw]

theorem ltType1_keep {dflt : Bool} {l : LtLink} (h : ¬ LoopbackLink dflt l) : ltType1 dflt l = l.type := by
  unfold ltType1
  split
  · rename_i n hn
    rw [if_neg]
    exact fun hw => h ⟨n, hn, (ltLoopback_iff dflt n).1 hw⟩
  · rfl

theorem ltHosts_pos (ns : List LtNode) : ltHosts ns ≠ 0 ↔ ∃ n ∈ ns, n.host = true := by
  induction ns with
  | nil => simp [ltHosts]
  | cons n rest ih =>
    simp only [ltHosts, List.mem_cons, exists_eq_or_imp]
    rw [← ih]
    cases n.host <;> simp

theorem ltHostCount_pos (l : LtLink) : ltHostCount l ≠ 0 ↔ HasHosts l := by
  unfold ltHostCount HasHosts
  rw [← ltHosts_pos]
  cases l.dhcp <;> simp

theorem ltCheck_iff (t : String) (n : Nat) : ltCheck t n = true ↔ FitsType t n := by
  unfold ltCheck
  constructor
  · intro h
    split at h
    · exact absurd h (by simp)
    split at h
    · exact absurd h (by simp)
    split at h
    · exact absurd h (by simp)
    split at h
    · exact absurd h (by simp)
    split at h
    · exact absurd h (by simp)
    rename_i h1 h2 h3 h4 h5
    exact ⟨h1, by omega, fun e => Classical.byContradiction fun q => h3 ⟨e, by omega⟩,
      fun e => Classical.byContradiction fun q => h4 ⟨e, q⟩, fun e => Classical.byContradiction fun q => h5 ⟨e, q⟩⟩
  · intro h
    have h0 := h.some_node
    rw [if_neg h.named, if_neg (by omega), if_neg, if_neg, if_neg]
    · exact fun q => q.2 (h.loopback q.1)
    · exact fun q => q.2 (h.p2p q.1)
    · rintro ⟨e, q⟩
      have := h.stub e
      omega

/-- **C81 (default type).**  A link without a type is a loopback when its only node uses loopbacks instead of stub
links; otherwise it's a LAN when it has more than two nodes or hosts, a point-to-point link when it has two nodes, and a
stub link when it has a single node. -/
theorem C81_default_type (dflt : Bool) (l : LtLink) (h : l.type = none) :
    (LoopbackLink dflt l → ltType dflt l = "loopback") ∧
    (¬ LoopbackLink dflt l → 2 < l.nodes.length ∨ HasHosts l → ltType dflt l = "lan") ∧
    (l.nodes.length = 2 → ¬ HasHosts l → ltType dflt l = "p2p") ∧
    (¬ LoopbackLink dflt l → l.nodes.length = 1 → ¬ HasHosts l → ltType dflt l = "stub") := by
  have keep : ¬ LoopbackLink dflt l → ltType dflt l = ltDefault l.nodes.length (ltHostCount l) := by
    intro hl
    simp [ltType, ltType1_keep hl, h]
  refine ⟨fun hl => by simp [ltType, ltType1_loopback hl], fun hl hc => ?_, fun h2 hh => ?_, fun hl h1 hh => ?_⟩
  · rw [keep hl]
    unfold ltDefault
    rcases hc with hc | hc
    · rw [if_pos hc]
    · split
      · rfl
      · rw [if_pos ((ltHostCount_pos l).2 hc)]
  · have hl : ¬ LoopbackLink dflt l := by
      rintro ⟨n, hn, -⟩
      simp [hn] at h2
    rw [keep hl]
    unfold ltDefault
    rw [if_neg (by omega), if_neg (fun q => hh ((ltHostCount_pos l).1 q)), if_pos h2]
  · rw [keep hl]
    unfold ltDefault
    rw [if_neg (by omega), if_neg (fun q => hh ((ltHostCount_pos l).1 q)), if_neg (by omega)]

/-- **C81 (explicit type).**  The type of a link is kept unless its only node uses loopbacks instead of stub links. -/
theorem C81_type_kept (dflt : Bool) (l : LtLink) (t : String) (h : l.type = some t) (hl : ¬ LoopbackLink dflt l) :
    ltType dflt l = t := by
  simp [ltType, ltType1_keep hl, h]

/-- **C81 (explicit type is lost).**  A LAN with a single node turns into a loopback. -/
theorem C81_type_overridden : ∃ (dflt : Bool) (l : LtLink), l.type = some "lan" ∧ ltType dflt l = "loopback" :=
  ⟨true, ⟨some "lan", none, false, false, [⟨false, false, true, none⟩]⟩, rfl, rfl⟩

/-- **C81 (default types fit).**  A link without a type is accepted when it has nodes. -/
theorem C81_default_accepted (dflt : Bool) (l : LtLink) (h : l.type = none) (hn : l.nodes ≠ []) :
    FitsType (ltType dflt l) l.nodes.length := by
  have hlen : 0 < l.nodes.length := List.length_pos_iff.2 hn
  obtain ⟨h1, h2, h3, h4⟩ := C81_default_type dflt l h
  by_cases hl : LoopbackLink dflt l
  · rw [h1 hl]
    obtain ⟨n, hn, -⟩ := hl
    exact ⟨by simp, hlen, by simp, by simp, fun _ => by simp [hn]⟩
  · by_cases hc : 2 < l.nodes.length ∨ HasHosts l
    · rw [h2 hl hc]
      exact ⟨by simp, hlen, by simp, by simp, by simp⟩
    · have hh : ¬ HasHosts l := fun q => hc (Or.inr q)
      have hlt : ¬ 2 < l.nodes.length := fun q => hc (Or.inl q)
      by_cases he : l.nodes.length = 2
      · rw [h3 he hh]
        exact ⟨by simp, hlen, by simp, fun _ => he, by simp⟩
      · have h1' : l.nodes.length = 1 := by omega
        rw [h4 hl h1' hh]
        exact ⟨by simp, hlen, fun _ => h1', by simp, by simp⟩

/-! ### Link roles -/

theorem ltRouters_pos (ns : List LtNode) : ltRouters ns = 0 ↔ ∀ n ∈ ns, ¬ Forwards n := by
  induction ns with
  | nil => simp [ltRouters]
  | cons n rest ih =>
    have hn : (if n.host then (if n.daemon then 1 else 0) else 1) = 0 ↔ ¬ Forwards n := by
      unfold Forwards
      cases n.host <;> cases n.daemon <;> simp
    simp only [ltRouters, List.forall_mem_cons, Nat.add_eq_zero_iff, hn, ih]

theorem ltRouters_two (ns : List LtNode) :
    1 < ltRouters ns ↔ ∃ (i j : Nat) (a b : LtNode), i < j ∧ ns[i]? = some a ∧ ns[j]? = some b ∧ Forwards a ∧ Forwards b := by
  induction ns with
  | nil => simp [ltRouters]
  | cons n rest ih =>
    simp only [ltRouters]
    by_cases hf : Forwards n
    · have h1 : (if n.host then (if n.daemon then 1 else 0) else 1) = 1 := by
        unfold Forwards at hf
        revert hf
        cases n.host <;> cases n.daemon <;> simp
      rw [h1]
      have hne : 1 < 1 + ltRouters rest ↔ ¬ ltRouters rest = 0 := by omega
      rw [hne, ltRouters_pos]
      constructor
      · intro h
        obtain ⟨b, hb, hfb⟩ : ∃ b, b ∈ rest ∧ Forwards b :=
          Classical.byContradiction fun q => h fun b hb hfb => q ⟨b, hb, hfb⟩
        obtain ⟨j, hj⟩ := List.getElem?_of_mem hb
        exact ⟨0, j + 1, n, b, by omega, rfl, by simpa using hj, hf, hfb⟩
      · rintro ⟨i, j, a, b, hij, -, hj, -, hfb⟩ h
        obtain ⟨k, rfl⟩ : ∃ k, j = k + 1 := ⟨j - 1, by omega⟩
        exact h b (List.mem_of_getElem? (by simpa using hj)) hfb
    · have h0 : (if n.host then (if n.daemon then 1 else 0) else 1) = 0 := by
        unfold Forwards at hf
        revert hf
        cases n.host <;> cases n.daemon <;> simp
      rw [h0, Nat.zero_add, ih]
      constructor
      · rintro ⟨i, j, a, b, hij, hi, hj, ha, hb⟩
        exact ⟨i + 1, j + 1, a, b, by omega, by simpa using hi, by simpa using hj, ha, hb⟩
      · rintro ⟨i, j, a, b, hij, hi, hj, ha, hb⟩
        cases i with
        | zero =>
          obtain rfl : n = a := by simpa using hi
          exact absurd ha hf
        | succ i =>
          obtain ⟨k, rfl⟩ : ∃ k, j = k + 1 := ⟨j - 1, by omega⟩
          exact ⟨i, k, a, b, by omega, by simpa using hi, by simpa using hj, ha, hb⟩

/-- **C81 (role).**  The role of a link is kept; a link without a role is a stub link if and only if it's not a loopback or
a VLAN link, and does not have two nodes that forward packets. -/
theorem C81_role (dflt : Bool) (l : LtLink) :
    (∀ r, l.role = some r → ltRole dflt l = some r) ∧
    (l.role = none → (ltRole dflt l = some "stub" ↔
      ¬ TwoRouters l ∧ ltType dflt l ≠ "loopback" ∧ l.vlan = false) ∧
      (ltRole dflt l ≠ some "stub" → ltRole dflt l = none)) := by
  refine ⟨fun r h => by simp [ltRole, h], fun h => ?_⟩
  have ht : ltType1 dflt l = some "loopback" ↔ ltType dflt l = "loopback" := by
    unfold ltType
    cases hv : ltType1 dflt l with
    | some t => simp
    | none =>
      simp only [reduceCtorEq, false_iff]
      unfold ltDefault
      split
      · decide
      · split
        · decide
        · split <;> decide
  have hr : ¬ TwoRouters l ↔ ltRouters l.nodes ≤ 1 := by
    unfold TwoRouters
    rw [← ltRouters_two]
    omega
  rw [hr]
  unfold ltRole
  constructor
  · split
    · rename_i hc
      simp only [h, Option.isNone_none, Bool.true_and, Bool.and_eq_true, decide_eq_true_eq, bne_iff_ne, ne_eq,
        Bool.not_eq_true'] at hc
      simp only [true_iff]
      exact ⟨hc.1.1, fun q => hc.1.2 (ht.2 q), hc.2⟩
    · rename_i hc
      rw [h]
      simp only [reduceCtorEq, false_iff]
      rintro ⟨h1, h2, h3⟩
      apply hc
      simp only [h, Option.isNone_none, Bool.true_and, Bool.and_eq_true, decide_eq_true_eq, bne_iff_ne, ne_eq,
        Bool.not_eq_true']
      exact ⟨⟨h1, fun q => h2 (ht.1 q)⟩, h3⟩
  · split
    · exact fun q => absurd rfl q
    · exact fun _ => h

/-! ### All links -/

/-- **C81 (links).**  The links that are processed further are the links with the right number of nodes for their type, in
the original order; every other link is an error.  Nodes and other attributes do not change. -/
theorem C81_accepted (dflt : Bool) (links : List LtLink) :
    (∀ l, l ∈ (ltTransform dflt links).val ↔ ∃ l0 ∈ links, FitsType (ltType dflt l0) l0.nodes.length ∧
      l = { l0 with type := some (ltType dflt l0), role := ltRole dflt l0 }) ∧
    List.Sublist ((ltTransform dflt links).val.map LtLink.nodes) (links.map LtLink.nodes) ∧
    (ltTransform dflt links).val.length + (ltTransform dflt links).errs = links.length := by
  induction links with
  | nil => simp [ltTransform]
  | cons l rest ih =>
    obtain ⟨i1, i2, i3⟩ := ih
    simp only [ltTransform]
    split
    · rename_i hc
      have hf := (ltCheck_iff _ _).1 hc
      refine ⟨fun x => ?_, ?_, ?_⟩
      · simp only [List.mem_cons, i1]
        constructor
        · rintro (rfl | ⟨l0, h0, h1⟩)
          · exact ⟨l, Or.inl rfl, hf, rfl⟩
          · exact ⟨l0, Or.inr h0, h1⟩
        · rintro ⟨l0, rfl | h0, h1, h2⟩
          · exact Or.inl h2
          · exact Or.inr ⟨l0, h0, h1, h2⟩
      · simp only [List.map_cons]
        exact i2.cons_cons _
      · simp only [List.length_cons]
        omega
    · rename_i hc
      have hf : ¬ FitsType (ltType dflt l) l.nodes.length := fun q => hc ((ltCheck_iff _ _).2 q)
      refine ⟨fun x => ?_, ?_, ?_⟩
      · rw [i1]
        constructor
        · rintro ⟨l0, h0, h1⟩
          exact ⟨l0, List.mem_cons_of_mem _ h0, h1⟩
        · rintro ⟨l0, h0, h1, h2⟩
          rcases List.mem_cons.1 h0 with rfl | h0
          · exact absurd h1 hf
          · exact ⟨l0, h0, h1, h2⟩
      · simp only [List.map_cons]
        exact i2.cons _
      · simp only [List.length_cons]
        omega

/-- Two routers, a router with a host, a stub link, a loopback and a point-to-point link with three nodes. -/
example :
    let r : LtNode := ⟨false, false, true, some false⟩
    let h : LtNode := ⟨true, false, false, none⟩
    let x : LtNode := ⟨false, false, true, none⟩
    let t := ltTransform true [⟨none, none, false, false, [r, r]⟩, ⟨none, none, false, false, [r, h]⟩,
      ⟨none, none, false, false, [r]⟩, ⟨none, none, false, false, [x]⟩, ⟨some "p2p", none, false, false, [r, r, r]⟩]
    t.val.map (fun l => (l.type, l.role)) = [(some "p2p", none), (some "lan", some "stub"), (some "stub", some "stub"),
      (some "loopback", none)] ∧ t.errs = 1 := by decide +kernel

/-! ### Group links -/

theorem isId_iff (v : Val) : isId v = true ↔ ∃ s, v = .str s ∧ Identifier s := by
  cases v with
  | str s =>
    simp only [isId, Val.str.injEq, exists_eq_left', Identifier]
    cases hs : s.toList with
    | nil => simp
    | cons c r =>
      simp only [idFirst, idNext, Bool.and_eq_true, Bool.or_eq_true, beq_iff_eq, List.all_eq_true, decide_eq_true_eq,
        List.cons.injEq]
      constructor
      · rintro ⟨⟨h1, h2⟩, h3⟩
        refine ⟨c, r, ⟨rfl, rfl⟩, h1, h3, fun x hx => ?_⟩
        rcases h2 x hx with ((h | h) | h) | h
        · exact Or.inl h
        · exact Or.inr (Or.inl h)
        · exact Or.inr (Or.inr (Or.inl h))
        · exact Or.inr (Or.inr (Or.inr h))
      · rintro ⟨c', r', ⟨rfl, rfl⟩, h1, h3, h2⟩
        refine ⟨⟨h1, fun x hx => ?_⟩, h3⟩
        rcases h2 x hx with h | h | h | h
        · exact Or.inl (Or.inl (Or.inl h))
        · exact Or.inl (Or.inl (Or.inr h))
        · exact Or.inl (Or.inr h)
        · exact Or.inr h
  | null => simp [isId]
  | bool b => simp [isId]
  | int i => simp [isId]
  | list l => simp [isId]
  | dict d => simp [isId]

theorem geMembers_iff (l : NLink) (vs : List Val) : geMembers l = ⟨vs, 0⟩ ↔ LinkMembers l vs := by
  constructor
  · intro h
    unfold geMembers at h
    split at h
    · simp at h
    · simp at h
    · simp at h
    · simp at h
    · rename_i ws hne hw
      obtain rfl : ws = vs := by simpa using h
      exact .list _ hw (fun e => hne e)
    · rename_i v h1 h2 h3 h4 hv
      obtain rfl : [v] = vs := by simpa using h
      refine .scalar v hv h1 ?_ ?_
      · cases v with
        | dict d => exact absurd rfl (h2 d)
        | _ => rfl
      · intro ws e
        exact h4 ws e
  · intro h
    cases h with
    | list vs h hne =>
      unfold geMembers
      rw [h]
      cases vs with
      | nil => exact absurd rfl hne
      | cons v r => rfl
    | scalar v h h1 h2 h3 =>
      unfold geMembers
      rw [h]
      cases v with
      | null => exact absurd rfl h1
      | dict d => exact absurd h2 (by simp [Val.isDict])
      | list vs => exact absurd rfl (h3 vs)
      | bool b => rfl
      | int i => rfl
      | str s => rfl

theorem geMembers_cases (l : NLink) : (∃ vs, LinkMembers l vs ∧ geMembers l = ⟨vs, 0⟩) ∨
    ((geMembers l).val = [] ∧ (geMembers l).errs ≠ 0) := by
  by_cases h : (geMembers l).errs = 0
  · left
    refine ⟨(geMembers l).val, (geMembers_iff l _).1 ?_, ?_⟩ <;>
    · cases hg : geMembers l with
      | mk v e =>
        rw [hg] at h
        simp only at h
        simp [h]
  · right
    refine ⟨?_, h⟩
    unfold geMembers at h ⊢
    split <;> simp_all

theorem geData_shared (l : NLink) : geData l = sharedAttrs l := by
  unfold geData sharedAttrs popKey
  rw [List.filter_filter]
  congr 1
  funext p
  rw [Bool.and_comm]

theorem normOf_unique {nodes : List String} {v : Val} {l : NLink} (h : NormOf nodes v l) (hu : Val.UniqueKeys v) :
    Val.UniqueKeys (.dict l.attrs) := by
  have filt : ∀ (d : List (String × Val)) (f : String × Val → Bool), Val.UniqueKeys (.dict d) →
      Val.UniqueKeys (.dict (d.filter f)) := by
    intro d f hd
    obtain ⟨h1, h2⟩ := uniqueKeys_dict.1 hd
    refine uniqueKeys_dict.2 ⟨?_, ?_⟩
    · exact List.Sublist.nodup (List.filter_sublist.map _) h1
    · intro k w hw
      have hm := List.mem_filter.1 (mem_of_lookup hw)
      exact h2 k w (lookup_of_mem h1 hm.1)
  have hnil : Val.UniqueKeys (.dict []) := uniqueKeys_dict.2 ⟨by simp, by simp⟩
  cases h with
  | interfaces d v vs _ hv hvs hi ha => rw [ha]; exact filt _ _ hu
  | keys d _ hv hi ha => rw [ha]; exact filt _ _ hu
  | list vs _ hi ha => rw [ha]; exact hnil
  | string s _ ns hs hn hi ha => rw [ha]; exact hnil

theorem geMember_ok (nodes : List String) (g : NLink) (idx : Nat) (v : Val) (m : NLink) (hu : Val.UniqueKeys v)
    (h : geMember nodes g idx v = some ⟨m, 0⟩) :
    LinkMember nodes g v m ∧ m.name = linkName (geName g) idx := by
  unfold geMember at h
  split at h
  · rename_i raw e ha
    obtain ⟨rfl, rfl⟩ : _ = m ∧ e = 0 := by simpa using h
    obtain ⟨l, hl, hn, hno⟩ := adjustLink_ok nodes (linkName (geName g) idx) v (by rw [ha])
    rw [ha] at hl
    obtain rfl : raw = l := by simpa using hl
    have huk := normOf_unique hno hu
    refine ⟨⟨raw, hno, rfl, fun k => ?_, fun p w => ?_⟩, hn⟩
    · have := mem_keys_mergeDict (geData g) raw.attrs (uniqueKeys_dict.1 huk).1 k
      have keys : ∀ d : List (String × Val), k ∈ d.map (·.1) ↔ ∃ u, (k, u) ∈ d := by
        intro d
        simp
      rw [keys, keys, keys, geData_shared] at this
      rw [geData_shared]
      exact this.trans Or.comm
    · rw [← geData_shared]
      have := C17_leaves (.dict (geData g)) (.dict raw.attrs) rfl rfl huk p w
      rwa [mergeVal_dict] at this
  · exact absurd h (by simp)

theorem geMember_accepts (nodes : List String) (g : NLink) (idx : Nat) (v : Val) :
    (∃ m, geMember nodes g idx v = some ⟨m, 0⟩) ↔ (adjustLink nodes (linkName (geName g) idx) v).errs = 0 := by
  unfold geMember
  constructor
  · rintro ⟨m, h⟩
    split at h
    · rename_i raw e ha
      obtain ⟨-, rfl⟩ : _ = m ∧ e = 0 := by simpa using h
      rw [ha]
    · exact absurd h (by simp)
  · intro h
    obtain ⟨l, hl, -, -⟩ := adjustLink_ok nodes _ v h
    split
    · rename_i raw e ha
      rw [ha] at h
      simp only at h
      exact ⟨_, by rw [h]⟩
    · rename_i e ha
      rw [ha] at hl
      exact absurd hl (by simp)

theorem geMemberLinks_ok (nodes : List String) (g : NLink) (idx : Nat) (vs : List Val) (ms : List NLink)
    (hu : ∀ v ∈ vs, Val.UniqueKeys v) (h : geMemberLinks nodes g idx vs = some ⟨ms, 0⟩) :
    List.Forall₂ (LinkMember nodes g) vs ms := by
  induction vs generalizing idx ms with
  | nil =>
    obtain rfl : ms = [] := by simpa [geMemberLinks, eq_comm] using h
    exact .nil
  | cons v rest ih =>
    simp only [geMemberLinks] at h
    split at h
    · rename_i m r hm hr
      simp only [Option.some.injEq, NRes.mk.injEq, Nat.add_eq_zero_iff] at h
      obtain ⟨rfl, h1, h2⟩ := h
      refine .cons (geMember_ok nodes g idx v m.val (hu v (List.mem_cons_self ..)) ?_).1
        (ih (idx + 1) r.val (fun w hw => hu w (List.mem_cons_of_mem _ hw)) ?_)
      · rw [hm, ← h1]
      · rw [hr, ← h2]
    · exact absurd h (by simp)

theorem geLink_ok (nodes : List String) (l : NLink) (ms : List NLink)
    (hu : ∀ vs, LinkMembers l vs → ∀ v ∈ vs, Val.UniqueKeys v) (h : geLink nodes l = some ⟨ms, 0⟩) :
    (l.attrs.lookup "group" = none ∧ l.attrs.lookup "members" = none ∧ ms = []) ∨
    ∃ g vs, l.attrs.lookup "group" = some (.str g) ∧ Identifier g ∧ LinkMembers l vs ∧
      List.Forall₂ (LinkMember nodes l) vs ms := by
  unfold geLink at h
  split at h
  · rename_i hg
    left
    simp only [Option.some.injEq, NRes.mk.injEq] at h
    refine ⟨hg, ?_, h.1.symm⟩
    cases hm : l.attrs.lookup "members" with
    | none => rfl
    | some v => simp [NLink.has, hm] at h
  · rename_i g hg
    split at h
    · rename_i hid
      obtain ⟨s, rfl, hs⟩ := (isId_iff g).1 hid
      split at h
      · rename_i r hr
        simp only [Option.some.injEq, NRes.mk.injEq, Nat.add_eq_zero_iff] at h
        obtain ⟨rfl, h1, h2⟩ := h
        rcases geMembers_cases l with ⟨vs, hv, he⟩ | ⟨-, hne⟩
        · rw [he] at hr
          right
          refine ⟨s, vs, hg, hs, hv, geMemberLinks_ok nodes l 1 vs r.val (hu vs hv) ?_⟩
          rw [hr, ← h2]
        · exact absurd h1 hne
      · exact absurd h (by simp)
    · exact absurd h (by simp)

theorem geNew_ok (nodes : List String) (links new : List NLink)
    (hu : ∀ l ∈ links, ∀ vs, LinkMembers l vs → ∀ v ∈ vs, Val.UniqueKeys v) (h : geNew nodes links = some ⟨new, 0⟩) :
    LinkExpansion nodes links new := by
  induction links generalizing new with
  | nil =>
    obtain rfl : new = [] := by simpa [geNew, eq_comm] using h
    exact .nil
  | cons l rest ih =>
    simp only [geNew] at h
    split at h
    · rename_i a b ha hb
      simp only [Option.some.injEq, NRes.mk.injEq, Nat.add_eq_zero_iff] at h
      obtain ⟨rfl, h1, h2⟩ := h
      have hrest := ih b.val (fun x hx => hu x (List.mem_cons_of_mem _ hx)) (by rw [hb, ← h2])
      rcases geLink_ok nodes l a.val (hu l (List.mem_cons_self ..)) (by rw [ha, ← h1]) with
        ⟨hg, hm, he⟩ | ⟨g, vs, hg, hi, hv, hf⟩
      · rw [he]
        exact .plain l rest _ hg hm hrest
      · exact .group l rest a.val _ g vs hg hi hv hf hrest
    · exact absurd h (by simp)

/-- **C81 (group links).**  Without errors, the list of links has the links that are not group links, followed by members of
group links, in the original order.  A member has its interfaces and attributes and the attributes of the group link
apart from `group` and `members`; members that have `group` are dropped. -/
theorem C81_group_links (nodes : List String) (links out : List NLink)
    (hu : ∀ l ∈ links, ∀ vs, LinkMembers l vs → ∀ v ∈ vs, Val.UniqueKeys v)
    (h : expandGroups nodes links = some ⟨out, 0⟩) :
    ∃ new, LinkExpansion nodes links new ∧
      out = links.filter (fun l => (l.attrs.lookup "group").isNone) ++
        new.filter (fun l => (l.attrs.lookup "group").isNone) := by
  unfold expandGroups at h
  split at h
  · rename_i r hr
    simp only [Option.some.injEq, NRes.mk.injEq] at h
    obtain ⟨rfl, h0⟩ := h
    refine ⟨r.val, geNew_ok nodes links r.val hu (by rw [hr, ← h0]), ?_⟩
    rw [← List.filter_append]
    congr 1
    funext l
    unfold NLink.has
    cases l.attrs.lookup "group" <;> rfl
  · exact absurd h (by simp)

theorem splitLink_of (nodes : List String) (d : List (String × Val)) (is : List (List (String × Val)))
    (h : List.Forall₂ KeyIfOf (d.filter (fun p => nodes.contains p.1)) is) : (splitLink nodes d).errs = 0 := by
  induction d generalizing is with
  | nil => rfl
  | cons p rest ih =>
    obtain ⟨k, v⟩ := p
    simp only [splitLink]
    by_cases hk : nodes.contains k = true
    · rw [if_pos hk]
      rw [List.filter_cons_of_pos (by simpa using hk)] at h
      obtain ⟨i, is', h1, h2, -⟩ := List.forall₂_cons_left_iff.1 h
      have hr := ih is' h2
      have hv : ∃ j, keyIf k v = some j := by
        cases h1 with
        | empty => exact ⟨_, rfl⟩
        | dict => exact ⟨_, rfl⟩
      obtain ⟨j, hj⟩ := hv
      rw [hj]
      exact hr
    · rw [if_neg hk]
      rw [List.filter_cons_of_neg (by simpa using hk)] at h
      exact ih is h

theorem stringIfs_errs (nodes : List String) (l : List (List Char))
    (h : ∀ n ∈ l.map (fun n => String.ofList (pyStrip n)), ∃ x ∈ nodes, x.toList <+: n.toList) :
    (stringIfs nodes l).errs = 0 := by
  induction l with
  | nil => rfl
  | cons n rest ih =>
    rw [List.map_cons, List.forall_mem_cons] at h
    simp only [stringIfs]
    rw [if_pos]
    · exact ih h.2
    · obtain ⟨x, hx, hp⟩ := h.1
      unfold linkNodeOk
      rw [Bool.or_eq_true]
      right
      rw [List.any_eq_true]
      exact ⟨x, hx, List.isPrefixOf_iff_prefix.2 (by simpa using hp)⟩

/-- The link is accepted if and only if it can be normalized. -/
theorem adjustLink_accepts (nodes : List String) (name : String) (v : Val) :
    (adjustLink nodes name v).errs = 0 ↔ ∃ l, NormOf nodes v l := by
  constructor
  · intro h
    obtain ⟨l, -, -, hl⟩ := adjustLink_ok nodes name v h
    exact ⟨l, hl⟩
  · rintro ⟨l, hl⟩
    cases hl with
    | interfaces d v vs _ hv hvs hi ha =>
      have hl : ifaceList v = ⟨vs, 0⟩ := by
        rcases hvs with rfl | ⟨rfl, rfl⟩ | ⟨rfl, h⟩
        · rfl
        · rfl
        · cases v with
          | null => exact (by
              obtain ⟨i, is, hh, -, -⟩ := List.forall₂_cons_left_iff.1 hi
              cases hh)
          | dict d => exact absurd h (by simp [Val.isDict])
          | list l => exact (by
              obtain ⟨i, is, hh, -, -⟩ := List.forall₂_cons_left_iff.1 hi
              cases hh)
          | bool b => rfl
          | int i => rfl
          | str s => rfl
      simp only [adjustLink, hv, hl, adjustIfs_of nodes vs _ hi]
    | keys d _ hv hi ha =>
      simp only [adjustLink, hv]
      exact splitLink_of nodes d _ hi
    | list vs _ hi ha => simp only [adjustLink, adjustIfs_of nodes vs _ hi]
    | string s _ ns hs hn hi ha =>
      simp only [adjustLink]
      exact stringIfs_errs nodes _ (hs ▸ hn)

theorem geMemberLinks_accepts (nodes : List String) (g : NLink) (idx : Nat) (vs : List Val) :
    (∃ ms, geMemberLinks nodes g idx vs = some ⟨ms, 0⟩) ↔ ∀ v ∈ vs, ∃ l, NormOf nodes v l := by
  induction vs generalizing idx with
  | nil => simp [geMemberLinks]
  | cons v rest ih =>
    rw [List.forall_mem_cons, ← ih (idx + 1), ← adjustLink_accepts nodes (linkName (geName g) idx) v,
      ← geMember_accepts nodes g idx v]
    simp only [geMemberLinks]
    constructor
    · rintro ⟨ms, h⟩
      split at h
      · rename_i m r hm hr
        simp only [Option.some.injEq, NRes.mk.injEq, Nat.add_eq_zero_iff] at h
        obtain ⟨-, h1, h2⟩ := h
        exact ⟨⟨m.val, by rw [hm, ← h1]⟩, ⟨r.val, by rw [hr, ← h2]⟩⟩
      · exact absurd h (by simp)
    · rintro ⟨⟨m, hm⟩, ⟨ms, hr⟩⟩
      exact ⟨m :: ms, by rw [hm, hr]; rfl⟩

/-- **C81 (accepted group links).**  The links are accepted if and only if every link either does not have `group` and
`members`, or has an identifier in `group` and one or more valid links in `members`. -/
theorem C81_groups_accepted_iff (nodes : List String) (links : List NLink) :
    (∃ out, expandGroups nodes links = some ⟨out, 0⟩) ↔
      ∀ l ∈ links, (l.attrs.lookup "group" = none ∧ l.attrs.lookup "members" = none) ∨
        ∃ g vs, l.attrs.lookup "group" = some (.str g) ∧ Identifier g ∧ LinkMembers l vs ∧
          ∀ v ∈ vs, ∃ raw, NormOf nodes v raw := by
  have one : ∀ l, (∃ ms, geLink nodes l = some ⟨ms, 0⟩) ↔
      ((l.attrs.lookup "group" = none ∧ l.attrs.lookup "members" = none) ∨
        ∃ g vs, l.attrs.lookup "group" = some (.str g) ∧ Identifier g ∧ LinkMembers l vs ∧
          ∀ v ∈ vs, ∃ raw, NormOf nodes v raw) := by
    intro l
    constructor
    · rintro ⟨ms, h⟩
      unfold geLink at h
      split at h
      · rename_i hg
        left
        simp only [Option.some.injEq, NRes.mk.injEq] at h
        refine ⟨hg, ?_⟩
        cases hm : l.attrs.lookup "members" with
        | none => rfl
        | some v => simp [NLink.has, hm] at h
      · rename_i g hg
        split at h
        · rename_i hid
          obtain ⟨s, rfl, hs⟩ := (isId_iff g).1 hid
          split at h
          · rename_i r hr
            simp only [Option.some.injEq, NRes.mk.injEq, Nat.add_eq_zero_iff] at h
            obtain ⟨-, h1, h2⟩ := h
            rcases geMembers_cases l with ⟨vs, hv, he⟩ | ⟨-, hne⟩
            · rw [he] at hr
              right
              exact ⟨s, vs, hg, hs, hv, (geMemberLinks_accepts nodes l 1 vs).1 ⟨r.val, by rw [hr, ← h2]⟩⟩
            · exact absurd h1 hne
          · exact absurd h (by simp)
        · exact absurd h (by simp)
    · rintro (⟨h1, h2⟩ | ⟨g, vs, hg, hi, hv, hn⟩)
      · exact ⟨[], by simp [geLink, h1, NLink.has, h2]⟩
      · obtain ⟨ms, hms⟩ := (geMemberLinks_accepts nodes l 1 vs).2 hn
        refine ⟨ms, ?_⟩
        unfold geLink
        rw [hg]
        simp only [(isId_iff (.str g)).2 ⟨g, rfl, hi⟩, if_true, (geMembers_iff l vs).2 hv, hms]
  have all : (∃ new, geNew nodes links = some ⟨new, 0⟩) ↔ ∀ l ∈ links, ∃ ms, geLink nodes l = some ⟨ms, 0⟩ := by
    induction links with
    | nil => simp [geNew]
    | cons l rest ih =>
      rw [List.forall_mem_cons, ← ih]
      simp only [geNew]
      constructor
      · rintro ⟨new, h⟩
        split at h
        · rename_i a b ha hb
          simp only [Option.some.injEq, NRes.mk.injEq, Nat.add_eq_zero_iff] at h
          obtain ⟨-, h1, h2⟩ := h
          exact ⟨⟨a.val, by rw [ha, ← h1]⟩, ⟨b.val, by rw [hb, ← h2]⟩⟩
        · exact absurd h (by simp)
      · rintro ⟨⟨a, ha⟩, ⟨b, hb⟩⟩
        exact ⟨a ++ b, by rw [ha, hb]; rfl⟩
  rw [show (∀ l ∈ links, _) ↔ _ from ⟨fun q l hl => (one l).2 (q l hl), fun q l hl => (one l).1 (q l hl)⟩, ← all]
  unfold expandGroups
  constructor
  · rintro ⟨out, h⟩
    split at h
    · rename_i r hr
      simp only [Option.some.injEq, NRes.mk.injEq] at h
      exact ⟨r.val, by rw [hr, ← h.2]⟩
    · exact absurd h (by simp)
  · rintro ⟨new, h⟩
    exact ⟨_, by rw [h]⟩

/-- A group link with two members; the second one has its own cost. -/
example :
    let trunk : NLink := ⟨"links[1]", [("group", .str "core"), ("cost", .int 10), ("members", .list [.str "r1-r2",
      .dict [("r2", .null), ("r3", .null), ("cost", .int 5)]])], []⟩
    let lan : NLink := ⟨"links[2]", [], [nodeIf "r1"]⟩
    expandGroups ["r1", "r2", "r3"] [trunk, lan] = some ⟨[lan,
      ⟨"links[core][1]", [("cost", .int 10)], [nodeIf "r1", nodeIf "r2"]⟩,
      ⟨"links[core][2]", [("cost", .int 5)], [nodeIf "r2", nodeIf "r3"]⟩], 0⟩ := by rfl

/-- **C81 (disabled members are kept).**  A disabled member of a group link is not removed. -/
theorem C81_disabled_member_kept :
    ∃ (nodes : List String) (links out : List NLink), expandGroups nodes links = some ⟨out, 0⟩ ∧
      ∃ l ∈ out, Disabled l :=
  ⟨["r1", "r2"], [⟨"links[1]", [("group", .str "core"), ("members", .list [
      .dict [("r1", .null), ("r2", .null), ("disable", .bool true)]])], []⟩],
    [⟨"links[core][1]", [("disable", .bool true)], [nodeIf "r1", nodeIf "r2"]⟩], rfl, _, List.mem_singleton.2 rfl, rfl⟩

/-- **C81 (nested groups are lost).**  A group link in a group link disappears without an error. -/
theorem C81_nested_group_lost :
    expandGroups ["r1", "r2"] [⟨"links[1]", [("group", .str "a"), ("members", .list [
      .dict [("group", .str "b"), ("members", .list [.str "r1-r2"])]])], []⟩] = some ⟨[], 0⟩ := rfl

/-- **C81 (nodes of group links are lost).**  Nodes specified in a group link disappear without an error. -/
theorem C81_group_nodes_lost :
    expandGroups ["r1", "r2", "r3"] [⟨"links[1]", [("group", .str "a"), ("members", .list [.str "r1-r2"])],
      [nodeIf "r3"]⟩] = some ⟨[⟨"links[a][1]", [], [nodeIf "r1", nodeIf "r2"]⟩], 0⟩ := rfl

/-- **C81 (crash).**  A member that is not a link crashes the transformation. -/
theorem C81_member_crash :
    expandGroups ["r1"] [⟨"links[1]", [("group", .str "a"), ("members", .list [.null])], []⟩] = none := rfl

end Netlab
