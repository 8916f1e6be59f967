import Verif.Spec.Validators
import Verif.Props.PrefixCheck
import Verif.Props.EvpnNode

namespace Netlab

open Spec

/-! ### Helpers -/

theorem textContains_iff (x y : String) : pySubstr x.toList y.toList = true ↔ TextContains x y := pySubstr_iff _ _

theorem find?_first {α : Type} (f : α → Bool) (l : List α) (x : α) : l.find? f = some x ↔ FirstSuch (fun y => f y = true) l x := by
  rw [List.find?_eq_some_iff_append]
  unfold FirstSuch
  constructor
  · rintro ⟨h, a, b, rfl, hn⟩
    exact ⟨a, b, rfl, h, fun y hy => by simpa using hn y hy⟩
  · rintro ⟨a, b, rfl, h, hn⟩
    exact ⟨h, a, b, rfl, fun y hy => by simpa using hn y hy⟩

theorem firstWith_congr {α : Type} {P Q : α → Prop} (h : ∀ x, P x ↔ Q x) (l : List α) (x : α) : FirstSuch P l x ↔ FirstSuch Q l x := by
  unfold FirstSuch
  simp only [h]

theorem vnAddr_iff (n af : String) (ngb : List VnNgb) (a : VnNgbAddr) : vnAddr n af ngb = some a ↔ NgbAddress ngb n af a := by
  unfold NgbAddress FirstSuch
  induction ngb with
  | nil => simp [vnAddr]
  | cons x r ih =>
    have skip : ¬ (x.name = n ∧ ∃ b, x.addrs.lookup af = some b) →
        ((∃ y, (∃ p q, r = p ++ y :: q ∧ (y.name = n ∧ ∃ b, y.addrs.lookup af = some b) ∧ ∀ z ∈ p, ¬ (z.name = n ∧ ∃ b, z.addrs.lookup af = some b)) ∧ y.addrs.lookup af = some a) ↔
         (∃ y, (∃ p q, x :: r = p ++ y :: q ∧ (y.name = n ∧ ∃ b, y.addrs.lookup af = some b) ∧ ∀ z ∈ p, ¬ (z.name = n ∧ ∃ b, z.addrs.lookup af = some b)) ∧ y.addrs.lookup af = some a)) := by
      intro hx
      constructor
      · rintro ⟨y, ⟨p, q, rfl, h1, h2⟩, h3⟩
        refine ⟨y, ⟨x :: p, q, rfl, h1, ?_⟩, h3⟩
        intro z hz
        rcases List.mem_cons.1 hz with rfl | hz
        · exact hx
        · exact h2 z hz
      · rintro ⟨y, ⟨p, q, he, h1, h2⟩, h3⟩
        cases p with
        | nil =>
          simp only [List.nil_append, List.cons.injEq] at he
          obtain ⟨rfl, _⟩ := he
          exact absurd h1 hx
        | cons w p =>
          simp only [List.cons_append, List.cons.injEq] at he
          obtain ⟨rfl, rfl⟩ := he
          exact ⟨y, ⟨p, q, rfl, h1, fun z hz => h2 z (List.mem_cons_of_mem _ hz)⟩, h3⟩
    unfold vnAddr
    by_cases hn : x.name = n
    · rw [if_neg (by simpa using hn)]
      cases hl : x.addrs.lookup af with
      | none =>
        simp only
        rw [ih]
        exact skip (by rintro ⟨_, b, hb⟩; rw [hl] at hb; cases hb)
      | some b =>
        simp only [Option.some.injEq]
        constructor
        · rintro rfl
          exact ⟨x, ⟨[], r, rfl, ⟨hn, b, hl⟩, fun _ h => (nomatch h)⟩, hl⟩
        · rintro ⟨y, ⟨p, q, he, h1, h2⟩, h3⟩
          cases p with
          | nil =>
            simp only [List.nil_append, List.cons.injEq] at he
            obtain ⟨rfl, _⟩ := he
            rw [hl] at h3
            exact Option.some.inj h3
          | cons w p =>
            simp only [List.cons_append, List.cons.injEq] at he
            obtain ⟨rfl, _⟩ := he
            exact absurd ⟨hn, b, hl⟩ (h2 x (List.mem_cons_self))
    · rw [if_pos hn, ih]
      exact skip (fun h => hn h.1)

theorem frPeerKey_iff (intf : String) (a : VnNgbAddr) (key : String) : frPeerKey intf a = some key ↔ FrPeer intf a key := by
  unfold FrPeer
  cases a with
  | text s => simp [frPeerKey]
  | unnumbered =>
    unfold frPeerKey
    by_cases h : intf = ""
    · simp [h]
    · simp [h]

theorem frFamily_iff (af name : String) : frAfLookup.lookup af = some name ↔ FrFamily af name := by
  unfold frAfLookup FrFamily
  simp only [List.lookup_cons, List.lookup_nil]
  by_cases h4 : af = "ipv4"
  · subst h4; simp [eq_comm]
  · by_cases h6 : af = "ipv6"
    · subst h6; simp [eq_comm]
    · by_cases he : af = "evpn"
      · subst he; simp [eq_comm]
      · rw [beq_false_of_ne h4, beq_false_of_ne h6, beq_false_of_ne he]
        simp [h4, h6, he]

theorem vn_lookup_none {α : Type} (l : List (String × α)) (k : String) : l.lookup k = none ↔ k ∉ l.map (·.1) := lookup_eq_none_iff

/-! ### BGP neighbors -/

/-- **C112**: a test of a BGP neighbor on FRR passes exactly when the printout has the address family and either the neighbor should be missing and is not among the
peers or the state of the peer is a part of the expected text. -/
theorem C112_bgp_frr (ngb : List VnNgb) (n af state activate intf : String) (result : List (String × List (String × String))) :
    frBgpNeighbor ngb n af state activate intf result = true ↔
      ∃ key peers, FrSession ngb n af activate intf result key peers ∧
        ((key ∉ peers.map (·.1) ∧ state = "missing") ∨ ∃ s, peers.lookup key = some s ∧ TextContains s state) := by
  unfold frBgpNeighbor FrSession
  have hfam : ∀ name, frAfLookup.lookup (if activate = "" then af else activate) = some name ↔
      ((activate = "" ∧ FrFamily af name) ∨ (activate ≠ "" ∧ FrFamily activate name)) := by
    intro name
    by_cases h : activate = ""
    · simp [h, frFamily_iff]
    · simp [h, frFamily_iff]
  constructor
  · intro h
    split at h
    · cases h
    · rename_i a ha
      split at h
      · cases h
      · rename_i key hk
        split at h
        · cases h
        · rename_i st hs
          split at h
          · cases h
          · rename_i peers hp
            refine ⟨key, peers, ⟨⟨a, (vnAddr_iff _ _ _ _).1 ha, (frPeerKey_iff _ _ _).1 hk⟩, st, (hfam st).1 hs, hp⟩, ?_⟩
            split at h
            · rename_i hl
              exact Or.inl ⟨(vn_lookup_none _ _).1 hl, by simpa using h⟩
            · rename_i s hl
              exact Or.inr ⟨s, hl, (textContains_iff _ _).1 h⟩
  · rintro ⟨key, peers, ⟨⟨a, ha, hk⟩, st, hs, hp⟩, h⟩
    rw [(vnAddr_iff _ _ _ _).2 ha]
    simp only
    rw [(frPeerKey_iff _ _ _).2 hk]
    simp only
    rw [(hfam st).2 hs]
    simp only
    rw [hp]
    simp only
    rcases h with ⟨h, rfl⟩ | ⟨s, hl, h⟩
    · rw [(vn_lookup_none _ _).2 h]
      rfl
    · rw [hl]
      exact (textContains_iff _ _).2 h

theorem bgpState_up (s : String) (hs : s ∈ BgpStates) : TextContains s "Established" ↔ s = "Established" := by
  rw [← textContains_iff]
  simp only [BgpStates, List.mem_cons, List.not_mem_nil, or_false] at hs
  rcases hs with rfl | rfl | rfl | rfl | rfl | rfl <;> decide +kernel

theorem bgpState_missing (s : String) (hs : s ∈ BgpStates) : ¬ TextContains s "missing" := by
  rw [← textContains_iff]
  simp only [BgpStates, List.mem_cons, List.not_mem_nil, or_false] at hs
  rcases hs with rfl | rfl | rfl | rfl | rfl | rfl <;> decide +kernel

/-- **C112**: with the default expected state, a test of a BGP neighbor on FRR passes exactly when the session is established. -/
theorem C112_bgp_frr_up (ngb : List VnNgb) (n af activate intf : String) (result : List (String × List (String × String)))
    (hst : ∀ f ∈ result, ∀ p ∈ f.2, p.2 ∈ BgpStates) :
    frBgpNeighbor ngb n af "Established" activate intf result = true ↔
      ∃ key peers, FrSession ngb n af activate intf result key peers ∧ peers.lookup key = some "Established" := by
  rw [C112_bgp_frr]
  constructor
  · rintro ⟨key, peers, hf, h⟩
    refine ⟨key, peers, hf, ?_⟩
    rcases h with ⟨_, h⟩ | ⟨s, hl, h⟩
    · exact absurd h (by decide)
    · obtain ⟨_, name, _, hr⟩ := hf
      have hm := hst _ (mem_of_lookup hr) _ (mem_of_lookup hl)
      rw [(bgpState_up s hm).1 h] at hl
      exact hl
  · rintro ⟨key, peers, hf, h⟩
    exact ⟨key, peers, hf, Or.inr ⟨_, h, [], [], by simp⟩⟩

/-- **C112**: a test of a missing BGP neighbor on FRR passes exactly when the address family has peers and the neighbor is not one of them. -/
theorem C112_bgp_frr_missing (ngb : List VnNgb) (n af activate intf : String) (result : List (String × List (String × String)))
    (hst : ∀ f ∈ result, ∀ p ∈ f.2, p.2 ∈ BgpStates) :
    frBgpNeighbor ngb n af "missing" activate intf result = true ↔
      ∃ key peers, FrSession ngb n af activate intf result key peers ∧ key ∉ peers.map (·.1) := by
  rw [C112_bgp_frr]
  constructor
  · rintro ⟨key, peers, hf, h⟩
    refine ⟨key, peers, hf, ?_⟩
    rcases h with ⟨h, _⟩ | ⟨s, hl, h⟩
    · exact h
    · obtain ⟨_, name, _, hr⟩ := hf
      exact absurd h (bgpState_missing s (hst _ (mem_of_lookup hr) _ (mem_of_lookup hl)))
  · rintro ⟨key, peers, hf, h⟩
    exact ⟨key, peers, hf, Or.inl ⟨h, rfl⟩⟩

/-- A session with a peer: the default test passes, the test of a missing neighbor does not -/
example : let ngb : List VnNgb := [⟨"x1", [("ipv6", .text "2001:db8::1")]⟩, ⟨"x1", [("ipv4", .text "10.0.0.1")]⟩]
    let r := [("ipv4Unicast", [("10.0.0.2", "Idle"), ("10.0.0.1", "Established")])]
    frBgpNeighbor ngb "x1" "ipv4" "Established" "" "" r = true ∧ frBgpNeighbor ngb "x1" "ipv4" "missing" "" "" r = false ∧
      (∀ f ∈ r, ∀ p ∈ f.2, p.2 ∈ BgpStates) := by decide +kernel

theorem eoPeers_iff (vrf : String) (result : Option (List (String × Option (List (String × String))))) (peers : List (String × String)) :
    eoPeers vrf result = some peers ↔ EoVrfPeers vrf result peers := by
  unfold eoPeers EoVrfPeers
  cases result with
  | none => simp
  | some vrfs =>
    simp only [Option.some.injEq, exists_eq_left']
    cases hl : vrfs.lookup vrf with
    | none => simp
    | some o => cases o <;> simp

theorem eoPeerState_iff (peers : List (String × String)) (a : VnNgbAddr) (s : String) : eoPeerState peers a = some s ↔ EoState peers a s := by
  unfold EoState
  cases a <;> simp [eoPeerState]

/-- **C112**: a test of a BGP neighbor on EOS passes exactly when the VRF has peers and the state of the neighbor is a part of the expected text, or the neighbor
should be missing and is not a peer or does not have an established session. -/
theorem C112_bgp_eos (ngb : List VnNgb) (n af state vrf : String) (result : Option (List (String × Option (List (String × String))))) :
    eoBgpNeighbor ngb n af state vrf result = true ↔
      ∃ a peers, NgbAddress ngb n af a ∧ EoVrfPeers vrf result peers ∧
        ((∃ s, EoState peers a s ∧ TextContains s state) ∨ (state = "missing" ∧ ∀ s, EoState peers a s → s ≠ "Established")) := by
  unfold eoBgpNeighbor
  constructor
  · intro h
    split at h
    · cases h
    · rename_i a ha
      split at h
      · cases h
      · rename_i peers hp
        refine ⟨a, peers, (vnAddr_iff _ _ _ _).1 ha, (eoPeers_iff _ _ _).1 hp, ?_⟩
        split at h
        · rename_i hs
          refine Or.inr ⟨by simpa using h, fun s h => ?_⟩
          rw [(eoPeerState_iff _ _ _).2 h] at hs
          cases hs
        · rename_i s hs
          by_cases hc : pySubstr s.toList state.toList = true
          · exact Or.inl ⟨s, (eoPeerState_iff _ _ _).1 hs, (textContains_iff _ _).1 hc⟩
          · rw [if_neg hc] at h
            simp only [Bool.and_eq_true, beq_iff_eq, bne_iff_ne, ne_eq] at h
            refine Or.inr ⟨h.1, fun t ht => ?_⟩
            rw [(eoPeerState_iff _ _ _).2 ht] at hs
            cases hs
            exact h.2
  · rintro ⟨a, peers, ha, hp, h⟩
    rw [(vnAddr_iff _ _ _ _).2 ha]
    simp only
    rw [(eoPeers_iff _ _ _).2 hp]
    simp only
    rcases h with ⟨s, hs, ht⟩ | ⟨rfl, h⟩
    · rw [(eoPeerState_iff _ _ _).2 hs]
      simp only
      rw [if_pos ((textContains_iff _ _).2 ht)]
    · cases hs : eoPeerState peers a with
      | none => rfl
      | some s =>
        simp only
        by_cases hc : pySubstr s.toList "missing".toList = true
        · rw [if_pos hc]
        · rw [if_neg hc]
          simpa using h s ((eoPeerState_iff _ _ _).1 hs)

/-- **C112**: with the default expected state, a test of a BGP neighbor on EOS passes exactly when the session is established. -/
theorem C112_bgp_eos_up (ngb : List VnNgb) (n af vrf : String) (result : Option (List (String × Option (List (String × String)))))
    (hst : ∀ peers, EoVrfPeers vrf result peers → ∀ p ∈ peers, p.2 ∈ BgpStates) :
    eoBgpNeighbor ngb n af "Established" vrf result = true ↔
      ∃ a peers, NgbAddress ngb n af a ∧ EoVrfPeers vrf result peers ∧ EoState peers a "Established" := by
  rw [C112_bgp_eos]
  constructor
  · rintro ⟨a, peers, ha, hp, h⟩
    refine ⟨a, peers, ha, hp, ?_⟩
    rcases h with ⟨s, hs, ht⟩ | ⟨h, _⟩
    · obtain ⟨t, rfl, hl⟩ := hs
      have hm := hst _ hp _ (mem_of_lookup hl)
      rw [(bgpState_up s hm).1 ht] at hl
      exact ⟨t, rfl, hl⟩
    · exact absurd h (by decide)
  · rintro ⟨a, peers, ha, hp, h⟩
    exact ⟨a, peers, ha, hp, Or.inl ⟨_, h, [], [], by simp⟩⟩

example : let ngb : List VnNgb := [⟨"x1", [("ipv4", .text "10.0.0.1")]⟩]
    let r := some [("default", some [("10.0.0.2", "Idle"), ("10.0.0.1", "Established")])]
    eoBgpNeighbor ngb "x1" "ipv4" "Established" "default" r = true ∧ eoBgpNeighbor ngb "x1" "ipv4" "Established" "red" r = false := by decide +kernel

/-- **C112** (defect): a test of a missing BGP neighbor fails when the router has no BGP peers at all. -/
theorem C112_bgp_no_peers (ngb : List VnNgb) (n af activate intf vrf : String) (a : VnNgbAddr) (_ : NgbAddress ngb n af a) :
    frBgpNeighbor ngb n af "missing" activate intf [] = false ∧ eoBgpNeighbor ngb n af "missing" vrf (some []) = false := by
  constructor
  · rw [Bool.eq_false_iff]
    intro h
    obtain ⟨_, _, ⟨_, _, _, h⟩, _⟩ := (C112_bgp_frr _ _ _ _ _ _ _).1 h
    cases h
  · rw [Bool.eq_false_iff]
    intro h
    obtain ⟨_, _, _, ⟨v, h1, h2⟩, _⟩ := (C112_bgp_eos _ _ _ _ _ _).1 h
    cases h1
    cases h2

/-- **C112** (defect): a configured neighbor without an established session is missing on EOS and not missing on FRR. -/
theorem C112_bgp_missing_differs : let ngb : List VnNgb := [⟨"x1", [("ipv4", .text "10.0.0.1")]⟩]
    frBgpNeighbor ngb "x1" "ipv4" "missing" "" "" [("ipv4Unicast", [("10.0.0.1", "Active")])] = false ∧
      eoBgpNeighbor ngb "x1" "ipv4" "missing" "default" (some [("default", some [("10.0.0.1", "Active")])]) = true := by decide +kernel

/-- **C112**: a test of the details of a BGP neighbor passes exactly when the neighbor is in the printout and all attributes have the expected values. -/
theorem C112_bgp_details (ngb : List VnNgb) (n af : String) (want : List (String × Val)) (result : List (String × List (String × Val))) :
    frBgpDetails ngb n af want result = true ↔
      ∃ a d, NgbAddress ngb n af (.text a) ∧ result.lookup a = some d ∧ ∀ kv ∈ want, d.lookup kv.1 = some kv.2 := by
  unfold frBgpDetails
  cases ha : vnAddr n af ngb with
  | none =>
    simp only [Bool.false_eq_true, false_iff]
    rintro ⟨a, d, h, _⟩
    rw [(vnAddr_iff _ _ _ _).2 h] at ha
    cases ha
  | some x =>
    cases x with
    | unnumbered =>
      simp only [Bool.false_eq_true, false_iff]
      rintro ⟨a, d, h, _⟩
      rw [(vnAddr_iff _ _ _ _).2 h] at ha
      cases ha
    | text a =>
      simp only
      constructor
      · intro h
        cases hl : result.lookup a with
        | none => rw [hl] at h; cases h
        | some d =>
          rw [hl] at h
          exact ⟨a, d, (vnAddr_iff _ _ _ _).1 ha, hl, by simpa using h⟩
      · rintro ⟨b, d, h, hl, hw⟩
        rw [(vnAddr_iff _ _ _ _).2 h] at ha
        cases ha
        rw [hl]
        simpa using hw

example : frBgpDetails [⟨"x1", [("ipv4", .text "10.0.0.1")]⟩] "x1" "ipv4" [("localAs", .int 65000)] [("10.0.0.1", [("localAs", .int 65000)])] = true := by decide +kernel

/-! ### OSPF neighbors -/

theorem vnStarts_iff (p s : String) : vnStarts p s = true ↔ BeginsWith p s := by
  unfold vnStarts BeginsWith
  rw [List.isPrefixOf_iff_prefix]
  exact ⟨fun ⟨r, h⟩ => ⟨r, h.symm⟩, fun ⟨r, h⟩ => ⟨r, h.symm⟩⟩

theorem frOspfState_iff (present : Bool) (o : Option (List String)) : frOspfState present o = true ↔
    (present = true ∧ ∃ s r, o = some (s :: r) ∧ BeginsWith "Full" s) ∨ (present = false ∧ o = none) := by
  cases o with
  | none => cases present <;> simp [frOspfState]
  | some l =>
    cases l with
    | nil => cases present <;> simp [frOspfState]
    | cons s r =>
      simp only [frOspfState, Bool.and_eq_true, vnStarts_iff, Option.some.injEq, List.cons.injEq, reduceCtorEq, and_false, or_false]
      exact ⟨fun ⟨h1, h2⟩ => ⟨h1, s, r, ⟨rfl, rfl⟩, h2⟩, fun ⟨h1, t, q, ⟨h, _⟩, h2⟩ => ⟨h1, by rw [h]; exact h2⟩⟩

/-- **C112**: a test of an OSPF neighbor on FRR passes exactly when the neighbor is expected and the first adjacency with it is full, or it is not expected and
is not in the printout. -/
theorem C112_ospf_frr (id vrf : String) (present : Bool) (result : List (String × FrOspfItem)) (d : List (String × List String))
    (hv : result.lookup vrf = some (.vrf d)) :
    frOspfNeighbor id present vrf result = true ↔
      (present = true ∧ ∃ s r, d.lookup id = some (s :: r) ∧ BeginsWith "Full" s) ∨ (present = false ∧ id ∉ d.map (·.1)) := by
  unfold frOspfNeighbor
  rw [hv]
  simp only
  rw [frOspfState_iff, vn_lookup_none]

/-- **C112**: the printout of an OSPF neighbor in the default VRF does not have to mention the VRF. -/
theorem C112_ospf_frr_flat (id vrf : String) (present : Bool) (ngbs : List (String × List String)) (hv : vrf ∉ ngbs.map (·.1)) :
    frOspfNeighbor id present vrf (ngbs.map (fun x => (x.1, FrOspfItem.ngb x.2))) = true ↔
      (present = true ∧ ∃ s r, ngbs.lookup id = some (s :: r) ∧ BeginsWith "Full" s) ∨ (present = false ∧ id ∉ ngbs.map (·.1)) := by
  have hm : ∀ k, (ngbs.map (fun x => (x.1, FrOspfItem.ngb x.2))).lookup k = (ngbs.lookup k).map FrOspfItem.ngb := by
    intro k
    induction ngbs with
    | nil => rfl
    | cons x r ih =>
      obtain ⟨a, b⟩ := x
      have hr : vrf ∉ r.map (·.1) := fun h => hv (List.mem_cons_of_mem _ h)
      by_cases h : k = a
      · subst h; simp
      · simp only [List.map_cons, List.lookup_cons, beq_false_of_ne h]
        exact ih hr
  unfold frOspfNeighbor
  rw [hm, (vn_lookup_none _ _).2 hv]
  simp only [Option.map_none]
  rw [hm]
  cases hl : ngbs.lookup id with
  | none =>
    have := (vn_lookup_none _ _).1 hl
    cases present <;> simp [this]
  | some l =>
    simp only [Option.map_some]
    rw [frOspfState_iff]
    have : id ∈ ngbs.map (·.1) := by
      apply Classical.not_not.1
      intro hn
      rw [(vn_lookup_none _ _).2 hn] at hl
      cases hl
    simp [this]

example : frOspfNeighbor "10.0.0.1" true "red" [("red", .vrf [("10.0.0.1", ["Full/DR"])])] = true ∧
    frOspfNeighbor "10.0.0.2" true "red" [("red", .vrf [("10.0.0.1", ["Full/DR"])])] = false ∧
    frOspfNeighbor "10.0.0.1" true "default" [("10.0.0.1", .ngb ["Init/DROther"])] = false := by decide +kernel

theorem takeWhile_keyOf (c : Char) (id k : String) : String.ofList (k.toList.takeWhile (· ≠ c)) = id ↔
    c ∉ id.toList ∧ (k = id ∨ ∃ r : List Char, k.toList = id.toList ++ c :: r) := by
  have key : ∀ l : List Char, c ∉ l.takeWhile (· ≠ c) ∧ (l = l.takeWhile (· ≠ c) ∨ ∃ r, l = l.takeWhile (· ≠ c) ++ c :: r) := by
    intro l
    induction l with
    | nil => simp
    | cons x r ih =>
      by_cases hx : x = c
      · subst hx
        simp
      · rw [List.takeWhile_cons_of_pos (by simpa using hx)]
        refine ⟨?_, ?_⟩
        · simp only [List.mem_cons, not_or]
          exact ⟨fun h => hx h.symm, ih.1⟩
        · rcases ih.2 with h | ⟨q, h⟩
          · exact Or.inl (by rw [← h])
          · exact Or.inr ⟨q, by rw [List.cons_append, ← h]⟩
  have hw : ∀ l : List Char, c ∉ l → l.takeWhile (· ≠ c) = l := by
    intro l hl
    induction l with
    | nil => rfl
    | cons x r ih =>
      simp only [List.mem_cons, not_or] at hl
      rw [List.takeWhile_cons_of_pos (by simpa using fun h => hl.1 h.symm), ih hl.2]
  have hw2 : ∀ l r : List Char, c ∉ l → (l ++ c :: r).takeWhile (· ≠ c) = l := by
    intro l r hl
    induction l with
    | nil => simp
    | cons x l ih =>
      simp only [List.mem_cons, not_or] at hl
      rw [List.cons_append, List.takeWhile_cons_of_pos (by simpa using fun h => hl.1 h.symm), ih hl.2]
  constructor
  · rintro rfl
    simp only [String.toList_ofList]
    refine ⟨(key k.toList).1, ?_⟩
    rcases (key k.toList).2 with h | h
    · left
      rw [← String.toList_inj, String.toList_ofList]
      exact h
    · exact Or.inr h
  · rintro ⟨h1, rfl | ⟨r, hr⟩⟩
    · rw [hw _ h1, String.ofList_toList]
    · rw [hr, hw2 _ _ h1, String.ofList_toList]

theorem find?_verdict {α : Type} (P : α → Prop) (f : α → Bool) (hf : ∀ x, f x = true ↔ P x) (l : List α) :
    (∀ x, l.find? f = some x ↔ FirstSuch P l x) ∧ (l.find? f = none ↔ ∀ x ∈ l, ¬ P x) := by
  refine ⟨fun x => ?_, ?_⟩
  · rw [find?_first]
    exact firstWith_congr hf l x
  · rw [List.find?_eq_none]
    simp only [hf]

/-- **C112**: a test of an OSPFv3 neighbor on FRR passes exactly when the neighbor is expected and the first adjacency with it is full, or it is not expected and
there is no adjacency with it. -/
theorem C112_ospf6_frr (id : String) (present : Bool) (result : List (String × String)) :
    frOspf6Neighbor id present result = true ↔
      (present = true ∧ ∃ x, FirstSuch (fun x => KeyOf id x.1) result x ∧ x.2 = "Full") ∨ (present = false ∧ ∀ x ∈ result, ¬ KeyOf id x.1) := by
  have hk := find?_verdict (fun x : String × String => KeyOf id x.1) (fun x => vnRouterId x.1 == id)
    (fun x => by rw [beq_iff_eq]; exact takeWhile_keyOf '%' id x.1) result
  unfold frOspf6Neighbor
  cases hf : result.find? (fun x => vnRouterId x.1 == id) with
  | none =>
    have h1 := hk.2.1 hf
    have h2 : ¬ ∃ x, FirstSuch (fun x => KeyOf id x.1) result x ∧ x.2 = "Full" := by
      rintro ⟨x, hx, _⟩
      rw [(hk.1 x).2 hx] at hf
      cases hf
    cases present
    · simp only [Bool.not_false, true_iff]
      exact Or.inr ⟨trivial, h1⟩
    · simp only [Bool.not_true, Bool.false_eq_true, false_iff]
      rintro (⟨_, h⟩ | ⟨h, _⟩)
      · exact h2 h
      · cases h
  | some x =>
    have h1 := (hk.1 x).1 hf
    have h2 : ¬ ∀ x ∈ result, ¬ KeyOf id x.1 := fun h => by rw [hk.2.2 h] at hf; cases hf
    simp only [Bool.and_eq_true, beq_iff_eq]
    constructor
    · rintro ⟨rfl, h⟩
      exact Or.inl ⟨rfl, x, h1, h⟩
    · rintro (⟨rfl, y, hy, h⟩ | ⟨_, h⟩)
      · rw [(hk.1 y).2 hy] at hf
        cases hf
        exact ⟨rfl, h⟩
      · exact absurd h h2

theorem eoOspfData_eq (id vrf : String) (result : List (String × List (String × List (String × String)))) :
    eoOspfData id vrf result = (EoAdjacencies vrf result).filter (fun a => a.1 == id) := by
  unfold eoOspfData EoAdjacencies
  cases result.lookup vrf with
  | none => rfl
  | some inst => simp only [List.flatMap_def]

/-- **C112**: a test of an OSPF neighbor on EOS passes exactly when the neighbor is expected and the first adjacency with it (in all OSPF instances in the VRF) is
full, or it is not expected and there is no adjacency with it. -/
theorem C112_ospf_eos (id vrf : String) (present : Bool) (result : List (String × List (String × List (String × String)))) :
    eoOspfNeighbor id present vrf result = true ↔
      (present = true ∧ ∃ x, FirstSuch (fun a => a.1 = id) (EoAdjacencies vrf result) x ∧ BeginsWith "full" x.2) ∨
        (present = false ∧ ∀ a ∈ EoAdjacencies vrf result, a.1 ≠ id) := by
  unfold eoOspfNeighbor
  rw [eoOspfData_eq]
  generalize EoAdjacencies vrf result = l
  have hk := find?_verdict (fun x : String × String => x.1 = id) (fun x => x.1 == id) (fun x => by simp) l
  have hh : l.find? (fun x => x.1 == id) = (l.filter (fun x => x.1 == id)).head? := (List.head?_filter ..).symm
  cases hf : l.filter (fun x => x.1 == id) with
  | nil =>
    rw [hf] at hh
    have h1 := hk.2.1 hh
    have h2 : ¬ ∃ x, FirstSuch (fun a => a.1 = id) l x ∧ BeginsWith "full" x.2 := by
      rintro ⟨x, hx, _⟩
      rw [(hk.1 x).2 hx] at hh
      cases hh
    cases present
    · simp only [Bool.not_false, true_iff]
      exact Or.inr ⟨trivial, h1⟩
    · simp only [Bool.not_true, Bool.false_eq_true, false_iff]
      rintro (⟨_, h⟩ | ⟨h, _⟩)
      · exact h2 h
      · cases h
  | cons x r =>
    rw [hf] at hh
    have h1 := (hk.1 x).1 hh
    have h2 : ¬ ∀ a ∈ l, a.1 ≠ id := fun h => by rw [hk.2.2 h] at hh; cases hh
    simp only [Bool.and_eq_true, vnStarts_iff]
    constructor
    · rintro ⟨rfl, h⟩
      exact Or.inl ⟨rfl, x, h1, h⟩
    · rintro (⟨rfl, y, hy, h⟩ | ⟨_, h⟩)
      · rw [(hk.1 y).2 hy] at hh
        cases hh
        exact ⟨rfl, h⟩
      · exact absurd h h2

example : frOspf6Neighbor "10.0.0.1" true [("10.0.0.2%eth1", "Init"), ("10.0.0.1%eth2", "Full")] = true ∧
    eoOspfNeighbor "10.0.0.1" true "default" [("default", [("1", [("10.0.0.2", "init"), ("10.0.0.1", "full")])])] = true := by decide +kernel

/-- **C112** (defect): a router with two links to the neighbor fails the test when only the adjacency on the first link is not full. -/
theorem C112_ospf_parallel :
    frOspfNeighbor "10.0.0.1" true "red" [("red", .vrf [("10.0.0.1", ["Init/DROther", "Full/DR"])])] = false ∧
    frOspf6Neighbor "10.0.0.1" true [("10.0.0.1%eth1", "Init"), ("10.0.0.1%eth2", "Full")] = false ∧
    eoOspfNeighbor "10.0.0.1" true "default" [("default", [("1", [("10.0.0.1", "init"), ("10.0.0.1", "full")])])] = false := by decide +kernel

/-! ### OSPF prefixes -/

theorem frOspfCost_iff (p : FrOspfRoute) (v : Int) : frOspfCost p = some v ↔
    (TextContains "E2" p.routeType ∧ p.type2cost = some v) ∨ (¬ TextContains "E2" p.routeType ∧ p.cost = some v) := by
  unfold frOspfCost
  rw [← textContains_iff]
  by_cases h : pySubstr "E2".toList p.routeType.toList = true
  · rw [if_pos h]; simp only [h, true_and, not_true, false_and, or_false]
  · rw [if_neg h]; exact ⟨fun e => Or.inr ⟨h, e⟩, fun o => o.elim (fun x => absurd x.1 h) (·.2)⟩

/-- The route is checked (one route, both kinds of checks). -/
theorem vp_single {P : Type} (missing : Bool) (cost : Option Int) (rt : Option String) (cf : P → Option Int) (tf : P → String) (x : P) :
    vpLoop missing (vpOpt cost (fun v d => if d.any (fun p => (cf p).isNone) then .fail else .data (d.filter (fun p => cf p == some v))) ++
        vpOpt rt (fun v d => .data (d.filter (fun p => tf p == v)))) [x] =
      match cost, rt with
      | none, none => !missing
      | some c, none => if cf x = none then false else if cf x = some c then !missing else missing
      | none, some t => if tf x = t then !missing else missing
      | some c, some t => if cf x = none then false else if cf x = some c then (if missing then false else decide (tf x = t)) else missing := by
  cases cost with
  | none =>
    cases rt with
    | none => rfl
    | some t =>
      simp only [vpOpt, List.nil_append, vpLoop]
      by_cases h : tf x = t
      · simp [h]
      · simp [h]
  | some c =>
    cases hc : cf x with
    | none => cases rt <;> simp [vpOpt, vpLoop, hc]
    | some v =>
      by_cases hv : v = c
      · subst hv
        cases rt with
        | none => cases missing <;> simp [vpOpt, vpLoop, hc]
        | some t => cases missing <;> by_cases h : tf x = t <;> simp [vpOpt, vpLoop, hc, h]
      · cases rt <;> cases missing <;> simp [vpOpt, vpLoop, hc, hv]

/-- **C112**: a test of an OSPF prefix on FRR passes exactly when the prefix is in the OSPF table and has the expected cost and type. -/
theorem C112_ospf_prefix (norm : String → Option String) (pfx : String) (cost : Option Int) (rt : Option String) (table : List (String × FrOspfRoute)) :
    frOspfPrefix norm pfx false cost rt false table = true ↔ ∃ p r, norm pfx = some p ∧ table.lookup p = some r ∧ OspfMatches cost rt r := by
  unfold frOspfPrefix
  cases hn : norm pfx with
  | none => simp
  | some p =>
    simp only [Option.some.injEq, exists_and_left, exists_eq_left']
    cases hl : table.lookup p with
    | none => simp [vpRun]
    | some r =>
      simp only [Option.map_some, vpRun, Bool.false_eq_true, if_false, Option.some.injEq, exists_eq_left']
      have := vp_single false cost rt frOspfCost (·.routeType) r
      unfold frCheckCost
      rw [this]
      have hm : OspfMatches cost rt r ↔ (∀ v, cost = some v → frOspfCost r = some v) ∧ (∀ v, rt = some v → r.routeType = v) :=
        ⟨fun h => ⟨fun v hv => (frOspfCost_iff r v).2 (h.cost v hv), h.rt⟩, fun h => ⟨fun v hv => (frOspfCost_iff r v).1 (h.1 v hv), h.2⟩⟩
      rw [hm]
      cases cost with
      | none => cases rt <;> simp
      | some c =>
        by_cases hc : frOspfCost r = some c
        · cases rt <;> simp [hc]
        · cases rt <;> simp [hc]

/-- **C112**: a test of a missing OSPF prefix on FRR with at most one attribute passes exactly when the OSPF table has no such prefix with that attribute. -/
theorem C112_ospf_prefix_missing (norm : String → Option String) (pfx p : String) (cost : Option Int) (rt : Option String) (table : List (String × FrOspfRoute))
    (hn : norm pfx = some p) (hone : cost = none ∨ rt = none) (hc : ∀ r, table.lookup p = some r → frOspfCost r ≠ none) :
    frOspfPrefix norm pfx true cost rt false table = true ↔ ∀ r, table.lookup p = some r → ¬ OspfMatches cost rt r := by
  unfold frOspfPrefix
  rw [hn]
  simp only
  cases hl : table.lookup p with
  | none => simp [vpRun]
  | some r =>
    simp only [Option.map_some, vpRun, Bool.false_eq_true, if_false, Option.some.injEq, forall_eq']
    have := vp_single true cost rt frOspfCost (·.routeType) r
    unfold frCheckCost
    rw [this]
    have hc' := hc r hl
    have hm : OspfMatches cost rt r ↔ (∀ v, cost = some v → frOspfCost r = some v) ∧ (∀ v, rt = some v → r.routeType = v) :=
      ⟨fun h => ⟨fun v hv => (frOspfCost_iff r v).2 (h.cost v hv), h.rt⟩, fun h => ⟨fun v hv => (frOspfCost_iff r v).1 (h.1 v hv), h.2⟩⟩
    rw [hm]
    rcases hone with rfl | rfl
    · cases rt with
      | none => simp
      | some t => by_cases h : r.routeType = t <;> simp [h]
    · cases cost with
      | none => simp
      | some c => by_cases h : frOspfCost r = some c <;> simp [h, hc']

/-- **C112**: a test of an OSPFv3 prefix on FRR passes exactly when the prefix is in the OSPF table and has the expected cost and type. -/
theorem C112_ospf6_prefix (norm : String → Option String) (pfx : String) (cost : Option Int) (rt : Option String)
    (table : Option (List (String × FrOspf6Route))) :
    frOspf6Prefix norm pfx false cost rt false table = true ↔
      ∃ p t r, norm pfx = some p ∧ table = some t ∧ t.lookup p = some r ∧ Ospf6Matches cost rt r := by
  unfold frOspf6Prefix
  cases hn : norm pfx with
  | none => simp
  | some p =>
    cases table with
    | none => simp
    | some t =>
      simp only [Option.some.injEq, exists_and_left, exists_eq_left']
      cases hl : t.lookup p with
      | none => simp [vpRun]
      | some r =>
        simp only [Option.map_some, vpRun, Bool.false_eq_true, if_false, Option.some.injEq, exists_eq_left']
        have := vp_single false cost rt frOspf6Cost (·.pathType) r
        unfold frCheckCost6
        rw [this]
        have hcc : ∀ v, frOspf6Cost r = some v ↔
            (r.pathType = "External-2" ∧ r.metricCostE2 = some v) ∨ (r.pathType ≠ "External-2" ∧ r.metricCost = some v) := by
          intro v
          unfold frOspf6Cost
          by_cases h : r.pathType = "External-2" <;> simp [h]
        have hm : Ospf6Matches cost rt r ↔ (∀ v, cost = some v → frOspf6Cost r = some v) ∧ (∀ v, rt = some v → r.pathType = v) :=
          ⟨fun h => ⟨fun v hv => (hcc v).2 (h.cost v hv), h.rt⟩, fun h => ⟨fun v hv => (hcc v).1 (h.1 v hv), h.2⟩⟩
        rw [hm]
        cases cost with
        | none => cases rt <;> simp
        | some c =>
          by_cases hc : frOspf6Cost r = some c
          · cases rt <;> simp [hc]
          · cases rt <;> simp [hc]

example : let t := [("10.0.0.0/24", (⟨"N E2", some 10, some 20⟩ : FrOspfRoute))]
    frOspfPrefix some "10.0.0.0/24" false (some 20) (some "N E2") false t = true ∧ frOspfPrefix some "10.0.0.0/24" false (some 10) none false t = false ∧
    frOspfPrefix some "10.0.0.0/24" true (some 10) none false t = true ∧
    frOspf6Prefix some "2001:db8::/64" false (some 10) none false (some [("2001:db8::/64", ⟨"Intra-Area", some 10, none⟩)]) = true := by decide +kernel

/-- **C112** (defect): when a prefix with two attributes should be missing, the test fails although the prefix has only one of them. -/
theorem C112_ospf_missing_two : ∃ r : FrOspfRoute, ¬ OspfMatches (some 10) (some "N IA") r ∧
    frOspfPrefix some "10.0.0.0/24" true (some 10) (some "N IA") false [("10.0.0.0/24", r)] = false := by
  refine ⟨⟨"N", some 10, none⟩, fun h => ?_, by decide +kernel⟩
  exact absurd (h.rt _ rfl) (by decide)

/-- **C112**: the outcome of a test of an OSPF prefix on EOS; the routes in the first VRF in the printout are used. -/
theorem C112_ospf_prefix_eos (norm : String → Option String) (pfx p : String) (missing : Bool) (cost : Option Int) (rt : Bool)
    (vrf : String) (routes : List (String × Int)) (rest : List (String × List (String × Int))) (hn : norm pfx = some p) :
    (eoOspfPrefix norm pfx missing cost rt false ((vrf, routes) :: rest) = .pass ↔
      (missing = true ∧ (p ∉ routes.map (·.1) ∨ ∃ c m, cost = some c ∧ routes.lookup p = some m ∧ m ≠ c)) ∨
      (missing = false ∧ rt = false ∧ ∃ m, routes.lookup p = some m ∧ ∀ c, cost = some c → m = c)) ∧
    (eoOspfPrefix norm pfx missing cost rt false ((vrf, routes) :: rest) = .skip ↔
      rt = true ∧ (cost = none ∨ missing = false) ∧ ∃ m, routes.lookup p = some m ∧ ∀ c, cost = some c → m = c) := by
  unfold eoOspfPrefix
  rw [hn]
  simp only [eoOspfLookup]
  cases hl : routes.lookup p with
  | none =>
    have := (vn_lookup_none _ _).1 hl
    cases missing <;> simp [vnOutcome, this]
  | some m =>
    have hin : p ∈ routes.map (·.1) := by
      apply Classical.not_not.1
      intro hx
      rw [(vn_lookup_none _ _).2 hx] at hl
      cases hl
    cases cost with
    | none => cases missing <;> cases rt <;> simp [vnOutcome, hin]
    | some c =>
      by_cases hc : m = c
      · subst hc
        cases missing <;> cases rt <;> simp [hin]
      · cases missing <;> cases rt <;> simp [vnOutcome, hin, hc]

example : eoOspfPrefix some "10.0.0.0/24" false (some 20) false false [("default", [("10.0.0.0/24", 20)])] = .pass ∧
    eoOspfPrefix some "10.0.0.0/24" true none false false [("default", [("10.0.0.0/24", 20)])] = .fail := by decide +kernel

/-! ### IS-IS -/

theorem isChecks_iff (state level area : String) (c : IsCircuit) : isChecks state level area c = true ↔ CircuitOk state level area c := by
  unfold isChecks
  simp only [Bool.and_eq_true, Bool.or_eq_true, beq_iff_eq]
  constructor
  · rintro ⟨⟨h1, h2⟩, h3⟩
    exact ⟨fun h => h1.resolve_left h, fun h => h2.resolve_left h, fun h => h3.resolve_left h⟩
  · rintro ⟨h1, h2, h3⟩
    exact ⟨⟨(Classical.em _).imp_right h1, (Classical.em _).imp_right h2⟩, (Classical.em _).imp_right h3⟩

theorem isCircuits_eq (id : String) (present : Bool) (state level area : String) (l : List IsCircuit) :
    isCircuits id present state level area l = (l.find? (fun c => c.adj == some id)).map (fun c => present && isChecks state level area c) := by
  induction l with
  | nil => rfl
  | cons c r ih =>
    unfold isCircuits
    by_cases h : c.adj = some id
    · rw [if_neg (by simpa using h), List.find?_cons_of_pos (by simpa using h)]
      cases present <;> rfl
    · rw [if_pos h, List.find?_cons_of_neg (by simpa using h), ih]

/-- The result of a test based on the first matching object in a printout -/
def foundVerdict {α : Type} (present : Bool) (q : α → Bool) : Option α → Bool
  | none => !present
  | some c => present && q c

theorem isAreas_eq (id : String) (present : Bool) (state level area : String) (l : List (Option (List IsCircuit))) :
    isAreas id present state level area l =
      foundVerdict present (isChecks state level area) ((AllCircuits (some l)).find? (fun c => c.adj == some id)) := by
  induction l with
  | nil => rfl
  | cons a r ih =>
    unfold isAreas
    rw [isCircuits_eq, ih]
    have : AllCircuits (some (a :: r)) = a.getD [] ++ AllCircuits (some r) := rfl
    rw [this, List.find?_append]
    cases (a.getD []).find? (fun c => c.adj == some id) <;> rfl

theorem verdict_iff {α : Type} (P : α → Prop) (Q : α → Prop) (f q : α → Bool) (hf : ∀ x, f x = true ↔ P x) (hq : ∀ x, q x = true ↔ Q x) (present : Bool)
    (l : List α) (b : Bool) (hb : b = foundVerdict present q (l.find? f)) :
    b = true ↔ (present = true ∧ ∃ x, FirstSuch P l x ∧ Q x) ∨ (present = false ∧ ∀ x ∈ l, ¬ P x) := by
  have hk := find?_verdict P f hf l
  cases hx : l.find? f with
  | none =>
    rw [hx] at hb
    simp only [foundVerdict] at hb
    subst hb
    have h1 := hk.2.1 hx
    cases present
    · simp only [Bool.not_false, true_iff]
      exact Or.inr ⟨trivial, h1⟩
    · simp only [Bool.not_true, Bool.false_eq_true, false_iff]
      rintro (⟨_, y, hy, _⟩ | ⟨h, _⟩)
      · rw [(hk.1 y).2 hy] at hx
        cases hx
      · cases h
  | some x =>
    rw [hx] at hb
    simp only [foundVerdict] at hb
    subst hb
    simp only [Bool.and_eq_true, hq]
    constructor
    · rintro ⟨rfl, h⟩
      exact Or.inl ⟨rfl, x, (hk.1 x).1 hx, h⟩
    · rintro (⟨rfl, y, hy, h⟩ | ⟨_, h⟩)
      · rw [(hk.1 y).2 hy] at hx
        cases hx
        exact ⟨rfl, h⟩
      · rw [hk.2.2 h] at hx
        cases hx

/-- **C112**: a test of an IS-IS neighbor passes exactly when the neighbor is expected and the first circuit with it has the expected state, level and area, or it
is not expected and there is no circuit with it. -/
theorem C112_isis_neighbor (id : String) (present : Bool) (state level area : String) (areas : Option (List (Option (List IsCircuit)))) :
    isNeighbor id present state level area areas = true ↔
      (present = true ∧ ∃ c, FirstSuch (fun c => c.adj = some id) (AllCircuits areas) c ∧ CircuitOk state level area c) ∨
        (present = false ∧ ∀ c ∈ AllCircuits areas, c.adj ≠ some id) := by
  refine verdict_iff (fun c => c.adj = some id) _ (fun c => c.adj == some id) (isChecks state level area) (fun c => by simp)
    (isChecks_iff state level area) present (AllCircuits areas) _ ?_
  cases areas with
  | none => rfl
  | some l => exact isAreas_eq id present state level area l

theorem isPfx_iff (p : IsPrefix) (x : String) : isPfx p = some x ↔ PrefixIs p x := by
  unfold isPfx PrefixIs
  cases p.prefix' <;> simp

theorem isMetric_iff (p : IsPrefix) (x : Int) : isMetric p = some x ↔ MetricIs p x := by
  unfold isMetric MetricIs
  cases p.metric <;> simp

/-- Does the metric of the prefix have the expected value? -/
def isCostOk (cost : Option Int) (p : IsPrefix) : Bool :=
  match cost with
  | none => true
  | some c => isMetric p == some c

theorem isPfxList_eq (pfx : String) (present : Bool) (cost : Option Int) (l : List IsPrefix) :
    isPfxList pfx present cost l = (l.find? (fun p => isPfx p == some pfx)).map (fun p => present && isCostOk cost p) := by
  induction l with
  | nil => rfl
  | cons p r ih =>
    unfold isPfxList
    by_cases h : isPfx p = some pfx
    · rw [if_neg (by simpa using h), List.find?_cons_of_pos (by simpa using h)]
      cases present
      · rfl
      · cases cost <;> rfl
    · rw [if_pos h, List.find?_cons_of_neg (by simpa using h), ih]

theorem isPfxAreas_eq (pfx level af : String) (present : Bool) (cost : Option Int) (l : List (List (String × List (String × List IsPrefix)))) :
    isPfxAreas pfx level af present cost l =
      foundVerdict present (isCostOk cost) ((AllPrefixes level af l).find? (fun p => isPfx p == some pfx)) := by
  induction l with
  | nil => rfl
  | cons a r ih =>
    unfold isPfxAreas
    have : AllPrefixes level af (a :: r) = (((a.lookup ("level-" ++ level)).getD []).lookup af).getD [] ++ AllPrefixes level af r := rfl
    rw [this, List.find?_append, ih]
    cases a.lookup ("level-" ++ level) with
    | none => rfl
    | some info =>
      simp only [Option.getD_some]
      cases info.lookup af with
      | none => rfl
      | some q =>
        simp only [Option.getD_some, isPfxList_eq]
        cases q.find? (fun p => isPfx p == some pfx) <;> rfl

/-- **C112**: a test of an IS-IS prefix passes exactly when the prefix is expected and its first occurrence on the level has the expected cost, or it is not
expected and is not there. -/
theorem C112_isis_prefix (norm : String → Option String) (pfx p level af : String) (present : Bool) (cost : Option Int)
    (areas : List (List (String × List (String × List IsPrefix)))) (hn : norm pfx = some p) :
    isPrefixTest norm pfx level af present cost areas = true ↔
      (present = true ∧ ∃ x, FirstSuch (fun x => PrefixIs x p) (AllPrefixes level af areas) x ∧ ∀ c, cost = some c → MetricIs x c) ∨
        (present = false ∧ ∀ x ∈ AllPrefixes level af areas, ¬ PrefixIs x p) := by
  refine verdict_iff (fun x => PrefixIs x p) (fun x => ∀ c, cost = some c → MetricIs x c) (fun x => isPfx x == some p) (isCostOk cost)
    (fun x => by rw [beq_iff_eq]; exact isPfx_iff x p) (fun x => ?_) present (AllPrefixes level af areas) _ ?_
  · unfold isCostOk
    cases cost with
    | none => simp
    | some c => simp [isMetric_iff]
  · unfold isPrefixTest
    rw [hn]
    exact isPfxAreas_eq p level af present cost areas

example : isNeighbor "x1" true "Up" "L2" "" (some [none, some [⟨some "x2", "Init", none, none⟩, ⟨some "x1", "Up", some "L2", none⟩]]) = true ∧
    isPrefixTest some "10.0.0.0/24" "2" "ipv4" true (some 20) [[("level-2", [("ipv4", [⟨none, some "10.0.0.0/24", some 20, none⟩])])]] = true := by decide +kernel

/-- **C112** (defect): a router with two IS-IS circuits to the neighbor fails the test when only the first one is not up. -/
theorem C112_isis_parallel : isNeighbor "x1" true "Up" "" "" (some [some [⟨some "x1", "Init", none, none⟩, ⟨some "x1", "Up", none, none⟩]]) = false := by
  decide +kernel

/-! ### IP routes -/

/-- **C112**: a test of a prefix in the FRR routing table passes exactly when the prefix is there and the first route has the expected metric, or it should be missing
and is not there. -/
theorem C112_route (norm : String → Option String) (pfx : String) (missing : Bool) (metric : Option Int) (table : List (String × List (Option Int))) :
    frRoute norm pfx missing metric table = true ↔
      ∃ p, norm pfx = some p ∧ ((missing = true ∧ p ∉ table.map (·.1)) ∨ ∃ m r, table.lookup p = some (m :: r) ∧ ∀ v, metric = some v → m = some v) := by
  unfold frRoute
  cases hn : norm pfx with
  | none => simp
  | some p =>
    simp only [Option.some.injEq, exists_eq_left']
    cases hl : table.lookup p with
    | none =>
      have := (vn_lookup_none _ _).1 hl
      simp only [reduceCtorEq, false_and, exists_false, or_false]
      exact ⟨fun h => ⟨h, this⟩, fun h => h.1⟩
    | some l =>
      have hin : p ∈ table.map (·.1) := by
        apply Classical.not_not.1
        intro hx
        rw [(vn_lookup_none _ _).2 hx] at hl
        cases hl
      cases l with
      | nil => simp [hin]
      | cons m r => cases metric <;> simp [hin]

/-- **C112**: a test of an IPv6 route on FRR passes exactly when the prefix is in the routing table and the first route has the expected cost. -/
theorem C112_route6 (pfx : String) (cost : Option Int) (table : List (String × List (Option Int))) :
    frRoute6 pfx cost table = true ↔ ∃ m r, table.lookup pfx = some (m :: r) ∧ ∀ v, cost = some v → m = some v := by
  unfold frRoute6
  cases table.lookup pfx with
  | none => simp
  | some l =>
    cases l with
    | nil => simp
    | cons m r => cases cost <;> simp

/-- **C112** (defect): the test that a prefix is missing passes although the prefix is in the routing table. -/
theorem C112_route_missing (norm : String → Option String) (pfx p : String) (m : Option Int) (r : List (Option Int)) (table : List (String × List (Option Int)))
    (hn : norm pfx = some p) (hl : table.lookup p = some (m :: r)) : frRoute norm pfx true none table = true :=
  (C112_route _ _ _ _ _).2 ⟨p, hn, Or.inr ⟨m, r, hl, fun _ h => (nomatch h)⟩⟩

example : frRoute some "10.0.0.0/24" false (some 20) [("10.0.0.0/24", [some 20])] = true ∧ frRoute some "10.0.0.0/24" false (some 10) [("10.0.0.0/24", [some 20])] = false ∧
    frRoute6 "2001:db8::/64" (some 1) [("2001:db8::/64", [some 1])] = true := by decide +kernel

/-! ### Ping and Linux routes -/

/-- **C112**: a ping test passes exactly when the printout has a reply of the expected size; a test of a failed ping passes when the printout has one of three
texts. -/
theorem C112_ping (dflt : Nat) (len : Option Nat) (out : String) :
    (pingTest dflt len false out = true ↔ ∃ n, ((len = none ∨ len = some 0) ∧ n = dflt ∨ ∃ k, len = some k ∧ k ≠ 0 ∧ n = k + 8) ∧
      TextContains (toString n ++ " bytes from") out) ∧
    (pingTest dflt len true out = true ↔ TextContains "0 packets received" out ∨ TextContains "0 received" out ∨ TextContains "unreachable" out) := by
  constructor
  · unfold pingTest
    rw [if_neg (by decide), textContains_iff]
    cases len with
    | none => simp [pingBytes]
    | some k =>
      cases k with
      | zero => simp [pingBytes]
      | succ k => simp [pingBytes]
  · unfold pingTest
    rw [if_pos rfl]
    simp only [List.any_cons, List.any_nil, Bool.or_false, Bool.or_eq_true, textContains_iff]

/-- **C112** (defect): a ping that received ten replies (or twenty, or thirty...) passes the test of a failed ping. -/
theorem C112_ping_ten (dflt : Nat) (len : Option Nat) (k : Nat) (hk : 0 < k) (out : String) (h : TextContains (toString (10 * k) ++ " received") out) :
    pingTest dflt len true out = true := by
  rw [(C112_ping dflt len out).2]
  right; left
  obtain ⟨a, b, h⟩ := h
  have hd : (toString (10 * k)).toList = (toString k).toList ++ ['0'] := by
    show (Nat.repr (10 * k)).toList = (Nat.repr k).toList ++ ['0']
    unfold Nat.repr
    rw [String.toList_ofList, String.toList_ofList, Nat.toDigits_of_base_le (by omega) (by omega)]
    have h1 : 10 * k / 10 = k := by omega
    have h2 : 10 * k % 10 = 0 := by omega
    rw [h1, h2]
    rfl
  refine ⟨a ++ (toString k).toList, b, ?_⟩
  rw [h, String.toList_append, hd]
  simp

/-- **C112**: the test of the IPv6 default route passes exactly when the printout has the word. -/
theorem C112_default6 (out : String) : default6Test out = true ↔ TextContains "default" out := textContains_iff _ _

example : pingTest 64 none false "64 bytes from 10.0.0.1: seq=0 ttl=64 time=0.1 ms" = true ∧ pingTest 64 (some 100) false "108 bytes from 10.0.0.1" = true ∧
    pingTest 64 none true "5 packets transmitted, 5 received, 0% packet loss" = false ∧
    pingTest 64 none true "10 packets transmitted, 10 received, 0% packet loss" = true := by decide +kernel

theorem grepHere_iff (p l : List Char) : grepHere p l = true ↔ ∃ t b, l = t ++ b ∧ PatternMatches p t := by
  unfold PatternMatches
  induction p generalizing l with
  | nil => exact ⟨fun _ => ⟨[], l, rfl, .nil⟩, fun _ => by simp [grepHere]⟩
  | cons c p ih =>
    cases l with
    | nil =>
      simp only [grepHere, Bool.false_eq_true, false_iff]
      rintro ⟨t, b, h, hf⟩
      cases hf
      cases h
    | cons d l =>
      simp only [grepHere, Bool.and_eq_true, Bool.or_eq_true, beq_iff_eq, ih]
      constructor
      · rintro ⟨h1, t, b, rfl, hf⟩
        exact ⟨d :: t, b, rfl, .cons h1 hf⟩
      · rintro ⟨t, b, h, hf⟩
        cases hf with
        | cons h1 hf =>
          simp only [List.cons_append, List.cons.injEq] at h
          obtain ⟨rfl, rfl⟩ := h
          exact ⟨h1, _, b, rfl, hf⟩

theorem grepLine_iff (p l : String) : grepLine p l.toList = true ↔ PatternIn p l := by
  unfold PatternIn
  generalize l.toList = l
  induction l with
  | nil =>
    unfold grepLine
    rw [grepHere_iff]
    constructor
    · rintro ⟨t, b, h, hf⟩
      exact ⟨[], t, b, by simpa using h, hf⟩
    · rintro ⟨a, t, b, h, hf⟩
      have : a = [] := by
        cases a with
        | nil => rfl
        | cons => simp at h
      subst this
      exact ⟨t, b, by simpa using h, hf⟩
  | cons c r ih =>
    unfold grepLine
    rw [Bool.or_eq_true, grepHere_iff, ih]
    constructor
    · rintro (⟨t, b, h, hf⟩ | ⟨a, t, b, h, hf⟩)
      · exact ⟨[], t, b, by simpa using h, hf⟩
      · exact ⟨c :: a, t, b, by simp [h], hf⟩
    · rintro ⟨a, t, b, h, hf⟩
      cases a with
      | nil => exact Or.inl ⟨t, b, by simpa using h, hf⟩
      | cons d a =>
        simp only [List.cons_append, List.cons.injEq] at h
        exact Or.inr ⟨a, t, b, by simpa using h.2, hf⟩

theorem mem_routeLines (pfx intf : String) (lines : List String) (l : String) :
    l ∈ routeLines pfx intf lines ↔ l ∈ lines ∧ PatternIn pfx l ∧ (intf ≠ "" → PatternIn ("dev " ++ intf) l) := by
  unfold routeLines
  simp only [List.mem_filter, grepLine_iff, Bool.or_eq_true, beq_iff_eq, and_assoc]
  refine and_congr_right fun _ => and_congr_right fun _ => ?_
  exact ⟨fun h hn => h.resolve_left hn, fun h => (Classical.em _).imp_right h⟩

/-- **C112**: a test of a route on Linux passes exactly when the routing table has a line with the prefix and the interface (as regular expressions). -/
theorem C112_linux_route (final : Bool) (pfx intf : String) (lines : List String) :
    routeTest final false pfx intf lines = true ↔ ∃ l ∈ lines, PatternIn pfx l ∧ (intf ≠ "" → PatternIn ("dev " ++ intf) l) := by
  have h1 : routeTest final false pfx intf lines = !(routeLines pfx intf lines).isEmpty := by
    unfold routeTest routeValid
    cases (routeLines pfx intf lines).isEmpty <;> cases final <;> rfl
  rw [h1, Bool.not_eq_true', Bool.eq_false_iff, ne_eq, List.isEmpty_iff]
  constructor
  · intro h
    obtain ⟨l, hl⟩ := List.exists_mem_of_ne_nil _ h
    exact ⟨l, (mem_routeLines _ _ _ _).1 hl⟩
  · rintro ⟨l, hl⟩ h
    have := (mem_routeLines _ _ _ _).2 hl
    rw [h] at this
    cases this

/-- **C112**: a test of a missing route on Linux passes, while the test can still wait, exactly when the routing table has no such line. -/
theorem C112_linux_route_waiting (pfx intf : String) (lines : List String) :
    routeTest false true pfx intf lines = true ↔ ∀ l ∈ lines, ¬ (PatternIn pfx l ∧ (intf ≠ "" → PatternIn ("dev " ++ intf) l)) := by
  have h1 : routeTest false true pfx intf lines = (routeLines pfx intf lines).isEmpty := by
    unfold routeTest routeValid
    cases (routeLines pfx intf lines).isEmpty <;> rfl
  rw [h1, List.isEmpty_iff, List.eq_nil_iff_forall_not_mem]
  simp only [mem_routeLines, not_and]

/-- **C112** (defect): without waiting, a test of a missing route on Linux fails for every routing table, also when the route is missing. -/
theorem C112_linux_route_missing (pfx intf : String) (lines : List String) : routeTest true true pfx intf lines = false := by
  unfold routeTest routeValid
  cases (routeLines pfx intf lines).isEmpty <;> rfl

/-- **C112** (defect): the test finds other prefixes with a similar text. -/
theorem C112_linux_route_other : routeTest true false "10.0.0.0/24" "eth1" ["110.0.0.0/24 via 192.168.1.1 dev eth10"] = true := by decide +kernel

example : routeTest true false "10.0.0.0/24" "eth1" ["default via 1.1.1.1 dev eth0", "10.0.0.0/24 via 192.168.1.1 dev eth1"] = true ∧
    routeTest true false "10.0.0.0/24" "eth1" ["default via 1.1.1.1 dev eth0"] = false ∧ routeTest false true "10.0.0.0/24" "" [] = true := by decide +kernel

end Netlab
