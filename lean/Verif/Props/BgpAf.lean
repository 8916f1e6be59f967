import Mathlib.Data.List.Forall2
import Verif.Spec.BgpAf
/-!
# C72, C73: BGP address families, advertised prefixes and communities
-/

namespace Netlab
open Spec

theorem bgpTrueStub_iff (peer : String → AfPeer) (l : AfIntf) : bgpTrueStub peer l = true ↔ OnlyHosts peer l := by
  unfold bgpTrueStub OnlyHosts
  rw [List.all_eq_true]
  constructor
  · intro h n hn
    have := h n hn
    cases hd : (peer n).daemon <;> simp [hd] at this ⊢
    exact this
  · intro h n hn
    obtain ⟨h1, h2⟩ := h n hn
    simp [h1, h2]

theorem advertisedRole_iff (roles : List String) (l : AfIntf) :
    (l.type.any roles.contains || l.role.any roles.contains) = true ↔ AdvertisedRole roles l := by
  unfold AdvertisedRole
  cases ht : l.type <;> cases hr : l.role <;> simp
  · rename_i r
    constructor
    · rintro (h | h) <;> exact ⟨_, h, by simp⟩
    · rintro ⟨x, hx, h | h⟩
      · exact .inl (h ▸ hx)
      · exact .inr (h ▸ hx)

/-- The advertise flag of an interface -/
theorem setAdvertise_spec (roles : List String) (peer : String → AfPeer) (adLo : Option Bool) (l : AfIntf) :
    (((setAdvertise roles peer adLo l).off = false ∧ (setAdvertise roles peer adLo l).advertise = some true) ↔
      Advertised roles peer adLo l) ∧
    { setAdvertise roles peer adLo l with advertise := l.advertise } = l ∧
    (l.advertise ≠ none → (setAdvertise roles peer adLo l).advertise = l.advertise) := by
  unfold setAdvertise Advertised
  by_cases h1 : l.off = true
  · rw [if_pos h1]
    cases l
    simp_all
  · rw [if_neg h1]
    have h1' : l.off = false := by simpa using h1
    cases h2 : l.advertise with
    | some b =>
      rw [if_pos (by rfl)]
      cases l
      simp_all
    | none =>
      rw [if_neg (by simp)]
      by_cases h3 : (l.type.any roles.contains || l.role.any roles.contains) = true
      · rw [if_pos h3]
        rw [advertisedRole_iff] at h3
        by_cases h4 : l.role = some "stub"
        · rw [if_neg (by simpa using h4)]
          refine ⟨?_, ?_, fun h => absurd rfl h⟩
          · simp only [h1', h3, h4, Option.some.injEq, bgpTrueStub_iff, true_and, not_true_eq_false, false_and, or_false]
            simp
          · cases l; simp_all
        · rw [if_pos h4]
          refine ⟨?_, ?_, fun h => absurd rfl h⟩
          · simp [h1', h3, h4]
          · cases l; simp_all
      · rw [if_neg h3]
        rw [advertisedRole_iff] at h3
        by_cases h4 : l.type = some "loopback" ∧ adLo = some true
        · rw [if_pos h4]
          refine ⟨?_, ?_, fun h => absurd rfl h⟩
          · simp [h1', h3, h4]
          · cases l; simp_all
        · rw [if_neg h4]
          refine ⟨?_, ?_, fun h => absurd rfl h⟩
          · simp only [h1', h2, h3, not_false_eq_true, true_and, false_and, false_or]
            simp only [reduceCtorEq, false_or, false_iff]
            exact h4
          · cases l; simp_all

theorem effective_iff (a : Option Activate) (t : SType) :
    (((Activate.effective a).ipv4.getD []).contains t = true ↔ ActiveType a (·.ipv4) t) ∧
    (((Activate.effective a).ipv6.getD []).contains t = true ↔ ActiveType a (·.ipv6) t) := by
  unfold ActiveType
  match a with
  | none => cases t <;> simp [Activate.effective, Sessions.default]
  | some ⟨none, none⟩ => cases t <;> simp [Activate.effective, Sessions.default]
  | some ⟨some l, none⟩ => simp [Activate.effective]
  | some ⟨none, some l⟩ => simp [Activate.effective]
  | some ⟨some k, some l⟩ => simp [Activate.effective]

theorem bgpAfPost_eq (roles : List String) (peer : String → AfPeer) (pfx : List (String × Option String)) (n : AfNode) :
    (bgpAfPost roles peer pfx n).1.interfaces = n.interfaces.map (setAdvertise roles peer n.advertiseLoopback) ∧
    (bgpAfPost roles peer pfx n).1.originate = n.originate.map (fun o => (originatePrefix pfx o).1) ∧
    (bgpAfPost roles peer pfx n).2 = (activateAfs n).2 + (n.originate.map (fun o => (originatePrefix pfx o).2)).sum ∧
    (bgpAfPost roles peer pfx n).1.ngbs = (activateAfs n).1.ngbs ∧
    (bgpAfPost roles peer pfx n).1.name = n.name := by
  have h : ∀ m e, activateAfs n = (m, e) → m.interfaces = n.interfaces ∧ m.originate = n.originate ∧
      m.advertiseLoopback = n.advertiseLoopback ∧ m.name = n.name := by
    intro m e he
    unfold activateAfs at he
    simp only at he
    by_cases hc : ((afFromNeighbors n).activate.isSome && !(afFromNeighbors n).activateAf) = true
    · rw [if_pos hc] at he; cases he; exact ⟨rfl, rfl, rfl, rfl⟩
    · rw [if_neg hc] at he; cases he; exact ⟨rfl, rfl, rfl, rfl⟩
  obtain ⟨h1, h2, h3, h4⟩ := h (activateAfs n).1 (activateAfs n).2 rfl
  unfold bgpAfPost setOriginateAf
  simp only [List.map_map]
  refine ⟨by rw [h1, h3], by rw [h2]; rfl, by rw [h2]; rfl, trivial, h4⟩

/-- C72: the interfaces whose prefixes are advertised are exactly the wanted ones; no other attribute is changed and an
explicit flag is kept. -/
theorem C72_advertised_prefixes (roles : List String) (peer : String → AfPeer) (pfx : List (String × Option String))
    (n : AfNode) :
    List.Forall₂ (fun l m =>
        ((m.off = false ∧ m.advertise = some true) ↔ Advertised roles peer n.advertiseLoopback l) ∧
        { m with advertise := l.advertise } = l ∧ (l.advertise ≠ none → m.advertise = l.advertise))
      n.interfaces (bgpAfPost roles peer pfx n).1.interfaces := by
  rw [(bgpAfPost_eq roles peer pfx n).1, List.forall₂_map_right_iff, List.forall₂_same]
  intro l _
  exact setAdvertise_spec roles peer n.advertiseLoopback l

/-- C72: the address families of the BGP process.  `advertise_loopback` is true unless it is set to false. -/
theorem C72_address_families (roles : List String) (peer : String → AfPeer) (pfx : List (String × Option String))
    (n : AfNode) (h4 : n.bgp4 = false) (h6 : n.bgp6 = false) :
    ((bgpAfPost roles peer pfx n).1.bgp4 = true ↔
      (∃ g ∈ n.ngbs, g.ngb.ipv4 ≠ none) ∨ n.originate ≠ [] ∨ (n.lo4 = true ∧ n.advertiseLoopback ≠ some false) ∨
      (∃ i ∈ n.interfaces, i.ipv4 = true ∧ i.vrf = false ∧ Advertised roles peer n.advertiseLoopback i)) ∧
    ((bgpAfPost roles peer pfx n).1.bgp6 = true ↔
      (∃ g ∈ n.ngbs, g.ngb.ipv6 ≠ none) ∨ (n.lo6 = true ∧ n.advertiseLoopback ≠ some false) ∨
      (∃ i ∈ n.interfaces, i.ipv6 = true ∧ i.vrf = false ∧ Advertised roles peer n.advertiseLoopback i)) := by
  have h : ∀ m e, activateAfs n = (m, e) → m.interfaces = n.interfaces ∧ m.originate = n.originate ∧
      m.advertiseLoopback = n.advertiseLoopback ∧ m.lo4 = n.lo4 ∧ m.lo6 = n.lo6 ∧
      m.bgp4 = n.ngbs.any (fun g => g.ngb.ipv4.isSome) ∧ m.bgp6 = n.ngbs.any (fun g => g.ngb.ipv6.isSome) := by
    intro m e he
    unfold activateAfs at he
    simp only at he
    have e1 : (afFromNeighbors n).bgp4 = n.ngbs.any (fun g => g.ngb.ipv4.isSome) := by simp [afFromNeighbors, h4]
    have e2 : (afFromNeighbors n).bgp6 = n.ngbs.any (fun g => g.ngb.ipv6.isSome) := by simp [afFromNeighbors, h6]
    by_cases hc : ((afFromNeighbors n).activate.isSome && !(afFromNeighbors n).activateAf) = true
    · rw [if_pos hc] at he; cases he; exact ⟨rfl, rfl, rfl, rfl, rfl, e1, e2⟩
    · rw [if_neg hc] at he; cases he; exact ⟨rfl, rfl, rfl, rfl, rfl, e1, e2⟩
  obtain ⟨g1, g2, g3, g4, g5, g6, g7⟩ := h (activateAfs n).1 (activateAfs n).2 rfl
  have hif : ∀ has : AfIntf → Bool, (∀ a b : AfIntf, { a with advertise := b.advertise } = b → has a = has b) →
      ((n.interfaces.map (setAdvertise roles peer n.advertiseLoopback)).any
          (fun i => has i && (!i.off && i.advertise.getD false) && !i.vrf) = true ↔
        ∃ i ∈ n.interfaces, has i = true ∧ i.vrf = false ∧ Advertised roles peer n.advertiseLoopback i) := by
    intro has hh
    rw [List.any_map, List.any_eq_true]
    have key : ∀ i, (((fun i : AfIntf => has i && (!i.off && i.advertise.getD false) && !i.vrf) ∘
        setAdvertise roles peer n.advertiseLoopback) i = true ↔
        has i = true ∧ i.vrf = false ∧ Advertised roles peer n.advertiseLoopback i) := by
      intro i
      obtain ⟨s1, s2, s3⟩ := setAdvertise_spec roles peer n.advertiseLoopback i
      have hv : (setAdvertise roles peer n.advertiseLoopback i).vrf = i.vrf := by
        have := congrArg AfIntf.vrf s2
        exact this
      have hs := hh _ _ s2
      rw [← s1]
      simp only [Function.comp, hv, hs]
      generalize setAdvertise roles peer n.advertiseLoopback i = m
      rcases m with ⟨_, _, off, ad, _, _, _, _⟩
      cases off <;> rcases ad with _ | _ | _ <;> simp
    constructor
    · rintro ⟨i, hi, h⟩; exact ⟨i, hi, (key i).1 h⟩
    · rintro ⟨i, hi, h⟩; exact ⟨i, hi, (key i).2 h⟩
  have hlo : ∀ b : Option Bool, b.getD true = true ↔ b ≠ some false := by
    intro b
    rcases b with _ | _ | _ <;> simp
  have i4 := hif (·.ipv4) (fun a b h => by have := congrArg AfIntf.ipv4 h; exact this)
  have i6 := hif (·.ipv6) (fun a b h => by have := congrArg AfIntf.ipv6 h; exact this)
  have any4 : n.ngbs.any (fun g => g.ngb.ipv4.isSome) = true ↔ ∃ g ∈ n.ngbs, g.ngb.ipv4 ≠ none := by
    simp [List.any_eq_true, Option.isSome_iff_ne_none]
  have any6 : n.ngbs.any (fun g => g.ngb.ipv6.isSome) = true ↔ ∃ g ∈ n.ngbs, g.ngb.ipv6 ≠ none := by
    simp [List.any_eq_true, Option.isSome_iff_ne_none]
  have hor : n.originate.isEmpty = false ↔ n.originate ≠ [] := by
    cases n.originate <;> simp
  unfold bgpAfPost setOriginateAf originateAf
  simp only [g1, g2, g3, g4, g5, g6, g7]
  constructor
  · rw [← any4, ← i4, ← hor, ← hlo]
    generalize n.ngbs.any _ = a
    generalize List.any _ _ = b
    generalize n.originate.isEmpty = c
    generalize n.advertiseLoopback.getD true = d
    generalize n.lo4 = e
    cases a <;> cases b <;> cases c <;> cases d <;> cases e <;> simp
  · rw [← any6, ← i6, ← hlo]
    generalize n.ngbs.any _ = a
    generalize List.any _ _ = b
    generalize n.advertiseLoopback.getD true = d
    generalize n.lo6 = e
    cases a <;> cases b <;> cases d <;> cases e <;> simp

/-- C72: when the settings are accepted, an address family is active on a session with a global neighbor if and only if
the neighbor has an address in that address family and the session type is active; nothing else is changed. -/
theorem C72_activation (roles : List String) (peer : String → AfPeer) (pfx : List (String × Option String))
    (n : AfNode) (hok : (bgpAfPost roles peer pfx n).2 = 0) (hc : ∀ g ∈ n.ngbs, g.act4 = none ∧ g.act6 = none) :
    (n.activate = none ∨ n.activateAf = true) ∧
    List.Forall₂ (fun g m => m.ngb = g.ngb ∧
        (m.act4 ≠ none ↔ g.ngb.ipv4 ≠ none) ∧ (m.act6 ≠ none ↔ g.ngb.ipv6 ≠ none) ∧
        (m.act4 = some true ↔ g.ngb.ipv4 ≠ none ∧ ActiveType n.activate (·.ipv4) g.ngb.type) ∧
        (m.act6 = some true ↔ g.ngb.ipv6 ≠ none ∧ ActiveType n.activate (·.ipv6) g.ngb.type))
      n.ngbs (bgpAfPost roles peer pfx n).1.ngbs := by
  obtain ⟨-, -, he, hn, -⟩ := bgpAfPost_eq roles peer pfx n
  rw [he] at hok
  have hok1 : (activateAfs n).2 = 0 := by omega
  rw [hn]
  have hact : (afFromNeighbors n).activate = n.activate := rfl
  unfold activateAfs at hok1 ⊢
  simp only at hok1 ⊢
  by_cases hx : ((afFromNeighbors n).activate.isSome && !(afFromNeighbors n).activateAf) = true
  · rw [if_pos hx] at hok1; cases hok1
  · rw [if_neg hx]
    have hx' : ¬ (n.activate.isSome && !n.activateAf) = true := hx
    refine ⟨?_, ?_⟩
    · cases h1 : n.activate with
      | none => exact .inl rfl
      | some a =>
        right
        rw [h1] at hx'
        cases h2 : n.activateAf with
        | true => rfl
        | false => rw [h2] at hx'; exact absurd rfl hx'
    · simp only
      have hng : (afFromNeighbors n).ngbs = n.ngbs := rfl
      rw [hng, hact, List.forall₂_map_right_iff, List.forall₂_same]
      intro g hg
      obtain ⟨c1, c2⟩ := hc g hg
      obtain ⟨e1, e2⟩ := effective_iff n.activate g.ngb.type
      rw [← e1, ← e2]
      unfold activateNgb
      simp only [c1, c2]
      have b4 : g.ngb.ipv4.isSome = true → (afFromNeighbors n).bgp4 = true := by
        intro h
        simp only [afFromNeighbors, Bool.or_eq_true, List.any_eq_true]
        exact .inr ⟨g, hg, h⟩
      have b6 : g.ngb.ipv6.isSome = true → (afFromNeighbors n).bgp6 = true := by
        intro h
        simp only [afFromNeighbors, Bool.or_eq_true, List.any_eq_true]
        exact .inr ⟨g, hg, h⟩
      cases h4 : g.ngb.ipv4 <;> cases h6 : g.ngb.ipv6 <;> rw [h4] at b4 <;> rw [h6] at b6 <;> simp at b4 b6 <;>
        simp [b4, b6]

/-- C72: prefixes given by name are replaced with their IPv4 values; a name without an IPv4 value is an error. -/
theorem C72_originated (roles : List String) (peer : String → AfPeer) (pfx : List (String × Option String))
    (n : AfNode) (hok : (bgpAfPost roles peer pfx n).2 = 0) :
    List.Forall₂ (fun o p => (pfx.lookup o = none ∧ p = o) ∨ pfx.lookup o = some (some p))
      n.originate (bgpAfPost roles peer pfx n).1.originate := by
  obtain ⟨-, ho, he, -, -⟩ := bgpAfPost_eq roles peer pfx n
  rw [he] at hok
  have hok1 : (n.originate.map (fun o => (originatePrefix pfx o).2)).sum = 0 := by omega
  rw [ho, List.forall₂_map_right_iff, List.forall₂_same]
  intro o hmem
  have hz : (originatePrefix pfx o).2 = 0 := by
    have : ∀ l : List Nat, l.sum = 0 → ∀ x ∈ l, x = 0 := by
      intro l
      induction l with
      | nil => simp
      | cons a l ih =>
        intro h x hx
        rw [List.sum_cons] at h
        rcases List.mem_cons.1 hx with rfl | hx
        · omega
        · exact ih (by omega) x hx
    exact this _ hok1 _ (List.mem_map_of_mem (f := fun o => (originatePrefix pfx o).2) hmem)
  unfold originatePrefix at hz ⊢
  match hl : pfx.lookup o with
  | none => simp
  | some none => rw [hl] at hz; simp at hz
  | some (some v) => simp

/-- Neighbors in the example: a host, a host running a daemon and a router -/
def exAfPeer (n : String) : AfPeer :=
  if n = "h" then { role := "host" } else if n = "d" then { role := "host", daemon := true } else { role := "router" }

/-- An IPv4-only node with IPv6 prefixes on stub interfaces -/
def exAfNode : AfNode where
  name := "r"
  ngbs := [{ ngb := { name := "x", asn := 1, type := .ebgp, ipv4 := some (.ip "10.0.0.1") } },
    { ngb := { name := "y", asn := 1, type := .ibgp, ipv4 := some (.ip "10.0.0.2") } }]
  activate := some { ipv4 := some [.ibgp] }
  advertiseLoopback := some false
  lo6 := true
  originate := ["p", "192.0.2.0/24"]
  interfaces := [
    { role := some "stub", neighbors := ["h"], ipv4 := true },
    { role := some "stub", neighbors := ["h", "d"], ipv6 := true },
    { role := some "stub", neighbors := ["x"], ipv6 := true },
    { role := some "stub", neighbors := ["x"], ipv4 := true, advertise := some true },
    { role := some "stub", neighbors := ["h"], ipv6 := true, vrf := true },
    { type := some "loopback", ipv6 := true },
    { role := some "stub", neighbors := ["h"], ipv6 := true, off := true },
    { type := some "lan", neighbors := ["x"], ipv6 := true }]

/-- Non-trivial instance of C72 -/
example : (bgpAfPost ["stub"] exAfPeer [("p", some "10.1.0.0/16")] exAfNode).2 = 0 ∧
    (bgpAfPost ["stub"] exAfPeer [("p", some "10.1.0.0/16")] exAfNode).1.originate = ["10.1.0.0/16", "192.0.2.0/24"] ∧
    (bgpAfPost ["stub"] exAfPeer [("p", some "10.1.0.0/16")] exAfNode).1.bgp4 = true ∧
    (bgpAfPost ["stub"] exAfPeer [("p", some "10.1.0.0/16")] exAfNode).1.bgp6 = false ∧
    (bgpAfPost ["stub"] exAfPeer [("p", some "10.1.0.0/16")] exAfNode).1.ngbs.map (·.act4) = [some false, some true] ∧
    (bgpAfPost ["stub"] exAfPeer [("p", some "10.1.0.0/16")] exAfNode).1.interfaces.map (·.advertise) =
      [some true, some false, some false, some true, some true, none, none, none] := by decide +kernel

/-- Defect: IBGP sessions built with local AS are not activated when IBGP sessions are, although that is what the code
tries to do; and the attribute does not accept that session type. -/
theorem C72_localas_ibgp_not_active :
    let n : AfNode := { ngbs := [{ ngb := { name := "x", asn := 1, type := .localasIbgp, ipv4 := some (.ip "10.0.0.1") } }],
                        activate := some { ipv4 := some [.ibgp, .ebgp] } }
    (bgpAfPost [] exAfPeer [] n).2 = 0 ∧ (bgpAfPost [] exAfPeer [] n).1.ngbs.map (·.act4) = [some false] := by
  decide +kernel

/-! ## C73 -/

theorem kwFold_inner (ws r : List String) (hr : r.Nodup) :
    (ws.foldl (fun r w => if r.contains w then r else r ++ [w]) r).Nodup ∧
    ∀ x, x ∈ ws.foldl (fun r w => if r.contains w then r else r ++ [w]) r ↔ x ∈ r ∨ x ∈ ws := by
  induction ws generalizing r with
  | nil => simp [hr]
  | cons w ws ih =>
    rw [List.foldl_cons]
    by_cases h : r.contains w = true
    · rw [if_pos h]
      obtain ⟨i1, i2⟩ := ih r hr
      refine ⟨i1, fun x => ?_⟩
      rw [i2, List.mem_cons]
      have hw : w ∈ r := by simpa using h
      constructor
      · rintro (h | h)
        · exact .inl h
        · exact .inr (.inr h)
      · rintro (h | rfl | h)
        · exact .inl h
        · exact .inl hw
        · exact .inr h
    · rw [if_neg h]
      have hw : w ∉ r := by simpa using h
      obtain ⟨i1, i2⟩ := ih (r ++ [w]) (by
        rw [List.nodup_append]
        refine ⟨hr, by simp, ?_⟩
        rintro x hx y hy rfl
        rw [List.mem_singleton.1 hy] at hx
        exact hw hx)
      refine ⟨i1, fun x => ?_⟩
      rw [i2]
      simp [or_assoc]

theorem kwFold_outer (t : List (String × KwVal)) (l r : List String) (hr : r.Nodup) :
    (l.foldl (fun r k => (kwLookup t k).foldl (fun r w => if r.contains w then r else r ++ [w]) r) r).Nodup ∧
    ∀ x, x ∈ l.foldl (fun r k => (kwLookup t k).foldl (fun r w => if r.contains w then r else r ++ [w]) r) r ↔
      x ∈ r ∨ ∃ k ∈ l, x ∈ kwLookup t k := by
  induction l generalizing r with
  | nil => simp [hr]
  | cons k l ih =>
    rw [List.foldl_cons]
    obtain ⟨j1, j2⟩ := kwFold_inner (kwLookup t k) r hr
    obtain ⟨i1, i2⟩ := ih _ j1
    refine ⟨i1, fun x => ?_⟩
    rw [i2, j2]
    simp [or_assoc]

theorem mem_kwLookup (t : List (String × KwVal)) (k w : String) : w ∈ kwLookup t k ↔ Translates t k w := by
  unfold kwLookup Translates
  match h : t.lookup k with
  | none => simp
  | some .same => simp
  | some .off => simp
  | some (.word x) => simp [eq_comm]
  | some (.words l) => simp

theorem commErrors_zero {t : List (String × KwVal)} {l : Option (List String)} (h : commErrors t l = 0) :
    ∀ c, l = some c → ∀ k ∈ c, t.lookup k ≠ none := by
  rintro c rfl k hk hn
  unfold commErrors at h
  rw [List.length_eq_zero_iff, List.filter_eq_nil_iff] at h
  exact h k hk (by rw [hn]; rfl)

/-- C73: when the communities are accepted, sessions of every type propagate exactly the communities the device uses for
the configured keywords; all keywords are known to the device and no word is repeated. -/
theorem C73_communities (features : Option (List (String × KwVal))) (s : CommSpec) (t : SType) (l : List String)
    (hs : CommConfigured s t l) (hok : (commSetup features s).2 = 0) :
    ∃ table ws, ((features = none ∨ features = some []) → table = defaultCommKw) ∧
      (∀ f, features = some f → f ≠ [] → table = f) ∧
      commOf (commSetup features s).1 t = some ws ∧ ws.Nodup ∧
      (∀ w, w ∈ ws ↔ ∃ k ∈ l, Translates table k w) ∧ ∀ k ∈ l, table.lookup k ≠ none := by
  refine ⟨if (features.getD []).isEmpty then defaultCommKw else features.getD [], 
    kwTransform (if (features.getD []).isEmpty then defaultCommKw else features.getD []) l, ?_, ?_, ?_⟩
  · rintro (rfl | rfl) <;> rfl
  · rintro f rfl hf
    have : f.isEmpty = false := by cases f <;> simp_all
    simp [this]
  · have hne : commNormal s ≠ {} := by
      intro hh
      cases s with
      | one k => cases hh
      | list c => cases hh
      | dict i e =>
        have h1 : i = none := congrArg CommList.ibgp hh
        have h2 : e = none := congrArg CommList.ebgp hh
        subst h1; subst h2
        cases t <;> cases hs
    unfold commSetup commTransform at hok ⊢
    rw [if_neg hne] at hok ⊢
    simp only at hok ⊢
    generalize (if (features.getD []).isEmpty then defaultCommKw else features.getD []) = tb at hok ⊢
    obtain ⟨o1, o2⟩ := kwFold_outer tb l [] (by simp)
    have hw : ∀ w, w ∈ kwTransform tb l ↔ ∃ k ∈ l, Translates tb k w := by
      intro w
      unfold kwTransform
      rw [o2]
      simp [mem_kwLookup]
    have e1 : commErrors tb (commNormal s).ibgp = 0 := by omega
    have e2 : commErrors tb (commNormal s).ebgp = 0 := by omega
    have hcfg : (t ≠ .ebgp → (commNormal s).ibgp = some l) ∧ (t = .ebgp → (commNormal s).ebgp = some l) ∧
        (commNormal s).localas = none := by
      cases s with
      | one k => cases hs; exact ⟨fun _ => rfl, fun _ => rfl, rfl⟩
      | list c => cases hs; exact ⟨fun _ => rfl, fun _ => rfl, rfl⟩
      | dict i e =>
        cases t
        · exact ⟨fun _ => hs, (fun h => nomatch h), rfl⟩
        · exact ⟨fun h => absurd rfl h, fun _ => hs, rfl⟩
        · exact ⟨fun _ => hs, (fun h => nomatch h), rfl⟩
    obtain ⟨c1, c2, c3⟩ := hcfg
    refine ⟨?_, o1, hw, ?_⟩
    · cases t
      · simp [commOf, c1]
      · simp [commOf, c2]
      · simp [commOf, c1, c3]
    · cases t
      · exact commErrors_zero e1 l (c1 (by simp))
      · exact commErrors_zero e2 l (c2 rfl)
      · exact commErrors_zero e1 l (c1 (by simp))

/-- C73: communities are rejected if and only if a keyword is not known to the device. -/
theorem C73_accepted_iff (features : Option (List (String × KwVal))) (s : CommSpec) :
    (commSetup features s).2 = 0 ↔ ∀ t l k, CommConfigured s t l → k ∈ l →
      (match features with
        | some (f :: r) => (f :: r).lookup k
        | _ => defaultCommKw.lookup k) ≠ none := by
  have htb : ∀ k, (match features with
        | some (f :: r) => (f :: r).lookup k
        | _ => defaultCommKw.lookup k) =
      (if (features.getD []).isEmpty then defaultCommKw else features.getD []).lookup k := by
    intro k
    match features with
    | none => rfl
    | some [] => rfl
    | some (f :: r) => rfl
  simp only [htb]
  have hz : ∀ tb l, (commErrors tb l = 0 ↔ ∀ c, l = some c → ∀ k ∈ c, tb.lookup k ≠ none) := by
    intro tb l
    refine ⟨commErrors_zero, ?_⟩
    intro h
    unfold commErrors
    rw [List.length_eq_zero_iff, List.filter_eq_nil_iff]
    cases l with
    | none => simp
    | some c =>
      intro k hk hn
      exact h c rfl k hk (by
        cases hx : tb.lookup k with
        | none => rfl
        | some v => rw [hx] at hn; cases hn)
  have hconf : ∀ t l, CommConfigured s t l ↔
      (t = .ebgp ∧ (commNormal s).ebgp = some l) ∨ (t ≠ .ebgp ∧ (commNormal s).ibgp = some l) := by
    intro t l
    cases s <;> cases t <;> simp [CommConfigured, commNormal, eq_comm]
  have hloc : (commNormal s).localas = none := by cases s <;> rfl
  unfold commSetup commTransform
  by_cases hne : commNormal s = {}
  · rw [if_pos hne]
    simp only [true_iff]
    intro t l k hc
    rw [hconf, hne] at hc
    simp at hc
  · rw [if_neg hne]
    simp only
    generalize (if (features.getD []).isEmpty then defaultCommKw else features.getD []) = tb
    rw [Nat.add_eq_zero_iff, Nat.add_eq_zero_iff, hz, hz, hz, hloc]
    constructor
    · rintro ⟨⟨h1, h2⟩, -⟩ t l k hc hk
      rcases (hconf t l).1 hc with ⟨-, h⟩ | ⟨-, h⟩
      · exact h2 l h k hk
      · exact h1 l h k hk
    · intro h
      refine ⟨⟨fun c hc k hk => h .ibgp c k ((hconf _ _).2 (.inr ⟨by simp, hc⟩)) hk,
        fun c hc k hk => h .ebgp c k ((hconf _ _).2 (.inl ⟨rfl, hc⟩)) hk⟩, ?_⟩
      intro c hc
      cases hc

/-- Non-trivial instance of C73: a device that sends large communities with the standard ones -/
example :
    let t := [("standard", KwVal.words ["standard", "large"]), ("large", .same), ("extended", .off), ("2octet", .word "standard")]
    commSetup (some t) (.dict (some ["2octet", "large", "standard", "extended"]) (some ["large"])) =
      ({ ibgp := some ["standard", "large"], ebgp := some ["large"], localas := some ["standard", "large"] }, 0) := by
  decide +kernel

/-- Defect: a keyword marked as not supported by the device is accepted, and the community is not propagated. -/
theorem C73_unsupported_keyword_accepted :
    commSetup (some [("standard", .same), ("large", .off)]) (.one "large") =
      ({ ibgp := some [], ebgp := some [], localas := some [] }, 0) := by decide +kernel

end Netlab
