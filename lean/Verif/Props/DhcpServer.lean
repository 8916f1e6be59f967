import Verif.Spec.DhcpServer
import Verif.Props.Dhcp
import Mathlib.Data.List.Forall2
/-!
# C159: every DHCP server serves all DHCP clients
-/

namespace Netlab
open Spec

theorem dsVrf_set (f : String → Option String) (b : Bool) (l : DhcpPools) : dsVrf f (some b) l = some b := by
  induction l with
  | nil => rfl
  | cons p r ih =>
    simp only [dsVrf, Option.isNone_some, Bool.false_eq_true, if_false, ite_self]
    exact ih

theorem dsVrf_none (f : String → Option String) (l : DhcpPools) :
    (dsVrf f none l = some true ∧ ∃ p ∈ l, (f p.1).isSome = true) ∨ (dsVrf f none l = none ∧ ∀ p ∈ l, (f p.1).isSome = false) := by
  induction l with
  | nil => exact Or.inr ⟨rfl, by simp⟩
  | cons p r ih =>
    cases h : (f p.1).isSome with
    | true =>
      refine Or.inl ⟨?_, p, List.mem_cons_self, h⟩
      simp only [dsVrf, h, if_true, Option.isNone_none]
      exact dsVrf_set f true r
    | false =>
      simp only [dsVrf, h, Bool.false_eq_true, if_false]
      rcases ih with ⟨h1, q, hq, h2⟩ | ⟨h1, h2⟩
      · exact Or.inl ⟨h1, q, List.mem_cons_of_mem _ hq, h2⟩
      · refine Or.inr ⟨h1, ?_⟩
        intro q hq
        rcases List.mem_cons.mp hq with rfl | hq
        · exact h
        · exact h2 q hq

/-- The pools are not built yet, or they are complete. -/
def DsOk (t : DhcpTopo) (s : DsState) : Prop :=
  (s.pools = [] ∧ s.errors = 0) ∨ (s.pools = dhcpPools t ∧ s.errors = (allPools t).2)

theorem linkPools_quiet (t : DhcpTopo) (ls : List DhcpLink) (h : ∀ l ∈ ls, ¬ HasClients l) (s : DhcpPools × Nat) :
    linkPools t s ls = s := by
  induction ls generalizing s with
  | nil => rfl
  | cons l r ih =>
    have h1 : (l.subnet false || l.subnet true) = false := by
      cases hb : (l.subnet false || l.subnet true) with
      | false => rfl
      | true =>
        refine absurd ?_ (h l List.mem_cons_self)
        simp only [Bool.or_eq_true] at hb
        rcases hb with hb | hb
        · exact Or.inl hb
        · exact Or.inr hb
    simp only [linkPools, h1, Bool.not_false, if_true]
    exact ih (fun x hx => h x (List.mem_cons_of_mem _ hx)) s

theorem noPools_noErrors (t : DhcpTopo) (h : dhcpPools t = []) : (allPools t).2 = 0 := by
  have hc : ∀ l ∈ t.links, ¬ HasClients l := by
    intro l hl hcl
    have hk : PoolOfLink t l (linkPoolId t l) := (linkPoolId_iff t l _).mpr rfl
    obtain ⟨p, hp⟩ := (C46_pools t (linkPoolId t l)).mpr ⟨l, hl, hcl, hk⟩
    rw [h] at hp
    simp at hp
  simp only [allPools]
  rw [linkPools_quiet t t.links hc]

theorem dsBuild_ok {t : DhcpTopo} {s : DsState} (h : DsOk t s) :
    (dsBuild t s).pools = dhcpPools t ∧ (dsBuild t s).errors = (allPools t).2 := by
  rcases h with ⟨h1, h2⟩ | ⟨h1, h2⟩
  · simp [dsBuild, h1, h2]
  · simp only [dsBuild]
    split
    · rename_i he
      have : dhcpPools t = [] := by rw [← h1]; simpa using he
      refine ⟨rfl, ?_⟩
      simp only
      rw [h2, noPools_noErrors t this]
    · exact ⟨h1, h2⟩

theorem dsNodes_spec (t : DhcpTopo) (f : String → Option String) (l : List DsNode) : ∀ s, DsOk t s →
    DsOk t (dsNodes t f s l).1 ∧
    ((∃ n ∈ l, n.server = true) → (dsNodes t f s l).1.errors = (allPools t).2) ∧
    ((∀ n ∈ l, n.server = false) → (dsNodes t f s l).1 = s) ∧
    List.Forall₂ (fun n m => (n.server = false → m = n) ∧
      (n.server = true → m = { n with pools := some (dhcpPools t), vrf := dsVrf f n.vrf (dhcpPools t) })) l (dsNodes t f s l).2 := by
  induction l with
  | nil =>
    intro s hs
    exact ⟨hs, by rintro ⟨n, hn, -⟩; simp at hn, fun _ => rfl, List.Forall₂.nil⟩
  | cons n r ih =>
    intro s hs
    cases hn : n.server with
    | false =>
      have h1 : dsNode t f s n = (s, n) := by simp [dsNode, hn]
      obtain ⟨a, b, c, d⟩ := ih s hs
      simp only [dsNodes, h1]
      refine ⟨a, ?_, ?_, List.Forall₂.cons ⟨fun _ => rfl, fun h => absurd (hn.symm.trans h) (by decide)⟩ d⟩
      · rintro ⟨m, hm, hms⟩
        rcases List.mem_cons.mp hm with rfl | hm
        · rw [hn] at hms; cases hms
        · exact b ⟨m, hm, hms⟩
      · exact fun h => c (fun m hm => h m (List.mem_cons_of_mem _ hm))
    | true =>
      obtain ⟨hp, he⟩ := dsBuild_ok hs
      have h1 : dsNode t f s n = (dsBuild t s, { n with pools := some (dhcpPools t), vrf := dsVrf f n.vrf (dhcpPools t) }) := by
        simp [dsNode, hn, hp]
      have hok : DsOk t (dsBuild t s) := Or.inr ⟨hp, he⟩
      obtain ⟨a, b, c, d⟩ := ih _ hok
      simp only [dsNodes, h1]
      refine ⟨a, ?_, ?_, List.Forall₂.cons ⟨fun h => absurd (hn.symm.trans h) (by decide), fun _ => rfl⟩ d⟩
      · intro _
        by_cases hr : ∃ m ∈ r, m.server = true
        · exact b hr
        · have : ∀ m ∈ r, m.server = false := by
            intro m hm
            cases hms : m.server with
            | false => rfl
            | true => exact absurd ⟨m, hm, hms⟩ hr
          rw [c this]
          exact he
      · intro h
        have := h n List.mem_cons_self
        rw [hn] at this
        cases this

/-- C159: every DHCP server gets a pool for every VLAN and every link with DHCP clients and for nothing else; other nodes are not changed. -/
theorem C159_servers (t : DhcpTopo) (f : String → Option String) (l : List DsNode) :
    List.Forall₂ (fun n m => m.name = n.name ∧ (n.server = true → ServesAllClients t m) ∧ (n.server = false → m = n))
      l (dsNodes t f {} l).2 := by
  obtain ⟨-, -, -, h⟩ := dsNodes_spec t f l {} (Or.inl ⟨rfl, rfl⟩)
  refine h.imp ?_
  rintro n m ⟨h1, h2⟩
  cases hn : n.server with
  | false => exact ⟨by rw [h1 hn], fun h => absurd h (by decide), fun _ => h1 hn⟩
  | true =>
    rw [h2 hn]
    exact ⟨rfl, fun _ => ⟨dhcpPools t, rfl, C46_pools t⟩, fun h => by cases h⟩

/-- C159: all DHCP servers have the same pools. -/
theorem C159_same (t : DhcpTopo) (f : String → Option String) (l : List DsNode) :
    List.Forall₂ (fun n m => n.server = true → m.pools = some (dhcpPools t)) l (dsNodes t f {} l).2 := by
  obtain ⟨-, -, -, h⟩ := dsNodes_spec t f l {} (Or.inl ⟨rfl, rfl⟩)
  refine h.imp ?_
  rintro n m ⟨-, h2⟩ hn
  rw [h2 hn]

/-- C159: the VRF flag set by the user is kept; otherwise it is set if and only if a pool is in a VRF. -/
theorem C159_vrf (t : DhcpTopo) (f : String → Option String) (l : List DsNode) :
    List.Forall₂ (fun n m => n.server = true → (∀ b, n.vrf = some b → m.vrf = some b) ∧
        (n.vrf = none → (SomeVrfPool t f → m.vrf = some true) ∧ (¬ SomeVrfPool t f → m.vrf = none)))
      l (dsNodes t f {} l).2 := by
  obtain ⟨-, -, -, h⟩ := dsNodes_spec t f l {} (Or.inl ⟨rfl, rfl⟩)
  refine h.imp ?_
  rintro n m ⟨-, h2⟩ hn
  rw [h2 hn]
  refine ⟨fun b hb => by rw [hb]; exact dsVrf_set f b _, fun hb => ?_⟩
  rw [hb]
  rcases dsVrf_none f (dhcpPools t) with ⟨h3, p, hp, h4⟩ | ⟨h3, h4⟩
  · refine ⟨fun _ => h3, fun hno => absurd ?_ hno⟩
    exact ⟨p.1, (C46_pools t p.1).mp ⟨p.2, hp⟩, h4⟩
  · refine ⟨?_, fun _ => h3⟩
    rintro ⟨k, hk, hv⟩
    obtain ⟨p, hp⟩ := (C46_pools t k).mpr hk
    have := h4 _ hp
    simp only at this
    rw [hv] at this
    cases this

/-- C159: prefix mismatches are reported once, however many DHCP servers there are, and not at all without a DHCP server. -/
theorem C159_errors (t : DhcpTopo) (f : String → Option String) (l : List DsNode) :
    ((∃ n ∈ l, n.server = true) → (dsNodes t f {} l).1.errors = (allPools t).2) ∧
    ((∀ n ∈ l, n.server = false) → (dsNodes t f {} l).1.errors = 0) := by
  obtain ⟨-, h1, h2, -⟩ := dsNodes_spec t f l {} (Or.inl ⟨rfl, rfl⟩)
  exact ⟨h1, fun h => by rw [h2 h]⟩

/-- Non-vacuity: two DHCP servers, one with the VRF flag set by the user, and another node -/
example : ((dsNodes dhcpDemo (fun _ => some "red") {} [{ name := "s", server := true }, { name := "r" },
      { name := "s2", server := true, vrf := some false }]).2.map (fun n => (n.name, n.vrf, n.pools.map (List.map Prod.fst)))) =
    [("s", some true, some ["vlan_red"]), ("r", none, none), ("s2", some false, some ["vlan_red"])] := by decide +kernel

end Netlab
