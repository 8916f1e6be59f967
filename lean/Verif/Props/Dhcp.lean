import Verif.Spec.Dhcp
import Verif.Lemmas.Box

namespace Netlab

open Netlab.Spec

theorem linkPoolId_iff (t : DhcpTopo) (l : DhcpLink) (pid : String) :
    PoolOfLink t l pid ↔ pid = linkPoolId t l := by
  unfold PoolOfLink linkPoolId
  cases l.access <;> simp

/-- One change of the pools. -/
inductive PoolChange (t : DhcpTopo) (pid : String) : (DhcpPool → DhcpPool) → Prop
  | pfx (af : Bool) (v : String) : PoolChange t pid (poolSetPfx af v)
  | gw (af : Bool) (v : String) (h : GatewayOf t pid af v) : PoolChange t pid (poolSetGw af v)
  | excl (af : Bool) (a : String) (h : ReservedIn t pid af a) : PoolChange t pid (poolExclude af a)
  | act (l : DhcpLink) (h : l ∈ t.links) (hc : HasClients l) (hp : PoolOfLink t l pid) : PoolChange t pid (activate l)

/-- A sequence of changes. -/
inductive Builds (t : DhcpTopo) : DhcpPools → DhcpPools → Prop
  | refl (ps : DhcpPools) : Builds t ps ps
  | step {ps qs : DhcpPools} (h : Builds t ps qs) (pid : String) (f : DhcpPool → DhcpPool) (hf : PoolChange t pid f) :
      Builds t ps (qs.change pid f)

theorem Builds.trans {t : DhcpTopo} {a b c : DhcpPools} (h₁ : Builds t a b) (h₂ : Builds t b c) : Builds t a c := by
  induction h₂ with
  | refl => exact h₁
  | step _ pid f hf ih => exact .step ih pid f hf

theorem lookup_change (ps : DhcpPools) (pid k : String) (f : DhcpPool → DhcpPool) :
    (ps.change pid f).lookup k = if k = pid then some (f ((ps.lookup pid).getD DhcpPool.empty)) else ps.lookup k :=
  lookup_setKey ps pid k _

/-- Addresses and gateways are never removed, pools stay active. -/
def PoolLe (p q : DhcpPool) : Prop :=
  (∀ af a, a ∈ p.excluded af → a ∈ q.excluded af) ∧ (p.active = true → q.active = true) ∧
  ∀ af, (p.gateway af).isSome = true → (q.gateway af).isSome = true

theorem mem_poolExclude (af bf : Bool) (a b : String) (p : DhcpPool) :
    b ∈ (poolExclude af a p).excluded bf ↔ b ∈ p.excluded bf ∨ (bf = af ∧ b = a) := by
  unfold poolExclude
  by_cases hc : (p.excluded af).contains a = true
  · rw [if_pos hc]
    constructor
    · exact .inl
    · rintro (h | ⟨h1, h2⟩)
      · exact h
      · subst h1; subst h2
        exact List.contains_iff_mem.mp hc
  · rw [if_neg hc]
    simp only [famSet]
    by_cases h : bf = af
    · subst h
      simp
    · simp [h]

theorem change_le {t : DhcpTopo} {pid : String} {f : DhcpPool → DhcpPool} (h : PoolChange t pid f) (p : DhcpPool) :
    PoolLe p (f p) := by
  cases h with
  | pfx af v => exact ⟨fun _ _ h => h, id, fun _ h => h⟩
  | gw af v _ =>
    refine ⟨fun _ _ h => h, id, fun bf h => ?_⟩
    simp only [poolSetGw, famSet]
    split
    · rfl
    · exact h
  | excl af a h =>
    refine ⟨fun bf b hb => (mem_poolExclude ..).mpr (.inl hb), ?_, ?_⟩
    · intro ha
      unfold poolExclude
      split
      · exact ha
      · exact ha
    · intro bf hb
      unfold poolExclude
      split
      · exact hb
      · exact hb
  | act l h hc hp => exact ⟨fun _ _ h => h, fun _ => rfl, fun _ h => h⟩

theorem builds_le {t : DhcpTopo} {ps qs : DhcpPools} (h : Builds t ps qs) (k : String) (p : DhcpPool)
    (hp : ps.lookup k = some p) : ∃ q, qs.lookup k = some q ∧ PoolLe p q := by
  induction h with
  | refl => exact ⟨p, hp, fun _ _ h => h, id, fun _ h => h⟩
  | step _ pid f hf ih =>
    obtain ⟨q, hq, hle⟩ := ih
    rw [lookup_change]
    by_cases hk : k = pid
    · subst hk
      rw [if_pos rfl, hq]
      refine ⟨_, rfl, ?_⟩
      have := change_le hf q
      exact ⟨fun af a h => this.1 af a (hle.1 af a h), fun h => this.2.1 (hle.2.1 h), fun af h => this.2.2 af (hle.2.2 af h)⟩
    · rw [if_neg hk]
      exact ⟨q, hq, hle⟩

/-- What holds in every pool. -/
structure PoolOk (t : DhcpTopo) (k : String) (p : DhcpPool) : Prop where
  nodup : ∀ af, (p.excluded af).Nodup
  src : ∀ af a, a ∈ p.excluded af → ReservedIn t k af a
  act : p.active = true → ∃ l ∈ t.links, HasClients l ∧ PoolOfLink t l k
  gw : ∀ af g, p.gateway af = some g → GatewayOf t k af g

theorem poolOk_change {t : DhcpTopo} {pid : String} {f : DhcpPool → DhcpPool} (h : PoolChange t pid f) {p : DhcpPool}
    (hp : PoolOk t pid p) : PoolOk t pid (f p) := by
  cases h with
  | pfx af v => exact ⟨hp.nodup, hp.src, hp.act, hp.gw⟩
  | gw af v h =>
    refine ⟨hp.nodup, hp.src, hp.act, fun bf g hg => ?_⟩
    simp only [poolSetGw, famSet] at hg
    by_cases hb : bf = af
    · subst hb
      rw [if_pos rfl] at hg
      obtain rfl := Option.some.inj hg
      exact h
    · rw [if_neg hb] at hg
      exact hp.gw bf g hg
  | act l h hc hpl => exact ⟨hp.nodup, hp.src, fun _ => ⟨l, h, hc, hpl⟩, hp.gw⟩
  | excl af a h =>
    refine ⟨?_, ?_, ?_, ?_⟩
    · intro bf
      unfold poolExclude
      by_cases hc : (p.excluded af).contains a = true
      · rw [if_pos hc]
        exact hp.nodup bf
      · rw [if_neg hc]
        simp only [famSet]
        by_cases hb : bf = af
        · rw [if_pos hb, List.nodup_append]
          refine ⟨hp.nodup af, by simp, ?_⟩
          intro x hx y hy
          simp only [List.mem_cons, List.not_mem_nil, or_false] at hy
          rintro rfl
          rw [hy] at hx
          exact hc (List.contains_iff_mem.mpr hx)
        · rw [if_neg hb]
          exact hp.nodup bf
    · intro bf b hb
      rcases (mem_poolExclude ..).mp hb with hb | ⟨h1, h2⟩
      · exact hp.src bf b hb
      · subst h1; subst h2
        exact h
    · intro ha
      refine hp.act ?_
      unfold poolExclude at ha
      split at ha
      · exact ha
      · exact ha
    · intro bf g hg
      refine hp.gw bf g ?_
      unfold poolExclude at hg
      split at hg
      · exact hg
      · exact hg

theorem poolOk_empty (t : DhcpTopo) (k : String) : PoolOk t k DhcpPool.empty :=
  ⟨fun _ => List.nodup_nil, fun _ _ h => by simp [DhcpPool.empty] at h, fun h => by simp [DhcpPool.empty] at h,
    fun _ _ h => by simp [DhcpPool.empty] at h⟩

theorem builds_ok {t : DhcpTopo} {qs : DhcpPools} (h : Builds t [] qs) :
    (qs.map Prod.fst).Nodup ∧ ∀ k p, qs.lookup k = some p → PoolOk t k p := by
  induction h with
  | refl => exact ⟨List.nodup_nil, fun k p h => by simp at h⟩
  | @step qs _ pid f hf ih =>
    obtain ⟨h1, h2⟩ := ih
    refine ⟨nodup_setKey h1 _ _, ?_⟩
    intro k p hp
    rw [lookup_change] at hp
    by_cases hk : k = pid
    · subst hk
      rw [if_pos rfl] at hp
      obtain rfl := Option.some.inj hp
      refine poolOk_change hf ?_
      cases hl : List.lookup k qs with
      | none => exact poolOk_empty t k
      | some q => exact h2 k q hl
    · rw [if_neg hk] at hp
      exact h2 k p hp

/-! ### The three phases are sequences of changes -/

theorem builds_vlanAf (t : DhcpTopo) (n : String) (v : DhcpVlan) (hn : (n, v) ∈ t.vlans) (hr : v.routed = false)
    (ps : DhcpPools) (af : Bool) : Builds t ps (vlanPoolAf (t.makeId ("vlan_" ++ n)) v ps af) := by
  have h1 : ∀ qs : DhcpPools, Builds t qs (match v.gateway af with
      | some g => qs.change (t.makeId ("vlan_" ++ n)) (poolSetGw af g)
      | none => qs) := by
    intro qs
    cases hg : v.gateway af with
    | none => exact .refl qs
    | some g => exact .step (.refl qs) _ _ (.gw af g (.inl ⟨n, v, hn, hr, rfl, hg⟩))
  unfold vlanPoolAf
  cases v.prefix4 af with
  | none => exact h1 ps
  | some p => exact Builds.trans (.step (.refl ps) _ _ (.pfx af p)) (h1 _)

theorem builds_vlanPools (t : DhcpTopo) (l : List (String × DhcpVlan)) (hl : ∀ x ∈ l, x ∈ t.vlans) (ps : DhcpPools) :
    Builds t ps (vlanPools t ps l) := by
  induction l generalizing ps with
  | nil => exact .refl ps
  | cons x rest ih =>
    obtain ⟨n, v⟩ := x
    have ih' := ih (fun x hx => hl x (List.mem_cons_of_mem _ hx))
    have hn := hl (n, v) (List.mem_cons_self ..)
    simp only [vlanPools]
    split
    · exact ih' ps
    · rename_i hr
      have hr' : v.routed = false := by simpa using hr
      refine Builds.trans ?_ (ih' _)
      simp only [List.foldl_cons, List.foldl_nil]
      exact Builds.trans (builds_vlanAf t n v hn hr' ..) (builds_vlanAf t n v hn hr' ..)

theorem builds_sviIntfs (t : DhcpTopo) (n : String × List DhcpIntf) (hn : n ∈ t.nodes) (l : List DhcpIntf)
    (hl : ∀ i ∈ l, i ∈ n.2) (ps : DhcpPools) : Builds t ps (sviIntfs t ps l) := by
  induction l generalizing ps with
  | nil => exact .refl ps
  | cons i rest ih =>
    have ih' := ih (fun x hx => hl x (List.mem_cons_of_mem _ hx))
    simp only [sviIntfs]
    cases hv : i.vlan with
    | none => exact ih' ps
    | some v =>
      simp only
      cases ps.lookup (t.makeId ("vlan_" ++ v)) with
      | none => exact ih' ps
      | some _ =>
        have haf : ∀ qs af, Builds t qs (sviAf t (t.makeId ("vlan_" ++ v)) i qs af) := by
          intro qs af
          unfold sviAf
          cases ha : i.addr af with
          | none => exact .refl qs
          | some a =>
            exact .step (.refl qs) _ _ (.excl af _
              (.inl ⟨n, hn, i, hl i (List.mem_cons_self ..), v, a, hv, rfl, ha, rfl⟩))
        refine Builds.trans ?_ (ih' _)
        simp only [List.foldl_cons, List.foldl_nil]
        exact Builds.trans (haf ..) (haf ..)

theorem builds_sviNodes (t : DhcpTopo) (l : List (String × List DhcpIntf)) (hl : ∀ n ∈ l, n ∈ t.nodes) (ps : DhcpPools) :
    Builds t ps (sviNodes t ps l) := by
  induction l generalizing ps with
  | nil => exact .refl ps
  | cons n rest ih =>
    exact Builds.trans (builds_sviIntfs t n (hl n (List.mem_cons_self ..)) n.2 (fun _ h => h) ps)
      (ih (fun x hx => hl x (List.mem_cons_of_mem _ hx)) _)

theorem staticIntf_behind {t : DhcpTopo} {af : Bool} {i : DhcpLinkIntf} (h : staticIntf t af i = true) :
    ∃ n, Behind t i n ∧ n.client af = false := by
  unfold staticIntf at h
  cases hf : ((t.nodes.lookup i.node).getD []).find? (fun n => n.ifindex == i.ifindex) with
  | none => simp [hf] at h
  | some n =>
    rw [hf] at h
    have hm := List.mem_of_find?_eq_some hf
    have hp := List.find?_some hf
    cases hl : t.nodes.lookup i.node with
    | none => simp [hl] at hm
    | some l =>
      rw [hl] at hm
      exact ⟨n, ⟨l, hl, hm, by simpa using hp⟩, by simpa using h⟩

theorem staticIntf_of {t : DhcpTopo} {af : Bool} {i : DhcpLinkIntf} {n : DhcpIntf} (hb : Behind t i n)
    (h : ∀ n, Behind t i n → n.client af = false) : staticIntf t af i = true := by
  unfold staticIntf
  cases hf : ((t.nodes.lookup i.node).getD []).find? (fun n => n.ifindex == i.ifindex) with
  | none =>
    obtain ⟨l, hl, hm, hi⟩ := hb
    rw [hl] at hf
    have := List.find?_eq_none.mp hf n hm
    simp [hi] at this
  | some m =>
    have hm := List.mem_of_find?_eq_some hf
    have hp := List.find?_some hf
    cases hl : t.nodes.lookup i.node with
    | none => simp [hl] at hm
    | some l =>
      rw [hl] at hm
      simp [h m ⟨l, hl, hm, by simpa using hp⟩]

theorem builds_linkExclude (t : DhcpTopo) (l : DhcpLink) (hl : l ∈ t.links) (af : Bool) (hs : l.subnet af = true)
    (is : List DhcpLinkIntf) (hi : ∀ i ∈ is, i ∈ l.intfs) (ps : DhcpPools) :
    Builds t ps (linkExclude t (linkPoolId t l) af ps is) := by
  induction is generalizing ps with
  | nil => exact .refl ps
  | cons i rest ih =>
    have ih' := ih (fun x hx => hi x (List.mem_cons_of_mem _ hx))
    simp only [linkExclude]
    cases ha : i.addr af with
    | none => exact ih' ps
    | some a =>
      simp only
      by_cases hst : staticIntf t af i = true
      · rw [if_pos hst]
        refine Builds.trans (.step (.refl ps) _ _ (.excl af _ (.inr ?_))) (ih' _)
        exact ⟨l, hl, (linkPoolId_iff ..).mpr rfl, hs, i, hi i (List.mem_cons_self ..), a, ha, rfl,
          staticIntf_behind hst⟩
      · rw [if_neg hst]
        exact ih' ps

theorem builds_linkPfx (t : DhcpTopo) (pid : String) (af : Bool) (pfx : String) (ps : DhcpPools) :
    Builds t ps (linkPfx pid af pfx ps).1 := by
  unfold linkPfx
  split
  · exact .refl ps
  · exact .step (.refl ps) pid _ (.pfx af pfx)

theorem builds_linkGw (t : DhcpTopo) (af : Bool) (l : DhcpLink) (hl : l ∈ t.links) (hs : l.subnet af = true)
    (ps : DhcpPools) : Builds t ps (linkGw (linkPoolId t l) af l ps) := by
  unfold linkGw
  split
  · rename_i g hg
    exact .step (.refl ps) _ _ (.gw af _ (.inr ⟨l, hl, (linkPoolId_iff ..).mpr rfl, hs, hg⟩))
  · exact .refl ps

theorem builds_linkAf (t : DhcpTopo) (l : DhcpLink) (hl : l ∈ t.links) (s : DhcpPools × Nat) (af : Bool) :
    Builds t s.1 (linkAf t (linkPoolId t l) l s af).1 := by
  unfold linkAf
  by_cases hs : l.subnet af = true
  · simp only [hs, Bool.not_true, Bool.false_eq_true, if_false]
    cases l.prefix4 af with
    | none => exact .refl _
    | some pfx =>
      exact Builds.trans (Builds.trans (builds_linkPfx ..) (builds_linkGw t af l hl hs _))
        (builds_linkExclude t l hl af hs l.intfs (fun _ h => h) _)
  · have : l.subnet af = false := by simpa using hs
    simp only [this, Bool.not_false, if_true]
    exact .refl _

theorem builds_linkPools (t : DhcpTopo) (ls : List DhcpLink) (hls : ∀ l ∈ ls, l ∈ t.links) (s : DhcpPools × Nat) :
    Builds t s.1 (linkPools t s ls).1 := by
  induction ls generalizing s with
  | nil => exact .refl _
  | cons l rest ih =>
    have hl := hls l (List.mem_cons_self ..)
    have ih' := ih (fun x hx => hls x (List.mem_cons_of_mem _ hx))
    simp only [linkPools]
    by_cases hc : (l.subnet false || l.subnet true) = true
    · simp only [hc, Bool.not_true, Bool.false_eq_true, if_false]
      refine Builds.trans ?_ (ih' _)
      have hcl : HasClients l := by simpa [HasClients] using hc
      refine Builds.trans (.step (.refl s.1) _ _ (.act l hl hcl ((linkPoolId_iff ..).mpr rfl))) ?_
      simp only [List.foldl_cons, List.foldl_nil]
      exact Builds.trans (builds_linkAf t l hl (s.1.change (linkPoolId t l) (activate l), s.2) false)
        (builds_linkAf t l hl _ true)
    · have : (l.subnet false || l.subnet true) = false := by simpa using hc
      simp only [this, Bool.not_false, if_true]
      exact ih' s

theorem builds_all (t : DhcpTopo) : Builds t [] (allPools t).1 :=
  Builds.trans (Builds.trans (builds_vlanPools t t.vlans (fun _ h => h) []) (builds_sviNodes t t.nodes (fun _ h => h) _))
    (builds_linkPools t t.links (fun _ h => h) (sviNodes t (vlanPools t [] t.vlans) t.nodes, 0))

theorem mem_dhcpPools (t : DhcpTopo) (k : String) (p : DhcpPool) :
    (k, p) ∈ dhcpPools t ↔ (allPools t).1.lookup k = some p ∧ p.active = true := by
  have hn := (builds_ok (builds_all t)).1
  unfold dhcpPools
  rw [List.mem_filter]
  constructor
  · rintro ⟨h, ha⟩
    exact ⟨lookup_of_mem hn h, ha⟩
  · rintro ⟨h, ha⟩
    exact ⟨mem_of_lookup h, ha⟩

/-- **C46.**  Addresses of interfaces that are not DHCP clients, attached to a link with DHCP clients, are excluded
from the DHCP pool of that link. -/
theorem C46_link_addresses (t : DhcpTopo) (l : DhcpLink) (i : DhcpLinkIntf) (n : DhcpIntf) (af : Bool) (pfx a pid : String)
    (hl : l ∈ t.links) (hp : PoolOfLink t l pid) (hs : l.subnet af = true) (hpfx : l.prefix4 af = some pfx)
    (hi : i ∈ l.intfs) (ha : i.addr af = some a) (hb : Behind t i n) (hc : ∀ n, Behind t i n → n.client af = false) :
    ∃ p, (pid, p) ∈ dhcpPools t ∧ t.ip a ∈ p.excluded af := by
  rw [linkPoolId_iff] at hp
  subst hp
  have hst := staticIntf_of hb hc
  -- the address is excluded by the loop over link interfaces
  have h1 : ∀ (is : List DhcpLinkIntf), (∀ x ∈ is, x ∈ l.intfs) → i ∈ is → ∀ ps, ∃ p,
      (linkExclude t (linkPoolId t l) af ps is).lookup (linkPoolId t l) = some p ∧ t.ip a ∈ p.excluded af := by
    intro is hsub hmem
    induction is with
    | nil => exact absurd hmem (by simp)
    | cons x rest ih =>
      intro ps
      have hsub' : ∀ y ∈ rest, y ∈ l.intfs := fun y hy => hsub y (List.mem_cons_of_mem _ hy)
      rcases List.mem_cons.mp hmem with h | h
      · subst h
        simp only [linkExclude, ha, hst, if_true]
        obtain ⟨q, hq, hle⟩ := builds_le (builds_linkExclude t l hl af hs rest hsub'
            (ps.change (linkPoolId t l) (poolExclude af (t.ip a)))) (linkPoolId t l)
          (poolExclude af (t.ip a) ((ps.lookup (linkPoolId t l)).getD DhcpPool.empty)) (by rw [lookup_change, if_pos rfl])
        exact ⟨q, hq, hle.1 af _ ((mem_poolExclude ..).mpr (.inr ⟨rfl, rfl⟩))⟩
      · simp only [linkExclude]
        cases x.addr af with
        | none => exact ih hsub' h ps
        | some b =>
          simp only
          split
          · exact ih hsub' h _
          · exact ih hsub' h _
  have h2 : ∀ s : DhcpPools × Nat, ∃ p, (linkAf t (linkPoolId t l) l s af).1.lookup (linkPoolId t l) = some p ∧
      t.ip a ∈ p.excluded af := by
    intro s
    unfold linkAf
    simp only [hs, Bool.not_true, Bool.false_eq_true, if_false, hpfx]
    exact h1 l.intfs (fun _ h => h) hi _
  -- the pool is active
  have hcl : (l.subnet false || l.subnet true) = true := by
    cases af <;> simp [hs]
  have h3 : ∀ (ls : List DhcpLink), (∀ x ∈ ls, x ∈ t.links) → l ∈ ls → ∀ s : DhcpPools × Nat,
      ∃ p, (linkPools t s ls).1.lookup (linkPoolId t l) = some p ∧ p.active = true ∧ t.ip a ∈ p.excluded af := by
    intro ls hsub hmem
    induction ls with
    | nil => exact absurd hmem (by simp)
    | cons x rest ih =>
      intro s
      have hsub' : ∀ y ∈ rest, y ∈ t.links := fun y hy => hsub y (List.mem_cons_of_mem _ hy)
      rcases List.mem_cons.mp hmem with h | h
      · subst h
        simp only [linkPools, hcl, Bool.not_true, Bool.false_eq_true, if_false, List.foldl_cons, List.foldl_nil]
        let s0 : DhcpPools × Nat := (s.1.change (linkPoolId t l) (activate l), s.2)
        let s1 := linkAf t (linkPoolId t l) l s0 false
        let s2 := linkAf t (linkPoolId t l) l s1 true
        have hact0 : ∃ p, s0.1.lookup (linkPoolId t l) = some p ∧ p.active = true :=
          ⟨_, by show (s.1.change _ _).lookup _ = _; rw [lookup_change, if_pos rfl], rfl⟩
        have hb1 : Builds t s0.1 s1.1 := builds_linkAf t l hl s0 false
        have hb2 : Builds t s1.1 s2.1 := builds_linkAf t l hl s1 true
        have hin : ∃ p, s2.1.lookup (linkPoolId t l) = some p ∧ p.active = true ∧ t.ip a ∈ p.excluded af := by
          obtain ⟨p0, hp0, ha0⟩ := hact0
          obtain ⟨p1, hp1, hle1⟩ := builds_le hb1 _ p0 hp0
          obtain ⟨p2, hp2, hle2⟩ := builds_le hb2 _ p1 hp1
          refine ⟨p2, hp2, hle2.2.1 (hle1.2.1 ha0), ?_⟩
          cases haf : af with
          | false =>
            have := h2 s0
            rw [haf] at this
            obtain ⟨p, hp, hm⟩ := this
            rw [show (linkAf t (linkPoolId t l) l s0 false).1.lookup (linkPoolId t l) = some p1 from hp1] at hp
            obtain rfl := Option.some.inj hp
            exact hle2.1 false _ hm
          | true =>
            have := h2 s1
            rw [haf] at this
            obtain ⟨p, hp, hm⟩ := this
            rw [show (linkAf t (linkPoolId t l) l s1 true).1.lookup (linkPoolId t l) = some p2 from hp2] at hp
            obtain rfl := Option.some.inj hp
            exact hm
        obtain ⟨p, hp, hpa, hpm⟩ := hin
        obtain ⟨q, hq, hle⟩ := builds_le (builds_linkPools t rest hsub' s2) _ p hp
        exact ⟨q, hq, hle.2.1 hpa, hle.1 af _ hpm⟩
      · simp only [linkPools]
        split
        · exact ih hsub' h s
        · exact ih hsub' h _
  obtain ⟨p, hp, hpa, hpm⟩ := h3 t.links (fun _ h => h) hl (sviNodes t (vlanPools t [] t.vlans) t.nodes, 0)
  exact ⟨p, (mem_dhcpPools t _ p).mpr ⟨hp, hpa⟩, hpm⟩

/-- A VLAN with a usable prefix or gateway has a pool after the first phase. -/
theorem vlanPools_has (t : DhcpTopo) (l : List (String × DhcpVlan)) (v : String) (d : DhcpVlan) (hv : (v, d) ∈ l)
    (hl : ∀ x ∈ l, x ∈ t.vlans) (hr : d.routed = false)
    (hp : (∃ af, (d.prefix4 af).isSome = true) ∨ ∃ af, (d.gateway af).isSome = true) (ps : DhcpPools) :
    ∃ p, (vlanPools t ps l).lookup (t.makeId ("vlan_" ++ v)) = some p := by
  induction l generalizing ps with
  | nil => exact absurd hv (by simp)
  | cons x rest ih =>
    obtain ⟨n, e⟩ := x
    have hl' : ∀ y ∈ rest, y ∈ t.vlans := fun y hy => hl y (List.mem_cons_of_mem _ hy)
    simp only [vlanPools]
    rcases List.mem_cons.mp hv with h | h
    · simp only [Prod.mk.injEq] at h
      obtain ⟨rfl, rfl⟩ := h
      simp only [hr, Bool.false_eq_true, if_false, List.foldl_cons, List.foldl_nil]
      have hmono : ∀ qs af, (∃ p, qs.lookup (t.makeId ("vlan_" ++ v)) = some p) →
          ∃ p, (vlanPoolAf (t.makeId ("vlan_" ++ v)) d qs af).lookup (t.makeId ("vlan_" ++ v)) = some p := by
        rintro qs af ⟨p, hp⟩
        obtain ⟨q, hq, -⟩ := builds_le (builds_vlanAf t v d (hl _ (List.mem_cons_self ..)) hr qs af) _ p hp
        exact ⟨q, hq⟩
      have hnew : ∀ qs af, (d.prefix4 af).isSome = true ∨ (d.gateway af).isSome = true →
          ∃ p, (vlanPoolAf (t.makeId ("vlan_" ++ v)) d qs af).lookup (t.makeId ("vlan_" ++ v)) = some p := by
        intro qs af h
        unfold vlanPoolAf
        cases hg : d.gateway af with
        | some g =>
          simp only
          rw [lookup_change, if_pos rfl]
          exact ⟨_, rfl⟩
        | none =>
          simp only [hg, Option.isSome_none, Bool.false_eq_true, or_false] at h
          obtain ⟨p, hp⟩ := Option.isSome_iff_exists.mp h
          simp only [hp]
          rw [lookup_change, if_pos rfl]
          exact ⟨_, rfl⟩
      have hex : ∃ af, (d.prefix4 af).isSome = true ∨ (d.gateway af).isSome = true := by
        rcases hp with ⟨af, h⟩ | ⟨af, h⟩
        · exact ⟨af, .inl h⟩
        · exact ⟨af, .inr h⟩
      have hfin : ∃ p, (vlanPoolAf (t.makeId ("vlan_" ++ v)) d (vlanPoolAf (t.makeId ("vlan_" ++ v)) d ps false)
          true).lookup (t.makeId ("vlan_" ++ v)) = some p := by
        obtain ⟨af, h⟩ := hex
        cases af with
        | false => exact hmono _ true (hnew _ false h)
        | true => exact hnew _ true h
      obtain ⟨p, hp⟩ := hfin
      obtain ⟨q, hq, -⟩ := builds_le (builds_vlanPools t rest hl' _) _ p hp
      exact ⟨q, hq⟩
    · split
      · exact ih h hl' ps
      · exact ih h hl' _

/-- **C46.**  Addresses of all VLAN interfaces are excluded from the DHCP pool of their VLAN. -/
theorem C46_vlan_addresses (t : DhcpTopo) (n : String × List DhcpIntf) (i : DhcpIntf) (v a : String) (d : DhcpVlan) (af : Bool)
    (p : DhcpPool) (hv : (v, d) ∈ t.vlans) (hr : d.routed = false)
    (hp : (∃ af, (d.prefix4 af).isSome = true) ∨ ∃ af, (d.gateway af).isSome = true) (hn : n ∈ t.nodes) (hi : i ∈ n.2)
    (hiv : i.vlan = some v) (ha : i.addr af = some a) (hpool : (t.makeId ("vlan_" ++ v), p) ∈ dhcpPools t) :
    t.ip a ∈ p.excluded af := by
  obtain ⟨hlook, -⟩ := (mem_dhcpPools ..).mp hpool
  have hsvi : ∀ (l : List DhcpIntf), i ∈ l → (∀ x ∈ l, x ∈ n.2) → ∀ ps : DhcpPools,
      (∃ p, ps.lookup (t.makeId ("vlan_" ++ v)) = some p) →
      ∃ p, (sviIntfs t ps l).lookup (t.makeId ("vlan_" ++ v)) = some p ∧ t.ip a ∈ p.excluded af := by
    intro l hmem hsub
    induction l with
    | nil => exact absurd hmem (by simp)
    | cons x rest ih =>
      intro ps hps
      have hsub' : ∀ y ∈ rest, y ∈ n.2 := fun y hy => hsub y (List.mem_cons_of_mem _ hy)
      rcases List.mem_cons.mp hmem with h | h
      · subst h
        obtain ⟨p0, hp0⟩ := hps
        simp only [sviIntfs, hiv, hp0, List.foldl_cons, List.foldl_nil]
        have haf : ∀ qs bf, Builds t qs (sviAf t (t.makeId ("vlan_" ++ v)) i qs bf) := by
          intro qs bf
          unfold sviAf
          cases hb : i.addr bf with
          | none => exact .refl qs
          | some b => exact .step (.refl qs) _ _ (.excl bf _ (.inl ⟨n, hn, i, hi, v, b, hiv, rfl, hb, rfl⟩))
        have hadd : ∀ qs, ∃ p, (sviAf t (t.makeId ("vlan_" ++ v)) i qs af).lookup (t.makeId ("vlan_" ++ v)) = some p ∧
            t.ip a ∈ p.excluded af := by
          intro qs
          unfold sviAf
          simp only [ha]
          rw [lookup_change, if_pos rfl]
          exact ⟨_, rfl, (mem_poolExclude ..).mpr (.inr ⟨rfl, rfl⟩)⟩
        have hboth : ∃ p, (sviAf t (t.makeId ("vlan_" ++ v)) i (sviAf t (t.makeId ("vlan_" ++ v)) i ps false) true).lookup
            (t.makeId ("vlan_" ++ v)) = some p ∧ t.ip a ∈ p.excluded af := by
          cases hf : af with
          | false =>
            have := hadd ps
            rw [hf] at this
            obtain ⟨p, hp, hm⟩ := this
            obtain ⟨q, hq, hle⟩ := builds_le (haf _ true) _ p hp
            exact ⟨q, hq, hle.1 _ _ hm⟩
          | true =>
            have := hadd (sviAf t (t.makeId ("vlan_" ++ v)) i ps false)
            rw [hf] at this
            exact this
        obtain ⟨p, hp, hm⟩ := hboth
        obtain ⟨q, hq, hle⟩ := builds_le (builds_sviIntfs t n hn rest hsub' _) _ p hp
        exact ⟨q, hq, hle.1 _ _ hm⟩
      · have hgo : ∀ qs : DhcpPools, Builds t ps qs →
            ∃ p, (sviIntfs t qs rest).lookup (t.makeId ("vlan_" ++ v)) = some p ∧ t.ip a ∈ p.excluded af := by
          intro qs hb
          obtain ⟨p0, hp0⟩ := hps
          obtain ⟨q0, hq0, -⟩ := builds_le hb _ p0 hp0
          exact ih h hsub' qs ⟨q0, hq0⟩
        simp only [sviIntfs]
        cases hxv : x.vlan with
        | none => exact hgo ps (.refl ps)
        | some w =>
          simp only
          cases hw : ps.lookup (t.makeId ("vlan_" ++ w)) with
          | none => exact hgo ps (.refl ps)
          | some _ =>
            have haf : ∀ qs bf, Builds t qs (sviAf t (t.makeId ("vlan_" ++ w)) x qs bf) := by
              intro qs bf
              unfold sviAf
              cases hb : x.addr bf with
              | none => exact .refl qs
              | some b =>
                exact .step (.refl qs) _ _ (.excl bf _
                  (.inl ⟨n, hn, x, hsub x (List.mem_cons_self ..), w, b, hxv, rfl, hb, rfl⟩))
            refine hgo _ ?_
            simp only [List.foldl_cons, List.foldl_nil]
            exact Builds.trans (haf ..) (haf ..)
  have hnodes : ∀ (l : List (String × List DhcpIntf)), n ∈ l → (∀ x ∈ l, x ∈ t.nodes) → ∀ ps : DhcpPools,
      (∃ p, ps.lookup (t.makeId ("vlan_" ++ v)) = some p) →
      ∃ p, (sviNodes t ps l).lookup (t.makeId ("vlan_" ++ v)) = some p ∧ t.ip a ∈ p.excluded af := by
    intro l hmem hsub
    induction l with
    | nil => exact absurd hmem (by simp)
    | cons x rest ih =>
      intro ps hps
      have hsub' : ∀ y ∈ rest, y ∈ t.nodes := fun y hy => hsub y (List.mem_cons_of_mem _ hy)
      simp only [sviNodes]
      rcases List.mem_cons.mp hmem with h | h
      · subst h
        obtain ⟨p, hp, hm⟩ := hsvi n.2 hi (fun _ h => h) ps hps
        obtain ⟨q, hq, hle⟩ := builds_le (builds_sviNodes t rest hsub' _) _ p hp
        exact ⟨q, hq, hle.1 _ _ hm⟩
      · obtain ⟨p0, hp0⟩ := hps
        obtain ⟨q0, hq0, -⟩ := builds_le (builds_sviIntfs t x (hsub x (List.mem_cons_self ..)) x.2 (fun _ h => h) ps) _ p0 hp0
        exact ih h hsub' _ ⟨q0, hq0⟩
  obtain ⟨p', hp', hm⟩ := hnodes t.nodes hn (fun _ h => h) _ (vlanPools_has t t.vlans v d hv (fun _ h => h) hr hp [])
  obtain ⟨q, hq, hle⟩ := builds_le (builds_linkPools t t.links (fun _ h => h) (sviNodes t (vlanPools t [] t.vlans) t.nodes, 0))
    _ p' hp'
  have : q = p := by
    have h : (allPools t).1.lookup (t.makeId ("vlan_" ++ v)) = some q := hq
    rw [hlook] at h
    exact (Option.some.inj h).symm
  rw [← this]
  exact hle.1 _ _ hm

/-- **C46.**  No address is excluded twice, and there is one pool with a given name. -/
theorem C46_no_repeats (t : DhcpTopo) :
    ((dhcpPools t).map Prod.fst).Nodup ∧ ∀ k p af, (k, p) ∈ dhcpPools t → (p.excluded af).Nodup := by
  obtain ⟨h1, h2⟩ := builds_ok (builds_all t)
  refine ⟨?_, ?_⟩
  · exact h1.sublist (List.filter_sublist.map _)
  · intro k p af hp
    exact (h2 k p ((mem_dhcpPools ..).mp hp).1).nodup af

/-- **C46.**  Only addresses of VLAN interfaces and of interfaces that are not DHCP clients are excluded. -/
theorem C46_only_reserved (t : DhcpTopo) (k : String) (p : DhcpPool) (af : Bool) (a : String) (hp : (k, p) ∈ dhcpPools t)
    (ha : a ∈ p.excluded af) : ReservedIn t k af a :=
  ((builds_ok (builds_all t)).2 k p ((mem_dhcpPools ..).mp hp).1).src af a ha

/-- **C46.**  There is a pool for every link with DHCP clients, and no other pool. -/
theorem C46_pools (t : DhcpTopo) (k : String) :
    (∃ p, (k, p) ∈ dhcpPools t) ↔ ∃ l ∈ t.links, HasClients l ∧ PoolOfLink t l k := by
  constructor
  · rintro ⟨p, hp⟩
    obtain ⟨h, ha⟩ := (mem_dhcpPools ..).mp hp
    exact ((builds_ok (builds_all t)).2 k p h).act ha
  · rintro ⟨l, hl, hc, hk⟩
    rw [linkPoolId_iff] at hk
    subst hk
    have hcl : (l.subnet false || l.subnet true) = true := by simpa [HasClients] using hc
    have h3 : ∀ (ls : List DhcpLink), (∀ x ∈ ls, x ∈ t.links) → l ∈ ls → ∀ s : DhcpPools × Nat,
        ∃ p, (linkPools t s ls).1.lookup (linkPoolId t l) = some p ∧ p.active = true := by
      intro ls hsub hmem
      induction ls with
      | nil => exact absurd hmem (by simp)
      | cons x rest ih =>
        intro s
        have hsub' : ∀ y ∈ rest, y ∈ t.links := fun y hy => hsub y (List.mem_cons_of_mem _ hy)
        rcases List.mem_cons.mp hmem with h | h
        · subst h
          simp only [linkPools, hcl, Bool.not_true, Bool.false_eq_true, if_false, List.foldl_cons, List.foldl_nil]
          have hb : Builds t (s.1.change (linkPoolId t l) (activate l))
              (linkAf t (linkPoolId t l) l (linkAf t (linkPoolId t l) l
                (s.1.change (linkPoolId t l) (activate l), s.2) false) true).1 :=
            Builds.trans (builds_linkAf t l hl (s.1.change (linkPoolId t l) (activate l), s.2) false)
              (builds_linkAf t l hl _ true)
          obtain ⟨q, hq, hle⟩ := builds_le (Builds.trans hb (builds_linkPools t rest hsub' _)) (linkPoolId t l)
            (activate l ((s.1.lookup (linkPoolId t l)).getD DhcpPool.empty)) (by rw [lookup_change, if_pos rfl])
          exact ⟨q, hq, hle.2.1 rfl⟩
        · simp only [linkPools]
          split
          · exact ih hsub' h s
          · exact ih hsub' h _
    obtain ⟨p, hp, hpa⟩ := h3 t.links (fun _ h => h) hl (sviNodes t (vlanPools t [] t.vlans) t.nodes, 0)
    exact ⟨p, (mem_dhcpPools ..).mpr ⟨hp, hpa⟩⟩

/-! ### Prefixes of the pools -/

/-- Prefixes of the pools are not changed. -/
def KeepsPfx (ps qs : DhcpPools) : Prop :=
  ∀ k p af v, ps.lookup k = some p → p.pfx af = some v → ∃ q, qs.lookup k = some q ∧ q.pfx af = some v

theorem KeepsPfx.refl (ps : DhcpPools) : KeepsPfx ps ps := fun _ p _ _ h hv => ⟨p, h, hv⟩

theorem KeepsPfx.trans {a b c : DhcpPools} (h₁ : KeepsPfx a b) (h₂ : KeepsPfx b c) : KeepsPfx a c := by
  intro k p af v hp hv
  obtain ⟨q, hq, hqv⟩ := h₁ k p af v hp hv
  exact h₂ k q af v hq hqv

theorem keeps_change (ps : DhcpPools) (pid : String) (f : DhcpPool → DhcpPool)
    (hf : ∀ p, ps.lookup pid = some p → ∀ af v, p.pfx af = some v → (f p).pfx af = some v) :
    KeepsPfx ps (ps.change pid f) := by
  intro k p af v hp hv
  rw [lookup_change]
  by_cases hk : k = pid
  · subst hk
    rw [if_pos rfl, hp]
    exact ⟨_, rfl, hf p hp af v hv⟩
  · rw [if_neg hk]
    exact ⟨p, hp, hv⟩

theorem pfx_poolExclude (af : Bool) (a : String) (p : DhcpPool) : (poolExclude af a p).pfx = p.pfx := by
  unfold poolExclude
  split <;> rfl

theorem keeps_linkExclude (t : DhcpTopo) (pid : String) (af : Bool) (is : List DhcpLinkIntf) (ps : DhcpPools) :
    KeepsPfx ps (linkExclude t pid af ps is) := by
  induction is generalizing ps with
  | nil => exact .refl ps
  | cons i rest ih =>
    simp only [linkExclude]
    cases i.addr af with
    | none => exact ih ps
    | some a =>
      simp only
      split
      · refine KeepsPfx.trans (keeps_change ps pid _ ?_) (ih _)
        intro p _ bf v hv
        rw [pfx_poolExclude]
        exact hv
      · exact ih ps

theorem keeps_linkPfx (pid : String) (af : Bool) (pfx : String) (ps : DhcpPools) : KeepsPfx ps (linkPfx pid af pfx ps).1 := by
  unfold linkPfx
  cases h : (ps.lookup pid).bind (fun p => p.pfx af) with
  | some old => exact .refl ps
  | none =>
    refine keeps_change ps pid _ ?_
    intro p hp bf v hv
    rw [hp] at h
    simp only [Option.bind_some] at h
    simp only [poolSetPfx, famSet]
    by_cases hb : bf = af
    · subst hb
      rw [h] at hv
      exact absurd hv (by simp)
    · rw [if_neg hb]
      exact hv

theorem keeps_linkGw (pid : String) (af : Bool) (l : DhcpLink) (ps : DhcpPools) : KeepsPfx ps (linkGw pid af l ps) := by
  unfold linkGw
  split
  · exact keeps_change ps pid _ (fun _ _ _ _ h => h)
  · exact .refl ps

theorem keeps_linkAf (t : DhcpTopo) (pid : String) (l : DhcpLink) (s : DhcpPools × Nat) (af : Bool) :
    KeepsPfx s.1 (linkAf t pid l s af).1 ∧ s.2 ≤ (linkAf t pid l s af).2 := by
  unfold linkAf
  by_cases hs : (!l.subnet af) = true
  · rw [if_pos hs]
    exact ⟨.refl _, Nat.le_refl _⟩
  · rw [if_neg hs]
    cases l.prefix4 af with
    | none => exact ⟨.refl _, Nat.le_refl _⟩
    | some pfx =>
      exact ⟨KeepsPfx.trans (KeepsPfx.trans (keeps_linkPfx pid af pfx s.1) (keeps_linkGw pid af l _))
        (keeps_linkExclude t pid af l.intfs _), Nat.le_add_right ..⟩

theorem keeps_linkPools (t : DhcpTopo) (ls : List DhcpLink) (s : DhcpPools × Nat) :
    KeepsPfx s.1 (linkPools t s ls).1 ∧ s.2 ≤ (linkPools t s ls).2 := by
  induction ls generalizing s with
  | nil => exact ⟨.refl _, Nat.le_refl _⟩
  | cons l rest ih =>
    simp only [linkPools]
    split
    · exact ih s
    · simp only [List.foldl_cons, List.foldl_nil]
      have h0 : KeepsPfx s.1 (s.1.change (linkPoolId t l) (activate l)) := keeps_change s.1 _ _ (fun _ _ _ _ h => h)
      have h1 := keeps_linkAf t (linkPoolId t l) l (s.1.change (linkPoolId t l) (activate l), s.2) false
      have h2 := keeps_linkAf t (linkPoolId t l) l
        (linkAf t (linkPoolId t l) l (s.1.change (linkPoolId t l) (activate l), s.2) false) true
      have h3 := ih (linkAf t (linkPoolId t l) l
        (linkAf t (linkPoolId t l) l (s.1.change (linkPoolId t l) (activate l), s.2) false) true)
      exact ⟨h0.trans (h1.1.trans (h2.1.trans h3.1)), Nat.le_trans h1.2 (Nat.le_trans h2.2 h3.2)⟩

theorem linkAf_pfx (t : DhcpTopo) (pid : String) (l : DhcpLink) (s : DhcpPools × Nat) (af : Bool) (pfx : String)
    (hs : l.subnet af = true) (hp : l.prefix4 af = some pfx) (he : (linkAf t pid l s af).2 = s.2) :
    ∃ p, (linkAf t pid l s af).1.lookup pid = some p ∧ p.pfx af = some pfx := by
  unfold linkAf at he ⊢
  simp only [hs, Bool.not_true, Bool.false_eq_true, if_false, hp] at he ⊢
  have h1 : ∃ p, (linkPfx pid af pfx s.1).1.lookup pid = some p ∧ p.pfx af = some pfx := by
    unfold linkPfx at he ⊢
    cases h : (s.1.lookup pid).bind (fun p => p.pfx af) with
    | some old =>
      rw [h] at he
      have ho : old = pfx := by
        simp only at he
        by_cases ho : old = pfx
        · exact ho
        · have : (old != pfx) = true := by simpa using ho
          rw [if_pos this] at he
          omega
      subst ho
      cases hl : s.1.lookup pid with
      | none => simp [hl] at h
      | some p =>
        rw [hl] at h
        exact ⟨p, rfl, h⟩
    | none =>
      simp only
      rw [lookup_change, if_pos rfl]
      exact ⟨_, rfl, by simp [poolSetPfx, famSet]⟩
  obtain ⟨p, hp', hv⟩ := h1
  exact KeepsPfx.trans (keeps_linkGw pid af l _) (keeps_linkExclude t pid af l.intfs _) pid p af pfx hp' hv

/-- **C46.**  Unless an error is reported, the pool has the prefix of every one of its links with DHCP clients. -/
theorem C46_prefix (t : DhcpTopo) (l : DhcpLink) (af : Bool) (pfx pid : String) (he : (allPools t).2 = 0) (hl : l ∈ t.links)
    (hp : PoolOfLink t l pid) (hs : l.subnet af = true) (hpfx : l.prefix4 af = some pfx) (p : DhcpPool)
    (hpool : (pid, p) ∈ dhcpPools t) : p.pfx af = some pfx := by
  rw [linkPoolId_iff] at hp
  subst hp
  have hcl : (l.subnet false || l.subnet true) = true := by cases af <;> simp [hs]
  have h3 : ∀ (ls : List DhcpLink), l ∈ ls → ∀ s : DhcpPools × Nat, (linkPools t s ls).2 = 0 →
      ∃ p, (linkPools t s ls).1.lookup (linkPoolId t l) = some p ∧ p.pfx af = some pfx := by
    intro ls hmem
    induction ls with
    | nil => exact absurd hmem (by simp)
    | cons x rest ih =>
      intro s he
      rcases List.mem_cons.mp hmem with h | h
      · subst h
        simp only [linkPools, hcl, Bool.not_true, Bool.false_eq_true, if_false, List.foldl_cons, List.foldl_nil] at he ⊢
        generalize hs0 : ((s.1.change (linkPoolId t l) (activate l), s.2) : DhcpPools × Nat) = s0 at he ⊢
        have h1 := keeps_linkAf t (linkPoolId t l) l s0 false
        have h2 := keeps_linkAf t (linkPoolId t l) l (linkAf t (linkPoolId t l) l s0 false) true
        have h3 := keeps_linkPools t rest (linkAf t (linkPoolId t l) l (linkAf t (linkPoolId t l) l s0 false) true)
        have hin : ∃ p, (linkAf t (linkPoolId t l) l (linkAf t (linkPoolId t l) l s0 false) true).1.lookup
            (linkPoolId t l) = some p ∧ p.pfx af = some pfx := by
          cases haf : af with
          | false =>
            rw [haf] at hs hpfx
            obtain ⟨p, hp, hv⟩ := linkAf_pfx t (linkPoolId t l) l s0 false pfx hs hpfx (by omega)
            exact h2.1 _ p false pfx hp hv
          | true =>
            rw [haf] at hs hpfx
            exact linkAf_pfx t (linkPoolId t l) l _ true pfx hs hpfx (by omega)
        obtain ⟨p, hp, hv⟩ := hin
        exact h3.1 _ p af pfx hp hv
      · simp only [linkPools] at he ⊢
        split at he
        · rename_i hc
          rw [if_pos hc]
          exact ih h s he
        · rename_i hc
          rw [if_neg hc]
          exact ih h _ he
  obtain ⟨q, hq, hv⟩ := h3 t.links hl (sviNodes t (vlanPools t [] t.vlans) t.nodes, 0) he
  have : (allPools t).1.lookup (linkPoolId t l) = some q := hq
  rw [((mem_dhcpPools ..).mp hpool).1] at this
  rw [Option.some.inj this]
  exact hv

/-- **C46.**  The gateway of a pool is the gateway of its VLAN or of one of its links, in the same address family.  A pool has a
gateway when one of its links with DHCP clients (and a prefix) has one. -/
theorem C46_gateway (t : DhcpTopo) (k : String) (p : DhcpPool) (af : Bool) (hp : (k, p) ∈ dhcpPools t) :
    (∀ g, p.gateway af = some g → GatewayOf t k af g) ∧
    ∀ l ∈ t.links, PoolOfLink t l k → l.subnet af = true → (l.prefix4 af).isSome = true → (l.gateway af).isSome = true →
      (p.gateway af).isSome = true := by
  have hlook := ((mem_dhcpPools ..).mp hp).1
  refine ⟨((builds_ok (builds_all t)).2 k p hlook).gw af, ?_⟩
  intro l hl hk hs hpf hg
  rw [linkPoolId_iff] at hk
  subst hk
  have hcl : (l.subnet false || l.subnet true) = true := by cases af <;> simp [hs]
  obtain ⟨pfx, hpfx⟩ := Option.isSome_iff_exists.mp hpf
  obtain ⟨g, hg⟩ := Option.isSome_iff_exists.mp hg
  have haf : ∀ s : DhcpPools × Nat, ∃ q, (linkAf t (linkPoolId t l) l s af).1.lookup (linkPoolId t l) = some q ∧
      (q.gateway af).isSome = true := by
    intro s
    unfold linkAf
    simp only [hs, Bool.not_true, Bool.false_eq_true, if_false, hpfx, linkGw, hg]
    generalize (linkPfx (linkPoolId t l) af pfx s.1).1 = qs
    have h0 : (qs.change (linkPoolId t l) (poolSetGw af g)).lookup (linkPoolId t l) =
        some (poolSetGw af g ((qs.lookup (linkPoolId t l)).getD DhcpPool.empty)) := by rw [lookup_change, if_pos rfl]
    obtain ⟨q, hq, hle⟩ := builds_le (builds_linkExclude t l hl af hs l.intfs (fun _ h => h) _) _ _ h0
    exact ⟨q, hq, hle.2.2 af (by simp [poolSetGw, famSet])⟩
  have h3 : ∀ (ls : List DhcpLink), l ∈ ls → (∀ x ∈ ls, x ∈ t.links) → ∀ s : DhcpPools × Nat,
      ∃ q, (linkPools t s ls).1.lookup (linkPoolId t l) = some q ∧ (q.gateway af).isSome = true := by
    intro ls hmem hsub
    induction ls with
    | nil => exact absurd hmem (by simp)
    | cons x rest ih =>
      intro s
      have hsub' : ∀ y ∈ rest, y ∈ t.links := fun y hy => hsub y (List.mem_cons_of_mem _ hy)
      rcases List.mem_cons.mp hmem with h | h
      · subst h
        simp only [linkPools, hcl, Bool.not_true, Bool.false_eq_true, if_false, List.foldl_cons, List.foldl_nil]
        generalize ((s.1.change (linkPoolId t l) (activate l), s.2) : DhcpPools × Nat) = s0
        have hin : ∃ q, (linkAf t (linkPoolId t l) l (linkAf t (linkPoolId t l) l s0 false) true).1.lookup
            (linkPoolId t l) = some q ∧ (q.gateway af).isSome = true := by
          cases haf' : af with
          | false =>
            rw [haf'] at haf
            obtain ⟨q, hq, hv⟩ := haf s0
            obtain ⟨q', hq', hle⟩ := builds_le (builds_linkAf t l hl (linkAf t (linkPoolId t l) l s0 false) true) _ q hq
            exact ⟨q', hq', hle.2.2 _ hv⟩
          | true =>
            rw [haf'] at haf
            exact haf _
        obtain ⟨q, hq, hv⟩ := hin
        obtain ⟨q', hq', hle⟩ := builds_le (builds_linkPools t rest hsub' _) _ q hq
        exact ⟨q', hq', hle.2.2 _ hv⟩
      · simp only [linkPools]
        split
        · exact ih h hsub' s
        · exact ih h hsub' _
  obtain ⟨q, hq, hv⟩ := h3 t.links hl (fun _ h => h) (sviNodes t (vlanPools t [] t.vlans) t.nodes, 0)
  have : (allPools t).1.lookup (linkPoolId t l) = some q := hq
  rw [hlook] at this
  rw [Option.some.inj this]
  exact hv

/-! ### A concrete topology -/

/-- An access VLAN with a router (`r`), a DHCP server (`s`) and a DHCP client (`h`) on the first access link, and a
host with a static address (`x`) on the second access link without DHCP clients. -/
def dhcpDemo : DhcpTopo :=
  let v4 := fun (s : String) => fun (af : Bool) => if af then none else some s
  { makeId := id
    ip := id
    vlans := [("red", ⟨false, v4 "10.0.0.1", v4 "10.0.0.0/24"⟩)]
    nodes := [
      ("r", [⟨none, 1, fun _ => false, fun _ => none⟩, ⟨none, 2, fun _ => false, fun _ => none⟩,
             ⟨some "red", 40000, fun _ => false, v4 "10.0.0.1"⟩]),
      ("s", [⟨none, 1, fun _ => false, v4 "10.0.0.2"⟩]),
      ("h", [⟨none, 1, fun af => !af, fun _ => none⟩]),
      ("x", [⟨none, 1, fun _ => false, v4 "10.0.0.4"⟩])]
    links := [
      ⟨fun af => !af, some "red", "links[1]", v4 "10.0.0.1", v4 "10.0.0.0/24",
        [⟨"r", 1, v4 "10.0.0.1"⟩, ⟨"s", 1, v4 "10.0.0.2"⟩, ⟨"h", 1, v4 "10.0.0.3"⟩]⟩,
      ⟨fun _ => false, some "red", "links[2]", v4 "10.0.0.1", v4 "10.0.0.0/24",
        [⟨"r", 2, v4 "10.0.0.1"⟩, ⟨"x", 1, v4 "10.0.0.4"⟩]⟩] }

/-- The addresses of the router and of the server are excluded, the address of the client is not. -/
example : (dhcpPools dhcpDemo).map (fun p => (p.1, p.2.excluded false, p.2.excluded true, p.2.pfx false)) =
    [("vlan_red", ["10.0.0.1", "10.0.0.2"], [], some "10.0.0.0/24")] := by decide +kernel

/-- The gateway of the VLAN is the gateway of the pool. -/
example : (dhcpPools dhcpDemo).map (fun p => (p.2.gateway false, p.2.gateway true)) = [(some "10.0.0.1", none)] := by
  decide +kernel

/-- The demo topology has no prefix mismatch. -/
example : (allPools dhcpDemo).2 = 0 := by decide +kernel

/-- **C46, the exception.**  A static address of a host attached to the VLAN through an access link without DHCP
clients is not excluded from the pool of the VLAN, although it belongs to the subnet of the pool. -/
theorem C46_other_access_link :
    ∃ l ∈ dhcpDemo.links, ∃ i ∈ l.intfs, PoolOfLink dhcpDemo l "vlan_red" ∧ l.prefix4 false = some "10.0.0.0/24" ∧
      i.addr false = some "10.0.0.4" ∧ (∃ n, Behind dhcpDemo i n ∧ n.client false = false) ∧
      (dhcpPools dhcpDemo).map (fun p => (p.1, p.2.pfx false, (p.2.excluded false).contains "10.0.0.4")) =
        [("vlan_red", some "10.0.0.0/24", false)] := by
  refine ⟨_, List.mem_cons_of_mem _ (List.mem_cons_self ..), _, List.mem_cons_of_mem _ (List.mem_cons_self ..),
    .inl ⟨"red", rfl, by decide⟩, rfl, rfl, ⟨_, ⟨_, rfl, List.mem_cons_self .., rfl⟩, rfl⟩, by decide +kernel⟩

end Netlab
