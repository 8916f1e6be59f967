import Verif.Model.VlanDup
import Verif.Spec.VlanDup
import Verif.Props.Svi

namespace Netlab

open Netlab.Spec

theorem ngbIp_iff (af : Bool) (g : SvNgb) (a : String) : ngbIp af g = some a ↔ ngbAddress af g a := by
  cases af <;> simp [ngbIp, ngbAddress]

theorem ngbAddress_entry (af : Bool) (n : String) (s : SvIf) (a : String) :
    ngbAddress af (ngbEntry n s) a ↔ ifAddress af s a := Iff.rfl

/-- No error: no address is used twice, and no address is one of those found before. -/
theorem vdupLoop_zero (af : Bool) (l : List SvNgb) (seen : List String) :
    vdupLoop af seen l = 0 ↔ (l.filterMap (ngbIp af)).Nodup ∧ ∀ a ∈ l.filterMap (ngbIp af), a ∉ seen := by
  induction l generalizing seen with
  | nil => simp [vdupLoop]
  | cons n rest ih =>
    cases ha : ngbIp af n with
    | none => simp only [vdupLoop, ha, List.filterMap_cons, ih]
    | some a =>
      simp only [vdupLoop, ha, List.filterMap_cons, List.nodup_cons, List.mem_cons, forall_eq_or_imp]
      by_cases hc : seen.contains a = true
      · rw [if_pos hc]
        have : a ∈ seen := by simpa using hc
        simp [this]
      · rw [if_neg hc, ih]
        have hn : a ∉ seen := by simpa using hc
        simp only [List.mem_cons, not_or]
        constructor
        · rintro ⟨h1, h2⟩
          exact ⟨⟨fun hm => (h2 a hm).1 rfl, h1⟩, hn, fun b hb => (h2 b hb).2⟩
        · rintro ⟨⟨h1, h2⟩, -, h4⟩
          refine ⟨h2, fun b hb => ⟨?_, h4 b hb⟩⟩
          rintro rfl
          exact h1 hb

theorem vdupLoop_le (gw : Bool → Option String) (l : List SvNgb) (af : Bool) :
    vdupLoop af (gw af).toList l ≤ vdupCheck gw l := by
  unfold vdupCheck
  cases af <;> omega

theorem not_nodup_filterMap {l : List SvNgb} {af : Bool} {a : String} {g₁ g₂ : SvNgb} (h₁ : g₁ ∈ l) (h₂ : g₂ ∈ l)
    (hne : g₁ ≠ g₂) (ha₁ : ngbIp af g₁ = some a) (ha₂ : ngbIp af g₂ = some a) : ¬ (l.filterMap (ngbIp af)).Nodup := by
  intro hnd
  induction l with
  | nil => simp at h₁
  | cons x rest ih =>
    have hin : ∀ g ∈ rest, ngbIp af g = some a → a ∈ rest.filterMap (ngbIp af) :=
      fun g hg hga => List.mem_filterMap.mpr ⟨g, hg, hga⟩
    rcases List.mem_cons.mp h₁ with rfl | h₁'
    · rcases List.mem_cons.mp h₂ with rfl | h₂'
      · exact hne rfl
      · rw [List.filterMap_cons, ha₁] at hnd
        exact (List.nodup_cons.mp hnd).1 (hin g₂ h₂' ha₂)
    · rcases List.mem_cons.mp h₂ with rfl | h₂'
      · rw [List.filterMap_cons, ha₂] at hnd
        exact (List.nodup_cons.mp hnd).1 (hin g₁ h₁' ha₁)
      · refine ih h₁' h₂' ?_
        rw [List.filterMap_cons] at hnd
        cases hx : ngbIp af x with
        | none => rw [hx] at hnd; exact hnd
        | some b => rw [hx] at hnd; exact (List.nodup_cons.mp hnd).2

theorem exists_of_not_nodup {l : List SvNgb} (hn : (l.map SvNgb.node).Nodup) {af : Bool}
    (h : ¬ (l.filterMap (ngbIp af)).Nodup) :
    ∃ g₁ ∈ l, ∃ g₂ ∈ l, ∃ a, g₁.node ≠ g₂.node ∧ ngbIp af g₁ = some a ∧ ngbIp af g₂ = some a := by
  induction l with
  | nil => simp at h
  | cons x rest ih =>
    rw [List.map_cons, List.nodup_cons] at hn
    have hrec : ¬ (rest.filterMap (ngbIp af)).Nodup → ∃ g₁ ∈ x :: rest, ∃ g₂ ∈ x :: rest, ∃ a, g₁.node ≠ g₂.node ∧
        ngbIp af g₁ = some a ∧ ngbIp af g₂ = some a := by
      intro h'
      obtain ⟨g₁, h1, g₂, h2, a, h3⟩ := ih hn.2 h'
      exact ⟨g₁, List.mem_cons_of_mem _ h1, g₂, List.mem_cons_of_mem _ h2, a, h3⟩
    rw [List.filterMap_cons] at h
    cases hx : ngbIp af x with
    | none => rw [hx] at h; exact hrec h
    | some a =>
      rw [hx] at h
      by_cases hm : a ∈ rest.filterMap (ngbIp af)
      · obtain ⟨g, hg, hga⟩ := List.mem_filterMap.mp hm
        refine ⟨x, List.mem_cons_self .., g, List.mem_cons_of_mem _ hg, a, ?_, hx, hga⟩
        intro he
        exact hn.1 (List.mem_map.mpr ⟨g, hg, he.symm⟩)
      · refine hrec (fun hr => h ?_)
        exact List.nodup_cons.mpr ⟨hm, hr⟩

/-- The neighbor list of a global VLAN, in terms of the result of the transformation. -/
theorem globalNgb_spec {t : SvTopo} {nodes l : List SvNode} {upds : List SvUpd} (hin : SviInput t nodes)
    (h : vlanIfNodes t nodes = .ok (l, upds)) {v : String} (hv : (t.vlans.lookup v).isSome) {after : List SvNode}
    (ha : after = l.map (fun nd => { nd with ifs := nd.ifs.map (setNgb t l upds nd) })) :
    ((vlanNgb upds (none, v)).map SvNgb.node).Nodup ∧
    (∀ af n a, VlanAddress nodes after v af n a → ∃ g ∈ vlanNgb upds (none, v), g.node = n ∧ ngbIp af g = some a) ∧
    ∀ g ∈ vlanNgb upds (none, v), ∀ af a, ngbIp af g = some a → UsesAddress nodes after v af g.node a := by
  obtain ⟨h1, h2, h3, h4⟩ := vlanNgb_spec hin h (vlanKey_global hv)
  have h4' : ∀ g ∈ vlanNgb upds (none, v), (∃ n s, sviOn after n v s ∧ g = ngbEntry n s) ∨
      ((∃ n, onMemberLink nodes n v g) ∧ ∀ s, ¬ sviOn after g.node v s) := by
    subst ha
    intro g hg
    rcases h4 g hg with ⟨n, s, -, ⟨nd, hnd, hname, hs0, hv'⟩, he⟩ | ⟨⟨n, -, hl⟩, hno⟩
    · refine .inl ⟨n, setNgb t l upds nd s, sviOn_set.mpr ⟨nd, hnd, s, hs0, hname, hv', rfl⟩, ?_⟩
      rw [ngbEntry_set]
      exact he
    · refine .inr ⟨⟨n, hl⟩, ?_⟩
      intro s hs
      obtain ⟨nd, hnd, s0, hs0, hname, hv', rfl⟩ := sviOn_set.mp hs
      exact hno s0 trivial ⟨nd, hnd, hname, hs0, hv'⟩
  refine ⟨h1, ?_, ?_⟩
  · rintro af n a (⟨s, hs, hsa⟩ | ⟨hno, ⟨m, g, hg, rfl⟩, hall⟩)
    · subst ha
      obtain ⟨nd, hnd, s0, hs0, hname, hv', rfl⟩ := sviOn_set.mp hs
      refine ⟨ngbEntry n s0, h2 n s0 trivial ⟨nd, hnd, hname, hs0, hv'⟩, rfl, ?_⟩
      rw [ngbIp_iff, ← ngbEntry_set t l upds nd n s0]
      exact hsa
    · obtain ⟨g', hg', hn⟩ := List.mem_map.mp (h3 m g trivial hg)
      refine ⟨g', hg', hn, ?_⟩
      rcases h4' g' hg' with ⟨n, s, hs, rfl⟩ | ⟨⟨m', hm'⟩, -⟩
      · exact absurd (show sviOn after g.node v s from hn ▸ hs) (hno s)
      · exact (ngbIp_iff ..).mpr (hall m' g' hm' hn)
  · intro g hg af a hga
    rcases h4' g hg with ⟨n, s, hs, rfl⟩ | ⟨⟨m, hm⟩, -⟩
    · exact .inl ⟨s, hs, (ngbIp_iff ..).mp hga⟩
    · exact .inr ⟨m, g, hm, rfl, (ngbIp_iff ..).mp hga⟩

theorem le_vlanDups {gw : String → Bool → Option String} {t : SvTopo} {upds : List SvUpd} {v : String}
    (hv : (t.vlans.lookup v).isSome) : vdupCheck (gw v) (vlanNgb upds (none, v)) ≤ vlanDups gw t upds := by
  obtain ⟨d, hd⟩ := Option.isSome_iff_exists.mp hv
  unfold vlanDups
  generalize hf : (fun v : String × NVlan => vdupCheck (gw v.1) (vlanNgb upds (none, v.1))) = f
  have hm := mem_of_lookup hd
  have : f (v, d) = vdupCheck (gw v) (vlanNgb upds (none, v)) := by rw [← hf]
  rw [← this]
  generalize t.vlans = vs at hm
  clear hd hv hf this
  induction vs with
  | nil => simp at hm
  | cons x rest ih =>
    rw [List.map_cons, List.sum_cons]
    rcases List.mem_cons.mp hm with rfl | hm
    · omega
    · have := ih hm
      omega

theorem vlanPostLink_ok {warn : Bool} {gw : String → Bool → Option String} {t : SvTopo} {nodes after : List SvNode} {e : Nat}
    (h : vlanPostLink warn gw t nodes = .ok (after, e)) :
    ∃ l upds, vlanIfNodes t nodes = .ok (l, upds) ∧
      after = l.map (fun nd => { nd with ifs := nd.ifs.map (setNgb t l upds nd) }) ∧
      e = if warn then vlanDups gw t upds else 0 := by
  unfold vlanPostLink at h
  cases hc : vlanIfNodes t nodes with
  | error a => simp [hc] at h
  | ok r =>
    obtain ⟨l, upds⟩ := r
    simp only [hc, Except.ok.injEq, Prod.mk.injEq] at h
    exact ⟨l, upds, rfl, h.1.symm, h.2.symm⟩

/-- **C155.**  Two nodes with the same address in a global VLAN are reported, whether they are attached to the same link or not. -/
theorem C155_reported {gw : String → Bool → Option String} {t : SvTopo} {nodes after : List SvNode} {e : Nat}
    (hin : SviInput t nodes) (h : vlanPostLink true gw t nodes = .ok (after, e)) {v : String}
    (hv : (t.vlans.lookup v).isSome) {af : Bool} {n₁ n₂ a : String} (hne : n₁ ≠ n₂)
    (h₁ : VlanAddress nodes after v af n₁ a) (h₂ : VlanAddress nodes after v af n₂ a) : 1 ≤ e := by
  obtain ⟨l, upds, hc, hafter, rfl⟩ := vlanPostLink_ok h
  obtain ⟨-, hs, -⟩ := globalNgb_spec hin hc hv hafter
  obtain ⟨g₁, hg₁, rfl, ha₁⟩ := hs af n₁ a h₁
  obtain ⟨g₂, hg₂, rfl, ha₂⟩ := hs af n₂ a h₂
  have hd : vdupLoop af (gw v af).toList (vlanNgb upds (none, v)) ≠ 0 := by
    rw [Ne, vdupLoop_zero]
    rintro ⟨hnd, -⟩
    exact not_nodup_filterMap hg₁ hg₂ (fun he => hne (by rw [he])) ha₁ ha₂ hnd
  have := vdupLoop_le (gw v) (vlanNgb upds (none, v)) af
  have := le_vlanDups (gw := gw) (upds := upds) hv
  simp only [if_true]
  omega

/-- **C155.**  A node that has the gateway address of a global VLAN is reported. -/
theorem C155_gateway {gw : String → Bool → Option String} {t : SvTopo} {nodes after : List SvNode} {e : Nat}
    (hin : SviInput t nodes) (h : vlanPostLink true gw t nodes = .ok (after, e)) {v : String}
    (hv : (t.vlans.lookup v).isSome) {af : Bool} {n a : String} (hg : gw v af = some a)
    (h₁ : VlanAddress nodes after v af n a) : 1 ≤ e := by
  obtain ⟨l, upds, hc, hafter, rfl⟩ := vlanPostLink_ok h
  obtain ⟨-, hs, -⟩ := globalNgb_spec hin hc hv hafter
  obtain ⟨g₁, hg₁, rfl, ha₁⟩ := hs af n a h₁
  have hd : vdupLoop af (gw v af).toList (vlanNgb upds (none, v)) ≠ 0 := by
    rw [Ne, vdupLoop_zero]
    rintro ⟨-, hno⟩
    exact hno a (List.mem_filterMap.mpr ⟨g₁, hg₁, ha₁⟩) (by simp [hg])
  have := vdupLoop_le (gw v) (vlanNgb upds (none, v)) af
  have := le_vlanDups (gw := gw) (upds := upds) hv
  simp only [if_true]
  omega

/-- **C155.**  There are no false alarms: a reported error means that two nodes use the same address in a global VLAN, or that a
node uses its gateway address. -/
theorem C155_no_false_alarm {warn : Bool} {gw : String → Bool → Option String} {t : SvTopo} {nodes after : List SvNode} {e : Nat}
    (hin : SviInput t nodes) (h : vlanPostLink warn gw t nodes = .ok (after, e)) (he : e ≠ 0) :
    warn = true ∧ ∃ v af a, (t.vlans.lookup v).isSome ∧
      ((∃ n₁ n₂, n₁ ≠ n₂ ∧ UsesAddress nodes after v af n₁ a ∧ UsesAddress nodes after v af n₂ a) ∨
       (gw v af = some a ∧ ∃ n, UsesAddress nodes after v af n a)) := by
  obtain ⟨l, upds, hc, hafter, rfl⟩ := vlanPostLink_ok h
  cases warn with
  | false => simp at he
  | true =>
    refine ⟨rfl, ?_⟩
    simp only [if_true] at he
    have hex : ∃ p ∈ t.vlans, vdupCheck (gw p.1) (vlanNgb upds (none, p.1)) ≠ 0 := by
      refine Classical.byContradiction (fun hno => he ?_)
      unfold vlanDups
      have : ∀ vs : List (String × NVlan), (∀ p ∈ vs, vdupCheck (gw p.1) (vlanNgb upds (none, p.1)) = 0) →
          (vs.map (fun v => vdupCheck (gw v.1) (vlanNgb upds (none, v.1)))).sum = 0 := by
        intro vs
        induction vs with
        | nil => intro _; rfl
        | cons x rest ih =>
          intro hall
          rw [List.map_cons, List.sum_cons, hall x (List.mem_cons_self ..), ih (fun p hp => hall p (List.mem_cons_of_mem _ hp))]
      refine this _ (fun p hp => ?_)
      exact Classical.byContradiction (fun hp' => hno ⟨p, hp, hp'⟩)
    obtain ⟨⟨v, d⟩, hp, hd⟩ := hex
    have hv : (t.vlans.lookup v).isSome := by
      cases hl : t.vlans.lookup v with
      | some x => rfl
      | none => exact absurd (List.mem_map.mpr ⟨_, hp, rfl⟩) (lookup_eq_none_iff.mp hl)
    obtain ⟨hn, -, hu⟩ := globalNgb_spec hin hc hv hafter
    simp only at hd
    have haf : ∃ af, vdupLoop af (gw v af).toList (vlanNgb upds (none, v)) ≠ 0 := by
      unfold vdupCheck at hd
      by_cases h0 : vdupLoop false (gw v false).toList (vlanNgb upds (none, v)) = 0
      · exact ⟨true, fun h1 => hd (by rw [h0, h1])⟩
      · exact ⟨false, h0⟩
    obtain ⟨af, haf⟩ := haf
    rw [Ne, vdupLoop_zero] at haf
    by_cases hnd : ((vlanNgb upds (none, v)).filterMap (ngbIp af)).Nodup
    · have : ∃ a ∈ (vlanNgb upds (none, v)).filterMap (ngbIp af), a ∈ (gw v af).toList := by
        refine Classical.byContradiction (fun hno => haf ⟨hnd, fun a ha hs => hno ⟨a, ha, hs⟩⟩)
      obtain ⟨a, ha, hs⟩ := this
      obtain ⟨g, hg, hga⟩ := List.mem_filterMap.mp ha
      exact ⟨v, af, a, hv, .inr ⟨by simpa using hs, g.node, hu g hg af a hga⟩⟩
    · obtain ⟨g₁, h1, g₂, h2, a, h3, h4, h5⟩ := exists_of_not_nodup hn hnd
      exact ⟨v, af, a, hv, .inl ⟨g₁.node, g₂.node, h3, hu g₁ h1 af a h4, hu g₂ h2 af a h5⟩⟩

/-! ### Examples and defects -/

namespace VlanDupExample
open SviExample

/-- The first host has an address of the other switch (attached to another link). -/
def h3 (ip : String) : SvNode := { h1 with
  ifs := [vif 1 "eth1" "red" false ip [⟨"s1", "eth2", some "172.16.0.1/24", none⟩]] }

/-- The switch connected to that host. -/
def s3 (ip ip2 : String) : SvNode := { s1 with
  ifs := [
    vif 1 "eth1" "red" true "172.16.0.1/24" [⟨"s2", "eth1", some "172.16.0.2/24", none⟩],
    vif 2 "eth2" "red" true "172.16.0.1/24" [⟨"h1", "eth1", some ip, none⟩],
    vif 3 "eth3" "blue" true "172.16.1.1/24" [⟨"h2", "eth1", some ip2, none⟩]] }

/-- The number of errors. -/
def errs (gw : String → Bool → Option String) (ip ip2 : String) : Option Nat :=
  (vlanPostLink true gw topo [s3 ip ip2, s2, h3 ip, h2]).toOption.map Prod.snd

/-- No duplicate addresses; duplicate address on another link; gateway address. -/
example : errs (fun _ _ => none) "172.16.0.3/24" "172.16.1.2/24" = some 0 ∧
    errs (fun _ _ => none) "172.16.0.2/24" "172.16.1.2/24" = some 1 ∧
    errs (fun _ af => if af then none else some "172.16.0.3/24") "172.16.0.3/24" "172.16.1.2/24" = some 1 := by
  decide +kernel

/-- The hypotheses of the theorems hold for the topology without duplicate addresses. -/
example : (vlanPostLink true (fun _ _ => none) topo [s1, s2, h1, h2]).toOption.map Prod.snd = some 0 ∧
    SviInput topo [s1, s2, h1, h2] := ⟨by decide +kernel, input⟩

end VlanDupExample

/-- **C155, defects.**  A duplicate address in a VLAN that exists only on a node is not reported, and an address used with another
prefix length is not reported. -/
theorem C155_missed :
    VlanDupExample.errs (fun _ _ => none) "172.16.0.3/24" "172.16.1.1/24" = some 0 ∧
    VlanDupExample.errs (fun _ _ => none) "172.16.0.2/25" "172.16.1.2/24" = some 0 := by
  decide +kernel

end Netlab
