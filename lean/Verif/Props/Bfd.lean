import Verif.Model.Bfd
import Verif.Spec.Bfd
/-!
# C45: BFD on routing protocol interfaces
-/

namespace Netlab
open Spec

/-- **C45 (single-protocol BFD).**  On a node with a protocol-level BFD setting, after BFD processing BFD is
enabled for the protocol on an interface running the protocol iff BFD is not disabled on the
interface, and either the protocol setting of the interface enables it, or there is no such setting and the node has
the BFD module and a protocol setting enabling it.  Interfaces not running the protocol are unchanged. -/
theorem C45_link_state (n : BfdNode) (hp : n.proto ≠ none) (k : Nat) (hk : k < n.intfs.length) :
    ∃ h : k < (bfdLinkState n).intfs.length,
      (n.intfs[k].off = true → (bfdLinkState n).intfs[k] = n.intfs[k]) ∧
      (n.intfs[k].off = false →
        (BfdOn (bfdLinkState n).intfs[k] ↔
          n.intfs[k].bfd ≠ some false ∧
          (BfdOn n.intfs[k] ∨ n.intfs[k].proto = none ∧ NodeBfd n)) ∧
        ((bfdLinkState n).intfs[k].proto ≠ none → BfdOn (bfdLinkState n).intfs[k]) ∧
        ((bfdLinkState n).intfs[k].present = true ↔
          n.intfs[k].params = true ∨ BfdOn (bfdLinkState n).intfs[k])) := by
  cases hv : n.proto with
  | none => exact absurd hv hp
  | some v =>
    have hout : (bfdLinkState n).intfs = n.intfs.map (bfdIntf (n.hasModule && v.truthy)) := by
      simp [bfdLinkState, hv]
    refine ⟨by simp [hout, hk], ?_⟩
    simp only [hout, List.getElem_map]
    have hN : NodeBfd n ↔ (n.hasModule && v.truthy) = true := by
      simp [NodeBfd, hv]
    rw [hN]
    generalize n.intfs[k] = l
    generalize (n.hasModule && v.truthy) = nb
    constructor
    · intro ho
      simp [bfdIntf, ho]
    · intro ho
      obtain ⟨off, params, present, bfd, proto, v4, v6⟩ := l
      simp only at ho
      subst ho
      cases proto with
      | none =>
        cases nb <;> rcases bfd with _ | _ | _ <;> simp [bfdIntf, bfdDisabled, BfdVal.truthy, BfdOn]
      | some w =>
        cases hw : w.truthy <;> rcases bfd with _ | _ | _ <;>
          simp [bfdIntf, bfdDisabled, BfdOn, hw]

/-- **C45 (node setting).**  After BFD processing the protocol has a BFD setting iff the node has the
BFD module and the protocol setting enables BFD. -/
theorem C45_node (n : BfdNode) :
    (bfdLinkState n).proto ≠ none ↔ NodeBfd n := by
  cases hv : n.proto with
  | none => simp [bfdLinkState, NodeBfd, hv]
  | some v =>
    have hN : NodeBfd n ↔ (n.hasModule && v.truthy) = true := by
      simp [NodeBfd, hv]
    cases h1 : n.hasModule <;> cases h2 : v.truthy <;> simp [bfdLinkState, hv, hN, h1, h2]

/-- **C45 (per-address-family BFD).**  On a node with a protocol-level BFD setting, after BFD processing
BFD is enabled for IPv4 on an interface running the protocol iff the interface has IPv4, BFD is not disabled on the interface, and
either the interface enables the protocol BFD for IPv4, or it uses the node setting (it has no setting of its own or
has a simple `true`) and the node has the BFD module and enables BFD for IPv4.  The same holds for IPv6. -/
theorem C45_multiprotocol (n : BfdNode) (hp : n.proto ≠ none) (k : Nat) (hk : k < n.intfs.length) :
    ∃ h : k < (multiprotocolBfd n).intfs.length,
      (n.intfs[k].off = true → (multiprotocolBfd n).intfs[k] = n.intfs[k]) ∧
      (n.intfs[k].off = false →
        (BfdOn4 (multiprotocolBfd n).intfs[k] ↔
          n.intfs[k].v4 = true ∧ n.intfs[k].bfd ≠ some false ∧
          (BfdOn4 n.intfs[k] ∨
            (n.intfs[k].proto = none ∨ n.intfs[k].proto = some (.flag true)) ∧ NodeBfd4 n)) ∧
        (BfdOn6 (multiprotocolBfd n).intfs[k] ↔
          n.intfs[k].v6 = true ∧ n.intfs[k].bfd ≠ some false ∧
          (BfdOn6 n.intfs[k] ∨
            (n.intfs[k].proto = none ∨ n.intfs[k].proto = some (.flag true)) ∧ NodeBfd6 n))) := by
  cases hv : n.proto with
  | none => exact absurd hv hp
  | some v =>
    have hout : (multiprotocolBfd n).intfs =
        n.intfs.map (bfdIntfAf (bfdNodeAf n v).1 (bfdNodeAf n v).2) := by
      simp [multiprotocolBfd, hv]
    refine ⟨by simp [hout, hk], ?_⟩
    simp only [hout, List.getElem_map]
    have h4 : NodeBfd4 n ↔ (bfdNodeAf n v).1 = some true := by
      unfold NodeBfd4 bfdNodeAf
      rw [hv]
      cases n.hasModule
      · simp
      · rcases v with (_ | _) | ⟨a, b⟩ <;> simp
    have h6 : NodeBfd6 n ↔ (bfdNodeAf n v).2 = some true := by
      unfold NodeBfd6 bfdNodeAf
      rw [hv]
      cases n.hasModule
      · simp
      · rcases v with (_ | _) | ⟨a, b⟩ <;> simp
    rw [h4, h6]
    generalize n.intfs[k] = l
    generalize (bfdNodeAf n v).1 = a
    generalize (bfdNodeAf n v).2 = b
    constructor
    · intro ho
      simp [bfdIntfAf, ho]
    · intro ho
      obtain ⟨off, params, present, bfd, proto, v4, v6⟩ := l
      simp only at ho
      subst ho
      rcases proto with _ | (_ | _) | ⟨x, y⟩ <;> rcases bfd with _ | _ | _ <;> cases v4 <;> cases v6 <;>
        rcases a with _ | _ | _ <;> rcases b with _ | _ | _ <;>
        (try rcases x with _ | _ | _) <;> (try rcases y with _ | _ | _) <;>
        simp [bfdIntfAf, bfdDisabled, bfdAf, bfdTrim, BfdVal.truthy, BfdOn4, BfdOn6]

/-- A node with two interfaces: the first one has its own setting, the second one disables BFD -/
def bfdSample (m : Bool) : BfdNode :=
  ⟨m, some (.flag true), true, false,
    [⟨false, false, false, none, none, true, true⟩, ⟨false, true, true, some false, none, true, true⟩]⟩

example : (bfdLinkState (bfdSample true)).intfs.map (·.proto) = [some (.flag true), none] := by decide
example : (multiprotocolBfd (bfdSample true)).intfs.map (·.proto) =
    [some (.fams (some true) none), none] := by decide
example : (bfdLinkState (bfdSample false)).intfs.map (·.proto) = [none, none] := by decide

/-- **C45 (defect).**  A node without the BFD module keeps BFD on interfaces enabling it
explicitly. -/
theorem C45_no_module_not_disabled :
    ∃ n : BfdNode, n.hasModule = false ∧ n.proto = some (.flag true) ∧
      (∃ i ∈ (bfdLinkState n).intfs, BfdOn i) ∧
      ∃ m : BfdNode, m.hasModule = false ∧ ∃ i ∈ (multiprotocolBfd m).intfs, BfdOn4 i := by
  refine ⟨⟨false, some (.flag true), true, false, [⟨false, false, true, none, some (.flag true), true, false⟩]⟩,
    rfl, rfl, ⟨_, List.mem_singleton.2 rfl, .flag true, by decide, rfl⟩,
    ⟨false, some (.flag true), true, false,
      [⟨false, false, true, none, some (.fams (some true) none), true, false⟩]⟩, rfl,
    _, List.mem_singleton.2 rfl, none, by decide⟩

/-- **C45 (defect).**  Disabling BFD for both address families in the protocol settings of a node
(`ospf.bfd: { ipv4: false, ipv6: false }`) enables it on all interfaces without their own setting. -/
theorem C45_false_families_enable :
    ∃ n : BfdNode, n.proto = some (.fams (some false) (some false)) ∧
      ∃ i ∈ (bfdLinkState n).intfs, BfdOn i := by
  refine ⟨⟨true, some (.fams (some false) (some false)), true, false,
    [⟨false, false, true, none, none, true, false⟩]⟩, rfl,
    _, List.mem_singleton.2 rfl, .flag true, by decide, rfl⟩

end Netlab
