import Verif.Props.IfNames
import Verif.Props.Svi
import Verif.Props.VlanTrunk

namespace Netlab

open Spec

/-! ### Names of VLAN interfaces and subinterfaces created by the VLAN module -/

/-- `svi_interface_name` of a device applied to the VLAN ID and bridge group (netsim/modules/vlan.py:861-884; the name of the
member interface is not used by any template). -/
def sviFormat (d : NameDev) : Option (Option Nat → Option Nat → String → String) :=
  d.svi.map (fun _ id bg _ => (ifName d (.svi (id.getD 0) (bg.getD 0))).getD "")

/-- `subif_name` of a device applied to the name of the parent interface, subinterface index and VLAN ID
(netsim/modules/vlan.py:1026-1050); a missing VLAN ID is printed as an empty dictionary. -/
def subFormat (t : String) (p : String) (n : Nat) (v : Option Nat) : String :=
  (evalFormat t [("ifname", .text p), ("subif_index", .num n), ("vlan.access_id", match v with | some x => .num x | none => .text "{}")]).getD ""

/-- **C118**: on every supported device, VLAN interfaces of a node have different names when every VLAN has its own ID. -/
theorem C118_svi (d : NameDev) (hd : d ∈ nameTable) {t : SvTopo} {nd nd' : SvNode} {upds : List SvUpd} (hf : FreshNode t nd)
    (hs : nd.sviName = sviFormat d) (h : createSvi t nd = .ok (nd', upds))
    (hset : ∀ v a, nd'.vlans.lookup v = some a → ∃ n, a.id = some n)
    (hid : ∀ v w a b, nd'.vlans.lookup v = some a → nd'.vlans.lookup w = some b → a.id = b.id → v = w)
    (s1 s2 : SvIf) (h1 : s1 ∈ nd'.ifs) (h2 : s2 ∈ nd'.ifs) (v1 v2 : String) (e1 : isSviOf s1 v1) (e2 : isSviOf s2 v2)
    (hn : s1.ifname = s2.ifname) : v1 = v2 := by
  obtain ⟨i1, a, f1, m1, l1, q1, n1, _⟩ := C64_svi_data hf h s1 h1 v1 e1
  obtain ⟨i2, b, f2, m2, l2, q2, n2, _⟩ := C64_svi_data hf h s2 h2 v2 e2
  rw [hs] at q1 q2
  unfold sviFormat at q1 q2
  have hsup : d.svi ≠ none := by
    intro hno
    rw [hno] at q1
    cases q1
  obtain ⟨x1, hx1⟩ := C118_named d hd (.svi (a.id.getD 0) (a.bg.getD 0)) hsup
  obtain ⟨x2, hx2⟩ := C118_named d hd (.svi (b.id.getD 0) (b.bg.getD 0)) hsup
  obtain ⟨_, _, rfl⟩ := Option.map_eq_some_iff.1 q1
  obtain ⟨_, _, rfl⟩ := Option.map_eq_some_iff.1 q2
  simp only [hx1, hx2, Option.getD_some] at n1 n2
  have hxx : x1 = x2 := by rw [← n1, ← n2, hn]
  subst hxx
  obtain ⟨y1, hy1⟩ := hset v1 a l1
  obtain ⟨y2, hy2⟩ := hset v2 b l2
  rcases C118_unique d (table_ok d hd) _ _ (by simp [UsableIf]) (by simp [UsableIf]) x1 hx1 hx2 with he | he
  · rw [hy1, hy2] at he
    simp only [Option.getD_some] at he
    exact hid v1 v2 a b l1 l2 (by rw [hy1, hy2, he])
  · obtain ⟨hb1, hb2⟩ := C64_bridge_groups hf h
    have mem : ∀ {l : List SvIf} {v i}, firstMember l v i → i ∈ l := by
      intro l v i hm
      obtain ⟨_, pre, post, rfl, _⟩ := hm
      simp
    obtain ⟨d1, g1, k1, k2⟩ := hb2 i1 (mem m1) v1 m1.1.1
    obtain ⟨d2, g2, k3, k4⟩ := hb2 i2 (mem m2) v2 m2.1.1
    rw [l1] at k1
    rw [l2] at k3
    cases k1
    cases k3
    rw [k2, k4] at he
    simp only [Option.getD_some] at he
    exact hb1 v1 v2 a b g1 l1 l2 k2 (by rw [k4, he])

/-- The VLAN ID printed in the name of a subinterface. -/
def idText : Option Nat → List Char
  | some x => x.repr.toList
  | none => ['{', '}']

theorem subFormat_eq {d : NameDev} {t : String} (sh : SubShape d t) (p : String) (n : Nat) (v : Option Nat) :
    (subFormat t p n v).toList = p.toList ++ (sh.sep ++ (if sh.x = "subif_index" then n.repr.toList else idText v)) := by
  unfold subFormat evalFormat
  rw [sh.split]
  dsimp only
  simp only [fmtSegs]
  rw [fmtSegs_append, fmtSegs_lits]
  cases v <;> rcases sh.var with hx | hx <;> rw [hx] <;> simp [fmtSegs, fmtSeg, List.lookup, fmtNum, idText]

theorem idText_inj {p q : List Char} {v w : Option Nat} (hp : ∀ c ∈ p.getLast?, c.isDigit = false) (hq : ∀ c ∈ q.getLast?, c.isDigit = false)
    (h : p ++ idText v = q ++ idText w) : p = q ∧ v = w := by
  have hl : ∀ (a b : List Char) (n : Nat), a ++ ['{', '}'] ≠ b ++ n.repr.toList := by
    intro a b n he
    have h1 := congrArg List.getLast? he
    rw [List.getLast?_append, List.getLast?_append] at h1
    cases hr : n.repr.toList.getLast? with
    | none => exact repr_ne_nil n (List.getLast?_eq_none_iff.1 hr)
    | some c =>
      rw [hr] at h1
      have hc := repr_digits n c (List.mem_of_getLast? hr)
      simp at h1
      subst h1
      exact absurd hc (by decide)
  cases v with
  | none =>
    cases w with
    | none => exact ⟨List.append_cancel_right h, rfl⟩
    | some y => exact absurd h (hl _ _ _)
  | some x =>
    cases w with
    | none => exact absurd h.symm (hl _ _ _)
    | some y =>
      obtain ⟨e1, e2⟩ := number_end hp hq h
      exact ⟨e1, by rw [e2]⟩

/-- **C118**: on every supported device, VLAN subinterfaces of a node have different names when no VLAN appears twice in the
trunk. -/
theorem C118_subif (d : NameDev) (hd : d ∈ nameTable) (t : String) (ht : d.subif = some t) {f : VlanFeat} (hs : f.subName = subFormat t)
    {vlans : List (String × NVlan)} {ifs out : List SvIf} (hin : TrunkInput ifs) (h : trunkNode f vlans ifs = .ok (out, 0))
    (hname : ((ifs.filter (fun i => ¬ isMember i)).map SvIf.ifname).Nodup)
    (hid : ∀ a ∈ ifs, ∀ b ∈ ifs, isSub f a → isSub f b → parentOf ifs a = parentOf ifs b → a.accessId = b.accessId → a = b) :
    ((out.filter (fun i => isMember i)).map SvIf.ifname).Nodup := by
  have ho := table_ok d hd
  unfold namesOk at ho
  simp only [Bool.and_eq_true] at ho
  obtain ⟨sh⟩ := subOk_shape ho.2 ht
  have hlast : ∀ p : String, ∀ c ∈ (p.toList ++ sh.sep).getLast?, c.isDigit = false := by
    intro p c hc
    rw [List.getLast?_append, sh.last] at hc
    simp at hc
    subst hc
    exact sh.digit
  refine C66_unique_names hin h hname ?_
  rw [hs]
  rcases sh.var with hx | hx
  · refine .inl ?_
    intro p q m n v w he
    have := congrArg String.toList he
    rw [subFormat_eq sh, subFormat_eq sh, if_pos hx, if_pos hx, ← List.append_assoc, ← List.append_assoc] at this
    obtain ⟨e1, e2⟩ := number_end (hlast p) (hlast q) this
    exact ⟨String.ext (List.append_cancel_right e1), e2⟩
  · have hne : sh.x ≠ "subif_index" := by
      rw [hx]
      decide
    refine .inr ⟨?_, hid⟩
    intro p q m n v w he
    have := congrArg String.toList he
    rw [subFormat_eq sh, subFormat_eq sh, if_neg hne, if_neg hne, ← List.append_assoc, ← List.append_assoc] at this
    obtain ⟨e1, e2⟩ := idText_inj (hlast p) (hlast q) this
    exact ⟨String.ext (List.append_cancel_right e1), e2⟩

namespace IfNamesVlanExample

/-- Two devices: VLAN IDs or consecutive numbers are used in names of subinterfaces. -/
def dev (n : String) : NameDev := (nameTable.find? (·.device == n)).getD { device := "", phys := "" }

theorem dev_mem {n : String} (h : (nameTable.find? (·.device == n)).isSome = true) : dev n ∈ nameTable := by
  unfold dev
  obtain ⟨d, hd⟩ := Option.isSome_iff_exists.1 h
  rw [hd]
  exact List.mem_of_find?_eq_some hd

def sw (n : String) : SvNode := { SviExample.s1 with sviName := sviFormat (dev n) }

/-- Names of interfaces. -/
def names (r : Except SvAbort (SvNode × List SvUpd)) : Option (List String) := r.toOption.map (·.1.ifs.map SvIf.ifname)

/-- IDs of VLANs. -/
def ids (r : Except SvAbort (SvNode × List SvUpd)) : Option (List (String × Option Nat)) := r.toOption.map (·.1.vlans.map (fun x => (x.1, x.2.id)))

theorem sw_fresh (n : String) : FreshNode SviExample.topo (sw n) := by
  have := SviExample.input.fresh SviExample.s1 (by simp)
  exact ⟨this.1, this.2, this.3⟩

/-- Hypotheses of C118_svi are met by a switch with two VLANs. -/
example : dev "eos" ∈ nameTable ∧ FreshNode SviExample.topo (sw "eos") ∧
    names (createSvi SviExample.topo (sw "eos")) = some ["eth1", "eth2", "eth3", "eth4", "Vlan10", "Vlan20"] ∧
    ids (createSvi SviExample.topo (sw "eos")) = some [("blue", some 20), ("red", some 10)] :=
  ⟨dev_mem (by decide +kernel), sw_fresh _, by decide +kernel, by decide +kernel⟩

/-- Hypotheses of C118_subif are met by routers using consecutive numbers, and by routers using VLAN IDs. -/
example : (dev "eos").subif = some "{ifname}.{subif_index}" ∧ (dev "cumulus").subif = some "{ifname}.{vlan.access_id}" ∧
    TrunkInput TrunkExample.ifs ∧ ((TrunkExample.ifs.filter (fun i => ¬ isMember i)).map SvIf.ifname).Nodup ∧
    ((TrunkExample.brief (trunkNode { TrunkExample.feat .l3switch with subName := subFormat "{ifname}.{subif_index}" } TrunkExample.vl TrunkExample.ifs)).map
      (fun r => (r.1.map (·.name), r.2))) = some (["eth1", "eth2", "eth1.1", "eth2.1", "eth1.2"], 0) ∧
    ((TrunkExample.brief (trunkNode { TrunkExample.feat .l3switch with subName := subFormat "{ifname}.{vlan.access_id}" } TrunkExample.vl TrunkExample.ifs)).map
      (fun r => (r.1.map (·.name), r.2))) = some (["eth1", "eth2", "eth1.20", "eth2.20", "eth1.30"], 0) :=
  ⟨by decide +kernel, by decide +kernel, TrunkExample.input, by decide, by decide +kernel, by decide +kernel⟩

end IfNamesVlanExample

end Netlab
