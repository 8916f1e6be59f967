import Verif.Spec.LibvirtNet
import Verif.Props.IfNames
import Verif.Lemmas.Box
import Mathlib.Tactic.NormNum
/-!
# C134: networks of libvirt labs
-/

namespace Netlab
open Spec

theorem subStr_iff (x : List Char) : ∀ s : List Char, subStr x s = true ↔ ∃ a b, s = a ++ x ++ b
  | [] => by
    unfold subStr
    rw [List.isEmpty_iff]
    constructor
    · rintro rfl
      exact ⟨[], [], rfl⟩
    · rintro ⟨a, b, h⟩
      have := congrArg List.length h
      simp only [List.length_nil, List.length_append] at this
      exact List.length_eq_zero_iff.mp (by omega)
  | c :: r => by
    unfold subStr
    rw [Bool.or_eq_true, List.isPrefixOf_iff_prefix, subStr_iff x r]
    constructor
    · rintro (⟨b, hb⟩ | ⟨a, b, hb⟩)
      · exact ⟨[], b, by simpa using hb.symm⟩
      · exact ⟨c :: a, b, by simp [hb]⟩
    · rintro ⟨a, b, h⟩
      cases a with
      | nil => exact Or.inl ⟨b, by simpa using h.symm⟩
      | cons d a =>
        simp only [List.cons_append, List.cons.injEq] at h
        exact Or.inr ⟨a, b, h.2⟩

theorem replStr_of_not {x : List Char} (hx : x ≠ []) (y : List Char) : ∀ {s : List Char}, subStr x s = false → replStr x y 0 s = s
  | [], _ => rfl
  | c :: r, h => by
    unfold subStr at h
    rw [Bool.or_eq_false_iff] at h
    unfold replStr
    rw [if_neg (by simp [h.1]), replStr_of_not hx y h.2]

/-! ### Management network -/

theorem lvIndex_nat (n : LvNet) (i : Nat) (h : i < n.size) : lvIndex n i = some (n.base + i) := by
  unfold lvIndex
  rw [if_pos (by omega), if_pos (by omega)]
  simp

theorem foldl_lvBind (l1 l2 : List XTok) (h1 : .more ∉ l1) (h2 : .more ∉ l2) (nodes : List (String × String)) :
    nodes.foldl lvBind (l1 ++ [.more] ++ l2) = l1 ++ nodes.map (fun h => .host h.1 h.2) ++ [.more] ++ l2 := by
  have hid : ∀ (n : String × String) (l : List XTok), .more ∉ l → l.flatMap (fun t => if t = .more then [.host n.1 n.2, .more] else [t]) = l := by
    intro n l hl
    induction l with
    | nil => rfl
    | cons t r ih =>
      rw [List.mem_cons, not_or] at hl
      rw [List.flatMap_cons, ih hl.2, if_neg (fun e => hl.1 e.symm)]
      rfl
  induction nodes generalizing l1 with
  | nil => simp
  | cons n r ih =>
    rw [List.foldl_cons]
    have : lvBind (l1 ++ [.more] ++ l2) n = (l1 ++ [.host n.1 n.2]) ++ [.more] ++ l2 := by
      unfold lvBind
      rw [List.flatMap_append, List.flatMap_append, hid n l1 h1, hid n l2 h2]
      simp
    rw [this, ih _ (by simp [h1])]
    simp

theorem subnet_mod4 {d : LvNet} {len : Nat} (h : Ipv4Subnet d len) (h2 : 2 < d.size) :
    d.base % 4 = 0 ∧ d.size % 4 = 0 ∧ d.size ≤ 2 ^ 32 := by
  obtain ⟨k, hk⟩ : ∃ k, 32 - len = k + 2 := by
    have : 2 ≤ 32 - len := by
      by_contra hc
      have hs := h.size
      have : 32 - len = 0 ∨ 32 - len = 1 := by omega
      rcases this with e | e <;> rw [e] at hs <;> omega
    exact ⟨32 - len - 2, by omega⟩
  have hs := h.size
  rw [hk, Nat.pow_add] at hs
  have h4 : d.size % 4 = 0 := by rw [hs]; omega
  refine ⟨?_, h4, ?_⟩
  · have ha := h.aligned
    have := Nat.mod_mod_of_dvd d.base (Nat.dvd_of_mod_eq_zero h4)
    rw [ha] at this
    omega
  · rw [h.size]
    exact Nat.pow_le_pow_right (by omega) (by omega)

/-- The names in the template are replaced with the names of the management network and bridge. -/
theorem lvText_names (net br : List Char) (hn : ¬ ∃ a b, net = a ++ "libvirt-mgmt".toList ++ b) :
    (let xml := if net = [] then lvShipped else lvText "vagrant-libvirt".toList net lvShipped
     if br = [] then xml else lvText "libvirt-mgmt".toList br xml) =
    [.text "<network><name>".toList, .text (nameOr "vagrant-libvirt" net),
     .text "</name><forward mode='nat'><nat><port start='1024' end='65535'/></nat></forward><bridge name='".toList,
     .text (nameOr "libvirt-mgmt" br), .text "' stp='on' delay='0'/><mac address='52:54:00:d8:3f:0d'/><ip address=".toList,
     .addr 3232266497, .text " netmask=".toList, .addr 4294967040, .text "><dhcp><range start=".toList, .addr 3232266498,
     .text " end=".toList, .addr 3232266595, .text "/>".toList, .more, .text "</dhcp></ip></network>".toList] := by
  have hs : subStr "libvirt-mgmt".toList net = false := by
    rw [← subStr_iff] at hn
    simpa using hn
  have h1 : ∀ y, replStr "vagrant-libvirt".toList y 0 "vagrant-libvirt".toList = y := by
    intro y
    simp [replStr]
  have h2 : ∀ y, replStr "libvirt-mgmt".toList y 0 "libvirt-mgmt".toList = y := by
    intro y
    simp [replStr]
  have k1 : ∀ y, lvText "vagrant-libvirt".toList y lvShipped = 
    [.text "<network><name>".toList, .text y,
     .text "</name><forward mode='nat'><nat><port start='1024' end='65535'/></nat></forward><bridge name='".toList,
     .text "libvirt-mgmt".toList, .text "' stp='on' delay='0'/><mac address='52:54:00:d8:3f:0d'/><ip address=".toList,
     .addr 3232266497, .text " netmask=".toList, .addr 4294967040, .text "><dhcp><range start=".toList, .addr 3232266498,
     .text " end=".toList, .addr 3232266595, .text "/>".toList, .more, .text "</dhcp></ip></network>".toList] := by
    intro y
    unfold lvText lvShipped
    simp only [List.map_cons, List.map_nil, h1]
    repeat rw [replStr_of_not (by decide) y (by decide +kernel)]
  have k2 : ∀ n y, replStr "libvirt-mgmt".toList y 0 n = n → lvText "libvirt-mgmt".toList y
    [.text "<network><name>".toList, .text n,
     .text "</name><forward mode='nat'><nat><port start='1024' end='65535'/></nat></forward><bridge name='".toList,
     .text "libvirt-mgmt".toList, .text "' stp='on' delay='0'/><mac address='52:54:00:d8:3f:0d'/><ip address=".toList,
     .addr 3232266497, .text " netmask=".toList, .addr 4294967040, .text "><dhcp><range start=".toList, .addr 3232266498,
     .text " end=".toList, .addr 3232266595, .text "/>".toList, .more, .text "</dhcp></ip></network>".toList] =
    [.text "<network><name>".toList, .text n,
     .text "</name><forward mode='nat'><nat><port start='1024' end='65535'/></nat></forward><bridge name='".toList,
     .text y, .text "' stp='on' delay='0'/><mac address='52:54:00:d8:3f:0d'/><ip address=".toList,
     .addr 3232266497, .text " netmask=".toList, .addr 4294967040, .text "><dhcp><range start=".toList, .addr 3232266498,
     .text " end=".toList, .addr 3232266595, .text "/>".toList, .more, .text "</dhcp></ip></network>".toList] := by
    intro n y hn
    unfold lvText
    simp only [List.map_cons, List.map_nil, h2, hn]
    repeat rw [replStr_of_not (by decide) y (by decide +kernel)]
  have hv : ∀ y, replStr "libvirt-mgmt".toList y 0 "vagrant-libvirt".toList = "vagrant-libvirt".toList :=
    fun y => replStr_of_not (by decide) y (by decide +kernel)
  have hk : ∀ y, replStr "libvirt-mgmt".toList y 0 net = net := fun y => replStr_of_not (by decide) y hs
  simp only
  by_cases hne : net = []
  · by_cases hbe : br = []
    · rw [if_pos hne, if_pos hbe]
      unfold nameOr
      rw [if_pos hne, if_pos hbe]
      rfl
    · rw [if_pos hne, if_neg hbe]
      unfold nameOr
      rw [if_pos hne, if_neg hbe]
      exact k2 _ _ (hv br)
  · by_cases hbe : br = []
    · rw [if_neg hne, if_pos hbe, k1]
      unfold nameOr
      rw [if_neg hne, if_pos hbe]
    · rw [if_neg hne, if_neg hbe, k1]
      unfold nameOr
      rw [if_neg hne, if_neg hbe]
      exact k2 _ _ (hk br)

/-- C134: the definition of the management network has the requested names, the first address and the mask of the management subnet,
a dynamic range of addresses ending before the addresses of nodes, and a binding for every node. -/
theorem C134_mgmt_network (net br : List Char) (hn : ¬ ∃ a b, net = a ++ "libvirt-mgmt".toList ++ b)
    {d : LvNet} {len : Nat} (hd : Ipv4Subnet d len) (hs : 2 < d.size) (start : Nat) (h1 : 1 ≤ start) (h2 : start ≤ d.size)
    (hc : d.base + 1 ≠ 3232266597 ∧ d.base + start - 1 ≠ 3232266597) (nodes : List (String × String)) :
    lvTemplate net br lvOld d start nodes lvShipped =
      some (mgmtNetworkXml (nameOr "vagrant-libvirt" net) (nameOr "libvirt-mgmt" br) (d.base + 1) (2 ^ 32 - d.size)
        (d.base + 2) (d.base + start - 1) nodes) := by
  obtain ⟨m1, m2, m3⟩ := subnet_mod4 hd hs
  have hsz : d.size < 2 ^ 32 ∨ d.size = 2 ^ 32 := by omega
  unfold lvTemplate
  have hx := lvText_names net br hn
  simp only at hx ⊢
  rw [hx]
  clear hx
  unfold lvSubnet
  have e1 : lvIndex lvOld 1 = some 3232266497 := rfl
  have e2 : lvIndex lvOld 2 = some 3232266498 := rfl
  have e3 : lvIndex lvOld 99 = some 3232266595 := rfl
  have e4 : lvMask lvOld = 4294967040 := rfl
  have d1 : lvIndex d 1 = some (d.base + 1) := lvIndex_nat d 1 (by omega)
  have d2 : lvIndex d 2 = some (d.base + 2) := lvIndex_nat d 2 (by omega)
  have d3 : lvIndex d ((start : Int) - 1) = some (d.base + (start - 1)) := by
    rw [show ((start : Int) - 1) = ((start - 1 : Nat) : Int) by omega]
    exact lvIndex_nat d _ (by omega)
  simp only [e1, e2, e3, e4, d1, d2, d3]
  generalize hm : lvMask d = m
  have hm4 : m % 4 = 0 := by
    rw [← hm]
    unfold lvMask
    omega
  have hbl : d.base + d.size ≤ 2 ^ 32 := hd.range
  simp only [lvReplace, List.map_cons, List.map_nil, reduceCtorEq, if_false, XTok.addr.injEq]
  have n1 : d.base + 1 ≠ 3232266498 := by omega
  have n2 : d.base + 1 ≠ 3232266595 := by omega
  have n3 : m ≠ 3232266497 := by omega
  have n4 : m ≠ 3232266498 := by omega
  have n5 : m ≠ 3232266595 := by omega
  have n6 : d.base + 2 ≠ 3232266595 := by omega
  have n7 : d.base + 1 ≠ 3232266597 := hc.1
  have n8 : d.base + 2 ≠ 3232266597 := by omega
  have n9 : d.base + (start - 1) ≠ 3232266597 := by omega
  have n10 : m ≠ 3232266597 := by omega
  norm_num [n1, n2, n3, n4, n5, n6]
  unfold lvStatic
  have e5 : lvIndex lvOld (100 + 1) = some 3232266597 := rfl
  simp only [e5]
  rw [if_neg (by simp [n7.symm, n8.symm, n9.symm, n10.symm])]
  refine ⟨_, rfl, ?_⟩
  unfold mgmtNetworkXml
  have := foldl_lvBind [XTok.text "<network><name>".toList, XTok.text (nameOr "vagrant-libvirt" net),
    XTok.text "</name><forward mode='nat'><nat><port start='1024' end='65535'/></nat></forward><bridge name='".toList,
    XTok.text (nameOr "libvirt-mgmt" br), XTok.text "' stp='on' delay='0'/><mac address='52:54:00:d8:3f:0d'/><ip address=".toList,
    XTok.addr (d.base + 1), XTok.text " netmask=".toList, XTok.addr m, XTok.text "><dhcp><range start=".toList, XTok.addr (d.base + 2),
    XTok.text " end=".toList, XTok.addr (d.base + (start - 1)), XTok.text "/>".toList] [XTok.text "</dhcp></ip></network>".toList]
    (by simp) (by simp) nodes
  have hm' : 4294967296 - d.size = m := by rw [← hm]; rfl
  rw [hm', show d.base + start - 1 = d.base + (start - 1) by omega]
  simpa using this

/-- C134: the addresses of nodes assigned from the management pool (the node with identifier `id` gets the address with the index
`start + id`) are after the last dynamic address. -/
theorem C134_node_addresses (d : LvNet) (start id a : Nat) (h1 : 1 ≤ start) (ha : lvIndex d ((id : Int) + start) = some a) :
    d.base + start - 1 < a := by
  unfold lvIndex at ha
  rw [if_pos (by omega)] at ha
  split at ha
  · simp only [Option.some.injEq] at ha
    omega
  · cases ha

/-- C134 (defect): the program crashes when the management subnet is too small, or the first node address is not in the subnet. -/
theorem C134_mgmt_crash (net br : List Char) (d : LvNet) (start : Nat) (h : d.size ≤ 2 ∨ d.size < start) (nodes : List (String × String))
    (xml : List XTok) : lvTemplate net br lvOld d start nodes xml = none := by
  unfold lvTemplate lvSubnet
  simp only
  rcases h with h | h
  · have : lvIndex d 2 = none := by
      unfold lvIndex
      rw [if_pos (by omega), if_neg (by omega)]
    rw [this]
    split
    · rename_i h4 _ _
      cases h4
    · rfl
  · have : lvIndex d ((start : Int) - 1) = none := by
      unfold lvIndex
      rw [if_pos (by omega), if_neg (by omega)]
    rw [this]
    split
    · rename_i h6
      cases h6
    · rfl

/-- C134 (defect): the management network gets a wrong name when the requested name contains the default name of the bridge, and a wrong
dynamic range (including the address of the first node) when nodes use the addresses from .102 in the default subnet. -/
theorem C134_mgmt_wrong :
    lvTemplate "libvirt-mgmt-2".toList "br2".toList lvOld lvOld 100 [] lvShipped =
      some (mgmtNetworkXml "br2-2".toList "br2".toList 3232266497 4294967040 3232266498 3232266595 []) ∧
    lvTemplate [] [] lvOld lvOld 102 [] lvShipped =
      some (mgmtNetworkXml "vagrant-libvirt".toList "libvirt-mgmt".toList 3232266497 4294967040 3232266498 (3232266496 + (102 + 1)) []) := by
  constructor <;> decide +kernel

/-- The hypotheses of `C134_mgmt_network` are met by 10.0.0.0/24. -/
example : Ipv4Subnet ⟨167772160, 256⟩ 24 ∧
    lvTemplate "nl_mgmt".toList [] lvOld ⟨167772160, 256⟩ 100 [("52:dc:ca:fe:01:00", "10.0.0.101")] lvShipped =
      some (mgmtNetworkXml "nl_mgmt".toList "libvirt-mgmt".toList 167772161 4294967040 167772162 167772259 [("52:dc:ca:fe:01:00", "10.0.0.101")]) := by
  refine ⟨⟨by decide, by decide, by decide, by decide⟩, by decide +kernel⟩

/-! ### Links -/

theorem lvSet_iff (v : Option String) : lvSet v = true ↔ HasValue v := by
  unfold lvSet HasValue
  cases v with
  | none => simp
  | some s => simp

theorem foldl_lvNode (prov : String → Option String) (nodes : List String) (l : LvLink) :
    let r := nodes.foldl (lvNode "libvirt" prov) l
    r.linkindex = l.linkindex ∧ r.type = l.type ∧ r.pub = l.pub ∧ r.uplink = l.uplink ∧ r.bridge = l.bridge ∧ r.nodes = l.nodes ∧
    (∀ s, s ∈ r.provs ↔ s ∈ l.provs ∨ ∃ n ∈ nodes, prov n = some s) ∧
    (∀ s u, l.uplink = some u → s ≠ "libvirt" → (∃ n ∈ nodes, prov n = some s) → r.sec.lookup s = some u) ∧
    (∀ s, ((∀ n ∈ nodes, prov n ≠ some s) ∨ s = "libvirt" ∨ l.uplink = none) → r.sec.lookup s = l.sec.lookup s) ∧
    (∀ s u, l.uplink = some u → l.sec.lookup s = some u → r.sec.lookup s = some u) := by
  induction nodes generalizing l with
  | nil =>
    simp
  | cons n rest ih =>
    simp only [List.foldl_cons]
    have step : (lvNode "libvirt" prov l n).linkindex = l.linkindex ∧ (lvNode "libvirt" prov l n).type = l.type ∧
        (lvNode "libvirt" prov l n).pub = l.pub ∧ (lvNode "libvirt" prov l n).uplink = l.uplink ∧
        (lvNode "libvirt" prov l n).bridge = l.bridge ∧ (lvNode "libvirt" prov l n).nodes = l.nodes ∧
        (∀ s, s ∈ (lvNode "libvirt" prov l n).provs ↔ s ∈ l.provs ∨ prov n = some s) ∧
        (∀ s, (lvNode "libvirt" prov l n).sec.lookup s =
          if prov n = some s ∧ s ≠ "libvirt" ∧ l.uplink.isSome then l.uplink else l.sec.lookup s) := by
      clear ih
      obtain ⟨li, ty, pb, up, pv, sc, br, nd⟩ := l
      cases hp : prov n with
      | none => simp [lvNode, hp]
      | some p =>
        have hmem : ∀ s, s ∈ (if pv.contains p then pv else pv ++ [p]) ↔ s ∈ pv ∨ some p = some s := by
          intro s
          simp only [Option.some.injEq]
          by_cases hc : pv.contains p = true
          · rw [if_pos hc]
            constructor
            · exact Or.inl
            · rintro (h | rfl)
              · exact h
              · simpa using hc
          · rw [if_neg hc]
            simp [eq_comm]
        cases up with
        | none =>
          simp only [lvNode, hp]
          refine ⟨trivial, trivial, trivial, trivial, trivial, trivial, hmem, ?_⟩
          intro s
          simp
        | some u =>
          simp only [lvNode, hp]
          by_cases hpl : p = "libvirt"
          · simp only [if_pos hpl]
            refine ⟨trivial, trivial, trivial, trivial, trivial, trivial, hmem, ?_⟩
            intro s
            rw [if_neg]
            rintro ⟨h1, h2, _⟩
            exact h2 (by cases h1; exact hpl)
          · simp only [if_neg hpl]
            refine ⟨trivial, trivial, trivial, trivial, trivial, trivial, hmem, ?_⟩
            intro s
            rw [lookup_setKey]
            by_cases hs : s = p
            · subst hs
              simp [hpl]
            · rw [if_neg hs, if_neg]
              rintro ⟨h1, _⟩
              exact hs (by cases h1; rfl)
    obtain ⟨s1, s2, s3, s4, s5, s6, s7, s8⟩ := step
    obtain ⟨i1, i2, i3, i4, i5, i6, i7, i8, i9, i10⟩ := ih (lvNode "libvirt" prov l n)
    refine ⟨i1.trans s1, i2.trans s2, i3.trans s3, i4.trans s4, i5.trans s5, i6.trans s6, ?_, ?_, ?_, ?_⟩
    · intro s
      rw [i7, s7]
      simp only [List.mem_cons, exists_eq_or_imp]
      tauto
    · intro s u hu hs hex
      rw [s4] at i8 i10
      simp only [List.mem_cons, exists_eq_or_imp] at hex
      rcases hex with h | h
      · apply i10 s u hu
        rw [s8, if_pos ⟨h, hs, by rw [hu]; rfl⟩, hu]
      · exact i8 s u hu hs h
    · intro s h
      rw [i9 s (by
        rcases h with h | h | h
        · exact Or.inl (fun m hm => h m (List.mem_cons_of_mem _ hm))
        · exact Or.inr (Or.inl h)
        · exact Or.inr (Or.inr (by rw [s4]; exact h))), s8, if_neg]
      rintro ⟨h1, h2, h3⟩
      rcases h with h | h | h
      · exact h n (List.mem_cons_self ..) h1
      · exact h2 h
      · rw [h] at h3; cases h3
    · intro s u hu hl
      apply i10 s u (by rw [s4]; exact hu)
      rw [s8]
      split
      · exact hu
      · exact hl

/-- Attributes of the link before the last step. -/
theorem lvUplink_same (l : LvLink) :
    (lvUplink l).linkindex = l.linkindex ∧ (lvUplink l).type = l.type ∧ (lvUplink l).pub = l.pub ∧ (lvUplink l).bridge = l.bridge ∧
    (lvUplink l).nodes = l.nodes ∧ (lvUplink l).provs = l.provs ∧ (lvUplink l).sec = l.sec := by
  unfold lvUplink
  split <;> simp

theorem isVlanLink_iff (l : LvLink) : IsVlanLink l ↔ subStr "vlan".toList (l.type.getD "").toList = true := by
  unfold IsVlanLink
  rw [subStr_iff]

/-- C134: links of a libvirt lab.  The result has the same links.  A public link has an uplink (by default `eth0`), a link with an
uplink has a public mode (by default `bridge`), all other providers used on the link have the same uplink.  Links that have to be
implemented with a bridge are LAN links with a bridge name; other links don't change. -/
theorem C134_links (prov : String → Option String) (p2pBridge : Bool) (name : String) (links : List LvLink) :
    (lvPre prov p2pBridge name links).length = links.length ∧
    ∀ (i : Nat) (l : LvLink), links[i]? = some l → ∃ r, (lvPre prov p2pBridge name links)[i]? = some r ∧
      r.linkindex = l.linkindex ∧ r.nodes = l.nodes ∧
      (HasValue l.uplink → r.uplink = l.uplink) ∧ (¬ HasValue l.uplink → HasValue l.pub → r.uplink = some "eth0") ∧
      (¬ HasValue l.uplink → ¬ HasValue l.pub → r.uplink = l.uplink) ∧
      (l.pub.isSome → r.pub = l.pub) ∧ (l.pub = none → HasValue l.uplink → r.pub = some "bridge") ∧
      (l.pub = none → ¬ HasValue l.uplink → r.pub = none) ∧
      (∀ s, s ∈ r.provs ↔ s ∈ l.provs ∨ ∃ n ∈ l.nodes, prov n = some s) ∧
      (∀ n ∈ l.nodes, ∀ s, prov n = some s → s ≠ "libvirt" → ∀ u, r.uplink = some u → r.sec.lookup s = some u) ∧
      (MustBeLan prov p2pBridge l → r.type = some "lan" ∧ r.bridge.isSome ∧ (l.bridge.isSome → r.bridge = l.bridge)) ∧
      (¬ MustBeLan prov p2pBridge l → r.type = l.type ∧ r.bridge = l.bridge) := by
  classical
  refine ⟨by simp [lvPre], ?_⟩
  intro i l hl
  refine ⟨lvFinal p2pBridge name (l.nodes.foldl (lvNode "libvirt" prov) (lvUplink l)), ?_, ?_⟩
  · unfold lvPre
    rw [List.getElem?_map, hl]
    rfl
  obtain ⟨u1, u2, u3, u4, u5, u6, u7⟩ := lvUplink_same l
  obtain ⟨f1, f2, f3, f4, f5, f6, f7, f8, f9, _⟩ := foldl_lvNode prov l.nodes (lvUplink l)
  have hup : (lvUplink l).uplink = if HasValue l.pub ∧ ¬ HasValue l.uplink then some "eth0" else l.uplink := by
    unfold lvUplink
    rw [← lvSet_iff, ← lvSet_iff]
    cases lvSet l.pub <;> cases lvSet l.uplink <;> simp
  generalize hx : l.nodes.foldl (lvNode "libvirt" prov) (lvUplink l) = x at *
  have hprov : x.provs.isEmpty = false ↔ MultiProvider prov l := by
    rw [List.isEmpty_eq_false_iff]
    unfold MultiProvider
    constructor
    · intro h
      obtain ⟨s, hs⟩ := List.exists_mem_of_ne_nil _ h
      rcases (f7 s).mp hs with h | ⟨n, hn, h⟩
      · left
        rintro e
        rw [u6, e] at h
        cases h
      · exact Or.inr ⟨n, hn, by rw [h]; rfl⟩
    · rintro (h | ⟨n, hn, h⟩)
      · obtain ⟨s, hs⟩ := List.exists_mem_of_ne_nil _ h
        exact List.ne_nil_of_mem ((f7 s).mpr (Or.inl (by rw [u6]; exact hs)))
      · obtain ⟨s, hs⟩ := Option.isSome_iff_exists.mp h
        exact List.ne_nil_of_mem ((f7 s).mpr (Or.inr ⟨n, hn, hs⟩))
  have hvl : IsVlanLink l ↔ subStr "vlan".toList (x.type.getD "").toList = true := by
    rw [isVlanLink_iff, f2, u2]
  -- the last step
  generalize hy : (if lvSet x.uplink && x.pub.isNone then { x with pub := some "bridge" } else x : LvLink) = y
  have y1 : y.linkindex = x.linkindex ∧ y.type = x.type ∧ y.uplink = x.uplink ∧ y.provs = x.provs ∧ y.sec = x.sec ∧ y.bridge = x.bridge ∧
      y.nodes = x.nodes ∧ y.pub = (if HasValue x.uplink ∧ x.pub = none then some "bridge" else x.pub) := by
    rw [← hy, ← lvSet_iff]
    by_cases hc : (lvSet x.uplink && x.pub.isNone) = true
    · rw [if_pos hc]
      simp only [Bool.and_eq_true, Option.isNone_iff_eq_none] at hc
      simp [hc]
    · rw [if_neg hc]
      simp only [Bool.and_eq_true, Option.isNone_iff_eq_none] at hc
      simp only [true_and]
      rw [if_neg hc]
  obtain ⟨y1, y2, y3, y4, y5, y6, y7, y8⟩ := y1
  have hneed : (((!y.provs.isEmpty && !subStr "vlan".toList (y.type.getD "").toList) || (p2pBridge && (y.type.getD "p2p") == "p2p")) = true) ↔
      MustBeLan prov p2pBridge l := by
    unfold MustBeLan
    rw [Bool.or_eq_true, Bool.and_eq_true, Bool.and_eq_true, Bool.not_eq_true', Bool.not_eq_true', y4, y2, hprov, hvl, beq_iff_eq, f2, u2,
      Bool.not_eq_true]
  have hfin : lvFinal p2pBridge name x = if ((!y.provs.isEmpty && !subStr "vlan".toList (y.type.getD "").toList) ||
      (p2pBridge && (y.type.getD "p2p") == "p2p")) = true then
      { y with type := some "lan", bridge := if y.bridge.isSome then y.bridge
                       else some (String.ofList (name.toList.take 10) ++ "_" ++ toString y.linkindex) } else y := by
    rw [← hy]
    rfl
  have hsame : (lvFinal p2pBridge name x).linkindex = y.linkindex ∧ (lvFinal p2pBridge name x).nodes = y.nodes ∧
      (lvFinal p2pBridge name x).uplink = y.uplink ∧ (lvFinal p2pBridge name x).pub = y.pub ∧
      (lvFinal p2pBridge name x).provs = y.provs ∧ (lvFinal p2pBridge name x).sec = y.sec := by
    rw [hfin]
    split <;> simp
  obtain ⟨z1, z2, z3, z4, z5, z6⟩ := hsame
  have hxu : x.uplink = if HasValue l.pub ∧ ¬ HasValue l.uplink then some "eth0" else l.uplink := f4.trans hup
  refine ⟨by rw [z1, y1, f1, u1], by rw [z2, y7, f6, u5], ?_, ?_, ?_, ?_, ?_, ?_, ?_, ?_, ?_, ?_⟩
  · intro h
    rw [z3, y3, hxu, if_neg (fun hc => hc.2 h)]
  · intro h1 h2
    rw [z3, y3, hxu, if_pos ⟨h2, h1⟩]
  · intro h1 h2
    rw [z3, y3, hxu, if_neg (fun hc => h2 hc.1)]
  · intro h
    rw [z4, y8, if_neg, f3, u3]
    rintro ⟨_, hn⟩
    rw [f3, u3] at hn
    rw [hn] at h
    cases h
  · intro h1 h2
    rw [z4, y8, if_pos]
    refine ⟨?_, by rw [f3, u3]; exact h1⟩
    rw [hxu, if_neg (fun hc => hc.2 h2)]
    exact h2
  · intro h1 h2
    rw [z4, y8, if_neg, f3, u3]
    · exact h1
    · rintro ⟨hv, _⟩
      rw [hxu] at hv
      have hnp : ¬ HasValue l.pub := by
        rintro ⟨s, hs, _⟩
        rw [h1] at hs
        cases hs
      rw [if_neg (fun hc => hnp hc.1)] at hv
      exact h2 hv
  · intro s
    rw [z5, y4, f7, u6]
  · intro n hn s hs hsl u hu
    rw [z6, y5]
    rw [z3, y3, f4] at hu
    exact f8 s u hu hsl ⟨n, hn, hs⟩
  · intro h
    rw [hfin, if_pos (hneed.mpr h)]
    have hyb : y.bridge = l.bridge := by rw [y6, f5, u4]
    simp only [hyb, true_and]
    constructor
    · split
      · assumption
      · rfl
    · intro hb
      rw [if_pos hb]
  · intro h
    rw [hfin, if_neg (fun hc => h (hneed.mp hc))]
    exact ⟨by rw [y2, f2, u2], by rw [y6, f5, u4]⟩

/-- C134: different links get different names of bridges. -/
theorem C134_bridge_names (prov : String → Option String) (p2pBridge : Bool) (name : String) {links : List LvLink} {i j : Nat}
    {li lj ri rj : LvLink} (hi : links[i]? = some li) (hj : links[j]? = some lj)
    (hri : (lvPre prov p2pBridge name links)[i]? = some ri) (hrj : (lvPre prov p2pBridge name links)[j]? = some rj)
    (hbi : li.bridge = none) (hbj : lj.bridge = none) (hne : li.linkindex ≠ lj.linkindex)
    (b : String) (hb : ri.bridge = some b) : rj.bridge ≠ some b := by
  have key : ∀ (k : Nat) (l r : LvLink), links[k]? = some l → (lvPre prov p2pBridge name links)[k]? = some r → l.bridge = none →
      ∀ b, r.bridge = some b → b = String.ofList (name.toList.take 10) ++ "_" ++ toString l.linkindex := by
    intro k l r hl hr hbl b hb
    unfold lvPre at hr
    rw [List.getElem?_map, hl] at hr
    simp only [Option.map_some, Option.some.injEq] at hr
    subst hr
    obtain ⟨u1, _, _, u4, _⟩ := lvUplink_same l
    obtain ⟨f1, _, _, _, f5, _⟩ := foldl_lvNode prov l.nodes (lvUplink l)
    generalize l.nodes.foldl (lvNode "libvirt" prov) (lvUplink l) = x at *
    have hxb : x.bridge = none := by rw [f5, u4, hbl]
    have hxi : x.linkindex = l.linkindex := by rw [f1, u1]
    unfold lvFinal at hb
    generalize hy : (if lvSet x.uplink && x.pub.isNone then { x with pub := some "bridge" } else x : LvLink) = y at hb
    have hyb : y.bridge = none := by
      rw [← hy]
      split <;> exact hxb
    have hyi : y.linkindex = l.linkindex := by
      rw [← hy]
      split <;> exact hxi
    simp only at hb
    split at hb
    · simp only [hyb, Option.isSome_none, Bool.false_eq_true, if_false, Option.some.injEq, hyi] at hb
      exact hb.symm
    · rw [hyb] at hb
      cases hb
  intro hb2
  have e1 := key i li ri hi hri hbi b hb
  have e2 := key j lj rj hj hrj hbj b hb2
  rw [e1] at e2
  have e3 := congrArg String.toList e2
  simp only [String.toList_append] at e3
  have e4 := List.append_cancel_left e3
  exact hne (repr_inj_list e4)

/-- A link between a VM and a container, and a public link. -/
example : lvPre (fun n => if n = "h" then some "clab" else none) false "verylonglabname"
    [{ linkindex := 1, type := some "p2p", nodes := ["r", "h"] }, { linkindex := 2, type := some "lan", pub := some "bridge", nodes := ["r", "h"] },
     { linkindex := 3, type := some "p2p", nodes := ["r", "s"] }, { linkindex := 4, type := some "stub", uplink := some "enp1", nodes := ["r"] }] =
    [{ linkindex := 1, type := some "lan", nodes := ["r", "h"], provs := ["clab"], bridge := some "verylongla_1" },
     { linkindex := 2, type := some "lan", pub := some "bridge", uplink := some "eth0", nodes := ["r", "h"], provs := ["clab"],
       sec := [("clab", "eth0")], bridge := some "verylongla_2" },
     { linkindex := 3, type := some "p2p", nodes := ["r", "s"] },
     { linkindex := 4, type := some "stub", uplink := some "enp1", pub := some "bridge", nodes := ["r"] }] := by decide +kernel

/-! ### Linux bridges -/

/-- C134: when a lab is started without errors, every libvirt network used by a link has been replaced with its Linux bridge, the bridge
forwards LLDP packets, and spanning tree is disabled; nothing is done on other bridges. -/
theorem C134_bridges (info : String → Option String) (ok : LvCmd → Bool) (links : List LvBrLink) :
    (lvPost info ok links).1.length = links.length ∧
    (∀ (i : Nat) (l : LvBrLink), links[i]? = some l → ∃ r, (lvPost info ok links).1[i]? = some r ∧ r.libvirt = l.libvirt ∧
      (∀ b x, UsesNetwork l b → info b = some x → r.bridge = some x) ∧
      ((¬ ∃ b x, UsesNetwork l b ∧ info b = some x) → r = l) ∧
      ((lvPost info ok links).2.2 = 0 → ∀ b, UsesNetwork l b → ∃ x, info b = some x ∧
        .forward x ∈ (lvPost info ok links).2.1 ∧ .stpOff x ∈ (lvPost info ok links).2.1)) ∧
    (∀ x, (.forward x ∈ (lvPost info ok links).2.1 ∨ .stpOff x ∈ (lvPost info ok links).2.1) →
      ∃ l ∈ links, ∃ b, UsesNetwork l b ∧ info b = some x) := by
  have one : ∀ l : LvBrLink, (lvPostLink info ok l).1.libvirt = l.libvirt ∧
      (∀ b x, UsesNetwork l b → info b = some x → (lvPostLink info ok l).1.bridge = some x) ∧
      ((¬ ∃ b x, UsesNetwork l b ∧ info b = some x) → (lvPostLink info ok l).1 = l) ∧
      ((lvPostLink info ok l).2.2 = 0 → ∀ b, UsesNetwork l b → ∃ x, info b = some x ∧
        .forward x ∈ (lvPostLink info ok l).2.1 ∧ .stpOff x ∈ (lvPostLink info ok l).2.1) ∧
      (∀ x, (.forward x ∈ (lvPostLink info ok l).2.1 ∨ .stpOff x ∈ (lvPostLink info ok l).2.1) → ∃ b, UsesNetwork l b ∧ info b = some x) := by
    intro l
    obtain ⟨br, lv⟩ := l
    unfold lvPostLink UsesNetwork
    cases br with
    | none => simp
    | some c =>
      simp only [Option.some.injEq]
      by_cases hc : c = ""
      · subst hc
        rw [if_pos rfl]
        refine ⟨rfl, ?_, fun _ => rfl, ?_, ?_⟩
        · rintro b x ⟨rfl, h, _⟩ _
          exact absurd rfl h
        · rintro _ b ⟨rfl, h, _⟩
          exact absurd rfl h
        · simp
      · rw [if_neg hc]
        cases lv with
        | false => simp
        | true =>
          simp only [Bool.not_true, Bool.false_eq_true, if_false]
          cases hi : info c with
          | none =>
            refine ⟨rfl, ?_, fun _ => rfl, ?_, ?_⟩
            · rintro b x ⟨rfl, _, _⟩ h
              rw [hi] at h
              cases h
            · intro h
              cases h
            · simp
          | some y =>
            have hex : ∃ b x, ((c = b ∧ b ≠ "" ∧ True) ∧ info b = some x) := ⟨c, y, ⟨rfl, hc, trivial⟩, hi⟩
            cases h1 : ok (.forward y) with
            | false =>
              simp only [h1, Bool.not_false, if_true]
              refine ⟨trivial, ?_, ?_, ?_, ?_⟩
              · rintro b x ⟨rfl, _, _⟩ h
                rw [hi] at h
                exact h
              · intro h
                exact absurd hex (by simpa using h)
              · intro h
                cases h
              · simp
            | true =>
              cases h2 : ok (.stpOff y) with
              | false =>
                simp only [h1, h2, Bool.not_true, Bool.not_false, Bool.false_eq_true, if_false, if_true]
                refine ⟨trivial, ?_, ?_, ?_, ?_⟩
                · rintro b x ⟨rfl, _, _⟩ h
                  rw [hi] at h
                  exact h
                · intro h
                  exact absurd hex (by simpa using h)
                · intro h
                  cases h
                · intro x hx
                  simp only [List.mem_singleton, LvCmd.forward.injEq, reduceCtorEq, or_false] at hx
                  subst hx
                  exact ⟨c, ⟨rfl, hc, trivial⟩, hi⟩
              | true =>
                simp only [h1, h2, Bool.not_true, Bool.false_eq_true, if_false]
                refine ⟨trivial, ?_, ?_, ?_, ?_⟩
                · rintro b x ⟨rfl, _, _⟩ h
                  rw [hi] at h
                  exact h
                · intro h
                  exact absurd hex (by simpa using h)
                · rintro _ b ⟨rfl, _, _⟩
                  exact ⟨y, hi, by simp, by simp⟩
                · intro x hx
                  simp only [List.mem_cons, LvCmd.forward.injEq, LvCmd.stpOff.injEq, reduceCtorEq, List.not_mem_nil, or_false, false_or,
                    or_self] at hx
                  subst hx
                  exact ⟨c, ⟨rfl, hc, trivial⟩, hi⟩
  induction links with
  | nil => simp [lvPost]
  | cons a rest ih =>
    obtain ⟨i1, i2, i3⟩ := ih
    obtain ⟨o1, o2, o3, o4, o5⟩ := one a
    refine ⟨by simp [lvPost, i1], ?_, ?_⟩
    · intro i l hl
      cases i with
      | zero =>
        simp only [List.getElem?_cons_zero, Option.some.injEq] at hl
        subst hl
        refine ⟨(lvPostLink info ok a).1, by simp [lvPost], o1, o2, o3, ?_⟩
        intro h0 b hb
        simp only [lvPost] at h0 ⊢
        obtain ⟨x, hx, hf, hs⟩ := o4 (by omega) b hb
        exact ⟨x, hx, List.mem_append_left _ hf, List.mem_append_left _ hs⟩
      | succ i =>
        simp only [List.getElem?_cons_succ] at hl
        obtain ⟨r, r1, r2, r3, r4, r5⟩ := i2 i l hl
        refine ⟨r, by simpa [lvPost] using r1, r2, r3, r4, ?_⟩
        intro h0 b hb
        simp only [lvPost] at h0 ⊢
        obtain ⟨x, hx, hf, hs⟩ := r5 (by omega) b hb
        exact ⟨x, hx, List.mem_append_right _ hf, List.mem_append_right _ hs⟩
    · intro x hx
      simp only [lvPost, List.mem_append] at hx
      have : (.forward x ∈ (lvPostLink info ok a).2.1 ∨ .stpOff x ∈ (lvPostLink info ok a).2.1) ∨
          (.forward x ∈ (lvPost info ok rest).2.1 ∨ .stpOff x ∈ (lvPost info ok rest).2.1) := by tauto
      rcases this with h | h
      · obtain ⟨b, hb⟩ := o5 x h
        exact ⟨a, List.mem_cons_self .., b, hb⟩
      · obtain ⟨l, hl, b, hb⟩ := i3 x h
        exact ⟨l, List.mem_cons_of_mem _ hl, b, hb⟩

example : lvPost (fun b => if b = "lab_1" then some "virbr1" else none) (fun _ => true)
    [⟨some "lab_1", true⟩, ⟨some "lab_2", false⟩, ⟨none, true⟩] =
    ([⟨some "virbr1", true⟩, ⟨some "lab_2", false⟩, ⟨none, true⟩], [.forward "virbr1", .stpOff "virbr1"], 0) := by decide +kernel

/-! ### Packet capture -/

/-- C134: a packet capture uses the interface the user asked for: the name of the device interface has precedence over the name of the
container interface; the command fails when there's no interface with that name. -/
theorem C134_capture_interface (ifs : List CapIntf) (arg : String) :
    (∀ i, capIntf ifs arg = some i → i ∈ ifs ∧ (i.ifname = arg ∨ (i.clab = some arg ∧ ∀ j ∈ ifs, j.ifname ≠ arg)) ∧
      (i.clab = none → capName i arg = arg) ∧ (∀ c, i.clab = some c → c ≠ "" → capName i arg = c)) ∧
    (capIntf ifs arg = none ↔ ∀ i ∈ ifs, i.ifname ≠ arg ∧ i.clab ≠ some arg) := by
  unfold capIntf
  cases hf : ifs.find? (fun i => i.ifname == arg) with
  | some i =>
    have hm := List.mem_of_find?_eq_some hf
    have hp := List.find?_some hf
    simp only [beq_iff_eq] at hp
    constructor
    · rintro j ⟨⟩
      refine ⟨hm, Or.inl hp, ?_, ?_⟩
      · intro h; unfold capName; rw [h]
      · intro c h hc; unfold capName; rw [h]; simp [hc]
    · simp only [reduceCtorEq, false_iff, not_forall]
      exact ⟨i, hm, fun h => h.1 hp⟩
  | none =>
    rw [List.find?_eq_none] at hf
    simp only [beq_iff_eq] at hf
    constructor
    · intro i hi
      have hm := List.mem_of_find?_eq_some hi
      have hp := List.find?_some hi
      simp only [beq_iff_eq] at hp
      refine ⟨hm, Or.inr ⟨hp, hf⟩, ?_, ?_⟩
      · intro h; unfold capName; rw [h]
      · intro c h hc; unfold capName; rw [h]; simp [hc]
    · simp only [List.find?_eq_none, beq_iff_eq]
      exact ⟨fun h i hi => ⟨hf i hi, h i hi⟩, fun h i hi => (h i hi).2⟩

/-- C134: the packets are captured on the VM interface attached to the network of the selected interface when the VM has a single
interface in that network. -/
theorem C134_capture_host (ifs : List CapIntf) (arg b tap : String) (rows : List (List String)) (i : CapIntf)
    (hi : i ∈ ifs) (hu : ∀ j ∈ ifs, j.ifname = arg → j = i) (hn : i.ifname = arg) (ht : i.tunnel = false) (hb : i.bridge = some b)
    (r : List String) (hr : r ∈ rows) (hl : r.length = 5) (h2 : r[2]? = some b) (h0 : r[0]? = some tap)
    (h1 : ∀ q ∈ rows, q.length = 5 → q[2]? = some b → q = r) : lvCapture ifs arg rows = some tap := by
  unfold lvCapture
  cases hf : ifs.find? (fun i => i.ifname == arg) with
  | none =>
    rw [List.find?_eq_none] at hf
    exact absurd (by simpa using hn) (hf i hi)
  | some j =>
    have hm := List.mem_of_find?_eq_some hf
    have hp := List.find?_some hf
    simp only [beq_iff_eq] at hp
    have := hu j hm hp
    subst this
    simp only [ht, Bool.false_eq_true, if_false]
    unfold lvTap
    cases hg : rows.find? (fun r => r.length == 5 && r[2]? == j.bridge) with
    | none =>
      rw [List.find?_eq_none] at hg
      exact absurd (by rw [h2, hb, hl]; simp) (hg r hr)
    | some q =>
      have qm := List.mem_of_find?_eq_some hg
      have qp := List.find?_some hg
      simp only [Bool.and_eq_true, beq_iff_eq] at qp
      have := h1 q qm qp.1 (by rw [qp.2, hb])
      subst this
      simpa using h0

/-- C134: there's no packet capture on point-to-point tunnels, and the capture never uses an interface that is not attached to the
network of the selected interface. -/
theorem C134_capture_sound (ifs : List CapIntf) (arg tap : String) (rows : List (List String)) (h : lvCapture ifs arg rows = some tap) :
    ∃ i ∈ ifs, i.ifname = arg ∧ i.tunnel = false ∧ ∃ r ∈ rows, r[2]? = i.bridge ∧ r[0]? = some tap := by
  unfold lvCapture at h
  cases hf : ifs.find? (fun i => i.ifname == arg) with
  | none => rw [hf] at h; cases h
  | some j =>
    rw [hf] at h
    simp only at h
    have hm := List.mem_of_find?_eq_some hf
    have hp := List.find?_some hf
    simp only [beq_iff_eq] at hp
    cases ht : j.tunnel with
    | true => rw [ht] at h; simp at h
    | false =>
      rw [ht] at h
      simp only [Bool.false_eq_true, if_false] at h
      refine ⟨j, hm, hp, ht, ?_⟩
      unfold lvTap at h
      rw [Option.bind_eq_some_iff] at h
      obtain ⟨r, h1, h2⟩ := h
      have qm := List.mem_of_find?_eq_some h1
      have qp := List.find?_some h1
      simp only [Bool.and_eq_true, beq_iff_eq] at qp
      exact ⟨r, qm, qp.2, h2⟩

/-- C134 (defect): when a VM has two interfaces in the same network, the packets are always captured on the first one. -/
theorem C134_capture_wrong :
    let ifs := [{ ifname := "eth1", bridge := some "lab_1" : CapIntf }, { ifname := "eth2", bridge := some "lab_1" }]
    let rows := [["vnet0", "bridge", "lab_1", "virtio", "52:54:00:00:00:01"], ["vnet1", "bridge", "lab_1", "virtio", "52:54:00:00:00:02"]]
    lvCapture ifs "eth1" rows = some "vnet0" ∧ lvCapture ifs "eth2" rows = some "vnet0" := by
  constructor <;> decide +kernel

end Netlab
