import Verif.Lemmas.Ipam
import Mathlib.Data.List.Nodup
/-!
# C06–C09: interface addresses on a link
-/

namespace Netlab
open Spec

/-! ### C06: ID-based allocation -/

/-- **C06.**  When ID-based addressing of a link completes without an error, every interface
without a static address gets the address "network address + node ID"; it is covered by the
prefix and it is neither the subnet nor the broadcast address. -/
theorem C06_id_based_addresses (p2p : Bool) (gwid : Option Int) (alloc : Option Policy)
    (ids : String → Int) (loop : String → Option Bool) (v6 : Bool) (pfx : Net)
    (ifs out : List LinkIntf) (hw : pfx.WF)
    (hp : choosePolicy p2p gwid alloc ids pfx ifs = some .idBased)
    (h : assignAf p2p gwid alloc ids loop v6 pfx ifs = some (out, true)) :
    out.length = ifs.length ∧
    ∀ (k : Nat) (i : LinkIntf), ifs[k]? = some i → i.ip = .missing → 0 ≤ ids i.node →
      ∃ a, out[k]? = some ⟨i.node, .addr a pfx.plen⟩ ∧ (a : Int) = pfx.base + ids i.node ∧
        UsableHost pfx a := by
  obtain ⟨p, hp', -, hr, hb⟩ := assignAf_ok h
  rw [hp] at hp'
  cases hp'
  simp only [runPolicy, ipamIdBased_eq, Option.some.injEq, Prod.mk.injEq, List.all_eq_true] at hr
  obtain ⟨rfl, hok⟩ := hr
  refine ⟨by simp, ?_⟩
  intro k i hk hm hid
  have hmem := List.mem_of_getElem? hk
  have h1 := hok i hmem
  rw [hm] at h1
  obtain ⟨hlt, hx⟩ := setAddress_missing_ok (x := (setAddress pfx (ids i.node) .missing).1) hid
    (by rw [← h1])
  refine ⟨pfx.base + (ids i.node).toNat, ?_, by omega, ?_⟩
  · rw [List.getElem?_map, hk]
    simp only [Option.map_some, hm, hx]
  · have hb' := hb _ (List.mem_map.2 ⟨i, hmem, rfl⟩)
    simp only [hm, hx] at hb'
    exact usable_of_hostBits hw (by omega) hb'

/-- **C06 (uniqueness).**  Two interfaces of nodes with different IDs never share an address
assigned by ID-based addressing. -/
theorem C06_id_based_distinct (p2p : Bool) (gwid : Option Int) (alloc : Option Policy)
    (ids : String → Int) (loop : String → Option Bool) (v6 : Bool) (pfx : Net)
    (ifs out : List LinkIntf) (hw : pfx.WF)
    (hp : choosePolicy p2p gwid alloc ids pfx ifs = some .idBased)
    (h : assignAf p2p gwid alloc ids loop v6 pfx ifs = some (out, true))
    (j k : Nat) (x y : LinkIntf) (hx : ifs[j]? = some x) (hy : ifs[k]? = some y)
    (hxm : x.ip = .missing) (hym : y.ip = .missing)
    (hx0 : 0 ≤ ids x.node) (hy0 : 0 ≤ ids y.node) (hne : ids x.node ≠ ids y.node) :
    out[j]?.map (·.ip) ≠ out[k]?.map (·.ip) := by
  obtain ⟨-, hall⟩ := C06_id_based_addresses p2p gwid alloc ids loop v6 pfx ifs out hw hp h
  obtain ⟨a, ha, ha2, -⟩ := hall j x hx hxm hx0
  obtain ⟨b, hb, hb2, -⟩ := hall k y hy hym hy0
  rw [ha, hb]
  simp only [Option.map_some, ne_eq, Option.some.injEq, IfAddr.addr.injEq, not_and]
  omega

/-- **C06 (error).**  If the ID of a node without a static address does not fit into the
prefix, an error is reported. -/
theorem C06_id_too_large_is_an_error (p2p : Bool) (gwid : Option Int) (alloc : Option Policy)
    (ids : String → Int) (loop : String → Option Bool) (v6 : Bool) (pfx : Net)
    (ifs : List LinkIntf) (hp : choosePolicy p2p gwid alloc ids pfx ifs = some .idBased)
    (i : LinkIntf) (hi : i ∈ ifs) (hm : i.ip = .missing)
    (hbig : 2 ^ (pfx.w - pfx.plen) ≤ ids i.node) :
    ∃ out, assignAf p2p gwid alloc ids loop v6 pfx ifs = some (out, false) := by
  rw [assignAf_eq hp (by simp)]
  simp only [runPolicy, ipamIdBased_eq, Option.map_some]
  refine ⟨_, congrArg some (Prod.ext rfl ?_)⟩
  have : ifs.all (fun i => (setAddress pfx (ids i.node) i.ip).2) = false := by
    rw [List.all_eq_false]
    refine ⟨i, hi, ?_⟩
    rw [hm, setAddress_missing_fail (by rw [net_size]; exact_mod_cast hbig)]
    simp
  simp [this]

/-! ### C07: sequential allocation -/

/-- **C07.**  When sequential addressing of a link completes without an error, the `k`-th
interface, if it has no static address, gets host number `seqHost start gateway k` (count
from the first usable host, skip the gateway); the address is usable in the prefix. -/
theorem C07_sequential_addresses (p2p : Bool) (gwid : Option Int) (alloc : Option Policy)
    (ids : String → Int) (loop : String → Option Bool) (v6 : Bool) (pfx : Net)
    (ifs out : List LinkIntf) (hw : pfx.WF)
    (hp : choosePolicy p2p gwid alloc ids pfx ifs = some .sequential)
    (h : assignAf p2p gwid alloc ids loop v6 pfx ifs = some (out, true)) :
    out.length = ifs.length ∧
    ∀ (k : Nat) (i : LinkIntf), ifs[k]? = some i → i.ip = .missing →
      ∃ a, out[k]? = some ⟨i.node, .addr a pfx.plen⟩ ∧
        (a : Int) = pfx.base + seqHost (if 2 ^ (pfx.w - pfx.plen) > 2 then 1 else 0) gwid k ∧
        UsableHost pfx a := by
  obtain ⟨p, hp', -, hr, hb⟩ := assignAf_ok h
  rw [hp] at hp'
  cases hp'
  simp only [runPolicy, ipamSequential_eq, Option.some.injEq, Prod.mk.injEq, List.all_eq_true] at hr
  obtain ⟨rfl, hok⟩ := hr
  refine ⟨by simp, ?_⟩
  intro k i hk hm
  have hst : ipamStart pfx = if 2 ^ (pfx.w - pfx.plen) > 2 then 1 else 0 := rfl
  have hst0 : 0 ≤ ipamStart pfx := by unfold ipamStart; split <;> omega
  have hge := (seqHost_ge (ipamStart pfx) gwid k).1
  rw [← hst]
  generalize hN : seqHost (ipamStart pfx) gwid k = N at *
  have hN0 : 0 ≤ N := by omega
  have hmem : (i, k) ∈ ifs.zipIdx := by
    rw [List.mem_zipIdx_iff_getElem?]
    exact hk
  have h1 := hok (i, k) hmem
  simp only [hN, hm] at h1
  obtain ⟨hlt, hx⟩ := setAddress_missing_ok (x := (setAddress pfx N .missing).1) hN0
    (by rw [← h1])
  refine ⟨pfx.base + N.toNat, ?_, by omega, ?_⟩
  · rw [List.getElem?_mapIdx, hk]
    simp only [Option.map_some, hN, hm, hx]
  · have hb' := hb ⟨i.node, .addr (pfx.base + N.toNat) pfx.plen⟩ (by
      refine List.mem_of_getElem? (i := k) ?_
      rw [List.getElem?_mapIdx, hk]
      simp only [Option.map_some, hN, hm, hx])
    exact usable_of_hostBits hw (by omega) hb'

/-- **C07 (order and uniqueness).**  Addresses assigned by sequential addressing increase in
the order of interfaces; in particular they are pairwise different. -/
theorem C07_sequential_increasing (p2p : Bool) (gwid : Option Int) (alloc : Option Policy)
    (ids : String → Int) (loop : String → Option Bool) (v6 : Bool) (pfx : Net)
    (ifs out : List LinkIntf) (hw : pfx.WF)
    (hp : choosePolicy p2p gwid alloc ids pfx ifs = some .sequential)
    (h : assignAf p2p gwid alloc ids loop v6 pfx ifs = some (out, true))
    (j k : Nat) (x y : LinkIntf) (hjk : j < k) (hx : ifs[j]? = some x) (hy : ifs[k]? = some y)
    (hxm : x.ip = .missing) (hym : y.ip = .missing) :
    ∃ a b, out[j]? = some ⟨x.node, .addr a pfx.plen⟩ ∧ out[k]? = some ⟨y.node, .addr b pfx.plen⟩ ∧
      a < b := by
  obtain ⟨-, hall⟩ := C07_sequential_addresses p2p gwid alloc ids loop v6 pfx ifs out hw hp h
  obtain ⟨a, ha, ha2, -⟩ := hall j x hx hxm
  obtain ⟨b, hb, hb2, -⟩ := hall k y hy hym
  refine ⟨a, b, ha, hb, ?_⟩
  have := seqHost_strictMono (if 2 ^ (pfx.w - pfx.plen) > 2 then 1 else 0) gwid hjk
  omega

/-- **C07 (gateway).**  Sequential addressing never hands out the address of a first-hop
gateway with a positive gateway ID. -/
theorem C07_sequential_skips_gateway (p2p : Bool) (g : Int) (alloc : Option Policy)
    (ids : String → Int) (loop : String → Option Bool) (v6 : Bool) (pfx : Net)
    (ifs out : List LinkIntf) (hw : pfx.WF)
    (hp : choosePolicy p2p (some g) alloc ids pfx ifs = some .sequential)
    (h : assignAf p2p (some g) alloc ids loop v6 pfx ifs = some (out, true)) (hg : 0 < g)
    (k : Nat) (x : LinkIntf) (hx : ifs[k]? = some x) (hxm : x.ip = .missing)
    (a b l m : Nat) (ha : out[k]? = some ⟨x.node, .addr a l⟩)
    (hb : gatewayAddr pfx (some g) = some (b, m)) : a ≠ b := by
  obtain ⟨-, hall⟩ := C07_sequential_addresses p2p (some g) alloc ids loop v6 pfx ifs out hw hp h
  obtain ⟨a', ha', ha2, -⟩ := hall k x hx hxm
  rw [ha] at ha'
  simp only [Option.some.injEq, LinkIntf.mk.injEq, IfAddr.addr.injEq, true_and] at ha'
  obtain ⟨rfl, -⟩ := ha'
  have hne := seqHost_ne_gw (if 2 ^ (pfx.w - pfx.plen) > 2 then 1 else 0) g k
  have hg0 : (g == 0) = false := by simp; omega
  simp only [gatewayAddr, hg0, Bool.false_eq_true, if_false, Net.nth?, Option.map_eq_some_iff,
    Prod.mk.injEq] at hb
  obtain ⟨c, hc, rfl, -⟩ := hb
  rw [if_pos (by omega)] at hc
  split at hc
  · simp only [Option.some.injEq] at hc
    omega
  · cases hc

/-- **C07 (exhaustion).**  If the number of the `k`-th interface does not fit into the prefix,
an error is reported. -/
theorem C07_exhaustion_is_an_error (p2p : Bool) (gwid : Option Int) (alloc : Option Policy)
    (ids : String → Int) (loop : String → Option Bool) (v6 : Bool) (pfx : Net)
    (ifs : List LinkIntf) (hp : choosePolicy p2p gwid alloc ids pfx ifs = some .sequential)
    (k : Nat) (i : LinkIntf) (hk : ifs[k]? = some i) (hm : i.ip = .missing)
    (hbig : 2 ^ (pfx.w - pfx.plen) ≤
      seqHost (if 2 ^ (pfx.w - pfx.plen) > 2 then 1 else 0) gwid k) :
    ∃ out, assignAf p2p gwid alloc ids loop v6 pfx ifs = some (out, false) := by
  rw [assignAf_eq hp (by simp)]
  simp only [runPolicy, ipamSequential_eq, Option.map_some]
  refine ⟨_, congrArg some (Prod.ext rfl ?_)⟩
  have : ifs.zipIdx.all
      (fun x => (setAddress pfx (seqHost (ipamStart pfx) gwid x.2) x.1.ip).2) = false := by
    rw [List.all_eq_false]
    refine ⟨(i, k), by rw [List.mem_zipIdx_iff_getElem?]; exact hk, ?_⟩
    have hst : ipamStart pfx = if 2 ^ (pfx.w - pfx.plen) > 2 then 1 else 0 := rfl
    rw [hm, setAddress_missing_fail (by rw [net_size, hst]; exact_mod_cast hbig)]
    simp
  simp [this]

/-- A gateway at the end of the subnet (negative gateway ID) is not skipped by explicitly
requested sequential allocation: the second of two nodes on a /30 gets the address of the
gateway with ID -2. -/
theorem C07_negative_gateway_not_skipped :
    ∃ out, assignAf false (some (-2)) (some .sequential) (fun _ => 1) (fun _ => none) false
        ⟨32, 167772160, 30⟩ [⟨"a", .missing⟩, ⟨"b", .missing⟩] = some (out, true) ∧
      gatewayAddr ⟨32, 167772160, 30⟩ (some (-2)) = some (167772162, 30) ∧
      ⟨"b", .addr 167772162 30⟩ ∈ out ∧
      dupCheck (gatewayAddr ⟨32, 167772160, 30⟩ (some (-2))) out = 1 :=
  ⟨[⟨"a", .addr 167772161 30⟩, ⟨"b", .addr 167772162 30⟩], by decide, by decide, by decide,
    by decide⟩

/-! ### The hypotheses are satisfiable -/

/-- C06: nodes 1, 2 and 7 on 172.16.0.0/24, one of them with a static host index -/
example :
    choosePolicy false none none (fun n => if n = "a" then 1 else if n = "b" then 2 else 7)
      ⟨32, 2886729728, 24⟩ [⟨"a", .missing⟩, ⟨"b", .index 42⟩, ⟨"c", .missing⟩] = some .idBased ∧
    assignAf false none none (fun n => if n = "a" then 1 else if n = "b" then 2 else 7)
      (fun _ => none) false ⟨32, 2886729728, 24⟩
      [⟨"a", .missing⟩, ⟨"b", .index 42⟩, ⟨"c", .missing⟩] =
      some ([⟨"a", .addr 2886729729 24⟩, ⟨"b", .addr 2886729770 24⟩, ⟨"c", .addr 2886729735 24⟩], true) ∧
    (⟨32, 2886729728, 24⟩ : Net).WF := by unfold Net.WF; decide

/-- C06: explicitly requested ID-based addressing, and an ID that does not fit -/
example : choosePolicy false none (some .idBased) (fun _ => 300) ⟨32, 2886729728, 24⟩
    [⟨"a", .missing⟩] = some .idBased ∧ ((2 : Int) ^ (32 - 24)) ≤ 300 := by decide

/-- C07: three nodes and gateway 2 on 172.16.0.0/28 -/
example :
    assignAf false (some 2) (some .sequential) (fun _ => 99) (fun _ => none) false
      ⟨32, 2886729728, 28⟩ [⟨"a", .missing⟩, ⟨"b", .missing⟩, ⟨"c", .missing⟩] =
      some ([⟨"a", .addr 2886729729 28⟩, ⟨"b", .addr 2886729731 28⟩, ⟨"c", .addr 2886729732 28⟩], true) ∧
    gatewayAddr ⟨32, 2886729728, 28⟩ (some 2) = some (2886729730, 28) := by decide

/-- C07: the fifth interface on a /30 cannot be numbered -/
example : ((2 : Int) ^ (32 - 30)) ≤ seqHost (if 2 ^ (32 - 30) > 2 then 1 else 0) none 4 := by decide

end Netlab
