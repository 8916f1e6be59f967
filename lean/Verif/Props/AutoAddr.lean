import Verif.Spec.AutoAddr
import Verif.Props.IpamPolicy
import Verif.Props.Gateway
/-!
# C129: automatic addressing of a link always succeeds

The theorems about node identifiers (C02), gateway identifiers (C29), the choice of the addressing
policy (C09) and the duplicate check (C51) combined: in a lab without static addresses the only
reason for an addressing error is a prefix that is too small.
-/

namespace Netlab
open Spec

/-- Identifiers of different nodes are different and not reserved -/
theorem lab_ids {pyInt : String → Option Int} {reserved : IdVar} {nodes out : List NodeRec}
    (h : nodeIdPipeline pyInt reserved nodes = .ok out) (ids : String → Int)
    (hids : ∀ n ∈ out, n.id = some (.int (ids n.name))) :
    (∀ x ∈ nodes, 1 ≤ ids x.name ∧ ids x.name ≤ 250 ∧ .i (ids x.name) ∉ reserved.value) ∧
    (∀ x ∈ nodes, ∀ y ∈ nodes, x.name ≠ y.name → ids x.name ≠ ids y.name) := by
  obtain ⟨l, h1, h2, h3, h4, -⟩ := C02_node_ids pyInt reserved nodes out h
  have key : ∀ x ∈ nodes, ∃ (k : Nat) (o : NodeRec), out[k]? = some o ∧ o.name = x.name ∧ l[k]? = some (ids x.name) := by
    intro x hx
    have hm : x.name ∈ out.map (·.name) := by rw [h1]; exact List.mem_map_of_mem hx
    obtain ⟨o, ho, hn⟩ := List.mem_map.1 hm
    obtain ⟨k, hk, rfl⟩ := List.mem_iff_getElem.1 ho
    have hk' : out[k]? = some out[k] := by simp [hk]
    refine ⟨k, out[k], hk', hn, ?_⟩
    have h5 : (out.map (·.id))[k]? = some (some (.int (ids x.name))) := by
      rw [List.getElem?_map, hk', Option.map_some, hids _ ho, hn]
    rw [h2, List.getElem?_map] at h5
    cases hl : l[k]? with
    | none => rw [hl] at h5; cases h5
    | some i => rw [hl] at h5; simpa using h5
  constructor
  · intro x hx
    obtain ⟨k, o, -, -, hl⟩ := key x hx
    exact h4 _ (List.mem_of_getElem? hl)
  · intro x hx y hy hne he
    obtain ⟨j, o, ho, hon, hl⟩ := key x hx
    obtain ⟨k, p, hp, hpn, hm⟩ := key y hy
    rw [← he] at hm
    obtain ⟨lj, ej⟩ := List.getElem?_eq_some_iff.1 hl
    obtain ⟨lk, ek⟩ := List.getElem?_eq_some_iff.1 hm
    have hjk : j = k := (List.Nodup.getElem_inj_iff h3 (hi := lj) (hj := lk)).1 (by rw [ej, ek])
    subst hjk
    rw [ho] at hp
    cases hp
    exact hne (hon.symm.trans hpn)

/-- **C129.**  In a lab whose node identifiers were assigned without an error, take any link between
different nodes without static addresses and without an explicit addressing policy, and any
prefix that is not a multicast prefix and has room for the nodes and the first-hop gateway.  The
gateway identifier is the global one, or it is specified on a link or in a VLAN.  Then addressing
succeeds: every node gets an address of the prefix that is neither the subnet nor the broadcast
address, no two nodes have the same address, no node has the address of the gateway, and the
duplicate address check reports nothing. -/
theorem C129_automatic_addresses (pyInt : String → Option Int) (v : IdVar) (glob : Option Val)
    (other : List (Option Val)) (nodes lab : List NodeRec)
    (hlab : nodeIdPipeline pyInt (gwModuleInit v glob other).1 nodes = .ok lab)
    (ids : String → Int) (hids : ∀ n ∈ lab, n.id = some (.int (ids n.name)))
    (gwid : Option Int)
    (hgw : ∀ g, gwid = some g → glob = some (.int g) ∨ some (.int g) ∈ other)
    (p2p : Bool) (loop : String → Option Bool) (v6 : Bool) (pfx : Net) (hw : pfx.WF)
    (hmc : ∀ a, Covers pfx a → isMulticast pfx.w a = false)
    (names : List String) (hne : names ≠ []) (hnd : names.Nodup)
    (hin : ∀ n ∈ names, n ∈ nodes.map (·.name)) (hp2 : p2p = true → names.length ≤ 2)
    (hroom : RoomFor pfx gwid names.length) :
    ∃ addr : List Nat,
      assignAf p2p gwid none ids loop v6 pfx (names.map (⟨·, .missing⟩)) =
        some (names.zipWith (fun n a => ⟨n, .addr a pfx.plen⟩) addr, true) ∧
      addr.length = names.length ∧ addr.Nodup ∧ (∀ a ∈ addr, UsableHost pfx a) ∧
      (∀ a ∈ addr, ∀ g, gatewayAddr pfx gwid = some g → a ≠ g.1) ∧
      dupCheck (gatewayAddr pfx gwid) (names.zipWith (fun n a => ⟨n, .addr a pfx.plen⟩) addr) = 0 := by
  obtain ⟨hsz, hr1, hr2⟩ := hroom
  obtain ⟨hid1, hid2⟩ := lab_ids hlab ids hids
  have hname : ∀ n ∈ names, ∃ x ∈ nodes, x.name = n := by
    intro n hn
    obtain ⟨x, hx, e⟩ := List.mem_map.1 (hin n hn)
    exact ⟨x, hx, e⟩
  have hpos : ∀ n ∈ names, 1 ≤ ids n := by
    intro n hn
    obtain ⟨x, hx, rfl⟩ := hname n hn
    exact (hid1 x hx).1
  have hnog : ∀ n ∈ names, gwid ≠ some (ids n) := by
    intro n hn he
    obtain ⟨x, hx, rfl⟩ := hname n hn
    have hx1 := hid1 x hx
    have hxm : x.name ∈ lab.map (·.name) := by
      obtain ⟨_, h1, _⟩ := C02_node_ids pyInt _ nodes lab hlab
      rw [h1]; exact List.mem_map_of_mem hx
    obtain ⟨o, ho, hon⟩ := List.mem_map.1 hxm
    refine C29_gateway_id_not_node_id pyInt v glob other nodes lab hlab (ids x.name) (by omega)
      (hgw _ he) o ho ?_
    rw [hids o ho, hon]
  set ifs : List LinkIntf := names.map (⟨·, .missing⟩) with hifs
  have hlen : ifs.length = names.length := by simp [hifs]
  have hifne : ifs ≠ [] := by simpa [hifs] using hne
  have hmem : ∀ i ∈ ifs, i.node ∈ names ∧ i.ip = .missing := by
    intro i hi
    obtain ⟨n, hn, rfl⟩ := List.mem_map.1 hi
    exact ⟨hn, rfl⟩
  -- the policy
  have hpol : ∃ p, choosePolicy p2p gwid none ids pfx ifs = some p ∧ p ≠ .error ∧ p ≠ .loopback := by
    have htab := fun p => (C09_decision_table p2p gwid ids pfx ifs hifne p).2
    have hcast : ((2 : Int) ^ (pfx.w - pfx.plen)) = ((2 ^ (pfx.w - pfx.plen) : Nat) : Int) := by
      push_cast; rfl
    have h4 : 4 ≤ 2 ^ (pfx.w - pfx.plen) := by
      generalize pfx.w - pfx.plen = e at hsz
      match e, hsz with
      | 0, h => simp at h
      | 1, h => simp at h
      | e + 2, _ =>
        rw [Nat.pow_add]
        have := Nat.two_pow_pos e
        omega
    simp only [hcast] at htab hr2
    generalize 2 ^ (pfx.w - pfx.plen) = size at *
    have hszi : (size : Int) > 2 := by omega
    by_cases c1 : p2p = true ∧ gwid.getD 0 = 0
    · refine ⟨.p2p, htab _ ?_, by simp, by simp⟩
      simp only [c1, and_self, if_true]
      rw [if_pos (by omega)]
    · have c2 : ¬ ((size : Int) = 2 ∧ ifs.length = 2) := by omega
      have c3 : ¬ ((if (size : Int) > 2 then
          (if gwid.getD 0 < 0 then (size : Int) - max 2 (1 - gwid.getD 0) else size - 2)
          else (size : Int)) = 1) := by
        rw [if_pos hszi]
        by_cases hneg : gwid.getD 0 < 0
        · rw [if_pos hneg]
          cases hg : gwid with
          | none => rw [hg] at hneg; simp at hneg
          | some g =>
            rw [hg] at hneg
            simp only [Option.getD_some] at hneg ⊢
            have := (hr2 g hg).2 hneg
            omega
        · rw [if_neg hneg]
          have : 1 ≤ names.length := List.length_pos_of_ne_nil hne
          intro he
          omega
      by_cases c4 : ∀ i ∈ ifs, ids i.node ≤ (if (size : Int) > 2 then
          (if gwid.getD 0 < 0 then (size : Int) - max 2 (1 - gwid.getD 0) else size - 2)
          else (size : Int))
      · refine ⟨.idBased, htab _ ?_, by simp, by simp⟩
        simp only
        rw [if_neg c1, if_neg c2, if_neg c3, if_pos c4]
        trivial
      · refine ⟨.sequential, htab _ ?_, by simp, by simp⟩
        simp only
        rw [if_neg c1, if_neg c2, if_neg c3, if_neg c4, if_pos]
        · trivial
        rw [if_pos hszi, hlen]
        cases hg : gwid with
        | none => simp only [Option.getD_none]; split <;> split <;> omega
        | some g =>
          simp only [Option.getD_some]
          have h1 := (hr2 g hg).1
          have h2 := (hr2 g hg).2
          split <;> split <;> omega
  obtain ⟨p, hp, hpe, hpl⟩ := hpol
  obtain ⟨out, ho, hol, hou, hdup⟩ := C09_automatic_choice_succeeds p2p gwid ids loop v6 pfx ifs hw
    hsz hmc (fun i hi => (hmem i hi).2) (fun i hi => hpos _ (hmem i hi).1) hifne
    (by rw [hlen]; exact hp2) p hp hpe hpl
    (by
      intro j k x y hjk hx hy
      rw [hifs, List.getElem?_map] at hx hy
      obtain ⟨a, ha, rfl⟩ := Option.map_eq_some_iff.1 hx
      obtain ⟨b, hb, rfl⟩ := Option.map_eq_some_iff.1 hy
      obtain ⟨xa, hxa, ea⟩ := hname a (List.mem_of_getElem? ha)
      obtain ⟨xb, hxb, eb⟩ := hname b (List.mem_of_getElem? hb)
      simp only
      rw [← ea, ← eb]
      apply hid2 xa hxa xb hxb
      rw [ea, eb]
      rintro rfl
      obtain ⟨lj, ej⟩ := List.getElem?_eq_some_iff.1 ha
      obtain ⟨lk, ek⟩ := List.getElem?_eq_some_iff.1 hb
      exact hjk ((List.Nodup.getElem_inj_iff hnd (hi := lj) (hj := lk)).1 (by rw [ej, ek])))
    (fun i hi => hnog _ (hmem i hi).1)
  -- the addresses
  have hex : ∀ k, k < names.length → ∃ a, out[k]? = some ⟨names[k]!, .addr a pfx.plen⟩ ∧ UsableHost pfx a := by
    intro k hk
    obtain ⟨a, h1, h2⟩ := hou k ⟨names[k], .missing⟩ (by simp [hifs, hk])
    exact ⟨a, by simpa [hk] using h1, h2⟩
  set addr : List Nat := out.map (fun i => match i.ip with | .addr a _ => a | _ => 0) with haddr
  have hal : addr.length = names.length := by simp [haddr, hol, hlen]
  have hout : out = names.zipWith (fun n a => (⟨n, .addr a pfx.plen⟩ : LinkIntf)) addr := by
    apply List.ext_getElem?
    intro k
    by_cases hk : k < names.length
    · obtain ⟨a, h1, -⟩ := hex k hk
      rw [List.getElem?_zipWith, haddr, List.getElem?_map, h1]
      simp [hk]
    · rw [List.getElem?_eq_none (by omega), List.getElem?_eq_none (by simp [hal]; omega)]
  have hget : ∀ k (hk : k < addr.length), out[k]? = some ⟨names[k]!, .addr addr[k] pfx.plen⟩ ∧ UsableHost pfx addr[k] := by
    intro k hk
    obtain ⟨a, h1, h2⟩ := hex k (by omega)
    have e : addr[k] = a := by
      have : addr[k]? = some a := by rw [haddr, List.getElem?_map, h1]; rfl
      simpa [hk] using this
    rw [e]
    exact ⟨h1, h2⟩
  have hdup' := (C51_duplicate_check_exact _ _).1 hdup
  rw [hout] at ho hdup
  refine ⟨addr, ho, hal, ?_, ?_, ?_, hdup⟩
  · rw [List.nodup_iff_injective_getElem]
    rintro ⟨j, hj⟩ ⟨k, hk⟩ he
    by_contra hc
    have hjk : j ≠ k := fun h => hc (Fin.ext h)
    refine hdup'.1 j k _ _ addr[j] pfx.plen hjk (hget j hj).1 (hget k hk).1 rfl ?_
    simp only at he ⊢
    rw [he]
  · intro a ha
    obtain ⟨k, hk, rfl⟩ := List.mem_iff_getElem.1 ha
    exact (hget k hk).2
  · intro a ha g hg he
    obtain ⟨k, hk, rfl⟩ := List.mem_iff_getElem.1 ha
    refine hdup'.2 _ (List.mem_of_getElem? (hget k hk).1) g hg ?_
    have : g.2 = pfx.plen := by
      unfold gatewayAddr at hg
      split at hg
      · cases hg
      · split at hg
        · cases hg
        · obtain ⟨b, -, rfl⟩ := Option.map_eq_some_iff.1 hg
          rfl
    simp only [he, this]

/-- **C129 (the gateway must be known to the gateway module).**  A gateway identifier that is
specified only where the module does not look for it before node identifiers are assigned (on a
node, for example in the VLAN of a node) is not reserved: a node can have the same identifier, and
with ID-based addressing it gets the address of the gateway.  The duplicate check finds the
problem. -/
theorem C129_unreserved_gateway :
    nodeIdPipeline (fun _ => none) (gwModuleInit {} (some (.int (-2))) []).1 [⟨"a", none⟩, ⟨"b", none⟩] =
      .ok [⟨"a", some (.int 1)⟩, ⟨"b", some (.int 2)⟩] ∧
    assignAf false (some 1) none (fun n => if n = "a" then 1 else 2) (fun _ => none) false
        ⟨32, 167772160, 24⟩ [⟨"a", .missing⟩, ⟨"b", .missing⟩] =
      some ([⟨"a", .addr 167772161 24⟩, ⟨"b", .addr 167772162 24⟩], true) ∧
    gatewayAddr ⟨32, 167772160, 24⟩ (some 1) = some (167772161, 24) ∧
    dupCheck (gatewayAddr ⟨32, 167772160, 24⟩ (some 1))
      [⟨"a", .addr 167772161 24⟩, ⟨"b", .addr 167772162 24⟩] = 1 := by
  refine ⟨by
    simp [gwModuleInit, processGwId, nodeIdPipeline, validateNodeIds, transformNodeIds, reserveStatic,
      mustBeInt, checkIntType, MAX_NODE_ID, Val.truthy, reserveId, IdVar.isUsed, IdVar.extend, assignMissing,
      IdVar.setCounter, IdVar.getNext, nextLoop], by decide +kernel, by decide +kernel, by decide +kernel⟩

/-- **C129 (a node attached twice).**  The nodes of the link must be different: with ID-based
addressing the two interfaces of one node get the same address, which is reported as an error. -/
theorem C129_same_node_twice :
    assignAf false none none (fun n => if n = "a" then 1 else 2) (fun _ => none) false
        ⟨32, 167772160, 24⟩ [⟨"a", .missing⟩, ⟨"a", .missing⟩, ⟨"b", .missing⟩] =
      some ([⟨"a", .addr 167772161 24⟩, ⟨"a", .addr 167772161 24⟩, ⟨"b", .addr 167772162 24⟩], true) ∧
    dupCheck none [⟨"a", .addr 167772161 24⟩, ⟨"a", .addr 167772161 24⟩, ⟨"b", .addr 167772162 24⟩] = 1 := by
  constructor <;> decide +kernel

/-! ### The hypotheses are satisfiable -/

/-- Three nodes; the global gateway identifier is 1, so the first node has identifier 2; the
link uses 10.0.0.0/29 and all nodes are attached to it -/
example : ∃ lab,
    nodeIdPipeline (fun _ => none) (gwModuleInit {} (some (.int 1)) []).1
      [⟨"a", none⟩, ⟨"b", some (.int 7)⟩, ⟨"c", none⟩] = .ok lab ∧
    (∀ n ∈ lab, n.id = some (.int ((fun n => if n = "a" then 2 else if n = "b" then 7 else 3) n.name))) ∧
    Net.WF ⟨32, 167772160, 29⟩ ∧ RoomFor ⟨32, 167772160, 29⟩ (some 1) 3 ∧
    (∀ a, Covers ⟨32, 167772160, 29⟩ a → isMulticast 32 a = false) := by
  refine ⟨[⟨"a", some (.int 2)⟩, ⟨"b", some (.int 7)⟩, ⟨"c", some (.int 3)⟩], by
    simp [gwModuleInit, processGwId, nodeIdPipeline, validateNodeIds, transformNodeIds, reserveStatic,
      mustBeInt, checkIntType, MAX_NODE_ID, Val.truthy, reserveId, IdVar.isUsed, IdVar.extend, assignMissing,
      IdVar.setCounter, IdVar.getNext, nextLoop], ?_, ?_, ?_, ?_⟩
  · intro n hn
    simp only [List.mem_cons, List.not_mem_nil, or_false] at hn
    rcases hn with rfl | rfl | rfl <;> decide
  · refine ⟨by decide, by decide, by decide⟩
  · refine ⟨by decide, by decide, ?_⟩
    rintro g ⟨⟩
    exact ⟨by decide, by decide⟩
  · intro a ha
    unfold Covers at ha
    simp only at ha
    have h1 : a < 167772168 := by omega
    unfold isMulticast
    rw [if_pos (by decide)]
    apply decide_eq_false
    omega

end Netlab
