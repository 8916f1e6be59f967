import Verif.Model.Gateway
import Verif.Spec.Gateway
import Verif.Lemmas.Box
import Verif.Props.NodeId
/-!
# C29: first-hop gateways
-/

namespace Netlab
open Spec

/-! ### Lemmas -/

theorem gwStep1_some_off (is : List GwIntf) : (gwStep1 (some .off) is).1 = some .off ∧
    (gwStep1 (some .off) is).2.2.2 = false := by
  induction is with
  | nil => exact ⟨rfl, rfl⟩
  | cons i is ih =>
    rw [gwStep1]
    cases i.gw with
    | none => exact ih
    | some g => cases g <;> exact ih

theorem gwStep1_enabled (g : GwVal) (hg : g ≠ .off) (is : List GwIntf) :
    gwStep1 (some g) is = (some g, is, 0, false) := by
  induction is with
  | nil => rfl
  | cons i is ih =>
    cases g with
    | off => exact absurd rfl hg
    | on => simp only [gwStep1]; cases hi : i.gw with
      | none => simp only [ih]
      | some x => cases x <;> simp only [ih]
    | data d => simp only [gwStep1]; cases hi : i.gw with
      | none => simp only [ih]
      | some x => cases x <;> simp only [ih]

theorem gwStep1_none_quiet (is : List GwIntf) (h : ∀ i ∈ is, ¬ AsksForGateway i.gw) :
    gwStep1 none is = (none, is, 0, false) := by
  induction is with
  | nil => rfl
  | cons i is ih =>
    have ih := ih (fun j hj => h j (List.mem_cons_of_mem _ hj))
    have h0 := h i (List.mem_cons_self ..)
    rw [gwStep1]
    cases hi : i.gw with
    | none => simp only [ih]
    | some x =>
      cases x with
      | off => simp only [ih]
      | on => exact absurd (Or.inl hi) h0
      | data d => exact absurd (Or.inr ⟨d, hi⟩) h0

theorem gwStep1_none_asked (is : List GwIntf) (h : ∃ i ∈ is, AsksForGateway i.gw) :
    gwStep1 none is = (some .on, is, 0, true) := by
  induction is with
  | nil => obtain ⟨i, hi, -⟩ := h; cases hi
  | cons i is ih =>
    rw [gwStep1]
    cases hi : i.gw with
    | none =>
      obtain ⟨j, hj, hr⟩ := h
      rcases List.mem_cons.1 hj with e | hj
      · subst e; rcases hr with hr | ⟨d, hr⟩ <;> rw [hi] at hr <;> cases hr
      · simp only [ih ⟨j, hj, hr⟩]
    | some x =>
      cases x with
      | off =>
        obtain ⟨j, hj, hr⟩ := h
        rcases List.mem_cons.1 hj with e | hj
        · subst e; rcases hr with hr | ⟨d, hr⟩ <;> rw [hi] at hr <;> cases hr
        · simp only [ih ⟨j, hj, hr⟩]
      | on => simp only [gwStep1_enabled .on (fun e => by cases e) is]
      | data d => simp only [gwStep1_enabled .on (fun e => by cases e) is]

theorem gwStep1_off_ifs (is : List GwIntf) (g : Option GwVal) :
    (gwStep1 g is).2.1.length = is.length := by
  induction is generalizing g with
  | nil => rfl
  | cons i is ih =>
    rcases g with _ | (_ | _ | _) <;> simp only [gwStep1] <;> cases i.gw with
    | none => simp [ih]
    | some x => cases x <;> simp [ih]

theorem gwFinish_gw (d ifs w e) : (gwFinish d ifs w e).gw = some (.data d) := by
  unfold gwFinish; split <;> rfl

/-! ### Properties -/

/-- **C29 (settings).**  The gateway data of a link after the transformation, for all link and
interface attributes: with `gateway: False` on the link there is none; link settings are merged
with global settings, link settings having precedence; `gateway: True` on the link, or any request
on an interface of a link without the `gateway` attribute, gives the global settings; without any
request there is no gateway data. -/
theorem C29_link_settings (pe : List (String × Val) → Nat) (glob : List (String × Val))
    (hglob : glob ≠ []) (ifs : List GwIntf) :
    (gwLink pe glob (some .off) ifs).gw = none ∧
    (gwLink pe glob (some .on) ifs).gw = some (.data glob) ∧
    (∀ d, (gwLink pe glob (some (.data d)) ifs).gw = some (.data (mergeDict glob d))) ∧
    ((∃ i ∈ ifs, AsksForGateway i.gw) → (gwLink pe glob none ifs).gw = some (.data glob)) ∧
    ((∀ i ∈ ifs, ¬ AsksForGateway i.gw) → (gwLink pe glob none ifs).gw = none) := by
  have hg : glob.isEmpty = false := by cases glob <;> simp_all
  refine ⟨?_, ?_, fun d => ?_, fun h => ?_, fun h => ?_⟩
  · simp only [gwLink, (gwStep1_some_off ifs).1, hg]; rfl
  · simp only [gwLink, gwStep1_enabled .on (fun e => by cases e) ifs, hg]
    exact gwFinish_gw ..
  · simp only [gwLink, gwStep1_enabled (.data d) (fun e => by cases e) ifs, hg]
    exact gwFinish_gw ..
  · simp only [gwLink, gwStep1_none_asked ifs h, hg]
    exact gwFinish_gw ..
  · simp only [gwLink, gwStep1_none_quiet ifs h]

/-- **C29 (enabled iff requested).**  A link has gateway data after the transformation iff the
gateway is requested on the link, or the link says nothing and an interface requests it. -/
theorem C29_enabled_iff (pe : List (String × Val) → Nat) (glob : List (String × Val))
    (hglob : glob ≠ []) (lg : Option GwVal) (ifs : List GwIntf) :
    (gwLink pe glob lg ifs).gw.isSome = true ↔
      AsksForGateway lg ∨ (lg = none ∧ ∃ i ∈ ifs, AsksForGateway i.gw) := by
  obtain ⟨h1, h2, h3, h4, h5⟩ := C29_link_settings pe glob hglob ifs
  cases lg with
  | none =>
    by_cases h : ∃ i ∈ ifs, AsksForGateway i.gw
    · simp [h4 h, h]
    · rw [h5 (fun i hi hr => h ⟨i, hi, hr⟩)]
      simp only [Option.isSome_none, Bool.false_eq_true, true_and, false_iff]
      rintro (h' | h')
      · rcases h' with h' | ⟨d, h'⟩ <;> cases h'
      · exact h h'
  | some g =>
    cases g with
    | on => simp [h2, AsksForGateway]
    | off => simp [h1, AsksForGateway]
    | data d => simp [h3, AsksForGateway]

/-- **C29 (turned off on the link).**  With `gateway: False` on the link, no interface has gateway
data. -/
theorem C29_link_off (pe : List (String × Val) → Nat) (glob : List (String × Val))
    (hglob : glob ≠ []) (ifs : List GwIntf) :
    (gwLink pe glob (some .off) ifs).errors = 0 ∧
    (gwLink pe glob (some .off) ifs).ifs.length = ifs.length ∧
    ∀ i ∈ (gwLink pe glob (some .off) ifs).ifs, i.gw = none := by
  have hg : glob.isEmpty = false := by cases glob <;> simp_all
  obtain ⟨h1, h2⟩ := gwStep1_some_off ifs
  simp only [gwLink, h1, h2, hg]
  refine ⟨rfl, ?_, ?_⟩
  · simp [gwStep1_off_ifs]
  · simp only [Bool.false_eq_true, if_false, List.mem_map]
    rintro i ⟨j, -, rfl⟩
    rfl

/-- **C29 (checked settings).**  When no error is reported, the gateway identifier of a link with
a gateway is an integer other than 0 and -1, and the link has a gateway protocol. -/
theorem C29_checked (pe : List (String × Val) → Nat) (glob : List (String × Val))
    (hglob : glob ≠ []) (lg : Option GwVal) (ifs : List GwIntf) (d : List (String × Val))
    (he : (gwLink pe glob lg ifs).errors = 0) (hd : (gwLink pe glob lg ifs).gw = some (.data d)) :
    GatewayIdOk d ∧ ∃ p, d.lookup "protocol" = some p ∧ p.truthy = true := by
  have hg : glob.isEmpty = false := by cases glob <;> simp_all
  have fin : ∀ x w e is, (gwFinish x is w e).errors = 0 → (gwFinish x is w e).gw = some (.data d) →
      GatewayIdOk d ∧ ∃ p, d.lookup "protocol" = some p ∧ p.truthy = true := by
    intro x w e is h1 h2
    rw [gwFinish_gw] at h2
    have hx : x = d := by cases h2; rfl
    subst hx
    unfold gwFinish at h1
    by_cases hc : gwCheck x = true
    · rw [if_pos hc] at h1
      simp only [gwCheck, Bool.and_eq_true] at hc
      obtain ⟨⟨c1, c2⟩, c3⟩ := hc
      refine ⟨?_, ?_⟩
      · cases hi : x.lookup "id" with
        | none => simp [hi, Val.truthy] at c1
        | some v =>
          cases v with
          | int i =>
            refine ⟨i, hi, ?_, ?_⟩
            · rintro rfl; simp [hi, Val.truthy] at c1
            · rintro rfl
              simp [hi, Val.isInt] at h1
          | _ => simp [hi, Val.isTrueInt] at c3
      · cases hp : x.lookup "protocol" with
        | none => simp [hp, Val.truthy] at c2
        | some v => exact ⟨v, rfl, by simpa [hp] using c2⟩
    · rw [if_neg hc] at h1
      simp at h1
  unfold gwLink at he hd
  generalize hr : gwStep1 lg ifs = R at he hd
  obtain ⟨a, b, c, f⟩ := R
  simp only [hg] at he hd
  cases a with
  | none => cases hd
  | some g =>
    cases g with
    | on => exact fin _ _ _ _ he hd
    | off => cases hd
    | data x => exact fin _ _ _ _ he hd

/-- **C29 (gateway requested on an interface).**  The link says nothing about the gateway and an
interface requests it.  When no error is reported, the gateway is turned off on every interface of
a node using the gateway module that did not request it; an interface with `gateway: True` gets the
link settings (those of nodes using the module by losing their own attribute, those of other
nodes as a copy), and interface parameters are kept. -/
theorem C29_interface_request (pe : List (String × Val) → Nat) (glob : List (String × Val))
    (hglob : glob ≠ []) (ifs : List GwIntf) (hr : ∃ i ∈ ifs, AsksForGateway i.gw)
    (he : (gwLink pe glob none ifs).errors = 0) (k : Nat) (i : GwIntf) (hk : ifs[k]? = some i) :
    ∃ o, (gwLink pe glob none ifs).ifs[k]? = some o ∧ o.node = i.node ∧
      (i.gw = none → o.gw = if i.uses then some .off else none) ∧
      (i.gw = some .off → o.gw = some .off) ∧
      (i.gw = some .on → o.gw = if i.uses then none else some (.data glob)) ∧
      (∀ d, i.gw = some (.data d) → o.gw = some (.data d)) := by
  have hg : glob.isEmpty = false := by cases glob <;> simp_all
  have hc : gwCheck glob = true := by
    simp only [gwLink, gwStep1_none_asked ifs hr, hg, gwFinish] at he
    by_cases hc : gwCheck glob = true
    · exact hc
    · simp [hc] at he
  simp only [gwLink, gwStep1_none_asked ifs hr, hg, gwFinish, hc, if_true, Bool.false_eq_true,
    if_false, List.getElem?_map, hk, Option.map_some]
  refine ⟨_, rfl, ?_⟩
  obtain ⟨n, u, g⟩ := i
  rcases g with _ | (_ | _ | d) <;> cases u <;> simp [gwStep2, gwStep3]

/-- **C29 (gateway enabled on the link).**  Interfaces of a link with an enabled gateway keep their
own settings; `gateway: True` is replaced with link settings; `gateway: False` stays. -/
theorem C29_interfaces_of_enabled_link (pe : List (String × Val) → Nat)
    (glob : List (String × Val)) (hglob : glob ≠ []) (lg : Option GwVal) (ifs : List GwIntf)
    (hl : AsksForGateway lg) (he : (gwLink pe glob lg ifs).errors = 0) (k : Nat) (i : GwIntf)
    (hk : ifs[k]? = some i) :
    ∃ o, (gwLink pe glob lg ifs).ifs[k]? = some o ∧ o.node = i.node ∧
      (i.gw ≠ some .on → o.gw = i.gw) ∧
      (i.gw = some .on → o.gw = (gwLink pe glob lg ifs).gw) := by
  have hg : glob.isEmpty = false := by cases glob <;> simp_all
  have fin : ∀ x w e, (gwFinish x ifs w e).errors = 0 →
      ∃ o, (gwFinish x ifs w e).ifs[k]? = some o ∧ o.node = i.node ∧
        (i.gw ≠ some .on → o.gw = i.gw) ∧
        (i.gw = some .on → o.gw = (gwFinish x ifs w e).gw) := by
    intro x w e h1
    unfold gwFinish at h1 ⊢
    by_cases hc : gwCheck x = true
    · simp only [if_pos hc, List.getElem?_map, hk, Option.map_some]
      refine ⟨_, rfl, ?_⟩
      obtain ⟨n, u, g⟩ := i
      rcases g with _ | (_ | _ | d) <;> simp [gwStep3]
    · rw [if_neg hc] at h1
      simp at h1
  rcases hl with rfl | ⟨d, rfl⟩
  · have h0 : gwLink pe glob (some .on) ifs = gwFinish glob ifs 0 0 := by
      simp [gwLink, gwStep1_enabled .on (fun e => by cases e) ifs, hg]
    rw [h0] at he ⊢
    exact fin _ _ _ he
  · have h0 : gwLink pe glob (some (.data d)) ifs = gwFinish (mergeDict glob d) ifs 0 (pe d) := by
      simp [gwLink, gwStep1_enabled (.data d) (fun e => by cases e) ifs, hg]
    rw [h0] at he ⊢
    exact fin _ _ _ he

/-- **C29 (gateway address).**  The gateway address computed from an identifier that passed
the checks is neither the first nor the last address of the subnet, unless the identifier is the
subnet size minus one or the negative subnet size (see
`C29_gateway_on_broadcast_address`). -/
theorem C29_gateway_address (pfx : Net) (i : Int) (a l : Nat) (h0 : i ≠ 0) (h1 : i ≠ -1)
    (h : gatewayAddr pfx (some i) = some (a, l)) :
    (pfx.base < a ∧ a < pfx.base + pfx.size - 1 ↔ i ≠ pfx.size - 1 ∧ i ≠ - (pfx.size : Int)) ∧
    pfx.base ≤ a ∧ a < pfx.base + pfx.size ∧ l = pfx.plen := by
  simp only [gatewayAddr, beq_iff_eq, h0, if_false] at h
  obtain ⟨b, hb, hab⟩ := Option.map_eq_some_iff.1 h
  cases hab
  unfold Net.nth? at hb
  by_cases hi : 0 ≤ i
  · rw [if_pos hi] at hb
    by_cases hs : i < pfx.size
    · rw [if_pos hs] at hb
      cases hb
      exact ⟨by omega, by omega, by omega, rfl⟩
    · rw [if_neg hs] at hb; cases hb
  · rw [if_neg hi] at hb
    by_cases hs : -i ≤ pfx.size
    · rw [if_pos hs] at hb
      cases hb
      exact ⟨by omega, by omega, by omega, rfl⟩
    · rw [if_neg hs] at hb; cases hb

/-- Defect: gateway identifier 3 is accepted and becomes the broadcast address of a /30 subnet;
gateway identifier -4 becomes the subnet address. -/
theorem C29_gateway_on_broadcast_address :
    (gwLink (fun _ => 0) [("id", .int 3), ("protocol", .str "anycast")] (some .on) []).errors = 0 ∧
    gatewayAddr ⟨32, 4, 30⟩ (some 3) = some (7, 30) ∧
    (gwLink (fun _ => 0) [("id", .int (-4)), ("protocol", .str "vrrp")] (some .on) []).errors = 0 ∧
    gatewayAddr ⟨32, 4, 30⟩ (some (-4)) = some (4, 30) := by
  refine ⟨?_, ?_, ?_, ?_⟩ <;> rfl

/-! ### Gateway identifiers and node identifiers -/

theorem processGwId_mono (v : IdVar) (g : Option Val) (r : Bool) (x : IdVal)
    (h : x ∈ v.value) : x ∈ (processGwId v g r).1.value := by
  unfold processGwId
  split
  · exact h
  · exact h
  · split
    · exact h
    · unfold reserveId
      split
      · exact h
      · simp only [Option.getD_some, IdVar.extend]
        exact List.mem_append_right _ h
  · exact h

theorem processGwId_reserves (v : IdVar) (i : Int) (hi : 0 ≤ i) (r : Bool) :
    IdVal.i i ∈ (processGwId v (some (.int i)) r).1.value := by
  have : ¬ i < 0 := by omega
  simp only [processGwId, if_neg this, reserveId]
  by_cases hu : v.isUsed (.i i) = true
  · rw [if_pos hu]
    simpa [IdVar.isUsed] using hu
  · rw [if_neg hu]
    simp [IdVar.extend]

theorem foldl_processGwId (other : List (Option Val)) (s : IdVar × Nat) (i : Int)
    (h : IdVal.i i ∈ s.1.value ∨ (0 ≤ i ∧ some (.int i) ∈ other)) :
    IdVal.i i ∈ (other.foldl (fun a g =>
      let r := processGwId a.1 g false; (r.1, a.2 + r.2)) s).1.value := by
  induction other generalizing s with
  | nil => rcases h with h | ⟨-, h⟩; exact h; cases h
  | cons g gs ih =>
    rw [List.foldl_cons]
    apply ih
    rcases h with h | ⟨h0, h⟩
    · exact .inl (processGwId_mono _ _ _ _ h)
    · rcases List.mem_cons.1 h with e | h
      · rw [← e]; exact .inl (processGwId_reserves _ _ h0 _)
      · exact .inr ⟨h0, h⟩

/-- **C29 (gateway identifiers are not used for nodes).**  No node gets an identifier (static or
automatic) equal to a non-negative gateway identifier specified globally, on a link, or in a VLAN;
consequently the address of a node derived from its identifier differs from the gateway address. -/
theorem C29_gateway_id_not_node_id (pyInt : String → Option Int) (v : IdVar) (glob : Option Val)
    (other : List (Option Val)) (nodes out : List NodeRec)
    (h : nodeIdPipeline pyInt (gwModuleInit v glob other).1 nodes = .ok out)
    (g : Int) (hg : 0 ≤ g) (hgw : glob = some (.int g) ∨ some (.int g) ∈ other) :
    ∀ n ∈ out, n.id ≠ some (.int g) := by
  obtain ⟨ids, -, h2, -, h4, -⟩ := C02_node_ids pyInt _ nodes out h
  have hres : IdVal.i g ∈ (gwModuleInit v glob other).1.value := by
    unfold gwModuleInit
    apply foldl_processGwId
    rcases hgw with rfl | hgw
    · exact .inl (processGwId_reserves _ _ hg _)
    · exact .inr ⟨hg, hgw⟩
  intro n hn he
  have hm : some (Val.int g) ∈ out.map (·.id) := List.mem_map.2 ⟨n, hn, he⟩
  rw [h2] at hm
  obtain ⟨i, hi, hie⟩ := List.mem_map.1 hm
  cases hie
  exact (h4 _ hi).2.2 hres

/-! ### Protocol parameters -/

/-- **C29 (protocol parameters).**  After the final cleanup, interface gateway data has no
parameters for protocols other than the active one, other attributes are unchanged, and the
parameters of the active protocol are node parameters merged with interface parameters, the latter
having precedence. -/
theorem C29_protocol_parameters (protos : List String) (nodeGw d : List (String × Val))
    (hd : (d.map (·.1)).Nodup) (proto : String) (hp : d.lookup "protocol" = some (.str proto))
    (k : String) :
    (k ∉ protos → (gwCleanIntf protos nodeGw d).lookup k = d.lookup k) ∧
    (k ∈ protos → k ≠ proto → (gwCleanIntf protos nodeGw d).lookup k = none) ∧
    (k ∈ protos → k = proto → (gwCleanIntf protos nodeGw d).lookup k =
      (d.lookup k).map (fun x => match nodeGw.lookup k with
        | some n => mergeVal n x
        | none => x)) := by
  unfold gwCleanIntf
  rw [hp]
  simp only [Option.getD_some]
  have key : ∀ d : List (String × Val), (d.map (·.1)).Nodup →
      (d.filterMap (gwCleanAttr protos (.str proto) nodeGw)).lookup k =
        (d.lookup k).bind (fun x => (gwCleanAttr protos (.str proto) nodeGw (k, x)).map (·.2)) := by
    intro d
    induction d with
    | nil => intro _; rfl
    | cons p r ih =>
      intro hn
      obtain ⟨a, b⟩ := p
      simp only [List.map_cons, List.nodup_cons] at hn
      have hfst : ∀ y, gwCleanAttr protos (.str proto) nodeGw (a, b) = some y → y.1 = a := by
        intro y hy
        unfold gwCleanAttr at hy
        split at hy
        · split at hy
          · split at hy <;> (cases hy; rfl)
          · cases hy
        · cases hy; rfl
      by_cases hk : k = a
      · subst hk
        rw [lookup_cons_self]
        simp only [Option.bind_some, List.filterMap_cons]
        cases hy : gwCleanAttr protos (.str proto) nodeGw (k, b) with
        | none =>
          simp only [Option.map_none]
          rw [ih hn.2, lookup_eq_none_iff.2 hn.1]; rfl
        | some y =>
          obtain ⟨y1, y2⟩ := y
          have := hfst _ hy
          simp only at this
          subst this
          simp [lookup_cons_self]
      · rw [lookup_cons_ne _ _ (by simpa using hk), List.filterMap_cons]
        cases hy : gwCleanAttr protos (.str proto) nodeGw (a, b) with
        | none => simp only; exact ih hn.2
        | some y =>
          obtain ⟨y1, y2⟩ := y
          have := hfst _ hy
          simp only at this
          subst this
          simp only
          rw [lookup_cons_ne _ _ (by simpa using hk)]
          exact ih hn.2
  rw [key d hd]
  refine ⟨fun h => ?_, fun h hne => ?_, fun h he => ?_⟩
  · cases d.lookup k <;> simp [gwCleanAttr, h]
  · have : (Val.str proto).isString k = false := by
      simpa [Val.isString] using fun e : proto = k => hne e.symm
    cases d.lookup k <;> simp [gwCleanAttr, h, this]
  · subst he
    have : (Val.str k).isString k = true := by simp [Val.isString]
    cases d.lookup k with
    | none => rfl
    | some x =>
      simp only [Option.bind_some, gwCleanAttr, List.contains_iff_mem, h, if_true, this,
        Option.map_some]
      cases nodeGw.lookup k <;> rfl

/-- Non-vacuity: a VLAN-like link with three routers, one asking for a gateway. -/
example :
    let glob : List (String × Val) := [("id", .int (-2)), ("protocol", .str "anycast")]
    let r := gwLink (fun _ => 0) glob none
      [⟨"r1", true, some .on⟩, ⟨"r2", true, none⟩, ⟨"h1", false, none⟩]
    r.errors = 0 ∧ r.gw = some (.data glob) ∧
      r.ifs = [⟨"r1", true, none⟩, ⟨"r2", true, some .off⟩, ⟨"h1", false, none⟩] := by
  refine ⟨?_, ?_, ?_⟩ <;> rfl

/-- Non-vacuity: gateway identifier 1 is skipped when node identifiers are assigned. -/
example : nodeIdPipeline (fun _ => none) (gwModuleInit {} (some (.int 1)) [some (.int 3)]).1
    [⟨"r1", none⟩, ⟨"r2", none⟩] = .ok [⟨"r1", some (.int 2)⟩, ⟨"r2", some (.int 4)⟩] := by
  simp [gwModuleInit, processGwId, nodeIdPipeline, validateNodeIds, transformNodeIds, reserveStatic,
    MAX_NODE_ID, reserveId, IdVar.isUsed, IdVar.extend, assignMissing, IdVar.setCounter,
    IdVar.getNext, nextLoop]

/-- Non-vacuity: parameters of the inactive protocol are removed. -/
example : gwCleanIntf ["anycast", "vrrp"] [("vrrp", .dict [("priority", .int 20)])]
    [("protocol", .str "vrrp"), ("anycast", .dict []), ("vrrp", .dict [("group", .int 1)])] =
    [("protocol", .str "vrrp"), ("vrrp", .dict [("priority", .int 20), ("group", .int 1)])] := by
  rfl

end Netlab
