import Verif.Spec.GatewayNode
import Verif.Props.Gateway
/-!
# C137: first-hop gateways in node data
-/

namespace Netlab
open Netlab.Spec

theorem isString_iff {v : Val} {s : String} : v.isString s = true ↔ v = .str s := by
  cases v <;> simp [Val.isString]

theorem gwProtoOf_str {d : List (String × Val)} {p : String} : gwProtoOf d = .str p ↔ d.lookup "protocol" = some (.str p) := by
  unfold gwProtoOf
  cases d.lookup "protocol" <;> simp

theorem mem_gwActive (ifs : List GwNodeIf) (acc : List Val) (v : Val) :
    v ∈ gwActive ifs acc ↔ v ∈ acc ∨ ∃ i ∈ ifs, ∃ d, i.gw = some (.data d) ∧ gwProtoOf d = v := by
  induction ifs generalizing acc with
  | nil => simp [gwActive]
  | cons i r ih =>
    unfold gwActive
    split
    · rename_i d hd
      rw [ih]
      have hacc : v ∈ (if acc.contains (gwProtoOf d) then acc else acc ++ [gwProtoOf d]) ↔ v ∈ acc ∨ gwProtoOf d = v := by
        split
        · rename_i hc
          constructor
          · exact .inl
          · rintro (h | rfl)
            · exact h
            · simpa using hc
        · simp [eq_comm]
      rw [hacc]
      simp only [List.mem_cons, exists_eq_or_imp, hd, Option.some.injEq, GwVal.data.injEq, exists_eq_left']
      rw [or_assoc]
    · rename_i hn
      rw [ih]
      simp only [List.mem_cons, exists_eq_or_imp]
      constructor
      · rintro (h | h)
        · exact .inl h
        · exact .inr (.inr h)
      · rintro (h | ⟨d, hd, -⟩ | h)
        · exact .inl h
        · exact absurd hd (hn d)
        · exact .inr h

theorem gwNodeIntf_data {g : Option GwVal} {d : List (String × Val)} : gwNodeIntf g = some (.data d) ↔ g = some (.data d) := by
  unfold gwNodeIntf
  split <;> simp_all

theorem gwUnicast_gw (i : GwNodeIf) : (gwUnicast i).gw = i.gw := by
  unfold gwUnicast
  split
  · split <;> rfl
  · rfl

theorem gwActive_map {f : GwNodeIf → GwNodeIf} (hf : ∀ i, (f i).gw = i.gw) (ifs : List GwNodeIf) (acc : List Val) :
    gwActive (ifs.map f) acc = gwActive ifs acc := by
  induction ifs generalizing acc with
  | nil => rfl
  | cons i r ih =>
    rw [List.map_cons]
    unfold gwActive
    rw [hf i]
    split
    · exact ih _
    · exact ih _

theorem gwUnsupported_zero (feats : List String) (ifs : List GwNodeIf) :
    gwUnsupported feats ifs = 0 ↔ ∀ i ∈ ifs, ∀ d, UsesGw i d → ∃ p ∈ feats, d.lookup "protocol" = some (.str p) := by
  unfold gwUnsupported
  rw [List.length_eq_zero_iff, List.filter_eq_nil_iff]
  constructor
  · intro h i hi d hd
    have := h (gwProtoOf d) ((mem_gwActive _ _ _).2 (.inr ⟨i, hi, d, hd, rfl⟩))
    simp only [Bool.not_eq_true', Bool.not_eq_false, List.any_eq_true, isString_iff] at this
    obtain ⟨f, hf, he⟩ := this
    exact ⟨f, hf, gwProtoOf_str.1 he⟩
  · intro h v hv
    rcases (mem_gwActive _ _ _).1 hv with hv | ⟨i, hi, d, hd, rfl⟩
    · simp at hv
    · obtain ⟨p, hp, hl⟩ := h i hi d hd
      simp only [Bool.not_eq_true', Bool.not_eq_false, List.any_eq_true, isString_iff]
      exact ⟨p, hp, gwProtoOf_str.2 hl⟩

/-- The interfaces after the first loop. -/
def gwFirst (ifs : List GwNodeIf) : List GwNodeIf := ifs.map (fun i => { i with gw := gwNodeIntf i.gw })

theorem gwFirst_uses (ifs : List GwNodeIf) (P : List (String × Val) → Prop) :
    (∀ i ∈ gwFirst ifs, ∀ d, UsesGw i d → P d) ↔ ∀ i ∈ ifs, ∀ d, UsesGw i d → P d := by
  unfold gwFirst UsesGw
  simp only [List.mem_map, forall_exists_index, and_imp, forall_apply_eq_imp_iff₂, gwNodeIntf_data]

/-- The cases of the transformation. -/
theorem gwNode_cases {protos feats : List String} {nodeGw : Option (List (String × Val))} {mods : List String}
    {ifs : List GwNodeIf} {o : GwNodeOut} (h : gwNode protos feats nodeGw mods ifs = some o) :
    (gwUnsupported feats (gwFirst ifs) ≠ 0 ∧ o = ⟨gwFirst ifs, nodeGw, mods, gwUnsupported feats (gwFirst ifs), 0⟩) ∨
    (gwUnsupported feats (gwFirst ifs) = 0 ∧ gwActive (gwFirst ifs) [] = [] ∧ o.mods = mods.filter (· != "gateway") ∧
      o.errs = 0 ∧ o.gw = none ∧
      o.ifs = ((gwFirst ifs).map gwUnicast).map (fun i => { gwCleanNodeIf protos (nodeGw.getD []) i with gw := none })) ∨
    (gwUnsupported feats (gwFirst ifs) = 0 ∧ gwActive (gwFirst ifs) [] ≠ [] ∧ o.mods = mods ∧ o.errs = 0 ∧
      o.gw = nodeGw.map (fun d => d.filter (fun p => (gwActive (gwFirst ifs) []).any (fun a => a.isString p.1))) ∧
      o.ifs = ((gwFirst ifs).map gwUnicast).map (gwCleanNodeIf protos (nodeGw.getD []))) := by
  unfold gwNode at h
  rw [show ifs.map (fun i => { i with gw := gwNodeIntf i.gw }) = gwFirst ifs from rfl] at h
  dsimp only at h
  split at h
  · cases h
  · split at h
    · rename_i hu
      cases h
      exact .inl ⟨by simpa using hu, rfl⟩
    · rename_i hu
      have hu' : gwUnsupported feats (gwFirst ifs) = 0 := by simpa using hu
      split at h
      · cases h
      · rw [gwActive_map gwUnicast_gw] at h
        split at h
        · rename_i ha
          cases h
          exact .inr (.inl ⟨hu', by simpa using ha, rfl, rfl, rfl, by simp⟩)
        · rename_i ha
          cases h
          exact .inr (.inr ⟨hu', by simpa using ha, rfl, rfl, rfl, rfl⟩)

/-- **C137 (support).**  An error is reported exactly when an interface uses a first-hop gateway protocol that is not
supported by the device; the interfaces are not changed in that case. -/
theorem C137_support {protos feats : List String} {nodeGw : Option (List (String × Val))} {mods : List String}
    {ifs : List GwNodeIf} {o : GwNodeOut} (h : gwNode protos feats nodeGw mods ifs = some o) :
    (o.errs = 0 ↔ ∀ i ∈ ifs, ∀ d, UsesGw i d → ∃ p ∈ feats, d.lookup "protocol" = some (.str p)) ∧
      (o.errs ≠ 0 → o.ifs.map (·.ipv4) = ifs.map (·.ipv4) ∧ o.gw = nodeGw ∧ o.mods = mods) := by
  have hz := gwUnsupported_zero feats (gwFirst ifs)
  rw [gwFirst_uses ifs (fun d => ∃ p ∈ feats, d.lookup "protocol" = some (.str p))] at hz
  rcases gwNode_cases h with ⟨h1, rfl⟩ | ⟨h1, -, -, h2, -⟩ | ⟨h1, -, -, h2, -⟩
  · refine ⟨hz, fun _ => ⟨?_, rfl, rfl⟩⟩
    simp [gwFirst]
  · exact ⟨⟨fun _ => hz.1 h1, fun _ => h2⟩, fun hn => absurd h2 hn⟩
  · exact ⟨⟨fun _ => hz.1 h1, fun _ => h2⟩, fun hn => absurd h2 hn⟩

theorem gwUnicast_ipv4 (i : GwNodeIf) : (AnycastOnly i → (gwUnicast i).ipv4 = none) ∧ (¬ AnycastOnly i → (gwUnicast i).ipv4 = i.ipv4) := by
  constructor
  · rintro ⟨d, a, hd, h1, h2, h3⟩
    have hne : d.isEmpty = false := by
      cases d with
      | nil => simp at h1
      | cons _ _ => rfl
    unfold gwUnicast
    rw [show i.gw = some (.data d) from hd]
    simp [hne, gwProtoOf, h1, Val.isString, gwNoUnicast, h2, h3]
  · intro hn
    unfold gwUnicast
    split
    · rename_i d hd
      split
      · rename_i hc
        exfalso
        simp only [Bool.and_eq_true, isString_iff] at hc
        obtain ⟨⟨-, hp⟩, hu⟩ := hc
        refine hn ?_
        unfold gwNoUnicast at hu
        split at hu
        · rename_i a ha
          split at hu
          · rename_i hb
            exact ⟨d, a, hd, gwProtoOf_str.1 hp, ha, hb⟩
          · cases hu
        · cases hu
      · rfl
    · rfl

theorem anycastOnly_first (i : GwNodeIf) : AnycastOnly { i with gw := gwNodeIntf i.gw } ↔ AnycastOnly i := by
  unfold AnycastOnly UsesGw
  simp only [gwNodeIntf_data]

/-- **C137 (unicast addresses).**  The IPv4 address is removed exactly from interfaces with an anycast gateway without unicast
addresses. -/
theorem C137_unicast {protos feats : List String} {nodeGw : Option (List (String × Val))} {mods : List String}
    {ifs : List GwNodeIf} {o : GwNodeOut} (h : gwNode protos feats nodeGw mods ifs = some o) (he : o.errs = 0)
    {k : Nat} {i : GwNodeIf} (hi : ifs[k]? = some i) :
    ∃ x, o.ifs[k]? = some x ∧ (AnycastOnly i → x.ipv4 = none) ∧ (¬ AnycastOnly i → x.ipv4 = i.ipv4) := by
  have hc : ∀ j : GwNodeIf, (gwCleanNodeIf protos (nodeGw.getD []) j).ipv4 = j.ipv4 := by
    intro j
    unfold gwCleanNodeIf
    split <;> rfl
  obtain ⟨u1, u2⟩ := gwUnicast_ipv4 { i with gw := gwNodeIntf i.gw }
  rw [anycastOnly_first] at u1 u2
  rcases gwNode_cases h with ⟨h1, rfl⟩ | ⟨-, -, -, -, -, h2⟩ | ⟨-, -, -, -, -, h2⟩
  · exact absurd he h1
  · refine ⟨{ gwCleanNodeIf protos (nodeGw.getD []) (gwUnicast { i with gw := gwNodeIntf i.gw }) with gw := none }, ?_, ?_, ?_⟩
    · rw [h2]; simp [gwFirst, hi]
    · simpa only [hc] using u1
    · simpa only [hc] using u2
  · refine ⟨gwCleanNodeIf protos (nodeGw.getD []) (gwUnicast { i with gw := gwNodeIntf i.gw }), ?_, ?_, ?_⟩
    · rw [h2]; simp [gwFirst, hi]
    · simpa only [hc] using u1
    · simpa only [hc] using u2

/-- **C137 (interfaces).**  An interface with a first-hop gateway keeps its gateway settings: attributes that do not describe a
protocol are not changed, parameters of other protocols are removed, and parameters of its protocol are node parameters
merged with interface parameters.  Interfaces without a gateway (or with the gateway disabled) have no gateway settings. -/
theorem C137_settings {protos feats : List String} {nodeGw : Option (List (String × Val))} {mods : List String}
    {ifs : List GwNodeIf} {o : GwNodeOut} (h : gwNode protos feats nodeGw mods ifs = some o) (he : o.errs = 0)
    {k : Nat} {i : GwNodeIf} (hi : ifs[k]? = some i) :
    ((∀ d, ¬ UsesGw i d) → ∃ x, o.ifs[k]? = some x ∧ x.gw = none) ∧
    (∀ d, UsesGw i d → (d.map (·.1)).Nodup → ∃ x d' p, o.ifs[k]? = some x ∧ UsesGw x d' ∧ d.lookup "protocol" = some (.str p) ∧
      ∀ key, (key ∉ protos → d'.lookup key = d.lookup key) ∧ (key ∈ protos → key ≠ p → d'.lookup key = none) ∧
        (key ∈ protos → key = p → d'.lookup key = (d.lookup key).map (fun x => match (nodeGw.getD []).lookup key with
          | some n => mergeVal n x
          | none => x))) := by
  have hmem := List.mem_of_getElem? hi
  have hon : ¬ ((gwFirst ifs).any gwIsOn) = true := by
    intro ht
    unfold gwNode at h
    rw [show ifs.map (fun i => { i with gw := gwNodeIntf i.gw }) = gwFirst ifs from rfl] at h
    dsimp only at h
    rw [if_pos ht] at h
    cases h
  have hsup := (C137_support h).1.1 he
  rcases gwNode_cases h with ⟨h1, rfl⟩ | ⟨-, hact, -, -, -, h2⟩ | ⟨-, -, -, -, -, h2⟩
  · exact absurd he h1
  · constructor
    · intro _
      exact ⟨{ gwCleanNodeIf protos (nodeGw.getD []) (gwUnicast { i with gw := gwNodeIntf i.gw }) with gw := none },
        by rw [h2]; simp [gwFirst, hi], rfl⟩
    · intro d hd _
      exfalso
      have : gwProtoOf d ∈ gwActive (gwFirst ifs) [] := by
        rw [mem_gwActive]
        refine .inr ⟨{ i with gw := gwNodeIntf i.gw }, ?_, d, gwNodeIntf_data.2 hd, rfl⟩
        exact List.mem_map.2 ⟨i, hmem, rfl⟩
      rw [hact] at this
      cases this
  · have hx : o.ifs[k]? = some (gwCleanNodeIf protos (nodeGw.getD []) (gwUnicast { i with gw := gwNodeIntf i.gw })) := by
      rw [h2]; simp [gwFirst, hi]
    have hg : (gwUnicast { i with gw := gwNodeIntf i.gw }).gw = gwNodeIntf i.gw := gwUnicast_gw _
    constructor
    · intro hn
      refine ⟨_, hx, ?_⟩
      unfold gwCleanNodeIf
      rw [hg]
      cases hgi : i.gw with
      | none => simp [gwNodeIntf, gwUnicast_gw]
      | some g =>
        cases g with
        | off => simp [gwNodeIntf, gwUnicast_gw]
        | data d => exact absurd hgi (hn d)
        | on =>
          refine absurd (List.any_eq_true.2 ⟨{ i with gw := gwNodeIntf i.gw }, List.mem_map.2 ⟨i, hmem, rfl⟩, ?_⟩) hon
          simp [gwIsOn, gwNodeIntf, hgi]
    · intro d hd hnd
      obtain ⟨p, -, hp⟩ := hsup i hmem d hd
      refine ⟨_, gwCleanIntf protos (nodeGw.getD []) d, p, hx, ?_, hp, fun key => C29_protocol_parameters protos _ d hnd p hp key⟩
      unfold UsesGw gwCleanNodeIf
      rw [hg, gwNodeIntf_data.2 hd]

/-- **C137 (node parameters).**  The node keeps exactly the parameters of protocols used on its interfaces. -/
theorem C137_node_parameters {protos feats : List String} {d : List (String × Val)} {mods : List String}
    {ifs : List GwNodeIf} {o : GwNodeOut} (h : gwNode protos feats (some d) mods ifs = some o) (he : o.errs = 0)
    (p : String) (v : Val) :
    (∃ d', o.gw = some d' ∧ (p, v) ∈ d') ↔ (p, v) ∈ d ∧ ∃ i ∈ ifs, GwProtocol i p := by
  have hm : ∀ p : String, Val.str p ∈ gwActive (gwFirst ifs) [] ↔ ∃ i ∈ ifs, GwProtocol i p := by
    intro p
    rw [mem_gwActive]
    unfold GwProtocol UsesGw gwFirst
    simp only [List.not_mem_nil, false_or, List.mem_map, exists_exists_and_eq_and, gwNodeIntf_data, gwProtoOf_str]
  rcases gwNode_cases h with ⟨h1, rfl⟩ | ⟨-, hact, -, -, h3, -⟩ | ⟨-, -, -, -, h3, -⟩
  · exact absurd he h1
  · rw [h3, ← hm p, hact]
    simp
  · rw [h3, ← hm p]
    simp only [Option.map_some, Option.some.injEq, exists_eq_left', List.mem_filter, List.any_eq_true, isString_iff, exists_eq_right]

/-- **C137 (module).**  The `gateway` module is removed from the node exactly when no interface of the node uses a first-hop
gateway; other modules are not changed. -/
theorem C137_module {protos feats : List String} {nodeGw : Option (List (String × Val))} {mods : List String}
    {ifs : List GwNodeIf} {o : GwNodeOut} (h : gwNode protos feats nodeGw mods ifs = some o) (he : o.errs = 0) :
    ((∃ i ∈ ifs, ∃ d, UsesGw i d) → o.mods = mods) ∧
    ((¬ ∃ i ∈ ifs, ∃ d, UsesGw i d) → o.gw = none ∧ ∀ m, m ∈ o.mods ↔ m ∈ mods ∧ m ≠ "gateway") := by
  have hm : gwActive (gwFirst ifs) [] ≠ [] ↔ ∃ i ∈ ifs, ∃ d, UsesGw i d := by
    constructor
    · intro hne
      obtain ⟨v, hv⟩ := List.exists_mem_of_ne_nil _ hne
      rcases (mem_gwActive _ _ _).1 hv with hv | ⟨i, hi, d, hd, -⟩
      · cases hv
      · obtain ⟨j, hj, rfl⟩ := List.mem_map.1 hi
        exact ⟨j, hj, d, gwNodeIntf_data.1 hd⟩
    · rintro ⟨i, hi, d, hd⟩
      exact List.ne_nil_of_mem (a := gwProtoOf d) ((mem_gwActive _ _ _).2 (.inr ⟨_, List.mem_map.2 ⟨i, hi, rfl⟩, d, gwNodeIntf_data.2 hd, rfl⟩))
  rcases gwNode_cases h with ⟨h1, rfl⟩ | ⟨-, hact, h2, -, h3, -⟩ | ⟨-, hact, h2, -, h3, -⟩
  · exact absurd he h1
  · refine ⟨fun hx => absurd hact (hm.2 hx), fun _ => ⟨h3, fun m => ?_⟩⟩
    rw [h2]
    simp
  · exact ⟨fun _ => h2, fun hn => absurd (hm.1 hact) hn⟩

/-- An anycast gateway without unicast addresses, a disabled gateway and an interface without gateway. -/
example : gwNode ["anycast", "vrrp"] ["anycast"] (some [("anycast", .dict [("mac", .str "m")]), ("vrrp", .dict [])]) ["gateway", "vlan"]
    [⟨some (.data [("protocol", .str "anycast"), ("anycast", .dict [("unicast", .bool false)]), ("vrrp", .dict [])]), some (.str "10.0.0.1/24")⟩,
     ⟨some .off, some (.str "10.0.1.1/24")⟩, ⟨none, none⟩] =
    some ⟨[⟨some (.data [("protocol", .str "anycast"), ("anycast", .dict [("mac", .str "m"), ("unicast", .bool false)])]), none⟩,
     ⟨none, some (.str "10.0.1.1/24")⟩, ⟨none, none⟩], some [("anycast", .dict [("mac", .str "m")])], ["gateway", "vlan"], 0, 0⟩ := by
  rfl

/-- No gateway on any interface. -/
example : gwNode ["anycast", "vrrp"] ["anycast"] none ["gateway", "vlan"] [⟨some .off, none⟩] =
    some ⟨[⟨none, none⟩], none, ["vlan"], 0, 1⟩ := by rfl

end Netlab
