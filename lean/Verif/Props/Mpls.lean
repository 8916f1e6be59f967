import Verif.Spec.Mpls
import Mathlib.Data.List.Forall2
/-!
# C67: MPLS
-/

namespace Netlab
open Spec

/-! ## LDP -/

theorem ldpIntf_ok {csc : Bool} {i j : LdpIntf} {e : Nat} (hi : i.ldp = none) (h : ldpIntf csc i = some (j, e)) :
    j.intf = i.intf ∧ (j.ldp.isSome = true ↔ RunsLdp i) ∧
      ∀ p, j.ldp = some p → (p = true ↔ LdpPassive i) := by
  unfold ldpIntf at h
  by_cases h1 : "ipv4" ∈ i.intf.af
  · rw [if_neg (by simp [h1])] at h
    by_cases h2 : i.intf.vrf = none
    · rw [if_neg (by simp [h2]), if_neg (by simp [h2])] at h
      simp only at h
      by_cases h3 : i.intf.role = "external"
      · rw [if_pos (by simp [h3])] at h
        cases h
        simp [RunsLdp, h3]
      · rw [if_neg (by simp [h3])] at h
        by_cases h4 : i.mplsLdp = some true
        · rw [if_pos (by simp [h4])] at h
          cases h
        · rw [if_neg (by simp [h4])] at h
          cases h
          refine ⟨rfl, by simp [RunsLdp, h1, h2, h3], ?_⟩
          intro p hp
          cases hp
          simp only [igpPassive, isTrueStub, LdpPassive]
          by_cases h5 : i.intf.role = "passive" <;> by_cases h6 : i.intf.role = "stub" <;>
            by_cases h7 : i.intf.type = "stub" <;> simp [h3, h5, h6, h7]
    · have h2' : i.intf.vrf.isSome = true := by
        cases hv : i.intf.vrf with
        | none => exact absurd hv h2
        | some v => rfl
      have hno : ¬ RunsLdp i := fun h => h2 h.2.1
      by_cases h3 : i.mplsLdp = some true
      · rw [if_neg (by simp [h3])] at h
        by_cases h4 : csc = true
        · rw [if_neg (by simp [h4])] at h
          simp only at h
          split at h
          · cases h
            simp [hno]
          · split at h
            · cases h
            · rename_i h5
              simp [h3] at h5
        · rw [if_pos (by simp [h2', h4])] at h
          cases h
          simp [hi, hno]
      · rw [if_pos (by simp [h2', h3])] at h
        cases h
        simp [hi, hno]
  · rw [if_pos (by simp [h1])] at h
    cases h
    simp [hi, RunsLdp, h1]

theorem ldpIntf_none {csc : Bool} {i : LdpIntf} : ldpIntf csc i = none ↔
    "ipv4" ∈ i.intf.af ∧ i.mplsLdp = some true ∧ i.intf.role ≠ "external" ∧
      (i.intf.vrf ≠ none → csc = true) := by
  unfold ldpIntf
  cases h2 : i.intf.vrf <;> by_cases h1 : "ipv4" ∈ i.intf.af <;> by_cases h3 : i.mplsLdp = some true <;>
    by_cases h4 : i.intf.role = "external" <;> cases csc <;> simp [h1, h3, h4]

theorem ldpLoop_spec {csc : Bool} : ∀ {ifs js : List LdpIntf} {e : Nat}, ldpLoop csc ifs = some (js, e) →
    (∀ i ∈ ifs, i.ldp = none) →
    List.Forall₂ (fun i j => j.intf = i.intf ∧ (j.ldp.isSome = true ↔ RunsLdp i) ∧
      ∀ p, j.ldp = some p → (p = true ↔ LdpPassive i)) ifs js := by
  intro ifs
  induction ifs with
  | nil => intro js e h _; simp only [ldpLoop] at h; cases h; exact .nil
  | cons i is ih =>
    intro js e h hn
    unfold ldpLoop at h
    cases h1 : ldpIntf csc i with
    | none => simp [h1] at h
    | some r =>
      obtain ⟨j, e1⟩ := r
      simp only [h1] at h
      cases h2 : ldpLoop csc is with
      | none => simp [h2] at h
      | some r =>
        obtain ⟨js', e2⟩ := r
        simp only [h2, Option.some.injEq, Prod.mk.injEq] at h
        obtain ⟨rfl, -⟩ := h
        exact .cons (ldpIntf_ok (hn i (by simp)) h1) (ih h2 (fun i hi => hn i (by simp [hi])))

theorem ldpLoop_none {csc : Bool} : ∀ {ifs : List LdpIntf}, ldpLoop csc ifs = none ↔ ∃ i ∈ ifs, ldpIntf csc i = none := by
  intro ifs
  induction ifs with
  | nil => simp [ldpLoop]
  | cons i is ih =>
    unfold ldpLoop
    cases h1 : ldpIntf csc i with
    | none => simp [h1]
    | some r =>
      simp only
      cases h2 : ldpLoop csc is with
      | none => simpa [h1] using ih.1 h2
      | some r' =>
        simp only [reduceCtorEq, List.mem_cons, exists_eq_or_imp, false_iff, not_or]
        exact ⟨by simp [h1], fun h => by simp [ih.2 h] at h2⟩

/-- **C67 (LDP).**  When LDP is enabled on a node with IPv4 and the program does not crash, LDP runs on exactly the IPv4
interfaces in the global routing table that do not lead to an external network; it is passive on passive and
stub links; the node runs LDP if one of its interfaces does. -/
theorem C67_ldp_interfaces (csc : Bool) (ifs : List LdpIntf) (r : LdpResult)
    (hn : ∀ i ∈ ifs, i.ldp = none) (h : nodeAdjustLdp true csc ifs = some r) :
    List.Forall₂ (fun i j => j.intf = i.intf ∧ (j.ldp.isSome = true ↔ RunsLdp i) ∧
      ∀ p, j.ldp = some p → (p = true ↔ LdpPassive i)) ifs r.ifs ∧
    (r.active = true ↔ ∃ i ∈ ifs, RunsLdp i) := by
  unfold nodeAdjustLdp at h
  simp only [Bool.not_true, Bool.false_eq_true, if_false] at h
  cases h1 : ldpLoop csc ifs with
  | none => simp [h1] at h
  | some q =>
    obtain ⟨js, e⟩ := q
    simp only [h1, Option.some.injEq] at h
    subst h
    have hf := ldpLoop_spec h1 hn
    refine ⟨hf, ?_⟩
    simp only [List.any_eq_true]
    clear h1 hn
    induction hf with
    | nil => simp
    | cons h1 _ ih =>
      simp only [List.mem_cons, exists_eq_or_imp]
      rw [ih, h1.2.1]

/-- **C67 (LDP, finding).**  `mpls.ldp: True` on an interface crashes the program: the documented way to enable LDP on a
VRF interface is not usable on devices that support it.  There is no other reason for a crash. -/
theorem C67_ldp_true_crashes (csc : Bool) (ifs : List LdpIntf) :
    nodeAdjustLdp true csc ifs = none ↔
      ∃ i ∈ ifs, "ipv4" ∈ i.intf.af ∧ i.mplsLdp = some true ∧ i.intf.role ≠ "external" ∧
        (i.intf.vrf ≠ none → csc = true) := by
  unfold nodeAdjustLdp
  simp only [Bool.not_true, Bool.false_eq_true, if_false]
  simp only [← ldpIntf_none]
  rw [← ldpLoop_none]
  cases ldpLoop csc ifs <;> simp

/-- **C67 (LDP, finding).**  `mpls.ldp: False` on an interface (the documented way to disable LDP) has no effect. -/
theorem C67_ldp_false_ignored (csc : Bool) (i : LdpIntf) (h : i.mplsLdp = some false) :
    (ldpIntf csc i).map (fun r => (r.1.ldp, r.2)) =
      (ldpIntf csc { i with mplsLdp := none }).map (fun r => (r.1.ldp, r.2)) := by
  unfold ldpIntf
  simp only [h]
  simp only [show (some false != some true) = true from rfl, show ((none : Option Bool) != some true) = true from rfl,
    show (some false == some true) = false from rfl, show ((none : Option Bool) == some true) = false from rfl]
  split
  · rfl
  · split
    · rfl
    · split
      · rfl
      · split
        · rfl
        · rfl

/-- Non-vacuity: a core link with LDP disabled, a stub link, a VRF interface and an external link -/
example : nodeAdjustLdp true false
    [{ intf := { name := "eth1", af := ["ipv4"] }, mplsLdp := some false },
     { intf := { name := "eth2", af := ["ipv4"], type := "stub" } },
     { intf := { name := "eth3", af := ["ipv4"], vrf := some "red" } },
     { intf := { name := "eth4", af := ["ipv4"], role := "external" } },
     { intf := { name := "eth5", af := ["ipv6"] } }] =
  some ⟨[{ intf := { name := "eth1", af := ["ipv4"] }, mplsLdp := some false, ldp := some false },
     { intf := { name := "eth2", af := ["ipv4"], type := "stub" }, ldp := some true },
     { intf := { name := "eth3", af := ["ipv4"], vrf := some "red" } },
     { intf := { name := "eth4", af := ["ipv4"], role := "external" } },
     { intf := { name := "eth5", af := ["ipv6"] } }], true, false, 0⟩ := by
  decide +kernel

/-- **C67 (LDP without IPv4).**  LDP on a node without IPv4 is an error. -/
theorem C67_ldp_needs_ipv4 (csc : Bool) (ifs : List LdpIntf) :
    nodeAdjustLdp false csc ifs = some ⟨ifs, false, true, 1⟩ := rfl

/-- **C67 (LDP support, finding).**  The LDP settings are removed before device features are checked: LDP on a device that
does not support it is not reported. -/
theorem C67_ldp_support_not_checked (f f' : MFeatures) (csc : Bool) (remote : String → List String) (mods : List String)
    (u : MplsUser) (x : MplsNode) (ifs : List LdpIntf) (h4 : Afam.v4 ∈ x.af)
    (hb : f.bgp = f'.bgp) (hv : f.vpn = f'.vpn) (h6 : f.sixPe = f'.sixPe) :
    mplsRun f csc remote mods u x ifs = mplsRun f' csc remote mods u x ifs := by
  unfold mplsRun mplsTransform
  have hc : (mplsPre mods u x).1.af = x.af := rfl
  simp only [hc]
  have h4' : x.af.contains .v4 = true := by simpa using h4
  rw [h4']
  have hin : ∀ r, ldpPart (mplsPre mods u x).1.ldp true csc ifs = some r → r.inMpls = false := by
    intro r hr
    unfold ldpPart nodeAdjustLdp at hr
    split at hr
    · simp only [Bool.not_true, Bool.false_eq_true, if_false] at hr
      split at hr
      · cases hr
      · cases hr; rfl
    · cases hr; rfl
  cases hl : ldpPart (mplsPre mods u x).1.ldp true csc ifs with
  | none => rfl
  | some r =>
    simp only [hin r hl, mplsFeatures, hb, hv, h6]
    rfl

/-! ## BGP address families -/

theorem mset_pre (d : List String) (s : Option MSet) (nodeAf : List Afam) (hne : NothingEmpty s)
    (hd : d ≠ []) :
    ((s.map (MSet.validate d)).bind (MSet.toDefaults d) = none ∧ ∀ a, sessTypes d nodeAf s a = none) ∨
    ∃ p q e, (s.map (MSet.validate d)).bind (MSet.toDefaults d) = some p ∧ validateMpls nodeAf p = (some q, e) ∧
      ∀ a, q.get a = sessTypes d nodeAf s a := by
  have key : ∀ v : Option MVal, (∀ w ∈ v, w ≠ .flag false ∧ w ≠ .list []) →
      (v.map (MVal.validate d)).bind (MVal.toDefault d) = v.bind (valTypes d) ∧
      v.bind (valTypes d) ≠ some [] := by
    intro v hv
    cases v with
    | none => simp
    | some w =>
      cases w with
      | flag b =>
        cases b with
        | true => simp [MVal.validate, MVal.toDefault, valTypes, hd]
        | false => simpa using hv _ rfl
      | list l =>
        have : l ≠ [] := fun h => (hv _ rfl).2 (by rw [h])
        simp [MVal.validate, MVal.toDefault, valTypes, this]
  cases s with
  | none => exact .inl ⟨rfl, fun a => rfl⟩
  | some m =>
    cases m with
    | flag b =>
      cases b with
      | false => exact .inl ⟨rfl, fun a => rfl⟩
      | true =>
        right
        refine ⟨_, ⟨some d, some d⟩, (validateMpls nodeAf (.dict ⟨some d, some d⟩)).2, rfl, ?_, ?_⟩
        · simp only [validateMpls, Option.some.injEq, hd, if_false]
        · intro a; cases a <;> rfl
    | list l =>
      right
      have hl : l ≠ [] := hne
      refine ⟨.list l, ⟨if nodeAf.contains .v4 then some l else none, if nodeAf.contains .v6 then some l else none⟩,
        badSess l, rfl, ?_, ?_⟩
      · simp only [validateMpls]
        rw [if_neg (by simpa using hl)]
      · intro a
        cases a
        · by_cases h : Afam.v4 ∈ nodeAf <;> simp [AfSess.get, sessTypes, h]
        · by_cases h : Afam.v6 ∈ nodeAf <;> simp [AfSess.get, sessTypes, h]
    | dict a b =>
      right
      obtain ⟨h1, h2⟩ := key a hne.1
      obtain ⟨h3, h4⟩ := key b hne.2
      refine ⟨.dict ⟨_, _⟩, ⟨a.bind (valTypes d), b.bind (valTypes d)⟩,
        badSess ((a.bind (valTypes d)).getD []) + badSess ((b.bind (valTypes d)).getD []), rfl, ?_, ?_⟩
      · simp only [validateMpls, h1, h3, h2, h4, if_false]
      · intro a; cases a <;> rfl

theorem prune_get (s : AfSess) (vrfs : List (List Afam)) (a : Afam) (l : List String) :
    (pruneVpn s vrfs).get a = some l ↔ s.get a = some l ∧ ((∃ v ∈ vrfs, a ∈ v) ∨ "ebgp" ∈ l) := by
  have key : ∀ (v : Option (List String)),
      (match v with
        | none => none
        | some l => if !vrfs.any (fun w => w.contains a) && !l.contains "ebgp" then none else some l) = some l ↔
      v = some l ∧ ((∃ v ∈ vrfs, a ∈ v) ∨ "ebgp" ∈ l) := by
    intro v
    cases v with
    | none => simp
    | some m =>
      simp only
      by_cases hc : (!vrfs.any (fun w => w.contains a) && !m.contains "ebgp") = true
      · rw [if_pos hc]
        simp only [Bool.and_eq_true, Bool.not_eq_true', List.any_eq_false] at hc
        simp only [reduceCtorEq, Option.some.injEq, false_iff, not_and, not_or]
        rintro rfl
        refine ⟨?_, by simpa using hc.2⟩
        rintro ⟨v, hv, ha⟩
        exact hc.1 v hv (by simpa using ha)
      · rw [if_neg hc]
        constructor
        · intro h
          cases h
          refine ⟨rfl, ?_⟩
          apply Classical.byContradiction
          intro hno
          simp only [not_or] at hno
          apply hc
          simp only [Bool.and_eq_true, Bool.not_eq_true', List.any_eq_false]
          refine ⟨fun v hv ha => hno.1 ⟨v, hv, by simpa using ha⟩, by simpa using hno.2⟩
        · rintro ⟨h, -⟩; exact h
  cases a
  · exact key s.v4
  · exact key s.v6

theorem contains_getD {o : Option (List String)} {t : String} :
    (o.getD []).contains t = true ↔ ∃ l, o = some l ∧ t ∈ l := by
  cases o <;> simp

/-- The state of neighbors after the first two steps, in terms of user settings -/
theorem lu_part (d : List String) (x : MplsNode) (s : Option MSet) (hne : NothingEmpty s) (hd : d ≠ [])
    (hb : x.bgp = (s.map (MSet.validate d)).bind (MSet.toDefaults d)) :
    ∃ q : AfSess, (∀ a, q.get a = sessTypes d x.af s a) ∧
      (luPart x).1.neighbors = x.neighbors.map (luNeighbor q) ∧
      ((luPart x).1.bgp = none ∧ s.bind (MSet.toDefaults d) = none ∨ (luPart x).1.bgp = some (.dict q)) ∧
      (luPart x).1 = { x with bgp := (luPart x).1.bgp, neighbors := (luPart x).1.neighbors } := by
  rcases mset_pre d s x.af hne hd with ⟨h1, h2⟩ | ⟨p, q, e, h1, h2, h3⟩
  · refine ⟨{}, fun a => by rw [h2 a]; cases a <;> rfl, ?_, .inl ?_, ?_⟩
    · unfold luPart
      rw [hb, h1]
      simp only
      have : ∀ n : MplsNgb, luNeighbor {} n = n := by intro n; simp [luNeighbor]
      rw [List.map_congr_left (fun n _ => this n), List.map_id']
    · unfold luPart
      rw [hb, h1]
      refine ⟨by rw [hb]; exact h1, ?_⟩
      cases s with
      | none => rfl
      | some m =>
        cases m with
        | flag b => cases b <;> simp_all [MSet.validate, MSet.toDefaults]
        | list l => simp [MSet.validate, MSet.toDefaults] at h1
        | dict a b => simp [MSet.validate, MSet.toDefaults] at h1
    · unfold luPart
      rw [hb, h1]
  · refine ⟨q, h3, ?_, .inr ?_, ?_⟩ <;> unfold luPart <;> rw [hb, h1] <;> simp only [adjustLu, h2]

theorem vpn_part (d : List String) (x : MplsNode) (s : Option MSet) (hne : NothingEmpty s) (hd : d ≠ [])
    (hb : x.vpn = (s.map (MSet.validate d)).bind (MSet.toDefaults d)) :
    ∃ q : AfSess, (∀ a l, q.get a = some l ↔ sessTypes d x.af s a = some l ∧
        (x.rr = true ∨ (∃ v ∈ x.vrfs, a ∈ v) ∨ "ebgp" ∈ l)) ∧
      (vpnPart x).1.neighbors = x.neighbors.map (vpnNeighbor q) ∧
      (vpnPart x).1 = { x with vpn := (vpnPart x).1.vpn, neighbors := (vpnPart x).1.neighbors } := by
  rcases mset_pre d s x.af hne hd with ⟨h1, h2⟩ | ⟨p, q, e, h1, h2, h3⟩
  · refine ⟨{}, fun a l => by rw [h2 a]; cases a <;> simp [AfSess.get], ?_, ?_⟩
    · unfold vpnPart
      rw [hb, h1]
      simp only
      have : ∀ n : MplsNgb, vpnNeighbor {} n = n := by
        intro n; unfold vpnNeighbor; split <;> rfl
      rw [List.map_congr_left (fun n _ => this n), List.map_id']
    · unfold vpnPart
      rw [hb, h1]
  · refine ⟨if x.rr then q else pruneVpn q x.vrfs, ?_, ?_, ?_⟩
    · intro a l
      by_cases hr : x.rr = true
      · simp [hr, h3]
      · rw [if_neg hr, prune_get, h3]
        simp [hr]
    · unfold vpnPart; rw [hb, h1]; simp only [adjustVpn, h2]
    · unfold vpnPart; rw [hb, h1]; simp only [adjustVpn, h2]

theorem toDefault_validate (d : List String) (v : MVal) :
    (MVal.validate d v).toDefault d = some ((valTypes d v).getD []) := by
  cases v with
  | flag b => cases b <;> rfl
  | list l => rfl

/-- **C67 (BGP).**  When no error is reported, every BGP neighbor gets labels for exactly the address families it has a
session for and that are requested for its session type, VPN address families enabled on the node, and 6PE when
requested; the IPv6 session is removed when both ends use 6PE.  (The setting of BGP labeled unicast and of VPN must not
contain empty lists or disabled address families: see `C67_disabled_af_disables_all`.) -/
theorem C67_bgp_neighbors (f : MFeatures) (csc : Bool) (remote : String → List String) (mods : List String)
    (u : MplsUser) (x : MplsNode) (ifs : List LdpIntf) (r : MplsResult)
    (h : mplsRun f csc remote mods u x ifs = some r) (he : r.errors = 0)
    (hb : NothingEmpty u.bgp) (hv : NothingEmpty u.vpn)
    (hn : ∀ n ∈ x.neighbors, n.label4 = false ∧ n.label6 = false ∧ n.vpnv4 = none ∧ n.vpnv6 = none ∧ n.sixPe = false) :
    List.Forall₂ (MplsNeighbor u x remote) x.neighbors r.node.neighbors := by
  unfold mplsRun mplsTransform at h
  simp only at h
  split at h
  · cases h
  rename_i r' hr'
  cases h
  split at hr'
  · cases hr'
  rename_i lr hlr
  cases hr'
  simp only at he ⊢
  obtain ⟨q1, a1, a2, a3, a4⟩ := lu_part ["ibgp", "ebgp"] (mplsPre mods u x).1 u.bgp hb (by simp) rfl
  generalize hy : luPart (mplsPre mods u x).1 = y at he a2 a3 a4 ⊢
  obtain ⟨y, ey⟩ := y
  simp only at he a2 a3 a4 ⊢
  have hyv : y.vpn = (u.vpn.map (MSet.validate ["ibgp"])).bind (MSet.toDefaults ["ibgp"]) := by rw [a4]; rfl
  have hyaf : y.af = x.af := by rw [a4]; rfl
  have hyrr : y.rr = x.rr := by rw [a4]; rfl
  have hyvrf : y.vrfs = x.vrfs := by rw [a4]; rfl
  have hy6 : y.sixPe = (u.sixPe.map (MVal.validate ["ibgp"])).bind (MVal.toDefault ["ibgp"]) := by rw [a4]; rfl
  obtain ⟨q2, b1, b2, b3⟩ := vpn_part ["ibgp"] y u.vpn hv (by simp) hyv
  generalize hz : vpnPart y = z at he b2 b3 ⊢
  obtain ⟨z, ez⟩ := z
  simp only at he b2 b3 ⊢
  have hz6 : z.sixPe = y.sixPe := by rw [b3]
  have hzb : z.bgp = y.bgp := by rw [b3]
  have hzaf : z.af = x.af := by rw [b3]; exact hyaf
  -- the third step
  have c : ∃ g : MplsNgb → MplsNgb, (sixPePart remote z).1.neighbors = z.neighbors.map g ∧
      ∀ n, (n.ipv4 ≠ none ∧ Wants6pe u n.type → g n = sixPeNeighbor [n.type] remote n) ∧
        (¬ (n.ipv4 ≠ none ∧ Wants6pe u n.type) → g n = n) := by
    cases h6 : u.sixPe with
    | none =>
      have : z.sixPe = none := by rw [hz6, hy6, h6]; rfl
      refine ⟨id, ?_, ?_⟩
      · unfold sixPePart; rw [this]; simp
      · intro n
        exact ⟨fun ⟨_, v, l, e, _⟩ => (by rw [h6] at e; cases e), fun _ => rfl⟩
    | some v =>
      have hs : z.sixPe = some ((valTypes ["ibgp"] v).getD []) := by
        rw [hz6, hy6, h6]
        exact toDefault_validate _ v
      refine ⟨sixPeNeighbor ((valTypes ["ibgp"] v).getD []) remote, ?_, ?_⟩
      · unfold sixPePart at he ⊢
        simp only [hs] at he ⊢
        unfold adjust6pe at he ⊢
        simp only at he ⊢
        have hval : ∃ s e, validateMpls z.af (z.bgp.getD (.dict {})) = (some s, e) := by
          rw [hzb, hzaf]
          rcases a3 with ⟨e1, -⟩ | e1
          · rw [e1]; exact ⟨_, _, rfl⟩
          · rw [e1]
            simp only [Option.getD_some]
            have hne : ∀ a, q1.get a ≠ some [] := by
              intro a ha
              rw [a1 a] at ha
              cases hu : u.bgp with
              | none => rw [hu] at ha; simp [sessTypes] at ha
              | some m =>
                rw [hu] at ha hb
                cases m with
                | flag b => cases b <;> simp [sessTypes] at ha
                | list l =>
                  simp only [sessTypes] at ha
                  split at ha
                  · exact hb (Option.some.inj ha)
                  · cases ha
                | dict w4 w6 =>
                  have key : ∀ w : Option MVal, (∀ v ∈ w, v ≠ .flag false ∧ v ≠ .list []) →
                      w.bind (valTypes ["ibgp", "ebgp"]) ≠ some [] := by
                    intro w hw
                    cases w with
                    | none => simp
                    | some v =>
                      cases v with
                      | flag b => cases b <;> simp [valTypes]
                      | list l =>
                        have : l ≠ [] := fun h => (hw _ rfl).2 (by rw [h])
                        simp [valTypes, this]
                  cases a
                  · exact key _ hb.1 ha
                  · exact key _ hb.2 ha
            unfold validateMpls
            simp only
            rw [if_neg (show ¬ q1.v4 = some [] from hne .v4), if_neg (show ¬ q1.v6 = some [] from hne .v6)]
            exact ⟨_, _, rfl⟩
        obtain ⟨s, e, hs'⟩ := hval
        simp only [hs'] at he ⊢
        split at he
        · simp only at he; omega
        · rename_i h1
          rw [if_neg h1]
          split at he
          · simp only at he; omega
          · rename_i h2
            rw [if_neg h2]
      · intro n
        have hw : Wants6pe u n.type ↔ n.type ∈ (valTypes ["ibgp"] v).getD [] := by
          unfold Wants6pe
          rw [h6]
          constructor
          · rintro ⟨v', l, e1, e2, e3⟩
            cases e1
            rw [e2]; exact e3
          · intro hm
            cases hv' : valTypes ["ibgp"] v with
            | none => rw [hv'] at hm; simp at hm
            | some l => rw [hv'] at hm; exact ⟨v, l, rfl, hv', hm⟩
        refine ⟨fun ⟨h1, h2⟩ => ?_, fun h1 => ?_⟩
        · unfold sixPeNeighbor
          have e1 : ((valTypes ["ibgp"] v).getD []).contains n.type = true := by
            rw [List.contains_iff_mem]; exact hw.1 h2
          rw [e1, show [n.type].contains n.type = true by simp]
        · unfold sixPeNeighbor
          rw [if_neg]
          intro hc
          simp only [Bool.and_eq_true] at hc
          apply h1
          refine ⟨by intro h; rw [h] at hc; simp at hc, hw.2 (by simpa using hc.2)⟩
  obtain ⟨g, c1, c2⟩ := c
  rw [c1, b2, a2]
  have hpn : (mplsPre mods u x).1.neighbors = x.neighbors := rfl
  have hpaf : (mplsPre mods u x).1.af = x.af := rfl
  rw [hpn, List.map_map, List.map_map, List.forall₂_map_right_iff, List.forall₂_same]
  intro n hn'
  obtain ⟨n1, n2, n3, n4, n5⟩ := hn n hn'
  rw [hpaf] at a1
  rw [hyaf, hyrr, hyvrf] at b1
  -- neighbor before the third step
  have e0 : ∀ a t, ((q1.get a).getD []).contains t = true ↔ WantsLabel u x a t := by
    intro a t
    rw [contains_getD, a1]; rfl
  have v0 : ∀ a, (q2.get a).isSome = true ↔ WantsVpn u x a := by
    intro a
    rw [Option.isSome_iff_exists]
    constructor
    · rintro ⟨l, hl⟩
      obtain ⟨h1, h2⟩ := (b1 a l).1 hl
      exact ⟨l, h1, h2⟩
    · rintro ⟨l, h1, h2⟩
      exact ⟨l, (b1 a l).2 ⟨h1, h2⟩⟩
  generalize hm : vpnNeighbor q2 (luNeighbor q1 n) = m
  have hm' : m.name = n.name ∧ m.type = n.type ∧ m.ipv4 = n.ipv4 ∧ m.ipv6 = n.ipv6 ∧ m.sixPe = false ∧
      (m.label4 = true ↔ n.ipv4 ≠ none ∧ WantsLabel u x .v4 n.type) ∧
      (m.label6 = true ↔ n.ipv6 ≠ none ∧ WantsLabel u x .v6 n.type) ∧
      ((WantsVpn u x .v4 → m.vpnv4 = n.ipv4) ∧ (¬ WantsVpn u x .v4 → m.vpnv4 = none)) ∧
      ((WantsVpn u x .v6 → m.vpnv6 = n.ipv4) ∧ (¬ WantsVpn u x .v6 → m.vpnv6 = none)) := by
    have l4 : (luNeighbor q1 n).label4 = true ↔ n.ipv4 ≠ none ∧ WantsLabel u x .v4 n.type := by
      rw [← e0]
      simp only [luNeighbor, n1, Bool.false_or, Bool.and_eq_true, AfSess.get]
      cases n.ipv4 <;> simp
    have l6 : (luNeighbor q1 n).label6 = true ↔ n.ipv6 ≠ none ∧ WantsLabel u x .v6 n.type := by
      rw [← e0]
      simp only [luNeighbor, n2, Bool.false_or, Bool.and_eq_true, AfSess.get]
      cases n.ipv6 <;> simp
    subst hm
    unfold vpnNeighbor
    have hip : (luNeighbor q1 n).ipv4 = n.ipv4 := rfl
    rw [hip]
    cases h4 : n.ipv4 with
    | none =>
      simp only
      refine ⟨rfl, rfl, h4, rfl, n5, ?_, l6, ⟨fun _ => n3, fun _ => n3⟩, ⟨fun _ => n4, fun _ => n4⟩⟩
      rw [l4, h4]
    | some a =>
      simp only
      refine ⟨rfl, rfl, trivial, rfl, n5, ?_, l6, ?_, ?_⟩
      · rw [l4, h4]
      · have := v0 .v4
        simp only [AfSess.get] at this
        by_cases hw : WantsVpn u x .v4
        · simp [hw, this.2 hw]
        · have h' : ¬ q2.v4.isSome = true := fun h => hw (this.1 h)
          rw [if_neg h']
          exact ⟨fun h => absurd h hw, fun _ => n3⟩
      · have := v0 .v6
        simp only [AfSess.get] at this
        by_cases hw : WantsVpn u x .v6
        · simp [hw, this.2 hw]
        · have h' : ¬ q2.v6.isSome = true := fun h => hw (this.1 h)
          rw [if_neg h']
          exact ⟨fun h => absurd h hw, fun _ => n4⟩
  obtain ⟨m1, m2, m3, m4, m5, m6, m7, m8, m9⟩ := hm'
  simp only [Function.comp, hm]
  obtain ⟨g1, g2⟩ := c2 m
  rw [m3, m2] at g1 g2
  by_cases hw : n.ipv4 ≠ none ∧ Wants6pe u n.type
  · rw [g1 hw]
    have hc : (m.ipv4.isSome && [n.type].contains m.type) = true := by
      rw [m3, m2]
      cases h4 : n.ipv4 with
      | none => exact absurd h4 hw.1
      | some a => simp
    unfold sixPeNeighbor
    rw [if_pos hc, m1, m2]
    by_cases hrem : (remote n.name).contains n.type = true
    · rw [if_pos hrem]
      have hrem' : n.type ∈ remote n.name := by simpa using hrem
      exact ⟨rfl, rfl, m3, m6, m7, m8, m9, ⟨fun _ => hw, fun _ => rfl⟩, .inr rfl,
        fun _ => ⟨fun _ => ⟨hw.1, hw.2, hrem'⟩, fun _ => rfl⟩⟩
    · rw [if_neg hrem]
      have hrem' : n.type ∉ remote n.name := by simpa using hrem
      exact ⟨rfl, rfl, m3, m6, m7, m8, m9, ⟨fun _ => hw, fun _ => rfl⟩, .inl m4,
        fun h6 => ⟨fun h => absurd (m4.symm.trans h) h6, fun h => absurd h.2.2 hrem'⟩⟩
  · rw [g2 hw]
    exact ⟨m1, m2, m3, m6, m7, m8, m9, ⟨fun h => (by rw [m5] at h; cases h), fun h => absurd h hw⟩, .inl m4,
      fun h6 => ⟨fun h => absurd (m4.symm.trans h) h6, fun h => absurd ⟨h.1, h.2.1⟩ hw⟩⟩

/-- Non-vacuity: labels on IBGP sessions for IPv4 only, VPNv4 because of a VRF, 6PE with one of two neighbors -/
def mplsDemoUser : MplsUser :=
  { ldp := true
    bgp := some (.dict (some (.list ["ibgp"])) none)
    vpn := some (.flag true)
    sixPe := some (.flag true) }

/-- Non-vacuity: a node with two neighbors -/
def mplsDemoNode : MplsNode :=
  { name := "pe1"
    af := [.v4, .v6]
    vrfs := [[.v4]]
    neighbors := [
      { name := "pe2", type := "ibgp", ipv4 := some "10.0.0.2", ipv6 := some "2001::2" },
      { name := "ce1", type := "ebgp", ipv4 := some "10.1.0.2", ipv6 := some "2001::3" }] }

example : (mplsRun ⟨.flag true, .flag true, .flag true, .flag true⟩ false (fun _ => ["ibgp"]) ["ospf", "bgp"]
    mplsDemoUser mplsDemoNode []).map (fun r => (r.errors, r.node.neighbors)) =
  some (0, [
      { name := "pe2", type := "ibgp", ipv4 := some "10.0.0.2", label4 := true, sixPe := true,
        vpnv4 := some "10.0.0.2" },
      { name := "ce1", type := "ebgp", ipv4 := some "10.1.0.2", ipv6 := some "2001::3",
        vpnv4 := some "10.1.0.2" }]) := by
  decide +kernel

example : NothingEmpty mplsDemoUser.bgp ∧ NothingEmpty mplsDemoUser.vpn := by
  refine ⟨⟨?_, ?_⟩, trivial⟩
  · intro v hv; cases hv; decide
  · intro v hv; cases hv

/-- **C67 (VPN, finding).**  The documentation says that VPN address families are enabled on IBGP sessions by default; they
are enabled on EBGP sessions as well: session types are not looked at. -/
theorem C67_vpn_on_ebgp_session :
    (mplsRun ⟨.flag true, .flag true, .flag true, .flag true⟩ false (fun _ => []) ["ospf", "bgp"]
      { vpn := some (.dict (some (.list ["ibgp"])) none) } mplsDemoNode []).map
        (fun r => (r.errors, r.node.neighbors.map (fun n => (n.type, n.vpnv4)))) =
    some (0, [("ibgp", some "10.0.0.2"), ("ebgp", some "10.1.0.2")]) := by
  decide +kernel

/-- **C67 (6PE is symmetric).**  The IPv6 session between two nodes is removed on one of them if and only if it is removed
on the other one. -/
theorem C67_6pe_symmetric (u₁ u₂ : MplsUser) (x₁ x₂ : MplsNode) (rem₁ rem₂ : String → List String)
    (n₁ n₂ m₁ m₂ : MplsNgb) (h₁ : MplsNeighbor u₁ x₁ rem₁ n₁ m₁) (h₂ : MplsNeighbor u₂ x₂ rem₂ n₂ m₂)
    (ht : n₁.type = n₂.type) (hs : n₁.ipv4 ≠ none ∧ n₂.ipv4 ≠ none ∧ n₁.ipv6 ≠ none ∧ n₂.ipv6 ≠ none)
    (hr₁ : ∀ t, t ∈ rem₁ n₁.name ↔ Wants6pe u₂ t) (hr₂ : ∀ t, t ∈ rem₂ n₂.name ↔ Wants6pe u₁ t) :
    m₁.ipv6 = none ↔ m₂.ipv6 = none := by
  rw [h₁.ipv6Removed hs.2.2.1, h₂.ipv6Removed hs.2.2.2, hr₁, hr₂, ht]
  constructor
  · rintro ⟨-, h, h'⟩; exact ⟨hs.2.1, h', h⟩
  · rintro ⟨-, h, h'⟩; exact ⟨hs.1, h', h⟩

/-- `pe1` of the demo and its mirror image satisfy the hypotheses. -/
example : ∀ t, t ∈ (fun _ : String => ["ibgp"]) "pe2" ↔ Wants6pe mplsDemoUser t := by
  intro t
  constructor
  · intro h
    refine ⟨_, _, rfl, rfl, h⟩
  · rintro ⟨v, l, h1, h2, h3⟩
    cases h1; cases h2; exact h3

theorem sixPe_labels (remote : String → List String) (x : MplsNode) :
    List.Forall₂ (fun n m => m.label4 = n.label4 ∧ m.label6 = n.label6 ∧ m.vpnv4 = n.vpnv4 ∧ m.vpnv6 = n.vpnv6)
      x.neighbors (sixPePart remote x).1.neighbors := by
  unfold sixPePart adjust6pe
  split
  · exact List.forall₂_same.2 (fun n _ => ⟨rfl, rfl, rfl, rfl⟩)
  · simp only
    split
    · exact List.forall₂_same.2 (fun n _ => ⟨rfl, rfl, rfl, rfl⟩)
    · split
      · exact List.forall₂_same.2 (fun n _ => ⟨rfl, rfl, rfl, rfl⟩)
      · split
        · exact List.forall₂_same.2 (fun n _ => ⟨rfl, rfl, rfl, rfl⟩)
        · rw [List.forall₂_map_right_iff, List.forall₂_same]
          intro n _
          unfold sixPeNeighbor
          split
          · split <;> exact ⟨rfl, rfl, rfl, rfl⟩
          · exact ⟨rfl, rfl, rfl, rfl⟩

theorem vpn_labels (x : MplsNode) :
    List.Forall₂ (fun n m => m.label4 = n.label4 ∧ m.label6 = n.label6) x.neighbors (vpnPart x).1.neighbors := by
  unfold vpnPart adjustVpn
  split
  · exact List.forall₂_same.2 (fun n _ => ⟨rfl, rfl⟩)
  · split
    · exact List.forall₂_same.2 (fun n _ => ⟨rfl, rfl⟩)
    · rw [List.forall₂_map_right_iff, List.forall₂_same]
      intro n _
      unfold vpnNeighbor
      split <;> exact ⟨rfl, rfl⟩

theorem validate_empty {d : List String} {s : Option MSet} (nodeAf : List Afam) (h : ¬ NothingEmpty s) :
    ∃ p e, (s.map (MSet.validate d)).bind (MSet.toDefaults d) = some p ∧ validateMpls nodeAf p = (none, e) := by
  cases s with
  | none => exact absurd trivial h
  | some m =>
    cases m with
    | flag b => exact absurd trivial h
    | list l =>
      have : l = [] := Classical.byContradiction h
      subst this
      exact ⟨_, _, rfl, rfl⟩
    | dict a b =>
      refine ⟨_, (validateMpls nodeAf (.dict ⟨(a.map (MVal.validate d)).bind (MVal.toDefault d),
        (b.map (MVal.validate d)).bind (MVal.toDefault d)⟩)).2, rfl, ?_⟩
      · have key : ∀ w : Option MVal, (¬ ∀ v ∈ w, v ≠ .flag false ∧ v ≠ .list []) →
            (w.map (MVal.validate d)).bind (MVal.toDefault d) = some [] := by
          intro w hw
          cases w with
          | none => exact absurd (fun v hv => by cases hv) hw
          | some v =>
            cases v with
            | flag b =>
              cases b with
              | false => rfl
              | true => exact absurd (fun v hv => by cases hv; decide) hw
            | list l =>
              by_cases hl : l = []
              · subst hl; rfl
              · exact absurd (fun v hv => by cases hv; simp [hl]) hw
        by_cases ha : ∀ v ∈ a, v ≠ .flag false ∧ v ≠ .list []
        · have hb : ¬ ∀ v ∈ b, v ≠ .flag false ∧ v ≠ .list [] := fun hb => h ⟨ha, hb⟩
          simp only [validateMpls, key b hb, if_true]
          split <;> rfl
        · simp only [validateMpls, key a ha, if_true]

/-- **C67 (finding).**  Disabling BGP labeled unicast for one address family of a node (the documented use of `False`)
disables it for all address families: no neighbor gets labels, and no error is reported for it.  The same is true for
VPN address families. -/
theorem C67_disabled_af_disables_all (f : MFeatures) (csc : Bool) (remote : String → List String) (mods : List String)
    (u : MplsUser) (x : MplsNode) (ifs : List LdpIntf) (r : MplsResult)
    (h : mplsRun f csc remote mods u x ifs = some r) :
    (¬ NothingEmpty u.bgp →
      List.Forall₂ (fun n m => m.label4 = n.label4 ∧ m.label6 = n.label6) x.neighbors r.node.neighbors) ∧
    (¬ NothingEmpty u.vpn →
      List.Forall₂ (fun n m => m.vpnv4 = n.vpnv4 ∧ m.vpnv6 = n.vpnv6) x.neighbors r.node.neighbors) := by
  unfold mplsRun mplsTransform at h
  simp only at h
  split at h
  · cases h
  rename_i r' hr'
  cases h
  split at hr'
  · cases hr'
  cases hr'
  simp only
  have hpn : (mplsPre mods u x).1.neighbors = x.neighbors := rfl
  constructor
  · intro hb
    obtain ⟨p, e, h1, h2⟩ := validate_empty (d := ["ibgp", "ebgp"]) x.af hb
    have hl : (luPart (mplsPre mods u x).1).1.neighbors = x.neighbors := by
      have hbgp : (mplsPre mods u x).1.bgp = some p := h1
      have haf : (mplsPre mods u x).1.af = x.af := rfl
      unfold luPart adjustLu
      rw [hbgp]
      simp only [haf, h2]
      exact hpn
    have h3 := vpn_labels (luPart (mplsPre mods u x).1).1
    have h4 := sixPe_labels remote (vpnPart (luPart (mplsPre mods u x).1).1).1
    rw [hl] at h3
    revert h3 h4
    clear hl
    generalize x.neighbors = l1
    generalize (vpnPart (luPart (mplsPre mods u x).1).1).1.neighbors = l2
    generalize (sixPePart remote (vpnPart (luPart (mplsPre mods u x).1).1).1).1.neighbors = l3
    intro h3
    induction h3 generalizing l3 with
    | nil => intro h4; cases h4; exact .nil
    | cons a _ ih =>
      intro h4
      cases h4 with
      | cons b c => exact .cons ⟨b.1.trans a.1, b.2.1.trans a.2⟩ (ih _ c)
  · intro hb
    obtain ⟨p, e, h1, h2⟩ := validate_empty (d := ["ibgp"]) x.af hb
    have hl3 : List.Forall₂ (fun n m => m.vpnv4 = n.vpnv4 ∧ m.vpnv6 = n.vpnv6) x.neighbors
        (luPart (mplsPre mods u x).1).1.neighbors ∧ (luPart (mplsPre mods u x).1).1.vpn = some p ∧
        (luPart (mplsPre mods u x).1).1.af = x.af := by
      have hvpn : (mplsPre mods u x).1.vpn = some p := h1
      have haf : (mplsPre mods u x).1.af = x.af := rfl
      unfold luPart adjustLu
      split
      · refine ⟨?_, hvpn, haf⟩
        rw [hpn]
        exact List.forall₂_same.2 (fun n _ => ⟨rfl, rfl⟩)
      · split
        · refine ⟨?_, hvpn, haf⟩
          rw [hpn]
          exact List.forall₂_same.2 (fun n _ => ⟨rfl, rfl⟩)
        · refine ⟨?_, hvpn, haf⟩
          simp only [hpn]
          rw [List.forall₂_map_right_iff]
          exact List.forall₂_same.2 (fun n _ => ⟨rfl, rfl⟩)
    obtain ⟨h3, hv, haf⟩ := hl3
    have hl : (vpnPart (luPart (mplsPre mods u x).1).1).1.neighbors = (luPart (mplsPre mods u x).1).1.neighbors := by
      unfold vpnPart adjustVpn
      rw [hv]
      simp only [haf, h2]
    have h4 := sixPe_labels remote (vpnPart (luPart (mplsPre mods u x).1).1).1
    rw [hl] at h4
    revert h3 h4
    clear hl
    generalize x.neighbors = l1
    generalize (luPart (mplsPre mods u x).1).1.neighbors = l2
    generalize (sixPePart remote (vpnPart (luPart (mplsPre mods u x).1).1).1).1.neighbors = l3
    intro h3
    induction h3 generalizing l3 with
    | nil => intro h4; cases h4; exact .nil
    | cons a _ ih =>
      intro h4
      cases h4 with
      | cons b c => exact .cons ⟨b.2.2.1.trans a.1, b.2.2.2.trans a.2⟩ (ih _ c)

/-- Non-vacuity: IPv4 labels are requested, IPv6 labels are disabled, no labels, no errors. -/
example : ¬ NothingEmpty (some (.dict (some (.flag true)) (some (.flag false)))) ∧
    (mplsRun ⟨.flag true, .flag true, .flag true, .flag true⟩ false (fun _ => []) ["ospf", "bgp"]
      { bgp := some (.dict (some (.flag true)) (some (.flag false))) } mplsDemoNode []).map
        (fun r => (r.errors, r.node.neighbors)) = some (0, mplsDemoNode.neighbors) := by
  refine ⟨fun h => ?_, by decide +kernel⟩
  exact (h.2 _ rfl).1 rfl

/-! ## Device support -/

/-- The device supports the feature for the address family. -/
def MSupports : MFeat → Afam → Prop
  | .flag b, _ => b = true
  | .dict a _, .v4 => a = true
  | .dict _ b, .v6 => b = true

theorem featErrors_dict {f : MFeat} {s : AfSess} {a : Afam} (h : featErrors f (some (.dict s)) = 0)
    (ha : (s.get a).isSome = true) : MSupports f a := by
  cases f with
  | flag b =>
    cases b with
    | true => rfl
    | false => cases h
  | dict f4 f6 =>
    simp only [featErrors] at h
    cases a with
    | v4 =>
      have ha' : s.v4.isSome = true := ha
      cases f4 with
      | true => rfl
      | false => simp [ha'] at h
    | v6 =>
      have ha' : s.v6.isSome = true := ha
      cases f6 with
      | true => rfl
      | false => simp [ha'] at h

theorem lu_used (x : MplsNode) (hn : ∀ n ∈ x.neighbors, n.label4 = false ∧ n.label6 = false) :
    ∀ m ∈ (luPart x).1.neighbors,
      (m.label4 = true → ∃ s, (luPart x).1.bgp = some (.dict s) ∧ (s.get .v4).isSome = true) ∧
      (m.label6 = true → ∃ s, (luPart x).1.bgp = some (.dict s) ∧ (s.get .v6).isSome = true) := by
  unfold luPart adjustLu
  split
  · intro m hm; simp [hn m hm]
  · split
    · intro m hm; simp [hn m hm]
    · rename_i s e hs
      intro m hm
      simp only [List.mem_map] at hm
      obtain ⟨n, hn', rfl⟩ := hm
      obtain ⟨h1, h2⟩ := hn n hn'
      simp only [luNeighbor, h1, h2, Bool.false_or, Bool.and_eq_true]
      refine ⟨fun h => ⟨s, rfl, ?_⟩, fun h => ⟨s, rfl, ?_⟩⟩
      · obtain ⟨l, hl, -⟩ := contains_getD.1 h.2
        rw [AfSess.get, hl]; rfl
      · obtain ⟨l, hl, -⟩ := contains_getD.1 h.2
        rw [AfSess.get, hl]; rfl

theorem vpn_used (x : MplsNode) (hn : ∀ n ∈ x.neighbors, n.vpnv4 = none ∧ n.vpnv6 = none) :
    ∀ m ∈ (vpnPart x).1.neighbors,
      (m.vpnv4 ≠ none → ∃ s, (vpnPart x).1.vpn = some (.dict s) ∧ (s.get .v4).isSome = true) ∧
      (m.vpnv6 ≠ none → ∃ s, (vpnPart x).1.vpn = some (.dict s) ∧ (s.get .v6).isSome = true) := by
  unfold vpnPart adjustVpn
  split
  · intro m hm; simp [hn m hm]
  · split
    · intro m hm; simp [hn m hm]
    · rename_i s e hs
      intro m hm
      simp only [List.mem_map] at hm
      obtain ⟨n, hn', rfl⟩ := hm
      obtain ⟨h1, h2⟩ := hn n hn'
      unfold vpnNeighbor
      split
      · simp [h1, h2]
      · simp only
        refine ⟨fun h => ⟨_, rfl, ?_⟩, fun h => ⟨_, rfl, ?_⟩⟩
        · apply Classical.byContradiction
          intro hc
          simp only [AfSess.get] at hc
          rw [if_neg hc] at h
          exact h h1
        · apply Classical.byContradiction
          intro hc
          simp only [AfSess.get] at hc
          rw [if_neg hc] at h
          exact h h2

theorem sixPe_keeps (remote : String → List String) (x : MplsNode) :
    (sixPePart remote x).1.vpn = x.vpn ∧ (sixPePart remote x).1.sixPe = x.sixPe ∧
    (∀ s, x.bgp = some (.dict s) → (sixPePart remote x).1.bgp = some (.dict s)) ∧
    ((∀ n ∈ x.neighbors, n.sixPe = false) → ∀ m ∈ (sixPePart remote x).1.neighbors, m.sixPe = true → x.sixPe ≠ none) := by
  unfold sixPePart
  split
  · refine ⟨rfl, rfl, fun s h => h, fun hn m hm h6 => ?_⟩
    rw [hn m hm] at h6; cases h6
  · rename_i l hl
    refine ⟨?_, ?_, ?_, fun _ _ _ _ => by rw [hl]; simp⟩
    · unfold adjust6pe
      simp only
      split
      · rfl
      · split
        · rfl
        · split <;> rfl
    · unfold adjust6pe
      simp only
      split
      · rfl
      · split
        · rfl
        · split <;> rfl
    · intro s hs
      unfold adjust6pe
      simp only [hs, Option.getD_some]
      split
      · rfl
      · rename_i s' e hv
        have : s' = s := by
          unfold validateMpls at hv
          simp only at hv
          split at hv
          · cases hv
          · split at hv
            · cases hv
            · cases hv; rfl
        subst this
        split
        · rfl
        · split <;> rfl

theorem lu_keeps (x : MplsNode) :
    (luPart x).1.vpn = x.vpn ∧ (luPart x).1.sixPe = x.sixPe ∧
    List.Forall₂ (fun n m => m.vpnv4 = n.vpnv4 ∧ m.vpnv6 = n.vpnv6 ∧ m.sixPe = n.sixPe) x.neighbors
      (luPart x).1.neighbors := by
  unfold luPart adjustLu
  split
  · exact ⟨rfl, rfl, List.forall₂_same.2 (fun n _ => ⟨rfl, rfl, rfl⟩)⟩
  · split
    · exact ⟨rfl, rfl, List.forall₂_same.2 (fun n _ => ⟨rfl, rfl, rfl⟩)⟩
    · refine ⟨rfl, rfl, ?_⟩
      rw [List.forall₂_map_right_iff]
      exact List.forall₂_same.2 (fun n _ => ⟨rfl, rfl, rfl⟩)

theorem vpn_keeps (x : MplsNode) :
    (vpnPart x).1.bgp = x.bgp ∧ (vpnPart x).1.sixPe = x.sixPe ∧
    List.Forall₂ (fun n m => m.label4 = n.label4 ∧ m.label6 = n.label6 ∧ m.sixPe = n.sixPe) x.neighbors
      (vpnPart x).1.neighbors := by
  unfold vpnPart adjustVpn
  split
  · exact ⟨rfl, rfl, List.forall₂_same.2 (fun n _ => ⟨rfl, rfl, rfl⟩)⟩
  · split
    · exact ⟨rfl, rfl, List.forall₂_same.2 (fun n _ => ⟨rfl, rfl, rfl⟩)⟩
    · refine ⟨rfl, rfl, ?_⟩
      rw [List.forall₂_map_right_iff, List.forall₂_same]
      intro n _
      unfold vpnNeighbor
      split <;> exact ⟨rfl, rfl, rfl⟩

theorem forall₂_source {α β : Type} {R : α → β → Prop} {l : List α} {m : List β} (h : List.Forall₂ R l m) :
    ∀ b ∈ m, ∃ a ∈ l, R a b := by
  induction h with
  | nil => intro b hb; cases hb
  | cons h _ ih =>
    intro b hb
    rcases List.mem_cons.1 hb with rfl | hb
    · exact ⟨_, by simp, h⟩
    · obtain ⟨a, ha, hr⟩ := ih b hb
      exact ⟨a, by simp [ha], hr⟩

/-- **C67 (device support).**  When no error is reported, labels, VPN address families and 6PE are used only on devices
supporting them. -/
theorem C67_supported (f : MFeatures) (csc : Bool) (remote : String → List String) (mods : List String)
    (u : MplsUser) (x : MplsNode) (ifs : List LdpIntf) (r : MplsResult)
    (h : mplsRun f csc remote mods u x ifs = some r) (he : r.errors = 0)
    (hn : ∀ n ∈ x.neighbors, n.label4 = false ∧ n.label6 = false ∧ n.vpnv4 = none ∧ n.vpnv6 = none ∧ n.sixPe = false)
    (m : MplsNgb) (hm : m ∈ r.node.neighbors) :
    (m.label4 = true → MSupports f.bgp .v4) ∧ (m.label6 = true → MSupports f.bgp .v6) ∧
    (m.vpnv4 ≠ none → MSupports f.vpn .v4) ∧ (m.vpnv6 ≠ none → MSupports f.vpn .v6) ∧
    (m.sixPe = true → f.sixPe ≠ .flag false) := by
  unfold mplsRun mplsTransform at h
  simp only at h
  split at h
  · cases h
  rename_i r' hr'
  cases h
  split at hr'
  · cases hr'
  cases hr'
  simp only [mplsFeatures] at he hm
  have hn' : ∀ n ∈ (mplsPre mods u x).1.neighbors, n.label4 = false ∧ n.label6 = false ∧ n.vpnv4 = none ∧
    n.vpnv6 = none ∧ n.sixPe = false := hn
  revert he hm hn'
  generalize (mplsPre mods u x).1 = x0
  intro he hm hn'
  obtain ⟨a1, a2, a3⟩ := lu_keeps x0
  obtain ⟨b1, b2, b3⟩ := vpn_keeps (luPart x0).1
  obtain ⟨c1, c2, c3, c4⟩ := sixPe_keeps remote (vpnPart (luPart x0).1).1
  obtain ⟨m2, hm2, e1, e2, e3, e4⟩ := forall₂_source (sixPe_labels remote (vpnPart (luPart x0).1).1) m hm
  obtain ⟨m1, hm1, e5, e6, e7⟩ := forall₂_source b3 m2 hm2
  have l := lu_used x0 (fun n h => ⟨(hn' n h).1, (hn' n h).2.1⟩) m1 hm1
  have v := vpn_used (luPart x0).1 (fun n h => by
    obtain ⟨n0, h0, f1, f2, f3⟩ := forall₂_source a3 n h
    have := hn' n0 h0
    exact ⟨f1.trans this.2.2.1, f2.trans this.2.2.2.1⟩) m2 hm2
  have s6 := c4 (fun n h => by
    obtain ⟨n1, h1, f1, f2, f3⟩ := forall₂_source b3 n h
    obtain ⟨n0, h0, g1, g2, g3⟩ := forall₂_source a3 n1 h1
    exact f3.trans (g3.trans (hn' n0 h0).2.2.2.2)) m hm
  refine ⟨?_, ?_, ?_, ?_, ?_⟩
  · intro hl
    obtain ⟨s, hs1, hs2⟩ := l.1 (by rw [← e5, ← e1]; exact hl)
    refine featErrors_dict ?_ hs2
    rw [← c3 s (b1.trans hs1)]; omega
  · intro hl
    obtain ⟨s, hs1, hs2⟩ := l.2 (by rw [← e6, ← e2]; exact hl)
    refine featErrors_dict ?_ hs2
    rw [← c3 s (b1.trans hs1)]; omega
  · intro hl
    obtain ⟨s, hs1, hs2⟩ := v.1 (by rw [← e3]; exact hl)
    refine featErrors_dict ?_ hs2
    rw [← hs1, ← c1]; omega
  · intro hl
    obtain ⟨s, hs1, hs2⟩ := v.2 (by rw [← e4]; exact hl)
    refine featErrors_dict ?_ hs2
    rw [← hs1, ← c1]; omega
  · intro hl hf
    have h6 := s6 hl
    have : featErrors f.sixPe ((sixPePart remote (vpnPart (luPart x0).1).1).1.sixPe.map .list) = 0 := by omega
    rw [c2, hf] at this
    cases hx : (vpnPart (luPart x0).1).1.sixPe with
    | none => exact h6 hx
    | some l => rw [hx] at this; cases this

/-- **C67 (finding).**  6PE on a node without BGP labeled unicast is rejected when the device does not support BGP labeled
unicast: looking at the missing setting creates it. -/
theorem C67_6pe_needs_lu_support :
    (mplsRun ⟨.flag true, .flag false, .flag true, .flag true⟩ false (fun _ => ["ibgp"]) ["ospf", "bgp"]
      { sixPe := some (.flag true) } mplsDemoNode []).map (fun r => r.errors) = some 1 := by
  decide +kernel

/-- **C67 (finding).**  Invalid 6PE session types are not reported: errors do not depend on the session types. -/
theorem C67_6pe_types_not_checked (f : MFeatures) (csc : Bool) (remote : String → List String) (mods : List String)
    (u : MplsUser) (x : MplsNode) (ifs : List LdpIntf) (l l' : List String) :
    (mplsRun f csc remote mods { u with sixPe := some (.list l) } x ifs).map (fun r => r.errors) =
    (mplsRun f csc remote mods { u with sixPe := some (.list l') } x ifs).map (fun r => r.errors) := by
  have hp : ∀ k, mplsPre mods { u with sixPe := some (.list k) } x =
      ({ (mplsPre mods { u with sixPe := none } x).1 with sixPe := some k },
        (mplsPre mods { u with sixPe := none } x).2) := fun k => rfl
  have hl : ∀ (y : MplsNode) k, luPart { y with sixPe := some k } =
      ({ (luPart { y with sixPe := none }).1 with sixPe := some k }, (luPart { y with sixPe := none }).2) := by
    intro y k
    unfold luPart adjustLu
    cases y.bgp with
    | none => rfl
    | some p =>
      simp only
      cases hv : validateMpls y.af p with
      | mk a b => cases a <;> rfl
  have hv : ∀ (y : MplsNode) k, vpnPart { y with sixPe := some k } =
      ({ (vpnPart { y with sixPe := none }).1 with sixPe := some k }, (vpnPart { y with sixPe := none }).2) := by
    intro y k
    unfold vpnPart adjustVpn
    cases y.vpn with
    | none => rfl
    | some p =>
      simp only
      cases hv : validateMpls y.af p with
      | mk a b => cases a <;> rfl
  have h6 : ∀ (y : MplsNode) k, (sixPePart remote { y with sixPe := some k }).2 = (adjust6pe remote y []).2 ∧
      (sixPePart remote { y with sixPe := some k }).1.bgp = (adjust6pe remote y []).1.bgp ∧
      (sixPePart remote { y with sixPe := some k }).1.vpn = (adjust6pe remote y []).1.vpn ∧
      (sixPePart remote { y with sixPe := some k }).1.sixPe = some k := by
    intro y k
    unfold sixPePart adjust6pe
    simp only
    split
    · exact ⟨rfl, rfl, rfl, rfl⟩
    · split
      · exact ⟨rfl, rfl, rfl, rfl⟩
      · split <;> exact ⟨rfl, rfl, rfl, rfl⟩
  have key : ∀ k, (mplsRun f csc remote mods { u with sixPe := some (.list k) } x ifs).map (fun r => r.errors) =
      (mplsRun f csc remote mods { u with sixPe := some (.list []) } x ifs).map (fun r => r.errors) := by
    intro k
    unfold mplsRun mplsTransform
    simp only [hp k, hp []]
    generalize mplsPre mods { u with sixPe := none } x = p
    obtain ⟨p, e⟩ := p
    simp only
    cases ldpPart p.ldp (p.af.contains .v4) csc ifs with
    | none => rfl
    | some r =>
      simp only [Option.map_some, Option.some.injEq]
      rw [hl p k, hl p []]
      generalize (luPart { p with sixPe := none }) = q
      obtain ⟨q, e1⟩ := q
      simp only
      rw [hv q k, hv q []]
      generalize (vpnPart { q with sixPe := none }) = w
      obtain ⟨w, e2⟩ := w
      simp only [mplsFeatures]
      rw [(h6 w k).1, (h6 w k).2.1, (h6 w k).2.2.1, (h6 w k).2.2.2, (h6 w []).1, (h6 w []).2.1, (h6 w []).2.2.1,
        (h6 w []).2.2.2]
      rfl
  rw [key l, key l']

/-! ## Rejected settings -/

theorem ldpLoop_errors {csc : Bool} : ∀ {ifs js : List LdpIntf} {e : Nat}, ldpLoop csc ifs = some (js, e) →
    (e = 0 ↔ ∀ i ∈ ifs, "ipv4" ∈ i.intf.af → i.intf.vrf ≠ none → i.mplsLdp = some true → csc = true) := by
  intro ifs
  induction ifs with
  | nil => intro js e h; simp only [ldpLoop] at h; cases h; simp
  | cons i is ih =>
    intro js e h
    unfold ldpLoop at h
    cases h1 : ldpIntf csc i with
    | none => simp [h1] at h
    | some r =>
      obtain ⟨j, e1⟩ := r
      simp only [h1] at h
      cases h2 : ldpLoop csc is with
      | none => simp [h2] at h
      | some r =>
        obtain ⟨js', e2⟩ := r
        simp only [h2, Option.some.injEq, Prod.mk.injEq] at h
        obtain ⟨-, rfl⟩ := h
        have hi : e1 = 0 ↔ ("ipv4" ∈ i.intf.af → i.intf.vrf ≠ none → i.mplsLdp = some true → csc = true) := by
          unfold ldpIntf at h1
          revert h1
          cases hv : i.intf.vrf <;> by_cases g1 : "ipv4" ∈ i.intf.af <;> by_cases g2 : i.mplsLdp = some true <;>
            by_cases g3 : i.intf.role = "external" <;> cases csc <;> simp [g1, g2, g3] <;> omega
        simp only [List.forall_mem_cons]
        rw [← ih h2, ← hi]
        omega

theorem badSess_zero {l : List String} (h : badSess l = 0) : ∀ t ∈ l, t = "ibgp" ∨ t = "ebgp" := by
  intro t ht
  unfold badSess at h
  split at h
  · rename_i hc
    have := List.all_eq_true.1 hc t ht
    simpa using this
  · cases h

theorem validateMpls_ok {nodeAf : List Afam} {p : MPost} {q : AfSess} (h : validateMpls nodeAf p = (some q, 0)) (a : Afam)
    (l : List String) (hl : q.get a = some l) : ∀ t ∈ l, t = "ibgp" ∨ t = "ebgp" := by
  unfold validateMpls at h
  split at h
  · split at h
    · cases h
    · rename_i l' _
      simp only [Prod.mk.injEq, Option.some.injEq] at h
      obtain ⟨rfl, h⟩ := h
      have : l' = l := by
        cases a <;> simp only [AfSess.get] at hl <;> split at hl <;> cases hl <;> rfl
      subst this
      exact badSess_zero h
  · split at h
    · cases h
    · simp only at h
      split at h
      · cases h
      · rename_i s _ _
        simp only [Prod.mk.injEq, Option.some.injEq] at h
        obtain ⟨rfl, h⟩ := h
        cases a
        · have hl' : s.v4 = some l := hl
          rw [hl'] at h
          exact badSess_zero (by simp only [Option.getD_some] at h; omega)
        · have hl' : s.v6 = some l := hl
          rw [hl'] at h
          exact badSess_zero (by simp only [Option.getD_some] at h; omega)

/-- **C67 (rejected settings).**  When no error is reported: a node with LDP has an IGP and IPv4, and LDP is not requested
on VRF interfaces of devices that cannot do it; labels and VPN address families are requested only on BGP nodes and
with valid session types; 6PE is used only with IPv4 and without IPv6 labels. -/
theorem C67_accepted (f : MFeatures) (csc : Bool) (remote : String → List String) (mods : List String)
    (u : MplsUser) (x : MplsNode) (ifs : List LdpIntf) (r : MplsResult)
    (h : mplsRun f csc remote mods u x ifs = some r) (he : r.errors = 0)
    (hb : NothingEmpty u.bgp) (hv : NothingEmpty u.vpn) :
    (u.ldp = true → (∃ m ∈ mods, m ∈ ["ospf", "isis", "eigrp"]) ∧ .v4 ∈ x.af ∧
      ∀ i ∈ ifs, "ipv4" ∈ i.intf.af → i.intf.vrf ≠ none → i.mplsLdp = some true → csc = true) ∧
    (u.bgp ≠ none → u.bgp ≠ some (.flag false) → "bgp" ∈ mods) ∧
    (u.vpn ≠ none → u.vpn ≠ some (.flag false) → "bgp" ∈ mods) ∧
    (∀ a l, sessTypes ["ibgp", "ebgp"] x.af u.bgp a = some l → ∀ t ∈ l, t = "ibgp" ∨ t = "ebgp") ∧
    (∀ a l, sessTypes ["ibgp"] x.af u.vpn a = some l → ∀ t ∈ l, t = "ibgp" ∨ t = "ebgp") ∧
    (u.sixPe ≠ none → x.bgpV4 = true ∧ sessTypes ["ibgp", "ebgp"] x.af u.bgp .v6 = none) := by
  unfold mplsRun mplsTransform at h
  simp only at h
  split at h
  · cases h
  rename_i r' hr'
  cases h
  split at hr'
  · cases hr'
  rename_i lr hlr
  cases hr'
  simp only at he
  have hpe : (mplsPre mods u x).2 = 0 := by omega
  have hle : lr.errors = 0 := by omega
  have hl2 : (luPart (mplsPre mods u x).1).2 = 0 := by omega
  have hv2 : (vpnPart (luPart (mplsPre mods u x).1).1).2 = 0 := by omega
  have h62 : (sixPePart remote (vpnPart (luPart (mplsPre mods u x).1).1).1).2 = 0 := by omega
  clear he
  have hpaf : (mplsPre mods u x).1.af = x.af := rfl
  have some_of : ∀ (d : List String) (s : Option MSet), s ≠ none → s ≠ some (.flag false) →
      ((s.map (MSet.validate d)).bind (MSet.toDefaults d)).isSome = true := by
    intro d s h1 h2
    cases s with
    | none => exact absurd rfl h1
    | some m =>
      cases m with
      | flag b => cases b with
        | false => exact absurd rfl h2
        | true => rfl
      | list l => rfl
      | dict a b => rfl
  simp only [mplsPre] at hpe
  refine ⟨?_, ?_, ?_, ?_, ?_, ?_⟩
  · intro hu
    have hld : (mplsPre mods u x).1.ldp = true := hu
    rw [hld, hpaf] at hlr
    simp only [ldpPart, if_true] at hlr
    refine ⟨?_, ?_⟩
    · apply Classical.byContradiction
      intro hno
      have : (mods.any fun m => ["ospf", "isis", "eigrp"].contains m) = false := by
        rw [List.any_eq_false]
        intro m hm hc
        exact hno ⟨m, hm, by simpa using hc⟩
      rw [this] at hpe
      simp [hu] at hpe
    · unfold nodeAdjustLdp at hlr
      by_cases h4 : Afam.v4 ∈ x.af
      · rw [if_neg (by simp [h4])] at hlr
        cases hll : ldpLoop csc ifs with
        | none => simp [hll] at hlr
        | some q =>
          obtain ⟨js, e⟩ := q
          simp only [hll, Option.some.injEq] at hlr
          subst hlr
          exact ⟨h4, (ldpLoop_errors hll).1 hle⟩
      · rw [if_pos (by simp [h4])] at hlr
        cases hlr
        cases hle
  · intro h1 h2
    apply Classical.byContradiction
    intro hm
    rw [some_of _ u.bgp h1 h2] at hpe
    simp [hm] at hpe
  · intro h1 h2
    apply Classical.byContradiction
    intro hm
    rw [some_of _ u.vpn h1 h2] at hpe
    simp [hm] at hpe
  · intro a l hl
    rcases mset_pre ["ibgp", "ebgp"] u.bgp x.af hb (by simp) with ⟨h1, h2⟩ | ⟨p, q, e, h1, h2, h3⟩
    · rw [h2 a] at hl; cases hl
    · have hbgp : (mplsPre mods u x).1.bgp = some p := h1
      unfold luPart adjustLu at hl2
      rw [hbgp] at hl2
      simp only [hpaf, h2] at hl2
      subst hl2
      exact validateMpls_ok h2 a l ((h3 a).trans hl)
  · intro a l hl
    rcases mset_pre ["ibgp"] u.vpn x.af hv (by simp) with ⟨h1, h2⟩ | ⟨p, q, e, h1, h2, h3⟩
    · rw [h2 a] at hl; cases hl
    · obtain ⟨q', -, -, -, a4⟩ := lu_part ["ibgp", "ebgp"] (mplsPre mods u x).1 u.bgp hb (by simp) rfl
      have hvpn : (luPart (mplsPre mods u x).1).1.vpn = some p := (lu_keeps _).1.trans h1
      have haf : (luPart (mplsPre mods u x).1).1.af = x.af := by rw [a4]; rfl
      unfold vpnPart adjustVpn at hv2
      rw [hvpn] at hv2
      simp only [haf, h2] at hv2
      subst hv2
      exact validateMpls_ok h2 a l ((h3 a).trans hl)
  · intro hu
    obtain ⟨q', a1, -, a3, a4⟩ := lu_part ["ibgp", "ebgp"] (mplsPre mods u x).1 u.bgp hb (by simp) rfl
    obtain ⟨q2, -, -, b3⟩ := vpn_part ["ibgp"] (luPart (mplsPre mods u x).1).1 u.vpn hv (by simp)
      ((lu_keeps _).1.trans rfl)
    have e1 : (vpnPart (luPart (mplsPre mods u x).1).1).1.bgp = (luPart (mplsPre mods u x).1).1.bgp := (vpn_keeps _).1
    have e2 : (vpnPart (luPart (mplsPre mods u x).1).1).1.bgpV4 = x.bgpV4 := by rw [b3, a4]; rfl
    have e3 : (vpnPart (luPart (mplsPre mods u x).1).1).1.sixPe =
        (u.sixPe.map (MVal.validate ["ibgp"])).bind (MVal.toDefault ["ibgp"]) := by rw [b3, a4]; rfl
    have e4 : (vpnPart (luPart (mplsPre mods u x).1).1).1.af = x.af := by rw [b3, a4]; rfl
    cases hs : u.sixPe with
    | none => exact absurd hs hu
    | some v =>
      rw [hs, Option.map_some, Option.bind_some, toDefault_validate] at e3
      unfold sixPePart adjust6pe at h62
      simp only [e3, e4, e1] at h62
      rw [hpaf] at a1
      have hval : ∃ e, validateMpls x.af ((luPart (mplsPre mods u x).1).1.bgp.getD (.dict {})) = (some q', e) ∨
          (sessTypes ["ibgp", "ebgp"] x.af u.bgp .v6 = none ∧
            validateMpls x.af ((luPart (mplsPre mods u x).1).1.bgp.getD (.dict {})) = (some {}, e)) := by
        rcases mset_pre ["ibgp", "ebgp"] u.bgp x.af hb (by simp) with ⟨h1, h2⟩ | ⟨p, q, e, h1, h2, h3⟩
        · have hbgp : (mplsPre mods u x).1.bgp = none := h1
          refine ⟨0, .inr ⟨h2 .v6, ?_⟩⟩
          unfold luPart
          rw [hbgp]
          simp only [hbgp]
          rfl
        · have hbgp : (mplsPre mods u x).1.bgp = some p := h1
          have : (luPart (mplsPre mods u x).1).1.bgp = some (.dict q) := by
            unfold luPart adjustLu
            rw [hbgp]
            simp only [hpaf, h2]
          have hqq : q = q' := by
            cases q; cases q'
            have g4 := (h3 .v4).trans (a1 .v4).symm
            have g6 := (h3 .v6).trans (a1 .v6).symm
            simp only [AfSess.get] at g4 g6
            rw [g4, g6]
          subst hqq
          have hne : q.v4 ≠ some [] ∧ q.v6 ≠ some [] := by
            unfold validateMpls at h2
            split at h2
            · split at h2
              · cases h2
              · rename_i hnil
                have hnil' : ∀ l : List String, ¬ l.isEmpty = true → some l ≠ some [] := by
                  intro l hl h; cases h; exact hl rfl
                simp only [Prod.mk.injEq, Option.some.injEq] at h2
                obtain ⟨rfl, -⟩ := h2
                simp only
                constructor
                · split
                  · exact hnil' _ hnil
                  · simp
                · split
                  · exact hnil' _ hnil
                  · simp
            · split at h2
              · cases h2
              · simp only at h2
                split at h2
                · cases h2
                · cases h2
                  exact ⟨by assumption, by assumption⟩
          refine ⟨badSess (q.v4.getD []) + badSess (q.v6.getD []), .inl ?_⟩
          · rw [this]
            simp only [Option.getD_some, validateMpls]
            rw [if_neg hne.1, if_neg hne.2]
      obtain ⟨e, hval | ⟨hn6, hval⟩⟩ := hval
      · simp only [hval, e2] at h62
        cases hx : x.bgpV4 with
        | false => simp [hx] at h62
        | true =>
          refine ⟨rfl, ?_⟩
          rw [← a1 .v6]
          cases hq : q'.v6 with
          | none => exact hq
          | some l => simp [hx, hq] at h62
      · simp only [hval, e2] at h62
        cases hx : x.bgpV4 with
        | false => simp [hx] at h62
        | true => exact ⟨rfl, hn6⟩

/-- C67: interfaces of a node without LDP do not run LDP, and missing IPv4 addresses do not matter. -/
theorem C67_no_ldp (f : MFeatures) (csc : Bool) (remote : String → List String) (mods : List String) (u : MplsUser) (x : MplsNode)
    (ifs : List LdpIntf) (hu : u.ldp = false) :
    ∃ r, mplsRun f csc remote mods u x ifs = some r ∧ r.ifs = ifs ∧ r.ldpActive = false := by
  unfold mplsRun mplsTransform
  have hl : ∀ v4, ldpPart (mplsPre mods u x).1.ldp v4 csc ifs = some ⟨ifs, false, false, 0⟩ := by
    intro v4
    rw [show (mplsPre mods u x).1.ldp = false from hu]
    rfl
  dsimp only
  rw [hl]
  exact ⟨_, rfl, rfl, rfl⟩

end Netlab
