import Verif.Spec.BgpMirror
import Verif.Props.BgpLab
/-!
# Both ends of BGP sessions (C121)
-/

namespace Netlab

open Netlab.Spec

/-- Neighbors on a link: each one of them is a neighbor of the other one. -/
theorem plan_mutual {e : PlanEnv} {nodes : List PlanNode} {links : List PlanLink} {out : PlanOut} (h : plan e nodes links = some out) (ho : OncePerLink links)
    {i : NodeIf} (hi : i ∈ out.ifs) {b : Nbr} (hb : b ∈ i.nbrs) :
    ∃ j ∈ out.ifs, j.link = i.link ∧ b = nbrOf j ∧ nbrOf i ∈ j.nbrs := by
  obtain ⟨segs, b1, -, b3⟩ := plan_blocks h ho
  have hi' := hi
  rw [b1] at hi'
  obtain ⟨sg, hs, his⟩ := List.mem_flatten.1 hi'
  obtain ⟨seg, hseg, rfl⟩ := List.mem_map.1 hs
  obtain ⟨r, hr, hf⟩ := forall₂_mem_left b3 hseg
  obtain ⟨k, i0, hk, rfl⟩ := mem_setNeighbors his
  have hi0 : i0 ∈ seg := List.mem_of_getElem? hk
  dsimp only at hb ⊢
  unfold nbrList at hb
  obtain ⟨⟨z, kz⟩, hz, rfl⟩ := List.mem_map.1 hb
  obtain ⟨hz, hne⟩ := List.mem_filter.1 hz
  have hne : kz ≠ k := by simpa using hne
  have hkz : seg[kz]? = some z := by
    have := List.mem_zipIdx_iff_getElem?.1 hz
    simpa using this
  have hlnk : ∀ w ∈ seg, w.link = r.index := by
    intro w hw
    obtain ⟨r', -, -, e2, -⟩ := forall₂_mem_left hf hw
    exact e2
  refine ⟨{ z with nbrs := nbrList kz seg }, ?_, ?_, rfl, ?_⟩
  · rw [b1]
    refine List.mem_flatten.2 ⟨_, hs, ?_⟩
    unfold setNeighbors
    refine List.mem_iff_getElem?.2 ⟨kz, ?_⟩
    rw [List.getElem?_mapIdx, hkz]
    rfl
  · exact (hlnk z (List.mem_of_getElem? hkz)).trans (hlnk i0 hi0).symm
  · dsimp only
    unfold nbrList
    refine List.mem_map.2 ⟨(i0, k), List.mem_filter.2 ⟨?_, by simpa using Ne.symm hne⟩, rfl⟩
    exact List.mem_zipIdx_iff_getElem?.2 (by simpa using hk)

theorem peer_ip (v : Option AddrV) : (match v.map AddrV.peer with | some (.ip s) => some s | _ => none : Option String) = peerIp v := by
  rcases v with _ | v
  · rfl
  · cases v <;> rfl

theorem ngbAddr_peer {g : BgpNgb} {v4 v6 : Option AddrV} (h4 : g.ipv4 = v4.map AddrV.peer) (h6 : g.ipv6 = v6.map AddrV.peer) :
    ngbAddr "ipv4" g = peerIp v4 ∧ ngbAddr "ipv6" g = peerIp v6 := by
  unfold ngbAddr
  refine ⟨?_, ?_⟩
  · rw [if_neg (by decide), h4]
    rcases v4 with _ | v
    · rfl
    · cases v <;> rfl
  · rw [if_pos rfl, h6]
    rcases v6 with _ | v
    · rfl
    · cases v <;> rfl

/-- The local AS number of a session is the AS number used on the link. -/
theorem sessionAs_link {x y : BgpNode} {l : BgpIntf} {q : NgbIf} {t : SType} {ay a : Int} {g : BgpNgb} (hd : EbgpData x l y q t ay g) (ha : LinkAs x l.bgp a) : SessionAs x g a := by
  cases ha with
  | intf h h0 => exact .inl ⟨hd.localAs a h h0, h0⟩
  | node h h1 h0 => exact .inl ⟨(hd.nodeLocalAs h).trans h1, h0⟩
  | real h h1 h2 h0 =>
    refine .inr ⟨fun i hi => ?_, h2⟩
    rw [hd.nodeLocalAs h] at hi
    exact h1 i hi

/-- **C121**: an EBGP session of a node (or a session with a local AS) over an interface has a counterpart on the neighbor: both sessions use the interfaces of the same link, each node
uses the address of the other one, session types are the same, and each node expects the AS number the other one uses. -/
theorem C121_ebgp (text : Nat → String) (attr : String → Option String → IfBgp) (e : PlanEnv) (nodes : List PlanNode) (links : List PlanLink) (out : PlanOut)
    (h : plan e nodes links = some out) (ho : OncePerLink links) (topo : List BgpNode) (ht : LabBgpAttr text attr out topo) (hn : (topo.map (·.name)).Nodup)
    (hdef : DefaultBgp topo) (has : AsOnBgpNodes topo) (herr : NoBgpErrors topo)
    (x : BgpNode) (hxt : x ∈ topo) (a : Int) (hx : x.bgpAs = some a) (ha : a ≠ 0) (g : BgpNgb) (hg : g ∈ (buildEbgpSessions topo x a).1) :
    ∃ y ∈ topo, y.name ≠ x.name ∧ ∃ b, y.bgpAs = some b ∧ ∃ g' ∈ (buildEbgpSessions topo y b).1, ∃ i ∈ out.ifs, ∃ j ∈ out.ifs,
      SessionOver text x y g i j ∧ SessionOver text y x g' j i ∧ Agree x y g g' := by
  obtain ⟨l, hl, q, hm⟩ := (mem_buildEbgp topo x a g).1 hg
  obtain ⟨hq, y, hyt, hyn, t, ax, ay, hw, hdat⟩ := C24_ebgp_sessions_sound topo x a l hx ha q g hm
  obtain ⟨lx, -, hnx⟩ := forall₂_mem_left ht.flip hxt
  obtain ⟨i, hi, hif⟩ := forall₂_mem_left hnx.interfaces.flip hl
  obtain ⟨nb, hnb, hqf⟩ := forall₂_mem_left hif.neighbors.flip hq
  obtain ⟨hio, hin⟩ := List.mem_filter.1 hi
  have hin : i.node = x.name := by simpa using hin
  have hother := (plan_neighbor h ho hio hnb).1
  obtain ⟨j, hj, hjl, rfl, hback⟩ := plan_mutual h ho hio hnb
  have hjn : j.node = y.name := by
    rw [hyn, hqf.node]
    rfl
  obtain ⟨ly, -, hny⟩ := forall₂_mem_left ht.flip hyt
  obtain ⟨m, hmi, hjf⟩ := forall₂_mem_left hny.interfaces (List.mem_filter.2 ⟨hj, by simpa using hjn⟩)
  obtain ⟨p, hp, hpf⟩ := forall₂_mem_left hjf.neighbors hback
  have hqd : Describes q y m := ⟨hyn.symm, hqf.ipv4.trans hjf.ipv4.symm, hqf.ipv6.trans hjf.ipv6.symm, hqf.bgp.trans hjf.bgp.symm⟩
  have hpd : Describes p x l := ⟨hpf.node.trans hin, hpf.ipv4.trans hif.ipv4.symm, hpf.ipv6.trans hif.ipv6.symm, hpf.bgp.trans hif.bgp.symm⟩
  obtain ⟨b, hy, hb⟩ := has y hyt m hmi ay (by rw [← hqd.bgp]; exact hw.asY)
  have hsym := C24_ebgp_symmetric topo x y a b l m q p hn hxt hyt hx ha hy hb hq hqd hp hpd (hdef.sessions x hxt) (hdef.sessions y hyt)
    (hdef.interfaces x hxt l hl) (hdef.interfaces y hyt m hmi) (fun v _ => by rw [hdef.vrfs x hxt]; exact List.not_mem_nil)
    (fun v _ => by rw [hdef.vrfs y hyt]; exact List.not_mem_nil)
    ((buildEbgp_errors topo x a).1 (herr x hxt a hx) l hl) ((buildEbgp_errors topo y b).1 (herr y hyt b hy) m hmi) g.type
  obtain ⟨g', hm', htype⟩ := hsym.1 ⟨g, hm, rfl⟩
  obtain ⟨-, x', hxt', hxn, t', ay', ax', hw', hdat'⟩ := C24_ebgp_sessions_sound topo y b m hy hb p g' hm'
  have hxx : x' = x := eq_of_nodup_name hn hxt' hxt (by rw [hxn, hpd.node])
  subst hxx
  have hdefault : ∀ t : SType, t ∈ Sessions.default.ipv4 ∧ t ∈ Sessions.default.ipv6 := by
    intro t
    cases t <;> decide
  have uniq : ∀ {n : BgpNode} {v : IfBgp} {c d : Int}, LinkAs n v c → LinkAs n v d → c = d := by
    intro n v c d h1 h2
    have e1 := ((linkAs_iff v n c).2 h1).1
    have e2 := ((linkAs_iff v n d).2 h2).1
    rw [e1] at e2
    exact Option.some.inj e2
  have over : ∀ {x y : BgpNode} {l : BgpIntf} {q : NgbIf} {t : SType} {ay : Int} {g : BgpNgb} {i j : NodeIf}, EbgpData x l y q t ay g → x.sessions = .default → i.node = x.name →
      j.node = y.name → i.link = j.link → l.ifindex = i.ifindex → q.ipv4 = bgpAddr text j.ip4 → q.ipv6 = bgpAddr text j.ip6 → SessionOver text x y g i j := by
    intro x y l q t ay g i j hd hs h1 h2 h3 h4 h5 h6
    have e4 := hd.ipv4
    have e6 := hd.ipv6
    rw [hs, if_pos (hdefault t).1] at e4
    rw [hs, if_pos (hdefault t).2] at e6
    obtain ⟨k4, k6⟩ := ngbAddr_peer e4 e6
    refine ⟨h1, h2, h3, hd.name, by rw [← h4]; exact hd.ifindex, ?_, ?_⟩
    · rw [k4, h5, peerIp_bgpAddr]
      rfl
    · rw [k6, h6, peerIp_bgpAddr]
      rfl
  refine ⟨y, hyt, ?_, b, hy, g', (mem_buildEbgp topo y b g').2 ⟨m, hmi, p, hm'⟩, i, hio, j, hj,
    over hdat (hdef.sessions _ hxt) hin hjn hjl.symm hif.ifindex hqf.ipv4 hqf.ipv6,
    over hdat' (hdef.sessions y hyt) hjn hin hjl hjf.ifindex hpf.ipv4 hpf.ipv6, htype.symm, ?_, ?_⟩
  · rw [← hjn, ← hin]
    exact hother
  · rw [hdat.asn]
    have : ay' = ay := uniq hw'.asX (by rw [← hqd.bgp]; exact hw.asY)
    rw [← this]
    exact sessionAs_link hdat' hw'.asX
  · rw [hdat'.asn]
    have : ax' = ax := uniq hw'.asY (by rw [hpd.bgp]; exact hw.asX)
    rw [this]
    exact sessionAs_link hdat hw.asX

/-- **C121**: an IBGP session of a node has a counterpart on the neighbor; each one of them goes to the loopback address of the other node, both nodes are in the same AS, and each
session says whether the other node is a route reflector. -/
theorem C121_ibgp (text : Nat → String) (attr : String → Option String → IfBgp) (out : PlanOut) (topo : List BgpNode) (ht : LabBgpAttr text attr out topo)
    (hn : (topo.map (·.name)).Nodup) (hs : ∀ n ∈ topo, n.sessions = .default)
    (hlb : ∀ n ∈ topo, n.bgpAs ≠ none → ∃ l, n.loopback = some l ∧ (l.ipv4 ≠ none ∨ l.ipv6 ≠ none))
    (x : BgpNode) (hxt : x ∈ topo) (a : Int) (hx : x.bgpAs = some a) (g : BgpNgb) (hg : g ∈ buildIbgpSessions topo x a) :
    ∃ y ∈ topo, y.name ≠ x.name ∧ y.bgpAs = some a ∧ ∃ g' ∈ buildIbgpSessions topo y a, g.name = y.name ∧ g'.name = x.name ∧ g.asn = a ∧ g'.asn = a ∧
      g.rr = y.rr ∧ g'.rr = x.rr ∧
      ∃ lx ∈ out.loopbacks, ∃ ly ∈ out.loopbacks, lx.1.name = x.name ∧ ly.1.name = y.name ∧
        ∀ af, AfName af → ngbAddr af g = (lbAddrOf (ly.2.lb.lookup af)).map text ∧ ngbAddr af g' = (lbAddrOf (lx.2.lb.lookup af)).map text := by
  obtain ⟨y, hyt, hw, hgs⟩ := (mem_buildIbgp topo x a g hx).1 hg
  have hya := hw.2.1
  have reach : ∀ {u v : BgpNode}, u ∈ topo → v ∈ topo → v.bgpAs ≠ none → IbgpReachable u v := by
    intro u v hu hv hva
    obtain ⟨l, hl, hne⟩ := hlb v hv hva
    refine ⟨l, .loopback l hl, ?_⟩
    rw [hs u hu]
    simpa [Usable, Sessions.default] using hne
  have hgn : g.name = y.name := (bgpNeighbor_some hgs).1
  obtain ⟨g', hg', hn'⟩ := (C23_ibgp_symmetric topo x y a hn hxt hyt hx hya (reach hxt hyt (by simp [hya])) (reach hyt hxt (by simp [hx]))).1 ⟨g, hg, hgn⟩
  obtain ⟨x', hxt', hw', hgs'⟩ := (mem_buildIbgp topo y a g' hya).1 hg'
  have hxx : x' = x := eq_of_nodup_name hn hxt' hxt ((bgpNeighbor_some hgs').1.symm.trans hn')
  subst hxx
  obtain ⟨lx, hlx, hnx⟩ := forall₂_mem_left ht.flip hxt
  obtain ⟨ly, hly, hny⟩ := forall₂_mem_left ht.flip hyt
  have addr : ∀ {u v : BgpNode} {lv : LbNode × LbState} {g : BgpNgb}, u ∈ topo → v ∈ topo → v.bgpAs ≠ none → v.loopback = bgpLoopback text lv → ibgpSession u.sessions a v = some g →
      ∀ af, AfName af → ngbAddr af g = (lbAddrOf (lv.2.lb.lookup af)).map text := by
    intro u v lv g hu hv hva hvl hgs af haf
    obtain ⟨l, hl, -⟩ := hlb v hv hva
    obtain ⟨-, -, -, -, -, -, -, -, -, h4, h6⟩ := bgpNeighbor_some hgs
    rw [hs u hu, if_pos (by simp [Sessions.default])] at h4 h6
    have he : ibgpEndpoint v = l := by simp [ibgpEndpoint, hl]
    rw [he] at h4 h6
    obtain ⟨k4, k6⟩ := ngbAddr_peer h4 h6
    rw [hl] at hvl
    unfold bgpLoopback at hvl
    split at hvl
    · cases hvl
    · cases hvl
      rcases haf with rfl | rfl
      · rw [k4]
        exact peerIp_bgpLbAddr text _
      · rw [k6]
        exact peerIp_bgpLbAddr text _
  refine ⟨y, hyt, Ne.symm hw.2.2.1, hya, g', hg', hgn, hn', (bgpNeighbor_some hgs).2.1, (bgpNeighbor_some hgs').2.1, (bgpNeighbor_some hgs).2.2.2.1, (bgpNeighbor_some hgs').2.2.2.1,
    lx, hlx, ly, hly, hnx.name.symm, hny.name.symm, fun af haf => ⟨?_, ?_⟩⟩
  · exact addr hxt hyt (by simp [hya]) hny.loopback hgs af haf
  · exact addr hyt hxt (by simp [hx]) hnx.loopback hgs' af haf

/-! ### Examples and defects -/

namespace BgpMirrorExample

open BgpLabExample StabilityExample

def mkNbrA (text : Nat → String) (attr : String → Option String → IfBgp) (b : Nbr) : NgbIf :=
  { node := b.node, ipv4 := bgpAddr text b.ip4, ipv6 := bgpAddr text b.ip6, bgp := attr b.node b.ifname }

def mkIfA (text : Nat → String) (attr : String → Option String → IfBgp) (i : NodeIf) : BgpIntf :=
  { ifindex := i.ifindex, ipv4 := bgpAddr text i.ip4, ipv6 := bgpAddr text i.ip6, bgp := attr i.node i.ifname, neighbors := i.nbrs.map (mkNbrA text attr) }

def mkNodeA (text : Nat → String) (attr : String → Option String → IfBgp) (asOf : String → Option Int) (ifs : List NodeIf) (x : LbNode × LbState) : BgpNode :=
  { name := x.1.name, bgpAs := asOf x.1.name, loopback := bgpLoopback text x, interfaces := (ifs.filter (fun i => i.node == x.1.name)).map (mkIfA text attr) }

/-- BGP data of a lab with BGP attributes of interfaces -/
def bgpTopoA (text : Nat → String) (attr : String → Option String → IfBgp) (asOf : String → Option Int) (out : PlanOut) : List BgpNode :=
  out.loopbacks.map (mkNodeA text attr asOf out.ifs)

/-- Every lab has BGP data that meets the hypothesis of the theorems. -/
theorem bgpTopoA_lab (text : Nat → String) (attr : String → Option String → IfBgp) (asOf : String → Option Int) (out : PlanOut) :
    LabBgpAttr text attr out (bgpTopoA text attr asOf out) := by
  have key : ∀ {α β : Type} {R : α → β → Prop} (f : α → β) (l : List α), (∀ x ∈ l, R x (f x)) → List.Forall₂ R l (l.map f) := by
    intro α β R f l h
    rw [List.forall₂_map_right_iff, List.forall₂_same]
    exact h
  refine key _ _ (fun x _ => ⟨rfl, rfl, key _ _ (fun i _ => ⟨rfl, rfl, rfl, rfl, key _ _ (fun b _ => ⟨⟨rfl, rfl, rfl⟩, rfl⟩)⟩)⟩)

/-- Node `b` uses AS 65100 on its interfaces. -/
def attr (n : String) (_ : Option String) : IfBgp := .attrs (if n = "b" then some 65100 else none)

def sessionsA (n : String) : List ((String × SType) × (Int × Option Int) × Option String) :=
  match lab with
  | none => []
  | some out =>
    match (bgpTopoA text attr asOf out).find? (·.name == n) with
    | none => []
    | some x => (buildBgpSessions (bgpTopoA text attr asOf out) x (x.bgpAs.getD 0)).1.map (fun g => ((g.name, g.type), (g.asn, g.localAs), ngbAddr "ipv4" g))

example : sessionsA "a" =
    [(("b", .ibgp), (65000, none), some "167772162"), (("b", .ebgp), (65100, none), some "2886729730"), (("c", .ebgp), (65001, none), some "2886729987")] := by decide +kernel

example : sessionsA "b" = [(("a", .ibgp), (65000, none), some "167772161"), (("a", .ebgp), (65000, some 65100), some "2886729729")] := by decide +kernel

example : sessionsA "c" = [(("a", .ebgp), (65000, none), some "2886729985")] := by decide +kernel

def checks (topo : List BgpNode) : Bool :=
  topo.all (fun n => n.sessions == .default && n.vrfOff == [] && n.interfaces.all (fun l => l.bgp != .off) &&
    (match n.bgpAs with | some b => b != 0 && (buildBgpSessions topo n b).2 == 0 | none => false)) && decide ((topo.map (·.name)).Nodup)

example : lab.map (fun out => checks (bgpTopoA text attr asOf out)) = some true := by decide +kernel

example (topo : List BgpNode) (h : checks topo = true) : DefaultBgp topo ∧ AsOnBgpNodes topo ∧ NoBgpErrors topo ∧ (topo.map (·.name)).Nodup := by
  unfold checks at h
  simp only [Bool.and_eq_true, List.all_eq_true, beq_iff_eq, bne_iff_ne, decide_eq_true_eq] at h
  refine ⟨⟨fun n hn => (h.1 n hn).1.1.1, fun n hn => (h.1 n hn).1.2, fun n hn => (h.1 n hn).1.1.2⟩, ?_, ?_, h.2⟩
  · intro n hn l _ a _
    have := (h.1 n hn).2
    split at this
    · rename_i b hb
      simp only [Bool.and_eq_true, bne_iff_ne] at this
      exact ⟨b, hb, this.1⟩
    · cases this
  · intro n hn a ha
    have := (h.1 n hn).2
    rw [ha] at this
    simp only [Bool.and_eq_true, beq_iff_eq] at this
    exact this.2

/-- Two routers on a dual-stack link; each one of them is configured with EBGP sessions in a different address family. -/
def onlyV4 : BgpNode :=
  { name := "a", bgpAs := some 65000, sessions := { ipv4 := [.ebgp] },
    interfaces := [{ ifindex := 1, ipv4 := some (.addr "10.1.0.1" 30), ipv6 := some (.addr "2001:db8::1" 64), neighbors := [{ node := "b", ipv4 := some (.addr "10.1.0.2" 30), ipv6 := some (.addr "2001:db8::2" 64) }] }] }

def onlyV6 : BgpNode :=
  { name := "b", bgpAs := some 65001, sessions := { ipv6 := [.ebgp] },
    interfaces := [{ ifindex := 1, ipv4 := some (.addr "10.1.0.2" 30), ipv6 := some (.addr "2001:db8::2" 64), neighbors := [{ node := "a", ipv4 := some (.addr "10.1.0.1" 30), ipv6 := some (.addr "2001:db8::1" 64) }] }] }

end BgpMirrorExample

open BgpMirrorExample in
/-- C121 defect (nodes have to use sessions in the same address families): each end of the session uses another address family -- the session cannot be established -- and no errors
are reported. -/
theorem C121_address_family_mismatch :
    ((buildBgpSessions [onlyV4, onlyV6] onlyV4 65000).1.map (fun g => (g.name, g.ipv4, g.ipv6)) = [("b", some (.ip "10.1.0.2"), none)] ∧
      (buildBgpSessions [onlyV4, onlyV6] onlyV4 65000).2 = 0) ∧
    (buildBgpSessions [onlyV4, onlyV6] onlyV6 65001).1.map (fun g => (g.name, g.ipv4, g.ipv6)) = [("a", none, some (.ip "2001:db8::1"))] ∧
      (buildBgpSessions [onlyV4, onlyV6] onlyV6 65001).2 = 0 := by
  refine ⟨⟨?_, ?_⟩, ?_, ?_⟩ <;> decide +kernel

end Netlab
