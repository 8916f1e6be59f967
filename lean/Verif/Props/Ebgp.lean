import Verif.Props.Ibgp
/-!
# C24: EBGP sessions
-/

namespace Netlab
open Spec

theorem linkAs_iff (b : IfBgp) (n : BgpNode) (a : Int) :
    (linkAs b n = some a ∧ a ≠ 0) ↔ LinkAs n b a := by
  constructor
  · rintro ⟨h, h0⟩
    unfold linkAs at h
    cases b with
    | off =>
      simp only [IfBgp.localAs, orAs] at h
      cases hl : n.localAs with
      | none => rw [hl] at h; exact .real a (by simp) (by simp [hl]) h h0
      | some i =>
        rw [hl] at h
        by_cases hi : i = 0
        · simp only [hi, if_true] at h
          exact .real a (by simp) (by simp [hl, hi]) h h0
        · simp only [hi, if_false] at h
          exact .node a (by simp) (by rw [hl]; exact h) h0
    | attrs o =>
      have rest : ∀ (hno : ∀ i, IfBgp.attrs o = .attrs (some i) → i = 0),
          orAs n.localAs n.bgpAs = some a → LinkAs n (.attrs o) a := by
        intro hno h
        cases hl : n.localAs with
        | none => rw [hl] at h; exact .real a hno (by simp [hl]) h h0
        | some i =>
          rw [hl] at h
          by_cases hi : i = 0
          · simp only [orAs, hi, if_true] at h
            exact .real a hno (by simp [hl, hi]) h h0
          · simp only [orAs, hi, if_false] at h
            exact .node a hno (by rw [hl]; exact h) h0
      cases o with
      | none => exact rest (by simp) h
      | some j =>
        by_cases hj : j = 0
        · subst hj
          exact rest (by intro i e; cases e; rfl) h
        · simp only [IfBgp.localAs, orAs, hj, if_false] at h
          obtain rfl := Option.some.inj h
          exact .intf j rfl h0
  · intro h
    cases h with
    | intf hb h0 => subst hb; exact ⟨by simp [linkAs, IfBgp.localAs, orAs, h0], h0⟩
    | node hb hl h0 =>
      refine ⟨?_, h0⟩
      have : orAs b.localAs (orAs n.localAs n.bgpAs) = orAs n.localAs n.bgpAs := by
        cases b with
        | off => rfl
        | attrs o =>
          cases o with
          | none => rfl
          | some j => simp [IfBgp.localAs, orAs, hb j rfl]
      rw [linkAs, this, hl]
      simp [orAs, h0]
    | real hb hl ha h0 =>
      refine ⟨?_, h0⟩
      have : orAs b.localAs (orAs n.localAs n.bgpAs) = orAs n.localAs n.bgpAs := by
        cases b with
        | off => rfl
        | attrs o =>
          cases o with
          | none => rfl
          | some j => simp [IfBgp.localAs, orAs, hb j rfl]
      rw [linkAs, this]
      cases hn : n.localAs with
      | none => simpa [orAs] using ha
      | some j => simp [orAs, hl j hn, ha]

theorem LinkAs.unique {n : BgpNode} {b : IfBgp} {a a' : Int} (h : LinkAs n b a) (h' : LinkAs n b a') : a = a' := by
  have h1 := ((linkAs_iff b n a).2 h).1
  have h2 := ((linkAs_iff b n a').2 h').1
  rw [h1] at h2
  exact Option.some.inj h2

/-- Possible values of the IPv6 attribute of the interface while its neighbors are processed -/
def V6State (l : BgpIntf) (v6 : Option AddrV) : Prop :=
  v6 = l.ipv6 ∨ (l.ipv6 = none ∧ l.ipv4 = some (.flag true) ∧ v6 = some (.flag true))

theorem isTrue_iff (a : Option AddrV) : isTrue a = true ↔ a = some (.flag true) := by simp [isTrue]

theorem isNum_iff (a : Option AddrV) : isNum a = true ↔ ∃ ip n, a = some (.addr ip n) := by
  cases a with
  | none => simp [isNum]
  | some v => cases v <;> simp [isNum]

theorem ebgpOne_v6 (x : BgpNode) (a las : Int) (l : BgpIntf) (v6 : Option AddrV) (q : NgbIf) (y : BgpNode)
    (hv : V6State l v6) : V6State l (ebgpOne x a las l v6 q y).2 := by
  have hv' : V6State l (if (isTrue l.ipv4 && isTrue q.ipv4 && !(isNum v6 && isNum q.ipv6) && v6.isNone) = true then
      some (.flag true) else v6) := by
    split
    · rename_i h
      simp only [Bool.and_eq_true, isTrue_iff, Option.isNone_iff_eq_none] at h
      rcases hv with hv | ⟨-, -, hv⟩
      · exact .inr ⟨by rw [← hv, h.2], h.1.1.1, rfl⟩
      · rw [hv] at h; simp at h
    · exact hv
  unfold ebgpOne
  repeat' first
    | exact hv
    | exact hv'
    | split
    | simp only

theorem addr_cond (a b : Option AddrV) : ((a.isNone && b.isNone) = true) ↔ ¬ (a ≠ none ∨ b ≠ none) := by
  cases a <;> cases b <;> simp

/-- What a result of `ebgpOne` says about the session -/
def EbgpGood (x : BgpNode) (l : BgpIntf) (y : BgpNode) (q : NgbIf) (las : Int) : EbgpRes → Prop
  | .error => True
  | .skip => ¬ ∃ t ax ay, EbgpWanted x l y q t ax ay
  | .session g => ∃ t ay, EbgpWanted x l y q t las ay ∧ EbgpData x l y q t ay g

theorem ebgpOne_cases (x : BgpNode) (a las : Int) (l : BgpIntf) (v6 : Option AddrV) (q : NgbIf) (y : BgpNode)
    (hx : x.bgpAs = some a) (hlas : LinkAs x l.bgp las) (hoff : l.bgp ≠ .off)
    (haddr : l.ipv4 ≠ none ∨ l.ipv6 ≠ none) (hv6 : V6State l v6) :
    EbgpGood x l y q las (ebgpOne x a las l v6 q y).1 := by
  unfold ebgpOne
  by_cases h1 : (q.ipv4.isNone && q.ipv6.isNone) = true
  · rw [if_pos h1]
    rintro ⟨t, ax, ay, hw⟩
    exact (addr_cond _ _).1 h1 hw.addrY
  rw [if_neg h1]
  have haddrY : q.ipv4 ≠ none ∨ q.ipv6 ≠ none := by
    rw [addr_cond] at h1
    exact Classical.not_not.1 h1
  cases hn : linkAs q.bgp y with
  | none =>
    simp only
    rintro ⟨t, ax, ay, hw⟩
    have := ((linkAs_iff _ _ _).2 hw.asY).1
    rw [hn] at this; cases this
  | some nlas =>
    simp only
    by_cases h0 : nlas = 0
    · rw [if_pos h0]
      rintro ⟨t, ax, ay, hw⟩
      have := (linkAs_iff _ _ _).2 hw.asY
      rw [hn] at this
      exact this.2 (by have := Option.some.inj this.1; omega)
    rw [if_neg h0]
    have hasY : LinkAs y q.bgp nlas := (linkAs_iff _ _ _).1 ⟨hn, h0⟩
    by_cases hsame : y.bgpAs = some a ∧ las = nlas
    · rw [if_pos hsame]
      rintro ⟨t, ax, ay, hw⟩
      have e1 := LinkAs.unique hw.asX hlas
      have e2 := LinkAs.unique hw.asY hasY
      subst e1; subst e2
      exact hw.differ ⟨by rw [hx, hsame.1], hsame.2⟩
    rw [if_neg hsame]
    have hdiff : ¬ (x.bgpAs = y.bgpAs ∧ las = nlas) := by
      rintro ⟨e1, e2⟩
      exact hsame ⟨by rw [← e1, hx], e2⟩
    split
    · trivial
    split
    · trivial
    split
    · trivial
    split
    · trivial
    generalize htt : (if nlas = las then SType.localasIbgp else SType.ebgp) = t
    have htype : LinkType las nlas t := by
      by_cases e : nlas = las
      · rw [if_pos e] at htt
        exact .inr ⟨e.symm, htt.symm⟩
      · rw [if_neg e] at htt
        exact .inl ⟨fun e' => e e'.symm, htt.symm⟩
    have huniq : ∀ t', LinkType las nlas t' → t' = t := by
      intro t' h
      rcases h with ⟨h, e⟩ | ⟨h, e⟩ <;> rcases htype with ⟨h', e'⟩ | ⟨h', e'⟩
      · rw [e, e']
      · exact absurd h' h
      · exact absurd h h'
      · rw [e, e']
    split
    · trivial
    generalize hg : BgpNgb.mk _ _ _ _ _ _ _ _ _ _ _ = g0
    have hty : g0.type = t := by rw [← hg]
    cases hb : bgpNeighbor g0 { ipv4 := q.ipv4, ipv6 := q.ipv6 } x.sessions with
    | none =>
      simp only
      rintro ⟨t', ax, ay, hw⟩
      have e1 := LinkAs.unique hw.asX hlas
      have e2 := LinkAs.unique hw.asY hasY
      subst e1; subst e2
      have e3 := huniq _ hw.type
      subst e3
      have := (bgpNeighbor_isSome g0 { ipv4 := q.ipv4, ipv6 := q.ipv6 } x.sessions).2 (by rw [hty]; exact hw.usable)
      rw [hb] at this
      simp at this
    | some g =>
      have hu := (bgpNeighbor_isSome g0 { ipv4 := q.ipv4, ipv6 := q.ipv6 } x.sessions).1 (by rw [hb]; rfl)
      rw [hty] at hu
      obtain ⟨d1, d2, d3, -, d5, d6, d7, d8, d9, d10, d11⟩ := bgpNeighbor_some hb
      rw [hty] at d10 d11 d3
      have hdata : EbgpData x l y q t nlas g := by
        refine ⟨?_, ?_, d3, ?_, ?_, ?_, ?_, ?_, ?_, d10, d11⟩
        · rw [d1, ← hg]
        · rw [d2, ← hg]
        · rw [d5, ← hg]
        · rw [d6, ← hg]
        · intro i hi h0
          rw [d9, ← hg]
          simp [hi, IfBgp.localAs, orAs, h0]
        · intro hi
          rw [d9, ← hg]
          cases hlb : l.bgp with
          | off => rfl
          | attrs o =>
            cases o with
            | none => rfl
            | some i => simp [IfBgp.localAs, orAs, hi i hlb]
        · rw [d8, ← hg]
          simp [isTrue_iff]
        · rw [d7, ← hg]
          simp only
          have hnn : ∀ (b c : Prop) [Decidable b], (b ↔ c) →
              ((if b then some l.ifname else none) = some l.ifname ↔ c) := by
            intro b c _ h
            rw [← h]
            by_cases hb : b <;> simp [hb]
          apply hnn
          rcases hv6 with hv6 | ⟨e1, e2, e3⟩
          · rw [hv6]
            simp only [Bool.or_eq_true, Bool.and_eq_true, isTrue_iff, Bool.not_eq_true', Bool.and_eq_false_iff]
            rw [← Bool.not_eq_true, ← Bool.not_eq_true, isNum_iff, isNum_iff]
            constructor
            · rintro (h | ⟨h1, h2⟩)
              · exact .inl h
              · refine .inr ⟨h1, ?_⟩
                rintro ⟨h3, h4⟩
                rcases h2 with h2 | h2
                · exact h2 h3
                · exact h2 h4
            · rintro (h | ⟨h1, h2⟩)
              · exact .inl h
              · refine .inr ⟨h1, ?_⟩
                by_cases h3 : ∃ ip n, l.ipv6 = some (.addr ip n)
                · exact .inr fun h4 => h2 ⟨h3, h4⟩
                · exact .inl h3
          · have hq4 : q.ipv4 = some (.flag true) := by
              rename_i hc1 _ _ _ _
              by_cases h : isTrue q.ipv4 = true
              · exact (isTrue_iff _).1 h
              · rw [(isTrue_iff _).2 e2] at hc1
                simp [h] at hc1
            simp [e1, e2, e3, isTrue, isNum, hq4]
      have hok : (∀ v, l.vrf = some v → v ∉ x.vrfOff) →
          ∃ t ay, EbgpWanted x l y q t las ay ∧ EbgpData x l y q t ay g :=
        fun hv => ⟨t, nlas, ⟨hoff, haddr, haddrY, hlas, hasY, hdiff, htype, hu, hv⟩, hdata⟩
      cases hvrf : l.vrf with
      | none => exact hok (by simp [hvrf])
      | some v =>
        simp only
        by_cases hv : v ∈ x.vrfOff
        · rw [if_pos hv]
          rintro ⟨t', ax, ay, hw⟩
          exact hw.vrf v hvrf hv
        · rw [if_neg hv]
          exact hok (by rw [hvrf]; intro w e; cases e; exact hv)

theorem findBgpNode_of_mem {topo : List BgpNode} (hn : (topo.map (·.name)).Nodup) {y : BgpNode} (hy : y ∈ topo) :
    findBgpNode topo y.name = some y := by
  unfold findBgpNode
  cases h : topo.find? (fun n => n.name = y.name) with
  | none =>
    rw [List.find?_eq_none] at h
    exact absurd (by simp) (h y hy)
  | some z =>
    have h1 := List.mem_of_find?_eq_some h
    have h2 := List.find?_some h
    rw [eq_of_nodup_name hn h1 hy (by simpa using h2)]

theorem findBgpNode_some {topo : List BgpNode} {s : String} {y : BgpNode} (h : findBgpNode topo s = some y) :
    y ∈ topo ∧ y.name = s :=
  ⟨List.mem_of_find?_eq_some h, by simpa using List.find?_some h⟩

theorem ebgpLoop_sound (topo : List BgpNode) (x : BgpNode) (a las : Int) (l : BgpIntf)
    (hx : x.bgpAs = some a) (hlas : LinkAs x l.bgp las) (hoff : l.bgp ≠ .off)
    (haddr : l.ipv4 ≠ none ∨ l.ipv6 ≠ none) (qs : List NgbIf) (v6 : Option AddrV) (hv6 : V6State l v6) (q : NgbIf) (g : BgpNgb)
    (hm : (q, g) ∈ (ebgpLoop topo x a las l v6 qs).1) :
    q ∈ qs ∧ ∃ y ∈ topo, y.name = q.node ∧ ∃ t ay, EbgpWanted x l y q t las ay ∧ EbgpData x l y q t ay g := by
  induction qs generalizing v6 with
  | nil => simp [ebgpLoop] at hm
  | cons p r ih =>
    rw [ebgpLoop] at hm
    cases hf : findBgpNode topo p.node with
    | none =>
      rw [hf] at hm
      obtain ⟨h1, h2⟩ := ih v6 hv6 hm
      exact ⟨List.mem_cons_of_mem _ h1, h2⟩
    | some y =>
      rw [hf] at hm
      simp only at hm
      have hst := ebgpOne_v6 x a las l v6 p y hv6
      have hc := ebgpOne_cases x a las l v6 p y hx hlas hoff haddr hv6
      generalize ebgpOne x a las l v6 p y = R at hm hc hst
      obtain ⟨res, v6'⟩ := R
      cases res with
      | skip =>
        obtain ⟨h1, h2⟩ := ih v6' hst hm
        exact ⟨List.mem_cons_of_mem _ h1, h2⟩
      | error =>
        obtain ⟨h1, h2⟩ := ih v6' hst hm
        exact ⟨List.mem_cons_of_mem _ h1, h2⟩
      | session g' =>
        rcases List.mem_cons.1 hm with e | hm
        · cases e
          obtain ⟨hy, hname⟩ := findBgpNode_some hf
          exact ⟨List.mem_cons_self, y, hy, hname, hc⟩
        · obtain ⟨h1, h2⟩ := ih v6' hst hm
          exact ⟨List.mem_cons_of_mem _ h1, h2⟩

theorem ebgpLoop_complete (topo : List BgpNode) (x : BgpNode) (a las : Int) (l : BgpIntf)
    (hn : (topo.map (·.name)).Nodup)
    (hx : x.bgpAs = some a) (hlas : LinkAs x l.bgp las) (hoff : l.bgp ≠ .off)
    (haddr : l.ipv4 ≠ none ∨ l.ipv6 ≠ none) (qs : List NgbIf) (v6 : Option AddrV) (hv6 : V6State l v6) (q : NgbIf) (y : BgpNode)
    (he : (ebgpLoop topo x a las l v6 qs).2 = 0) (hq : q ∈ qs) (hy : y ∈ topo) (hname : y.name = q.node)
    (hw : ∃ t ax ay, EbgpWanted x l y q t ax ay) :
    ∃ g, (q, g) ∈ (ebgpLoop topo x a las l v6 qs).1 := by
  induction qs generalizing v6 with
  | nil => simp at hq
  | cons p r ih =>
    rw [ebgpLoop] at he ⊢
    by_cases hpq : q = p
    · subst hpq
      have hf : findBgpNode topo q.node = some y := by rw [← hname]; exact findBgpNode_of_mem hn hy
      rw [hf] at he ⊢
      simp only at he ⊢
      have hst := ebgpOne_v6 x a las l v6 q y hv6
      have hc := ebgpOne_cases x a las l v6 q y hx hlas hoff haddr hv6
      generalize ebgpOne x a las l v6 q y = R at he hc hst ⊢
      obtain ⟨res, v6'⟩ := R
      cases res with
      | skip => exact absurd hw hc
      | error => simp at he
      | session g' => exact ⟨g', List.mem_cons_self⟩
    · have hq' : q ∈ r := by
        rcases List.mem_cons.1 hq with e | h
        · exact absurd e hpq
        · exact h
      cases hf : findBgpNode topo p.node with
      | none =>
        rw [hf] at he
        exact ih v6 hv6 he hq'
      | some z =>
        rw [hf] at he
        simp only at he ⊢
        have hst := ebgpOne_v6 x a las l v6 p z hv6
        generalize ebgpOne x a las l v6 p z = R at he hst ⊢
        obtain ⟨res, v6'⟩ := R
        cases res with
        | skip => exact ih v6' hst he hq'
        | error => simp at he
        | session g' =>
          obtain ⟨g, hg⟩ := ih v6' hst he hq'
          exact ⟨g, List.mem_cons_of_mem _ hg⟩

theorem linkAs_self {x : BgpNode} {a : Int} (hx : x.bgpAs = some a) (ha : a ≠ 0) (b : IfBgp) :
    LinkAs x b ((linkAs b x).getD a) := by
  rw [← linkAs_iff]
  have key : ∃ n, linkAs b x = some n ∧ n ≠ 0 := by
    unfold linkAs
    have h2 : ∃ n, orAs x.localAs x.bgpAs = some n ∧ n ≠ 0 := by
      rw [hx]
      cases x.localAs with
      | none => exact ⟨a, rfl, ha⟩
      | some j =>
        by_cases hj : j = 0
        · exact ⟨a, by simp [orAs, hj], ha⟩
        · exact ⟨j, by simp [orAs, hj], hj⟩
    cases b.localAs with
    | none => exact h2
    | some j =>
      by_cases hj : j = 0
      · obtain ⟨n, h, h0⟩ := h2
        exact ⟨n, by rw [orAs]; simp [hj, h], h0⟩
      · exact ⟨j, by simp [orAs, hj], hj⟩
  obtain ⟨n, h, h0⟩ := key
  simp [h, h0]

/-- C24 (soundness): every session built on an interface is wanted, whether or not errors were reported, and its
data are right: the neighbor's name, the AS number it uses on the link, the session type, interface and VRF, the
local AS, and the addresses of the neighbor in the address families enabled for that session type. -/
theorem C24_ebgp_sessions_sound (topo : List BgpNode) (x : BgpNode) (a : Int) (l : BgpIntf)
    (hx : x.bgpAs = some a) (ha : a ≠ 0) (q : NgbIf) (g : BgpNgb)
    (hm : (q, g) ∈ (ebgpIntf topo x a l).1) :
    q ∈ l.neighbors ∧ ∃ y ∈ topo, y.name = q.node ∧
      ∃ t ax ay, EbgpWanted x l y q t ax ay ∧ EbgpData x l y q t ay g := by
  unfold ebgpIntf at hm
  by_cases hoff : l.bgp = .off
  · simp [hoff] at hm
  rw [if_neg hoff] at hm
  simp only at hm
  by_cases haddr : (l.ipv4.isNone && l.ipv6.isNone) = true
  · simp [haddr] at hm
  rw [if_neg haddr] at hm
  split at hm
  · simp at hm
  split at hm
  · simp at hm
  rw [addr_cond] at haddr
  obtain ⟨h1, y, hy, hname, t, ay, h2⟩ := ebgpLoop_sound topo x a _ l hx (linkAs_self hx ha l.bgp) hoff
    (Classical.not_not.1 haddr) _ _ (.inl rfl) _ _ hm
  exact ⟨h1, y, hy, hname, t, _, ay, h2⟩

/-- C24 (exactness): when no error is reported for an interface, the router has a session over that interface with a
neighbor if and only if the session is wanted. -/
theorem C24_ebgp_sessions_exact (topo : List BgpNode) (x y : BgpNode) (a : Int) (l : BgpIntf) (q : NgbIf)
    (hn : (topo.map (·.name)).Nodup) (hx : x.bgpAs = some a) (ha : a ≠ 0) (hy : y ∈ topo)
    (hq : q ∈ l.neighbors) (hname : y.name = q.node) (he : (ebgpIntf topo x a l).2 = 0) (t : SType) :
    (∃ g, (q, g) ∈ (ebgpIntf topo x a l).1 ∧ g.type = t) ↔ ∃ ax ay, EbgpWanted x l y q t ax ay := by
  constructor
  · rintro ⟨g, hm, ht⟩
    obtain ⟨-, z, hz, hzn, t', ax, ay, hw, hd⟩ := C24_ebgp_sessions_sound topo x a l hx ha q g hm
    have : z = y := eq_of_nodup_name hn hz hy (by rw [hzn, hname])
    subst this
    have : t' = t := by rw [← ht, hd.type]
    subst this
    exact ⟨ax, ay, hw⟩
  · rintro ⟨ax, ay, hw⟩
    have hoff := hw.enabled
    have haddr := hw.addrX
    have hex : ∃ g, (q, g) ∈ (ebgpIntf topo x a l).1 := by
      unfold ebgpIntf at he ⊢
      rw [if_neg hoff] at he ⊢
      have haddr' : ¬ (l.ipv4.isNone && l.ipv6.isNone) = true := by
        rw [addr_cond]; exact fun h => h haddr
      simp only at he ⊢
      rw [if_neg haddr'] at he ⊢
      split at he
      · simp at he
      · rename_i hc1
        rw [if_neg hc1]
        split at he
        · simp at he
        · rename_i hc2
          rw [if_neg hc2]
          exact ebgpLoop_complete topo x a _ l hn hx (linkAs_self hx ha l.bgp) hoff haddr _ _ (.inl rfl) q y he hq hy hname
            ⟨t, ax, ay, hw⟩
    obtain ⟨g, hm⟩ := hex
    obtain ⟨-, z, hz, hzn, t', ax', ay', hw', hd⟩ := C24_ebgp_sessions_sound topo x a l hx ha q g hm
    have : z = y := eq_of_nodup_name hn hz hy (by rw [hzn, hname])
    subst this
    have e1 := LinkAs.unique hw.asX hw'.asX
    have e2 := LinkAs.unique hw.asY hw'.asY
    subst e1; subst e2
    have e3 : t' = t := by
      rcases hw.type with ⟨h, e⟩ | ⟨h, e⟩ <;> rcases hw'.type with ⟨h', e'⟩ | ⟨h', e'⟩
      · rw [e, e']
      · exact absurd h' h
      · exact absurd h h'
      · rw [e, e']
    exact ⟨g, hm, by rw [hd.type, e3]⟩

/-- C24 (symmetry): take two routers attached to the same link, each one with a neighbor entry describing the
interface of the other one.  If BGP is disabled neither on the interfaces nor in their VRFs, session
settings are the default ones and no error is reported, then a session (of any type) exists on one end if and
only if it exists on the other end. -/
theorem C24_ebgp_symmetric (topo : List BgpNode) (x y : BgpNode) (a b : Int) (l m : BgpIntf) (q p : NgbIf)
    (hn : (topo.map (·.name)).Nodup) (hxt : x ∈ topo) (hyt : y ∈ topo)
    (hx : x.bgpAs = some a) (ha : a ≠ 0) (hy : y.bgpAs = some b) (hb : b ≠ 0)
    (hq : q ∈ l.neighbors) (hqd : Describes q y m) (hp : p ∈ m.neighbors) (hpd : Describes p x l)
    (hxs : x.sessions = .default) (hys : y.sessions = .default)
    (hl : l.bgp ≠ .off) (hm : m.bgp ≠ .off)
    (hlv : ∀ v, l.vrf = some v → v ∉ x.vrfOff) (hmv : ∀ v, m.vrf = some v → v ∉ y.vrfOff)
    (hex : (ebgpIntf topo x a l).2 = 0) (hey : (ebgpIntf topo y b m).2 = 0) (t : SType) :
    (∃ g, (q, g) ∈ (ebgpIntf topo x a l).1 ∧ g.type = t) ↔
    (∃ g, (p, g) ∈ (ebgpIntf topo y b m).1 ∧ g.type = t) := by
  rw [C24_ebgp_sessions_exact topo x y a l q hn hx ha hyt hq hqd.node.symm hex t,
    C24_ebgp_sessions_exact topo y x b m p hn hy hb hxt hp hpd.node.symm hey t]
  have usable : ∀ (t : SType) (v4 v6 : Option AddrV), v4 ≠ none ∨ v6 ≠ none → Usable .default t ⟨v4, v6⟩ := by
    intro t v4 v6 h
    cases t <;> simpa [Usable, Sessions.default] using h
  constructor
  · rintro ⟨ax, ay, hw⟩
    refine ⟨ay, ax, hm, ?_, ?_, ?_, ?_, fun h => hw.differ ⟨h.1.symm, h.2.symm⟩, ?_, ?_, hmv⟩
    · rw [← hqd.ipv4, ← hqd.ipv6]; exact hw.addrY
    · rw [hpd.ipv4, hpd.ipv6]; exact hw.addrX
    · rw [← hqd.bgp]; exact hw.asY
    · rw [hpd.bgp]; exact hw.asX
    · exact hw.type.imp (fun h => ⟨fun e => h.1 e.symm, h.2⟩) (fun h => ⟨h.1.symm, h.2⟩)
    · rw [hys, hpd.ipv4, hpd.ipv6]; exact usable _ _ _ hw.addrX
  · rintro ⟨ay, ax, hw⟩
    refine ⟨ax, ay, hl, ?_, ?_, ?_, ?_, fun h => hw.differ ⟨h.1.symm, h.2.symm⟩, ?_, ?_, hlv⟩
    · rw [← hpd.ipv4, ← hpd.ipv6]; exact hw.addrY
    · rw [hqd.ipv4, hqd.ipv6]; exact hw.addrX
    · rw [← hpd.bgp]; exact hw.asY
    · rw [hqd.bgp]; exact hw.asX
    · exact hw.type.imp (fun h => ⟨fun e => h.1 e.symm, h.2⟩) (fun h => ⟨h.1.symm, h.2⟩)
    · rw [hxs, hqd.ipv4, hqd.ipv6]; exact usable _ _ _ hw.addrX

theorem mem_buildEbgp (topo : List BgpNode) (x : BgpNode) (a : Int) (g : BgpNgb) :
    g ∈ (buildEbgpSessions topo x a).1 ↔ ∃ l ∈ x.interfaces, ∃ q, (q, g) ∈ (ebgpIntf topo x a l).1 := by
  unfold buildEbgpSessions
  have key : ∀ (ls : List BgpIntf) (st : List BgpNgb × Nat),
      g ∈ (ls.foldl (fun st l =>
        let (s, e) := ebgpIntf topo x a l
        (st.1 ++ s.map (·.2), st.2 + e)) st).1 ↔
      g ∈ st.1 ∨ ∃ l ∈ ls, ∃ q, (q, g) ∈ (ebgpIntf topo x a l).1 := by
    intro ls
    induction ls with
    | nil => simp
    | cons l r ih =>
      intro st
      rw [List.foldl_cons, ih]
      simp [or_assoc]
  rw [key]
  simp

theorem buildEbgp_errors (topo : List BgpNode) (x : BgpNode) (a : Int) :
    (buildEbgpSessions topo x a).2 = 0 ↔ ∀ l ∈ x.interfaces, (ebgpIntf topo x a l).2 = 0 := by
  unfold buildEbgpSessions
  have key : ∀ (ls : List BgpIntf) (st : List BgpNgb × Nat),
      (ls.foldl (fun st l =>
        let (s, e) := ebgpIntf topo x a l
        (st.1 ++ s.map (·.2), st.2 + e)) st).2 = 0 ↔
      st.2 = 0 ∧ ∀ l ∈ ls, (ebgpIntf topo x a l).2 = 0 := by
    intro ls
    induction ls with
    | nil => simp
    | cons l r ih =>
      intro st
      rw [List.foldl_cons, ih]
      simp only [List.mem_cons, forall_eq_or_imp]
      constructor
      · rintro ⟨h1, h2⟩
        exact ⟨by omega, by omega, h2⟩
      · rintro ⟨h1, h2, h3⟩
        exact ⟨by omega, h3⟩
  rw [key]
  simp

/-- C24: the global neighbor list of a router, built without errors, contains an EBGP neighbor with a given name if
and only if the router has an interface outside of VRFs with a neighbor of that name where the AS numbers used on the
link are different, and the other conditions for a session are met. -/
theorem C24_ebgp_neighbor_list (topo : List BgpNode) (x y : BgpNode) (a : Int)
    (hn : (topo.map (·.name)).Nodup) (hx : x.bgpAs = some a) (ha : a ≠ 0) (hy : y ∈ topo)
    (he : (buildBgpSessions topo x a).2 = 0) :
    (∃ g ∈ (buildBgpSessions topo x a).1, g.name = y.name ∧ g.type = .ebgp) ↔
    ∃ l ∈ x.interfaces, l.vrf = none ∧ ∃ q ∈ l.neighbors, q.node = y.name ∧
      ∃ ax ay, ax ≠ ay ∧ EbgpWanted x l y q .ebgp ax ay := by
  have he' : (buildEbgpSessions topo x a).2 = 0 := he
  rw [buildEbgp_errors] at he'
  constructor
  · rintro ⟨g, hg, hname, ht⟩
    simp only [buildBgpSessions, List.mem_append, List.mem_filter] at hg
    rcases hg with hg | ⟨hg, hv⟩
    · obtain ⟨z, -, -, hs⟩ := (mem_buildIbgp topo x a g hx).1 hg
      have := (bgpNeighbor_some hs).2.2.1
      rw [ht] at this
      cases this
    · obtain ⟨l, hl, q, hq⟩ := (mem_buildEbgp topo x a g).1 hg
      obtain ⟨h1, z, hz, hzn, t, ax, ay, hw, hd⟩ := C24_ebgp_sessions_sound topo x a l hx ha q g hq
      have hzy : z = y := eq_of_nodup_name hn hz hy (by rw [← hd.name, hname])
      subst hzy
      have e : t = .ebgp := by rw [← hd.type, ht]
      subst e
      refine ⟨l, hl, ?_, q, h1, hzn.symm, ax, ay, ?_, hw⟩
      · rw [← hd.vrf]; simpa using hv
      · rcases hw.type with ⟨h, -⟩ | ⟨-, h⟩
        · exact h
        · cases h
  · rintro ⟨l, hl, hv, q, hq, hqn, ax, ay, -, hw⟩
    obtain ⟨g, hg, ht⟩ := (C24_ebgp_sessions_exact topo x y a l q hn hx ha hy hq hqn.symm (he' l hl) .ebgp).2
      ⟨ax, ay, hw⟩
    obtain ⟨-, z, hz, hzn, t, ax', ay', hw', hd⟩ := C24_ebgp_sessions_sound topo x a l hx ha q g hg
    refine ⟨g, ?_, by rw [hd.name, hzn, hqn], ht⟩
    simp only [buildBgpSessions, List.mem_append, List.mem_filter]
    exact .inr ⟨(mem_buildEbgp topo x a g).2 ⟨l, hl, q, hg⟩, by rw [hd.vrf, hv]; rfl⟩

namespace EbgpExample

def ip (s : String) : Option AddrV := some (.addr s 30)
def un : Option AddrV := some (.flag true)
def mk (name : String) (asn : Int) (i : BgpIntf) : BgpNode := { name := name, bgpAs := some asn, interfaces := [i] }
def ngb (n : BgpNode) (i : BgpIntf) : NgbIf :=
  { node := n.name, ifname := i.ifname, ipv4 := i.ipv4, ipv6 := i.ipv6, bgp := i.bgp }

/-- Non-vacuity of the symmetry: routers in AS 65000 and 65001 (which uses local AS 65002 on the link) -/
def i1 : BgpIntf := {
  ifindex := 1
  ifname := "eth1"
  ipv4 := ip "10.1.0.1"
  neighbors := [{ node := "b", ipv4 := ip "10.1.0.2", bgp := .attrs (some 65002) }] }
def i2 : BgpIntf := {
  ifindex := 1
  ifname := "eth1"
  ipv4 := ip "10.1.0.2"
  bgp := .attrs (some 65002)
  neighbors := [{ node := "a", ipv4 := ip "10.1.0.1" }] }
def a : BgpNode := mk "a" 65000 i1
def b : BgpNode := mk "b" 65001 i2

example : ebgpIntf [a, b] a 65000 i1 =
    ([({ node := "b", ipv4 := ip "10.1.0.2", bgp := .attrs (some 65002) },
       { name := "b", asn := 65002, type := .ebgp, ipv4 := some (.ip "10.1.0.2"), ifindex := some 1 })], 0) ∧
    ebgpIntf [a, b] b 65001 i2 =
    ([({ node := "a", ipv4 := ip "10.1.0.1" },
       { name := "a", asn := 65000, type := .ebgp, ipv4 := some (.ip "10.1.0.1"), ifindex := some 1,
         localAs := some 65002 })], 0) := by
  decide +kernel

/-- The same link with BGP disabled on one end -/
def j1 : BgpIntf := {
  ifindex := 1
  ifname := "eth1"
  ipv4 := ip "10.1.0.1"
  bgp := .off
  neighbors := [{ node := "b", ipv4 := ip "10.1.0.2" }] }
def j2 : BgpIntf := {
  ifindex := 1
  ifname := "eth1"
  ipv4 := ip "10.1.0.2"
  neighbors := [{ node := "a", ipv4 := ip "10.1.0.1", bgp := .off }] }

/-- A link with IPv4 on one end and IPv6 on the other end -/
def k1 : BgpIntf := {
  ifindex := 1
  ifname := "eth1"
  ipv4 := ip "10.1.0.1"
  neighbors := [{ node := "b", ipv6 := ip "2001:db8::2" }] }

/-- An unnumbered link with three routers -/
def u1 : BgpIntf := {
  ifindex := 1
  ifname := "eth1"
  ipv4 := un
  neighbors := [{ node := "b", ipv4 := un }, { node := "c", ipv4 := un }] }
def c : BgpNode := { name := "c", bgpAs := some 65003 }

end EbgpExample

open EbgpExample in
/-- C24 fails when BGP is disabled on one end of the link: the other end still has the session. -/
theorem C24_disabled_end_one_sided :
    (ebgpIntf [mk "a" 65000 j1, mk "b" 65001 j2] (mk "a" 65000 j1) 65000 j1).1.map (·.2.name) = [] ∧
    (ebgpIntf [mk "a" 65000 j1, mk "b" 65001 j2] (mk "b" 65001 j2) 65001 j2).1.map (·.2.name) = ["a"] := by
  decide +kernel

open EbgpExample in
/-- C24 fails for the common address family: a router without IPv6 on an interface has an IPv6 session over it. -/
theorem C24_no_common_address_family :
    k1.ipv6 = none ∧
    (ebgpIntf [mk "a" 65000 k1, b] (mk "a" 65000 k1) 65000 k1).1.map (fun g => (g.2.ipv4, g.2.ipv6)) =
      [(none, some (.ip "2001:db8::2"))] := by
  decide +kernel

open EbgpExample in
/-- C24: on an unnumbered link with three routers, the first session enables IPv6 on the interface and the second one
is then rejected, although both neighbors are described by the same data. -/
theorem C24_unnumbered_second_neighbor_error :
    ((ebgpIntf [mk "a" 65000 u1, b, c] (mk "a" 65000 u1) 65000 u1).1.map (·.2.name),
     (ebgpIntf [mk "a" 65000 u1, b, c] (mk "a" 65000 u1) 65000 u1).2) = (["b"], 1) := by
  decide +kernel

end Netlab
