import Verif.Lemmas.Vlan
/-!
# C20: VLAN identifiers and VNIs
-/

namespace Netlab
open Spec

theorem vlanTransform_facts {start : Int} {t t' : VlanTopo} {var : IdVar} {e : Nat}
    (h : vlanTransform start t = .ok (t', var, e)) :
    Assigns (fun k => start ≤ k ∧ (start ≤ 4094 → k ≤ 4094)) (ownAt t t'.vlans (·.id))
      (UsedInt (populateVlanIdSet start t)) (ownAt t' t'.vlans (·.id)) (UsedInt var) ∧
    (∀ w, (t'.vlans.lookup w).isSome = (t.vlans.lookup w).isSome) ∧
    (∀ w, (t'.vlans.lookup w).map (·.vni) = (t.vlans.lookup w).map (·.vni)) ∧
    (∀ w v, t'.vlans.lookup w = some v → v.id ≠ none) ∧
    ∀ n, (t.nodes.lookup n = none ∧ t'.nodes.lookup n = none) ∨
      ∃ d d', t.nodes.lookup n = some d ∧ t'.nodes.lookup n = some d' ∧
        NodeVlanRel t'.vlans d d' ∧
        (e = 0 → ∀ w v gv, d.lookup w = some v → t'.vlans.lookup w = some gv →
          (v.id = none ∨ v.id = gv.id) ∧ (v.vni = .missing ∨ v.vni = gv.vni)) := by
  simp only [vlanTransform] at h
  cases hg : validateVlans (t.vlans, populateVlanIdSet start t) (t.vlans.map (·.1)) with
  | error x => simp [hg] at h
  | ok p =>
    obtain ⟨g, var1⟩ := p
    simp only [hg] at h
    cases hn : nodeVlans g var1 t.nodes with
    | error x => simp [hn] at h
    | ok q =>
      obtain ⟨nodes', var2, e2⟩ := q
      simp only [hn, Except.ok.injEq, Prod.mk.injEq] at h
      obtain ⟨rfl, rfl, rfl⟩ := h
      have hc : CounterOk start 4094 (populateVlanIdSet start t) := counterOk_foldl _ _ _ _
      obtain ⟨a1, a2, a3, a4, a5⟩ := validateVlans_assigns _ _ _ hc hg
      obtain ⟨b1, b2, b3⟩ := nodeVlans_spec g t.nodes nodes' var1 var2 e2 a2 hn
      refine ⟨?_, a3, a4, ?_, b3⟩
      · exact (assigns_global g (·.id) t.nodes a1).trans (assigns_nodes g g (·.id) b1)
      · intro w v hv
        have hs : (t.vlans.lookup w).isSome := by rw [← a3, hv]; rfl
        obtain ⟨x, hx⟩ := Option.isSome_iff_exists.1 hs
        have := a5 w (lookup_keys_mem hx) hs
        simpa [idIn, hv] using this

/-- **C20 (no VLAN appears or disappears, every VLAN gets an identifier).** -/
theorem C20_every_vlan_has_id (start : Int) (t t' : VlanTopo) (var : IdVar) (e : Nat)
    (h : vlanTransform start t = .ok (t', var, e)) (p : VlanPos) :
    (vlanAt t' p).isSome = (vlanAt t p).isSome ∧ ∀ v, vlanAt t' p = some v → v.id ≠ none := by
  obtain ⟨-, h2, -, h4, h5⟩ := vlanTransform_facts h
  obtain ⟨s, w⟩ := p
  cases s with
  | none => exact ⟨h2 w, h4 w⟩
  | some n =>
    simp only [vlanAt]
    rcases h5 n with ⟨a, b⟩ | ⟨d, d', a, b, hr, -⟩
    · rw [a, b]; simp
    · rw [a, b]; exact ⟨hr.same w, hr.hasId w⟩

/-- **C20 (static identifiers are kept).** -/
theorem C20_static_id_kept (start : Int) (t t' : VlanTopo) (var : IdVar) (e : Nat)
    (h : vlanTransform start t = .ok (t', var, e)) (p : VlanPos) (a b : Vlan) (k : Int)
    (ha : vlanAt t p = some a) (hk : a.id = some k) (hb : vlanAt t' p = some b) :
    b.id = some k := by
  obtain ⟨h1, h2, -, h4, h5⟩ := vlanTransform_facts h
  obtain ⟨s, w⟩ := p
  cases s with
  | none =>
    simp only [vlanAt] at ha hb
    have := h1.kept (none, w) k (by simp [ownAt, ha, hk])
    simpa [ownAt, hb] using this
  | some n =>
    simp only [vlanAt] at ha hb
    rcases h5 n with ⟨x, y⟩ | ⟨d, d', x, y, hr, -⟩
    · rw [x] at ha; simp at ha
    · rw [x] at ha; rw [y] at hb
      exact hr.kept w a b k ha hb hk

/-- **C20 (one VLAN, one identifier).**  If no error was reported, the identifier of a node
VLAN that is also defined globally is the identifier of the global VLAN. -/
theorem C20_copy_has_global_id (start : Int) (t t' : VlanTopo) (var : IdVar)
    (h : vlanTransform start t = .ok (t', var, 0)) (n w : String) (b g : Vlan)
    (hb : vlanAt t' (some n, w) = some b) (hg : vlanAt t' (none, w) = some g) : b.id = g.id := by
  obtain ⟨h1, h2, -, h4, h5⟩ := vlanTransform_facts h
  simp only [vlanAt] at hb hg
  rcases h5 n with ⟨x, y⟩ | ⟨d, d', x, y, hr, he⟩
  · rw [y] at hb; simp at hb
  · rw [y] at hb
    simp only [Option.bind_some] at hb
    obtain ⟨a, ha⟩ : ∃ a, d.lookup w = some a := by
      have := hr.same w
      rw [hb] at this
      exact Option.isSome_iff_exists.1 this.symm
    rcases (he rfl w a g ha hg).1 with hi | hi
    · exact hr.copied w a g b ha hg (h4 w g hg) hb hi
    · cases hk : a.id with
      | none => exact hr.copied w a g b ha hg (h4 w g hg) hb hk
      | some k => rw [hr.kept w a b k ha hb hk, ← hi, hk]

/-- **C20 (automatic identifiers are unique and in range).**  If no error was reported, an
automatically assigned VLAN identifier is within the range and no other VLAN, global or
defined in a node, has the same identifier.  (Two definitions with the same owner are
the same VLAN.) -/
theorem C20_auto_id_unique (start : Int) (t t' : VlanTopo) (var : IdVar)
    (h : vlanTransform start t = .ok (t', var, 0)) (p q : VlanPos) (a b c : Vlan)
    (ha : vlanAt t (vlanOwner t p) = some a) (hauto : a.id = none)
    (hb : vlanAt t' p = some b) (hc : vlanAt t' q = some c)
    (hpq : vlanOwner t p ≠ vlanOwner t q) :
    b.id ≠ c.id ∧ ∃ k, b.id = some k ∧ start ≤ k ∧ (start ≤ 4094 → k ≤ 4094) := by
  obtain ⟨h1, h2, -, h4, h5⟩ := vlanTransform_facts h
  -- the identifier at a position is the identifier at the owner
  have own : ∀ (r : VlanPos) (x : Vlan), vlanAt t' r = some x →
      ownAt t' t'.vlans (·.id) (vlanOwner t r) = x.id := by
    intro r x hx
    obtain ⟨s, w⟩ := r
    unfold vlanOwner
    cases hg : t'.vlans.lookup w with
    | none =>
      have : (t.vlans.lookup w).isSome = false := by rw [← h2, hg]; rfl
      simp only [this, Bool.false_eq_true, if_false]
      cases s with
      | none => simp [vlanAt, hg] at hx
      | some n => simp [ownAt, hg, hx]
    | some g =>
      have : (t.vlans.lookup w).isSome = true := by rw [← h2, hg]; rfl
      simp only [this, if_true]
      cases s with
      | none =>
        simp only [vlanAt, hg, Option.some.injEq] at hx
        simp [ownAt, hg, hx]
      | some n =>
        rw [C20_copy_has_global_id start t t' var h n w x g hx hg]
        simp [ownAt, hg]
  have hbid : b.id ≠ none := (C20_every_vlan_has_id start t t' var 0 h p).2 b hb
  obtain ⟨k, hk⟩ : ∃ k, b.id = some k := by
    cases hi : b.id with
    | none => exact absurd hi hbid
    | some k => exact ⟨k, rfl⟩
  have hM : ownAt t t'.vlans (·.id) (vlanOwner t p) = none := by
    generalize vlanOwner t p = r at ha ⊢
    obtain ⟨s, w⟩ := r
    cases s with
    | none => simp only [vlanAt] at ha; simp [ownAt, ha, hauto]
    | some n =>
      simp only [ownAt, ha, Option.bind_some, hauto]
      split <;> rfl
  have hM' := (own p b hb).trans hk
  constructor
  · rw [hk]
    intro hck
    refine h1.unique ?_ _ _ k hpq hM hM' ((own q c hc).trans hck.symm)
    intro r j hr
    obtain ⟨s, w⟩ := r
    have : ∃ x, vlanAt t (s, w) = some x ∧ x.id = some j := by
      cases s with
      | none => simpa [ownAt, vlanAt, Option.bind_eq_some_iff] using hr
      | some n =>
        simp only [ownAt] at hr
        split at hr
        · cases hr
        · simpa [Option.bind_eq_some_iff] using hr
    obtain ⟨x, hx, hj⟩ := this
    exact vlanAt_id_used hx hj
  · exact ⟨k, hk, (h1.new_used _ k hM hM').2.1⟩

/-- Non-vacuity: a static and an automatic global VLAN; a node with a copy and a VLAN
of its own. -/
example :
    let t : VlanTopo := { vlans := [("red", { id := some 1000 }), ("blue", {})],
                          nodes := [("s1", [("blue", {}), ("local", {})])] }
    ∃ t' var, vlanTransform 1000 t = .ok (t', var, 0) ∧
      (vlanAt t' (none, "blue")).bind (·.id) = some 1001 ∧
      (vlanAt t' (some "s1", "blue")).bind (·.id) = some 1001 ∧
      (vlanAt t' (some "s1", "local")).bind (·.id) = some 1002 := by
  refine ⟨_, _, by
    simp [vlanTransform, validateVlans, setVlanId, populateVlanIdSet, vlanIds, IdVar.create,
      IdVar.extend, IdVar.setCounter, IdVar.getNext, nextLoop, nodeVlans, mergeGlobalVlans,
      mergeVlan, globalNodeMismatch, setKey, List.lookup]; exact ⟨rfl, rfl⟩, ?_⟩
  simp [vlanAt, List.lookup]

theorem vniTransform_facts {start : Int} {glist : List String} {lists : String → List String}
    {var var' : IdVar} {t t' : VlanTopo} {e : Nat}
    (hc : CounterOk start 16777215 var)
    (h : vniTransform start glist lists var t = .ok (t', var', e)) :
    Assigns (fun _ => True) (ownAt t t.vlans vniNum) (UsedInt var)
      (ownAt t' t.vlans vniNum) (UsedInt var') ∧
    (∀ p, (vlanAt t' p).map (·.id) = (vlanAt t p).map (·.id)) ∧
    (∀ p a b, vlanAt t p = some a → vlanAt t' p = some b → b.vni = a.vni ∨
      (vlanOwner t p = p ∧ (match p.1 with | none => p.2 ∈ glist | some n => p.2 ∈ lists n) ∧
        a.vni ≠ .flag false ∧ vniNum a = none ∧ ∃ k, vniNum b = some k ∧ VniRange start a.id k)) ∧
    (∀ p a, vlanOwner t p = p → (match p.1 with | none => p.2 ∈ glist | some n => p.2 ∈ lists n) →
      vlanAt t p = some a → a.id ≠ none → a.vni ≠ .flag false →
      ∃ b, vlanAt t' p = some b ∧ vniNum b ≠ none) := by
  simp only [vniTransform] at h
  cases hg : assignVni start none (t.vlans, var, 0) glist with
  | error x => simp [hg] at h
  | ok p =>
    obtain ⟨g, var1, e1⟩ := p
    simp only [hg] at h
    cases hn : assignNodeVnis start g lists (var1, e1) t.nodes with
    | error x => simp [hn] at h
    | ok q =>
      obtain ⟨nodes', var2, e2⟩ := q
      simp only [hn, Except.ok.injEq, Prod.mk.injEq] at h
      obtain ⟨rfl, rfl, rfl⟩ := h
      obtain ⟨a1, a2⟩ := assignVni_upd (glob := none) (L := fun w => w ∈ glist)
        glist _ _ hc (fun v hv _ => hv) hg
      obtain ⟨b1, b2, b3⟩ := assignNodeVnis_upd g lists t.nodes nodes' (var1, e1) var2 e2
        a1.counter hn
      have hsome : ∀ w, (g.lookup w).isSome = (t.vlans.lookup w).isSome := by
        intro w
        have := congrArg Option.isSome (a1.ids w)
        simpa using this
      have hG : ∀ x, ownAt x g vniNum = ownAt x t.vlans vniNum := by
        intro x
        funext p
        unfold ownAt
        rw [hsome]
      have honone : ∀ n w, vlanOwner t (some n, w) = (some n, w) ↔ g.lookup w = none := by
        intro n w
        unfold vlanOwner
        rw [← hsome]
        cases hl : g.lookup w <;> simp
      refine ⟨?_, ?_, ?_, ?_⟩
      · have c1 := assigns_global g vniNum t.nodes a1.assigns
        have c2 := assigns_nodes g g vniNum b1
        have c3 := c1.trans c2
        rw [hG, hG] at c3
        exact c3
      · rintro ⟨s, w⟩
        cases s with
        | none => exact a1.ids w
        | some n =>
          simp only [vlanAt]
          rcases b3 n with ⟨x, y⟩ | ⟨d, d', x, y, h1, -, -⟩
          · rw [x, y]
          · rw [x, y]; exact h1 w
      · rintro ⟨s, w⟩ a b ha hb
        cases s with
        | none =>
          rcases a1.vnis w a b ha hb with h | h
          · exact .inl h
          · exact .inr ⟨by unfold vlanOwner; split <;> rfl, h⟩
        | some n =>
          simp only [vlanAt] at ha hb
          rcases b3 n with ⟨x, y⟩ | ⟨d, d', x, y, -, h1, -⟩
          · rw [x] at ha; simp at ha
          · rw [x] at ha; rw [y] at hb
            rcases h1 w a b ha hb with h | ⟨k1, k2, k3⟩
            · exact .inl h
            · exact .inr ⟨(honone n w).2 k2, k1, k3⟩
      · rintro ⟨s, w⟩ a ho hl ha hid hf
        cases s with
        | none => exact a2 w hl a rfl ha hid hf
        | some n =>
          simp only [vlanAt] at ha ⊢
          rcases b3 n with ⟨x, y⟩ | ⟨d, d', x, y, -, -, h1⟩
          · rw [x] at ha; simp at ha
          · rw [x] at ha
            rw [y]
            exact h1 w hl a ((honone n w).1 ho) ha hid hf

/-- The `vxlan.vlans` list of the scope of a VLAN position -/
def vxlanListed (glist : List String) (lists : String → List String) (p : VlanPos) : Prop :=
  match p.1 with
  | none => p.2 ∈ glist
  | some n => p.2 ∈ lists n

theorem vlanTransform_vni {start : Int} {t t' : VlanTopo} {var : IdVar} {e : Nat}
    (h : vlanTransform start t = .ok (t', var, e)) (p : VlanPos) (a b : Vlan)
    (ho : vlanOwner t p = p) (ha : vlanAt t p = some a) (hb : vlanAt t' p = some b) :
    b.vni = a.vni := by
  obtain ⟨-, h2, h3, -, h5⟩ := vlanTransform_facts h
  obtain ⟨s, w⟩ := p
  cases s with
  | none =>
    have := h3 w
    simp only [vlanAt] at ha hb
    rw [ha, hb] at this
    simpa using this
  | some n =>
    simp only [vlanAt] at ha hb
    rcases h5 n with ⟨x, y⟩ | ⟨d, d', x, y, hr, -⟩
    · rw [x] at ha; simp at ha
    · rw [x] at ha; rw [y] at hb
      rcases hr.vni w a b ha hb with h | ⟨-, gv, hg, -⟩
      · exact h
      · have hs : (t.vlans.lookup w).isSome = true := by rw [← h2, hg]; rfl
        simp [vlanOwner, hs] at ho

theorem vlanOwner_same {t t' : VlanTopo}
    (h : ∀ w, (t'.vlans.lookup w).isSome = (t.vlans.lookup w).isSome) (p : VlanPos) :
    vlanOwner t' p = vlanOwner t p := by
  unfold vlanOwner
  rw [h]

/-- Everything about VNIs in one place -/
theorem vlanVxlan_facts {sv sn : Int} {extra : List IdVal} {glist : List String}
    {lists : String → List String} {t t2 : VlanTopo} {e : Nat}
    (h : vlanVxlanTransform sv sn extra glist lists t = .ok (t2, e)) :
    ∃ t1 var1 e1 var2 e2, vlanTransform sv t = .ok (t1, var1, e1) ∧
      vniTransform sn glist lists ((registerStaticVni sn t).extend extra) t1
        = .ok (t2, var2, e2) ∧ e = e1 + e2 := by
  unfold vlanVxlanTransform at h
  cases h1 : vlanTransform sv t with
  | error x => simp [h1] at h
  | ok p =>
    obtain ⟨t1, var1, e1⟩ := p
    simp only [h1] at h
    cases h2 : vniTransform sn glist lists ((registerStaticVni sn t).extend extra) t1 with
    | error x => simp [h2] at h
    | ok q =>
      obtain ⟨t2', var2, e2⟩ := q
      simp only [h2, Except.ok.injEq, Prod.mk.injEq] at h
      obtain ⟨rfl, rfl⟩ := h
      exact ⟨t1, var1, e1, var2, e2, rfl, h2, rfl⟩

/-- **C20 (VNIs: what is kept).**  A static VNI and an explicit `vni: False` are kept; a VLAN
that is not listed in `vxlan.vlans` gets no VNI. -/
theorem C20_vni_kept (sv sn : Int) (extra : List IdVal) (glist : List String)
    (lists : String → List String) (t t2 : VlanTopo) (e : Nat)
    (h : vlanVxlanTransform sv sn extra glist lists t = .ok (t2, e)) (p : VlanPos) (a b : Vlan)
    (ho : vlanOwner t p = p) (ha : vlanAt t p = some a) (hb : vlanAt t2 p = some b)
    (hk : vniNum a ≠ none ∨ a.vni = .flag false ∨ ¬ vxlanListed glist lists p) :
    b.vni = a.vni := by
  obtain ⟨t1, var1, e1, var2, e2, h1, h2, -⟩ := vlanVxlan_facts h
  obtain ⟨x, hx⟩ : ∃ x, vlanAt t1 p = some x := by
    have := (C20_every_vlan_has_id sv t t1 var1 e1 h1 p).1
    rw [ha] at this
    exact Option.isSome_iff_exists.1 this
  have hxa := vlanTransform_vni h1 p a x ho ha hx
  obtain ⟨-, -, h3, -⟩ := vniTransform_facts
    (by exact counterOk_foldl t.nodes _ sn 16777215) h2
  rcases h3 p x b hx hb with hh | ⟨-, k1, k2, k3, -⟩
  · rw [hh, hxa]
  · rcases hk with hk | hk | hk
    · exact absurd (by simpa [vniNum, hxa] using k3) hk
    · exact absurd (hxa.trans hk) k2
    · exact absurd k1 hk

/-- **C20 (VNIs: completeness).**  Every VLAN listed in `vxlan.vlans` has a VNI after
the transformation unless it has `vni: False`. -/
theorem C20_listed_vlan_has_vni (sv sn : Int) (extra : List IdVal) (glist : List String)
    (lists : String → List String) (t t2 : VlanTopo) (e : Nat)
    (h : vlanVxlanTransform sv sn extra glist lists t = .ok (t2, e)) (p : VlanPos) (a : Vlan)
    (ho : vlanOwner t p = p) (ha : vlanAt t p = some a) (hl : vxlanListed glist lists p)
    (hf : a.vni ≠ .flag false) : ∃ b k, vlanAt t2 p = some b ∧ vniNum b = some k := by
  obtain ⟨t1, var1, e1, var2, e2, h1, h2, -⟩ := vlanVxlan_facts h
  have hid := C20_every_vlan_has_id sv t t1 var1 e1 h1 p
  obtain ⟨x, hx⟩ : ∃ x, vlanAt t1 p = some x := by
    have := hid.1
    rw [ha] at this
    exact Option.isSome_iff_exists.1 this
  have hxa := vlanTransform_vni h1 p a x ho ha hx
  obtain ⟨-, hs, -⟩ := vlanTransform_facts h1
  obtain ⟨-, -, -, h3⟩ := vniTransform_facts
    (by exact counterOk_foldl t.nodes _ sn 16777215) h2
  obtain ⟨b, hb, hn⟩ := h3 p x (by rw [vlanOwner_same hs]; exact ho) hl hx (hid.2 x hx)
    (by rw [hxa]; exact hf)
  cases hk : vniNum b with
  | none => exact absurd hk hn
  | some k => exact ⟨b, k, hb, hk⟩

/-- **C20 (automatic VNIs are unique).**  A VNI that was assigned automatically differs from
the VNI of every other VLAN and from every VNI registered by other modules (static EVPN
transit VNIs).  It is either the start value plus the VLAN identifier or lies between the start
value and 16777215 (the limit is not checked if the start value is above it). -/
theorem C20_auto_vni_unique (sv sn : Int) (extra : List IdVal) (glist : List String)
    (lists : String → List String) (t t2 : VlanTopo) (e : Nat)
    (h : vlanVxlanTransform sv sn extra glist lists t = .ok (t2, e)) (p q : VlanPos)
    (a b c : Vlan) (k : Int)
    (hp : vlanOwner t p = p) (hq : vlanOwner t q = q) (hpq : p ≠ q)
    (ha : vlanAt t p = some a) (hauto : vniNum a = none)
    (hb : vlanAt t2 p = some b) (hc : vlanAt t2 q = some c) (hk : vniNum b = some k) :
    vniNum c ≠ some k ∧ .i k ∉ extra ∧
      ((∃ vid, b.id = some vid ∧ k = sn + vid) ∨
        (sn ≤ k ∧ (sn ≤ 16777215 → k ≤ 16777215))) := by
  obtain ⟨t1, var1, e1, var2, e2, h1, h2, -⟩ := vlanVxlan_facts h
  obtain ⟨x, hx⟩ : ∃ x, vlanAt t1 p = some x := by
    have := (C20_every_vlan_has_id sv t t1 var1 e1 h1 p).1
    rw [ha] at this
    exact Option.isSome_iff_exists.1 this
  have hxa := vlanTransform_vni h1 p a x hp ha hx
  obtain ⟨-, hs, -⟩ := vlanTransform_facts h1
  have hcnt : CounterOk sn 16777215 ((registerStaticVni sn t).extend extra) := by
    exact counterOk_foldl t.nodes _ sn 16777215
  have hloc : ∀ (y : VlanTopo) (G : VlanDict) (r : VlanPos), (∀ w, (G.lookup w).isSome =
      (t.vlans.lookup w).isSome) → vlanOwner t r = r →
      ownAt y G vniNum r = (vlanAt y r).bind vniNum := by
    intro y G r hG hr
    obtain ⟨s, w⟩ := r
    cases s with
    | none => rfl
    | some n =>
      have hw : (t.vlans.lookup w).isSome = false := by
        cases hh : (t.vlans.lookup w).isSome with
        | false => rfl
        | true => simp [vlanOwner, hh] at hr
      simp [ownAt, hG, hw]
  -- all initial VNIs are registered
  have hused : ∀ r j, ownAt t1 t1.vlans vniNum r = some j →
      UsedInt ((registerStaticVni sn t).extend extra) j := by
    intro r j hr
    obtain ⟨s, w⟩ := r
    have hor : vlanOwner t (s, w) = (s, w) := by
      cases s with
      | none => unfold vlanOwner; split <;> rfl
      | some n =>
        simp only [ownAt, hs] at hr
        unfold vlanOwner
        split at hr
        · cases hr
        · rename_i hh; rw [if_neg hh]
    rw [hloc t1 t1.vlans (s, w) hs hor, Option.bind_eq_some_iff] at hr
    obtain ⟨y, hy, hj⟩ := hr
    obtain ⟨z, hz⟩ : ∃ z, vlanAt t (s, w) = some z := by
      have := (C20_every_vlan_has_id sv t t1 var1 e1 h1 (s, w)).1
      rw [hy] at this
      exact Option.isSome_iff_exists.1 this.symm
    have hyz := vlanTransform_vni h1 (s, w) z y hor hz hy
    have : UsedInt (registerStaticVni sn t) j :=
      vlanAt_vni_used hz (by simpa [vniNum, hyz] using hj)
    unfold UsedInt at this ⊢
    simp [IdVar.extend, this]
  obtain ⟨f1, f2, f3, -⟩ := vniTransform_facts hcnt h2
  have hM : ownAt t1 t1.vlans vniNum p = none := by
    rw [hloc t1 t1.vlans p hs hp, hx]
    simpa [vniNum, hxa] using hauto
  have hM' : ownAt t2 t1.vlans vniNum p = some k := by
    rw [hloc t2 t1.vlans p hs hp, hb]
    exact hk
  refine ⟨?_, ?_, ?_⟩
  · intro hck
    refine f1.unique hused p q k hpq hM hM' ?_
    rw [hloc t2 t1.vlans q hs hq, hc]
    exact hck
  · intro hex
    exact (f1.new_used p k hM hM').1 (by simp [UsedInt, IdVar.extend, hex])
  · have hid : b.id = x.id := by
      have := f2 p
      rw [hb, hx] at this
      simpa using this
    rcases f3 p x b hx hb with hh | ⟨-, -, -, -, k', hk', hr⟩
    · have : vniNum b = vniNum x := by simp [vniNum, hh]
      rw [hk] at this
      have h0 : vniNum x = none := by simpa [vniNum, hxa] using hauto
      rw [h0] at this
      cases this
    · rw [hk] at hk'
      cases hk'
      rw [hid]
      exact hr

/-- Non-vacuity: VLAN 1001 would get VNI 101001 that is in use, so it gets the next free one. -/
example :
    let t : VlanTopo := { vlans := [("red", { id := some 1000, vni := .num 101001 }),
                                    ("blue", {})], nodes := [] }
    ∃ t2, vlanVxlanTransform 1000 100000 [.i 100000] ["red", "blue"] (fun _ => []) t = .ok (t2, 0) ∧
      (vlanAt t2 (none, "red")).bind vniNum = some 101001 ∧
      (vlanAt t2 (none, "blue")).bind vniNum = some 100001 := by
  refine ⟨_, by
    simp [vlanVxlanTransform, vlanTransform, validateVlans, setVlanId, populateVlanIdSet, vlanIds,
      IdVar.create, IdVar.extend, IdVar.setCounter, IdVar.getNext, nextLoop, nodeVlans,
      setKey, List.lookup, vniTransform, assignVni, setVlanVni, autoVni, registerStaticVni, vlanVnis,
      IdVar.isUsed, assignNodeVnis]; rfl, ?_⟩
  simp [vlanAt, List.lookup, vniNum]

/-- The sum of the start value and the VLAN ID is not checked against the largest VNI: an
automatic VNI can be above 16777215 even when the start value is not. -/
theorem C20_vni_above_limit :
    (vlanVxlanTransform 1000 16777215 [] ["red"] (fun _ => [])
      { vlans := [("red", { id := some 1000 })], nodes := [] }).toOption.map
      (fun r => (r.2, (vlanAt r.1 (none, "red")).bind vniNum)) = some (0, some 16778215) := by
  decide +kernel

end Netlab
