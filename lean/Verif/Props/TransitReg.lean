import Verif.Spec.TransitReg
import Verif.Props.Vlan
import Verif.Props.TransitVni
/-!
# C162: transit VNIs of VRFs and VNIs of VLANs
-/

namespace Netlab
open Spec

theorem registerTransit_spec (d : TVniDict) : ∀ var : IdVar, ∃ extra, (registerTransit var d).1 = var.extend extra ∧
    (∀ k n, (k, TVni.num n) ∈ d → IdVal.i n ∈ (var.extend extra).value) ∧
    ((registerTransit var d).2 = 0 → ∀ k n, (k, TVni.num n) ∈ d → IdVal.i n ∈ extra ∧ IdVal.i n ∉ var.value) := by
  induction d with
  | nil => exact fun var => ⟨[], rfl, by simp, by simp⟩
  | cons x r ih =>
    intro var
    obtain ⟨w, v⟩ := x
    have other : (∀ n, v ≠ .num n) → registerTransit var ((w, v) :: r) = registerTransit var r := by
      intro h
      cases v with
      | num n => exact absurd rfl (h n)
      | _ => rfl
    by_cases hv : ∃ n, v = .num n
    · obtain ⟨n, rfl⟩ := hv
      by_cases hu : var.isUsed (.i n) = true
      · obtain ⟨extra, h1, h2, -⟩ := ih var
        have hr : registerTransit var ((w, .num n) :: r) = ((registerTransit var r).1, (registerTransit var r).2 + 1) := by
          simp only [registerTransit, hu, if_true]
        rw [hr]
        refine ⟨extra, h1, ?_, fun h => absurd h (by simp)⟩
        intro k m hm
        rcases List.mem_cons.mp hm with h | h
        · cases h
          have : IdVal.i n ∈ var.value := by simpa [IdVar.isUsed] using hu
          simp [IdVar.extend, this]
        · exact h2 k m h
      · obtain ⟨extra, h1, h2, h3⟩ := ih (var.extend [.i n])
        have hr : registerTransit var ((w, .num n) :: r) = registerTransit (var.extend [.i n]) r := by
          simp only [registerTransit, hu, Bool.false_eq_true, if_false]
        have hn : IdVal.i n ∉ var.value := by simpa [IdVar.isUsed] using hu
        rw [hr]
        refine ⟨extra ++ [.i n], ?_, ?_, ?_⟩
        · rw [h1]; simp [IdVar.extend]
        · intro k m hm
          rcases List.mem_cons.mp hm with h | h
          · cases h; simp [IdVar.extend]
          · have := h2 k m h
            simpa [IdVar.extend] using this
        · intro he k m hm
          rcases List.mem_cons.mp hm with h | h
          · cases h; exact ⟨by simp, hn⟩
          · obtain ⟨a, b⟩ := h3 he k m h
            simp only [IdVar.extend, List.mem_append, not_or] at b
            exact ⟨List.mem_append_left _ a, b.2⟩
    · have hv' : ∀ n, v ≠ .num n := fun n h => hv ⟨n, h⟩
      rw [other hv']
      obtain ⟨extra, h1, h2, h3⟩ := ih var
      have hmem : ∀ k n, (k, TVni.num n) ∈ (w, v) :: r → (k, TVni.num n) ∈ r := by
        intro k n hm
        rcases List.mem_cons.mp hm with h | h
        · cases h; exact absurd rfl (hv' n)
        · exact h
      exact ⟨extra, h1, fun k n hm => h2 k n (hmem k n hm), fun he k n hm => h3 he k n (hmem k n hm)⟩

theorem evpnVnis_facts {sv sn st : Int} {glist : List String} {lists : String → List String} {t t2 : VlanTopo} {d d' : TVniDict} {e : Nat}
    (h : evpnVnis sv sn st glist lists t d = .ok (t2, d', e)) :
    ∃ extra e12, (registerTransit (registerStaticVni sn t) d).1 = (registerStaticVni sn t).extend extra ∧
      vlanVxlanTransform sv sn extra glist lists t = .ok (t2, e12) ∧
      (∀ k n, (k, TVni.num n) ∈ d → IdVal.i n ∈ ((registerStaticVni sn t).extend extra).value) ∧
      (e = 0 → ∀ k n, (k, TVni.num n) ∈ d → IdVal.i n ∈ extra ∧ IdVal.i n ∉ (registerStaticVni sn t).value) ∧
      d' = (vrfTransitVni true st d).1 ∧
      e = e12 + (registerTransit (registerStaticVni sn t) d).2 + (vrfTransitVni true st d).2 := by
  obtain ⟨extra, h1, h2, h3⟩ := registerTransit_spec d (registerStaticVni sn t)
  simp only [evpnVnis] at h
  cases ha : vlanTransform sv t with
  | error x => simp [ha] at h
  | ok r =>
    obtain ⟨t1, v1, e1⟩ := r
    simp only [ha] at h
    cases hb : vniTransform sn glist lists (registerTransit (registerStaticVni sn t) d).1 t1 with
    | error x => simp [hb] at h
    | ok r =>
      obtain ⟨t2', v2, e2⟩ := r
      simp only [hb, Except.ok.injEq, Prod.mk.injEq] at h
      obtain ⟨rfl, rfl, rfl⟩ := h
      refine ⟨extra, e1 + e2, h1, ?_, h2, ?_, rfl, by omega⟩
      · simp only [vlanVxlanTransform, ha, ← h1, hb]
      · intro he
        exact h3 (by omega)

theorem autoVni_fresh {sv sn : Int} {extra : List IdVal} {glist : List String} {lists : String → List String} {t t2 : VlanTopo} {e : Nat}
    (h : vlanVxlanTransform sv sn extra glist lists t = .ok (t2, e)) {p : VlanPos} {a b : Vlan} {k : Int}
    (hp : vlanOwner t p = p) (ha : vlanAt t p = some a) (hauto : vniNum a = none) (hb : vlanAt t2 p = some b) (hk : vniNum b = some k) :
    IdVal.i k ∉ ((registerStaticVni sn t).extend extra).value := by
  obtain ⟨t1, var1, e1, var2, e2, h1, h2, -⟩ := vlanVxlan_facts h
  obtain ⟨x, hx⟩ : ∃ x, vlanAt t1 p = some x := by
    have := (C20_every_vlan_has_id sv t t1 var1 e1 h1 p).1
    rw [ha] at this
    exact Option.isSome_iff_exists.1 this
  have hxa := vlanTransform_vni h1 p a x hp ha hx
  obtain ⟨-, hs, -⟩ := vlanTransform_facts h1
  have hcnt : CounterOk sn 16777215 ((registerStaticVni sn t).extend extra) := by
    exact counterOk_foldl t.nodes _ sn 16777215
  have hloc : ∀ (y : VlanTopo) (G : VlanDict) (r : VlanPos), (∀ w, (G.lookup w).isSome =
      (t.vlans.lookup w).isSome) → vlanOwner t r = r →
      ownAt y G vniNum r = (vlanAt y r).bind vniNum := by
    intro y G r hG hr
    obtain ⟨s, w⟩ := r
    cases s with
    | none => rfl
    | some n =>
      have hw : (t.vlans.lookup w).isSome = false := by
        cases hh : (t.vlans.lookup w).isSome with
        | false => rfl
        | true => simp [vlanOwner, hh] at hr
      simp [ownAt, hG, hw]
  obtain ⟨f1, -, -, -⟩ := vniTransform_facts hcnt h2
  have hM : ownAt t1 t1.vlans vniNum p = none := by
    rw [hloc t1 t1.vlans p hs hp, hx]
    simpa [vniNum, hxa] using hauto
  have hM' : ownAt t2 t1.vlans vniNum p = some k := by
    rw [hloc t2 t1.vlans p hs hp, hb]
    exact hk
  exact (f1.new_used p k hM hM').1

/-- C162: unless an error is reported, no VLAN has the VNI that is used as a static transit VNI in a VRF. -/
theorem C162_static_transit (sv sn st : Int) (glist : List String) (lists : String → List String) (t t2 : VlanTopo) (d d' : TVniDict)
    (h : evpnVnis sv sn st glist lists t d = .ok (t2, d', 0)) (p : VlanPos) (a b : Vlan) (vrf : String) (n : Int)
    (hp : vlanOwner t p = p) (ha : vlanAt t p = some a) (hb : vlanAt t2 p = some b) (hd : StaticTransit d vrf n) :
    vniNum b ≠ some n := by
  obtain ⟨extra, e12, -, hv, hall, hz, -⟩ := evpnVnis_facts h
  have hm : (vrf, TVni.num n) ∈ d := mem_of_lookup hd
  intro hk
  cases hs : vniNum a with
  | none => exact autoVni_fresh hv hp ha hs hb hk (hall vrf n hm)
  | some k =>
    have hkept := C20_vni_kept sv sn extra glist lists t t2 e12 hv p a b hp ha hb (Or.inl (by rw [hs]; simp))
    have : vniNum a = some n := by
      have : vniNum b = vniNum a := by simp [vniNum, hkept]
      rw [← this]; exact hk
    exact (hz rfl vrf n hm).2 (vlanAt_vni_used ha this)

/-- C162: a static transit VNI equal to a static VNI of a VLAN (in any node, also one that is not used) is reported. -/
theorem C162_reported (sv sn st : Int) (glist : List String) (lists : String → List String) (t t2 : VlanTopo) (d d' : TVniDict) (e : Nat)
    (h : evpnVnis sv sn st glist lists t d = .ok (t2, d', e)) (vrf : String) (n : Int)
    (hd : StaticTransit d vrf n) (hv : StaticVlanVni t n) : 0 < e := by
  obtain ⟨extra, e12, -, -, -, hz, -⟩ := evpnVnis_facts h
  obtain ⟨p, a, ha, hn⟩ := hv
  rcases Nat.eq_zero_or_pos e with h0 | h0
  · exact absurd (vlanAt_vni_used ha hn) (hz h0 vrf n (mem_of_lookup hd)).2
  · exact h0

/-- C162: unless an error is reported, an automatic transit VNI differs from the VNI of every VLAN below the first transit VNI. -/
theorem C162_auto_transit (sv sn st : Int) (glist : List String) (lists : String → List String) (t t2 : VlanTopo) (d d' : TVniDict)
    (h : evpnVnis sv sn st glist lists t d = .ok (t2, d', 0)) (hnd : (d.map (·.1)).Nodup) (vrf : String)
    (hd : d.lookup vrf = some (.flag true)) :
    ∃ n, d'.lookup vrf = some (.num n) ∧ ∀ p b k, vlanAt t2 p = some b → vniNum b = some k → k < st → k ≠ n := by
  obtain ⟨extra, e12, -, -, -, -, hd', he⟩ := evpnVnis_facts h
  have h0 : vrfTransitVni true st d = (d', 0) := by
    rw [hd']
    have : (vrfTransitVni true st d).2 = 0 := by omega
    rw [← this]
  obtain ⟨n, h1, h2, -⟩ := (C22_transit_vni_values st d d' hnd h0 vrf).2.1 hd
  exact ⟨n, h1, fun p b k _ _ hk => by omega⟩

/-- C162, the exception: an automatic transit VNI can be equal to the static VNI of a VLAN, and nothing is reported. -/
theorem C162_auto_clash :
    ∃ t2 d', evpnVnis 1000 100000 200000 ["red"] (fun _ => []) { vlans := [("red", { id := some 10, vni := .num 200000 })], nodes := [] }
        [("tenant", .flag true)] = .ok (t2, d', 0) ∧
      (vlanAt t2 (none, "red")).bind vniNum = some 200000 ∧ d'.lookup "tenant" = some (.num 200000) := by
  refine ⟨_, _, rfl, ?_, ?_⟩ <;> decide +kernel

/-- Non-vacuity: a VLAN whose first choice of VNI is used as a transit VNI gets another VNI. -/
example : (evpnVnis 1000 100000 200000 ["red"] (fun _ => []) { vlans := [("red", { id := some 10 })], nodes := [] }
      [("tenant", .num 100010), ("other", .flag true)]).toOption.map
        (fun r => ((vlanAt r.1 (none, "red")).bind vniNum, r.2.1, r.2.2)) =
    some (some 100000, [("tenant", .num 100010), ("other", .num 200000)], 0) := by decide +kernel

/-- Non-vacuity: a reported clash -/
example : (evpnVnis 1000 100000 200000 ["red"] (fun _ => []) { vlans := [("red", { id := some 10, vni := .num 5000 })], nodes := [] }
      [("tenant", .num 5000)]).toOption.map (fun r => r.2.2) = some 1 := by decide +kernel

end Netlab
