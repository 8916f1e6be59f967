import Mathlib.Data.List.Forall2
import Std.Data.String.ToNat
import Verif.Spec.Evpn
import Verif.Props.Asn
/-!
# C74: EVPN services
-/

namespace Netlab
open Spec

theorem find_corr {α β : Type} {R : α → β → Prop} {f : α → Bool} {g : β → Bool} {l : List α} {m : List β}
    (h : List.Forall₂ R l m) (hfg : ∀ x y, R x y → f x = g y) :
    (l.find? f = none ∧ m.find? g = none) ∨ ∃ x y, l.find? f = some x ∧ m.find? g = some y ∧ R x y := by
  induction h with
  | nil => exact .inl ⟨rfl, rfl⟩
  | @cons a b l m hr _ ih =>
    have e := hfg a b hr
    cases hf : f a with
    | true =>
      right
      rw [hf] at e
      exact ⟨a, b, by simp [hf], by simp [← e], hr⟩
    | false =>
      rw [hf] at e
      simp only [List.find?_cons, hf, ← e]
      exact ih

theorem eq_of_nodup_map {α β : Type} {f : α → β} {l : List α} (h : (l.map f).Nodup) {x y : α} (hx : x ∈ l) (hy : y ∈ l)
    (he : f x = f y) : x = y := by
  induction l with
  | nil => cases hx
  | cons a l ih =>
    rw [List.map_cons, List.nodup_cons] at h
    rcases List.mem_cons.1 hx with hxa | hx'
    · rcases List.mem_cons.1 hy with hya | hy'
      · rw [hxa, hya]
      · exact absurd (by rw [← hxa, he]; exact List.mem_map_of_mem hy') h.1
    · rcases List.mem_cons.1 hy with hya | hy'
      · exact absurd (by rw [← hya, ← he]; exact List.mem_map_of_mem hx') h.1
      · exact ih h.2 hx' hy'

/-! ## The VRF of a bundle -/

theorem bundleVrf_iff {vrfs : List EvVrf} (hn : (vrfs.map (·.name)).Nodup) (v : EvVlan) (r : EvVrf) :
    bundleVrf vrfs v = some r ↔ InBundle vrfs v r := by
  unfold bundleVrf InBundle
  cases hv : v.vrf with
  | none => simp
  | some x =>
    simp only
    cases hf : vrfs.find? (fun y => y.name == x) with
    | none =>
      rw [List.find?_eq_none] at hf
      simp only [reduceCtorEq, false_iff]
      rintro ⟨h1, h2, -⟩
      exact hf r h1 (by simpa using (Option.some.inj h2).symm)
    | some y =>
      have hym := List.mem_of_find?_eq_some hf
      have hyn : y.name = x := by simpa using List.find?_some hf
      simp only
      by_cases hb : (y.evpn.bind (·.bundle)).getD "" = ""
      · rw [if_pos hb]
        simp only [reduceCtorEq, false_iff]
        rintro ⟨h1, h2, e, b, h3, h4, h5⟩
        have : y = r := eq_of_nodup_map hn hym h1 (hyn.trans (Option.some.inj h2))
        subst this
        rw [h3] at hb
        simp [h4] at hb
        exact h5 hb
      · rw [if_neg hb]
        constructor
        · rintro h
          cases h
          refine ⟨hym, by rw [hyn], ?_⟩
          cases he : r.evpn with
          | none => rw [he] at hb; exact absurd rfl hb
          | some e =>
            cases hbb : e.bundle with
            | none => rw [he] at hb; simp [hbb] at hb
            | some b => exact ⟨e, b, rfl, hbb, by rw [he] at hb; simpa [hbb] using hb⟩
        · rintro ⟨h1, h2, -⟩
          rw [eq_of_nodup_map hn hym h1 (hyn.trans (Option.some.inj h2))]

/-- A VRF after VLANs were added to its bundle -/
def bundleAll (ms : List EvVlan) (r : EvVrf) : EvVrf := ms.foldl (fun r v => bundleAddVrf v r) r

theorem bundleAll_spec (ms : List EvVlan) (r : EvVrf) :
    (bundleAll ms r).name = r.name ∧ (bundleAll ms r).id = r.id ∧
    ((bundleAll ms r).evpn.bind (·.bundle)) = r.evpn.bind (·.bundle) ∧
    (∀ v, bundleAddVlan (bundleAll ms r) v = bundleAddVlan r v) ∧
    (∀ e, r.evpn = some e → ∃ f, (bundleAll ms r).evpn = some f ∧ f.bundle = e.bundle ∧ f.rd = e.rd ∧
      f.evi.getD r.id = e.evi.getD r.id ∧
      f.vlans.getD [] = e.vlans.getD [] ++ ms.map (·.name) ∧
      f.vlanIds.getD [] = e.vlanIds.getD [] ++ ms.map (·.id)) := by
  induction ms generalizing r with
  | nil =>
    refine ⟨rfl, rfl, rfl, fun _ => rfl, fun e he => ⟨e, he, rfl, rfl, rfl, by simp, by simp⟩⟩
  | cons m ms ih =>
    obtain ⟨i1, i2, i3, i4, i5⟩ := ih (bundleAddVrf m r)
    have hb : bundleAll (m :: ms) r = bundleAll ms (bundleAddVrf m r) := rfl
    rw [hb]
    refine ⟨i1, i2, ?_, ?_, ?_⟩
    · rw [i3]
      unfold bundleAddVrf
      cases r.evpn <;> rfl
    · intro v
      rw [i4]
      unfold bundleAddVlan bundleAddVrf
      cases hr : r.evpn with
      | none => simp
      | some e =>
        rcases e with ⟨evi, _, _, _, _⟩
        cases evi <;> simp
    · intro e he
      obtain ⟨f, f1, f2, f3, f4, f5, f6⟩ := i5 { e with
        evi := if e.evi.isSome then e.evi else some r.id
        vlans := some (e.vlans.getD [] ++ [m.name])
        vlanIds := some (e.vlanIds.getD [] ++ [m.id]) } (by unfold bundleAddVrf; rw [he]; rfl)
      refine ⟨f, f1, f2, f3, ?_, ?_, ?_⟩
      · have h1 : (bundleAddVrf m r).id = r.id := rfl
        rw [h1] at f4
        rw [f4]
        cases e.evi <;> simp
      · rw [f5]; simp
      · rw [f6]; simp

/-! ## Independent services -/

theorem vlanBased_keeps (asn : Int) (v : EvVlan) :
    (vlanBased asn v).1.name = v.name ∧ (vlanBased asn v).1.id = v.id ∧ (vlanBased asn v).1.vrf = v.vrf ∧
    (vlanBased asn v).1.vni = v.vni := ⟨rfl, rfl, rfl, rfl⟩

theorem vlanBased_range {asn : Int} {v : EvVlan} (h : (vlanBased asn v).2 = 0) :
    asn ≠ 0 ∧ 1 ≤ eviOr (v.evpn.getD {}).evi v.id ∧ eviOr (v.evpn.getD {}).evi v.id ≤ 65535 := by
  unfold vlanBased at h
  simp only at h
  by_cases h1 : asn = 0
  · rw [if_pos h1] at h; omega
  · by_cases h2 : 1 ≤ eviOr (v.evpn.getD {}).evi v.id ∧ eviOr (v.evpn.getD {}).evi v.id ≤ 65535
    · exact ⟨h1, h2⟩
    · rw [if_neg h2] at h; omega

theorem vlanBased_idem {asn : Int} {v : EvVlan} (h : (vlanBased asn v).2 = 0) :
    vlanBased asn (vlanBased asn v).1 = vlanBased asn v := by
  obtain ⟨-, h2, -⟩ := vlanBased_range h
  have he : eviOr (some (eviOr (v.evpn.getD {}).evi v.id)) v.id = eviOr (v.evpn.getD {}).evi v.id := by
    show (if _ = 0 then _ else _) = _
    rw [if_neg (by omega)]
  unfold vlanBased
  simp only [Option.getD_some, he]

/-! ## The loop -/

/-- A VLAN after the services with names `p` were created -/
def VRel (asn : Int) (vrfs : List EvVrf) (p : List String) (v w : EvVlan) : Prop :=
  w.name = v.name ∧ w.id = v.id ∧ w.vrf = v.vrf ∧ w.vni = v.vni ∧
  (v.name ∉ p → w = v) ∧
  (v.name ∈ p → bundleVrf vrfs v = none → w = (vlanBased asn v).1 ∧ (vlanBased asn v).2 = 0) ∧
  (∀ r, v.name ∈ p → bundleVrf vrfs v = some r → v.evpn = none ∧ w = bundleAddVlan r v)

/-- A VRF after the services with names `p` were created -/
def RRel (vlans : List EvVlan) (vrfs : List EvVrf) (p : List String) (r s : EvVrf) : Prop :=
  r ∈ vrfs ∧ ∃ ms : List EvVlan, (∀ v, v ∈ ms ↔ v ∈ vlans ∧ v.name ∈ p ∧ bundleVrf vrfs v = some r) ∧ ms.Nodup ∧
    List.Sublist (ms.map (·.name)) p ∧ s = bundleAll ms r

structure EvInv (asn : Int) (vlans : List EvVlan) (vrfs : List EvVrf) (p : List String) (st : EvState) : Prop where
  vlan : List.Forall₂ (VRel asn vrfs p) vlans st.vlans
  vrf : List.Forall₂ (RRel vlans vrfs p) vrfs st.vrfs
  known : ∀ x ∈ p, ∃ v ∈ vlans, v.name = x

theorem vlanService_errors (asn : Int) (st : EvState) (n : String) : st.errors ≤ (vlanService asn st n).errors := by
  unfold vlanService
  cases st.vlans.find? (fun v => v.name == n) with
  | none => exact Nat.le_succ _
  | some v =>
    simp only
    cases bundleVrf st.vrfs v with
    | none => exact Nat.le_add_right _ _
    | some r =>
      simp only
      by_cases h : v.evpn.isSome = true
      · rw [if_pos h]; exact Nat.le_succ _
      · rw [if_neg h]; exact Nat.le_refl _

theorem services_errors (asn : Int) (q : List String) (st : EvState) :
    st.errors ≤ (q.foldl (vlanService asn) st).errors := by
  induction q generalizing st with
  | nil => exact Nat.le_refl _
  | cons n q ih => exact Nat.le_trans (vlanService_errors asn st n) (ih _)

theorem bundle_corr {vlans : List EvVlan} {vrfs ss : List EvVrf} {p : List String}
    (h : List.Forall₂ (RRel vlans vrfs p) vrfs ss) {v w : EvVlan} (hv : w.vrf = v.vrf) :
    (bundleVrf vrfs v = none ∧ bundleVrf ss w = none) ∨
    ∃ r s, bundleVrf vrfs v = some r ∧ bundleVrf ss w = some s ∧ RRel vlans vrfs p r s := by
  unfold bundleVrf
  rw [hv]
  cases v.vrf with
  | none => exact .inl ⟨rfl, rfl⟩
  | some x =>
    simp only
    have hname : ∀ r s, RRel vlans vrfs p r s → (r.name == x) = (s.name == x) := by
      rintro r s ⟨-, ms, -, -, -, rfl⟩
      rw [(bundleAll_spec ms r).1]
    rcases find_corr h hname with ⟨h1, h2⟩ | ⟨r, s, h1, h2, h3⟩
    · rw [h1, h2]; exact .inl ⟨rfl, rfl⟩
    · rw [h1, h2]
      simp only
      have hb : s.evpn.bind (·.bundle) = r.evpn.bind (·.bundle) := by
        obtain ⟨-, ms, -, -, -, rfl⟩ := h3
        exact (bundleAll_spec ms r).2.2.1
      rw [hb]
      by_cases hc : (r.evpn.bind (·.bundle)).getD "" = ""
      · rw [if_pos hc, if_pos hc]; exact .inl ⟨rfl, rfl⟩
      · rw [if_neg hc, if_neg hc]; exact .inr ⟨r, s, rfl, rfl, h3⟩

theorem evInv_step {asn : Int} {vlans : List EvVlan} {vrfs : List EvVrf} (hnv : (vlans.map (·.name)).Nodup)
    (hnr : (vrfs.map (·.name)).Nodup) {p : List String} {st : EvState} (hi : EvInv asn vlans vrfs p st) {n : String}
    (he : st.errors = 0) (hok : (vlanService asn st n).errors = 0) :
    EvInv asn vlans vrfs (p ++ [n]) (vlanService asn st n) := by
  have hname : ∀ v w, VRel asn vrfs p v w → (v.name == n) = (w.name == n) := by
    intro v w h; rw [h.1]
  unfold vlanService at hok ⊢
  rcases find_corr hi.vlan hname with ⟨h1, h2⟩ | ⟨v, w, h1, h2, h3⟩
  · rw [h2] at hok
    simp only at hok
    omega
  · rw [h2] at hok ⊢
    simp only at hok ⊢
    have hvm := List.mem_of_find?_eq_some h1
    have hvn : v.name = n := by simpa using List.find?_some h1
    have hwn : w.name = n := h3.1.trans hvn
    have hknown : ∀ x ∈ p ++ [n], ∃ v ∈ vlans, v.name = x := by
      intro x hx
      rcases List.mem_append.1 hx with h | h
      · exact hi.known x h
      · rw [List.mem_singleton.1 h]; exact ⟨v, hvm, hvn⟩
    -- relation of the other VLANs
    have hother : ∀ x y, VRel asn vrfs p x y → x.name ≠ n → VRel asn vrfs (p ++ [n]) x y := by
      rintro x y ⟨g1, g2, g3, g4, g5, g6, g7⟩ hx
      have hmem : x.name ∈ p ++ [n] ↔ x.name ∈ p := by
        rw [List.mem_append, List.mem_singleton]
        exact or_iff_left hx
      exact ⟨g1, g2, g3, g4, fun h => g5 (fun hh => h (hmem.2 hh)), fun h => g6 (hmem.1 h), fun r h => g7 r (hmem.1 h)⟩
    rcases bundle_corr hi.vrf h3.2.2.1 with ⟨b1, b2⟩ | ⟨r, s, b1, b2, b3⟩
    · rw [b2] at hok ⊢
      simp only at hok ⊢
      have hz : (vlanBased asn w).2 = 0 := by omega
      have hw : vlanBased asn w = vlanBased asn v := by
        obtain ⟨-, -, -, -, g5, g6, -⟩ := h3
        by_cases hp : v.name ∈ p
        · obtain ⟨k1, k2⟩ := g6 hp b1
          rw [k1]
          exact vlanBased_idem k2
        · rw [g5 hp]
      rw [hw] at hz
      refine ⟨?_, ?_, hknown⟩
      · simp only
        rw [List.forall₂_map_right_iff]
        have hmem := List.forall₂_and_left (R := VRel asn vrfs p) (p := (· ∈ vlans)) vlans st.vlans
        refine List.Forall₂.imp ?_ (hmem.2 ⟨fun x hx => hx, hi.vlan⟩)
        rintro x y ⟨hxm, hxy⟩
        by_cases hx : x.name = n
        · have hxv : x = v := eq_of_nodup_map hnv hxm hvm (hx.trans hvn.symm)
          subst hxv
          rw [if_pos (hxy.1.trans hx), hw]
          obtain ⟨k1, k2, k3, k4⟩ := vlanBased_keeps asn x
          refine ⟨k1, k2, k3, k4, ?_, fun _ _ => ⟨rfl, hz⟩, ?_⟩
          · intro h; exact absurd (by rw [hx]; simp) h
          · intro r _ h; rw [b1] at h; cases h
        · rw [if_neg (fun h => hx (hxy.1.symm.trans h))]
          exact hother x y hxy hx
      · refine List.Forall₂.imp ?_ hi.vrf
        rintro r s ⟨hr, ms, m1, m2, m3, m4⟩
        refine ⟨hr, ms, ?_, m2, m3.trans (List.sublist_append_left p [n]), m4⟩
        intro x
        rw [m1]
        constructor
        · rintro ⟨a, b, c⟩; exact ⟨a, by simp [b], c⟩
        · rintro ⟨a, b, c⟩
          refine ⟨a, ?_, c⟩
          rcases List.mem_append.1 b with h | h
          · exact h
          · have hxv : x = v := eq_of_nodup_map hnv a hvm ((List.mem_singleton.1 h).trans hvn.symm)
            subst hxv
            rw [b1] at c; cases c
    · rw [b2] at hok ⊢
      simp only at hok ⊢
      by_cases hev : w.evpn.isSome = true
      · rw [if_pos hev] at hok
        simp only at hok
        omega
      · rw [if_neg hev]
        obtain ⟨g1, g2, g3, g4, g5, g6, g7⟩ := id h3
        have hp : v.name ∉ p := by
          intro hp
          obtain ⟨-, k2⟩ := g7 r hp b1
          rw [k2] at hev
          exact hev rfl
        have hwv : w = v := g5 hp
        have hvev : v.evpn = none := by
          rw [hwv] at hev
          cases h : v.evpn with
          | none => rfl
          | some e => rw [h] at hev; exact absurd rfl hev
        obtain ⟨hrm, ms, m1, m2, m3, m4⟩ := b3
        have hsn : s.name = r.name := by rw [m4]; exact (bundleAll_spec ms r).1
        have hadd : ∀ x, bundleAddVlan s x = bundleAddVlan r x := by
          rw [m4]; exact (bundleAll_spec ms r).2.2.2.1
        refine ⟨?_, ?_, hknown⟩
        · simp only
          rw [List.forall₂_map_right_iff]
          have hmem := List.forall₂_and_left (R := VRel asn vrfs p) (p := (· ∈ vlans)) vlans st.vlans
          refine List.Forall₂.imp ?_ (hmem.2 ⟨fun x hx => hx, hi.vlan⟩)
          rintro x y ⟨hxm, hxy⟩
          by_cases hx : x.name = n
          · have hxv : x = v := eq_of_nodup_map hnv hxm hvm (hx.trans hvn.symm)
            subst hxv
            rw [if_pos (hxy.1.trans hx), hadd, hxy.2.2.2.2.1 hp]
            refine ⟨rfl, rfl, rfl, rfl, ?_, ?_, ?_⟩
            · intro h; exact absurd (by rw [hx]; simp) h
            · intro _ h; rw [b1] at h; cases h
            · intro r' _ h
              rw [b1] at h
              cases h
              exact ⟨hvev, rfl⟩
          · rw [if_neg (fun h => hx (hxy.1.symm.trans h))]
            exact hother x y hxy hx
        · simp only
          rw [List.forall₂_map_right_iff]
          refine List.Forall₂.imp ?_ hi.vrf
          rintro r' s' ⟨hr', ms', m1', m2', m3', m4'⟩
          have hsn' : s'.name = r'.name := by rw [m4']; exact (bundleAll_spec ms' r').1
          by_cases hrr : r'.name = r.name
          · have : r' = r := eq_of_nodup_map hnr hr' hrm hrr
            subst this
            rw [if_pos (hsn'.trans hsn.symm), hwv]
            refine ⟨hr', ms' ++ [v], ?_, ?_, ?_, ?_⟩
            · intro x
              rw [List.mem_append, m1', List.mem_singleton, List.mem_append, List.mem_singleton]
              constructor
              · rintro (⟨a, b, c⟩ | rfl)
                · exact ⟨a, .inl b, c⟩
                · exact ⟨hvm, .inr hvn, b1⟩
              · rintro ⟨a, b | b, c⟩
                · exact .inl ⟨a, b, c⟩
                · exact .inr (eq_of_nodup_map hnv a hvm (b.trans hvn.symm))
            · rw [List.nodup_append]
              refine ⟨m2', by simp, ?_⟩
              rintro x hx y hy rfl
              rw [List.mem_singleton.1 hy] at hx
              exact hp ((m1' v).1 hx).2.1
            · rw [List.map_append]
              exact m3'.append (by simp [hvn])
            · rw [m4']
              unfold bundleAll
              rw [List.foldl_append]
              rfl
          · rw [if_neg (fun h => hrr (hsn'.symm.trans (h.trans hsn)))]
            refine ⟨hr', ms', ?_, m2', m3'.trans (List.sublist_append_left p [n]), m4'⟩
            intro x
            rw [m1']
            constructor
            · rintro ⟨a, b, c⟩; exact ⟨a, by simp [b], c⟩
            · rintro ⟨a, b, c⟩
              refine ⟨a, ?_, c⟩
              rcases List.mem_append.1 b with h | h
              · exact h
              · have hxv : x = v := eq_of_nodup_map hnv a hvm ((List.mem_singleton.1 h).trans hvn.symm)
                subst hxv
                rw [b1] at c
                cases c
                exact absurd rfl hrr

theorem services_inv {asn : Int} {vlans : List EvVlan} {vrfs : List EvVrf} (hnv : (vlans.map (·.name)).Nodup)
    (hnr : (vrfs.map (·.name)).Nodup) (q : List String) : ∀ (p : List String) (st : EvState),
      EvInv asn vlans vrfs p st → (q.foldl (vlanService asn) st).errors = 0 →
      EvInv asn vlans vrfs (p ++ q) (q.foldl (vlanService asn) st) := by
  induction q with
  | nil => intro p st h _; simpa using h
  | cons n q ih =>
    intro p st h hok
    rw [List.foldl_cons] at hok ⊢
    have h1 : (vlanService asn st n).errors = 0 := by
      have := services_errors asn q (vlanService asn st n)
      omega
    have h0 : st.errors = 0 := by
      have := vlanService_errors asn st n
      omega
    have := ih (p ++ [n]) _ (evInv_step hnv hnr h h0 h1) hok
    simpa using this


/-! ## Texts of integers -/

theorem int_toString_inj {a b : Int} (h : toString a = toString b) : a = b := by
  have key : ∀ m n : Nat, toString m ≠ "-" ++ toString (n + 1) := by
    intro m n hh
    have h1 : (toString m).toList = '-' :: (toString (n + 1)).toList := by
      rw [hh, String.toList_append]; rfl
    have h2 := repr_digits m '-' (by
      have : '-' ∈ (toString m).toList := by rw [h1]; simp
      exact this)
    exact absurd h2 (by decide)
  cases a with
  | ofNat m =>
    cases b with
    | ofNat n => exact congrArg Int.ofNat (Nat.repr_inj.1 h)
    | negSucc n => exact absurd h (key m n)
  | negSucc m =>
    cases b with
    | ofNat n => exact absurd h.symm (key n m)
    | negSucc n =>
      have h' : "-" ++ toString (m + 1) = "-" ++ toString (n + 1) := h
      have h1 := congrArg String.toList h'
      rw [String.toList_append, String.toList_append] at h1
      have h2 := Nat.repr_inj.1 (String.toList_injective (List.append_cancel_left h1))
      have : m = n := by omega
      rw [this]

theorem prefixed_inj {p : String} {a b : Int} (h : p ++ ":" ++ toString a = p ++ ":" ++ toString b) : a = b := by
  apply int_toString_inj
  have h1 := congrArg String.toList h
  rw [String.toList_append, String.toList_append (s := p ++ ":")] at h1
  exact String.toList_injective (List.append_cancel_left h1)

/-! ## C74 -/

theorem usableAsn_spec {s : EvAs} (h : usableAsn s ≠ 0) : EvpnAs s (usableAsn s) := by
  have horAs : ∀ a b : Option Int, (∃ x, a = some x ∧ x ≠ 0 ∧ orAs a b = some x) ∨
      ((∀ x, a = some x → x = 0) ∧ orAs a b = b) := by
    intro a b
    cases a with
    | none => exact .inr ⟨fun x h => by simp at h, rfl⟩
    | some x =>
      by_cases hx : x = 0
      · right
        refine ⟨fun y hy => by rw [← Option.some.inj hy]; exact hx, ?_⟩
        simp [orAs, hx]
      · left
        exact ⟨x, rfl, hx, by simp [orAs, hx]⟩
  unfold usableAsn at h ⊢
  rcases horAs s.evpn (orAs s.vrf s.bgp) with ⟨x, h1, h2, h3⟩ | ⟨h1, h2⟩
  · rw [h3]; exact .evpn x h1 h2
  · rw [h2] at h ⊢
    rcases horAs s.vrf s.bgp with ⟨x, g1, g2, g3⟩ | ⟨g1, g2⟩
    · rw [g3]; exact .vrf x h1 g1 g2
    · rw [g2] at h ⊢
      cases hb : s.bgp with
      | none => rw [hb] at h; exact absurd rfl h
      | some x => rw [hb] at h; exact .bgp x h1 g1 hb h

theorem vlanBased_service {s : EvAs} {v : EvVlan} (h : (vlanBased (usableAsn s) v).2 = 0) :
    VlanService s v (vlanBased (usableAsn s) v).1 := by
  obtain ⟨h1, h2, h3⟩ := vlanBased_range h
  refine ⟨usableAsn s, eviOr (v.evpn.getD {}).evi v.id, _, usableAsn_spec h1, ?_, h2, h3, rfl, rfl, ?_, ?_, ?_, ?_, ?_, ?_⟩
  · cases hv : v.evpn with
    | none => exact .inr ⟨fun e x h => by simp [hv] at h, rfl⟩
    | some e =>
      simp only [Option.getD_some]
      cases he : e.evi with
      | none =>
        right
        refine ⟨fun f x hf hx => ?_, rfl⟩
        rw [hv] at hf
        cases hf
        rw [he] at hx
        cases hx
      | some x =>
        by_cases hx : x = 0
        · right
          refine ⟨fun f y hf hy => ?_, by simp [eviOr, hx]⟩
          rw [hv] at hf
          cases hf
          rw [he] at hy
          cases hy
          exact hx
        · left
          refine ⟨e, hv, ?_, ?_⟩
          · simp [eviOr, hx, he]
          · simp [eviOr, hx]
  · rintro l ⟨f, hf, hl⟩
    simp [hf, hl]
  · rintro l ⟨f, hf, hl⟩
    simp [hf, hl]
  · intro hn
    cases hv : v.evpn with
    | none => rfl
    | some f => simp [hn f hv, mkRd]
  · intro hn
    cases hv : v.evpn with
    | none => rfl
    | some f => simp [hn f hv, mkRd]
  · cases v.evpn <;> rfl
  · cases v.evpn <;> rfl

theorem irbVrf_spec (r : EvVrf) :
    (irbVrf r).name = r.name ∧ (irbVrf r).id = r.id ∧ (r.evpn = none → (irbVrf r).evpn = none) ∧
    (∀ e, r.evpn = some e → (irbVrf r).evpn = some { e with evi := some (e.evi.getD r.id) }) := by
  unfold irbVrf
  cases hr : r.evpn with
  | none => exact ⟨rfl, rfl, fun _ => hr, fun e h => by cases h⟩
  | some e =>
    cases he : e.evi with
    | none =>
      simp only [he, Option.isSome_none, Bool.false_eq_true, if_false]
      refine ⟨trivial, trivial, (fun h => nomatch h), ?_⟩
      intro f hf
      cases hf
      simp [he]
    | some x =>
      simp only [he, Option.isSome_some, if_true]
      refine ⟨trivial, trivial, (fun h => nomatch h), ?_⟩
      intro f hf
      cases hf
      rw [hr]
      simp only [he, Option.getD_some]
      rw [← he]

/-- C74: when the EVPN settings are accepted, every VLAN in the list of EVPN VLANs (by default, VLANs with a VNI) is either
an independent service, or a member of the bundle of its VRF; the bundle lists exactly its VLANs; other VLANs are not
changed. -/
theorem C74_services (s : EvAs) (list : Option (List String)) (vlans : List EvVlan) (vrfs : List EvVrf)
    (hnv : (vlans.map (·.name)).Nodup) (hnr : (vrfs.map (·.name)).Nodup)
    (hok : (evpnServices s list vlans vrfs).1.errors = 0) :
    ∃ l : List String,
      (list ≠ none → list ≠ some [] → list = some l) ∧
      ((list = none ∨ list = some []) → l = (vlans.filter (·.vni)).map (·.name)) ∧
      (evpnServices s list vlans vrfs).2.getD [] = l ∧
      (∀ x ∈ l, ∃ v ∈ vlans, v.name = x) ∧
      List.Forall₂ (fun v w => w.name = v.name ∧ w.id = v.id ∧ w.vrf = v.vrf ∧ w.vni = v.vni ∧
          (v.name ∉ l → w.evpn = v.evpn) ∧
          (v.name ∈ l → (¬ ∃ r, InBundle vrfs v r) → VlanService s v w) ∧
          (∀ r e, v.name ∈ l → InBundle vrfs v r → r.evpn = some e →
            v.evpn = none ∧ w.evpn = some { bundle := e.bundle, evi := some (e.evi.getD r.id) }))
        vlans (evpnServices s list vlans vrfs).1.vlans ∧
      List.Forall₂ (fun r t => t.name = r.name ∧ t.id = r.id ∧ (r.evpn = none → t.evpn = none) ∧
          ∀ e, r.evpn = some e → ∃ f, t.evpn = some f ∧ f.evi = some (e.evi.getD r.id) ∧ f.bundle = e.bundle ∧
            f.rd = e.rd ∧ ∃ ms : List EvVlan, (∀ v, v ∈ ms ↔ v ∈ vlans ∧ v.name ∈ l ∧ InBundle vrfs v r) ∧ ms.Nodup ∧
              List.Sublist (ms.map (·.name)) l ∧
              f.vlans.getD [] = e.vlans.getD [] ++ ms.map (·.name) ∧
              f.vlanIds.getD [] = e.vlanIds.getD [] ++ ms.map (·.id))
        vrfs (evpnServices s list vlans vrfs).1.vrfs := by
  have hlist : ∀ names dflt : List String,
      (list ≠ none → list ≠ some [] → list = some ((refList list (some names) (some names) dflt true false none).1.getD [])) ∧
      ((list = none ∨ list = some []) → (refList list (some names) (some names) dflt true false none).1.getD [] = dflt) := by
    intro names dflt
    match list with
    | none =>
      refine ⟨fun h => absurd rfl h, fun _ => ?_⟩
      simp only [refList, Option.isNone_some, Bool.not_true, Bool.or_self, Bool.false_eq_true, if_false]
      cases dflt <;> simp
    | some [] =>
      refine ⟨fun _ h => absurd rfl h, fun _ => ?_⟩
      simp only [refList, Option.isNone_some, Bool.not_true, Bool.or_self, Bool.false_eq_true, if_false]
      cases dflt <;> simp
    | some (a :: r) => exact ⟨fun _ _ => rfl, fun h => by simp at h⟩
  unfold evpnServices at hok ⊢
  simp only at hok ⊢
  obtain ⟨l1, l2⟩ := hlist (vlans.map (·.name)) ((vlans.filter (·.vni)).map (·.name))
  generalize hL : (refList list (some (vlans.map (·.name))) (some (vlans.map (·.name)))
    ((vlans.filter (·.vni)).map (·.name)) true false none) = L at hok l1 l2 ⊢
  have h0 : L.2 = 0 := by
    have := services_errors (usableAsn s) (L.1.getD []) { vlans := vlans, vrfs := vrfs, errors := L.2 }
    simp only at this
    omega
  have hinit : EvInv (usableAsn s) vlans vrfs [] { vlans := vlans, vrfs := vrfs, errors := L.2 } := by
    refine ⟨?_, ?_, by simp⟩
    · rw [List.forall₂_same]
      intro v _
      refine ⟨rfl, rfl, rfl, rfl, fun _ => rfl, fun h => by simp at h, fun r h => by simp at h⟩
    · rw [List.forall₂_same]
      intro r hr
      exact ⟨hr, [], by simp, by simp, by simp, rfl⟩
  have hinv := services_inv hnv hnr (L.1.getD []) [] _ hinit hok
  rw [List.nil_append] at hinv
  generalize (L.1.getD []).foldl (vlanService (usableAsn s)) { vlans := vlans, vrfs := vrfs, errors := L.2 } = st at hinv hok
  refine ⟨L.1.getD [], l1, fun h => (l2 h), rfl, hinv.known, ?_, ?_⟩
  · refine List.Forall₂.imp ?_ hinv.vlan
    rintro v w ⟨g1, g2, g3, g4, g5, g6, g7⟩
    refine ⟨g1, g2, g3, g4, fun h => by rw [g5 h], ?_, ?_⟩
    · intro h hb
      have hnone : bundleVrf vrfs v = none := by
        cases hx : bundleVrf vrfs v with
        | none => rfl
        | some r => exact absurd ⟨r, (bundleVrf_iff hnr v r).1 hx⟩ hb
      obtain ⟨k1, k2⟩ := g6 h hnone
      rw [k1]
      exact vlanBased_service k2
    · intro r e h hb he
      obtain ⟨k1, k2⟩ := g7 r h ((bundleVrf_iff hnr v r).2 hb)
      refine ⟨k1, ?_⟩
      rw [k2]
      unfold bundleAddVlan
      rw [he]
      simp only [Option.getD_some]
      cases e.evi <;> simp
  · rw [List.forall₂_map_right_iff]
    refine List.Forall₂.imp ?_ hinv.vrf
    rintro r t ⟨hr, ms, m1, m2, m3, rfl⟩
    obtain ⟨b1, b2, b3, b4, b5⟩ := bundleAll_spec ms r
    obtain ⟨i1, i2, i3, i4⟩ := irbVrf_spec (bundleAll ms r)
    refine ⟨i1.trans b1, i2.trans b2, ?_, ?_⟩
    · intro hn
      apply i3
      cases ms with
      | nil => exact hn
      | cons m ms =>
        obtain ⟨-, -, e, b, he, -⟩ := (bundleVrf_iff hnr m r).1 ((m1 m).1 (by simp)).2.2
        rw [hn] at he
        cases he
    · intro e he
      obtain ⟨f, f1, f2, f3, f4, f5, f6⟩ := b5 e he
      refine ⟨_, i4 f f1, ?_, f2, f3, ms, ?_, m2, m3, f5, f6⟩
      · simp only [b2, f4]
      · intro v
        rw [m1, bundleVrf_iff hnr]

/-- C74: independent services of VLANs without EVPN attributes never share route targets when the VLAN ids differ. -/
theorem C74_targets_differ {s : EvAs} {v w v' w' : EvVlan} (hv : VlanService s v v') (hw : VlanService s w w')
    (h1 : v.evpn = none) (h2 : w.evpn = none) (hid : v.id ≠ w.id) :
    ∃ e f a b, v'.evpn = some e ∧ w'.evpn = some f ∧ e.imp = some [a] ∧ e.exp = some [a] ∧ f.imp = some [b] ∧
      f.exp = some [b] ∧ a ≠ b := by
  have hfun : ∀ a b, EvpnAs s a → EvpnAs s b → a = b := by
    intro a b ha hb
    cases ha with
    | evpn x1 x2 =>
      cases hb with
      | evpn y1 y2 => rw [x1] at y1; exact Option.some.inj y1
      | vrf y1 y2 y3 => exact absurd (y1 _ x1) x2
      | bgp y1 y2 y3 y4 => exact absurd (y1 _ x1) x2
    | vrf x1 x2 x3 =>
      cases hb with
      | evpn y1 y2 => exact absurd (x1 _ y1) y2
      | vrf y1 y2 y3 => rw [x2] at y2; exact Option.some.inj y2
      | bgp y1 y2 y3 y4 => exact absurd (y2 _ x2) x3
    | bgp x1 x2 x3 x4 =>
      cases hb with
      | evpn y1 y2 => exact absurd (x1 _ y1) y2
      | vrf y1 y2 y3 => exact absurd (x2 _ y2) y3
      | bgp y1 y2 y3 y4 => rw [x3] at y3; exact Option.some.inj y3
  have hevi : ∀ (v : EvVlan) i, v.evpn = none → VlanEvi v i → i = v.id := by
    rintro v i hn (⟨e, he, -⟩ | ⟨-, h⟩)
    · rw [hn] at he; cases he
    · exact h
  obtain ⟨a, i, e, ha, hi, -, -, he, -, -, -, e1, e2, -⟩ := hv
  obtain ⟨b, j, f, hb, hj, -, -, hf, -, -, -, f1, f2, -⟩ := hw
  have n1 : ∀ f, v.evpn = some f → f.imp = none := by rw [h1]; intro f h; cases h
  have n2 : ∀ f, v.evpn = some f → f.exp = none := by rw [h1]; intro f h; cases h
  have n3 : ∀ f, w.evpn = some f → f.imp = none := by rw [h2]; intro f h; cases h
  have n4 : ∀ f, w.evpn = some f → f.exp = none := by rw [h2]; intro f h; cases h
  refine ⟨e, f, _, _, he, hf, e1 n1, e2 n2, f1 n3, f2 n4, ?_⟩
  rw [hfun a b ha hb, hevi v i h1 hi, hevi w j h2 hj]
  intro h
  exact hid (prefixed_inj h)

/-- VLANs in the example: an independent service, a VLAN in a VRF without a bundle, two VLANs of a bundle and a VLAN
without VNI -/
def exEvVlans : List EvVlan := [
  { name := "red", id := 1000, vni := true },
  { name := "blue", id := 1001, vni := true, vrf := some "plain", evpn := some { evi := some 7 } },
  { name := "b1", id := 1002, vni := true, vrf := some "bundle" },
  { name := "x", id := 1003, vrf := some "bundle" },
  { name := "b2", id := 1004, vni := true, vrf := some "bundle" }]

def exEvVrfs : List EvVrf := [{ name := "plain", id := 1 },
  { name := "bundle", id := 2, evpn := some { bundle := some "vlan_aware" } }]

/-- Non-trivial instance of C74 -/
example : (evpnServices { bgp := some 65000 } none exEvVlans exEvVrfs).1.errors = 0 ∧
    (evpnServices { bgp := some 65000 } none exEvVlans exEvVrfs).1.vlans.map (fun v => v.evpn.bind (·.evi)) =
      [some 1000, some 7, some 2, none, some 2] ∧
    (evpnServices { bgp := some 65000 } none exEvVlans exEvVrfs).1.vrfs.map (fun v => v.evpn.bind (·.vlanIds)) =
      [none, some [1002, 1004]] ∧
    (exEvVlans.map (·.name)).Nodup ∧ (exEvVrfs.map (·.name)).Nodup := by decide +kernel

/-- Defect: nothing prevents two VLANs with different EVPN instances from being given the same one: a configured instance
equal to the id of another VLAN merges the two services. -/
theorem C74_configured_evi_may_clash :
    let r := evpnServices { bgp := some 65000 } none
      [{ name := "red", id := 1000, vni := true }, { name := "blue", id := 1001, vni := true, evpn := some { evi := some 1000 } }] []
    r.1.errors = 0 ∧ r.1.vlans.map (fun v => v.evpn.bind (·.evi)) = [some 1000, some 1000] := by decide +kernel

end Netlab
