import Verif.Props.Stability
import Verif.Props.Vlan
/-!
# C119: additions to a lab topology don't change VLAN identifiers
-/

namespace Netlab

open Spec

theorem setVlanId_keeps {st st' : VlanDict × IdVar} {k : String} (h : setVlanId st k = .ok st') (w : String) (a : Vlan) (i : Int)
    (ha : st.1.lookup w = some a) (hi : a.id = some i) : st'.1.lookup w = some a := by
  unfold setVlanId at h
  cases hk : st.1.lookup k with
  | none =>
    rw [hk] at h
    cases h
    exact ha
  | some v =>
    rw [hk] at h
    dsimp only at h
    cases hv : v.id with
    | some j =>
      rw [hv] at h
      cases h
      exact ha
    | none =>
      rw [hv] at h
      dsimp only at h
      cases hg : st.2.getNext with
      | error e => rw [hg] at h; cases h
      | ok x =>
        rw [hg] at h
        cases h
        dsimp only
        rw [lookup_setKey]
        have hne : w ≠ k := by
          rintro rfl
          rw [hk] at ha
          cases ha
          rw [hv] at hi
          cases hi
        rw [if_neg hne]
        exact ha

theorem validateVlans_keeps (ks : List String) {st st' : VlanDict × IdVar} (h : validateVlans st ks = .ok st') (w : String) (a : Vlan) (i : Int)
    (ha : st.1.lookup w = some a) (hi : a.id = some i) : st'.1.lookup w = some a := by
  induction ks generalizing st with
  | nil =>
    cases h
    exact ha
  | cons k r ih =>
    simp only [validateVlans] at h
    cases h1 : setVlanId st k with
    | error e => rw [h1] at h; cases h
    | ok s =>
      rw [h1] at h
      exact ih h (setVlanId_keeps h1 w a i ha hi)

theorem keys_setKey_mem {β : Type} {d : List (String × β)} {k : String} {v : β} (h : k ∈ d.map (·.1)) : (setKey d k v).map (·.1) = d.map (·.1) := by
  rw [keys_setKey, if_pos h]

theorem setKey_append_mem {β : Type} {d e : List (String × β)} {k : String} {v : β} (h : k ∈ d.map (·.1)) : setKey (d ++ e) k v = setKey d k v ++ e := by
  induction d with
  | nil => simp at h
  | cons x r ih =>
    obtain ⟨a, b⟩ := x
    simp only [List.cons_append, setKey]
    by_cases hk : (a == k) = true
    · simp only [hk, if_true, List.cons_append]
    · simp only [hk, if_false, Bool.false_eq_true, List.cons_append]
      rw [ih]
      simp only [List.map_cons, List.mem_cons] at h
      rcases h with h | h
      · exact absurd (by simp [h]) hk
      · exact h

/-- Identifiers of VLANs do not depend on VLANs added at the end of the dictionary. -/
theorem validateVlans_ext {X : List IdVal} (ks : List String) {d d1 : VlanDict} {v v' w : IdVar} (more : VlanDict) (he : IdsExt X v v')
    (h : validateVlans (d, v) ks = .ok (d1, w)) (hk : ∀ k ∈ ks, k ∈ d.map (·.1))
    (hx : ∀ k a i, d1.lookup k = some a → a.id = some i → .i i ∉ X) :
    ∃ w', validateVlans (d ++ more, v') ks = .ok (d1 ++ more, w') ∧ IdsExt X w w' ∧ d1.map (·.1) = d.map (·.1) := by
  induction ks generalizing d v v' with
  | nil =>
    cases h
    exact ⟨v', rfl, he, rfl⟩
  | cons k r ih =>
    simp only [validateVlans] at h ⊢
    have hkd := hk k List.mem_cons_self
    obtain ⟨a, ha⟩ : ∃ a, d.lookup k = some a := by
      cases hl : d.lookup k with
      | none => exact absurd hkd (lookup_eq_none_iff.1 hl)
      | some a => exact ⟨a, rfl⟩
    have hap : (d ++ more).lookup k = some a := by
      rw [List.lookup_append, ha]
      rfl
    cases hid : a.id with
    | some j =>
      have e1 : setVlanId (d, v) k = .ok (d, v) := by simp only [setVlanId, ha, hid]
      have e2 : setVlanId (d ++ more, v') k = .ok (d ++ more, v') := by simp only [setVlanId, hap, hid]
      rw [e1] at h
      rw [e2]
      exact ih he h (fun x hx => hk x (List.mem_cons_of_mem _ hx))
    | none =>
      cases hg : v.getNext with
      | error e =>
        have e1 : setVlanId (d, v) k = .error e := by simp only [setVlanId, ha, hid, hg]
        rw [e1] at h
        cases h
      | ok p =>
        obtain ⟨n, v1⟩ := p
        have e1 : setVlanId (d, v) k = .ok (setKey d k { a with id := some n }, v1) := by simp only [setVlanId, ha, hid, hg]
        rw [e1] at h
        dsimp only at h
        have hfin : d1.lookup k = some { a with id := some n } :=
          validateVlans_keeps r h k _ n (by simp only [lookup_setKey, if_true]) rfl
        obtain ⟨v1', g1, g2⟩ := idsExt_next he hg (hx k _ n hfin rfl)
        have e2 : setVlanId (d ++ more, v') k = .ok (setKey (d ++ more) k { a with id := some n }, v1') := by simp only [setVlanId, hap, hid, g1]
        rw [e2]
        dsimp only
        have hkeys : (setKey d k { a with id := some n }).map (·.1) = d.map (·.1) := keys_setKey_mem hkd
        have hset : setKey (d ++ more) k { a with id := some n } = setKey d k { a with id := some n } ++ more := setKey_append_mem hkd
        rw [hset]
        obtain ⟨w', i1, i2, i3⟩ := ih g2 h (fun x hx => by rw [hkeys]; exact hk x (List.mem_cons_of_mem _ hx))
        exact ⟨w', i1, i2, i3.trans hkeys⟩

theorem validateVlans_append (a b : List String) (st : VlanDict × IdVar) :
    validateVlans st (a ++ b) = match validateVlans st a with | .error e => .error e | .ok s => validateVlans s b := by
  induction a generalizing st with
  | nil => rfl
  | cons k r ih =>
    simp only [List.cons_append, validateVlans]
    cases setVlanId st k with
    | error e => rfl
    | ok s => exact ih s

theorem validateVlans_other (ks : List String) {st st' : VlanDict × IdVar} (h : validateVlans st ks = .ok st') (w : String) (hw : w ∉ ks) :
    st'.1.lookup w = st.1.lookup w := by
  induction ks generalizing st with
  | nil =>
    cases h
    rfl
  | cons k r ih =>
    simp only [validateVlans] at h
    cases h1 : setVlanId st k with
    | error e => rw [h1] at h; cases h
    | ok s =>
      rw [h1] at h
      rw [ih h (fun hm => hw (List.mem_cons_of_mem _ hm))]
      unfold setVlanId at h1
      split at h1
      · cases h1
        rfl
      · split at h1
        · cases h1
          rfl
        · split at h1
          · cases h1
          · cases h1
            dsimp only
            rw [lookup_setKey, if_neg (fun he => hw (by rw [he]; exact List.mem_cons_self))]

theorem nodeVlans_ext {X : List IdVal} (g : VlanDict) (nodes more : List (String × VlanDict)) {ns ns' : List (String × VlanDict)} {v v' w w' : IdVar} {e e' : Nat}
    (he : IdsExt X v v') (h : nodeVlans g v nodes = .ok (ns, w, e)) (h' : nodeVlans g v' (nodes ++ more) = .ok (ns', w', e'))
    (hx : ∀ n ∈ ns, ∀ k a i, n.2.lookup k = some a → a.id = some i → .i i ∉ X) : ∃ rest, ns' = ns ++ rest := by
  induction nodes generalizing v v' ns ns' w w' e e' with
  | nil =>
    cases h
    exact ⟨ns', rfl⟩
  | cons n r ih =>
    obtain ⟨nm, d⟩ := n
    simp only [List.cons_append, nodeVlans] at h h'
    cases h1 : validateVlans ((mergeGlobalVlans g d).1, v) ((mergeGlobalVlans g d).1.map (·.1)) with
    | error x => rw [h1] at h; cases h
    | ok p =>
      obtain ⟨d2, v1⟩ := p
      rw [h1] at h
      dsimp only at h
      cases h2 : nodeVlans g v1 r with
      | error x => rw [h2] at h; cases h
      | ok q =>
        obtain ⟨r1, v2, e2⟩ := q
        rw [h2] at h
        cases h
        obtain ⟨v1', k1, k2, _⟩ := validateVlans_ext _ [] he h1 (fun k hk => hk) (hx _ List.mem_cons_self)
        rw [List.append_nil, List.append_nil] at k1
        rw [k1] at h'
        dsimp only at h'
        cases h3 : nodeVlans g v1' (r ++ more) with
        | error x => rw [h3] at h'; cases h'
        | ok q =>
          obtain ⟨r2, v3, e3⟩ := q
          rw [h3] at h'
          cases h'
          obtain ⟨rest, hr⟩ := ih k2 h2 h3 (fun n hn => hx n (List.mem_cons_of_mem _ hn))
          exact ⟨rest, by rw [hr]; rfl⟩

theorem nodeVlans_names (g : VlanDict) (nodes : List (String × VlanDict)) {ns : List (String × VlanDict)} {v w : IdVar} {e : Nat}
    (h : nodeVlans g v nodes = .ok (ns, w, e)) : ns.map (·.1) = nodes.map (·.1) := by
  induction nodes generalizing v ns w e with
  | nil =>
    cases h
    rfl
  | cons n r ih =>
    obtain ⟨nm, d⟩ := n
    simp only [nodeVlans] at h
    cases h1 : validateVlans ((mergeGlobalVlans g d).1, v) ((mergeGlobalVlans g d).1.map (·.1)) with
    | error x => rw [h1] at h; cases h
    | ok p =>
      obtain ⟨d2, v1⟩ := p
      rw [h1] at h
      dsimp only at h
      cases h2 : nodeVlans g v1 r with
      | error x => rw [h2] at h; cases h
      | ok q =>
        obtain ⟨r1, v2, e2⟩ := q
        rw [h2] at h
        cases h
        simp only [List.map_cons, ih h2]

theorem populate_mem (start : Int) (t : VlanTopo) : (populateVlanIdSet start t).next = some start ∧ (populateVlanIdSet start t).max = 4094 ∧
    ∀ x, x ∈ (populateVlanIdSet start t).value ↔ x ∈ vlanIds t.vlans ∨ x ∈ t.nodes.flatMap (fun n => vlanIds n.2) := by
  unfold populateVlanIdSet
  generalize hv : ((({} : IdVar).create).extend (vlanIds t.vlans)).setCounter start 4094 = v
  have h1 : v.next = some start := by rw [← hv]; rfl
  have h2 : v.max = 4094 := by rw [← hv]; rfl
  have h3 : ∀ x, x ∈ v.value ↔ x ∈ vlanIds t.vlans := by
    intro x
    rw [← hv]
    simp [IdVar.setCounter, IdVar.extend, IdVar.create]
  clear hv
  suffices hs : ∀ (l : List (String × VlanDict)) (u : IdVar), (l.foldl (fun v n => v.extend (vlanIds n.2)) u).next = u.next ∧
      (l.foldl (fun v n => v.extend (vlanIds n.2)) u).max = u.max ∧
      ∀ x, x ∈ (l.foldl (fun v n => v.extend (vlanIds n.2)) u).value ↔ x ∈ u.value ∨ x ∈ l.flatMap (fun n => vlanIds n.2) by
    obtain ⟨a, b, c⟩ := hs t.nodes v
    exact ⟨a.trans h1, b.trans h2, fun x => by rw [c, h3]⟩
  intro l
  induction l with
  | nil => intro u; simp
  | cons n r ih =>
    intro u
    obtain ⟨a, b, c⟩ := ih (u.extend (vlanIds n.2))
    refine ⟨a, b, fun x => ?_⟩
    rw [List.foldl_cons, c, List.flatMap_cons, List.mem_append]
    simp only [IdVar.extend, List.mem_append]
    rw [or_comm (a := x ∈ vlanIds n.2), or_assoc]

/-- **C119**: VLANs added at the end of the dictionary of VLANs, and nodes added to the lab, don't change identifiers of existing VLANs unless they use one of their
identifiers; nodes added to the lab don't change node VLANs. -/
theorem C119_vlans (start : Int) (hs : start ≤ 4094) (t : VlanTopo) (more : VlanDict) (moreNodes : List (String × VlanDict)) (out out' : VlanTopo) (v v' : IdVar) (e e' : Nat)
    (h : vlanTransform start t = .ok (out, v, e)) (h' : vlanTransform start ⟨t.vlans ++ more, t.nodes ++ moreNodes⟩ = .ok (out', v', e'))
    (hn : ((t.vlans ++ more).map (·.1)).Nodup)
    (hid : ∀ (p : VlanPos) a i, vlanAt out p = some a → a.id = some i → .i i ∉ vlanIds more ∧ ∀ n ∈ moreNodes, .i i ∉ vlanIds n.2)
    (hnn : (t.nodes.map (·.1)).Nodup) :
    (∀ w ∈ t.vlans.map (·.1), out'.vlans.lookup w = out.vlans.lookup w) ∧ (more = [] → ∃ rest, out'.nodes = out.nodes ++ rest) := by
  unfold vlanTransform at h h'
  cases h1 : validateVlans (t.vlans, populateVlanIdSet start t) (t.vlans.map (·.1)) with
  | error x => rw [h1] at h; cases h
  | ok p =>
    obtain ⟨g, v1⟩ := p
    rw [h1] at h
    dsimp only at h
    cases h2 : nodeVlans g v1 t.nodes with
    | error x => rw [h2] at h; cases h
    | ok q =>
      obtain ⟨ns, v2, e2⟩ := q
      rw [h2] at h
      cases h
      have hX : ∀ i, (IdVal.i i ∉ vlanIds more ∧ ∀ n ∈ moreNodes, IdVal.i i ∉ vlanIds n.2) → IdVal.i i ∉ vlanIds more ++ moreNodes.flatMap (fun n => vlanIds n.2) := by
        rintro i ⟨k1, k2⟩ hm
        rcases List.mem_append.1 hm with hm | hm
        · exact k1 hm
        · obtain ⟨n, hn, hm⟩ := List.mem_flatMap.1 hm
          exact k2 n hn hm
      have hext : IdsExt (vlanIds more ++ moreNodes.flatMap (fun n => vlanIds n.2)) (populateVlanIdSet start t)
          (populateVlanIdSet start ⟨t.vlans ++ more, t.nodes ++ moreNodes⟩) := by
        obtain ⟨a1, a2, a3⟩ := populate_mem start t
        obtain ⟨b1, b2, b3⟩ := populate_mem start ⟨t.vlans ++ more, t.nodes ++ moreNodes⟩
        refine ⟨b2.trans a2.symm, ?_, start, start, a1, b1, Int.le_refl _, by rw [a2]; exact hs, fun k _ _ => by omega⟩
        intro x
        rw [a3, b3]
        simp only [vlanIds, List.filterMap_append, List.flatMap_append, List.mem_append]
        tauto
      obtain ⟨w, k1, k2, k3⟩ := validateVlans_ext _ more hext h1 (fun k hk => hk) (fun k a i hk hi => hX i (hid (none, k) a i hk hi))
      dsimp only at h'
      rw [List.map_append, validateVlans_append, k1] at h'
      dsimp only at h'
      cases h3 : validateVlans (g ++ more, w) (more.map (·.1)) with
      | error x => rw [h3] at h'; cases h'
      | ok p =>
        obtain ⟨g', v3⟩ := p
        rw [h3] at h'
        dsimp only at h'
        cases h4 : nodeVlans g' v3 (t.nodes ++ moreNodes) with
        | error x => rw [h4] at h'; cases h'
        | ok q =>
          obtain ⟨ns', v4, e4⟩ := q
          rw [h4] at h'
          cases h'
          refine ⟨?_, ?_⟩
          · intro x hx
            dsimp only
            have hxm : x ∉ more.map (·.1) := by
              rw [List.map_append] at hn
              exact fun hm => (List.nodup_append.1 hn).2.2 x hx x hm rfl
            rw [validateVlans_other _ h3 x hxm]
            dsimp only
            rw [List.lookup_append]
            have : more.lookup x = none := lookup_eq_none_iff.2 hxm
            rw [this, Option.or_none]
          · rintro rfl
            simp only [List.map_nil, validateVlans, Except.ok.injEq, Prod.mk.injEq, List.append_nil] at h3
            obtain ⟨rfl, rfl⟩ := h3
            dsimp only
            refine nodeVlans_ext g t.nodes moreNodes k2 h2 h4 ?_
            intro n hn k a i hk hi
            refine hX i (hid (some n.1, k) a i ?_ hi)
            simp only [vlanAt]
            rw [lookup_of_mem (by rw [nodeVlans_names g _ h2]; exact hnn) (show (n.1, n.2) ∈ ns from hn)]
            exact hk

/-! ### Examples and defects -/

namespace StabilityVlanExample

def base : VlanTopo := ⟨[("red", {}), ("blue", { id := some 1001 })], [("a", [("red", {}), ("local", {})])]⟩

def okOut (r : Except Fatal (VlanTopo × IdVar × Nat)) : Option (VlanDict × List (String × VlanDict)) :=
  match r with | .ok (o, _, 0) => some (o.vlans, o.nodes) | _ => none

def more7 : VlanDict := [("green", { id := some 7 })]

def moreAuto : VlanDict := [("green", {})]

def moreB : List (String × VlanDict) := [("b", [("blue", {}), ("other", { id := some 8 })])]

/-- Identifiers of the lab, and of the lab with an added VLAN with a new identifier and an added node -/
example : okOut (vlanTransform 1000 base) =
    some ([("red", { id := some 1000 }), ("blue", { id := some 1001 })], [("a", [("red", { id := some 1000 }), ("local", { id := some 1002 })])]) := by
  decide +kernel

example : okOut (vlanTransform 1000 ⟨base.vlans ++ more7, base.nodes ++ moreB⟩) =
    some ([("red", { id := some 1000 }), ("blue", { id := some 1001 }), ("green", { id := some 7 })],
      [("a", [("red", { id := some 1000 }), ("local", { id := some 1002 })]), ("b", [("blue", { id := some 1001 }), ("other", { id := some 8 })])]) := by
  decide +kernel

end StabilityVlanExample

open StabilityVlanExample in
/-- C119 defect: a new global VLAN without an identifier changes the identifier of an existing node VLAN. -/
theorem C119_global_vlan_shifts :
    okOut (vlanTransform 1000 ⟨base.vlans ++ moreAuto, base.nodes⟩) =
      some ([("red", { id := some 1000 }), ("blue", { id := some 1001 }), ("green", { id := some 1002 })],
        [("a", [("red", { id := some 1000 }), ("local", { id := some 1003 })])]) := by
  decide +kernel

end Netlab
