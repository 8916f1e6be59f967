import Verif.Props.StabilityVlan
/-!
# C119: additions to a lab topology don't change VXLAN network identifiers
-/

namespace Netlab

open Spec

theorem idsExt_extend {X : List IdVal} {v v' : IdVar} (h : IdsExt X v v') (l : List IdVal) : IdsExt X (v.extend l) (v'.extend l) := by
  obtain ⟨c, c', e1, e2, e3, e4, e5⟩ := h.next
  refine ⟨h.max, ?_, c, c', e1, e2, e3, e4, fun k k1 k2 => ?_⟩
  · intro x
    simp only [IdVar.extend, List.mem_append, h.mem]
    exact or_assoc.symm
  · simp only [IdVar.extend, List.mem_append]
    exact .inr (e5 k k1 k2)

theorem idsExt_isUsed {X : List IdVal} {v v' : IdVar} (h : IdsExt X v v') {x : IdVal} (hx : x ∉ X) : v'.isUsed x = v.isUsed x := by
  simp only [IdVar.isUsed, List.contains_eq_mem, decide_eq_decide]
  rw [h.mem]
  exact ⟨fun k => k.elim id (fun k => absurd k hx), .inl⟩

theorem idsExt_isUsed_true {X : List IdVal} {v v' : IdVar} (h : IdsExt X v v') {x : IdVal} (hu : v.isUsed x = true) : v'.isUsed x = true := by
  simp only [IdVar.isUsed, List.contains_eq_mem, decide_eq_true_eq] at hu ⊢
  exact (h.mem x).2 (.inl hu)

theorem setVlanVni_keeps {start : Int} {glob : Option VlanDict} {st st' : VlanDict × IdVar × Nat} {k : String} (h : setVlanVni start glob st k = .ok st')
    (w : String) (a : Vlan) (n : Int) (ha : st.1.lookup w = some a) (hn : a.vni = .num n) : st'.1.lookup w = some a := by
  obtain ⟨d, var, errs⟩ := st
  simp only [setVlanVni] at h
  dsimp only at ha
  split at h
  · cases h; exact ha
  · rename_i v hv
    split at h
    · split at h <;> cases h <;> exact ha
    · split at h
      · cases h; exact ha
      · split at h <;> cases h <;> exact ha
      · rename_i hx hy
        have hne : w ≠ k := by
          rintro rfl
          rw [ha] at hv
          cases hv
          exact hy n hn
        unfold autoVni at h
        split at h
        · cases h; exact ha
        · split at h
          · split at h
            · cases h
            · cases h
              simp only [lookup_setKey, if_neg hne]
              exact ha
          · cases h
            simp only [lookup_setKey, if_neg hne]
            exact ha

theorem assignVni_keeps {start : Int} {glob : Option VlanDict} (ks : List String) {st st' : VlanDict × IdVar × Nat} (h : assignVni start glob st ks = .ok st')
    (w : String) (a : Vlan) (n : Int) (ha : st.1.lookup w = some a) (hn : a.vni = .num n) : st'.1.lookup w = some a := by
  induction ks generalizing st with
  | nil => cases h; exact ha
  | cons k r ih =>
    simp only [assignVni] at h
    cases h1 : setVlanVni start glob st k with
    | error e => rw [h1] at h; cases h
    | ok s =>
      rw [h1] at h
      exact ih h (setVlanVni_keeps h1 w a n ha hn)

theorem setVlanVni_other {start : Int} {glob : Option VlanDict} {st st' : VlanDict × IdVar × Nat} {k : String} (h : setVlanVni start glob st k = .ok st')
    (w : String) (hw : w ≠ k) : st'.1.lookup w = st.1.lookup w := by
  obtain ⟨d, var, errs⟩ := st
  simp only [setVlanVni] at h
  split at h
  · cases h; rfl
  · split at h
    · split at h <;> cases h <;> rfl
    · split at h
      · cases h; rfl
      · split at h <;> cases h <;> rfl
      · unfold autoVni at h
        split at h
        · cases h; rfl
        · split at h
          · split at h
            · cases h
            · cases h
              simp only [lookup_setKey, if_neg hw]
          · cases h
            simp only [lookup_setKey, if_neg hw]

theorem assignVni_other {start : Int} {glob : Option VlanDict} (ks : List String) {st st' : VlanDict × IdVar × Nat} (h : assignVni start glob st ks = .ok st')
    (w : String) (hw : w ∉ ks) : st'.1.lookup w = st.1.lookup w := by
  induction ks generalizing st with
  | nil => cases h; rfl
  | cons k r ih =>
    simp only [assignVni] at h
    cases h1 : setVlanVni start glob st k with
    | error e => rw [h1] at h; cases h
    | ok s =>
      rw [h1] at h
      rw [ih h (fun hm => hw (List.mem_cons_of_mem _ hm)), setVlanVni_other h1 w (fun he => hw (by rw [he]; exact List.mem_cons_self))]

theorem assignVni_append (start : Int) (glob : Option VlanDict) (a b : List String) (st : VlanDict × IdVar × Nat) :
    assignVni start glob st (a ++ b) = match assignVni start glob st a with | .error e => .error e | .ok s => assignVni start glob s b := by
  induction a generalizing st with
  | nil => rfl
  | cons k r ih =>
    simp only [List.cons_append, assignVni]
    cases setVlanVni start glob st k with
    | error e => rfl
    | ok s => exact ih s

/-- VNIs do not depend on other VLANs of the dictionary: `R` relates dictionaries with the same VLANs in `K`. -/
theorem assignVni_ext {X : List IdVal} {R : VlanDict → VlanDict → Prop} {K : List String} (r1 : ∀ d d', R d d' → ∀ k ∈ K, d'.lookup k = d.lookup k)
    (r2 : ∀ d d', R d d' → ∀ k ∈ K, ∀ v, R (setKey d k v) (setKey d' k v)) (start : Int) (glob : Option VlanDict) (ks : List String) (hk : ∀ k ∈ ks, k ∈ K)
    {d d' d1 : VlanDict} {v v' v1 : IdVar} {e e1 : Nat} (hd : R d d') (hv : IdsExt X v v') (h : assignVni start glob (d, v, e) ks = .ok (d1, v1, e1))
    (hx : ∀ k a n, glob.bind (·.lookup k) = none → d1.lookup k = some a → a.vni = .num n → .i n ∉ X) :
    ∃ d1' v1', assignVni start glob (d', v', e) ks = .ok (d1', v1', e1) ∧ R d1 d1' ∧ IdsExt X v1 v1' := by
  induction ks generalizing d d' v v' e with
  | nil =>
    cases h
    exact ⟨d', v', rfl, hd, hv⟩
  | cons k r ih =>
    have hkK := hk k List.mem_cons_self
    have hrK : ∀ k ∈ r, k ∈ K := fun x hx => hk x (List.mem_cons_of_mem _ hx)
    have hl := r1 d d' hd k hkK
    simp only [assignVni] at h
    cases hd1 : d.lookup k with
    | none =>
      rw [hd1] at hl
      simp only [setVlanVni, hd1] at h
      simp only [assignVni, setVlanVni, hl]
      exact ih hrK hd hv h
    | some a =>
      rw [hd1] at hl
      cases hg : glob.bind (·.lookup k) with
      | some gv =>
        by_cases hc : a.vni ≠ .missing ∧ a.vni ≠ gv.vni
        · simp only [setVlanVni, hd1, hg, if_pos hc] at h
          simp only [assignVni, setVlanVni, hl, hg, if_pos hc]
          exact ih hrK hd hv h
        · simp only [setVlanVni, hd1, hg, if_neg hc] at h
          simp only [assignVni, setVlanVni, hl, hg, if_neg hc]
          exact ih hrK hd hv h
      | none =>
        have auto : (∀ st st', setVlanVni start glob (d, v, e) k = autoVni start d v e k a →
            setVlanVni start glob (d', v', e) k = autoVni start d' v' e k a → setVlanVni start glob (d, v, e) k = .ok st → st' = st →
            ∃ d1' v1', assignVni start glob (d', v', e) (k :: r) = .ok (d1', v1', e1) ∧ R d1 d1' ∧ IdsExt X v1 v1') := by
          intro st st' h1 h2 h3 _
          rw [h3] at h
          dsimp only at h
          simp only [assignVni]
          rw [h2]
          rw [h1] at h3
          unfold autoVni at h3 ⊢
          cases hid : a.id with
          | none =>
            rw [hid] at h3
            cases h3
            exact ih hrK hd hv h
          | some vid =>
            rw [hid] at h3
            dsimp only at h3 ⊢
            by_cases hu : v.isUsed (.i (start + vid)) = true
            · rw [if_pos hu] at h3
              rw [if_pos (idsExt_isUsed_true hv hu)]
              cases hn : v.getNext with
              | error x => rw [hn] at h3; cases h3
              | ok p =>
                obtain ⟨n, w⟩ := p
                rw [hn] at h3
                cases h3
                have hfin := assignVni_keeps r h k { id := some vid, vni := .num n } n (by simp only [lookup_setKey, if_true]) rfl
                obtain ⟨w', k1, k2⟩ := idsExt_next hv hn (hx k _ n hg hfin rfl)
                rw [k1]
                exact ih hrK (r2 _ _ hd k hkK _) k2 h
            · rw [if_neg hu] at h3
              cases h3
              have hfin := assignVni_keeps r h k { id := some vid, vni := .num (start + vid) } (start + vid) (by simp only [lookup_setKey, if_true]) rfl
              rw [idsExt_isUsed hv (hx k _ _ hg hfin rfl), if_neg hu]
              exact ih hrK (r2 _ _ hd k hkK _) (idsExt_extend hv _) h
        cases hs : setVlanVni start glob (d, v, e) k with
        | error x => rw [hs] at h; cases h
        | ok st =>
          cases hvni : a.vni with
          | flag b =>
            cases b with
            | false =>
              have e1 : setVlanVni start glob (d, v, e) k = .ok (d, v, e) := by simp only [setVlanVni, hd1, hg, hvni]
              have e2 : setVlanVni start glob (d', v', e) k = .ok (d', v', e) := by simp only [setVlanVni, hl, hg, hvni]
              rw [e1] at h
              simp only [assignVni, e2]
              exact ih hrK hd hv h
            | true =>
              exact auto st st (by simp only [setVlanVni, hd1, hg, hvni]) (by simp only [setVlanVni, hl, hg, hvni]) hs rfl
          | missing =>
            exact auto st st (by simp only [setVlanVni, hd1, hg, hvni]) (by simp only [setVlanVni, hl, hg, hvni]) hs rfl
          | num n =>
            by_cases hc : n < 2 ∨ n > 16777215
            · have e1 : setVlanVni start glob (d, v, e) k = .ok (d, v, e + 1) := by simp only [setVlanVni, hd1, hg, hvni, if_pos hc]
              have e2 : setVlanVni start glob (d', v', e) k = .ok (d', v', e + 1) := by simp only [setVlanVni, hl, hg, hvni, if_pos hc]
              rw [e1] at h
              simp only [assignVni, e2]
              exact ih hrK hd hv h
            · have e1 : setVlanVni start glob (d, v, e) k = .ok (d, v, e) := by simp only [setVlanVni, hd1, hg, hvni, if_neg hc]
              have e2 : setVlanVni start glob (d', v', e) k = .ok (d', v', e) := by simp only [setVlanVni, hl, hg, hvni, if_neg hc]
              rw [e1] at h
              simp only [assignVni, e2]
              exact ih hrK hd hv h

theorem assignNodeVnis_ext {X : List IdVal} (start : Int) (g : VlanDict) (lists lists' : String → List String) (nodes more : List (String × VlanDict))
    (hl : ∀ n ∈ nodes, lists' n.1 = lists n.1) {ns ns' : List (String × VlanDict)} {v v' w w' : IdVar} {e a a' : Nat} (he : IdsExt X v v')
    (h : assignNodeVnis start g lists (v, e) nodes = .ok (ns, w, a)) (h' : assignNodeVnis start g lists' (v', e) (nodes ++ more) = .ok (ns', w', a'))
    (hx : ∀ n ∈ ns, ∀ k b i, g.lookup k = none → n.2.lookup k = some b → b.vni = .num i → .i i ∉ X) : ∃ rest, ns' = ns ++ rest := by
  induction nodes generalizing v v' ns ns' w w' e a a' with
  | nil =>
    cases h
    exact ⟨ns', rfl⟩
  | cons n r ih =>
    obtain ⟨nm, d⟩ := n
    simp only [List.cons_append, assignNodeVnis] at h h'
    rw [hl _ List.mem_cons_self] at h'
    cases h1 : assignVni start (some g) (d, v, e) (lists nm) with
    | error x => rw [h1] at h; cases h
    | ok p =>
      obtain ⟨d2, v1, e1⟩ := p
      rw [h1] at h
      dsimp only at h
      cases h2 : assignNodeVnis start g lists (v1, e1) r with
      | error x => rw [h2] at h; cases h
      | ok q =>
        obtain ⟨r1, v2, e2⟩ := q
        rw [h2] at h
        cases h
        obtain ⟨d2', v1', k1, k2, k3⟩ := assignVni_ext (R := Eq) (K := lists nm) (fun _ _ hd _ _ => by rw [hd]) (fun _ _ hd _ _ _ => by rw [hd])
          start (some g) (lists nm) (fun _ hk => hk) rfl he h1 (fun k b i hg => hx _ List.mem_cons_self k b i hg)
        subst k2
        rw [k1] at h'
        dsimp only at h'
        cases h3 : assignNodeVnis start g lists' (v1', e1) (r ++ more) with
        | error x => rw [h3] at h'; cases h'
        | ok q =>
          obtain ⟨r2, v3, e3⟩ := q
          rw [h3] at h'
          cases h'
          obtain ⟨rest, hr⟩ := ih (fun n hn => hl n (List.mem_cons_of_mem _ hn)) k3 h2 h3 (fun n hn => hx n (List.mem_cons_of_mem _ hn))
          exact ⟨rest, by rw [hr]; rfl⟩

theorem assignVni_congr (start : Int) {g g' : VlanDict} (hg : ∀ w, g'.lookup w = g.lookup w) (ks : List String) (st : VlanDict × IdVar × Nat) :
    assignVni start (some g') st ks = assignVni start (some g) st ks := by
  induction ks generalizing st with
  | nil => rfl
  | cons k r ih =>
    have hs : setVlanVni start (some g') st k = setVlanVni start (some g) st k := by
      simp only [setVlanVni, Option.bind_some, hg]
    simp only [assignVni, hs]
    cases setVlanVni start (some g) st k with
    | error e => rfl
    | ok s => exact ih s

theorem assignNodeVnis_congr (start : Int) {g g' : VlanDict} (hg : ∀ w, g'.lookup w = g.lookup w) {lists : String → List String} {st : IdVar × Nat}
    {nodes : List (String × VlanDict)} : assignNodeVnis start g' lists st nodes = assignNodeVnis start g lists st nodes := by
  induction nodes generalizing st with
  | nil => rfl
  | cons n r ih =>
    obtain ⟨nm, d⟩ := n
    simp only [assignNodeVnis, assignVni_congr start hg]
    cases assignVni start (some g) (d, st.1, st.2) (lists nm) with
    | error e => rfl
    | ok p =>
      obtain ⟨d', v', e'⟩ := p
      dsimp only
      rw [ih]

theorem assignNodeVnis_names (start : Int) (g : VlanDict) (lists : String → List String) (nodes : List (String × VlanDict)) {ns : List (String × VlanDict)} {st : IdVar × Nat}
    {w : IdVar} {e : Nat} (h : assignNodeVnis start g lists st nodes = .ok (ns, w, e)) : ns.map (·.1) = nodes.map (·.1) := by
  induction nodes generalizing st ns w e with
  | nil => cases h; rfl
  | cons n r ih =>
    obtain ⟨nm, d⟩ := n
    simp only [assignNodeVnis] at h
    split at h
    · cases h
    · split at h
      · cases h
      · rename_i hz
        cases h
        simp only [List.map_cons, ih hz]

theorem registerStaticVni_mem (start : Int) (t : VlanTopo) : (registerStaticVni start t).next = some start ∧ (registerStaticVni start t).max = 16777215 ∧
    ∀ x, x ∈ (registerStaticVni start t).value ↔ x ∈ vlanVnis t.vlans ∨ x ∈ t.nodes.flatMap (fun n => vlanVnis n.2) := by
  unfold registerStaticVni
  generalize hv : ((({} : IdVar).create).extend (vlanVnis t.vlans)).setCounter start 16777215 = v
  have h1 : v.next = some start := by rw [← hv]; rfl
  have h2 : v.max = 16777215 := by rw [← hv]; rfl
  have h3 : ∀ x, x ∈ v.value ↔ x ∈ vlanVnis t.vlans := by
    intro x
    rw [← hv]
    simp [IdVar.setCounter, IdVar.extend, IdVar.create]
  clear hv
  suffices hs : ∀ (l : List (String × VlanDict)) (u : IdVar), (l.foldl (fun v n => v.extend (vlanVnis n.2)) u).next = u.next ∧
      (l.foldl (fun v n => v.extend (vlanVnis n.2)) u).max = u.max ∧
      ∀ x, x ∈ (l.foldl (fun v n => v.extend (vlanVnis n.2)) u).value ↔ x ∈ u.value ∨ x ∈ l.flatMap (fun n => vlanVnis n.2) by
    obtain ⟨a, b, c⟩ := hs t.nodes v
    exact ⟨a.trans h1, b.trans h2, fun x => by rw [c, h3]⟩
  intro l
  induction l with
  | nil => intro u; simp
  | cons n r ih =>
    intro u
    obtain ⟨a, b, c⟩ := ih (u.extend (vlanVnis n.2))
    refine ⟨a, b, fun x => ?_⟩
    rw [List.foldl_cons, c, List.flatMap_cons, List.mem_append]
    simp only [IdVar.extend, List.mem_append]
    rw [or_comm (a := x ∈ vlanVnis n.2), or_assoc]

/-- **C119**: VLANs added at the end of the dictionary of VLANs and at the end of the list of VXLAN-enabled VLANs, and nodes added to the lab, don't change identifiers and VNIs
of existing VLANs unless they use one of their identifiers or VNIs; nodes added to the lab don't change identifiers and VNIs of VLANs on other nodes. -/
theorem C119_vnis (sv sn : Int) (hsv : sv ≤ 4094) (hsn : sn ≤ 16777215) (extra : List IdVal) (t : VlanTopo) (more : VlanDict) (moreNodes : List (String × VlanDict))
    (glist moreList : List String) (lists lists' : String → List String) (out out' : VlanTopo) (e e' : Nat)
    (h : vlanVxlanTransform sv sn extra glist lists t = .ok (out, e))
    (h' : vlanVxlanTransform sv sn extra (glist ++ moreList) lists' ⟨t.vlans ++ more, t.nodes ++ moreNodes⟩ = .ok (out', e'))
    (hn : ((t.vlans ++ more).map (·.1)).Nodup) (hnn : (t.nodes.map (·.1)).Nodup)
    (hgl : ∀ k ∈ glist, k ∈ t.vlans.map (·.1)) (hml : ∀ k ∈ moreList, k ∈ more.map (·.1)) (hls : ∀ n ∈ t.nodes, lists' n.1 = lists n.1)
    (hid : ∀ (p : VlanPos) a i, vlanAt out p = some a → a.id = some i → ∀ w, (w ∈ more ∨ ∃ n ∈ moreNodes, w ∈ n.2) → w.2.id ≠ some i)
    (hvni : ∀ (p : VlanPos) a i, vlanAt out p = some a → a.vni = .num i → ∀ w, (w ∈ more ∨ ∃ n ∈ moreNodes, w ∈ n.2) → w.2.vni ≠ .num i) :
    (∀ w ∈ t.vlans.map (·.1), out'.vlans.lookup w = out.vlans.lookup w) ∧ (more = [] → ∃ rest, out'.nodes = out.nodes ++ rest) := by
  obtain ⟨t1, var1, e1, var2, e2, a1, a2, -⟩ := vlanVxlan_facts h
  obtain ⟨t1', var1', e1', var2', e2', b1, b2, -⟩ := vlanVxlan_facts h'
  have hc : CounterOk sn 16777215 ((registerStaticVni sn t).extend extra) := counterOk_foldl t.nodes _ sn 16777215
  obtain ⟨-, hids, -, -⟩ := vniTransform_facts hc a2
  have hmem : ∀ i, (∀ w, (w ∈ more ∨ ∃ n ∈ moreNodes, w ∈ n.2) → w.2.id ≠ some i) → IdVal.i i ∉ vlanIds more ∧ ∀ n ∈ moreNodes, IdVal.i i ∉ vlanIds n.2 := by
    intro i hi
    have : ∀ d : VlanDict, IdVal.i i ∈ vlanIds d → ∃ w ∈ d, w.2.id = some i := by
      intro d hd
      obtain ⟨w, hw, hx⟩ := List.mem_filterMap.1 hd
      obtain ⟨j, hj, he⟩ := Option.map_eq_some_iff.1 hx
      cases he
      exact ⟨w, hw, hj⟩
    refine ⟨fun hm => ?_, fun n hn hm => ?_⟩
    · obtain ⟨w, hw, hx⟩ := this _ hm
      exact hi w (.inl hw) hx
    · obtain ⟨w, hw, hx⟩ := this _ hm
      exact hi w (.inr ⟨n, hn, hw⟩) hx
  have hV := C119_vlans sv hsv t more moreNodes t1 t1' var1 var1' e1 e1' a1 b1 hn (by
    intro p a i ha hi
    have := hids p
    rw [ha] at this
    obtain ⟨b, hb, hbi⟩ := Option.map_eq_some_iff.1 this
    exact hmem i (hid p b i hb (hbi.trans hi))) hnn
  have hX : ∀ i, (∀ w, (w ∈ more ∨ ∃ n ∈ moreNodes, w ∈ n.2) → w.2.vni ≠ .num i) →
      IdVal.i i ∉ vlanVnis more ++ moreNodes.flatMap (fun n => vlanVnis n.2) := by
    intro i hi hm
    have : ∀ d : VlanDict, IdVal.i i ∈ vlanVnis d → ∃ w ∈ d, w.2.vni = .num i := by
      intro d hd
      obtain ⟨w, hw, hx⟩ := List.mem_filterMap.1 hd
      split at hx
      · rename_i hy
        cases hx
        exact ⟨w, hw, hy⟩
      · cases hx
    rcases List.mem_append.1 hm with hm | hm
    · obtain ⟨w, hw, hx⟩ := this _ hm
      exact hi w (.inl hw) hx
    · obtain ⟨n, hn, hm⟩ := List.mem_flatMap.1 hm
      obtain ⟨w, hw, hx⟩ := this _ hm
      exact hi w (.inr ⟨n, hn, hw⟩) hx
  have hext : IdsExt (vlanVnis more ++ moreNodes.flatMap (fun n => vlanVnis n.2)) ((registerStaticVni sn t).extend extra)
      ((registerStaticVni sn ⟨t.vlans ++ more, t.nodes ++ moreNodes⟩).extend extra) := by
    apply idsExt_extend
    obtain ⟨c1, c2, c3⟩ := registerStaticVni_mem sn t
    obtain ⟨d1, d2, d3⟩ := registerStaticVni_mem sn ⟨t.vlans ++ more, t.nodes ++ moreNodes⟩
    refine ⟨d2.trans c2.symm, ?_, sn, sn, c1, d1, Int.le_refl _, by rw [c2]; exact hsn, fun k _ _ => by omega⟩
    intro x
    rw [c3, d3]
    simp only [vlanVnis, List.filterMap_append, List.flatMap_append, List.mem_append]
    tauto
  unfold vniTransform at a2 b2
  cases h1 : assignVni sn none (t1.vlans, (registerStaticVni sn t).extend extra, 0) glist with
  | error x => rw [h1] at a2; cases a2
  | ok p =>
    obtain ⟨g, v1, f1⟩ := p
    rw [h1] at a2
    dsimp only at a2
    cases h2 : assignNodeVnis sn g lists (v1, f1) t1.nodes with
    | error x => rw [h2] at a2; cases a2
    | ok q =>
      obtain ⟨ns, v2, f2⟩ := q
      rw [h2] at a2
      cases a2
      have hxg : ∀ k a n, (none : Option VlanDict).bind (·.lookup k) = none → g.lookup k = some a → a.vni = .num n →
          IdVal.i n ∉ vlanVnis more ++ moreNodes.flatMap (fun n => vlanVnis n.2) := fun k a n _ hk hi => hX n (hvni (none, k) a n hk hi)
      have hkm : ∀ k ∈ t.vlans.map (·.1), k ∉ more.map (·.1) := by
        intro k hk hm
        rw [List.map_append] at hn
        exact (List.nodup_append.1 hn).2.2 k hk k hm rfl
      obtain ⟨g1', v1', k1, k2, k3⟩ := assignVni_ext (R := fun d d' => ∀ k ∈ t.vlans.map (·.1), d'.lookup k = d.lookup k) (K := t.vlans.map (·.1))
        (fun _ _ hd => hd) (fun d d' hd k _ v j hj => by simp only [lookup_setKey, hd j hj]) sn none glist hgl hV.1 hext h1 hxg
      rw [assignVni_append, k1] at b2
      dsimp only at b2
      cases h3 : assignVni sn none (g1', v1', f1) moreList with
      | error x => rw [h3] at b2; cases b2
      | ok p =>
        obtain ⟨g', v3, f3⟩ := p
        rw [h3] at b2
        dsimp only at b2
        cases h4 : assignNodeVnis sn g' lists' (v3, f3) t1'.nodes with
        | error x => rw [h4] at b2; cases b2
        | ok q =>
          obtain ⟨ns', v4, f4⟩ := q
          rw [h4] at b2
          cases b2
          have hfirst : ∀ w ∈ t.vlans.map (·.1), g'.lookup w = g.lookup w := by
            intro w hw
            have := assignVni_other moreList h3 w (fun hm => hkm w hw (hml w hm))
            rw [this]
            exact k2 w hw
          refine ⟨hfirst, ?_⟩
          rintro rfl
          have hml' : moreList = [] := by
            cases moreList with
            | nil => rfl
            | cons k r => exact absurd (hml k List.mem_cons_self) (by simp)
          subst hml'
          simp only [assignVni, Except.ok.injEq, Prod.mk.injEq] at h3
          obtain ⟨rfl, rfl, rfl⟩ := h3
          obtain ⟨rest, hrest⟩ := hV.2 rfl
          rw [hrest] at h4
          have hc' : CounterOk sn 16777215 ((registerStaticVni sn ⟨t.vlans ++ [], t.nodes ++ moreNodes⟩).extend extra) := counterOk_foldl (t.nodes ++ moreNodes) _ sn 16777215
          have hsame : ∀ w, g1'.lookup w = g.lookup w := by
            intro w
            by_cases hw : w ∈ t.vlans.map (·.1)
            · exact hfirst w hw
            · have n1 : t1.vlans.lookup w = none := by
                have := (C20_every_vlan_has_id sv t t1 var1 e1 a1 (none, w)).1
                simp only [vlanAt, lookup_eq_none_iff.2 hw] at this
                exact Option.not_isSome_iff_eq_none.1 (by rw [this]; decide)
              have n2 : t1'.vlans.lookup w = none := by
                have := (C20_every_vlan_has_id sv ⟨t.vlans ++ [], t.nodes ++ moreNodes⟩ t1' var1' e1' b1 (none, w)).1
                simp only [vlanAt, List.append_nil, lookup_eq_none_iff.2 hw] at this
                exact Option.not_isSome_iff_eq_none.1 (by rw [this]; decide)
              have hwg : w ∉ glist := fun hm => hw (hgl w hm)
              rw [assignVni_other glist k1 w hwg, assignVni_other glist h1 w hwg]
              dsimp only
              rw [n1, n2]
          have hnames : t1.nodes.map (·.1) = t.nodes.map (·.1) := by
            unfold vlanTransform at a1
            split at a1
            · cases a1
            · split at a1
              · cases a1
              · rename_i hz
                cases a1
                exact nodeVlans_names _ _ hz
          rw [assignNodeVnis_congr sn hsame] at h4
          refine assignNodeVnis_ext sn g lists lists' t1.nodes rest ?_ k3 h2 h4 ?_
          · intro n hn
            have : n.1 ∈ t.nodes.map (·.1) := by rw [← hnames]; exact List.mem_map.2 ⟨n, hn, rfl⟩
            obtain ⟨m, hm, he⟩ := List.mem_map.1 this
            rw [← he]
            exact hls m hm
          · intro n hn k b i _ hk hi
            refine hX i (hvni (some n.1, k) b i ?_ hi)
            simp only [vlanAt]
            rw [lookup_of_mem (by rw [assignNodeVnis_names sn g lists _ h2, hnames]; exact hnn) (show (n.1, n.2) ∈ ns from hn)]
            exact hk

/-! ### Examples and limits -/

namespace StabilityVniExample

def base : VlanTopo := ⟨[("red", { id := some 10 }), ("blue", { vni := .num 100010 })], [("a", [("red", {}), ("local", {})])]⟩

def result (r : Except Fatal (VlanTopo × Nat)) : Option (VlanDict × List (String × VlanDict)) :=
  match r with | .ok (o, 0) => some (o.vlans, o.nodes) | _ => none

def more : VlanDict := [("green", { id := some 20, vni := .num 100021 })]

def moreStatic : VlanDict := [("green", { id := some 20, vni := .num 100000 })]

def moreNodes : List (String × VlanDict) := [("b", [("blue", {}), ("other", { id := some 30 })])]

def lists (n : String) : List String := if n = "a" then ["red", "local"] else ["blue", "other"]

/-- VNIs of the lab (the second VLAN uses the VNI the first one would get), and of the lab with an added VLAN and an added node -/
example : result (vlanVxlanTransform 1000 100000 [] ["red", "blue"] lists base) =
    some ([("red", { id := some 10, vni := .num 100000 }), ("blue", { id := some 1000, vni := .num 100010 })],
      [("a", [("red", { id := some 10 }), ("local", { id := some 1001, vni := .num 101001 })])]) := by
  decide +kernel

example : result (vlanVxlanTransform 1000 100000 [] ["red", "blue", "green"] lists ⟨base.vlans ++ more, base.nodes ++ moreNodes⟩) =
    some ([("red", { id := some 10, vni := .num 100000 }), ("blue", { id := some 1000, vni := .num 100010 }), ("green", { id := some 20, vni := .num 100021 })],
      [("a", [("red", { id := some 10 }), ("local", { id := some 1001, vni := .num 101001 })]),
        ("b", [("blue", { id := some 1000, vni := .num 100010 }), ("other", { id := some 30, vni := .num 100030 })])]) := by
  decide +kernel

end StabilityVniExample

open StabilityVniExample in
/-- The conditions of C119 are needed: a new VLAN with the VNI of an existing VLAN changes the VNI of the existing VLAN. -/
theorem C119_static_vni_shifts :
    result (vlanVxlanTransform 1000 100000 [] ["red", "blue", "green"] lists ⟨base.vlans ++ moreStatic, base.nodes⟩) =
    some ([("red", { id := some 10, vni := .num 100001 }), ("blue", { id := some 1000, vni := .num 100010 }), ("green", { id := some 20, vni := .num 100000 })],
      [("a", [("red", { id := some 10 }), ("local", { id := some 1001, vni := .num 101001 })])]) := by
  decide +kernel

end Netlab
