import Verif.Props.StabilityVlan
import Verif.Props.Vrf
import Verif.Spec.StabilityVrf
/-!
# C119: additions to a lab topology don't change VRF identifiers and route distinguishers
-/

namespace Netlab

open Spec

/-- The second set of route distinguishers has additional elements. -/
def RdsExt (Y : List IdVal) (r r' : IdVar) : Prop := ∀ x, x ∈ r'.value ↔ x ∈ r.value ∨ x ∈ Y

theorem rdsExt_used {Y : List IdVal} {r r' : IdVar} (h : RdsExt Y r r') {x : IdVal} (hu : r.isUsed x = true) : r'.isUsed x = true := by
  simp only [IdVar.isUsed, List.contains_eq_mem, decide_eq_true_eq] at hu ⊢
  exact (h x).2 (.inl hu)

theorem rdsExt_unused {Y : List IdVal} {r r' : IdVar} (h : RdsExt Y r r') {x : IdVal} (hu : ¬ r.isUsed x = true) (hx : x ∉ Y) : ¬ r'.isUsed x = true := by
  simp only [IdVar.isUsed, List.contains_eq_mem, decide_eq_true_eq] at hu ⊢
  intro hm
  exact ((h x).1 hm).elim hu hx

theorem rdsExt_extend {Y : List IdVal} {r r' : IdVar} (h : RdsExt Y r r') (l : List IdVal) : RdsExt Y (r.extend l) (r'.extend l) := by
  intro x
  simp only [IdVar.extend, List.mem_append, h x]
  exact or_assoc.symm

/-- Identifier sets of the larger lab -/
structure VrfSetsExt (X Y : List IdVal) (s s' : VrfSets) : Prop where
  ids : IdsExt X s.ids s'.ids
  rds : RdsExt Y s.rds s'.rds

theorem getNextVrfId_ext {X Y : List IdVal} {asn n : Int} {rd : String} (s t : VrfSets) (h : getNextVrfId asn s = .ok (n, rd, t)) :
    ∀ s', VrfSetsExt X Y s s' → .i n ∉ X → .s (mkRd asn n) ∉ Y →
      rd = mkRd asn n ∧ ∃ t', getNextVrfId asn s' = .ok (n, rd, t') ∧ VrfSetsExt X Y t t' := by
  induction s using getNextVrfId.induct (asn := asn) with
  | case1 s e he =>
    rw [getNextVrfId] at h
    split at h
    · cases h
    · rename_i h2; rw [he] at h2; cases h2
  | case2 s m ids' hn hu ih =>
    intro s' he hx hy
    rw [getNextVrfId] at h
    split at h
    · cases h
    · rename_i m' ids'' h2
      rw [hn] at h2
      cases h2
      rw [if_pos hu] at h
      by_cases hm : IdVal.i m ∈ X
      · exact ih h s' ⟨idsExt_skip he.ids hn hm, he.rds⟩ hx hy
      · obtain ⟨w', k1, k2⟩ := idsExt_next he.ids hn hm
        obtain ⟨r1, t', r2, r3⟩ := ih h { s' with ids := w' } ⟨k2, he.rds⟩ hx hy
        refine ⟨r1, t', ?_, r3⟩
        rw [getNextVrfId]
        split
        · rename_i h3; rw [k1] at h3; cases h3
        · rename_i h3
          rw [k1] at h3
          cases h3
          rw [if_pos (rdsExt_used he.rds hu)]
          exact r2
  | case3 s m ids' hn hu =>
    intro s' he hx hy
    rw [getNextVrfId] at h
    split at h
    · cases h
    · rename_i m' ids'' h2
      rw [hn] at h2
      cases h2
      rw [if_neg hu] at h
      simp only [Except.ok.injEq, Prod.mk.injEq] at h
      obtain ⟨rfl, rfl, rfl⟩ := h
      obtain ⟨w', k1, k2⟩ := idsExt_next he.ids hn hx
      refine ⟨rfl, { ids := w', rds := s'.rds.extend [.i m, .s (mkRd asn m)] }, ?_, ⟨k2, rdsExt_extend he.rds _⟩⟩
      rw [getNextVrfId]
      split
      · rename_i h3; rw [k1] at h3; cases h3
      · rename_i h3
        rw [k1] at h3
        cases h3
        rw [if_neg (rdsExt_unused he.rds hu hy)]

/-- The number used in the identifier or the route distinguisher of a VRF is not used by added VRFs. -/
def VrfFree (asn : Option Int) (X Y : List IdVal) (v : Vrf) : Prop :=
  ∀ a n, asn = some a → (v.id = some n ∨ v.rd = .str (mkRd a n)) → .i n ∉ X ∧ .s (mkRd a n) ∉ Y

theorem setVrfIds_done (glob : Option VrfDict) (asn : Option Int) (ks : List String) {d d' : VrfDict} {s s' : VrfSets} {e : Nat}
    (h : setVrfIds glob asn d s ks = .ok (d', s', e)) (w : String) (v : Vrf) (hv : d.lookup w = some v) (hd : VrfDone v) : d'.lookup w = some v := by
  induction ks generalizing d s e with
  | nil =>
    cases h
    exact hv
  | cons k r ih =>
    simp only [setVrfIds] at h
    cases hl : d.lookup k with
    | none => rw [hl] at h; exact ih h hv
    | some x =>
      rw [hl] at h
      dsimp only at h
      by_cases hn : vrfNeedsId x = true
      · rw [if_pos hn] at h
        have hne : w ≠ k := by
          rintro rfl
          rw [hv] at hl
          cases hl
          exact vrfNeedsId_true hn hd
        cases hg : glob.bind (·.lookup k) with
        | some g =>
          rw [hg] at h
          exact ih h (by rw [lookup_setKey, if_neg hne]; exact hv)
        | none =>
          rw [hg] at h
          dsimp only at h
          cases asn with
          | none => cases h; exact hv
          | some a =>
            dsimp only at h
            cases hx : getNextVrfId a s with
            | error e => rw [hx] at h; cases h
            | ok q =>
              obtain ⟨n, rd, s1⟩ := q
              rw [hx] at h
              exact ih h (by rw [lookup_setKey, if_neg hne]; exact hv)
      · rw [if_neg hn] at h
        exact ih h hv

/-- Identifiers and route distinguishers do not depend on VRFs added at the end of the dictionary. -/
theorem setVrfIds_ext {X Y : List IdVal} (glob : Option VrfDict) (asn : Option Int) (ks : List String) {d d1 : VrfDict} {s s' t : VrfSets} (more : VrfDict)
    (he : VrfSetsExt X Y s s') (h : setVrfIds glob asn d s ks = .ok (d1, t, 0)) (hk : ∀ k ∈ ks, k ∈ d.map (·.1))
    (hx : ∀ k v, d1.lookup k = some v → glob.bind (·.lookup k) = none → VrfFree asn X Y v) :
    ∃ t', (∀ ks', setVrfIds glob asn (d ++ more) s' (ks ++ ks') = setVrfIds glob asn (d1 ++ more) t' ks') ∧ VrfSetsExt X Y t t' := by
  induction ks generalizing d s s' with
  | nil =>
    cases h
    exact ⟨s', fun _ => rfl, he⟩
  | cons k r ih =>
    simp only [setVrfIds] at h
    have hkd := hk k List.mem_cons_self
    obtain ⟨v, hv⟩ : ∃ v, d.lookup k = some v := by
      cases hl : d.lookup k with
      | none => exact absurd hkd (lookup_eq_none_iff.1 hl)
      | some a => exact ⟨a, rfl⟩
    have hap : (d ++ more).lookup k = some v := by
      rw [List.lookup_append, hv]
      rfl
    rw [hv] at h
    dsimp only at h
    have hset : ∀ x : Vrf, setKey (d ++ more) k x = setKey d k x ++ more := fun x => setKey_append_mem hkd
    have hkeys : ∀ x : Vrf, (setKey d k x).map (·.1) = d.map (·.1) := fun x => keys_setKey_mem hkd
    have hr : ∀ x ∈ r, x ∈ d.map (·.1) := fun x hx => hk x (List.mem_cons_of_mem _ hx)
    by_cases hn : vrfNeedsId v = true
    · rw [if_pos hn] at h
      cases hg : glob.bind (·.lookup k) with
      | some g =>
        rw [hg] at h
        dsimp only at h
        obtain ⟨t', i1, i2⟩ := ih he h (by rw [hkeys]; exact hr)
        refine ⟨t', fun ks' => ?_, i2⟩
        rw [List.cons_append]
        simp only [setVrfIds, hap, hn, if_true, hg, hset]
        exact i1 ks'
      | none =>
        rw [hg] at h
        dsimp only at h
        cases asn with
        | none =>
          simp only [Except.ok.injEq, Prod.mk.injEq] at h
          exact absurd h.2.2 (by decide)
        | some a =>
          dsimp only at h
          cases hq : getNextVrfId a s with
          | error e => rw [hq] at h; cases h
          | ok q =>
            obtain ⟨n, rd, s1⟩ := q
            rw [hq] at h
            dsimp only at h
            have hrd : rd = mkRd a n := (getNextVrfId_ext (X := []) (Y := []) s s1 hq s ⟨⟨rfl, fun x => by simp, by
                obtain ⟨c, c', e1, e2, e3, e4, e5⟩ := he.ids.next
                exact ⟨c, c, e1, e1, Int.le_refl _, e4, fun k k1 k2 => by omega⟩⟩, fun x => by simp⟩ (by simp) (by simp)).1
            have hfin : d1.lookup k = some (setVrfAutoId v n rd) :=
              setVrfIds_done _ _ r h k _ (by simp only [lookup_setKey, if_true]) (vrfDone_auto _ _ _)
            have hfree : IdVal.i n ∉ X ∧ IdVal.s (mkRd a n) ∉ Y := by
              refine hx k _ hfin hg a n rfl ?_
              subst hrd
              unfold setVrfAutoId
              cases hi : v.id with
              | none => exact .inl rfl
              | some i =>
                cases hd : v.rd with
                | missing => exact .inr rfl
                | null => simp [vrfNeedsId, hi, hd] at hn
                | num m => simp [vrfNeedsId, hi, hd] at hn
                | str m => simp [vrfNeedsId, hi, hd] at hn
            obtain ⟨-, s1', g1, g2⟩ := getNextVrfId_ext s s1 hq s' he hfree.1 hfree.2
            obtain ⟨t', i1, i2⟩ := ih g2 h (by rw [hkeys]; exact hr)
            refine ⟨t', fun ks' => ?_, i2⟩
            rw [List.cons_append]
            simp only [setVrfIds, hap, hn, if_true, hg, g1, hset]
            exact i1 ks'
    · rw [if_neg hn] at h
      obtain ⟨t', i1, i2⟩ := ih he h hr
      refine ⟨t', fun ks' => ?_, i2⟩
      rw [List.cons_append]
      simp only [setVrfIds, hap, if_neg hn]
      exact i1 ks'

theorem setVrfIds_other (glob : Option VrfDict) (asn : Option Int) (ks : List String) {d d' : VrfDict} {s s' : VrfSets} {e : Nat}
    (h : setVrfIds glob asn d s ks = .ok (d', s', e)) (w : String) (hw : w ∉ ks) : d'.lookup w = d.lookup w := by
  induction ks generalizing d s e with
  | nil =>
    cases h
    rfl
  | cons k r ih =>
    have hne : w ≠ k := fun he => hw (by rw [he]; exact List.mem_cons_self)
    have hwr : w ∉ r := fun hm => hw (List.mem_cons_of_mem _ hm)
    simp only [setVrfIds] at h
    split at h
    · exact ih h hwr
    · split at h
      · split at h
        · rw [ih h hwr, lookup_setKey, if_neg hne]
        · split at h
          · cases h; rfl
          · split at h
            · cases h
            · rw [ih h hwr, lookup_setKey, if_neg hne]
      · exact ih h hwr

theorem nodeVrfIds_ext {X Y : List IdVal} (t t' : VrfTopo) (hasn : ∀ a b, getRdAs a b t' = getRdAs a b t) (glob : Option VrfDict) (nodes more : List (String × VrfNode))
    {ns ns' : List (String × VrfNode)} {s s' w w' : VrfSets} {e' : Nat} (he : VrfSetsExt X Y s s')
    (h : nodeVrfIds t glob s nodes = .ok (ns, w, 0)) (h' : nodeVrfIds t' glob s' (nodes ++ more) = .ok (ns', w', e'))
    (hx : ∀ n ∈ ns, ∀ k v, n.2.vrfs.lookup k = some v → glob.bind (·.lookup k) = none → VrfFree (getRdAs n.2.bgpAs n.2.vrfAs t) X Y v) :
    ∃ rest, ns' = ns ++ rest := by
  induction nodes generalizing s s' ns ns' w w' e' with
  | nil =>
    cases h
    exact ⟨ns', rfl⟩
  | cons n r ih =>
    obtain ⟨nm, nd⟩ := n
    simp only [List.cons_append, nodeVrfIds] at h h'
    cases h1 : setVrfIds glob (getRdAs nd.bgpAs nd.vrfAs t) (pullVrfs nd.vrfs nd.vlanVrfs) s ((pullVrfs nd.vrfs nd.vlanVrfs).map (·.1)) with
    | error x => rw [h1] at h; cases h
    | ok p =>
      obtain ⟨d2, s1, e1⟩ := p
      rw [h1] at h
      dsimp only at h
      cases h2 : nodeVrfIds t glob s1 r with
      | error x => rw [h2] at h; cases h
      | ok q =>
        obtain ⟨r1, s2, e2⟩ := q
        rw [h2] at h
        simp only [Except.ok.injEq, Prod.mk.injEq] at h
        obtain ⟨rfl, rfl, hz⟩ := h
        obtain ⟨rfl, rfl⟩ : e1 = 0 ∧ e2 = 0 := by omega
        obtain ⟨s1', k1, k2⟩ := setVrfIds_ext glob _ _ [] he h1 (fun k hk => hk) (hx _ List.mem_cons_self)
        have k3 := k1 []
        simp only [List.append_nil, setVrfIds] at k3
        rw [hasn, k3] at h'
        dsimp only at h'
        cases h3 : nodeVrfIds t' glob s1' (r ++ more) with
        | error x => rw [h3] at h'; cases h'
        | ok q =>
          obtain ⟨r2, s3, e3⟩ := q
          rw [h3] at h'
          cases h'
          obtain ⟨rest, hr⟩ := ih k2 h2 h3 (fun n hn => hx n (List.mem_cons_of_mem _ hn))
          exact ⟨rest, by rw [hr]; rfl⟩

theorem normalizeVrfs_append (okRd : String → Bool) (asn : Option Int) (a b : VrfDict) (h : (normalizeVrfs okRd asn a).2 = 0) :
    (normalizeVrfs okRd asn (a ++ b)).1 = (normalizeVrfs okRd asn a).1 ++ (normalizeVrfs okRd asn b).1 := by
  induction a with
  | nil => rfl
  | cons x r ih =>
    obtain ⟨k, v⟩ := x
    simp only [List.cons_append, normalizeVrfs] at h ⊢
    split at h
    · cases asn with
      | none => exact absurd (show (1 : Nat) = 0 from h) (by decide)
      | some a =>
        dsimp only at h ⊢
        rw [ih h]
        rfl
    · dsimp only at h ⊢
      rw [ih (by split at h <;> omega)]
      rfl
    · dsimp only at h ⊢
      rw [ih h]
      rfl

theorem nodeVrfIds_names (t : VrfTopo) (glob : Option VrfDict) (nodes : List (String × VrfNode)) {ns : List (String × VrfNode)} {s w : VrfSets} {e : Nat}
    (h : nodeVrfIds t glob s nodes = .ok (ns, w, e)) :
    ns.map (fun n => (n.1, n.2.bgpAs, n.2.vrfAs)) = nodes.map (fun n => (n.1, n.2.bgpAs, n.2.vrfAs)) := by
  induction nodes generalizing s ns w e with
  | nil =>
    cases h
    rfl
  | cons n r ih =>
    obtain ⟨nm, nd⟩ := n
    simp only [nodeVrfIds] at h
    split at h
    · cases h
    · split at h
      · cases h
      · rename_i h2
        cases h
        simp only [List.map_cons, ih h2]

theorem populateVrfSets_mem (s : VrfSets) (g : VrfDict) (nodes : List (String × VrfNode)) :
    (populateVrfSets s g nodes).ids.next = s.ids.next ∧ (populateVrfSets s g nodes).ids.max = s.ids.max ∧
    (∀ x, x ∈ (populateVrfSets s g nodes).ids.value ↔ x ∈ s.ids.value ∨ x ∈ vrfIds g ∨ x ∈ nodes.flatMap (fun n => vrfIds n.2.vrfs)) ∧
    (∀ x, x ∈ (populateVrfSets s g nodes).rds.value ↔ x ∈ s.rds.value ∨ x ∈ vrfRds g ∨ x ∈ nodes.flatMap (fun n => vrfRds n.2.vrfs)) := by
  unfold populateVrfSets
  suffices hs : ∀ (l : List (String × VrfNode)) (u : VrfSets),
      (l.foldl (fun s n => ({ ids := s.ids.extend (vrfIds n.2.vrfs), rds := s.rds.extend (vrfRds n.2.vrfs) } : VrfSets)) u).ids.next = u.ids.next ∧
      (l.foldl (fun s n => ({ ids := s.ids.extend (vrfIds n.2.vrfs), rds := s.rds.extend (vrfRds n.2.vrfs) } : VrfSets)) u).ids.max = u.ids.max ∧
      (∀ x, x ∈ (l.foldl (fun s n => ({ ids := s.ids.extend (vrfIds n.2.vrfs), rds := s.rds.extend (vrfRds n.2.vrfs) } : VrfSets)) u).ids.value ↔
        x ∈ u.ids.value ∨ x ∈ l.flatMap (fun n => vrfIds n.2.vrfs)) ∧
      (∀ x, x ∈ (l.foldl (fun s n => ({ ids := s.ids.extend (vrfIds n.2.vrfs), rds := s.rds.extend (vrfRds n.2.vrfs) } : VrfSets)) u).rds.value ↔
        x ∈ u.rds.value ∨ x ∈ l.flatMap (fun n => vrfRds n.2.vrfs)) by
    obtain ⟨a, b, c, d⟩ := hs nodes { ids := s.ids.extend (vrfIds g), rds := s.rds.extend (vrfRds g) }
    refine ⟨a, b, fun x => ?_, fun x => ?_⟩
    · rw [c]
      simp only [IdVar.extend, List.mem_append]
      tauto
    · rw [d]
      simp only [IdVar.extend, List.mem_append]
      tauto
  intro l
  induction l with
  | nil => intro u; simp
  | cons n r ih =>
    intro u
    obtain ⟨a, b, c, d⟩ := ih { ids := u.ids.extend (vrfIds n.2.vrfs), rds := u.rds.extend (vrfRds n.2.vrfs) }
    refine ⟨a, b, fun x => ?_, fun x => ?_⟩
    · rw [List.foldl_cons, c, List.flatMap_cons, List.mem_append]
      simp only [IdVar.extend, List.mem_append]
      tauto
    · rw [List.foldl_cons, d, List.flatMap_cons, List.mem_append]
      simp only [IdVar.extend, List.mem_append]
      tauto

theorem normalizeVrfs_ids (okRd : String → Bool) (asn : Option Int) (d : VrfDict) : vrfIds (normalizeVrfs okRd asn d).1 = vrfIds d := by
  induction d with
  | nil => rfl
  | cons x r ih =>
    obtain ⟨k, v⟩ := x
    unfold vrfIds at ih ⊢
    simp only [normalizeVrfs]
    split
    · cases asn with
      | none => rfl
      | some a => simp only [List.filterMap_cons]; rw [ih]
    · simp only [List.filterMap_cons]; rw [ih]
    · simp only [List.filterMap_cons]; rw [ih]

theorem normalizeVrfs_keys (okRd : String → Bool) (asn : Option Int) (d : VrfDict) : (normalizeVrfs okRd asn d).1.map (·.1) = d.map (·.1) := by
  induction d with
  | nil => rfl
  | cons x r ih =>
    obtain ⟨k, v⟩ := x
    simp only [normalizeVrfs]
    split
    · cases asn with
      | none => rfl
      | some a => simp only [List.map_cons]; rw [ih]
    · simp only [List.map_cons]; rw [ih]
    · simp only [List.map_cons]; rw [ih]

theorem mem_vrfIds {d : VrfDict} {n : Int} : IdVal.i n ∈ vrfIds d ↔ ∃ w ∈ d, w.2.id = some n := by
  unfold vrfIds
  simp only [List.mem_filterMap, Option.map_eq_some_iff, IdVal.i.injEq]
  constructor
  · rintro ⟨w, hw, x, hx, rfl⟩; exact ⟨w, hw, hx⟩
  · rintro ⟨w, hw, hx⟩; exact ⟨w, hw, n, hx, rfl⟩

theorem mem_vrfRds {d : VrfDict} {s : String} : IdVal.s s ∈ vrfRds d ↔ ∃ w ∈ d, w.2.rd = .str s := by
  unfold vrfRds
  simp only [List.mem_filterMap]
  constructor
  · rintro ⟨w, hw, hx⟩
    refine ⟨w, hw, ?_⟩
    split at hx <;> simp_all
  · rintro ⟨w, hw, hx⟩
    exact ⟨w, hw, by rw [hx]⟩

theorem mem_normalizeVrfs_rd (okRd : String → Bool) (asn : Option Int) (d : VrfDict) {s : String} (h : IdVal.s s ∈ vrfRds (normalizeVrfs okRd asn d).1) :
    ∃ w ∈ d, staticRd asn w.2 = some s := by
  rw [mem_vrfRds] at h
  induction d with
  | nil => obtain ⟨w, hw, -⟩ := h; cases hw
  | cons x r ih =>
    obtain ⟨k, v⟩ := x
    have tl : (∃ w ∈ (normalizeVrfs okRd asn r).1, w.2.rd = .str s) → ∃ w ∈ (k, v) :: r, staticRd asn w.2 = some s := by
      intro hh
      obtain ⟨w, hw, he⟩ := ih hh
      exact ⟨w, List.mem_cons_of_mem _ hw, he⟩
    obtain ⟨w, hw, he⟩ := h
    simp only [normalizeVrfs] at hw
    split at hw
    · rename_i m hm
      cases asn with
      | none =>
        dsimp only at hw
        refine ⟨w, hw, ?_⟩
        simp only [staticRd, he]
      | some a =>
        dsimp only at hw
        rcases List.mem_cons.1 hw with rfl | hw
        · refine ⟨(k, v), List.mem_cons_self, ?_⟩
          simp only [staticRd, hm, Option.map_some]
          exact congrArg some (RdAttr.str.inj he)
        · exact tl ⟨w, hw, he⟩
    · rename_i m hm
      dsimp only at hw
      rcases List.mem_cons.1 hw with rfl | hw
      · exact ⟨(k, v), List.mem_cons_self, by simp only [staticRd]; rw [show v.rd = _ from he]⟩
      · exact tl ⟨w, hw, he⟩
    · dsimp only at hw
      rcases List.mem_cons.1 hw with rfl | hw
      · exact absurd he (by rename_i h2; exact h2 s)
      · exact tl ⟨w, hw, he⟩

/-- The node after normalization of its VRFs -/
def normNode (okRd : String → Bool) (t : VrfTopo) (n : String × VrfNode) : String × VrfNode :=
  (n.1, { n.2 with vrfs := (normalizeVrfs okRd (getRdAs n.2.bgpAs n.2.vrfAs t) n.2.vrfs).1 })

theorem normalizeAll_some (okRd : String → Bool) (t : VrfTopo) (g : VrfDict) (hg : t.vrfs = some g) :
    (normalizeAll okRd t).1 = { t with vrfs := some (normalizeVrfs okRd (getRdAs t.bgpAs t.vrfAs t) g).1, nodes := t.nodes.map (normNode okRd t) } ∧
    (normalizeVrfs okRd (getRdAs t.bgpAs t.vrfAs t) g).2 ≤ (normalizeAll okRd t).2 := by
  refine ⟨?_, ?_⟩
  · simp only [normalizeAll, hg, List.map_map, Option.map_some]
    rfl
  · simp only [normalizeAll, hg, Option.map_some, Option.getD_some]
    omega

theorem getRdAs_same (t : VrfTopo) (v : Option VrfDict) (ns : List (String × VrfNode)) (a b : Option Int) : getRdAs a b { t with vrfs := v, nodes := ns } = getRdAs a b t := rfl

theorem normNode_same (okRd : String → Bool) (t : VrfTopo) (v : Option VrfDict) (ns : List (String × VrfNode)) : normNode okRd { t with vrfs := v, nodes := ns } = normNode okRd t := rfl

/-- **C119**: VRFs added at the end of the dictionary of global VRFs, and nodes added to the lab, don't change identifiers, route distinguishers and other attributes of existing
global VRFs unless they use one of their numbers; nodes added to the lab don't change VRFs of existing nodes. -/
theorem C119_vrfs (okRd : String → Bool) (t : VrfTopo) (g more : VrfDict) (moreNodes : List (String × VrfNode)) (out out' : VrfTopo) (s s' : VrfSets) (e' : Nat)
    (hg : t.vrfs = some g) (h : vrfIdTransform okRd t = .ok (out, s, 0))
    (h' : vrfIdTransform okRd { t with vrfs := some (g ++ more), nodes := t.nodes ++ moreNodes } = .ok (out', s', e'))
    (hn : ((g ++ more).map (·.1)).Nodup) (hnn : (t.nodes.map (·.1)).Nodup) (hnew : NewNumbers t out more moreNodes) :
    (∀ w ∈ g.map (·.1), vrfAt out' (none, w) = vrfAt out (none, w)) ∧ (more = [] → ∃ rest, out'.nodes = out.nodes ++ rest) := by
  obtain ⟨n1, n2⟩ := normalizeAll_some okRd t g hg
  obtain ⟨m1, m2⟩ := normalizeAll_some okRd { t with vrfs := some (g ++ more), nodes := t.nodes ++ moreNodes } (g ++ more) rfl
  unfold vrfIdTransform at h h'
  generalize normalizeAll okRd t = N at h n1 n2
  generalize normalizeAll okRd { t with vrfs := some (g ++ more), nodes := t.nodes ++ moreNodes } = N' at h' m1 m2
  obtain ⟨T, e0⟩ := N
  obtain ⟨T', e0'⟩ := N'
  dsimp only at n1 n2 m1 m2
  subst n1 m1
  dsimp only at h h'
  rw [normNode_same, List.map_append] at h'
  simp only [getRdAs_same] at h h'
  generalize hA : getRdAs t.bgpAs t.vrfAs t = A at *
  generalize hG : normalizeVrfs okRd A g = G at *
  cases h1 : setVrfIds none A G.1 (populateVrfSets initVrfSets G.1 (t.nodes.map (normNode okRd t))) (G.1.map (·.1)) with
  | error x => rw [h1] at h; cases h
  | ok p =>
    obtain ⟨g1, s1, e1⟩ := p
    rw [h1] at h
    dsimp only at h
    cases h2 : nodeVrfIds { t with vrfs := some G.1, nodes := t.nodes.map (normNode okRd t) } (some g1) s1 (t.nodes.map (normNode okRd t)) with
    | error x => rw [h2] at h; cases h
    | ok q =>
      obtain ⟨ns, s2, e2⟩ := q
      rw [h2] at h
      simp only [Except.ok.injEq, Prod.mk.injEq] at h
      obtain ⟨rfl, rfl, hz⟩ := h
      obtain ⟨rfl, rfl, rfl⟩ : e0 = 0 ∧ e1 = 0 ∧ e2 = 0 := by omega
      have hG0 : G.2 = 0 := by omega
      have hNM : (normalizeVrfs okRd A (g ++ more)).1 = G.1 ++ (normalizeVrfs okRd A more).1 := by
        rw [normalizeVrfs_append okRd A g more (by rw [hG]; exact hG0), hG]
      rw [hNM] at h'
      generalize hM : normalizeVrfs okRd A more = M at *
      have hfree : ∀ p v, vrfAt { t with vrfs := some g1, nodes := ns } p = some v →
          VrfFree (vrfAsn t p) (vrfIds M.1 ++ (moreNodes.map (normNode okRd t)).flatMap (fun n => vrfIds n.2.vrfs))
            (vrfRds M.1 ++ (moreNodes.map (normNode okRd t)).flatMap (fun n => vrfRds n.2.vrfs)) v := by
        intro p v hv a n ha hu
        obtain ⟨k1, k2⟩ := hnew p v a n hv ha hu
        have hx : ∀ x ∈ moreNodes, ∀ w, vrfAsn { t with nodes := [x] } (some x.1, w) = getRdAs x.2.bgpAs x.2.vrfAs t := by
          intro x _ w
          rw [vrfAsn_node (nd := x.2) (by simp [List.lookup])]
          rfl
        refine ⟨?_, ?_⟩
        · intro hm
          rcases List.mem_append.1 hm with hm | hm
          · rw [← hM, normalizeVrfs_ids, mem_vrfIds] at hm
            obtain ⟨w, hw, hi⟩ := hm
            exact (k1 w hw).1 hi
          · rw [List.flatMap_map] at hm
            obtain ⟨x, hxm, hm⟩ := List.mem_flatMap.1 hm
            unfold normNode at hm
            dsimp only at hm
            rw [normalizeVrfs_ids, mem_vrfIds] at hm
            obtain ⟨w, hw, hi⟩ := hm
            exact (k2 x hxm w hw).1 hi
        · intro hm
          rcases List.mem_append.1 hm with hm | hm
          · rw [← hM] at hm
            obtain ⟨w, hw, hi⟩ := mem_normalizeVrfs_rd _ _ _ hm
            have := (k1 w hw).2
            rw [vrfAsn_global, hA] at this
            exact this hi
          · rw [List.flatMap_map] at hm
            obtain ⟨x, hxm, hm⟩ := List.mem_flatMap.1 hm
            obtain ⟨w, hw, hi⟩ := mem_normalizeVrfs_rd _ _ _ hm
            have := (k2 x hxm w hw).2
            rw [hx x hxm] at this
            exact this hi
      have hext : VrfSetsExt (vrfIds M.1 ++ (moreNodes.map (normNode okRd t)).flatMap (fun n => vrfIds n.2.vrfs))
          (vrfRds M.1 ++ (moreNodes.map (normNode okRd t)).flatMap (fun n => vrfRds n.2.vrfs))
          (populateVrfSets initVrfSets G.1 (t.nodes.map (normNode okRd t)))
          (populateVrfSets initVrfSets (G.1 ++ M.1) (t.nodes.map (normNode okRd t) ++ moreNodes.map (normNode okRd t))) := by
        obtain ⟨a1, a2, a3, a4⟩ := populateVrfSets_mem initVrfSets G.1 (t.nodes.map (normNode okRd t))
        obtain ⟨b1, b2, b3, b4⟩ := populateVrfSets_mem initVrfSets (G.1 ++ M.1) (t.nodes.map (normNode okRd t) ++ moreNodes.map (normNode okRd t))
        refine ⟨⟨b2.trans a2.symm, ?_, 1, 1, a1, b1, Int.le_refl _, by rw [a2]; decide, fun k _ _ => by omega⟩, ?_⟩
        · intro x
          rw [a3, b3]
          simp only [vrfIds, List.filterMap_append, List.flatMap_append, List.mem_append]
          tauto
        · intro x
          rw [a4, b4]
          simp only [vrfRds, List.filterMap_append, List.flatMap_append, List.mem_append]
          tauto
      obtain ⟨w1, k1, k2⟩ := setVrfIds_ext none A _ M.1 hext h1 (fun k hk => hk) (by
        intro k v hk _
        rw [← hA, ← vrfAsn_global t k]
        exact hfree (none, k) v hk)
      rw [List.map_append, k1] at h'
      cases h3 : setVrfIds none A (g1 ++ M.1) w1 (M.1.map (·.1)) with
      | error x => rw [h3] at h'; cases h'
      | ok p =>
        obtain ⟨g1', s1', e1'⟩ := p
        rw [h3] at h'
        dsimp only at h'
        cases h4 : nodeVrfIds { t with vrfs := some (G.1 ++ M.1), nodes := t.nodes.map (normNode okRd t) ++ moreNodes.map (normNode okRd t) } (some g1') s1'
            (t.nodes.map (normNode okRd t) ++ moreNodes.map (normNode okRd t)) with
        | error x => rw [h4] at h'; cases h'
        | ok q =>
          obtain ⟨ns', s3, e3⟩ := q
          rw [h4] at h'
          cases h'
          refine ⟨?_, ?_⟩
          · intro x hx
            simp only [vrfAt, Option.bind_some]
            have hMk : M.1.map (·.1) = more.map (·.1) := by rw [← hM]; exact normalizeVrfs_keys _ _ _
            have hxm : x ∉ M.1.map (·.1) := by
              rw [hMk]
              rw [List.map_append] at hn
              exact fun hm => (List.nodup_append.1 hn).2.2 x hx x hm rfl
            rw [setVrfIds_other _ _ _ h3 x hxm, List.lookup_append, lookup_eq_none_iff.2 hxm, Option.or_none]
          · rintro rfl
            have hMe : M = ([], 0) := by rw [← hM]; rfl
            subst hMe
            simp only [List.map_nil, setVrfIds, Except.ok.injEq, Prod.mk.injEq, List.append_nil] at h3
            obtain ⟨rfl, rfl, -⟩ := h3
            refine nodeVrfIds_ext _ _ ?_ (some g1) _ _ k2 h2 h4 ?_
            · intro _ _
              rfl
            intro n hn k v hv _
            have hnames := nodeVrfIds_names _ _ _ h2
            rw [List.map_map] at hnames
            have hmem : (n.1, n.2.bgpAs, n.2.vrfAs) ∈ ns.map (fun n => (n.1, n.2.bgpAs, n.2.vrfAs)) := List.mem_map.2 ⟨n, hn, rfl⟩
            rw [hnames] at hmem
            obtain ⟨nd, hnd, hq⟩ := List.mem_map.1 hmem
            have hq : nd.1 = n.1 ∧ nd.2.bgpAs = n.2.bgpAs ∧ nd.2.vrfAs = n.2.vrfAs := by
              simp only [Function.comp, normNode, Prod.mk.injEq] at hq
              exact hq
            have hl : t.nodes.lookup n.1 = some nd.2 := by
              rw [← hq.1]
              exact lookup_of_mem hnn hnd
            have hnsn : (ns.map (·.1)).Nodup := by
              have : ns.map (·.1) = t.nodes.map (·.1) := by
                have := congrArg (List.map Prod.fst) hnames
                simp only [List.map_map] at this
                exact this
              rw [this]
              exact hnn
            have := hfree (some n.1, k) v (by
              simp only [vrfAt]
              rw [lookup_of_mem hnsn (show (n.1, n.2) ∈ ns from hn)]
              exact hv)
            rw [vrfAsn_node hl, hq.2.1, hq.2.2] at this
            exact this


/-- **C119**: without global VRFs, nodes added to the lab never change VRFs of existing nodes. -/
theorem C119_node_vrfs (okRd : String → Bool) (t : VrfTopo) (moreNodes : List (String × VrfNode)) (out out' : VrfTopo) (s s' : VrfSets) (e' : Nat)
    (hg : t.vrfs = none) (h : vrfIdTransform okRd t = .ok (out, s, 0))
    (h' : vrfIdTransform okRd { t with nodes := t.nodes ++ moreNodes } = .ok (out', s', e')) : ∃ rest, out'.nodes = out.nodes ++ rest := by
  have n1 : (normalizeAll okRd t).1 = { t with vrfs := none, nodes := t.nodes.map (normNode okRd t) } := by
    simp only [normalizeAll, hg, List.map_map, Option.map_none]
    rfl
  have m1 : (normalizeAll okRd { t with nodes := t.nodes ++ moreNodes }).1 =
      { t with vrfs := none, nodes := t.nodes.map (normNode okRd t) ++ moreNodes.map (normNode okRd t) } := by
    simp only [normalizeAll, hg, List.map_map, Option.map_none, List.map_append]
    rfl
  unfold vrfIdTransform at h h'
  generalize normalizeAll okRd t = N at h n1
  generalize normalizeAll okRd { t with nodes := t.nodes ++ moreNodes } = N' at h' m1
  obtain ⟨T, e0⟩ := N
  obtain ⟨T', e0'⟩ := N'
  dsimp only at n1 m1
  subst n1 m1
  dsimp only at h h'
  cases h1 : nodeVrfIds { t with vrfs := none, nodes := t.nodes.map (normNode okRd t) } none initVrfSets (t.nodes.map (normNode okRd t)) with
  | error x => rw [h1] at h; cases h
  | ok p =>
    obtain ⟨ns, s1, e1⟩ := p
    rw [h1] at h
    simp only [Except.ok.injEq, Prod.mk.injEq] at h
    obtain ⟨rfl, rfl, hz⟩ := h
    obtain ⟨rfl, rfl⟩ : e0 = 0 ∧ e1 = 0 := by omega
    cases h2 : nodeVrfIds { t with vrfs := none, nodes := t.nodes.map (normNode okRd t) ++ moreNodes.map (normNode okRd t) } none initVrfSets
        (t.nodes.map (normNode okRd t) ++ moreNodes.map (normNode okRd t)) with
    | error x => rw [h2] at h'; cases h'
    | ok p =>
      obtain ⟨ns', s2, e2⟩ := p
      rw [h2] at h'
      cases h'
      refine nodeVrfIds_ext (X := []) (Y := []) _ _ ?_ none _ _ ⟨⟨rfl, fun x => by simp, 1, 1, rfl, rfl, Int.le_refl _, by decide, fun k _ _ => by omega⟩,
        fun x => by simp⟩ h1 h2 ?_
      · intro _ _
        rfl
      intro n _ k v _ _ a i _ _
      exact ⟨by simp, by simp⟩

/-! ### Examples and defects -/

namespace StabilityVrfExample

def okRd (_ : String) : Bool := true

def base : VrfTopo := { bgpAs := some 65000, vrfs := some [("red", {}), ("blue", { id := some 7, rd := .num 1 })], nodes := [("a", { vrfs := [("red", {}), ("local", {})] })] }

def more : VrfDict := [("green", { id := some 5, rd := .str "65000:9" })]

def moreAuto : VrfDict := [("green", {})]

def moreNodes : List (String × VrfNode) := [("b", { bgpAs := some 65001, vrfs := [("blue", {}), ("other", { id := some 9, rd := .num 2 })] })]

def idsOf (d : VrfDict) : List (String × Option Int × Option String) := d.map (fun v => (v.1, v.2.id, rdStr v.2))

def globalIds (r : Except Fatal (VrfTopo × VrfSets × Nat)) : Option (List (String × Option Int × Option String)) :=
  match r with | .ok (o, _, 0) => some (idsOf (o.vrfs.getD [])) | _ => none

def nodeIds (r : Except Fatal (VrfTopo × VrfSets × Nat)) : Option (List (List (String × Option Int × Option String))) :=
  match r with | .ok (o, _, 0) => some (o.nodes.map (fun n => idsOf n.2.vrfs)) | _ => none

def large : VrfTopo := { base with vrfs := base.vrfs.map (· ++ more), nodes := base.nodes ++ moreNodes }

/-- Identifiers of the lab, and of the lab with an added VRF and an added node -/
example : globalIds (vrfIdTransform okRd base) = some [("red", some 2, some "65000:2"), ("blue", some 7, some "65000:1")] ∧
    nodeIds (vrfIdTransform okRd base) = some [[("red", some 2, some "65000:2"), ("local", some 3, some "65000:3")]] := by
  constructor <;> decide +kernel

example : globalIds (vrfIdTransform okRd large) = some [("red", some 2, some "65000:2"), ("blue", some 7, some "65000:1"), ("green", some 5, some "65000:9")] ∧
    nodeIds (vrfIdTransform okRd large) =
      some [[("red", some 2, some "65000:2"), ("local", some 3, some "65000:3")], [("blue", some 7, some "65000:1"), ("other", some 9, some "65001:2")]] := by
  constructor <;> decide +kernel

/-- The added VRF does not use numbers of existing VRFs. -/
example : LeavesNumber (some 65000) 65000 2 { id := some 5, rd := .str "65000:9" } := by
  unfold LeavesNumber
  decide +kernel

end StabilityVrfExample

open StabilityVrfExample in
/-- C119 defect: a new global VRF without an identifier changes the identifier of an existing node VRF. -/
theorem C119_global_vrf_shifts :
    globalIds (vrfIdTransform okRd { base with vrfs := base.vrfs.map (· ++ moreAuto) }) =
      some [("red", some 2, some "65000:2"), ("blue", some 7, some "65000:1"), ("green", some 3, some "65000:3")] ∧
    nodeIds (vrfIdTransform okRd { base with vrfs := base.vrfs.map (· ++ moreAuto) }) =
      some [[("red", some 2, some "65000:2"), ("local", some 4, some "65000:4")]] := by
  constructor <;> decide +kernel

end Netlab
