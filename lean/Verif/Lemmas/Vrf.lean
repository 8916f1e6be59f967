import Verif.Lemmas.Scoped
import Verif.Lemmas.Vlan
import Verif.Spec.Vrf
/-!
# Lemmas for C21
-/

namespace Netlab
open Spec

/-- set of strings in an identifier set -/
def UsedStr (v : IdVar) (s : String) : Prop := IdVal.s s ∈ v.value

theorem getNextVrfId_spec {asn n : Int} {rd : String} (s s' : VrfSets)
    (hc : CounterOk 1 4095 s.ids) (h : getNextVrfId asn s = .ok (n, rd, s')) :
    ¬ UsedInt s.ids n ∧ (1 ≤ n ∧ n ≤ 4095) ∧ rd = mkRd asn n ∧ ¬ UsedStr s.rds rd ∧
      (∀ x, UsedInt s.ids x ∨ x = n → UsedInt s'.ids x) ∧
      (∀ x, UsedStr s.rds x ∨ x = rd → UsedStr s'.rds x) ∧ CounterOk 1 4095 s'.ids := by
  induction s using getNextVrfId.induct (asn := asn) with
  | case1 s e he =>
    rw [getNextVrfId] at h
    split at h
    · cases h
    · rename_i h2; rw [he] at h2; cases h2
  | case2 s m ids' hn hu ih =>
    rw [getNextVrfId] at h
    obtain ⟨a1, a2, a3, a4, a5⟩ := getNext_counter hc hn
    split at h
    · cases h
    · rename_i m' ids'' h2
      rw [hn] at h2
      cases h2
      rw [if_pos hu] at h
      obtain ⟨b1, b2, b3, b4, b5, b6, b7⟩ := ih a5 h
      refine ⟨?_, b2, b3, b4, ?_, b6, b7⟩
      · intro hx
        exact b1 (by unfold UsedInt at hx ⊢; simp only; rw [a4]; exact List.mem_cons_of_mem _ hx)
      · intro x hx
        apply b5
        rcases hx with hx | hx
        · left
          unfold UsedInt at hx ⊢; simp only; rw [a4]; exact List.mem_cons_of_mem _ hx
        · exact .inr hx
  | case3 s m ids' hn hu =>
    rw [getNextVrfId] at h
    obtain ⟨a1, a2, a3, a4, a5⟩ := getNext_counter hc hn
    split at h
    · cases h
    · rename_i m' ids'' h2
      rw [hn] at h2
      cases h2
      rw [if_neg hu] at h
      simp only [Except.ok.injEq, Prod.mk.injEq] at h
      obtain ⟨rfl, rfl, rfl⟩ := h
      refine ⟨a1, ⟨a2, a3 (by decide)⟩, rfl, ?_, ?_, ?_, a5⟩
      · intro hx
        exact hu (by simpa [IdVar.isUsed, UsedStr] using hx)
      · intro x hx
        unfold UsedInt at hx ⊢
        simp only [a4, List.mem_cons, IdVal.i.injEq]
        exact hx.elim .inr .inl
      · intro x hx
        unfold UsedStr at hx ⊢
        simp only [IdVar.extend, List.mem_append, List.mem_cons, reduceCtorEq, IdVal.s.injEq,
          false_or, List.not_mem_nil, or_false]
        exact hx.elim .inr .inl

/-- ignored names of a node -/
def globName (glob : Option VrfDict) (k : String) : Bool := (glob.bind (·.lookup k)).isSome

/-- VRF has an identifier and an RD attribute -/
def VrfDone (v : Vrf) : Prop := v.id ≠ none ∧ v.rd ≠ .missing

/-- What identifier assignment does to a dictionary -/
structure VrfUpd (glob : Option VrfDict) (asn : Option Int) (d : VrfDict) (s : VrfSets) (d' : VrfDict)
    (s' : VrfSets) : Prop where
  idA : Assigns (fun k => 1 ≤ k ∧ k ≤ 4095)
    (fun v => if globName glob v then none else (d.lookup v).bind (·.id)) (UsedInt s.ids)
    (fun v => if globName glob v then none else (d'.lookup v).bind (·.id)) (UsedInt s'.ids)
  rdA : Assigns (fun _ => True)
    (fun v => if globName glob v then none else (d.lookup v).bind rdStr) (UsedStr s.rds)
    (fun v => if globName glob v then none else (d'.lookup v).bind rdStr) (UsedStr s'.rds)
  counter : CounterOk 1 4095 s'.ids
  same : ∀ w, (d'.lookup w).isSome = (d.lookup w).isSome
  copy : ∀ w v v', d.lookup w = some v → d'.lookup w = some v' → v' = v ∨
    (∃ g, glob.bind (·.lookup w) = some g ∧ v'.id = g.id ∧ v'.rd = g.rd) ∨
    globName glob w = false
  rdkept : ∀ w v v', globName glob w = false → d.lookup w = some v → d'.lookup w = some v' →
    v.rd ≠ .missing → v'.rd = v.rd
  rts : ∀ w v v', d.lookup w = some v → d'.lookup w = some v' → v'.imp = v.imp ∧ v'.exp = v.exp
  donekept : ∀ w v, d.lookup w = some v → VrfDone v → d'.lookup w = some v
  auto : ∀ w v v', globName glob w = false → d.lookup w = some v → d'.lookup w = some v' →
    v' = v ∨ ∃ a n, asn = some a ∧ (1 ≤ n ∧ n ≤ 4095) ∧ v' = setVrfAutoId v n (mkRd a n)

theorem VrfUpd.refl {glob : Option VrfDict} {asn : Option Int} {d : VrfDict} {s : VrfSets}
    (hc : CounterOk 1 4095 s.ids) : VrfUpd glob asn d s d s :=
  ⟨.refl, .refl, hc, fun _ => rfl,
    fun w v v' h1 h2 => by rw [h1] at h2; cases h2; exact .inl rfl,
    fun w v v' _ h1 h2 _ => by rw [h1] at h2; cases h2; rfl,
    fun w v v' h1 h2 => by rw [h1] at h2; cases h2; exact ⟨rfl, rfl⟩, fun _ _ h _ => h,
    fun w v v' _ h1 h2 => by rw [h1] at h2; cases h2; exact .inl rfl⟩

theorem vrfDone_auto (v : Vrf) (n : Int) (rd : String) : VrfDone (setVrfAutoId v n rd) := by
  constructor
  · simp only [setVrfAutoId]
    cases v.id <;> simp
  · simp only [setVrfAutoId]
    cases v.rd <;> simp

theorem VrfUpd.trans {glob : Option VrfDict} {asn : Option Int} {d d1 d2 : VrfDict} {s s1 s2 : VrfSets}
    (h1 : VrfUpd glob asn d s d1 s1) (h2 : VrfUpd glob asn d1 s1 d2 s2) : VrfUpd glob asn d s d2 s2 := by
  have mid : ∀ w v, d.lookup w = some v → ∃ x, d1.lookup w = some x := by
    intro w v hv
    have := h1.same w
    rw [hv] at this
    exact Option.isSome_iff_exists.1 this
  refine ⟨h1.idA.trans h2.idA, h1.rdA.trans h2.rdA, h2.counter,
    fun w => by rw [h2.same, h1.same], ?_, ?_, ?_,
    fun w v hv hd => h2.donekept w v (h1.donekept w v hv hd) hd, ?_⟩
  rotate_left 3
  · intro w v v' hg hv hv'
    obtain ⟨x, hx⟩ := mid w v hv
    rcases h1.auto w v x hg hv hx with rfl | ⟨a, n, e1, e2, e3⟩
    · exact h2.auto w x v' hg hx hv'
    · have := h2.donekept w x hx (by rw [e3]; exact vrfDone_auto _ _ _)
      rw [hv'] at this
      cases this
      exact .inr ⟨a, n, e1, e2, e3⟩
  · intro w v v' hv hv'
    obtain ⟨x, hx⟩ := mid w v hv
    rcases h2.copy w x v' hx hv' with e | e | e
    · subst e
      exact h1.copy w v v' hv hx
    · exact .inr (.inl e)
    · exact .inr (.inr e)
  · intro w v v' hg hv hv' hr
    obtain ⟨x, hx⟩ := mid w v hv
    have e1 := h1.rdkept w v x hg hv hx hr
    rw [h2.rdkept w x v' hg hx hv' (by rw [e1]; exact hr), e1]
  · intro w v v' hv hv'
    obtain ⟨x, hx⟩ := mid w v hv
    have a := h1.rts w v x hv hx
    have b := h2.rts w x v' hx hv'
    exact ⟨b.1.trans a.1, b.2.trans a.2⟩

theorem vrfUpd_copy {glob : Option VrfDict} {asn : Option Int} {d : VrfDict} {s : VrfSets} {k : String} {v g : Vrf}
    (hc : CounterOk 1 4095 s.ids) (hv : d.lookup k = some v)
    (hnd : ¬ VrfDone v) (hg : glob.bind (·.lookup k) = some g) :
    VrfUpd glob asn d s (setKey d k { v with id := g.id, rd := g.rd }) s := by
  have hgn : globName glob k = true := by simp [globName, hg]
  have hM : ∀ {K : Type} (key : Vrf → Option K),
      (fun w => if globName glob w then none else
        ((setKey d k { v with id := g.id, rd := g.rd }).lookup w).bind key) =
      (fun w => if globName glob w then none else (d.lookup w).bind key) := by
    intro K key
    funext w
    by_cases e : w = k
    · subst e; simp [hgn]
    · rw [lookup_setKey, if_neg e]
  have hdk : ∀ w x, d.lookup w = some x → VrfDone x →
      (setKey d k { v with id := g.id, rd := g.rd }).lookup w = some x := by
    intro w x hx hd
    by_cases e : w = k
    · subst e; rw [hx] at hv; cases hv; exact absurd hd hnd
    · rw [lookup_setKey, if_neg e]; exact hx
  refine ⟨by rw [hM]; exact .refl, by rw [hM]; exact .refl, hc, ?_, ?_, ?_, ?_, hdk, ?_⟩
  rotate_right 1
  · intro w x x' hgw hx hx'
    rw [lookup_setKey] at hx'
    by_cases e : w = k
    · subst e; rw [hgn] at hgw; cases hgw
    · simp only [e, if_false] at hx'
      rw [hx] at hx'
      cases hx'
      exact .inl rfl
  · intro w
    rw [lookup_setKey]
    by_cases e : w = k
    · subst e; simp [hv]
    · simp [e]
  · intro w x x' hx hx'
    rw [lookup_setKey] at hx'
    by_cases e : w = k
    · subst e
      simp only [if_true, Option.some.injEq] at hx'
      subst hx'
      exact .inr (.inl ⟨g, hg, rfl, rfl⟩)
    · simp only [e, if_false] at hx'
      rw [hx] at hx'
      cases hx'
      exact .inl rfl
  · intro w x x' hgw hx hx' _
    rw [lookup_setKey] at hx'
    by_cases e : w = k
    · subst e; rw [hgn] at hgw; cases hgw
    · simp only [e, if_false] at hx'
      rw [hx] at hx'
      cases hx'
      rfl
  · intro w x x' hx hx'
    rw [lookup_setKey] at hx'
    by_cases e : w = k
    · subst e
      simp only [if_true, Option.some.injEq] at hx'
      rw [hx] at hv
      cases hv
      subst hx'
      exact ⟨rfl, rfl⟩
    · simp only [e, if_false] at hx'
      rw [hx] at hx'
      cases hx'
      exact ⟨rfl, rfl⟩

theorem vrfUpd_auto {glob : Option VrfDict} {d : VrfDict} {s s' : VrfSets} {k : String} {v : Vrf}
    {asn n : Int} {rd : String}
    (hc : CounterOk 1 4095 s.ids) (hv : d.lookup k = some v)
    (hnd : ¬ VrfDone v) (hg : glob.bind (·.lookup k) = none)
    (h : getNextVrfId asn s = .ok (n, rd, s')) :
    VrfUpd glob (some asn) d s (setKey d k (setVrfAutoId v n rd)) s' := by
  obtain ⟨b1, b2, b3, b4, b5, b6, b7⟩ := getNextVrfId_spec s s' hc h
  have hgn : globName glob k = false := by simp [globName, hg]
  have hoff : ∀ {K : Type} (key : Vrf → Option K) w, w ≠ k →
      (if globName glob w then none else
        ((setKey d k (setVrfAutoId v n rd)).lookup w).bind key) =
      (if globName glob w then none else (d.lookup w).bind key) := by
    intro K key w e
    rw [lookup_setKey, if_neg e]
  have hsame : ∀ {K : Type} (key : Vrf → Option K), key (setVrfAutoId v n rd) = key v →
      (fun w => if globName glob w then none else
        ((setKey d k (setVrfAutoId v n rd)).lookup w).bind key) =
      (fun w => if globName glob w then none else (d.lookup w).bind key) := by
    intro K key hk
    funext w
    by_cases e : w = k
    · subst e
      rw [lookup_setKey, if_pos rfl, hv]
      simp [hk]
    · exact hoff key w e
  have hdk : ∀ w x, d.lookup w = some x → VrfDone x →
      (setKey d k (setVrfAutoId v n rd)).lookup w = some x := by
    intro w x hx hd
    by_cases e : w = k
    · subst e; rw [hx] at hv; cases hv; exact absurd hd hnd
    · rw [lookup_setKey, if_neg e]; exact hx
  refine ⟨?_, ?_, b7, ?_, ?_, ?_, ?_, hdk, ?_⟩
  rotate_right 1
  · intro w x x' hgw hx hx'
    rw [lookup_setKey] at hx'
    by_cases e : w = k
    · subst e
      simp only [if_true, Option.some.injEq] at hx'
      rw [hx] at hv
      cases hv
      exact .inr ⟨asn, n, rfl, b2, by rw [← hx', b3]⟩
    · simp only [e, if_false] at hx'
      rw [hx] at hx'
      cases hx'
      exact .inl rfl
  · cases hi : v.id with
    | some i =>
      rw [hsame (·.id) (by simp [setVrfAutoId, hi])]
      exact .grow .refl (fun x hx => b5 x (.inl hx))
    | none =>
      refine .step k n .refl (by simp [hv, hi]) b1 b2 ?_ (hoff _) b5
      simp [hgn, lookup_setKey, setVrfAutoId, hi]
  · by_cases hr : v.rd = .missing
    · refine .step k rd .refl (by simp [hv, rdStr, hr]) b4 trivial ?_ (hoff _) b6
      simp [hgn, lookup_setKey, setVrfAutoId, hr, rdStr]
    · have : rdStr (setVrfAutoId v n rd) = rdStr v := by
        unfold rdStr setVrfAutoId
        cases hrd : v.rd with
        | missing => exact absurd hrd hr
        | null => rfl
        | num m => rfl
        | str m => rfl
      rw [hsame rdStr this]
      exact .grow .refl (fun x hx => b6 x (.inl hx))
  · intro w
    rw [lookup_setKey]
    by_cases e : w = k
    · subst e; simp [hv]
    · simp [e]
  · intro w x x' hx hx'
    rw [lookup_setKey] at hx'
    by_cases e : w = k
    · subst e; exact .inr (.inr hgn)
    · simp only [e, if_false] at hx'
      rw [hx] at hx'
      cases hx'
      exact .inl rfl
  · intro w x x' hgw hx hx' hr
    rw [lookup_setKey] at hx'
    by_cases e : w = k
    · subst e
      simp only [if_true, Option.some.injEq] at hx'
      rw [hx] at hv
      cases hv
      subst hx'
      unfold setVrfAutoId
      cases hrd : v.rd with
      | missing => exact absurd hrd hr
      | null => rfl
      | num m => rfl
      | str m => rfl
    · simp only [e, if_false] at hx'
      rw [hx] at hx'
      cases hx'
      rfl
  · intro w x x' hx hx'
    rw [lookup_setKey] at hx'
    by_cases e : w = k
    · subst e
      simp only [if_true, Option.some.injEq] at hx'
      rw [hx] at hv
      cases hv
      subst hx'
      exact ⟨rfl, rfl⟩
    · simp only [e, if_false] at hx'
      rw [hx] at hx'
      cases hx'
      exact ⟨rfl, rfl⟩

theorem vrfNeedsId_false {v : Vrf} (h : vrfNeedsId v = false) : VrfDone v := by
  unfold vrfNeedsId at h
  simp only [Bool.not_eq_false', Bool.and_eq_true, bne_iff_ne, ne_eq] at h
  exact ⟨by intro e; rw [e] at h; simp at h, h.1⟩

theorem vrfNeedsId_true {v : Vrf} (h : vrfNeedsId v = true) : ¬ VrfDone v := by
  rintro ⟨h1, h2⟩
  unfold vrfNeedsId at h
  cases hi : v.id with
  | none => exact h1 hi
  | some i => simp [hi, h2] at h

theorem setVrfIds_upd {glob : Option VrfDict} {asn : Option Int} :
    ∀ (ks : List String) (d d' : VrfDict) (s s' : VrfSets) (e : Nat), CounterOk 1 4095 s.ids →
    setVrfIds glob asn d s ks = .ok (d', s', e) →
    VrfUpd glob asn d s d' s' ∧
      ((∀ k g, glob.bind (·.lookup k) = some g → VrfDone g) → e = 0 →
        ∀ k v', (k ∈ ks ∨ ∃ v, d.lookup k = some v ∧ VrfDone v) → d'.lookup k = some v' → VrfDone v')
  | [], d, d', s, s', e, hc, h => by
    simp only [setVrfIds, Except.ok.injEq, Prod.mk.injEq] at h
    obtain ⟨rfl, rfl, rfl⟩ := h
    refine ⟨.refl hc, ?_⟩
    rintro - - k v' (hk | ⟨v, hv, hd⟩) hv'
    · simp at hk
    · rw [hv] at hv'; cases hv'; exact hd
  | k :: ks, d, d', s, s', e, hc, h => by
    simp only [setVrfIds] at h
    cases hl : d.lookup k with
    | none =>
      simp only [hl] at h
      obtain ⟨a1, a2⟩ := setVrfIds_upd ks d d' s s' e hc h
      refine ⟨a1, fun hg he j v' hj hv' => a2 hg he j v' ?_ hv'⟩
      rcases hj with hj | hj
      · rcases List.mem_cons.1 hj with rfl | hj
        · have := a1.same j
          rw [hl, hv'] at this
          cases this
        · exact .inl hj
      · exact .inr hj
    | some v =>
      simp only [hl] at h
      have next : ∀ (x : Vrf) (s1 : VrfSets), VrfUpd glob asn d s (setKey d k x) s1 →
          ((∀ k g, glob.bind (·.lookup k) = some g → VrfDone g) → VrfDone x) →
          setVrfIds glob asn (setKey d k x) s1 ks = .ok (d', s', e) →
          VrfUpd glob asn d s d' s' ∧
          ((∀ k g, glob.bind (·.lookup k) = some g → VrfDone g) → e = 0 →
            ∀ j v', (j ∈ k :: ks ∨ ∃ v, d.lookup j = some v ∧ VrfDone v) →
              d'.lookup j = some v' → VrfDone v') := by
        intro x s1 hu hx hrec
        obtain ⟨a1, a2⟩ := setVrfIds_upd ks _ d' s1 s' e hu.counter hrec
        refine ⟨hu.trans a1, fun hg he j v' hj hv' => a2 hg he j v' ?_ hv'⟩
        by_cases ej : j = k
        · subst ej
          exact .inr ⟨x, by rw [lookup_setKey, if_pos rfl], hx hg⟩
        · rcases hj with hj | ⟨y, hy, hd⟩
          · rcases List.mem_cons.1 hj with hj | hj
            · exact absurd hj ej
            · exact .inl hj
          · exact .inr ⟨y, by rw [lookup_setKey, if_neg ej]; exact hy, hd⟩
      by_cases hn : vrfNeedsId v = true
      · rw [if_pos hn] at h
        cases hg : glob.bind (·.lookup k) with
        | some g =>
          simp only [hg] at h
          exact next _ s (vrfUpd_copy hc hl (vrfNeedsId_true hn) hg)
            (fun hh => ⟨(hh k g hg).1, (hh k g hg).2⟩) h
        | none =>
          simp only [hg] at h
          cases asn with
          | none =>
            simp only [Except.ok.injEq, Prod.mk.injEq] at h
            obtain ⟨rfl, rfl, rfl⟩ := h
            exact ⟨.refl hc, fun _ he => by cases he⟩
          | some a =>
            simp only at h
            cases hx : getNextVrfId a s with
            | error x => simp [hx] at h
            | ok q =>
              obtain ⟨n, rd, s1⟩ := q
              simp only [hx] at h
              refine next _ s1 (vrfUpd_auto hc hl (vrfNeedsId_true hn) hg hx) (fun _ => ?_) h
              exact vrfDone_auto _ _ _
      · rw [if_neg hn] at h
        obtain ⟨a1, a2⟩ := setVrfIds_upd ks d d' s s' e hc h
        refine ⟨a1, fun hg he j v' hj hv' => a2 hg he j v' ?_ hv'⟩
        rcases hj with hj | hj
        · rcases List.mem_cons.1 hj with rfl | hj
          · exact .inr ⟨v, hl, vrfNeedsId_false (Bool.eq_false_iff.2 hn)⟩
          · exact .inl hj
        · exact .inr hj

theorem pullVrfs_lookup : ∀ (ks : List String) (d : VrfDict) (w : String),
    (pullVrfs d ks).lookup w =
      (d.lookup w).or (if w ∈ ks then some {} else none)
  | [], d, w => by simp [pullVrfs]
  | k :: ks, d, w => by
    simp only [pullVrfs]
    cases hl : d.lookup k with
    | some v =>
      simp only
      rw [pullVrfs_lookup ks d w]
      by_cases e : w = k
      · subst e; simp [hl]
      · simp [List.mem_cons, e]
    | none =>
      simp only
      rw [pullVrfs_lookup ks, lookup_setKey]
      by_cases e : w = k
      · subst e; simp [hl]
      · simp [List.mem_cons, e]

/-- Dictionaries with the node VRFs before and after identifiers are set -/
def vrfDictsIn (nodes : List (String × VrfNode)) : List (String × VrfDict) :=
  nodes.map fun n => (n.1, pullVrfs n.2.vrfs n.2.vlanVrfs)

def vrfDictsOut (nodes : List (String × VrfNode)) : List (String × VrfDict) :=
  nodes.map fun n => (n.1, n.2.vrfs)

/-- Relation between the dictionaries of a node -/
def NodeVrfRel (glob : Option VrfDict) (asn : Option Int) (e : Nat) (d d' : VrfDict) : Prop :=
  ∃ s s', VrfUpd glob asn d s d' s' ∧
    ((∀ k g, glob.bind (·.lookup k) = some g → VrfDone g) → e = 0 →
      ∀ k v', d'.lookup k = some v' → VrfDone v')

theorem nodeVrfIds_upd {t : VrfTopo} {glob : Option VrfDict} (g : VrfDict) :
    ∀ (nodes ns : List (String × VrfNode)) (s s' : VrfSets) (e : Nat), CounterOk 1 4095 s.ids →
    nodeVrfIds t glob s nodes = .ok (ns, s', e) →
    Assigns (fun k => 1 ≤ k ∧ k ≤ 4095)
      (ownKey (globName glob) (·.id) g (vrfDictsIn nodes)) (UsedInt s.ids)
      (ownKey (globName glob) (·.id) g (vrfDictsOut ns)) (UsedInt s'.ids) ∧
    Assigns (fun _ => True)
      (ownKey (globName glob) rdStr g (vrfDictsIn nodes)) (UsedStr s.rds)
      (ownKey (globName glob) rdStr g (vrfDictsOut ns)) (UsedStr s'.rds) ∧
    CounterOk 1 4095 s'.ids ∧
    ∀ n, (nodes.lookup n = none ∧ ns.lookup n = none) ∨
      ∃ nd d', nodes.lookup n = some nd ∧ ns.lookup n = some { nd with vrfs := d' } ∧
        NodeVrfRel glob (getRdAs nd.bgpAs nd.vrfAs t) e (pullVrfs nd.vrfs nd.vlanVrfs) d'
  | [], ns, s, s', e, hc, h => by
    simp only [nodeVrfIds, Except.ok.injEq, Prod.mk.injEq] at h
    obtain ⟨rfl, rfl, rfl⟩ := h
    exact ⟨.refl, .refl, hc, fun n => .inl ⟨rfl, rfl⟩⟩
  | (m, nd) :: r, ns, s, s', e, hc, h => by
    simp only [nodeVrfIds] at h
    generalize hd : pullVrfs nd.vrfs nd.vlanVrfs = d at h
    cases h1 : setVrfIds glob (getRdAs nd.bgpAs nd.vrfAs t) d s (d.map (·.1)) with
    | error x => simp [h1] at h
    | ok q =>
      obtain ⟨d', s1, e1⟩ := q
      simp only [h1] at h
      cases h2 : nodeVrfIds t glob s1 r with
      | error x => simp [h2] at h
      | ok q2 =>
        obtain ⟨r', s2, e2⟩ := q2
        simp only [h2, Except.ok.injEq, Prod.mk.injEq] at h
        obtain ⟨rfl, rfl, rfl⟩ := h
        obtain ⟨a1, a2⟩ := setVrfIds_upd _ d d' s s1 e1 hc h1
        obtain ⟨b1, b2, b3, b4⟩ := nodeVrfIds_upd g r r' s1 s2 e2 a1.counter h2
        have i1 : vrfDictsIn ((m, nd) :: r) = (m, d) :: vrfDictsIn r := by
          simp [vrfDictsIn, hd]
        have i2 : vrfDictsOut ((m, { nd with vrfs := d' }) :: r') = (m, d') :: vrfDictsOut r' := by
          simp [vrfDictsOut]
        refine ⟨?_, ?_, b3, ?_⟩
        · rw [i1, i2]
          exact (assigns_scope_head _ _ g m (vrfDictsIn r) a1.idA).trans
            (assigns_scope_tail _ _ g m d' b1)
        · rw [i1, i2]
          exact (assigns_scope_head _ _ g m (vrfDictsIn r) a1.rdA).trans
            (assigns_scope_tail _ _ g m d' b2)
        · intro n
          by_cases en : n = m
          · subst en
            right
            refine ⟨nd, d', lookup_cons_self .., lookup_cons_self .., ?_⟩
            rw [hd]
            refine ⟨s, s1, a1, fun hg he k v' hv' => a2 hg (by omega) k v' (.inl ?_) hv'⟩
            have := a1.same k
            rw [hv'] at this
            obtain ⟨x, hx⟩ := Option.isSome_iff_exists.1 (this.symm.trans (by rfl))
            exact List.mem_map.2 ⟨(k, x), mem_of_lookup hx, rfl⟩
          · rw [lookup_cons_ne _ _ en, lookup_cons_ne _ _ en]
            rcases b4 n with x | ⟨nd', d'', x, y, ⟨u, u', z1, z2⟩⟩
            · exact .inl x
            · exact .inr ⟨nd', d'', x, y, u, u', z1, fun hg he => z2 hg (by omega)⟩

/-- Effect of normalization on a VRF -/
structure NormRel (asn : Option Int) (e : Nat) (v v' : Vrf) : Prop where
  id : v'.id = v.id
  rts : v'.imp = v.imp ∧ v'.exp = v.exp
  missing : v'.rd = .missing ↔ v.rd = .missing
  null : v'.rd = .null ↔ v.rd = .null
  str : ∀ s, v.rd = .str s → v'.rd = .str s
  num : e = 0 → ∀ n, v.rd = .num n → ∃ a, asn = some a ∧ v'.rd = .str (mkRd a n)

theorem NormRel.same {asn : Option Int} {e : Nat} {v : Vrf}
    (h : e = 0 → ∀ n, v.rd ≠ .num n) : NormRel asn e v v :=
  ⟨rfl, ⟨rfl, rfl⟩, Iff.rfl, Iff.rfl, fun _ h => h, fun he n hn => absurd hn (h he n)⟩

theorem normalizeVrfs_lookup {okRd : String → Bool} {asn : Option Int} : ∀ (d : VrfDict)
    (w : String), (d.lookup w = none ∧ (normalizeVrfs okRd asn d).1.lookup w = none) ∨
      ∃ v v', d.lookup w = some v ∧ (normalizeVrfs okRd asn d).1.lookup w = some v' ∧
        NormRel asn (normalizeVrfs okRd asn d).2 v v'
  | [], w => .inl ⟨rfl, rfl⟩
  | (k, v) :: r, w => by
    have ih := normalizeVrfs_lookup (okRd := okRd) (asn := asn) r w
    have build : ∀ (v1 : Vrf) (e1 : Nat), (normalizeVrfs okRd asn r).2 ≤ e1 →
        NormRel asn e1 v v1 →
        (((k, v) :: r).lookup w = none ∧ ((k, v1) :: (normalizeVrfs okRd asn r).1).lookup w = none) ∨
        ∃ x x', ((k, v) :: r).lookup w = some x ∧
          ((k, v1) :: (normalizeVrfs okRd asn r).1).lookup w = some x' ∧ NormRel asn e1 x x' := by
      intro v1 e1 hle hn
      by_cases ew : w = k
      · subst ew
        exact .inr ⟨v, v1, lookup_cons_self .., lookup_cons_self .., hn⟩
      · rw [lookup_cons_ne _ _ ew, lookup_cons_ne _ _ ew]
        rcases ih with h | ⟨x, x', h1, h2, h3⟩
        · exact .inl h
        · exact .inr ⟨x, x', h1, h2, h3.id, h3.rts, h3.missing, h3.null, h3.str,
            fun he => h3.num (by omega)⟩
    cases hr : v.rd with
    | missing =>
      simp only [normalizeVrfs, hr]
      exact build v _ (Nat.le_refl _) (.same (by simp [hr]))
    | null =>
      simp only [normalizeVrfs, hr]
      exact build v _ (Nat.le_refl _) (.same (by simp [hr]))
    | str s =>
      simp only [normalizeVrfs, hr]
      refine build v _ ?_ (.same (by simp [hr]))
      split <;> omega
    | num n =>
      cases asn with
      | none =>
        simp only [normalizeVrfs, hr]
        cases hl : ((k, v) :: r).lookup w with
        | none => exact .inl ⟨rfl, rfl⟩
        | some x => exact .inr ⟨x, x, rfl, rfl, .same (by simp)⟩
      | some a =>
        simp only [normalizeVrfs, hr]
        refine build _ _ (Nat.le_refl _) ⟨rfl, ⟨rfl, rfl⟩, by simp [hr], by simp [hr],
          by simp [hr], fun _ m hm => ⟨a, rfl, ?_⟩⟩
        rw [hr] at hm
        cases hm
        rfl

theorem populate_ids (g : VrfDict) (nodes : List (String × VrfNode)) : ∀ (s : VrfSets),
    (∀ x, x ∈ s.ids.value ∨ x ∈ vrfIds g ∨ (∃ n ∈ nodes, x ∈ vrfIds n.2.vrfs) →
      x ∈ (populateVrfSets s g nodes).ids.value) ∧
    (∀ x, x ∈ s.rds.value ∨ x ∈ vrfRds g ∨ (∃ n ∈ nodes, x ∈ vrfRds n.2.vrfs) →
      x ∈ (populateVrfSets s g nodes).rds.value) ∧
    (populateVrfSets s g nodes).ids.next = s.ids.next ∧
    (populateVrfSets s g nodes).ids.max = s.ids.max := by
  intro s
  have key : ∀ (nodes : List (String × VrfNode)) (s : VrfSets),
      let r := nodes.foldl (fun s n => ({ ids := s.ids.extend (vrfIds n.2.vrfs), rds := s.rds.extend (vrfRds n.2.vrfs) } : VrfSets)) s
      (∀ x, x ∈ s.ids.value ∨ (∃ n ∈ nodes, x ∈ vrfIds n.2.vrfs) → x ∈ r.ids.value) ∧
      (∀ x, x ∈ s.rds.value ∨ (∃ n ∈ nodes, x ∈ vrfRds n.2.vrfs) → x ∈ r.rds.value) ∧
      r.ids.next = s.ids.next ∧ r.ids.max = s.ids.max := by
    intro nodes
    induction nodes with
    | nil => intro s; simp
    | cons n r ih =>
      intro s
      rw [List.foldl_cons]
      obtain ⟨a, b, c, d⟩ := ih ({ ids := s.ids.extend (vrfIds n.2.vrfs), rds := s.rds.extend (vrfRds n.2.vrfs) } : VrfSets)
      refine ⟨fun x hx => a x ?_, fun x hx => b x ?_, c, d⟩
      · simp only [List.mem_cons, exists_eq_or_imp] at hx
        simp only [IdVar.extend, List.mem_append]
        rcases hx with h | h | h <;> simp [h]
      · simp only [List.mem_cons, exists_eq_or_imp] at hx
        simp only [IdVar.extend, List.mem_append]
        rcases hx with h | h | h <;> simp [h]
  obtain ⟨a, b, c, d⟩ := key nodes { ids := s.ids.extend (vrfIds g), rds := s.rds.extend (vrfRds g) }
  refine ⟨fun x hx => a x ?_, fun x hx => b x ?_, c, d⟩
  · simp only [IdVar.extend, List.mem_append]
    rcases hx with h | h | h <;> simp [h]
  · simp only [IdVar.extend, List.mem_append]
    rcases hx with h | h | h <;> simp [h]

theorem vrfIds_mem {d : VrfDict} {k : String} {v : Vrf} {i : Int} (h : d.lookup k = some v)
    (hi : v.id = some i) : IdVal.i i ∈ vrfIds d :=
  List.mem_filterMap.2 ⟨(k, v), mem_of_lookup h, by simp [hi]⟩

theorem vrfRds_mem {d : VrfDict} {k : String} {v : Vrf} {s : String} (h : d.lookup k = some v)
    (hi : v.rd = .str s) : IdVal.s s ∈ vrfRds d :=
  List.mem_filterMap.2 ⟨(k, v), mem_of_lookup h, by simp [hi]⟩

theorem initVrfSets_counter : CounterOk 1 4095 initVrfSets.ids :=
  ⟨rfl, 1, rfl, Int.le_refl _, fun h => h⟩

end Netlab
