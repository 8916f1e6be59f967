import Verif.Spec.Svi
import Verif.Lemmas.Links
import Verif.Lemmas.Box
import Mathlib.Data.List.Forall2
/-!
# C64: VLAN interfaces, C65: VLAN neighbors
-/

namespace Netlab
open Spec

/-! ### VLANs of a node -/

/-- All VLANs of the node have been merged with global VLANs. -/
def AllMerged (l : List (String × NVlan)) : Prop := ∀ v d, l.lookup v = some d → d.merged = true

/-- VLANs are not changed apart from new bridge groups. -/
def VExt (a b : List (String × NVlan)) : Prop :=
  ∀ v d, a.lookup v = some d → ∃ e, b.lookup v = some e ∧ e = { d with bg := e.bg } ∧ (d.bg.isSome → e = d)

theorem VExt.refl (a : List (String × NVlan)) : VExt a a := fun _ d h => ⟨d, h, rfl, fun _ => rfl⟩

theorem VExt.trans {a b c : List (String × NVlan)} (h : VExt a b) (k : VExt b c) : VExt a c := by
  intro v d hd
  obtain ⟨e, he, h1, h2⟩ := h v d hd
  obtain ⟨f, hf, k1, k2⟩ := k v e he
  refine ⟨f, hf, ?_, ?_⟩
  · rw [k1, h1]
  · intro hb
    have := h2 hb
    subst this
    exact k2 hb

theorem populate_merged (t : SvTopo) (m : Option VMode) (g n : NVlan) : (populateVlan t m g n).merged = true := by
  unfold populateVlan
  split
  · assumption
  · rfl

theorem populate_again (t : SvTopo) (m : Option VMode) (g n : NVlan) (h : n.merged = true) : populateVlan t m g n = n := by
  unfold populateVlan
  rw [if_pos h]

theorem setBg_spec (b : Nat) (v : NVlan) :
    (setBridgeGroup b v).1 = { v with bg := (setBridgeGroup b v).1.bg } ∧ (setBridgeGroup b v).1.bg.isSome ∧
    (v.bg.isSome → (setBridgeGroup b v).1 = v) := by
  unfold setBridgeGroup
  split
  · rename_i h
    exact ⟨rfl, h, fun _ => rfl⟩
  · rename_i h
    exact ⟨rfl, rfl, fun hb => absurd hb h⟩

theorem createNodeVlan_spec {t : SvTopo} {m : Option VMode} {vlans vlans' : List (String × NVlan)} {b b' : Nat} {v : String}
    {vd : NVlan} (hm : AllMerged vlans) (h : createNodeVlan t m vlans b v = some (vd, vlans', b')) :
    vlans'.lookup v = some vd ∧ vd.bg.isSome ∧ VExt vlans vlans' ∧ AllMerged vlans' := by
  unfold createNodeVlan at h
  split at h
  · cases h
  · simp only [Option.some.injEq, Prod.mk.injEq] at h
    obtain ⟨rfl, rfl, -⟩ := h
    obtain ⟨h1, h2, h3⟩ := setBg_spec b (populateVlan t m ((t.vlans.lookup v).getD {}) ((vlans.lookup v).getD {}))
    refine ⟨by rw [lookup_setKey, if_pos rfl], h2, ?_, ?_⟩
    · intro w d hd
      rw [lookup_setKey]
      by_cases hw : w = v
      · subst hw
        rw [if_pos rfl]
        rw [hd, Option.getD_some, populate_again _ _ _ _ (hm w d hd)] at h1 h3 ⊢
        exact ⟨_, rfl, h1, h3⟩
      · rw [if_neg hw]
        exact ⟨d, hd, rfl, fun _ => rfl⟩
    · intro w d hd
      rw [lookup_setKey] at hd
      by_cases hw : w = v
      · rw [if_pos hw] at hd
        obtain rfl := Option.some.inj hd
        rw [h1]
        exact populate_merged _ _ _ _
      · rw [if_neg hw] at hd
        exact hm w d hd

/-! ### The loop -/

theorem untagged_or (i : SvIf) (v : String) : i.access.or i.native = some v ↔ untaggedIn i v := by
  unfold untaggedIn
  cases i.access <;> simp

/-- What happens to an interface. -/
inductive StepOf (vl : List (String × NVlan)) (i j : SvIf) : Prop
  | none : (∀ v, ¬ untaggedIn i v) → j = i → StepOf vl i j
  | routed (v : String) (vd : NVlan) : untaggedIn i v → i.mode = some .route → vl.lookup v = some vd → vd.bg.isSome →
      j = routedIf vd v i → StepOf vl i j
  | member (v : String) (vd : NVlan) : memberOfVlan i v → vl.lookup v = some vd → vd.bg.isSome → j = physIf vd i → StepOf vl i j

theorem StepOf.mono {a b : List (String × NVlan)} (h : VExt a b) {i j : SvIf} (s : StepOf a i j) : StepOf b i j := by
  cases s with
  | none h1 h2 => exact .none h1 h2
  | routed v vd h1 h2 h3 h4 h5 =>
    obtain ⟨e, he, -, h6⟩ := h v vd h3
    obtain rfl := h6 h4
    exact .routed v e h1 h2 he h4 h5
  | member v vd h1 h2 h3 h4 =>
    obtain ⟨e, he, -, h6⟩ := h v vd h2
    obtain rfl := h6 h3
    exact .member v e h1 he h3 h4

/-- How a VLAN interface was created. -/
def SviFrom (fmt : Option Nat → Option Nat → String → String) (vl : List (String × NVlan)) (ifs : List SvIf) (p : String × SvIf) :
    Prop :=
  ∃ i vd idx, firstMember ifs p.1 i ∧ vl.lookup p.1 = some vd ∧ vd.bg.isSome ∧ p.2 = mkSvi fmt vd p.1 i idx

theorem SviFrom.mono {fmt : Option Nat → Option Nat → String → String} {a b : List (String × NVlan)} (h : VExt a b)
    {ifs more : List SvIf} {p : String × SvIf} (s : SviFrom fmt a ifs p) : SviFrom fmt b (ifs ++ more) p := by
  obtain ⟨i, vd, idx, ⟨hm, pre, post, rfl, hpre⟩, h2, h3, h4⟩ := s
  obtain ⟨e, he, -, h6⟩ := h p.1 vd h2
  obtain rfl := h6 h3
  exact ⟨i, e, idx, ⟨hm, pre, post ++ more, by simp, hpre⟩, he, h3, h4⟩

/-- Invariant of the loop: interfaces in `done` were processed. -/
structure SviInv (t : SvTopo) (nd : SvNode) (vl0 : List (String × NVlan)) (done : List SvIf) (st : SvState) : Prop where
  merged : AllMerged st.vlans
  ext : VExt vl0 st.vlans
  out : List.Forall₂ (StepOf st.vlans) done st.out
  nodup : (st.svis.map Prod.fst).Nodup
  keys : ∀ v, v ∈ st.svis.map Prod.fst ↔ ∃ i ∈ done, memberOfVlan i v
  svi : ∀ p ∈ st.svis, ∃ fmt, nd.sviName = some fmt ∧ SviFrom fmt st.vlans done p
  index : (st.svis.map (fun p => p.2.ifindex)).Nodup
  upd : ∀ u ∈ st.upds, ∃ i ∈ done, ∃ v s, memberOfVlan i v ∧ st.svis.lookup v = some s ∧
    u = ⟨vlanKey t nd.name v, i.neighbors, ngbEntry nd.name s⟩
  all : ∀ i ∈ done, ∀ v, memberOfVlan i v → ∃ s, st.svis.lookup v = some s ∧
    ⟨vlanKey t nd.name v, i.neighbors, ngbEntry nd.name s⟩ ∈ st.upds

theorem memberOfVlan_unique {i : SvIf} {v w : String} (h : untaggedIn i v) (k : untaggedIn i w) : v = w := by
  rw [← untagged_or] at h k
  exact Option.some.inj (h.symm.trans k)

theorem sviFor_spec {ifs : List SvIf} {fmt : Option Nat → Option Nat → String → String} {svis svis' : List (String × SvIf)}
    {vd : NVlan} {v : String} {i s : SvIf} (h : sviFor ifs fmt svis vd v i = some (s, svis')) :
    (svis' = svis ∧ svis.lookup v = some s) ∨
    (svis.lookup v = none ∧ svis' = svis ++ [(v, s)] ∧ ∃ idx, s = mkSvi fmt vd v i idx ∧
      ∀ p ∈ svis, p.2.kind = "svi" → p.2.ifindex ≠ idx) := by
  unfold sviFor at h
  split at h
  · rename_i s' hs
    simp only [Option.some.injEq, Prod.mk.injEq] at h
    obtain ⟨rfl, rfl⟩ := h
    exact .inl ⟨rfl, hs⟩
  · rename_i hs
    right
    simp only [Option.map_eq_some_iff, Prod.mk.injEq] at h
    obtain ⟨idx, hi, rfl, rfl⟩ := h
    refine ⟨hs, rfl, idx, rfl, ?_⟩
    intro p hp hk he
    refine (ifindexLoop_some hi).1 (List.mem_map.mpr ⟨p.2, List.mem_filter.mpr ⟨?_, by simpa using hk⟩, he⟩)
    exact List.mem_append.mpr (.inr (List.mem_map_of_mem hp))

theorem sviStep_inv {t : SvTopo} {nd : SvNode} {vl0 : List (String × NVlan)} {done : List SvIf} {st st' : SvState} {i : SvIf}
    (hi : SviInv t nd vl0 done st) (h : sviStep t nd st i = .ok st') : SviInv t nd vl0 (done ++ [i]) st' := by
  have hkeep : ∀ {vl' : List (String × NVlan)}, VExt st.vlans vl' → ∀ j, StepOf vl' i j →
      List.Forall₂ (StepOf vl') (done ++ [i]) (st.out ++ [j]) := by
    intro vl' hv j hj
    exact List.rel_append (hi.out.imp (fun _ _ => StepOf.mono hv)) (.cons hj .nil)
  unfold sviStep at h
  split at h
  · -- no VLAN
    rename_i hn
    have hno : ∀ v, ¬ untaggedIn i v := by
      intro v hv
      rw [← untagged_or, hn] at hv
      cases hv
    simp only [Except.ok.injEq] at h
    subst h
    exact {
      merged := hi.merged
      ext := hi.ext
      out := hkeep (VExt.refl _) i (.none hno rfl)
      nodup := hi.nodup
      keys := by
        intro v
        rw [hi.keys]
        simp only [List.mem_append, List.mem_singleton]
        constructor
        · rintro ⟨j, hj, hm⟩
          exact ⟨j, .inl hj, hm⟩
        · rintro ⟨j, hj | rfl, hm⟩
          · exact ⟨j, hj, hm⟩
          · exact absurd hm.1 (hno v)
      svi := by
        intro p hp
        obtain ⟨fmt, h1, h2⟩ := hi.svi p hp
        exact ⟨fmt, h1, h2.mono (VExt.refl _)⟩
      index := hi.index
      upd := by
        intro u hu
        obtain ⟨j, hj, r⟩ := hi.upd u hu
        exact ⟨j, List.mem_append.mpr (.inl hj), r⟩
      all := by
        intro j hj v hm
        rcases List.mem_append.mp hj with hj | hj
        · exact hi.all j hj v hm
        · obtain rfl := List.mem_singleton.mp hj
          exact absurd hm.1 (hno v) }
  · rename_i v hv
    rw [untagged_or] at hv
    split at h
    · cases h
    · rename_i m hmode
      split at h
      · cases h
      · rename_i vd vlans bg hc
        obtain ⟨c1, c2, c3, c4⟩ := createNodeVlan_spec hi.merged hc
        split at h
        · -- routed
          rename_i hr
          subst hr
          have hnm : ∀ w, ¬ memberOfVlan i w := fun w hw => hw.2 hmode
          simp only [Except.ok.injEq] at h
          subst h
          exact {
            merged := c4
            ext := hi.ext.trans c3
            out := hkeep c3 _ (.routed v vd hv hmode c1 c2 rfl)
            nodup := hi.nodup
            keys := by
              intro w
              rw [hi.keys]
              simp only [List.mem_append, List.mem_singleton]
              constructor
              · rintro ⟨j, hj, hm⟩
                exact ⟨j, .inl hj, hm⟩
              · rintro ⟨j, hj | rfl, hm⟩
                · exact ⟨j, hj, hm⟩
                · exact absurd hm (hnm w)
            svi := by
              intro p hp
              obtain ⟨fmt, h1, h2⟩ := hi.svi p hp
              exact ⟨fmt, h1, h2.mono c3⟩
            index := hi.index
            upd := by
              intro u hu
              obtain ⟨j, hj, r⟩ := hi.upd u hu
              exact ⟨j, List.mem_append.mpr (.inl hj), r⟩
            all := by
              intro j hj w hm
              rcases List.mem_append.mp hj with hj | hj
              · exact hi.all j hj w hm
              · obtain rfl := List.mem_singleton.mp hj
                exact absurd hm (hnm w) }
        · rename_i hr
          have hmem : memberOfVlan i v := ⟨hv, by rw [hmode]; simpa using hr⟩
          split at h
          · cases h
          · rename_i fmt hfmt
            split at h
            · cases h
            · rename_i s svis hs
              simp only [Except.ok.injEq] at h
              subst h
              have hout := hkeep c3 _ (.member v vd hmem c1 c2 rfl)
              rcases sviFor_spec hs with ⟨rfl, hl⟩ | ⟨hl, rfl, idx, rfl, hidx⟩
              · -- the VLAN interface exists
                exact {
                  merged := c4
                  ext := hi.ext.trans c3
                  out := hout
                  nodup := hi.nodup
                  keys := by
                    intro w
                    simp only
                    rw [hi.keys]
                    simp only [List.mem_append, List.mem_singleton]
                    constructor
                    · rintro ⟨j, hj, hm⟩
                      exact ⟨j, .inl hj, hm⟩
                    · rintro ⟨j, hj | rfl, hm⟩
                      · exact ⟨j, hj, hm⟩
                      · obtain rfl := memberOfVlan_unique hv hm.1
                        exact (hi.keys v).mp (List.mem_map_of_mem (mem_of_lookup hl))
                  svi := by
                    intro p hp
                    obtain ⟨fmt, h1, h2⟩ := hi.svi p hp
                    exact ⟨fmt, h1, h2.mono c3⟩
                  index := hi.index
                  upd := by
                    intro u hu
                    rcases List.mem_append.mp hu with hu | hu
                    · obtain ⟨j, hj, r⟩ := hi.upd u hu
                      exact ⟨j, List.mem_append.mpr (.inl hj), r⟩
                    · exact ⟨i, by simp, v, s, hmem, hl, List.mem_singleton.mp hu⟩
                  all := by
                    intro j hj w hm
                    rcases List.mem_append.mp hj with hj | hj
                    · obtain ⟨s', h1, h2⟩ := hi.all j hj w hm
                      exact ⟨s', h1, List.mem_append.mpr (.inl h2)⟩
                    · obtain rfl := List.mem_singleton.mp hj
                      obtain rfl := memberOfVlan_unique hv hm.1
                      exact ⟨s, hl, List.mem_append.mpr (.inr (List.mem_singleton.mpr rfl))⟩ }
              · -- a new one
                have hnk : v ∉ st.svis.map Prod.fst := lookup_eq_none_iff.mp hl
                have hlk : ∀ w s', st.svis.lookup w = some s' →
                    (st.svis ++ [(v, mkSvi fmt vd v i idx)]).lookup w = some s' := by
                  intro w s' hw
                  rw [List.lookup_append, hw]
                  rfl
                have hlv : (st.svis ++ [(v, mkSvi fmt vd v i idx)]).lookup v = some (mkSvi fmt vd v i idx) := by
                  rw [List.lookup_append, hl]
                  simp
                exact {
                  merged := c4
                  ext := hi.ext.trans c3
                  out := hout
                  nodup := by
                    simp only [List.map_append, List.map_cons, List.map_nil]
                    rw [List.nodup_append]
                    refine ⟨hi.nodup, by simp, ?_⟩
                    intro a ha b hb hab
                    obtain rfl := List.mem_singleton.mp hb
                    exact hnk (hab ▸ ha)
                  keys := by
                    intro w
                    simp only [List.map_append, List.map_cons, List.map_nil, List.mem_append, List.mem_singleton]
                    rw [hi.keys]
                    constructor
                    · rintro (⟨j, hj, hm⟩ | rfl)
                      · exact ⟨j, .inl hj, hm⟩
                      · exact ⟨i, .inr rfl, hmem⟩
                    · rintro ⟨j, hj | rfl, hm⟩
                      · exact .inl ⟨j, hj, hm⟩
                      · exact .inr (memberOfVlan_unique hm.1 hv)
                  svi := by
                    intro p hp
                    rcases List.mem_append.mp hp with hp | hp
                    · obtain ⟨fmt, h1, h2⟩ := hi.svi p hp
                      exact ⟨fmt, h1, h2.mono c3⟩
                    · obtain rfl := List.mem_singleton.mp hp
                      refine ⟨fmt, hfmt, i, vd, idx, ⟨hmem, done, [], rfl, ?_⟩, c1, c2, rfl⟩
                      intro j hj hjm
                      exact hnk ((hi.keys v).mpr ⟨j, hj, hjm⟩)
                  index := by
                    simp only [List.map_append, List.map_cons, List.map_nil]
                    rw [List.nodup_append]
                    refine ⟨hi.index, by simp, ?_⟩
                    intro a ha b hb hab
                    obtain ⟨p, hp, rfl⟩ := List.mem_map.mp ha
                    obtain rfl := List.mem_singleton.mp hb
                    obtain ⟨fmt', -, i', vd', idx', -, -, -, h2⟩ := hi.svi p hp
                    exact hidx p hp (by rw [h2]; rfl) hab
                  upd := by
                    intro u hu
                    rcases List.mem_append.mp hu with hu | hu
                    · obtain ⟨j, hj, w, s', r1, r2, r3⟩ := hi.upd u hu
                      exact ⟨j, List.mem_append.mpr (.inl hj), w, s', r1, hlk w s' r2, r3⟩
                    · exact ⟨i, by simp, v, _, hmem, hlv, List.mem_singleton.mp hu⟩
                  all := by
                    intro j hj w hm
                    rcases List.mem_append.mp hj with hj | hj
                    · obtain ⟨s', h1, h2⟩ := hi.all j hj w hm
                      exact ⟨s', hlk w s' h1, List.mem_append.mpr (.inl h2)⟩
                    · obtain rfl := List.mem_singleton.mp hj
                      obtain rfl := memberOfVlan_unique hv hm.1
                      exact ⟨_, hlv, List.mem_append.mpr (.inr (List.mem_singleton.mpr rfl))⟩ }

theorem sviLoop_inv {t : SvTopo} {nd : SvNode} {vl0 : List (String × NVlan)} (todo done : List SvIf) {st st' : SvState}
    (hi : SviInv t nd vl0 done st) (h : sviLoop t nd todo st = .ok st') : SviInv t nd vl0 (done ++ todo) st' := by
  induction todo generalizing done st with
  | nil =>
    simp only [sviLoop, Except.ok.injEq] at h
    subst h
    simpa using hi
  | cons i rest ih =>
    simp only [sviLoop] at h
    cases hs : sviStep t nd st i with
    | error a => simp [hs] at h
    | ok st1 =>
      simp only [hs] at h
      have := ih (done ++ [i]) (sviStep_inv hi hs) h
      simpa using this

theorem lookup_populateAll (t : SvTopo) (nd : SvNode) (v : String) :
    (populateAll t nd).lookup v = (nd.vlans.lookup v).map (populateVlan t nd.mode ((t.vlans.lookup v).getD {})) := by
  unfold populateAll
  induction nd.vlans with
  | nil => rfl
  | cons p rest ih =>
    obtain ⟨w, d⟩ := p
    rw [List.map_cons]
    by_cases hw : v = w
    · subst hw
      rw [lookup_cons_self, lookup_cons_self]
      rfl
    · rw [lookup_cons_ne _ _ hw, lookup_cons_ne _ _ hw, ih]

theorem createSvi_inv {t : SvTopo} {nd nd' : SvNode} {upds : List SvUpd} (h : createSvi t nd = .ok (nd', upds)) :
    ∃ st, SviInv t nd (populateAll t nd) nd.ifs st ∧ st.upds = upds ∧ nd' = { nd with
      ifs := st.out ++ st.svis.map Prod.snd
      vlans := st.vlans
      bgMax := st.bgMax } := by
  unfold createSvi at h
  cases hl : sviLoop t nd nd.ifs ⟨populateAll t nd, nd.bgMax, [], [], []⟩ with
  | error a => simp [hl] at h
  | ok st =>
    simp only [hl, Except.ok.injEq, Prod.mk.injEq] at h
    obtain ⟨rfl, rfl⟩ := h
    refine ⟨st, ?_, rfl, rfl⟩
    have h0 : SviInv t nd (populateAll t nd) [] ⟨populateAll t nd, nd.bgMax, [], [], []⟩ := {
      merged := by
        intro v d hd
        simp only at hd
        rw [lookup_populateAll, Option.map_eq_some_iff] at hd
        obtain ⟨e, -, rfl⟩ := hd
        exact populate_merged _ _ _ _
      ext := VExt.refl _
      out := .nil
      nodup := by simp
      keys := by simp
      svi := by simp
      index := by simp
      upd := by simp
      all := by simp }
    simpa using sviLoop_inv nd.ifs [] h0 hl

/-! ### VLAN data and bridge groups -/

/-- The node VLAN is the merged VLAN, bridge groups are unique. -/
structure BgInv (t : SvTopo) (nd : SvNode) (vlans : List (String × NVlan)) (bgMax : Nat) : Prop where
  data : ∀ v d, vlans.lookup v = some d → d = { populateVlan t nd.mode ((t.vlans.lookup v).getD {}) ((nd.vlans.lookup v).getD {})
    with bg := d.bg }
  le : ∀ v d b, vlans.lookup v = some d → d.bg = some b → b ≤ bgMax
  inj : ∀ v w d e b, vlans.lookup v = some d → vlans.lookup w = some e → d.bg = some b → e.bg = some b → v = w

theorem populate_bg {t : SvTopo} {nd : SvNode} (hf : FreshNode t nd) (v : String) :
    (populateVlan t nd.mode ((t.vlans.lookup v).getD {}) ((nd.vlans.lookup v).getD {})).bg = none := by
  have h1 : ((t.vlans.lookup v).getD {}).bg = none := by
    cases h : t.vlans.lookup v with
    | none => rfl
    | some d => exact hf.glob v d h
  have h2 : ((nd.vlans.lookup v).getD {}).bg = none ∧ ((nd.vlans.lookup v).getD {}).merged = false := by
    cases h : nd.vlans.lookup v with
    | none => exact ⟨rfl, rfl⟩
    | some d => exact hf.loc v d h
  unfold populateVlan
  rw [if_neg (by simp [h2.2])]
  simp [h1, h2.1]

theorem createNodeVlan_bg {t : SvTopo} {nd : SvNode} (hf : FreshNode t nd) {vlans vlans' : List (String × NVlan)} {b b' : Nat}
    {v : String} {vd : NVlan} (hm : AllMerged vlans) (hk : ∀ w, (vlans.lookup w).isNone → (nd.vlans.lookup w).isNone)
    (hi : BgInv t nd vlans b) (h : createNodeVlan t nd.mode vlans b v = some (vd, vlans', b')) :
    BgInv t nd vlans' b' ∧ ∀ w, (vlans'.lookup w).isNone → (nd.vlans.lookup w).isNone := by
  unfold createNodeVlan at h
  split at h
  · cases h
  · simp only [Option.some.injEq, Prod.mk.injEq] at h
    obtain ⟨rfl, rfl, rfl⟩ := h
    have hpop : populateVlan t nd.mode ((t.vlans.lookup v).getD {}) ((vlans.lookup v).getD {}) =
        { populateVlan t nd.mode ((t.vlans.lookup v).getD {}) ((nd.vlans.lookup v).getD {}) with
          bg := ((vlans.lookup v).getD {}).bg } := by
      cases hl : vlans.lookup v with
      | some d =>
        rw [Option.getD_some, populate_again _ _ _ _ (hm v d hl)]
        exact hi.data v d hl
      | none =>
        have hn := hk v (by rw [hl]; rfl)
        rw [Option.isNone_iff_eq_none] at hn
        have := populate_bg hf v
        rw [hn] at this ⊢
        simp only [Option.getD_none] at this ⊢
        generalize populateVlan t nd.mode ((t.vlans.lookup v).getD {}) {} = Q at this ⊢
        cases Q
        simp only at this
        rw [this]
    generalize hp : populateVlan t nd.mode ((t.vlans.lookup v).getD {}) ((nd.vlans.lookup v).getD {}) = P at hpop
    rw [hpop]
    -- the bridge group of the VLAN
    have key : (∃ d, vlans.lookup v = some d ∧ d.bg.isSome ∧
          setBridgeGroup b { P with bg := ((vlans.lookup v).getD {}).bg } = (d, b)) ∨
        ((∀ d, vlans.lookup v = some d → d.bg = none) ∧
          setBridgeGroup b { P with bg := ((vlans.lookup v).getD {}).bg } = ({ P with bg := some (b + 1) }, b + 1)) := by
      cases hl : vlans.lookup v with
      | none =>
        right
        refine ⟨by simp, ?_⟩
        simp [setBridgeGroup]
      | some d =>
        have hd := hi.data v d hl
        rw [hp] at hd
        rw [Option.getD_some, ← hd]
        cases hb : d.bg with
        | none =>
          right
          refine ⟨?_, ?_⟩
          · intro d' he
            obtain rfl := Option.some.inj he
            exact hb
          · unfold setBridgeGroup
            rw [if_neg (by simp [hb])]
            simp only [Prod.mk.injEq, and_true]
            rw [hd]
        | some x =>
          left
          refine ⟨d, rfl, by simp [hb], ?_⟩
          unfold setBridgeGroup
          rw [if_pos (by simp [hb])]
    have hkeys : ∀ (x : NVlan) w, ((setKey vlans v x).lookup w).isNone → (nd.vlans.lookup w).isNone := by
      intro x w hw
      rw [lookup_setKey] at hw
      split at hw
      · cases hw
      · exact hk w hw
    rcases key with ⟨d, hd, -, he⟩ | ⟨hnone, he⟩
    · rw [he]
      refine ⟨?_, hkeys _⟩
      have hl : ∀ w, (setKey vlans v d).lookup w = vlans.lookup w := by
        intro w
        rw [lookup_setKey]
        split
        · rename_i hw
          rw [hw, hd]
        · rfl
      exact {
        data := by
          intro w e h
          rw [hl] at h
          exact hi.data w e h
        le := by
          intro w e x h
          rw [hl] at h
          exact hi.le w e x h
        inj := by
          intro w u e f x h k
          rw [hl] at h k
          exact hi.inj w u e f x h k }
    · rw [he]
      refine ⟨?_, hkeys _⟩
      exact {
        data := by
          intro w e h
          rw [lookup_setKey] at h
          split at h
          · rename_i hw
            subst hw
            obtain rfl := Option.some.inj h
            rw [hp]
          · exact hi.data w e h
        le := by
          intro w e x h hx
          rw [lookup_setKey] at h
          split at h
          · obtain rfl := Option.some.inj h
            simp only [Option.some.injEq] at hx
            omega
          · have := hi.le w e x h hx
            omega
        inj := by
          intro w u e f x h k hx kx
          rw [lookup_setKey] at h k
          split at h
          · rename_i hw
            split at k
            · rename_i hu
              rw [hw, hu]
            · obtain rfl := Option.some.inj h
              simp only [Option.some.injEq] at hx
              have := hi.le u f x k kx
              omega
          · split at k
            · obtain rfl := Option.some.inj k
              simp only [Option.some.injEq] at kx
              have := hi.le w e x h hx
              omega
            · exact hi.inj w u e f x h k hx kx }

theorem sviStep_vlans {t : SvTopo} {nd : SvNode} {st st' : SvState} {i : SvIf} (h : sviStep t nd st i = .ok st') :
    (st'.vlans = st.vlans ∧ st'.bgMax = st.bgMax) ∨
    ∃ v vd, createNodeVlan t nd.mode st.vlans st.bgMax v = some (vd, st'.vlans, st'.bgMax) := by
  unfold sviStep at h
  split at h
  · simp only [Except.ok.injEq] at h
    subst h
    exact .inl ⟨rfl, rfl⟩
  · right
    rename_i v _
    split at h
    · cases h
    · split at h
      · cases h
      · rename_i vd vlans bg hc
        refine ⟨v, vd, ?_⟩
        split at h
        · simp only [Except.ok.injEq] at h
          subst h
          exact hc
        · split at h
          · cases h
          · split at h
            · cases h
            · simp only [Except.ok.injEq] at h
              subst h
              exact hc

theorem sviLoop_bg {t : SvTopo} {nd : SvNode} (hf : FreshNode t nd) (l : List SvIf) {st st' : SvState} (hm : AllMerged st.vlans)
    (hk : ∀ w, (st.vlans.lookup w).isNone → (nd.vlans.lookup w).isNone) (hi : BgInv t nd st.vlans st.bgMax)
    (h : sviLoop t nd l st = .ok st') : BgInv t nd st'.vlans st'.bgMax := by
  induction l generalizing st with
  | nil =>
    simp only [sviLoop, Except.ok.injEq] at h
    subst h
    exact hi
  | cons i rest ih =>
    simp only [sviLoop] at h
    cases hs : sviStep t nd st i with
    | error a => simp [hs] at h
    | ok st1 =>
      simp only [hs] at h
      rcases sviStep_vlans hs with ⟨h1, h2⟩ | ⟨v, vd, hc⟩
      · exact ih (h1 ▸ hm) (h1 ▸ hk) (by rw [h1, h2]; exact hi) h
      · obtain ⟨h1, h2⟩ := createNodeVlan_bg hf hm hk hi hc
        exact ih (createNodeVlan_spec hm hc).2.2.2 h2 h1 h

theorem createSvi_bg {t : SvTopo} {nd nd' : SvNode} (hf : FreshNode t nd) {upds : List SvUpd}
    (h : createSvi t nd = .ok (nd', upds)) : BgInv t nd nd'.vlans nd'.bgMax := by
  unfold createSvi at h
  cases hl : sviLoop t nd nd.ifs ⟨populateAll t nd, nd.bgMax, [], [], []⟩ with
  | error a => simp [hl] at h
  | ok st =>
    simp only [hl, Except.ok.injEq, Prod.mk.injEq] at h
    obtain ⟨rfl, rfl⟩ := h
    have hbg : ∀ v d, (populateAll t nd).lookup v = some d →
        d = populateVlan t nd.mode ((t.vlans.lookup v).getD {}) ((nd.vlans.lookup v).getD {}) := by
      intro v d hd
      rw [lookup_populateAll, Option.map_eq_some_iff] at hd
      obtain ⟨e, he, rfl⟩ := hd
      rw [he, Option.getD_some]
    refine sviLoop_bg hf nd.ifs ?_ ?_ ?_ hl
    · intro v d hd
      rw [hbg v d hd]
      exact populate_merged _ _ _ _
    · intro w hw
      simp only at hw
      rw [lookup_populateAll] at hw
      simpa using hw
    · exact {
        data := by
          intro v d hd
          rw [hbg v d hd]
        le := by
          intro v d b hd hb
          rw [hbg v d hd, populate_bg hf v] at hb
          cases hb
        inj := by
          intro v w d e b hd _ hb
          rw [hbg v d hd, populate_bg hf v] at hb
          cases hb }

/-! ### C64 -/

theorem forall₂_mem_right {α β : Type} {R : α → β → Prop} {l : List α} {o : List β} (h : List.Forall₂ R l o) {x : β} (hx : x ∈ o) :
    ∃ i ∈ l, R i x := by
  induction h with
  | nil => simp at hx
  | cons hd _ ih =>
    rcases List.mem_cons.mp hx with rfl | hx
    · exact ⟨_, List.mem_cons_self, hd⟩
    · obtain ⟨i, h1, h2⟩ := ih hx
      exact ⟨i, List.mem_cons_of_mem _ h1, h2⟩

theorem forall₂_mem_left {α β : Type} {R : α → β → Prop} {l : List α} {o : List β} (h : List.Forall₂ R l o) {x : α} (hx : x ∈ l) :
    ∃ i ∈ o, R x i :=
  forall₂_mem_right h.flip hx

theorem StepOf.kind {vl : List (String × NVlan)} {i j : SvIf} (h : StepOf vl i j) : j.kind = i.kind := by
  cases h with
  | none _ h => rw [h]
  | routed _ _ _ _ _ _ h =>
    rw [h]
    unfold routedIf
    simp only
    split <;> rfl
  | member _ _ _ _ _ h =>
    rw [h]
    rfl

/-- C64: VLAN interfaces are added after the existing interfaces; there is exactly one for every VLAN with a bridged (access or
native) interface on the node, and none for other VLANs. -/
theorem C64_one_svi {t : SvTopo} {nd nd' : SvNode} {upds : List SvUpd} (h : createSvi t nd = .ok (nd', upds)) :
    ∃ (out : List SvIf) (svis : List (String × SvIf)), nd'.ifs = out ++ svis.map Prod.snd ∧ out.length = nd.ifs.length ∧
      (svis.map Prod.fst).Nodup ∧ (∀ v s, (v, s) ∈ svis → isSviOf s v) ∧
      ∀ v, v ∈ svis.map Prod.fst ↔ ∃ i ∈ nd.ifs, memberOfVlan i v := by
  obtain ⟨st, hi, -, rfl⟩ := createSvi_inv h
  refine ⟨st.out, st.svis, rfl, hi.out.length_eq.symm, hi.nodup, ?_, hi.keys⟩
  intro v s hs
  obtain ⟨fmt, -, i, vd, idx, -, -, -, he⟩ := hi.svi _ hs
  simp only at he
  rw [he]
  exact ⟨rfl, rfl⟩

/-- C64: an interface that is not in a VLAN is not changed.  A bridged interface keeps its index, name, type and VLAN attributes,
loses its addresses, gateway and neighbors (neighbors are saved), and gets the ID of the VLAN.  A routed interface keeps its
addresses and neighbors, and has no access or native VLAN; if it's a VLAN member, it gets the ID of the VLAN. -/
theorem C64_interfaces {t : SvTopo} {nd nd' : SvNode} {upds : List SvUpd} (h : createSvi t nd = .ok (nd', upds)) :
    List.Forall₂ (fun i j =>
      j.ifindex = i.ifindex ∧ j.ifname = i.ifname ∧ j.kind = i.kind ∧ j.trunk = i.trunk ∧
      ((∀ v, ¬ untaggedIn i v) → j = i) ∧
      (∀ v, memberOfVlan i v → j.access = i.access ∧ j.native = i.native ∧ j.ip4 = none ∧ j.ip6 = none ∧ j.gateway = none ∧
        j.neighbors = [] ∧ j.saved = some i.neighbors ∧ ∃ vd, nd'.vlans.lookup v = some vd ∧ j.accessId = vd.id) ∧
      (∀ v, untaggedIn i v → i.mode = some .route → j.access = none ∧ j.native = none ∧ j.neighbors = i.neighbors ∧
        (∀ a, i.ip4 = some a → j.ip4 = some a) ∧ (∀ a, i.ip6 = some a → j.ip6 = some a) ∧
        (i.kind = "vlan_member" → j.attrMode = some .route ∧ j.vname = some v ∧
          ∃ vd, nd'.vlans.lookup v = some vd ∧ j.accessId = vd.id)))
      nd.ifs (nd'.ifs.take nd.ifs.length) := by
  obtain ⟨st, hi, -, rfl⟩ := createSvi_inv h
  simp only
  rw [List.take_left' hi.out.length_eq.symm]
  refine hi.out.imp ?_
  intro i j hs
  cases hs with
  | none h1 h2 =>
    subst h2
    exact ⟨rfl, rfl, rfl, rfl, fun _ => rfl, fun v hv => absurd hv.1 (h1 v), fun v hv => absurd hv (h1 v)⟩
  | member v vd h1 h2 h3 h4 =>
    subst h4
    refine ⟨rfl, rfl, rfl, rfl, fun hn => absurd h1.1 (hn v), ?_, fun w hw hr => absurd hr h1.2⟩
    intro w hw
    obtain rfl := memberOfVlan_unique h1.1 hw.1
    exact ⟨rfl, rfl, rfl, rfl, rfl, rfl, rfl, vd, h2, rfl⟩
  | routed v vd h1 h2 h3 h4 h5 =>
    subst h5
    unfold routedIf
    simp only
    split
    · rename_i hk
      refine ⟨rfl, rfl, rfl, rfl, fun hn => absurd h1 (hn v), fun w hw => absurd h2 hw.2, ?_⟩
      intro w hw _
      obtain rfl := memberOfVlan_unique h1 hw
      exact ⟨rfl, rfl, rfl, fun a ha => by simp [ha], fun a ha => by simp [ha], fun _ => ⟨rfl, rfl, vd, h3, rfl⟩⟩
    · rename_i hk
      refine ⟨rfl, rfl, rfl, rfl, fun hn => absurd h1 (hn v), fun w hw => absurd h2 hw.2, ?_⟩
      intro w hw _
      exact ⟨rfl, rfl, rfl, fun a ha => by simp [ha], fun a ha => by simp [ha], fun hk' => absurd hk' hk⟩

/-- C64: a VLAN interface is created from the first bridged interface in the VLAN: it has its addresses unless the VLAN is in
`bridge` mode, its gateway and the name of its link VLAN.  Its name is built from the ID and the bridge group of the VLAN. -/
theorem C64_svi_data {t : SvTopo} {nd nd' : SvNode} {upds : List SvUpd} (hf : FreshNode t nd)
    (h : createSvi t nd = .ok (nd', upds)) (s : SvIf) (hs : s ∈ nd'.ifs) (v : String) (hv : isSviOf s v) :
    ∃ i vd fmt, firstMember nd.ifs v i ∧ nd'.vlans.lookup v = some vd ∧ nd.sviName = some fmt ∧
      s.ifname = fmt vd.id vd.bg i.ifname ∧ s.isVirtual = true ∧ s.attrMode = some (nodeVlanMode t nd v) ∧
      s.vlanName = i.vlanName ∧ s.gateway = i.gateway ∧ s.neighbors = [] ∧
      (i.attrMode.getD (nodeVlanMode t nd v) ≠ .bridge → s.ip4 = i.ip4 ∧ s.ip6 = i.ip6) ∧
      (i.attrMode.getD (nodeVlanMode t nd v) = .bridge → vd.ip4 = none → vd.ip6 = none → s.ip4 = none ∧ s.ip6 = none) := by
  have hb := createSvi_bg hf h
  obtain ⟨st, hi, -, rfl⟩ := createSvi_inv h
  simp only at hs hb ⊢
  rcases List.mem_append.mp hs with hs | hs
  · -- not an existing interface
    exfalso
    obtain ⟨i, hi', hso⟩ := forall₂_mem_right hi.out hs
    exact hf.svi i hi' (hso.kind.symm.trans hv.1)
  · obtain ⟨p, hp, rfl⟩ := List.mem_map.mp hs
    obtain ⟨fmt, hfm, i, vd, idx, h1, h2, h3, h4⟩ := hi.svi p hp
    have hpv : p.1 = v := by
      have := hv.2
      rw [h4] at this
      exact Option.some.inj this
    rw [hpv] at h1 h2 h4
    have hmode : vd.mode = some (nodeVlanMode t nd v) := by
      rw [hb.data v vd h2]
      have hm : ((nd.vlans.lookup v).getD {}).merged = false := by
        cases hl : nd.vlans.lookup v with
        | none => rfl
        | some d => exact (hf.loc v d hl).2
      unfold populateVlan
      rw [if_neg (by simp [hm])]
      have e : ∀ l : Option NVlan, (l.getD {}).mode = l.bind (·.mode) := by
        intro l
        cases l <;> rfl
      simp only [Option.some.injEq, nodeVlanMode, e]
      generalize (nd.vlans.lookup v).bind (·.mode) = m1
      generalize (t.vlans.lookup v).bind (·.mode) = m3
      cases m1 <;> cases nd.mode <;> cases m3 <;> cases t.mode <;> rfl
    have hsm : sviMode vd i = some (i.attrMode.getD (nodeVlanMode t nd v)) := by
      unfold sviMode
      rw [hmode]
      cases i.attrMode <;> rfl
    refine ⟨i, vd, fmt, h1, h2, hfm, by rw [h4]; rfl, by rw [h4]; rfl, ?_, by rw [h4]; rfl, by rw [h4]; rfl, by rw [h4]; rfl, ?_, ?_⟩
    · rw [h4]
      simp [mkSvi, hmode]
    · intro hne
      rw [h4]
      simp only [mkSvi, hsm]
      rw [if_neg (by simpa using hne), if_neg (by simpa using hne)]
      exact ⟨rfl, rfl⟩
    · intro he e4 e6
      rw [h4]
      simp only [mkSvi, hsm]
      rw [if_pos (by simpa using he), if_pos (by simpa using he)]
      exact ⟨e4, e6⟩

/-- C64: attributes of a VLAN on a node are the attributes specified on the node; attributes not specified there are inherited from
the VLAN in the topology. -/
theorem C64_vlan_data {t : SvTopo} {nd nd' : SvNode} {upds : List SvUpd} (hf : FreshNode t nd)
    (h : createSvi t nd = .ok (nd', upds)) (v : String) (vd : NVlan) (hv : nd'.vlans.lookup v = some vd) :
    vd.id = ((nd.vlans.lookup v).bind (·.id)).or ((t.vlans.lookup v).bind (·.id)) ∧
    vd.ip4 = ((nd.vlans.lookup v).bind (·.ip4)).or ((t.vlans.lookup v).bind (·.ip4)) ∧
    vd.ip6 = ((nd.vlans.lookup v).bind (·.ip6)).or ((t.vlans.lookup v).bind (·.ip6)) ∧
    vd.gateway = ((nd.vlans.lookup v).bind (·.gateway)).or ((t.vlans.lookup v).bind (·.gateway)) ∧
    vd.mode = some (nodeVlanMode t nd v) := by
  have hd := (createSvi_bg hf h).data v vd hv
  have h2 : ((nd.vlans.lookup v).getD {}).merged = false := by
    cases hn : nd.vlans.lookup v with
    | none => rfl
    | some d => exact (hf.loc v d hn).2
  unfold populateVlan at hd
  rw [h2] at hd
  rw [hd]
  unfold nodeVlanMode
  have hm : ∀ a b c d : Option VMode, (((a.or b).or c).or d).getD .irb = firstSet [a, b, c, d] .irb := by
    intro a b c d
    cases a <;> cases b <;> cases c <;> cases d <;> rfl
  rw [← hm]
  cases nd.vlans.lookup v <;> cases t.vlans.lookup v <;> exact ⟨rfl, rfl, rfl, rfl, rfl⟩

/-- C64: interface indices of VLAN interfaces are unique. -/
theorem C64_ifindex {t : SvTopo} {nd nd' : SvNode} {upds : List SvUpd} (hf : FreshNode t nd)
    (h : createSvi t nd = .ok (nd', upds)) :
    ((nd'.ifs.filter (fun i => i.kind = "svi")).map SvIf.ifindex).Nodup := by
  obtain ⟨st, hi, -, rfl⟩ := createSvi_inv h
  simp only [List.filter_append]
  have h1 : st.out.filter (fun i => i.kind = "svi") = [] := by
    rw [List.filter_eq_nil_iff]
    intro x hx
    obtain ⟨i, h1, h2⟩ := forall₂_mem_right hi.out hx
    rw [h2.kind]
    simpa using hf.svi i h1
  have h2 : (st.svis.map Prod.snd).filter (fun i => i.kind = "svi") = st.svis.map Prod.snd := by
    rw [List.filter_eq_self]
    intro x hx
    obtain ⟨p, hp, rfl⟩ := List.mem_map.mp hx
    obtain ⟨fmt, -, i, vd, idx, -, -, -, he⟩ := hi.svi p hp
    rw [he]
    rfl
  rw [h1, h2, List.nil_append, List.map_map]
  exact hi.index

/-- C64: bridge groups are unique, and every VLAN used on an interface has a bridge group. -/
theorem C64_bridge_groups {t : SvTopo} {nd nd' : SvNode} {upds : List SvUpd} (hf : FreshNode t nd)
    (h : createSvi t nd = .ok (nd', upds)) :
    (∀ v w d e b, nd'.vlans.lookup v = some d → nd'.vlans.lookup w = some e → d.bg = some b → e.bg = some b → v = w) ∧
    ∀ i ∈ nd.ifs, ∀ v, untaggedIn i v → ∃ d b, nd'.vlans.lookup v = some d ∧ d.bg = some b := by
  refine ⟨(createSvi_bg hf h).inj, ?_⟩
  obtain ⟨st, hi, -, rfl⟩ := createSvi_inv h
  intro i hm v hv
  simp only
  obtain ⟨j, -, hd⟩ := forall₂_mem_left hi.out hm
  cases hd with
  | none h1 _ => exact absurd hv (h1 v)
  | routed w vd h1 h2 h3 h4 h5 =>
    obtain rfl := memberOfVlan_unique h1 hv
    obtain ⟨b, hb⟩ := Option.isSome_iff_exists.mp h4
    exact ⟨vd, b, h3, hb⟩
  | member w vd h1 h2 h3 h4 =>
    obtain rfl := memberOfVlan_unique h1.1 hv
    obtain ⟨b, hb⟩ := Option.isSome_iff_exists.mp h3
    exact ⟨vd, b, h2, hb⟩

/-! ### C65: neighbor lists -/

theorem replaceLast_nodup (me : SvNgb) {l : List SvNgb} (h : (l.map SvNgb.node).Nodup) :
    replaceLast me l = l.map (fun n => if n.node = me.node then me else n) := by
  induction l with
  | nil => rfl
  | cons n rest ih =>
    rw [List.map_cons, List.nodup_cons] at h
    rw [replaceLast, List.map_cons]
    by_cases hn : n.node = me.node
    · have : rest.any (fun m => m.node = me.node) = false := by
        rw [List.any_eq_false]
        intro m hm he
        exact h.1 (List.mem_map.mpr ⟨m, hm, by rw [hn]; simpa using he⟩)
      rw [if_pos (by simp [hn, this]), if_pos hn]
      congr 1
      symm
      rw [List.map_congr_left (g := id), List.map_id]
      intro m hm
      rw [if_neg]
      · rfl
      · intro he
        exact h.1 (List.mem_map.mpr ⟨m, hm, he.trans hn.symm⟩)
    · rw [if_neg (by simp [hn]), if_neg hn, ih h.2]

/-- The neighbor list built with updates `us`. -/
structure NgbInv (us : List SvUpd) (l : List SvNgb) : Prop where
  nodup : (l.map SvNgb.node).Nodup
  me : ∀ u ∈ us, u.me ∈ l
  phy : ∀ u ∈ us, ∀ n ∈ u.phy, n.node ∈ l.map SvNgb.node
  only : ∀ m ∈ l, (∃ u ∈ us, u.me = m) ∨ ((∃ u ∈ us, m ∈ u.phy) ∧ ∀ u ∈ us, u.me.node ≠ m.node)

/-- No node is attached twice to a link, there's a single VLAN interface on a node. -/
structure SimpleUpds (us : List SvUpd) : Prop where
  nodup : ∀ u ∈ us, (u.phy.map SvNgb.node).Nodup
  self : ∀ u ∈ us, u.me.node ∉ u.phy.map SvNgb.node
  me : ∀ u ∈ us, ∀ w ∈ us, u.me.node = w.me.node → u.me = w.me

theorem any_node (l : List SvNgb) (x : String) : l.any (fun m => m.node = x) = true ↔ x ∈ l.map SvNgb.node := by
  simp [List.any_eq_true]

theorem applyUpd_inv {us : List SvUpd} {l : List SvNgb} {u : SvUpd} (hs : SimpleUpds (us ++ [u])) (hi : NgbInv us l) :
    NgbInv (us ++ [u]) (applyUpd l u) := by
  have hu : u ∈ us ++ [u] := by simp
  have hin : ∀ w ∈ us, w ∈ us ++ [u] := fun w hw => List.mem_append.mpr (.inl hw)
  have hnew : ∀ n, n ∈ u.phy.filter (fun n => !l.any (fun m => m.node = n.node)) ↔ n ∈ u.phy ∧ n.node ∉ l.map SvNgb.node := by
    intro n
    rw [List.mem_filter, ← any_node]
    simp
  have hnd : ((u.phy.filter (fun n => !l.any (fun m => m.node = n.node))).map SvNgb.node).Nodup :=
    (hs.nodup u hu).sublist (List.Sublist.map _ List.filter_sublist)
  obtain ⟨new, hne⟩ : ∃ new, u.phy.filter (fun n => !l.any (fun m => m.node = n.node)) = new := ⟨_, rfl⟩
  rw [hne] at hnew hnd
  -- existing entries are kept, the entry of the node is changed
  have key : ∃ a b, applyUpd l u = a ++ new ++ b ∧ (a ++ b).map SvNgb.node = (l ++ b).map SvNgb.node ∧
      (∀ m, m ∈ a ++ b ↔ (m = u.me) ∨ (m ∈ l ∧ m.node ≠ u.me.node)) ∧
      ((b = [] ∧ u.me.node ∈ l.map SvNgb.node) ∨ (b = [u.me] ∧ u.me.node ∉ l.map SvNgb.node)) := by
    unfold applyUpd
    by_cases hm : u.me.node ∈ l.map SvNgb.node
    · rw [if_pos ((any_node _ _).mpr hm), replaceLast_nodup _ hi.nodup]
      rw [hne]
      refine ⟨l.map (fun n => if n.node = u.me.node then u.me else n), [], ?_, ?_, ?_, .inl ⟨rfl, hm⟩⟩
      · rw [List.append_nil]
      · rw [List.append_nil, List.append_nil, List.map_map]
        apply List.map_congr_left
        intro n _
        simp only [Function.comp]
        split
        · rename_i h
          exact h.symm
        · rfl
      · intro m
        rw [List.append_nil, List.mem_map]
        constructor
        · rintro ⟨n, hn, rfl⟩
          split
          · exact .inl rfl
          · rename_i h
            exact .inr ⟨hn, h⟩
        · rintro (rfl | ⟨h1, h2⟩)
          · obtain ⟨n, hn, he⟩ := List.mem_map.mp hm
            exact ⟨n, hn, if_pos he⟩
          · exact ⟨m, h1, if_neg h2⟩
    · rw [if_neg (by rw [any_node]; exact hm), hne]
      refine ⟨l, [u.me], rfl, rfl, ?_, .inr ⟨rfl, hm⟩⟩
      · intro m
        rw [List.mem_append, List.mem_singleton, or_comm]
        constructor
        · rintro (h | h)
          · exact .inl h
          · exact .inr ⟨h, fun he => hm (List.mem_map.mpr ⟨m, h, he⟩)⟩
        · rintro (h | ⟨h, -⟩)
          · exact .inl h
          · exact .inr h
  obtain ⟨a, b, he, hnodes, hmem, hb⟩ := key
  rw [he]
  have hmem' : ∀ m, m ∈ a ++ new ++ b ↔ (m = u.me ∨ (m ∈ l ∧ m.node ≠ u.me.node)) ∨ (m ∈ u.phy ∧ m.node ∉ l.map SvNgb.node) := by
    intro m
    rw [← hmem, ← hnew]
    simp only [List.mem_append]
    constructor
    · rintro ((h | h) | h)
      · exact .inl (.inl h)
      · exact .inr h
      · exact .inl (.inr h)
    · rintro ((h | h) | h)
      · exact .inl (.inl h)
      · exact .inr h
      · exact .inl (.inr h)
  have hself : u.me.node ∉ u.phy.map SvNgb.node := hs.self u hu
  have hkeep : ∀ x ∈ l.map SvNgb.node, x ∈ (a ++ new ++ b).map SvNgb.node := by
    intro x hx
    obtain ⟨m, hm, rfl⟩ := List.mem_map.mp hx
    by_cases hxe : m.node = u.me.node
    · exact List.mem_map.mpr ⟨u.me, (hmem' _).mpr (.inl (.inl rfl)), hxe.symm⟩
    · exact List.mem_map.mpr ⟨m, (hmem' _).mpr (.inl (.inr ⟨hm, hxe⟩)), rfl⟩
  exact {
    nodup := by
      have hp : ((a ++ new ++ b).map SvNgb.node).Perm ((l ++ b).map SvNgb.node ++ new.map SvNgb.node) := by
        rw [← hnodes]
        simp only [List.map_append]
        rw [List.append_assoc, List.append_assoc]
        exact List.Perm.append_left _ List.perm_append_comm
      rw [hp.nodup_iff, List.nodup_append]
      refine ⟨?_, hnd, ?_⟩
      · rcases hb with ⟨rfl, -⟩ | ⟨rfl, hm⟩
        · simpa using hi.nodup
        · rw [List.map_append, List.nodup_append]
          refine ⟨hi.nodup, by simp, ?_⟩
          intro x hx y hy hxy
          simp only [List.map_cons, List.map_nil, List.mem_singleton] at hy
          exact hm (hy ▸ hxy ▸ hx)
      · intro x hx y hy hxy
        obtain ⟨n, hn, rfl⟩ := List.mem_map.mp hy
        have hn' := (hnew n).mp hn
        rw [List.map_append, List.mem_append] at hx
        rcases hx with hx | hx
        · exact hn'.2 (hxy ▸ hx)
        · rcases hb with ⟨rfl, -⟩ | ⟨rfl, -⟩
          · simp at hx
          · simp only [List.map_cons, List.map_nil, List.mem_singleton] at hx
            exact hself (List.mem_map.mpr ⟨n, hn'.1, hxy.symm.trans hx⟩)
    me := by
      intro w hw
      rw [hmem']
      rcases List.mem_append.mp hw with hw' | hw'
      · by_cases hx : w.me.node = u.me.node
        · exact .inl (.inl (hs.me w hw u hu hx))
        · exact .inl (.inr ⟨hi.me w hw', hx⟩)
      · rw [List.mem_singleton.mp hw']
        exact .inl (.inl rfl)
    phy := by
      intro w hw n hn
      rcases List.mem_append.mp hw with hw' | hw'
      · exact hkeep _ (hi.phy w hw' n hn)
      · rw [List.mem_singleton.mp hw'] at hn
        by_cases hx : n.node ∈ l.map SvNgb.node
        · exact hkeep _ hx
        · exact List.mem_map.mpr ⟨n, (hmem' n).mpr (.inr ⟨hn, hx⟩), rfl⟩
    only := by
      intro m hm
      rcases (hmem' m).mp hm with (h1 | ⟨h1, h2⟩) | ⟨h1, h2⟩
      · exact .inl ⟨u, hu, h1.symm⟩
      · rcases hi.only m h1 with ⟨w, hw, hwe⟩ | ⟨⟨w, hw, hwe⟩, hno⟩
        · exact .inl ⟨w, hin w hw, hwe⟩
        · refine .inr ⟨⟨w, hin w hw, hwe⟩, ?_⟩
          intro x hx
          rcases List.mem_append.mp hx with hx | hx
          · exact hno x hx
          · rw [List.mem_singleton.mp hx]
            exact h2.symm
      · refine .inr ⟨⟨u, hu, h1⟩, ?_⟩
        intro x hx
        rcases List.mem_append.mp hx with hx | hx
        · intro hxe
          exact h2 (List.mem_map.mpr ⟨x.me, hi.me x hx, hxe⟩)
        · rw [List.mem_singleton.mp hx]
          intro hxe
          exact hself (List.mem_map.mpr ⟨m, h1, hxe.symm⟩) }

theorem foldl_inv (us done : List SvUpd) {l : List SvNgb} (hs : SimpleUpds (done ++ us)) (hi : NgbInv done l) :
    NgbInv (done ++ us) (us.foldl applyUpd l) := by
  induction us generalizing done l with
  | nil => simpa using hi
  | cons u rest ih =>
    rw [List.foldl_cons]
    have he : done ++ u :: rest = (done ++ [u]) ++ rest := by simp
    rw [he] at hs ⊢
    refine ih (done ++ [u]) hs (applyUpd_inv ?_ hi)
    exact {
      nodup := fun w hw => hs.nodup w (List.mem_append.mpr (.inl hw))
      self := fun w hw => hs.self w (List.mem_append.mpr (.inl hw))
      me := fun w hw x hx => hs.me w (List.mem_append.mpr (.inl hw)) x (List.mem_append.mpr (.inl hx)) }

/-- What happens to a node. -/
def NodeOf (t : SvTopo) (upds : List SvUpd) (nd nd' : SvNode) : Prop :=
  (nd.aware = false ∧ nd' = nd) ∨ (nd.aware = true ∧ ∃ us, createSvi t nd = .ok (nd', us) ∧ ∀ u ∈ us, u ∈ upds)

theorem vlanIfNodes_spec (t : SvTopo) (nodes : List SvNode) {l : List SvNode} {upds : List SvUpd} (h : vlanIfNodes t nodes = .ok (l, upds)) :
    List.Forall₂ (NodeOf t upds) nodes l ∧
    ∀ u ∈ upds, ∃ nd ∈ nodes, nd.aware = true ∧ ∃ nd' us, createSvi t nd = .ok (nd', us) ∧ u ∈ us := by
  induction nodes generalizing l upds with
  | nil =>
    simp only [vlanIfNodes, Except.ok.injEq, Prod.mk.injEq] at h
    obtain ⟨rfl, rfl⟩ := h
    exact ⟨.nil, by simp⟩
  | cons nd rest ih =>
    unfold vlanIfNodes at h
    by_cases ha : nd.aware = true
    · rw [if_pos ha] at h
      cases hc : createSvi t nd with
      | error a => simp [hc] at h
      | ok r =>
        obtain ⟨nd', u⟩ := r
        simp only [hc] at h
        cases hr : vlanIfNodes t rest with
        | error a => simp [hr] at h
        | ok r =>
          obtain ⟨l', us⟩ := r
          simp only [hr, Except.ok.injEq, Prod.mk.injEq] at h
          obtain ⟨rfl, rfl⟩ := h
          obtain ⟨h1, h2⟩ := ih hr
          refine ⟨.cons (.inr ⟨ha, u, hc, fun x hx => List.mem_append.mpr (.inl hx)⟩) (h1.imp ?_), ?_⟩
          · rintro x y (hx | ⟨hx, us', hx2, hx3⟩)
            · exact .inl hx
            · exact .inr ⟨hx, us', hx2, fun z hz => List.mem_append.mpr (.inr (hx3 z hz))⟩
          · intro x hx
            rcases List.mem_append.mp hx with hx | hx
            · exact ⟨nd, List.mem_cons_self, ha, nd', u, hc, hx⟩
            · obtain ⟨n, hn, r⟩ := h2 x hx
              exact ⟨n, List.mem_cons_of_mem _ hn, r⟩
    · rw [if_neg ha] at h
      cases hr : vlanIfNodes t rest with
      | error a => simp [hr] at h
      | ok r =>
        obtain ⟨l', us⟩ := r
        simp only [hr, Except.ok.injEq, Prod.mk.injEq] at h
        obtain ⟨rfl, rfl⟩ := h
        obtain ⟨h1, h2⟩ := ih hr
        refine ⟨.cons (.inl ⟨by simpa using ha, rfl⟩) h1, ?_⟩
        intro x hx
        obtain ⟨n, hn, r⟩ := h2 x hx
        exact ⟨n, List.mem_cons_of_mem _ hn, r⟩

theorem eq_of_name {l : List SvNode} (h : (l.map SvNode.name).Nodup) {a b : SvNode} (ha : a ∈ l) (hb : b ∈ l)
    (he : a.name = b.name) : a = b :=
  List.inj_on_of_nodup_map h ha hb he

theorem createSvi_name {t : SvTopo} {nd nd' : SvNode} {us : List SvUpd} (h : createSvi t nd = .ok (nd', us)) :
    nd'.name = nd.name ∧ nd'.isHost = nd.isHost := by
  obtain ⟨st, -, -, rfl⟩ := createSvi_inv h
  exact ⟨rfl, rfl⟩

theorem NodeOf.name {t : SvTopo} {upds : List SvUpd} {nd nd' : SvNode} (h : NodeOf t upds nd nd') :
    nd'.name = nd.name ∧ nd'.isHost = nd.isHost := by
  rcases h with ⟨-, rfl⟩ | ⟨-, us, h, -⟩
  · exact ⟨rfl, rfl⟩
  · exact createSvi_name h

/-- VLAN interfaces of a node. -/
theorem createSvi_svi {t : SvTopo} {nd nd' : SvNode} {us : List SvUpd} (hf : FreshNode t nd) (h : createSvi t nd = .ok (nd', us)) :
    (∀ u ∈ us, ∃ i ∈ nd.ifs, ∃ v s, memberOfVlan i v ∧ s ∈ nd'.ifs ∧ isSviOf s v ∧
      u = ⟨vlanKey t nd.name v, i.neighbors, ngbEntry nd.name s⟩) ∧
    (∀ i ∈ nd.ifs, ∀ v, memberOfVlan i v → ∃ s ∈ nd'.ifs, isSviOf s v ∧
      ⟨vlanKey t nd.name v, i.neighbors, ngbEntry nd.name s⟩ ∈ us) ∧
    (∀ s ∈ nd'.ifs, ∀ v, isSviOf s v → ∃ i ∈ nd.ifs, memberOfVlan i v) ∧
    (∀ s ∈ nd'.ifs, ∀ s' ∈ nd'.ifs, ∀ v, isSviOf s v → isSviOf s' v → s = s') := by
  obtain ⟨st, hi, rfl, rfl⟩ := createSvi_inv h
  have hk : ∀ p ∈ st.svis, isSviOf p.2 p.1 := by
    intro p hp
    obtain ⟨fmt, -, i, vd, idx, -, -, -, he⟩ := hi.svi p hp
    rw [he]
    exact ⟨rfl, rfl⟩
  have hin : ∀ v s, st.svis.lookup v = some s → s ∈ st.out ++ st.svis.map Prod.snd ∧ isSviOf s v := by
    intro v s hl
    have := mem_of_lookup hl
    exact ⟨List.mem_append.mpr (.inr (List.mem_map.mpr ⟨_, this, rfl⟩)), hk _ this⟩
  have hout : ∀ s ∈ st.out ++ st.svis.map Prod.snd, ∀ v, isSviOf s v → (v, s) ∈ st.svis := by
    intro s hs v hv
    rcases List.mem_append.mp hs with hs | hs
    · obtain ⟨i, h1, h2⟩ := forall₂_mem_right hi.out hs
      exact absurd (h2.kind.symm.trans hv.1) (hf.svi i h1)
    · obtain ⟨p, hp, rfl⟩ := List.mem_map.mp hs
      have := hk p hp
      have he : p.1 = v := Option.some.inj (this.2.symm.trans hv.2)
      rw [← he]
      exact hp
  refine ⟨?_, ?_, ?_, ?_⟩
  · intro u hu
    obtain ⟨i, h1, v, s, h2, h3, h4⟩ := hi.upd u hu
    exact ⟨i, h1, v, s, h2, (hin v s h3).1, (hin v s h3).2, h4⟩
  · intro i h1 v h2
    obtain ⟨s, h3, h4⟩ := hi.all i h1 v h2
    exact ⟨s, (hin v s h3).1, (hin v s h3).2, h4⟩
  · intro s hs v hv
    exact (hi.keys v).mp (List.mem_map.mpr ⟨_, hout s hs v hv, rfl⟩)
  · intro s hs s' hs' v hv hv'
    have h1 := lookup_of_mem hi.nodup (hout s hs v hv)
    have h2 := lookup_of_mem hi.nodup (hout s' hs' v hv')
    exact Option.some.inj (h1.symm.trans h2)

/-- The neighbor list of a VLAN, including all nodes. -/
theorem vlanNgb_spec {t : SvTopo} {nodes l : List SvNode} {upds : List SvUpd} (hin : SviInput t nodes)
    (h : vlanIfNodes t nodes = .ok (l, upds)) {k : Option String × String} {v : String} {scope : String → Prop}
    (hk : ∀ n w, vlanKey t n w = k ↔ w = v ∧ scope n) :
    ((vlanNgb upds k).map SvNgb.node).Nodup ∧
    (∀ n s, scope n → sviOn l n v s → ngbEntry n s ∈ vlanNgb upds k) ∧
    (∀ n g, scope n → onMemberLink nodes n v g → g.node ∈ (vlanNgb upds k).map SvNgb.node) ∧
    ∀ g ∈ vlanNgb upds k, (∃ n s, scope n ∧ sviOn l n v s ∧ g = ngbEntry n s) ∨
      ((∃ n, scope n ∧ onMemberLink nodes n v g) ∧ ∀ s, scope g.node → ¬ sviOn l g.node v s) := by
  obtain ⟨hF, hU⟩ := vlanIfNodes_spec t nodes h
  -- where updates come from
  have hupd : ∀ u ∈ upds.filter (fun u => u.key = k), ∃ nd ∈ nodes, nd.aware = true ∧ ∃ nd' ∈ l, ∃ us, createSvi t nd = .ok (nd', us) ∧
      scope nd.name ∧ ∃ i ∈ nd.ifs, ∃ s ∈ nd'.ifs, memberOfVlan i v ∧ isSviOf s v ∧ u.phy = i.neighbors ∧ u.me = ngbEntry nd.name s := by
    intro u hu
    rw [List.mem_filter] at hu
    obtain ⟨nd, hn, ha, nd', us, hc, hus⟩ := hU u hu.1
    obtain ⟨i, h1, w, s, h2, h3, h4, rfl⟩ := (createSvi_svi (hin.fresh nd hn) hc).1 u hus
    have hkw := (hk nd.name w).mp (by simpa using hu.2)
    obtain ⟨rfl, hsc⟩ := hkw
    obtain ⟨nd2, hn2, h5⟩ := forall₂_mem_left hF hn
    have : nd2 = nd' := by
      rcases h5 with ⟨h5, -⟩ | ⟨-, us', h5, -⟩
      · rw [ha] at h5
        cases h5
      · rw [hc] at h5
        exact (Prod.mk.inj (Except.ok.inj h5)).1.symm
    subst this
    exact ⟨nd, hn, ha, nd2, hn2, us, hc, hsc, i, h1, s, h3, h2, h4, rfl, rfl⟩
  have hsvi : ∀ n s, scope n → sviOn l n v s → ∃ u ∈ upds.filter (fun u => u.key = k), u.me = ngbEntry n s := by
    rintro n s hsc ⟨nd', hn', rfl, hs, hv⟩
    obtain ⟨nd, hn, h5⟩ := forall₂_mem_right hF hn'
    have hnm := h5.name.1
    rcases h5 with ⟨-, rfl⟩ | ⟨-, us, hc, hsub⟩
    · exact absurd hv.1 ((hin.fresh nd' hn).svi s hs)
    · obtain ⟨-, h2, h3, h4⟩ := createSvi_svi (hin.fresh nd hn) hc
      obtain ⟨i, h6, h7⟩ := h3 s hs v hv
      obtain ⟨s', h8, h9, h10⟩ := h2 i h6 v h7
      obtain rfl := h4 s hs s' h8 v hv h9
      refine ⟨_, List.mem_filter.mpr ⟨hsub _ h10, ?_⟩, by rw [hnm]⟩
      rw [hnm] at hsc
      simpa using (hk nd.name v).mpr ⟨rfl, hsc⟩
  have hphy : ∀ n g, scope n → onMemberLink nodes n v g → ∃ u ∈ upds.filter (fun u => u.key = k), g ∈ u.phy := by
    rintro n g hsc ⟨nd, hn, rfl, ha, i, hi, hm, hg⟩
    obtain ⟨nd', hn', h5⟩ := forall₂_mem_left hF hn
    rcases h5 with ⟨h5, -⟩ | ⟨-, us, hc, hsub⟩
    · rw [ha] at h5
      cases h5
    · obtain ⟨-, h2, -, -⟩ := createSvi_svi (hin.fresh nd hn) hc
      obtain ⟨s', h8, h9, h10⟩ := h2 i hi v hm
      refine ⟨_, List.mem_filter.mpr ⟨hsub _ h10, ?_⟩, hg⟩
      simpa using (hk nd.name v).mpr ⟨rfl, hsc⟩
  have hsimple : SimpleUpds (upds.filter (fun u => u.key = k)) := {
    nodup := by
      intro u hu
      obtain ⟨nd, hn, -, nd', -, us, -, -, i, hi, s, -, -, -, he, -⟩ := hupd u hu
      rw [he]
      exact (hin.simple nd hn i hi).1
    self := by
      intro u hu
      obtain ⟨nd, hn, -, nd', -, us, -, -, i, hi, s, -, -, -, he, he2⟩ := hupd u hu
      rw [he, he2]
      exact (hin.simple nd hn i hi).2
    me := by
      intro u hu w hw huw
      obtain ⟨nd, hn, -, nd', -, us, hc, -, i, -, s, hs, -, hv, -, he⟩ := hupd u hu
      obtain ⟨nd2, hn2, -, nd2', -, us2, hc2, -, i2, -, s2, hs2, -, hv2, -, he2⟩ := hupd w hw
      rw [he, he2] at huw ⊢
      obtain rfl := eq_of_name hin.names hn hn2 huw
      rw [hc] at hc2
      obtain ⟨rfl, rfl⟩ := Prod.mk.inj (Except.ok.inj hc2)
      rw [(createSvi_svi (hin.fresh nd hn) hc).2.2.2 s hs s2 hs2 v hv hv2] }
  have hinv : NgbInv (upds.filter (fun u => u.key = k)) (vlanNgb upds k) := by
    have h0 : NgbInv [] [] := ⟨by simp, by simp, by simp, by simp⟩
    have := foldl_inv (upds.filter (fun u => u.key = k)) [] (by simpa using hsimple) h0
    rw [List.nil_append] at this
    exact this
  refine ⟨hinv.nodup, ?_, ?_, ?_⟩
  · intro n s hsc hs
    obtain ⟨u, hu, he⟩ := hsvi n s hsc hs
    exact he ▸ hinv.me u hu
  · intro n g hsc hg
    obtain ⟨u, hu, he⟩ := hphy n g hsc hg
    exact hinv.phy u hu g he
  · intro g hg
    rcases hinv.only g hg with ⟨u, hu, rfl⟩ | ⟨⟨u, hu, hgu⟩, hno⟩
    · obtain ⟨nd, hn, -, nd', hn', us, hc, hsc, i, -, s, hs, -, hv, -, he⟩ := hupd u hu
      exact .inl ⟨nd.name, s, hsc, ⟨nd', hn', (createSvi_name hc).1, hs, hv⟩, he⟩
    · refine .inr ⟨?_, ?_⟩
      · obtain ⟨nd, hn, ha, nd', hn', us, hc, hsc, i, hi, s, -, hm, -, he, -⟩ := hupd u hu
        exact ⟨nd.name, hsc, nd, hn, rfl, ha, i, hi, hm, he ▸ hgu⟩
      · intro s hsc hs
        obtain ⟨w, hw, he⟩ := hsvi g.node s hsc hs
        exact hno w hw (by rw [he]; rfl)

theorem setNgb_same (t : SvTopo) (nodes : List SvNode) (upds : List SvUpd) (nd : SvNode) (i : SvIf) :
    (setNgb t nodes upds nd i).kind = i.kind ∧ (setNgb t nodes upds nd i).vname = i.vname ∧
    (setNgb t nodes upds nd i).ifname = i.ifname ∧ (setNgb t nodes upds nd i).ip4 = i.ip4 ∧
    (setNgb t nodes upds nd i).ip6 = i.ip6 ∧ (setNgb t nodes upds nd i).vlanName = i.vlanName ∧
    (setNgb t nodes upds nd i).routedLink = i.routedLink := by
  unfold setNgb
  split
  · exact ⟨rfl, rfl, rfl, rfl, rfl, rfl, rfl⟩
  · split
    · exact ⟨rfl, rfl, rfl, rfl, rfl, rfl, rfl⟩
    · split <;> exact ⟨rfl, rfl, rfl, rfl, rfl, rfl, rfl⟩

theorem sviOn_set {t : SvTopo} {l : List SvNode} {upds : List SvUpd} {n v : String} {s : SvIf} :
    sviOn (l.map (fun nd => { nd with ifs := nd.ifs.map (setNgb t l upds nd) })) n v s ↔
    ∃ nd ∈ l, ∃ s0 ∈ nd.ifs, nd.name = n ∧ isSviOf s0 v ∧ s = setNgb t l upds nd s0 := by
  unfold sviOn
  constructor
  · rintro ⟨nd', hn, hname, hs, hv⟩
    obtain ⟨nd, hnd, rfl⟩ := List.mem_map.mp hn
    obtain ⟨s0, hs0, rfl⟩ := List.mem_map.mp hs
    obtain ⟨h1, h2, -⟩ := setNgb_same t l upds nd s0
    exact ⟨nd, hnd, s0, hs0, hname, ⟨h1.symm.trans hv.1, h2.symm.trans hv.2⟩, rfl⟩
  · rintro ⟨nd, hnd, s0, hs0, hname, hv, rfl⟩
    obtain ⟨h1, h2, -⟩ := setNgb_same t l upds nd s0
    exact ⟨_, List.mem_map.mpr ⟨nd, hnd, rfl⟩, hname, List.mem_map.mpr ⟨s0, hs0, rfl⟩, h1.trans hv.1, h2.trans hv.2⟩

theorem ngbEntry_set (t : SvTopo) (l : List SvNode) (upds : List SvUpd) (nd : SvNode) (n : String) (s : SvIf) :
    ngbEntry n (setNgb t l upds nd s) = ngbEntry n s := by
  obtain ⟨-, -, h3, h4, h5, -⟩ := setNgb_same t l upds nd s
  unfold ngbEntry
  rw [h3, h4, h5]

/-- The list used for an interface. -/
theorem neighbors_of_key {t : SvTopo} {nodes l : List SvNode} {upds : List SvUpd} (hin : SviInput t nodes)
    (h : vlanIfNodes t nodes = .ok (l, upds)) {k : Option String × String} {v : String} {scope : String → Prop}
    (hk : ∀ n w, vlanKey t n w = k ↔ w = v ∧ scope n) (me : String) :
    VlanNeighbors nodes (l.map (fun nd => { nd with ifs := nd.ifs.map (setNgb t l upds nd) })) scope me v
      ((vlanNgb upds k).filter (fun n => n.node ≠ me)) := by
  obtain ⟨h1, h2, h3, h4⟩ := vlanNgb_spec hin h hk
  have hmem : ∀ x, x ∈ ((vlanNgb upds k).filter (fun n => n.node ≠ me)).map SvNgb.node ↔
      x ∈ (vlanNgb upds k).map SvNgb.node ∧ x ≠ me := by
    intro x
    simp only [List.mem_map, List.mem_filter, decide_eq_true_eq]
    constructor
    · rintro ⟨g, ⟨hg, hne⟩, rfl⟩
      exact ⟨⟨g, hg, rfl⟩, hne⟩
    · rintro ⟨⟨g, hg, rfl⟩, hne⟩
      exact ⟨g, ⟨hg, hne⟩, rfl⟩
  exact {
    once := h1.sublist (List.Sublist.map _ List.filter_sublist)
    others := fun hm => ((hmem me).mp hm).2 rfl
    svi := by
      intro n s hsc hne hs
      obtain ⟨nd, hnd, s0, hs0, hname, hv, rfl⟩ := sviOn_set.mp hs
      rw [ngbEntry_set]
      exact List.mem_filter.mpr ⟨h2 n s0 hsc ⟨nd, hnd, hname, hs0, hv⟩, decide_eq_true hne⟩
    phy := by
      intro n g hsc hne hg
      exact (hmem _).mpr ⟨h3 n g hsc hg, hne⟩
    only := by
      intro g hg
      rcases h4 g (List.mem_filter.mp hg).1 with ⟨n, s, hsc, ⟨nd, hnd, hname, hs0, hv⟩, he⟩ | ⟨hl, hno⟩
      · refine .inl ⟨n, setNgb t l upds nd s, hsc, sviOn_set.mpr ⟨nd, hnd, s, hs0, hname, hv, rfl⟩, ?_⟩
        rw [ngbEntry_set]
        exact he
      · refine .inr ⟨hl, ?_⟩
        intro s hsc hs
        obtain ⟨nd, hnd, s0, hs0, hname, hv, rfl⟩ := sviOn_set.mp hs
        exact hno s0 hsc ⟨nd, hnd, hname, hs0, hv⟩ }

theorem vlanKey_global {t : SvTopo} {v : String} (h : (t.vlans.lookup v).isSome) (n w : String) :
    vlanKey t n w = (none, v) ↔ w = v ∧ True := by
  unfold vlanKey
  split
  · simp
  · rename_i hw
    simp only [Prod.mk.injEq, reduceCtorEq, false_and, and_true, false_iff]
    rintro rfl
    exact hw h

theorem vlanKey_local {t : SvTopo} {v me : String} (h : t.vlans.lookup v = none) (n w : String) :
    vlanKey t n w = (some me, v) ↔ w = v ∧ n = me := by
  unfold vlanKey
  split
  · rename_i hw
    simp only [Prod.mk.injEq, reduceCtorEq, false_and, false_iff]
    rintro ⟨rfl, -⟩
    simp [h] at hw
  · simp [and_comm]

/-- C65: an interface in a global VLAN (a VLAN interface, or an interface of a node that doesn't use VLANs) has all other
nodes in the VLAN as neighbors. -/
theorem C65_global {t : SvTopo} {nodes after : List SvNode} (hin : SviInput t nodes) (h : sviTopology t nodes = .ok after)
    (nd : SvNode) (hnd : nd ∈ after) (s : SvIf) (hs : s ∈ nd.ifs) (v : String) (hv : s.vlanName = some v) (hr : s.routedLink = false)
    (hg : (t.vlans.lookup v).isSome) : VlanNeighbors nodes after (fun _ => True) nd.name v s.neighbors := by
  unfold sviTopology at h
  cases hc : vlanIfNodes t nodes with
  | error a => simp [hc] at h
  | ok r =>
    obtain ⟨l, upds⟩ := r
    simp only [hc, Except.ok.injEq] at h
    subst h
    obtain ⟨m, hm, rfl⟩ := List.mem_map.mp hnd
    obtain ⟨s0, hs0, rfl⟩ := List.mem_map.mp hs
    obtain ⟨-, -, -, -, -, h6, h7⟩ := setNgb_same t l upds m s0
    rw [h6] at hv
    rw [h7] at hr
    have : (setNgb t l upds m s0).neighbors = (vlanNgb upds (none, v)).filter (fun n => n.node ≠ m.name) := by
      unfold setNgb ngbKey
      simp only [hv, hr, hg, if_true]
      rfl
    rw [this]
    exact neighbors_of_key hin hc (vlanKey_global hg) m.name

/-- C65: an interface in a VLAN that exists only on the node has neighbors on the links of that node. -/
theorem C65_local {t : SvTopo} {nodes after : List SvNode} (hin : SviInput t nodes) (h : sviTopology t nodes = .ok after)
    (nd : SvNode) (hnd : nd ∈ after) (s : SvIf) (hs : s ∈ nd.ifs) (v : String) (hv : s.vlanName = some v) (hr : s.routedLink = false)
    (hg : t.vlans.lookup v = none) (hl : (nd.vlans.lookup v).isSome) :
    VlanNeighbors nodes after (fun n => n = nd.name) nd.name v s.neighbors := by
  unfold sviTopology at h
  cases hc : vlanIfNodes t nodes with
  | error a => simp [hc] at h
  | ok r =>
    obtain ⟨l, upds⟩ := r
    simp only [hc, Except.ok.injEq] at h
    subst h
    obtain ⟨m, hm, rfl⟩ := List.mem_map.mp hnd
    obtain ⟨s0, hs0, rfl⟩ := List.mem_map.mp hs
    obtain ⟨-, -, -, -, -, h6, h7⟩ := setNgb_same t l upds m s0
    rw [h6] at hv
    rw [h7] at hr
    have : (setNgb t l upds m s0).neighbors = (vlanNgb upds (some m.name, v)).filter (fun n => n.node ≠ m.name) := by
      unfold setNgb ngbKey
      simp only at hl
      simp only [hv, hr, hg, hl, if_true]
      rfl
    rw [this]
    exact neighbors_of_key hin hc (vlanKey_local hg) m.name

theorem length_split {l : List SvNgb} (h : (l.map SvNgb.node).Nodup) {g : SvNgb} (hg : g ∈ l) :
    l.length = (l.filter (fun n => n.node ≠ g.node)).length + 1 := by
  induction l with
  | nil => simp at hg
  | cons a rest ih =>
    rw [List.map_cons, List.nodup_cons] at h
    rcases List.mem_cons.mp hg with rfl | hg
    · rw [List.filter_cons_of_neg (by simp), List.filter_eq_self.mpr]
      · rfl
      · intro x hx
        have : x.node ≠ g.node := fun he => h.1 (List.mem_map.mpr ⟨x, hx, he⟩)
        simpa using this
    · have : a.node ≠ g.node := fun he => h.1 (List.mem_map.mpr ⟨g, hg, he.symm⟩)
      rw [List.filter_cons_of_pos (by simpa using this), List.length_cons, List.length_cons, ← ih h.2 hg]

/-- C65: the VLAN interface of a router or a switch has `stub` role if all its neighbors are hosts, and no role otherwise. -/
theorem C65_stub {t : SvTopo} {nodes after : List SvNode} (hin : SviInput t nodes) (h : sviTopology t nodes = .ok after)
    (nd : SvNode) (hnd : nd ∈ after) (hh : nd.isHost = false) (s : SvIf) (hs : s ∈ nd.ifs) (v : String) (hsv : isSviOf s v)
    (hv : s.vlanName = some v) :
    ((∀ g ∈ s.neighbors, isHostNode nodes g.node) → s.role = some "stub") ∧
    ((∃ g ∈ s.neighbors, ¬ isHostNode nodes g.node) → s.role = none) := by
  unfold sviTopology at h
  cases hc : vlanIfNodes t nodes with
  | error a => simp [hc] at h
  | ok r =>
    obtain ⟨l, upds⟩ := r
    simp only [hc, Except.ok.injEq] at h
    subst h
    obtain ⟨m, hm, rfl⟩ := List.mem_map.mp hnd
    obtain ⟨s0, hs0, rfl⟩ := List.mem_map.mp hs
    obtain ⟨e1, e2, -, -, -, h6, h7⟩ := setNgb_same t l upds m s0
    rw [h6] at hv
    have hsv0 : isSviOf s0 v := ⟨e1.symm.trans hsv.1, e2.symm.trans hsv.2⟩
    -- the interface is created here
    obtain ⟨hF, -⟩ := vlanIfNodes_spec t nodes hc
    obtain ⟨m0, hm0, h5⟩ := forall₂_mem_right hF hm
    have hnm := h5.name
    have hcr : s0.routedLink = false ∧ s0.role = none ∧ (m.vlans.lookup v).isSome := by
      rcases h5 with ⟨-, rfl⟩ | ⟨-, us, hcs, -⟩
      · exact absurd hsv0.1 ((hin.fresh m hm0).svi s0 hs0)
      · obtain ⟨st, hi, -, rfl⟩ := createSvi_inv hcs
        rcases List.mem_append.mp hs0 with hs' | hs'
        · obtain ⟨i, h8, h9⟩ := forall₂_mem_right hi.out hs'
          exact absurd (h9.kind.symm.trans hsv0.1) ((hin.fresh m0 hm0).svi i h8)
        · obtain ⟨p, hp, rfl⟩ := List.mem_map.mp hs'
          obtain ⟨fmt, -, i, vd, idx, -, h10, -, he⟩ := hi.svi p hp
          have hpv : p.1 = v := by
            have := hsv0.2
            rw [he] at this
            exact Option.some.inj this
          refine ⟨by rw [he]; rfl, by rw [he]; rfl, ?_⟩
          rw [← hpv, h10]
          rfl
    obtain ⟨hr, hrole, hvl⟩ := hcr
    obtain ⟨k, hk1, scope, hk2, hsc⟩ : ∃ k, ngbKey t l m s0 v = some k ∧ ∃ scope : String → Prop,
        (∀ n w, vlanKey t n w = k ↔ w = v ∧ scope n) ∧ scope m.name := by
      by_cases hg : (t.vlans.lookup v).isSome
      · exact ⟨(none, v), by unfold ngbKey; rw [if_pos hg], fun _ => True, vlanKey_global hg, trivial⟩
      · refine ⟨(some m.name, v), ?_, fun n => n = m.name, vlanKey_local (Option.not_isSome_iff_eq_none.mp hg), rfl⟩
        unfold ngbKey
        rw [if_neg hg, if_pos hvl]
    obtain ⟨hnd1, hnd2, -, -⟩ := vlanNgb_spec hin hc hk2
    have hself := hnd2 m.name s0 hsc ⟨m, hm, rfl, hs0, hsv0⟩
    have hset : setNgb t l upds m s0 = { s0 with
        role := if s0.role.isNone && (vlanNgb upds k).length = hostCount l (vlanNgb upds k) + 1 then some "stub" else s0.role
        neighbors := (vlanNgb upds k).filter (fun n => n.node ≠ m.name) } := by
      unfold setNgb
      simp only [hv, hr, hk1]
      rfl
    rw [hset]
    simp only [hrole]
    -- names and roles don't change
    have hhost : ∀ x, l.any (fun y => y.name = x && y.isHost) = true ↔ isHostNode nodes x := by
      intro x
      rw [List.any_eq_true]
      unfold isHostNode
      constructor
      · rintro ⟨y, hy, hx⟩
        obtain ⟨z, hz, hzy⟩ := forall₂_mem_right hF hy
        obtain ⟨n1, n2⟩ := hzy.name
        simp only [Bool.and_eq_true, decide_eq_true_eq] at hx
        exact ⟨z, hz, by rw [← n1]; exact hx.1, by rw [← n2]; exact hx.2⟩
      · rintro ⟨z, hz, hx1, hx2⟩
        obtain ⟨y, hy, hzy⟩ := forall₂_mem_left hF hz
        obtain ⟨n1, n2⟩ := hzy.name
        exact ⟨y, hy, by simp [n1, n2, hx1, hx2]⟩
    have hnot : ¬ isHostNode nodes m.name := by
      rintro ⟨z, hz, hz1, hz2⟩
      have : z = m0 := eq_of_name hin.names hz hm0 (hz1.trans hnm.1)
      subst this
      simp only at hh
      rw [hnm.2, hz2] at hh
      cases hh
    have hlen : (vlanNgb upds k).length = ((vlanNgb upds k).filter (fun n => n.node ≠ m.name)).length + 1 :=
      length_split hnd1 hself
    have hcount : hostCount l (vlanNgb upds k) = (((vlanNgb upds k).filter (fun n => n.node ≠ m.name)).filter
        (fun n => l.any (fun y => y.name = n.node && y.isHost))).length := by
      unfold hostCount
      rw [List.filter_filter]
      congr 1
      apply List.filter_congr
      intro x _
      by_cases hx : l.any (fun y => y.name = x.node && y.isHost) = true
      · have : x.node ≠ m.name := fun he => hnot (he ▸ (hhost x.node).mp hx)
        rw [hx]
        simpa using this
      · rw [Bool.not_eq_true] at hx
        rw [hx]
        simp
    rw [hlen, hcount]
    generalize (vlanNgb upds k).filter (fun n => n.node ≠ m.name) = nb
    constructor
    · intro hall
      rw [if_pos]
      rw [List.filter_eq_self.mpr (fun g hg => (hhost g.node).mpr (hall g hg))]
      exact Bool.and_eq_true_iff.mpr ⟨rfl, decide_eq_true rfl⟩
    · rintro ⟨g, hg, hgn⟩
      rw [if_neg]
      intro he
      simp only [Option.isNone_none, Bool.true_and, decide_eq_true_eq, Nat.add_right_cancel_iff] at he
      have := List.length_filter_eq_length_iff.mp he.symm g hg
      exact hgn ((hhost g.node).mp this)

/-! ### Examples -/

namespace SviExample

/-- A global VLAN. -/
def topo : SvTopo := { vlans := [("red", { id := some 10 })] }

/-- The name of VLAN interfaces. -/
def fmt (id bg : Option Nat) (_ : String) : String :=
  if id = some 10 then "Vlan10" else if bg = some 2 then "Vlan-bg2" else "Vlan-bg1"

/-- An interface in a VLAN (`member`: of a node using VLANs). -/
def vif (idx : Int) (name vlan : String) (member : Bool) (ip : String) (ngb : List SvNgb) : SvIf := {
  ifindex := idx
  ifname := name
  kind := "lan"
  access := if member then some vlan else none
  mode := if member then some .irb else none
  vlanName := some vlan
  ip4 := some ip
  neighbors := ngb }

/-- A switch connected to another switch and a host in VLAN red, and to another host in VLAN blue. -/
def s1 : SvNode := {
  name := "s1"
  sviName := some fmt
  vlans := [("blue", { id := some 20 })]
  ifs := [
    vif 1 "eth1" "red" true "172.16.0.1/24" [⟨"s2", "eth1", some "172.16.0.2/24", none⟩],
    vif 2 "eth2" "red" true "172.16.0.1/24" [⟨"h1", "eth1", some "172.16.0.3/24", none⟩],
    vif 3 "eth3" "blue" true "172.16.1.1/24" [⟨"h2", "eth1", some "172.16.1.2/24", none⟩],
    { ifindex := 4
      ifname := "eth4"
      kind := "p2p"
      ip4 := some "10.1.0.1/30"
      neighbors := [⟨"s2", "eth2", none, none⟩] }] }

/-- The other switch. -/
def s2 : SvNode := {
  name := "s2"
  sviName := some fmt
  ifs := [
    vif 1 "eth1" "red" true "172.16.0.2/24" [⟨"s1", "eth1", some "172.16.0.1/24", none⟩],
    { ifindex := 2
      ifname := "eth2"
      kind := "p2p"
      ip4 := some "10.1.0.2/30"
      neighbors := [⟨"s1", "eth4", none, none⟩] }] }

/-- A host in VLAN red. -/
def h1 : SvNode := {
  name := "h1"
  isHost := true
  aware := false
  ifs := [vif 1 "eth1" "red" false "172.16.0.3/24" [⟨"s1", "eth2", some "172.16.0.1/24", none⟩]] }

/-- A host in VLAN blue. -/
def h2 : SvNode := {
  name := "h2"
  isHost := true
  aware := false
  ifs := [vif 1 "eth1" "blue" false "172.16.1.2/24" [⟨"s1", "eth3", some "172.16.1.1/24", none⟩]] }

/-- Name, role and neighbors of an interface. -/
structure Brief where
  ifname : String
  role : Option String
  ngb : List (String × String)
deriving DecidableEq

/-- Names, roles and neighbors of interfaces. -/
def brief (r : Except SvAbort (List SvNode)) : Option (List (List Brief)) :=
  r.toOption.map (·.map (fun n => n.ifs.map (fun i => ⟨i.ifname, i.role, i.neighbors.map (fun g => (g.node, g.ifname))⟩)))

theorem input : SviInput topo [s1, s2, h1, h2] where
  names := by decide
  fresh := by
    have hg : ∀ v d, topo.vlans.lookup v = some d → d.bg = none := by
      intro v d h
      have := mem_of_lookup h
      simp [topo] at this
      rw [this.2]
    intro nd hnd
    simp only [List.mem_cons, List.not_mem_nil, or_false] at hnd
    rcases hnd with rfl | rfl | rfl | rfl
    · refine ⟨hg, ?_, by decide⟩
      intro v d h
      have := mem_of_lookup h
      simp [s1] at this
      rw [this.2]
      exact ⟨rfl, rfl⟩
    · exact ⟨hg, by simp [s2], by decide⟩
    · exact ⟨hg, by simp [h1], by decide⟩
    · exact ⟨hg, by simp [h2], by decide⟩
  simple := by
    intro nd hnd
    simp only [List.mem_cons, List.not_mem_nil, or_false] at hnd
    rcases hnd with rfl | rfl | rfl | rfl <;> (unfold SimpleLinks; decide)

/-- Hypotheses of C64 and C65 are met: the switch gets two VLAN interfaces, VLAN neighbors are known to all nodes. -/
example : brief (sviTopology topo [s1, s2, h1, h2]) = some [
    [⟨"eth1", none, []⟩, ⟨"eth2", none, []⟩, ⟨"eth3", none, []⟩, ⟨"eth4", none, [("s2", "eth2")]⟩,
      ⟨"Vlan10", none, [("s2", "Vlan10"), ("h1", "eth1")]⟩, ⟨"Vlan-bg2", some "stub", [("h2", "eth1")]⟩],
    [⟨"eth1", none, []⟩, ⟨"eth2", none, [("s1", "eth4")]⟩, ⟨"Vlan10", none, [("s1", "Vlan10"), ("h1", "eth1")]⟩],
    [⟨"eth1", none, [("s2", "Vlan10"), ("s1", "Vlan10")]⟩],
    [⟨"eth1", some "stub", [("s1", "Vlan-bg2")]⟩]] := by
  decide +kernel

end SviExample

/-! ### Defects -/

/-- A VLAN in `bridge` mode: the VLAN interface has the address specified in the VLAN (although bridged VLANs have no layer-3
interfaces). -/
theorem C64_bridge_address : ∃ (t : SvTopo) (nd : SvNode), FreshNode t nd ∧
    ((createSvi t nd).toOption.map (fun r => (r.1.ifs.filter (fun i => i.kind = "svi")).map (fun i => (i.attrMode, i.ip4)))) =
      some [(some VMode.bridge, some "172.16.0.1/24")] := by
  refine ⟨⟨[("red", { id := some 10, mode := some .bridge, ip4 := some "172.16.0.1/24" })], none⟩, {
    name := "s1"
    sviName := some SviExample.fmt
    ifs := [{
      ifindex := 1
      ifname := "eth1"
      kind := "p2p"
      access := some "red"
      mode := some .bridge }] }, ?_, by decide +kernel⟩
  refine ⟨?_, by simp, by decide⟩
  intro v d h
  have := mem_of_lookup h
  simp at this
  rw [this.2]

open SviExample in
/-- A node attached twice to a link of the VLAN is listed twice in the neighbors. -/
theorem C65_attached_twice : ∃ (t : SvTopo) (nodes : List SvNode), (nodes.map SvNode.name).Nodup ∧
    brief (sviTopology t nodes) = some [
      [⟨"eth1", none, []⟩, ⟨"Vlan10", some "stub", [("h1", "eth1"), ("h1", "eth2")]⟩],
      [⟨"eth1", some "stub", [("s1", "Vlan10")]⟩, ⟨"eth2", some "stub", [("s1", "Vlan10")]⟩]] := by
  refine ⟨topo, [{
    name := "s1"
    sviName := some fmt
    ifs := [vif 1 "eth1" "red" true "172.16.0.1/24" [⟨"h1", "eth1", none, none⟩, ⟨"h1", "eth2", none, none⟩]] }, {
    name := "h1"
    isHost := true
    aware := false
    ifs := [
      vif 1 "eth1" "red" false "172.16.0.2/24" [⟨"s1", "eth1", none, none⟩, ⟨"h1", "eth2", none, none⟩],
      vif 2 "eth2" "red" false "172.16.0.3/24" [⟨"s1", "eth1", none, none⟩, ⟨"h1", "eth1", none, none⟩]] }],
    by decide, ?_⟩
  decide +kernel

end Netlab
