import Verif.Spec.VlanLinks
import Mathlib.Data.List.Forall2
import Verif.Lemmas.Util
/-!
# C62, C63: VLAN attributes of links
-/

namespace Netlab
open Spec

/-! ### Collection -/

def VColls.ls (s : VColls) (k : VKind) : List String := ((s k).getD {}).list
def VColls.gl (s : VColls) (k : VKind) : List String := ((s k).getD {}).glob

/-- The names of one attribute kind. -/
def nm (a : Option VlanAttr) (k : VKind) : Option (List String) := a.bind (·.names k)

def okNames (t : VTopo) (o : Option String) (ns : List String) : Prop :=
  ∀ v ∈ ns, t.isGlobal v = true ∨ ∃ n, o = some n ∧ t.isLocal n v = true

theorem collectAttr_errors (t : VTopo) (o : Option String) (k : VKind) (ns : List String) (s : VColls) :
    (collectAttr t o k ns s).2 = 0 ↔ okNames t o ns := by
  simp only [collectAttr, List.length_eq_zero_iff, List.filter_eq_nil_iff, okNames]
  constructor
  · intro h v hv
    have := h v hv
    cases hg : t.isGlobal v with
    | true => exact Or.inl rfl
    | false =>
      right
      cases o with
      | none => simp [hg] at this
      | some n => exact ⟨n, rfl, by simpa [hg] using this⟩
  · intro h v hv
    rcases h v hv with h | ⟨n, rfl, hl⟩
    · simp [h]
    · simp [hl]

theorem collectKind_fst (t : VTopo) (o : Option String) (a : VlanAttr) (s : VColls × Nat) (k k' : VKind) :
    (((collectKind t o a s k).1 k').isSome = (if k' = k then (s.1 k').isSome || (a.names k).isSome else (s.1 k').isSome)) ∧
    ((collectKind t o a s k).1.ls k' = (if k' = k then s.1.ls k' ++ (a.names k).getD [] else s.1.ls k')) ∧
    ((collectKind t o a s k).1.gl k' =
      (if k' = k then s.1.gl k' ++ ((a.names k).getD []).filter t.isGlobal else s.1.gl k')) := by
  unfold collectKind
  cases h : a.names k with
  | none => simp
  | some ns =>
    by_cases hk : k' = k
    · subst hk
      simp [collectAttr, VColls.ls, VColls.gl]
    · simp [collectAttr, VColls.ls, VColls.gl, hk]

theorem collectKind_snd (t : VTopo) (o : Option String) (a : VlanAttr) (s : VColls × Nat) (k : VKind) :
    (collectKind t o a s k).2 = 0 ↔ s.2 = 0 ∧ okNames t o ((a.names k).getD []) := by
  unfold collectKind
  cases h : a.names k with
  | none => simp [okNames]
  | some ns =>
    simp only [Option.getD_some, Nat.add_eq_zero_iff, collectAttr_errors]

theorem collectObj_spec (t : VTopo) (o : Option String) (a : Option VlanAttr) (s : VColls) (k : VKind) :
    (((collectObj t o a s).1 k).isSome = ((s k).isSome || (nm a k).isSome)) ∧
    ((collectObj t o a s).1.ls k = s.ls k ++ (nm a k).getD []) ∧
    ((collectObj t o a s).1.gl k = s.gl k ++ ((nm a k).getD []).filter t.isGlobal) := by
  unfold collectObj
  cases a with
  | none => simp [nm]
  | some a =>
    simp only [List.foldl_cons, List.foldl_nil, nm, Option.bind_some]
    cases k <;>
    · refine ⟨?_, ?_, ?_⟩
      · simp [(collectKind_fst t o a _ _ _).1]
      · simp [(collectKind_fst t o a _ _ _).2.1]
      · simp [(collectKind_fst t o a _ _ _).2.2]

theorem collectObj_errors (t : VTopo) (o : Option String) (a : Option VlanAttr) (s : VColls) :
    (collectObj t o a s).2 = 0 ↔ ∀ k, okNames t o ((nm a k).getD []) := by
  unfold collectObj
  cases a with
  | none => simp [nm, okNames]
  | some a =>
    simp only [List.foldl_cons, List.foldl_nil, nm, Option.bind_some, collectKind_snd]
    constructor
    · rintro ⟨⟨⟨-, h1⟩, h2⟩, h3⟩ k
      cases k <;> assumption
    · intro h
      exact ⟨⟨⟨trivial, h _⟩, h _⟩, h _⟩

theorem collectIfs_spec (t : VTopo) : ∀ (ifs : List VIf) (s : VColls × Nat), (collectIfs t ifs s).2 = 0 →
    s.2 = 0 ∧ (∀ i ∈ ifs, ∀ k, okNames t (some i.node) ((nm i.vlan k).getD [])) ∧
    ∀ k, (((collectIfs t ifs s).1 k).isSome = ((s.1 k).isSome || ifs.any fun i => (nm i.vlan k).isSome)) ∧
    ((collectIfs t ifs s).1.ls k = s.1.ls k ++ ifs.flatMap fun i => (nm i.vlan k).getD []) ∧
    ((collectIfs t ifs s).1.gl k = s.1.gl k ++ (ifs.flatMap fun i => (nm i.vlan k).getD []).filter t.isGlobal)
  | [], s, h => by
    refine ⟨h, ?_, ?_⟩
    · simp
    · intro k
      simp [collectIfs]
  | i :: r, s, h => by
    unfold collectIfs at h ⊢
    by_cases h0 : s.2 = 0
    · rw [if_pos h0] at h
      simp only [if_pos h0]
      obtain ⟨h1, h2, h3⟩ := collectIfs_spec t r _ h
      refine ⟨h0, ?_, ?_⟩
      · intro j hj k
        rcases List.mem_cons.mp hj with rfl | hj
        · exact (collectObj_errors t _ _ _).mp h1 k
        · exact h2 j hj k
      · intro k
        obtain ⟨a1, a2, a3⟩ := h3 k
        obtain ⟨b1, b2, b3⟩ := collectObj_spec t (some i.node) i.vlan s.1 k
        refine ⟨?_, ?_, ?_⟩
        · rw [a1, b1]
          simp [Bool.or_assoc]
        · rw [a2, b2]
          simp [List.append_assoc]
        · rw [a3, b3]
          simp [List.append_assoc]
    · rw [if_neg h0] at h
      exact absurd h h0

/-- All attributes of one kind mentioned on the link. -/
def linkNames (l : VLink) (k : VKind) : List String :=
  (nm l.vlan k).getD [] ++ l.ifs.flatMap fun i => (nm i.vlan k).getD []

def linkHas (l : VLink) (k : VKind) : Bool := (nm l.vlan k).isSome || l.ifs.any fun i => (nm i.vlan k).isSome

theorem collectLink_spec (t : VTopo) (l : VLink) (h : (collectLink t l).2 = 0) :
    (∀ k, okNames t none ((nm l.vlan k).getD [])) ∧
    (∀ i ∈ l.ifs, ∀ k, okNames t (some i.node) ((nm i.vlan k).getD [])) ∧
    ∀ k, (((collectLink t l).1 k).isSome = linkHas l k) ∧
    ((collectLink t l).1.ls k = linkNames l k) ∧
    ((collectLink t l).1.gl k = (linkNames l k).filter t.isGlobal) := by
  unfold collectLink at h ⊢
  obtain ⟨h1, h2, h3⟩ := collectIfs_spec t l.ifs _ h
  refine ⟨(collectObj_errors t _ _ _).mp h1, h2, ?_⟩
  intro k
  obtain ⟨a1, a2, a3⟩ := h3 k
  obtain ⟨b1, b2, b3⟩ := collectObj_spec t none l.vlan (fun _ => none) k
  refine ⟨?_, ?_, ?_⟩
  · rw [a1, b1]
    simp [linkHas]
  · rw [a2, b2]
    simp [linkNames, VColls.ls]
  · rw [a3, b3]
    simp [linkNames, VColls.gl]

/-! ### Accepted links -/

/-- The stages of an accepted link. -/
theorem vlanLink_stages {t : VTopo} {sort : List String → List String} {pick : List String → Option String} {l : VLink}
    (h : (vlanLink t sort pick l).errors = 0) :
    ∃ ifs, (collectLink t l).2 = 0 ∧ validateAttrs l (collectLink t l).1 = some (ifs, 0) ∧
      (linkHas l .trunk = true → trunkCheck (ifs.map (mergeIf t l)) = 0) ∧
      (accessPart t pick (collectLink t l).1 { l with ifs := ifs.map (mergeIf t l) }).2 = 0 ∧
      (vlanLink t sort pick l).link =
        (accessPart t pick (collectLink t l).1 { l with ifs := ifs.map (mergeIf t l) }).1 ∧
      (vlanLink t sort pick l).members = if linkHas l .trunk then
        memberLinks t sort { l with ifs := ifs.map (mergeIf t l) } (collectLink t l).1 else [] := by
  unfold vlanLink at h ⊢
  by_cases hc : (collectLink t l).2 = 0
  · have hs := (collectLink_spec t l hc).2.2 .trunk
    simp only [hc, ne_eq, not_true_eq_false, if_false] at h ⊢
    cases hv : validateAttrs l (collectLink t l).1 with
    | none => simp [hv] at h
    | some p =>
      obtain ⟨ifs, e⟩ := p
      simp only [hv] at h ⊢
      rw [← hs.1]
      by_cases ht : (((collectLink t l).1 .trunk).isSome && decide (trunkCheck (ifs.map (mergeIf t l)) ≠ 0)) = true
      · simp only [ht, if_true] at h
        simp only [Bool.and_eq_true, decide_eq_true_eq] at ht
        omega
      · simp only [ht] at h ⊢
        refine ⟨ifs, trivial, ?_, ?_, ?_, ?_, ?_⟩
        · have : e = 0 := by
            simp at h
            omega
          rw [this]
        · intro hh
          simp only [Bool.and_eq_true, decide_eq_true_eq, not_and, hh, ne_eq, Classical.not_not,
            true_implies] at ht
          exact ht
        · simp at h
          omega
        · simp
        · simp
  · simp [hc] at h

theorem validateAttrs_spec {l : VLink} {s : VColls} {ifs : List VIf} {e : Nat} (h : validateAttrs l s = some (ifs, e)) :
    ¬((s .trunk).isSome = true ∧ (s .access).isSome = true) ∧
    ((s .native).isSome = true → (s .trunk).isSome = true) ∧
    ((s.gl .access).eraseDups).length ≤ 1 ∧
    (((s .native).isSome = false ∧ ifs = l.ifs ∧ e = 0) ∨ ((s .native).isSome = true ∧
      ((e = 1 ∧ ifs = l.ifs ∧ (s.ls .native).any (s.ls .trunk).contains = false) ∨
        (s.ls .native).any (s.ls .trunk).contains = true ∧
        ifs = (l.ifs.map (nativeCheck l.vlan ((s.ls .native).headD ""))).map (·.1) ∧
        e = ((l.ifs.map (nativeCheck l.vlan ((s.ls .native).headD ""))).map (·.2)).sum))) := by
  unfold validateAttrs at h
  split at h
  · cases h
  rename_i h1
  split at h
  · cases h
  rename_i h2
  split at h
  · cases h
  rename_i h3
  refine ⟨by simpa using h1, ?_, by simpa [VColls.gl] using h3, ?_⟩
  · intro hn
    cases ht : s .trunk with
    | none => simp [hn, ht] at h2
    | some _ => rfl
  · cases hn : s .native with
    | none =>
      simp only [hn] at h
      left
      simp only [Option.some.injEq, Prod.mk.injEq] at h
      exact ⟨rfl, h.1.symm, h.2.symm⟩
    | some n =>
      right
      cases ht : s .trunk with
      | none => simp [hn, ht] at h2
      | some tr =>
        simp only [hn, ht] at h
        refine ⟨rfl, ?_⟩
        simp only [VColls.ls, hn, ht, Option.getD_some]
        by_cases hx : (n.list.any tr.list.contains) = true
        · right
          rw [if_pos hx] at h
          simp only [Option.some.injEq, Prod.mk.injEq] at h
          exact ⟨hx, h.1.symm, h.2.symm⟩
        · left
          rw [if_neg hx] at h
          simp only [Option.some.injEq, Prod.mk.injEq] at h
          exact ⟨h.2.symm, h.1.symm, by simpa using hx⟩

/-! ### Interfaces through the stages -/

/-- The same interface with possibly different mode, forwarding mode and addressing. -/
def sameVlans (i j : VIf) : Prop := j.node = i.node ∧ (∀ k, nm j.vlan k = nm i.vlan k) ∧ j.vlan.isSome = i.vlan.isSome

theorem sameVlans_refl (i : VIf) : sameVlans i i := ⟨rfl, fun _ => rfl, rfl⟩

theorem nativeCheck_fst (l : Option VlanAttr) (f : String) (i : VIf) :
    (nativeCheck l f i).1.node = i.node ∧ (nativeCheck l f i).1.vlan = i.vlan ∧ (nativeCheck l f i).1.fwd = i.fwd := by
  unfold nativeCheck
  split
  · simp
  · split <;> (try split) <;> simp

theorem validateAttrs_ifs {l : VLink} {s : VColls} {ifs : List VIf} {e : Nat} (h : validateAttrs l s = some (ifs, e)) :
    ∃ f : VIf → VIf, ifs = l.ifs.map f ∧ ∀ i, (f i).node = i.node ∧ (f i).vlan = i.vlan ∧ (f i).fwd = i.fwd := by
  rcases (validateAttrs_spec h).2.2.2 with ⟨-, h, -⟩ | ⟨-, ⟨-, h, -⟩ | ⟨-, h, -⟩⟩
  · exact ⟨id, by simp [h], fun i => ⟨rfl, rfl, rfl⟩⟩
  · exact ⟨id, by simp [h], fun i => ⟨rfl, rfl, rfl⟩⟩
  · exact ⟨fun i => (nativeCheck l.vlan ((s.ls .native).headD "") i).1, by simp [h], fun i => nativeCheck_fst _ _ i⟩

theorem setPrefix_ifs (t : VTopo) (pick : List String → Option String) (s : VColls) (l : VLink) :
    (setPrefix t pick s l).1.ifs = l.ifs ∧ (setPrefix t pick s l).1.vlan = l.vlan := by
  have hv : ∀ c, (vlanPrefix t pick c l).1.ifs = l.ifs ∧ (vlanPrefix t pick c l).1.vlan = l.vlan := by
    intro c
    unfold vlanPrefix
    split
    · simp
    · split
      · simp [copyVlan]
      · split <;> simp [copyVlan]
  unfold setPrefix
  split
  · exact hv _
  · exact hv _
  · split <;> simp
  · simp

theorem sameVlans_setFwd (t : VTopo) (i : VIf) : sameVlans i (setFwd t i) := by
  unfold setFwd
  split
  · exact ⟨rfl, fun _ => rfl, rfl⟩
  · exact sameVlans_refl i

theorem sameVlans_setRoute (i : VIf) : sameVlans i (setRoute i) := by
  unfold setRoute
  split
  · exact sameVlans_refl i
  · rename_i a h
    refine ⟨rfl, fun k => ?_, by simp [h]⟩
    simp only [nm, h, Option.bind_some]
    cases k <;> rfl

theorem sameVlans_disableIp (t : VTopo) (i : VIf) : sameVlans i (disableIp t i) := by
  unfold disableIp
  split
  · exact ⟨rfl, fun _ => rfl, rfl⟩
  · exact sameVlans_refl i

theorem sameVlans_trans {i j k : VIf} (h1 : sameVlans i j) (h2 : sameVlans j k) : sameVlans i k :=
  ⟨h2.1.trans h1.1, fun x => (h2.2.1 x).trans (h1.2.1 x), h2.2.2.trans h1.2.2⟩

theorem accessPart_ifs (t : VTopo) (pick : List String → Option String) (s : VColls) (l : VLink) :
    ∃ g : VIf → VIf, (accessPart t pick s l).1.ifs = l.ifs.map g ∧ ∀ i, sameVlans i (g i) := by
  simp only [accessPart]
  split
  · exact ⟨id, by simp [(setPrefix_ifs t pick s l).1], sameVlans_refl⟩
  · split
    · refine ⟨fun i => disableIp t (setRoute (setFwd t i)), by simp [List.map_map, Function.comp_def], fun i => ?_⟩
      exact sameVlans_trans (sameVlans_setFwd t i) (sameVlans_trans (sameVlans_setRoute _) (sameVlans_disableIp t _))
    · refine ⟨fun i => disableIp t (setFwd t i),
        by simp [(setPrefix_ifs t pick s _).1, List.map_map, Function.comp_def], fun i => ?_⟩
      exact sameVlans_trans (sameVlans_setFwd t i) (sameVlans_disableIp t _)

theorem trunk_eq_nm (i : VIf) : i.trunk = (nm i.vlan .trunk).getD [] := by
  unfold VIf.trunk nm
  cases i.vlan with
  | none => rfl
  | some a =>
    simp only [Option.bind_some, VlanAttr.names]
    cases a.trunk <;> rfl

theorem carries_iff (i : VIf) (v : String) : carries i v ↔ v ∈ i.trunk := by
  unfold carries VIf.trunk
  constructor
  · rintro ⟨a, tr, m, h1, h2, h3⟩
    simp only [h1, Option.bind_some, h2, Option.getD_some, List.mem_map]
    exact ⟨_, h3, rfl⟩
  · intro h
    cases ha : i.vlan with
    | none => simp [ha] at h
    | some a =>
      cases ht : a.trunk with
      | none => simp [ha, ht] at h
      | some tr =>
        simp only [ha, Option.bind_some, ht, Option.getD_some, List.mem_map] at h
        obtain ⟨e, he, rfl⟩ := h
        exact ⟨a, tr, e.2, rfl, ht, he⟩

theorem mentions_iff (a : VlanAttr) (v : String) : mentions a v ↔ ∃ k, v ∈ (nm (some a) k).getD [] := by
  unfold mentions
  constructor
  · rintro (h | h | ⟨tr, m, h, hm⟩)
    · exact ⟨.access, by simp [nm, VlanAttr.names, h]⟩
    · exact ⟨.native, by simp [nm, VlanAttr.names, h]⟩
    · refine ⟨.trunk, ?_⟩
      simp only [nm, VlanAttr.names, Option.bind_some, h, Option.map_some, Option.getD_some, List.mem_map]
      exact ⟨_, hm, rfl⟩
  · rintro ⟨k, hk⟩
    cases k with
    | access =>
      left
      cases h : a.access <;> simp_all [nm, VlanAttr.names]
    | native =>
      right; left
      cases h : a.native <;> simp_all [nm, VlanAttr.names]
    | trunk =>
      right; right
      cases h : a.trunk with
      | none => simp [nm, VlanAttr.names, h] at hk
      | some tr =>
        simp only [nm, VlanAttr.names, Option.bind_some, h, Option.map_some, Option.getD_some, List.mem_map] at hk
        obtain ⟨e, he, rfl⟩ := hk
        exact ⟨tr, e.2, rfl, he⟩

/-! ### C62 -/

/-- C62: on an accepted link, every VLAN in a link attribute is a global VLAN, and every VLAN in an interface attribute is a
global VLAN or a VLAN defined on the node. -/
theorem C62_defined (t : VTopo) (sort : List String → List String) (pick : List String → Option String) (l : VLink)
    (h : (vlanLink t sort pick l).errors = 0) :
    (∀ a v, l.vlan = some a → mentions a v → ∃ d, t.vlans.lookup v = some d) ∧
    ∀ i ∈ l.ifs, ∀ a v, i.vlan = some a → mentions a v →
      (∃ d, t.vlans.lookup v = some d) ∨ ∃ d, (t.node i.node).vlans.lookup v = some d := by
  obtain ⟨ifs, hc, -⟩ := vlanLink_stages h
  obtain ⟨h1, h2, -⟩ := collectLink_spec t l hc
  refine ⟨?_, ?_⟩
  · intro a v ha hm
    obtain ⟨k, hk⟩ := (mentions_iff a v).mp hm
    rcases h1 k v (by rw [ha]; exact hk) with h | ⟨n, hn, -⟩
    · exact Option.isSome_iff_exists.mp h
    · cases hn
  · intro i hi a v ha hm
    obtain ⟨k, hk⟩ := (mentions_iff a v).mp hm
    rcases h2 i hi k v (by rw [ha]; exact hk) with h | ⟨n, hn, hl⟩
    · exact Or.inl (Option.isSome_iff_exists.mp h)
    · cases hn
      exact Or.inr (Option.isSome_iff_exists.mp hl)

theorem linkHas_iff (l : VLink) (k : VKind) : linkHas l k = true ↔ ∃ a, OnLink l a ∧ (a.names k).isSome = true := by
  unfold linkHas OnLink
  simp only [Bool.or_eq_true, List.any_eq_true]
  constructor
  · rintro (h | ⟨i, hi, h⟩)
    · cases ha : l.vlan with
      | none => simp [nm, ha] at h
      | some a => exact ⟨a, Or.inl rfl, by simpa [nm, ha] using h⟩
    · cases ha : i.vlan with
      | none => simp [nm, ha] at h
      | some a => exact ⟨a, Or.inr ⟨i, hi, ha⟩, by simpa [nm, ha] using h⟩
  · rintro ⟨a, ha | ⟨i, hi, ha⟩, h⟩
    · left
      simpa [nm, ha] using h
    · right
      exact ⟨i, hi, by simpa [nm, ha] using h⟩

/-- C62: an accepted link has no access VLANs and trunks at the same time. -/
theorem C62_no_mix (t : VTopo) (sort : List String → List String) (pick : List String → Option String) (l : VLink)
    (h : (vlanLink t sort pick l).errors = 0) (a b : VlanAttr) (ha : OnLink l a) (hb : OnLink l b) :
    a.access = none ∨ b.trunk = none := by
  obtain ⟨ifs, hc, hv, -⟩ := vlanLink_stages h
  have hs := (collectLink_spec t l hc).2.2
  have h1 := (validateAttrs_spec hv).1
  rw [(hs .trunk).1, (hs .access).1] at h1
  cases hx : a.access with
  | none => exact Or.inl rfl
  | some x =>
    right
    cases hy : b.trunk with
    | none => rfl
    | some y =>
      exact absurd ⟨(linkHas_iff l .trunk).mpr ⟨b, hb, by simp [VlanAttr.names, hy]⟩,
        (linkHas_iff l .access).mpr ⟨a, ha, by simp [VlanAttr.names, hx]⟩⟩ h1

/-- C62: a native VLAN is used only on a link with a trunk. -/
theorem C62_native_on_trunk (t : VTopo) (sort : List String → List String) (pick : List String → Option String)
    (l : VLink) (h : (vlanLink t sort pick l).errors = 0) (a : VlanAttr) (ha : OnLink l a) (hn : a.native ≠ none) :
    ∃ b, OnLink l b ∧ b.trunk ≠ none := by
  obtain ⟨ifs, hc, hv, -⟩ := vlanLink_stages h
  have hs := (collectLink_spec t l hc).2.2
  have h1 := (validateAttrs_spec hv).2.1
  rw [(hs .trunk).1, (hs .native).1] at h1
  have : linkHas l .native = true := by
    refine (linkHas_iff l .native).mpr ⟨a, ha, ?_⟩
    cases hx : a.native with
    | none => exact absurd hx hn
    | some x => simp [VlanAttr.names, hx]
  obtain ⟨b, hb, hb'⟩ := (linkHas_iff l .trunk).mp (h1 this)
  refine ⟨b, hb, ?_⟩
  intro hx
  simp [VlanAttr.names, hx] at hb'

theorem eraseDups_length_le_one {l : List String} (h : l.eraseDups.length ≤ 1) {x y : String} (hx : x ∈ l) (hy : y ∈ l) :
    x = y := by
  have hx' : x ∈ l.eraseDups := List.mem_eraseDups.mpr hx
  have hy' : y ∈ l.eraseDups := List.mem_eraseDups.mpr hy
  generalize l.eraseDups = m at h hx' hy'
  match m, h with
  | [], _ => simp at hx'
  | [z], _ =>
    simp at hx' hy'
    rw [hx', hy']

theorem mem_linkNames (l : VLink) (k : VKind) (v : String) :
    v ∈ linkNames l k ↔ ∃ a, OnLink l a ∧ v ∈ (nm (some a) k).getD [] := by
  unfold linkNames OnLink
  simp only [List.mem_append, List.mem_flatMap]
  constructor
  · rintro (h | ⟨i, hi, h⟩)
    · cases ha : l.vlan with
      | none => simp [nm, ha] at h
      | some a => exact ⟨a, Or.inl rfl, by simpa [nm, ha] using h⟩
    · cases ha : i.vlan with
      | none => simp [nm, ha] at h
      | some a => exact ⟨a, Or.inr ⟨i, hi, ha⟩, by simpa [nm, ha] using h⟩
  · rintro ⟨a, ha | ⟨i, hi, ha⟩, h⟩
    · left
      simpa [nm, ha] using h
    · right
      exact ⟨i, hi, by simpa [nm, ha] using h⟩

/-- C62: an accepted link uses at most one global access VLAN. -/
theorem C62_one_access (t : VTopo) (sort : List String → List String) (pick : List String → Option String) (l : VLink)
    (h : (vlanLink t sort pick l).errors = 0) (a b : VlanAttr) (ha : OnLink l a) (hb : OnLink l b) (v w : String)
    (hv : a.access = some v) (hw : b.access = some w) (gv : t.vlans.lookup v ≠ none) (gw : t.vlans.lookup w ≠ none) :
    v = w := by
  obtain ⟨ifs, hc, hx, -⟩ := vlanLink_stages h
  have hs := (collectLink_spec t l hc).2.2
  have h1 := (validateAttrs_spec hx).2.2.1
  rw [(hs .access).2.2] at h1
  have glob : ∀ x, t.vlans.lookup x ≠ none → t.isGlobal x = true := fun x hx => Option.isSome_iff_ne_none.mpr hx
  refine eraseDups_length_le_one h1 (List.mem_filter.mpr ⟨(mem_linkNames l .access v).mpr ⟨a, ha, ?_⟩, glob v gv⟩)
    (List.mem_filter.mpr ⟨(mem_linkNames l .access w).mpr ⟨b, hb, ?_⟩, glob w gw⟩)
  · simp [nm, VlanAttr.names, hv]
  · simp [nm, VlanAttr.names, hw]

theorem sum_zero {l : List Nat} (h : l.sum = 0) : ∀ x ∈ l, x = 0 := by
  induction l with
  | nil => simp
  | cons a r ih =>
    simp only [List.sum_cons, Nat.add_eq_zero_iff] at h
    intro x hx
    rcases List.mem_cons.mp hx with rfl | hx
    · exact h.1
    · exact ih h.2 x hx

theorem nativeOf_iff (l : VLink) (i : VIf) (n : String) : nativeOf l i n ↔ effNative i.vlan l.vlan = some n := by
  unfold nativeOf effNative
  cases hi : i.vlan with
  | none =>
    cases hl : l.vlan <;> simp
  | some a =>
    cases ha : a.native with
    | none =>
      cases hl : l.vlan <;> simp [ha]
    | some x => simp [ha]

theorem nm_trunk_mem (a : Option VlanAttr) (v : String) :
    v ∈ (nm a .trunk).getD [] ↔ ∃ x tr m, a = some x ∧ x.trunk = some tr ∧ (v, m) ∈ tr := by
  cases a with
  | none => simp [nm]
  | some a =>
    cases h : a.trunk with
    | none => simp [nm, VlanAttr.names, h]
    | some tr => simp [nm, VlanAttr.names, h]

theorem inTrunkOf_iff (l : VLink) (i : VIf) (v : String) :
    inTrunkOf l i v ↔ ∃ tr, effTrunk i.vlan l.vlan = some tr ∧ v ∈ tr := by
  have hm : inTrunkOf l i v ↔ v ∈ (nm i.vlan .trunk).getD [] ++ (nm l.vlan .trunk).getD [] := by
    unfold inTrunkOf
    rw [List.mem_append, nm_trunk_mem, nm_trunk_mem]
  rw [hm]
  unfold effTrunk nm
  split
  · rename_i he
    rw [he]
    simp
  · rename_i names _
    simp

theorem accepted_native {t : VTopo} {sort : List String → List String} {pick : List String → Option String} {l : VLink}
    (h : (vlanLink t sort pick l).errors = 0) (hn : linkHas l .native = true) :
    ∀ i ∈ l.ifs, (nativeCheck l.vlan ((linkNames l .native).headD "") i).2 = 0 := by
  obtain ⟨ifs, hc, hv, -⟩ := vlanLink_stages h
  have hs := (collectLink_spec t l hc).2.2
  rcases (validateAttrs_spec hv).2.2.2 with ⟨h0, -⟩ | ⟨-, ⟨h0, -⟩ | ⟨-, -, h0⟩⟩
  · rw [(hs .native).1, hn] at h0
    cases h0
  · cases h0
  · rw [(hs .native).2.1] at h0
    intro i hi
    exact sum_zero h0.symm _ (List.mem_map.mpr ⟨_, List.mem_map.mpr ⟨i, hi, rfl⟩, rfl⟩)

/-- C62: an interface with its own VLAN attributes has its native VLAN in its trunk (interface attributes override link
attributes, trunks are merged). -/
theorem C62_native_in_trunk (t : VTopo) (sort : List String → List String) (pick : List String → Option String)
    (l : VLink) (h : (vlanLink t sort pick l).errors = 0) (i : VIf) (hi : i ∈ l.ifs) (own : i.vlan ≠ none) (n : String)
    (hn : nativeOf l i n) : inTrunkOf l i n := by
  have hhas : linkHas l .native = true := by
    rw [linkHas_iff]
    rcases hn with ⟨a, ha, hx⟩ | ⟨-, a, ha, hx⟩
    · exact ⟨a, Or.inr ⟨i, hi, ha⟩, by simp [VlanAttr.names, hx]⟩
    · exact ⟨a, Or.inl ha, by simp [VlanAttr.names, hx]⟩
  have h0 := accepted_native h hhas i hi
  rw [nativeOf_iff] at hn
  rw [inTrunkOf_iff]
  unfold nativeCheck at h0
  cases ha : i.vlan with
  | none => exact absurd ha own
  | some a =>
    rw [ha] at hn
    simp only [ha, hn] at h0
    cases htr : effTrunk (some a) l.vlan with
    | none => simp [htr] at h0
    | some tr =>
      simp only [htr] at h0
      refine ⟨tr, rfl, ?_⟩
      by_cases hx : tr.contains n = true
      · simpa using hx
      · rw [if_neg hx] at h0
        cases h0

/-- C62: when all native VLANs of the link are the same VLAN, an interface with its own VLAN attributes and this VLAN in its
trunk uses it as the native VLAN. -/
theorem C62_native_agreed (t : VTopo) (sort : List String → List String) (pick : List String → Option String)
    (l : VLink) (h : (vlanLink t sort pick l).errors = 0) (n : String) (used : ∃ a, OnLink l a ∧ a.native = some n)
    (only : ∀ a m, OnLink l a → a.native = some m → m = n) (i : VIf) (hi : i ∈ l.ifs) (own : i.vlan ≠ none)
    (htr : inTrunkOf l i n) : nativeOf l i n := by
  have hhas : linkHas l .native = true := by
    rw [linkHas_iff]
    obtain ⟨a, ha, hx⟩ := used
    exact ⟨a, ha, by simp [VlanAttr.names, hx]⟩
  have hfirst : (linkNames l .native).headD "" = n := by
    have hne : n ∈ linkNames l .native := by
      obtain ⟨a, ha, hx⟩ := used
      exact (mem_linkNames l .native n).mpr ⟨a, ha, by simp [nm, VlanAttr.names, hx]⟩
    cases hl : linkNames l .native with
    | nil => rw [hl] at hne; cases hne
    | cons x r =>
      obtain ⟨a, ha, hx⟩ := (mem_linkNames l .native x).mp (by rw [hl]; exact List.mem_cons_self)
      show x = n
      refine only a x ha ?_
      cases hh : a.native with
      | none => simp [nm, VlanAttr.names, hh] at hx
      | some y =>
        simp only [nm, VlanAttr.names, hh, Option.bind_some, Option.map_some, Option.getD_some, List.mem_singleton] at hx
        rw [hx]
  have h0 := accepted_native h hhas i hi
  rw [hfirst] at h0
  rw [nativeOf_iff]
  obtain ⟨tr, h1, h2⟩ := (inTrunkOf_iff l i n).mp htr
  unfold nativeCheck at h0
  cases ha : i.vlan with
  | none => exact absurd ha own
  | some a =>
    rw [ha] at h1
    simp only [ha, h1] at h0
    cases hnat : effNative (some a) l.vlan with
    | none =>
      simp [hnat, h2] at h0
    | some m =>
      have : nativeOf l i m := by rw [nativeOf_iff, ha, hnat]
      rcases this with ⟨b, hb, hx⟩ | ⟨-, b, hb, hx⟩
      · rw [only b m (Or.inr ⟨i, hi, hb⟩) hx]
      · rw [only b m (Or.inl hb) hx]

theorem trunkLoop_zero (nn : Bool) : ∀ (ifs pre : List VIf), trunkLoop nn pre ifs = 0 →
    ∀ p i q, ifs = p ++ i :: q → trunkErrors nn (pre ++ p ++ q) i = 0
  | [], pre, _, p, i, q, he => by simp at he
  | x :: r, pre, h, p, i, q, he => by
    unfold trunkLoop at h
    cases p with
    | nil =>
      simp only [List.nil_append, List.cons.injEq] at he
      obtain ⟨rfl, rfl⟩ := he
      simp
      omega
    | cons y p' =>
      simp only [List.cons_append, List.cons.injEq] at he
      obtain ⟨rfl, rfl⟩ := he
      have := trunkLoop_zero nn (p' ++ i :: q) (pre ++ [x]) (by omega) p' i q rfl
      simpa using this

/-- C62: on an accepted trunk link, every VLAN in the trunk of an interface is in the trunk of another interface of the link,
or it is the native VLAN of the interface and there is an interface without VLAN attributes. -/
theorem C62_trunk_peers (t : VTopo) (sort : List String → List String) (pick : List String → Option String) (l : VLink)
    (h : (vlanLink t sort pick l).errors = 0) (b : VlanAttr) (hb : OnLink l b) (htr : b.trunk ≠ none)
    (pre post : List VIf) (i : VIf) (hi : (vlanLink t sort pick l).link.ifs = pre ++ i :: post) (v : String)
    (hv : carries i v) :
    (∃ j ∈ pre ++ post, carries j v) ∨
      ((∃ a, i.vlan = some a ∧ a.native = some v) ∧ ∃ j ∈ pre ++ post, j.vlan = none) := by
  obtain ⟨ifs, hc, hx, ht, -, hl, -⟩ := vlanLink_stages h
  have hhas : linkHas l .trunk = true := by
    refine (linkHas_iff l .trunk).mpr ⟨b, hb, ?_⟩
    cases hh : b.trunk with
    | none => exact absurd hh htr
    | some _ => simp [VlanAttr.names, hh]
  have h0 := ht hhas
  obtain ⟨g, hg, hsame⟩ := accessPart_ifs t pick (collectLink t l).1 { l with ifs := ifs.map (mergeIf t l) }
  rw [hl, hg] at hi
  simp only at hi
  obtain ⟨p', q', he, hp, hq⟩ := List.map_eq_append_iff.mp hi
  obtain ⟨i', post', rfl, hi', rfl⟩ := List.map_eq_cons_iff.mp hq
  subst hp
  unfold trunkCheck at h0
  split at h0
  · cases h0
  have h1 := trunkLoop_zero _ _ _ h0 p' i' post' he
  have trunkSame : ∀ x, (g x).trunk = x.trunk := fun x => by
    rw [trunk_eq_nm, trunk_eq_nm, (hsame x).2.1]
  rw [carries_iff, ← hi', trunkSame] at hv
  unfold trunkErrors at h1
  cases ha : i'.vlan with
  | none => simp [VIf.trunk, ha] at hv
  | some a =>
    simp only [ha] at h1
    cases htk : a.trunk with
    | none => simp [VIf.trunk, ha, htk] at hv
    | some tr =>
      simp only [htk, List.length_eq_zero_iff, List.filter_eq_nil_iff] at h1
      have h2 := h1 v hv
      simp only [List.nil_append, Bool.and_eq_true, Bool.not_eq_true', not_and, Bool.not_eq_false] at h2
      cases hany : ((p' ++ post').any fun o => o.trunk.contains v) with
      | true =>
        left
        obtain ⟨o, ho, hov⟩ := List.any_eq_true.mp hany
        refine ⟨g o, ?_, ?_⟩
        · rw [← List.map_append]
          exact List.mem_map.mpr ⟨o, ho, rfl⟩
        · rw [carries_iff, trunkSame]
          simpa using hov
      | false =>
        right
        obtain ⟨h3, h4⟩ := h2 hany
        constructor
        · have hnat : nm (g i').vlan .native = nm i'.vlan .native := (hsame i').2.1 .native
          have : a.native = some v := by simpa [VIf.native, ha] using h3
          simp only [nm, ha, Option.bind_some, VlanAttr.names, this, Option.map_some] at hnat
          cases hgi : (g i').vlan with
          | none => simp [hgi] at hnat
          | some c =>
            refine ⟨c, by rw [← hi', hgi], ?_⟩
            cases hcn : c.native with
            | none => simp [hgi, hcn] at hnat
            | some y => simpa [hgi, hcn] using hnat
        · obtain ⟨o, ho, hon⟩ := List.any_eq_true.mp h4
          rw [he] at ho
          have ho' : o ∈ p' ++ post' := by
            simp only [List.mem_append, List.mem_cons] at ho ⊢
            rcases ho with h | rfl | h
            · exact Or.inl h
            · simp [ha] at hon
            · exact Or.inr h
          refine ⟨g o, ?_, ?_⟩
          · rw [← List.map_append]
            exact List.mem_map.mpr ⟨o, ho', rfl⟩
          · have := (hsame o).2.2
            cases hgo : (g o).vlan with
            | none => rfl
            | some _ =>
              rw [hgo] at this
              cases hov : o.vlan with
              | none => simp [hov] at this
              | some _ => simp [hov] at hon

/-- C62: on an accepted trunk link, every interface with VLAN attributes has a trunk, and when there is an interface without
VLAN attributes, an interface has a native VLAN. -/
theorem C62_trunk_everywhere (t : VTopo) (sort : List String → List String) (pick : List String → Option String) (l : VLink)
    (h : (vlanLink t sort pick l).errors = 0) (b : VlanAttr) (hb : OnLink l b) (htr : b.trunk ≠ none) :
    (∀ i ∈ (vlanLink t sort pick l).link.ifs, ∀ a, i.vlan = some a → a.trunk ≠ none) ∧
    (∀ i ∈ (vlanLink t sort pick l).link.ifs, i.vlan = none →
      ∃ j ∈ (vlanLink t sort pick l).link.ifs, ∃ a, j.vlan = some a ∧ a.native ≠ none) := by
  obtain ⟨ifs, hc, hx, ht, -, hl, -⟩ := vlanLink_stages h
  have hhas : linkHas l .trunk = true := by
    refine (linkHas_iff l .trunk).mpr ⟨b, hb, ?_⟩
    cases hh : b.trunk with
    | none => exact absurd hh htr
    | some _ => simp [VlanAttr.names, hh]
  have h0 := ht hhas
  obtain ⟨g, hg, hsame⟩ := accessPart_ifs t pick (collectLink t l).1 { l with ifs := ifs.map (mergeIf t l) }
  rw [hl, hg]
  simp only at h0 ⊢
  generalize ifs.map (mergeIf t l) = fs at h0
  have hsome : ∀ k x a, (g x).vlan = some a → ∃ c, x.vlan = some c ∧ (a.names k).isSome = (c.names k).isSome := by
    intro k x a ha
    have h1 := (hsame x).2.2
    rw [ha] at h1
    cases hv : x.vlan with
    | none => simp [hv] at h1
    | some c =>
      refine ⟨c, rfl, ?_⟩
      have := (hsame x).2.1 k
      simp only [nm, ha, hv, Option.bind_some] at this
      rw [this]
  unfold trunkCheck at h0
  split at h0
  · cases h0
  rename_i hcond
  constructor
  · intro i hi a ha
    obtain ⟨x, hxm, rfl⟩ := List.mem_map.mp hi
    obtain ⟨c, hc1, hc2⟩ := hsome .trunk x a ha
    obtain ⟨p, q, he⟩ := List.append_of_mem hxm
    have h1 := trunkLoop_zero _ _ _ h0 p x q he
    unfold trunkErrors at h1
    simp only [hc1] at h1
    intro hn
    simp only [VlanAttr.names, hn, Option.map_none, Option.isSome_none] at hc2
    cases hct : c.trunk with
    | none => simp [hct] at h1
    | some _ => simp [hct] at hc2
  · intro i hi hn
    obtain ⟨x, hxm, rfl⟩ := List.mem_map.mp hi
    have hxn : x.vlan = none := by
      have h1 := (hsame x).2.2
      rw [hn] at h1
      cases hv : x.vlan with
      | none => rfl
      | some _ => simp [hv] at h1
    have hany : (fs.any fun i => i.vlan.isNone) = true := List.any_eq_true.mpr ⟨x, hxm, by rw [hxn]; rfl⟩
    have : (fs.any fun i => i.native.isSome) = true := by
      cases hh : (fs.any fun i => i.native.isSome) with
      | true => rfl
      | false => simp [hany, hh] at hcond
    obtain ⟨y, hy, hyn⟩ := List.any_eq_true.mp this
    have hgy : (g y).vlan.isSome = y.vlan.isSome := (hsame y).2.2
    cases hv : y.vlan with
    | none => simp [VIf.native, hv] at hyn
    | some c =>
      rw [hv] at hgy
      obtain ⟨a, ha⟩ := Option.isSome_iff_exists.mp hgy
      refine ⟨g y, List.mem_map.mpr ⟨y, hy, rfl⟩, a, ha, ?_⟩
      obtain ⟨c', hc1, hc2⟩ := hsome .native y a ha
      rw [hv] at hc1
      obtain rfl := Option.some.inj hc1
      intro hnn
      simp only [VIf.native, hv, Option.bind_some] at hyn
      simp only [VlanAttr.names, hnn, Option.map_none, Option.isSome_none, Option.isSome_map] at hc2
      rw [hyn] at hc2
      cases hc2

/-! ### C63: forwarding modes -/

theorem ifMode_eq (t : VTopo) (i : VIf) (v : String) (hf : i.fwd = none)
    (hv : ((i.vlan.bind (·.access)).or (i.vlan.bind (·.native))) = some v) :
    ifMode t i = modeOf t (i.vlan.bind (·.mode)) i.node v := by
  unfold ifMode modeOf
  rw [hv, hf]
  simp only [Option.none_or]
  generalize i.vlan.bind (·.mode) = a
  generalize ((t.node i.node).vlans.lookup v).bind (·.mode) = b
  generalize (t.node i.node).mode = c
  generalize (t.vlans.lookup v).bind (·.mode) = d
  generalize t.mode = e
  cases a <;> cases b <;> cases c <;> cases d <;> cases e <;> rfl

theorem untagged_iff (i : VIf) (v : String) :
    untagged i v ↔ ((i.vlan.bind (·.access)).or (i.vlan.bind (·.native))) = some v := by
  unfold untagged
  cases hi : i.vlan with
  | none => simp
  | some a =>
    cases ha : a.access with
    | none => simp [ha]
    | some x => simp [ha]

theorem sameVlans_untagged {i j : VIf} (h : sameVlans i j) (v : String) : untagged j v ↔ untagged i v := by
  have ha := h.2.1 .access
  have hn := h.2.1 .native
  have e1 : ∀ x : VIf, nm x.vlan .access = (x.vlan.bind (·.access)).map ([·]) := fun x => by
    unfold nm; cases x.vlan <;> rfl
  have e2 : ∀ x : VIf, nm x.vlan .native = (x.vlan.bind (·.native)).map ([·]) := fun x => by
    unfold nm; cases x.vlan <;> rfl
  have inj : ∀ a b : Option String, a.map ([·]) = b.map ([·]) → a = b := by
    intro a b hab
    cases a <;> cases b <;> simp_all
  rw [e1, e1] at ha
  rw [e2, e2] at hn
  rw [untagged_iff, untagged_iff, inj _ _ ha, inj _ _ hn]

/-- Everything that happens to an interface of an accepted link before the access VLAN is processed. -/
theorem merged_ifs {t : VTopo} {l : VLink} {s : VColls} {ifs : List VIf} {e : Nat}
    (h : validateAttrs l s = some (ifs, e)) :
    ∃ f : VIf → VIf, ifs.map (mergeIf t l) = l.ifs.map f ∧ ∀ i, (f i).node = i.node ∧ (f i).fwd = i.fwd ∧
      (f i).vlan = match l.vlan with
        | none => i.vlan
        | some a => if (t.node i.node).aware then some (mergeAttr a (i.vlan.getD {})) else i.vlan := by
  obtain ⟨f, rfl, hf⟩ := validateAttrs_ifs h
  refine ⟨fun i => mergeIf t l (f i), by simp [List.map_map, Function.comp_def], fun i => ?_⟩
  obtain ⟨h1, h2, h3⟩ := hf i
  unfold mergeIf
  cases l.vlan with
  | none => exact ⟨h1, h3, h2⟩
  | some a =>
    simp only
    rw [h1]
    split
    · exact ⟨rfl, h3, by simp [h2]⟩
    · exact ⟨h1, h3, h2⟩

theorem merged_mode {t : VTopo} {l : VLink} {i j : VIf} (hj : j.vlan = match l.vlan with
        | none => i.vlan
        | some a => if (t.node i.node).aware then some (mergeAttr a (i.vlan.getD {})) else i.vlan) :
    j.vlan.bind (·.mode) = modeAttr t l i := by
  unfold modeAttr
  rw [hj]
  cases l.vlan with
  | none => cases i.vlan <;> simp
  | some a =>
    simp only
    split
    · rename_i h
      cases i.vlan <;> simp [mergeAttr]
    · rename_i h
      simp

/-- An interface of the link with access or native VLANs after merging. -/
theorem untagged_onLink {t : VTopo} {l : VLink} {i j : VIf} (hi : i ∈ l.ifs) (hj : j.vlan = match l.vlan with
        | none => i.vlan
        | some a => if (t.node i.node).aware then some (mergeAttr a (i.vlan.getD {})) else i.vlan)
    {v : String} (hu : untagged j v) : linkHas l .access = true ∨ linkHas l .native = true := by
  have key : ∀ b, i.vlan = some b → (b.access ≠ none → linkHas l .access = true) ∧
      (b.native ≠ none → linkHas l .native = true) := by
    intro b hb
    refine ⟨fun h => (linkHas_iff l _).mpr ⟨b, Or.inr ⟨i, hi, hb⟩, ?_⟩,
      fun h => (linkHas_iff l _).mpr ⟨b, Or.inr ⟨i, hi, hb⟩, ?_⟩⟩
    · simpa [VlanAttr.names, Option.isSome_iff_ne_none] using h
    · simpa [VlanAttr.names, Option.isSome_iff_ne_none] using h
  have keyl : ∀ b, l.vlan = some b → (b.access ≠ none → linkHas l .access = true) ∧
      (b.native ≠ none → linkHas l .native = true) := by
    intro b hb
    refine ⟨fun h => (linkHas_iff l _).mpr ⟨b, Or.inl hb, ?_⟩, fun h => (linkHas_iff l _).mpr ⟨b, Or.inl hb, ?_⟩⟩
    · simpa [VlanAttr.names, Option.isSome_iff_ne_none] using h
    · simpa [VlanAttr.names, Option.isSome_iff_ne_none] using h
  obtain ⟨a, ha, hx⟩ := hu
  rw [hj] at ha
  have own : i.vlan = some a → linkHas l .access = true ∨ linkHas l .native = true := by
    intro hb
    rcases hx with h | ⟨-, h⟩
    · exact Or.inl ((key a hb).1 (by simp [h]))
    · exact Or.inr ((key a hb).2 (by simp [h]))
  cases hl : l.vlan with
  | none => rw [hl] at ha; exact own ha
  | some b =>
    rw [hl] at ha
    simp only at ha
    split at ha
    · have ha := Option.some.inj ha
      rw [← ha] at hx
      simp only [mergeAttr] at hx
      have hi2 : ∀ x, (i.vlan.getD {}).access = some x → linkHas l .access = true := by
        intro x hx
        cases hh : i.vlan with
        | none => simp [hh] at hx
        | some c => exact (key c hh).1 (by simp [hh] at hx; simp [hx])
      have hi3 : ∀ x, (i.vlan.getD {}).native = some x → linkHas l .native = true := by
        intro x hx
        cases hh : i.vlan with
        | none => simp [hh] at hx
        | some c => exact (key c hh).2 (by simp [hh] at hx; simp [hx])
      rcases hx with h | ⟨-, h⟩
      · cases hc : (i.vlan.getD {}).access with
        | some x => exact Or.inl (hi2 x hc)
        | none =>
          rw [hc, Option.none_or] at h
          exact Or.inl ((keyl b hl).1 (by simp [h]))
      · cases hc : (i.vlan.getD {}).native with
        | some x => exact Or.inr (hi3 x hc)
        | none =>
          rw [hc, Option.none_or] at h
          exact Or.inr ((keyl b hl).2 (by simp [h]))
    · exact own ha

theorem accessVlan_some {t : VTopo} {l : VLink} {pick : List String → Option String} (hp : Picks pick)
    (hc : (collectLink t l).2 = 0) (h : linkHas l .access = true ∨ linkHas l .native = true) :
    ∃ v, accessVlan pick (collectLink t l).1 = some v := by
  have hs := (collectLink_spec t l hc).2.2
  have ne : ∀ k, k = .access ∨ k = .native → linkHas l k = true →
      ∃ x, ((collectLink t l).1 k).bind (fun c => pick c.list.eraseDups) = some x := by
    intro k hk hh
    have h1 := (hs k).1
    rw [hh] at h1
    obtain ⟨c, hcc⟩ := Option.isSome_iff_exists.mp h1
    have h2 := (hs k).2.1
    simp only [VColls.ls, hcc, Option.getD_some] at h2
    obtain ⟨a, ha, hx⟩ := (linkHas_iff l k).mp hh
    have hmem : ∃ y, y ∈ c.list.eraseDups := by
      rw [h2]
      rcases hk with rfl | rfl
      · cases hh : a.access with
        | none => simp [VlanAttr.names, hh] at hx
        | some y =>
          exact ⟨y, List.mem_eraseDups.mpr ((mem_linkNames l .access y).mpr ⟨a, ha, by simp [nm, VlanAttr.names, hh]⟩)⟩
      · cases hh : a.native with
        | none => simp [VlanAttr.names, hh] at hx
        | some y =>
          exact ⟨y, List.mem_eraseDups.mpr ((mem_linkNames l .native y).mpr ⟨a, ha, by simp [nm, VlanAttr.names, hh]⟩)⟩
    have hne : c.list.eraseDups ≠ [] := by
      intro h0
      obtain ⟨y, hy⟩ := hmem
      rw [h0] at hy
      cases hy
    obtain ⟨x, -, hx⟩ := hp.2 _ hne
    exact ⟨x, by simp [hcc, hx]⟩
  unfold accessVlan
  rcases h with h | h
  · obtain ⟨x, hx⟩ := ne .access (Or.inl rfl) h
    exact ⟨x, by rw [hx]⟩
  · obtain ⟨x, hx⟩ := ne .native (Or.inr rfl) h
    split
    · exact ⟨_, rfl⟩
    · exact ⟨x, hx⟩

theorem disableIp_fwd (t : VTopo) (i : VIf) : (disableIp t i).fwd = i.fwd := by
  unfold disableIp
  split <;> rfl

theorem setRoute_fwd (i : VIf) : (setRoute i).fwd = i.fwd := by
  unfold setRoute
  split <;> rfl

theorem setFwd_fwd (t : VTopo) (i : VIf) (h : i.fwd = none) :
    (setFwd t i).fwd = if i.vlan.isSome then some (ifMode t i) else none := by
  unfold setFwd
  split
  · rfl
  · exact h

/-- The interfaces after the access VLAN was processed. -/
theorem accessPart_fwd {t : VTopo} {pick : List String → Option String} {s : VColls} {l : VLink} {v : String}
    (h : accessVlan pick s = some v) :
    ∃ g : VIf → VIf, (accessPart t pick s l).1.ifs = l.ifs.map g ∧ ∀ i, sameVlans i (g i) ∧ (g i).fwd = (setFwd t i).fwd ∧
      ((t.node i.node).aware = true → (g i).fwd = some .bridge → (g i).noIp = true) := by
  have dis : ∀ j : VIf, (t.node j.node).aware = true → (disableIp t j).fwd = some .bridge → (disableIp t j).noIp = true := by
    intro j ha hb
    rw [disableIp_fwd] at hb
    simp [disableIp, ha, hb]
  simp only [accessPart, h]
  split
  · refine ⟨fun i => disableIp t (setRoute (setFwd t i)), by simp [List.map_map, Function.comp_def], fun i => ⟨?_, ?_, ?_⟩⟩
    · exact sameVlans_trans (sameVlans_setFwd t i) (sameVlans_trans (sameVlans_setRoute _) (sameVlans_disableIp t _))
    · rw [disableIp_fwd, setRoute_fwd]
    · intro ha
      exact dis _ (by rw [(sameVlans_setRoute _).1, (sameVlans_setFwd t i).1]; exact ha)
  · refine ⟨fun i => disableIp t (setFwd t i),
      by simp [(setPrefix_ifs t pick s _).1, List.map_map, Function.comp_def], fun i => ⟨?_, ?_, ?_⟩⟩
    · exact sameVlans_trans (sameVlans_setFwd t i) (sameVlans_disableIp t _)
    · rw [disableIp_fwd]
    · intro ha
      exact dis _ (by rw [(sameVlans_setFwd t i).1]; exact ha)

theorem forall₂_map_self {α β : Type} {R : α → β → Prop} (f : α → β) : ∀ (l : List α), (∀ a ∈ l, R a (f a)) →
    List.Forall₂ R l (l.map f)
  | [], _ => List.Forall₂.nil
  | a :: l, h => List.Forall₂.cons (h a List.mem_cons_self) (forall₂_map_self f l fun b hb => h b (List.mem_cons_of_mem _ hb))

/-- C63: an accepted link has the same interfaces (in the same order) after the transformation.  The forwarding mode of an
interface with an access or native VLAN is the first one of these that is set: `vlan.mode` of the interface or link, the
mode of the VLAN on the node, `vlan.mode` of the node, the mode of the global VLAN, the global `vlan.mode`; and `irb`
otherwise.  An interface with VLAN attributes, but without an access or native VLAN, is not routed or bridged.  IP addressing is
disabled in `bridge` mode. -/
theorem C63_mode (t : VTopo) (sort : List String → List String) (pick : List String → Option String) (hp : Picks pick)
    (l : VLink) (fresh : Fresh l) (h : (vlanLink t sort pick l).errors = 0) :
    List.Forall₂ (fun i j => j.node = i.node ∧
      (∀ v, untagged j v → j.fwd = some (modeOf t (modeAttr t l i) i.node v)) ∧
      ((∀ v, ¬ untagged j v) → j.fwd = none ∨ j.fwd = some .irb) ∧
      ((t.node i.node).aware = true → j.fwd = some .bridge → j.noIp = true))
      l.ifs (vlanLink t sort pick l).link.ifs := by
  obtain ⟨ifs, hc, hx, -, -, hl, -⟩ := vlanLink_stages h
  obtain ⟨f, hf, hf'⟩ := merged_ifs (t := t) hx
  rw [hl, hf]
  cases hav : accessVlan pick (collectLink t l).1 with
  | none =>
    have : (accessPart t pick (collectLink t l).1 { l with ifs := l.ifs.map f }).1.ifs = l.ifs.map f := by
      simp [accessPart, hav, (setPrefix_ifs t pick (collectLink t l).1 _).1]
    rw [this]
    refine forall₂_map_self f l.ifs fun i hi => ⟨(hf' i).1, ?_, fun _ => .inl (by rw [(hf' i).2.1, fresh.2 i hi]), ?_⟩
    · intro v hu
      obtain ⟨w, hw⟩ := accessVlan_some hp hc (untagged_onLink hi (hf' i).2.2 hu)
      rw [hav] at hw
      cases hw
    · intro _ hb
      rw [(hf' i).2.1, fresh.2 i hi] at hb
      cases hb
  | some w =>
    obtain ⟨g, hg, hg'⟩ := accessPart_fwd (t := t) (l := { l with ifs := l.ifs.map f }) hav
    rw [hg, List.map_map]
    refine forall₂_map_self _ l.ifs fun i hi => ⟨?_, ?_, ?_, ?_⟩
    · rw [Function.comp_apply, (hg' (f i)).1.1, (hf' i).1]
    · intro v hu
      have hu2 := (sameVlans_untagged (hg' (f i)).1 v).mp hu
      have hfw : (f i).fwd = none := by rw [(hf' i).2.1, fresh.2 i hi]
      have hsome : (f i).vlan.isSome = true := by
        obtain ⟨a, ha, -⟩ := hu2
        simp [ha]
      rw [Function.comp_apply, (hg' (f i)).2.1, setFwd_fwd t _ hfw, if_pos hsome,
        ifMode_eq t (f i) v hfw ((untagged_iff _ _).mp hu2), merged_mode (hf' i).2.2, (hf' i).1]
    · intro hno
      have hfw : (f i).fwd = none := by rw [(hf' i).2.1, fresh.2 i hi]
      rw [Function.comp_apply, (hg' (f i)).2.1, setFwd_fwd t _ hfw]
      split
      · right
        unfold ifMode
        split
        · rfl
        · rename_i v hv
          exact absurd ((sameVlans_untagged (hg' (f i)).1 v).mpr ((untagged_iff _ _).mpr hv)) (hno v)
      · exact .inl rfl
    · intro ha
      exact (hg' (f i)).2.2 (by rw [(hf' i).1]; exact ha)

theorem routedAccess_iff (ifs : List VIf) : routedAccess ifs = true ↔ allRouted ifs := by
  unfold routedAccess allRouted
  simp only [Bool.and_eq_true, List.any_eq_true, List.all_eq_true, Option.isSome_iff_ne_none]
  constructor
  · rintro ⟨h1, h2⟩
    refine ⟨h1, fun i hi hn => ?_⟩
    have := h2 i hi
    cases hf : i.fwd with
    | none => exact absurd hf hn
    | some m => simpa [hf] using this
  · rintro ⟨h1, h2⟩
    refine ⟨h1, fun i hi => ?_⟩
    cases hf : i.fwd with
    | none => rfl
    | some m =>
      have := h2 i hi (by simp [hf])
      rw [hf] at this
      simpa using this

theorem allRouted_map {ifs : List VIf} {f : VIf → VIf} (hf : ∀ i, (f i).fwd = i.fwd) :
    allRouted (ifs.map f) ↔ allRouted ifs := by
  unfold allRouted
  simp only [List.mem_map, exists_exists_and_eq_and, forall_exists_index, and_imp, forall_apply_eq_imp_iff₂, hf]

/-- The VLAN used as access or native VLAN of the link. -/
theorem accessVlan_mem {t : VTopo} {l : VLink} {pick : List String → Option String} (hp : Picks pick)
    (hc : (collectLink t l).2 = 0) {v : String} (h : accessVlan pick (collectLink t l).1 = some v) :
    ∃ a, OnLink l a ∧ (a.access = some v ∨ a.native = some v) := by
  have hs := (collectLink_spec t l hc).2.2
  have mem : ∀ k, ((collectLink t l).1 k).bind (fun c => pick c.list.eraseDups) = some v → v ∈ linkNames l k := by
    intro k hk
    obtain ⟨c, hcc, hx⟩ := Option.bind_eq_some_iff.mp hk
    have h2 := (hs k).2.1
    simp only [VColls.ls, hcc, Option.getD_some] at h2
    rw [← h2]
    by_cases hne : c.list.eraseDups = []
    · rw [hne, hp.1] at hx
      cases hx
    · obtain ⟨x, hx1, hx2⟩ := hp.2 _ hne
      rw [hx] at hx2
      cases hx2
      exact List.mem_eraseDups.mp hx1
  unfold accessVlan at h
  split at h
  · rename_i w hw
    cases h
    obtain ⟨a, ha, hx⟩ := (mem_linkNames l .access v).mp (mem .access hw)
    refine ⟨a, ha, Or.inl ?_⟩
    cases hh : a.access <;> simp_all [nm, VlanAttr.names]
  · obtain ⟨a, ha, hx⟩ := (mem_linkNames l .native v).mp (mem .native h)
    refine ⟨a, ha, Or.inr ?_⟩
    cases hh : a.native <;> simp_all [nm, VlanAttr.names]

theorem pick_of_has {t : VTopo} {l : VLink} {pick : List String → Option String} (hp : Picks pick)
    (hc : (collectLink t l).2 = 0) {c : VColl} (h : (collectLink t l).1 .access = some c) :
    ∃ x, pick c.list.eraseDups = some x := by
  have hs := (collectLink_spec t l hc).2.2
  have hh : linkHas l .access = true := by
    rw [← (hs .access).1, h]
    rfl
  obtain ⟨a, ha, hx⟩ := (linkHas_iff l .access).mp hh
  have h2 := (hs .access).2.1
  simp only [VColls.ls, h, Option.getD_some] at h2
  have hne : c.list.eraseDups ≠ [] := by
    intro h0
    cases hacc : a.access with
    | none => simp [VlanAttr.names, hacc] at hx
    | some y =>
      have hy : y ∈ c.list.eraseDups := by
        rw [h2]
        exact List.mem_eraseDups.mpr ((mem_linkNames l .access y).mpr ⟨a, ha, by simp [nm, VlanAttr.names, hacc]⟩)
      rw [h0] at hy
      cases hy
  obtain ⟨x, -, hx⟩ := hp.2 _ hne
  exact ⟨x, hx⟩

theorem vlanPrefix_ok {t : VTopo} {pick : List String → Option String} {c : VColl} {l : VLink} {v : String}
    (hv : pick c.list.eraseDups = some v) (h : (vlanPrefix t pick c l).2 = 0) :
    ∃ d, (vlanPrefix t pick c l).1 = copyVlan v d l ∧
      (∀ g, t.vlans.lookup v = some g → d = g) ∧
      (t.vlans.lookup v = none → ∃ n, pick c.nodes = some n ∧ d = ((t.node n).vlans.lookup v).getD {}) := by
  unfold vlanPrefix at h ⊢
  simp only [hv] at h ⊢
  cases hg : t.vlans.lookup v with
  | some g => exact ⟨g, rfl, fun g' hg' => (Option.some.inj hg'), fun h => by cases h⟩
  | none =>
    simp only [hg] at h ⊢
    cases hn : pick c.nodes with
    | none => simp [hn] at h
    | some n =>
      refine ⟨_, rfl, ?_, fun _ => ⟨n, rfl, rfl⟩⟩
      intro g' hg'
      cases hg'

theorem setPrefix_ok {t : VTopo} {pick : List String → Option String} (hp : Picks pick) {l0 l : VLink}
    (hc : (collectLink t l0).2 = 0) {v : String} (hv : accessVlan pick (collectLink t l0).1 = some v)
    (h : (setPrefix t pick (collectLink t l0).1 l).2 = 0) :
    ∃ d, (setPrefix t pick (collectLink t l0).1 l).1 = copyVlan v d l ∧ ∀ g, t.vlans.lookup v = some g → d = g := by
  unfold setPrefix at h ⊢
  cases ha : (collectLink t l0).1 .access with
  | some c =>
    simp only [ha] at h ⊢
    obtain ⟨x, hx⟩ := pick_of_has hp hc ha
    have : x = v := by simpa [accessVlan, ha, hx] using hv
    subst this
    obtain ⟨d, h1, h2, -⟩ := vlanPrefix_ok hx h
    exact ⟨d, h1, h2⟩
  | none =>
    cases hn : (collectLink t l0).1 .native with
    | none => simp [accessVlan, ha, hn] at hv
    | some c =>
      simp only [ha, hn] at h ⊢
      have hx : pick c.list.eraseDups = some v := by simpa [accessVlan, ha, hn] using hv
      obtain ⟨d, h1, h2, -⟩ := vlanPrefix_ok hx h
      exact ⟨d, h1, h2⟩

/-- C63: on a link with access or native VLANs, when all interfaces with VLAN attributes are in `route` mode, the link is a
routed link: all these interfaces get `vlan.mode` `route`, and the prefix of the link does not change (so it does not
share the subnet of the VLAN).  Otherwise the link is a part of a VLAN used on the link. -/
theorem C63_routed (t : VTopo) (sort : List String → List String) (pick : List String → Option String) (hp : Picks pick)
    (l : VLink) (fresh : Fresh l) (h : (vlanLink t sort pick l).errors = 0) (a : VlanAttr) (ha : OnLink l a)
    (hu : a.access ≠ none ∨ a.native ≠ none) :
    (allRouted (vlanLink t sort pick l).link.ifs →
      (∀ j ∈ (vlanLink t sort pick l).link.ifs, ∀ b, j.vlan = some b → b.mode = some .route) ∧
      (∃ b, (vlanLink t sort pick l).link.vlan = some b ∧ b.mode = some .route) ∧
      (vlanLink t sort pick l).link.pfx = l.pfx ∧ (vlanLink t sort pick l).link.vlanName = none) ∧
    (¬ allRouted (vlanLink t sort pick l).link.ifs →
      ∃ v b, OnLink l b ∧ (b.access = some v ∨ b.native = some v) ∧
        (vlanLink t sort pick l).link.vlanName = some v) := by
  obtain ⟨ifs, hc, hx, -, he, hl, -⟩ := vlanLink_stages h
  obtain ⟨v, hv⟩ := accessVlan_some hp hc (l := l) (by
    rcases hu with hu | hu
    · left
      exact (linkHas_iff l .access).mpr ⟨a, ha, by simpa [VlanAttr.names, Option.isSome_iff_ne_none] using hu⟩
    · right
      exact (linkHas_iff l .native).mpr ⟨a, ha, by simpa [VlanAttr.names, Option.isSome_iff_ne_none] using hu⟩)
  rw [hl]
  simp only [accessPart, hv] at he ⊢
  split
  · rename_i hr
    refine ⟨fun _ => ⟨?_, ⟨_, rfl, rfl⟩, rfl, fresh.1⟩, ?_⟩
    · intro j hj b hb
      simp only [List.map_map, List.mem_map, Function.comp_apply] at hj
      obtain ⟨i, -, rfl⟩ := hj
      have hd : (disableIp t (setRoute (setFwd t (mergeIf t l i)))).vlan = (setRoute (setFwd t (mergeIf t l i))).vlan := by
        unfold disableIp
        split <;> rfl
      rw [hd] at hb
      unfold setRoute at hb
      split at hb
      · rename_i hn
        rw [hn] at hb
        cases hb
      · cases hb
        rfl
    · intro hn
      exfalso
      apply hn
      have h1 := (routedAccess_iff _).mp hr
      rw [List.map_map, allRouted_map (f := disableIp t ∘ setRoute)]
      · exact h1
      · intro i
        simp [disableIp_fwd, setRoute_fwd]
  · rename_i hr
    rw [if_neg hr] at he
    simp only at he
    obtain ⟨d, hd, -⟩ := setPrefix_ok hp hc hv he
    refine ⟨?_, ?_⟩
    · intro hall
      exfalso
      apply hr
      rw [routedAccess_iff]
      simp only [hd, copyVlan] at hall
      rw [allRouted_map (disableIp_fwd t)] at hall
      exact hall
    · intro _
      obtain ⟨b, hb, hbv⟩ := accessVlan_mem hp hc hv
      refine ⟨v, b, hb, hbv, ?_⟩
      simp only [hd, copyVlan]

theorem memberPrefix_global {t : VTopo} {v : String} {d : VlanDef} {p : String} (hd : t.vlans.lookup v = some d)
    (hp : d.pfx = some p) (ifs : List VIf) : memberPrefix t v ifs = some p := by
  unfold memberPrefix
  simp only [hd, Option.bind_some, hp]
  induction ifs with
  | nil => rfl
  | cons i r ih =>
    rw [List.foldl_cons]
    exact ih

/-- C63: one subnet per VLAN.  Every link created from an accepted link (the link itself and the VLAN member links) that is
a part of a global VLAN with a prefix has that prefix, unless all its VLAN interfaces are routed. -/
theorem C63_one_subnet (t : VTopo) (sort : List String → List String) (pick : List String → Option String)
    (hp : Picks pick) (l : VLink) (fresh : Fresh l) (h : (vlanLink t sort pick l).errors = 0) (x : VLink)
    (hx : x = (vlanLink t sort pick l).link ∨ x ∈ (vlanLink t sort pick l).members) (v : String)
    (hv : x.vlanName = some v) (d : VlanDef) (p : String) (hd : t.vlans.lookup v = some d) (hpf : d.pfx = some p) :
    x.pfx = .net p ∨ allRouted x.ifs := by
  obtain ⟨ifs, hc, hval, -, he, hl, hm⟩ := vlanLink_stages h
  rcases hx with rfl | hx
  · rw [hl] at hv ⊢
    left
    cases hav : accessVlan pick (collectLink t l).1 with
    | none =>
      exfalso
      simp only [accessPart, hav] at hv
      unfold setPrefix at hv
      have hna : (collectLink t l).1 .access = none := by
        cases hh : (collectLink t l).1 .access with
        | none => rfl
        | some c =>
          obtain ⟨y, hy⟩ := pick_of_has hp hc hh
          simp [accessVlan, hh, hy] at hav
      have hnn : ∀ c, (collectLink t l).1 .native = some c → pick c.list.eraseDups = none := by
        intro c hcn
        simpa [accessVlan, hna, hcn] using hav
      simp only [hna] at hv
      cases hn : (collectLink t l).1 .native with
      | none =>
        cases ht : (collectLink t l).1 .trunk with
        | some c =>
          simp only [hn, ht] at hv
          split at hv <;> simp [fresh.1] at hv
        | none =>
          simp only [hn, ht] at hv
          simp [fresh.1] at hv
      | some c =>
        simp only [hn, vlanPrefix, hnn c hn] at hv
        simp [fresh.1] at hv
    | some w =>
      simp only [accessPart, hav] at hv he ⊢
      split at hv
      · simp [fresh.1] at hv
      · rename_i hr
        rw [if_neg hr] at he ⊢
        obtain ⟨d', hd', hg⟩ := setPrefix_ok hp hc hav he
        simp only [hd', copyVlan, Option.some.injEq] at hv ⊢
        subst hv
        rw [hg d hd, hpf]
  · rw [hm] at hx
    split at hx
    · unfold memberLinks at hx
      obtain ⟨w, -, rfl⟩ := List.mem_map.mp hx
      unfold memberLink at hv ⊢
      by_cases hr : routedAccess (ifs.map (mergeIf t l) |>.filterMap (memberOf t w)) = true
      · right
        simp only [hr, if_true]
        rw [allRouted_map setRoute_fwd]
        exact (routedAccess_iff _).mp hr
      · left
        simp only [hr] at hv ⊢
        simp at hv
        subst hv
        simp [memberPrefix_global hd hpf]
    · cases hx

/-! ### C63: member links of trunks -/

theorem lookup_filter_new (l : List (String × Option VMode)) (v : String) : ∀ i : List (String × Option VMode),
    (i.filter fun e => (l.lookup e.1).isNone).lookup v = if (l.lookup v).isNone then i.lookup v else none
  | [] => by simp
  | e :: r => by
    have ih := lookup_filter_new l v r
    rw [List.filter_cons]
    by_cases hv : v = e.1
    · subst hv
      by_cases hn : (l.lookup e.1).isNone = true
      · simp [hn, List.lookup]
      · rw [if_neg hn, ih, if_neg hn, if_neg hn]
    · have hne : (v == e.1) = false := by simpa using hv
      by_cases hn : (l.lookup e.1).isNone = true
      · rw [if_pos hn]
        simp only [List.lookup, hne]
        exact ih
      · rw [if_neg hn]
        simp only [List.lookup, hne]
        exact ih

theorem lookup_mergeTrunk (l i : List (String × Option VMode)) (v : String) :
    (mergeTrunk l i).lookup v = match l.lookup v, i.lookup v with
      | some a, some b => some (b.or a)
      | some a, none => some a
      | none, b => b := by
  have app : ∀ (a b : List (String × Option VMode)), (a ++ b).lookup v = (a.lookup v).or (b.lookup v) := by
    intro a b
    induction a with
    | nil => simp
    | cons e r ih =>
      rw [List.cons_append]
      simp only [List.lookup]
      split
      · rfl
      · exact ih
  have hmap : (l.map fun e => (e.1, ((i.lookup e.1).getD none).or e.2)).lookup v =
      (l.lookup v).map fun a => ((i.lookup v).getD none).or a := by
    induction l with
    | nil => rfl
    | cons e r ih =>
      simp only [List.map_cons, List.lookup]
      by_cases he : v == e.1
      · have hv : v = e.1 := by simpa using he
        subst hv
        simp
      · simp only [he]
        exact ih
  have hfil := lookup_filter_new l v i
  unfold mergeTrunk
  rw [app, hmap, hfil]
  cases hl : l.lookup v with
  | none => simp
  | some a => cases hi : i.lookup v <;> simp

/-- The trunk entry of a VLAN after merging. -/
theorem merged_trunk {t : VTopo} {l : VLink} {i j : VIf} (hj : j.vlan = match l.vlan with
        | none => i.vlan
        | some a => if (t.node i.node).aware then some (mergeAttr a (i.vlan.getD {})) else i.vlan) (v : String) :
    (((j.vlan.bind (·.trunk)).getD []).lookup v).getD none = trunkMode t l i v := by
  unfold trunkMode
  rw [hj]
  cases l.vlan with
  | none => cases (i.vlan.bind (·.trunk)) <;> simp
  | some a =>
    simp only
    split
    · rename_i h
      have : ∀ b : VlanAttr, ((((mergeAttr a b).trunk).getD []).lookup v).getD none =
          (((b.trunk).getD []).lookup v |>.getD none).or (((a.trunk).getD []).lookup v |>.getD none) := by
        intro b
        simp only [mergeAttr]
        cases ha : a.trunk with
        | none => cases hb : b.trunk <;> simp
        | some x =>
          cases hb : b.trunk with
          | none => simp
          | some y =>
            simp only [Option.getD_some, lookup_mergeTrunk]
            cases hx : x.lookup v <;> cases hy : y.lookup v <;> simp
      simp only [Option.bind_some]
      rw [this]
      cases i.vlan <;> simp
    · rename_i h
      simp

theorem memberOf_iff (t : VTopo) (v : String) (i j : VIf) :
    memberOf t v i = some j ↔ ∃ m, ((i.vlan.bind (·.trunk)).getD []).lookup v = some m ∧ memberIf t v m i = j := by
  unfold memberOf
  simp [Option.map_eq_some_iff]

theorem memberOf_isSome (t : VTopo) (v : String) (i : VIf) : (memberOf t v i).isSome = i.trunk.contains v := by
  unfold memberOf VIf.trunk
  rw [Option.isSome_map]
  induction (i.vlan.bind (·.trunk)).getD [] with
  | nil => rfl
  | cons e r ih =>
    simp only [List.lookup, List.map_cons, List.contains_cons]
    by_cases h : (v == e.1) = true
    · simp [h]
    · simp only [Bool.not_eq_true] at h
      simp [h, ih]

theorem memberIf_node (t : VTopo) (v : String) (m : Option VMode) (i : VIf) : (memberIf t v m i).node = i.node := rfl

theorem memberIf_fwd (t : VTopo) (v : String) (m : Option VMode) (i : VIf) :
    (memberIf t v m i).fwd = some (modeOf t (m.or (i.vlan.bind (·.mode))) i.node v) ∧
    ((memberIf t v m i).noIp = true ↔ modeOf t (m.or (i.vlan.bind (·.mode))) i.node v = .bridge) := by
  have := ifMode_eq t {
    node := i.node
    vlan := some {
      access := some v
      mode := m.or (i.vlan.bind (·.mode)) } } v rfl rfl
  simp only [Option.bind_some] at this
  simp only [memberIf, this]
  simp

theorem filterMap_nodes (t : VTopo) (v : String) : ∀ ifs : List VIf,
    (ifs.filterMap (memberOf t v)).map (·.node) = (ifs.filter fun i => i.trunk.contains v).map (·.node)
  | [] => rfl
  | i :: r => by
    have ih := filterMap_nodes t v r
    have hs := memberOf_isSome t v i
    rw [List.filterMap_cons, List.filter_cons]
    cases hm : memberOf t v i with
    | none =>
      rw [hm] at hs
      simp only [← hs]
      simpa using ih
    | some j =>
      rw [hm] at hs
      obtain ⟨m, -, rfl⟩ := (memberOf_iff t v i j).mp hm
      simp only [← hs]
      simp [memberIf_node, ih]

theorem filter_map_nodes {g : VIf → VIf} {v : String} (hg : ∀ i, sameVlans i (g i)) : ∀ ifs : List VIf,
    ((ifs.map g).filter fun i => i.trunk.contains v).map (·.node) = (ifs.filter fun i => i.trunk.contains v).map (·.node)
  | [] => rfl
  | i :: r => by
    have ih := filter_map_nodes hg r (v := v)
    have ht : (g i).trunk = i.trunk := by rw [trunk_eq_nm, trunk_eq_nm, (hg i).2.1]
    rw [List.map_cons, List.filter_cons, List.filter_cons, ht]
    split
    · rw [List.map_cons, List.map_cons, ih, (hg i).1]
    · exact ih

/-- C63: the VLAN member links of an accepted link: one for every VLAN in a trunk of the link other than the native VLAN. -/
theorem C63_members (t : VTopo) (sort : List String → List String) (hsort : ∀ x, (sort x).Perm x)
    (pick : List String → Option String) (l : VLink) (h : (vlanLink t sort pick l).errors = 0)
    (only : ∀ a b m n, OnLink l a → OnLink l b → a.native = some m → b.native = some n → m = n) :
    ((vlanLink t sort pick l).members.map (·.vlanName)).Nodup ∧
    ∀ v, (∃ m ∈ (vlanLink t sort pick l).members, m.vlanName = some v) ↔
      (∃ a tr m, OnLink l a ∧ a.trunk = some tr ∧ (v, m) ∈ tr) ∧ ∀ a, OnLink l a → a.native ≠ some v := by
  obtain ⟨ifs, hc, hval, -, he, hl, hm⟩ := vlanLink_stages h
  have hs := (collectLink_spec t l hc).2.2
  have hname : ∀ (x : VLink) v, (memberLink t x v).vlanName = some v := by
    intro x v
    simp only [memberLink]
    split <;> rfl
  have hmem : ∀ v, v ∈ linkNames l .trunk ↔ ∃ a tr m, OnLink l a ∧ a.trunk = some tr ∧ (v, m) ∈ tr := by
    intro v
    rw [mem_linkNames]
    constructor
    · rintro ⟨a, ha, hx⟩
      obtain ⟨b, tr, m, hb, h1, h2⟩ := (nm_trunk_mem _ _).mp hx
      cases hb
      exact ⟨a, tr, m, ha, h1, h2⟩
    · rintro ⟨a, tr, m, ha, h1, h2⟩
      exact ⟨a, ha, (nm_trunk_mem _ _).mpr ⟨a, tr, m, rfl, h1, h2⟩⟩
  have hnat : ∀ v, some v ≠ ((collectLink t l).1 .native).bind (·.list.head?) ↔
      ∀ a, OnLink l a → a.native ≠ some v := by
    intro v
    have h2 := (hs .native).2.1
    have hhead : ((collectLink t l).1 .native).bind (·.list.head?) = (linkNames l .native).head? := by
      rw [← h2]
      unfold VColls.ls
      cases (collectLink t l).1 .native <;> rfl
    rw [hhead]
    have hmn : ∀ w, w ∈ linkNames l .native ↔ ∃ a, OnLink l a ∧ a.native = some w := by
      intro w
      rw [mem_linkNames]
      constructor
      · rintro ⟨a, ha, hx⟩
        refine ⟨a, ha, ?_⟩
        cases hh : a.native <;> simp_all [nm, VlanAttr.names]
      · rintro ⟨a, ha, hx⟩
        exact ⟨a, ha, by simp [nm, VlanAttr.names, hx]⟩
    constructor
    · intro hne a ha hx
      cases hlist : linkNames l .native with
      | nil =>
        have := (hmn v).mpr ⟨a, ha, hx⟩
        rw [hlist] at this
        cases this
      | cons y r =>
        obtain ⟨b, hb, hy⟩ := (hmn y).mp (by rw [hlist]; exact List.mem_cons_self)
        rw [hlist] at hne
        apply hne
        rw [only a b v y ha hb hx hy]
        rfl
    · intro hall heq
      obtain ⟨a, ha, hx⟩ := (hmn v).mp (List.mem_of_head? heq.symm)
      exact hall a ha hx
  rw [hm]
  by_cases ht : linkHas l .trunk = true
  · rw [if_pos ht]
    unfold memberLinks
    have hls : (((collectLink t l).1 .trunk).getD {}).list = linkNames l .trunk := (hs .trunk).2.1
    rw [hls]
    have hmap : ∀ (x : List String) (y : VLink), ((x.map (memberLink t y)).map (·.vlanName)) = x.map some := by
      intro x y
      rw [List.map_map]
      exact List.map_congr_left fun v _ => hname y v
    refine ⟨?_, ?_⟩
    · rw [hmap]
      have hnd : ((sort (linkNames l .trunk).eraseDups).filter fun v =>
          decide (some v ≠ ((collectLink t l).1 .native).bind (·.list.head?))).Nodup :=
        ((hsort _).nodup_iff.mpr (nodup_eraseDups _)).filter _
      exact List.Pairwise.map some (fun a b hab heq => hab (Option.some.inj heq)) hnd
    · intro v
      rw [← hmem v, ← hnat v]
      constructor
      · rintro ⟨m, hmm, hv⟩
        obtain ⟨w, hw, rfl⟩ := List.mem_map.mp hmm
        rw [hname] at hv
        cases hv
        obtain ⟨h1, h2⟩ := List.mem_filter.mp hw
        refine ⟨?_, by simpa using h2⟩
        rw [(hsort _).mem_iff] at h1
        exact List.mem_eraseDups.mp h1
      · rintro ⟨h1, h2⟩
        refine ⟨_, List.mem_map.mpr ⟨v, List.mem_filter.mpr ⟨?_, by simpa using h2⟩, rfl⟩, hname _ v⟩
        rw [(hsort _).mem_iff]
        exact List.mem_eraseDups.mpr h1
  · rw [if_neg ht]
    refine ⟨by simp, fun v => ⟨?_, ?_⟩⟩
    · rintro ⟨m, hx, -⟩
      cases hx
    · rintro ⟨⟨a, tr, m, ha, h1, -⟩, -⟩
      exact absurd ((linkHas_iff l .trunk).mpr ⟨a, ha, by simp [VlanAttr.names, h1]⟩) ht

/-- C63: a VLAN member link connects exactly the nodes with the VLAN in their trunks on the parent link.  The forwarding mode
of its interfaces follows the same precedence, with the mode set in the trunk first; addressing is disabled exactly in
`bridge` mode. -/
theorem C63_member_ifs (t : VTopo) (sort : List String → List String) (pick : List String → Option String) (l : VLink)
    (h : (vlanLink t sort pick l).errors = 0) (m : VLink) (hm : m ∈ (vlanLink t sort pick l).members) (v : String)
    (hv : m.vlanName = some v) :
    m.parent = some l.index ∧
    m.ifs.map (·.node) = ((vlanLink t sort pick l).link.ifs.filter fun i => i.trunk.contains v).map (·.node) ∧
    ∀ j ∈ m.ifs, ∃ i ∈ l.ifs, j.node = i.node ∧
      j.fwd = some (modeOf t ((trunkMode t l i v).or (modeAttr t l i)) i.node v) ∧
      (j.noIp = true ↔ j.fwd = some .bridge) ∧
      ∃ a, j.vlan = some a ∧ a.access = some v ∧ (allRouted m.ifs → a.mode = some .route) := by
  obtain ⟨ifs, hc, hval, -, he, hl, hms⟩ := vlanLink_stages h
  obtain ⟨f, hf, hf'⟩ := merged_ifs (t := t) hval
  obtain ⟨g, hg, hsame⟩ := accessPart_ifs t pick (collectLink t l).1 { l with ifs := ifs.map (mergeIf t l) }
  rw [hl, hg, filter_map_nodes hsame]
  rw [hms] at hm
  split at hm
  · obtain ⟨w, -, rfl⟩ := List.mem_map.mp hm
    have key : ∀ j ∈ (l.ifs.map f).filterMap (memberOf t w), ∃ i ∈ l.ifs, j.node = i.node ∧
        j.fwd = some (modeOf t ((trunkMode t l i w).or (modeAttr t l i)) i.node w) ∧
        (j.noIp = true ↔ j.fwd = some .bridge) ∧ ∃ a, j.vlan = some a ∧ a.access = some w := by
      intro j hj
      obtain ⟨x, hx, hxj⟩ := List.mem_filterMap.mp hj
      obtain ⟨i, hi, rfl⟩ := List.mem_map.mp hx
      obtain ⟨md, hmd, rfl⟩ := (memberOf_iff t w _ j).mp hxj
      obtain ⟨k1, k2⟩ := memberIf_fwd t w md (f i)
      have e1 : md = trunkMode t l i w := by rw [← merged_trunk (hf' i).2.2 w, hmd]; rfl
      rw [merged_mode (hf' i).2.2, (hf' i).1, e1] at k1 k2
      refine ⟨i, hi, ?_, ?_, ?_, _, rfl, rfl⟩
      · rw [memberIf_node, (hf' i).1]
      · rw [e1, k1]
      · rw [e1, k1, k2]
        simp
    simp only [memberLink] at hv ⊢
    split at hv
    · rename_i hr
      simp only [Option.some.injEq] at hv
      subst hv
      rw [if_pos hr]
      refine ⟨rfl, ?_, ?_⟩
      · rw [List.map_map]
        have : ((fun x : VIf => x.node) ∘ setRoute) = fun x => x.node := by
          funext x
          exact (sameVlans_setRoute x).1
        rw [this]
        exact filterMap_nodes t w _
      · intro j hj
        obtain ⟨j', hj', rfl⟩ := List.mem_map.mp hj
        rw [hf] at hj'
        obtain ⟨i, hi, h1, h2, h3, a, h4, h5⟩ := key j' hj'
        refine ⟨i, hi, by rw [(sameVlans_setRoute _).1, h1], by rw [setRoute_fwd, h2], ?_, ?_⟩
        · rw [setRoute_fwd, ← h3]
          unfold setRoute
          split <;> rfl
        · refine ⟨{ a with mode := some .route }, ?_, h5, fun _ => rfl⟩
          simp [setRoute, h4]
    · rename_i hr
      simp only [Option.some.injEq] at hv
      subst hv
      rw [if_neg hr]
      refine ⟨rfl, filterMap_nodes t w _, ?_⟩
      intro j hj
      have hj' := hj
      simp only at hj'
      rw [hf] at hj'
      obtain ⟨i, hi, h1, h2, h3, a, h4, h5⟩ := key j hj'
      refine ⟨i, hi, h1, h2, h3, a, h4, h5, ?_⟩
      intro hall
      exact absurd ((routedAccess_iff _).mpr hall) hr
  · cases hm

/-! ### Links that are accepted -/

theorem collectIfs_plain (t : VTopo) : ∀ (ifs : List VIf) (s : VColls × Nat), (∀ i ∈ ifs, i.vlan = none) → s.2 = 0 →
    collectIfs t ifs s = s
  | [], s, _, _ => rfl
  | i :: r, s, h, h0 => by
    unfold collectIfs
    rw [if_pos h0, h i List.mem_cons_self]
    obtain ⟨c, n⟩ := s
    simp only at h0
    subst h0
    exact collectIfs_plain t r _ (fun j hj => h j (List.mem_cons_of_mem _ hj)) rfl

theorem collectLink_plain (t : VTopo) (l : VLink) (a : VlanAttr) (ha : l.vlan = some a) (plain : ∀ i ∈ l.ifs, i.vlan = none)
    (defd : ∀ v, mentions a v → t.vlans.lookup v ≠ none) :
    (collectLink t l).2 = 0 ∧ ∀ k, linkHas l k = (a.names k).isSome ∧ linkNames l k = (a.names k).getD [] := by
  constructor
  · unfold collectLink
    have h0 : (collectObj t none l.vlan fun _ => none).2 = 0 := by
      rw [collectObj_errors]
      intro k v hv
      left
      exact Option.isSome_iff_ne_none.mpr (defd v ((mentions_iff a v).mpr ⟨k, by rw [← ha]; exact hv⟩))
    rw [collectIfs_plain t _ _ plain h0]
    exact h0
  · intro k
    have h1 : (l.ifs.any fun i => (nm i.vlan k).isSome) = false := by
      rw [List.any_eq_false]
      intro i hi
      simp [nm, plain i hi]
    have h2 : (l.ifs.flatMap fun i => (nm i.vlan k).getD []) = [] := by
      rw [List.flatMap_eq_nil_iff]
      intro i hi
      simp [nm, plain i hi]
    unfold linkHas linkNames
    rw [h1, h2]
    simp [nm, ha]

theorem setPrefix_global (t : VTopo) (pick : List String → Option String) (hp : Picks pick) (s : VColls) (l : VLink)
    (h : ∀ k v, k = .access ∨ k = .native → v ∈ s.ls k → t.vlans.lookup v ≠ none) : (setPrefix t pick s l).2 = 0 := by
  have hv : ∀ k c, k = .access ∨ k = .native → s k = some c → (vlanPrefix t pick c l).2 = 0 := by
    intro k c hk hc
    unfold vlanPrefix
    cases hx : pick c.list.eraseDups with
    | none => rfl
    | some v =>
      simp only
      have hmem : v ∈ c.list := by
        by_cases hne : c.list.eraseDups = []
        · rw [hne, hp.1] at hx
          cases hx
        · obtain ⟨x, h1, h2⟩ := hp.2 _ hne
          rw [hx] at h2
          cases h2
          exact List.mem_eraseDups.mp h1
      have := h k v hk (by simp [VColls.ls, hc, hmem])
      cases hg : t.vlans.lookup v with
      | none => exact absurd hg this
      | some d => rfl
  unfold setPrefix
  split
  · rename_i hc
    exact hv .access _ (Or.inl rfl) hc
  · rename_i hc
    exact hv .native _ (Or.inr rfl) hc
  · rfl
  · rfl

theorem accessPart_global (t : VTopo) (pick : List String → Option String) (hp : Picks pick) (s : VColls) (l : VLink)
    (h : ∀ k v, k = .access ∨ k = .native → v ∈ s.ls k → t.vlans.lookup v ≠ none) : (accessPart t pick s l).2 = 0 := by
  simp only [accessPart]
  split
  · exact setPrefix_global t pick hp s l h
  · split
    · rfl
    · exact setPrefix_global t pick hp s _ h

/-- C62: a link with a global access VLAN and no other VLAN attributes is always accepted. -/
theorem C62_access_accepted (t : VTopo) (sort : List String → List String) (pick : List String → Option String)
    (hp : Picks pick) (l : VLink) (v : String) (m : Option VMode)
    (hl : l.vlan = some {
      access := some v
      mode := m }) (plain : ∀ i ∈ l.ifs, i.vlan = none) (hv : t.vlans.lookup v ≠ none) :
    (vlanLink t sort pick l).errors = 0 := by
  obtain ⟨h0, hk⟩ := collectLink_plain t l _ hl plain (by
    rintro w (h | h | ⟨tr, x, h, -⟩)
    · cases h; exact hv
    · cases h
    · cases h)
  have hs := (collectLink_spec t l h0).2.2
  have ht : (collectLink t l).1 .trunk = none := by
    have := (hs .trunk).1
    rw [(hk .trunk).1] at this
    exact Option.isNone_iff_eq_none.mp (by simpa [VlanAttr.names] using this)
  have hn : (collectLink t l).1 .native = none := by
    have := (hs .native).1
    rw [(hk .native).1] at this
    exact Option.isNone_iff_eq_none.mp (by simpa [VlanAttr.names] using this)
  have hg : (((collectLink t l).1 .access).getD {}).glob = [v] := by
    have := (hs .access).2.2
    rw [(hk .access).2] at this
    simp only [VColls.gl] at this
    rw [this]
    have : t.isGlobal v = true := Option.isSome_iff_ne_none.mpr hv
    simp [VlanAttr.names, this]
  have hval : validateAttrs l (collectLink t l).1 = some (l.ifs, 0) := by
    unfold validateAttrs
    simp only [ht, hn, hg]
    rw [if_neg (by simp), if_neg (by simp), if_neg (by simp [List.eraseDups_cons])]
  unfold vlanLink
  simp only [h0, hval, ht]
  simp only [ne_eq, not_true_eq_false, if_false, Option.isSome_none, Bool.false_and, Bool.false_eq_true, Nat.zero_add]
  refine accessPart_global t pick hp _ _ ?_
  rintro k w (rfl | rfl) hw
  · rw [(hs .access).2.1, (hk .access).2] at hw
    simp [VlanAttr.names] at hw
    rw [hw]
    exact hv
  · rw [(hs .native).2.1, (hk .native).2] at hw
    simp [VlanAttr.names] at hw

theorem trunkLoop_same (tr : List (String × Option VMode)) : ∀ (ifs pre : List VIf),
    (∀ i ∈ pre ++ ifs, ∃ a, i.vlan = some a ∧ a.trunk = some tr) → 2 ≤ (pre ++ ifs).length → trunkLoop false pre ifs = 0
  | [], _, _, _ => rfl
  | i :: r, pre, h, hlen => by
    unfold trunkLoop
    have hrec := trunkLoop_same tr r (pre ++ [i]) (by simpa using h) (by simpa using hlen)
    rw [hrec, Nat.add_zero]
    obtain ⟨a, ha, hat⟩ := h i (by simp)
    unfold trunkErrors
    simp only [ha, hat, List.length_eq_zero_iff, List.filter_eq_nil_iff]
    intro v hv
    have hne : pre ++ r ≠ [] := by
      intro h0
      have h1 : pre = [] := (List.append_eq_nil_iff.mp h0).1
      have h2 : r = [] := (List.append_eq_nil_iff.mp h0).2
      subst h1 h2
      simp at hlen
    obtain ⟨o, ho⟩ := List.exists_mem_of_ne_nil _ hne
    obtain ⟨b, hb, hbt⟩ := h o (by
      simp only [List.mem_append, List.mem_cons] at ho ⊢
      rcases ho with h | h
      · exact Or.inl h
      · exact Or.inr (Or.inr h))
    have hov : o.trunk = i.trunk := by simp [VIf.trunk, ha, hat, hb, hbt]
    have : ((pre ++ r).any fun o => o.trunk.contains v) = true :=
      List.any_eq_true.mpr ⟨o, ho, by rw [hov]; simpa using hv⟩
    rw [this]
    simp

/-- C62: a trunk link between nodes using VLANs, with link attributes only (global VLANs, and an optional native VLAN that is in
the trunk), is always accepted. -/
theorem C62_trunk_accepted (t : VTopo) (sort : List String → List String) (pick : List String → Option String)
    (hp : Picks pick) (l : VLink) (tr : List (String × Option VMode)) (n : Option String) (m : Option VMode)
    (hl : l.vlan = some {
      trunk := some tr
      native := n
      mode := m }) (plain : ∀ i ∈ l.ifs, i.vlan = none) (aware : ∀ i ∈ l.ifs, (t.node i.node).aware = true)
    (two : 2 ≤ l.ifs.length) (hv : ∀ e ∈ tr, t.vlans.lookup e.1 ≠ none) (hn : ∀ v, n = some v → ∃ e ∈ tr, e.1 = v) :
    (vlanLink t sort pick l).errors = 0 := by
  obtain ⟨h0, hk⟩ := collectLink_plain t l _ hl plain (by
    rintro w (h | h | ⟨tr', x, h, hx⟩)
    · cases h
    · obtain ⟨e, he, rfl⟩ := hn w h
      exact hv e he
    · cases h
      exact hv _ hx)
  have hs := (collectLink_spec t l h0).2.2
  have ha : (collectLink t l).1 .access = none := by
    have := (hs .access).1
    rw [(hk .access).1] at this
    exact Option.isNone_iff_eq_none.mp (by simpa [VlanAttr.names] using this)
  have hts : ((collectLink t l).1 .trunk).isSome = true := by
    rw [(hs .trunk).1, (hk .trunk).1]
    rfl
  have htl : (collectLink t l).1.ls .trunk = tr.map (·.1) := by
    rw [(hs .trunk).2.1, (hk .trunk).2]
    rfl
  have hnl : (collectLink t l).1.ls .native = (n.map ([·])).getD [] := by
    rw [(hs .native).2.1, (hk .native).2]
    rfl
  have hnc : ∀ f, ∀ i ∈ l.ifs, nativeCheck l.vlan f i = (i, 0) := by
    intro f i hi
    simp [nativeCheck, plain i hi]
  have hval : validateAttrs l (collectLink t l).1 = some (l.ifs, 0) := by
    unfold validateAttrs
    obtain ⟨c, hc⟩ := Option.isSome_iff_exists.mp hts
    simp only [VColls.ls, hc, Option.getD_some] at htl
    simp only [ha, hc]
    simp only [Option.isSome_some, Option.isSome_none, Bool.and_false, Bool.false_eq_true, if_false, Option.isNone_some,
      Option.getD_none]
    rw [if_neg (by decide)]
    cases hcn : (collectLink t l).1 .native with
    | none => rfl
    | some d =>
      have hns := (hs .native).1
      rw [hcn, (hk .native).1] at hns
      obtain ⟨v, hnv⟩ : ∃ v, n = some v := by
        cases n with
        | none => simp [VlanAttr.names] at hns
        | some v => exact ⟨v, rfl⟩
      simp only [VColls.ls, hcn, Option.getD_some, hnv, Option.map_some] at hnl
      obtain ⟨e, he, hev⟩ := hn v hnv
      simp only [hnl, htl]
      have hany : ([v].any (tr.map (·.1)).contains) = true := by
        simp only [List.any_cons, List.any_nil, Bool.or_false, List.contains_iff_mem, List.mem_map]
        exact ⟨e, he, hev⟩
      rw [if_pos hany]
      have e1 : (l.ifs.map (nativeCheck l.vlan ([v].headD ""))).map (·.1) = l.ifs := by
        rw [List.map_map]
        conv => rhs; rw [← List.map_id l.ifs]
        exact List.map_congr_left fun i hi => by simp [hnc _ i hi]
      have e2 : ((l.ifs.map (nativeCheck l.vlan ([v].headD ""))).map (·.2)).sum = 0 := by
        rw [List.map_map]
        have : l.ifs.map ((fun x : VIf × Nat => x.2) ∘ nativeCheck l.vlan ([v].headD "")) = l.ifs.map fun _ => 0 :=
          List.map_congr_left fun i hi => by simp [hnc _ i hi]
        rw [this]
        clear * -
        induction l.ifs with
        | nil => rfl
        | cons a r ih => simp
      rw [e1, e2]
  have htc : trunkCheck (l.ifs.map (mergeIf t l)) = 0 := by
    have hall : ∀ i ∈ l.ifs.map (mergeIf t l), ∃ a, i.vlan = some a ∧ a.trunk = some tr := by
      intro j hj
      obtain ⟨i, hi, rfl⟩ := List.mem_map.mp hj
      refine ⟨_, by simp only [mergeIf, hl, aware i hi, if_true]; rfl, ?_⟩
      simp [mergeAttr, plain i hi]
    have hnn : ((l.ifs.map (mergeIf t l)).any fun i => i.vlan.isNone) = false := by
      rw [List.any_eq_false]
      intro i hi
      obtain ⟨a, h1, -⟩ := hall i hi
      simp [h1]
    unfold trunkCheck
    rw [hnn]
    simp only [Bool.false_and, Bool.false_eq_true, if_false]
    exact trunkLoop_same tr _ [] (by simpa using hall) (by simpa using two)
  unfold vlanLink
  simp only [h0, hval, htc]
  simp only [ne_eq, not_true_eq_false, if_false, decide_false, Bool.and_false, Bool.false_eq_true, Nat.zero_add]
  refine accessPart_global t pick hp _ _ ?_
  rintro k w (rfl | rfl) hw
  · simp [VColls.ls, ha] at hw
  · rw [hnl] at hw
    cases n with
    | none => simp at hw
    | some v =>
      simp at hw
      subst hw
      obtain ⟨e, he, rfl⟩ := hn w rfl
      exact hv e he

/-! ### Concrete cases and defects -/

def exVTopo : VTopo where
  vlans := [("red", {
    mode := none
    pfx := some "172.16.0.0/24" }), ("blue", {
    mode := some .route
    pfx := none }), ("green", {
    mode := some .bridge
    pfx := some "172.16.1.0/24" })]
  node := fun n => if n = "h" then {} else {
    aware := true
    mode := if n = "r" then some .route else none
    vlans := [("local", { pfx := some "10.0.0.0/24" })] }

def exTrunk (n : String) (tr : List String) (nat : Option String) : VIf where
  node := n
  vlan := some {
    trunk := some (tr.map fun v => (v, none))
    native := nat }

def exPick : List String → Option String := List.head?

theorem exPick_ok : Picks exPick := by
  refine ⟨rfl, fun s hs => ?_⟩
  cases s with
  | nil => exact absurd rfl hs
  | cons x r => exact ⟨x, List.mem_cons_self, rfl⟩

/-- A trunk with a native VLAN and a host: accepted, two member links. -/
example : (vlanLink exVTopo id exPick {
      index := 3
      ifs := [exTrunk "s1" ["red", "blue", "green"] (some "red"), exTrunk "s2" ["red", "blue", "green"] (some "red"),
        { node := "h" }] }).errors = 0 ∧
    ((vlanLink exVTopo id exPick {
      index := 3
      ifs := [exTrunk "s1" ["red", "blue", "green"] (some "red"), exTrunk "s2" ["red", "blue", "green"] (some "red"),
        { node := "h" }] }).members.map (·.vlanName)) = [some "blue", some "green"] ∧
    (vlanLink exVTopo id exPick {
      index := 3
      ifs := [exTrunk "s1" ["red", "blue", "green"] (some "red"), exTrunk "s2" ["red", "blue", "green"] (some "red"),
        { node := "h" }] }).link.pfx = .net "172.16.0.0/24" := by decide +kernel

/-- A routed access link: no VLAN prefix. -/
example : (vlanLink exVTopo id exPick {
      vlan := some { access := some "blue" }
      ifs := [{ node := "s1" }, { node := "s2" }] }).link.pfx = .auto ∧
    (vlanLink exVTopo id exPick {
      vlan := some { access := some "blue" }
      ifs := [{ node := "s1" }, { node := "s2" }] }).errors = 0 := by decide +kernel

/-- C62 (defect): interfaces of a link can have different native VLANs, although the code tries to reject that (the check at
`netsim/modules/vlan.py:282-287` is never reached). -/
theorem C62_two_natives : ∃ (t : VTopo) (l : VLink),
    (vlanLink t id exPick l).errors = 0 ∧
    ∃ i ∈ l.ifs, ∃ j ∈ l.ifs, nativeOf l i "red" ∧ nativeOf l j "green" :=
  ⟨exVTopo, { ifs := [exTrunk "s1" ["red", "green"] (some "red"), exTrunk "s2" ["red", "green"] (some "green")] },
    by decide +kernel, _, List.mem_cons_self, _, List.mem_cons_of_mem _ List.mem_cons_self,
    Or.inl ⟨_, rfl, rfl⟩, Or.inl ⟨_, rfl, rfl⟩⟩

/-- C62 (defect): VLANs with the same name that are defined on two nodes (and are different VLANs) can be connected by a trunk:
the check at `netsim/modules/vlan.py:270-277` is never reached. -/
theorem C62_local_names : ∃ (t : VTopo) (l : VLink),
    (vlanLink t id exPick l).errors = 0 ∧ t.vlans.lookup "local" = none ∧
    ∃ i ∈ l.ifs, ∃ j ∈ l.ifs, i.node ≠ j.node ∧ carries i "local" ∧ carries j "local" :=
  ⟨exVTopo, { ifs := [exTrunk "s1" ["local"] none, exTrunk "s2" ["local"] none] }, by decide +kernel, rfl,
    _, List.mem_cons_self, _, List.mem_cons_of_mem _ List.mem_cons_self, by decide,
    ⟨_, _, _, rfl, rfl, List.mem_cons_self⟩, ⟨_, _, _, rfl, rfl, List.mem_cons_self⟩⟩

/-- C62 (defect): the native VLAN check skips interfaces without VLAN attributes, which use the attributes of the link. -/
theorem C62_native_unchecked : ∃ (t : VTopo) (l : VLink) (i : VIf),
    (vlanLink t id exPick l).errors = 0 ∧ i ∈ l.ifs ∧ (t.node i.node).aware = true ∧ nativeOf l i "red" ∧
    ¬ inTrunkOf l i "red" := by
  refine ⟨exVTopo, {
    vlan := some {
      native := some "red"
      trunk := some [("green", none)] }
    ifs := [{ node := "s1" }, exTrunk "s2" ["red"] none, exTrunk "s3" ["red"] none] }, { node := "s1" },
    by decide +kernel, List.mem_cons_self, rfl, ?_, ?_⟩
  · refine Or.inr ⟨?_, _, rfl, rfl⟩
    rintro a h
    cases h
  · rintro (⟨a, tr, m, h, -⟩ | ⟨a, tr, m, h1, h2, h3⟩)
    · cases h
    · cases h1
      cases h2
      simp at h3

end Netlab
