import Verif.Spec.DhcpRelay
import Verif.Props.GroupInit

namespace Netlab

open Spec

/-! ### Links -/

theorem dlSet_self {β : Type} (f : Bool → β) (af : Bool) (v : β) : dlSet f af v af = v := by simp [dlSet]

theorem dlSet_ne {β : Type} (f : Bool → β) (af x : Bool) (v : β) (h : x ≠ af) : dlSet f af v x = f x := by simp [dlSet, h]

/-- Effect of one address family on the interface -/
structure DlStep (link : Bool → Option Bool) (i : DlIntf) (af : Bool) (i' : DlIntf) : Prop where
  node : i'.node = i.node
  bridged : i'.bridged = i.bridged
  oaddr : ∀ x, x ≠ af → i'.addr x = i.addr x
  oclient : ∀ x, x ≠ af → i'.client x = i.client x
  popped : i.addr af = some (.text "dhcp") → i'.addr af = none
  kept : i.addr af ≠ some (.text "dhcp") → i'.addr af = i.addr af
  wanted : DhcpWanted link i af → i'.client af = some true
  unwanted : ¬ DhcpWanted link i af → i'.client af = i.client af

theorem dlMark_fst (i : DlIntf) (af : Bool) (o : DlOut) : (dlMark i af o).1 = i := by
  unfold dlMark; split <;> rfl

theorem dlAf_step (link : Bool → Option Bool) (i : DlIntf) (af : Bool) (o : DlOut) : DlStep link i af (dlAf link i af o).1 := by
  unfold dlAf
  by_cases hd : i.addr af = some (.text "dhcp")
  · rw [if_pos hd]
    have key : ∀ i' : DlIntf, i'.node = i.node → i'.bridged = i.bridged → i'.addr = dlSet i.addr af none →
        i'.client = dlSet i.client af (some true) → DlStep link i af i' := by
      intro i' h1 h2 h3 h4
      refine ⟨h1, h2, fun x hx => by rw [h3, dlSet_ne _ _ _ _ hx], fun x hx => by rw [h4, dlSet_ne _ _ _ _ hx], fun _ => by rw [h3, dlSet_self],
        fun h => absurd hd h, fun _ => by rw [h4, dlSet_self], fun h => absurd (Or.inl hd) h⟩
    by_cases hl : link af = some false
    · simp only [hl]
      exact key _ rfl rfl rfl rfl
    · simp only [hl, if_false]
      unfold dlLinkClient
      split
      · split
        · exact key _ rfl rfl rfl rfl
        · rw [dlMark_fst]
          refine key _ rfl rfl rfl ?_
          funext x
          simp only [dlSet]
          by_cases hx : x = af
          · simp [hx]
          · simp [hx]
      · rw [dlMark_fst]
        exact key _ rfl rfl rfl rfl
  · rw [if_neg hd]
    unfold dlLinkClient
    by_cases hc : link af = some true ∧ i.client af ≠ some false
    · rw [if_pos hc]
      by_cases hb : i.bridged = true
      · rw [if_pos hb]
        refine ⟨rfl, rfl, fun _ _ => rfl, fun _ _ => rfl, fun h => absurd h hd, fun _ => rfl, ?_, fun _ => rfl⟩
        rintro (h | h | h)
        · exact absurd h hd
        · exact h
        · rw [hb] at h
          exact absurd h.2.2 (by decide)
      · rw [if_neg hb, dlMark_fst]
        refine ⟨rfl, rfl, fun _ _ => rfl, fun x hx => dlSet_ne _ _ _ _ hx, fun h => absurd h hd, fun _ => rfl, fun _ => dlSet_self _ _ _, ?_⟩
        intro h
        exact absurd (Or.inr (Or.inr ⟨hc.1, hc.2, by simpa using hb⟩)) h
    · rw [if_neg hc, dlMark_fst]
      refine ⟨rfl, rfl, fun _ _ => rfl, fun _ _ => rfl, fun h => absurd h hd, fun _ => rfl, ?_, fun _ => rfl⟩
      rintro (h | h | h)
      · exact absurd h hd
      · exact h
      · exact absurd ⟨h.1, h.2.1⟩ hc

/-- Effect of one address family on everything else -/
structure DlEff (act err : Prop) (n : String) (af : Bool) (o o' : DlOut) : Prop where
  modules : ∀ s, s ∈ o'.modules ↔ s ∈ o.modules ∨ (s = n ∧ act)
  nodup : o.modules.Nodup → o'.modules.Nodup
  subnet : ∀ x, o'.subnet x = true ↔ o.subnet x = true ∨ (x = af ∧ act)
  errors : err → o'.errors = o.errors + 1
  noerr : ¬ err → o'.errors = o.errors

theorem dlEff_none (act err : Prop) (n : String) (af : Bool) (o : DlOut) (h : ¬ act) (he : ¬ err) : DlEff act err n af o o :=
  ⟨fun s => by simp [h], fun h => h, fun x => by simp [h], fun x => absurd x he, fun _ => rfl⟩

theorem dlMark_eff (act err : Prop) (n : String) (i : DlIntf) (af : Bool) (o : DlOut) (hin : n = i.node) (h : act ↔ i.client af = some true) (he : ¬ err) :
    DlEff act err n af o (dlMark i af o).2 := by
  subst hin
  unfold dlMark
  by_cases hc : i.client af = some true
  · rw [if_pos hc]
    have ha : act := h.2 hc
    refine ⟨?_, ?_, ?_, fun x => absurd x he, fun _ => rfl⟩
    · intro s
      simp only
      split
      · rename_i hm
        have hm : i.node ∈ o.modules := by simpa using hm
        simp only [ha, and_true]
        exact ⟨Or.inl, fun h => h.elim id (fun h => h ▸ hm)⟩
      · simp [ha]
    · intro hn
      simp only
      split
      · exact hn
      · rename_i hm
        refine List.nodup_append.2 ⟨hn, by simp, ?_⟩
        intro a ha b hb
        simp only [List.mem_singleton] at hb
        subst hb
        intro hab
        subst hab
        exact hm (by simpa using ha)
    · intro x
      simp only [dlSet]
      split
      · rename_i hx
        simp [ha, hx]
      · rename_i hx
        simp [hx]
  · rw [if_neg hc]
    exact dlEff_none _ _ _ _ _ (fun ha => hc (h.1 ha)) he

theorem dlAf_eff (link : Bool → Option Bool) (i : DlIntf) (af : Bool) (o : DlOut) :
    DlEff (DhcpActive link i af) (i.addr af = some (.text "dhcp") ∧ link af = some false) i.node af o (dlAf link i af o).2 := by
  unfold dlAf
  by_cases hd : i.addr af = some (.text "dhcp")
  · rw [if_pos hd]
    by_cases hl : link af = some false
    · simp only [hl]
      have hna : ¬ DhcpActive link i af := fun h => h.2.2 ⟨hd, hl⟩
      refine ⟨fun s => by simp [hna], fun h => h, fun x => by simp [hna], fun _ => rfl, fun h => absurd ⟨hd, trivial⟩ h⟩
    · simp only [hl, if_false]
      have he : ¬ (i.addr af = some (.text "dhcp") ∧ False) := fun h => h.2
      unfold dlLinkClient
      simp only [dlSet_self]
      by_cases hc : link af = some true
      · rw [if_pos ⟨hc, by simp⟩]
        by_cases hb : i.bridged = true
        · rw [if_pos hb]
          exact dlEff_none _ _ _ _ _ (fun h => h.2.1 ⟨hc, hb⟩) he
        · rw [if_neg hb]
          refine dlMark_eff _ _ _ _ af o rfl ⟨fun _ => ?_, fun _ => ?_⟩ he
          · exact dlSet_self _ _ _
          exact ⟨Or.inl hd, fun h => hb h.2, fun h => hl h.2⟩
      · rw [if_neg (fun h => hc h.1)]
        refine dlMark_eff _ _ _ _ af o rfl ⟨fun _ => ?_, fun _ => ?_⟩ he
        · exact dlSet_self _ _ _
        exact ⟨Or.inl hd, fun h => hc h.1, fun h => hl h.2⟩
  · rw [if_neg hd]
    have he : ¬ (i.addr af = some (.text "dhcp") ∧ link af = some false) := fun h => hd h.1
    unfold dlLinkClient
    by_cases hc : link af = some true ∧ i.client af ≠ some false
    · rw [if_pos hc]
      by_cases hb : i.bridged = true
      · rw [if_pos hb]
        exact dlEff_none _ _ _ _ _ (fun h => h.2.1 ⟨hc.1, hb⟩) he
      · rw [if_neg hb]
        refine dlMark_eff _ _ _ _ af o rfl ⟨fun _ => ?_, fun _ => ?_⟩ he
        · exact dlSet_self _ _ _
        exact ⟨Or.inr (Or.inr ⟨hc.1, hc.2, by simpa using hb⟩), fun h => hb h.2, fun h => hd h.1⟩
    · rw [if_neg hc]
      refine dlMark_eff _ _ _ i af o rfl ⟨?_, ?_⟩ he
      · rintro ⟨h | h | h, -⟩
        · exact absurd h hd
        · exact h
        · exact absurd ⟨h.1, h.2.1⟩ hc
      · intro h
        refine ⟨Or.inr (Or.inl h), fun hx => hc ⟨hx.1, by rw [h]; simp⟩, fun h => hd h.1⟩

theorem dl_wanted_other (link : Bool → Option Bool) (i i' : DlIntf) (af x : Bool) (h : DlStep link i af i') (hx : x ≠ af) :
    (DhcpWanted link i' x ↔ DhcpWanted link i x) ∧ (DhcpActive link i' x ↔ DhcpActive link i x) := by
  have h1 : DhcpWanted link i' x ↔ DhcpWanted link i x := by
    unfold DhcpWanted
    rw [h.oaddr x hx, h.oclient x hx, h.bridged]
  refine ⟨h1, ?_⟩
  unfold DhcpActive
  rw [h1, h.oaddr x hx, h.bridged]

/-- C87: final state of interfaces on a link -/
theorem C87_link_clients (known : List String) (link : Bool → Option Bool) (ifs : List DlIntf) (o : DlOut) :
    List.Forall₂ (fun i i' =>
      i'.node = i.node ∧ i'.bridged = i.bridged ∧
      (i.node ∉ known → i' = i) ∧
      (i.node ∈ known → ∀ af,
        (i.addr af = some (.text "dhcp") → i'.addr af = none) ∧
        (i.addr af ≠ some (.text "dhcp") → i'.addr af = i.addr af) ∧
        (DhcpWanted link i af → i'.client af = some true) ∧
        (¬ DhcpWanted link i af → i'.client af = i.client af)))
      ifs (dlLink known link ifs o).1 := by
  induction ifs generalizing o with
  | nil => exact .nil
  | cons i r ih =>
    unfold dlLink
    by_cases hk : known.contains i.node = true
    · rw [if_pos hk]
      have hk' : i.node ∈ known := by simpa using hk
      refine .cons ?_ (ih _)
      have s1 := dlAf_step link i false o
      have s2 := dlAf_step link (dlAf link i false o).1 true (dlAf link i false o).2
      have hw := dl_wanted_other link i _ false true s1 (by decide)
      refine ⟨s2.node.trans s1.node, s2.bridged.trans s1.bridged, fun h => absurd hk' h, fun _ af => ?_⟩
      cases af with
      | false =>
        refine ⟨fun h => ?_, fun h => ?_, fun h => ?_, fun h => ?_⟩
        · rw [s2.oaddr _ (by decide)]; exact s1.popped h
        · rw [s2.oaddr _ (by decide)]; exact s1.kept h
        · rw [s2.oclient _ (by decide)]; exact s1.wanted h
        · rw [s2.oclient _ (by decide)]; exact s1.unwanted h
      | true =>
        have ha : (dlAf link i false o).1.addr true = i.addr true := s1.oaddr _ (by decide)
        have hc : (dlAf link i false o).1.client true = i.client true := s1.oclient _ (by decide)
        refine ⟨fun h => s2.popped (ha.trans h), fun h => (s2.kept (by rw [ha]; exact h)).trans ha, fun h => s2.wanted (hw.1.2 h),
          fun h => (s2.unwanted (fun x => h (hw.1.1 x))).trans hc⟩
    · rw [if_neg hk]
      have hk' : i.node ∉ known := by simpa using hk
      exact .cons ⟨rfl, rfl, fun _ => rfl, fun h => absurd h hk'⟩ (ih _)

theorem dlLink_eff (known : List String) (link : Bool → Option Bool) (ifs : List DlIntf) (o : DlOut) :
    (∀ s, s ∈ (dlLink known link ifs o).2.modules ↔ s ∈ o.modules ∨ ∃ i ∈ ifs, i.node ∈ known ∧ s = i.node ∧ ∃ af, DhcpActive link i af) ∧
    (o.modules.Nodup → (dlLink known link ifs o).2.modules.Nodup) ∧
    (∀ x, (dlLink known link ifs o).2.subnet x = true ↔ o.subnet x = true ∨ ∃ i ∈ ifs, i.node ∈ known ∧ DhcpActive link i x) ∧
    ((dlLink known link ifs o).2.errors = 0 ↔
      o.errors = 0 ∧ ∀ i ∈ ifs, i.node ∈ known → ∀ af, ¬ (i.addr af = some (.text "dhcp") ∧ link af = some false)) := by
  induction ifs generalizing o with
  | nil => simp [dlLink]
  | cons i r ih =>
    unfold dlLink
    by_cases hk : known.contains i.node = true
    · rw [if_pos hk]
      have hk' : i.node ∈ known := by simpa using hk
      have s1 := dlAf_step link i false o
      have e1 := dlAf_eff link i false o
      have e2 := dlAf_eff link (dlAf link i false o).1 true (dlAf link i false o).2
      have hw := dl_wanted_other link i _ false true s1 (by decide)
      have ha : (dlAf link i false o).1.addr true = i.addr true := s1.oaddr _ (by decide)
      rw [ha, s1.node] at e2
      simp only
      have hih := ih (dlAf link (dlAf link i false o).1 true (dlAf link i false o).2).2
      refine ⟨?_, ?_, ?_, ?_⟩
      · intro s
        rw [hih.1, e2.modules, e1.modules, hw.2]
        constructor
        · rintro (((h | h) | h) | ⟨j, hj, h⟩)
          · exact Or.inl h
          · exact Or.inr ⟨i, List.mem_cons_self, hk', h.1, false, h.2⟩
          · exact Or.inr ⟨i, List.mem_cons_self, hk', h.1, true, h.2⟩
          · exact Or.inr ⟨j, List.mem_cons_of_mem _ hj, h⟩
        · rintro (h | ⟨j, hj, h1, h2, af, h3⟩)
          · exact Or.inl (Or.inl (Or.inl h))
          · rcases List.mem_cons.1 hj with rfl | hj
            · cases af with
              | false => exact Or.inl (Or.inl (Or.inr ⟨h2, h3⟩))
              | true => exact Or.inl (Or.inr ⟨h2, h3⟩)
            · exact Or.inr ⟨j, hj, h1, h2, af, h3⟩
      · intro hn
        exact hih.2.1 (e2.nodup (e1.nodup hn))
      · intro x
        rw [hih.2.2.1, e2.subnet, e1.subnet, hw.2]
        constructor
        · rintro (((h | h) | h) | ⟨j, hj, h⟩)
          · exact Or.inl h
          · exact Or.inr ⟨i, List.mem_cons_self, hk', h.1 ▸ h.2⟩
          · exact Or.inr ⟨i, List.mem_cons_self, hk', h.1 ▸ h.2⟩
          · exact Or.inr ⟨j, List.mem_cons_of_mem _ hj, h⟩
        · rintro (h | ⟨j, hj, h1, h3⟩)
          · exact Or.inl (Or.inl (Or.inl h))
          · rcases List.mem_cons.1 hj with rfl | hj
            · cases x with
              | false => exact Or.inl (Or.inl (Or.inr ⟨rfl, h3⟩))
              | true => exact Or.inl (Or.inr ⟨rfl, h3⟩)
            · exact Or.inr ⟨j, hj, h1, h3⟩
      · rw [hih.2.2.2]
        constructor
        · rintro ⟨h, hr⟩
          have he2 : ¬ (i.addr true = some (.text "dhcp") ∧ link true = some false) := fun he => by
            have := e2.errors he
            omega
          rw [e2.noerr he2] at h
          have he1 : ¬ (i.addr false = some (.text "dhcp") ∧ link false = some false) := fun he => by
            have := e1.errors he
            omega
          rw [e1.noerr he1] at h
          refine ⟨h, fun j hj hjk af => ?_⟩
          rcases List.mem_cons.1 hj with rfl | hj
          · cases af with
            | false => exact he1
            | true => exact he2
          · exact hr j hj hjk af
        · rintro ⟨h, hr⟩
          refine ⟨?_, fun j hj => hr j (List.mem_cons_of_mem _ hj)⟩
          rw [e2.noerr (hr i List.mem_cons_self hk' true), e1.noerr (hr i List.mem_cons_self hk' false), h]
    · rw [if_neg hk]
      have hk' : i.node ∉ known := by simpa using hk
      simp only
      have hih := ih o
      refine ⟨fun s => ?_, hih.2.1, fun x => ?_, ?_⟩
      · rw [hih.1]
        simp [hk']
      · rw [hih.2.2.1]
        simp [hk']
      · rw [hih.2.2.2]
        simp [hk']

/-- C87: nodes that get the DHCP module from a link -/
theorem C87_link_modules (known : List String) (link : Bool → Option Bool) (ifs : List DlIntf) :
    (dlLink known link ifs {}).2.modules.Nodup ∧
    ∀ s, s ∈ (dlLink known link ifs {}).2.modules ↔ ∃ i ∈ ifs, i.node ∈ known ∧ s = i.node ∧ ∃ af, DhcpActive link i af := by
  have h := dlLink_eff known link ifs {}
  exact ⟨h.2.1 List.nodup_nil, fun s => (h.1 s).trans (by simp)⟩

/-- C87: address families with DHCP clients on a link -/
theorem C87_link_subnet (known : List String) (link : Bool → Option Bool) (ifs : List DlIntf) (af : Bool) :
    (dlLink known link ifs {}).2.subnet af = true ↔ ∃ i ∈ ifs, i.node ∈ known ∧ DhcpActive link i af :=
  ((dlLink_eff known link ifs {}).2.2.1 af).trans (by simp)

/-- C87: a link is rejected exactly when an interface asks for a DHCP address and the link has no DHCP. -/
theorem C87_link_accepted_iff (known : List String) (link : Bool → Option Bool) (ifs : List DlIntf) :
    (dlLink known link ifs {}).2.errors = 0 ↔
      ∀ i ∈ ifs, i.node ∈ known → ∀ af, ¬ (i.addr af = some (.text "dhcp") ∧ link af = some false) :=
  (dlLink_eff known link ifs {}).2.2.2.trans (by simp)

/-- C87 defect: a VLAN interface that is a DHCP client on its own is ignored when the link also has DHCP clients. -/
theorem C87_vlan_client_ignored :
    ∃ i : DlIntf, i.client false = some true ∧
      (dlLink ["a"] (fun _ => none) [i] {}).2.modules = ["a"] ∧ (dlLink ["a"] (fun _ => none) [i] {}).2.subnet false = true ∧
      (dlLink ["a"] (fun _ => some true) [i] {}).2.modules = [] ∧ (dlLink ["a"] (fun _ => some true) [i] {}).2.subnet false = false :=
  ⟨⟨"a", fun _ => none, fun _ => some true, true⟩, rfl, by decide, by decide, by decide, by decide⟩

example :
    let r := dlLink ["a", "b", "c"] (fun af => if af then none else some true)
      [⟨"a", fun _ => none, fun _ => none, false⟩, ⟨"b", fun _ => none, fun af => if af then none else some false, false⟩,
       ⟨"c", fun af => if af then some (.text "dhcp") else none, fun _ => none, true⟩] {}
    r.2.modules = ["a", "c"] ∧ r.2.subnet false = true ∧ r.2.subnet true = true ∧ r.2.errors = 0 ∧
    r.1.map (fun i => i.client false) = [some true, some false, none] := by decide

/-! ### Nodes -/

/-- What the relays can see of a node does not change. -/
def DxSame (n n' : DxNode) : Prop :=
  n'.name = n.name ∧ n'.server = n.server ∧ (n.server = true → dxEndpoint n' = dxEndpoint n)

theorem DxSame.trans {a b c : DxNode} (h : DxSame a b) (g : DxSame b c) : DxSame a c :=
  ⟨g.1.trans h.1, g.2.1.trans h.2.1, fun hs => (g.2.2 (h.2.1.trans hs)).trans (h.2.2 hs)⟩

theorem dx_find_same {a b : List DxNode} (h : List.Forall₂ DxSame a b) (s : String) :
    (a.find? (fun n => n.name == s) = none ∧ b.find? (fun n => n.name == s) = none) ∨
    ∃ x y, a.find? (fun n => n.name == s) = some x ∧ b.find? (fun n => n.name == s) = some y ∧ DxSame x y := by
  induction h with
  | nil => exact Or.inl ⟨rfl, rfl⟩
  | @cons x y l m hxy _ ih =>
    by_cases hx : (x.name == s) = true
    · have hy : (y.name == s) = true := by rw [hxy.1]; exact hx
      exact Or.inr ⟨x, y, by rw [List.find?_cons_of_pos (p := fun n : DxNode => n.name == s) hx], by rw [List.find?_cons_of_pos (p := fun n : DxNode => n.name == s) hy], hxy⟩
    · have hy : ¬ (y.name == s) = true := by rw [hxy.1]; exact hx
      rw [List.find?_cons_of_neg (p := fun n : DxNode => n.name == s) hx, List.find?_cons_of_neg (p := fun n : DxNode => n.name == s) hy]
      exact ih

theorem dxIsServer_same {a b : List DxNode} (h : List.Forall₂ DxSame a b) : dxIsServer b = dxIsServer a := by
  funext s
  unfold dxIsServer
  induction h with
  | nil => rfl
  | cons hxy _ ih => rw [List.any_cons, List.any_cons, ih, hxy.1, hxy.2.1]

theorem dx_find_iff {a : List DxNode} (hn : (a.map (·.name)).Nodup) (s : String) (x : DxNode) :
    a.find? (fun n => n.name == s) = some x ↔ x ∈ a ∧ x.name = s := by
  constructor
  · intro h
    exact ⟨List.mem_of_find?_eq_some h, by simpa using List.find?_some h⟩
  · rintro ⟨hx, hs⟩
    induction a with
    | nil => cases hx
    | cons y r ih =>
      simp only [List.map_cons, List.nodup_cons] at hn
      by_cases hy : (y.name == s) = true
      · rw [List.find?_cons_of_pos (p := fun n : DxNode => n.name == s) hy]
        rcases List.mem_cons.1 hx with rfl | hx
        · rfl
        · have : y.name = s := by simpa using hy
          exact absurd (by rw [this, ← hs]; exact List.mem_map_of_mem (f := (·.name)) hx) hn.1
      · rw [List.find?_cons_of_neg (p := fun n : DxNode => n.name == s) hy]
        rcases List.mem_cons.1 hx with rfl | hx
        · exact absurd (by simpa using hs) hy
        · exact ih hn.2 hx

theorem dxIsServer_iff (a : List DxNode) (s : String) : dxIsServer a s = true ↔ IsDhcpServer a s := by
  simp [dxIsServer, IsDhcpServer]

theorem dxTarget_same (ip : String → String) {a b : List DxNode} (hn : (a.map (·.name)).Nodup) (h : List.Forall₂ DxSame a b) (af : Bool) (s : String)
    (hs : dxIsServer a s = true) : dxTarget ip b af s = dxTarget ip a af s := by
  unfold dxTarget
  rcases dx_find_same h s with ⟨h1, h2⟩ | ⟨x, y, h1, h2, hxy⟩
  · rw [h1, h2]
  · rw [h1, h2]
    obtain ⟨z, hz, hzs, hsrv⟩ := (dxIsServer_iff a s).1 hs
    have := (dx_find_iff hn s z).2 ⟨hz, hzs⟩
    rw [h1] at this
    cases this
    simp only [Option.bind_some]
    rw [hxy.2.2 hsrv]

theorem dxCheck_congr {a b : List DxNode} (h : dxIsServer b = dxIsServer a) (n : DxNode) : dxCheck b n = dxCheck a n := by
  unfold dxCheck dxCheckRelay
  rw [h]

theorem dxSetRelay_congr (ip : String → String) {a b : List DxNode} (i : DxIntf) (h : ∀ s ∈ i.server, ∀ af, dxTarget ip b af s = dxTarget ip a af s) :
    dxSetRelay ip b i = dxSetRelay ip a i := by
  have hr : ∀ af, dxRelayAf ip b i af = dxRelayAf ip a i af := by
    intro af
    unfold dxRelayAf
    have h1 : i.server.filterMap (dxTarget ip b af) = i.server.filterMap (dxTarget ip a af) :=
      List.filterMap_congr (fun s hs => h s hs af)
    have h2 : i.server.map (fun s => if (dxTarget ip b af s).isSome then 0 else 1) = i.server.map (fun s => if (dxTarget ip a af s).isSome then 0 else 1) :=
      List.map_congr_left (fun s hs => by rw [h s hs af])
    rw [h1, h2]
  unfold dxSetRelay
  simp only [hr]

/-- The interface after the removal of one address -/
theorem dxPop_fst (f : DxFeat) (af : Bool) (i : DxIntf) :
    (dxPop f af i).1 =
      { i with addr := fun x => if dxClient i af = true ∧ x = af then none else i.addr x, bgp := i.bgp && !dxClient i af } := by
  unfold dxPop
  by_cases hc : dxClient i af = true
  · rw [if_pos hc]
    unfold dxRouting
    simp only [hc, true_and]
    split
    · simp
    · rename_i hb
      have hb : i.bgp = false := by simpa using hb
      simp [hb]
  · rw [if_neg hc]
    have hc : dxClient i af = false := by simpa using hc
    simp [hc]

theorem dxSetRelay_fst (ip : String → String) (a : List DxNode) (i : DxIntf) :
    (dxSetRelay ip a i).1 = { i with relay := fun af => if i.server = [] then i.relay af else (dxRelayAf ip a i af).1 } := by
  unfold dxSetRelay
  by_cases hs : i.server = []
  · simp only [if_pos hs]
  · simp only [if_neg hs]

theorem dxAf_keep (ip : String → String) (f : DxFeat) (env : DxIntf → List DxNode) (af : Bool) (i : DxIntf) :
    (dxAf ip f env af i).1.client = i.client ∧ (dxAf ip f env af i).1.server = i.server ∧
    (i.client = none → (dxAf ip f env af i).1.addr = i.addr) := by
  unfold dxAf
  simp only [dxSetRelay_fst, dxPop_fst]
  refine ⟨trivial, trivial, fun h => ?_⟩
  have hc : dxClient i af = false := by simp [dxClient, h]
  simp [hc]

/-- Processing of an interface when all nodes are known in advance -/
def dxPureI (ip : String → String) (f : DxFeat) (a : List DxNode) (i : DxIntf) : DxIntf × Nat :=
  ((dxAf ip f (fun _ => a) true (dxAf ip f (fun _ => a) false i).1).1,
   (dxAf ip f (fun _ => a) false i).2 + (dxAf ip f (fun _ => a) true (dxAf ip f (fun _ => a) false i).1).2)

/-- Processing of a node when all nodes are known in advance -/
def dxPure (ip : String → String) (a : List DxNode) (n : DxNode) : DxNode × Nat :=
  if (dxCheck a n).2.1 = 0 then
    ({ (dxCheck a n).1 with ifs := (dxCheck a n).1.ifs.map (fun i => (dxPureI ip n.feat a i).1) },
     (dxCheck a n).2.2 + ((dxCheck a n).1.ifs.map (fun i => (dxPureI ip n.feat a i).2)).sum)
  else ((dxCheck a n).1, (dxCheck a n).2.1 + (dxCheck a n).2.2)

theorem dxAf_congr (ip : String → String) (f : DxFeat) (env : DxIntf → List DxNode) (a : List DxNode) (af : Bool) (i : DxIntf)
    (h : ∀ s ∈ i.server, ∀ x, dxTarget ip (env (dxPop f af i).1) x s = dxTarget ip a x s) :
    dxAf ip f env af i = dxAf ip f (fun _ => a) af i := by
  unfold dxAf
  simp only
  rw [dxSetRelay_congr ip (a := a) (b := env (dxPop f af i).1) _ (by rw [dxPop_fst] at h ⊢; exact h)]

theorem dxIfs_eq (ip : String → String) (f : DxFeat) (env : List DxIntf → List DxNode) (a : List DxNode) (srv : Bool)
    (base : List (Bool → Option DxAddr))
    (H : ∀ l : List DxIntf, (srv = true → l.map (·.addr) = base) → ∀ s, dxIsServer a s = true → ∀ af, dxTarget ip (env l) af s = dxTarget ip a af s)
    (todo : List DxIntf) (done : List DxIntf)
    (hb : srv = true → (done ++ todo).map (·.addr) = base)
    (hc : ∀ i ∈ todo, srv = true → i.client = none)
    (hs : ∀ i ∈ todo, ∀ s ∈ i.server, dxIsServer a s = true) :
    dxIfs ip f env done todo = (done ++ todo.map (fun i => (dxPureI ip f a i).1), (todo.map (fun i => (dxPureI ip f a i).2)).sum) := by
  induction todo generalizing done with
  | nil => simp [dxIfs]
  | cons i r ih =>
    have hrep : ∀ j : DxIntf, (srv = true → j.addr = i.addr) → srv = true → (done ++ j :: r).map (·.addr) = base := by
      intro j hj hsr
      rw [← hb hsr]
      simp [hj hsr]
    have hci := hc i List.mem_cons_self
    have hsi := hs i List.mem_cons_self
    have e1 : dxAf ip f (fun i => env (done ++ i :: r)) false i = dxAf ip f (fun _ => a) false i := by
      apply dxAf_congr
      intro s hs' x
      apply H _ (hrep _ ?_) _ (hsi s hs')
      intro hsr
      rw [dxPop_fst]
      have : dxClient i false = false := by simp [dxClient, hci hsr]
      simp [this]
    have k1 := dxAf_keep ip f (fun _ => a) false i
    have e2 : dxAf ip f (fun i => env (done ++ i :: r)) true (dxAf ip f (fun _ => a) false i).1
        = dxAf ip f (fun _ => a) true (dxAf ip f (fun _ => a) false i).1 := by
      apply dxAf_congr
      intro s hs' x
      rw [k1.2.1] at hs'
      apply H _ (hrep _ ?_) _ (hsi s hs')
      intro hsr
      rw [dxPop_fst]
      have : dxClient (dxAf ip f (fun _ => a) false i).1 true = false := by simp [dxClient, k1.1, hci hsr]
      simp [this, k1.2.2 (hci hsr)]
    unfold dxIfs
    simp only [e1, e2]
    have k2 := dxAf_keep ip f (fun _ => a) true (dxAf ip f (fun _ => a) false i).1
    rw [ih]
    · simp [dxPureI]
    · intro hsr
      rw [List.append_assoc]
      apply hrep _ _ hsr
      intro _
      rw [k2.2.2 (k1.1.trans (hci hsr)), k1.2.2 (hci hsr)]
    · exact fun j hj => hc j (List.mem_cons_of_mem _ hj)
    · exact fun j hj => hs j (List.mem_cons_of_mem _ hj)

theorem dx_replace {R : DxNode → DxNode → Prop} {a pre post : List DxNode} {n m : DxNode} (h : List.Forall₂ R a (pre ++ n :: post))
    (hr : ∀ x, R x n → R x m) : List.Forall₂ R a (pre ++ m :: post) := by
  induction pre generalizing a with
  | nil =>
    cases h with
    | cons h1 h2 => exact .cons (hr _ h1) h2
  | cons y p ih =>
    cases h with
    | cons h1 h2 => exact .cons h1 (ih h2)

theorem dxCheckClient_keep (f : DxFeat) (b : Bool) (i : DxIntf) :
    (dxCheckClient f b i).1.addr = i.addr ∧ (dxCheckClient f b i).1.server = i.server ∧ (b = true → (dxCheckClient f b i).1.client = none) := by
  unfold dxCheckClient
  cases hc : i.client with
  | none => exact ⟨rfl, rfl, fun _ => hc⟩
  | some c =>
    simp only
    split
    · exact ⟨rfl, rfl, fun _ => rfl⟩
    · rename_i h
      refine ⟨rfl, rfl, fun hb => ?_⟩
      simp [hb] at h

theorem dxCheck_ifs (a : List DxNode) (n : DxNode) : (dxCheck a n).1.ifs = n.ifs.map (fun i => (dxCheckClient n.feat n.server i).1) := by
  simp [dxCheck]

theorem dxCheck_addr (a : List DxNode) (n : DxNode) : (dxCheck a n).1.ifs.map (·.addr) = n.ifs.map (·.addr) := by
  rw [dxCheck_ifs, List.map_map]
  exact List.map_congr_left (fun i _ => (dxCheckClient_keep n.feat n.server i).1)

theorem dxCheck_servers (a : List DxNode) (n : DxNode) (h : (dxCheck a n).2.1 = 0) : ∀ i ∈ (dxCheck a n).1.ifs, ∀ s ∈ i.server, dxIsServer a s = true := by
  intro i hi s hs
  have h' : (((n.ifs.map (dxCheckClient n.feat n.server)).map (fun x => dxCheckRelay a n x.1)).map (·.1)).sum = 0 := by
    simp only [dxCheck] at h
    omega
  rw [List.map_map, gi_sum_zero] at h'
  rw [dxCheck_ifs] at hi
  obtain ⟨j, hj, rfl⟩ := List.mem_map.1 hi
  have := h' (dxCheckClient n.feat n.server j) (List.mem_map_of_mem hj)
  simp only [Function.comp, dxCheckRelay] at this
  have hne : (dxCheckClient n.feat n.server j).1.server ≠ [] := List.ne_nil_of_mem hs
  rw [if_neg hne] at this
  have hz : ((dxCheckClient n.feat n.server j).1.server.map (fun s => if dxIsServer a s then 0 else 1)).sum = 0 := by
    simp only at this
    omega
  have := (gi_sum_zero _ _).1 hz s hs
  by_cases hx : dxIsServer a s = true
  · exact hx
  · simp [hx] at this

theorem dxEndpoint_of_addr {n m : DxNode} (h1 : m.loopback = n.loopback) (h2 : m.host = n.host) (h3 : m.ifs.map (·.addr) = n.ifs.map (·.addr)) :
    dxEndpoint m = dxEndpoint n := by
  unfold dxEndpoint
  have hh : m.ifs.head?.map (·.addr) = n.ifs.head?.map (·.addr) := by
    rw [← List.head?_map, ← List.head?_map, h3]
  rw [h1, h2, hh]

theorem dxNode_eq (ip : String → String) {a pre post : List DxNode} {n : DxNode} (hn : (a.map (·.name)).Nodup)
    (h : List.Forall₂ DxSame a (pre ++ n :: post)) : dxNode ip pre n post = dxPure ip a n := by
  unfold dxNode dxPure
  rw [dxCheck_congr (dxIsServer_same h) n]
  simp only
  by_cases hz : (dxCheck a n).2.1 = 0
  · rw [if_pos hz, if_pos hz]
    rw [dxIfs_eq ip n.feat _ a n.server (n.ifs.map (·.addr)) ?_ (dxCheck a n).1.ifs [] ?_ ?_ (dxCheck_servers a n hz)]
    · simp
    · intro l hl s hs af
      refine dxTarget_same ip hn ?_ af s hs
      refine dx_replace h (fun x hx => hx.trans ⟨rfl, rfl, fun hsr => ?_⟩)
      exact dxEndpoint_of_addr rfl rfl (hl hsr)
    · intro _
      exact dxCheck_addr a n
    · intro i hi hsr
      rw [dxCheck_ifs] at hi
      obtain ⟨j, _, rfl⟩ := List.mem_map.1 hi
      exact (dxCheckClient_keep n.feat n.server j).2.2 hsr
  · rw [if_neg hz, if_neg hz]

theorem dxPure_same (ip : String → String) (a : List DxNode) (n : DxNode) : DxSame n (dxPure ip a n).1 := by
  have hc : (dxCheck a n).1.name = n.name ∧ (dxCheck a n).1.server = n.server ∧ (dxCheck a n).1.loopback = n.loopback ∧ (dxCheck a n).1.host = n.host :=
    ⟨rfl, rfl, rfl, rfl⟩
  unfold dxPure
  by_cases hz : (dxCheck a n).2.1 = 0
  · rw [if_pos hz]
    refine ⟨hc.1, hc.2.1, fun hsr => dxEndpoint_of_addr hc.2.2.1 hc.2.2.2 ?_⟩
    simp only [List.map_map]
    rw [← dxCheck_addr a n]
    refine List.map_congr_left (fun i hi => ?_)
    rw [dxCheck_ifs] at hi
    obtain ⟨j, _, rfl⟩ := List.mem_map.1 hi
    have k := (dxCheckClient_keep n.feat n.server j).2.2 hsr
    have k1 := dxAf_keep ip n.feat (fun _ => a) false (dxCheckClient n.feat n.server j).1
    have k2 := dxAf_keep ip n.feat (fun _ => a) true (dxAf ip n.feat (fun _ => a) false (dxCheckClient n.feat n.server j).1).1
    simp only [Function.comp, dxPureI]
    rw [k2.2.2 (k1.1.trans k), k1.2.2 k]
  · rw [if_neg hz]
    exact ⟨hc.1, hc.2.1, fun _ => dxEndpoint_of_addr hc.2.2.1 hc.2.2.2 (dxCheck_addr a n)⟩

theorem dx_same_refl (a : List DxNode) : List.Forall₂ DxSame a a := List.forall₂_same.2 (fun _ _ => ⟨rfl, rfl, fun _ => rfl⟩)

theorem dxNodes_pre (ip : String → String) {a : List DxNode} (hn : (a.map (·.name)).Nodup) (todo pre : List DxNode)
    (h : List.Forall₂ DxSame a (pre ++ todo)) :
    dxNodes ip pre todo = (pre ++ todo.map (fun n => (dxPure ip a n).1), (todo.map (fun n => (dxPure ip a n).2)).sum) := by
  induction todo generalizing pre with
  | nil => simp [dxNodes]
  | cons n r ih =>
    unfold dxNodes
    simp only
    rw [dxNode_eq ip hn h, ih]
    · simp
    · rw [List.append_assoc]
      exact dx_replace h (fun x hx => hx.trans (dxPure_same ip a n))

theorem dxNodes_eq (ip : String → String) (nodes : List DxNode) (hn : (nodes.map (·.name)).Nodup) :
    dxNodes ip [] nodes = (nodes.map (fun n => (dxPure ip nodes n).1), (nodes.map (fun n => (dxPure ip nodes n).2)).sum) := by
  rw [dxNodes_pre ip hn nodes [] (by simpa using dx_same_refl nodes)]
  simp

/-- C87: the result does not depend on the order of nodes. -/
theorem C87_order (ip : String → String) (nodes nodes2 : List DxNode) (hn : (nodes.map (·.name)).Nodup) (hp : nodes.Perm nodes2) :
    (dxNodes ip [] nodes).1.Perm (dxNodes ip [] nodes2).1 ∧ (dxNodes ip [] nodes).2 = (dxNodes ip [] nodes2).2 := by
  have hn2 : (nodes2.map (·.name)).Nodup := (hp.map _).nodup_iff.1 hn
  rw [dxNodes_eq ip nodes hn, dxNodes_eq ip nodes2 hn2]
  have hs : dxIsServer nodes = dxIsServer nodes2 := by
    funext s
    rw [Bool.eq_iff_iff, dxIsServer_iff, dxIsServer_iff]
    simp only [IsDhcpServer, hp.mem_iff]
  have hf : ∀ s, nodes.find? (fun n => n.name == s) = nodes2.find? (fun n => n.name == s) := by
    intro s
    apply Option.ext
    intro x
    rw [dx_find_iff hn, dx_find_iff hn2, hp.mem_iff]
  have ht : ∀ af s, dxTarget ip nodes af s = dxTarget ip nodes2 af s := by
    intro af s
    unfold dxTarget
    rw [hf]
  have hr : ∀ i, dxSetRelay ip nodes i = dxSetRelay ip nodes2 i := fun i => dxSetRelay_congr ip i (fun s _ af => ht af s)
  have hpure : ∀ n, dxPure ip nodes n = dxPure ip nodes2 n := by
    intro n
    have hi : ∀ i, dxPureI ip n.feat nodes i = dxPureI ip n.feat nodes2 i := by
      intro i
      unfold dxPureI dxAf
      simp only [hr]
    unfold dxPure
    rw [dxCheck_congr hs n]
    simp only [hi]
  simp only [hpure]
  exact ⟨hp.map _, (hp.map _).sum_nat⟩

theorem dxEndpoint_iff (n : DxNode) (e : Bool → Option DxAddr) : dxEndpoint n = some e ↔ DhcpEndpoint n e := by
  unfold dxEndpoint DhcpEndpoint
  have hh : n.ifs.head?.map (·.addr) = some e ↔ ∃ i r, n.ifs = i :: r ∧ i.addr = e := by
    cases n.ifs with
    | nil => simp
    | cons i r => simp
  cases hl : n.loopback with
  | none => simp [hh]
  | some l =>
    cases hx : n.host with
    | false => simp
    | true => simp [hh]

theorem dxIp_iff (ip : String → String) (v : DxAddr) (a : String) : dxIp ip v = a ↔ AddrText ip v a := by
  constructor
  · rintro rfl
    cases v with
    | text s => exact .text s
    | flag b => cases b with
      | true => exact .yes
      | false => exact .no
  · intro h
    cases h <;> rfl

theorem dxTarget_iff (ip : String → String) {a : List DxNode} (hn : (a.map (·.name)).Nodup) (af : Bool) (s x : String) :
    dxTarget ip a af s = some x ↔ RelayTarget ip a af s x := by
  unfold dxTarget RelayTarget
  constructor
  · intro h
    cases hf : a.find? (fun n => n.name == s) with
    | none => rw [hf] at h; cases h
    | some n =>
      rw [hf] at h
      simp only [Option.bind_some] at h
      cases he : dxEndpoint n with
      | none => rw [he] at h; cases h
      | some e =>
        rw [he] at h
        simp only at h
        obtain ⟨v, hv, hx⟩ := Option.map_eq_some_iff.1 h
        have hm := (dx_find_iff hn s n).1 hf
        exact ⟨n, hm.1, hm.2, e, v, (dxEndpoint_iff n e).1 he, hv, (dxIp_iff ip v x).1 hx⟩
  · rintro ⟨n, hm, hs, e, v, he, hv, hx⟩
    rw [(dx_find_iff hn s n).2 ⟨hm, hs⟩]
    simp only [Option.bind_some]
    rw [(dxEndpoint_iff n e).2 he]
    simp only [hv, Option.map_some, (dxIp_iff ip v x).2 hx]

theorem dxRelayAf_eq (ip : String → String) (a : List DxNode) {i j : DxIntf} (h1 : j.nbrs = i.nbrs) (h2 : j.server = i.server) (af : Bool)
    (h3 : j.relay af = i.relay af ∨ j.relay af = (dxRelayAf ip a i af).1) : dxRelayAf ip a j af = dxRelayAf ip a i af := by
  unfold dxRelayAf at h3 ⊢
  rw [h1, h2]
  by_cases hn : i.nbrs.any (fun n => n.2 af) = true
  · rw [if_pos hn, if_pos hn]
  · rw [if_neg hn] at h3 ⊢
    rw [if_neg hn]
    rcases h3 with h | h
    · rw [h]
    · rw [h]

theorem dxPureI_fst (ip : String → String) (f : DxFeat) (a : List DxNode) (i : DxIntf) :
    (dxPureI ip f a i).1 =
      { i with
          addr := fun x => if dxClient i x = true then none else i.addr x,
          bgp := i.bgp && !dxClient i false && !dxClient i true,
          relay := fun af => if i.server = [] then i.relay af else (dxRelayAf ip a i af).1 } := by
  unfold dxPureI dxAf
  simp only [dxSetRelay_fst, dxPop_fst]
  have hc : ∀ (ad : Bool → Option DxAddr) (b : Bool) (r : Bool → Option (List String)) (x : Bool),
      dxClient { i with addr := ad, bgp := b, relay := r } x = dxClient i x := fun _ _ _ _ => rfl
  simp only [hc]
  congr 1
  · funext x
    cases x with
    | false => simp
    | true => simp
  · funext af
    by_cases hs : i.server = []
    · simp only [if_pos hs]
    · simp only [if_neg hs]
      rw [dxRelayAf_eq ip a (i := i) (by rfl) (by rfl) af]
      right
      exact congrArg (·.1) (dxRelayAf_eq ip a (i := i) (by rfl) (by rfl) af (Or.inl rfl))

/-- Routing protocols do not prevent the use of the DHCP client. -/
def DxRoutes (f : DxFeat) (i : DxIntf) : Prop := i.bgp = false ∧ (i.ospf = true ∨ i.isis = true → f.routing = true)

theorem dxPop_snd (f : DxFeat) (af : Bool) (i : DxIntf) : (dxPop f af i).2 = 0 ↔ (dxClient i af = true → DxRoutes f i) := by
  unfold dxPop
  by_cases hc : dxClient i af = true
  · rw [if_pos hc]
    simp only [hc, true_implies]
    unfold dxRouting DxRoutes
    simp only
    cases i.bgp <;> cases i.ospf <;> cases i.isis <;> cases f.routing <;> simp
  · rw [if_neg hc]
    simp [hc]

theorem dxSetRelay_snd (ip : String → String) (a : List DxNode) (i : DxIntf) :
    (dxSetRelay ip a i).2 = 0 ↔ ∀ af, DhcpRelays i af → ∀ s ∈ i.server, (dxTarget ip a af s).isSome = true := by
  unfold dxSetRelay DhcpRelays
  by_cases hs : i.server = []
  · simp [hs]
  · rw [if_neg hs]
    have hz : ∀ af, (dxRelayAf ip a i af).2 = 0 ↔ ((∃ x ∈ i.nbrs, x.2 af = true) → ∀ s ∈ i.server, (dxTarget ip a af s).isSome = true) := by
      intro af
      unfold dxRelayAf
      have he : i.nbrs.any (fun n => n.2 af) = true ↔ ∃ x ∈ i.nbrs, x.2 af = true := by simp
      by_cases hn : i.nbrs.any (fun n => n.2 af) = true
      · rw [if_pos hn]
        simp only [he.1 hn, true_implies]
        rw [gi_sum_zero]
        refine forall_congr' (fun s => forall_congr' (fun _ => ?_))
        by_cases ht : (dxTarget ip a af s).isSome = true
        · simp [ht]
        · simp [ht]
      · rw [if_neg hn]
        exact ⟨fun _ h => absurd (he.2 h) hn, fun _ => rfl⟩
    simp only [Nat.add_eq_zero_iff, hz, ne_eq, hs, not_false_eq_true, true_and]
    constructor
    · rintro ⟨h1, h2⟩ af
      cases af
      · exact h1
      · exact h2
    · intro h
      exact ⟨h false, h true⟩

theorem dxPureI_snd (ip : String → String) (f : DxFeat) (a : List DxNode) (i : DxIntf) :
    (dxPureI ip f a i).2 = 0 ↔
      (∀ af, dxClient i af = true → DxRoutes f i) ∧ (∀ af, DhcpRelays i af → ∀ s ∈ i.server, (dxTarget ip a af s).isSome = true) := by
  unfold dxPureI dxAf
  simp only [Nat.add_eq_zero_iff, dxPop_snd, dxSetRelay_snd, dxSetRelay_fst, dxPop_fst]
  have hc : ∀ (ad : Bool → Option DxAddr) (b : Bool) (r : Bool → Option (List String)) (x : Bool),
      dxClient { i with addr := ad, bgp := b, relay := r } x = dxClient i x := fun _ _ _ _ => rfl
  simp only [hc]
  constructor
  · rintro ⟨⟨h1, h2⟩, h3, _⟩
    refine ⟨fun af hcl => ?_, h2⟩
    cases af with
    | false => exact h1 hcl
    | true =>
      by_cases hf : dxClient i false = true
      · exact h1 hf
      · have := h3 hcl
        have hf : dxClient i false = false := by simpa using hf
        unfold DxRoutes at this ⊢
        simpa [hf] using this
  · rintro ⟨h1, h2⟩
    refine ⟨⟨h1 false, h2⟩, fun hcl => ?_, h2⟩
    have := h1 true hcl
    unfold DxRoutes at this ⊢
    refine ⟨?_, this.2⟩
    simp [this.1]

theorem dxCheckClient_fst (f : DxFeat) (b : Bool) (i : DxIntf) :
    (dxCheckClient f b i).1 = { i with client := if b = true ∨ i.server ≠ [] then none else i.client } := by
  unfold dxCheckClient
  cases hc : i.client with
  | none =>
    simp only [ite_self]
    rw [← hc]
  | some c =>
    simp only
    by_cases h : i.server = []
    · cases b with
      | true => simp [h]
      | false =>
        simp only [h]
        simp
        rw [← hc, ← h]
    · simp [h]

theorem dxClient_iff (n : DxNode) (i : DxIntf) (af : Bool) :
    dxClient (dxCheckClient n.feat n.server i).1 af = true ↔ HasDhcpClient n i af true := by
  rw [dxCheckClient_fst]
  unfold dxClient HasDhcpClient
  by_cases h : n.server = true ∨ i.server ≠ []
  · simp only [if_pos h]
    constructor
    · intro h; cases h
    · rintro ⟨h1, h2, _⟩
      rcases h with h | h
      · rw [h1] at h; cases h
      · exact absurd h2 h
  · simp only [if_neg h]
    have h1 : n.server = false := by
      cases hs : n.server with
      | false => rfl
      | true => exact absurd (Or.inl hs) h
    have h2 : i.server = [] := Classical.byContradiction (fun hs => h (Or.inr hs))
    cases hc : i.client with
    | none => simp
    | some c => simp [h1, h2]

theorem dxCheckClient_snd (n : DxNode) (i : DxIntf) :
    (dxCheckClient n.feat n.server i).2 = 0 ↔ ∀ af b, HasDhcpClient n i af b → n.feat.client af = true := by
  unfold dxCheckClient HasDhcpClient
  cases hc : i.client with
  | none => simp
  | some c =>
    simp only
    by_cases h : n.server = true ∨ i.server ≠ []
    · have hh : (decide (i.server ≠ []) || n.server) = true := by
        rcases h with h | h <;> simp [h]
      rw [if_pos hh]
      simp only [true_iff]
      rintro af b ⟨h1, h2, _⟩
      rcases h with h | h
      · rw [h1] at h; cases h
      · exact absurd h2 h
    · have h1 : n.server = false := by
        cases hs : n.server with
        | false => rfl
        | true => exact absurd (Or.inl hs) h
      have h2 : i.server = [] := Classical.byContradiction (fun hs => h (Or.inr hs))
      have hh : ¬ (decide (i.server ≠ []) || n.server) = true := by simp [h1, h2]
      rw [if_neg hh]
      simp only [Nat.add_eq_zero_iff]
      have hz : ∀ af, dxClientErr n.feat c af = 0 ↔ ∀ b, c af = some b → n.feat.client af = true := by
        intro af
        unfold dxClientErr
        cases hca : c af with
        | none => simp
        | some b => cases hf : n.feat.client af <;> simp
      rw [hz, hz]
      constructor
      · rintro ⟨ha, hb⟩ af b ⟨_, _, c', hc', hcb⟩
        cases hc'
        cases af with
        | false => exact ha b hcb
        | true => exact hb b hcb
      · intro h
        exact ⟨fun b hb => h false b ⟨h1, h2, c, rfl, hb⟩, fun b hb => h true b ⟨h1, h2, c, rfl, hb⟩⟩

/-- The conditions for relaying -/
structure DxRelayOk (a : List DxNode) (n : DxNode) (i : DxIntf) : Prop where
  relay : i.server ≠ [] → n.feat.relay ≠ .no
  servers : ∀ s ∈ i.server, IsDhcpServer a s
  vrf : i.server ≠ [] → ∀ v, i.vrf = some v → n.feat.vrf = true ∧ (v = "global" ∨ v ∈ n.vrfs)

theorem dxVrfErr_zero (n : DxNode) (i : DxIntf) :
    dxVrfErr n.feat n.vrfs i = 0 ↔ ∀ v, i.vrf = some v → n.feat.vrf = true ∧ (v = "global" ∨ v ∈ n.vrfs) := by
  unfold dxVrfErr
  cases i.vrf with
  | none => simp
  | some v =>
    simp only [Nat.add_eq_zero_iff, Option.some.injEq, forall_eq']
    have h2 : (decide (v = "global") || n.vrfs.contains v) = true ↔ v = "global" ∨ v ∈ n.vrfs := by simp
    rw [← h2]
    cases n.feat.vrf <;> cases (decide (v = "global") || n.vrfs.contains v) <;> simp

theorem dxCheckRelay_fst (a : List DxNode) (n : DxNode) (i : DxIntf) : (dxCheckRelay a n i).1 = 0 ↔ DxRelayOk a n i := by
  unfold dxCheckRelay
  by_cases hs : i.server = []
  · rw [if_pos hs]
    simp only [true_iff]
    exact ⟨fun h => absurd hs h, by simp [hs], fun h => absurd hs h⟩
  · rw [if_neg hs]
    simp only [Nat.add_eq_zero_iff, dxVrfErr_zero, gi_sum_zero]
    have h1 : (dxRelayErr n.feat i).1 = 0 ↔ n.feat.relay ≠ .no := by
      unfold dxRelayErr
      cases n.feat.relay <;> simp
    have h2 : ∀ s, (if dxIsServer a s = true then 0 else 1) = 0 ↔ IsDhcpServer a s := by
      intro s
      rw [← dxIsServer_iff]
      cases dxIsServer a s <;> simp
    simp only [h1, h2]
    constructor
    · rintro ⟨⟨x, y⟩, z⟩
      exact ⟨fun _ => x, y, fun _ => z⟩
    · rintro ⟨x, y, z⟩
      exact ⟨⟨x hs, y⟩, z hs⟩

theorem dxCheckRelay_snd (a : List DxNode) (n : DxNode) (i : DxIntf) :
    (dxCheckRelay a n i).2 = 0 ↔ (i.server ≠ [] → ∀ g, n.feat.relay = .afs g → ∀ af, i.addr af ≠ none → g af = true) := by
  unfold dxCheckRelay
  by_cases hs : i.server = []
  · rw [if_pos hs]
    simp [hs]
  · rw [if_neg hs]
    simp only [ne_eq, hs, not_false_eq_true, true_implies]
    unfold dxRelayErr
    cases hr : n.feat.relay with
    | no => simp
    | yes => simp
    | afs g =>
      simp only [DxRelay.afs.injEq, forall_eq']
      constructor
      · intro h af ha
        cases af with
        | false =>
          cases hx : i.addr false with
          | none => exact absurd hx ha
          | some v =>
            cases hg : g false with
            | true => rfl
            | false => simp [hx, hg] at h
        | true =>
          cases hx : i.addr true with
          | none => exact absurd hx ha
          | some v =>
            cases hg : g true with
            | true => rfl
            | false => simp [hx, hg] at h
      · intro h
        have key : ∀ af, (if ((i.addr af).isSome && !g af) = true then 1 else 0) = 0 := by
          intro af
          cases hx : i.addr af with
          | none => simp
          | some v => simp [h af (by rw [hx]; simp)]
        rw [key, key]

theorem dxCheck_errors (a : List DxNode) (n : DxNode) :
    ((dxCheck a n).2.1 = 0 ↔ (n.server = true → n.feat.server = true) ∧
      (∀ i ∈ n.ifs, ∀ af b, HasDhcpClient n i af b → n.feat.client af = true) ∧ (∀ i ∈ n.ifs, DxRelayOk a n i)) ∧
    ((dxCheck a n).2.2 = 0 ↔ ∀ i ∈ n.ifs, i.server ≠ [] → ∀ g, n.feat.relay = .afs g → ∀ af, i.addr af ≠ none → g af = true) := by
  have hser : (if (n.server && !n.feat.server) = true then 1 else 0) = 0 ↔ (n.server = true → n.feat.server = true) := by
    cases n.server <;> cases n.feat.server <;> simp
  have hj : ∀ i, DxRelayOk a n (dxCheckClient n.feat n.server i).1 ↔ DxRelayOk a n i := by
    intro i
    rw [dxCheckClient_fst]
    exact ⟨fun h => ⟨h.relay, h.servers, h.vrf⟩, fun h => ⟨h.relay, h.servers, h.vrf⟩⟩
  constructor
  · simp only [dxCheck, Nat.add_eq_zero_iff, hser, List.map_map, gi_sum_zero, Function.comp, dxCheckClient_snd, dxCheckRelay_fst, hj]
    exact ⟨fun h => ⟨h.1.1, h.1.2, h.2⟩, fun h => ⟨⟨h.1, h.2.1⟩, h.2.2⟩⟩
  · simp only [dxCheck, List.map_map, gi_sum_zero, Function.comp, dxCheckRelay_snd]
    refine forall_congr' (fun i => forall_congr' (fun _ => ?_))
    rw [dxCheckClient_fst]

theorem dxPure_usable (ip : String → String) (a : List DxNode) (hn : (a.map (·.name)).Nodup) (n : DxNode) :
    (dxPure ip a n).2 = 0 ↔ DhcpUsable ip a n := by
  have hc := dxCheck_errors a n
  have ht : ∀ af s, (dxTarget ip a af s).isSome = true ↔ ∃ x, RelayTarget ip a af s x := by
    intro af s
    rw [Option.isSome_iff_exists]
    exact exists_congr (fun x => dxTarget_iff ip hn af s x)
  have hi : ∀ i, (dxPureI ip n.feat a (dxCheckClient n.feat n.server i).1).2 = 0 ↔
      (∀ af, HasDhcpClient n i af true → DxRoutes n.feat i) ∧ (∀ af, DhcpRelays i af → ∀ s ∈ i.server, ∃ x, RelayTarget ip a af s x) := by
    intro i
    rw [dxPureI_snd]
    simp only [dxClient_iff, ht]
    rw [dxCheckClient_fst]
    exact Iff.rfl
  unfold dxPure
  by_cases hz : (dxCheck a n).2.1 = 0
  · rw [if_pos hz]
    have h1 := hc.1.1 hz
    simp only [Nat.add_eq_zero_iff, hc.2, dxCheck_ifs, List.map_map, gi_sum_zero, Function.comp, hi]
    constructor
    · rintro ⟨h2, h3⟩
      exact ⟨h1.1, h1.2.1, fun i hm af hh => ((h3 i hm).1 af hh).1, fun i hm af hh => ((h3 i hm).1 af hh).2, fun i hm => (h1.2.2 i hm).relay, h2,
        fun i hm => (h1.2.2 i hm).servers, fun i hm => (h3 i hm).2, fun i hm => (h1.2.2 i hm).vrf⟩
    · intro h
      exact ⟨h.relayAf, fun i hm => ⟨fun af hh => ⟨h.ebgp i hm af hh, h.igp i hm af hh⟩, h.targets i hm⟩⟩
  · rw [if_neg hz]
    constructor
    · intro h
      simp only [Nat.add_eq_zero_iff] at h
      exact absurd h.1 hz
    · intro h
      exact absurd (hc.1.2 ⟨h.server, h.client, fun i hm => ⟨h.relay i hm, h.servers i hm, h.vrf i hm⟩⟩) hz

/-- C87: the topology is accepted exactly when the DHCP configuration of all nodes can be used. -/
theorem C87_accepted_iff (ip : String → String) (nodes : List DxNode) (hn : (nodes.map (·.name)).Nodup) :
    (dxNodes ip [] nodes).2 = 0 ↔ ∀ n ∈ nodes, DhcpUsable ip nodes n := by
  rw [dxNodes_eq ip nodes hn]
  simp only [gi_sum_zero, dxPure_usable ip nodes hn]

theorem dx_filterMap_forall₂ {α β : Type} {f : α → Option β} {R : α → β → Prop} (hf : ∀ a b, f a = some b → R a b) (l : List α)
    (h : ∀ a ∈ l, (f a).isSome = true) : List.Forall₂ R l (l.filterMap f) := by
  induction l with
  | nil => exact .nil
  | cons a r ih =>
    obtain ⟨b, hb⟩ := Option.isSome_iff_exists.1 (h a List.mem_cons_self)
    rw [List.filterMap_cons_some hb]
    exact .cons (hf a b hb) (ih (fun x hx => h x (List.mem_cons_of_mem _ hx)))

/-- C87: clients, relays and addresses in an accepted topology -/
theorem C87_result (ip : String → String) (nodes : List DxNode) (hn : (nodes.map (·.name)).Nodup) (hz : (dxNodes ip [] nodes).2 = 0) :
    List.Forall₂ (DhcpNodeDone ip nodes) nodes (dxNodes ip [] nodes).1 := by
  have hu := (C87_accepted_iff ip nodes hn).1 hz
  rw [dxNodes_eq ip nodes hn]
  simp only
  rw [List.forall₂_map_right_iff, List.forall₂_same]
  intro n hm
  have u := hu n hm
  have hok : (dxCheck nodes n).2.1 = 0 :=
    (dxCheck_errors nodes n).1.2 ⟨u.server, u.client, fun i hm => ⟨u.relay i hm, u.servers i hm, u.vrf i hm⟩⟩
  unfold dxPure
  rw [if_pos hok]
  refine ⟨rfl, rfl, rfl, rfl, rfl, rfl, ?_, ?_, ?_, ?_, ?_⟩
  · simp only [dxCheck_ifs, List.map_map]
    rw [List.forall₂_map_right_iff, List.forall₂_same]
    intro i hi
    simp only [Function.comp]
    rw [dxPureI_fst]
    have hcl : ∀ af, dxClient (dxCheckClient n.feat n.server i).1 af = true ↔ HasDhcpClient n i af true := dxClient_iff n i
    have hk := dxCheckClient_fst n.feat n.server i
    have hrel : ∀ af, ((if (dxCheckClient n.feat n.server i).1.server = [] then (dxCheckClient n.feat n.server i).1.relay af
        else (dxRelayAf ip nodes (dxCheckClient n.feat n.server i).1 af).1) : Option (List String))
        = if i.server = [] then i.relay af else (dxRelayAf ip nodes i af).1 := by
      intro af
      rw [hk]
      rfl
    refine ⟨fun af h => ?_, fun af h => ?_, fun h => ?_, fun h1 h2 => ?_, fun af h => ?_, fun af h => ?_, ?_, ?_, ?_, ?_, ?_, ?_⟩
    · simp only [(hcl af).2 h, if_true]
    · simp only
      rw [if_neg (fun hx => h ((hcl af).1 hx)), hk]
    · simp only [hk, if_pos h]
    · rw [hk]
      exact if_neg (by rintro (hx | hx); · (rw [h1] at hx; cases hx)
                       · exact hx h2)
    · simp only [hrel]
      rw [if_neg h.1]
      unfold dxRelayAf
      have ha : i.nbrs.any (fun n => n.2 af) = true := by
        obtain ⟨x, hx, hxa⟩ := h.2
        exact List.any_eq_true.2 ⟨x, hx, hxa⟩
      rw [if_pos ha]
      refine ⟨_, rfl, dx_filterMap_forall₂ (fun s x hx => (dxTarget_iff ip hn af s x).1 hx) _ (fun s hs => ?_)⟩
      obtain ⟨x, hx⟩ := u.targets i hi af h s hs
      rw [(dxTarget_iff ip hn af s x).2 hx]
      rfl
    · simp only [hrel]
      by_cases hs : i.server = []
      · rw [if_pos hs]
      · rw [if_neg hs]
        unfold dxRelayAf
        rw [if_neg]
        intro ha
        obtain ⟨x, hx, hxa⟩ := List.any_eq_true.1 ha
        exact h ⟨hs, x, hx, hxa⟩
    · simp only [hk]
    · simp only [hk]
    · simp only
      by_cases hany : ∃ af, HasDhcpClient n i af true
      · obtain ⟨af, ha⟩ := hany
        have hb := u.ebgp i hi af ha
        rw [hk]
        simp [hb]
      · have hf : ∀ af, dxClient (dxCheckClient n.feat n.server i).1 af = false := by
          intro af
          rw [Bool.eq_false_iff]
          intro h
          exact hany ⟨af, (hcl af).1 h⟩
        rw [hf, hf, hk]
        simp
    · simp only [hk]
    · simp only [hk]
    · simp only [hk]
  · simp [dxCheck]
  · intro b hb
    simp [dxCheck, hb]
  · intro hv
    simp only [dxCheck, hv]
    split
    · exact Or.inl rfl
    · exact Or.inr rfl
  · intro hv
    simp only [dxCheck, hv]
    constructor
    · intro h
      split at h
      · rename_i hc
        simp only [decide_true, Bool.true_and, Bool.and_eq_true, List.any_eq_true, decide_eq_true_eq] at hc
        obtain ⟨i, hi, h1, h2⟩ := hc.2
        exact ⟨i, hi, h1, by intro h; rw [h] at h2; cases h2⟩
      · cases h
    · rintro ⟨i, hi, h1, h2⟩
      rw [if_pos]
      obtain ⟨v, hv2⟩ := Option.ne_none_iff_exists'.1 h2
      simp only [decide_true, Bool.true_and, Bool.and_eq_true, List.any_eq_true, decide_eq_true_eq]
      exact ⟨(u.vrf i hi h1 v hv2).1, i, hi, h1, by rw [hv2]; rfl⟩

/-! ### Examples and defects -/

/-- A device that can do everything -/
def dxExFeat : DxFeat := ⟨true, fun _ => true, true, .yes, true⟩

/-- A host that is a DHCP client -/
def dxExClient : DxNode :=
  ⟨"h", dxExFeat, true, false, none, false, [], none,
   [⟨fun af => if af then none else some (.text "10.0.0.1/24"), some (fun af => if af then none else some true), [], none, false, true, false, [], fun _ => none⟩]⟩

/-- A relay -/
def dxExRelay : DxNode :=
  ⟨"r", dxExFeat, false, false, none, false, ["red"], some (fun _ => some (.text "1.0.0.1/32")),
   [⟨fun af => if af then none else some (.text "10.0.0.2/24"), none, ["s", "t"], some "red", false, true, false, [("h", fun af => !af)], fun _ => none⟩]⟩

/-- A server: a router or a host -/
def dxExServer (name : String) (host : Bool) (v : DxAddr) : DxNode :=
  ⟨name, dxExFeat, host, true, none, false, [], some (fun _ => some (.text "1.0.0.2/32")),
   [⟨fun _ => some v, some (fun _ => some true), [], none, false, false, false, [], fun _ => none⟩]⟩

/-- A topology with a DHCP client, a relay, and two servers -/
def dxExTopo (v : DxAddr) : List DxNode := [dxExClient, dxExServer "s" false v, dxExRelay, dxExServer "t" true v]

example : let r := dxNodes id [] (dxExTopo (.text "10.0.1.1/24"))
    r.2 = 0 ∧ r.1.map (fun n => n.ifs.map (fun i => i.addr false)) =
      [[none], [some (.text "10.0.1.1/24")], [some (.text "10.0.0.2/24")], [some (.text "10.0.1.1/24")]] ∧
    r.1.map (fun n => n.ifs.map (fun i => i.relay false)) = [[none], [none], [some ["1.0.0.2/32", "10.0.1.1/24"]], [none]] ∧
    r.1.map (fun n => n.ifs.map (fun i => i.relay true)) = [[none], [none], [none], [none]] ∧ r.1.map (·.vrf) = [none, none, some true, none] := by
  decide +kernel

/-- C87 defect: a DHCP server with an unnumbered interface gives the relay the address 0.0.0.1. -/
theorem C87_unnumbered_server :
    ∃ nodes : List DxNode, (nodes.map (·.name)).Nodup ∧ (∀ ip, (dxNodes ip [] nodes).2 = 0) ∧
      ∀ ip, (dxNodes ip [] nodes).1.map (fun n => n.ifs.map (fun i => i.relay false)) = [[none], [none], [some [ip "1.0.0.2/32", "0.0.0.1"]], [none]] :=
  ⟨dxExTopo (.flag true), by decide, fun _ => rfl, fun _ => rfl⟩

/-- C87 defect: a relay is configured for an address family that the device cannot relay (although an error is reported), and errors in relay targets are
reported twice. -/
theorem C87_relay_errors :
    (∃ nodes : List DxNode, ∃ n ∈ nodes, n.feat.relay = .afs (fun af => af) ∧ (dxNodes id [] nodes).2 = 1 ∧
      ∃ m ∈ (dxNodes id [] nodes).1, m.name = n.name ∧ m.ifs.map (fun i => i.relay false) = [some ["1.0.0.2/32", "10.0.1.1/24"]]) ∧
    (∃ nodes : List DxNode, (nodes.map (·.name)).Nodup ∧ (dxNodes id [] nodes).2 = 2 ∧
      ∃ n ∈ nodes, ∃ i ∈ n.ifs, ∃ s ∈ i.server, ∀ m ∈ nodes, m.name = s → m.ifs = []) := by
  refine ⟨⟨[dxExServer "s" false (.text "10.0.1.1/24"), { dxExRelay with feat := { dxExFeat with relay := .afs (fun af => af) } },
      dxExServer "t" true (.text "10.0.1.1/24")], { dxExRelay with feat := { dxExFeat with relay := .afs (fun af => af) } }, by simp, rfl, rfl, ?_⟩,
    ⟨[dxExServer "s" false (.text "10.0.1.1/24"), dxExRelay, { dxExServer "t" true (.text "10.0.1.1/24") with ifs := [] }], by decide, rfl,
      dxExRelay, by simp, _, List.mem_singleton.2 rfl, "t", by decide, ?_⟩⟩
  · exact ⟨_, List.mem_cons_of_mem _ List.mem_cons_self, rfl, rfl⟩
  · intro m hm hs
    simp only [List.mem_cons, List.not_mem_nil, or_false] at hm
    rcases hm with rfl | rfl | rfl
    · exact absurd hs (by decide)
    · exact absurd hs (by decide)
    · rfl

end Netlab
