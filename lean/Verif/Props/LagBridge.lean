import Verif.Spec.LagBridge
/-!
# C156: warnings about LAG links that use Linux bridges
-/

namespace Netlab
open Spec

theorem lbWarn_mem (t : String) : ∀ (links : List (LbLink β)) (seen : List String),
    t ∈ lbWarn seen links ↔ t ∉ seen ∧ ∃ l ∈ links, l.virtual = true ∧ l.bridge.isSome = true ∧ lbText l = t
  | [], seen => by simp [lbWarn]
  | l :: rest, seen => by
    rw [lbWarn]
    cases hv : l.virtual with
    | false =>
      rw [if_pos (by simp), lbWarn_mem t rest seen]
      simp [hv]
    | true =>
      rw [if_neg (by simp)]
      cases hb : l.bridge with
      | none =>
        simp only
        rw [lbWarn_mem t rest seen]
        simp [hb]
      | some b =>
        simp only
        by_cases hs : seen.contains (lbText l) = true
        · rw [if_pos hs, lbWarn_mem t rest seen]
          have hm : lbText l ∈ seen := by simpa using hs
          constructor
          · rintro ⟨h1, x, hx, h2⟩
            exact ⟨h1, x, List.mem_cons_of_mem _ hx, h2⟩
          · rintro ⟨h1, x, hx, h2, h3, h4⟩
            rcases List.mem_cons.1 hx with rfl | hx
            · exact absurd (h4 ▸ hm) h1
            · exact ⟨h1, x, hx, h2, h3, h4⟩
        · rw [if_neg hs, List.mem_cons, lbWarn_mem t rest (lbText l :: seen)]
          have hm : lbText l ∉ seen := by simpa using hs
          constructor
          · rintro (rfl | ⟨h1, x, hx, h2⟩)
            · exact ⟨hm, l, List.mem_cons_self, hv, by simp [hb], rfl⟩
            · exact ⟨fun h => h1 (List.mem_cons_of_mem _ h), x, List.mem_cons_of_mem _ hx, h2⟩
          · rintro ⟨h1, x, hx, h2, h3, h4⟩
            by_cases ht : t = lbText l
            · exact .inl ht
            · right
              rcases List.mem_cons.1 hx with rfl | hx
              · exact absurd h4.symm ht
              · refine ⟨fun h => ?_, x, hx, h2, h3, h4⟩
                rcases List.mem_cons.1 h with h | h
                · exact ht h
                · exact h1 h

theorem lbWarn_nodup : ∀ (links : List (LbLink β)) (seen : List String), (lbWarn seen links).Nodup
  | [], seen => by simp [lbWarn]
  | l :: rest, seen => by
    rw [lbWarn]
    split
    · exact lbWarn_nodup rest seen
    · split
      · exact lbWarn_nodup rest seen
      · split
        · exact lbWarn_nodup rest seen
        · rw [List.nodup_cons]
          refine ⟨fun h => ?_, lbWarn_nodup rest _⟩
          exact ((lbWarn_mem _ rest _).1 h).1 List.mem_cons_self

/-- The transformation of a link changes only its type and bridge. -/
theorem lbLink_same (e : LbEnv) (l : LbLink β) :
    let m := (lbTransform e (lbPre e l)).1
    m.idx = l.idx ∧ m.virtual = l.virtual ∧ m.nodes = l.nodes ∧ m.dhcp = l.dhcp ∧ m.rest = l.rest := by
  simp only [lbTransform, lbPre]
  split <;> split <;> (try split) <;> simp

theorem lbTransform_bridge (e : LbEnv) (l : LbLink β) (h : l.bridge.isSome = true) : (lbTransform e l).1.bridge.isSome = true := by
  simp only [lbTransform]
  split
  · exact h
  · split
    · rfl
    · exact h

theorem lbLab_mem (e : LbEnv) (links : List (LbLink β)) (t : String) :
    t ∈ (lagLab e links).1 ↔
      ∃ l ∈ links, l.virtual = true ∧ (lbTransform e (lbPre e l)).1.bridge.isSome = true ∧ lbText l = t := by
  have hx : ∀ l : LbLink β, lbText (lbTransform e (lbPre e l)).1 = lbText l := by
    intro l
    simp only [lbText, (lbLink_same e l).2.2.1]
  have hv : ∀ l : LbLink β, (lbTransform e (lbPre e l)).1.virtual = l.virtual := fun l => (lbLink_same e l).2.1
  simp only [lagLab, lagPost, List.map_map, lbWarn_mem, List.not_mem_nil, not_false_eq_true, true_and, List.mem_map,
    Function.comp]
  constructor
  · rintro ⟨m, ⟨l, hl, rfl⟩, h1, h2, h3⟩
    exact ⟨l, hl, by rw [← hv]; exact h1, h2, by rw [← hx]; exact h3⟩
  · rintro ⟨l, hl, h1, h2, h3⟩
    exact ⟨_, ⟨l, hl, rfl⟩, by rw [hv]; exact h1, h2, by rw [hx]; exact h3⟩

/-- C156: there is a warning about the nodes of every LAG that connects nodes of several virtualization providers. -/
theorem C156_warned (e : LbEnv) (links : List (LbLink β)) (l : LbLink β) (hl : l ∈ links) (hv : l.virtual = true)
    (hc : CrossProvider e l) (ht : PlainType l) : lbText l ∈ (lagLab e links).1 := by
  rw [lbLab_mem]
  refine ⟨l, hl, hv, lbTransform_bridge e _ ?_, rfl⟩
  obtain ⟨h1, n, hn, p, hp⟩ := hc
  have hm : lbMixed l = true := by
    rw [lbMixed, List.any_eq_true]
    exact ⟨n, hn, by simp [hp]⟩
  have hk : (!textIn "vlan".toList (l.type.getD "").toList) = true := by
    rcases ht with h | h | h <;> rw [h] <;> decide +kernel
  rw [lbPre, if_pos (by simp only [h1, lbMustBeLan, hm, hk, Bool.and_self, Bool.true_or])]
  rfl

/-- C156: a LAG is never mentioned twice. -/
theorem C156_once (e : LbEnv) (links : List (LbLink β)) : (lagLab e links).1.Nodup := lbWarn_nodup _ _

theorem lbInsert_perm (x : String) : ∀ l : List String, (lbInsert x l).Perm (x :: l)
  | [] => List.Perm.refl _
  | y :: r => by
    rw [lbInsert]
    split
    · exact List.Perm.refl _
    · exact ((lbInsert_perm x r).cons y).trans (List.Perm.swap x y r)

theorem lbSort_perm (l : List String) : (lbSort l).Perm l := by
  induction l with
  | nil => exact List.Perm.refl _
  | cons x r ih => exact (lbInsert_perm x _).trans (ih.cons x)

theorem lbInsert_sorted (x : String) : ∀ l : List String, l.Pairwise (fun a b => a ≤ b) → (lbInsert x l).Pairwise (fun a b => a ≤ b)
  | [], _ => by simp [lbInsert]
  | y :: r, h => by
    have hy := List.pairwise_cons.1 h
    rw [lbInsert]
    split
    · rename_i hxy
      refine List.pairwise_cons.2 ⟨?_, h⟩
      intro z hz
      rcases List.mem_cons.1 hz with rfl | hz
      · exact hxy
      · exact String.le_trans hxy (hy.1 z hz)
    · rename_i hxy
      refine List.pairwise_cons.2 ⟨?_, lbInsert_sorted x r hy.2⟩
      intro z hz
      rcases List.mem_cons.1 ((lbInsert_perm x r).mem_iff.1 hz) with rfl | hz
      · exact (String.le_total z y).resolve_left hxy
      · exact hy.1 z hz

theorem lbSort_sorted (l : List String) : (lbSort l).Pairwise (fun a b => a ≤ b) := by
  induction l with
  | nil => exact List.Pairwise.nil
  | cons x r ih => exact lbInsert_sorted x _ ih

/-- C156: the warning depends only on the nodes connected to the LAG, not on their order: parallel LAGs result in a single
warning. -/
theorem C156_same_nodes (l m : LbLink β) (h : (l.nodes.map (·.1)).Perm (m.nodes.map (·.1))) : lbText l = lbText m := by
  have hp := (lbSort_perm (l.nodes.map (·.1))).trans (h.trans (lbSort_perm (m.nodes.map (·.1))).symm)
  rw [lbText, lbText, hp.eq_of_pairwise (fun x y _ _ h1 h2 => String.le_antisymm h1 h2) (lbSort_sorted _) (lbSort_sorted _)]

/-- C156: the warning about two nodes names these nodes in alphabetical order. -/
theorem C156_text (l : LbLink β) (a b : String × LwNode) (h : l.nodes = [a, b]) :
    lbText l = if a.1 ≤ b.1 then a.1 ++ " and " ++ b.1 else b.1 ++ " and " ++ a.1 := by
  simp only [lbText, h, List.map_cons, List.map_nil, lbSort, List.foldr_cons, List.foldr_nil, lbInsert]
  split <;> simp [lbJoin]

/-- C156: every warning is about a LAG, and there are no warnings about a point-to-point LAG without a user-defined bridge, unless it
connects nodes of several providers, or the lab uses bridges for point-to-point links. -/
theorem C156_quiet (e : LbEnv) (links : List (LbLink β)) (t : String) (ht : t ∈ (lagLab e links).1) :
    ∃ l ∈ links, l.virtual = true ∧ lbText l = t ∧
      (l.bridge.isSome = true ∨ CrossProvider e l ∨ (e.libvirt = true ∧ e.p2pBridge = true) ∨ ¬ PointToPoint l) := by
  obtain ⟨l, hl, hv, hb, hx⟩ := (lbLab_mem e links t).1 ht
  refine ⟨l, hl, hv, hx, ?_⟩
  refine Classical.byContradiction fun hn => ?_
  simp only [not_or, not_and, Classical.not_not] at hn
  obtain ⟨n1, n2, n3, n4⟩ := hn
  have hbn : l.bridge = none := by
    cases h : l.bridge with
    | none => rfl
    | some b => simp [h] at n1
  have hpre : lbPre e l = l := by
    rw [lbPre, if_neg]
    intro h
    simp only [Bool.and_eq_true, lbMustBeLan, Bool.or_eq_true] at h
    obtain ⟨h1, ⟨h2, -⟩ | ⟨h2, -⟩⟩ := h
    · rw [lbMixed, List.any_eq_true] at h2
      obtain ⟨n, hn, hp⟩ := h2
      obtain ⟨p, hp⟩ := Option.isSome_iff_exists.1 hp
      exact n2 ⟨h1, n, hn, p, hp⟩
    · exact n3 h1 h2
  rw [hpre] at hb
  have hty : ["p2p", "loopback", "vlan_member"].contains
      (ltType e.stubLoopback { type := l.type, role := none, vlan := false, dhcp := l.dhcp, nodes := l.nodes.map (·.2.lt) }) = true := by
    rcases n4 with h | ⟨h, h2, h3, h4⟩
    · simp only [ltType, ltType1, h]
      split
      · rename_i t heq
        split at heq
        · split at heq
          · cases heq; decide
          · cases heq; decide
        · cases heq; decide
      · rename_i heq
        split at heq
        · split at heq <;> cases heq
        · cases heq
    · match hnn : l.nodes, h2 with
      | [a, b], _ =>
        have ha := h4 a (by simp [hnn])
        have hb' := h4 b (by simp [hnn])
        simp [ltType, ltType1, h, h3, ltDefault, ltHostCount, ltHosts, ha, hb']
  simp only [lbTransform, if_pos hty, hbn] at hb
  cases hb

/-- C156: temporary LAG links are removed; other links remain, in the same order, with their nodes and attributes. -/
theorem C156_links (e : LbEnv) (links : List (LbLink β)) :
    (∀ l ∈ (lagLab e links).2.1, l.virtual = false) ∧
    (lagLab e links).2.1.map (fun l => (l.idx, l.nodes.map (·.1), l.rest)) =
      (links.filter (fun l => !l.virtual)).map (fun l => (l.idx, l.nodes.map (·.1), l.rest)) := by
  constructor
  · intro l hl
    simp only [lagLab, lagPost, List.mem_filter] at hl
    simpa using hl.2
  · simp only [lagLab, lagPost, List.map_map, List.filter_map]
    have : (fun l : LbLink β => !l.virtual) ∘ ((fun x => x.1) ∘ fun l => lbTransform e (lbPre e l)) = fun l => !l.virtual := by
      funext l
      simp only [Function.comp, (lbLink_same e l).2.1]
    rw [this]
    apply List.map_congr_left
    intro l _
    obtain ⟨h1, -, h2, -, h3⟩ := lbLink_same e l
    simp only [Function.comp, h1, h2, h3]

/-- A router or a host. -/
def exLwNode (p : Option String) (host : Bool) : LwNode := ⟨p, host, false, true, none⟩

/-- Non-vacuity: LAG links between virtual machines and containers, between two virtual machines, and a physical link -/
example : (lagLab ⟨"lab", true, false, false⟩
    [⟨1, true, none, none, false, [("s2", exLwNode none false), ("s1", exLwNode (some "clab") false)], 0⟩,
     ⟨2, true, none, none, false, [("s1", exLwNode (some "clab") false), ("s2", exLwNode none false)], 0⟩,
     ⟨3, true, none, none, false, [("s2", exLwNode none false), ("s3", exLwNode none false)], 0⟩,
     ⟨4, false, some "p2p", none, false, [("s2", exLwNode none false), ("s3", exLwNode none false)], 0⟩]).1 = ["s1 and s2"] := by
  decide +kernel

/-- Known defect: a LAG between a switch and a host in a lab with a single provider is a point-to-point bundle that uses no Linux
bridge, but netlab warns about it: links with hosts are LAN links. -/
theorem C156_false_alarm : ∃ (e : LbEnv) (l : LbLink Nat), e.libvirt = false ∧ (∀ n ∈ l.nodes, n.2.provider = none) ∧
    l.bridge = none ∧ l.type = none ∧ l.nodes.length = 2 ∧ (lagLab e [l]).1 = ["h1 and s1"] :=
  ⟨⟨"lab", false, false, false⟩,
    ⟨1, true, none, none, false, [("s1", exLwNode none false), ("h1", exLwNode none true)], 0⟩,
    rfl, by decide +kernel, rfl, rfl, rfl, by decide +kernel⟩

end Netlab
