import Verif.Spec.Vagrant
import Verif.Lemmas.Box

namespace Netlab

open Spec

variable {α : Type}

/-! ### Padding -/

theorem vgInsert_perm (i : VgPort α) (l : List (VgPort α)) : (vgInsert i l).Perm (i :: l) := by
  induction l with
  | nil => exact .refl _
  | cons x r ih =>
    unfold vgInsert
    by_cases h : i.ifindex ≤ x.ifindex
    · rw [if_pos h]
    · rw [if_neg h]
      exact (ih.cons x).trans (.swap i x r)

theorem vgSort_perm (l : List (VgPort α)) : (vgSort l).Perm l := by
  unfold vgSort
  induction l with
  | nil => exact .refl _
  | cons x r ih => exact (vgInsert_perm x _).trans (ih.cons x)

theorem vgInsert_sorted (i : VgPort α) (l : List (VgPort α)) (h : l.Pairwise (fun a b => a.ifindex ≤ b.ifindex)) :
    (vgInsert i l).Pairwise (fun a b => a.ifindex ≤ b.ifindex) := by
  induction l with
  | nil => simp [vgInsert]
  | cons x r ih =>
    rw [List.pairwise_cons] at h
    unfold vgInsert
    by_cases hle : i.ifindex ≤ x.ifindex
    · rw [if_pos hle, List.pairwise_cons, List.pairwise_cons]
      refine ⟨fun y hy => ?_, h⟩
      rcases List.mem_cons.1 hy with rfl | hy
      · exact hle
      · exact Nat.le_trans hle (h.1 y hy)
    · rw [if_neg hle, List.pairwise_cons]
      refine ⟨fun y hy => ?_, ih h.2⟩
      rcases List.mem_cons.1 ((vgInsert_perm i r).mem_iff.1 hy) with rfl | hy
      · omega
      · exact h.1 y hy

theorem vgSort_sorted (l : List (VgPort α)) : (vgSort l).Pairwise (fun a b => a.ifindex ≤ b.ifindex) := by
  unfold vgSort
  induction l with
  | nil => simp
  | cons x r ih => exact vgInsert_sorted x _ ih

theorem vgPad_spec (k : Nat) (l : List (VgPort α)) (hs : l.Pairwise (fun a b => a.ifindex < b.ifindex)) (hk : ∀ i ∈ l, k ≤ i.ifindex)
    (hd : ∀ i ∈ l, i.data.isSome = true) :
    ∃ n, (vgPad k l).map (·.ifindex) = List.range' k n ∧ (vgPad k l).filter (fun i => i.data.isSome) = l ∧
      (n ≠ 0 → ∃ i ∈ l, i.ifindex + 1 = k + n) := by
  induction k, l using vgPad.induct with
  | case1 k => exact ⟨0, by rw [vgPad]; rfl, by rw [vgPad]; rfl, fun h => absurd rfl h⟩
  | case2 k i r hgt ih =>
    rw [vgPad, if_pos hgt]
    obtain ⟨n, h1, h2, h3⟩ := ih hs (by
      rw [List.pairwise_cons] at hs
      intro x hx
      rcases List.mem_cons.1 hx with rfl | hx
      · omega
      · have := hs.1 x hx
        omega) hd
    refine ⟨n + 1, ?_, ?_, fun _ => ?_⟩
    · rw [List.map_cons, h1, List.range'_succ]
    · rw [List.filter_cons_of_neg (by simp), h2]
    · by_cases hn : n = 0
      · subst hn
        rw [List.range'_zero, List.map_eq_nil_iff] at h1
        rw [h1] at h2
        simp at h2
      · obtain ⟨x, hx, he⟩ := h3 hn
        exact ⟨x, hx, by omega⟩
  | case3 k i r hle ih =>
    have hi : i.ifindex = k := by
      have := hk i List.mem_cons_self
      omega
    rw [List.pairwise_cons] at hs
    obtain ⟨n, h1, h2, h3⟩ := ih hs.2 (fun x hx => by
      have := hs.1 x hx
      omega) (fun x hx => hd x (List.mem_cons_of_mem _ hx))
    rw [vgPad, if_neg hle]
    refine ⟨n + 1, ?_, ?_, fun _ => ?_⟩
    · rw [List.map_cons, h1, List.range'_succ, hi]
    · rw [List.filter_cons_of_pos (p := fun i : VgPort α => i.data.isSome) (hd i List.mem_cons_self), h2]
    · by_cases hn : n = 0
      · exact ⟨i, List.mem_cons_self, by omega⟩
      · obtain ⟨x, hx, he⟩ := h3 hn
        exact ⟨x, List.mem_cons_of_mem _ hx, by omega⟩

/-- C93: after padding, interfaces have consecutive indexes starting with the first index of the device, no interface is lost, the last one is an interface of
the node, and the adapter count includes the management interface. -/
theorem C93_pad (offset : Nat) (count : Option Nat) (l : List (VgPort α)) (hn : (l.map (·.ifindex)).Nodup) (ho : ∀ i ∈ l, offset ≤ i.ifindex)
    (hd : ∀ i ∈ l, i.data.isSome = true) :
    ∃ n, (vgPadNode offset count l).1.map (·.ifindex) = List.range' offset n ∧
      ((vgPadNode offset count l).1.filter (fun i => i.data.isSome)).Perm l ∧ (n ≠ 0 → ∃ i ∈ l, i.ifindex + 1 = offset + n) ∧
      (count = none → (vgPadNode offset count l).2 = n + 1) := by
  have hp := vgSort_perm l
  have hs : (vgSort l).Pairwise (fun a b => a.ifindex < b.ifindex) := by
    have h1 := vgSort_sorted l
    have h2 : ((vgSort l).map (·.ifindex)).Nodup := (hp.map _).nodup_iff.2 hn
    rw [List.Nodup, List.pairwise_map] at h2
    exact (h1.and h2).imp (fun h => by omega)
  obtain ⟨n, h1, h2, h3⟩ := vgPad_spec offset (vgSort l) hs (fun i hi => ho i (hp.mem_iff.1 hi)) (fun i hi => hd i (hp.mem_iff.1 hi))
  refine ⟨n, h1, ?_, ?_, ?_⟩
  · simp only [vgPadNode, h2]
    exact hp
  · intro hn0
    obtain ⟨i, hi, he⟩ := h3 hn0
    exact ⟨i, hp.mem_iff.1 hi, he⟩
  · rintro rfl
    have := congrArg List.length h1
    rw [List.length_map, List.length_range'] at this
    simp [vgPadNode, this]

/-! ### Batches -/

/-- C93: the nodes are started in batches of the requested size (the last batch can be smaller), every node in a single batch, in the original order, with
an optional pause between batches. -/
theorem C93_batches (start : String) (size : Nat) (h : size ≠ 0) (nodes : List String) :
    ∃ parts : List (List String), parts.flatten = nodes ∧ (∀ p ∈ parts, p.length ≤ size) ∧ (∀ p ∈ parts.dropLast, p.length = size) ∧
      (nodes ≠ [] → ∀ p ∈ parts, p ≠ []) ∧
      vgBatches start none size nodes = parts.map (StartCommand start) ∧
      ∀ s, vgBatches start (some s) size nodes = (parts.map (StartCommand start)).intersperse s := by
  have key : ∀ (m : Nat) (nodes : List String), nodes.length ≤ m → ∃ (p0 : List String) (parts : List (List String)), (p0 :: parts).flatten = nodes ∧
      (∀ p ∈ p0 :: parts, p.length ≤ size) ∧ (∀ p ∈ (p0 :: parts).dropLast, p.length = size) ∧
      (nodes ≠ [] → ∀ p ∈ p0 :: parts, p ≠ []) ∧
      vgBatches start none size nodes = (p0 :: parts).map (StartCommand start) ∧
      ∀ s, vgBatches start (some s) size nodes = ((p0 :: parts).map (StartCommand start)).intersperse s := by
    intro m
    induction m with
    | zero =>
      intro nodes hm
      have : nodes = [] := List.eq_nil_of_length_eq_zero (by omega)
      subst this
      refine ⟨[], [], rfl, by simp, by simp, fun h => absurd rfl h, ?_, fun s => ?_⟩
      · rw [vgBatches, if_pos (by simp)]; simp [StartCommand]
      · rw [vgBatches, if_pos (by simp)]; simp [StartCommand]
    | succ m ih =>
      intro nodes hm
      by_cases hl : nodes.length ≤ size
      · refine ⟨nodes, [], by simp, by simpa using hl, by simp, fun hne => by simpa using hne, ?_, fun s => ?_⟩
        · rw [vgBatches, if_pos (Or.inl hl), List.take_of_length_le hl]; rfl
        · rw [vgBatches, if_pos (Or.inl hl), List.take_of_length_le hl]; rfl
      · obtain ⟨p0, parts, h1, h2, h3, h4, h5, h6⟩ := ih (nodes.drop size) (by rw [List.length_drop]; omega)
        have ht : (nodes.take size).length = size := by rw [List.length_take]; omega
        refine ⟨nodes.take size, p0 :: parts, ?_, ?_, ?_, ?_, ?_, ?_⟩
        · rw [List.flatten_cons, h1, List.take_append_drop]
        · intro p hp
          rcases List.mem_cons.1 hp with rfl | hp
          · omega
          · exact h2 p hp
        · intro p hp
          rw [List.dropLast_cons_of_ne_nil (by simp)] at hp
          rcases List.mem_cons.1 hp with rfl | hp
          · exact ht
          · exact h3 p hp
        · intro _ p hp
          rcases List.mem_cons.1 hp with rfl | hp
          · intro he
            rw [he] at ht
            exact h ht.symm
          · refine h4 (fun he => ?_) p hp
            have := congrArg List.length he
            rw [List.length_drop, List.length_nil] at this
            omega
        · rw [vgBatches, if_neg (by simp only [not_or]; exact ⟨hl, h⟩), h5]
          rfl
        · intro s
          rw [vgBatches, if_neg (by simp only [not_or]; exact ⟨hl, h⟩), h6]
          simp only [List.map_cons, Option.toList_some]
          rw [List.intersperse_cons_cons]
          rfl
  obtain ⟨p0, parts, h⟩ := key nodes.length nodes (Nat.le_refl _)
  exact ⟨p0 :: parts, h⟩

/-! ### Tunnels -/

/-- Links change only in bridge names. -/
def VgSame (a b : List VgLink) : Prop := List.Forall₂ (fun x y => y = { x with bridge := y.bridge }) a b

theorem vgSame_refl (a : List VgLink) : VgSame a a := by
  unfold VgSame
  induction a with
  | nil => exact .nil
  | cons x r ih => exact .cons rfl ih

theorem vgSame_trans {a b c : List VgLink} (h1 : VgSame a b) (h2 : VgSame b c) : VgSame a c := by
  unfold VgSame at *
  induction h1 generalizing c with
  | nil => exact h2
  | @cons x y a b hxy _ ih =>
    cases h2 with
    | cons hyz ht =>
      refine .cons ?_ (ih ht)
      rw [hyz, hxy]

theorem vgPop_same (k : Nat) (l : List VgLink) : VgSame l (vgPop k l) := by
  induction l with
  | nil => exact .nil
  | cons x r ih =>
    unfold vgPop
    by_cases h : x.index = k
    · rw [if_pos h]
      exact .cons rfl (vgSame_refl r)
    · rw [if_neg h]
      exact .cons rfl ih

theorem vgSame_find {a b : List VgLink} (h : VgSame a b) (k : Nat) :
    (a.find? (fun l => l.index == k) = none ∧ b.find? (fun l => l.index == k) = none) ∨
    ∃ x y, a.find? (fun l => l.index == k) = some x ∧ b.find? (fun l => l.index == k) = some y ∧ y = { x with bridge := y.bridge } := by
  unfold VgSame at h
  induction h with
  | nil => exact Or.inl ⟨rfl, rfl⟩
  | @cons x y a b hxy _ ih =>
    have hi : y.index = x.index := by rw [hxy]
    by_cases hk : (x.index == k) = true
    · right
      refine ⟨x, y, ?_, ?_, hxy⟩
      · rw [List.find?_cons_of_pos (p := fun l : VgLink => l.index == k) hk]
      · rw [List.find?_cons_of_pos (p := fun l : VgLink => l.index == k) (by rw [hi]; exact hk)]
    · rw [List.find?_cons_of_neg (p := fun l : VgLink => l.index == k) hk,
        List.find?_cons_of_neg (p := fun l : VgLink => l.index == k) (by rw [hi]; exact hk)]
      exact ih

theorem vgIntf_same (ids : List (String × Nat)) (node : String) (links : List VgLink) (i : VgIntf) (x : VgIntf × List VgLink)
    (h : vgIntf ids node links i = some x) : VgSame links x.2 := by
  unfold vgIntf at h
  split at h
  · cases h; exact vgSame_refl _
  · split at h
    · cases h; exact vgSame_refl _
    · split at h
      · cases h; exact vgSame_refl _
      · split at h
        · cases h; exact vgSame_refl _
        · split at h
          · cases h; exact vgSame_refl _
          · split at h
            · cases h; exact vgSame_refl _
            · split at h
              · obtain ⟨y, _, rfl⟩ := Option.map_eq_some_iff.1 h
                exact vgPop_same _ _
              · cases h; exact vgSame_refl _

theorem vgIntfs_spec (ids : List (String × Nat)) (node : String) (l : List VgIntf) (links : List VgLink) (x : List VgIntf × List VgLink)
    (h : vgIntfs ids node l links = some x) :
    VgSame links x.2 ∧ List.Forall₂ (fun i o => ∃ ls ls', VgSame links ls ∧ vgIntf ids node ls i = some (o, ls')) l x.1 := by
  induction l generalizing links x with
  | nil => cases h; exact ⟨vgSame_refl _, .nil⟩
  | cons i r ih =>
    unfold vgIntfs at h
    cases hi : vgIntf ids node links i with
    | none => rw [hi] at h; cases h
    | some y =>
      rw [hi] at h
      obtain ⟨z, hz, rfl⟩ := Option.map_eq_some_iff.1 h
      have hs := vgIntf_same _ _ _ _ _ hi
      obtain ⟨h1, h2⟩ := ih y.2 z hz
      refine ⟨vgSame_trans hs h1, .cons ⟨links, y.2, vgSame_refl _, hi⟩ (h2.imp ?_)⟩
      rintro a b ⟨ls, ls', ha, hb⟩
      exact ⟨ls, ls', vgSame_trans hs ha, hb⟩

theorem vgNodes_spec (ids : List (String × Nat)) (l : List (String × List VgIntf)) (links : List VgLink) (x : List (String × List VgIntf) × List VgLink)
    (h : vgNodes ids l links = some x) :
    List.Forall₂ (fun n m => m.1 = n.1 ∧ List.Forall₂ (fun i o => ∃ ls ls', VgSame links ls ∧ vgIntf ids n.1 ls i = some (o, ls')) n.2 m.2) l x.1 := by
  induction l generalizing links x with
  | nil => cases h; exact .nil
  | cons n r ih =>
    unfold vgNodes at h
    cases hi : vgIntfs ids n.1 n.2 links with
    | none => rw [hi] at h; cases h
    | some y =>
      rw [hi] at h
      obtain ⟨z, hz, rfl⟩ := Option.map_eq_some_iff.1 h
      obtain ⟨h1, h2⟩ := vgIntfs_spec _ _ _ _ _ hi
      refine .cons ⟨rfl, h2⟩ ((ih y.2 z hz).imp ?_)
      rintro a b ⟨he, hf⟩
      refine ⟨he, hf.imp ?_⟩
      rintro a b ⟨ls, ls', ha, hb⟩
      exact ⟨ls, ls', vgSame_trans h1 ha, hb⟩

theorem vgNodes_intf (ids : List (String × Nat)) (l outs : List (String × List VgIntf)) (links ls : List VgLink) (h : vgNodes ids l links = some (outs, ls))
    (node : String) (i o : VgIntf) (hi : IntfOf l outs node i o) : ∃ ls ls', VgSame links ls ∧ vgIntf ids node ls i = some (o, ls') := by
  obtain ⟨n, m, hm, rfl, hio⟩ := hi
  have h1 := (List.forall₂_iff_zip.1 (vgNodes_spec ids l links _ h)).2 hm
  exact (List.forall₂_iff_zip.1 h1.2).2 hio

theorem vgTunnel_isTunnel (i : VgIntf) : vgIsTunnel { i with libvirt := setKey i.libvirt "type" (.str "tunnel") } = true := by
  unfold vgIsTunnel
  simp [lookup_setKey]

theorem vgIntf_tunnel (ids : List (String × Nat)) (node : String) (links ls ls' : List VgLink) (hs : VgSame links ls) (i o : VgIntf)
    (h : vgIntf ids node ls i = some (o, ls')) (k : Nat) (hk : i.linkindex = k) (hv : i.virt = false) (a b : String × Nat) (ht : TunnelLink links k a b)
    (ha : a = (node, i.ifindex)) :
    o.ifindex = i.ifindex ∧ vgIsTunnel o = true ∧ o.remoteIfindex = some b.2 ∧ ∃ id, ids.lookup b.1 = some id ∧ o.remoteId = some id := by
  obtain ⟨⟨l, hl, htype, hprov, hlv, hifs⟩, hk0, hne⟩ := ht
  rcases vgSame_find hs k with ⟨h1, _⟩ | ⟨x, y, h1, h2, hy⟩
  · rw [hl] at h1; cases h1
  · rw [hl] at h1
    cases h1
    have e1 : y.type = l.type := by rw [hy]
    have e2 : y.providers = l.providers := by rw [hy]
    have e3 : y.libvirt = l.libvirt := by rw [hy]
    have e4 : y.ifs = l.ifs := by rw [hy]
    unfold vgIntf at h
    rw [if_neg (by rw [hk]; exact hk0), if_neg (by simp [hv]), hk, h2] at h
    simp only at h
    rw [if_neg (by rw [e2, hprov]; decide), e3, hlv] at h
    simp only at h
    rw [if_neg (by rw [e2, hprov]; decide)] at h
    have hlen : y.ifs.length = 2 := by
      rw [e4]
      rcases hifs with hx | hx <;> rw [hx] <;> rfl
    have htu : vgTunnel y (vgBridge y i) = { vgBridge y i with libvirt := setKey (vgBridge y i).libvirt "type" (.str "tunnel") } := by
      unfold vgTunnel
      rw [if_pos ⟨hlen, by rw [e1, htype]⟩]
    rw [htu, if_pos (vgTunnel_isTunnel _)] at h
    obtain ⟨z, hz, he⟩ := Option.map_eq_some_iff.1 h
    cases he
    have hbi : (vgBridge y i).ifindex = i.ifindex := by
      unfold vgBridge
      cases y.bridge <;> rfl
    have hfil : y.ifs.filter (fun r => r.1 ≠ node || r.2 ≠ i.ifindex) = [b] := by
      have hna : (decide (a.1 ≠ node) || decide (a.2 ≠ i.ifindex)) = false := by rw [ha]; simp
      have hnb : (decide (b.1 ≠ node) || decide (b.2 ≠ i.ifindex)) = true := by
        cases hx : (decide (b.1 ≠ node) || decide (b.2 ≠ i.ifindex)) with
        | true => rfl
        | false =>
          simp only [Bool.or_eq_false_iff, decide_eq_false_iff_not, Classical.not_not] at hx
          exact absurd (by rw [ha, ← hx.1, ← hx.2]) hne
      rw [e4]
      rcases hifs with hx | hx
      · rw [hx, List.filter_cons_of_neg (by rw [hna]; simp), List.filter_cons_of_pos (by rw [hnb]), List.filter_nil]
      · rw [hx, List.filter_cons_of_pos (by rw [hnb]), List.filter_cons_of_neg (by rw [hna]; simp), List.filter_nil]
    unfold vgRemote at hz
    simp only [hbi, hfil] at hz
    cases hid : ids.lookup b.1 with
    | none => rw [hid] at hz; cases hz
    | some id =>
      rw [hid] at hz
      simp only at hz
      by_cases h0 : id = 0
      · rw [if_pos h0] at hz; cases hz
      · rw [if_neg h0] at hz
        cases hz
        exact ⟨rfl, by simp [vgIsTunnel, lookup_setKey], rfl, id, rfl, rfl⟩

/-- C93: the two ends of a link between virtual machines are configured as the two ends of the same UDP tunnel. -/
theorem C93_tunnel (ids : List (String × Nat)) (nodes outs : List (String × List VgIntf)) (links ls : List VgLink)
    (h : vgNodes ids nodes links = some (outs, ls)) (k : Nat) (n m : String) (i j oi oj : VgIntf) (ht : TunnelLink links k (n, i.ifindex) (m, j.ifindex))
    (hi : IntfOf nodes outs n i oi) (hj : IntfOf nodes outs m j oj) (hik : i.linkindex = k) (hjk : j.linkindex = k) (hiv : i.virt = false) (hjv : j.virt = false) :
    ∃ idn idm, ids.lookup n = some idn ∧ ids.lookup m = some idm ∧ TunnelRemote oi (tunnelLocal idm oj) ∧ TunnelRemote oj (tunnelLocal idn oi) := by
  obtain ⟨ls1, ls1', hs1, h1⟩ := vgNodes_intf ids nodes outs links ls h n i oi hi
  obtain ⟨ls2, ls2', hs2, h2⟩ := vgNodes_intf ids nodes outs links ls h m j oj hj
  have ht' : TunnelLink links k (m, j.ifindex) (n, i.ifindex) := by
    obtain ⟨⟨l, a, b, c, d, e⟩, hk, hne⟩ := ht
    exact ⟨⟨l, a, b, c, d, e.symm⟩, hk, fun h => hne h.symm⟩
  obtain ⟨a1, _, a3, idm, a4, a5⟩ := vgIntf_tunnel ids n links ls1 ls1' hs1 i oi h1 k hik hiv _ _ ht rfl
  obtain ⟨b1, _, b3, idn, b4, b5⟩ := vgIntf_tunnel ids m links ls2 ls2' hs2 j oj h2 k hjk hjv _ _ ht' rfl
  refine ⟨idn, idm, b4, a4, ⟨idm, _, a5, a3, ?_⟩, ⟨idn, _, b5, b3, ?_⟩⟩
  · rw [tunnelLocal, b1]
  · rw [tunnelLocal, a1]

/-- C93: other interfaces do not become tunnel endpoints. -/
theorem C93_no_tunnel (ids : List (String × Nat)) (nodes outs : List (String × List VgIntf)) (links ls : List VgLink)
    (h : vgNodes ids nodes links = some (outs, ls)) (n : String) (i o : VgIntf) (hi : IntfOf nodes outs n i o)
    (hno : i.linkindex = 0 ∨ i.virt = true ∨ links.find? (fun l => l.index == i.linkindex) = none ∨
      ∃ l, links.find? (fun l => l.index == i.linkindex) = some l ∧ ("libvirt" ∉ l.providers ∨ l.libvirt ≠ none ∨ l.providers.length > 1 ∨
        ((l.ifs.length ≠ 2 ∨ l.type ≠ "p2p") ∧ i.libvirt.lookup "type" = none))) :
    o.remoteIfindex = i.remoteIfindex ∧ o.remoteId = i.remoteId := by
  obtain ⟨ls1, ls1', hs1, h1⟩ := vgNodes_intf ids nodes outs links ls h n i o hi
  have hb : ∀ l, (vgBridge l i).remoteIfindex = i.remoteIfindex ∧ (vgBridge l i).remoteId = i.remoteId ∧ (vgBridge l i).libvirt = i.libvirt := by
    intro l
    unfold vgBridge
    cases l.bridge <;> exact ⟨rfl, rfl, rfl⟩
  unfold vgIntf at h1
  by_cases hk0 : i.linkindex = 0
  · rw [if_pos hk0] at h1; cases h1; exact ⟨rfl, rfl⟩
  · rw [if_neg hk0] at h1
    cases hv : i.virt with
    | true => rw [if_pos hv] at h1; cases h1; exact ⟨rfl, rfl⟩
    | false =>
      rw [if_neg (by simp [hv])] at h1
      rcases vgSame_find hs1 i.linkindex with ⟨_, h2⟩ | ⟨x, y, hx, h2, hy⟩
      · rw [h2] at h1; cases h1; exact ⟨rfl, rfl⟩
      · rw [h2] at h1
        simp only at h1
        have e1 : y.type = x.type := by rw [hy]
        have e2 : y.providers = x.providers := by rw [hy]
        have e3 : y.libvirt = x.libvirt := by rw [hy]
        have e4 : y.ifs = x.ifs := by rw [hy]
        by_cases hp : (!y.providers.contains "libvirt") = true
        · rw [if_pos hp] at h1; cases h1; exact ⟨rfl, rfl⟩
        · rw [if_neg hp] at h1
          cases hlv : y.libvirt with
          | some d => rw [hlv] at h1; cases h1; exact ⟨(hb y).1, (hb y).2.1⟩
          | none =>
            rw [hlv] at h1
            simp only at h1
            by_cases hl : y.providers.length > 1
            · rw [if_pos hl] at h1; cases h1; exact ⟨(hb y).1, (hb y).2.1⟩
            · rw [if_neg hl] at h1
              rcases hno with h | h | h | ⟨l, h, hq | hq | hq | ⟨hh, ht⟩⟩
              · exact absurd h hk0
              · rw [hv] at h; cases h
              · rw [hx] at h; cases h
              · rw [hx] at h; cases h
                refine absurd ?_ hp
                rw [e2]
                cases hc : x.providers.contains "libvirt" with
                | false => rfl
                | true => exact absurd (List.contains_iff_mem.1 hc) hq
              · rw [hx] at h; cases h
                exact absurd (e3 ▸ hlv) hq
              · rw [hx] at h; cases h
                exact absurd (e2 ▸ hq) hl
              · rw [hx] at h; cases h
                have hnt : vgTunnel y (vgBridge y i) = vgBridge y i := by
                  unfold vgTunnel
                  rw [if_neg]
                  rintro ⟨h3, h4⟩
                  rw [e4] at h3
                  rw [e1] at h4
                  rcases hh with hh | hh
                  · exact hh h3
                  · exact hh h4
                have hit : vgIsTunnel (vgBridge y i) = false := by
                  unfold vgIsTunnel
                  rw [(hb y).2.2, ht]
                rw [hnt, if_neg (by rw [hit]; simp)] at h1
                cases h1
                exact ⟨(hb y).1, (hb y).2.1⟩

/-! ### Bridges -/

/-- A link that is not implemented with UDP tunnels -/
def VgBridged (l : VgLink) : Prop := l.libvirt ≠ none ∨ l.providers.length > 1 ∨ l.ifs.length ≠ 2 ∨ l.type ≠ "p2p"

theorem vgPop_find (k j : Nat) (h : j ≠ k) (links : List VgLink) :
    (vgPop j links).find? (fun l => l.index == k) = links.find? (fun l => l.index == k) := by
  induction links with
  | nil => rfl
  | cons x r ih =>
    unfold vgPop
    by_cases hx : x.index = j
    · rw [if_pos hx, List.find?_cons_of_neg (p := fun l : VgLink => l.index == k) (by simp [hx, h]),
        List.find?_cons_of_neg (p := fun l : VgLink => l.index == k) (by simp [hx, h])]
    · rw [if_neg hx, List.find?_cons, List.find?_cons, ih]

theorem vgIntf_find (ids : List (String × Nat)) (node : String) (k : Nat) (l : VgLink) (hb : VgBridged l) (links : List VgLink)
    (hl : links.find? (fun l => l.index == k) = some l) (i : VgIntf) (hi : i.linkindex = k → i.libvirt.lookup "type" = none)
    (x : VgIntf × List VgLink) (h : vgIntf ids node links i = some x) :
    x.2.find? (fun l => l.index == k) = some l ∧
      (i.linkindex = k → k ≠ 0 → i.virt = false → "libvirt" ∈ l.providers → ∀ b, l.bridge = some b → x.1.bridge = some b) := by
  have hbr : ∀ b, l.bridge = some b → (vgBridge l i).bridge = some b := by
    intro b hb
    unfold vgBridge
    rw [hb]
  unfold vgIntf at h
  by_cases h0 : i.linkindex = 0
  · rw [if_pos h0] at h; cases h
    exact ⟨hl, fun a b => absurd (a ▸ h0) b⟩
  · rw [if_neg h0] at h
    cases hv : i.virt with
    | true => rw [if_pos hv] at h; cases h; exact ⟨hl, fun _ _ c => (nomatch c)⟩
    | false =>
      rw [if_neg (by simp [hv])] at h
      by_cases hk : i.linkindex = k
      · rw [hk, hl] at h
        simp only at h
        by_cases hp : (!l.providers.contains "libvirt") = true
        · rw [if_pos hp] at h; cases h
          refine ⟨hl, fun _ _ _ hm => ?_⟩
          rw [List.contains_iff_mem.2 hm] at hp
          cases hp
        · rw [if_neg hp] at h
          cases hlv : l.libvirt with
          | some d => rw [hlv] at h; cases h; exact ⟨hl, fun _ _ _ _ => hbr⟩
          | none =>
            rw [hlv] at h
            simp only at h
            by_cases hn : l.providers.length > 1
            · rw [if_pos hn] at h; cases h; exact ⟨hl, fun _ _ _ _ => hbr⟩
            · rw [if_neg hn] at h
              have hnt : vgTunnel l (vgBridge l i) = vgBridge l i := by
                unfold vgTunnel
                rw [if_neg]
                rintro ⟨h3, h4⟩
                rcases hb with hb | hb | hb | hb
                · exact hb hlv
                · exact hn hb
                · exact hb h3
                · exact hb h4
              have hit : vgIsTunnel (vgBridge l i) = false := by
                have : (vgBridge l i).libvirt = i.libvirt := by
                  unfold vgBridge
                  cases l.bridge <;> rfl
                unfold vgIsTunnel
                rw [this, hi hk]
              rw [hnt, if_neg (by rw [hit]; simp)] at h
              cases h
              exact ⟨hl, fun _ _ _ _ => hbr⟩
      · refine ⟨?_, fun a => absurd a hk⟩
        split at h
        · cases h; exact hl
        · split at h
          · cases h; exact hl
          · split at h
            · cases h; exact hl
            · split at h
              · cases h; exact hl
              · split at h
                · obtain ⟨y, _, rfl⟩ := Option.map_eq_some_iff.1 h
                  simp only
                  rw [vgPop_find k _ hk]
                  exact hl
                · cases h; exact hl

theorem vgIntfs_find (ids : List (String × Nat)) (node : String) (k : Nat) (hk0 : k ≠ 0) (l : VgLink) (hb : VgBridged l) (hp : "libvirt" ∈ l.providers)
    (b : String) (hbr : l.bridge = some b) (ins : List VgIntf) (hi : ∀ i ∈ ins, i.linkindex = k → i.libvirt.lookup "type" = none) (links : List VgLink)
    (hl : links.find? (fun l => l.index == k) = some l) (x : List VgIntf × List VgLink) (h : vgIntfs ids node ins links = some x) :
    x.2.find? (fun l => l.index == k) = some l ∧ List.Forall₂ (fun i o => i.linkindex = k → i.virt = false → o.bridge = some b) ins x.1 := by
  induction ins generalizing links x with
  | nil => cases h; exact ⟨hl, .nil⟩
  | cons i r ih =>
    unfold vgIntfs at h
    cases hx : vgIntf ids node links i with
    | none => rw [hx] at h; cases h
    | some y =>
      rw [hx] at h
      obtain ⟨z, hz, rfl⟩ := Option.map_eq_some_iff.1 h
      obtain ⟨h1, h2⟩ := vgIntf_find ids node k l hb links hl i (hi i List.mem_cons_self) y hx
      obtain ⟨h3, h4⟩ := ih (fun i hm => hi i (List.mem_cons_of_mem _ hm)) y.2 h1 z hz
      exact ⟨h3, .cons (fun a c => h2 a hk0 c hp b hbr) h4⟩

theorem vgNodes_find (ids : List (String × Nat)) (k : Nat) (hk0 : k ≠ 0) (l : VgLink) (hb : VgBridged l) (hp : "libvirt" ∈ l.providers)
    (b : String) (hbr : l.bridge = some b) (nodes : List (String × List VgIntf))
    (hi : ∀ n ∈ nodes, ∀ i ∈ n.2, i.linkindex = k → i.libvirt.lookup "type" = none) (links : List VgLink)
    (hl : links.find? (fun l => l.index == k) = some l) (x : List (String × List VgIntf) × List VgLink) (h : vgNodes ids nodes links = some x) :
    List.Forall₂ (fun n m => List.Forall₂ (fun i o => i.linkindex = k → i.virt = false → o.bridge = some b) n.2 m.2) nodes x.1 := by
  induction nodes generalizing links x with
  | nil => cases h; exact .nil
  | cons n r ih =>
    unfold vgNodes at h
    cases hx : vgIntfs ids n.1 n.2 links with
    | none => rw [hx] at h; cases h
    | some y =>
      rw [hx] at h
      obtain ⟨z, hz, rfl⟩ := Option.map_eq_some_iff.1 h
      obtain ⟨h1, h2⟩ := vgIntfs_find ids n.1 k hk0 l hb hp b hbr n.2 (hi n List.mem_cons_self) links hl y hx
      exact .cons h2 (ih (fun n hm => hi n (List.mem_cons_of_mem _ hm)) y.2 h1 z hz)

/-- C93: all interfaces attached to a link that does not use tunnels are connected to the bridge of the link. -/
theorem C93_lan_bridge (ids : List (String × Nat)) (nodes outs : List (String × List VgIntf)) (links ls : List VgLink)
    (h : vgNodes ids nodes links = some (outs, ls)) (l : VgLink) (k : Nat) (hk : k ≠ 0) (hl : links.find? (fun l => l.index == k) = some l)
    (hlan : l.libvirt ≠ none ∨ l.providers.length > 1 ∨ l.ifs.length ≠ 2 ∨ l.type ≠ "p2p") (hp : "libvirt" ∈ l.providers) (b : String)
    (hb : l.bridge = some b) (ht : ∀ n ∈ nodes, ∀ i ∈ n.2, i.linkindex = k → i.libvirt.lookup "type" = none)
    (n : String) (i o : VgIntf) (hi : IntfOf nodes outs n i o) (hik : i.linkindex = k) (hv : i.virt = false) : o.bridge = some b := by
  obtain ⟨x, y, hm, _, hio⟩ := hi
  have h1 := (List.forall₂_iff_zip.1 (vgNodes_find ids k hk l hlan hp b hb nodes ht links hl _ h)).2 hm
  exact (List.forall₂_iff_zip.1 h1).2 hio hik hv

/-! ### Examples -/

example : (vgPadNode 1 none [⟨4, some "c"⟩, ⟨2, some "a"⟩]).1 = [⟨1, none⟩, ⟨2, some "a"⟩, ⟨3, none⟩, ⟨4, some "c"⟩] := by simp [vgPadNode, vgSort, vgInsert, vgPad]

example : vgBatches "vagrant up" (some "sleep 5") 2 ["a", "b", "c"] = ["vagrant up a b", "sleep 5", "vagrant up c"] := by decide +kernel

/-- C93: a batch without nodes starts all virtual machines. -/
theorem C93_empty_batch (size : Nat) : vgBatches "vagrant up" none size [] = ["vagrant up "] := by
  rw [vgBatches, if_pos (by simp)]
  simp

/-- A link between two nodes -/
def vgExLinks : List VgLink := [⟨1, "p2p", ["libvirt"], [("a", 2), ("b", 1)], none, none⟩, ⟨2, "lan", ["libvirt"], [("a", 3), ("b", 2)], some "br", none⟩]

/-- Nodes connected with the link -/
def vgExNodes : List (String × List VgIntf) :=
  [("a", [⟨1, false, 2, none, [], none, none⟩, ⟨2, false, 3, none, [], none, none⟩]), ("b", [⟨1, false, 1, none, [], none, none⟩])]

example : TunnelLink vgExLinks 1 ("a", 2) ("b", 1) ∧
    ((vgNodes [("a", 7), ("b", 8)] vgExNodes vgExLinks).map (fun x => x.1.map (fun n => n.2.map (fun i => (i.remoteId, i.remoteIfindex))))) =
      some [[(some 8, some 1), (none, none)], [(some 7, some 2)]] :=
  ⟨⟨⟨⟨1, "p2p", ["libvirt"], [("a", 2), ("b", 1)], none, none⟩, rfl, rfl, rfl, rfl, Or.inl rfl⟩, by decide, by decide⟩, by decide⟩

/-- C93 defect: only one end of a point-to-point link with a bridge name gets the name of the bridge. -/
theorem C93_bridge_one_end :
    ((vgNodes [("a", 7), ("b", 8)] vgExNodes [⟨1, "p2p", ["libvirt"], [("a", 2), ("b", 1)], some "br", none⟩]).map
      (fun x => x.1.map (fun n => n.2.map (fun i => i.bridge)))) = some [[some "br", none], [none]] := by decide

end Netlab
