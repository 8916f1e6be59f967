import Verif.Spec.Multihop
import Verif.Lemmas.Box
import Verif.Props.BgpSession
/-!
# C76: EBGP multihop sessions
-/

namespace Netlab
open Spec

/-! ## Sessions are turned into links -/

theorem moveToBgp_loop {β : Type} (skip : List String) (ks : List String) (d bgp : List (String × β)) (hnd : ks.Nodup) :
    let r := ks.foldl (moveAttr skip) (d, bgp)
    ∀ a, (a ∈ ks → a ∉ skip → r.1.lookup a = none ∧ r.2.lookup a = (d.lookup a).or (bgp.lookup a)) ∧
      ((a ∉ ks ∨ a ∈ skip) → r.1.lookup a = d.lookup a ∧ r.2.lookup a = bgp.lookup a) := by
  induction ks generalizing d bgp with
  | nil => intro r a; simp [r]
  | cons k ks ih =>
    intro r a
    obtain ⟨hk, hnd'⟩ := List.nodup_cons.mp hnd
    by_cases hs : k ∈ skip
    · have hr : r = ks.foldl (moveAttr skip) (d, bgp) := by
        simp only [r, List.foldl_cons, moveAttr]
        rw [if_pos (List.contains_iff_mem.mpr hs)]
      have := ih d bgp hnd' a
      rw [← hr] at this
      refine ⟨fun ha hn => ?_, fun h => ?_⟩
      · refine this.1 ?_ hn
        rcases List.mem_cons.mp ha with h | h
        · subst h; exact absurd hs hn
        · exact h
      · refine this.2 ?_
        rcases h with h | h
        · exact .inl fun hh => h (List.mem_cons_of_mem _ hh)
        · exact .inr h
    · cases hl : d.lookup k with
      | none =>
        have hr : r = ks.foldl (moveAttr skip) (d, bgp) := by
          simp only [r, List.foldl_cons, moveAttr]
          rw [if_neg (by simpa using hs), hl]
        have := ih d bgp hnd' a
        rw [← hr] at this
        by_cases hak : a = k
        · subst hak
          have h2 := this.2 (.inl hk)
          refine ⟨fun _ _ => ⟨by rw [h2.1, hl], by rw [h2.2, hl]; rfl⟩, fun h => h2⟩
        · refine ⟨fun ha hn => this.1 (by rcases List.mem_cons.mp ha with h | h; exact absurd h hak; exact h) hn,
            fun h => this.2 ?_⟩
          rcases h with h | h
          · exact .inl fun hh => h (List.mem_cons_of_mem _ hh)
          · exact .inr h
      | some v =>
        have hr : r = ks.foldl (moveAttr skip) (popKey d k, setKey bgp k v) := by
          simp only [r, List.foldl_cons, moveAttr]
          rw [if_neg (by simpa using hs), hl]
        have := ih (popKey d k) (setKey bgp k v) hnd' a
        rw [← hr] at this
        simp only [lookup_popKey, lookup_setKey] at this
        by_cases hak : a = k
        · subst hak
          have h2 := this.2 (.inl hk)
          rw [if_pos rfl, if_pos rfl] at h2
          refine ⟨fun _ _ => ⟨h2.1, by rw [h2.2, hl]; rfl⟩, fun h => ?_⟩
          rcases h with h | h
          · exact absurd (List.mem_cons_self ..) h
          · exact absurd h hs
        · rw [if_neg hak, if_neg hak] at this
          refine ⟨fun ha hn => this.1 (by rcases List.mem_cons.mp ha with h | h; exact absurd h hak; exact h) hn,
            fun h => this.2 ?_⟩
          rcases h with h | h
          · exact .inl fun hh => h (List.mem_cons_of_mem _ hh)
          · exact .inr h

theorem moveToBgp_spec {β : Type} (skip : List String) (d bgp : List (String × β)) (hnd : (d.map (·.1)).Nodup) (a : String) :
    (a ∉ skip → (moveToBgp skip d bgp).1.lookup a = none ∧
      (moveToBgp skip d bgp).2.lookup a = (d.lookup a).or (bgp.lookup a)) ∧
    (a ∈ skip → (moveToBgp skip d bgp).1.lookup a = d.lookup a ∧ (moveToBgp skip d bgp).2.lookup a = bgp.lookup a) := by
  have h := moveToBgp_loop skip (d.map (·.1)) d bgp hnd a
  refine ⟨fun hs => ?_, fun hs => h.2 (.inr hs)⟩
  by_cases ha : a ∈ d.map (·.1)
  · exact h.1 ha hs
  · have hd : d.lookup a = none := by
      rw [lookup_eq_none_iff]
      exact ha
    have h2 := h.2 (.inl ha)
    unfold moveToBgp
    rw [hd] at h2 ⊢
    exact h2

theorem mh_sum_zero {l : List Nat} : l.sum = 0 ↔ ∀ x ∈ l, x = 0 := by
  induction l with
  | nil => simp
  | cons a l ih => simp [ih]

/-- Every session becomes a tunnel link: its attributes (other than `vrf`) are BGP attributes of the link, both ends have
the addresses of the loopback of their node.  Attributes of the session and of its ends have different names. -/
theorem C76_sessions (lo : String → Option (Option String × Option String)) (start : Int) (n : Nat) (ss : List MhSession)
    (hnd : ∀ s ∈ ss, (s.attrs.map (·.1)).Nodup ∧ ∀ e ∈ s.ends, (e.attrs.map (·.1)).Nodup) :
    let r := mhPreLink lo start (setLinkindex start n) ss
    (r.2.2 = 0 ↔ ∀ s ∈ ss, ∀ e ∈ s.ends, lo e.node ≠ none) ∧
    (r.2.2 = 0 → List.Forall₂ (fun s l =>
      l.type = "tunnel" ∧ l.vrf = s.vrf ∧ l.index = start + n ∧
      (∀ a, a ∉ ["interfaces", "_linkname", "bgp", "vrf"] → l.bgp.lookup a = (s.attrs.lookup a).or (s.bgp.lookup a)) ∧
      List.Forall₂ (fun e f =>
        f.node = e.node ∧ f.vrf = e.vrf ∧ lo e.node = some (f.ipv4, f.ipv6) ∧ f.multihop = some 255 ∧ f.fake = true ∧
        (∀ a, a ∉ ["node", "bgp", "vrf"] → f.bgp.lookup a = (e.attrs.lookup a).or (e.bgp.lookup a)))
        s.ends l.ends) ss r.1) := by
  intro r
  have hidx : nextLinkindex start (setLinkindex start n) = start + n := by
    unfold nextLinkindex setLinkindex
    cases n with
    | zero => simp
    | succ k =>
      rw [List.range_succ, List.map_append, List.map_singleton, List.getLast?_concat]
      simp only
      push_cast
      omega
  have herr : r.2.2 = 0 ↔ ∀ s ∈ ss, ∀ e ∈ s.ends, lo e.node ≠ none := by
    simp only [r, mhPreLink, mh_sum_zero, List.map_map, List.mem_map, Function.comp_apply, forall_exists_index, and_imp,
      forall_apply_eq_imp_iff₂, mhLink]
    constructor
    · intro h s hs e he hn
      have := h s hs e he
      simp [mhEnd, hn] at this
    · intro h s hs e he
      have := h s hs e he
      cases hl : lo e.node with
      | none => exact absurd hl this
      | some l => simp [mhEnd, hl]
  refine ⟨herr, fun h0 => ?_⟩
  have h0' := herr.mp h0
  simp only [r, mhPreLink, List.map_map]
  rw [hidx, List.forall₂_map_right_iff, List.forall₂_same]
  intro s hs
  refine ⟨rfl, rfl, rfl, fun a ha => ((moveToBgp_spec _ s.attrs s.bgp (hnd s hs).1 a).1 ha).2, ?_⟩
  simp only [Function.comp_apply, mhLink, List.map_map]
  rw [List.forall₂_map_right_iff, List.forall₂_same]
  intro e he
  have hm := fun a ha => ((moveToBgp_spec ["node", "bgp", "vrf"] e.attrs e.bgp ((hnd s hs).2 e he) a).1 ha).2
  cases hl : lo e.node with
  | none => exact absurd hl (h0' s hs e he)
  | some l =>
    simp only [Function.comp_apply, mhEnd, hl]
    exact ⟨trivial, trivial, trivial, trivial, trivial, hm⟩

/-- **Defect.** All sessions get the same link index, so the position of a link added later (for example, of a VLAN link) is
not related to its index: `topology.links[linkindex-1]` (`netsim/modules/vlan.py:1055`) is another link when there are at
least two sessions. -/
theorem C76_later_links_not_found (lo : String → Option (Option String × Option String)) (n : Nat) (ss : List MhSession)
    (h2 : 2 ≤ ss.length) :
    let all := (mhPreLink lo 1 (setLinkindex 1 n) ss).2.1
    let new := nextLinkindex 1 all
    new = n + 2 ∧ (all ++ [new])[(new - 1).toNat]? = some (n + 1 : Int) := by
  intro all new
  have hidx : nextLinkindex 1 (setLinkindex 1 n) = 1 + n := by
    unfold nextLinkindex setLinkindex
    cases n with
    | zero => simp
    | succ k =>
      rw [List.range_succ, List.map_append, List.map_singleton, List.getLast?_concat]
      simp only
      push_cast
      omega
  have hall : all = setLinkindex 1 n ++ List.replicate ss.length (1 + n : Int) := by
    simp only [all, mhPreLink, hidx, List.map_map]
    congr 1
    rw [List.eq_replicate_iff]
    refine ⟨by simp, ?_⟩
    intro b hb
    obtain ⟨s, _, rfl⟩ := List.mem_map.mp hb
    rfl
  have hlen : (setLinkindex 1 n).length = n := by simp [setLinkindex]
  have hnew : new = n + 2 := by
    simp only [new, nextLinkindex, hall]
    rw [List.getLast?_append, List.getLast?_replicate, if_neg (by omega)]
    simp only [Option.some_or]
    omega
  refine ⟨hnew, ?_⟩
  have ht : (new - 1).toNat = n + 1 := by omega
  rw [ht, hall, List.append_assoc, List.getElem?_append_right (by omega), hlen,
    List.getElem?_append_left (by simp; omega), List.getElem?_replicate, if_pos (by omega)]
  congr 1
  omega

example : (mhPreLink (fun _ => some (some "10.0.0.1/32", none)) 1 [1, 2]
    [{ attrs := [("timers", "x")], ends := [{ node := "a", vrf := some "red" }, { node := "b" }] }, {}]).2 =
    ([1, 2, 3, 3], 0) := by
  decide +kernel

/-! ## Loopbacks -/

theorem vrfLoopback_iff (n : MhNode) (v : String) (i : MhIf) : vrfLoopback n v = some i ↔ LoopbackOf n v i := by
  unfold vrfLoopback LoopbackOf
  rw [List.find?_eq_some_iff_append]
  constructor
  · rintro ⟨h1, as, bs, h2, h3⟩
    simp only [Bool.and_eq_true, beq_iff_eq] at h1
    refine ⟨as, bs, h2, h1.1, h1.2, fun j hj hh => ?_⟩
    have := h3 j hj
    simp [hh.1, hh.2] at this
  · rintro ⟨as, bs, h2, h1, h1', h3⟩
    refine ⟨by simp [h1, h1'], as, bs, h2, fun j hj => ?_⟩
    have := h3 j hj
    by_cases ht : j.type = "loopback"
    · have hv : ¬ j.vrf = some v := fun hv => this ⟨ht, hv⟩
      simp [hv]
    · simp [ht]

theorem vrfLoopback_real (l : List MhIf) (v : String) (h : ∀ i ∈ l, i.fake = true → i.type ≠ "loopback") :
    (mhReal l).find? (fun i => i.type == "loopback" && i.vrf == some v) =
      l.find? (fun i => i.type == "loopback" && i.vrf == some v) := by
  induction l with
  | nil => rfl
  | cons a l ih =>
    have ih' := ih fun i hi => h i (List.mem_cons_of_mem _ hi)
    unfold mhReal at ih' ⊢
    cases hf : a.fake with
    | false =>
      rw [List.filter_cons_of_pos (by simp [hf]), List.find?_cons, List.find?_cons, ih']
    | true =>
      rw [List.filter_cons_of_neg (by simp [hf]), List.find?_cons, ih']
      have := h a (List.mem_cons_self ..) hf
      have hb : (a.type == "loopback" && a.vrf == some v) = false := by simp [this]
      rw [hb]

/-! ## The loop over nodes -/

/-- What a node must keep for other nodes -/
def mhSame (n m : MhNode) : Prop := m.name = n.name ∧ ∀ v, vrfLoopback m v = vrfLoopback n v

theorem mhFixNode_fields (ip : String → String) (topo : String → Option MhNode) (n : MhNode) :
    (mhFixNode ip topo n).1.name = n.name ∧ (mhFixNode ip topo n).1.ifs = n.ifs := ⟨rfl, rfl⟩

theorem mhCleanup_fields (valid : List String × List String) (glob : Option (List String × List String)) (n : MhNode) :
    (mhCleanup valid glob n).1.name = n.name ∧ (mhCleanup valid glob n).1.ifs = mhReal n.ifs ∧
    (mhCleanup valid glob n).1.loopback = n.loopback := by
  unfold mhCleanup
  simp only
  split
  · exact ⟨rfl, rfl, rfl⟩
  · split <;> exact ⟨rfl, rfl, rfl⟩

theorem mhNode_same (ip : String → String) (valid : List String × List String) (glob : Option (List String × List String))
    (topo : String → Option MhNode) (n : MhNode) (h : ∀ i ∈ n.ifs, i.fake = true → i.type ≠ "loopback") :
    mhSame n (mhNode ip valid glob topo n).1 := by
  have h1 := mhCleanup_fields valid glob (mhFixNode ip topo n).1
  refine ⟨h1.1, fun v => ?_⟩
  unfold vrfLoopback
  have : (mhNode ip valid glob topo n).1.ifs = mhReal n.ifs := h1.2.1
  rw [this]
  exact vrfLoopback_real n.ifs v h

theorem mhFix_topo (ip : String → String) (t1 t2 : String → Option MhNode) (n : MhNode) (g : MhNgb)
    (h : ∀ x v, (t1 x).bind (fun m => vrfLoopback m v) = (t2 x).bind (fun m => vrfLoopback m v)) :
    mhFix ip t1 n g = mhFix ip t2 n g := by
  unfold mhFix
  simp only [h]

theorem mhNode_topo (ip : String → String) (valid : List String × List String) (glob : Option (List String × List String))
    (t1 t2 : String → Option MhNode) (n : MhNode)
    (h : ∀ x v, (t1 x).bind (fun m => vrfLoopback m v) = (t2 x).bind (fun m => vrfLoopback m v)) :
    mhNode ip valid glob t1 n = mhNode ip valid glob t2 n := by
  have h1 : mhFixGlob ip t1 n = mhFixGlob ip t2 n := by
    funext g; unfold mhFixGlob; rw [mhFix_topo ip t1 t2 n _ h]
  have h2 : mhFixVrf ip t1 n = mhFixVrf ip t2 n := by
    funext v g; unfold mhFixVrf; rw [mhFix_topo ip t1 t2 n _ h]
  unfold mhNode mhFixNode
  rw [h1, h2]

theorem mhFind_same (a b r : List MhNode) (h : List.Forall₂ mhSame a b) (x v : String) :
    (mhFind (b ++ r) x).bind (fun m => vrfLoopback m v) = (mhFind (a ++ r) x).bind (fun m => vrfLoopback m v) := by
  induction h with
  | nil => rfl
  | @cons n m a b hnm _ ih =>
    unfold mhFind at ih ⊢
    rw [List.cons_append, List.cons_append, List.find?_cons, List.find?_cons, hnm.1]
    by_cases hx : n.name == x
    · rw [hx]
      exact hnm.2 v
    · simp only [hx]
      exact ih

theorem mhLoop_map (ip : String → String) (valid : List String × List String) (glob : Option (List String × List String))
    (todo : List MhNode) :
    ∀ (orig done : List MhNode), List.Forall₂ mhSame orig done →
      (∀ n ∈ todo, ∀ i ∈ n.ifs, i.fake = true → i.type ≠ "loopback") →
      mhLoop ip valid glob done todo =
        (done ++ todo.map (fun n => (mhNode ip valid glob (mhFind (orig ++ todo)) n).1),
         (todo.map (fun n => (mhNode ip valid glob (mhFind (orig ++ todo)) n).2)).sum) := by
  induction todo with
  | nil => intro orig done _ _; simp [mhLoop]
  | cons n todo ih =>
    intro orig done hs hf
    have hn : mhNode ip valid glob (mhFind (done ++ n :: todo)) n = mhNode ip valid glob (mhFind (orig ++ n :: todo)) n :=
      mhNode_topo ip valid glob _ _ n fun x v => mhFind_same orig done (n :: todo) hs x v
    unfold mhLoop
    simp only
    rw [hn]
    have hs' : List.Forall₂ mhSame (orig ++ [n]) (done ++ [(mhNode ip valid glob (mhFind (orig ++ n :: todo)) n).1]) :=
      List.rel_append hs (.cons (mhNode_same ip valid glob _ n (hf n (List.mem_cons_self ..))) .nil)
    rw [ih _ _ hs' fun m hm => hf m (List.mem_cons_of_mem _ hm)]
    simp

/-- The order of the nodes does not matter: every node is processed as if it were the first one. -/
theorem mhPost_map (ip : String → String) (valid : List String × List String) (glob : Option (List String × List String))
    (t : List MhNode) (hf : ∀ n ∈ t, ∀ i ∈ n.ifs, i.fake = true → i.type ≠ "loopback") :
    mhPost ip valid glob t =
      (t.map (fun n => (mhNode ip valid glob (mhFind t) n).1), (t.map (fun n => (mhNode ip valid glob (mhFind t) n).2)).sum) := by
  have := mhLoop_map ip valid glob t [] [] .nil hf
  simpa [mhPost] using this

/-! ## Neighbors -/

theorem mhFind_iff (t : List MhNode) (hn : (t.map (·.name)).Nodup) (x : String) (m : MhNode) :
    mhFind t x = some m ↔ m ∈ t ∧ m.name = x := by
  unfold mhFind
  constructor
  · intro h
    exact ⟨List.mem_of_find?_eq_some h, by simpa using List.find?_some h⟩
  · rintro ⟨h1, h2⟩
    cases hc : t.find? (fun n => n.name == x) with
    | none =>
      have := List.find?_eq_none.mp hc m h1
      simp [h2] at this
    | some k =>
      have hk := List.mem_of_find?_eq_some hc
      have hk2 : k.name = x := by simpa using List.find?_some hc
      rw [eq_of_map_nodup (f := (·.name)) hn hk h1 (by rw [hk2, h2])]

theorem remote_iff (t : List MhNode) (hn : (t.map (·.name)).Nodup) (g : MhNgb) (v : String) (hv : g.vrf = some v) (l : MhIf) :
    (mhFind t g.name).bind (fun m => vrfLoopback m v) = some l ↔ RemoteLoopback t g l := by
  rw [Option.bind_eq_some_iff]
  constructor
  · rintro ⟨m, h1, h2⟩
    obtain ⟨h3, h4⟩ := (mhFind_iff t hn _ _).mp h1
    exact ⟨v, m, hv, h3, h4, (vrfLoopback_iff _ _ _).mp h2⟩
  · rintro ⟨w, m, hw, h3, h4, h5⟩
    rw [hv] at hw
    cases hw
    exact ⟨m, (mhFind_iff t hn _ _).mpr ⟨h3, h4⟩, (vrfLoopback_iff _ _ _).mpr h5⟩

theorem multihop_iff (g : MhNgb) (hs : mhSelected g = true) : MultihopSession g ↔ g.multihop.getD 0 ≠ 0 := by
  have he : EbgpLike g := by simpa [mhSelected, EbgpLike] using hs
  constructor
  · rintro ⟨_, h, hh, h0⟩
    rw [hh]; exact h0
  · intro h
    cases hm : g.multihop with
    | none => rw [hm] at h; exact absurd rfl h
    | some k => rw [hm] at h; exact ⟨he, k, hm, h⟩

theorem ebgpLike_iff (g : MhNgb) : mhSelected g = true ↔ EbgpLike g := by simp [mhSelected, EbgpLike]

theorem mhSource_spec (n : MhNode) (h : MhNgb) :
    (∃ c, (mhSource n h).1 = { h with source := c }) ∧
    ((mhSource n h).2 = 0 ↔ ∀ v, h.srcVrf = some v → n.suppVrf = true ∧ ∃ l, LoopbackOf n v l) ∧
    ((mhSource n h).2 = 0 → (h.srcVrf = none → (mhSource n h).1.source = n.loopback) ∧
      (∀ v, h.srcVrf = some v → ∃ l, LoopbackOf n v l ∧ (mhSource n h).1.source = some l)) := by
  obtain ⟨nm, ty, mh, vr, sv, i4, i6, ac, fl, so⟩ := h
  cases sv with
  | none =>
    exact ⟨⟨n.loopback, rfl⟩, ⟨fun _ v hh => (nomatch hh), fun _ => rfl⟩, fun _ => ⟨fun _ => rfl, fun v hh => (nomatch hh)⟩⟩
  | some v =>
    unfold mhSource
    cases hsv : n.suppVrf with
    | false =>
      exact ⟨⟨so, rfl⟩, ⟨fun hh => (nomatch hh), fun hh => (nomatch (hh v rfl).1)⟩, fun hh => (nomatch hh)⟩
    | true =>
      cases hl : vrfLoopback n v with
      | none =>
        refine ⟨⟨so, by simp [hl]⟩, ⟨fun hh => ?_, fun hh => ?_⟩, fun hh => ?_⟩
        · simp [hl] at hh
        · obtain ⟨l, hl'⟩ := (hh v rfl).2
          rw [(vrfLoopback_iff n v l).mpr hl'] at hl
          cases hl
        · simp [hl] at hh
      | some l =>
        refine ⟨⟨some l, by simp [hl]⟩, ⟨fun _ w hw => ⟨rfl, ?_⟩, fun _ => by simp [hl]⟩, fun _ => ⟨fun hh => (nomatch hh), fun w hw => ?_⟩⟩
        · cases hw; exact ⟨l, (vrfLoopback_iff n v l).mp hl⟩
        · cases hw; exact ⟨l, (vrfLoopback_iff n v l).mp hl, by simp [hl]⟩

theorem mhFix_spec (ip : String → String) (t : List MhNode) (hn : (t.map (·.name)).Nodup) (n : MhNode) (g : MhNgb)
    (hs : mhSelected g = true) :
    let r := mhFix ip (mhFind t) n g
    (∃ a b c, r.1 = { g with ipv4 := a, ipv6 := b, source := c }) ∧
    (∀ l, MultihopSession g → RemoteLoopback t g l → r.1.ipv4 = l.ipv4.map ip ∧ r.1.ipv6 = l.ipv6.map ip) ∧
    ((¬ MultihopSession g ∨ ∀ l, ¬ RemoteLoopback t g l) → r.1.ipv4 = g.ipv4 ∧ r.1.ipv6 = g.ipv6) ∧
    (r.2 = 0 ↔ (MultihopSession g → (g.vrf = none ∨ ∃ l, RemoteLoopback t g l) →
      ∀ v, g.srcVrf = some v → n.suppVrf = true ∧ ∃ l, LoopbackOf n v l)) ∧
    (r.2 = 0 → MultihopSession g → (g.vrf = none ∨ ∃ l, RemoteLoopback t g l) →
      (g.srcVrf = none → r.1.source = n.loopback) ∧
      (∀ v, g.srcVrf = some v → ∃ l, LoopbackOf n v l ∧ r.1.source = some l)) ∧
    (¬ (MultihopSession g ∧ (g.vrf = none ∨ ∃ l, RemoteLoopback t g l)) → r.1.source = g.source) := by
  intro r
  by_cases h0 : g.multihop.getD 0 = 0
  · have hr : r = (g, 0) := by simp only [r, mhFix]; rw [if_pos h0]
    have hm : ¬ MultihopSession g := fun h => (multihop_iff g hs).mp h h0
    rw [hr]
    exact ⟨⟨g.ipv4, g.ipv6, g.source, rfl⟩, fun l h => absurd h hm, fun _ => ⟨rfl, rfl⟩,
      ⟨fun _ h => absurd h hm, fun _ => rfl⟩, fun _ h => absurd h hm, fun _ => rfl⟩
  · have hm : MultihopSession g := (multihop_iff g hs).mpr h0
    have hcase : g.vrf = none ∨ ∃ v, g.vrf = some v := by cases g.vrf <;> simp
    rcases hcase with hv | ⟨v, hv⟩
    · have hr : r = mhSource n g := by simp only [r, mhFix]; rw [if_neg h0, hv]
      obtain ⟨⟨c, q1⟩, q2, q3⟩ := mhSource_spec n g
      rw [← hr] at q1 q2 q3
      have hrem : ∀ l, ¬ RemoteLoopback t g l := by
        rintro l ⟨v, m, hv', _⟩
        rw [hv] at hv'
        cases hv'
      exact ⟨⟨g.ipv4, g.ipv6, c, q1⟩, fun l _ h => absurd h (hrem l), fun _ => by rw [q1]; exact ⟨rfl, rfl⟩,
        ⟨fun h _ _ => q2.mp h, fun h => q2.mpr (h hm (.inl hv))⟩, fun h _ _ => q3 h, fun h => absurd ⟨hm, .inl hv⟩ h⟩
    · cases hl : (mhFind t g.name).bind (fun m => vrfLoopback m v) with
      | none =>
        have hr : r = (g, 0) := by simp only [r, mhFix]; rw [if_neg h0, hv]; simp only [hl]
        have hrem : ∀ l, ¬ RemoteLoopback t g l := by
          intro l h
          rw [(remote_iff t hn g v hv l).mpr h] at hl
          cases hl
        have hno : ¬ (g.vrf = none ∨ ∃ l, RemoteLoopback t g l) := by
          rintro (h | ⟨l, h⟩)
          · rw [hv] at h; cases h
          · exact hrem l h
        rw [hr]
        exact ⟨⟨g.ipv4, g.ipv6, g.source, rfl⟩, fun l _ h => absurd h (hrem l), fun _ => ⟨rfl, rfl⟩,
          ⟨fun _ _ h => absurd h hno, fun _ => rfl⟩, fun _ _ h => absurd h hno, fun h => rfl⟩
      | some l =>
        have hr : r = mhSource n { g with ipv4 := l.ipv4.map ip, ipv6 := l.ipv6.map ip } := by
          simp only [r, mhFix]; rw [if_neg h0]
          split
          · rename_i h; rw [hv] at h; cases h
          · rename_i w h
            rw [hv] at h
            cases h
            simp only [hl]
        have hrem : RemoteLoopback t g l := (remote_iff t hn g v hv l).mp hl
        obtain ⟨⟨c, q1⟩, q2, q3⟩ := mhSource_spec n { g with ipv4 := l.ipv4.map ip, ipv6 := l.ipv6.map ip }
        rw [← hr] at q1 q2 q3
        refine ⟨⟨_, _, c, q1⟩, fun l' _ h => ?_, fun h => ?_,
          ⟨fun h _ _ => q2.mp h, fun h => q2.mpr (h hm (.inr ⟨l, hrem⟩))⟩, fun h _ _ => q3 h,
          fun h => absurd ⟨hm, .inr ⟨l, hrem⟩⟩ h⟩
        · have := (remote_iff t hn g v hv l').mpr h
          rw [hl] at this
          cases this
          rw [q1]
          exact ⟨rfl, rfl⟩
        · rcases h with h | h
          · exact absurd hm h
          · exact absurd hrem (h l)

/-! ## Address families -/

theorem mhActivateAf_spec (valid set : List String) (g : MhNgb) :
    ∃ A F, mhActivateAf valid set g = { g with activate := A, flags := F } ∧
      ∀ a, (a = "ipv4" ∨ a = "ipv6" →
          A.lookup a = (if a ∈ valid then (if a ∈ set then some "True" else none) else g.activate.lookup a) ∧
          F.lookup a = g.flags.lookup a) ∧
        (a ≠ "ipv4" → a ≠ "ipv6" →
          F.lookup a = (if a ∈ valid then (if a ∈ set then some "True" else none) else g.flags.lookup a) ∧
          A.lookup a = g.activate.lookup a) := by
  unfold mhActivateAf
  induction valid generalizing g with
  | nil => exact ⟨g.activate, g.flags, rfl, fun a => ⟨fun _ => by simp, fun _ _ => by simp⟩⟩
  | cons b valid ih =>
    rw [List.foldl_cons]
    by_cases hb : b = "ipv4" ∨ b = "ipv6"
    · rw [if_pos (by simpa using hb)]
      obtain ⟨A, F, h1, h2⟩ := ih
        { g with activate := if set.contains b then setKey g.activate b "True" else popKey g.activate b }
      refine ⟨A, F, h1, fun a => ⟨fun ha => ?_, fun h4 h6 => ?_⟩⟩
      · obtain ⟨p, q⟩ := (h2 a).1 ha
        refine ⟨?_, q⟩
        rw [p]
        by_cases hav : a ∈ valid
        · simp [hav]
        · rw [if_neg hav]
          simp only
          by_cases hbs : b ∈ set
          · rw [if_pos (by simpa using hbs), lookup_setKey]
            by_cases hab : a = b
            · subst hab; simp [hbs]
            · simp [hab, hav]
          · rw [if_neg (by simpa using hbs), lookup_popKey]
            by_cases hab : a = b
            · subst hab; simp [hbs]
            · simp [hab, hav]
      · obtain ⟨p, q⟩ := (h2 a).2 h4 h6
        have hab : a ≠ b := by
          rintro rfl
          rcases hb with h | h
          · exact h4 h
          · exact h6 h
        refine ⟨by rw [p]; simp [hab], ?_⟩
        rw [q]
        simp only
        by_cases hbs : b ∈ set
        · rw [if_pos (by simpa using hbs), lookup_setKey, if_neg hab]
        · rw [if_neg (by simpa using hbs), lookup_popKey, if_neg hab]
    · rw [if_neg (by simpa using hb)]
      obtain ⟨A, F, h1, h2⟩ := ih
        { g with flags := if set.contains b then setKey g.flags b "True" else popKey g.flags b }
      refine ⟨A, F, h1, fun a => ⟨fun ha => ?_, fun h4 h6 => ?_⟩⟩
      · obtain ⟨p, q⟩ := (h2 a).1 ha
        have hab : a ≠ b := by
          rintro rfl
          exact hb ha
        refine ⟨by rw [p]; simp [hab], ?_⟩
        rw [q]
        simp only
        by_cases hbs : b ∈ set
        · rw [if_pos (by simpa using hbs), lookup_setKey, if_neg hab]
        · rw [if_neg (by simpa using hbs), lookup_popKey, if_neg hab]
      · obtain ⟨p, q⟩ := (h2 a).2 h4 h6
        refine ⟨?_, q⟩
        rw [p]
        by_cases hav : a ∈ valid
        · simp [hav]
        · rw [if_neg hav]
          simp only
          by_cases hbs : b ∈ set
          · rw [if_pos (by simpa using hbs), lookup_setKey]
            by_cases hab : a = b
            · subst hab; simp [hbs]
            · simp [hab, hav]
          · rw [if_neg (by simpa using hbs), lookup_popKey]
            by_cases hab : a = b
            · subst hab; simp [hbs]
            · simp [hab, hav]

theorem mhActivate_spec (valid set : List String × List String) (g : MhNgb) :
    ∃ A F, mhActivate valid set g = { g with activate := A, flags := F } ∧
      (EbgpLike g → g.multihop ≠ none → ∀ a,
        (a = "ipv4" ∨ a = "ipv6" →
          A.lookup a = AfValue valid set g.ipv4.isSome g.ipv6.isSome a (g.activate.lookup a) ∧
          F.lookup a = g.flags.lookup a) ∧
        (a ≠ "ipv4" → a ≠ "ipv6" →
          F.lookup a = AfValue valid set g.ipv4.isSome g.ipv6.isSome a (g.flags.lookup a) ∧
          A.lookup a = g.activate.lookup a)) ∧
      ((¬ EbgpLike g ∨ g.multihop = none) → A = g.activate ∧ F = g.flags) := by
  unfold mhActivate
  by_cases hs : mhSelected g = true
  · by_cases hm : g.multihop = none
    · rw [if_neg (by simp [hm])]
      exact ⟨g.activate, g.flags, rfl, fun _ h => absurd hm h, fun _ => ⟨rfl, rfl⟩⟩
    · have hc : (mhSelected g && g.multihop.isSome) = true := by
        cases h : g.multihop with
        | none => exact absurd h hm
        | some k => simp [hs]
      rw [if_pos hc]
      simp only
      have he := (ebgpLike_iff g).mp hs
      -- first step
      obtain ⟨A1, F1, e1, p1⟩ : ∃ A F, (if g.ipv4.isSome then mhActivateAf valid.1 set.1 g else g) = { g with activate := A, flags := F } ∧
          ∀ a, (a = "ipv4" ∨ a = "ipv6" →
            A.lookup a = (if g.ipv4.isSome = true ∧ a ∈ valid.1 then (if a ∈ set.1 then some "True" else none) else g.activate.lookup a) ∧
            F.lookup a = g.flags.lookup a) ∧
          (a ≠ "ipv4" → a ≠ "ipv6" →
            F.lookup a = (if g.ipv4.isSome = true ∧ a ∈ valid.1 then (if a ∈ set.1 then some "True" else none) else g.flags.lookup a) ∧
            A.lookup a = g.activate.lookup a) := by
        by_cases h4 : g.ipv4.isSome = true
        · obtain ⟨A, F, e, p⟩ := mhActivateAf_spec valid.1 set.1 g
          rw [if_pos h4]
          exact ⟨A, F, e, fun a => by simpa [h4] using p a⟩
        · rw [if_neg h4]
          exact ⟨g.activate, g.flags, rfl, fun a => by simp [h4]⟩
      rw [e1]
      simp only
      by_cases h6 : g.ipv6.isSome = true
      · obtain ⟨A, F, e, p⟩ := mhActivateAf_spec valid.2 set.2 { g with activate := A1, flags := F1 }
        rw [if_pos h6]
        refine ⟨A, F, e, fun _ _ a => ?_, fun h => ?_⟩
        · refine ⟨fun ha => ?_, fun ha hb => ?_⟩
          · obtain ⟨q1, q2⟩ := (p a).1 ha
            obtain ⟨r1, r2⟩ := (p1 a).1 ha
            refine ⟨?_, by rw [q2]; exact r2⟩
            rw [q1]
            simp only [r1, AfValue, h6, true_and]
          · obtain ⟨q1, q2⟩ := (p a).2 ha hb
            obtain ⟨r1, r2⟩ := (p1 a).2 ha hb
            refine ⟨?_, by rw [q2]; exact r2⟩
            rw [q1]
            simp only [r1, AfValue, h6, true_and]
        · rcases h with h | h
          · exact absurd he h
          · exact absurd h hm
      · rw [if_neg h6]
        refine ⟨A1, F1, rfl, fun _ _ a => ?_, fun h => ?_⟩
        · refine ⟨fun ha => ?_, fun ha hb => ?_⟩
          · obtain ⟨r1, r2⟩ := (p1 a).1 ha
            refine ⟨?_, r2⟩
            rw [r1]
            simp only [AfValue, h6, Bool.false_eq_true, false_and, if_false]
          · obtain ⟨r1, r2⟩ := (p1 a).2 ha hb
            refine ⟨?_, r2⟩
            rw [r1]
            simp only [AfValue, h6, Bool.false_eq_true, false_and, if_false]
        · rcases h with h | h
          · exact absurd he h
          · exact absurd h hm
  · rw [if_neg (by simp [hs])]
    exact ⟨g.activate, g.flags, rfl, fun h => absurd ((ebgpLike_iff g).mpr h) hs, fun _ => ⟨rfl, rfl⟩⟩

/-! ## Nodes -/

theorem mhReal_length (l : List MhIf) : ((mhReal l).length != l.length) = true ↔ ∃ i ∈ l, i.fake = true := by
  unfold mhReal
  rw [bne_iff_ne]
  constructor
  · intro h
    apply Classical.byContradiction
    intro hn
    apply h
    rw [List.filter_eq_self.mpr]
    intro i hi
    cases hf : i.fake with
    | false => rfl
    | true => exact absurd ⟨i, hi, hf⟩ hn
  · rintro ⟨i, hi, hf⟩ h
    have := List.length_filter_eq_length_iff.mp h i hi
    simp [hf] at this

theorem mhReal_eq (l : List MhIf) : mhReal l = RealInterfaces l := by
  unfold mhReal RealInterfaces
  congr 1
  funext i
  cases i.fake <;> rfl

/-- Is there anything to remove? -/
def mhChanged (n : MhNode) : Bool :=
  (mhReal n.ifs).length != n.ifs.length || n.vrfs.any (fun v => v.2.ospf.any (fun l => (mhReal l).length != l.length))

theorem mhChanged_iff (n : MhNode) : mhChanged n = true ↔ HasSessions n := by
  unfold mhChanged HasSessions
  rw [Bool.or_eq_true, mhReal_length, List.any_eq_true]
  have : ∀ v : String × MhVrf, (v.2.ospf.any (fun l => (mhReal l).length != l.length)) = true ↔
      ∃ l, v.2.ospf = some l ∧ ∃ i ∈ l, i.fake = true := by
    intro v
    cases v.2.ospf with
    | none => simp
    | some l => rw [Option.any_some, mhReal_length]; simp
  simp only [this]

/-- Change of address families of a neighbor -/
def mhAct (valid : List String × List String) (glob : Option (List String × List String)) (n : MhNode) (g : MhNgb) : MhNgb :=
  if mhChanged n then (match n.activate.or glob with | none => g | some s => mhActivate valid s g) else g

theorem mhNode_eq (ip : String → String) (valid : List String × List String) (glob : Option (List String × List String))
    (topo : String → Option MhNode) (n : MhNode) :
    let r := (mhNode ip valid glob topo n).1
    r.name = n.name ∧ r.loopback = n.loopback ∧ r.ifs = mhReal n.ifs ∧
    r.ngbs = n.ngbs.map (fun g => mhAct valid glob n (mhFixGlob ip topo n g).1) ∧
    r.vrfs = n.vrfs.map (fun v => (v.1, { ngbs := v.2.ngbs.map (fun g => mhAct valid glob n (mhFixVrf ip topo n v.1 g).1)
                                          ospf := v.2.ospf.map mhReal })) ∧
    r.config = (if mhChanged n && !n.config.contains "ebgp.multihop" then n.config ++ ["ebgp.multihop"] else n.config) ∧
    (mhNode ip valid glob topo n).2 =
      (n.ngbs.map (fun g => (mhFixGlob ip topo n g).2)).sum +
      (n.vrfs.map (fun v => (v.2.ngbs.map (fun g => (mhFixVrf ip topo n v.1 g).2)).sum)).sum +
      (if mhChanged n then (if n.supp then 0 else 1) +
        (if (n.activate.or glob).isSome then (if n.suppAf then 0 else 1) else 0) else 0) := by
  have hch : mhChanged (mhFixNode ip topo n).1 = mhChanged n := by
    unfold mhChanged mhFixNode
    simp only [List.map_map, List.any_map]
    rfl
  have hch' : ((mhReal (mhFixNode ip topo n).1.ifs).length != (mhFixNode ip topo n).1.ifs.length ||
      (mhFixNode ip topo n).1.vrfs.any (fun v => v.2.ospf.any (fun l => (mhReal l).length != l.length))) = mhChanged n := hch
  have hact : (mhFixNode ip topo n).1.activate = n.activate := rfl
  have hsupp : (mhFixNode ip topo n).1.supp = n.supp := rfl
  have hsuppaf : (mhFixNode ip topo n).1.suppAf = n.suppAf := rfl
  have hcfg : (mhFixNode ip topo n).1.config = n.config := rfl
  have herr : (mhFixNode ip topo n).2 = (n.ngbs.map (fun g => (mhFixGlob ip topo n g).2)).sum +
      (n.vrfs.map (fun v => (v.2.ngbs.map (fun g => (mhFixVrf ip topo n v.1 g).2)).sum)).sum := by
    simp only [mhFixNode, List.map_map, Function.comp_def]
  intro r
  simp only [r, mhNode, mhCleanup, hch', hact, hsupp, hsuppaf, hcfg, herr]
  cases hc : mhChanged n with
  | false =>
    simp only [Bool.not_false, if_true, mhAct, hc, Bool.false_eq_true, if_false, mhFixNode, List.map_map, Function.comp_def, Bool.false_and]
    refine ⟨trivial, trivial, trivial, trivial, trivial, trivial, trivial⟩
  | true =>
    simp only [Bool.not_true, Bool.false_eq_true, if_false, if_true, Bool.true_and, mhAct, hc]
    cases n.activate.or glob with
    | none =>
      simp only [mhFixNode, List.map_map, Function.comp_def, Option.isSome_none, Bool.false_eq_true, if_false]
      refine ⟨trivial, trivial, trivial, trivial, trivial, ?_, rfl⟩
      cases n.config.contains "ebgp.multihop" <;> rfl
    | some s =>
      simp only [mhFixNode, List.map_map, Function.comp_def, Option.isSome_some, if_true]
      refine ⟨trivial, trivial, trivial, trivial, trivial, ?_, ?_⟩
      · cases n.config.contains "ebgp.multihop" <;> rfl
      · trivial

theorem ngbAfter_of (ip : String → String) (valid : List String × List String) (glob : Option (List String × List String))
    (t : List MhNode) (hn : (t.map (·.name)).Nodup) (n : MhNode) (src : Option String) (g : MhNgb) (x : MhNgb × Nat)
    (hx : x = if mhSelected g then mhFix ip (mhFind t) n { g with srcVrf := src } else (g, 0)) (h0 : x.2 = 0) :
    NgbAfter ip valid glob t n src g (mhAct valid glob n x.1) := by
  -- addresses and source
  have key : (∃ a b c d, x.1 = { g with srcVrf := d, ipv4 := a, ipv6 := b, source := c }) ∧
      (∀ l, MultihopSession g → RemoteLoopback t g l → x.1.ipv4 = l.ipv4.map ip ∧ x.1.ipv6 = l.ipv6.map ip) ∧
      ((¬ MultihopSession g ∨ ∀ l, ¬ RemoteLoopback t g l) → x.1.ipv4 = g.ipv4 ∧ x.1.ipv6 = g.ipv6) ∧
      (MultihopSession g → (g.vrf = none ∨ ∃ l, RemoteLoopback t g l) →
        (src = none → x.1.source = n.loopback) ∧ (∀ v, src = some v → ∃ l, LoopbackOf n v l ∧ x.1.source = some l)) ∧
      (¬ (MultihopSession g ∧ (g.vrf = none ∨ ∃ l, RemoteLoopback t g l)) → x.1.source = g.source) := by
    by_cases hs : mhSelected g = true
    · rw [if_pos hs] at hx
      obtain ⟨⟨a, b, c, k1⟩, k2, k3, _, k5, k6⟩ := mhFix_spec ip t hn n { g with srcVrf := src } hs
      rw [← hx] at k1 k2 k3 k5 k6
      exact ⟨⟨a, b, c, src, k1⟩, k2, k3, k5 h0, k6⟩
    · rw [if_neg hs] at hx
      have hm : ¬ MultihopSession g := fun h => hs ((ebgpLike_iff g).mpr h.1)
      rw [hx]
      exact ⟨⟨g.ipv4, g.ipv6, g.source, g.srcVrf, rfl⟩, fun l h => absurd h hm, fun _ => ⟨rfl, rfl⟩, fun h => absurd h hm, fun _ => rfl⟩
  obtain ⟨⟨a, b, c, d, k1⟩, k2, k3, k5, k6⟩ := key
  -- address families
  have hact : ∃ A F, mhAct valid glob n x.1 = { x.1 with activate := A, flags := F } ∧
      (∀ s, HasSessions n → EbgpLike g → g.multihop ≠ none →
        (n.activate = some s ∨ n.activate = none ∧ glob = some s) →
        ∀ a, (a = "ipv4" ∨ a = "ipv6" →
            A.lookup a = AfValue valid s x.1.ipv4.isSome x.1.ipv6.isSome a (g.activate.lookup a) ∧
            F.lookup a = g.flags.lookup a) ∧
          (a ≠ "ipv4" → a ≠ "ipv6" →
            F.lookup a = AfValue valid s x.1.ipv4.isSome x.1.ipv6.isSome a (g.flags.lookup a) ∧
            A.lookup a = g.activate.lookup a)) ∧
      ((¬ HasSessions n ∨ ¬ EbgpLike g ∨ g.multihop = none ∨ (n.activate = none ∧ glob = none)) →
        A = g.activate ∧ F = g.flags) := by
    have hxa : x.1.activate = g.activate := by rw [k1]
    have hxf : x.1.flags = g.flags := by rw [k1]
    have hxt : EbgpLike x.1 ↔ EbgpLike g := by rw [k1]; exact Iff.rfl
    have hxm : x.1.multihop = g.multihop := by rw [k1]
    unfold mhAct
    by_cases hc : mhChanged n = true
    · rw [if_pos hc]
      have hS := (mhChanged_iff n).mp hc
      cases hor : n.activate.or glob with
      | none =>
        have h2 : n.activate = none ∧ glob = none := by
          cases ha : n.activate with
          | none => rw [ha] at hor; exact ⟨rfl, by simpa using hor⟩
          | some s => rw [ha] at hor; simp at hor
        refine ⟨x.1.activate, x.1.flags, rfl, fun s _ _ _ h => ?_, fun _ => ⟨hxa, hxf⟩⟩
        rw [h2.1, h2.2] at h
        simp at h
      | some s =>
        simp only
        obtain ⟨A, F, e, p, q⟩ := mhActivate_spec valid s x.1
        refine ⟨A, F, e, fun s' _ h1 h2 h3 => ?_, fun h => ?_⟩
        · have hss : s' = s := by
            rcases h3 with h3 | ⟨h3, h4⟩
            · rw [h3] at hor; simpa using hor
            · rw [h3, h4] at hor; simpa using hor
          subst hss
          have := p (hxt.mpr h1) (by rw [hxm]; exact h2)
          rw [hxa, hxf] at this
          exact this
        · have hq : A = x.1.activate ∧ F = x.1.flags := by
            apply q
            rcases h with h | h | h | h
            · exact absurd hS h
            · exact .inl fun hh => h (hxt.mp hh)
            · exact .inr (by rw [hxm]; exact h)
            · rw [h.1, h.2] at hor
              simp at hor
          rw [hxa, hxf] at hq
          exact hq
    · rw [if_neg hc]
      refine ⟨x.1.activate, x.1.flags, rfl, fun s h => ?_, fun _ => ⟨hxa, hxf⟩⟩
      exact absurd ((mhChanged_iff n).mpr h) hc
  obtain ⟨A, F, e, p, q⟩ := hact
  rw [e]
  refine ⟨by rw [k1], by rw [k1], by rw [k1], by rw [k1], k2, k3, k5, k6, p, q⟩

/-- Errors of a neighbor -/
theorem ngbErrors_iff (ip : String → String) (t : List MhNode) (hn : (t.map (·.name)).Nodup) (n : MhNode) (src : Option String)
    (g : MhNgb) :
    (if mhSelected g then mhFix ip (mhFind t) n { g with srcVrf := src } else (g, 0)).2 = 0 ↔
      (MultihopSession g → (g.vrf = none ∨ ∃ l, RemoteLoopback t g l) →
        ∀ v, src = some v → n.suppVrf = true ∧ ∃ l, LoopbackOf n v l) := by
  by_cases hs : mhSelected g = true
  · rw [if_pos hs]
    obtain ⟨_, _, _, k4, _⟩ := mhFix_spec ip t hn n { g with srcVrf := src } hs
    exact k4
  · rw [if_neg hs]
    exact ⟨fun _ h => absurd ((ebgpLike_iff g).mpr h.1) hs, fun _ => rfl⟩

/-- Sessions on nodes after the transformation.  Names of nodes differ, interfaces created for sessions are tunnels, and
the neighbors in the global routing table have no source VRF. -/
theorem C76_nodes (ip : String → String) (valid : List String × List String) (glob : Option (List String × List String))
    (t : List MhNode) (hn : (t.map (·.name)).Nodup)
    (hf : ∀ n ∈ t, ∀ i ∈ n.ifs, i.fake = true → i.type ≠ "loopback")
    (hg : ∀ n ∈ t, ∀ g ∈ n.ngbs, g.srcVrf = none)
    (h0 : (mhPost ip valid glob t).2 = 0) :
    List.Forall₂ (NodeAfter ip valid glob t) t (mhPost ip valid glob t).1 := by
  rw [mhPost_map ip valid glob t hf] at h0 ⊢
  simp only at h0 ⊢
  rw [List.forall₂_map_right_iff, List.forall₂_same]
  intro n hnt
  have hz : (mhNode ip valid glob (mhFind t) n).2 = 0 := mh_sum_zero.mp h0 _ (List.mem_map.mpr ⟨n, hnt, rfl⟩)
  obtain ⟨e1, e2, e3, e4, e5, e6, e7⟩ := mhNode_eq ip valid glob (mhFind t) n
  rw [hz] at e7
  have z1 : (n.ngbs.map (fun g => (mhFixGlob ip (mhFind t) n g).2)).sum = 0 := by omega
  have z2 : (n.vrfs.map (fun v => (v.2.ngbs.map (fun g => (mhFixVrf ip (mhFind t) n v.1 g).2)).sum)).sum = 0 := by omega
  refine ⟨e1, e2, by rw [e3, mhReal_eq], ?_, ?_, ?_⟩
  · rw [e4, List.forall₂_map_right_iff, List.forall₂_same]
    intro g hgm
    apply ngbAfter_of ip valid glob t hn n none g (mhFixGlob ip (mhFind t) n g)
    · unfold mhFixGlob
      have : ({ g with srcVrf := none } : MhNgb) = g := by
        have := hg n hnt g hgm
        obtain ⟨nm, ty, mh, vr, sv, i4, i6, ac, fl, so⟩ := g
        simp only at this
        rw [this]
      rw [this]
    · exact mh_sum_zero.mp z1 _ (List.mem_map.mpr ⟨g, hgm, rfl⟩)
  · rw [e5, List.forall₂_map_right_iff, List.forall₂_same]
    intro v hv
    refine ⟨rfl, ?_, ?_⟩
    · simp only
      have : mhReal = RealInterfaces := by funext l; exact mhReal_eq l
      rw [this]
    · simp only
      rw [List.forall₂_map_right_iff, List.forall₂_same]
      intro g hgm
      apply ngbAfter_of ip valid glob t hn n (some v.1) g (mhFixVrf ip (mhFind t) n v.1 g)
      · rfl
      · exact mh_sum_zero.mp (mh_sum_zero.mp z2 _ (List.mem_map.mpr ⟨v, hv, rfl⟩)) _ (List.mem_map.mpr ⟨g, hgm, rfl⟩)
  · rw [e6, ← mhChanged_iff]
    by_cases hc : mhChanged n = true
    · by_cases hm : "ebgp.multihop" ∈ n.config
      · simp [hc, hm]
      · simp [hc, hm]
    · simp [hc]

/-- The topology is accepted exactly when the devices support the sessions and the sessions in VRFs have a source. -/
theorem C76_accepted_iff (ip : String → String) (valid : List String × List String) (glob : Option (List String × List String))
    (t : List MhNode) (hn : (t.map (·.name)).Nodup)
    (hf : ∀ n ∈ t, ∀ i ∈ n.ifs, i.fake = true → i.type ≠ "loopback")
    (hg : ∀ n ∈ t, ∀ g ∈ n.ngbs, g.srcVrf = none) :
    (mhPost ip valid glob t).2 = 0 ↔ ∀ n ∈ t,
      (HasSessions n → n.supp = true ∧ ((n.activate ≠ none ∨ glob ≠ none) → n.suppAf = true)) ∧
      ∀ v ∈ n.vrfs, ∀ g ∈ v.2.ngbs, MultihopSession g → (g.vrf = none ∨ ∃ l, RemoteLoopback t g l) →
        n.suppVrf = true ∧ ∃ l, LoopbackOf n v.1 l := by
  rw [mhPost_map ip valid glob t hf]
  simp only [mh_sum_zero, List.mem_map, forall_exists_index, and_imp, forall_apply_eq_imp_iff₂]
  apply forall_congr'
  intro n
  apply forall_congr'
  intro hnt
  obtain ⟨_, _, _, _, _, _, e7⟩ := mhNode_eq ip valid glob (mhFind t) n
  have z1 : (n.ngbs.map (fun g => (mhFixGlob ip (mhFind t) n g).2)).sum = 0 := by
    rw [mh_sum_zero]
    intro x hx
    obtain ⟨g, hgm, rfl⟩ := List.mem_map.mp hx
    have hgl : mhFixGlob ip (mhFind t) n g = if mhSelected g then mhFix ip (mhFind t) n { g with srcVrf := none } else (g, 0) := by
      unfold mhFixGlob
      have : ({ g with srcVrf := none } : MhNgb) = g := by
        have := hg n hnt g hgm
        obtain ⟨nm, ty, mh, vr, sv, i4, i6, ac, fl, so⟩ := g
        simp only at this
        rw [this]
      rw [this]
    simp only [hgl]
    rw [ngbErrors_iff ip t hn n none g]
    intro _ _ v hv
    cases hv
  have z2 : (n.vrfs.map (fun v => (v.2.ngbs.map (fun g => (mhFixVrf ip (mhFind t) n v.1 g).2)).sum)).sum = 0 ↔
      ∀ v ∈ n.vrfs, ∀ g ∈ v.2.ngbs, MultihopSession g → (g.vrf = none ∨ ∃ l, RemoteLoopback t g l) →
        n.suppVrf = true ∧ ∃ l, LoopbackOf n v.1 l := by
    simp only [mh_sum_zero, List.mem_map, forall_exists_index, and_imp, forall_apply_eq_imp_iff₂]
    apply forall_congr'
    intro v
    apply forall_congr'
    intro _
    apply forall_congr'
    intro g
    apply forall_congr'
    intro _
    have := ngbErrors_iff ip t hn n (some v.1) g
    unfold mhFixVrf
    rw [this]
    constructor
    · intro h h1 h2; exact h h1 h2 _ rfl
    · intro h h1 h2 w hw; cases hw; exact h h1 h2
  rw [e7, z1, ← z2, ← mhChanged_iff]
  have hor : (n.activate.or glob).isSome = true ↔ (n.activate ≠ none ∨ glob ≠ none) := by
    cases n.activate <;> cases glob <;> simp
  rw [← hor]
  cases mhChanged n <;> cases n.supp <;> cases (n.activate.or glob).isSome <;> cases n.suppAf <;> simp

/-- The address families known to netlab (`netsim/extra/ebgp.multihop/defaults.yml:53-58`) -/
def mhValid : List String × List String :=
  (["ipv4", "ipv6", "ipv4_label", "ipv6_label", "6pe", "vpnv4", "vpnv6", "evpn"],
   ["ipv4", "ipv6", "ipv4_label", "ipv6_label", "6pe", "vpnv4", "vpnv6", "evpn"])

/-- Two nodes with a session between VRFs; `la` and `lb` are the loopbacks of the VRFs. -/
def mhPair (la lb : List MhIf) : List MhNode :=
  let g := fun x a => ({ name := x, type := "ebgp", multihop := some 255, vrf := some "red", ipv4 := some a } : MhNgb)
  let f := ({ ifname := "_ebgp_multihop_1", type := "tunnel", vrf := some "red", fake := true } : MhIf)
  [{ name := "a", loopback := some { ifname := "lo", ipv4 := some "10.0.0.1/32" }, ifs := f :: la
     vrfs := [("red", { ngbs := [g "b" "10.0.0.2"] })] },
   { name := "b", loopback := some { ifname := "lo", ipv4 := some "10.0.0.2/32" }, ifs := f :: lb
     vrfs := [("red", { ngbs := [g "a" "10.0.0.1"] })] }]

/-- Loopbacks used in the example -/
def mhLo (a : String) : List MhIf := [{ ifname := "lo1", type := "loopback", vrf := some "red", ipv4 := some a }]

example : (mhPost (fun x => x) mhValid (some (["evpn"], [])) (mhPair (mhLo "10.1.0.1") (mhLo "10.1.0.2"))).2 = 0 := by
  decide +kernel

example : (mhPost (fun x => x) mhValid (some (["evpn"], [])) (mhPair (mhLo "10.1.0.1") (mhLo "10.1.0.2"))).1.flatMap
    (fun n => n.vrfs.flatMap (fun v => v.2.ngbs.map (fun g => [g.ipv4, g.source.map (·.ifname), g.flags.lookup "evpn"]))) =
    [[some "10.1.0.2", some "lo1", some "True"], [some "10.1.0.1", some "lo1", some "True"]] := by
  decide +kernel

/-- **Defect.** When neither VRF has a loopback, each end expects the other one to report an error: the session is accepted,
uses addresses in the global routing table, and has no source. -/
theorem C76_missing_loopbacks_accepted :
    (mhPost (fun x => x) mhValid none (mhPair [] [])).2 = 0 ∧
    (mhPost (fun x => x) mhValid none (mhPair [] [])).1.flatMap
        (fun n => n.vrfs.flatMap (fun v => v.2.ngbs.map (fun g => [g.ipv4, g.source.map (·.ifname)]))) =
      [[some "10.0.0.2", none], [some "10.0.0.1", none]] ∧
    -- a missing loopback on one end only is reported
    (mhPost (fun x => x) mhValid none (mhPair (mhLo "10.1.0.1") [])).2 = 1 := by
  decide +kernel

/-- **Defect.** On a session with IPv4 and IPv6 addresses the list of address families for IPv6 sessions replaces the one for
IPv4 sessions: IPv4 address family is not active although it is requested on IPv4 sessions. -/
theorem C76_ipv6_list_wins :
    (mhActivate mhValid (["ipv4", "evpn"], ["ipv6"])
      { name := "b", type := "ebgp", multihop := some 255, ipv4 := some "10.0.0.2", ipv6 := some "2001:db8::2"
        activate := [("ipv4", "True"), ("ipv6", "True")] }) =
    { name := "b", type := "ebgp", multihop := some 255, ipv4 := some "10.0.0.2", ipv6 := some "2001:db8::2"
      activate := [("ipv6", "True")], flags := [] } := by
  decide +kernel

end Netlab
