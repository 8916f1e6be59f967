import Verif.Lemmas.Links
/-!
# C10, C11, C12: interface indices, link indices, neighbor lists
-/

namespace Netlab
open Spec

/-! ### C10: interface indices -/

private theorem virt_cases (ty : Option String) :
    (isVirtual ty = false ∧ ∀ i, IndexInRange ty i ↔ 0 ≤ i ∧ i < 10000) ∨
    (∃ t n, isVirtual ty = true ∧ ty = some t ∧ virtOffset t = n ∧ 10000 ≤ n ∧
      (∀ i, IndexInRange ty i ↔ n ≤ i ∧ i < n + 10000) ∧
      (∀ d : NodeDev, 0 ≤ d.loOffset.getD 0 → d.loOffset.getD 0 ≤ 9000 →
        n ≤ virtStart d t ∧ virtStart d t ≤ n + 9000)) := by
  have vs : ∀ (d : NodeDev) (t : String), 0 ≤ d.loOffset.getD 0 → d.loOffset.getD 0 ≤ 9000 →
      virtOffset t ≤ virtStart d t ∧ virtStart d t ≤ virtOffset t + 9000 := by
    intro d t h1 h2
    unfold virtStart
    split
    · split <;> omega
    · omega
  by_cases h1 : ty = some "loopback"
  · right
    refine ⟨"loopback", 10000, by subst h1; decide, h1, by decide, by decide, ?_, fun d => vs d _⟩
    intro i; unfold IndexInRange; rw [if_pos h1]
    exact Iff.rfl
  by_cases h2 : ty = some "tunnel"
  · right
    refine ⟨"tunnel", 20000, by subst h2; decide, h2, by decide, by decide, ?_, fun d => vs d _⟩
    intro i; unfold IndexInRange; rw [if_neg h1, if_pos h2]
    exact Iff.rfl
  by_cases h3 : ty = some "lag"
  · right
    refine ⟨"lag", 30000, by subst h3; decide, h3, by decide, by decide, ?_, fun d => vs d _⟩
    intro i; unfold IndexInRange; rw [if_neg h1, if_neg h2, if_pos h3]
    exact Iff.rfl
  by_cases h4 : ty = some "svi"
  · right
    refine ⟨"svi", 40000, by subst h4; decide, h4, by decide, by decide, ?_, fun d => vs d _⟩
    intro i; unfold IndexInRange; rw [if_neg h1, if_neg h2, if_neg h3, if_pos h4]
    exact Iff.rfl
  · left
    constructor
    · simp [isVirtual, virtualTypes, h1, h2, h3, h4]
    · intro i; unfold IndexInRange; rw [if_neg h1, if_neg h2, if_neg h3, if_neg h4]

/-- The link between a created interface and its request -/
theorem created_req {dev : String → NodeDev} {ls : List LinkReq} {r : List NodeIf}
    (h : createInterfaces dev [] ls = (r, true)) :
    r.length = (flatReqs ls).length ∧
    ∀ (k : Nat) (b : NodeIf), r[k]? = some b → ∃ l n q, (flatReqs ls)[k]? = some (l, n, q) ∧
      b.strip = (newInterface dev (r.take k) l n q).1 ∧ (newInterface dev (r.take k) l n q).2 = true := by
  obtain ⟨h1, h2⟩ := createInterfaces_flat dev ls []
  rw [h] at h1 h2
  simp only [List.map_nil, List.nil_append] at h1 h2
  obtain ⟨h3, h4⟩ := addAll_getElem dev (flatReqs ls) []
  rw [← h1] at h3
  simp only [List.length_map] at h3
  refine ⟨h3, ?_⟩
  intro k b hk
  have lk : k < (flatReqs ls).length := by
    rw [← h3]; exact (List.getElem?_eq_some_iff.1 hk).1
  obtain ⟨⟨l, n, q⟩, hq⟩ : ∃ x, (flatReqs ls)[k]? = some x := ⟨_, List.getElem?_eq_getElem lk⟩
  have h5 := h4 k _ hq
  simp only [List.nil_append] at h5
  rw [← h1, ← h2] at h5
  obtain ⟨h6, h7⟩ := h5
  have hs : newInterface dev ((r.map NodeIf.strip).take k) l n q = newInterface dev (r.take k) l n q := by
    apply newInterface_strip
    rw [← List.map_take, List.map_map]
    rfl
  rw [hs] at h6 h7
  simp only [List.getElem?_map, hk, Option.map_some, Option.some.injEq] at h6
  exact ⟨l, n, q, hq, h6, h7 rfl⟩

/-- **C10 (ranges).**  When interfaces are created without an error, every interface that did
not have a user-specified index gets an index in the range of its type; in particular a
physical interface and a virtual interface never get the same automatic index. -/
theorem C10_index_range (dev : String → NodeDev) (ls : List LinkReq) (r : List NodeIf)
    (h : createInterfaces dev [] ls = (r, true))
    (hdev : ∀ n, 0 ≤ (dev n).ifOffset.getD 1 ∧ (dev n).ifOffset.getD 1 ≤ 9000 ∧
      0 ≤ (dev n).loOffset.getD 0 ∧ (dev n).loOffset.getD 0 ≤ 9000)
    (k : Nat) (b : NodeIf) (hk : r[k]? = some b) (l : Int) (n : String) (q : IfReq)
    (hq : (flatReqs ls)[k]? = some (l, n, q)) (hauto : q.ifindex = none) :
    IndexInRange b.ty b.ifindex ∧ (isVirtual b.ty = false → (dev n).ifOffset.getD 1 ≤ b.ifindex) := by
  obtain ⟨-, hc⟩ := created_req h
  obtain ⟨l', n', q', hq', hs, hok⟩ := hc k b hk
  rw [hq] at hq'
  cases hq'
  obtain ⟨e1, e2, e3, e4, e5, e6⟩ := newInterface_index hok
  rw [← hs] at e1 e2 e3 e4 e5 e6
  have et : b.ty = q.ty := e2
  have ei : b.strip.ifindex = b.ifindex := rfl
  rw [ei] at e5 e6
  obtain ⟨d1, d2, d3, d4⟩ := hdev n
  rcases virt_cases q.ty with ⟨hv, hr⟩ | ⟨t, m, hv, ht, hm, hm1, hr, hd⟩
  · obtain ⟨a, b', c⟩ := e5 hauto hv
    rw [et, hr]
    exact ⟨⟨by omega, by omega⟩, fun _ => b'⟩
  · obtain ⟨a, b', c⟩ := e6 hauto t ht hv
    have := hd (dev n) d3 d4
    rw [et, hr]
    refine ⟨⟨by omega, by omega⟩, fun hf => absurd hf (by simp [hv])⟩

/-- **C10 (static indices).**  A user-specified index is always kept. -/
theorem C10_static_index_kept (dev : String → NodeDev) (ls : List LinkReq) (r : List NodeIf)
    (h : createInterfaces dev [] ls = (r, true))
    (k : Nat) (b : NodeIf) (hk : r[k]? = some b) (l : Int) (n : String) (q : IfReq)
    (hq : (flatReqs ls)[k]? = some (l, n, q)) (x : Int) (hx : q.ifindex = some x) :
    b.node = n ∧ b.ifindex = x := by
  obtain ⟨-, hc⟩ := created_req h
  obtain ⟨l', n', q', hq', hs, hok⟩ := hc k b hk
  rw [hq] at hq'
  cases hq'
  obtain ⟨e1, e2, e3, e4, -, -⟩ := newInterface_index hok
  rw [← hs] at e1 e4
  exact ⟨e1, (e4 x hx).1⟩

/-- **C10 (uniqueness).**  When interfaces are created without an error and user-specified
indices are within the range of the interface type, two interfaces of a node can have the
same index only when the index of the later one was specified by the user.  In particular
automatically assigned indices are pairwise different. -/
theorem C10_unique_unless_static (dev : String → NodeDev) (ls : List LinkReq) (r : List NodeIf)
    (h : createInterfaces dev [] ls = (r, true))
    (hdev : ∀ n, 0 ≤ (dev n).ifOffset.getD 1 ∧ (dev n).ifOffset.getD 1 ≤ 9000 ∧
      0 ≤ (dev n).loOffset.getD 0 ∧ (dev n).loOffset.getD 0 ≤ 9000)
    (hstat : ∀ l n q x, (l, n, q) ∈ flatReqs ls → q.ifindex = some x → IndexInRange q.ty x)
    (j k : Nat) (a b : NodeIf) (hjk : j < k) (hj : r[j]? = some a) (hk : r[k]? = some b)
    (hn : a.node = b.node) (hi : a.ifindex = b.ifindex) :
    ∃ l n q, (flatReqs ls)[k]? = some (l, n, q) ∧ q.ifindex = some b.ifindex := by
  obtain ⟨-, hc⟩ := created_req h
  obtain ⟨l, n, q, hq, hs, hok⟩ := hc k b hk
  obtain ⟨l', n', q', hq', hs', hok'⟩ := hc j a hj
  refine ⟨l, n, q, hq, ?_⟩
  -- both indices are in the range of their types
  have ra : IndexInRange a.ty a.ifindex := by
    have et : a.ty = q'.ty := by
      have := (newInterface_index hok').2.1
      rw [← hs'] at this; exact this
    cases hx : q'.ifindex with
    | none => exact (C10_index_range dev ls r h hdev j a hj l' n' q' hq' hx).1
    | some x =>
      rw [(C10_static_index_kept dev ls r h j a hj l' n' q' hq' x hx).2, et]
      exact hstat l' n' q' x (List.mem_of_getElem? hq') hx
  cases hx : q.ifindex with
  | some x => rw [(C10_static_index_kept dev ls r h k b hk l n q hq x hx).2]
  | none =>
    exfalso
    have rb := (C10_index_range dev ls r h hdev k b hk l n q hq hx).1
    obtain ⟨e1, e2, -, -, e5, e6⟩ := newInterface_index hok
    rw [← hs] at e1 e2 e5 e6
    have en : b.node = n := e1
    have et : b.ty = q.ty := e2
    have ei : b.strip.ifindex = b.ifindex := rfl
    rw [ei] at e5 e6
    have ha : a ∈ (r.take k).filter (fun i => i.node == n) := by
      refine List.mem_filter.2 ⟨?_, by simp [hn, en]⟩
      refine List.mem_iff_getElem?.2 ⟨j, ?_⟩
      rw [List.getElem?_take_of_lt hjk, hj]
    rw [← et] at e5 e6
    rcases virt_cases b.ty with ⟨hv, hr⟩ | ⟨t, m, hv, ht, hm, hm1, hr, -⟩
    · rcases virt_cases a.ty with ⟨hv', hr'⟩ | ⟨t', m', hv', ht', hm', hm1', hr', -⟩
      · exact (e5 hx hv).1 (hi ▸ (mem_usedIndices ha "").2 hv')
      · rw [hr] at rb
        rw [hr', hi] at ra
        omega
    · rcases virt_cases a.ty with ⟨hv', hr'⟩ | ⟨t', m', hv', ht', hm', hm1', hr', -⟩
      · rw [hr] at rb
        rw [hr', hi] at ra
        omega
      · by_cases htt : t' = t
        · subst htt
          exact (e6 hx t' ht hv).1 (hi ▸ (mem_usedIndices ha t').1 ht')
        · rw [hr] at rb
          rw [hr', hi] at ra
          have : m ≠ m' := by
            subst hm hm'
            rw [ht] at hv
            rw [ht'] at hv'
            simp [isVirtual, virtualTypes] at hv hv'
            rcases hv with rfl | rfl | rfl | rfl <;> rcases hv' with rfl | rfl | rfl | rfl <;>
              first | exact absurd rfl htt | decide
          have e1 : ∃ c : Int, m = c * 10000 := ⟨(virtualTypes.idxOf t : Int) + 1, hm.symm⟩
          have e2 : ∃ c : Int, m' = c * 10000 := ⟨(virtualTypes.idxOf t' : Int) + 1, hm'.symm⟩
          obtain ⟨c, hc⟩ := e1
          obtain ⟨c', hc'⟩ := e2
          omega

/-- **C10 (exhaustion).**  Automatic allocation of an index fails only when all one thousand
values starting with the first index are used by interfaces of the same class on the node,
and it selects the lowest free value. -/
theorem C10_lowest_free_or_exhausted (ifs : List NodeIf) (t : Option String) (start : Int) :
    (∃ i, uniqueIfindex ifs t start = (i, true) ∧ start ≤ i ∧ i < start + 1000 ∧
      i ∉ usedIndices ifs t ∧ ∀ m, start ≤ m → m < i → m ∈ usedIndices ifs t) ∨
    ((uniqueIfindex ifs t start).2 = false ∧
      ∀ m, start ≤ m → m < start + 1000 → m ∈ usedIndices ifs t) := by
  unfold uniqueIfindex
  cases h : ifindexLoop (usedIndices ifs t) 1000 start with
  | some i =>
    obtain ⟨a, b, c, d⟩ := ifindexLoop_some h
    exact .inl ⟨i, rfl, b, by simpa using c, a, d⟩
  | none => exact .inr ⟨rfl, fun m h1 h2 => ifindexLoop_none h m h1 (by simpa using h2)⟩

/-- Device used in examples: names `eth<n>`, no device-specific settings -/
private def demoDev : NodeDev :=
  { ifOffset := none, loOffset := none, ifFormat := some (fun i => "eth" ++ toString i),
    virtFormat := fun _ => none, mtu := none, sysMtu := false }

private def demoReq (i : Option Int) : IfReq :=
  { ty := some "p2p", ifindex := i, ifname := none, ip4 := .missing, ip6 := .missing, mtu := none }

/-- **C10 (the claim is false for user-specified indices).**  A user-specified index is not
checked against the interfaces already attached to the node: two links of node `a`, the
second one with `ifindex: 1`, result in two interfaces with index 1 and the same name, and
no error is reported. -/
theorem C10_static_index_not_checked :
    ∃ r, createInterfaces (fun _ => demoDev) []
        [⟨1, [("a", demoReq none), ("b", demoReq none)]⟩,
         ⟨2, [("a", demoReq (some 1)), ("c", demoReq none)]⟩] = (r, true) ∧
      (r.filter (fun i => i.node == "a")).map (·.ifindex) = [1, 1] ∧
      (r.filter (fun i => i.node == "a")).map (·.ifname) = [some "eth1", some "eth1"] :=
  ⟨_, rfl, by decide, by decide⟩

/-! ### C12: neighbor lists -/

private theorem nbrList_eq (k : Nat) (ifs : List NodeIf) :
    nbrList k ifs = (ifs.eraseIdx k).map nbrOf := by
  unfold nbrList
  have key : ∀ (ifs : List NodeIf) (n k : Nat),
      ((ifs.zipIdx n).filter (fun x => x.2 != n + k)).map (fun x => nbrOf x.1) =
        (ifs.eraseIdx k).map nbrOf := by
    intro ifs
    induction ifs with
    | nil => intro n k; simp
    | cons i is ih =>
      intro n k
      rw [List.zipIdx_cons]
      cases k with
      | zero =>
        simp only [Nat.add_zero, List.filter_cons, bne_self_eq_false, Bool.false_eq_true, if_false,
          List.eraseIdx_cons_zero]
        have hall : (is.zipIdx (n + 1)).filter (fun x => x.2 != n) = is.zipIdx (n + 1) := by
          rw [List.filter_eq_self]
          intro x hx
          have := List.le_snd_of_mem_zipIdx hx
          simp only [bne_iff_ne, ne_eq]
          omega
        rw [hall]
        have : (fun x : NodeIf × Nat => nbrOf x.1) = nbrOf ∘ Prod.fst := rfl
        rw [this, ← List.map_map, List.zipIdx_map_fst]
      | succ k =>
        have hne : (n != n + (k + 1)) = true := by simp
        have h2 := ih (n + 1) k
        have e : n + 1 + k = n + (k + 1) := by omega
        rw [e] at h2
        simp only [List.filter_cons, hne, if_true, List.map_cons, h2, List.eraseIdx_cons_succ]
  simpa using key ifs 0 k

/-- The interface has the type and addresses requested for it; an address explicitly disabled
(`False`, or a host index of zero) is removed. -/
def SameAddresses (q : IfReq) (x : NodeIf) : Prop :=
  x.ty = q.ty ∧
  x.ip4 = (if q.ip4 = .flag false ∨ q.ip4 = .index 0 then .missing else q.ip4) ∧
  x.ip6 = (if q.ip6 = .flag false ∨ q.ip6 = .index 0 then .missing else q.ip6)

private theorem dropFalse_eq (a : IfAddr) :
    dropFalse a = if a = .flag false ∨ a = .index 0 then .missing else a := by
  cases a with
  | flag b => cases b <;> simp [dropFalse]
  | index i =>
    by_cases h : i = 0
    · subst h; simp [dropFalse]
    · simp [h]
      unfold dropFalse
      split <;> simp_all
  | _ => simp [dropFalse]

private theorem linkInterfaces_link (dev : String → NodeDev) (l : Int) (rs : List (String × IfReq)) :
    ∀ all, (linkInterfaces dev l all rs).1.length = rs.length ∧
      ∀ (k : Nat) (x : NodeIf), (linkInterfaces dev l all rs).1[k]? = some x →
        x.link = l ∧ ∃ q, rs[k]? = some (x.node, q) ∧ SameAddresses q x := by
  induction rs with
  | nil => intro all; simp [linkInterfaces]
  | cons y rs ih =>
    obtain ⟨n, q⟩ := y
    intro all
    obtain ⟨h1, h2⟩ := ih (all ++ [(newInterface dev all l n q).1])
    simp only [linkInterfaces]
    refine ⟨by simp [h1], ?_⟩
    intro k x hx
    cases k with
    | zero =>
      simp only [List.getElem?_cons_zero, Option.some.injEq] at hx
      subst hx
      exact ⟨rfl, q, rfl, rfl, dropFalse_eq _, dropFalse_eq _⟩
    | succ k =>
      simp only [List.getElem?_cons_succ] at hx ⊢
      exact h2 k x hx

/-- **C12 (complete, in link order).**  After interfaces are created, the interfaces of a link
are next to each other in the list of all interfaces, in the order in which they are
listed on the link, on the requested node and with the requested addresses; the neighbor list
of an interface consists of exactly the other
interfaces of the link, in link order, with their node name, interface name and
addresses. -/
theorem C12_neighbors_are_other_interfaces (dev : String → NodeDev) (ls : List LinkReq)
    (r : List NodeIf) (ok : Bool) (h : createInterfaces dev [] ls = (r, ok))
    (m : Nat) (l : LinkReq) (hm : ls[m]? = some l) :
    ∃ before seg after, r = before ++ seg ++ after ∧
      before.length = (flatReqs (ls.take m)).length ∧ seg.length = l.ifs.length ∧
      ∀ (k : Nat) (x : NodeIf), seg[k]? = some x →
        x.link = l.index ∧ (∃ q, l.ifs[k]? = some (x.node, q) ∧ SameAddresses q x) ∧
        x.nbrs = (seg.eraseIdx k).map (fun y => ⟨y.node, y.ifname, y.ip4, y.ip6⟩) := by
  have gen : ∀ (ls : List LinkReq) (all r : List NodeIf) (ok : Bool) (m : Nat),
      createInterfaces dev all ls = (r, ok) → ls[m]? = some l →
      ∃ before seg after, r = before ++ seg ++ after ∧
        before.length = all.length + (flatReqs (ls.take m)).length ∧ seg.length = l.ifs.length ∧
        ∀ (k : Nat) (x : NodeIf), seg[k]? = some x →
          x.link = l.index ∧ (∃ q, l.ifs[k]? = some (x.node, q) ∧ SameAddresses q x) ∧
          x.nbrs = (seg.eraseIdx k).map (fun y => ⟨y.node, y.ifname, y.ip4, y.ip6⟩) := by
    intro ls
    induction ls with
    | nil => intro all r ok m _ hm; simp at hm
    | cons l' ls ih =>
      intro all r ok m hc hm
      simp only [createInterfaces] at hc
      obtain ⟨a1, a2⟩ := linkInterfaces_link dev l'.index l'.ifs all
      generalize hA : (linkInterfaces dev l'.index all l'.ifs).1 = A at hc a1 a2
      cases m with
      | zero =>
        simp only [List.getElem?_cons_zero, Option.some.injEq] at hm
        subst hm
        -- later links append to the list
        have app : ∀ (ls : List LinkReq) (all : List NodeIf),
            ∃ after, (createInterfaces dev all ls).1 = all ++ after := by
          intro ls
          induction ls with
          | nil => intro all; exact ⟨[], by simp [createInterfaces]⟩
          | cons l ls ih =>
            intro all
            simp only [createInterfaces]
            obtain ⟨after, ha⟩ := ih (all ++ setNeighbors (linkInterfaces dev l.index all l.ifs).1)
            exact ⟨_, by rw [ha, List.append_assoc]⟩
        obtain ⟨after, ha⟩ := app ls (all ++ setNeighbors A)
        rw [Prod.mk.injEq] at hc
        refine ⟨all, setNeighbors A, after, by rw [← hc.1, ha], by simp [flatReqs],
          by simp [setNeighbors, a1], ?_⟩
        intro k x hx
        simp only [setNeighbors, List.getElem?_mapIdx, Option.map_eq_some_iff] at hx
        obtain ⟨y, hy, rfl⟩ := hx
        obtain ⟨b1, b2⟩ := a2 k y hy
        refine ⟨b1, b2, ?_⟩
        simp only [nbrList_eq]
        have : (setNeighbors A).eraseIdx k = ((A.mapIdx (fun k i => { i with nbrs := nbrList k A })).eraseIdx k) := rfl
        apply List.ext_getElem
        · simp [setNeighbors, List.length_eraseIdx]
        · intro i h1 h2
          simp only [List.getElem_map, List.getElem_eraseIdx, setNeighbors, List.getElem_mapIdx, nbrOf]
          split <;> rfl
      | succ m =>
        simp only [List.getElem?_cons_succ] at hm
        rw [Prod.mk.injEq] at hc
        obtain ⟨before, seg, after, e1, e2, e3, e4⟩ :=
          ih (all ++ setNeighbors A) r (createInterfaces dev (all ++ setNeighbors A) ls).2 m
            (Prod.ext hc.1 rfl) hm
        refine ⟨before, seg, after, e1, ?_, e3, e4⟩
        rw [e2]
        simp [setNeighbors, flatReqs, a1]
        omega
  obtain ⟨before, seg, after, e1, e2, e3, e4⟩ := gen ls [] r ok m h hm
  exact ⟨before, seg, after, e1, by simpa using e2, e3, e4⟩

private theorem nth_block {dev : String → NodeDev} (ls : List LinkReq) :
    ∀ (all : List NodeIf) (i : Nat) (x : NodeIf), (createInterfaces dev all ls).1[i]? = some x →
      all.length ≤ i → ∃ m l, ls[m]? = some l ∧ all.length + (flatReqs (ls.take m)).length ≤ i ∧
        i < all.length + (flatReqs (ls.take m)).length + l.ifs.length := by
  induction ls with
  | nil =>
    intro all i x hx hi
    simp only [createInterfaces] at hx
    have := (List.getElem?_eq_some_iff.1 hx).1
    omega
  | cons l' ls ih =>
    intro all i x hx hi
    by_cases hlt : i < all.length + l'.ifs.length
    · exact ⟨0, l', rfl, by simpa [flatReqs] using hi, by simpa [flatReqs] using hlt⟩
    · simp only [createInterfaces] at hx
      have hlen : (linkInterfaces dev l'.index all l'.ifs).1.length = l'.ifs.length :=
        (linkInterfaces_link dev l'.index l'.ifs all).1
      obtain ⟨m, l, h1, h2, h3⟩ := ih _ i x hx (by simp [setNeighbors, hlen]; omega)
      simp only [List.length_append, setNeighbors, List.length_mapIdx, hlen] at h2 h3
      refine ⟨m + 1, l, h1, ?_, ?_⟩
      · simp [flatReqs] at h2 ⊢; omega
      · simp [flatReqs] at h3 ⊢; omega

/-- **C12 (only interfaces of the same link).**  Every entry in a neighbor list describes
another interface attached to the same link. -/
theorem C12_neighbor_is_on_the_same_link (dev : String → NodeDev) (ls : List LinkReq)
    (r : List NodeIf) (ok : Bool) (h : createInterfaces dev [] ls = (r, ok))
    (i : Nat) (x : NodeIf) (hi : r[i]? = some x) (e : Nbr) (he : e ∈ x.nbrs) :
    ∃ j y, j ≠ i ∧ r[j]? = some y ∧ y.link = x.link ∧ e = ⟨y.node, y.ifname, y.ip4, y.ip6⟩ := by
  obtain ⟨m, l, hm, h1, h2⟩ := nth_block (dev := dev) ls [] i x (by rw [h]; exact hi) (by simp)
  simp only [List.length_nil, Nat.zero_add] at h1 h2
  obtain ⟨before, seg, after, e1, e2, e3, e4⟩ :=
    C12_neighbors_are_other_interfaces dev ls r ok h m l hm
  have hseg : seg[i - before.length]? = some x := by
    rw [e1, List.append_assoc, List.getElem?_append_right (by omega),
      List.getElem?_append_left (by omega)] at hi
    exact hi
  obtain ⟨hl, -, hn⟩ := e4 _ _ hseg
  rw [hn] at he
  obtain ⟨y, hy, rfl⟩ := List.mem_map.1 he
  obtain ⟨j, hj, hjy⟩ := List.mem_eraseIdx_iff_getElem?.1 hy
  have hjl := (List.getElem?_eq_some_iff.1 hjy).1
  refine ⟨before.length + j, y, by omega, ?_, ?_, rfl⟩
  · rw [e1, List.append_assoc, List.getElem?_append_right (by omega),
      List.getElem?_append_left (by omega), ← hjy]
    congr 1
    omega
  · rw [hl, (e4 j y hjy).1]

/-- **C12 (symmetry).**  If link indices are pairwise different, any two interfaces attached to
the same link are neighbors of each other. -/
theorem C12_symmetric (dev : String → NodeDev) (ls : List LinkReq) (r : List NodeIf) (ok : Bool)
    (h : createInterfaces dev [] ls = (r, ok)) (hd : (ls.map (·.index)).Nodup)
    (i j : Nat) (x y : NodeIf) (hij : i ≠ j) (hi : r[i]? = some x) (hj : r[j]? = some y)
    (hl : x.link = y.link) :
    (⟨y.node, y.ifname, y.ip4, y.ip6⟩ : Nbr) ∈ x.nbrs ∧
    (⟨x.node, x.ifname, x.ip4, x.ip6⟩ : Nbr) ∈ y.nbrs := by
  obtain ⟨m, l, hm, h1, h2⟩ := nth_block (dev := dev) ls [] i x (by rw [h]; exact hi) (by simp)
  obtain ⟨m', l', hm', h1', h2'⟩ := nth_block (dev := dev) ls [] j y (by rw [h]; exact hj) (by simp)
  simp only [List.length_nil, Nat.zero_add] at h1 h2 h1' h2'
  obtain ⟨before, seg, after, e1, e2, e3, e4⟩ :=
    C12_neighbors_are_other_interfaces dev ls r ok h m l hm
  obtain ⟨before', seg', after', e1', e2', e3', e4'⟩ :=
    C12_neighbors_are_other_interfaces dev ls r ok h m' l' hm'
  have pick : ∀ (b s a : List NodeIf) (k : Nat) (z : NodeIf), r = b ++ s ++ a → r[k]? = some z →
      b.length ≤ k → k < b.length + s.length → s[k - b.length]? = some z := by
    intro b s a k z hr hk h1 h2
    rw [hr, List.append_assoc, List.getElem?_append_right (by omega),
      List.getElem?_append_left (by omega)] at hk
    exact hk
  have sx := pick before seg after i x e1 hi (by omega) (by omega)
  have sy' := pick before' seg' after' j y e1' hj (by omega) (by omega)
  have hidx : l.index = l'.index := by
    rw [← (e4 _ _ sx).1, hl, (e4' _ _ sy').1]
  have hmm : m = m' := by
    have lm := (List.getElem?_eq_some_iff.1 hm).1
    have lm' := (List.getElem?_eq_some_iff.1 hm').1
    have := (hd.getElem_inj_iff (i := m) (j := m') (hi := by simpa using lm) (hj := by simpa using lm')).1
    apply this
    simp only [List.getElem_map]
    rw [List.getElem?_eq_getElem lm, Option.some.injEq] at hm
    rw [List.getElem?_eq_getElem lm', Option.some.injEq] at hm'
    rw [hm, hm', hidx]
  subst hmm
  rw [hm] at hm'
  cases hm'
  have sy := pick before seg after j y e1 hj (by omega) (by omega)
  constructor
  · rw [(e4 _ _ sx).2.2]
    exact List.mem_map.2 ⟨y, List.mem_eraseIdx_iff_getElem?.2 ⟨_, by omega, sy⟩, rfl⟩
  · rw [(e4 _ _ sy).2.2]
    exact List.mem_map.2 ⟨x, List.mem_eraseIdx_iff_getElem?.2 ⟨_, by omega, sx⟩, rfl⟩

/-- C10, C12: a LAN link with three interfaces, two of them on node `a`, and a p2p link -/
example : ∃ r, createInterfaces (fun _ => demoDev) []
      [⟨1, [("a", demoReq none), ("b", demoReq (some 7)), ("a", demoReq none)]⟩,
       ⟨2, [("a", demoReq none), ("b", demoReq none)]⟩] = (r, true) ∧
    r.map (fun i => (i.node, i.ifindex, i.nbrs.map (fun n => (n.node, n.ifname)))) =
      [("a", 1, [("b", some "eth7"), ("a", some "eth2")]),
       ("b", 7, [("a", some "eth1"), ("a", some "eth2")]),
       ("a", 2, [("a", some "eth1"), ("b", some "eth7")]),
       ("a", 3, [("b", some "eth1")]), ("b", 1, [("a", some "eth3")])] :=
  ⟨_, rfl, by decide⟩

end Netlab
