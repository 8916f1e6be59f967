import Verif.Lemmas.IpamPolicy
/-!
# C08, C09, C51: point-to-point addressing, choice of policy, duplicate detection
-/

namespace Netlab
open Spec

private theorem setMissing_ok {pfx : Net} {i : Int} (h : 0 ≤ i)
    (hs : (setAddress pfx i .missing).2 = true) :
    i < pfx.size ∧ (setAddress pfx i .missing).1 = .addr (pfx.base + i.toNat) pfx.plen :=
  setAddress_missing_ok h (by rw [← hs])

/-! ### C08: point-to-point allocation -/

/-- **C08.**  When point-to-point addressing completes without an error, all interfaces
without a static address have usable addresses within the first host numbers of the prefix,
different interfaces have different addresses, and an interface of a node with a smaller
name has a smaller address. -/
theorem C08_p2p_addresses (p2p : Bool) (gwid : Option Int) (alloc : Option Policy)
    (ids : String → Int) (loop : String → Option Bool) (v6 : Bool) (pfx : Net)
    (ifs out : List LinkIntf) (hw : pfx.WF)
    (hp : choosePolicy p2p gwid alloc ids pfx ifs = some .p2p)
    (h : assignAf p2p gwid alloc ids loop v6 pfx ifs = some (out, true)) :
    (∀ (k : Nat) (i : LinkIntf), ifs[k]? = some i → i.ip = .missing →
      ∃ a, out[k]? = some ⟨i.node, .addr a pfx.plen⟩ ∧ UsableHost pfx a ∧
        a < pfx.base + (if 2 ^ (pfx.w - pfx.plen) > 2 then 1 else 0) + ifs.length) ∧
    (∀ (j k : Nat) (x y : LinkIntf), j ≠ k → ifs[j]? = some x → ifs[k]? = some y →
      x.ip = .missing → y.ip = .missing → out[j]?.map (·.ip) ≠ out[k]?.map (·.ip)) ∧
    (∀ (j k : Nat) (x y : LinkIntf), ifs[j]? = some x → ifs[k]? = some y →
      x.ip = .missing → y.ip = .missing → x.node < y.node →
      ∃ a b, out[j]? = some ⟨x.node, .addr a pfx.plen⟩ ∧ out[k]? = some ⟨y.node, .addr b pfx.plen⟩ ∧
        a < b) := by
  obtain ⟨p, hp', -, hr, hb⟩ := assignAf_ok h
  rw [hp] at hp'
  cases hp'
  simp only [runPolicy, Option.some.injEq] at hr
  obtain ⟨hlen, pos, h1, h2, h3, -⟩ := ipamP2p_positions pfx ifs out true hr
  have hst0 : ipamStart pfx = if 2 ^ (pfx.w - pfx.plen) > 2 then 1 else 0 := rfl
  have key : ∀ (k : Nat) (i : LinkIntf), ifs[k]? = some i → i.ip = .missing →
      out[k]? = some ⟨i.node, .addr (pfx.base + (ipamStart pfx + pos k).toNat) pfx.plen⟩ ∧
      (ipamStart pfx + pos k) < pfx.size ∧ 0 ≤ ipamStart pfx := by
    intro k i hk hm
    obtain ⟨-, ho, hok⟩ := h1 k i hk
    have h0 : 0 ≤ ipamStart pfx := by rw [hst0]; split <;> omega
    rw [hm] at ho hok
    obtain ⟨hlt, hx⟩ := setMissing_ok (by omega) (hok rfl)
    exact ⟨by rw [ho, hx], hlt, h0⟩
  refine ⟨?_, ?_, ?_⟩
  · intro k i hk hm
    obtain ⟨ho, hlt, h0⟩ := key k i hk hm
    obtain ⟨hpos, -, -⟩ := h1 k i hk
    refine ⟨_, ho, ?_, ?_⟩
    · exact usable_of_hostBits hw (by omega) (hb _ (List.mem_of_getElem? ho))
    · have : ipamStart pfx = ((if 2 ^ (pfx.w - pfx.plen) > 2 then 1 else 0 : Nat) : Int) := by
        rw [hst0]; split <;> rfl
      omega
  · intro j k x y hjk hx hy hxm hym
    obtain ⟨o1, l1, z1⟩ := key j x hx hxm
    obtain ⟨o2, l2, -⟩ := key k y hy hym
    rw [o1, o2]
    simp only [Option.map_some, ne_eq, Option.some.injEq, IfAddr.addr.injEq, not_and]
    intro he
    have hj := (List.getElem?_eq_some_iff.1 hx).1
    have hk := (List.getElem?_eq_some_iff.1 hy).1
    have := h2 j k hj hk
    omega
  · intro j k x y hx hy hxm hym hlt
    obtain ⟨o1, l1, z1⟩ := key j x hx hxm
    obtain ⟨o2, l2, -⟩ := key k y hy hym
    refine ⟨_, _, o1, o2, ?_⟩
    have := h3 j k x y hx hy hlt
    omega

/-- **C08 (two nodes).**  On a link with two nodes the node with the smaller name gets the
first usable address of the prefix and the other node the second one. -/
theorem C08_two_nodes (p2p : Bool) (gwid : Option Int) (alloc : Option Policy)
    (ids : String → Int) (loop : String → Option Bool) (v6 : Bool) (pfx : Net)
    (x y : String) (out : List LinkIntf) (hxy : x < y)
    (hp : choosePolicy p2p gwid alloc ids pfx [⟨x, .missing⟩, ⟨y, .missing⟩] = some .p2p)
    (h : assignAf p2p gwid alloc ids loop v6 pfx [⟨x, .missing⟩, ⟨y, .missing⟩] = some (out, true)) :
    let first := pfx.base + (if 2 ^ (pfx.w - pfx.plen) > 2 then 1 else 0)
    out = [⟨x, .addr first pfx.plen⟩, ⟨y, .addr (first + 1) pfx.plen⟩] := by
  obtain ⟨p, hp', -, hr, hb⟩ := assignAf_ok h
  rw [hp] at hp'
  cases hp'
  simp only [runPolicy, Option.some.injEq] at hr
  obtain ⟨hlen, pos, h1, h2, h3, -⟩ := ipamP2p_positions pfx _ out true hr
  have a1 := h1 0 ⟨x, .missing⟩ rfl
  have a2 := h1 1 ⟨y, .missing⟩ rfl
  have a3 := h3 0 1 _ _ rfl rfl hxy
  simp only [List.length_cons, List.length_nil] at a1 a2 hlen
  have p0 : pos 0 = 0 := by omega
  have p1 : pos 1 = 1 := by omega
  have hst : ipamStart pfx = ((if 2 ^ (pfx.w - pfx.plen) > 2 then 1 else 0 : Nat) : Int) := by
    unfold ipamStart; rw [net_size]; split <;> rfl
  generalize (if 2 ^ (pfx.w - pfx.plen) > 2 then 1 else 0 : Nat) = st at *
  rw [p0] at a1
  rw [p1] at a2
  obtain ⟨-, o1, s1⟩ := a1
  obtain ⟨-, o2, s2⟩ := a2
  obtain ⟨-, e1⟩ := setMissing_ok (by omega) (s1 trivial)
  obtain ⟨-, e2⟩ := setMissing_ok (by omega) (s2 trivial)
  simp only [e1] at o1
  simp only [e2] at o2
  have f1 : (ipamStart pfx + (0:Nat)).toNat = st := by omega
  have f2 : (ipamStart pfx + (1:Nat)).toNat = st + 1 := by omega
  rw [f1] at o1
  rw [f2] at o2
  match out, hlen with
  | [u, v], _ =>
    simp only [List.getElem?_cons_zero, List.getElem?_cons_succ, Option.some.injEq] at o1 o2
    rw [o1, o2]
    rfl

/-! ### C51: duplicate addresses -/

/-- **C51.**  The duplicate-address check reports no error exactly when all addresses on the
link are pairwise different and none of them is the address of the first-hop gateway. -/
theorem C51_duplicate_check_exact (gw : Option (Nat × Nat)) (ifs : List LinkIntf) :
    dupCheck gw ifs = 0 ↔
      (∀ (j k : Nat) (x y : LinkIntf) (a l : Nat), j ≠ k → ifs[j]? = some x → ifs[k]? = some y →
        x.ip = .addr a l → y.ip ≠ .addr a l) ∧
      (∀ x ∈ ifs, ∀ g, gw = some g → x.ip ≠ .addr g.1 g.2) := by
  unfold dupCheck
  rw [dupLoop_zero_iff]
  have hmem : ∀ a l, (a, l) ∈ linkAddrs ifs ↔ ∃ x ∈ ifs, x.ip = .addr a l := by
    intro a l
    simp only [linkAddrs, List.mem_filterMap]
    constructor
    · rintro ⟨x, hx, h⟩
      refine ⟨x, hx, ?_⟩
      split at h <;> simp_all
    · rintro ⟨x, hx, h⟩
      exact ⟨x, hx, by simp [h]⟩
  refine and_congr ?_ ?_
  · unfold List.Nodup linkAddrs
    rw [List.pairwise_filterMap, List.pairwise_iff_getElem]
    constructor
    · intro h j k x y a l hjk hx hy hxa hya
      obtain ⟨lj, rfl⟩ := List.getElem?_eq_some_iff.1 hx
      obtain ⟨lk, rfl⟩ := List.getElem?_eq_some_iff.1 hy
      rcases Nat.lt_or_gt_of_ne hjk with hlt | hlt
      · exact h j k lj lk hlt (a, l) (by simp [hxa]) (a, l) (by simp [hya]) rfl
      · exact h k j lk lj hlt (a, l) (by simp [hya]) (a, l) (by simp [hxa]) rfl
    · intro h j k hj hk hjk b hb c hc
      rintro rfl
      obtain ⟨a, l⟩ := b
      refine h j k ifs[j] ifs[k] a l (by omega) (by simp) (by simp) ?_ ?_
      · split at hb <;> simp_all
      · split at hc <;> simp_all
  · constructor
    · rintro h x hx g rfl hxa
      exact h g ((hmem _ _).2 ⟨x, hx, hxa⟩) (by simp)
    · rintro h ⟨a, l⟩ hx hg
      obtain ⟨x, hx, hxa⟩ := (hmem _ _).1 hx
      exact h x hx (a, l) (by simpa using hg) hxa

/-! ### C09: choice of the policy -/

/-- **C09 (explicit request).**  An `allocation` attribute of the prefix always wins. -/
theorem C09_explicit_allocation_wins (p2p : Bool) (gwid : Option Int) (p : Policy)
    (ids : String → Int) (pfx : Net) (ifs : List LinkIntf) :
    choosePolicy p2p gwid (some p) ids pfx ifs = some p := rfl

/-- **C09 (decision table).**  Without an explicit request and with at least one node on the
link, the policy is: on a p2p link without a gateway point-to-point if the prefix has at least
two addresses, otherwise an error; in all other cases
* point-to-point for two nodes and a two-address prefix;
* otherwise the number of available hosts `n` is the prefix size, reduced (for prefixes with
  more than two addresses) by the subnet and broadcast address or by everything from a
  gateway counted from the end: one available host is used as a loopback for a single node;
  ID-based if no node ID is larger than `n`; sequential if the nodes and a gateway counted
  from the start fit into `n`; otherwise an error. -/
theorem C09_decision_table (p2p : Bool) (gwid : Option Int) (ids : String → Int) (pfx : Net)
    (ifs : List LinkIntf) (hne : ifs ≠ []) (p : Policy) :
    choosePolicy p2p gwid none ids pfx ifs = some p ↔
      let gw := gwid.getD 0
      let size : Int := 2 ^ (pfx.w - pfx.plen)
      let n : Int := if size > 2 then (if gw < 0 then size - max 2 (1 - gw) else size - 2) else size
      let needed : Int := ifs.length + (if size > 2 ∧ gw > 0 then 1 else 0)
      if p2p = true ∧ gw = 0 then p = (if size ≥ 2 then .p2p else .error)
      else if size = 2 ∧ ifs.length = 2 then p = .p2p
      else if n = 1 then p = (if ifs.length = 1 then .loopback else .error)
      else if ∀ i ∈ ifs, ids i.node ≤ n then p = .idBased
      else if needed ≤ n then p = .sequential
      else p = .error := by
  simp only [choosePolicy]
  generalize gwid.getD 0 = gw
  have hszN : pfx.size = 2 ^ (pfx.w - pfx.plen) := rfl
  have hcast : ((2 : Int) ^ (pfx.w - pfx.plen)) = (pfx.size : Int) := by rw [hszN]; push_cast; rfl
  rw [hcast]
  have hpos := net_size_pos pfx
  generalize hsz : pfx.size = s at *
  obtain ⟨m, hm⟩ := listMax?_isSome (l := ifs.map (fun i => ids i.node)) (by simpa using hne)
  have hmax : ∀ n : Int, m ≤ n ↔ ∀ i ∈ ifs, ids i.node ≤ n := by
    intro n
    constructor
    · intro h i hi
      have := listMax?_ge hm (ids i.node) (List.mem_map.2 ⟨i, hi, rfl⟩)
      omega
    · intro h
      have : ∀ l : List Int, ∀ m, listMax? l = some m → (∀ x ∈ l, x ≤ n) → m ≤ n := by
        intro l
        induction l with
        | nil => intro m hm; cases hm
        | cons y ys ih =>
          intro m hm hall
          simp only [listMax?] at hm
          split at hm
          · cases hm; exact hall _ (by simp)
          · rename_i k hk
            cases hm
            have h1 := hall y (by simp)
            have h2 := ih k hk (fun x hx => hall x (by simp [hx]))
            omega
      exact this _ m hm (fun x hx => by
        obtain ⟨i, hi, rfl⟩ := List.mem_map.1 hx
        exact h i hi)
  simp only [ipamPolicy, hm, hsz, List.length_map]
  by_cases h1 : p2p = true ∧ gw = 0
  · have h1' : (p2p && gw == 0) = true := by simpa using h1
    rw [if_pos h1', if_pos h1]
    have : (s > 1) ↔ ((s : Int) ≥ 2) := by omega
    simp only [Option.some.injEq, this]
    exact eq_comm
  · have h1' : (p2p && gw == 0) = false := by
      rw [Bool.eq_false_iff]; simpa using h1
    rw [h1', if_neg h1]
    simp only [Bool.false_eq_true, if_false]
    by_cases h2 : s = 2 ∧ ifs.length = 2
    · have h2' : (s == 2 && ifs.length == 2) = true := by simpa using h2
      have h2i : ((s : Int) = 2 ∧ ifs.length = 2) := by omega
      rw [if_pos h2', if_pos h2i]
      simp only [Option.some.injEq]
      exact eq_comm
    · have h2' : (s == 2 && ifs.length == 2) = false := by
        rw [Bool.eq_false_iff]; simpa using h2
      have h2i : ¬ ((s : Int) = 2 ∧ ifs.length = 2) := by omega
      rw [h2', if_neg h2i]
      simp only [Bool.false_eq_true, if_false]
      have hn : (if s > 2 then (s : Int) + (if gw < 0 then min (-2) (gw - 1) else -2) else (s : Int)) =
          (if (s : Int) > 2 then (if gw < 0 then (s : Int) - max 2 (1 - gw) else (s : Int) - 2)
            else (s : Int)) := by
        by_cases hs : s > 2
        · have hs' : (s : Int) > 2 := by omega
          rw [if_pos hs, if_pos hs']
          split <;> omega
        · have hs' : ¬ (s : Int) > 2 := by omega
          rw [if_neg hs, if_neg hs']
      have hx : (if (decide (s > 2) && decide (gw > 0)) = true then (1 : Int) else 0) =
          if (s : Int) > 2 ∧ gw > 0 then 1 else 0 := by
        by_cases hs : (s : Int) > 2 ∧ gw > 0
        · rw [if_pos hs, if_pos (by simp; omega)]
        · rw [if_neg hs, if_neg (by simp; omega)]
      rw [hn, hx]
      generalize (if (s : Int) > 2 then (if gw < 0 then (s : Int) - max 2 (1 - gw) else (s : Int) - 2)
            else (s : Int)) = n
      simp only [beq_iff_eq, hmax n]
      by_cases c1 : n = 1
      · rw [if_pos c1, if_pos c1, Option.some.injEq]; exact eq_comm
      · rw [if_neg c1, if_neg c1]
        by_cases c2 : ∀ i ∈ ifs, ids i.node ≤ n
        · rw [if_pos c2, if_pos c2, Option.some.injEq]; exact eq_comm
        · rw [if_neg c2, if_neg c2]
          generalize (if (s : Int) > 2 ∧ gw > 0 then (1 : Int) else 0) = e
          split
          · rw [Option.some.injEq]; exact eq_comm
          · rw [Option.some.injEq]; exact eq_comm

/-- Host numbers used by an automatically selected policy: within the usable range, and
different from each other and from the gateway. -/
private theorem auto_hosts (p2p : Bool) (gwid : Option Int) (ids : String → Int)
    (loop : String → Option Bool) (v6 : Bool) (pfx : Net) (ifs : List LinkIntf) (hw : pfx.WF)
    (hsz : 2 < 2 ^ (pfx.w - pfx.plen))
    (hmc : ∀ a, Covers pfx a → isMulticast pfx.w a = false)
    (hmiss : ∀ i ∈ ifs, i.ip = .missing) (hids : ∀ i ∈ ifs, 1 ≤ ids i.node) (hne : ifs ≠ [])
    (hp2 : p2p = true → ifs.length ≤ 2) (p : Policy)
    (hp : choosePolicy p2p gwid none ids pfx ifs = some p)
    (hpe : p ≠ .error) (hpl : p ≠ .loopback) :
    ∃ out, assignAf p2p gwid none ids loop v6 pfx ifs = some (out, true) ∧
      out.length = ifs.length ∧ ∃ hst : Nat → Int,
      (∀ (k : Nat) (i : LinkIntf), ifs[k]? = some i →
        out[k]? = some ⟨i.node, .addr (pfx.base + (hst k).toNat) pfx.plen⟩ ∧
        1 ≤ hst k ∧ hst k ≤ pfx.size - 2 ∧ (gwid.getD 0 < 0 → hst k < pfx.size + gwid.getD 0) ∧
        (gwid.getD 0 > 0 → gwid.getD 0 ≠ ids i.node → hst k ≠ gwid.getD 0)) ∧
      (∀ (j k : Nat) (x y : LinkIntf), ifs[j]? = some x → ifs[k]? = some y →
        ids x.node ≠ ids y.node → j ≠ k → hst j ≠ hst k) := by
  have htab := (C09_decision_table p2p gwid ids pfx ifs hne p).1 hp
  have hszN : pfx.size = 2 ^ (pfx.w - pfx.plen) := rfl
  have hcast : ((2 : Int) ^ (pfx.w - pfx.plen)) = (pfx.size : Int) := by rw [hszN]; push_cast; rfl
  simp only [hcast] at htab
  rw [← hszN] at hsz
  have hs2 : (pfx.size : Int) > 2 := by omega
  have hs4 : (pfx.size : Int) ≥ 4 := by
    rcases hk : pfx.w - pfx.plen with _ | _ | n
    · rw [hszN, hk] at hsz; simp at hsz
    · rw [hszN, hk] at hsz; simp at hsz
    · rw [hszN, hk, Nat.pow_succ, Nat.pow_succ]
      have := Nat.two_pow_pos n
      omega
  have hst1 : ipamStart pfx = 1 := by unfold ipamStart; rw [if_pos hsz]
  -- a list with host numbers in range passes the final check
  have hfin : ∀ (h : Int) (n : String), 1 ≤ h → h ≤ pfx.size - 2 →
      hostBitsOk pfx.w (.addr (pfx.base + h.toNat) pfx.plen) = true := by
    intro h n h1 h2
    have hlt : h.toNat < pfx.size := by omega
    refine (hostBitsOk_host hw hlt).2 ⟨hmc _ ⟨by omega, ?_⟩, fun _ => by omega⟩
    rw [← hszN]; omega
  have main : ∀ (out : List LinkIntf) (hst : Nat → Int),
      runPolicy p pfx gwid ids loop v6 ifs = some (out, true) → out.length = ifs.length →
      (∀ (k : Nat) (i : LinkIntf), ifs[k]? = some i →
        out[k]? = some ⟨i.node, .addr (pfx.base + (hst k).toNat) pfx.plen⟩ ∧
        1 ≤ hst k ∧ hst k ≤ pfx.size - 2) →
      assignAf p2p gwid none ids loop v6 pfx ifs = some (out, true) := by
    intro out hst hr hlen hall
    rw [assignAf_eq hp hpe, hr]
    simp only [Option.map_some, Bool.true_and, Option.some.injEq, Prod.mk.injEq, true_and,
      List.all_eq_true]
    intro o ho
    obtain ⟨k, hk, rfl⟩ := List.mem_iff_getElem.1 ho
    have hk' : k < ifs.length := by omega
    obtain ⟨e, h1, h2⟩ := hall k ifs[k] (by simp [hk'])
    rw [List.getElem?_eq_getElem hk, Option.some.injEq] at e
    rw [e]
    exact hfin _ "" h1 h2
  by_cases c0 : p2p = true ∧ gwid.getD 0 = 0
  · rw [if_pos c0, if_pos (by omega)] at htab
    subst htab
    have hlen2 := hp2 c0.1
    rcases hr : ipamP2p pfx ifs with ⟨out, ok⟩
    obtain ⟨hlen, pos, h1, h2, -, h4⟩ := ipamP2p_positions pfx ifs out ok hr
    have fit : ∀ (k : Nat) (i : LinkIntf), ifs[k]? = some i →
        setAddress pfx (ipamStart pfx + pos k) i.ip =
          (.addr (pfx.base + ((1 : Int) + pos k).toNat) pfx.plen, true) := by
      intro k i hk
      have := (h1 k i hk).1
      rw [hmiss i (List.mem_of_getElem? hk), hst1]
      exact setAddress_missing_fit (by omega) (by omega)
    have hok : ok = true := h4 (fun k i hk => by rw [fit k i hk])
    subst hok
    have hall : ∀ (k : Nat) (i : LinkIntf), ifs[k]? = some i →
        out[k]? = some ⟨i.node, .addr (pfx.base + ((1 : Int) + pos k).toNat) pfx.plen⟩ ∧
        (1 : Int) ≤ 1 + pos k ∧ (1 : Int) + pos k ≤ pfx.size - 2 := by
      intro k i hk
      obtain ⟨hb, ho, -⟩ := h1 k i hk
      rw [fit k i hk] at ho
      exact ⟨ho, by omega, by omega⟩
    refine ⟨out, main out (fun k => 1 + pos k) (by simp [runPolicy, hr]) hlen hall, hlen,
      fun k => 1 + pos k, ?_, ?_⟩
    · intro k i hk
      obtain ⟨a, b, c⟩ := hall k i hk
      exact ⟨a, b, c, by omega, by omega⟩
    · intro j k x y hx hy _ hjk he
      have hj := (List.getElem?_eq_some_iff.1 hx).1
      have hk := (List.getElem?_eq_some_iff.1 hy).1
      have := h2 j k hj hk
      simp only at he
      omega
  · rw [if_neg c0] at htab
    have c1 : ¬ ((pfx.size : Int) = 2 ∧ ifs.length = 2) := by omega
    rw [if_neg c1] at htab
    simp only [if_pos hs2] at htab
    generalize hn : (if gwid.getD 0 < 0 then (pfx.size : Int) - max 2 (1 - gwid.getD 0)
      else (pfx.size : Int) - 2) = n at htab
    have hn1 : n ≤ pfx.size - 2 := by rw [← hn]; split <;> omega
    have hn2 : gwid.getD 0 < 0 → n < pfx.size + gwid.getD 0 := by
      intro h; rw [← hn, if_pos h]; omega
    by_cases c2 : n = 1
    · rw [if_pos c2] at htab
      split at htab
      · exact absurd htab hpl
      · exact absurd htab hpe
    rw [if_neg c2] at htab
    by_cases c3 : ∀ i ∈ ifs, ids i.node ≤ n
    · rw [if_pos c3] at htab
      subst htab
      have hr : ipamIdBased pfx ids ifs =
          (ifs.map (fun i => ⟨i.node, .addr (pfx.base + (ids i.node).toNat) pfx.plen⟩), true) := by
        rw [ipamIdBased_eq]
        have fit : ∀ i ∈ ifs, setAddress pfx (ids i.node) i.ip =
            (.addr (pfx.base + (ids i.node).toNat) pfx.plen, true) := by
          intro i hi
          have h1 := hids i hi
          have h2 := c3 i hi
          rw [hmiss i hi]
          exact setAddress_missing_fit (by omega) (by omega)
        refine Prod.ext ?_ ?_
        · exact List.map_congr_left (fun i hi => by rw [fit i hi])
        · simp only [List.all_eq_true]
          intro i hi
          rw [fit i hi]
      let hst : Nat → Int := fun k => (ifs[k]?.map (fun i => ids i.node)).getD 0
      have hall : ∀ (k : Nat) (i : LinkIntf), ifs[k]? = some i →
          (ifs.map (fun i => (⟨i.node, .addr (pfx.base + (ids i.node).toNat) pfx.plen⟩ : LinkIntf)))[k]?
            = some ⟨i.node, .addr (pfx.base + (hst k).toNat) pfx.plen⟩ ∧
          1 ≤ hst k ∧ hst k ≤ pfx.size - 2 := by
        intro k i hk
        have hm := List.mem_of_getElem? hk
        have h1 := hids i hm
        have h2 := c3 i hm
        have he : hst k = ids i.node := by simp [hst, hk]
        rw [he]
        refine ⟨by simp [hk], by omega, by omega⟩
      refine ⟨_, main _ hst (by simp [runPolicy, hr]) (by simp) hall, by simp, hst, ?_, ?_⟩
      · intro k i hk
        obtain ⟨a, b, c⟩ := hall k i hk
        have h2 := c3 i (List.mem_of_getElem? hk)
        have he : hst k = ids i.node := by simp [hst, hk]
        exact ⟨a, b, c, by omega, by omega⟩
      · intro j k x y hx hy hne _
        simpa [hst, hx, hy] using hne
    · rw [if_neg c3] at htab
      generalize he : (if (pfx.size : Int) > 2 ∧ gwid.getD 0 > 0 then (1 : Int) else 0) = e at htab
      by_cases c4 : (ifs.length : Int) + e ≤ n
      · rw [if_pos c4] at htab
        subst htab
        have hbound : ∀ k : Nat, k < ifs.length → 1 ≤ seqHost 1 gwid k ∧ seqHost 1 gwid k ≤ n := by
          intro k hk
          have h1 := seqHost_ge 1 gwid k
          refine ⟨by omega, ?_⟩
          unfold seqHost
          cases hg : gwid with
          | none =>
            simp only [hg, Option.getD_none] at he
            simp at he
            simp only
            omega
          | some g =>
            simp only [hg, Option.getD_some] at he
            simp only
            split
            · rw [if_pos (by omega)] at he; omega
            · have : e ≥ 0 := by rw [← he]; split <;> omega
              omega
        have fit : ∀ (k : Nat) (i : LinkIntf), ifs[k]? = some i →
            setAddress pfx (seqHost (ipamStart pfx) gwid k) i.ip =
              (.addr (pfx.base + (seqHost 1 gwid k).toNat) pfx.plen, true) := by
          intro k i hk
          have := hbound k (List.getElem?_eq_some_iff.1 hk).1
          rw [hmiss i (List.mem_of_getElem? hk), hst1]
          exact setAddress_missing_fit (by omega) (by omega)
        have hall : ∀ (k : Nat) (i : LinkIntf), ifs[k]? = some i →
            (ipamSequential pfx gwid ifs).1[k]? =
              some ⟨i.node, .addr (pfx.base + (seqHost 1 gwid k).toNat) pfx.plen⟩ ∧
            1 ≤ seqHost 1 gwid k ∧ seqHost 1 gwid k ≤ pfx.size - 2 := by
          intro k i hk
          have := hbound k (List.getElem?_eq_some_iff.1 hk).1
          refine ⟨?_, by omega, by omega⟩
          rw [ipamSequential_eq]
          simp only [List.getElem?_mapIdx, hk, Option.map_some, fit k i hk]
        have hok : (ipamSequential pfx gwid ifs).2 = true := by
          rw [ipamSequential_eq]
          simp only [List.all_eq_true]
          intro x hx
          have := List.mem_zipIdx_iff_getElem?.1 hx
          rw [fit x.2 x.1 this]
        have hlen : (ipamSequential pfx gwid ifs).1.length = ifs.length := by
          rw [ipamSequential_eq]; simp
        refine ⟨(ipamSequential pfx gwid ifs).1, main _ (seqHost 1 gwid) ?_ hlen hall, hlen,
          seqHost 1 gwid, ?_, ?_⟩
        · simp only [runPolicy, Option.some.injEq]
          exact Prod.ext rfl hok
        · intro k i hk
          obtain ⟨a, b, c⟩ := hall k i hk
          have := hbound k (List.getElem?_eq_some_iff.1 hk).1
          refine ⟨a, b, c, by omega, ?_⟩
          intro hg _ heq
          cases hgw : gwid with
          | none => simp [hgw] at hg
          | some g =>
            simp only [hgw, Option.getD_some] at heq
            exact seqHost_ne_gw 1 g k heq
        · intro j k x y _ _ _ hjk he
          rcases Nat.lt_or_gt_of_ne hjk with hlt | hlt
          · have := seqHost_strictMono 1 gwid hlt; omega
          · have := seqHost_strictMono 1 gwid hlt; omega
      · rw [if_neg c4] at htab
        exact absurd htab hpe

/-- **C09 (success).**  When the policy is selected automatically for a prefix with more than
two addresses and the selection is not an error (nor the single-address case), then all
interfaces get an address: every interface without a static address has a usable address
of the prefix, and with pairwise different node IDs (none of them used as the gateway ID)
no two interfaces share an address and no interface has the address of the gateway. -/
theorem C09_automatic_choice_succeeds (p2p : Bool) (gwid : Option Int) (ids : String → Int)
    (loop : String → Option Bool) (v6 : Bool) (pfx : Net) (ifs : List LinkIntf) (hw : pfx.WF)
    (hsz : 2 < 2 ^ (pfx.w - pfx.plen))
    (hmc : ∀ a, Covers pfx a → isMulticast pfx.w a = false)
    (hmiss : ∀ i ∈ ifs, i.ip = .missing) (hids : ∀ i ∈ ifs, 1 ≤ ids i.node) (hne : ifs ≠ [])
    (hp2 : p2p = true → ifs.length ≤ 2) (p : Policy)
    (hp : choosePolicy p2p gwid none ids pfx ifs = some p)
    (hpe : p ≠ .error) (hpl : p ≠ .loopback)
    (hdist : ∀ (j k : Nat) (x y : LinkIntf), j ≠ k → ifs[j]? = some x → ifs[k]? = some y →
      ids x.node ≠ ids y.node)
    (hgw : ∀ i ∈ ifs, gwid ≠ some (ids i.node)) :
    ∃ out, assignAf p2p gwid none ids loop v6 pfx ifs = some (out, true) ∧
      out.length = ifs.length ∧
      (∀ (k : Nat) (i : LinkIntf), ifs[k]? = some i → ∃ a,
        out[k]? = some ⟨i.node, .addr a pfx.plen⟩ ∧ UsableHost pfx a) ∧
      dupCheck (gatewayAddr pfx gwid) out = 0 := by
  obtain ⟨out, ha, hlen, hst, h1, h2⟩ := auto_hosts p2p gwid ids loop v6 pfx ifs hw hsz hmc hmiss
    hids hne hp2 p hp hpe hpl
  refine ⟨out, ha, hlen, ?_, ?_⟩
  · intro k i hk
    obtain ⟨ho, b, c, -, -⟩ := h1 k i hk
    refine ⟨_, ho, ⟨by omega, ?_⟩, fun _ => ?_⟩
    · rw [← net_size]; omega
    · rw [← net_size]; omega
  · rw [C51_duplicate_check_exact]
    constructor
    · intro j k x y a l hjk hx hy hxa hya
      have lj : j < ifs.length := by rw [← hlen]; exact (List.getElem?_eq_some_iff.1 hx).1
      have lk : k < ifs.length := by rw [← hlen]; exact (List.getElem?_eq_some_iff.1 hy).1
      have gj : ifs[j]? = some ifs[j] := by simp [lj]
      have gk : ifs[k]? = some ifs[k] := by simp [lk]
      obtain ⟨oj, bj, cj, -⟩ := h1 j _ gj
      obtain ⟨ok, bk, ck, -⟩ := h1 k _ gk
      have := h2 j k _ _ gj gk (hdist j k _ _ hjk gj gk) hjk
      rw [hx, Option.some.injEq] at oj
      rw [hy, Option.some.injEq] at ok
      subst oj ok
      simp only [IfAddr.addr.injEq] at hxa hya
      omega
    · intro x hx g hg hxa
      obtain ⟨k, lk, rfl⟩ := List.mem_iff_getElem.1 hx
      have lk' : k < ifs.length := by omega
      have gk : ifs[k]? = some ifs[k] := by simp [lk']
      obtain ⟨ok, bk, ck, dk, ek⟩ := h1 k _ gk
      rw [List.getElem?_eq_getElem lk, Option.some.injEq] at ok
      rw [ok] at hxa
      simp only [IfAddr.addr.injEq] at hxa
      cases hgid : gwid with
      | none => simp [gatewayAddr, hgid] at hg
      | some gi =>
        have hgi : gi ≠ ids ifs[k].node := by
          intro h
          exact hgw ifs[k] (List.getElem_mem lk') (by rw [hgid, h])
        simp only [hgid, Option.getD_some] at dk ek
        simp only [gatewayAddr, hgid] at hg
        split at hg
        · cases hg
        · rename_i h0
          simp only [beq_iff_eq] at h0
          have := net_size_pos pfx
          unfold Net.nth? at hg
          split at hg
          · split at hg
            · simp only [Option.map_some, Option.some.injEq] at hg
              subst hg
              simp only at hxa
              have := ek (by omega) hgi
              omega
            · cases hg
          · split at hg
            · simp only [Option.map_some, Option.some.injEq] at hg
              subst hg
              simp only at hxa
              have := dk (by omega)
              omega
            · cases hg

/-- **C09 (corner case, two-address prefix).**  A single node with ID 2 on a link with a `/31`
prefix: the ID is accepted as small enough, ID-based addressing is selected, and the
address computation fails. -/
theorem C09_single_node_on_31_fails :
    choosePolicy false none none (fun _ => 2) ⟨32, 167772160, 31⟩ [⟨"a", .missing⟩] = some .idBased ∧
    assignAf false none none (fun _ => 2) (fun _ => none) false ⟨32, 167772160, 31⟩ [⟨"a", .missing⟩] =
      some ([⟨"a", .missing⟩], false) := by decide

/-- **C09 (corner case, gateway at the end of a four-address prefix).**  With gateway ID -2 on
a `/30` prefix there is one address left for a node, and the node is not given that address
(10.0.0.1/30) but the subnet address 10.0.0.0/32. -/
theorem C09_gateway_at_the_end_of_30 :
    choosePolicy false (some (-2)) none (fun _ => 1) ⟨32, 167772160, 30⟩ [⟨"a", .missing⟩] =
      some .loopback ∧
    assignAf false (some (-2)) none (fun _ => 1) (fun _ => none) false ⟨32, 167772160, 30⟩
      [⟨"a", .missing⟩] = some ([⟨"a", .addr 167772160 32⟩], true) := by decide

/-! ### The hypotheses are satisfiable -/

/-- C08: p2p link 10.1.0.0/30 between nodes `r2` and `r1` (listed in that order) -/
example :
    choosePolicy true none none (fun n => if n = "r1" then 1 else 2) ⟨32, 167837696, 30⟩
      [⟨"r2", .missing⟩, ⟨"r1", .missing⟩] = some .p2p ∧
    assignAf true none none (fun n => if n = "r1" then 1 else 2) (fun _ => none) false
      ⟨32, 167837696, 30⟩ [⟨"r2", .missing⟩, ⟨"r1", .missing⟩] =
      some ([⟨"r2", .addr 167837698 30⟩, ⟨"r1", .addr 167837697 30⟩], true) := by
  refine ⟨by decide, ?_⟩
  simp [assignAf, choosePolicy, ipamPolicy, runPolicy, ipamP2p, ipamP2pLoop, ipamStart, Net.size,
    List.mergeSort, List.MergeSort.Internal.splitInTwo, setAddress, nthIp, Net.nth?,
    hostBitsOk, isMulticast]

/-- C08 (two nodes): a /31 link -/
example :
    choosePolicy true none none (fun _ => 7) ⟨32, 167837696, 31⟩
      [⟨"r1", .missing⟩, ⟨"r2", .missing⟩] = some .p2p ∧
    assignAf true none none (fun _ => 7) (fun _ => none) false
      ⟨32, 167837696, 31⟩ [⟨"r1", .missing⟩, ⟨"r2", .missing⟩] =
      some ([⟨"r1", .addr 167837696 31⟩, ⟨"r2", .addr 167837697 31⟩], true) ∧
    ("r1" : String) < "r2" := by
  refine ⟨by decide, ?_, by decide⟩
  simp [assignAf, choosePolicy, ipamPolicy, runPolicy, ipamP2p, ipamP2pLoop, ipamStart, Net.size,
    List.mergeSort, List.MergeSort.Internal.splitInTwo, setAddress, nthIp, Net.nth?,
    hostBitsOk, isMulticast]

/-- C09: three nodes with IDs 1, 2 and 300 and gateway 1.. on 172.16.0.0/24: sequential
allocation, no multicast address in the prefix -/
example :
    choosePolicy false (some 1) none (fun n => if n = "a" then 2 else if n = "b" then 3 else 300)
      ⟨32, 2886729728, 24⟩ [⟨"a", .missing⟩, ⟨"b", .missing⟩, ⟨"c", .missing⟩] = some .sequential ∧
    (⟨32, 2886729728, 24⟩ : Net).WF ∧
    (∀ a, Covers ⟨32, 2886729728, 24⟩ a → isMulticast 32 a = false) := by
  refine ⟨by decide, by unfold Net.WF; decide, ?_⟩
  rintro a ⟨h1, h2⟩
  simp only at h1 h2
  simp [isMulticast]
  omega

/-- C51: a duplicate is found, different addresses are accepted -/
example : dupCheck (some (5, 24)) [⟨"a", .addr 6 24⟩, ⟨"b", .addr 6 24⟩] = 1 ∧
    dupCheck (some (5, 24)) [⟨"a", .addr 6 24⟩, ⟨"b", .addr 7 24⟩] = 0 := by decide

end Netlab
