import Verif.Model.Links
import Std.Data.String.ToNat
/-!
# C11, C52, C53: link indices, interface MTU, bridge names
-/

namespace Netlab

/-! ### C11: link indices -/

private theorem next_gt {start : Int} {links : List Int} (h : links.Pairwise (· < ·)) :
    ∀ x ∈ links, x < nextLinkindex start links := by
  intro x hx
  unfold nextLinkindex
  cases hl : links.getLast? with
  | none => simp [List.getLast?_eq_none_iff.1 hl] at hx
  | some y =>
    obtain ⟨ys, hys⟩ := List.getLast?_eq_some_iff.1 hl
    subst hys
    simp only [List.mem_append, List.mem_singleton] at hx
    rw [List.pairwise_append] at h
    rcases hx with hx | hx
    · have := h.2.2 x hx y (by simp)
      simp only
      omega
    · simp only
      omega

/-- **C11 (start).**  Links in the lab topology are numbered in order starting with the
configured first index; the first link of a topology without links gets that index too. -/
theorem C11_numbered_from_start (start : Int) (n : Nat) :
    (setLinkindex start n).length = n ∧
    (∀ (k : Nat), k < n → (setLinkindex start n)[k]? = some (start + k)) ∧
    nextLinkindex start [] = start := by
  refine ⟨by simp [setLinkindex], ?_, rfl⟩
  intro k hk
  simp [setLinkindex, hk]

/-- **C11 (unique).**  After the links are numbered and any number of links is then added
with the next index or removed, link indices are strictly increasing along the list of
links, hence pairwise different, and the index of the next link is larger than all
existing ones. -/
theorem C11_unique_indices (start : Int) (n : Nat) (ops : List LinkOp)
    (hops : ∀ op ∈ ops, op ≠ .addLag) :
    (linkHistory start n ops).Pairwise (· < ·) ∧
    ∀ x ∈ linkHistory start n ops, x < nextLinkindex start (linkHistory start n ops) := by
  have gen : ∀ (ops : List LinkOp) (links : List Int), (∀ op ∈ ops, op ≠ .addLag) →
      links.Pairwise (· < ·) → (ops.foldl (LinkOp.apply start) links).Pairwise (· < ·) := by
    intro ops
    induction ops with
    | nil => intro links _ h; exact h
    | cons op ops ih =>
      intro links hops h
      refine ih _ (fun o ho => hops o (by simp [ho])) ?_
      cases op with
      | addNext =>
        simp only [LinkOp.apply]
        rw [List.pairwise_append]
        exact ⟨h, by simp, fun a ha b hb => by
          simp only [List.mem_singleton] at hb
          rw [hb]; exact next_gt h a ha⟩
      | addLag => exact absurd rfl (hops .addLag (by simp))
      | retain keep => exact h.filter _
  have h0 : (setLinkindex start n).Pairwise (· < ·) := by
    unfold setLinkindex
    rw [List.pairwise_map]
    exact List.pairwise_lt_range.imp (fun h => by omega)
  have h1 := gen ops _ hops h0
  exact ⟨h1, next_gt h1⟩

/-- **C11 (lookup).**  A lookup by index then finds the link with that index. -/
theorem C11_lookup (start : Int) (n : Nat) (ops : List LinkOp) (hops : ∀ op ∈ ops, op ≠ .addLag)
    (k : Nat) (i : Int) (hk : (linkHistory start n ops)[k]? = some i) :
    linkByIndex (linkHistory start n ops) i = some k := by
  have h := (C11_unique_indices start n ops hops).1
  unfold linkByIndex
  obtain ⟨lk, rfl⟩ := List.getElem?_eq_some_iff.1 hk
  rw [List.findIdx?_eq_some_iff_getElem]
  refine ⟨lk, by simp, ?_⟩
  intro j hj
  have := List.pairwise_iff_getElem.1 h j k (by omega) lk hj
  simp only [beq_iff_eq]
  omega

/-- **C11 (LAG members and positional lookup).**  When numbering starts with 1 (the default)
and no link has been removed, links -- including the member links added by the LAG module --
are numbered 1, 2, 3... in list order.  The link with index `i` is then the one in
position `i-1`, as assumed by the LAG and VLAN modules. -/
theorem C11_default_start_is_positional (n : Nat) (ops : List LinkOp)
    (hops : ∀ op ∈ ops, op = .addNext ∨ op = .addLag) (k : Nat) (i : Int)
    (hk : (linkHistory 1 n ops)[k]? = some i) : i = (k : Int) + 1 := by
  have gen : ∀ (ops : List LinkOp) (links : List Int), (∀ op ∈ ops, op = .addNext ∨ op = .addLag) →
      (∀ (k : Nat) (i : Int), links[k]? = some i → i = (k : Int) + 1) →
      ∀ (k : Nat) (i : Int), (ops.foldl (LinkOp.apply 1) links)[k]? = some i → i = (k : Int) + 1 := by
    intro ops
    induction ops with
    | nil => intro links _ h; exact h
    | cons op ops ih =>
      intro links hops h
      have step : LinkOp.apply 1 links op = links ++ [(links.length : Int) + 1] := by
        rcases hops op (by simp) with rfl | rfl
        · simp only [LinkOp.apply, nextLinkindex]
          cases hl : links.getLast? with
          | none => simp [List.getLast?_eq_none_iff.1 hl]
          | some y =>
            rw [List.getLast?_eq_getElem?] at hl
            have := h _ y hl
            have hpos : links.length ≠ 0 := by
              intro h0
              have := (List.getElem?_eq_some_iff.1 hl).1
              omega
            simp only
            congr 2
            omega
        · rfl
      refine ih _ (fun o ho => hops o (by simp [ho])) ?_
      rw [step]
      intro k i hk
      rw [List.getElem?_append] at hk
      split at hk
      · exact h k i hk
      · rename_i hlt
        have hk0 := (List.getElem?_eq_some_iff.1 hk).1
        simp only [List.length_singleton] at hk0
        have : k = links.length := by omega
        subst this
        simp at hk
        omega
  refine gen ops _ hops ?_ k i hk
  intro k i hk
  simp only [setLinkindex, List.getElem?_map, Option.map_eq_some_iff] at hk
  obtain ⟨j, hj, rfl⟩ := hk
  have := List.getElem?_range (n := n) (i := k)
  have hlt : k < n := by
    have := (List.getElem?_eq_some_iff.1 hj).1
    simpa using this
  rw [List.getElem?_range hlt, Option.some.injEq] at hj
  omega

/-- **C11 (the claim is false for LAG members when the first index is not 1).**  With
`defaults.link_index: 2` and one link, the first LAG member link gets the index of the
existing link. -/
theorem C11_lag_member_index_collision : linkHistory 2 1 [.addLag] = [2, 2] := by decide

/-- Three links, two links added by modules, one removed, one more added -/
example : linkHistory 1 3 [.addNext, .addNext, .retain (fun i => i != 4), .addNext] = [1, 2, 3, 5, 6] ∧
    (∀ op ∈ [LinkOp.addNext, .addNext, .retain (fun i => i != 4), .addNext], op ≠ .addLag) := by
  refine ⟨by decide, ?_⟩
  intro op hop
  simp only [List.mem_cons, List.not_mem_nil, or_false] at hop
  rcases hop with rfl | rfl | rfl | rfl <;> exact fun h => by cases h

/-! ### C52: interface MTU -/

/-- The MTU a device applies to an interface: the interface MTU, or the system MTU if the
device has one -/
def Spec.effectiveMtu (nodeMtu : Option Int) (sysMtu : Bool) (ifMtu : Option Int) : Option Int :=
  match ifMtu with
  | some m => some m
  | none => if sysMtu then nodeMtu else none

/-- **C52.**  On a node with an MTU setting, the effective MTU of a non-loopback interface is
the MTU configured on the interface, or the node MTU when the interface has none; the
interface setting is dropped only if the device applies the same value as system MTU.
Without a node MTU the interface setting does not change, and loopbacks have no MTU. -/
theorem C52_effective_mtu (d : NodeDev) (ty : Option String) (m : Option Int) :
    (ty = some "loopback" → ifMtu d ty m = none) ∧
    (ty ≠ some "loopback" → d.mtu.getD 0 = 0 → ifMtu d ty m = m) ∧
    (ty ≠ some "loopback" → ∀ x, d.mtu = some x → x ≠ 0 →
      Spec.effectiveMtu d.mtu d.sysMtu (ifMtu d ty m) = some (m.getD x)) := by
  refine ⟨?_, ?_, ?_⟩
  · intro h; simp [ifMtu, h]
  · intro h h0; simp [ifMtu, h, h0]
  · intro h x hx hx0
    simp only [ifMtu, hx, Option.getD_some, if_neg h, if_neg hx0, Spec.effectiveMtu]
    cases m with
    | none => cases d.sysMtu <;> simp
    | some y =>
      cases d.sysMtu with
      | false => simp
      | true =>
        by_cases hy : x = y
        · subst hy; simp
        · simp [hy]

/-- **C52 (system MTU not repeated).**  On a device that supports system MTU, no interface is
configured with the node MTU. -/
theorem C52_system_mtu_not_repeated (d : NodeDev) (ty : Option String) (m : Option Int) (x : Int)
    (hs : d.sysMtu = true) (hx : d.mtu = some x) (hx0 : x ≠ 0) : ifMtu d ty m ≠ some x := by
  simp only [ifMtu, hx, hs, Option.getD_some, if_neg hx0]
  by_cases ht : ty = some "loopback"
  · simp [ht]
  · rw [if_neg ht]
    cases m with
    | none => simp
    | some y =>
      by_cases hy : x = y
      · subst hy; simp
      · simp [hy]
        exact fun h => hy h.symm

private def mtuDev (sys : Bool) : NodeDev where
  ifOffset := none
  loOffset := none
  ifFormat := none
  virtFormat := fun _ => none
  mtu := some 1500
  sysMtu := sys

example : ifMtu (mtuDev true) (some "lan") (some 1500) = none ∧
    ifMtu (mtuDev false) (some "lan") none = some 1500 := by decide

/-! ### C53: bridge names -/

/-- **C53 (unique).**  Bridge names created by netlab are different for different links. -/
theorem C53_bridge_names_unique (name : String) (i j : Nat)
    (h : bridgeName name i none = bridgeName name j none) : i = j := by
  simp only [bridgeName, Option.some.injEq] at h
  have h2 := congrArg String.toList h
  simp only [String.toList_append] at h2
  have h3 := List.append_cancel_left h2
  have h4 : toString i = toString j := String.toList_injective h3
  exact Nat.repr_inj.1 h4

/-- **C53 (length).**  A bridge name fits into 15 characters (the Linux limit) as long as the
link index is below 10000; longer user-specified names are rejected. -/
theorem C53_bridge_name_length (name : String) (i : Nat) (b : Option String) (r : String)
    (hi : i < 10000) (h : bridgeName name i b = some r) : r.length ≤ 15 := by
  cases b with
  | none =>
    simp only [bridgeName, Option.some.injEq] at h
    subst h
    have h4 : (toString i).length ≤ 4 := by
      have := (Nat.length_repr_le_iff (n := i) (k := 4) (by omega)).2 (by omega)
      exact this
    have h10 : (name.toList.take 10).length ≤ 10 := by simp; omega
    simp only [String.length_append, String.length_ofList]
    have h1 : ("_" : String).length = 1 := by decide
    omega
  | some b =>
    simp only [bridgeName] at h
    split at h
    · cases h
    · cases h; omega

/-- **C53 (the limit is not checked for generated names).**  Link index 10000 in a lab with a
ten-character name results in a bridge name with 16 characters. -/
theorem C53_generated_name_too_long :
    bridgeName "0123456789" 10000 none = some "0123456789_10000" ∧
    ("0123456789_10000" : String).length = 16 := by
  constructor
  · decide +kernel
  · decide

example : bridgeName "my_topology" 12 none = some "my_topolog_12" ∧
    bridgeName "x" 1 (some "averyveryverylongname") = none := by
  constructor <;> decide +kernel

end Netlab
