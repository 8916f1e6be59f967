import Std.Data.String.ToNat
import Verif.Spec.VlanTrunk
import Verif.Props.Svi
/-!
# C66: VLAN trunks and subinterfaces
-/

namespace Netlab
open Spec

/-! ### Trunks -/

/-- The interface with VLAN IDs. -/
def trunkMap (vlans : List (String × NVlan)) (i : SvIf) : SvIf :=
  if i.trunk.getD [] = [] then i else { i with trunkId := some (trunkIds vlans i) }

theorem mapTrunks_ok {vlans : List (String × NVlan)} {ifs l : List SvIf} (h : mapTrunks vlans ifs = .ok l) :
    l = ifs.map (trunkMap vlans) ∧ ∀ i ∈ ifs, ∀ v ∈ i.trunk.getD [], (vlans.lookup v).isSome := by
  induction ifs generalizing l with
  | nil =>
    simp only [mapTrunks, Except.ok.injEq] at h
    subst h
    simp
  | cons i rest ih =>
    simp only [mapTrunks] at h
    have hi : ∀ j, mapTrunk vlans i = .ok j → j = trunkMap vlans i ∧ ∀ v ∈ i.trunk.getD [], (vlans.lookup v).isSome := by
      intro j hj
      unfold mapTrunk at hj
      unfold trunkMap trunkIds
      split at hj
      · rename_i he
        simp only [Except.ok.injEq] at hj
        rw [if_pos he, he]
        exact ⟨hj.symm, by simp⟩
      · rename_i he
        split at hj
        · rename_i ha
          simp only [Except.ok.injEq] at hj
          rw [if_neg he]
          exact ⟨hj.symm, fun v hv => List.all_eq_true.mp ha v hv⟩
        · cases hj
    cases hm : mapTrunk vlans i with
    | error a => simp [hm] at h
    | ok j =>
      simp only [hm] at h
      cases hr : mapTrunks vlans rest with
      | error a => simp [hr] at h
      | ok l' =>
        simp only [hr, Except.ok.injEq] at h
        subst h
        obtain ⟨h1, h2⟩ := ih hr
        obtain ⟨h3, h4⟩ := hi j hm
        refine ⟨by rw [List.map_cons, h1, h3], ?_⟩
        intro x hx
        rcases List.mem_cons.mp hx with rfl | hx
        · exact h4
        · exact h2 x hx

/-! ### Parent interfaces -/

theorem filter_range_get {α : Type} (l : List α) (p : Option α → Bool) :
    ((List.range l.length).filter (fun j => p l[j]?)).map (fun j => l[j]?) = (l.filter (fun a => p (some a))).map some := by
  induction l with
  | nil => rfl
  | cons a rest ih =>
    rw [List.length_cons, List.range_succ_eq_map, List.filter_cons, List.filter_cons]
    have hr : ((List.map Nat.succ (List.range rest.length)).filter (fun j => p (a :: rest)[j]?)).map (fun j => (a :: rest)[j]?) =
        (rest.filter (fun a => p (some a))).map some := by
      rw [List.filter_map, List.map_map]
      simpa [Function.comp_def] using ih
    simp only [List.getElem?_cons_zero]
    split
    · rw [List.map_cons, List.map_cons, hr]
      rfl
    · exact hr

theorem parentPos_eq (ifs : List SvIf) (i : SvIf) :
    (parentPos ifs i).bind (fun j => ifs[j]?) = parentOf ifs i := by
  unfold parentPos parentOf
  simp only
  have h := filter_range_get ifs (fun o => o.bind (·.linkindex) == i.parentindex)
  simp only [Option.bind_some] at h
  generalize (List.range ifs.length).filter (fun j => (ifs[j]?.bind (·.linkindex)) == i.parentindex) = c at h ⊢
  generalize ifs.filter (fun p => p.linkindex == i.parentindex) = d at h ⊢
  have hlen : c.length = d.length := by
    have := congrArg List.length h
    simpa using this
  rw [hlen]
  generalize (if d.length = 1 then 0 else i.selfloop) = k
  have hk := congrArg (fun l => l[k]?) h
  simp only [List.getElem?_map] at hk
  cases hc : c[k]? with
  | none =>
    rw [hc] at hk
    cases hd : d[k]? with
    | none => rfl
    | some x => simp [hd] at hk
  | some j =>
    rw [hc] at hk
    cases hd : d[k]? with
    | none => simp [hd] at hk
    | some x =>
      rw [hd] at hk
      simpa using hk

theorem parentPos_spec {ifs : List SvIf} {i : SvIf} {j : Nat} (h : parentPos ifs i = some j) :
    j < ifs.length ∧ (ifs[j]?.bind (·.linkindex)) = i.parentindex := by
  unfold parentPos at h
  have := List.mem_of_getElem? h
  rw [List.mem_filter, List.mem_range] at this
  exact ⟨this.1, by simpa using this.2⟩

/-! ### The loop -/

/-- VLAN IDs of subinterfaces of the interface at position `j`, among the first `k` interfaces. -/
def subIds (l0 : List SvIf) (k j : Nat) : List (Option Nat) :=
  (List.range k).filterMap (fun y => l0[y]?.bind (fun i =>
    if i.kind = "vlan_member" ∧ i.parentindex ≠ none ∧ parentPos l0 i = some j then some i.accessId else none))

/-- The parent with the first `k` interfaces processed. -/
def parAt (f : VlanFeat) (l0 : List SvIf) (k j : Nat) (p : SvIf) : SvIf := (subIds l0 k j).foldl (addSub f) p

/-- The interface at position `x` with the first `k` interfaces processed. -/
def expect (f : VlanFeat) (l0 : List SvIf) (k x : Nat) (i : SvIf) : SvIf :=
  if i.kind = "vlan_member" then
    if i.parentindex ≠ none ∧ x < k then
      match (parentPos l0 i).bind (fun j => l0[j]?.map (fun p => (j, p))) with
      | none => i
      | some (j, p) => mkSub f (parAt f l0 (x + 1) j p) i
    else i
  else parAt f l0 k x i

/-- Parents are not member interfaces. -/
def ParentsOk (l0 : List SvIf) : Prop :=
  ∀ i ∈ l0, ∀ p ∈ l0, isMember i → i.parentindex ≠ none → p.linkindex = i.parentindex → ¬ isMember p

theorem addSub_keep (f : VlanFeat) (p : SvIf) (id : Option Nat) :
    (addSub f p id).linkindex = p.linkindex ∧ (addSub f p id).kind = p.kind ∧ (addSub f p id).ifname = p.ifname ∧
    (addSub f p id).ifindex = p.ifindex ∧ (addSub f p id).loopback = p.loopback ∧ (addSub f p id).nativeFlag = p.nativeFlag ∧
    (addSub f p id).mode = p.mode ∧ (addSub f p id).ip4 = p.ip4 ∧ (addSub f p id).ip6 = p.ip6 ∧
    (addSub f p id).isVirtual = p.isVirtual ∧ (addSub f p id).parentIfindex = p.parentIfindex ∧
    (addSub f p id).neighbors = p.neighbors ∧
    (addSub f p id).subifIndex = some (match p.subifIndex with
      | some n => n + 1
      | none => firstSub f) := by
  unfold addSub removeVlan nextSub firstSub
  simp only
  split
  · exact ⟨rfl, rfl, rfl, rfl, rfl, rfl, rfl, rfl, rfl, rfl, rfl, rfl, rfl⟩
  · split
    · split <;> exact ⟨rfl, rfl, rfl, rfl, rfl, rfl, rfl, rfl, rfl, rfl, rfl, rfl, rfl⟩
    · exact ⟨rfl, rfl, rfl, rfl, rfl, rfl, rfl, rfl, rfl, rfl, rfl, rfl, rfl⟩

theorem parAt_keep (f : VlanFeat) (ids : List (Option Nat)) (p : SvIf) :
    (ids.foldl (addSub f) p).linkindex = p.linkindex ∧ (ids.foldl (addSub f) p).kind = p.kind ∧
    (ids.foldl (addSub f) p).ifname = p.ifname ∧
    (ids.foldl (addSub f) p).ifindex = p.ifindex ∧ (ids.foldl (addSub f) p).loopback = p.loopback ∧
    (ids.foldl (addSub f) p).nativeFlag = p.nativeFlag ∧
    (ids.foldl (addSub f) p).mode = p.mode ∧ (ids.foldl (addSub f) p).ip4 = p.ip4 ∧ (ids.foldl (addSub f) p).ip6 = p.ip6 ∧
    (ids.foldl (addSub f) p).isVirtual = p.isVirtual ∧ (ids.foldl (addSub f) p).parentIfindex = p.parentIfindex ∧
    (ids.foldl (addSub f) p).neighbors = p.neighbors := by
  induction ids generalizing p with
  | nil => exact ⟨rfl, rfl, rfl, rfl, rfl, rfl, rfl, rfl, rfl, rfl, rfl, rfl⟩
  | cons id rest ih =>
    rw [List.foldl_cons]
    obtain ⟨a1, a2, a3, a4, a5, a6, a7, a8, a9, a10, a11, a12⟩ := ih (addSub f p id)
    obtain ⟨b1, b2, b3, b4, b5, b6, b7, b8, b9, b10, b11, b12, -⟩ := addSub_keep f p id
    exact ⟨a1.trans b1, a2.trans b2, a3.trans b3, a4.trans b4, a5.trans b5, a6.trans b6, a7.trans b7, a8.trans b8, a9.trans b9,
      a10.trans b10, a11.trans b11, a12.trans b12⟩

theorem subIds_succ (l0 : List SvIf) (k j : Nat) :
    subIds l0 (k + 1) j = subIds l0 k j ++ (l0[k]?.bind (fun i =>
      if i.kind = "vlan_member" ∧ i.parentindex ≠ none ∧ parentPos l0 i = some j then some i.accessId else none)).toList := by
  unfold subIds
  rw [List.range_succ, List.filterMap_append]
  congr 1

/-- The first `k` interfaces were processed. -/
def SubInv (f : VlanFeat) (l0 : List SvIf) (k : Nat) (l : List SvIf) : Prop :=
  l.length = l0.length ∧ ∀ x i, l0[x]? = some i → l[x]? = some (expect f l0 k x i)

theorem expect_linkindex (f : VlanFeat) (l0 : List SvIf) (k x : Nat) (i : SvIf) :
    (expect f l0 k x i).linkindex = i.linkindex ∨ ((expect f l0 k x i).linkindex = none ∧ i.kind = "vlan_member") := by
  unfold expect
  split
  · rename_i hm
    split
    · split
      · exact .inl rfl
      · exact .inr ⟨rfl, hm⟩
    · exact .inl rfl
  · exact .inl (parAt_keep f _ i).1

theorem parentPos_inv {f : VlanFeat} {l0 l : List SvIf} {k : Nat} (hok : ParentsOk l0) (hi : SubInv f l0 k l) {i : SvIf}
    (hi0 : i ∈ l0) (hm : isMember i) (hp : i.parentindex ≠ none) : parentPos l i = parentPos l0 i := by
  have : (List.range l.length).filter (fun j => (l[j]?.bind (·.linkindex)) == i.parentindex) =
      (List.range l0.length).filter (fun j => (l0[j]?.bind (·.linkindex)) == i.parentindex) := by
    rw [hi.1]
    apply List.filter_congr
    intro x hx
    rw [List.mem_range] at hx
    have h0 : l0[x]? = some l0[x] := List.getElem?_eq_getElem hx
    rw [hi.2 x _ h0, h0]
    simp only [Option.bind_some]
    rcases expect_linkindex f l0 k x l0[x] with h | ⟨h, hk⟩
    · rw [h]
    · rw [h]
      have h1 : (none == i.parentindex) = false := by
        cases hpi : i.parentindex with
        | none => exact absurd hpi hp
        | some _ => rfl
      have h2 : (l0[x].linkindex == i.parentindex) = false := by
        rw [beq_eq_false_iff_ne]
        intro he
        exact hok i hi0 l0[x] (List.getElem_mem hx) hm hp he hk
      rw [h1, h2]
  unfold parentPos
  simp only [this]

theorem subStep_inv {f : VlanFeat} {l0 l l' : List SvIf} {k : Nat} (hok : ParentsOk l0) (hi : SubInv f l0 k l)
    (h : subStep f l k = .ok (l', 0)) : SubInv f l0 (k + 1) l' ∧
      ∀ i, l0[k]? = some i → isMember i → f.model ≠ .switch ∧ (i.parentindex ≠ none → (parentOf l0 i).isSome) := by
  cases hk : l0[k]? with
  | none =>
    have hlk : l[k]? = none := by
      rw [List.getElem?_eq_none_iff] at hk ⊢
      rw [hi.1]
      exact hk
    unfold subStep at h
    simp only [hlk, Except.ok.injEq, Prod.mk.injEq, and_true] at h
    subst h
    refine ⟨⟨hi.1, ?_⟩, by simp⟩
    intro x i hx
    rw [hi.2 x i hx]
    have hlt : x < k := by
      rw [List.getElem?_eq_none_iff] at hk
      have := (List.getElem?_eq_some_iff.mp hx).1
      omega
    congr 1
    unfold expect parAt
    rw [subIds_succ, hk]
    simp only [Option.bind_none, Option.toList_none, List.append_nil]
    split
    · congr 1
      · simp [hlt, Nat.lt_succ_of_lt hlt]
    · rfl
  | some i =>
    have hlen : k < l0.length := (List.getElem?_eq_some_iff.mp hk).1
    have hmem : i ∈ l0 := List.mem_of_getElem? hk
    have hlk : l[k]? = some (expect f l0 k k i) := hi.2 k i hk
    -- no subinterface at this position
    have same : (¬ (i.kind = "vlan_member" ∧ i.parentindex ≠ none)) → SubInv f l0 (k + 1) l := by
      intro hn
      refine ⟨hi.1, ?_⟩
      intro x y hx
      rw [hi.2 x y hx]
      congr 1
      have hs : ∀ j, subIds l0 (k + 1) j = subIds l0 k j := by
        intro j
        rw [subIds_succ, hk]
        simp only [Option.bind_some]
        rw [if_neg (fun hh => hn ⟨hh.1, hh.2.1⟩)]
        simp
      unfold expect parAt
      rw [hs x]
      by_cases hy : y.kind = "vlan_member"
      · rw [if_pos hy, if_pos hy]
        by_cases hxk : x = k
        · subst hxk
          rw [hk] at hx
          obtain rfl := Option.some.inj hx
          rw [if_neg (fun hh => hn ⟨hy, hh.1⟩), if_neg (fun hh => hn ⟨hy, hh.1⟩)]
        · have : x < k + 1 ↔ x < k := by omega
          simp only [this]
      · rw [if_neg hy, if_neg hy]
    unfold subStep at h
    simp only [hlk] at h
    by_cases hm : i.kind = "vlan_member"
    · have he : expect f l0 k k i = i := by
        unfold expect
        rw [if_pos hm, if_neg (by omega)]
      rw [he] at h
      simp only [hm, ne_eq, not_true_eq_false, if_false] at h
      by_cases hsw : f.model = .switch
      · simp [hsw] at h
      · rw [if_neg hsw] at h
        by_cases hp : i.parentindex = none
        · rw [if_pos hp] at h
          simp only [Except.ok.injEq, Prod.mk.injEq, and_true] at h
          subst h
          refine ⟨same (fun hh => hh.2 hp), ?_⟩
          intro y hy _
          obtain rfl := Option.some.inj hy
          exact ⟨hsw, fun hh => absurd hp hh⟩
        · rw [if_neg hp, parentPos_inv hok hi hmem hm hp] at h
          cases hpp : parentPos l0 i with
          | none => simp [hpp] at h
          | some j =>
            obtain ⟨hj1, hj2⟩ := parentPos_spec hpp
            have hj0 : l0[j]? = some l0[j] := List.getElem?_eq_getElem hj1
            have hpar : ¬ l0[j].kind = "vlan_member" := by
              refine hok i hmem l0[j] (List.getElem_mem hj1) hm hp ?_
              rw [hj0] at hj2
              exact hj2
            have hlj : l[j]? = some (parAt f l0 k j l0[j]) := by
              rw [hi.2 j _ hj0]
              unfold expect
              rw [if_neg hpar]
            simp only [hpp, Option.bind_some, hlj, Option.map_some, Except.ok.injEq, Prod.mk.injEq, and_true] at h
            subst h
            have hjk : j ≠ k := by
              rintro rfl
              rw [hk] at hj0
              obtain rfl := Option.some.inj hj0
              exact hpar hm
            have hsj : parAt f l0 (k + 1) j l0[j] = addSub f (parAt f l0 k j l0[j]) i.accessId := by
              unfold parAt
              rw [subIds_succ, hk]
              simp only [Option.bind_some]
              rw [if_pos ⟨hm, hp, hpp⟩]
              simp
            refine ⟨⟨by simp [hi.1], ?_⟩, ?_⟩
            · intro x y hx
              have hxl : x < l0.length := (List.getElem?_eq_some_iff.mp hx).1
              rw [List.getElem?_set]
              by_cases hxk : k = x
              · subst hxk
                rw [hk] at hx
                obtain rfl := Option.some.inj hx
                rw [if_pos rfl, if_pos (by simp [hi.1, hlen])]
                congr 1
                unfold expect
                rw [if_pos hm, if_pos ⟨hp, Nat.lt_succ_self _⟩]
                simp only [hpp, Option.bind_some, hj0, Option.map_some]
                rw [hsj]
              · rw [if_neg hxk, List.getElem?_set]
                by_cases hxj : j = x
                · subst hxj
                  rw [hj0] at hx
                  obtain rfl := Option.some.inj hx
                  rw [if_pos rfl, if_pos (by simp [hi.1, hj1])]
                  congr 1
                  unfold expect
                  rw [if_neg hpar, hsj]
                · rw [if_neg hxj, hi.2 x y hx]
                  congr 1
                  unfold expect
                  by_cases hy : y.kind = "vlan_member"
                  · rw [if_pos hy, if_pos hy]
                    have : x < k + 1 ↔ x < k := by omega
                    simp only [this]
                  · rw [if_neg hy, if_neg hy]
                    unfold parAt
                    rw [subIds_succ, hk]
                    simp only [Option.bind_some]
                    rw [if_neg (fun hh => hxj (Option.some.inj (hpp.symm.trans hh.2.2)))]
                    simp
            · intro y hy _
              obtain rfl := Option.some.inj hy
              refine ⟨hsw, fun _ => ?_⟩
              rw [← parentPos_eq l0 i, hpp]
              simp [hj0]
    · have he : (expect f l0 k k i).kind = i.kind := by
        unfold expect
        rw [if_neg hm]
        exact (parAt_keep f _ i).2.1
      rw [if_pos (by rw [he]; exact hm)] at h
      simp only [Except.ok.injEq, Prod.mk.injEq, and_true] at h
      subst h
      refine ⟨same (fun hh => hm hh.1), ?_⟩
      intro y hy hym
      obtain rfl := Option.some.inj hy
      exact absurd hym hm

theorem subLoop_inv {f : VlanFeat} {l0 : List SvIf} (hok : ParentsOk l0) (m k : Nat) {l l' : List SvIf} (hi : SubInv f l0 k l)
    (h : subLoop f (List.range' k m) l = .ok (l', 0)) : SubInv f l0 (k + m) l' ∧
      ∀ x, k ≤ x → x < k + m → ∀ i, l0[x]? = some i → isMember i →
        f.model ≠ .switch ∧ (i.parentindex ≠ none → (parentOf l0 i).isSome) := by
  induction m generalizing k l with
  | zero =>
    simp only [List.range'_zero, subLoop, Except.ok.injEq, Prod.mk.injEq, and_true] at h
    subst h
    exact ⟨hi, fun x h1 h2 => absurd h2 (by omega)⟩
  | succ m ih =>
    rw [List.range'_succ] at h
    simp only [subLoop] at h
    cases hs : subStep f l k with
    | error a => simp [hs] at h
    | ok r =>
      obtain ⟨l1, e⟩ := r
      simp only [hs] at h
      cases hr : subLoop f (List.range' (k + 1) m) l1 with
      | error a => simp [hr] at h
      | ok r =>
        obtain ⟨l2, e2⟩ := r
        simp only [hr, Except.ok.injEq, Prod.mk.injEq] at h
        obtain ⟨rfl, he⟩ := h
        obtain rfl : e = 0 := by omega
        obtain rfl : e2 = 0 := by omega
        obtain ⟨h1, h2⟩ := subStep_inv hok hi hs
        obtain ⟨h3, h4⟩ := ih (k + 1) h1 hr
        refine ⟨by rw [show k + (m + 1) = k + 1 + m by omega]; exact h3, ?_⟩
        intro x hx1 hx2
        by_cases hxk : x = k
        · subst hxk
          exact h2
        · exact h4 x (by omega) (by omega)

theorem subLoop_spec {f : VlanFeat} {l0 l : List SvIf} (hok : ParentsOk l0) (h : subLoop f (List.range l0.length) l0 = .ok (l, 0)) :
    SubInv f l0 l0.length l ∧
      ∀ i ∈ l0, isMember i → f.model ≠ .switch ∧ (i.parentindex ≠ none → (parentOf l0 i).isSome) := by
  rw [List.range_eq_range'] at h
  have h0 : SubInv f l0 0 l0 := by
    refine ⟨rfl, ?_⟩
    intro x i hx
    rw [hx]
    congr 1
    unfold expect
    split
    · rw [if_neg (by omega)]
    · rfl
  obtain ⟨h1, h2⟩ := subLoop_inv hok l0.length 0 h0 h
  refine ⟨by rw [← Nat.zero_add l0.length]; exact h1, ?_⟩
  intro i hi hm
  obtain ⟨x, hx, rfl⟩ := List.getElem_of_mem hi
  exact h2 x (by omega) (by omega) _ (List.getElem?_eq_getElem hx) hm

/-! ### Trunks of parent interfaces -/

theorem removeVlan_spec (p : SvIf) (id : Nat) :
    (∀ v, v ∈ (removeVlan p id).trunkId.getD [] ↔ v ∈ p.trunkId.getD [] ∧ v ≠ id) ∧ (removeVlan p id).trunkId ≠ some [] ∧
    ((removeVlan p id).trunkId = none → (removeVlan p id).trunk = none) ∧
    ((removeVlan p id).trunkId ≠ none → (removeVlan p id).trunk = p.trunk) := by
  unfold removeVlan
  split
  · rename_i h
    refine ⟨?_, by simp, fun _ => rfl, fun hn => absurd rfl hn⟩
    intro v
    have hv : v ∈ (p.trunkId.getD []).filter (fun w => w ≠ id) ↔ v ∈ p.trunkId.getD [] ∧ v ≠ id := by
      rw [List.mem_filter, decide_eq_true_eq]
    rw [← hv, h]
    rfl
  · rename_i h
    refine ⟨?_, ?_, fun hn => by simp at hn, fun _ => rfl⟩
    · intro v
      simp only [Option.getD_some, List.mem_filter, decide_eq_true_eq]
    · intro he
      exact h (Option.some.inj he)

/-- The trunk of an interface without some of the VLANs. -/
def TrunkLess (p q : SvIf) (gone : Nat → Prop) : Prop :=
  (∀ v, v ∈ q.trunkId.getD [] ↔ v ∈ p.trunkId.getD [] ∧ ¬ gone v) ∧
  (p.trunkId ≠ some [] → q.trunkId ≠ some []) ∧
  (q.trunkId = none → q.trunk = none ∨ (p.trunkId = none ∧ q.trunk = p.trunk)) ∧
  (q.trunkId ≠ none → q.trunk = p.trunk)

theorem addSub_trunk (f : VlanFeat) (p : SvIf) (id : Option Nat) : TrunkLess p (addSub f p id) (fun v => id = some v) := by
  unfold addSub
  simp only
  cases id with
  | none =>
    refine ⟨by simp, fun h => h, fun h => .inr ⟨h, rfl⟩, fun _ => rfl⟩
  | some w =>
    simp only
    split
    · obtain ⟨h1, h2, h3, h4⟩ := removeVlan_spec { p with subifIndex := some (nextSub f p) } w
      refine ⟨?_, fun _ => h2, fun h => .inl (h3 h), h4⟩
      intro v
      rw [h1]
      simp only [Option.some.injEq, ne_eq]
      rw [eq_comm]
    · rename_i hn
      refine ⟨?_, fun h => h, fun h => .inr ⟨h, rfl⟩, fun _ => rfl⟩
      intro v
      simp only [Option.some.injEq]
      constructor
      · intro hv
        refine ⟨hv, ?_⟩
        rintro rfl
        exact hn (by simpa using hv)
      · exact fun h => h.1

theorem parAt_trunk (f : VlanFeat) (ids : List (Option Nat)) (p : SvIf) :
    TrunkLess p (ids.foldl (addSub f) p) (fun v => some v ∈ ids) := by
  induction ids generalizing p with
  | nil => exact ⟨by simp, fun h => h, fun h => .inr ⟨h, rfl⟩, fun _ => rfl⟩
  | cons id rest ih =>
    rw [List.foldl_cons]
    obtain ⟨a1, a2, a3, a4⟩ := addSub_trunk f p id
    obtain ⟨b1, b2, b3, b4⟩ := ih (addSub f p id)
    refine ⟨?_, fun h => b2 (a2 h), ?_, ?_⟩
    · intro v
      rw [b1, a1]
      simp only [List.mem_cons, not_or, and_assoc]
      rw [eq_comm (a := id)]
    · intro h
      rcases b3 h with h' | ⟨h1, h2⟩
      · exact .inl h'
      · rcases a3 h1 with h3 | ⟨h3, h4⟩
        · exact .inl (h2.trans h3)
        · exact .inr ⟨h3, h2.trans h4⟩
    · intro h
      have hn : (addSub f p id).trunkId ≠ none := by
        intro hn
        have hmem : ∀ v, v ∉ (rest.foldl (addSub f) (addSub f p id)).trunkId.getD [] := by
          intro v hv
          rw [b1, hn] at hv
          simp at hv
        have hne : (rest.foldl (addSub f) (addSub f p id)).trunkId ≠ some [] := b2 (by rw [hn]; simp)
        cases ht : (rest.foldl (addSub f) (addSub f p id)).trunkId with
        | none => exact h ht
        | some l =>
          cases l with
          | nil => exact hne ht
          | cons v l =>
            rw [ht] at hmem
            exact hmem v (by simp)
      rw [b4 h, a4 hn]

theorem parAt_index (f : VlanFeat) (ids : List (Option Nat)) (p : SvIf) (n : Nat) (h : p.subifIndex = some n) :
    (ids.foldl (addSub f) p).subifIndex = some (n + ids.length) := by
  induction ids generalizing p n with
  | nil => simpa using h
  | cons id rest ih =>
    rw [List.foldl_cons, ih _ (n + 1)]
    · simp only [List.length_cons]
      congr 1
      omega
    · rw [(addSub_keep f p id).2.2.2.2.2.2.2.2.2.2.2.2, h]

theorem parAt_index_fresh (f : VlanFeat) (ids : List (Option Nat)) (id : Option Nat) (p : SvIf) (h : p.subifIndex = none) :
    ((ids ++ [id]).foldl (addSub f) p).subifIndex = some (firstSub f + ids.length) := by
  cases ids with
  | nil =>
    simp only [List.nil_append, List.foldl_cons, List.foldl_nil, List.length_nil, Nat.add_zero]
    rw [(addSub_keep f p id).2.2.2.2.2.2.2.2.2.2.2.2, h]
  | cons a rest =>
    rw [List.cons_append, List.foldl_cons, parAt_index f _ _ (firstSub f)]
    · simp
    · rw [(addSub_keep f p a).2.2.2.2.2.2.2.2.2.2.2.2, h]

theorem cleanNative_spec (f : VlanFeat) (vlans : List (String × NVlan)) (i : SvIf) :
    (cleanNative f vlans i).1.ifindex = i.ifindex ∧ (cleanNative f vlans i).1.kind = i.kind ∧
    (cleanNative f vlans i).1.ifname = i.ifname ∧ (cleanNative f vlans i).1.ip4 = i.ip4 ∧
    (cleanNative f vlans i).1.ip6 = i.ip6 ∧ (cleanNative f vlans i).1.neighbors = i.neighbors ∧
    (cleanNative f vlans i).1.parentIfindex = i.parentIfindex ∧ (cleanNative f vlans i).1.isVirtual = i.isVirtual ∧
    (∀ v, 0 < v → (v ∈ (cleanNative f vlans i).1.trunkId.getD [] ↔ v ∈ i.trunkId.getD [] ∧ ¬ routedNative vlans i v)) ∧
    (i.trunkId ≠ some [] → (cleanNative f vlans i).1.trunkId ≠ some []) ∧
    ((cleanNative f vlans i).1.trunkId = none → (cleanNative f vlans i).1.trunk = none ∨
      (i.trunkId = none ∧ (cleanNative f vlans i).1.trunk = i.trunk)) ∧
    ((cleanNative f vlans i).1.trunkId ≠ none → (cleanNative f vlans i).1.trunk = i.trunk) := by
  have keep : ∀ id, (removeVlan i id).ifindex = i.ifindex ∧ (removeVlan i id).kind = i.kind ∧
      (removeVlan i id).ifname = i.ifname ∧ (removeVlan i id).ip4 = i.ip4 ∧
      (removeVlan i id).ip6 = i.ip6 ∧ (removeVlan i id).neighbors = i.neighbors ∧
      (removeVlan i id).parentIfindex = i.parentIfindex ∧ (removeVlan i id).isVirtual = i.isVirtual := by
    intro id
    unfold removeVlan
    split <;> exact ⟨rfl, rfl, rfl, rfl, rfl, rfl, rfl, rfl⟩
  have same : (∀ v, 0 < v → ¬ routedNative vlans i v) → ∀ v, 0 < v → (v ∈ i.trunkId.getD [] ↔
      v ∈ i.trunkId.getD [] ∧ ¬ routedNative vlans i v) := by
    intro h v hv
    exact ⟨fun hm => ⟨hm, h v hv⟩, fun hm => hm.1⟩
  unfold cleanNative
  cases hn : i.nativeFlag with
  | none =>
    refine ⟨rfl, rfl, rfl, rfl, rfl, rfl, rfl, rfl, same ?_, fun h => h, fun h => .inr ⟨h, rfl⟩, fun _ => rfl⟩
    rintro v - ⟨-, w, d, h, -⟩
    rw [hn] at h
    cases h
  | some w =>
    simp only
    by_cases hm : i.mode = some .route
    · rw [if_neg (fun h => h hm)]
      simp only
      cases hl : (vlans.lookup w).bind (·.id) with
      | none =>
        refine ⟨rfl, rfl, rfl, rfl, rfl, rfl, rfl, rfl, same ?_, fun h => h, fun h => .inr ⟨h, rfl⟩, fun _ => rfl⟩
        rintro v - ⟨-, w', d, h, h2, h3⟩
        rw [hn] at h
        obtain rfl := Option.some.inj h
        rw [h2, Option.bind_some, h3] at hl
        cases hl
      | some id =>
        have hrn : ∀ v, routedNative vlans i v ↔ v = id := by
          intro v
          constructor
          · rintro ⟨-, w', d, h, h2, h3⟩
            rw [hn] at h
            obtain rfl := Option.some.inj h
            rw [h2, Option.bind_some, h3] at hl
            exact Option.some.inj hl
          · rintro rfl
            obtain ⟨d, h2, h3⟩ := Option.bind_eq_some_iff.mp hl
            exact ⟨hm, w, d, hn, h2, h3⟩
        simp only
        by_cases h0 : id = 0
        · rw [if_pos h0]
          refine ⟨rfl, rfl, rfl, rfl, rfl, rfl, rfl, rfl, same ?_, fun h => h, fun h => .inr ⟨h, rfl⟩, fun _ => rfl⟩
          intro v hv hr
          rw [hrn] at hr
          omega
        · rw [if_neg h0]
          obtain ⟨k1, k2, k3, k4, k5, k6, k7, k8⟩ := keep id
          obtain ⟨h1, h2, h3, h4⟩ := removeVlan_spec i id
          refine ⟨k1, k2, k3, k4, k5, k6, k7, k8, ?_, fun _ => h2, fun h => .inl (h3 h), h4⟩
          intro v _
          rw [h1, hrn]
    · rw [if_pos hm]
      refine ⟨rfl, rfl, rfl, rfl, rfl, rfl, rfl, rfl, same ?_, fun h => h, fun h => .inr ⟨h, rfl⟩, fun _ => rfl⟩
      rintro v - ⟨h, -⟩
      exact hm h

/-! ### Subinterfaces -/

theorem trunkMap_keep (vlans : List (String × NVlan)) (i : SvIf) :
    (trunkMap vlans i).ifindex = i.ifindex ∧ (trunkMap vlans i).linkindex = i.linkindex ∧
    (trunkMap vlans i).parentindex = i.parentindex ∧ (trunkMap vlans i).kind = i.kind ∧
    (trunkMap vlans i).attrMode = i.attrMode ∧ (trunkMap vlans i).selfloop = i.selfloop ∧
    (trunkMap vlans i).loopback = i.loopback ∧ (trunkMap vlans i).accessId = i.accessId ∧
    (trunkMap vlans i).ifname = i.ifname ∧ (trunkMap vlans i).subifIndex = i.subifIndex ∧
    (trunkMap vlans i).ip4 = i.ip4 ∧ (trunkMap vlans i).ip6 = i.ip6 ∧ (trunkMap vlans i).neighbors = i.neighbors ∧
    (trunkMap vlans i).isVirtual = i.isVirtual ∧ (trunkMap vlans i).parentIfindex = i.parentIfindex ∧
    (trunkMap vlans i).mode = i.mode ∧ (trunkMap vlans i).nativeFlag = i.nativeFlag ∧ (trunkMap vlans i).trunk = i.trunk := by
  unfold trunkMap
  split <;> exact ⟨rfl, rfl, rfl, rfl, rfl, rfl, rfl, rfl, rfl, rfl, rfl, rfl, rfl, rfl, rfl, rfl, rfl, rfl⟩

/-- The interface is processed: not a bridged member interface on a switch. -/
def processed (f : VlanFeat) (i : SvIf) : Bool := f.model = .router || i.kind ≠ "vlan_member" || i.attrMode == some .route

theorem memberFilter_eq (f : VlanFeat) (vlans : List (String × NVlan)) (ifs : List SvIf) :
    memberFilter f (ifs.map (trunkMap vlans)) = (ifs.filter (processed f)).map (trunkMap vlans) := by
  unfold memberFilter
  by_cases hr : f.model = .router
  · rw [if_pos hr, List.filter_eq_self.mpr]
    intro i _
    simp [processed, hr]
  · rw [if_neg hr, List.filter_map]
    congr 1
    apply List.filter_congr
    intro i _
    obtain ⟨-, -, -, h4, h5, -⟩ := trunkMap_keep vlans i
    simp [Function.comp, processed, hr, h4, h5]

theorem nodup_ifindex {l : List SvIf} (h : (l.map SvIf.ifindex).Nodup) {a b : SvIf} (ha : a ∈ l) (hb : b ∈ l)
    (he : a.ifindex = b.ifindex) : a = b :=
  List.inj_on_of_nodup_map h ha hb he

theorem pos_unique {l : List SvIf} (h : (l.map SvIf.ifindex).Nodup) {x y : Nat} {a : SvIf} (hx : l[x]? = some a)
    (hy : l[y]? = some a) : x = y := by
  have hx' : (l.map SvIf.ifindex)[x]? = some a.ifindex := by rw [List.getElem?_map, hx]; rfl
  have hy' : (l.map SvIf.ifindex)[y]? = some a.ifindex := by rw [List.getElem?_map, hy]; rfl
  have hlt : x < (l.map SvIf.ifindex).length := (List.getElem?_eq_some_iff.mp hx').1
  exact (List.getElem?_inj hlt h).mp (hx'.trans hy'.symm)

theorem parentPos_iff {l0 : List SvIf} (h : (l0.map SvIf.ifindex).Nodup) {j : Nat} {p s : SvIf} (hj : l0[j]? = some p) :
    parentPos l0 s = some j ↔ parentOf l0 s = some p := by
  rw [← parentPos_eq]
  constructor
  · intro he
    rw [he, Option.bind_some, hj]
  · intro he
    obtain ⟨j', h1, h2⟩ := Option.bind_eq_some_iff.mp he
    rw [h1, pos_unique h h2 hj]

theorem subIds_eq {l0 : List SvIf} (h : (l0.map SvIf.ifindex).Nodup) {j : Nat} {p : SvIf} (hj : l0[j]? = some p) (k : Nat) :
    subIds l0 k j = ((l0.take k).filter (fun s => decide (s.kind = "vlan_member" ∧ s.parentindex ≠ none ∧
      parentOf l0 s = some p))).map SvIf.accessId := by
  induction k with
  | zero => simp [subIds]
  | succ k ih =>
    rw [subIds_succ, List.take_add_one, List.filter_append, List.map_append, ← ih]
    congr 1
    cases hk : l0[k]? with
    | none => rfl
    | some s =>
      simp only [Option.bind_some, Option.toList_some, parentPos_iff h hj, List.filter_cons, List.filter_nil,
        decide_eq_true_eq]
      split <;> rfl

theorem parentOf_map {f : VlanFeat} {vlans : List (String × NVlan)} {ifs : List SvIf} (hin : TrunkInput ifs) {s : SvIf}
    (hs : s ∈ ifs) (hm : isMember s) (hp : s.parentindex ≠ none) :
    parentOf ((ifs.filter (processed f)).map (trunkMap vlans)) (trunkMap vlans s) = (parentOf ifs s).map (trunkMap vlans) := by
  unfold parentOf
  simp only
  obtain ⟨-, -, k3, -, -, k6, -⟩ := trunkMap_keep vlans s
  rw [k3, k6]
  have : ((ifs.filter (processed f)).map (trunkMap vlans)).filter (fun p => p.linkindex == s.parentindex) =
      (ifs.filter (fun p => p.linkindex == s.parentindex)).map (trunkMap vlans) := by
    rw [List.filter_map, List.filter_filter]
    congr 1
    apply List.filter_congr
    intro p hpm
    obtain ⟨-, k2, -⟩ := trunkMap_keep vlans p
    simp only [Function.comp, k2]
    by_cases he : p.linkindex = s.parentindex
    · have := hin.parents s hs p hpm hm hp he
      have h2 : processed f p = true := by
        unfold processed
        simp only [isMember] at this
        simp [this]
      rw [h2, Bool.and_true]
    · rw [beq_eq_false_iff_ne.mpr he, Bool.false_and]
  rw [this, List.length_map, List.getElem?_map]

theorem forall₂_of_get {α β : Type} {R : α → β → Prop} : ∀ {l : List α} {m : List β}, l.length = m.length →
    (∀ (x : Nat) (a : α), l[x]? = some a → ∃ b, m[x]? = some b ∧ R a b) → List.Forall₂ R l m
  | [], [], _, _ => .nil
  | [], _ :: _, h, _ => by simp at h
  | _ :: _, [], h, _ => by simp at h
  | a :: l, b :: m, h, hr => by
    refine .cons ?_ (forall₂_of_get (by simpa using h) ?_)
    · obtain ⟨b', h1, h2⟩ := hr 0 a rfl
      simp only [List.getElem?_cons_zero, Option.some.injEq] at h1
      rw [h1]
      exact h2
    · intro x a' hx
      have := hr (x + 1) a' (by simpa using hx)
      simpa using this

/-- What happens to an interface. -/
def TrunkRel (f : VlanFeat) (vlans : List (String × NVlan)) (ifs : List SvIf) (i j : SvIf) : Prop :=
  j.ifindex = i.ifindex ∧ j.kind = i.kind ∧ j.ip4 = i.ip4 ∧ j.ip6 = i.ip6 ∧ j.neighbors = i.neighbors ∧
  (isMember i → isSubinterface f ifs i j) ∧ (¬ isMember i → isTrunk f vlans ifs i j)

theorem sum_eq_zero : ∀ {l : List Nat}, l.sum = 0 → ∀ x ∈ l, x = 0
  | [], _, _, h => by simp at h
  | a :: l, hs, x, hx => by
    rw [List.sum_cons] at hs
    rcases List.mem_cons.mp hx with rfl | hx
    · omega
    · exact sum_eq_zero (by omega) x hx

theorem trunkNode_spec {f : VlanFeat} {vlans : List (String × NVlan)} {ifs out : List SvIf} (hin : TrunkInput ifs)
    (h : trunkNode f vlans ifs = .ok (out, 0)) :
    List.Forall₂ (TrunkRel f vlans ifs) (ifs.filter (fun i => isKept f i)) out ∧
    (∀ i ∈ ifs, isSub f i → f.model ≠ .switch) ∧
    (∀ i ∈ ifs, isKept f i → i.mode = some .route → i.nativeFlag ≠ none → f.native = true) ∧
    mixedErrors f out = .ok 0 ∧ nativeTrunkErrors f out = 0 ∧
    (∀ i ∈ ifs, ∀ v ∈ i.trunk.getD [], (vlans.lookup v).isSome) := by
  unfold trunkNode at h
  cases h1 : mapTrunks vlans ifs with
  | error a => simp [h1] at h
  | ok l1 =>
    simp only [h1] at h
    obtain ⟨rfl, hdef⟩ := mapTrunks_ok h1
    unfold renameSubs at h
    rw [memberFilter_eq] at h
    obtain ⟨l0, hl0⟩ : ∃ l0, l0 = (ifs.filter (processed f)).map (trunkMap vlans) := ⟨_, rfl⟩
    rw [← hl0] at h
    cases h2 : subLoop f (List.range l0.length) l0 with
    | error a => simp [h2] at h
    | ok r =>
      obtain ⟨l, e⟩ := r
      simp only [h2] at h
      obtain ⟨l2, hl2⟩ : ∃ l2, l2 = if hasLoopbacks f l0 then l.filter (fun i => !i.loopback) else l := ⟨_, rfl⟩
      rw [← hl2] at h
      cases h3 : mixedErrors f (l2.map (fun i => (cleanNative f vlans i).1)) with
      | error a => simp [h3] at h
      | ok e4 =>
        simp only [h3, Except.ok.injEq, Prod.mk.injEq] at h
        obtain ⟨rfl, he⟩ := h
        obtain rfl : e = 0 := by omega
        obtain rfl : e4 = 0 := by omega
        have hnat : nativeTrunkErrors f (l2.map (fun i => (cleanNative f vlans i).1)) = 0 := by omega
        have hsum : (l2.map (fun i => (cleanNative f vlans i).2)).sum = 0 := by omega
        clear he
        -- facts about processed interfaces
        have hmem0 : ∀ s, s ∈ l0 ↔ ∃ i ∈ ifs, processed f i = true ∧ s = trunkMap vlans i := by
          intro s
          rw [hl0, List.mem_map]
          constructor
          · rintro ⟨i, hi, rfl⟩
            rw [List.mem_filter] at hi
            exact ⟨i, hi.1, hi.2, rfl⟩
          · rintro ⟨i, hi, hp, rfl⟩
            exact ⟨i, List.mem_filter.mpr ⟨hi, hp⟩, rfl⟩
        have hmm : ∀ i, isMember (trunkMap vlans i) ↔ isMember i := by
          intro i
          unfold isMember
          rw [(trunkMap_keep vlans i).2.2.2.1]
        have hpi : ∀ i, (trunkMap vlans i).parentindex = i.parentindex := fun i => (trunkMap_keep vlans i).2.2.1
        have hok : ParentsOk l0 := by
          intro s hs p hp
          obtain ⟨i, hi, -, rfl⟩ := (hmem0 s).mp hs
          obtain ⟨q, hq, -, rfl⟩ := (hmem0 p).mp hp
          rw [hmm, hmm, hpi, (trunkMap_keep vlans q).2.1]
          exact hin.parents i hi q hq
        have hnd0 : (l0.map SvIf.ifindex).Nodup := by
          rw [hl0, List.map_map]
          have : (SvIf.ifindex ∘ trunkMap vlans) = SvIf.ifindex := by
            funext i
            exact (trunkMap_keep vlans i).1
          rw [this]
          exact hin.index.sublist (List.Sublist.map _ List.filter_sublist)
        obtain ⟨⟨hlen, hget⟩, hmemb⟩ := subLoop_spec hok h2
        have hproc : ∀ i, isSub f i → processed f i = true := by
          rintro i ⟨-, -, h | h⟩ <;> simp [processed, h]
        have hsubsw : ∀ i ∈ ifs, isSub f i → f.model ≠ .switch := by
          intro i hi hs
          exact (hmemb _ ((hmem0 _).mpr ⟨i, hi, hproc i hs, rfl⟩) ((hmm i).mpr hs.1)).1
        -- parents
        have hpar : ∀ i ∈ ifs, isMember i → i.parentindex ≠ none → ∀ p ∈ ifs,
            (parentOf l0 (trunkMap vlans i) = some (trunkMap vlans p) ↔ parentOf ifs i = some p) := by
          intro i hi hm hp p hpm
          rw [hl0, parentOf_map hin hi hm hp]
          constructor
          · intro he
            obtain ⟨q, hq, hqe⟩ := Option.map_eq_some_iff.mp he
            have hqm : q ∈ ifs := by
              unfold parentOf at hq
              have := List.mem_of_getElem? hq
              exact (List.mem_filter.mp this).1
            rw [hq]
            congr 1
            refine nodup_ifindex hin.index hqm hpm ?_
            rw [← (trunkMap_keep vlans q).1, hqe, (trunkMap_keep vlans p).1]
          · intro he
            rw [he]
            rfl
        -- loopback interfaces are removed
        have hexl : ∀ x s, (expect f l0 l0.length x s).loopback = s.loopback := by
          intro x s
          unfold expect
          split
          · split
            · split <;> rfl
            · rfl
          · exact (parAt_keep f _ s).2.2.2.2.1
        have hF : List.Forall₂ (fun s j => ∃ x, l0[x]? = some s ∧ j = expect f l0 l0.length x s) l0 l := by
          refine forall₂_of_get hlen.symm ?_
          intro x s hx
          exact ⟨_, hget x s hx, x, hx, rfl⟩
        have hl2' : l2 = l.filter (fun i => !i.loopback) := by
          rw [hl2]
          split
          · rfl
          · rename_i hno
            symm
            rw [List.filter_eq_self]
            intro j hj
            obtain ⟨s, hs, x, hx, rfl⟩ := forall₂_mem_right hF hj
            rw [hexl]
            obtain ⟨i, hi, -, rfl⟩ := (hmem0 s).mp hs
            rw [(trunkMap_keep vlans i).2.2.2.2.2.2.1]
            cases hlb : i.loopback with
            | false => rfl
            | true =>
              exfalso
              obtain ⟨hm, hp⟩ := (hin.loop i hi).mp hlb
              apply hno
              unfold hasLoopbacks
              rw [Bool.and_eq_true]
              refine ⟨by simpa using (hmemb _ hs ((hmm i).mpr hm)).1, ?_⟩
              rw [List.any_eq_true]
              refine ⟨_, hs, ?_⟩
              have hm' := (hmm i).mpr hm
              unfold isMember at hm'
              simp [hm', hpi, hp]
        have hleft : l0.filter (fun i => !i.loopback) = (ifs.filter (fun i => isKept f i)).map (trunkMap vlans) := by
          rw [hl0, List.filter_map, List.filter_filter]
          congr 1
          apply List.filter_congr
          intro i hi
          have hlb := hin.loop i hi
          simp only [Function.comp, (trunkMap_keep vlans i).2.2.2.2.2.2.1]
          rw [Bool.eq_iff_iff]
          simp only [Bool.and_eq_true, Bool.not_eq_true', decide_eq_true_eq]
          have hlb' : i.loopback = false ↔ ¬ (isMember i ∧ i.parentindex = none) := by
            rw [← hlb, Bool.not_eq_true]
          rw [hlb']
          unfold isKept isSub processed isMember
          simp only [Bool.or_eq_true, decide_eq_true_eq, beq_iff_eq, ne_eq]
          by_cases hm : i.kind = "vlan_member" <;> by_cases hpn : i.parentindex = none <;> simp [hm, hpn]
        have hF2 : List.Forall₂ (fun i j => ∃ x, l0[x]? = some (trunkMap vlans i) ∧
            j = (cleanNative f vlans (expect f l0 l0.length x (trunkMap vlans i))).1) (ifs.filter (fun i => isKept f i))
            (l2.map (fun i => (cleanNative f vlans i).1)) := by
          have h5 := List.rel_filter (p := fun i => !i.loopback) (q := fun i => !i.loopback) (fun s j hsj => by
            obtain ⟨x, -, rfl⟩ := hsj
            simp only [hexl]) hF
          rw [hleft, ← hl2', List.forall₂_map_left_iff] at h5
          rw [List.forall₂_map_right_iff]
          refine h5.imp ?_
          rintro i j ⟨x, hx, rfl⟩
          exact ⟨x, hx, rfl⟩
        refine ⟨?_, hsubsw, ?_, h3, hnat, hdef⟩
        · -- interfaces
          have hkm : ∀ i ∈ ifs.filter (fun i => isKept f i), i ∈ ifs ∧ isKept f i := by
            intro i hi
            simpa using List.mem_filter.mp hi
          revert hkm hF2
          generalize ifs.filter (fun i => isKept f i) = kept
          generalize l2.map (fun i => (cleanNative f vlans i).1) = outs
          intro hF2 hkm
          induction hF2 with
          | nil => exact .nil
          | cons hd _ ih =>
            rename_i i j _ _ _
            refine .cons ?_ (ih (fun y hy => hkm y (List.mem_cons_of_mem _ hy)))
            obtain ⟨hi, hkept⟩ := hkm i List.mem_cons_self
            obtain ⟨x, hx, rfl⟩ := hd
            have hxl : x < l0.length := (List.getElem?_eq_some_iff.mp hx).1
            obtain ⟨c1, c2, c3, c4, c5, c6, c7, c8, c9, c10, c11, c12⟩ :=
              cleanNative_spec f vlans (expect f l0 l0.length x (trunkMap vlans i))
            obtain ⟨t1, t2, t3, t4, t5, t6, t7, t8, t9, t10, t11, t12, t13, t14, t15, t16, t17, t18⟩ := trunkMap_keep vlans i
            by_cases hm : isMember i
            · have hsub : isSub f i := by
                rcases hkept with h | h
                · exact absurd hm h
                · exact h
              have hpp := (hmemb _ (List.mem_of_getElem? hx) ((hmm i).mpr hm)).2 (by rw [hpi]; exact hsub.2.1)
              rw [← parentPos_eq] at hpp
              obtain ⟨p', hp'⟩ := Option.isSome_iff_exists.mp hpp
              obtain ⟨jj, hjj, hpj⟩ := Option.bind_eq_some_iff.mp hp'
              obtain ⟨par, hparm, -, rfl⟩ := (hmem0 p').mp (List.mem_of_getElem? hpj)
              have hpo : parentOf ifs i = some par := by
                rw [← hpar i hi hm hsub.2.1 par hparm, ← parentPos_iff hnd0 hpj]
                exact hjj
              have hex : expect f l0 l0.length x (trunkMap vlans i) =
                  mkSub f (parAt f l0 (x + 1) jj (trunkMap vlans par)) (trunkMap vlans i) := by
                unfold expect
                rw [if_pos (by rw [t4]; exact hm), if_pos ⟨by rw [hpi]; exact hsub.2.1, hxl⟩]
                simp only [hjj, Option.bind_some, hpj, Option.map_some]
              rw [hex] at c1 c2 c3 c4 c5 c6 c7 c8
              rw [hex]
              refine ⟨c1.trans t1, c2.trans t4, c4.trans t11, c5.trans t12, c6.trans t13, fun _ => ?_, fun hn => absurd hm hn⟩
              obtain ⟨pre, post, hsplit⟩ := List.append_of_mem hi
              have hnum : (parAt f l0 (x + 1) jj (trunkMap vlans par)).subifIndex =
                  some (firstSub f + (subIds l0 x jj).length) := by
                unfold parAt
                rw [subIds_succ, hx]
                simp only [Option.bind_some]
                rw [if_pos ⟨by rw [t4]; exact hm, by rw [hpi]; exact hsub.2.1, hjj⟩, Option.toList_some]
                refine parAt_index_fresh f _ _ _ ?_
                rw [(trunkMap_keep vlans par).2.2.2.2.2.2.2.2.2.1]
                exact (hin.fresh par hparm).1
              have htake : l0.take x = (pre.filter (processed f)).map (trunkMap vlans) := by
                have hl0' : l0 = (pre.filter (processed f)).map (trunkMap vlans) ++ trunkMap vlans i ::
                    (post.filter (processed f)).map (trunkMap vlans) := by
                  rw [hl0, hsplit, List.filter_append, List.filter_cons_of_pos (hproc i hsub), List.map_append, List.map_cons]
                have hxx : x = ((pre.filter (processed f)).map (trunkMap vlans)).length := by
                  refine pos_unique hnd0 hx ?_
                  rw [hl0']
                  simp
                rw [hxx]
                conv_lhs => rw [hl0']
                exact List.take_left
              have hcount : (subIds l0 x jj).length =
                  (pre.filter (fun s => decide (isSub f s) && parentOf ifs s == some par)).length := by
                rw [subIds_eq hnd0 hpj, List.length_map, htake, List.filter_map, List.length_map, List.filter_filter]
                congr 1
                apply List.filter_congr
                intro s hs
                have hsm : s ∈ ifs := by
                  rw [hsplit]
                  exact List.mem_append.mpr (.inl hs)
                rw [Bool.eq_iff_iff]
                simp only [Function.comp, Bool.and_eq_true, decide_eq_true_eq, beq_iff_eq]
                have hk := (trunkMap_keep vlans s).2.2.2.1
                rw [hk, hpi]
                constructor
                · rintro ⟨⟨h1, h2, h3⟩, h4⟩
                  refine ⟨⟨h1, h2, ?_⟩, (hpar s hsm h1 h2 par hparm).mp h3⟩
                  unfold processed at h4
                  simp only [Bool.or_eq_true, decide_eq_true_eq, beq_iff_eq] at h4
                  rcases h4 with (h4 | h4) | h4
                  · exact .inl h4
                  · exact absurd h1 h4
                  · exact .inr h4
                · rintro ⟨h1, h2⟩
                  exact ⟨⟨h1.1, h1.2.1, (hpar s hsm h1.1 h1.2.1 par hparm).mpr h2⟩, hproc s h1⟩
              have hpk := parAt_keep f (subIds l0 (x + 1) jj) (trunkMap vlans par)
              refine ⟨par, pre, post, hpo, hsplit, ?_, ?_, c8⟩
              · rw [c3]
                unfold mkSub
                simp only
                rw [hnum, Option.getD_some, hcount, t8]
                unfold parAt
                rw [hpk.2.2.1, (trunkMap_keep vlans par).2.2.2.2.2.2.2.2.1]
              · rw [c7]
                unfold mkSub
                simp only
                unfold parAt
                rw [hpk.2.2.2.1, (trunkMap_keep vlans par).1]
            · have hex : expect f l0 l0.length x (trunkMap vlans i) =
                  (subIds l0 l0.length x).foldl (addSub f) (trunkMap vlans i) := by
                unfold expect
                rw [if_neg (by rw [t4]; exact hm)]
                rfl
              obtain ⟨k1, k2, k3, k4, k5, k6, k7, k8, k9, k10, k11, k12⟩ :=
                parAt_keep f (subIds l0 l0.length x) (trunkMap vlans i)
              obtain ⟨m1, m2, m3, m4⟩ := parAt_trunk f (subIds l0 l0.length x) (trunkMap vlans i)
              rw [← hex] at k1 k2 k3 k4 k5 k6 k7 k8 k9 k10 k11 k12 m1 m2 m3 m4
              have hfresh := hin.fresh i hi
              have hti : (trunkMap vlans i).trunkId.getD [] = trunkIds vlans i := by
                unfold trunkMap trunkIds
                split
                · rename_i h0
                  rw [hfresh.2.2, h0]
                  rfl
                · rfl
              have htn : (trunkMap vlans i).trunkId ≠ some [] := by
                unfold trunkMap
                split
                · rw [hfresh.2.2]
                  simp
                · rename_i h0
                  simp only [ne_eq, Option.some.injEq, trunkIds, List.map_eq_nil_iff]
                  exact h0
              have htn2 : (trunkMap vlans i).trunkId = none → i.trunk.getD [] = [] := by
                unfold trunkMap
                split
                · rename_i h0
                  exact fun _ => h0
                · intro h0
                  cases h0
              have hrn : ∀ v, routedNative vlans (expect f l0 l0.length x (trunkMap vlans i)) v ↔ routedNative vlans i v := by
                intro v
                unfold routedNative
                rw [k7, t16, k6, t17]
              have hgone : ∀ v, some v ∈ subIds l0 l0.length x ↔ ∃ s ∈ ifs, isSub f s ∧ parentOf ifs s = some i ∧
                  s.accessId = some v := by
                intro v
                rw [subIds_eq hnd0 hx, List.take_length, List.mem_map]
                constructor
                · rintro ⟨s', hs', hv⟩
                  rw [List.mem_filter, decide_eq_true_eq] at hs'
                  obtain ⟨hs1, hs2, hs3, hs4⟩ := hs'
                  obtain ⟨s, hs, hps, rfl⟩ := (hmem0 s').mp hs1
                  obtain ⟨-, -, -, u4, -, -, -, u8, -⟩ := trunkMap_keep vlans s
                  rw [u4] at hs2
                  rw [hpi] at hs3
                  refine ⟨s, hs, ⟨hs2, hs3, ?_⟩, (hpar s hs hs2 hs3 i hi).mp hs4, u8 ▸ hv⟩
                  unfold processed at hps
                  simp only [Bool.or_eq_true, decide_eq_true_eq, beq_iff_eq] at hps
                  rcases hps with (h4 | h4) | h4
                  · exact .inl h4
                  · exact absurd hs2 h4
                  · exact .inr h4
                · rintro ⟨s, hs, hsub, hps, hv⟩
                  obtain ⟨-, -, -, u4, -, -, -, u8, -⟩ := trunkMap_keep vlans s
                  refine ⟨trunkMap vlans s, ?_, u8.trans hv⟩
                  rw [List.mem_filter, decide_eq_true_eq, u4, hpi]
                  exact ⟨(hmem0 _).mpr ⟨s, hs, hproc s hsub, rfl⟩, hsub.1, hsub.2.1,
                    (hpar s hs hsub.1 hsub.2.1 i hi).mpr hps⟩
              refine ⟨c1.trans (k4.trans t1), c2.trans (k2.trans t4), c4.trans (k8.trans t11), c5.trans (k9.trans t12),
                c6.trans (k12.trans t13), fun hh => absurd hh hm, fun _ => ?_⟩
              refine ⟨c3.trans (k3.trans t9), c8.trans (k10.trans t14), ?_, ?_, ?_, ?_, ?_⟩
              · rw [c7, k11, t15]
                exact hfresh.2.1
              · intro v hv
                rw [c9 v hv, m1, hti, hrn]
                simp only [hgone]
                constructor
                · rintro ⟨⟨h1, h2⟩, h3⟩
                  exact ⟨h1, fun s hs hs1 hs2 hs3 => h2 ⟨s, hs, hs1, hs2, hs3⟩, h3⟩
                · rintro ⟨h1, h2, h3⟩
                  exact ⟨⟨h1, fun ⟨s, hs, hs1, hs2, hs3⟩ => h2 s hs hs1 hs2 hs3⟩, h3⟩
              · exact c10 (m2 htn)
              · intro hn
                rcases c11 hn with h | ⟨h1, h2⟩
                · rw [h]
                  rfl
                · rcases m3 h1 with h | ⟨h3, h4⟩
                  · rw [h2, h]
                    rfl
                  · rw [h2, h4, t18]
                    exact htn2 h3
              · intro hn
                have hn2 : (expect f l0 l0.length x (trunkMap vlans i)).trunkId ≠ none := by
                  intro h0
                  have hce : (cleanNative f vlans (expect f l0 l0.length x (trunkMap vlans i))).1.trunkId ≠ some [] := c10 (m2 htn)
                  cases hct : (cleanNative f vlans (expect f l0 l0.length x (trunkMap vlans i))).1.trunkId with
                  | none => exact hn hct
                  | some vs =>
                    unfold cleanNative at hct
                    split at hct
                    · rw [h0] at hct
                      cases hct
                    · split at hct
                      · rw [h0] at hct
                        cases hct
                      · simp only at hct
                        split at hct
                        · rw [h0] at hct
                          cases hct
                        · split at hct
                          · rw [h0] at hct
                            cases hct
                          · unfold removeVlan at hct
                            simp [h0] at hct
                rw [c12 hn, m4 hn2, t18]
        · intro i hi hk hmode hnf
          have hin2 : i ∈ ifs.filter (fun i => isKept f i) := List.mem_filter.mpr ⟨hi, by simpa using hk⟩
          -- the interface before the cleanup
          have h5 := List.rel_filter (p := fun i => !i.loopback) (q := fun i => !i.loopback) (fun s j hsj => by
            obtain ⟨x, -, rfl⟩ := hsj
            simp only [hexl]) hF
          rw [hleft, ← hl2', List.forall₂_map_left_iff] at h5
          obtain ⟨j, hj, x, hx, rfl⟩ := forall₂_mem_left h5 hin2
          have hz := sum_eq_zero hsum _ (List.mem_map.mpr ⟨_, hj, rfl⟩)
          obtain ⟨-, -, -, t4, -, -, -, -, -, -, -, -, -, -, -, t16, t17, -⟩ := trunkMap_keep vlans i
          have hem : (expect f l0 l0.length x (trunkMap vlans i)).mode = some .route ∧
              (expect f l0 l0.length x (trunkMap vlans i)).nativeFlag = i.nativeFlag := by
            unfold expect
            split
            · split
              · split
                · exact ⟨t16.trans hmode, t17⟩
                · exact ⟨t16.trans hmode, t17⟩
              · exact ⟨t16.trans hmode, t17⟩
            · obtain ⟨-, -, -, -, -, k6, k7, -⟩ := parAt_keep f (subIds l0 l0.length x) (trunkMap vlans i)
              exact ⟨k7.trans (t16.trans hmode), k6.trans t17⟩
          unfold cleanNative at hz
          rw [hem.2] at hz
          cases hnv : i.nativeFlag with
          | none => exact absurd hnv hnf
          | some v =>
            simp only [hnv, hem.1] at hz
            cases hfn : f.native with
            | true => rfl
            | false => simp [hfn] at hz

/-! ### The theorems -/

/-- C66: member interfaces of routed VLANs (on routers: of all VLANs) become subinterfaces of the interfaces their trunks are on,
other member interfaces are removed, and no other interface is added, removed or renamed; the VLANs left in trunks are the VLANs
that have no subinterface and are not the routed native VLAN. -/
theorem C66_interfaces {f : VlanFeat} {vlans : List (String × NVlan)} {ifs out : List SvIf} (hin : TrunkInput ifs)
    (h : trunkNode f vlans ifs = .ok (out, 0)) :
    List.Forall₂ (fun i j => j.ifindex = i.ifindex ∧ j.kind = i.kind ∧ j.ip4 = i.ip4 ∧ j.ip6 = i.ip6 ∧
        j.neighbors = i.neighbors ∧ (isMember i → isSubinterface f ifs i j) ∧ (¬ isMember i → isTrunk f vlans ifs i j))
      (ifs.filter (fun i => isKept f i)) out :=
  (trunkNode_spec hin h).1

theorem nodup_of_forall₂ {α β γ δ : Type} {R : α → β → Prop} {key : α → γ} {g : β → δ} : ∀ {l : List α} {m : List β},
    List.Forall₂ R l m → (l.map key).Nodup →
    (∀ a ∈ l, ∀ b ∈ l, ∀ x y, R a x → R b y → g x = g y → key a = key b) → (m.map g).Nodup
  | [], [], _, _, _ => by simp
  | a :: l, x :: m, .cons hr ht, hn, hk => by
    rw [List.map_cons, List.nodup_cons] at hn ⊢
    refine ⟨?_, nodup_of_forall₂ ht hn.2 (fun a ha b hb => hk a (List.mem_cons_of_mem _ ha) b (List.mem_cons_of_mem _ hb))⟩
    intro hm
    obtain ⟨y, hy, he⟩ := List.mem_map.mp hm
    obtain ⟨b, hb, hr'⟩ := forall₂_mem_right ht hy
    have := hk b (List.mem_cons_of_mem _ hb) a List.mem_cons_self y x hr' hr he
    exact hn.1 (List.mem_map.mpr ⟨b, hb, this⟩)

theorem count_lt {p : SvIf → Bool} {l pre pre' post post' : List SvIf} {a b : SvIf} (h : l = pre ++ a :: post)
    (h' : l = pre' ++ b :: post') (ha : p a = true) (hb : p b = true)
    (he : (pre.filter p).length = (pre'.filter p).length) : a = b := by
  rw [h] at h'
  rcases List.append_eq_append_iff.mp h' with ⟨c, hc1, hc2⟩ | ⟨c, hc1, hc2⟩
  · cases c with
    | nil => exact (List.cons.inj hc2).1
    | cons d c =>
      obtain ⟨rfl, -⟩ := List.cons.inj hc2
      rw [hc1, List.filter_append, List.filter_cons_of_pos ha, List.length_append, List.length_cons] at he
      omega
  · cases c with
    | nil => exact (List.cons.inj hc2).1.symm
    | cons d c =>
      obtain ⟨rfl, -⟩ := List.cons.inj hc2
      rw [hc1, List.filter_append, List.filter_cons_of_pos hb, List.length_append, List.length_cons] at he
      omega

theorem parentOf_mem {ifs : List SvIf} {i p : SvIf} (h : parentOf ifs i = some p) : p ∈ ifs ∧ p.linkindex = i.parentindex := by
  unfold parentOf at h
  simp only at h
  have := List.mem_of_getElem? h
  rw [List.mem_filter, beq_iff_eq] at this
  exact this

/-- C66: subinterfaces of a node have different names, when the names contain the name of the parent interface and either the
subinterface number, or the VLAN ID (and no VLAN appears twice in a trunk). -/
theorem C66_unique_names {f : VlanFeat} {vlans : List (String × NVlan)} {ifs out : List SvIf} (hin : TrunkInput ifs)
    (h : trunkNode f vlans ifs = .ok (out, 0))
    (hname : ((ifs.filter (fun i => ¬ isMember i)).map SvIf.ifname).Nodup)
    (hfmt : (∀ p q m n v w, f.subName p m v = f.subName q n w → p = q ∧ m = n) ∨
      ((∀ p q m n v w, f.subName p m v = f.subName q n w → p = q ∧ v = w) ∧
        ∀ a ∈ ifs, ∀ b ∈ ifs, isSub f a → isSub f b → parentOf ifs a = parentOf ifs b → a.accessId = b.accessId → a = b)) :
    ((out.filter (fun i => isMember i)).map SvIf.ifname).Nodup := by
  have hF := (trunkNode_spec hin h).1
  have h5 := List.rel_filter (p := fun i => decide (isMember i)) (q := fun i => decide (isMember i)) (fun i j hij => by
    have he : isMember i ↔ isMember j := by
      unfold isMember
      rw [hij.2.1]
    simp only [decide_eq_true_eq]
    exact he) hF
  refine nodup_of_forall₂ (key := SvIf.ifindex) h5 ?_ ?_
  · exact hin.index.sublist (List.Sublist.map _ (List.filter_sublist.trans List.filter_sublist))
  · intro a ha b hb x y hx hy hxy
    rw [List.mem_filter, decide_eq_true_eq, List.mem_filter, decide_eq_true_eq] at ha hb
    obtain ⟨⟨ha1, ha2⟩, ha3⟩ := ha
    obtain ⟨⟨hb1, hb2⟩, hb3⟩ := hb
    have hsa : isSub f a := ha2.resolve_left (fun hn => hn ha3)
    have hsb : isSub f b := hb2.resolve_left (fun hn => hn hb3)
    obtain ⟨p, pre, post, hp, hsp, hn, -, -⟩ := hx.2.2.2.2.2.1 ha3
    obtain ⟨q, pre', post', hq, hsp', hn', -, -⟩ := hy.2.2.2.2.2.1 hb3
    rw [hn, hn'] at hxy
    have hpq : p.ifname = q.ifname → p = q := by
      intro he
      have hpm := parentOf_mem hp
      have hqm := parentOf_mem hq
      have hp1 : p ∈ ifs.filter (fun i => ¬ isMember i) :=
        List.mem_filter.mpr ⟨hpm.1, by simpa using hin.parents a ha1 p hpm.1 ha3 hsa.2.1 hpm.2⟩
      have hq1 : q ∈ ifs.filter (fun i => ¬ isMember i) :=
        List.mem_filter.mpr ⟨hqm.1, by simpa using hin.parents b hb1 q hqm.1 hb3 hsb.2.1 hqm.2⟩
      exact List.inj_on_of_nodup_map hname hp1 hq1 he
    rcases hfmt with hf | ⟨hf, hid⟩
    · obtain ⟨he, hnum⟩ := hf _ _ _ _ _ _ hxy
      obtain rfl := hpq he
      rw [count_lt hsp hsp' (p := fun s => decide (isSub f s) && parentOf ifs s == some p) (by simp [hsa, hp])
        (by simp [hsb, hq]) (by omega)]
    · obtain ⟨he, hnum⟩ := hf _ _ _ _ _ _ hxy
      obtain rfl := hpq he
      rw [hid a ha1 b hb1 hsa hsb (hp.trans hq.symm) hnum]

theorem mixedLoop_ok {l : List SvIf} : ∀ {ifs : List SvIf}, mixedLoop l ifs = .ok [] →
    ∀ i ∈ ifs, mixedParent l i = .ok none
  | [], _, _, h => by simp at h
  | a :: ifs, h, i, hi => by
    unfold mixedLoop at h
    cases hp : mixedParent l a with
    | error e => simp [hp] at h
    | ok r =>
      simp only [hp] at h
      cases hr : mixedLoop l ifs with
      | error e => simp [hr] at h
      | ok m =>
        simp only [hr, Except.ok.injEq, List.append_eq_nil_iff, Option.toList_eq_nil_iff] at h
        obtain ⟨rfl, rfl⟩ := h
        rcases List.mem_cons.mp hi with rfl | hi
        · exact hp
        · exact mixedLoop_ok hr i hi

/-- C66: on devices that do not support mixed trunks, an interface that has subinterfaces is not a trunk: every VLAN in the trunk
has a subinterface or is the routed native VLAN. -/
theorem C66_mixed {f : VlanFeat} {vlans : List (String × NVlan)} {ifs out : List SvIf} (hin : TrunkInput ifs)
    (h : trunkNode f vlans ifs = .ok (out, 0)) (hm : f.mixed = false) (p s : SvIf) (hs : s ∈ ifs) (hsub : isSub f s)
    (hp : parentOf ifs s = some p) :
    (∃ j ∈ out, j.ifindex = p.ifindex ∧ j.trunkId = none ∧ j.trunk.getD [] = []) ∧
    ∀ v ∈ trunkIds vlans p, 0 < v → (∃ t ∈ ifs, isSub f t ∧ parentOf ifs t = some p ∧ t.accessId = some v) ∨
      routedNative vlans p v := by
  obtain ⟨hF, -, -, hmix, -, -⟩ := trunkNode_spec hin h
  obtain ⟨hpm, hpl⟩ := parentOf_mem hp
  have hpn : ¬ isMember p := hin.parents s hs p hpm hsub.1 hsub.2.1 hpl
  obtain ⟨jp, hjp, hRp⟩ := forall₂_mem_left hF (List.mem_filter.mpr ⟨hpm, decide_eq_true (Or.inl hpn)⟩)
  obtain ⟨js, hjs, hRs⟩ := forall₂_mem_left hF (List.mem_filter.mpr ⟨hs, decide_eq_true (Or.inr hsub)⟩)
  have htr := hRp.2.2.2.2.2.2 hpn
  obtain ⟨par, -, -, hpar, -, -, hpi, -⟩ := hRs.2.2.2.2.2.1 hsub.1
  obtain rfl := Option.some.inj (hpar.symm.trans hp)
  unfold mixedErrors at hmix
  rw [if_neg (by simp [hm])] at hmix
  have hnone : jp.trunkId = none := by
    cases hl : mixedLoop out out with
    | error e => simp [hl] at hmix
    | ok l =>
      simp only [hl, Except.ok.injEq, List.length_eq_zero_iff] at hmix
      have hl0 : l = [] := by
        cases l with
        | nil => rfl
        | cons a l => simp [List.eraseDups_cons] at hmix
      rw [hl0] at hl
      have := mixedLoop_ok hl js hjs
      unfold mixedParent at this
      have hk : js.kind = "vlan_member" := hRs.2.1.trans hsub.1
      rw [if_neg (by simp [hk]), hpi] at this
      simp only at this
      cases hf : out.find? (fun q => q.ifindex = par.ifindex) with
      | none =>
        rw [List.find?_eq_none] at hf
        have := hf jp hjp
        simp [hRp.1] at this
      | some q =>
        have hq1 := List.find?_some hf
        have hq2 := List.mem_of_find?_eq_some hf
        obtain ⟨i, hi, hRi⟩ := forall₂_mem_right hF hq2
        have hii : i = par := by
          refine nodup_ifindex hin.index (List.mem_filter.mp hi).1 hpm ?_
          rw [← hRi.1]
          simpa using hq1
        have hqj : q = jp := by
          have hno : (out.map SvIf.ifindex).Nodup := by
            refine nodup_of_forall₂ (key := SvIf.ifindex) hF (hin.index.sublist (List.Sublist.map _ List.filter_sublist)) ?_
            intro a _ b _ x y hx hy hxy
            rw [← hx.1, ← hy.1, hxy]
          refine nodup_ifindex hno hq2 hjp ?_
          rw [hRi.1, hii, hRp.1]
        rw [hf, hqj] at this
        simp only [Except.ok.injEq] at this
        cases ht : jp.trunkId with
        | none => rfl
        | some x => simp [ht] at this
  refine ⟨⟨jp, hjp, hRp.1, hnone, htr.2.2.2.2.2.1 hnone⟩, ?_⟩
  intro v hv h0
  have := htr.2.2.2.1 v h0
  rw [hnone] at this
  simp only [Option.getD_none, List.not_mem_nil, false_iff] at this
  by_cases hr : routedNative vlans par v
  · exact .inr hr
  · left
    apply Classical.byContradiction
    intro hne
    exact this ⟨hv, fun t ht h1 h2 h3 => hne ⟨t, ht, h1, h2, h3⟩, hr⟩

/-- C66: a switch never has a physical interface with an address (routed native VLAN) and VLANs left in its trunk. -/
theorem C66_native_trunk {f : VlanFeat} {vlans : List (String × NVlan)} {ifs out : List SvIf} (hin : TrunkInput ifs)
    (h : trunkNode f vlans ifs = .ok (out, 0)) (hr : f.model ≠ .router) (i : SvIf) (hi : i ∈ ifs) (hm : ¬ isMember i)
    (hv : i.isVirtual = false) (ha : i.ip4 ≠ none ∨ i.ip6 ≠ none) :
    ∀ v ∈ trunkIds vlans i, 0 < v → (∃ t ∈ ifs, isSub f t ∧ parentOf ifs t = some i ∧ t.accessId = some v) ∨
      routedNative vlans i v := by
  obtain ⟨hF, -, -, -, hnat, -⟩ := trunkNode_spec hin h
  obtain ⟨j, hj, hR⟩ := forall₂_mem_left hF (List.mem_filter.mpr ⟨hi, decide_eq_true (Or.inl hm)⟩)
  have htr := hR.2.2.2.2.2.2 hm
  unfold nativeTrunkErrors at hnat
  rw [if_neg hr, List.length_eq_zero_iff, List.filter_eq_nil_iff] at hnat
  have h1 := hnat j hj
  have hnone : j.trunkId.getD [] = [] := by
    apply Classical.byContradiction
    intro hne
    apply h1
    rw [htr.2.1, hv, hR.2.2.1, hR.2.2.2.1]
    rcases ha with ha | ha
    · cases h4 : i.ip4 with
      | none => exact absurd h4 ha
      | some a => simpa using hne
    · cases h4 : i.ip6 with
      | none => exact absurd h4 ha
      | some a => simpa using hne
  intro v hv' h0
  have := htr.2.2.2.1 v h0
  rw [hnone] at this
  simp only [List.not_mem_nil, false_iff] at this
  by_cases hr : routedNative vlans i v
  · exact .inr hr
  · left
    apply Classical.byContradiction
    intro hne
    exact this ⟨hv', fun t ht h1 h2 h3 => hne ⟨t, ht, h1, h2, h3⟩, hr⟩

/-- C66: only supported configurations are accepted: there are no subinterfaces on layer-2 switches, routed native VLANs are used
only on devices supporting them, and all VLANs in trunks are defined. -/
theorem C66_supported {f : VlanFeat} {vlans : List (String × NVlan)} {ifs out : List SvIf} (hin : TrunkInput ifs)
    (h : trunkNode f vlans ifs = .ok (out, 0)) :
    (∀ i ∈ ifs, isSub f i → f.model ≠ .switch) ∧
    (∀ i ∈ ifs, isKept f i → i.mode = some .route → i.nativeFlag ≠ none → f.native = true) ∧
    (∀ i ∈ ifs, ∀ v ∈ i.trunk.getD [], (vlans.lookup v).isSome) := by
  obtain ⟨-, h1, h2, -, -, h3⟩ := trunkNode_spec hin h
  exact ⟨h1, h2, h3⟩

theorem append_sep_inj {sep : Char} {a b c d : List Char} (h : a ++ sep :: b = c ++ sep :: d) (hb : sep ∉ b) (hd : sep ∉ d) :
    a = c ∧ b = d := by
  rcases List.append_eq_append_iff.mp h with ⟨e, he1, he2⟩ | ⟨e, he1, he2⟩
  · cases e with
    | nil => exact ⟨by simpa using he1.symm, (List.cons.inj he2).2⟩
    | cons x e =>
      obtain ⟨rfl, h2⟩ := List.cons.inj he2
      exact absurd (h2 ▸ List.mem_append.mpr (.inr List.mem_cons_self)) hb
  · cases e with
    | nil => exact ⟨by simpa using he1, (List.cons.inj he2).2.symm⟩
    | cons x e =>
      obtain ⟨rfl, h2⟩ := List.cons.inj he2
      exact absurd (h2 ▸ List.mem_append.mpr (.inr List.mem_cons_self)) hd

/-- Interface names produced by the template `{ifname}.{subif_index}` are unique. -/
theorem dotName_inj (p q : String) (m n : Nat) (h : p ++ "." ++ toString m = q ++ "." ++ toString n) : p = q ∧ m = n := by
  have h1 : (p ++ "." ++ toString m).toList = (q ++ "." ++ toString n).toList := by rw [h]
  simp only [String.toList_append, List.append_assoc] at h1
  have hd : ∀ k : Nat, '.' ∉ (toString k).toList := by
    intro k hk
    have hk' : '.' ∈ Nat.toDigits 10 k := by
      have : (toString k).toList = Nat.toDigits 10 k := by
        change (Nat.repr k).toList = _
        simp [Nat.repr]
      rw [← this]
      exact hk
    have := Nat.isDigit_of_mem_toDigits (by decide) (by decide) hk'
    exact absurd this (by decide)
  obtain ⟨h2, h3⟩ := append_sep_inj (sep := '.') (a := p.toList) (c := q.toList) h1 (hd m) (hd n)
  exact ⟨String.toList_injective h2, Nat.repr_inj.1 (String.toList_injective h3)⟩

namespace TrunkExample

def feat (m : VModel) : VlanFeat := {
  model := m
  subName := fun p n _ => p ++ (if n = 1 then ".1" else if n = 2 then ".2" else ".x")
  mixed := true
  native := false }

def vl : List (String × NVlan) := [
  ("red", { id := some 10, mode := some .irb }), ("blue", { id := some 20, mode := some .route }),
  ("green", { id := some 30, mode := some .route })]

def port (x : Int) (l : Nat) (n : String) (t : Option (List String)) : SvIf := {
  ifindex := x
  ifname := n
  kind := "p2p"
  linkindex := some l
  trunk := t }

def mem (x : Int) (l : Nat) (parent id : Nat) (m : VMode) : SvIf := {
  ifindex := x
  ifname := "tmp"
  kind := "vlan_member"
  linkindex := some l
  parentindex := some parent
  accessId := some id
  attrMode := some m
  ip4 := if m = .route then some "10.0.0.1/24" else none }

def ifs : List SvIf := [port 1 1 "eth1" (some ["red", "blue", "green"]), port 2 2 "eth2" (some ["blue"]),
  mem 3 3 1 10 .irb, mem 4 4 1 20 .route, mem 5 5 2 20 .route, mem 6 6 1 30 .route]

structure Brief where
  name : String
  parent : Option Int
  ids : Option (List Nat)
deriving DecidableEq

def brief (r : Except VtAbort (List SvIf × Nat)) : Option (List Brief × Nat) :=
  match r with
  | .error _ => none
  | .ok (l, e) => some (l.map (fun i => ⟨i.ifname, i.parentIfindex, i.trunkId⟩), e)

theorem input : TrunkInput ifs where
  index := by decide
  parents := by decide
  fresh := by decide
  loop := by decide

/-- The conditions for unique names: the template is `{ifname}.{subif_index}`. -/
example : ((ifs.filter (fun i => ¬ isMember i)).map SvIf.ifname).Nodup ∧
    ∀ (p q : String) (m n : Nat) (v w : Option Nat), (fun p n (_ : Option Nat) => p ++ "." ++ toString n) p m v =
      (fun p n (_ : Option Nat) => p ++ "." ++ toString n) q n w → p = q ∧ m = n :=
  ⟨by decide, fun p q m n _ _ h => dotName_inj p q m n h⟩

/-- A layer-3 switch: a bridged VLAN is left in the first trunk, the other VLANs have subinterfaces. -/
example : TrunkInput ifs ∧ brief (trunkNode (feat .l3switch) vl ifs) = some ([⟨"eth1", none, some [10]⟩, ⟨"eth2", none, none⟩,
    ⟨"eth1.1", some 1, none⟩, ⟨"eth2.1", some 2, none⟩, ⟨"eth1.2", some 1, none⟩], 0) :=
  ⟨input, by decide +kernel⟩

/-- A router: all VLANs have subinterfaces. -/
example : brief (trunkNode { feat .router with mixed := false } vl ifs) = some ([⟨"eth1", none, none⟩, ⟨"eth2", none, none⟩,
    ⟨"eth1.1", some 1, none⟩, ⟨"eth1.2", some 1, none⟩, ⟨"eth2.1", some 2, none⟩, ⟨"eth1.x", some 1, none⟩], 0) := by
  decide +kernel

/-- Devices without mixed trunks reject the first trunk, a layer-2 switch rejects all routed VLANs. -/
example : (brief (trunkNode { feat .l3switch with mixed := false } vl ifs)).map Prod.snd = some 1 ∧
    (brief (trunkNode (feat .switch) vl ifs)).map Prod.snd = some 3 := by
  decide +kernel

end TrunkExample

end Netlab
