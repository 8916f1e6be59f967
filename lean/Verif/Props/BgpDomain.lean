import Verif.Spec.BgpDomain
import Verif.Lemmas.Box
import Verif.Props.Asn
import Verif.Props.VlanTrunk
import Verif.Props.GroupInit
import Verif.Props.BgpSession

namespace Netlab

open Spec

variable {α : Type}

theorem bdDomain_iff (n : BdNode α) (d : String) : bdDomain n = d ↔ BgpDomainOf n d := by
  unfold bdDomain BgpDomainOf
  cases n.domain with
  | none => simp [eq_comm]
  | some x => simp

theorem sameBgpDomain_iff (n m : BdNode α) : bdDomain n = bdDomain m ↔ SameBgpDomain n m := by
  unfold SameBgpDomain
  constructor
  · intro h
    exact ⟨bdDomain n, (bdDomain_iff n _).1 rfl, (bdDomain_iff m _).1 h.symm⟩
  · rintro ⟨d, h1, h2⟩
    rw [(bdDomain_iff n d).2 h1, (bdDomain_iff m d).2 h2]

theorem bdAs_digits (n : BdNode α) : ':' ∉ (bdAs n).toList := by
  unfold bdAs
  cases n.asn with
  | none => decide
  | some a =>
    intro h
    have := repr_digits a ':' h
    exact absurd this (by decide)

theorem bdAs_inj (n m : BdNode α) : bdAs n = bdAs m ↔ n.asn = m.asn := by
  have hne : ∀ a : Nat, toString a ≠ "None" := by
    intro a h
    have h1 : 'N' ∈ (toString a).toList := by rw [h]; decide
    exact absurd (repr_digits a 'N' h1) (by decide)
  unfold bdAs
  cases n.asn with
  | none =>
    cases m.asn with
    | none => simp
    | some b => exact ⟨fun h => absurd h.symm (hne b), fun h => (nomatch h)⟩
  | some a =>
    cases m.asn with
    | none => exact ⟨fun h => absurd h (hne a), fun h => (nomatch h)⟩
    | some b =>
      simp only [Option.some.injEq]
      exact Nat.repr_inj

theorem bdKey_list (n : BdNode α) : (bdKey n).toList = (bdDomain n).toList ++ ':' :: (bdAs n).toList := by
  unfold bdKey
  rw [String.toList_append, String.toList_append]
  simp

theorem bdKey_inj (n m : BdNode α) : bdKey n = bdKey m ↔ bdDomain n = bdDomain m ∧ n.asn = m.asn := by
  constructor
  · intro h
    have h1 : (bdKey n).toList = (bdKey m).toList := by rw [h]
    rw [bdKey_list, bdKey_list] at h1
    have h2 := append_sep_inj h1 (bdAs_digits n) (bdAs_digits m)
    exact ⟨String.toList_inj.1 h2.1, (bdAs_inj n m).1 (String.toList_inj.1 h2.2)⟩
  · rintro ⟨h1, h2⟩
    unfold bdKey
    rw [h1, (bdAs_inj n m).2 h2]

theorem bdKey_count (n : BdNode α) : (bdKey n).toList.count ':' = 1 ↔ ':' ∉ (bdDomain n).toList := by
  rw [bdKey_list, List.count_append, List.count_cons_self, List.count_eq_zero.2 (bdAs_digits n), ← List.count_eq_zero]
  omega

theorem bdFind_iff {nodes : List (BdNode α)} (hn : (nodes.map (·.name)).Nodup) (s d : String) :
    bdFind nodes s = some d ↔ ∃ m ∈ nodes, m.name = s ∧ bdDomain m = d := by
  unfold bdFind
  induction nodes with
  | nil => simp
  | cons y r ih =>
    simp only [List.map_cons, List.nodup_cons] at hn
    by_cases hy : (y.name == s) = true
    · rw [List.find?_cons_of_pos (p := fun n : BdNode α => n.name == s) hy]
      have hys : y.name = s := by simpa using hy
      constructor
      · intro h
        exact ⟨y, List.mem_cons_self, hys, by simpa using h⟩
      · rintro ⟨m, hm, hms, hd⟩
        rcases List.mem_cons.1 hm with rfl | hm
        · simp [hd]
        · exact absurd (by rw [hys, ← hms]; exact List.mem_map_of_mem (f := (·.name)) hm) hn.1
    · rw [List.find?_cons_of_neg (p := fun n : BdNode α => n.name == s) hy, ih hn.2]
      constructor
      · rintro ⟨m, hm, h⟩
        exact ⟨m, List.mem_cons_of_mem _ hm, h⟩
      · rintro ⟨m, hm, h⟩
        rcases List.mem_cons.1 hm with rfl | hm
        · exact absurd (by simpa using h.1) hy
        · exact ⟨m, hm, h⟩

theorem bdFind_none {nodes : List (BdNode α)} (hn : (nodes.map (·.name)).Nodup) (s : String) :
    bdFind nodes s = none ↔ ¬ ∃ m ∈ nodes, m.name = s := by
  constructor
  · rintro h ⟨m, hm, hs⟩
    have := (bdFind_iff hn s (bdDomain m)).2 ⟨m, hm, hs, rfl⟩
    rw [h] at this
    cases this
  · intro h
    cases hf : bdFind nodes s with
    | none => rfl
    | some d =>
      obtain ⟨m, hm, hs, _⟩ := (bdFind_iff hn s d).1 hf
      exact absurd ⟨m, hm, hs⟩ h

/-- The neighbor is kept. -/
def bdKeep (nodes : List (BdNode α)) (n : BdNode α) (x : BdNbr α) : Bool :=
  x.type ≠ "ibgp" || bdFind nodes x.name == some (bdDomain n)

/-- The neighbor is a route reflector in another domain. -/
def bdCross (nodes : List (BdNode α)) (n : BdNode α) (x : BdNbr α) : Prop :=
  x.type = "ibgp" ∧ x.rr = true ∧ ∃ d, bdFind nodes x.name = some d ∧ d ≠ bdDomain n

theorem lookup_bdMark (m : List (String × Bool)) (k j : String) :
    (bdMark m k).lookup j = if j = k ∧ m.lookup j = none then some false else m.lookup j := by
  unfold bdMark
  by_cases h : (m.lookup k).isSome = true
  · rw [if_pos h]
    by_cases hj : j = k
    · subst hj
      rw [if_neg]
      rintro ⟨_, h2⟩
      rw [h2] at h
      cases h
    · rw [if_neg (fun x => hj x.1)]
  · rw [if_neg h, lookup_setKey]
    by_cases hj : j = k
    · subst hj
      have : m.lookup j = none := Option.not_isSome_iff_eq_none.1 h
      rw [if_pos rfl, if_pos ⟨rfl, this⟩]
    · rw [if_neg hj, if_neg (fun x => hj x.1)]

theorem bdMark_nodup (m : List (String × Bool)) (k : String) (h : (m.map (·.1)).Nodup) : ((bdMark m k).map (·.1)).Nodup := by
  unfold bdMark
  split
  · exact h
  · exact nodup_setKey h _ _

theorem bdNbrs_none (nodes : List (BdNode α)) (n : BdNode α) (l : List (BdNbr α)) (m : List (String × Bool)) :
    bdNbrs nodes n l m = none ↔ ∃ x ∈ l, x.type = "ibgp" ∧ bdFind nodes x.name = none := by
  induction l generalizing m with
  | nil => simp [bdNbrs]
  | cons x r ih =>
    unfold bdNbrs
    by_cases ht : x.type = "ibgp"
    · rw [if_neg (by simp [ht])]
      cases hf : bdFind nodes x.name with
      | none => simp [ht, hf]
      | some d =>
        simp only
        by_cases hd : d = bdDomain n
        · rw [if_neg (by simp [hd]), Option.map_eq_none_iff, ih]
          simp [hf]
        · rw [if_pos hd, ih]
          simp [hf]
    · rw [if_pos ht, Option.map_eq_none_iff, ih]
      simp [ht]

theorem bdNbrs_some (nodes : List (BdNode α)) (n : BdNode α) (l : List (BdNbr α)) (m : List (String × Bool)) (r : List (BdNbr α) × List (String × Bool))
    (h : bdNbrs nodes n l m = some r) :
    r.1 = l.filter (bdKeep nodes n) ∧ ((m.map (·.1)).Nodup → (r.2.map (·.1)).Nodup) ∧
    ∀ k, ((k = bdKey n ∧ m.lookup k = none ∧ ∃ x ∈ l, bdCross nodes n x) → r.2.lookup k = some false) ∧
      (¬ (k = bdKey n ∧ m.lookup k = none ∧ ∃ x ∈ l, bdCross nodes n x) → r.2.lookup k = m.lookup k) := by
  induction l generalizing m r with
  | nil =>
    simp only [bdNbrs, Option.some.injEq] at h
    subst h
    refine ⟨rfl, fun h => h, fun k => ⟨?_, fun _ => rfl⟩⟩
    rintro ⟨_, _, x, hx, _⟩
    cases hx
  | cons x l ih =>
    unfold bdNbrs at h
    have keep : ∀ (hk : bdKeep nodes n x = true) (hc : ¬ bdCross nodes n x) (h : (bdNbrs nodes n l m).map (fun y => (x :: y.1, y.2)) = some r),
        r.1 = (x :: l).filter (bdKeep nodes n) ∧ ((m.map (·.1)).Nodup → (r.2.map (·.1)).Nodup) ∧
        ∀ k, ((k = bdKey n ∧ m.lookup k = none ∧ ∃ x' ∈ x :: l, bdCross nodes n x') → r.2.lookup k = some false) ∧
          (¬ (k = bdKey n ∧ m.lookup k = none ∧ ∃ x' ∈ x :: l, bdCross nodes n x') → r.2.lookup k = m.lookup k) := by
      intro hk hc h
      obtain ⟨y, hy, rfl⟩ := Option.map_eq_some_iff.1 h
      have := ih m y hy
      have he : (∃ x' ∈ x :: l, bdCross nodes n x') ↔ ∃ x' ∈ l, bdCross nodes n x' := by
        simp [hc]
      rw [List.filter_cons_of_pos hk]
      refine ⟨by rw [this.1], this.2.1, fun k => ?_⟩
      rw [he]
      exact this.2.2 k
    by_cases ht : x.type = "ibgp"
    · rw [if_neg (by simp [ht])] at h
      cases hf : bdFind nodes x.name with
      | none => rw [hf] at h; cases h
      | some d =>
        rw [hf] at h
        simp only at h
        by_cases hd : d = bdDomain n
        · rw [if_neg (by simp [hd])] at h
          refine keep (by simp [bdKeep, hf, hd]) ?_ h
          rintro ⟨_, _, d', hd', hne⟩
          rw [hf] at hd'
          cases hd'
          exact hne hd
        · rw [if_pos hd] at h
          have hk : ¬ bdKeep nodes n x = true := by simp [bdKeep, ht, hf, hd]
          rw [List.filter_cons_of_neg hk]
          have := ih _ r h
          by_cases hr : x.rr = true
          · rw [if_pos hr] at this
            have hc : bdCross nodes n x := ⟨ht, hr, d, hf, hd⟩
            refine ⟨this.1, fun hm => this.2.1 (bdMark_nodup _ _ hm), fun k => ⟨?_, ?_⟩⟩
            · rintro ⟨h1, h2, _⟩
              have hl : (bdMark m (bdKey n)).lookup k = some false := by rw [lookup_bdMark, if_pos ⟨h1, h2⟩]
              rw [(this.2.2 k).2 (fun h => by rw [hl] at h; cases h.2.1), hl]
            · intro hnn
              have hx : ¬ (k = bdKey n ∧ m.lookup k = none) := fun h => hnn ⟨h.1, h.2, x, List.mem_cons_self, hc⟩
              have hl : (bdMark m (bdKey n)).lookup k = m.lookup k := by rw [lookup_bdMark, if_neg hx]
              rw [(this.2.2 k).2 (fun h => hx ⟨h.1, by rw [← hl]; exact h.2.1⟩), hl]
          · rw [if_neg hr] at this
            have hc : ¬ bdCross nodes n x := fun h => hr h.2.1
            have he : (∃ x' ∈ x :: l, bdCross nodes n x') ↔ ∃ x' ∈ l, bdCross nodes n x' := by
              simp [hc]
            refine ⟨this.1, this.2.1, fun k => ?_⟩
            rw [he]
            exact this.2.2 k
    · rw [if_pos ht] at h
      exact keep (by simp [bdKeep, ht]) (fun h => ht h.1) h

theorem bdNodes_none (nodes l : List (BdNode α)) (m : List (String × Bool)) :
    bdNodes nodes l m = none ↔ ∃ n ∈ l, n.bgp = true ∧ ∃ x ∈ n.nbrs, x.type = "ibgp" ∧ bdFind nodes x.name = none := by
  induction l generalizing m with
  | nil => simp [bdNodes]
  | cons n r ih =>
    unfold bdNodes
    by_cases hb : n.bgp = true
    · rw [if_pos hb]
      cases hx : bdNbrs nodes n n.nbrs (if n.rr = true then setKey m (bdKey n) true else m) with
      | none =>
        simp only [true_iff]
        exact ⟨n, List.mem_cons_self, hb, (bdNbrs_none _ _ _ _).1 hx⟩
      | some y =>
        have hno : ¬ ∃ x ∈ n.nbrs, x.type = "ibgp" ∧ bdFind nodes x.name = none := by
          intro h
          rw [(bdNbrs_none _ _ _ _).2 h] at hx
          cases hx
        simp only [Option.map_eq_none_iff]
        rw [ih]
        simp only [List.mem_cons, exists_eq_or_imp]
        exact ⟨Or.inr, fun h => h.elim (fun h => absurd h.2 hno) id⟩
    · rw [if_neg hb, Option.map_eq_none_iff, ih]
      simp [hb]

/-- The new node -/
def bdNew (nodes : List (BdNode α)) (n : BdNode α) : BdNode α :=
  if n.bgp then { n with nbrs := n.nbrs.filter (bdKeep nodes n) } else n

/-- The node is a route reflector with this key. -/
def bdRR (k : String) (n : BdNode α) : Prop := n.bgp = true ∧ n.rr = true ∧ bdKey n = k

/-- The node needs a route reflector with this key. -/
def bdNeeds (nodes : List (BdNode α)) (k : String) (n : BdNode α) : Prop := n.bgp = true ∧ bdKey n = k ∧ ∃ x ∈ n.nbrs, bdCross nodes n x

theorem bdNodes_some (nodes l : List (BdNode α)) (m : List (String × Bool)) (r : List (BdNode α) × List (String × Bool))
    (h : bdNodes nodes l m = some r) :
    r.1 = l.map (bdNew nodes) ∧ ((m.map (·.1)).Nodup → (r.2.map (·.1)).Nodup) ∧
    ∀ k, ((∃ n ∈ l, bdRR k n) → r.2.lookup k = some true) ∧
      (∀ b, (¬ ∃ n ∈ l, bdRR k n) → m.lookup k = some b → r.2.lookup k = some b) ∧
      ((¬ ∃ n ∈ l, bdRR k n) → m.lookup k = none → (∃ n ∈ l, bdNeeds nodes k n) → r.2.lookup k = some false) ∧
      ((¬ ∃ n ∈ l, bdRR k n) → m.lookup k = none → (¬ ∃ n ∈ l, bdNeeds nodes k n) → r.2.lookup k = none) := by
  induction l generalizing m r with
  | nil =>
    simp only [bdNodes, Option.some.injEq] at h
    subst h
    refine ⟨rfl, fun h => h, fun k => ⟨?_, fun b _ h => h, ?_, fun _ h _ => h⟩⟩
    · rintro ⟨_, h, _⟩; cases h
    · rintro _ _ ⟨_, h, _⟩; cases h
  | cons n l ih =>
    unfold bdNodes at h
    by_cases hb : n.bgp = true
    · rw [if_pos hb] at h
      cases hx : bdNbrs nodes n n.nbrs (if n.rr = true then setKey m (bdKey n) true else m) with
      | none => rw [hx] at h; cases h
      | some y =>
        rw [hx] at h
        simp only at h
        obtain ⟨z, hz, rfl⟩ := Option.map_eq_some_iff.1 h
        have ht := ih y.2 z hz
        have hy := bdNbrs_some nodes n n.nbrs _ y hx
        refine ⟨?_, ?_, fun k => ?_⟩
        · simp only [List.map_cons, ht.1, bdNew, hb, if_true, hy.1]
        · intro hm
          apply ht.2.1
          apply hy.2.1
          split
          · exact nodup_setKey hm _ _
          · exact hm
        · have hk := ht.2.2 k
          have hyk := hy.2.2 k
          by_cases hrk : bdRR k n
          · -- the node is a route reflector
            have hl : (if n.rr = true then setKey m (bdKey n) true else m).lookup k = some true := by
              rw [if_pos hrk.2.1, lookup_setKey, if_pos hrk.2.2.symm]
            have hy2 : y.2.lookup k = some true := by
              rw [hyk.2 (fun h => by rw [hl] at h; cases h.2.1), hl]
            have hex : ∃ n' ∈ n :: l, bdRR k n' := ⟨n, List.mem_cons_self, hrk⟩
            refine ⟨fun _ => ?_, fun b h => absurd hex h, fun h => absurd hex h, fun h => absurd hex h⟩
            by_cases hlr : ∃ n' ∈ l, bdRR k n'
            · exact hk.1 hlr
            · exact hk.2.1 true hlr hy2
          · have hl : (if n.rr = true then setKey m (bdKey n) true else m).lookup k = m.lookup k := by
              by_cases hr : n.rr = true
              · rw [if_pos hr, lookup_setKey, if_neg]
                intro h
                exact hrk ⟨hb, hr, h.symm⟩
              · rw [if_neg hr]
            rw [hl] at hyk
            have he : (∃ n' ∈ n :: l, bdRR k n') ↔ ∃ n' ∈ l, bdRR k n' := by
              simp [hrk]
            rw [he]
            have hn : (k = bdKey n ∧ ∃ x ∈ n.nbrs, bdCross nodes n x) ↔ bdNeeds nodes k n :=
              ⟨fun h => ⟨hb, h.1.symm, h.2⟩, fun h => ⟨h.2.1.symm, h.2.2⟩⟩
            refine ⟨hk.1, fun b hno hmb => ?_, fun hno hmn hex => ?_, fun hno hmn hex => ?_⟩
            · exact hk.2.1 b hno (by rw [hyk.2 (fun h => by rw [hmb] at h; cases h.2.1), hmb])
            · by_cases hnn : bdNeeds nodes k n
              · have := hn.2 hnn
                exact hk.2.1 false hno (hyk.1 ⟨this.1, hmn, this.2⟩)
              · have hy2 : y.2.lookup k = none := by
                  rw [hyk.2 (fun h => hnn (hn.1 ⟨h.1, h.2.2⟩)), hmn]
                refine hk.2.2.1 hno hy2 ?_
                obtain ⟨n', hn', hx'⟩ := hex
                rcases List.mem_cons.1 hn' with rfl | hn'
                · exact absurd hx' hnn
                · exact ⟨n', hn', hx'⟩
            · have hnn : ¬ bdNeeds nodes k n := fun h => hex ⟨n, List.mem_cons_self, h⟩
              have hy2 : y.2.lookup k = none := by
                rw [hyk.2 (fun h => hnn (hn.1 ⟨h.1, h.2.2⟩)), hmn]
              exact hk.2.2.2 hno hy2 (fun ⟨n', hn', hx'⟩ => hex ⟨n', List.mem_cons_of_mem _ hn', hx'⟩)
    · rw [if_neg hb] at h
      obtain ⟨z, hz, rfl⟩ := Option.map_eq_some_iff.1 h
      have ht := ih m z hz
      have hr : ∀ k, ¬ bdRR k n := fun k h => hb h.1
      have hq : ∀ k, ¬ bdNeeds nodes k n := fun k h => hb h.1
      refine ⟨by simp [ht.1, bdNew, hb], ht.2.1, fun k => ?_⟩
      have he : (∃ n' ∈ n :: l, bdRR k n') ↔ ∃ n' ∈ l, bdRR k n' := by simp [hr k]
      have he2 : (∃ n' ∈ n :: l, bdNeeds nodes k n') ↔ ∃ n' ∈ l, bdNeeds nodes k n' := by simp [hq k]
      rw [he, he2]
      exact ht.2.2 k

theorem bdCross_iff {nodes : List (BdNode α)} (hn : (nodes.map (·.name)).Nodup) (n : BdNode α) :
    (n.bgp = true ∧ ∃ x ∈ n.nbrs, bdCross nodes n x) ↔ CrossReflector nodes n := by
  unfold CrossReflector bdCross
  refine and_congr_right (fun _ => exists_congr (fun x => and_congr_right (fun _ => and_congr_right (fun _ => and_congr_right (fun _ => ?_)))))
  constructor
  · rintro ⟨d, hf, hd⟩
    obtain ⟨m, hm, hs, hdm⟩ := (bdFind_iff hn _ _).1 hf
    refine ⟨m, hm, hs, fun h => hd ?_⟩
    rw [← hdm, (sameBgpDomain_iff n m).2 h]
  · rintro ⟨m, hm, hs, hd⟩
    exact ⟨bdDomain m, (bdFind_iff hn _ _).2 ⟨m, hm, hs, rfl⟩, fun h => hd ((sameBgpDomain_iff n m).1 h.symm)⟩

theorem bd_orphan_iff {nodes : List (BdNode α)} (hn : (nodes.map (·.name)).Nodup) (k : String) :
    ((∃ n ∈ nodes, bdNeeds nodes k n) ∧ ¬ ∃ n ∈ nodes, bdRR k n) ↔ ∃ n ∈ nodes, bdKey n = k ∧ OrphanInstance nodes n := by
  constructor
  · rintro ⟨⟨n, hm, h1, h2, h3⟩, h⟩
    refine ⟨n, hm, h2, (bdCross_iff hn n).1 ⟨h1, h3⟩, fun m hmm hb hr hs ha => h ⟨m, hmm, hb, hr, ?_⟩⟩
    rw [← h2]
    exact (bdKey_inj m n).2 ⟨((sameBgpDomain_iff n m).2 hs).symm, ha⟩
  · rintro ⟨n, hm, h2, hc, ho⟩
    have := (bdCross_iff hn n).2 hc
    refine ⟨⟨n, hm, this.1, h2, this.2⟩, ?_⟩
    rintro ⟨m, hmm, hb, hr, hk⟩
    have hkk := (bdKey_inj m n).1 (hk.trans h2.symm)
    exact ho m hmm hb hr ((sameBgpDomain_iff n m).1 hkk.1.symm) hkk.2

theorem bd_known_iff {nodes : List (BdNode α)} (hn : (nodes.map (·.name)).Nodup) :
    bdNodes nodes nodes [] = none ↔ ¬ SessionsKnown nodes := by
  rw [bdNodes_none]
  unfold SessionsKnown
  constructor
  · rintro ⟨n, hm, hb, x, hx, ht, hf⟩ h
    exact (bdFind_none hn x.name).1 hf (h n hm hb x hx ht)
  · intro h
    apply Classical.byContradiction
    intro hno
    apply h
    intro n hm hb x hx ht
    apply Classical.byContradiction
    intro hne
    exact hno ⟨n, hm, hb, x, hx, ht, (bdFind_none hn x.name).2 hne⟩

/-- Flags left after the loop over nodes -/
theorem bd_flags {nodes : List (BdNode α)} (hn : (nodes.map (·.name)).Nodup) {r : List (BdNode α) × List (String × Bool)}
    (h : bdNodes nodes nodes [] = some r) (k : String) : (k, false) ∈ r.2 ↔ ∃ n ∈ nodes, bdKey n = k ∧ OrphanInstance nodes n := by
  have hs := bdNodes_some nodes nodes [] r h
  have hnd := hs.2.1 List.nodup_nil
  have hk := hs.2.2 k
  rw [← bd_orphan_iff hn]
  constructor
  · intro hm
    have hl : r.2.lookup k = some false := lookup_of_mem hnd hm
    have hr : ¬ ∃ n ∈ nodes, bdRR k n := fun hr => by
      have := hk.1 hr
      rw [hl] at this
      cases this
    refine ⟨?_, hr⟩
    apply Classical.byContradiction
    intro hno
    have := hk.2.2.2 hr rfl hno
    rw [hl] at this
    cases this
  · rintro ⟨h1, h2⟩
    exact mem_of_lookup (hk.2.2.1 h2 rfl h1)

theorem bdReport_none (p : String × Bool) : bdReport p = none ↔ p.2 = false ∧ p.1.toList.count ':' ≠ 1 := by
  unfold bdReport
  cases p.2 with
  | true => simp
  | false =>
    by_cases h : p.1.toList.count ':' = 1
    · simp [h]
    · simp [h]

theorem mapM_none_iff {β γ : Type} (f : β → Option γ) (l : List β) : l.mapM f = none ↔ ∃ x ∈ l, f x = none := by
  constructor
  · intro h
    apply Classical.byContradiction
    intro hno
    obtain ⟨r, hr⟩ := (mapM_option_spec f l).2 (fun x hx => by
      cases hf : f x with
      | none => exact absurd ⟨x, hx, hf⟩ hno
      | some y => exact ⟨y, rfl⟩)
    rw [h] at hr
    cases hr
  · rintro ⟨x, hx, hf⟩
    cases hr : l.mapM f with
    | none => rfl
    | some r =>
      obtain ⟨y, _, hy⟩ := ((mapM_option_spec f l).1 r hr).1 x hx
      rw [hf] at hy
      cases hy

/-- C88: the plugin crashes exactly when an IBGP neighbor is unknown, or when it should report a problem in a domain with a colon in its name. -/
theorem C88_crash_iff (nodes : List (BdNode α)) (hn : (nodes.map (·.name)).Nodup) :
    bgpDomain nodes = none ↔
      ¬ SessionsKnown nodes ∨ ∃ n ∈ nodes, OrphanInstance nodes n ∧ ∃ d, n.domain = some d ∧ ':' ∈ d.toList := by
  unfold bgpDomain
  cases hb : bdNodes nodes nodes [] with
  | none => simp [(bd_known_iff hn).1 hb]
  | some r =>
    have hk : SessionsKnown nodes := Classical.byContradiction (fun h => by
      rw [(bd_known_iff hn).2 h] at hb
      cases hb)
    simp only [Option.map_eq_none_iff, mapM_none_iff, hk, not_true, false_or]
    constructor
    · rintro ⟨p, hp, hf⟩
      have := (bdReport_none p).1 hf
      have hm : (p.1, false) ∈ r.2 := by rw [← this.1]; exact hp
      obtain ⟨n, hnm, hkn, ho⟩ := (bd_flags hn hb p.1).1 hm
      refine ⟨n, hnm, ho, ?_⟩
      have hc := this.2
      rw [← hkn, ne_eq, bdKey_count, Classical.not_not] at hc
      unfold bdDomain at hc
      cases hd : n.domain with
      | none => rw [hd] at hc; exact absurd hc (by decide)
      | some d => rw [hd] at hc; exact ⟨d, rfl, hc⟩
    · rintro ⟨n, hnm, ho, d, hd, hc⟩
      refine ⟨(bdKey n, false), (bd_flags hn hb _).2 ⟨n, hnm, rfl, ho⟩, (bdReport_none _).2 ⟨rfl, ?_⟩⟩
      rw [ne_eq, bdKey_count, Classical.not_not]
      unfold bdDomain
      rw [hd]
      exact hc

/-- C88: the topology is accepted exactly when every AS that has an IBGP session with a route reflector in another domain has a route reflector
in its own domain. -/
theorem C88_accepted_iff (nodes : List (BdNode α)) (hn : (nodes.map (·.name)).Nodup) (hk : SessionsKnown nodes) :
    (∃ r, bgpDomain nodes = some (r, 0)) ↔ ∀ n ∈ nodes, ¬ OrphanInstance nodes n := by
  unfold bgpDomain
  cases hb : bdNodes nodes nodes [] with
  | none => exact absurd hk ((bd_known_iff hn).1 hb)
  | some r =>
    simp only
    constructor
    · rintro ⟨x, hx⟩ n hnm ho
      obtain ⟨e, he, hx⟩ := Option.map_eq_some_iff.1 hx
      have hz : e.sum = 0 := congrArg (·.2) hx
      obtain ⟨y, hy, hf⟩ := ((mapM_option_spec bdReport r.2).1 e he).1 _ ((bd_flags hn hb (bdKey n)).2 ⟨n, hnm, rfl, ho⟩)
      have hy0 : y = 0 := by
        have := (gi_sum_zero (fun x : Nat => x) e).1 (by simpa using hz)
        exact this y hy
      rw [hy0] at hf
      unfold bdReport at hf
      simp at hf
    · intro h
      have hall : ∀ p ∈ r.2, bdReport p = some 0 := by
        intro p hp
        unfold bdReport
        cases hp2 : p.2 with
        | true => rfl
        | false =>
          obtain ⟨n, hnm, _, ho⟩ := (bd_flags hn hb p.1).1 (by rw [← hp2]; exact hp)
          exact absurd ho (h n hnm)
      obtain ⟨e, he⟩ := (mapM_option_spec bdReport r.2).2 (fun p hp => ⟨0, hall p hp⟩)
      refine ⟨r.1, ?_⟩
      rw [he]
      have hz : e.sum = 0 := by
        have := (gi_sum_zero (fun x : Nat => x) e).2 (fun y hy => by
          obtain ⟨p, hp, hf⟩ := ((mapM_option_spec bdReport r.2).1 e he).2 y hy
          rw [hall p hp] at hf
          exact (Option.some.inj hf).symm)
        simpa using this
      simp [hz]

theorem bd_result {nodes r : List (BdNode α)} {e : Nat} (h : bgpDomain nodes = some (r, e)) : r = nodes.map (bdNew nodes) := by
  unfold bgpDomain at h
  cases hb : bdNodes nodes nodes [] with
  | none => rw [hb] at h; cases h
  | some x =>
    rw [hb] at h
    obtain ⟨y, _, hy⟩ := Option.map_eq_some_iff.1 h
    rw [← (bdNodes_some nodes nodes [] x hb).1]
    exact (congrArg (·.1) hy).symm

theorem bdKeep_iff {nodes : List (BdNode α)} (hn : (nodes.map (·.name)).Nodup) (n : BdNode α) (x : BdNbr α) :
    bdKeep nodes n x = true ↔ (x.type = "ibgp" → ∃ m ∈ nodes, m.name = x.name ∧ SameBgpDomain n m) := by
  unfold bdKeep
  simp only [Bool.or_eq_true, decide_eq_true_eq, beq_iff_eq, bdFind_iff hn]
  constructor
  · rintro (h | ⟨m, hm, hs, hd⟩) ht
    · exact absurd ht h
    · exact ⟨m, hm, hs, (sameBgpDomain_iff n m).1 hd.symm⟩
  · intro h
    by_cases ht : x.type = "ibgp"
    · obtain ⟨m, hm, hs, hd⟩ := h ht
      exact Or.inr ⟨m, hm, hs, ((sameBgpDomain_iff n m).2 hd).symm⟩
    · exact Or.inl ht

/-- C88: exactly the IBGP sessions between domains are removed (with or without errors); the remaining sessions keep their order and attributes. -/
theorem C88_sessions (nodes r : List (BdNode α)) (e : Nat) (hn : (nodes.map (·.name)).Nodup) (h : bgpDomain nodes = some (r, e)) :
    List.Forall₂ (fun n n' =>
      n'.name = n.name ∧ n'.bgp = n.bgp ∧ n'.domain = n.domain ∧ n'.asn = n.asn ∧ n'.rr = n.rr ∧ (n.bgp = false → n'.nbrs = n.nbrs) ∧
      (n.bgp = true → ∃ p : BdNbr α → Bool, n'.nbrs = n.nbrs.filter p ∧
        ∀ x, p x = true ↔ (x.type = "ibgp" → ∃ m ∈ nodes, m.name = x.name ∧ SameBgpDomain n m))) nodes r := by
  rw [bd_result h, List.forall₂_map_right_iff, List.forall₂_same]
  intro n _
  unfold bdNew
  cases hb : n.bgp with
  | true => exact ⟨rfl, rfl, rfl, rfl, rfl, fun h => (nomatch h), fun _ => ⟨bdKeep nodes n, rfl, bdKeep_iff hn n⟩⟩
  | false => exact ⟨rfl, hb, rfl, rfl, rfl, fun _ => rfl, fun h => (nomatch h)⟩

/-- C88: when both ends of IBGP sessions know about the session, this is true afterwards. -/
theorem C88_symmetric (nodes r : List (BdNode α)) (e : Nat) (hn : (nodes.map (·.name)).Nodup) (h : bgpDomain nodes = some (r, e))
    (hs : ∀ a b, IbgpTo nodes a b → IbgpTo nodes b a) : ∀ a b, IbgpTo r a b → IbgpTo r b a := by
  have hr := bd_result h
  have key : ∀ a b, IbgpTo r a b ↔ IbgpTo nodes a b ∧ ∃ n ∈ nodes, n.name = a ∧ ∃ m ∈ nodes, m.name = b ∧ SameBgpDomain n m := by
    intro a b
    subst hr
    constructor
    · rintro ⟨n', hn', ha, hb, x, hx, hxb, ht⟩
      obtain ⟨n, hnm, rfl⟩ := List.mem_map.1 hn'
      unfold bdNew at ha hb hx
      cases hbb : n.bgp with
      | false => rw [hbb] at hb; simp [hbb] at hb
      | true =>
        simp only [hbb, if_true] at ha hb hx
        obtain ⟨hx1, hx2⟩ := List.mem_filter.1 hx
        obtain ⟨m, hm, hms, hd⟩ := (bdKeep_iff hn n x).1 hx2 ht
        exact ⟨⟨n, hnm, ha, hbb, x, hx1, hxb, ht⟩, n, hnm, ha, m, hm, hms.trans hxb, hd⟩
    · rintro ⟨⟨n, hnm, ha, hbb, x, hx, hxb, ht⟩, n2, hn2, ha2, m, hm, hmb, hd⟩
      have : n2 = n := eq_of_map_nodup hn hn2 hnm (ha2.trans ha.symm)
      subst this
      refine ⟨bdNew nodes n2, List.mem_map_of_mem hnm, ?_, ?_, x, ?_, hxb, ht⟩
      · simp [bdNew, hbb, ha]
      · simp [bdNew, hbb]
      · simp only [bdNew, hbb, if_true]
        exact List.mem_filter.2 ⟨hx, (bdKeep_iff hn n2 x).2 (fun _ => ⟨m, hm, hmb.trans hxb.symm, hd⟩)⟩
  intro a b hab
  obtain ⟨h1, n, hnm, ha, m, hm, hb, d, hd1, hd2⟩ := (key a b).1 hab
  exact (key b a).2 ⟨hs a b h1, m, hm, hb, n, hnm, ha, d, hd2, hd1⟩

/-! ### Example and defects -/

/-- A topology: AS 65000 in two domains -/
def bdEx (d : Option String) (rr : Bool) : List (BdNode Unit) :=
  [⟨"a", true, none, some 65000, true, [⟨"ibgp", "b", false, ()⟩, ⟨"ebgp", "x", false, ()⟩, ⟨"ibgp", "c", rr, ()⟩, ⟨"localas_ibgp", "c", rr, ()⟩]⟩,
   ⟨"b", true, some "default", some 65000, false, [⟨"ibgp", "a", true, ()⟩]⟩,
   ⟨"c", true, d, some 65000, rr, [⟨"ibgp", "a", true, ()⟩]⟩]

example : (bgpDomain (bdEx (some "red") true)).map (fun r => (r.1.map (fun n => n.nbrs.map (·.name)), r.2)) = some ([["b", "x", "c"], ["a"], []], 0) ∧
    ((bdEx (some "red") true).map (·.name)).Nodup ∧ (bgpDomain (bdEx (some "red") false)).map (·.2) = some 1 := by decide +kernel

/-- C88 defect: local-AS IBGP sessions between domains are not removed. -/
theorem C88_localas_kept :
    (bgpDomain (bdEx (some "red") true)).map (fun r => r.1.map (fun n => n.nbrs.map (fun x => (x.type, x.name)))) =
      some [[("ibgp", "b"), ("ebgp", "x"), ("localas_ibgp", "c")], [("ibgp", "a")], []] := by decide +kernel

/-- C88 defect: a missing route reflector in a domain with a colon in its name is a crash. -/
theorem C88_colon_crash : bgpDomain (bdEx (some "a:b") false) = none ∧ SessionsKnown (bdEx (some "a:b") false) := by
  refine ⟨by decide +kernel, ?_⟩
  unfold SessionsKnown bdEx
  decide

end Netlab
