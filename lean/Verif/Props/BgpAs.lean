import Verif.Spec.BgpAs
import Verif.Lemmas.Box
import Mathlib.Data.List.Forall2
/-!
# C70: AS numbers and route reflectors, C71: roles of EBGP links
-/

namespace Netlab
open Spec

/-! ## C70: AS list -/

theorem asMember_fold (a : Int) (ms : List String) (st : List (String × AsData) × Nat) :
    st.2 ≤ (ms.foldl (asMember a) st).2 ∧
    ((ms.foldl (asMember a) st).2 = st.2 ↔ ms.Nodup ∧ ∀ m ∈ ms, st.1.lookup m = none) ∧
    ((ms.foldl (asMember a) st).2 = st.2 → ∀ n, (ms.foldl (asMember a) st).1.lookup n =
      if n ∈ ms then some ⟨some a, false⟩ else st.1.lookup n) := by
  induction ms generalizing st with
  | nil => simp
  | cons m ms ih =>
    rw [List.foldl_cons]
    obtain ⟨i1, i2, i3⟩ := ih (asMember a st m)
    by_cases h : (st.1.lookup m).isSome = true
    · have hst : asMember a st m = (st.1, st.2 + 1) := by simp [asMember, h]
      rw [hst] at i1 i2 i3 ⊢
      simp only at i1
      refine ⟨by omega, ?_, by omega⟩
      constructor
      · intro he; omega
      · rintro ⟨-, hn⟩
        rw [hn m (by simp)] at h; cases h
    · have hst : asMember a st m = (setKey st.1 m ⟨some a, false⟩, st.2) := by simp [asMember, h]
      have hn : st.1.lookup m = none := by
        cases hl : st.1.lookup m with
        | none => rfl
        | some x => rw [hl] at h; exact absurd rfl h
      rw [hst] at i1 i2 i3 ⊢
      simp only at i1 i2 i3 ⊢
      refine ⟨i1, ?_, ?_⟩
      · rw [i2]
        simp only [lookup_setKey, List.nodup_cons, List.mem_cons, forall_eq_or_imp]
        constructor
        · rintro ⟨h1, h2⟩
          have hm : m ∉ ms := by
            intro hm
            have := h2 m hm
            simp at this
          refine ⟨⟨hm, h1⟩, hn, ?_⟩
          intro x hx
          have := h2 x hx
          rw [if_neg (by rintro rfl; exact hm hx)] at this
          exact this
        · rintro ⟨⟨hm, h1⟩, -, h2⟩
          refine ⟨h1, ?_⟩
          intro x hx
          rw [if_neg (by rintro rfl; exact hm hx)]
          exact h2 x hx
      · intro he n
        rw [i3 he n, lookup_setKey]
        by_cases h1 : n ∈ ms
        · simp [h1]
        · by_cases h2 : n = m <;> simp [h1, h2]

theorem asRr_fold (a : Int) (rs : List String) (st : List (String × AsData) × Nat) :
    st.2 ≤ (rs.foldl (asRr a) st).2 ∧
    ((rs.foldl (asRr a) st).2 = st.2 ↔ ∀ r ∈ rs, (st.1.lookup r).bind (·.asn) = some a) ∧
    ((rs.foldl (asRr a) st).2 = st.2 → ∀ n, (rs.foldl (asRr a) st).1.lookup n =
      if n ∈ rs then some ⟨some a, true⟩ else st.1.lookup n) := by
  induction rs generalizing st with
  | nil => simp
  | cons r rs ih =>
    rw [List.foldl_cons]
    obtain ⟨i1, i2, i3⟩ := ih (asRr a st r)
    by_cases h : (st.1.lookup r).bind (·.asn) = some a
    · have hst : asRr a st r = (setKey st.1 r ⟨some a, true⟩, st.2) := by simp [asRr, h]
      rw [hst] at i1 i2 i3 ⊢
      simp only at i1 i2 i3 ⊢
      refine ⟨i1, ?_, ?_⟩
      · rw [i2]
        simp only [lookup_setKey, List.mem_cons, forall_eq_or_imp]
        constructor
        · intro h2
          refine ⟨h, ?_⟩
          intro x hx
          have := h2 x hx
          by_cases hxr : x = r
          · rw [hxr]; exact h
          · rw [if_neg hxr] at this; exact this
        · rintro ⟨-, h2⟩ x hx
          by_cases hxr : x = r
          · rw [if_pos hxr]; rfl
          · rw [if_neg hxr]; exact h2 x hx
      · intro he n
        rw [i3 he n, lookup_setKey]
        by_cases h1 : n ∈ rs
        · simp [h1]
        · by_cases h2 : n = r <;> simp [h1, h2]
    · have hst : (asRr a st r).2 = st.2 + 1 := by
        unfold asRr
        rw [if_neg h]
        split <;> rfl
      rw [hst] at i1
      refine ⟨by omega, ?_, by omega⟩
      constructor
      · intro he; omega
      · intro hn
        exact absurd (hn r (by simp)) h

/-- What is known after the entries `p` are processed -/
structure AsInv (p : List AsEntry) (st : List (String × AsData) × Nat) : Prop where
  good : st.2 = 0 ↔ GoodAsList p
  found : st.2 = 0 → ∀ n, (st.1.lookup n).isSome = true ↔ ∃ e ∈ p, n ∈ e.members
  asn : st.2 = 0 → ∀ n x, st.1.lookup n = some x → ∀ a, InAs p n a ↔ x.asn = some a
  rr : st.2 = 0 → ∀ n x, st.1.lookup n = some x → (x.rr = true ↔ AsListRr p n)

theorem asEntry_step {p : List AsEntry} {st : List (String × AsData) × Nat} {e : AsEntry} (h : AsInv p st)
    (hk : e.asn ∉ p.map (·.asn)) : AsInv (p ++ [e]) (asEntry st e) := by
  obtain ⟨m1, m2, m3⟩ := asMember_fold e.asn e.members st
  obtain ⟨r1, r2, r3⟩ := asRr_fold e.asn e.rr (e.members.foldl (asMember e.asn) st)
  have he : asEntry st e = e.rr.foldl (asRr e.asn) (e.members.foldl (asMember e.asn) st) := rfl
  rw [← he] at r1 r2 r3
  have hkey : ∀ e' ∈ p, e'.asn ≠ e.asn := fun e' he' hh => hk (by rw [← hh]; exact List.mem_map_of_mem he')
  have hsplit : (asEntry st e).2 = 0 ↔ st.2 = 0 ∧ (e.members.foldl (asMember e.asn) st).2 = st.2 ∧
      (asEntry st e).2 = (e.members.foldl (asMember e.asn) st).2 := by omega
  have hinp : st.2 = 0 → ∀ n a, InAs p n a → ∃ x, st.1.lookup n = some x ∧ x.asn = some a := by
    intro hz n a ha
    obtain ⟨e', he', h1, h2⟩ := ha
    have := (h.found hz n).2 ⟨e', he', h2⟩
    obtain ⟨x, hx⟩ := Option.isSome_iff_exists.1 this
    exact ⟨x, hx, (h.asn hz n x hx a).1 ⟨e', he', h1, h2⟩⟩
  have hgood : (asEntry st e).2 = 0 ↔ GoodAsList (p ++ [e]) := by
    rw [hsplit, m2, h.good]
    unfold GoodAsList
    simp only [List.flatMap_append, List.flatMap_singleton, List.mem_append, List.mem_singleton]
    constructor
    · rintro ⟨⟨g1, g2⟩, ⟨h1, h2⟩, h3⟩
      have hz : st.2 = 0 := h.good.2 ⟨g1, g2⟩
      have hmm := m2.2 ⟨h1, h2⟩
      rw [r2] at h3
      refine ⟨?_, ?_⟩
      · rw [List.nodup_append]
        refine ⟨g1, h1, ?_⟩
        intro x hx y hy hxy
        subst hxy
        obtain ⟨e', he', hx'⟩ := List.mem_flatMap.1 hx
        have := (h.found hz x).2 ⟨e', he', hx'⟩
        rw [h2 x hy] at this; cases this
      · rintro e' (he' | rfl) r hr
        · exact g2 e' he' r hr
        · have h4 := h3 r hr
          rw [m3 hmm r] at h4
          by_cases hrm : r ∈ e'.members
          · exact hrm
          · exfalso
            rw [if_neg hrm] at h4
            cases hl : st.1.lookup r with
            | none => rw [hl] at h4; cases h4
            | some x =>
              rw [hl] at h4
              obtain ⟨q, hq, hq1, -⟩ := (h.asn hz r x hl e'.asn).2 h4
              exact hkey q hq hq1
    · rintro ⟨h1, h2⟩
      rw [List.nodup_append] at h1
      obtain ⟨h3, h4, h5⟩ := h1
      have g : GoodAsList p := ⟨h3, fun e' he' => h2 e' (.inl he')⟩
      have hz : st.2 = 0 := h.good.2 g
      have hnone : ∀ m ∈ e.members, st.1.lookup m = none := by
        intro m hm
        cases hl : st.1.lookup m with
        | none => rfl
        | some x =>
          obtain ⟨q, hq, hq1⟩ := (h.found hz m).1 (by rw [hl]; rfl)
          exact absurd rfl (h5 m (List.mem_flatMap.2 ⟨q, hq, hq1⟩) m hm)
      have hmm := m2.2 ⟨h4, hnone⟩
      refine ⟨g, ⟨h4, hnone⟩, ?_⟩
      rw [r2]
      intro r hr
      rw [m3 hmm r, if_pos (h2 e (.inr rfl) r hr)]
      rfl
  -- lookups
  have hlook : (asEntry st e).2 = 0 → ∀ n, (asEntry st e).1.lookup n =
      if n ∈ e.rr then some ⟨some e.asn, true⟩ else if n ∈ e.members then some ⟨some e.asn, false⟩ else st.1.lookup n := by
    intro hz n
    obtain ⟨-, z2, z3⟩ := hsplit.1 hz
    rw [r3 z3 n, m3 z2 n]
  have hdisj : (asEntry st e).2 = 0 → ∀ n ∈ e.members, ∀ e' ∈ p, n ∉ e'.members := by
    intro hz n hn e' he' hn'
    obtain ⟨h1, -⟩ := hgood.1 hz
    rw [List.flatMap_append, List.nodup_append] at h1
    exact h1.2.2 n (List.mem_flatMap.2 ⟨e', he', hn'⟩) n (by simpa using hn) rfl
  have hrrm : (asEntry st e).2 = 0 → ∀ e' ∈ p ++ [e], ∀ r ∈ e'.rr, r ∈ e'.members := fun hz => (hgood.1 hz).2
  refine ⟨hgood, ?_, ?_, ?_⟩
  · intro hz n
    have hz0 := (hsplit.1 hz).1
    rw [hlook hz n]
    by_cases h1 : n ∈ e.rr
    · have := hrrm hz e (by simp) n h1
      simp only [h1, if_true, Option.isSome_some, true_iff]
      exact ⟨e, by simp, this⟩
    · by_cases h2 : n ∈ e.members
      · simp only [h1, h2, if_true, if_false, Option.isSome_some, true_iff]
        exact ⟨e, by simp, h2⟩
      · simp only [h1, h2, if_false]
        rw [h.found hz0 n]
        constructor
        · rintro ⟨q, hq, hq1⟩; exact ⟨q, by simp [hq], hq1⟩
        · rintro ⟨q, hq, hq1⟩
          rcases List.mem_append.1 hq with hq | hq
          · exact ⟨q, hq, hq1⟩
          · rw [List.mem_singleton.1 hq] at hq1
            exact absurd hq1 h2
  · intro hz n x hx a
    have hz0 := (hsplit.1 hz).1
    rw [hlook hz n] at hx
    have hmem : n ∈ e.members → (InAs (p ++ [e]) n a ↔ some e.asn = some a) := by
      intro hn
      constructor
      · rintro ⟨q, hq, hq1, hq2⟩
        rcases List.mem_append.1 hq with hq | hq
        · exact absurd hq2 (hdisj hz n hn q hq)
        · rw [List.mem_singleton.1 hq] at hq1
          rw [hq1]
      · intro hh
        exact ⟨e, by simp, Option.some.inj hh, hn⟩
    by_cases h1 : n ∈ e.rr
    · rw [if_pos h1] at hx
      cases hx
      exact hmem (hrrm hz e (by simp) n h1)
    · rw [if_neg h1] at hx
      by_cases h2 : n ∈ e.members
      · rw [if_pos h2] at hx
        cases hx
        exact hmem h2
      · rw [if_neg h2] at hx
        rw [← h.asn hz0 n x hx a]
        constructor
        · rintro ⟨q, hq, hq1, hq2⟩
          rcases List.mem_append.1 hq with hq | hq
          · exact ⟨q, hq, hq1, hq2⟩
          · rw [List.mem_singleton.1 hq] at hq2
            exact absurd hq2 h2
        · rintro ⟨q, hq, hq1, hq2⟩
          exact ⟨q, by simp [hq], hq1, hq2⟩
  · intro hz n x hx
    have hz0 := (hsplit.1 hz).1
    rw [hlook hz n] at hx
    by_cases h1 : n ∈ e.rr
    · rw [if_pos h1] at hx
      cases hx
      simp only [true_iff]
      exact ⟨e, by simp, h1⟩
    · rw [if_neg h1] at hx
      by_cases h2 : n ∈ e.members
      · rw [if_pos h2] at hx
        cases hx
        simp only [Bool.false_eq_true, false_iff]
        rintro ⟨q, hq, hq1⟩
        have hqm := hrrm hz q hq n hq1
        rcases List.mem_append.1 hq with hq | hq
        · exact hdisj hz n h2 q hq hqm
        · rw [List.mem_singleton.1 hq] at hq1
          exact h1 hq1
      · rw [if_neg h2] at hx
        rw [h.rr hz0 n x hx]
        constructor
        · rintro ⟨q, hq, hq1⟩; exact ⟨q, by simp [hq], hq1⟩
        · rintro ⟨q, hq, hq1⟩
          rcases List.mem_append.1 hq with hq | hq
          · exact ⟨q, hq, hq1⟩
          · rw [List.mem_singleton.1 hq] at hq1
            exact absurd hq1 h1

theorem asTable_inv (l : List AsEntry) (hk : (l.map (·.asn)).Nodup) : AsInv l (asTable l) := by
  have key : ∀ (q p : List AsEntry) (st : List (String × AsData) × Nat), AsInv p st → ((p ++ q).map (·.asn)).Nodup →
      AsInv (p ++ q) (q.foldl asEntry st) := by
    intro q
    induction q with
    | nil => intro p st h _; simpa using h
    | cons e q ih =>
      intro p st h hnd
      rw [List.foldl_cons]
      have h1 : p ++ e :: q = (p ++ [e]) ++ q := by simp
      rw [h1] at hnd ⊢
      refine ih (p ++ [e]) _ (asEntry_step h ?_) hnd
      rw [List.map_append, List.map_append, List.append_assoc, List.nodup_append] at hnd
      intro hm
      exact hnd.2.2 _ hm e.asn (by simp) rfl
  have := key l [] ([], 0) ⟨by simp [GoodAsList], by simp, by simp, by simp⟩ (by simpa using hk)
  simpa [asTable] using this

theorem as_sum_zero {l : List Nat} : l.sum = 0 ↔ ∀ x ∈ l, x = 0 := by
  induction l with
  | nil => simp
  | cons a l ih => simp [ih]

theorem asSetNode_spec {l : List AsEntry} {st : List (String × AsData) × Nat} (h : AsInv l st) (hz : st.2 = 0)
    (n : AsNode) :
    ((asSetNode st.1 n).2 = 0 ↔ ∀ a, InAs l n.name a → n.asn = none ∨ n.asn = some 0 ∨ n.asn = some a) ∧
    ((asSetNode st.1 n).2 = 0 →
      (asSetNode st.1 n).1.name = n.name ∧ (asSetNode st.1 n).1.bgpModule = n.bgpModule ∧
      (∀ a, (asSetNode st.1 n).1.asn = some a ↔ n.asn = some a ∨ (n.asn = none ∧ InAs l n.name a)) ∧
      (∀ b, (asSetNode st.1 n).1.rr = some b ↔ n.rr = some b ∨ (n.rr = none ∧ b = true ∧ AsListRr l n.name))) := by
  unfold asSetNode
  cases hl : st.1.lookup n.name with
  | none =>
    have hno : ∀ a, ¬ InAs l n.name a := by
      rintro a ⟨e, he, -, hm⟩
      have := (h.found hz n.name).2 ⟨e, he, hm⟩
      rw [hl] at this; cases this
    have hnr : ¬ AsListRr l n.name := by
      rintro ⟨e, he, hr⟩
      exact hno e.asn ⟨e, he, rfl, (h.good.1 hz).2 e he _ hr⟩
    simp [hno, hnr]
  | some x =>
    simp only
    have hx := h.asn hz _ _ hl
    have hr := h.rr hz _ _ hl
    obtain ⟨e, he, hm⟩ := (h.found hz n.name).1 (by rw [hl]; rfl)
    have hxa : x.asn = some e.asn := (hx e.asn).1 ⟨e, he, rfl, hm⟩
    have hin : ∀ a, InAs l n.name a ↔ a = e.asn := by
      intro a
      rw [hx a, hxa]
      constructor
      · intro hh; exact (Option.some.inj hh).symm
      · intro hh; rw [hh]
    by_cases hc : n.asn.getD 0 ≠ 0 ∧ n.asn ≠ x.asn
    · rw [if_pos hc]
      refine ⟨?_, by simp⟩
      simp only [Nat.succ_ne_self, false_iff, hin]
      intro hh
      rcases hh e.asn rfl with h1 | h1 | h1
      · rw [h1] at hc; exact hc.1 rfl
      · rw [h1] at hc; exact hc.1 rfl
      · exact hc.2 (h1.trans hxa.symm)
    · rw [if_neg hc]
      refine ⟨?_, ?_⟩
      · simp only [true_iff, hin]
        rintro a rfl
        cases hn : n.asn with
        | none => exact .inl rfl
        | some b =>
          right
          by_cases hb : b = 0
          · left; rw [hb]
          · right
            rw [← hxa, ← hn]
            apply Classical.byContradiction
            intro hne
            exact hc ⟨by rw [hn]; exact hb, hne⟩
      · intro _
        refine ⟨rfl, rfl, ?_, ?_⟩
        · intro a
          simp only [hin]
          cases hn : n.asn with
          | none =>
            simp only [Option.isSome_none, Bool.false_eq_true, if_false, hxa]
            simp [eq_comm]
          | some b => simp
        · intro b
          rw [← hr]
          cases hn : n.rr with
          | none => cases x.rr <;> cases b <;> simp
          | some c => simp

theorem forall₂_of_map_self {α β : Type} {R : α → β → Prop} {f : α → β} {l : List α} (h : ∀ x ∈ l, R x (f x)) :
    List.Forall₂ R l (l.map f) := by
  rw [List.forall₂_map_right_iff, List.forall₂_same]; exact h

/-- C70: the settings are accepted if and only if no node is listed in two autonomous systems, route reflectors of an AS
are among its members, no node has an AS number that differs from the one in the list, and all nodes with BGP have an AS
number. -/
theorem C70_accepted_iff (l : List AsEntry) (rrList : List String) (nodes : List AsNode)
    (hk : (l.map (·.asn)).Nodup) :
    (bgpAsSetup l rrList nodes).2 = 0 ↔
      GoodAsList l ∧ (∀ n ∈ nodes, ∀ a, InAs l n.name a → n.asn = none ∨ n.asn = some 0 ∨ n.asn = some a) ∧
      (∀ n ∈ nodes, n.bgpModule = true → n.asn ≠ none ∨ ∃ a, InAs l n.name a) := by
  have hinv := asTable_inv l hk
  have hpre : ∀ m : AsNode, (bgpPre rrList m).2 = 0 ↔ (m.bgpModule = true → m.asn ≠ none) := by
    intro m
    unfold bgpPre
    cases m.bgpModule with
    | false => simp
    | true =>
      by_cases hc : rrList.contains m.name = true
      · simp only [Bool.not_true, Bool.false_eq_true, if_false, hc, if_true]
        cases m.asn <;> simp
      · simp only [Bool.not_true, Bool.false_eq_true, if_false, hc]
        cases m.asn <;> simp
  unfold bgpAsSetup processAsList
  simp only [Nat.add_eq_zero_iff, as_sum_zero, List.mem_map, forall_exists_index, and_imp, forall_apply_eq_imp_iff₂,
    hpre, and_assoc]
  rw [hinv.good]
  refine and_congr_right ?_
  intro hg
  have hz := hinv.good.2 hg
  constructor
  · rintro ⟨h1, h2⟩
    refine ⟨fun n hn => ((asSetNode_spec hinv hz n).1).1 (h1 n hn), ?_⟩
    intro n hn hb
    obtain ⟨-, s2, s3, -⟩ := (asSetNode_spec hinv hz n).2 (h1 n hn)
    have := h2 n hn (by rw [s2]; exact hb)
    obtain ⟨a, ha⟩ := Option.ne_none_iff_exists'.1 this
    rcases (s3 a).1 ha with h3 | ⟨-, h3⟩
    · left; rw [h3]; simp
    · exact .inr ⟨a, h3⟩
  · rintro ⟨h1, h2⟩
    have he : ∀ n ∈ nodes, (asSetNode (asTable l).1 n).2 = 0 :=
      fun n hn => ((asSetNode_spec hinv hz n).1).2 (h1 n hn)
    refine ⟨he, ?_⟩
    intro n hn hb
    obtain ⟨-, s2, s3, -⟩ := (asSetNode_spec hinv hz n).2 (he n hn)
    rw [s2] at hb
    cases hna : n.asn with
    | some b => rw [(s3 b).2 (.inl hna)]; simp
    | none =>
      rcases h2 n hn hb with h3 | ⟨a, ha⟩
      · exact absurd hna h3
      · rw [(s3 a).2 (.inr ⟨hna, ha⟩)]; simp

/-- C70: when the settings are accepted, every node keeps its AS number or else gets the one of the only AS it belongs
to; a node is a route reflector if it runs BGP and is in the list of route reflectors, or as set on the node, or else if
the AS list says so. -/
theorem C70_as_numbers (l : List AsEntry) (rrList : List String) (nodes : List AsNode)
    (hk : (l.map (·.asn)).Nodup) (hz : (bgpAsSetup l rrList nodes).2 = 0) :
    List.Forall₂ (fun n m => m.name = n.name ∧ m.bgpModule = n.bgpModule ∧
        (∀ a, m.asn = some a ↔ n.asn = some a ∨ (n.asn = none ∧ InAs l n.name a)) ∧
        (n.bgpModule = true → ∃ a, m.asn = some a) ∧
        (∀ a b, InAs l n.name a → InAs l n.name b → a = b) ∧
        (n.bgpModule = true ∧ n.name ∈ rrList → m.rr = some true) ∧
        (¬ (n.bgpModule = true ∧ n.name ∈ rrList) → ∀ b, m.rr = some b ↔
          n.rr = some b ∨ (n.rr = none ∧ b = true ∧ AsListRr l n.name)))
      nodes (bgpAsSetup l rrList nodes).1 := by
  obtain ⟨hg, h1, h2⟩ := (C70_accepted_iff l rrList nodes hk).1 hz
  have hinv := asTable_inv l hk
  have hz0 := hinv.good.2 hg
  unfold bgpAsSetup processAsList
  simp only [List.map_map]
  refine forall₂_of_map_self ?_
  intro n hn
  obtain ⟨s1, s2, s3, s4⟩ := (asSetNode_spec hinv hz0 n).2 (((asSetNode_spec hinv hz0 n).1).2 (h1 n hn))
  simp only [Function.comp]
  generalize (asSetNode (asTable l).1 n).1 = m at s1 s2 s3 s4
  have huniq : ∀ a b, InAs l n.name a → InAs l n.name b → a = b := by
    intro a b ha hb
    obtain ⟨e, he, -, hm⟩ := id ha
    obtain ⟨x, hx⟩ := Option.isSome_iff_exists.1 ((hinv.found hz0 n.name).2 ⟨e, he, hm⟩)
    have h3 := (hinv.asn hz0 _ _ hx a).1 ha
    have h4 := (hinv.asn hz0 _ _ hx b).1 hb
    exact Option.some.inj (h3.symm.trans h4)
  have hsome : n.bgpModule = true → ∃ a, m.asn = some a := by
    intro hb
    cases hna : n.asn with
    | some b => exact ⟨b, (s3 b).2 (.inl hna)⟩
    | none =>
      rcases h2 n hn hb with h3 | ⟨a, ha⟩
      · exact absurd hna h3
      · exact ⟨a, (s3 a).2 (.inr ⟨hna, ha⟩)⟩
  unfold bgpPre
  cases hb : m.bgpModule with
  | false =>
    have hnb : n.bgpModule = false := s2.symm.trans hb
    simp only [Bool.not_false, if_true]
    refine ⟨s1, s2, s3, hsome, huniq, by simp [hnb], fun _ => s4⟩
  | true =>
    have hnb : n.bgpModule = true := s2.symm.trans hb
    simp only [Bool.not_true, Bool.false_eq_true, if_false]
    by_cases hc : rrList.contains m.name = true
    · have hin : n.name ∈ rrList := by rw [s1] at hc; simpa using hc
      rw [if_pos hc]
      exact ⟨s1, hnb.symm, s3, hsome, huniq, fun _ => rfl, fun hh => absurd ⟨hnb, hin⟩ hh⟩
    · have hin : n.name ∉ rrList := by rw [s1] at hc; simpa using hc
      rw [if_neg hc]
      exact ⟨s1, s2, s3, hsome, huniq, fun hh => absurd hh.2 hin, fun _ => s4⟩

/-- An AS list with two autonomous systems -/
def exAsList : List AsEntry := [⟨65000, ["a", "b"], ["a"]⟩, ⟨65001, ["c"], []⟩]

def exAsNodes : List AsNode := [
  { name := "a" }, { name := "b", asn := some 65000 }, { name := "c", rr := some false }, { name := "d", asn := some 65002 },
  { name := "h", bgpModule := false }]

/-- Non-trivial instance of C70 -/
example : (exAsList.map (·.asn)).Nodup ∧ bgpAsSetup exAsList ["b"] exAsNodes =
    ([{ name := "a", asn := some 65000, rr := some true }, { name := "b", asn := some 65000, rr := some true },
      { name := "c", asn := some 65001, rr := some false }, { name := "d", asn := some 65002 },
      { name := "h", bgpModule := false }], 0) := by decide +kernel

/-- A node in two autonomous systems, a route reflector that is not a member, a different AS number of a node, and a
missing AS number are reported. -/
example : (bgpAsSetup [⟨65000, ["a"], []⟩, ⟨65001, ["a"], []⟩] [] [{ name := "a" }]).2 = 1 ∧
    (bgpAsSetup [⟨65000, ["a"], ["b"]⟩, ⟨65001, ["b"], []⟩] [] [{ name := "a" }]).2 = 2 ∧
    (bgpAsSetup [⟨65000, ["a"], []⟩] [] [{ name := "a", asn := some 65001 }]).2 = 1 ∧
    (bgpAsSetup [] [] [{ name := "a" }]).2 = 1 := by decide +kernel

/-! ## C71: roles of EBGP links -/

theorem addAs_fold (l : List Int) (s : List Int) (hs : s.Nodup) :
    (l.foldl addAs s).Nodup ∧ ∀ a, a ∈ l.foldl addAs s ↔ a ∈ s ∨ a ∈ l := by
  induction l generalizing s with
  | nil => simp [hs]
  | cons b l ih =>
    rw [List.foldl_cons]
    by_cases h : s.contains b = true
    · have hb : addAs s b = s := by unfold addAs; rw [if_pos h]
      rw [hb]
      obtain ⟨i1, i2⟩ := ih s hs
      refine ⟨i1, ?_⟩
      intro a
      rw [i2]
      have hm : b ∈ s := by simpa using h
      simp only [List.mem_cons]
      constructor
      · rintro (h1 | h1)
        · exact .inl h1
        · exact .inr (.inr h1)
      · rintro (h1 | rfl | h1)
        · exact .inl h1
        · exact .inl hm
        · exact .inr h1
    · have hb : addAs s b = s ++ [b] := by unfold addAs; rw [if_neg h]
      rw [hb]
      have hm : b ∉ s := by simpa using h
      obtain ⟨i1, i2⟩ := ih (s ++ [b]) (by
        rw [List.nodup_append]
        refine ⟨hs, by simp, ?_⟩
        rintro x hx y hy rfl
        rw [List.mem_singleton.1 hy] at hx
        exact hm hx)
      refine ⟨i1, ?_⟩
      intro a
      rw [i2]
      simp [or_assoc]

theorem two_of_nodup {l : List Int} (h : l.Nodup) : 1 < l.length ↔ ∃ a ∈ l, ∃ b ∈ l, a ≠ b := by
  match l with
  | [] => simp
  | [x] => simp
  | x :: y :: l =>
    simp only [List.length_cons, List.nodup_cons, List.mem_cons] at h ⊢
    constructor
    · intro _
      exact ⟨x, .inl rfl, y, .inr (.inl rfl), fun hxy => h.1 (.inl hxy)⟩
    · intro _; omega

theorem mem_asNumbers (asOf : String → Option Int) (nodes : List String) (a : Int) :
    a ∈ asNumbers asOf nodes ↔ ∃ x ∈ nodes, asOf x = some a ∧ a ≠ 0 := by
  unfold asNumbers
  rw [List.mem_filterMap]
  constructor
  · rintro ⟨x, hx, h⟩
    by_cases h0 : (asOf x).getD 0 = 0
    · rw [if_pos h0] at h; cases h
    · rw [if_neg h0] at h
      rw [h] at h0
      exact ⟨x, hx, h, h0⟩
  · rintro ⟨x, hx, h, h0⟩
    refine ⟨x, hx, ?_⟩
    rw [if_neg (by rw [h]; exact h0)]
    exact h

/-- More than one AS number is collected if and only if the nodes are in different autonomous systems. -/
theorem crosses_iff (asOf : String → Option Int) (nodes : List String) {s : List Int} (hs : s.Nodup)
    (hm : ∀ a, a ∈ s ↔ a ∈ asNumbers asOf nodes) : 1 < s.length ↔ CrossesAs asOf nodes := by
  rw [two_of_nodup hs]
  simp only [hm, mem_asNumbers]
  unfold CrossesAs
  constructor
  · rintro ⟨a, ⟨x, hx, h1, h2⟩, b, ⟨y, hy, h3, h4⟩, hab⟩
    exact ⟨x, hx, y, hy, a, b, h1, h3, h2, h4, hab⟩
  · rintro ⟨x, hx, y, hy, a, b, h1, h3, h2, h4, hab⟩
    exact ⟨a, ⟨x, hx, h1, h2⟩, b, ⟨y, hy, h3, h4⟩, hab⟩

/-- Nodes attached to the links of a VLAN -/
def vlanNodes (links : List RoleLink) (v : String) : List String :=
  (links.filter (fun l => l.vlan == some v)).flatMap (·.nodes)

theorem vlanNodes_append (p : List RoleLink) (l : RoleLink) (v : String) :
    vlanNodes (p ++ [l]) v = if l.vlan = some v then vlanNodes p v ++ l.nodes else vlanNodes p v := by
  unfold vlanNodes
  rw [List.filter_append, List.flatMap_append]
  by_cases h : l.vlan = some v
  · simp [h]
  · have h' : (l.vlan == some v) = false := by simpa using h
    simp [h, h']

/-- The VLANs after links `p` -/
def VlanInv (asOf : String → Option Int) (p : List RoleLink) (d0 d : List (String × RoleVlan)) : Prop :=
  List.Forall₂ (fun x y => y.1 = x.1 ∧ y.2.role = x.2.role ∧ y.2.asSet.Nodup ∧
    ∀ a, a ∈ y.2.asSet ↔ a ∈ asNumbers asOf (vlanNodes p x.1)) d0 d

theorem setKey_eq_map {d : List (String × RoleVlan)} (hd : (d.map (·.1)).Nodup) {k : String} {v w : RoleVlan}
    (h : d.lookup k = some v) : setKey d k w = d.map (fun p => if p.1 = k then (k, w) else p) := by
  induction d with
  | nil => cases h
  | cons p d ih =>
    obtain ⟨k', v'⟩ := p
    rw [List.map_cons, List.nodup_cons] at hd
    by_cases hk : k' = k
    · subst hk
      have hid : d.map (fun p => if p.1 = k' then (k', w) else p) = d := by
        have hh : d.map (fun p => if p.1 = k' then (k', w) else p) = d.map id := by
          apply List.map_congr_left
          intro q hq
          have hqk : ¬ q.1 = k' := by
            intro hqk
            apply hd.1
            have := List.mem_map_of_mem (f := Prod.fst) hq
            rw [hqk] at this
            exact this
          rw [if_neg hqk]; rfl
        rw [hh, List.map_id]
      rw [setKey, List.map_cons, hid]
      simp
    · rw [lookup_cons_ne _ _ (fun h => hk h.symm)] at h
      have hk' : (k' == k) = false := by simpa using hk
      rw [setKey, List.map_cons, ih hd.2 h]
      simp [hk, hk']

theorem mem_asNumbers_append (asOf : String → Option Int) (p q : List String) (a : Int) :
    a ∈ asNumbers asOf (p ++ q) ↔ a ∈ asNumbers asOf p ∨ a ∈ asNumbers asOf q := by
  simp [asNumbers, List.filterMap_append]

theorem vlanInv_step {asOf : String → Option Int} {p : List RoleLink} {d0 d : List (String × RoleVlan)}
    (h0 : (d0.map (·.1)).Nodup) (h : VlanInv asOf p d0 d) {l : RoleLink} {v : String} (hl : l.vlan = some v) :
    VlanInv asOf (p ++ [l]) d0 (vlanRoleCollect asOf d v l) := by
  have hkeys : d.map (·.1) = d0.map (·.1) := by
    unfold VlanInv at h
    induction h with
    | nil => rfl
    | cons hr _ ih =>
      rw [List.map_cons, List.nodup_cons] at h0
      simp [hr.1, ih h0.2]
  unfold vlanRoleCollect
  cases hf : d.lookup v with
  | none =>
    have hv : ∀ x ∈ d0, x.1 ≠ v := by
      intro x hx hxv
      have : v ∈ d.map (·.1) := by rw [hkeys, ← hxv]; exact List.mem_map_of_mem hx
      rw [lookup_eq_none_iff] at hf
      exact hf this
    simp only
    unfold VlanInv at h ⊢
    clear hkeys h0 hf
    induction h with
    | nil => exact .nil
    | cons hr _ ih =>
      refine .cons ⟨hr.1, hr.2.1, hr.2.2.1, ?_⟩ (ih (fun x hx => hv x (by simp [hx])))
      rw [vlanNodes_append, if_neg]
      · exact hr.2.2.2
      · rw [hl]
        intro hh
        exact hv _ (by simp) (Option.some.inj hh).symm
  | some w =>
    simp only
    rw [setKey_eq_map (by rw [hkeys]; exact h0) hf]
    have hw : ∀ y ∈ d, y.1 = v → y.2 = w := by
      intro y hy hyv
      have := lookup_of_mem (by rw [hkeys]; exact h0 : (d.map (·.1)).Nodup) (show (y.1, y.2) ∈ d from hy)
      rw [hyv, hf] at this
      exact (Option.some.inj this).symm
    unfold VlanInv at h ⊢
    clear hkeys h0 hf
    induction h with
    | nil => exact .nil
    | @cons x y d0 d hr _ ih =>
      rw [List.map_cons]
      refine .cons ?_ (ih (fun x hx => hw x (by simp [hx])))
      rw [vlanNodes_append, hl]
      by_cases hyv : y.1 = v
      · have hxv : x.1 = v := hr.1.symm.trans hyv
        have hyw := hw y (by simp) hyv
        rw [if_pos hyv, if_pos (by rw [hxv])]
        obtain ⟨f1, f2⟩ := addAs_fold (asNumbers asOf l.nodes) w.asSet (by rw [← hyw]; exact hr.2.2.1)
        refine ⟨hxv.symm, by simp only [← hyw]; exact hr.2.1, f1, ?_⟩
        intro a
        simp only [f2, mem_asNumbers_append]
        rw [← hyw, hr.2.2.2]
      · have hxv : ¬ x.1 = v := fun hh => hyv (hr.1.trans hh)
        rw [if_neg hyv, if_neg (fun hh => hxv (Option.some.inj hh).symm)]
        exact hr

theorem roleLoop_spec (role : String) (asOf : String → Option Int) :
    ∀ (ls p : List RoleLink) (vlans : Option (List (String × RoleVlan))),
      (roleLoop role asOf ls vlans).1 = ls.map (fun l => if l.vlan.isNone then ebgpRoleLink role asOf l else l) ∧
      (vlans = none → (roleLoop role asOf ls vlans).2 = none) ∧
      (∀ d0 d, vlans = some d → (d0.map (·.1)).Nodup → VlanInv asOf p d0 d →
        ∃ d', (roleLoop role asOf ls vlans).2 = some d' ∧ VlanInv asOf (p ++ ls) d0 d') := by
  intro ls
  induction ls with
  | nil =>
    intro p vlans
    exact ⟨rfl, fun h => h, fun d0 d h _ hi => ⟨d, h, by simpa using hi⟩⟩
  | cons l ls ih =>
    intro p vlans
    unfold roleLoop
    cases hv : l.vlan with
    | none =>
      simp only
      obtain ⟨i1, i2, i3⟩ := ih (p ++ [l]) vlans
      refine ⟨?_, i2, ?_⟩
      · rw [i1, List.map_cons]; simp [hv]
      · intro d0 d h1 h2 h3
        have h3' : VlanInv asOf (p ++ [l]) d0 d := by
          unfold VlanInv at h3 ⊢
          refine h3.imp ?_
          rintro x y ⟨g1, g2, g3, g4⟩
          refine ⟨g1, g2, g3, ?_⟩
          rw [vlanNodes_append, if_neg (by rw [hv]; simp)]
          exact g4
        obtain ⟨d', q1, q2⟩ := i3 d0 d h1 h2 h3'
        exact ⟨d', q1, by simpa using q2⟩
    | some v =>
      simp only
      obtain ⟨i1, i2, i3⟩ := ih (p ++ [l]) (vlans.map (fun d => vlanRoleCollect asOf d v l))
      refine ⟨?_, ?_, ?_⟩
      · rw [i1, List.map_cons]; simp [hv]
      · intro h; exact i2 (by rw [h]; rfl)
      · intro d0 d h1 h2 h3
        obtain ⟨d', q1, q2⟩ := i3 d0 _ (by rw [h1]; rfl) h2 (vlanInv_step h2 h3 hv)
        exact ⟨d', q1, by simpa using q2⟩

/-- C71: a link without a role that is not part of a VLAN gets the EBGP role if and only if it connects nodes in
different autonomous systems; all other attributes of links are kept. -/
theorem C71_link_roles (role : String) (asOf : String → Option Int) (links : List RoleLink)
    (vlans : Option (List (String × RoleVlan))) :
    List.Forall₂ (fun l m => m.nodes = l.nodes ∧ m.vlan = l.vlan ∧
        ((l.vlan = none ∧ l.role.getD "" = "" ∧ CrossesAs asOf l.nodes) → m.role = some role) ∧
        (¬ (l.vlan = none ∧ l.role.getD "" = "" ∧ CrossesAs asOf l.nodes) → m.role = l.role))
      links (ebgpRoles (some role) asOf links vlans).1 := by
  obtain ⟨h1, -, -⟩ := roleLoop_spec role asOf links [] vlans
  unfold ebgpRoles
  simp only
  rw [h1]
  refine forall₂_of_map_self ?_
  intro l _
  obtain ⟨f1, f2⟩ := addAs_fold (asNumbers asOf l.nodes) [] (by simp)
  have hc := crosses_iff asOf l.nodes f1 (by simpa using f2)
  cases hv : l.vlan with
  | some v => simp [hv]
  | none =>
    simp only [Option.isNone_none, if_true]
    unfold ebgpRoleLink
    by_cases hr : l.role.getD "" = ""
    · rw [if_neg (by simpa using hr)]
      by_cases hx : 1 < ((asNumbers asOf l.nodes).foldl addAs []).length
      · rw [if_pos hx]
        exact ⟨rfl, hv, fun _ => rfl, fun hh => absurd ⟨trivial, hr, hc.1 hx⟩ hh⟩
      · rw [if_neg hx]
        exact ⟨rfl, hv, fun hh => absurd (hc.2 hh.2.2) hx, fun _ => rfl⟩
    · rw [if_pos hr]
      exact ⟨rfl, hv, fun hh => absurd hh.2.1 hr, fun _ => rfl⟩

/-- C71: a global VLAN without a role gets the EBGP role if and only if the links of the VLAN connect nodes in different
autonomous systems. -/
theorem C71_vlan_roles (role : String) (asOf : String → Option Int) (links : List RoleLink)
    (vlans : List (String × RoleVlan)) (hn : (vlans.map (·.1)).Nodup) (hc : ∀ v ∈ vlans, v.2.asSet = []) :
    ∃ vlans', (ebgpRoles (some role) asOf links (some vlans)).2 = some vlans' ∧
      List.Forall₂ (fun v w => w.1 = v.1 ∧
          ((v.2.role = none ∧ ∃ nodes, CrossesAs asOf nodes ∧
              ∀ x ∈ nodes, ∃ l ∈ links, l.vlan = some v.1 ∧ x ∈ l.nodes) → w.2.role = some role) ∧
          (¬ (v.2.role = none ∧ ∃ nodes, CrossesAs asOf nodes ∧
              ∀ x ∈ nodes, ∃ l ∈ links, l.vlan = some v.1 ∧ x ∈ l.nodes) → w.2.role = v.2.role))
        vlans vlans' := by
  obtain ⟨-, -, h3⟩ := roleLoop_spec role asOf links [] (some vlans)
  obtain ⟨d', q1, q2⟩ := h3 vlans vlans rfl hn (by
    unfold VlanInv
    rw [List.forall₂_same]
    intro v hv
    rw [hc v hv]
    exact ⟨rfl, rfl, by simp, by simp [vlanNodes, asNumbers]⟩)
  unfold ebgpRoles
  simp only
  rw [q1]
  refine ⟨_, rfl, ?_⟩
  rw [List.forall₂_map_right_iff]
  simp only [List.nil_append] at q2
  unfold VlanInv at q2
  refine q2.imp ?_
  rintro v w ⟨g1, g2, g3, g4⟩
  have hcr := crosses_iff asOf _ g3 g4
  have hex : CrossesAs asOf (vlanNodes links v.1) ↔ ∃ nodes, CrossesAs asOf nodes ∧
      ∀ x ∈ nodes, ∃ l ∈ links, l.vlan = some v.1 ∧ x ∈ l.nodes := by
    have hmem : ∀ x, x ∈ vlanNodes links v.1 ↔ ∃ l ∈ links, l.vlan = some v.1 ∧ x ∈ l.nodes := by
      intro x
      simp only [vlanNodes, List.mem_flatMap, List.mem_filter, beq_iff_eq]
      constructor
      · rintro ⟨l, ⟨h1, h2⟩, h3⟩; exact ⟨l, h1, h2, h3⟩
      · rintro ⟨l, h1, h2, h3⟩; exact ⟨l, ⟨h1, h2⟩, h3⟩
    constructor
    · intro h; exact ⟨_, h, fun x hx => (hmem x).1 hx⟩
    · rintro ⟨nodes, ⟨x, hx, y, hy, hh⟩, hall⟩
      exact ⟨x, (hmem x).2 (hall x hx), y, (hmem y).2 (hall y hy), hh⟩
  rw [← hex, ← hcr]
  refine ⟨g1, ?_, ?_⟩
  · rintro ⟨h1, h2⟩
    simp [vlanRoleSet, g2, h1, h2]
  · intro h
    simp only [vlanRoleSet, g2]
    rw [if_neg]
    rintro ⟨h1, h2⟩
    exact h ⟨by simpa using h2, h1⟩

/-- C71: nothing is changed without the EBGP role, and VLANs are not needed. -/
theorem C71_no_role (asOf : String → Option Int) (links : List RoleLink) (vlans : Option (List (String × RoleVlan)))
    (role : String) :
    ebgpRoles none asOf links vlans = (links, vlans) ∧ (ebgpRoles (some role) asOf links none).2 = none := by
  refine ⟨rfl, ?_⟩
  obtain ⟨-, h2, -⟩ := roleLoop_spec role asOf links [] none
  unfold ebgpRoles
  simp [h2 rfl]

/-- AS numbers in the example -/
def exAsOf (n : String) : Option Int := if n = "h" then none else if n = "c" then some 65001 else some 65000

/-- Links between nodes in one AS and in two autonomous systems, links with roles, a global VLAN spread over two links and
a VLAN that is not global -/
def exRoleLinks : List RoleLink := [
  { nodes := ["a", "b"] }, { nodes := ["a", "c"] }, { nodes := ["a", "h"] }, { nodes := ["a", "c"], role := some "backbone" },
  { nodes := ["a"], vlan := some "red" }, { nodes := ["c", "h"], vlan := some "red" },
  { nodes := ["a", "c"], vlan := some "local" }, { nodes := ["a", "b"], vlan := some "blue" }]

/-- Non-trivial instance of C71; links of VLANs defined in nodes never get the EBGP role. -/
example : (ebgpRoles (some "external") exAsOf exRoleLinks (some [("red", {}), ("blue", {})])) =
    ([{ nodes := ["a", "b"] }, { nodes := ["a", "c"], role := some "external" }, { nodes := ["a", "h"] },
      { nodes := ["a", "c"], role := some "backbone" },
      { nodes := ["a"], vlan := some "red" }, { nodes := ["c", "h"], vlan := some "red" },
      { nodes := ["a", "c"], vlan := some "local" }, { nodes := ["a", "b"], vlan := some "blue" }],
     some [("red", { role := some "external" }), ("blue", {})]) := by decide +kernel

/-- Defect: a VLAN defined in nodes that connects two autonomous systems gets no role, so interior routing protocols run
between the autonomous systems. -/
theorem C71_node_vlan_has_no_role :
    ebgpRoles (some "external") exAsOf [{ nodes := ["a", "c"], vlan := some "local" }] (some []) =
      ([{ nodes := ["a", "c"], vlan := some "local" }], some []) ∧ CrossesAs exAsOf ["a", "c"] := by
  refine ⟨by decide +kernel, "a", by simp, "c", by simp, 65000, 65001, ?_⟩
  decide

end Netlab
