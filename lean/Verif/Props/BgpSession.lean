import Verif.Spec.BgpSession
import Verif.Lemmas.Box
import Mathlib.Data.List.Forall2
/-!
# C68: BGP session attributes, C69: BGP route servers
-/

namespace Netlab
open Spec

/-! ## Copying attributes -/

/-- Does the list of attributes fail the support check? -/
theorem applyNgb_spec (supp : String → Bool) (intf node : List (String × Nat)) (l : List String) (st : SNgb × Bool) :
    ∃ X, (l.foldl (applyAttr supp intf node) st).1 = { st.1 with attrs := X } ∧
      (∀ a, X.lookup a = if a ∈ l ∧ sessValue intf node a ≠ 0 then some (sessValue intf node a) else st.1.attrs.lookup a) ∧
      ((l.foldl (applyAttr supp intf node) st).2 = true ↔
        st.2 = true ∧ ∀ a ∈ l, sessValue intf node a ≠ 0 → supp a = true) := by
  induction l generalizing st with
  | nil => exact ⟨st.1.attrs, rfl, by simp, by simp⟩
  | cons b l ih =>
    rw [List.foldl_cons]
    obtain ⟨X, h1, h2, h3⟩ := ih (applyAttr supp intf node st b)
    by_cases hv : sessValue intf node b = 0
    · have hst : applyAttr supp intf node st b = st := by simp [applyAttr, hv]
      rw [hst] at h1 h2 h3
      rw [hst]
      refine ⟨X, h1, ?_, ?_⟩
      · intro a
        rw [h2 a]
        by_cases hab : a = b
        · subst hab; simp [hv]
        · simp [hab]
      · rw [h3]
        simp [hv]
    · have hst : applyAttr supp intf node st b =
          ({ st.1 with attrs := setKey st.1.attrs b (sessValue intf node b) }, st.2 && supp b) := by
        simp [applyAttr, hv]
      rw [hst] at h1 h2 h3
      rw [hst]
      refine ⟨X, h1, ?_, ?_⟩
      · intro a
        rw [h2 a]
        simp only [lookup_setKey]
        by_cases hab : a = b
        · subst hab; simp [hv]
        · simp [hab]
      · rw [h3]
        simp [hv, and_assoc]

theorem applyNgb_fields (supp : String → Bool) (intf node : List (String × Nat)) (l : List String) (n : SNgb) :
    ∃ X, (applyNgb supp intf node l n).1 = { n with attrs := X } ∧
      (∀ a, X.lookup a = if a ∈ l ∧ sessValue intf node a ≠ 0 then some (sessValue intf node a) else n.attrs.lookup a) ∧
      ((applyNgb supp intf node l n).2 = true ↔ ∀ a ∈ l, sessValue intf node a ≠ 0 → supp a = true) := by
  obtain ⟨X, h1, h2, h3⟩ := applyNgb_spec supp intf node l (n, true)
  exact ⟨X, h1, h2, by rw [applyNgb, h3]; simp⟩

theorem copyIbgp_ok (supp : String → Bool) (node : List (String × Nat)) (l : List String) :
    ∀ (ngbs : List SNgb) (ok : Bool), (copyIbgp supp node l ok ngbs).2 = true →
      ok = true ∧
      (copyIbgp supp node l ok ngbs).1 =
        ngbs.map (fun n => if n.type = "ibgp" then (applyNgb supp [] node l n).1 else n) ∧
      ∀ n ∈ ngbs, n.type = "ibgp" → (applyNgb supp [] node l n).2 = true := by
  intro ngbs
  induction ngbs with
  | nil => intro ok h; exact ⟨h, rfl, by simp⟩
  | cons n ns ih =>
    intro ok h
    unfold copyIbgp at h ⊢
    by_cases hc : (decide (n.type = "ibgp") && ok) = true
    · rw [if_pos hc] at h ⊢
      obtain ⟨h1, h2, h3⟩ := ih _ h
      simp only [Bool.and_eq_true, decide_eq_true_eq] at hc
      refine ⟨hc.2, ?_, ?_⟩
      · simp only [h2, List.map_cons, hc.1, if_true]
      · intro m hm ht
        rcases List.mem_cons.1 hm with rfl | hm
        · exact h1
        · exact h3 m hm ht
    · rw [if_neg hc] at h ⊢
      obtain ⟨h1, h2, h3⟩ := ih _ h
      have hn : ¬ n.type = "ibgp" := by
        intro ht
        apply hc
        simp [ht, h1]
      refine ⟨h1, ?_, ?_⟩
      · simp only [h2, List.map_cons, hn, if_false]
      · intro m hm ht
        rcases List.mem_cons.1 hm with rfl | hm
        · exact absurd ht hn
        · exact h3 m hm ht

theorem intfMatch_attrs (i : SIntf) (n : SNgb) (X : List (String × Nat)) :
    intfMatch i { n with attrs := X } = intfMatch i n := rfl

theorem copyEbgp_nomatch (supp : String → Bool) (node : List (String × Nat)) (l : List String) (is : List SIntf)
    (st : SNgb × Nat) (h : ∀ i ∈ is, intfMatch i st.1 = false) :
    is.foldl (fun st i =>
      if intfMatch i st.1 then
        ((applyNgb supp i.attrs node l st.1).1, st.2 + if (applyNgb supp i.attrs node l st.1).2 then 0 else 1)
      else st) st = st := by
  induction is with
  | nil => rfl
  | cons i is ih =>
    rw [List.foldl_cons, h i (by simp)]
    simp only [Bool.false_eq_true, if_false]
    exact ih (fun j hj => h j (by simp [hj]))

/-- The interface of a neighbor is the only one that matters. -/
theorem copyEbgp_spec (supp : String → Bool) (node : List (String × Nat)) (l : List String) (is : List SIntf)
    (hnd : (is.map (·.ifindex)).Nodup) (n : SNgb) :
    ((∀ i ∈ is, intfMatch i n = false) ∧ copyEbgpNgb supp node l is n = (n, 0)) ∨
    (∃ i ∈ is, intfMatch i n = true ∧ copyEbgpNgb supp node l is n =
      ((applyNgb supp i.attrs node l n).1, if (applyNgb supp i.attrs node l n).2 then 0 else 1)) := by
  induction is with
  | nil => exact .inl ⟨by simp, rfl⟩
  | cons i is ih =>
    rw [List.map_cons, List.nodup_cons] at hnd
    by_cases hm : intfMatch i n = true
    · right
      refine ⟨i, by simp, hm, ?_⟩
      unfold copyEbgpNgb
      rw [List.foldl_cons]
      simp only [hm, if_true, Nat.zero_add]
      obtain ⟨X, hX, -, -⟩ := applyNgb_fields supp i.attrs node l n
      refine copyEbgp_nomatch supp node l is _ ?_
      intro j hj
      rw [hX]
      cases hc : intfMatch j { n with attrs := X } with
      | false => rfl
      | true =>
        exfalso
        rw [intfMatch_attrs] at hc
        simp only [intfMatch, Bool.and_eq_true, beq_iff_eq] at hc hm
        have : some i.ifindex = some j.ifindex := hm.1.1.symm.trans hc.1.1
        apply hnd.1
        rw [List.mem_map]
        exact ⟨j, hj, (Option.some.inj this).symm⟩
    · have hm' : intfMatch i n = false := by simpa using hm
      have hstep : copyEbgpNgb supp node l (i :: is) n = copyEbgpNgb supp node l is n := by
        unfold copyEbgpNgb
        rw [List.foldl_cons]
        simp only [hm', Bool.false_eq_true, if_false]
      rw [hstep]
      rcases ih hnd.2 with ⟨h1, h2⟩ | ⟨j, hj, h1, h2⟩
      · left
        refine ⟨?_, h2⟩
        intro j hj
        rcases List.mem_cons.1 hj with rfl | hj
        · exact hm'
        · exact h1 j hj
      · exact .inr ⟨j, by simp [hj], h1, h2⟩

theorem nat_sum_zero {l : List Nat} (h : l.sum = 0) : ∀ x ∈ l, x = 0 := by
  induction l with
  | nil => simp
  | cons a l ih =>
    rw [List.sum_cons] at h
    intro x hx
    rcases List.mem_cons.1 hx with rfl | hx
    · omega
    · exact ih (by omega) x hx

theorem lookup_popAll (all : List String) (d : List (String × Nat)) (a : String) :
    (all.foldl popKey d).lookup a = if a ∈ all then none else d.lookup a := by
  induction all generalizing d with
  | nil => simp
  | cons b all ih =>
    rw [List.foldl_cons, ih, lookup_popKey]
    by_cases h1 : a ∈ all <;> by_cases h2 : a = b <;> simp [h1, h2]

theorem mem_ibgpAttrs (all : List String) (n : SNode) (a : String) :
    a ∈ ibgpAttrs all n ↔ Applied all n "ibgp" a := by
  unfold ibgpAttrs Applied
  cases h : n.apply with
  | none => simp
  | some p =>
    obtain ⟨i, e⟩ := p
    cases i with
    | none => simp
    | some s => cases s <;> simp [SSel.attrs]

theorem mem_ebgpAttrs (all : List String) (n : SNode) (a : String) :
    a ∈ ebgpAttrs all n ↔ Applied all n "ebgp" a := by
  unfold ebgpAttrs Applied
  cases h : n.apply with
  | none => simp [SSel.attrs]
  | some p =>
    obtain ⟨i, e⟩ := p
    cases e with
    | none => simp
    | some s => cases s <;> simp [SSel.attrs]

/-- The session has a local interface if it needs one. -/
def HasIntf (n : SNode) (e : SNgb) : Prop :=
  e.type = "ebgp" → ∃ i ∈ n.intfs, e.ifindex = some i.ifindex ∧ e.vrf = i.vrf

/-- What copying of local attributes does to a neighbor -/
structure Copied (sup : String → String → Bool) (all : List String) (n : SNode) (e f : SNgb) : Prop where
  name : f.name = e.name
  type : f.type = e.type
  vrf : f.vrf = e.vrf
  ifindex : f.ifindex = e.ifindex
  rsClient : f.rsClient = e.rsClient
  zapped : f.zapped = e.zapped
  values : mainType e = true → HasIntf n e → ∀ a ∈ all, ∀ v,
    f.attrs.lookup a = some v ↔ Applied all n e.type a ∧ Configured n e a v
  support : mainType e = true → HasIntf n e → ∀ a v, Applied all n e.type a → Configured n e a v → sup n.name a = true
  other : mainType e = false → f.attrs = e.attrs

theorem sessValue_node {intf node : List (String × Nat)} {a : String} (h : (intf.lookup a).getD 0 = 0) :
    sessValue intf node a = (node.lookup a).getD 0 := by
  simp [sessValue, h]

theorem getD_zero {x : Option Nat} {v : Nat} (h : v ≠ 0) : x.getD 0 = v ↔ x = some v := by
  cases x with
  | none => simp; omega
  | some w => simp

theorem eq_of_map_nodup {α β : Type} {f : α → β} {l : List α} (h : (l.map f).Nodup) {x y : α} (hx : x ∈ l) (hy : y ∈ l)
    (he : f x = f y) : x = y := by
  induction l with
  | nil => cases hx
  | cons a l ih =>
    rw [List.map_cons, List.nodup_cons] at h
    rcases List.mem_cons.1 hx with hx1 | hx1 <;> rcases List.mem_cons.1 hy with hy1 | hy1
    · rw [hx1, hy1]
    · exact absurd (by rw [← hx1, he]; exact List.mem_map_of_mem hy1) h.1
    · exact absurd (by rw [← hy1, ← he]; exact List.mem_map_of_mem hx1) h.1
    · exact ih h.2 hx1 hy1

/-- The value used for an EBGP session is the configured one. -/
theorem ebgp_value (n : SNode) (e : SNgb) (hnd : (n.intfs.map (·.ifindex)).Nodup) (he : e.type = "ebgp")
    {i : SIntf} (hi : i ∈ n.intfs) (h1 : e.ifindex = some i.ifindex) (h2 : e.vrf = i.vrf) (a : String) (v : Nat) :
    Configured n e a v ↔ sessValue i.attrs n.attrs a = v ∧ v ≠ 0 := by
  have huniq : ∀ j ∈ n.intfs, e.ifindex = some j.ifindex → j = i := by
    intro j hj hji
    have hk : j.ifindex = i.ifindex := by rw [h1] at hji; exact (Option.some.inj hji).symm
    exact eq_of_map_nodup hnd hj hi hk
  unfold Configured sessValue
  constructor
  · rintro ⟨hv, ⟨-, j, hj, hj1, -, hj3⟩ | ⟨hn, hno⟩⟩
    · cases huniq j hj hj1
      simp [hj3, hv]
    · have h0 : (i.attrs.lookup a).getD 0 = 0 := by
        apply Classical.byContradiction
        intro hne
        apply hno
        refine ⟨he, i, hi, h1, h2, _, (getD_zero hne).1 rfl, hne⟩
      simp [h0, hn, hv]
  · rintro ⟨hs, hv⟩
    refine ⟨hv, ?_⟩
    by_cases h0 : (i.attrs.lookup a).getD 0 = 0
    · simp only [h0, ne_eq, not_true_eq_false, if_false] at hs
      right
      refine ⟨(getD_zero hv).1 hs, ?_⟩
      rintro ⟨-, j, hj, hj1, -, w, hw, hw0⟩
      cases huniq j hj hj1
      rw [hw] at h0
      exact hw0 h0
    · simp only [ne_eq, h0, not_false_eq_true, if_true] at hs
      left
      exact ⟨he, i, hi, h1, h2, (getD_zero hv).1 hs⟩

theorem ibgp_value (n : SNode) (e : SNgb) (he : e.type = "ibgp") (a : String) (v : Nat) :
    Configured n e a v ↔ sessValue [] n.attrs a = v ∧ v ≠ 0 := by
  rw [sessValue_node (by simp)]
  unfold Configured
  constructor
  · rintro ⟨hv, ⟨ht, -⟩ | ⟨hn, -⟩⟩
    · rw [he] at ht; exact absurd ht (by decide)
    · exact ⟨by rw [hn]; rfl, hv⟩
  · rintro ⟨hs, hv⟩
    refine ⟨hv, .inr ⟨(getD_zero hv).1 hs, ?_⟩⟩
    rintro ⟨ht, -⟩
    rw [he] at ht; exact absurd ht (by decide)

/-- Attributes after they are applied -/
theorem apply_values {all l : List String} {n : SNode} {e : SNgb} {w : String → Nat} {X d : List (String × Nat)} {type : String}
    (hl : ∀ a, a ∈ l ↔ Applied all n type a)
    (hw : ∀ a v, Configured n e a v ↔ w a = v ∧ v ≠ 0)
    (hX : ∀ a, X.lookup a = if a ∈ l ∧ w a ≠ 0 then some (w a) else d.lookup a)
    {a : String} (hd : d.lookup a = none) (v : Nat) :
    X.lookup a = some v ↔ Applied all n type a ∧ Configured n e a v := by
  rw [hX a, hd, hw a v, ← hl a]
  constructor
  · intro hh
    split at hh
    · rename_i hc
      cases hh
      exact ⟨hc.1, rfl, hc.2⟩
    · cases hh
  · rintro ⟨h1, h2, h3⟩
    rw [if_pos ⟨h1, by rw [h2]; exact h3⟩, h2]

theorem copyLocal_spec (sup : String → String → Bool) (all : List String) (n : SNode) (ngbs : List SNgb)
    (hnd : (n.intfs.map (·.ifindex)).Nodup)
    (h : (copyLocal (sup n.name) all n (ngbs.map (cleanNgb all))).2 = 0) :
    List.Forall₂ (Copied sup all n) ngbs (copyLocal (sup n.name) all n (ngbs.map (cleanNgb all))).1 := by
  unfold copyLocal at h ⊢
  simp only at h ⊢
  cases hr : (copyIbgp (sup n.name) n.attrs (ibgpAttrs all n) true (ngbs.map (cleanNgb all))).2 with
  | false => rw [hr] at h; simp at h
  | true =>
    rw [hr] at h
    simp only [Bool.not_true, Bool.false_eq_true, if_false] at h ⊢
    obtain ⟨-, h1, h2⟩ := copyIbgp_ok _ _ _ _ _ hr
    rw [h1] at h ⊢
    have herr := nat_sum_zero h
    simp only [List.map_map] at herr ⊢
    rw [List.forall₂_map_right_iff, List.forall₂_same]
    intro e he
    have hcl : (cleanNgb all e).name = e.name ∧ (cleanNgb all e).type = e.type ∧ (cleanNgb all e).vrf = e.vrf ∧
        (cleanNgb all e).ifindex = e.ifindex ∧ (cleanNgb all e).rsClient = e.rsClient ∧
        (cleanNgb all e).zapped = e.zapped ∧
        (mainType e = true → ∀ a ∈ all, (cleanNgb all e).attrs.lookup a = none) ∧
        (mainType e = false → (cleanNgb all e).attrs = e.attrs) := by
      unfold cleanNgb
      by_cases hm : mainType e = true
      · rw [if_pos hm]
        refine ⟨rfl, rfl, rfl, rfl, rfl, rfl, ?_, ?_⟩
        · intro _ a ha
          rw [lookup_popAll]; simp [ha]
        · intro h; rw [hm] at h; cases h
      · rw [if_neg hm]
        exact ⟨rfl, rfl, rfl, rfl, rfl, rfl, fun h => absurd h hm, fun _ => rfl⟩
    obtain ⟨c1, c2, c3, c4, c5, c6, c7, c8⟩ := hcl
    have herr' := herr _ (List.mem_map_of_mem (f := _) he)
    simp only [Function.comp] at herr' ⊢
    by_cases hi : e.type = "ibgp"
    · -- IBGP neighbor
      have hti : (cleanNgb all e).type = "ibgp" := c2.trans hi
      rw [if_pos hti]
      obtain ⟨X, x1, x2, x3⟩ := applyNgb_fields (sup n.name) [] n.attrs (ibgpAttrs all n) (cleanNgb all e)
      have hok := h2 _ (List.mem_map_of_mem he) hti
      rw [x3] at hok
      rw [x1]
      have hno : ∀ i ∈ n.intfs, intfMatch i { cleanNgb all e with attrs := X } = false := by
        intro i _
        simp [intfMatch, hti]
      rcases copyEbgp_spec (sup n.name) n.attrs (ebgpAttrs all n) n.intfs hnd { cleanNgb all e with attrs := X } with
        ⟨-, hc⟩ | ⟨i, hin, hmatch, -⟩
      · rw [hc]
        refine ⟨c1, c2, c3, c4, c5, c6, ?_, ?_, ?_⟩
        · intro hm _ a ha v
          rw [hi]
          exact apply_values (mem_ibgpAttrs all n) (ibgp_value n e hi) x2 (c7 hm a ha) v
        · intro hm _ a v h1 h2
          obtain ⟨h3, h4⟩ := (ibgp_value n e hi a v).1 h2
          rw [hi] at h1
          exact hok a ((mem_ibgpAttrs all n a).2 h1) (by rw [h3]; exact h4)
        · intro hm; simp [mainType, hi] at hm
      · rw [hno i hin] at hmatch; cases hmatch
    · have hti : ¬ (cleanNgb all e).type = "ibgp" := by rw [c2]; exact hi
      rw [if_neg hti] at herr' ⊢
      rcases copyEbgp_spec (sup n.name) n.attrs (ebgpAttrs all n) n.intfs hnd (cleanNgb all e) with
        ⟨hno, hc⟩ | ⟨i, hin, hmatch, hc⟩
      · rw [hc]
        have hnone : mainType e = true → ¬ HasIntf n e := by
          intro hm hi'
          have hte : e.type = "ebgp" := by
            simp only [mainType, Bool.or_eq_true, beq_iff_eq] at hm
            exact hm.resolve_left hi
          obtain ⟨i, hin, h3, h4⟩ := hi' hte
          have := hno i hin
          simp [intfMatch, c2, c3, c4, h3, h4, hte] at this
        exact ⟨c1, c2, c3, c4, c5, c6, fun hm h => absurd h (hnone hm), fun hm h => absurd h (hnone hm), c8⟩
      · rw [hc] at herr'
        simp only [intfMatch, Bool.and_eq_true, beq_iff_eq] at hmatch
        rw [c2, c3, c4] at hmatch
        obtain ⟨⟨m1, m2⟩, m3⟩ := hmatch
        obtain ⟨X, x1, x2, x3⟩ := applyNgb_fields (sup n.name) i.attrs n.attrs (ebgpAttrs all n) (cleanNgb all e)
        have hok : (applyNgb (sup n.name) i.attrs n.attrs (ebgpAttrs all n) (cleanNgb all e)).2 = true := by
          cases hb : (applyNgb (sup n.name) i.attrs n.attrs (ebgpAttrs all n) (cleanNgb all e)).2 with
          | true => rfl
          | false => rw [hb] at herr'; simp at herr'
        rw [x3] at hok
        rw [hc, x1]
        refine ⟨c1, c2, c3, c4, c5, c6, ?_, ?_, ?_⟩
        · intro hm _ a ha v
          rw [m3]
          exact apply_values (mem_ebgpAttrs all n) (ebgp_value n e hnd m3 hin m1 m2) x2 (c7 hm a ha) v
        · intro hm _ a v h1 h2
          obtain ⟨h3, h4⟩ := (ebgp_value n e hnd m3 hin m1 m2 a v).1 h2
          rw [m3] at h1
          exact hok a ((mem_ebgpAttrs all n a).2 h1) (by rw [h3]; exact h4)
        · intro hm; simp [mainType, m3] at hm

/-! ## Route servers: one node -/

/-- Entries of a route server that trigger changes in other nodes -/
def active (e : SNgb) : Bool := mainType e && e.hasRs && !(e.type == "ibgp")

theorem markNgb_hasRs (a : String) (f : SNgb) : (markNgb a f).hasRs = f.hasRs := by
  unfold markNgb
  split
  · split <;> rfl
  · rfl

theorem markNgb_main (a : String) (f : SNgb) : mainType (markNgb a f) = mainType f := by
  unfold markNgb
  split
  · split <;> rfl
  · rfl

theorem markNgb_name (a : String) (f : SNgb) : (markNgb a f).name = f.name := by
  unfold markNgb
  split
  · split <;> rfl
  · rfl

theorem markNgb_idem (a : String) (f : SNgb) : markNgb a (markNgb a f) = markNgb a f := by
  have h1 := markNgb_hasRs a f
  have h2 := markNgb_main a f
  have h3 := markNgb_name a f
  conv_lhs => rw [markNgb]
  rw [h1, h2, h3]
  unfold markNgb
  split
  · split <;> rfl
  · rfl

theorem remoteRs_mark (a : String) (topo : List SNode) (b c : String) :
    remoteRs a (markNodes a topo b) c = remoteRs a topo c := by
  unfold remoteRs markNodes
  rw [List.any_map]
  congr 1
  funext m
  simp only [Function.comp]
  split
  · simp only [List.any_map]
    congr 2
    funext f
    simp [Function.comp, markNgb_hasRs, markNgb_main, markNgb_name]
  · rfl

/-- What happens to the other nodes -/
def markAll (a : String) (es : List SNgb) (m : SNode) : SNode :=
  if m.bgp = true ∧ ∃ e ∈ es, active e = true ∧ e.name = m.name then { m with ngbs := m.ngbs.map (markNgb a) } else m

/-- What happens to the entry of the route server -/
def ownEntry (a : String) (topo : List SNode) (e : SNgb) : SNgb :=
  if !(mainType e && e.hasRs) then e
  else if e.type = "ibgp" then { e with attrs := popKey e.attrs "rs" }
  else if remoteRs a topo e.name then zapNgb e else e

theorem ownEntry_mark (a : String) (topo : List SNode) (b : String) :
    ownEntry a (markNodes a topo b) = ownEntry a topo := by
  funext e
  simp only [ownEntry, remoteRs_mark]

theorem rsLoop_spec (sup : String → String → Bool) (a : String) (es : List SNgb) (topo : List SNode) :
    (rsLoop sup a topo es).1 = es.map (ownEntry a topo) ∧
    (rsLoop sup a topo es).2.1 = topo.map (markAll a es) ∧
    (rsLoop sup a topo es).2.2.2 = es.any active ∧
    ((rsLoop sup a topo es).2.2.1 = 0 → ∀ e ∈ es, active e = true → ∀ m ∈ topo, m.name = e.name → m.bgp = true →
      ∀ f ∈ m.ngbs, mainType f = true → f.name = a → f.hasRs = false → sup m.name "rs_client" = true) := by
  induction es generalizing topo with
  | nil =>
    refine ⟨rfl, ?_, rfl, by simp⟩
    have : markAll a [] = id := by funext m; simp [markAll]
    rw [this, List.map_id]; rfl
  | cons e es ih =>
    have hskip : active e = false → topo.map (markAll a (e :: es)) = topo.map (markAll a es) := by
      intro ha
      apply List.map_congr_left
      intro m _
      simp [markAll, ha]
    unfold rsLoop
    by_cases h1 : (!(mainType e && e.hasRs)) = true
    · rw [if_pos h1]
      have ha : active e = false := by
        simp only [active]
        cases h : (mainType e && e.hasRs) <;> simp_all
      obtain ⟨i1, i2, i3, i4⟩ := ih topo
      refine ⟨?_, ?_, ?_, ?_⟩
      · simp only [i1, List.map_cons, ownEntry, h1, if_true]
      · simp only [i2, hskip ha]
      · simp only [i3, List.any_cons, ha, Bool.false_or]
      · intro hz e' he' hact
        rcases List.mem_cons.1 he' with rfl | he'
        · rw [ha] at hact; cases hact
        · exact i4 hz e' he' hact
    · rw [if_neg h1]
      by_cases h2 : e.type = "ibgp"
      · rw [if_pos h2]
        have ha : active e = false := by simp [active, h2]
        obtain ⟨i1, i2, i3, i4⟩ := ih topo
        refine ⟨?_, ?_, ?_, ?_⟩
        · simp only [i1, List.map_cons, ownEntry, h1, h2, if_true]
          simp
        · simp only [i2, hskip ha]
        · simp only [i3, List.any_cons, ha, Bool.false_or]
        · intro hz e' he' hact
          rcases List.mem_cons.1 he' with rfl | he'
          · rw [ha] at hact; cases hact
          · exact i4 hz e' he' hact
      · rw [if_neg h2]
        have ha : active e = true := by
          have h1' : (mainType e && e.hasRs) = true := by
            cases h : (mainType e && e.hasRs) with
            | true => rfl
            | false => rw [h] at h1; simp at h1
          simp [active, h1', h2]
        obtain ⟨i1, i2, i3, i4⟩ := ih (markNodes a topo e.name)
        refine ⟨?_, ?_, ?_, ?_⟩
        · simp only [i1, ownEntry_mark, List.map_cons]
          congr 1
          simp only [ownEntry, h1, h2]
          simp
        · simp only [i2]
          simp only [markNodes, List.map_map]
          apply List.map_congr_left
          intro m _
          simp only [Function.comp]
          by_cases hm : m.name = e.name ∧ m.bgp = true
          · rw [if_pos hm]
            have hr : markAll a (e :: es) m = { m with ngbs := m.ngbs.map (markNgb a) } := by
              unfold markAll
              rw [if_pos ⟨hm.2, e, by simp, ha, hm.1.symm⟩]
            rw [hr]
            unfold markAll
            split
            · simp [List.map_map, Function.comp_def, markNgb_idem]
            · rfl
          · rw [if_neg hm]
            unfold markAll
            by_cases hc : m.bgp = true ∧ ∃ x ∈ es, active x = true ∧ x.name = m.name
            · rw [if_pos hc, if_pos]
              obtain ⟨x, hx, hx2⟩ := hc.2
              exact ⟨hc.1, x, by simp [hx], hx2⟩
            · rw [if_neg hc, if_neg]
              rintro ⟨hb, x, hx, hx2, hx3⟩
              rcases List.mem_cons.1 hx with rfl | hx
              · exact hm ⟨hx3.symm, hb⟩
              · exact hc ⟨hb, x, hx, hx2, hx3⟩
        · simp [ha]
        · intro hz e' he' hact m hm hn hb f hf f1 f2 f3
          simp only at hz
          rcases List.mem_cons.1 he' with rfl | he'
          · have hz1 : (topo.map (fun m => if m.name = e'.name ∧ m.bgp = true then
                (m.ngbs.map (markErrors (sup m.name) a)).sum else 0)).sum = 0 := by omega
            have h3 := nat_sum_zero hz1 _ (List.mem_map_of_mem hm)
            simp only [hn, hb, and_self, if_true] at h3
            have h4 := nat_sum_zero h3 _ (List.mem_map_of_mem hf)
            simp only [markErrors, f1, f2, f3] at h4
            rw [hn]
            simpa using h4
          · have hz2 : (rsLoop sup a (markNodes a topo e.name) es).2.2.1 = 0 := by omega
            have hm' : (if m.name = e.name ∧ m.bgp = true then { m with ngbs := m.ngbs.map (markNgb a) } else m) ∈
                markNodes a topo e.name := List.mem_map_of_mem hm
            have := i4 hz2 e' he' hact _ hm'
            by_cases hc : m.name = e.name ∧ m.bgp = true
            · rw [if_pos hc] at this
              exact this hn hb (markNgb a f) (List.mem_map_of_mem hf) (by rw [markNgb_main]; exact f1)
                (by rw [markNgb_name]; exact f2) (by rw [markNgb_hasRs]; exact f3)
            · rw [if_neg hc] at this
              exact this hn hb f hf f1 f2 f3

/-! ## All nodes -/

/-- The relation between the original BGP neighbor `e` of node `n` and its current state `f` after nodes `P` were
processed -/
structure EntRel (sup : String → String → Bool) (all : List String) (t : List SNode) (P : List String) (n : SNode)
    (e f : SNgb) : Prop where
  name : f.name = e.name
  type : f.type = e.type
  vrf : f.vrf = e.vrf
  attrs : n.name ∉ P → f.attrs = e.attrs
  ifindex : f.zapped = false → f.ifindex = e.ifindex
  values : n.name ∈ P → f.zapped = false → mainType e = true → ∀ a ∈ all, (e.type = "ebgp" ∨ a ≠ "rs") → ∀ v,
    f.attrs.lookup a = some v ↔ Applied all n e.type a ∧ Configured n e a v
  support : n.name ∈ P → f.zapped = false → mainType e = true → ∀ a v, Applied all n e.type a → Configured n e a v →
    sup n.name a = true
  other : mainType e = false → f.attrs = e.attrs
  tcpAo : n.name ∈ P → mainType e = true → (f.attrs.lookup "tcp_ao").isSome = true →
    (f.attrs.lookup "password").isSome = true
  bfd : n.name ∈ P → mainType e = true → (f.attrs.lookup "bfd").getD 0 ≠ 0 → n.bfd = true
  client : f.rsClient = true → sup n.name "rs_client" = true
  rs : NodeRsOnly t → "rs" ∈ all →
    ((f.zapped = true ↔ e.type = "ebgp" ∧ IsRs all n ∧ NameIsRs all t e.name ∧ n.name ∈ P ∧ e.name ∈ P) ∧
     ((f.attrs.lookup "rs").isSome = true ↔ e.type = "ebgp" ∧ IsRs all n ∧ n.name ∈ P) ∧
     (f.hasRs = true ↔ e.type = "ebgp" ∧ IsRs all n ∧ n.name ∈ P) ∧
     (e.type = "ebgp" → NameIsRs all t e.name → e.name ∈ P → ¬ IsRs all n → f.rsClient = true) ∧
     (f.rsClient = true → NameIsRs all t e.name ∧ e.name ∈ P))

/-- The relation between the original and the current node -/
structure NodeRel (sup : String → String → Bool) (all : List String) (t : List SNode) (P : List String)
    (n m : SNode) : Prop where
  name : m.name = n.name
  bgp : m.bgp = n.bgp
  bfd : m.bfd = n.bfd
  attrs : m.attrs = n.attrs
  apply : m.apply = n.apply
  intfs : m.intfs = n.intfs
  ngbs : List.Forall₂ (EntRel sup all t P n) n.ngbs m.ngbs

theorem nodeRel_nil {sup : String → String → Bool} {all : List String} {t : List SNode} (hs : SaneSessions t) :
    List.Forall₂ (NodeRel sup all t []) t t := by
  rw [List.forall₂_same]
  intro n hn
  refine ⟨rfl, rfl, rfl, rfl, rfl, rfl, ?_⟩
  rw [List.forall₂_same]
  intro e he
  obtain ⟨h1, h2⟩ := hs.clean n hn e he
  refine ⟨rfl, rfl, rfl, fun _ => rfl, fun _ => rfl, by simp, by simp, fun _ => rfl, by simp, by simp, ?_, ?_⟩
  · intro h; rw [h1] at h; cases h
  · intro hr _
    have h3 := (hr n hn).2 e he
    refine ⟨by simp [h2], by simp [h3], by simp [SNgb.hasRs, h3], by simp, by simp [h1]⟩

theorem forall₂_pick_right {α β : Type} {R : α → β → Prop} {l : List α} {k : List β} (h : List.Forall₂ R l k) {y : β}
    (hy : y ∈ k) : ∃ x ∈ l, R x y := by
  induction h with
  | nil => cases hy
  | cons hr _ ih =>
    rcases List.mem_cons.1 hy with rfl | hy
    · exact ⟨_, by simp, hr⟩
    · obtain ⟨x, hx, h⟩ := ih hy
      exact ⟨x, by simp [hx], h⟩

theorem forall₂_pick_left {α β : Type} {R : α → β → Prop} {l : List α} {k : List β} (h : List.Forall₂ R l k) {x : α}
    (hx : x ∈ l) : ∃ y ∈ k, R x y := by
  induction h with
  | nil => cases hx
  | cons hr _ ih =>
    rcases List.mem_cons.1 hx with rfl | hx
    · exact ⟨_, by simp, hr⟩
    · obtain ⟨y, hy, h⟩ := ih hx
      exact ⟨y, by simp [hy], h⟩

theorem names_rel {sup : String → String → Bool} {all : List String} {t cur : List SNode} {P : List String}
    (h : List.Forall₂ (NodeRel sup all t P) t cur) : cur.map (·.name) = t.map (·.name) := by
  generalize ht : t = t0 at h
  rw [← ht] at h ⊢
  have : ∀ {l k : List SNode}, List.Forall₂ (NodeRel sup all t P) l k → k.map (·.name) = l.map (·.name) := by
    intro l k hk
    induction hk with
    | nil => rfl
    | cons hr _ ih => simp [hr.name, ih]
  exact this h

theorem applied_congr {all : List String} {n m : SNode} (h : m.apply = n.apply) (ty a : String) :
    Applied all m ty a ↔ Applied all n ty a := by
  unfold Applied; rw [h]

theorem configured_congr {n m : SNode} {e f : SNgb} (h1 : m.attrs = n.attrs) (h2 : m.intfs = n.intfs)
    (h3 : f.type = e.type) (h4 : f.vrf = e.vrf) (h5 : f.ifindex = e.ifindex) (a : String) (v : Nat) :
    Configured m f a v ↔ Configured n e a v := by
  unfold Configured; rw [h1, h2, h3, h4, h5]

/-- With route servers set on nodes only, EBGP sessions of a node have the attribute if the node is a route server. -/
theorem rs_value {all : List String} {t : List SNode} {n : SNode} (hn : n ∈ t) (hr : NodeRsOnly t) (hb : n.bgp = true)
    {e : SNgb} : (∃ v, Applied all n "ebgp" "rs" ∧ Configured n e "rs" v) ↔ IsRs all n := by
  have hno : ∀ i ∈ n.intfs, i.attrs.lookup "rs" = none := (hr n hn).1
  unfold Configured IsRs
  constructor
  · rintro ⟨v, ha, hv, ⟨-, i, hi, -, -, h⟩ | ⟨h, -⟩⟩
    · rw [hno i hi] at h; cases h
    · exact ⟨hb, ⟨v, h, hv⟩, ha⟩
  · rintro ⟨-, ⟨v, h, hv⟩, ha⟩
    refine ⟨v, ha, hv, .inr ⟨h, ?_⟩⟩
    rintro ⟨-, i, hi, -, -, w, hw, -⟩
    rw [hno i hi] at hw; cases hw

theorem forall₂_with_mem {α β : Type} {R : α → β → Prop} {l : List α} {k : List β} (h : List.Forall₂ R l k) :
    List.Forall₂ (fun x y => R x y ∧ x ∈ l ∧ y ∈ k) l k := by
  induction h with
  | nil => exact .nil
  | cons hr _ ih =>
    refine .cons ⟨hr, by simp, by simp⟩ (ih.imp ?_)
    rintro x y ⟨h1, h2, h3⟩
    exact ⟨h1, by simp [h2], by simp [h3]⟩

theorem forall₂_compose {α β γ : Type} {R : α → β → Prop} {S : β → γ → Prop} {l : List α} {k : List β} {j : List γ}
    (h : List.Forall₂ R l k) (g : List.Forall₂ S k j) : List.Forall₂ (fun x z => ∃ y, R x y ∧ S y z) l j := by
  induction h generalizing j with
  | nil => cases g; exact .nil
  | cons hr _ ih =>
    cases g with
    | cons hs hg => exact .cons ⟨_, hr, hs⟩ (ih hg)

/-- Unchanged parts of an entry -/
theorem ownEntry_facts (a : String) (cur : List SNode) (g : SNgb) :
    (ownEntry a cur g).name = g.name ∧ (ownEntry a cur g).type = g.type ∧ (ownEntry a cur g).vrf = g.vrf ∧
    (ownEntry a cur g).rsClient = g.rsClient ∧
    ((ownEntry a cur g).zapped = false → g.zapped = false ∧ (ownEntry a cur g).ifindex = g.ifindex) ∧
    (∀ b, (g.type = "ebgp" ∨ b ≠ "rs") → (ownEntry a cur g).attrs.lookup b = g.attrs.lookup b) ∧
    (mainType g = false → (ownEntry a cur g).attrs = g.attrs) ∧
    (g.type = "ibgp" → g.attrs.lookup "rs" = none ∨ g.hasRs = true → (ownEntry a cur g).attrs.lookup "rs" = none) ∧
    (g.zapped = false → ((ownEntry a cur g).zapped = true ↔ active g = true ∧ remoteRs a cur g.name = true)) := by
  unfold ownEntry
  by_cases h1 : (!(mainType g && g.hasRs)) = true
  · rw [if_pos h1]
    have ha : active g = false := by
      simp only [active]
      cases h : (mainType g && g.hasRs) <;> simp_all
    refine ⟨rfl, rfl, rfl, rfl, fun h => ⟨h, rfl⟩, fun _ _ => rfl, fun _ => rfl, ?_, ?_⟩
    · rintro ht (h | h)
      · exact h
      · exfalso
        have : mainType g = true := by simp [mainType, ht]
        simp [this, h] at h1
    · intro hz; simp [hz, ha]
  · rw [if_neg h1]
    have h1' : mainType g = true ∧ g.hasRs = true := by
      simpa using h1
    by_cases h2 : g.type = "ibgp"
    · rw [if_pos h2]
      refine ⟨rfl, rfl, rfl, rfl, fun h => ⟨h, rfl⟩, ?_, ?_, ?_, ?_⟩
      · intro b hb
        simp only [lookup_popKey]
        rw [if_neg]
        rcases hb with hb | hb
        · rw [h2] at hb; exact absurd hb (by decide)
        · exact hb
      · intro h; rw [h1'.1] at h; cases h
      · intro _ _; simp [lookup_popKey]
      · intro hz; simp [hz, active, h2]
    · rw [if_neg h2]
      have ha : active g = true := by simp [active, h1'.1, h1'.2, h2]
      by_cases h3 : remoteRs a cur g.name = true
      · rw [if_pos h3]
        refine ⟨rfl, rfl, rfl, rfl, ?_, fun _ _ => rfl, fun _ => rfl, fun h => absurd h h2, ?_⟩
        · intro h; cases h
        · intro _; simp [zapNgb, ha, h3]
      · rw [if_neg h3]
        refine ⟨rfl, rfl, rfl, rfl, fun h => ⟨h, rfl⟩, fun _ _ => rfl, fun _ => rfl, fun h => absurd h h2, ?_⟩
        intro hz; simp [hz, h3]

theorem hasRs_iff (g : SNgb) : g.hasRs = true ↔ ∃ v, g.attrs.lookup "rs" = some v ∧ v ≠ 0 := by
  unfold SNgb.hasRs
  cases g.attrs.lookup "rs" <;> simp

/-- Copied `rs` attributes -/
theorem copied_rs {sup : String → String → Bool} {all : List String} {t : List SNode} {P : List String} {n0 n : SNode}
    (hs : SaneSessions t) (hn0 : n0 ∈ t) (hn : NodeRel sup all t P n0 n) (hP : n0.name ∉ P)
    (hr : NodeRsOnly t) (hall : "rs" ∈ all) {e f g : SNgb} (he : e ∈ n0.ngbs) (hef : EntRel sup all t P n0 e f)
    (hfg : Copied sup all n f g) :
    (e.type = "ebgp" → ((∃ v, g.attrs.lookup "rs" = some v) ↔ IsRs all n0) ∧ (g.hasRs = true ↔ IsRs all n0)) ∧
    (e.type = "ibgp" → g.attrs.lookup "rs" = none ∨ g.hasRs = true) ∧
    (mainType e = false → g.attrs.lookup "rs" = none) := by
  have hb : n0.bgp = true := hs.bgp n0 hn0 (by intro h; rw [h] at he; cases he)
  have hz : f.zapped = false := by
    have := (hef.rs hr hall).1
    cases hf : f.zapped with
    | false => rfl
    | true => exact absurd (this.1 hf).2.2.2.1 hP
  have hmain : mainType f = mainType e := by simp [mainType, hef.type]
  have hval : mainType e = true → ∀ v, g.attrs.lookup "rs" = some v ↔
      Applied all n0 e.type "rs" ∧ Configured n0 e "rs" v := by
    intro hm v
    have hi : HasIntf n f := by
      intro ht
      obtain ⟨i, hi, h1, h2⟩ := hs.intf n0 hn0 e he (hef.type ▸ ht)
      refine ⟨i, by rw [hn.intfs]; exact hi, ?_, ?_⟩
      · rw [hef.ifindex hz]; exact h1
      · rw [hef.vrf]; exact h2
    have := hfg.values (by rw [hmain]; exact hm) hi "rs" hall v
    rw [this, applied_congr hn.apply, hef.type,
      configured_congr hn.attrs hn.intfs hef.type hef.vrf (hef.ifindex hz)]
  refine ⟨?_, ?_, ?_⟩
  · intro ht
    have hm : mainType e = true := by simp [mainType, ht]
    have h1 : (∃ v, g.attrs.lookup "rs" = some v) ↔ IsRs all n0 := by
      rw [← rs_value hn0 hr hb (e := e)]
      simp only [hval hm, ht]
    refine ⟨h1, ?_⟩
    rw [hasRs_iff, ← h1]
    constructor
    · rintro ⟨v, hv, -⟩; exact ⟨v, hv⟩
    · rintro ⟨v, hv⟩; exact ⟨v, hv, ((hval hm v).1 hv).2.1⟩
  · intro ht
    have hm : mainType e = true := by simp [mainType, ht]
    cases hl : g.attrs.lookup "rs" with
    | none => exact .inl rfl
    | some v => exact .inr ((hasRs_iff g).2 ⟨v, hl, ((hval hm v).1 hl).2.1⟩)
  · intro hm
    rw [hfg.other (by rw [hmain]; exact hm), hef.other hm]
    exact (hr n0 hn0).2 e he

theorem active_copied {sup : String → String → Bool} {all : List String} {t : List SNode} {P : List String} {n0 n : SNode}
    (hs : SaneSessions t) (hn0 : n0 ∈ t) (hn : NodeRel sup all t P n0 n) (hP : n0.name ∉ P)
    (hr : NodeRsOnly t) (hall : "rs" ∈ all) {e f g : SNgb} (he : e ∈ n0.ngbs) (hef : EntRel sup all t P n0 e f)
    (hfg : Copied sup all n f g) : active g = true ↔ e.type = "ebgp" ∧ IsRs all n0 := by
  obtain ⟨h1, h2, h3⟩ := copied_rs hs hn0 hn hP hr hall he hef hfg
  have ht : g.type = e.type := hfg.type.trans hef.type
  unfold active mainType
  rw [ht]
  by_cases hte : e.type = "ebgp"
  · have := (h1 hte).2
    simp [hte, this]
  · by_cases hti : e.type = "ibgp"
    · simp [hti]
    · simp [hte, hti]

/-- The node is a route server if and only if its name belongs to one. -/
theorem nameIsRs_iff {all : List String} {t : List SNode} (hs : SaneSessions t) {n : SNode} (hn : n ∈ t) :
    NameIsRs all t n.name ↔ IsRs all n := by
  constructor
  · rintro ⟨m, hm, h1, h2⟩
    cases eq_of_map_nodup hs.names hm hn h1
    exact h2
  · intro h; exact ⟨n, hn, rfl, h⟩

/-- Is the remote node a route server? -/
theorem remoteRs_iff {sup : String → String → Bool} {all : List String} {t cur : List SNode} {P : List String}
    (hs : SaneSessions t) (hrel : List.Forall₂ (NodeRel sup all t P) t cur) (hr : NodeRsOnly t) (hall : "rs" ∈ all)
    {n : SNode} (hn : n ∈ t) {e : SNgb} (he : e ∈ n.ngbs) (ht : e.type = "ebgp") :
    remoteRs n.name cur e.name = true ↔ NameIsRs all t e.name ∧ e.name ∈ P := by
  unfold remoteRs
  simp only [List.any_eq_true, Bool.and_eq_true, beq_iff_eq]
  constructor
  · rintro ⟨m, hm, ⟨hm1, hm2⟩, f, hf, ⟨hf1, hf2⟩, hf3⟩
    obtain ⟨m0, hm0, h0⟩ := forall₂_pick_right hrel hm
    obtain ⟨f0, hf0, h1⟩ := forall₂_pick_right h0.ngbs hf
    obtain ⟨-, h2, h3⟩ := ((h1.rs hr hall).2.2.1).1 hf3
    rw [← hm1, h0.name]
    exact ⟨(nameIsRs_iff hs hm0).2 h2, h3⟩
  · rintro ⟨h1, h2⟩
    obtain ⟨m0, hm0, h3, -, f0, hf0, h4, h5⟩ := hs.both n hn e he ht
    obtain ⟨m, hm, h6⟩ := forall₂_pick_left hrel hm0
    obtain ⟨f, hf, h7⟩ := forall₂_pick_left h6.ngbs hf0
    rw [← h3, nameIsRs_iff hs hm0] at h1
    refine ⟨m, hm, ⟨h6.name.trans h3, by rw [h6.bgp]; exact h1.1⟩, f, hf, ⟨?_, h7.name.trans h5⟩, ?_⟩
    · simp [mainType, h7.type, h4]
    · exact (h7.rs hr hall).2.2.1.2 ⟨h4, h1, by rw [h3]; exact h2⟩

theorem own_step {sup : String → String → Bool} {all : List String} {t cur : List SNode} {P : List String} {n0 n : SNode}
    (hs : SaneSessions t) (hrel : List.Forall₂ (NodeRel sup all t P) t cur)
    (hn0 : n0 ∈ t) (hn : NodeRel sup all t P n0 n) (hP : n0.name ∉ P)
    {e f g : SNgb} (he : e ∈ n0.ngbs) (hef : EntRel sup all t P n0 e f)
    (hfg : Copied sup all n f g)
    (herr : mainType g = true → ((g.attrs.lookup "tcp_ao").isSome = true → (g.attrs.lookup "password").isSome = true) ∧
      ((g.attrs.lookup "bfd").getD 0 ≠ 0 → n.bfd = true)) :
    EntRel sup all t (n0.name :: P) n0 e (ownEntry n0.name cur g) := by
  obtain ⟨o1, o2, o3, o4, o5, o6, o7, o8, o9⟩ := ownEntry_facts n0.name cur g
  have hmf : mainType f = mainType e := by simp [mainType, hef.type]
  have hmg : mainType g = mainType e := by simp [mainType, hfg.type, hef.type]
  have htg : g.type = e.type := hfg.type.trans hef.type
  have hi : f.zapped = false → HasIntf n f := by
    intro hz ht
    obtain ⟨i, hi, h1, h2⟩ := hs.intf n0 hn0 e he (hef.type ▸ ht)
    refine ⟨i, by rw [hn.intfs]; exact hi, ?_, ?_⟩
    · rw [hef.ifindex hz]; exact h1
    · rw [hef.vrf]; exact h2
  have hzf : (ownEntry n0.name cur g).zapped = false → f.zapped = false := by
    intro h; rw [← hfg.zapped]; exact (o5 h).1
  refine ⟨?_, ?_, ?_, ?_, ?_, ?_, ?_, ?_, ?_, ?_, ?_, ?_⟩
  · rw [o1, hfg.name, hef.name]
  · rw [o2, htg]
  · rw [o3, hfg.vrf, hef.vrf]
  · intro h; simp at h
  · intro hz
    rw [(o5 hz).2, hfg.ifindex, hef.ifindex (hzf hz)]
  · intro _ hz hm a ha hrs v
    rw [o6 a (by rw [htg]; exact hrs), hfg.values (by rw [hmf]; exact hm) (hi (hzf hz)) a ha v, applied_congr hn.apply,
      hef.type, configured_congr hn.attrs hn.intfs hef.type hef.vrf (hef.ifindex (hzf hz))]
  · intro _ hz hm a v h1 h2
    have := hfg.support (by rw [hmf]; exact hm) (hi (hzf hz)) a v
    rw [applied_congr hn.apply, hef.type,
      configured_congr hn.attrs hn.intfs hef.type hef.vrf (hef.ifindex (hzf hz)), hn.name] at this
    exact this h1 h2
  · intro hm
    rw [o7 (by rw [hmg]; exact hm), hfg.other (by rw [hmf]; exact hm), hef.other hm]
  · intro _ hm
    rw [o6 _ (.inr (by decide)), o6 _ (.inr (by decide))]
    exact (herr (by rw [hmg]; exact hm)).1
  · intro _ hm
    rw [o6 _ (.inr (by decide)), ← hn.bfd]
    exact (herr (by rw [hmg]; exact hm)).2
  · rw [o4, hfg.rsClient]; exact hef.client
  · intro hr hall
    obtain ⟨r1, r2, r3, r4, r5⟩ := hef.rs hr hall
    obtain ⟨c1, c2, c3⟩ := copied_rs hs hn0 hn hP hr hall he hef hfg
    have hact := active_copied hs hn0 hn hP hr hall he hef hfg
    have hzf' : f.zapped = false := by
      cases hf : f.zapped with
      | false => rfl
      | true => exact absurd (r1.1 hf).2.2.2.1 hP
    have hne : e.type = "ebgp" → e.name ≠ n0.name := by
      intro ht
      obtain ⟨m, -, h1, h2, -⟩ := hs.both n0 hn0 e he ht
      rw [← h1]; exact h2
    have hL : ((ownEntry n0.name cur g).attrs.lookup "rs").isSome = true ↔ e.type = "ebgp" ∧ IsRs all n0 := by
      by_cases ht : e.type = "ebgp"
      · rw [o6 _ (.inl (by rw [htg]; exact ht)), Option.isSome_iff_exists, (c1 ht).1]
        simp [ht]
      · by_cases hti : e.type = "ibgp"
        · rw [o8 (by rw [htg]; exact hti) (c2 hti)]; simp [hti]
        · have hm : mainType e = false := by simp [mainType, ht, hti]
          rw [o7 (by rw [hmg]; exact hm), c3 hm]
          simp [ht]
    have hL2 : (ownEntry n0.name cur g).hasRs = true ↔ e.type = "ebgp" ∧ IsRs all n0 := by
      by_cases ht : e.type = "ebgp"
      · have : (ownEntry n0.name cur g).hasRs = g.hasRs := by
          unfold SNgb.hasRs
          rw [o6 _ (.inl (by rw [htg]; exact ht))]
        rw [this, (c1 ht).2]
        simp [ht]
      · constructor
        · intro h
          apply hL.1
          obtain ⟨v, hv, -⟩ := (hasRs_iff _).1 h
          rw [hv]; rfl
        · intro h; exact absurd h.1 ht
    refine ⟨?_, ?_, ?_, ?_, ?_⟩
    · rw [o9 (by rw [hfg.zapped]; exact hzf'), hact, hfg.name, hef.name]
      constructor
      · rintro ⟨⟨h1, h2⟩, h3⟩
        obtain ⟨h4, h5⟩ := (remoteRs_iff hs hrel hr hall hn0 he h1).1 h3
        exact ⟨h1, h2, h4, by simp, by simp [h5]⟩
      · rintro ⟨h1, h2, h3, -, h5⟩
        refine ⟨⟨h1, h2⟩, (remoteRs_iff hs hrel hr hall hn0 he h1).2 ⟨h3, ?_⟩⟩
        rcases List.mem_cons.1 h5 with h5 | h5
        · exact absurd h5 (hne h1)
        · exact h5
    · rw [hL]; simp
    · rw [hL2]; simp
    · rw [o4, hfg.rsClient]
      intro h1 h2 h3 h4
      rcases List.mem_cons.1 h3 with h3 | h3
      · exact absurd h3 (hne h1)
      · exact r4 h1 h2 h3 h4
    · rw [o4, hfg.rsClient]
      intro h
      obtain ⟨h1, h2⟩ := r5 h
      exact ⟨h1, by simp [h2]⟩

theorem markNgb_facts (a : String) (f : SNgb) :
    (markNgb a f).type = f.type ∧ (markNgb a f).vrf = f.vrf ∧ (markNgb a f).attrs = f.attrs ∧
    ((markNgb a f).zapped = false → f.zapped = false ∧ (markNgb a f).ifindex = f.ifindex) ∧
    ((markNgb a f).zapped = true ↔ f.zapped = true ∨ (mainType f = true ∧ f.name = a ∧ f.hasRs = true)) ∧
    ((markNgb a f).rsClient = true ↔ f.rsClient = true ∨ (mainType f = true ∧ f.name = a ∧ f.hasRs = false)) := by
  unfold markNgb
  by_cases h : (mainType f && f.name == a) = true
  · rw [if_pos h]
    simp only [Bool.and_eq_true, beq_iff_eq] at h
    cases hr : f.hasRs <;> simp [zapNgb, h.1, h.2]
  · rw [if_neg h]
    simp only [Bool.and_eq_true, beq_iff_eq] at h
    refine ⟨rfl, rfl, rfl, fun h => ⟨h, rfl⟩, ?_, ?_⟩
    · constructor
      · exact .inl
      · rintro (h1 | ⟨h1, h2, -⟩)
        · exact h1
        · exact absurd ⟨h1, h2⟩ h
    · constructor
      · exact .inl
      · rintro (h1 | ⟨h1, h2, -⟩)
        · exact h1
        · exact absurd ⟨h1, h2⟩ h

theorem other_step {sup : String → String → Bool} {all : List String} {t : List SNode} {P : List String} {n0 m0 : SNode}
    (hs : SaneSessions t) (hn0 : n0 ∈ t) (hne : m0.name ≠ n0.name)
    {e f f' : SNgb} (hef : EntRel sup all t P m0 e f) {marked : Prop}
    (hf' : (marked ∧ f' = markNgb n0.name f) ∨ (¬ marked ∧ f' = f))
    (hsup : marked → mainType f = true → f.name = n0.name → f.hasRs = false → sup m0.name "rs_client" = true)
    (hmark : NodeRsOnly t → "rs" ∈ all → (marked → IsRs all n0) ∧
      (e.type = "ebgp" → e.name = n0.name → IsRs all n0 → marked)) :
    EntRel sup all t (n0.name :: P) m0 e f' := by
  obtain ⟨k2, k3, k4, k5, k6, k7⟩ := markNgb_facts n0.name f
  have k1 := markNgb_name n0.name f
  have hin : m0.name ∈ n0.name :: P ↔ m0.name ∈ P := by simp [hne]
  have a1 : f'.name = f.name := by rcases hf' with ⟨-, rfl⟩ | ⟨-, rfl⟩ <;> simp [k1]
  have a2 : f'.type = f.type := by rcases hf' with ⟨-, rfl⟩ | ⟨-, rfl⟩ <;> simp [k2]
  have a3 : f'.vrf = f.vrf := by rcases hf' with ⟨-, rfl⟩ | ⟨-, rfl⟩ <;> simp [k3]
  have a4 : f'.attrs = f.attrs := by rcases hf' with ⟨-, rfl⟩ | ⟨-, rfl⟩ <;> simp [k4]
  have a5 : f'.zapped = false → f.zapped = false ∧ f'.ifindex = f.ifindex := by
    rcases hf' with ⟨-, rfl⟩ | ⟨-, rfl⟩
    · exact k5
    · exact fun h => ⟨h, rfl⟩
  have a6 : f'.zapped = true ↔ f.zapped = true ∨ (marked ∧ mainType f = true ∧ f.name = n0.name ∧ f.hasRs = true) := by
    rcases hf' with ⟨h, rfl⟩ | ⟨h, rfl⟩
    · rw [k6]; simp [h]
    · simp [h]
  have a7 : f'.rsClient = true ↔
      f.rsClient = true ∨ (marked ∧ mainType f = true ∧ f.name = n0.name ∧ f.hasRs = false) := by
    rcases hf' with ⟨h, rfl⟩ | ⟨h, rfl⟩
    · rw [k7]; simp [h]
    · simp [h]
  refine ⟨?_, ?_, ?_, ?_, ?_, ?_, ?_, ?_, ?_, ?_, ?_, ?_⟩
  · rw [a1, hef.name]
  · rw [a2, hef.type]
  · rw [a3, hef.vrf]
  · rw [hin, a4]; exact hef.attrs
  · intro hz; rw [(a5 hz).2]; exact hef.ifindex (a5 hz).1
  · intro h hz; rw [a4]; exact hef.values (hin.1 h) (a5 hz).1
  · intro h hz; exact hef.support (hin.1 h) (a5 hz).1
  · rw [a4]; exact hef.other
  · intro h; rw [a4]; exact hef.tcpAo (hin.1 h)
  · intro h; rw [a4]; exact hef.bfd (hin.1 h)
  · rw [a7]
    rintro (h | ⟨h1, h2, h3, h4⟩)
    · exact hef.client h
    · exact hsup h1 h2 h3 h4
  · intro hr hall
    obtain ⟨r1, r2, r3, r4, r5⟩ := hef.rs hr hall
    obtain ⟨m1, m2⟩ := hmark hr hall
    have hn := nameIsRs_iff (all := all) hs hn0
    have hrs' : f'.hasRs = f.hasRs := by unfold SNgb.hasRs; rw [a4]
    refine ⟨?_, ?_, ?_, ?_, ?_⟩
    · rw [a6, r1, hin, hef.name, r3]
      constructor
      · rintro (⟨h1, h2, h3, h4, h5⟩ | ⟨h1, h2, h3, h4, h5, h6⟩)
        · exact ⟨h1, h2, h3, h4, by simp [h5]⟩
        · exact ⟨h4, h5, by rw [h3, hn]; exact m1 h1, h6, by simp [h3]⟩
      · rintro ⟨h1, h2, h3, h4, h5⟩
        rcases List.mem_cons.1 h5 with h5 | h5
        · right
          rw [h5, hn] at h3
          exact ⟨m2 h1 h5 h3, by simp [mainType, hef.type, h1], h5, h1, h2, h4⟩
        · exact .inl ⟨h1, h2, h3, h4, h5⟩
    · rw [a4, r2, hin]
    · rw [hrs', r3, hin]
    · intro h1 h2 h3 h4
      rw [a7]
      rcases List.mem_cons.1 h3 with h3 | h3
      · right
        rw [h3, hn] at h2
        refine ⟨m2 h1 h3 h2, by simp [mainType, hef.type, h1], hef.name.trans h3, ?_⟩
        cases hx : f.hasRs with
        | false => rfl
        | true => exact absurd (r3.1 hx).2.1 h4
      · exact .inl (r4 h1 h2 h3 h4)
    · rw [a7]
      rintro (h | ⟨h1, h2, h3, h4⟩)
      · obtain ⟨h5, h6⟩ := r5 h
        exact ⟨h5, by simp [h6]⟩
      · rw [hef.name] at h3
        exact ⟨by rw [h3, hn]; exact m1 h1, by simp [h3]⟩

theorem tcpAoBfd_zero {n : SNode} {es : List SNgb} (h : tcpAoBfdErrors n es = 0) {g : SNgb} (hg : g ∈ es)
    (hm : mainType g = true) : ((g.attrs.lookup "tcp_ao").isSome = true → (g.attrs.lookup "password").isSome = true) ∧
      ((g.attrs.lookup "bfd").getD 0 ≠ 0 → n.bfd = true) := by
  have h1 := nat_sum_zero h _ (List.mem_map_of_mem hg)
  simp only [hm, if_true] at h1
  have h2 : (if (g.attrs.lookup "tcp_ao").isSome && !(g.attrs.lookup "password").isSome then 1 else 0) = 0 := by omega
  have h3 : (if (g.attrs.lookup "bfd").getD 0 ≠ 0 && !n.bfd then 1 else 0) = 0 := by omega
  constructor
  · intro h4
    cases hp : (g.attrs.lookup "password").isSome with
    | true => rfl
    | false => simp [h4, hp] at h2
  · intro h4
    cases hp : n.bfd with
    | true => rfl
    | false => simp [h4, hp] at h3

theorem sess_step {sup : String → String → Bool} {all : List String} {t cur : List SNode} {P : List String} {n0 n : SNode}
    (hs : SaneSessions t) (hrel : List.Forall₂ (NodeRel sup all t P) t cur)
    (hn0 : n0 ∈ t) (hnc : n ∈ cur) (hn : NodeRel sup all t P n0 n) (hP : n0.name ∉ P)
    (hz : (sessNode sup all cur n).2.1 = 0) :
    List.Forall₂ (NodeRel sup all t (n0.name :: P)) t (sessNode sup all cur n).1 ∧
    ((sessNode sup all cur n).2.2 = false → (∀ m ∈ cur, ∀ f ∈ m.ngbs, f.zapped = false) →
      ∀ m ∈ (sessNode sup all cur n).1, ∀ f ∈ m.ngbs, f.zapped = false) ∧
    ((sessNode sup all cur n).2.2 = false → NodeRsOnly t → "rs" ∈ all → ∀ e ∈ n0.ngbs, e.type = "ebgp" →
      ¬ IsRs all n0) := by
  unfold sessNode at hz ⊢
  simp only at hz ⊢
  have hz1 : (copyLocal (sup n.name) all n (n.ngbs.map (cleanNgb all))).2 = 0 := by omega
  have hcop := copyLocal_spec sup all n n.ngbs (by rw [hn.intfs]; exact hs.ifindex n0 hn0) hz1
  generalize (copyLocal (sup n.name) all n (n.ngbs.map (cleanNgb all))).1 = es at hz hcop ⊢
  generalize (copyLocal (sup n.name) all n (n.ngbs.map (cleanNgb all))).2 = z at hz hz1 ⊢
  obtain ⟨s1, s2, s3, s4⟩ := rsLoop_spec sup n.name es cur
  have hz2 : tcpAoBfdErrors n es = 0 := by omega
  have hz3 := s4 (by omega)
  rw [s1, s2, s3]
  have hent := forall₂_with_mem (forall₂_compose hn.ngbs hcop)
  rw [hn.name] at *
  refine ⟨?_, ?_, ?_⟩
  · rw [List.map_map, List.forall₂_map_right_iff]
    refine (forall₂_with_mem hrel).imp ?_
    rintro m0 m ⟨hm, hm0, hmc⟩
    simp only [Function.comp]
    have hmn : (markAll n0.name es m).name = m.name := by unfold markAll; split <;> rfl
    have hmf : (markAll n0.name es m).bgp = m.bgp ∧ (markAll n0.name es m).bfd = m.bfd ∧
        (markAll n0.name es m).attrs = m.attrs ∧ (markAll n0.name es m).apply = m.apply ∧
        (markAll n0.name es m).intfs = m.intfs := by
      unfold markAll; split <;> exact ⟨rfl, rfl, rfl, rfl, rfl⟩
    obtain ⟨f1, f2, f3, f4, f5⟩ := hmf
    rw [hmn, hm.name]
    by_cases hc : m0.name = n0.name
    · rw [if_pos hc]
      cases eq_of_map_nodup hs.names hm0 hn0 hc
      refine ⟨rfl, by simp only [f1, hm.bgp], by simp only [f2, hm.bfd],
        by simp only [f3, hm.attrs], by simp only [f4, hm.apply], by simp only [f5, hm.intfs], ?_⟩
      simp only
      rw [List.forall₂_map_right_iff]
      refine hent.imp ?_
      rintro e g ⟨⟨f, hef, hfg⟩, he, hg⟩
      exact own_step hs hrel hn0 hn hP he hef hfg (tcpAoBfd_zero hz2 hg)
    · rw [if_neg hc]
      refine ⟨by rw [hmn, hm.name], by rw [f1, hm.bgp], by rw [f2, hm.bfd], by rw [f3, hm.attrs], by rw [f4, hm.apply],
        by rw [f5, hm.intfs], ?_⟩
      have hng : (markAll n0.name es m).ngbs = m.ngbs.map (fun f =>
          if m.bgp = true ∧ ∃ e ∈ es, active e = true ∧ e.name = m.name then markNgb n0.name f else f) := by
        unfold markAll
        split <;> simp
      rw [hng, List.forall₂_map_right_iff]
      refine (forall₂_with_mem hm.ngbs).imp ?_
      rintro e f ⟨hef, he, hf⟩
      refine other_step hs hn0 hc hef (marked := m.bgp = true ∧ ∃ e ∈ es, active e = true ∧ e.name = m.name) ?_ ?_ ?_
      · split
        · rename_i h; exact .inl ⟨h, rfl⟩
        · rename_i h; exact .inr ⟨h, rfl⟩
      · rintro ⟨hmb, x, hx, hx1, hx2⟩ g1 g2 g3
        have := hz3 x hx hx1 m hmc hx2.symm hmb f hf g1 g2 g3
        rw [hm.name] at this
        exact this
      · intro hr hall
        constructor
        · rintro ⟨-, x, hx, hx1, -⟩
          obtain ⟨e1, he1, ⟨f1, hef1, hfg1⟩, -, -⟩ := forall₂_pick_right hent hx
          exact ((active_copied hs hn0 hn hP hr hall he1 hef1 hfg1).1 hx1).2
        · intro ht hna hrs
          obtain ⟨q, hq, hq1, hq2, x, hx, hx1, hx2⟩ := hs.both m0 hm0 e he ht
          have : q = n0 := eq_of_map_nodup hs.names hq hn0 (hq1.trans hna)
          subst this
          obtain ⟨g, hg, ⟨f1, hef1, hfg1⟩, -, -⟩ := forall₂_pick_left hent hx
          refine ⟨?_, g, hg, ?_, ?_⟩
          · rw [hm.bgp]
            exact hs.bgp m0 hm0 (by intro h; rw [h] at he; cases he)
          · exact (active_copied hs hn0 hn hP hr hall hx hef1 hfg1).2 ⟨hx1, hrs⟩
          · rw [hfg1.name, hef1.name, hx2, hm.name]
  · intro hh hall m hm f hf
    rw [List.map_map] at hm
    obtain ⟨m1, hm1, rfl⟩ := List.mem_map.1 hm
    have hna : ∀ g ∈ es, active g = false := by
      intro g hg
      cases hx : active g with
      | false => rfl
      | true => rw [List.any_eq_true.2 ⟨g, hg, hx⟩] at hh; cases hh
    have hma : markAll n0.name es m1 = m1 := by
      unfold markAll
      rw [if_neg]
      rintro ⟨-, x, hx, hx1, -⟩
      rw [hna x hx] at hx1; cases hx1
    simp only [Function.comp, hma] at hf
    by_cases hc : m1.name = n0.name
    · rw [if_pos hc] at hf
      simp only at hf
      obtain ⟨g, hg, rfl⟩ := List.mem_map.1 hf
      obtain ⟨f, hf, hfg⟩ := forall₂_pick_right hcop hg
      have hzg : g.zapped = false := by rw [hfg.zapped]; exact hall n hnc f hf
      cases hx : (ownEntry n0.name cur g).zapped with
      | false => rfl
      | true =>
        obtain ⟨-, -, -, -, -, -, -, -, o9⟩ := ownEntry_facts n0.name cur g
        have := ((o9 hzg).1 hx).1
        rw [hna g hg] at this; cases this
    · rw [if_neg hc] at hf
      exact hall m1 hm1 f hf
  · intro hh hr hall e he ht hrs
    obtain ⟨g, hg, ⟨f, hef, hfg⟩, -, -⟩ := forall₂_pick_left hent he
    have := (active_copied hs hn0 hn hP hr hall he hef hfg).2 ⟨ht, hrs⟩
    rw [List.any_eq_true.2 ⟨g, hg, this⟩] at hh; cases hh

theorem isRs_bgp {all : List String} {n : SNode} (h : IsRs all n) : n.bgp = true := h.1

/-- Nodes without BGP change nothing. -/
theorem skip_step {sup : String → String → Bool} {all : List String} {t cur : List SNode} {P : List String} {n0 : SNode}
    (hs : SaneSessions t) (hrel : List.Forall₂ (NodeRel sup all t P) t cur) (hn0 : n0 ∈ t) (hb : n0.bgp = false) :
    List.Forall₂ (NodeRel sup all t (n0.name :: P)) t cur := by
  refine (forall₂_with_mem hrel).imp ?_
  rintro m0 m ⟨hm, hm0, -⟩
  refine ⟨hm.name, hm.bgp, hm.bfd, hm.attrs, hm.apply, hm.intfs, ?_⟩
  refine (forall₂_with_mem hm.ngbs).imp ?_
  rintro e f ⟨hef, he, -⟩
  have hne : m0.name ≠ n0.name := by
    intro h
    have := hs.bgp m0 hm0 (by intro h; rw [h] at he; cases he)
    rw [eq_of_map_nodup hs.names hm0 hn0 h, hb] at this; cases this
  have hin : m0.name ∈ n0.name :: P ↔ m0.name ∈ P := by simp [hne]
  have hnr : ¬ NameIsRs all t n0.name := by
    rw [nameIsRs_iff hs hn0]
    intro h
    have := isRs_bgp h
    rw [hb] at this; cases this
  have hin2 : NameIsRs all t e.name → (e.name ∈ n0.name :: P ↔ e.name ∈ P) := by
    intro h
    have : e.name ≠ n0.name := by intro h1; rw [h1] at h; exact hnr h
    simp [this]
  refine ⟨hef.name, hef.type, hef.vrf, by rw [hin]; exact hef.attrs, hef.ifindex, by rw [hin]; exact hef.values,
    by rw [hin]; exact hef.support, hef.other, by rw [hin]; exact hef.tcpAo, by rw [hin]; exact hef.bfd, hef.client, ?_⟩
  intro hr hall
  obtain ⟨r1, r2, r3, r4, r5⟩ := hef.rs hr hall
  refine ⟨?_, by rw [hin]; exact r2, by rw [hin]; exact r3, ?_, ?_⟩
  · rw [r1, hin]
    constructor
    · rintro ⟨h1, h2, h3, h4, h5⟩; exact ⟨h1, h2, h3, h4, by simp [h5]⟩
    · rintro ⟨h1, h2, h3, h4, h5⟩; exact ⟨h1, h2, h3, h4, (hin2 h3).1 h5⟩
  · intro h1 h2 h3 h4; exact r4 h1 h2 ((hin2 h2).1 h3) h4
  · intro h
    obtain ⟨h1, h2⟩ := r5 h
    exact ⟨h1, by simp [h2]⟩

theorem sessLoop_spec {sup : String → String → Bool} {all : List String} {t : List SNode} (hs : SaneSessions t) :
    ∀ (as : List String) (P : List String) (cur : List SNode), as.Nodup → (∀ a ∈ as, a ∉ P) →
      (∀ a ∈ as, ∃ n ∈ t, n.name = a) →
      List.Forall₂ (NodeRel sup all t P) t cur → (sessLoop sup all as cur).2.1 = 0 →
      (∃ P', (∀ x, x ∈ P' ↔ x ∈ as ∨ x ∈ P) ∧ List.Forall₂ (NodeRel sup all t P') t (sessLoop sup all as cur).1) ∧
      ((sessLoop sup all as cur).2.2 = false → (∀ m ∈ cur, ∀ f ∈ m.ngbs, f.zapped = false) →
        ∀ m ∈ (sessLoop sup all as cur).1, ∀ f ∈ m.ngbs, f.zapped = false) ∧
      ((sessLoop sup all as cur).2.2 = false → NodeRsOnly t → "rs" ∈ all → ∀ n ∈ t, n.name ∈ as → ∀ e ∈ n.ngbs,
        e.type = "ebgp" → ¬ IsRs all n) := by
  intro as
  induction as with
  | nil =>
    intro P cur _ _ _ hrel _
    exact ⟨⟨P, by simp, hrel⟩, fun _ h => h, by simp⟩
  | cons a as ih =>
    intro P cur hnd hP hex hrel hz
    rw [List.nodup_cons] at hnd
    obtain ⟨n0, hn0, hna⟩ := hex a (by simp)
    subst hna
    have hP0 := hP n0.name (by simp)
    have hP' : ∀ b ∈ as, b ∉ n0.name :: P := by
      intro b hb hc
      rcases List.mem_cons.1 hc with rfl | hc
      · exact hnd.1 hb
      · exact hP b (by simp [hb]) hc
    have hex' : ∀ b ∈ as, ∃ n ∈ t, n.name = b := fun b hb => hex b (by simp [hb])
    cases hfind : cur.find? (fun n => n.name == n0.name) with
    | none =>
      exfalso
      obtain ⟨m, hm, h1⟩ := forall₂_pick_left hrel hn0
      have := List.find?_eq_none.1 hfind m hm
      simp [h1.name] at this
    | some n =>
      have hnc := List.mem_of_find?_eq_some hfind
      have hnn : n.name = n0.name := by simpa using List.find?_some hfind
      obtain ⟨q, hq, hqn⟩ := forall₂_pick_right hrel hnc
      have : q = n0 := eq_of_map_nodup hs.names hq hn0 (hqn.name.symm.trans hnn)
      subst this
      by_cases hb : n.bgp = true
      · have hstep : sessLoop sup all (q.name :: as) cur =
            ((sessLoop sup all as (sessNode sup all cur n).1).1,
              (sessNode sup all cur n).2.1 + (sessLoop sup all as (sessNode sup all cur n).1).2.1,
              (sessNode sup all cur n).2.2 || (sessLoop sup all as (sessNode sup all cur n).1).2.2) := by
          simp [sessLoop, hfind, hb]
        rw [hstep] at hz ⊢
        simp only at hz ⊢
        obtain ⟨s1, s2, s3⟩ := sess_step hs hrel hq hnc hqn hP0 (by omega)
        obtain ⟨⟨P', p1, p2⟩, i2, i3⟩ := ih (q.name :: P) _ hnd.2 hP' hex' s1 (by omega)
        refine ⟨⟨P', ?_, p2⟩, ?_, ?_⟩
        · intro x
          rw [p1]
          simp only [List.mem_cons]
          grind
        · intro hh hall
          simp only [Bool.or_eq_false_iff] at hh
          exact i2 hh.2 (s2 hh.1 hall)
        · intro hh hr hall m hm hma
          simp only [Bool.or_eq_false_iff] at hh
          rcases List.mem_cons.1 hma with hma | hma
          · cases eq_of_map_nodup hs.names hm hq hma
            exact s3 hh.1 hr hall
          · exact i3 hh.2 hr hall m hm hma
      · have hstep : sessLoop sup all (q.name :: as) cur = sessLoop sup all as cur := by
          simp [sessLoop, hfind, hb]
        rw [hstep] at hz ⊢
        have hb0 : q.bgp = false := by rw [← hqn.bgp]; simpa using hb
        have s1 := skip_step hs hrel hq hb0
        obtain ⟨⟨P', p1, p2⟩, i2, i3⟩ := ih (q.name :: P) _ hnd.2 hP' hex' s1 hz
        refine ⟨⟨P', ?_, p2⟩, i2, ?_⟩
        · intro x
          rw [p1]
          simp only [List.mem_cons]
          grind
        · intro hh hr hall m hm hma
          rcases List.mem_cons.1 hma with hma | hma
          · cases eq_of_map_nodup hs.names hm hq hma
            intro e he _ h
            have := isRs_bgp h
            rw [hb0] at this; cases this
          · exact i3 hh hr hall m hm hma

/-! ## Removing sessions -/

/-- The sessions removed by `cleanMesh` -/
def meshHit (ds : List SNgb) (x : SNgb) : Bool :=
  x.type == "ebgp" && !(x.attrs.lookup "rs").isSome && !x.rsClient && ds.any (fun d => x.ifindex == d.ifindex)

theorem mesh_fold (ds : List SNgb) (l : List SNgb) :
    ds.foldl (fun l d =>
      l.map (fun x => if x.type == "ebgp" && x.ifindex == d.ifindex && !(x.attrs.lookup "rs").isSome && !x.rsClient
        then zapNgb x else x)) l = l.map (fun x => if meshHit ds x then zapNgb x else x) := by
  induction ds generalizing l with
  | nil => simp [meshHit]
  | cons d ds ih =>
    rw [List.foldl_cons, ih, List.map_map]
    apply List.map_congr_left
    intro x _
    simp only [Function.comp]
    by_cases h : (x.type == "ebgp" && x.ifindex == d.ifindex && !(x.attrs.lookup "rs").isSome && !x.rsClient) = true
    · rw [if_pos h]
      have hz : ∀ b : Bool, (if b = true then zapNgb (zapNgb x) else zapNgb x) = zapNgb x := by
        intro b; cases b <;> rfl
      rw [hz, if_pos]
      simp only [Bool.and_eq_true] at h
      simp only [meshHit, Bool.and_eq_true, List.any_cons, Bool.or_eq_true]
      exact ⟨⟨⟨h.1.1.1, h.1.2⟩, h.2⟩, .inl h.1.1.2⟩
    · rw [if_neg h]
      have : meshHit (d :: ds) x = meshHit ds x := by
        simp only [meshHit, List.any_cons]
        cases h1 : (x.type == "ebgp") <;> cases h2 : (x.ifindex == d.ifindex) <;>
          cases h3 : (x.attrs.lookup "rs").isSome <;> cases h4 : x.rsClient <;> simp_all
      rw [this]

theorem zapNgb_same {x : SNgb} (b : Bool) :
    (if b = true then zapNgb x else x).name = x.name ∧ (if b = true then zapNgb x else x).type = x.type ∧
    (if b = true then zapNgb x else x).vrf = x.vrf ∧ (if b = true then zapNgb x else x).attrs = x.attrs ∧
    (if b = true then zapNgb x else x).rsClient = x.rsClient ∧
    ((if b = true then zapNgb x else x).zapped = true ↔ x.zapped = true ∨ b = true) ∧
    ((if b = true then zapNgb x else x).zapped = false →
      x.zapped = false ∧ (if b = true then zapNgb x else x).ifindex = x.ifindex) := by
  cases b <;> simp [zapNgb]

/-- The final state of the neighbors of a node -/
theorem final_spec {sup : String → String → Bool} {all : List String} {t : List SNode} (hs : SaneSessions t)
    (hz : (bgpSession sup all t).2 = 0) :
    List.Forall₂ (fun n m => m.name = n.name ∧ ∃ (P : List String) (l : List SNgb) (hit : SNgb → Bool),
        (∀ a, a ∈ P ↔ ∃ x ∈ t, x.name = a) ∧
        List.Forall₂ (EntRel sup all t P n) n.ngbs l ∧
        m.ngbs = (l.map (fun x => if hit x then zapNgb x else x)).filter (fun x => !x.zapped) ∧
        (hit = meshHit (l.filter (fun d => d.type == "ebgp" && d.rsClient)) ∨
          ((∀ x, hit x = false) ∧
            (NodeRsOnly t → "rs" ∈ all → ∀ n ∈ t, ∀ e ∈ n.ngbs, e.type = "ebgp" → ¬ IsRs all n))))
      t (bgpSession sup all t).1 := by
  have hz' : (sessLoop sup all (t.map (·.name)) t).2.1 = 0 := by
    unfold bgpSession at hz
    simp only at hz
    split at hz <;> exact hz
  obtain ⟨⟨P, p1, p2⟩, h2, h3⟩ := sessLoop_spec hs (t.map (·.name)) [] t hs.names (by simp)
    (by intro a ha; simpa using List.mem_map.1 ha) (nodeRel_nil hs) hz'
  have hP : ∀ a, a ∈ P ↔ ∃ x ∈ t, x.name = a := by
    intro a; rw [p1]; simp
  unfold bgpSession
  simp only
  cases hh : (sessLoop sup all (t.map (·.name)) t).2.2 with
  | true =>
    simp only [if_true]
    rw [List.forall₂_map_right_iff]
    refine (forall₂_with_mem p2).imp ?_
    rintro n m ⟨hm, hn, -⟩
    by_cases hb : m.bgp = true
    · rw [if_pos hb]
      refine ⟨hm.name, P, m.ngbs, _, hP, hm.ngbs, ?_, .inl rfl⟩
      simp only [dropZapped, cleanMesh, mesh_fold]
    · rw [if_neg hb]
      have hnil : n.ngbs = [] := by
        apply Classical.byContradiction
        intro hne
        exact hb (by rw [hm.bgp]; exact hs.bgp n hn hne)
      have hml := hm.ngbs
      rw [hnil, List.forall₂_nil_left_iff] at hml
      refine ⟨hm.name, P, m.ngbs, _, hP, hm.ngbs, ?_, .inl rfl⟩
      rw [hml]; rfl
  | false =>
    simp only [Bool.false_eq_true, if_false]
    refine (forall₂_with_mem p2).imp ?_
    rintro n m ⟨hm, hn, hmm⟩
    refine ⟨hm.name, P, m.ngbs, fun _ => false, hP, hm.ngbs, ?_, .inr ⟨fun _ => rfl, ?_⟩⟩
    · have hzz := h2 hh (fun n hn e he => (hs.clean n hn e he).2) m hmm
      simp only [Bool.false_eq_true, if_false, List.map_id']
      rw [List.filter_eq_self.2]
      intro x hx
      simp [hzz x hx]
    · intro hr hall n hn e he ht
      exact h3 hh hr hall n hn (List.mem_map_of_mem hn) e he ht

/-- C68: every BGP session that is not removed keeps its neighbor, type, VRF and interface, and has exactly the session
attributes configured on the interface or the node and applied to the sessions of its type; the device supports them,
TCP-AO sessions have a password and BFD sessions need the BFD module. -/
theorem C68_session_attributes (sup : String → String → Bool) (all : List String) (t : List SNode)
    (hs : SaneSessions t) (hz : (bgpSession sup all t).2 = 0) :
    List.Forall₂ (fun n m => m.name = n.name ∧ ∃ l,
        m.ngbs = l.filter (fun f => !f.zapped) ∧
        List.Forall₂ (fun e f =>
          f.name = e.name ∧ f.type = e.type ∧ f.vrf = e.vrf ∧
          (f.zapped = false →
            f.ifindex = e.ifindex ∧
            ((e.type = "ibgp" ∨ e.type = "ebgp") →
              (∀ a ∈ all, (e.type = "ebgp" ∨ a ≠ "rs") → ∀ v,
                f.attrs.lookup a = some v ↔ Applied all n e.type a ∧ Configured n e a v) ∧
              (∀ a v, Applied all n e.type a → Configured n e a v → sup n.name a = true) ∧
              ((f.attrs.lookup "tcp_ao").isSome = true → (f.attrs.lookup "password").isSome = true) ∧
              ((∃ v, f.attrs.lookup "bfd" = some v ∧ v ≠ 0) → n.bfd = true)) ∧
            (¬ (e.type = "ibgp" ∨ e.type = "ebgp") → f.attrs = e.attrs)))
          n.ngbs l)
      t (bgpSession sup all t).1 := by
  refine (forall₂_with_mem (final_spec hs hz)).imp ?_
  rintro n m ⟨⟨h1, P, l, hit, hP, h2, h3, -⟩, hn, -⟩
  refine ⟨h1, _, h3, ?_⟩
  rw [List.forall₂_map_right_iff]
  refine h2.imp ?_
  intro e f hef
  obtain ⟨z1, z2, z3, z4, z5, z6, z7⟩ := zapNgb_same (x := f) (hit f)
  have hin : n.name ∈ P := (hP _).2 ⟨n, hn, rfl⟩
  refine ⟨z1.trans hef.name, z2.trans hef.type, z3.trans hef.vrf, ?_⟩
  intro hzz
  obtain ⟨y1, y2⟩ := z7 hzz
  rw [z4]
  refine ⟨y2.trans (hef.ifindex y1), ?_, ?_⟩
  · intro ht
    have hm : mainType e = true := by simpa [mainType] using ht
    refine ⟨hef.values hin y1 hm, hef.support hin y1 hm, hef.tcpAo hin hm, ?_⟩
    rintro ⟨v, hv, hv0⟩
    exact hef.bfd hin hm (by rw [hv]; exact hv0)
  · intro ht
    have hm : mainType e = false := by
      cases hx : mainType e with
      | false => rfl
      | true => exact absurd (by simpa [mainType] using hx) ht
    exact hef.other hm

/-- C69: when route servers are set on nodes, EBGP sessions between route servers, and EBGP sessions between other
routers on the interfaces toward a route server are removed, and all the other sessions are kept; every other EBGP
session of a route server has the `rs` attribute and no other session has it; a session is marked as the session of a
route server client if and only if the neighbor is a route server, and only on devices that support it. -/
theorem C69_route_servers (sup : String → String → Bool) (all : List String) (t : List SNode)
    (hs : SaneSessions t) (hr : NodeRsOnly t) (hall : "rs" ∈ all) (hz : (bgpSession sup all t).2 = 0) :
    List.Forall₂ (fun n m => m.name = n.name ∧ ∃ l,
        m.ngbs = l.filter (fun f => !f.zapped) ∧
        List.Forall₂ (fun e f =>
          f.name = e.name ∧ f.type = e.type ∧ f.vrf = e.vrf ∧
          (f.zapped = true ↔ RemovedSession all t n e) ∧
          (f.zapped = false →
            ((∃ v, f.attrs.lookup "rs" = some v ∧ v ≠ 0) ↔ e.type = "ebgp" ∧ IsRs all n) ∧
            (e.type = "ebgp" → (f.rsClient = true ↔ NameIsRs all t e.name)) ∧
            (f.rsClient = true → NameIsRs all t e.name ∧ sup n.name "rs_client" = true)))
          n.ngbs l)
      t (bgpSession sup all t).1 := by
  refine (forall₂_with_mem (final_spec hs hz)).imp ?_
  rintro n m ⟨⟨h1, P, l, hit, hP, h2, h3, hhit⟩, hn, -⟩
  refine ⟨h1, _, h3, ?_⟩
  rw [List.forall₂_map_right_iff]
  refine (forall₂_with_mem h2).imp ?_
  rintro e f ⟨hef, he, hfl⟩
  obtain ⟨z1, z2, z3, z4, z5, z6, z7⟩ := zapNgb_same (x := f) (hit f)
  have hin : n.name ∈ P := (hP _).2 ⟨n, hn, rfl⟩
  have hin2 : ∀ {b}, NameIsRs all t b → b ∈ P := by
    rintro b ⟨x, hx, hb, -⟩
    exact (hP _).2 ⟨x, hx, hb⟩
  obtain ⟨r1, r2, r3, r4, r5⟩ := hef.rs hr hall
  have hcl : ¬ IsRs all n → e.type = "ebgp" → (f.rsClient = true ↔ NameIsRs all t e.name) :=
    fun hnr ht => ⟨fun h => (r5 h).1, fun h => r4 ht h (hin2 h) hnr⟩
  refine ⟨z1.trans hef.name, z2.trans hef.type, z3.trans hef.vrf, ?_, ?_⟩
  · rw [z6, r1]
    rcases hhit with hhit | ⟨hhit, hno⟩
    · subst hhit
      unfold RemovedSession
      constructor
      · rintro (⟨a1, a2, a3, -, -⟩ | h)
        · exact ⟨a1, .inl ⟨a2, a3⟩⟩
        · simp only [meshHit, Bool.and_eq_true, beq_iff_eq, Bool.not_eq_true', List.any_eq_true, List.mem_filter] at h
          obtain ⟨⟨⟨b1, b2⟩, b3⟩, d, ⟨hd, b4, b5⟩, b6⟩ := h
          have ht : e.type = "ebgp" := hef.type ▸ b1
          have hnr : ¬ IsRs all n := by
            intro h
            rw [r2.2 ⟨ht, h, hin⟩] at b2; cases b2
          refine ⟨ht, .inr ⟨hnr, ?_, ?_⟩⟩
          · intro h
            rw [(hcl hnr ht).2 h] at b3; cases b3
          · obtain ⟨g, hg, hgd⟩ := forall₂_pick_right h2 hd
            obtain ⟨q1, q2, q3, q4, q5⟩ := hgd.rs hr hall
            have hzd : d.zapped = false := by
              cases hx : d.zapped with
              | false => rfl
              | true => exact absurd (q1.1 hx).2.1 hnr
            have hzf : f.zapped = false := by
              cases hx : f.zapped with
              | false => rfl
              | true => exact absurd (r1.1 hx).2.1 hnr
            refine ⟨g, hg, hgd.type ▸ b4, ?_, (q5 b5).1⟩
            rw [← hgd.ifindex hzd, ← hef.ifindex hzf, b6]
      · rintro ⟨ht, ⟨a1, a2⟩ | ⟨a1, a2, g, hg, a3, a4, a5⟩⟩
        · exact .inl ⟨ht, a1, a2, hin, hin2 a2⟩
        · right
          obtain ⟨d, hd, hgd⟩ := forall₂_pick_left h2 hg
          obtain ⟨q1, q2, q3, q4, q5⟩ := hgd.rs hr hall
          have hzd : d.zapped = false := by
            cases hx : d.zapped with
            | false => rfl
            | true => exact absurd (q1.1 hx).2.1 a1
          have hzf : f.zapped = false := by
            cases hx : f.zapped with
            | false => rfl
            | true => exact absurd (r1.1 hx).2.1 a1
          simp only [meshHit, Bool.and_eq_true, beq_iff_eq, Bool.not_eq_true', List.any_eq_true, List.mem_filter]
          refine ⟨⟨⟨hef.type.trans ht, ?_⟩, ?_⟩, d, ⟨hd, hgd.type.trans a3, q4 a3 a5 (hin2 a5) a1⟩, ?_⟩
          · cases hx : (f.attrs.lookup "rs").isSome with
            | false => rfl
            | true => exact absurd (r2.1 hx).2.1 a1
          · cases hx : f.rsClient with
            | false => rfl
            | true => exact absurd (r5 hx).1 a2
          · rw [hgd.ifindex hzd, hef.ifindex hzf, a4]
    · have hno' := hno hr hall
      have hnn : ∀ {x : SNode} {y : SNgb}, x ∈ t → y ∈ x.ngbs → y.type = "ebgp" → ¬ NameIsRs all t y.name := by
        rintro x y hx hy hyt ⟨w, hw, hw1, hw2⟩
        obtain ⟨q, hq, q1, -, z, hz, hzt, -⟩ := hs.both x hx y hy hyt
        cases eq_of_map_nodup hs.names hw hq (hw1.trans q1.symm)
        exact hno' w hw z hz hzt hw2
      rw [hhit]
      unfold RemovedSession
      constructor
      · rintro (⟨a1, a2, a3, -, -⟩ | h)
        · exact ⟨a1, .inl ⟨a2, a3⟩⟩
        · cases h
      · rintro ⟨ht, ⟨a1, a2⟩ | ⟨a1, a2, g, hg, a3, a4, a5⟩⟩
        · exact absurd a2 (hnn hn he ht)
        · exact absurd a5 (hnn hn hg a3)
  · intro hzz
    obtain ⟨y1, y2⟩ := z7 hzz
    rw [z4, z5]
    refine ⟨?_, ?_, ?_⟩
    · rw [← hasRs_iff, r3]
      simp [hin]
    · intro ht
      by_cases hnr : IsRs all n
      · constructor
        · exact fun h => (r5 h).1
        · intro h
          rw [r1.2 ⟨ht, hnr, h, hin, hin2 h⟩] at y1; cases y1
      · exact hcl hnr ht
    · intro h; exact ⟨(r5 h).1, hef.client h⟩

/-! ## Examples -/

/-- Session attributes in the examples -/
def exSessAttrs : List String := ["bfd", "password", "tcp_ao", "gtsm", "rs", "default_originate"]

/-- Route server `rs`, routers `r1` and `r2` on the same subnet, `r3` connected to `r2`, and `r4` in the same AS as `r2` -/
def exSessions : List SNode := [
  { name := "rs", attrs := [("rs", 1)], intfs := [⟨1, none, []⟩]
    ngbs := [{ name := "r1", type := "ebgp", ifindex := some 1 }, { name := "r2", type := "ebgp", ifindex := some 1 }] },
  { name := "r1", attrs := [("password", 5)], intfs := [⟨1, none, [("gtsm", 1)]⟩]
    ngbs := [{ name := "rs", type := "ebgp", ifindex := some 1 }, { name := "r2", type := "ebgp", ifindex := some 1 }] },
  { name := "r2", attrs := [("password", 5), ("gtsm", 2)]
    apply := some (some (.list ["password"]), some .all)
    intfs := [⟨1, none, []⟩, ⟨2, none, [("password", 7)]⟩]
    ngbs := [{ name := "rs", type := "ebgp", ifindex := some 1 },
             { name := "r1", type := "ebgp", ifindex := some 1, attrs := [("gtsm", 1)] },
             { name := "r3", type := "ebgp", ifindex := some 2 }, { name := "r4", type := "ibgp" }] },
  { name := "r3", intfs := [⟨1, none, []⟩], ngbs := [{ name := "r2", type := "ebgp", ifindex := some 1 }] },
  { name := "r4", ngbs := [{ name := "r2", type := "ibgp" }] },
  { name := "h", bgp := false }]

theorem exSessions_sane : SaneSessions exSessions := by
  refine ⟨by decide, by decide, by decide, by decide, by decide, by decide⟩

theorem exSessions_rs : NodeRsOnly exSessions := by
  unfold NodeRsOnly; decide

/-- Hypotheses of C68 and C69 are met by the example: sessions between r1 and r2 are removed, sessions with the route
server and other sessions are kept. -/
example : (bgpSession (fun _ _ => true) exSessAttrs exSessions).2 = 0 ∧
    (bgpSession (fun _ _ => true) exSessAttrs exSessions).1.map (·.ngbs) =
      [[{ name := "r1", type := "ebgp", ifindex := some 1, attrs := [("rs", 1)] },
        { name := "r2", type := "ebgp", ifindex := some 1, attrs := [("rs", 1)] }],
       [{ name := "rs", type := "ebgp", ifindex := some 1, attrs := [("password", 5), ("gtsm", 1)], rsClient := true }],
       [{ name := "rs", type := "ebgp", ifindex := some 1, attrs := [("password", 5), ("gtsm", 2)], rsClient := true },
        { name := "r3", type := "ebgp", ifindex := some 2, attrs := [("password", 7), ("gtsm", 2)] },
        { name := "r4", type := "ibgp", attrs := [("password", 5)] }],
       [{ name := "r2", type := "ebgp", ifindex := some 1 }],
       [{ name := "r2", type := "ibgp" }],
       []] := by decide +kernel

/-- Unsupported attributes, TCP-AO without passwords, BFD without the BFD module and clients that cannot use a route
server are reported. -/
example : (bgpSession (fun n a => !(n == "r2" && a == "gtsm")) exSessAttrs exSessions).2 > 0 ∧
    (bgpSession (fun n a => !(n == "r1" && a == "rs_client")) exSessAttrs exSessions).2 > 0 ∧
    (bgpSession (fun _ _ => true) exSessAttrs [
      { name := "a", attrs := [("tcp_ao", 1)], intfs := [⟨1, none, []⟩]
        ngbs := [{ name := "b", type := "ebgp", ifindex := some 1 }] }]).2 = 1 ∧
    (bgpSession (fun _ _ => true) exSessAttrs [
      { name := "a", attrs := [("bfd", 1)], intfs := [⟨1, none, []⟩]
        ngbs := [{ name := "b", type := "ebgp", ifindex := some 1 }] }]).2 = 1 := by decide +kernel

/-- The route server and its client when the `rs` attribute is set on the interface of the route server: the neighbor
entry of the client has a copy of the attribute. -/
def exIntfRs : List SNode := [
  { name := "rs", intfs := [⟨1, none, [("rs", 1)]⟩], ngbs := [{ name := "r1", type := "ebgp", ifindex := some 1 }] },
  { name := "r1", intfs := [⟨1, none, []⟩]
    ngbs := [{ name := "rs", type := "ebgp", ifindex := some 1, attrs := [("rs", 1)] }] }]

/-- Defect: with `rs` set on an interface, the session between the route server and its client is lost on both nodes
when the route server is listed before the client, and works when it is listed after the client. -/
theorem C69_interface_rs_depends_on_order :
    SaneSessions exIntfRs ∧ SaneSessions exIntfRs.reverse ∧
    (bgpSession (fun _ _ => true) exSessAttrs exIntfRs).2 = 0 ∧
    (bgpSession (fun _ _ => true) exSessAttrs exIntfRs).1.map (fun n => n.ngbs.map (·.name)) = [[], []] ∧
    (bgpSession (fun _ _ => true) exSessAttrs exIntfRs.reverse).1.map (fun n => n.ngbs.map (fun g => (g.name, g.rsClient))) =
      [[("rs", true)], [("r1", false)]] := by
  refine ⟨⟨by decide, by decide, by decide, by decide, by decide, by decide⟩,
    ⟨by decide, by decide, by decide, by decide, by decide, by decide⟩, ?_⟩
  decide +kernel

/-- Routers `a` and `b` and a route server in the AS of `b` on the same subnet -/
def exSameAs : List SNode := [
  { name := "a", intfs := [⟨1, none, []⟩]
    ngbs := [{ name := "b", type := "ebgp", ifindex := some 1 }, { name := "rs", type := "ebgp", ifindex := some 1 }] },
  { name := "b", intfs := [⟨1, none, []⟩]
    ngbs := [{ name := "a", type := "ebgp", ifindex := some 1 }, { name := "rs", type := "ibgp" }] },
  { name := "rs", attrs := [("rs", 1)], intfs := [⟨1, none, []⟩]
    ngbs := [{ name := "a", type := "ebgp", ifindex := some 1 }, { name := "b", type := "ibgp" }] }]

/-- Defect: a session is removed on one of its two nodes only when the route server is in the same AS as the other
node. -/
theorem C69_removed_on_one_side :
    SaneSessions exSameAs ∧ NodeRsOnly exSameAs ∧ (bgpSession (fun _ _ => true) exSessAttrs exSameAs).2 = 0 ∧
    (bgpSession (fun _ _ => true) exSessAttrs exSameAs).1.map (fun n => (n.name, n.ngbs.map (·.name))) =
      [("a", ["rs"]), ("b", ["a", "rs"]), ("rs", ["a", "b"])] := by
  refine ⟨⟨by decide, by decide, by decide, by decide, by decide, by decide⟩, by unfold NodeRsOnly; decide, ?_⟩
  decide +kernel

/-- A session that uses `local_as` to be an IBGP session -/
def exLocalAs : List SNode := [
  { name := "a", attrs := [("password", 5)], intfs := [⟨1, none, []⟩]
    ngbs := [{ name := "b", type := "localas_ibgp", ifindex := some 1, attrs := [("default_originate", 1)] }] },
  { name := "b", attrs := [("password", 5)], intfs := [⟨1, none, [("default_originate", 1)]⟩]
    ngbs := [{ name := "a", type := "localas_ibgp", ifindex := some 1 }] }]

/-- Defect: IBGP sessions created with `local_as` get neither IBGP nor EBGP session attributes of the node, and keep the
attributes copied from the interface of the neighbor. -/
theorem C68_local_as_sessions :
    (bgpSession (fun _ _ => true) exSessAttrs exLocalAs).2 = 0 ∧
    (bgpSession (fun _ _ => true) exSessAttrs exLocalAs).1.map (fun n => n.ngbs.map (·.attrs)) =
      [[[("default_originate", 1)]], [[]]] := by
  decide +kernel

end Netlab
