import Verif.Spec.BgpPolicy
import Verif.Props.BgpSession
import Verif.Lemmas.Box
import Verif.Props.Asn
import Verif.Props.VlanTrunk
import Std.Data.String.ToNat
import Mathlib.Data.List.Forall2
/-!
# C78: BGP policies of EBGP neighbors
-/

namespace Netlab
open Spec

/-! ## Names of route maps -/

theorem bpName_inj {v v' : Option String} {n n' : String} {k k' : Nat} {d d' : Bool}
    (h : bpName v n k d = bpName v' n' k' d') : k = k' ∧ d = d' := by
  have hd : ∀ k : Nat, '-' ∉ (toString k).toList := by
    intro k hk
    exact absurd (repr_digits k '-' hk) (by decide)
  have hform : ∀ (v : Option String) (n : String) (k : Nat) (d : Bool),
      ∃ x : List Char, (bpName v n k d).toList = (x ++ '-' :: (toString k).toList) ++ '-' :: (if d then ['i', 'n'] else ['o', 'u', 't']) := by
    intro v n k d
    refine ⟨("bp-" ++ (match v with | some v => "vrf-" ++ v ++ "-" | none => "") ++ n).toList, ?_⟩
    unfold bpName
    cases v <;> cases d <;> simp [String.toList_append]
  obtain ⟨x, hx⟩ := hform v n k d
  obtain ⟨y, hy⟩ := hform v' n' k' d'
  rw [h, hy] at hx
  have hs : ∀ d : Bool, '-' ∉ (if d then ['i', 'n'] else ['o', 'u', 't'] : List Char) := by
    intro d; cases d <;> decide
  obtain ⟨h1, h2⟩ := append_sep_inj hx (hs d') (hs d)
  obtain ⟨_, h3⟩ := append_sep_inj h1 (hd k') (hd k)
  refine ⟨(Nat.repr_inj.1 (String.toList_injective h3)).symm, ?_⟩
  cases d <;> cases d' <;> simp at h2 ⊢

/-- Names of generated route maps start with `bp-`. -/
theorem bpName_prefix (v : Option String) (n : String) (k : Nat) (d : Bool) : ['b', 'p', '-'] <+: (bpName v n k d).toList := by
  refine ⟨((match v with | some v => "vrf-" ++ v ++ "-" | none => "") ++ n ++ "-" ++ toString k ++ "-" ++ (if d then "in" else "out")).toList, ?_⟩
  unfold bpName
  cases v <;> simp [String.toList_append]

/-! ## Values of attributes -/

theorem truthy_iff (v : BpVal) : v.truthy = true ↔ Counts v := by
  cases v with
  | zero => simp [BpVal.truthy, Counts]
  | val s => simp [BpVal.truthy, Counts]
  | bidir x =>
    obtain ⟨a, b⟩ := x
    cases a <;> cases b <;> simp [BpVal.truthy, Counts]

theorem setKey_twice {β : Type} (d : List (String × β)) (k : String) (v : β) : setKey (setKey d k v) k v = setKey d k v := by
  induction d with
  | nil => simp [setKey]
  | cons x r ih =>
    obtain ⟨a, b⟩ := x
    by_cases h : (a == k) = true
    · simp only [setKey, h, if_true]
    · simp only [setKey, h, Bool.false_eq_true, if_false, ih]

theorem lookup_fixBandwidth (attrs : List (String × BpVal)) (a : String) :
    (fixBandwidth attrs).lookup a =
      if a = "bandwidth" then
        (match attrs.lookup "bandwidth" with | some (.val s) => some (.bidir { inp := some s }) | x => x)
      else attrs.lookup a := by
  unfold fixBandwidth
  split
  · rename_i s h
    rw [lookup_setKey]
    simp only [h]
  · rename_i h
    by_cases ha : a = "bandwidth"
    · subst ha
      rw [if_pos rfl]
      split
      · rename_i s h'
        exact (h s h').elim
      · rfl
    · rw [if_neg ha]

theorem lookup_copyLocpref (p : BpPar) (attrs : List (String × BpVal)) (a : String) :
    (copyLocpref p attrs).lookup a =
      if a = "locpref" ∧ p.defaultLocpref = false ∧ p.locpref.isSome ∧ ((attrs.lookup "locpref").getD .zero).truthy = false
      then p.locpref else attrs.lookup a := by
  unfold copyLocpref
  cases hd : p.defaultLocpref with
  | true => simp
  | false =>
    simp only [Bool.false_eq_true, if_false]
    cases hl : p.locpref with
    | none => simp
    | some v =>
      simp only
      cases ht : ((attrs.lookup "locpref").getD .zero).truthy with
      | true => simp
      | false => simp [lookup_setKey]

theorem bpPrep_iff (p : BpPar) (i : BpIntf) (a : String) (v : BpVal) :
    ((bpPrep p i.attrs).lookup a = some v ∧ v.truthy = true) ↔ UsedValue p i a v := by
  unfold bpPrep UsedValue
  rw [lookup_copyLocpref, truthy_iff, and_comm]
  apply and_congr_right
  intro hc
  have hne : ("locpref" : String) ≠ "bandwidth" := by decide
  by_cases ha : a = "locpref"
  · subst ha
    rw [lookup_fixBandwidth, if_neg hne]
    simp only [true_and, hne, false_and, not_false_eq_true, and_true, false_or]
    have hw : ((i.attrs.lookup "locpref").getD .zero).truthy = false ↔ ∀ w, i.attrs.lookup "locpref" = some w → ¬ Counts w := by
      cases i.attrs.lookup "locpref" with
      | none => simp [BpVal.truthy]
      | some w =>
        simp only [Option.getD_some, Option.some.injEq, forall_eq']
        rw [← truthy_iff]
        simp
    by_cases hcond : p.defaultLocpref = false ∧ p.locpref.isSome = true ∧ ((i.attrs.lookup "locpref").getD .zero).truthy = false
    · rw [if_pos hcond]
      obtain ⟨h1, _, h3⟩ := hcond
      have h3' := hw.mp h3
      constructor
      · intro h; exact .inr ⟨h1, h, h3'⟩
      · rintro (h | ⟨_, h, _⟩)
        · exact absurd hc (h3' v h)
        · exact h
    · rw [if_neg hcond]
      constructor
      · intro h; exact .inl h
      · rintro (h | ⟨h1, h2, h3⟩)
        · exact h
        · exact absurd ⟨h1, by rw [h2]; rfl, hw.mpr h3⟩ hcond
  · rw [if_neg (by simp [ha]), lookup_fixBandwidth]
    by_cases hb : a = "bandwidth"
    · subst hb
      rw [if_pos rfl]
      cases hl : i.attrs.lookup "bandwidth" with
      | none => simp [ha]
      | some w =>
        cases w with
        | zero => simp [ha]; intro h; subst h; simp
        | val s =>
          simp only [Option.some.injEq, true_and, ha, false_and, or_false]
          constructor
          · intro h; exact .inr ⟨s, rfl, h.symm⟩
          · rintro (⟨h, h2⟩ | ⟨s', h, h2⟩)
            · exact absurd ⟨s, h.symm⟩ h2
            · cases h; exact h2.symm
        | bidir x =>
          simp only [Option.some.injEq, true_and, ha, false_and, or_false]
          constructor
          · intro h; exact .inl ⟨h, by rintro ⟨s, hs⟩; rw [hs] at h; cases h⟩
          · rintro (⟨h, _⟩ | ⟨s', h, _⟩)
            · exact h
            · cases h
    · rw [if_neg hb]
      simp [ha, hb]

theorem bpPrep_idem (p : BpPar) (attrs : List (String × BpVal)) : bpPrep p (bpPrep p attrs) = bpPrep p attrs := by
  have h1 : fixBandwidth (bpPrep p attrs) = bpPrep p attrs := by
    have hl : (bpPrep p attrs).lookup "bandwidth" = (fixBandwidth attrs).lookup "bandwidth" := by
      unfold bpPrep
      rw [lookup_copyLocpref, if_neg (by simp)]
    rw [lookup_fixBandwidth, if_pos rfl] at hl
    unfold fixBandwidth at *
    cases hb : attrs.lookup "bandwidth" with
    | none => rw [hb] at hl; rw [hl]
    | some w =>
      rw [hb] at hl
      cases w with
      | zero => rw [hl]
      | val s => rw [hl]
      | bidir x => rw [hl]
  unfold bpPrep at h1 ⊢
  rw [h1]
  generalize fixBandwidth attrs = b
  unfold copyLocpref
  cases hl : (if p.defaultLocpref then none else p.locpref) with
  | none => simp only
  | some v =>
    simp only
    by_cases ht : ((b.lookup "locpref").getD .zero).truthy = true
    · rw [if_pos ht, if_pos ht]
    · rw [if_neg ht, setKey_twice, ite_self]

/-! ## Attributes of a neighbor -/

theorem InOut.get_set {β : Type} (x : InOut β) (d e : Bool) (v : β) : (x.set d v).get e = if e = d then some v else x.get e := by
  cases d <;> cases e <;> rfl

theorem appendPol_get (pol : InOut (List (String × BpVal))) (a : String) (c : BpDir) (v : BpVal) (d : Bool) :
    (appendPol pol a c v).get d =
      match dirVal c v d with
      | some w => some (setKey ((pol.get d).getD []) a w)
      | none => pol.get d := by
  unfold appendPol
  simp only [List.foldl_cons, List.foldl_nil]
  cases h1 : dirVal c v true with
  | none =>
    cases h2 : dirVal c v false with
    | none => cases d <;> simp [h1, h2]
    | some w2 => cases d <;> simp [h1, h2, InOut.get_set]
  | some w1 =>
    cases h2 : dirVal c v false with
    | none => cases d <;> simp [h1, h2, InOut.get_set]
    | some w2 => cases d <;> simp [h1, h2, InOut.get_set]

/-- The value that is applied to neighbors -/
def bpEff (attrs : List (String × BpVal)) (a : String) : Option BpVal :=
  match attrs.lookup a with
  | some v => if v.truthy then some v else none
  | none => none

/-- ... and to the route map -/
def bpMap (p : BpPar) (attrs : List (String × BpVal)) (a : String) (d : Bool) : Option BpVal :=
  match p.compound.lookup a, bpEff attrs a with
  | some c, some v => dirVal c v d
  | _, _ => none

theorem bpEff_iff (attrs : List (String × BpVal)) (a : String) (v : BpVal) :
    bpEff attrs a = some v ↔ attrs.lookup a = some v ∧ v.truthy = true := by
  unfold bpEff
  cases h : attrs.lookup a with
  | none => simp
  | some w =>
    by_cases ht : w.truthy = true
    · simp only [ht, if_true, Option.some.injEq]
      constructor
      · rintro rfl; exact ⟨rfl, ht⟩
      · rintro ⟨h, _⟩; exact h
    · simp only [ht]
      constructor
      · intro h; cases h
      · rintro ⟨h, h2⟩
        cases h
        exact absurd h2 ht

/-- Values of interface attributes in the loop, as far as there are no errors -/
theorem applyPolAttr_step (p : BpPar) (attrs : List (String × BpVal)) (st : BpApply) (a : String) :
    let r := applyPolAttr p attrs st a
    st.errors ≤ r.errors ∧
    (r.errors = st.errors ↔ ∀ v, bpEff attrs a = some v → p.supp a = true ∧ (p.compound.lookup a ≠ none → p.dirOk a v = true)) ∧
    (r.errors = st.errors →
      (∃ X, r.ngb = { st.ngb with attrs := X } ∧ ∀ b, X.lookup b = if b = a ∧ (bpEff attrs a).isSome then bpEff attrs a else st.ngb.attrs.lookup b) ∧
      (r.found = true ↔ st.found = true ∨ (bpEff attrs a).isSome = true) ∧
      ∀ d, (bpMap p attrs a d = none → r.pol.get d = st.pol.get d) ∧
        ∀ w, bpMap p attrs a d = some w → r.pol.get d = some (setKey ((st.pol.get d).getD []) a w)) := by
  intro r
  have hr : r = applyPolAttr p attrs st a := rfl
  unfold applyPolAttr at hr
  cases hl : attrs.lookup a with
  | none =>
    have he : bpEff attrs a = none := by simp [bpEff, hl]
    have hm : ∀ d, bpMap p attrs a d = none := by
      intro d
      unfold bpMap
      rw [he]
      cases p.compound.lookup a <;> rfl
    rw [hl] at hr
    simp only at hr
    rw [hr]
    refine ⟨Nat.le_refl _, ⟨fun _ v h => (by rw [he] at h; cases h), fun _ => rfl⟩, fun _ => ⟨⟨st.ngb.attrs, rfl, ?_⟩, ?_, ?_⟩⟩
    · intro b; simp [he]
    · simp [he]
    · intro d
      refine ⟨fun _ => rfl, fun w h => ?_⟩
      rw [hm d] at h; cases h
  | some v =>
    rw [hl] at hr
    simp only at hr
    by_cases ht : v.truthy = true
    · have he : bpEff attrs a = some v := by simp [bpEff, hl, ht]
      rw [if_neg (by simp [ht])] at hr
      by_cases hs : p.supp a = true
      · rw [if_neg (by simp [hs])] at hr
        have hm : ∀ d, bpMap p attrs a d = match p.compound.lookup a with | some c => dirVal c v d | none => none := by
          intro d
          unfold bpMap
          rw [he]
          cases p.compound.lookup a <;> rfl
        cases hc : p.compound.lookup a with
        | none =>
          rw [hc] at hr
          simp only [hc] at hm
          simp only at hr
          rw [hr]
          refine ⟨Nat.le_refl _, ⟨fun _ w _ => ⟨hs, fun h => absurd rfl h⟩, fun _ => rfl⟩, fun _ => ⟨⟨setKey st.ngb.attrs a v, rfl, ?_⟩, ?_, ?_⟩⟩
          · intro b; rw [lookup_setKey, he]; simp
          · simp [he]
          · intro d
            refine ⟨fun _ => rfl, fun w h => ?_⟩
            rw [hm d] at h; cases h
        | some c =>
          rw [hc] at hr
          simp only [hc] at hm
          simp only at hr
          rw [hr]
          have herr : ((st.errors + if p.dirOk a v = true then 0 else 1) = st.errors) ↔ p.dirOk a v = true := by
            cases p.dirOk a v <;> simp
          refine ⟨Nat.le_add_right _ _, ?_, fun _ => ⟨⟨setKey st.ngb.attrs a v, rfl, ?_⟩, ?_, ?_⟩⟩
          · simp only
            rw [herr]
            constructor
            · intro h w hw; rw [he] at hw; cases hw; exact ⟨hs, fun _ => h⟩
            · intro h; exact (h v he).2 (by simp)
          · intro b; rw [lookup_setKey, he]; simp
          · simp [he]
          · intro d
            rw [hm d]
            simp only [appendPol_get]
            refine ⟨fun h => by rw [h], fun w h => by rw [h]⟩
      · rw [if_pos (by simp [hs])] at hr
        rw [hr]
        refine ⟨Nat.le_succ _, ⟨fun h => ?_, fun h => absurd (h v he).1 hs⟩, fun h => ?_⟩
        · exact absurd h (Nat.succ_ne_self _)
        · exact absurd h (Nat.succ_ne_self _)
    · have he : bpEff attrs a = none := by simp [bpEff, hl, ht]
      have hm : ∀ d, bpMap p attrs a d = none := by
        intro d
        unfold bpMap
        rw [he]
        cases p.compound.lookup a <;> rfl
      rw [if_pos (by simp [ht])] at hr
      rw [hr]
      refine ⟨Nat.le_refl _, ⟨fun _ v h => (by rw [he] at h; cases h), fun _ => rfl⟩, fun _ => ⟨⟨st.ngb.attrs, rfl, ?_⟩, ?_, ?_⟩⟩
      · intro b; simp [he]
      · simp [he]
      · intro d
        refine ⟨fun _ => rfl, fun w h => ?_⟩
        rw [hm d] at h; cases h

theorem applyPolAttr_loop (p : BpPar) (attrs : List (String × BpVal)) (l : List String) (st : BpApply) :
    let r := l.foldl (applyPolAttr p attrs) st
    st.errors ≤ r.errors ∧
    (r.errors = st.errors ↔ ∀ a ∈ l, ∀ v, bpEff attrs a = some v → p.supp a = true ∧ (p.compound.lookup a ≠ none → p.dirOk a v = true)) ∧
    (r.errors = st.errors →
      (∃ X, r.ngb = { st.ngb with attrs := X } ∧
        ∀ b, X.lookup b = if b ∈ l ∧ (bpEff attrs b).isSome then bpEff attrs b else st.ngb.attrs.lookup b) ∧
      (r.found = true ↔ st.found = true ∨ ∃ a ∈ l, (bpEff attrs a).isSome = true) ∧
      ∀ d, (r.pol.get d = none ↔ st.pol.get d = none ∧ ∀ a ∈ l, bpMap p attrs a d = none) ∧
        ∀ b, ((r.pol.get d).getD []).lookup b =
          if b ∈ l ∧ (bpMap p attrs b d).isSome then bpMap p attrs b d else ((st.pol.get d).getD []).lookup b) := by
  induction l generalizing st with
  | nil =>
    intro r
    refine ⟨Nat.le_refl _, ⟨fun _ a ha => (by cases ha), fun _ => rfl⟩, fun _ => ⟨⟨st.ngb.attrs, rfl, by simp⟩, by simp [r], fun d => ⟨by simp [r], by simp [r]⟩⟩⟩
  | cons a l ih =>
    intro r
    obtain ⟨s1, s2, s3⟩ := applyPolAttr_step p attrs st a
    obtain ⟨i1, i2, i3⟩ := ih (applyPolAttr p attrs st a)
    have hr : r = l.foldl (applyPolAttr p attrs) (applyPolAttr p attrs st a) := rfl
    rw [← hr] at i1 i2 i3
    generalize applyPolAttr p attrs st a = m at *
    refine ⟨Nat.le_trans s1 i1, ?_, ?_⟩
    · constructor
      · intro h
        have e1 : m.errors = st.errors := by omega
        have e2 : r.errors = m.errors := by omega
        intro b hb
        rcases List.mem_cons.mp hb with rfl | hb
        · exact s2.mp e1
        · exact i2.mp e2 b hb
      · intro h
        rw [i2.mpr fun b hb => h b (List.mem_cons_of_mem _ hb), s2.mpr (h a (List.mem_cons_self ..))]
    · intro h
      have e1 : m.errors = st.errors := by omega
      have e2 : r.errors = m.errors := by omega
      obtain ⟨⟨X, x1, x2⟩, f1, g1⟩ := s3 e1
      obtain ⟨⟨Y, y1, y2⟩, f2, g2⟩ := i3 e2
      refine ⟨⟨Y, by rw [y1, x1], ?_⟩, ?_, ?_⟩
      · intro b
        rw [y2, x1]
        simp only [x2]
        by_cases hb : b ∈ l
        · by_cases he : (bpEff attrs b).isSome = true
          · simp [hb, he]
          · by_cases hab : b = a
            · subst hab; simp [he]
            · simp [he, hab]
        · by_cases hab : b = a
          · subst hab; simp [hb]
          · simp [hb, hab]
      · rw [f2, f1, or_assoc]
        simp
      · intro d
        obtain ⟨k1, k2⟩ := g1 d
        obtain ⟨l1, l2⟩ := g2 d
        cases hm : bpMap p attrs a d with
        | none =>
          have hk := k1 hm
          rw [hk] at l1 l2
          refine ⟨by rw [l1]; simp [hm], fun b => ?_⟩
          rw [l2]
          by_cases hab : b = a
          · subst hab; simp [hm]
          · simp [hab]
        | some w =>
          have hk := k2 w hm
          rw [hk] at l1 l2
          refine ⟨?_, fun b => ?_⟩
          · rw [l1]; simp [hm]
          · rw [l2]
            simp only [Option.getD_some, lookup_setKey]
            by_cases hb : b ∈ l
            · by_cases he : (bpMap p attrs b d).isSome = true
              · simp [hb, he]
              · by_cases hab : b = a
                · subst hab; rw [hm] at he; simp at he
                · simp [he, hab]
            · by_cases hab : b = a
              · subst hab; simp [hb, hm]
              · simp [hb, hab]

/-! ## Routing policies -/

theorem routingPol_spec (p : BpPar) (routing : Bool) (pol : InOut String) (g : BpNgb) :
    let r := routingPol p routing pol g
    (r.2.2 = 0 → (∃ P, r.1 = { g with policy := P } ∧ ∀ d, P.get d = (pol.get d).or (g.policy.get d)) ∧
      ∀ d n, pol.get d = some n → p.polOk n = true) ∧
    (routing = true → (∀ d n, pol.get d = some n → p.polOk n = true) → r.2.2 = 0) := by
  intro r
  have hr : r = routingPol p routing pol g := rfl
  obtain ⟨a, b⟩ := pol
  unfold routingPol at hr
  simp only [List.foldl_cons, List.foldl_nil, routingPolDir, InOut.get] at hr
  cases a with
  | none =>
    cases b with
    | none =>
      simp only [Option.isNone_none, Bool.and_self, if_true] at hr
      rw [hr]
      refine ⟨fun _ => ⟨⟨g.policy, rfl, fun d => by cases d <;> rfl⟩, fun d n h => by cases d <;> cases h⟩, fun _ _ => rfl⟩
    | some y =>
      simp only [Option.isNone_none, Option.isNone_some, Bool.and_false, Bool.false_eq_true, if_false] at hr
      cases routing with
      | false =>
        simp only [Bool.not_false, if_true] at hr
        rw [hr]
        exact ⟨fun h => absurd h (by simp), fun h => nomatch h⟩
      | true =>
        simp only [Bool.not_true, Bool.false_eq_true, if_false] at hr
        by_cases hy : p.polOk y = true
        · rw [if_pos hy] at hr
          rw [hr]
          refine ⟨fun _ => ⟨⟨_, rfl, fun d => by cases d <;> rfl⟩, fun d n h => ?_⟩, fun _ _ => rfl⟩
          cases d with
          | true => cases h
          | false => cases h; exact hy
        · rw [if_neg hy] at hr
          rw [hr]
          exact ⟨fun h => absurd h (by simp), fun _ h => absurd (h false y rfl) hy⟩
  | some x =>
    simp only [Option.isNone_some, Bool.false_and, Bool.false_eq_true, if_false] at hr
    cases routing with
    | false =>
      simp only [Bool.not_false, if_true] at hr
      rw [hr]
      exact ⟨fun h => absurd h (by simp), fun h => nomatch h⟩
    | true =>
      simp only [Bool.not_true, Bool.false_eq_true, if_false] at hr
      cases b with
      | none =>
        simp only at hr
        by_cases hx : p.polOk x = true
        · rw [if_pos hx] at hr
          rw [hr]
          refine ⟨fun _ => ⟨⟨_, rfl, fun d => by cases d <;> rfl⟩, fun d n h => ?_⟩, fun _ _ => rfl⟩
          cases d with
          | false => cases h
          | true => cases h; exact hx
        · rw [if_neg hx] at hr
          rw [hr]
          exact ⟨fun h => absurd h (by simp), fun _ h => absurd (h true x rfl) hx⟩
      | some y =>
        simp only at hr
        by_cases hx : p.polOk x = true
        · rw [if_pos hx] at hr
          by_cases hy : p.polOk y = true
          · rw [if_pos hy] at hr
            rw [hr]
            refine ⟨fun _ => ⟨⟨_, rfl, fun d => by cases d <;> rfl⟩, fun d n h => ?_⟩, fun _ _ => rfl⟩
            cases d with
            | false => cases h; exact hy
            | true => cases h; exact hx
          · rw [if_neg hy] at hr
            rw [hr]
            exact ⟨fun h => absurd h (by simp), fun _ h => absurd (h false y rfl) hy⟩
        · rw [if_neg hx] at hr
          refine ⟨fun h => ?_, fun _ h => absurd (h true x rfl) hx⟩
          rw [hr] at h
          by_cases hy : p.polOk y = true
          · rw [if_pos hy] at h; simp at h
          · rw [if_neg hy] at h; simp at h

theorem createPolDir_spec (vrf : Option String) (idx : Nat) (pol : InOut (List (String × BpVal))) (r : BpNgb × BpState) (d : Bool) :
    let x := createPolDir vrf idx pol r d
    r.2.errors ≤ x.2.errors ∧ x.2.idx = r.2.idx ∧ x.2.config = r.2.config ∧ (r.2.routing = true → x.2.routing = true) ∧
    (x.2.errors = r.2.errors ↔ (pol.get d ≠ none → r.1.policy.get d = none)) ∧
    (∀ y, y ≠ bpName vrf r.1.name idx d → x.2.pols.lookup y = r.2.pols.lookup y) ∧
    ∃ P, x.1 = { r.1 with policy := P } ∧ (∀ e, e ≠ d → P.get e = r.1.policy.get e) ∧
      (pol.get d = none → P.get d = r.1.policy.get d) ∧
      (x.2.errors = r.2.errors → ∀ s, pol.get d = some s →
        P.get d = some (bpName vrf r.1.name idx d) ∧ x.2.pols.lookup (bpName vrf r.1.name idx d) = some s) := by
  intro x
  have hx : x = createPolDir vrf idx pol r d := rfl
  unfold createPolDir at hx
  cases hp : pol.get d with
  | none =>
    rw [hp] at hx
    simp only at hx
    rw [hx]
    exact ⟨Nat.le_refl _, rfl, rfl, fun h => h, ⟨fun _ h => absurd rfl h, fun _ => rfl⟩, fun _ _ => rfl, r.1.policy, rfl, fun _ _ => rfl, fun _ => rfl, fun _ s h => nomatch h⟩
  | some s =>
    rw [hp] at hx
    simp only at hx
    cases hc : r.1.policy.get d with
    | some n =>
      rw [if_pos (by rw [hc]; rfl)] at hx
      rw [hx]
      refine ⟨Nat.le_succ _, rfl, rfl, fun h => h, ⟨fun h => absurd h (Nat.succ_ne_self _), fun h => ?_⟩, fun _ _ => rfl, r.1.policy, rfl, fun _ _ => rfl, fun h => (nomatch h), fun h => absurd h (Nat.succ_ne_self _)⟩
      have := h (by simp)
      cases this
    | none =>
      rw [if_neg (by rw [hc]; simp)] at hx
      rw [hx]
      refine ⟨Nat.le_refl _, rfl, rfl, fun h => rfl, ⟨fun _ _ => rfl, fun _ => rfl⟩, fun y hy => ?_, _, rfl, fun e he => ?_, fun h => (nomatch h), fun _ s' hs' => ?_⟩
      · simp only [lookup_setKey]
        rw [if_neg hy]
      · rw [InOut.get_set, if_neg he]
      · cases hs'
        rw [InOut.get_set, if_pos rfl]
        exact ⟨rfl, by simp only [lookup_setKey, if_true]⟩

theorem createPol_spec (vrf : Option String) (idx : Nat) (pol : InOut (List (String × BpVal))) (g : BpNgb) (st : BpState) :
    let x := createPol vrf idx pol g st
    st.errors ≤ x.2.errors ∧ x.2.idx = st.idx ∧ x.2.config = st.config ∧ (st.routing = true → x.2.routing = true) ∧
    (x.2.errors = st.errors ↔ ∀ d, pol.get d ≠ none → g.policy.get d = none) ∧
    (∀ y, (∀ d, y ≠ bpName vrf g.name idx d) → x.2.pols.lookup y = st.pols.lookup y) ∧
    ∃ P, x.1 = { g with policy := P } ∧
      (∀ d, pol.get d = none → P.get d = g.policy.get d) ∧
      (x.2.errors = st.errors → ∀ d s, pol.get d = some s →
        P.get d = some (bpName vrf g.name idx d) ∧ x.2.pols.lookup (bpName vrf g.name idx d) = some s) := by
  intro x
  have hx : x = createPolDir vrf idx pol (createPolDir vrf idx pol (g, st) true) false := rfl
  obtain ⟨a1, a2, a3, a4, a5, a6, P, a7, a8, a9, a10⟩ := createPolDir_spec vrf idx pol (g, st) true
  obtain ⟨b1, b2, b3, b4, b5, b6, Q, b7, b8, b9, b10⟩ := createPolDir_spec vrf idx pol (createPolDir vrf idx pol (g, st) true) false
  rw [← hx] at b1 b2 b3 b4 b5 b6 b7 b10
  generalize createPolDir vrf idx pol (g, st) true = m at *
  simp only at a1 a2 a3 a4 a5 a6 a7 a8 a9 a10
  have hmn : m.1.name = g.name := by rw [a7]
  have hmp : m.1.policy = P := by rw [a7]
  rw [hmn] at b10
  rw [hmn] at b6
  rw [hmp] at b5 b8 b9
  refine ⟨Nat.le_trans a1 b1, by rw [b2, a2], by rw [b3, a3], fun h => b4 (a4 h), ?_, ?_, Q, by rw [b7, a7], ?_, ?_⟩
  · constructor
    · intro h d hd
      have e1 : m.2.errors = st.errors := by omega
      have e2 : x.2.errors = m.2.errors := by omega
      cases d with
      | true => exact a5.mp e1 hd
      | false =>
        have := b5.mp e2 hd
        rw [a8 false (by decide)] at this
        exact this
    · intro h
      have e1 : m.2.errors = st.errors := a5.mpr (h true)
      have e2 : x.2.errors = m.2.errors := b5.mpr fun hd => by rw [a8 false (by decide)]; exact h false hd
      rw [e2, e1]
  · intro y hy
    rw [b6 y (hy false), a6 y (hy true)]
  · intro d hd
    cases d with
    | true => rw [b8 true (by decide), a9 hd]
    | false => rw [b9 hd, a8 false (by decide)]
  · intro h d s hs
    have e1 : m.2.errors = st.errors := by omega
    have e2 : x.2.errors = m.2.errors := by omega
    cases d with
    | true =>
      obtain ⟨c1, c2⟩ := a10 e1 s hs
      refine ⟨by rw [b8 true (by decide), c1], ?_⟩
      rw [b6 _ ?_, c2]
      intro hh
      have := (bpName_inj hh).2
      cases this
    | false => exact b10 e2 s hs

/-! ## One neighbor -/

theorem attrList_iff (p : BpPar) (a : String) : a ∈ p.attrList ↔ PolicyAttr p a := by
  unfold BpPar.attrList PolicyAttr
  simp only [List.mem_append, List.mem_map]
  constructor
  · rintro (h | ⟨x, hx, rfl⟩)
    · exact Or.inl h
    · exact Or.inr ⟨x.2, hx⟩
  · rintro (h | ⟨c, hc⟩)
    · exact Or.inl h
    · exact Or.inr ⟨(a, c), hc, rfl⟩

theorem bpMap_iff (p : BpPar) (i : BpIntf) (a : String) (d : Bool) (w : BpVal) :
    bpMap p (bpPrep p i.attrs) a d = some w ↔ RouteMapValue p i d a w := by
  unfold bpMap RouteMapValue
  cases hc : p.compound.lookup a with
  | none => simp
  | some c =>
    cases hv : bpEff (bpPrep p i.attrs) a with
    | none =>
      simp only [Option.some.injEq]
      constructor
      · intro h; cases h
      · rintro ⟨c', v, _, hu, _⟩
        have := (bpEff_iff _ _ _).mpr ((bpPrep_iff p i a v).mpr hu)
        rw [hv] at this; cases this
    | some v =>
      have hu : UsedValue p i a v := (bpPrep_iff p i a v).mp ((bpEff_iff _ _ _).mp hv)
      have huni : ∀ v', UsedValue p i a v' → v' = v := by
        intro v' h
        have := (bpEff_iff _ _ _).mpr ((bpPrep_iff p i a v').mpr h)
        rw [hv] at this; cases this; rfl
      simp only [Option.some.injEq]
      constructor
      · intro h
        refine ⟨c, v, rfl, hu, ?_⟩
        cases c with
        | one e =>
          simp only [dirVal] at h
          by_cases hd : d = e
          · rw [if_pos hd] at h; cases h; subst hd; exact Or.inl ⟨rfl, rfl⟩
          · rw [if_neg hd] at h; cases h
        | both =>
          cases v with
          | zero => cases h
          | val s => cases h
          | bidir x =>
            simp only [dirVal, Option.map_eq_some_iff] at h
            obtain ⟨s, h1, h2⟩ := h
            exact Or.inr ⟨rfl, x, s, rfl, h1, h2.symm⟩
      · rintro ⟨c', v', rfl, hu', h⟩
        cases huni v' hu'
        rcases h with ⟨rfl, rfl⟩ | ⟨rfl, x, s, rfl, h1, rfl⟩
        · simp [dirVal]
        · simp [dirVal, h1]

/-- A neighbor without policy attributes -/
def CleanNgb (p : BpPar) (g : BpNgb) : Prop := g.policy = {} ∧ ∀ a, PolicyAttr p a → g.attrs.lookup a = none

theorem bpNgb_spec (p : BpPar) (i : BpIntf) (st : BpState) (g : BpNgb) (hg : CleanNgb p g) :
    let x := bpNgb p i (bpPrep p i.attrs) st g
    st.errors ≤ x.2.errors ∧ x.2.idx = st.idx + 1 ∧ (st.routing = true → x.2.routing = true) ∧
    (∀ y, (∀ v n d, y ≠ bpName v n (st.idx + 1) d) → x.2.pols.lookup y = st.pols.lookup y) ∧
    (x.2.errors = st.errors → PolicySupported p i ∧
      ∀ pols, (∀ v n d, pols.lookup (bpName v n (st.idx + 1) d) = x.2.pols.lookup (bpName v n (st.idx + 1) d)) →
        PolicyOf p i g x.1 pols) ∧
    (st.routing = true → PolicySupported p i → x.2.errors = st.errors) := by
  intro x
  have hx : x = bpNgb p i (bpPrep p i.attrs) st g := rfl
  unfold bpNgb at hx
  simp only at hx
  obtain ⟨r1, r2⟩ := routingPol_spec p st.routing i.policy g
  generalize hR : routingPol p st.routing i.policy g = R at r1 r2 hx
  have hloop := applyPolAttr_loop p (bpPrep p i.attrs) p.attrList { ngb := R.1 }
  have hA0 : applyPolAttrs p (bpPrep p i.attrs) R.1 = p.attrList.foldl (applyPolAttr p (bpPrep p i.attrs)) { ngb := R.1 } := rfl
  rw [← hA0] at hloop
  obtain ⟨_, l1, l2⟩ := hloop
  generalize applyPolAttrs p (bpPrep p i.attrs) R.1 = A at l1 l2 hx
  simp only at l1 l2
  have heff : ∀ a v, bpEff (bpPrep p i.attrs) a = some v ↔ UsedValue p i a v := fun a v => by
    rw [bpEff_iff, bpPrep_iff]
  have hsup : A.errors = 0 ↔ ∀ a v, PolicyAttr p a → UsedValue p i a v →
      p.supp a = true ∧ (p.compound.lookup a ≠ none → p.dirOk a v = true) := by
    rw [l1]
    constructor
    · intro h a v ha hv
      exact h a ((attrList_iff p a).mpr ha) v ((heff a v).mpr hv)
    · intro h a ha v hv
      exact h a v ((attrList_iff p a).mp ha) ((heff a v).mp hv)
  have hmapmem : ∀ a d w, bpMap p (bpPrep p i.attrs) a d = some w → a ∈ p.attrList ∧ (bpEff (bpPrep p i.attrs) a).isSome = true := by
    intro a d w h
    obtain ⟨c, v, hc, hv, _⟩ := (bpMap_iff p i a d w).mp h
    refine ⟨?_, ?_⟩
    · rw [attrList_iff]; exact Or.inr ⟨c, mem_of_lookup hc⟩
    · rw [(heff a v).mpr hv]; rfl
  -- the policies after both steps
  have hfin : R.2.2 = 0 → A.errors = 0 →
      (∃ X P, A.ngb = { g with attrs := X, policy := P } ∧ (∀ d, P.get d = i.policy.get d) ∧
        (∀ a, PolicyAttr p a → ∀ v, X.lookup a = some v ↔ UsedValue p i a v) ∧
        (∀ a, ¬ PolicyAttr p a → X.lookup a = g.attrs.lookup a)) ∧
      (A.found = true ↔ ∃ a v, PolicyAttr p a ∧ UsedValue p i a v) ∧
      ∀ d, (A.pol.get d = none ↔ ¬ ∃ a w, RouteMapValue p i d a w) ∧
        ∀ s, A.pol.get d = some s → ∀ a w, s.lookup a = some w ↔ RouteMapValue p i d a w := by
    intro hR0 hA0
    obtain ⟨⟨P, hP1, hP2⟩, _⟩ := r1 hR0
    obtain ⟨⟨X, hX1, hX2⟩, hf, hd⟩ := l2 hA0
    refine ⟨⟨X, P, by rw [hX1, hP1], fun d => ?_, fun a ha v => ?_, fun a ha => ?_⟩, ?_, fun d => ⟨?_, fun s hs a w => ?_⟩⟩
    · rw [hP2 d, hg.1]
      cases d <;> simp [InOut.get]
    · rw [hX2 a, ← heff]
      have hga : R.1.attrs.lookup a = none := by rw [hP1]; exact hg.2 a ha
      cases hb : bpEff (bpPrep p i.attrs) a with
      | none => simp [hga]
      | some u => simp [(attrList_iff p a).mpr ha]
    · rw [hX2 a, if_neg (fun h => ha ((attrList_iff p a).mp h.1)), hP1]
    · rw [hf]
      constructor
      · rintro (h | ⟨a, ha, h⟩)
        · cases h
        · obtain ⟨v, hv⟩ := Option.isSome_iff_exists.mp h
          exact ⟨a, v, (attrList_iff p a).mp ha, (heff a v).mp hv⟩
      · rintro ⟨a, v, ha, hv⟩
        exact Or.inr ⟨a, (attrList_iff p a).mpr ha, by rw [(heff a v).mpr hv]; rfl⟩
    · rw [(hd d).1]
      constructor
      · rintro ⟨_, h⟩ ⟨a, w, hw⟩
        have hb := (bpMap_iff p i a d w).mpr hw
        rw [h a (hmapmem a d w hb).1] at hb
        cases hb
      · intro h
        refine ⟨by cases d <;> rfl, fun a _ => ?_⟩
        cases hb : bpMap p (bpPrep p i.attrs) a d with
        | none => rfl
        | some w => exact absurd ⟨a, w, (bpMap_iff p i a d w).mp hb⟩ h
    · have := (hd d).2 a
      rw [hs] at this
      simp only [Option.getD_some] at this
      rw [this, ← bpMap_iff]
      cases hb : bpMap p (bpPrep p i.attrs) a d with
      | none => cases d <;> simp [InOut.get]
      | some u => simp [(hmapmem a d u hb).1]
  by_cases hfd : A.found = true
  · rw [if_pos hfd] at hx
    obtain ⟨c1, c2, c3, c4, c5, c6, Q, c7, c8, c9⟩ := createPol_spec i.vrf (st.idx + 1) A.pol A.ngb
      { st with idx := st.idx + 1, config := st.config || R.2.1 || A.found, errors := st.errors + R.2.2 + A.errors }
    rw [← hx] at c1 c2 c3 c4 c5 c6 c7 c9
    simp only at c1 c2 c3 c4 c5 c6 c9
    refine ⟨by omega, c2, c4, fun y hy => c6 y (fun d => hy _ _ d), fun he => ?_, fun hrt hs => ?_⟩
    · have hR0 : R.2.2 = 0 := by omega
      have hA0 : A.errors = 0 := by omega
      have hC0 : x.2.errors = st.errors + R.2.2 + A.errors := by omega
      obtain ⟨⟨X, P, hX, hP, hX1, hX2⟩, _, hpol⟩ := hfin hR0 hA0
      have hconf := c5.mp hC0
      have hAp : A.ngb.policy = P := by rw [hX]
      rw [hAp] at hconf c8
      refine ⟨⟨fun a v ha hv => hsup.mp hA0 a v ha hv, fun d n hn => ⟨(r1 hR0).2 d n hn, fun hw => ?_⟩⟩, fun pols hag => ?_⟩
      · have : A.pol.get d ≠ none := fun h => ((hpol d).1.mp h) hw
        have := hconf d this
        rw [hP d, hn] at this
        cases this
      · unfold PolicyOf
        rw [c7, hX]
        refine ⟨rfl, rfl, rfl, rfl, hX1, hX2, fun d => ⟨fun n hn => ?_, fun hw => ?_, fun hn hw => ?_⟩⟩
        · have hnone : A.pol.get d = none := by
            cases hz : A.pol.get d with
            | none => rfl
            | some z =>
              have := hconf d (by rw [hz]; simp)
              rw [hP d, hn] at this
              cases this
          simp only
          rw [c8 d hnone, hP d, hn]
        · have hne : A.pol.get d ≠ none := fun h => ((hpol d).1.mp h) hw
          obtain ⟨s, hs⟩ : ∃ s, A.pol.get d = some s := Option.ne_none_iff_exists'.mp hne
          obtain ⟨e1, e2⟩ := c9 hC0 d s hs
          refine ⟨?_, _, s, e1, ?_, (hpol d).2 s hs⟩
          · rw [← hP d]; exact hconf d hne
          · rw [hag, e2]
        · simp only
          rw [c8 d ((hpol d).1.mpr hw), hP d, hn]
    · have hR0 : R.2.2 = 0 := r2 hrt (fun d n h => (hs.2 d n h).1)
      have hA0 : A.errors = 0 := hsup.mpr hs.1
      obtain ⟨⟨X, P, hX, hP, _⟩, _, hpol⟩ := hfin hR0 hA0
      have : x.2.errors = st.errors + R.2.2 + A.errors := c5.mpr fun d hd => by
        rw [hX]
        simp only
        rw [hP d]
        cases hz : i.policy.get d with
        | none => rfl
        | some n => exact absurd ((hpol d).1.mpr (hs.2 d n hz).2) hd
      omega
  · rw [if_neg hfd] at hx
    rw [hx]
    simp only
    refine ⟨by omega, trivial, fun h => h, fun y hy => trivial, fun he => ?_, fun hrt hs => ?_⟩
    · have hR0 : R.2.2 = 0 := by omega
      have hA0 : A.errors = 0 := by omega
      obtain ⟨⟨X, P, hX, hP, hX1, hX2⟩, hf, hpol⟩ := hfin hR0 hA0
      have hno : ∀ d, ¬ ∃ a w, RouteMapValue p i d a w := by
        rintro d ⟨a, w, c, v, hc, hv, _⟩
        exact hfd (hf.mpr ⟨a, v, Or.inr ⟨c, mem_of_lookup hc⟩, hv⟩)
      refine ⟨⟨fun a v ha hv => hsup.mp hA0 a v ha hv, fun d n hn => ⟨(r1 hR0).2 d n hn, hno d⟩⟩, fun pols _ => ?_⟩
      unfold PolicyOf
      rw [hX]
      exact ⟨rfl, rfl, rfl, rfl, hX1, hX2, fun d => ⟨fun n hn => by simp only; rw [hP d, hn], fun hw => absurd hw (hno d), fun hn _ => by simp only; rw [hP d, hn]⟩⟩
    · have hR0 : R.2.2 = 0 := r2 hrt (fun d n h => (hs.2 d n h).1)
      have hA0 : A.errors = 0 := hsup.mpr hs.1
      omega

/-! ## All neighbors -/

theorem bpMatch_iff (i : BpIntf) (g : BpNgb) : bpMatch i g = true ↔ OnInterface i g := by
  simp [bpMatch, OnInterface, and_assoc]

/-- Two lists of route maps have the same generated route maps with small numbers -/
def AgreeUpTo (n : Nat) (pols pols' : List (String × List (String × BpVal))) : Prop :=
  ∀ v x k d, k ≤ n → pols.lookup (bpName v x k d) = pols'.lookup (bpName v x k d)

/-- ... the same route maps, apart from generated route maps with large numbers -/
def AgreeOther (n : Nat) (pols pols' : List (String × List (String × BpVal))) : Prop :=
  ∀ y, (∀ v x k d, n < k → y ≠ bpName v x k d) → pols.lookup y = pols'.lookup y

theorem agreeUpTo_of_other {n : Nat} {pols pols' : List (String × List (String × BpVal))} (h : AgreeOther n pols pols') :
    AgreeUpTo n pols pols' := by
  intro v x k d hk
  refine h _ fun v' x' k' d' hk' he => ?_
  have := (bpName_inj he).1
  omega

theorem AgreeOther.trans {n m : Nat} {a b c : List (String × List (String × BpVal))} (hm : n ≤ m) (h1 : AgreeOther n b a)
    (h2 : AgreeOther m c b) : AgreeOther n c a := by
  intro y hy
  rw [h2 y (fun v x k d hk => hy v x k d (by omega)), h1 y hy]

theorem bpNgbs_spec (p : BpPar) (i : BpIntf) (gs : List BpNgb) (attrs : List (String × BpVal)) (st : BpState)
    (ha : bpPrep p attrs = bpPrep p i.attrs) (hg : ∀ g ∈ gs, OnInterface i g → CleanNgb p g) :
    let r := bpNgbs p i attrs st gs
    st.errors ≤ r.2.errors ∧ st.idx ≤ r.2.idx ∧ (st.routing = true → r.2.routing = true) ∧
    AgreeOther st.idx r.2.pols st.pols ∧
    (r.2.errors = st.errors → List.Forall₂ (fun g g' => (¬ OnInterface i g → g' = g) ∧
      (OnInterface i g → PolicySupported p i ∧ ∀ pols, AgreeUpTo r.2.idx pols r.2.pols → PolicyOf p i g g' pols)) gs r.1) ∧
    (st.routing = true → (∀ g ∈ gs, OnInterface i g → PolicySupported p i) → r.2.errors = st.errors) := by
  induction gs generalizing attrs st with
  | nil =>
    exact ⟨Nat.le_refl _, Nat.le_refl _, fun h => h, fun _ _ => rfl, fun _ => .nil, fun _ _ => rfl⟩
  | cons g r ih =>
    intro R
    have hR : R = bpNgbs p i attrs st (g :: r) := rfl
    unfold bpNgbs at hR
    by_cases hm : OnInterface i g
    · rw [if_pos ((bpMatch_iff i g).mpr hm)] at hR
      simp only [ha] at hR
      obtain ⟨a1, a2, a3, a4, a5, a6⟩ := bpNgb_spec p i st g (hg g (by simp) hm)
      generalize bpNgb p i (bpPrep p i.attrs) st g = x at *
      obtain ⟨b1, b2, b3, b4, b5, b6⟩ := ih (bpPrep p i.attrs) x.2 (bpPrep_idem p i.attrs) (fun g hg' => hg g (by simp [hg']))
      generalize bpNgbs p i (bpPrep p i.attrs) x.2 r = y at *
      have h4 : AgreeOther st.idx x.2.pols st.pols := fun z hz => a4 z (fun v n d => hz v n _ d (by omega))
      rw [hR]
      simp only
      refine ⟨by omega, by omega, fun h => b3 (a3 h), AgreeOther.trans (by omega) h4 b4, fun he => ?_, fun hrt hs => ?_⟩
      · obtain ⟨hs, hpo⟩ := a5 (by omega)
        refine .cons ⟨fun h => absurd hm h, fun _ => ⟨hs, fun pols hag => hpo pols fun v n d => ?_⟩⟩ (b5 (by omega))
        rw [hag v n _ d (by omega), agreeUpTo_of_other b4 v n _ d (by omega)]
      · have e1 := a6 hrt (hs g (by simp) hm)
        have e2 := b6 (a3 hrt) (fun g hg' => hs g (by simp [hg']))
        omega
    · rw [if_neg (fun h => hm ((bpMatch_iff i g).mp h))] at hR
      simp only at hR
      obtain ⟨b1, b2, b3, b4, b5, b6⟩ := ih attrs st ha (fun g hg' => hg g (by simp [hg']))
      generalize bpNgbs p i attrs st r = y at *
      rw [hR]
      simp only
      exact ⟨b1, b2, b3, b4, fun he => .cons ⟨fun _ => rfl, fun h => absurd h hm⟩ (b5 he), fun hrt hs => b6 hrt (fun g hg' => hs g (by simp [hg']))⟩

theorem routingPol_ifindex (p : BpPar) (routing : Bool) (pol : InOut String) (g : BpNgb) :
    (routingPol p routing pol g).1.ifindex = g.ifindex := by
  have hd : ∀ (r : BpNgb × Bool × Nat) d, (routingPolDir p pol r d).1.ifindex = r.1.ifindex := by
    intro r d
    unfold routingPolDir
    cases pol.get d with
    | none => rfl
    | some n =>
      simp only
      by_cases h : p.polOk n = true
      · rw [if_pos h]
      · rw [if_neg h]
  unfold routingPol
  by_cases h1 : (pol.inp.isNone && pol.out.isNone) = true
  · rw [if_pos h1]
  · rw [if_neg h1]
    by_cases h2 : (!routing) = true
    · rw [if_pos h2]
    · rw [if_neg h2]
      simp only [List.foldl_cons, List.foldl_nil, hd]

theorem applyPolAttrs_ifindex (p : BpPar) (attrs : List (String × BpVal)) (g : BpNgb) :
    (applyPolAttrs p attrs g).ngb.ifindex = g.ifindex := by
  have hs : ∀ (st : BpApply) a, (applyPolAttr p attrs st a).ngb.ifindex = st.ngb.ifindex := by
    intro st a
    unfold applyPolAttr
    cases attrs.lookup a with
    | none => rfl
    | some v =>
      simp only
      by_cases h1 : (!v.truthy) = true
      · rw [if_pos h1]
      · rw [if_neg h1]
        by_cases h2 : (!p.supp a) = true
        · rw [if_pos h2]
        · rw [if_neg h2]
          cases p.compound.lookup a <;> rfl
  have hl : ∀ (l : List String) (st : BpApply), (l.foldl (applyPolAttr p attrs) st).ngb.ifindex = st.ngb.ifindex := by
    intro l
    induction l with
    | nil => intro st; rfl
    | cons a r ih => intro st; rw [List.foldl_cons, ih, hs]
  exact hl _ _

theorem bpNgb_ifindex (p : BpPar) (i : BpIntf) (attrs : List (String × BpVal)) (st : BpState) (g : BpNgb) :
    (bpNgb p i attrs st g).1.ifindex = g.ifindex := by
  unfold bpNgb
  simp only
  by_cases hf : (applyPolAttrs p attrs (routingPol p st.routing i.policy g).1).found = true
  · rw [if_pos hf]
    obtain ⟨-, -, -, -, -, -, Q, c7, -⟩ := createPol_spec i.vrf (st.idx + 1)
      (applyPolAttrs p attrs (routingPol p st.routing i.policy g).1).pol
      (applyPolAttrs p attrs (routingPol p st.routing i.policy g).1).ngb
      { st with idx := st.idx + 1, config := st.config || (routingPol p st.routing i.policy g).2.1 || (applyPolAttrs p attrs (routingPol p st.routing i.policy g).1).found, errors := st.errors + (routingPol p st.routing i.policy g).2.2 + (applyPolAttrs p attrs (routingPol p st.routing i.policy g).1).errors }
    rw [c7]
    simp only
    rw [applyPolAttrs_ifindex, routingPol_ifindex]
  · rw [if_neg hf]
    rw [applyPolAttrs_ifindex, routingPol_ifindex]

theorem bpNgbs_shape (p : BpPar) (i : BpIntf) (gs : List BpNgb) (attrs : List (String × BpVal)) (st : BpState) :
    List.Forall₂ (fun g g' => g' = g ∨ (OnInterface i g ∧ g'.ifindex = g.ifindex)) gs (bpNgbs p i attrs st gs).1 := by
  induction gs generalizing attrs st with
  | nil => exact .nil
  | cons g r ih =>
    unfold bpNgbs
    by_cases hm : OnInterface i g
    · rw [if_pos ((bpMatch_iff i g).mpr hm)]
      exact .cons (Or.inr ⟨hm, bpNgb_ifindex _ _ _ _ _⟩) (ih _ _)
    · rw [if_neg (fun h => hm ((bpMatch_iff i g).mp h))]
      exact .cons (Or.inl rfl) (ih _ _)

theorem bp_mem_right {α β : Type} {R : α → β → Prop} {l : List α} {m : List β} (h : List.Forall₂ R l m) {b : β} (hb : b ∈ m) :
    ∃ a ∈ l, R a b := by
  induction h with
  | nil => cases hb
  | cons hr _ ih =>
    rcases List.mem_cons.mp hb with rfl | hb
    · exact ⟨_, List.mem_cons_self, hr⟩
    · obtain ⟨a, ha, h⟩ := ih hb
      exact ⟨a, List.mem_cons_of_mem _ ha, h⟩

theorem forall₂_both {α β : Type} {R S : α → β → Prop} {l : List α} {m : List β} (h : List.Forall₂ R l m) (k : List.Forall₂ S l m) :
    List.Forall₂ (fun a b => R a b ∧ S a b) l m := by
  induction h with
  | nil => exact .nil
  | cons hr _ ih =>
    cases k with
    | cons hs hk => exact .cons ⟨hr, hs⟩ (ih hk)

theorem bpIntfs_spec (p : BpPar) (intfs : List BpIntf) (gs : List BpNgb) (st : BpState)
    (hn : (intfs.map (·.ifindex)).Nodup) (hg : ∀ i ∈ intfs, ∀ g ∈ gs, OnInterface i g → CleanNgb p g) :
    let r := bpIntfs p intfs st gs
    st.errors ≤ r.2.errors ∧ st.idx ≤ r.2.idx ∧ (st.routing = true → r.2.routing = true) ∧
    AgreeOther st.idx r.2.pols st.pols ∧
    (r.2.errors = st.errors → List.Forall₂ (fun g g' => ((∀ i ∈ intfs, ¬ OnInterface i g) → g' = g) ∧
      ∀ i ∈ intfs, OnInterface i g → PolicySupported p i ∧ ∀ pols, AgreeUpTo r.2.idx pols r.2.pols → PolicyOf p i g g' pols) gs r.1) ∧
    (st.routing = true → (∀ i ∈ intfs, ∀ g ∈ gs, OnInterface i g → PolicySupported p i) → r.2.errors = st.errors) := by
  induction intfs generalizing gs st with
  | nil =>
    refine ⟨Nat.le_refl _, Nat.le_refl _, fun h => h, fun _ _ => rfl, fun _ => ?_, fun _ _ => rfl⟩
    exact List.forall₂_same.mpr fun g _ => ⟨fun _ => rfl, fun i hi => (nomatch hi)⟩
  | cons i r ih =>
    intro R
    have hR : R = bpIntfs p (i :: r) st gs := rfl
    unfold bpIntfs at hR
    simp only at hR
    obtain ⟨a1, a2, a3, a4, a5, a6⟩ := bpNgbs_spec p i gs i.attrs st rfl (hg i (by simp))
    have hsh := bpNgbs_shape p i gs i.attrs st
    generalize bpNgbs p i i.attrs st gs = x at *
    have hother : ∀ j ∈ r, ∀ g, OnInterface i g → ∀ g' : BpNgb, g'.ifindex = g.ifindex → ¬ OnInterface j g' := by
      intro j hj g hi g' he hjg
      have : some j.ifindex = some i.ifindex := by rw [← hjg.2.2, he, hi.2.2]
      have hne := (List.nodup_cons.mp hn).1
      apply hne
      exact List.mem_map.mpr ⟨j, hj, Option.some.inj this⟩
    obtain ⟨b1, b2, b3, b4, b5, b6⟩ := ih x.1 x.2 (List.nodup_cons.mp hn).2 (by
      intro j hj g' hg' hjg
      obtain ⟨g, hgm, h | ⟨h1, h2⟩⟩ := bp_mem_right hsh hg'
      · rw [h] at hjg ⊢
        exact hg j (by simp [hj]) g hgm hjg
      · exact absurd hjg (hother j hj g h1 g' h2))
    generalize bpIntfs p r x.2 x.1 = y at *
    rw [hR]
    refine ⟨by omega, by omega, fun h => b3 (a3 h), AgreeOther.trans a2 a4 b4, fun he => ?_, fun hrt hs => ?_⟩
    · have f1 := a5 (by omega)
      have f2 := b5 (by omega)
      refine List.Forall₂.imp ?_ (forall₂_compose (forall₂_both f1 hsh) f2)
      rintro g g' ⟨m, ⟨⟨h1, h2⟩, h3⟩, k1, k2⟩
      by_cases hi : OnInterface i g
      · have hme : m.ifindex = g.ifindex := by
          rcases h3 with rfl | ⟨_, h⟩
          · rfl
          · exact h
        have hg' : g' = m := k1 fun j hj => hother j hj g hi m hme
        refine ⟨fun h => absurd hi (h i (by simp)), fun j hj hjg => ?_⟩
        rcases List.mem_cons.mp hj with rfl | hj
        · obtain ⟨s1, s2⟩ := h2 hi
          refine ⟨s1, fun pols hag => ?_⟩
          rw [hg']
          refine s2 pols fun v n k d hk => ?_
          rw [hag v n k d (by omega), agreeUpTo_of_other b4 v n k d hk]
        · exact absurd hjg (hother j hj g hi g rfl)
      · have hmg : m = g := h1 hi
        subst hmg
        refine ⟨fun h => k1 fun j hj => h j (by simp [hj]), fun j hj hjg => ?_⟩
        rcases List.mem_cons.mp hj with rfl | hj
        · exact absurd hjg hi
        · exact k2 j hj hjg
    · have e1 := a6 hrt (hs i (by simp))
      have e2 := b6 (a3 hrt) (by
        intro j hj g' hg' hjg
        obtain ⟨g, hgm, h | ⟨h1, h2⟩⟩ := bp_mem_right hsh hg'
        · rw [h] at hjg
          exact hs j (by simp [hj]) g hgm hjg
        · exact absurd hjg (hother j hj g h1 g' h2))
      omega

theorem bp_lookup_filter {β : Type} (q : String → Bool) (l : List (String × β)) (a : String) :
    (l.filter (fun x => q x.1)).lookup a = if q a = true then l.lookup a else none := by
  induction l with
  | nil => simp
  | cons x r ih =>
    obtain ⟨k, v⟩ := x
    by_cases hq : q k = true
    · rw [List.filter_cons_of_pos (by exact hq)]
      by_cases hk : a = k
      · subst hk
        rw [lookup_cons_self, if_pos hq, lookup_cons_self]
      · rw [lookup_cons_ne _ _ hk, ih, lookup_cons_ne _ _ hk]
    · rw [List.filter_cons_of_neg (by exact hq), ih]
      by_cases hk : a = k
      · subst hk
        rw [if_neg hq, if_neg hq]
      · rw [lookup_cons_ne _ _ hk]

theorem bpCleanup_spec (p : BpPar) (g : BpNgb) (ht : g.type = "ibgp" ∨ g.type = "ebgp") : WithoutPolicy p g (bpCleanup p g) := by
  unfold bpCleanup
  have h : (g.type == "ibgp" || g.type == "ebgp") = true := by simpa using ht
  rw [if_pos h]
  refine ⟨rfl, rfl, rfl, rfl, rfl, fun a ha => ?_, fun a ha => ?_⟩
  · simp only
    rw [bp_lookup_filter (fun x => !p.attrList.contains x), if_neg (by simp [(attrList_iff p a).mpr ha])]
  · simp only
    rw [bp_lookup_filter (fun x => !p.attrList.contains x), if_pos]
    have : a ∉ p.attrList := fun h => ha ((attrList_iff p a).mp h)
    simpa using this

theorem onInterface_cleanup (p : BpPar) (i : BpIntf) (g : BpNgb) : OnInterface i (bpCleanup p g) ↔ OnInterface i g := by
  unfold bpCleanup
  by_cases h : (g.type == "ibgp" || g.type == "ebgp") = true
  · rw [if_pos h]; exact Iff.rfl
  · rw [if_neg h]

theorem policyOf_cleanup {p : BpPar} {i : BpIntf} {g g' : BpNgb} {pols : List (String × List (String × BpVal))}
    (hi : OnInterface i g) (h : PolicyOf p i (bpCleanup p g) g' pols) : PolicyOf p i g g' pols := by
  obtain ⟨w1, w2, w3, w4, -, -, w7⟩ := bpCleanup_spec p g (Or.inr hi.1)
  obtain ⟨h1, h2, h3, h4, h5, h6, h7⟩ := h
  exact ⟨h1.trans w1, h2.trans w2, h3.trans w3, h4.trans w4, h5, fun a ha => (h6 a ha).trans (w7 a ha), h7⟩

theorem bpNode_base (p : BpPar) (intfs : List BpIntf) (gs : List BpNgb) :
    ∀ i ∈ intfs, ∀ g ∈ gs.map (bpCleanup p), OnInterface i g → CleanNgb p g := by
  intro i _ g hg ho
  obtain ⟨g0, _, rfl⟩ := List.mem_map.mp hg
  obtain ⟨-, -, -, -, w5, w6, -⟩ := bpCleanup_spec p g0 (Or.inr ((onInterface_cleanup p i g0).mp ho).1)
  exact ⟨w5, w6⟩

/-- **C78** (neighbors): when a node is accepted, every EBGP neighbor on an interface has the BGP policy attributes of that
interface and no others, uses the routing policies of that interface, and has a route map with the attributes that need one;
IBGP neighbors and EBGP neighbors on other interfaces have no policies. -/
theorem C78_neighbors (p : BpPar) (routing : Bool) (pols : List (String × List (String × BpVal))) (intfs : List BpIntf) (gs : List BpNgb)
    (hn : (intfs.map (·.ifindex)).Nodup) (ha : (bpNode p routing pols intfs gs).2.errors = 0) :
    List.Forall₂ (fun g g' =>
      (∀ i ∈ intfs, OnInterface i g → PolicyOf p i g g' (bpNode p routing pols intfs gs).2.pols) ∧
      ((∀ i ∈ intfs, ¬ OnInterface i g) → g.type = "ibgp" ∨ g.type = "ebgp" → WithoutPolicy p g g'))
      gs (bpNode p routing pols intfs gs).1 := by
  obtain ⟨-, -, -, -, h, -⟩ := bpIntfs_spec p intfs (gs.map (bpCleanup p)) { pols := pols, routing := routing } hn (bpNode_base p intfs gs)
  have h := List.forall₂_map_left_iff.mp (h ha)
  refine List.Forall₂.imp ?_ h
  rintro g g' ⟨h1, h2⟩
  refine ⟨fun i hi ho => ?_, fun hno ht => ?_⟩
  · exact policyOf_cleanup ho ((h2 i hi ((onInterface_cleanup p i g).mpr ho)).2 _ (fun _ _ _ _ _ => rfl))
  · rw [h1 fun i hi ho => hno i hi ((onInterface_cleanup p i g).mp ho)]
    exact bpCleanup_spec p g ht

/-- **C78** (routing policies of the user): routing policies with names that do not start with `bp-` are not changed. -/
theorem C78_user_policies (p : BpPar) (routing : Bool) (pols : List (String × List (String × BpVal))) (intfs : List BpIntf) (gs : List BpNgb)
    (hn : (intfs.map (·.ifindex)).Nodup) (y : String) (hy : ¬ ['b', 'p', '-'] <+: y.toList) :
    (bpNode p routing pols intfs gs).2.pols.lookup y = pols.lookup y := by
  obtain ⟨-, -, -, h, -, -⟩ := bpIntfs_spec p intfs (gs.map (bpCleanup p)) { pols := pols, routing := routing } hn (bpNode_base p intfs gs)
  exact h y fun v x k d _ he => hy (he ▸ bpName_prefix v x k d)

/-- **C78** (accepted nodes): a node that uses the `routing` module is accepted exactly when attributes and routing policies of
every interface with an EBGP neighbor can be used. -/
theorem C78_accepted_iff (p : BpPar) (pols : List (String × List (String × BpVal))) (intfs : List BpIntf) (gs : List BpNgb)
    (hn : (intfs.map (·.ifindex)).Nodup) :
    (bpNode p true pols intfs gs).2.errors = 0 ↔ ∀ i ∈ intfs, ∀ g ∈ gs, OnInterface i g → PolicySupported p i := by
  obtain ⟨-, -, -, -, h, k⟩ := bpIntfs_spec p intfs (gs.map (bpCleanup p)) { pols := pols, routing := true } hn (bpNode_base p intfs gs)
  constructor
  · intro ha i hi g hg ho
    have h := List.forall₂_map_left_iff.mp (h ha)
    obtain ⟨g', -, -, h2⟩ := forall₂_mem_left h hg
    exact (h2 i hi ((onInterface_cleanup p i g).mpr ho)).1
  · intro hs
    refine k rfl fun i hi g hg ho => ?_
    obtain ⟨g0, hg0, rfl⟩ := List.mem_map.mp hg
    exact hs i hi g0 hg0 ((onInterface_cleanup p i g0).mp ho)

/-- Settings used in examples -/
def bpDemoPar : BpPar where
  direct := ["rs"]
  compound := [("locpref", .one true), ("med", .one false), ("bandwidth", .both)]
  supp := fun a => a != "rs"
  dirOk := fun _ _ => true
  polOk := fun n => n == "user"
  locpref := some (.val "200")
  defaultLocpref := false

/-- An interface with attributes, an interface with an outgoing routing policy -/
def bpDemoIntfs : List BpIntf :=
  [{ ifindex := 1, attrs := [("med", .val "50"), ("bandwidth", .val "1000")] },
   { ifindex := 2, policy := { out := some "user" } }]

/-- Neighbors with attributes of the remote ends -/
def bpDemoNgbs : List BpNgb :=
  [{ name := "a", ifindex := some 1, attrs := [("med", .val "7"), ("as", .val "65001")] },
   { name := "b", ifindex := some 2 },
   { name := "c", type := "ibgp", attrs := [("locpref", .val "9")] }]

example : (bpDemoIntfs.map (·.ifindex)).Nodup ∧ (bpNode bpDemoPar true [("user", [])] bpDemoIntfs bpDemoNgbs).2.errors = 0 ∧
    (bpNode bpDemoPar true [("user", [])] bpDemoIntfs bpDemoNgbs).1 =
      [{ name := "a", ifindex := some 1,
         attrs := [("as", .val "65001"), ("locpref", .val "200"), ("med", .val "50"), ("bandwidth", .bidir { inp := some "1000" })],
         policy := { inp := some "bp-a-1-in", out := some "bp-a-1-out" } },
       { name := "b", ifindex := some 2, attrs := [("locpref", .val "200")], policy := { inp := some "bp-b-2-in", out := some "user" } },
       { name := "c", type := "ibgp" }] ∧
    (bpNode bpDemoPar true [("user", [])] bpDemoIntfs bpDemoNgbs).2.pols =
      [("user", []), ("bp-a-1-in", [("locpref", .val "200"), ("bandwidth", .val "1000")]), ("bp-a-1-out", [("med", .val "50")]),
       ("bp-b-2-in", [("locpref", .val "200")])] := by decide +kernel

/-- **C78** (defect): a policy attribute with the value zero is accepted and ignored: the neighbor does not get the attribute,
and local preference zero on an interface does not replace the node-level local preference. -/
theorem C78_zero_ignored :
    (bpNode bpDemoPar true [] [{ ifindex := 1, attrs := [("med", .zero), ("locpref", .zero)] }] [{ name := "a", ifindex := some 1 }]).2.errors = 0 ∧
    (bpNode bpDemoPar true [] [{ ifindex := 1, attrs := [("med", .zero), ("locpref", .zero)] }] [{ name := "a", ifindex := some 1 }]).1 =
      [{ name := "a", ifindex := some 1, attrs := [("locpref", .val "200")], policy := { inp := some "bp-a-1-in" } }] := by
  decide +kernel

/-- **C78** (defect): a `localas_ibgp` neighbor keeps policy attributes and routing policies of the remote end. -/
theorem C78_localas_ibgp_keeps_attributes :
    (bpNode bpDemoPar true [] [] [{ name := "a", type := "localas_ibgp", attrs := [("med", .val "7")], policy := { inp := some "remote" } }]).1 =
      [{ name := "a", type := "localas_ibgp", attrs := [("med", .val "7")], policy := { inp := some "remote" } }] := by
  decide +kernel

/-- **C78** (defect): on a node without the `routing` module, acceptance depends on the order of interfaces: a route map generated
for an interface activates the module for the interfaces that follow. -/
theorem C78_order_of_interfaces :
    (bpNode { bpDemoPar with locpref := none } false [("user", [])]
      [{ ifindex := 1, attrs := [("med", .val "50")] }, { ifindex := 2, policy := { inp := some "user" } }]
      [{ name := "a", ifindex := some 1 }, { name := "b", ifindex := some 2 }]).2.errors = 0 ∧
    (bpNode { bpDemoPar with locpref := none } false [("user", [])]
      [{ ifindex := 2, policy := { inp := some "user" } }, { ifindex := 1, attrs := [("med", .val "50")] }]
      [{ name := "a", ifindex := some 1 }, { name := "b", ifindex := some 2 }]).2.errors = 1 := by
  decide +kernel

/-- **C78** (defect): a generated route map replaces a routing policy of the user with the same name. -/
theorem C78_same_name_replaced :
    (bpNode { bpDemoPar with locpref := none } true [("bp-a-1-out", [("med", .val "5")])]
      [{ ifindex := 1, attrs := [("med", .val "50")] }] [{ name := "a", ifindex := some 1 }]).2 =
      { pols := [("bp-a-1-out", [("med", .val "50")])], routing := true, idx := 1, config := true, errors := 0 } := by
  decide +kernel

end Netlab
