import Verif.Spec.LagLinks
import Verif.Props.Lag
import Verif.Lemmas.IdSet
import Mathlib.Data.List.Forall2
/-!
# C136: member links of LAGs and MLAG peer links
-/

namespace Netlab
open Netlab.Spec

theorem badLagAttrs_false {peer : Bool} {l : Option (Bool × Nat)} :
    badLagAttrs peer l = false ↔ ∀ ix other, l = some (ix, other) → peer = false ∧ other = 0 := by
  rcases l with _ | ⟨ix, o⟩
  · simp [badLagAttrs]
  · simp [badLagAttrs]

theorem normMember_some {peer : Bool} {m : RawMember} {e : String × String} :
    normMember peer m = some e ↔ MemberIs peer m e := by
  obtain ⟨e1, e2⟩ := e
  unfold normMember MemberIs
  rw [← badLagAttrs_false]
  cases hb : badLagAttrs peer m.lag with
  | true => simp
  | false =>
    simp only [Bool.false_eq_true, if_false, and_true]
    split
    · rename_i a b hn
      rw [hn]
      by_cases hab : a = b
      · subst hab
        simp only [beq_self_eq_true, if_true, reduceCtorEq, List.cons.injEq, and_true, false_iff]
        rintro ⟨⟨rfl, rfl⟩, h⟩
        exact h rfl
      · simp only [beq_iff_eq, hab, if_false, Option.some.injEq, Prod.mk.injEq, List.cons.injEq, and_true]
        constructor
        · rintro ⟨rfl, rfl⟩
          exact ⟨⟨rfl, rfl⟩, hab⟩
        · exact fun h => h.1
    · rename_i hn
      simp only [reduceCtorEq, false_iff]
      rintro ⟨h, -⟩
      exact hn _ _ h

theorem normMembers_ok {peer : Bool} {ms : List RawMember} {es : List (String × String)} :
    normMembers peer ms = (es, 0) ↔ List.Forall₂ (MemberIs peer) ms es := by
  induction ms generalizing es with
  | nil => cases es <;> simp [normMembers]
  | cons m rest ih =>
    unfold normMembers
    cases h : normMember peer m with
    | none =>
      simp only [Prod.mk.injEq, Nat.one_ne_zero, and_false, false_iff]
      intro hf
      cases hf with
      | cons h1 _ =>
        rw [normMember_some.2 h1] at h
        cases h
    | some e =>
      have he := normMember_some.1 h
      rcases hn : normMembers peer rest with ⟨es', n⟩
      cases n with
      | zero =>
        simp only [Prod.mk.injEq, and_true]
        constructor
        · rintro rfl
          exact .cons he (ih.1 hn)
        · intro hf
          cases hf with
          | cons h1 h2 =>
            have h3 := ih.2 h2
            rw [hn] at h3
            have h4 := normMember_some.2 h1
            rw [h] at h4
            cases h3; cases h4; rfl
      | succ n =>
        simp only [Prod.mk.injEq, Nat.add_one_ne_zero, and_false, false_iff]
        intro hf
        cases hf with
        | cons h1 h2 =>
          have h3 := ih.2 h2
          rw [hn] at h3
          cases h3

theorem normMembers_err {peer : Bool} {ms : List RawMember} {es : List (String × String)} {n : Nat}
    (h : normMembers peer ms = (es, n + 1)) : es = [] := by
  induction ms generalizing es with
  | nil => simp [normMembers] at h
  | cons m rest ih =>
    unfold normMembers at h
    cases h1 : normMember peer m with
    | none => rw [h1] at h; cases h; rfl
    | some e =>
      rw [h1] at h
      rcases hn : normMembers peer rest with ⟨es', k⟩
      rw [hn] at h
      cases k with
      | zero => cases h
      | succ k => cases h; rfl

/-- What is known about a processed link. -/
def LagDone (env : PeerEnv) (k : Nat) (r : RawLag) (out : LagOut) (kids : List LagOut) : Prop :=
  ∃ ms es, r.members = some ms ∧
    ((r.peer = .no ∧ List.Forall₂ (MemberIs false) ms es ∧ es ≠ [] ∧ out = .virtual es ∧ kids = es.map (.member k)) ∨
     (r.peer ≠ .no ∧ List.Forall₂ (MemberIs true) ms es ∧ ∃ g, (∀ n, r.peer = .num n → g = n) ∧
       ((es = [] ∧ out = .peerEmpty g ∧ kids = []) ∨
        ∃ first more, es = first :: more ∧ out = .peer g first ∧ kids = more.map (.peerMore k) ∧
          (∀ e ∈ more, (e.1 = first.1 ∨ e.1 = first.2) ∧ (e.2 = first.1 ∨ e.2 = first.2)) ∧
          env.device first.1 = env.device first.2 ∧ env.mlagOk first.1 = true ∧ env.mlagOk first.2 = true)))

theorem morePeerLinks_spec {k : Nat} {first : String × String} {es : List (String × String)} {st st' : LagLinksSt}
    (h : morePeerLinks k first es st = (st', true)) :
    st' = { st with links := st.links ++ es.map (.peerMore k) } ∧
      ∀ e ∈ es, (e.1 = first.1 ∨ e.1 = first.2) ∧ (e.2 = first.1 ∨ e.2 = first.2) := by
  induction es generalizing st with
  | nil => simp [morePeerLinks] at h; simp [h]
  | cons e rest ih =>
    unfold morePeerLinks at h
    split at h
    · rename_i hc
      obtain ⟨h1, h2⟩ := ih h
      refine ⟨by simp [h1], ?_⟩
      intro e' he'
      rcases List.mem_cons.1 he' with rfl | he'
      · simpa using hc
      · exact h2 e' he'
    · cases h

theorem morePeerLinks_errs (k : Nat) (first : String × String) (es : List (String × String)) (st : LagLinksSt) :
    st.errs ≤ (morePeerLinks k first es st).1.errs := by
  induction es generalizing st with
  | nil => simp [morePeerLinks]
  | cons e rest ih =>
    unfold morePeerLinks
    split
    · exact ih { st with links := st.links ++ [.peerMore k e] }
    · simp

theorem peerLinks_errs (env : PeerEnv) (k : Nat) (g : Int) (ms : List RawMember) (st : LagLinksSt) :
    st.errs ≤ (peerLinks env k g ms st).1.errs := by
  unfold peerLinks
  split
  · simp
  · dsimp only
    split
    · simp
    · split
      · simp
      · rename_i first more _ _ _ _
        exact morePeerLinks_errs k first more ⟨st.links.set (k - 1) (.peer g first), addPair st.pairs first, st.ids, st.errs⟩

theorem lagLink_errs {env : PeerEnv} {k : Nat} {r : RawLag} {st st' : LagLinksSt} {b : Bool}
    (h : lagLink env k r st = .ok (st', b)) : st.errs ≤ st'.errs := by
  unfold lagLink at h
  cases hm : r.members with
  | none => rw [hm] at h; cases h; simp
  | some ms =>
    rw [hm] at h
    dsimp only at h
    cases hp : r.peer with
    | no =>
      rw [hp] at h
      simp only [Except.ok.injEq] at h
      unfold lagMemberLinks at h
      split at h <;> cases h <;> simp
    | num n =>
      rw [hp] at h
      have h2 := peerLinks_errs env k n ms st
      simp only [Except.ok.injEq] at h
      rw [h] at h2
      exact h2
    | auto =>
      rw [hp] at h
      dsimp only at h
      split at h
      · cases h
      · rename_i g ids _
        have h2 := peerLinks_errs env k g ms { st with ids := ids }
        simp only [Except.ok.injEq] at h
        rw [h] at h2
        exact h2

theorem peerLinks_done {env : PeerEnv} {k : Nat} {g : Int} {r : RawLag} {ms : List RawMember} {st st' : LagLinksSt}
    (hm : r.members = some ms) (hp : r.peer ≠ .no) (hg : ∀ n, r.peer = .num n → g = n)
    (h : peerLinks env k g ms st = (st', true)) (he : st'.errs = 0) :
    ∃ out kids, st'.links = st.links.set (k - 1) out ++ kids ∧ LagDone env k r out kids ∧
      st'.pairs = (peerEnds [out]).foldl addPair st.pairs ∧ st'.ids = st.ids ∧ groupOf out = some g := by
  unfold peerLinks at h
  split at h
  · rename_i e hn
    cases h
    simp only [Nat.add_eq_zero_iff] at he
    obtain ⟨-, rfl⟩ := he
    exact ⟨.peerEmpty g, [], by simp, ⟨ms, [], hm, .inr ⟨hp, normMembers_ok.1 hn, g, hg, .inl ⟨rfl, rfl, rfl⟩⟩⟩, rfl, rfl, rfl⟩
  · rename_i first more e hn
    have h0 : e = 0 := by
      cases e with
      | zero => rfl
      | succ n => exact absurd (normMembers_err hn) (by simp)
    subst h0
    dsimp only at h
    split at h
    · cases h
    · rename_i hd
      split at h
      · cases h
      · rename_i ho
        obtain ⟨h1, h2⟩ := morePeerLinks_spec h
        subst h1
        refine ⟨.peer g first, more.map (.peerMore k), rfl, ⟨ms, first :: more, hm, .inr ⟨hp, normMembers_ok.1 hn, g, hg,
          .inr ⟨first, more, rfl, rfl, rfl, h2, by simpa using hd, ?_⟩⟩⟩, rfl, rfl, rfl⟩
        simp only [Bool.not_eq_true', Bool.not_eq_false, Bool.and_eq_true] at ho
        exact ho

/-- `.auto` takes a new identifier. -/
theorem lagLink_done {env : PeerEnv} {k : Nat} {r : RawLag} {st st' : LagLinksSt}
    (h : lagLink env k r st = .ok (st', true)) (he : st'.errs = 0) :
    ∃ out kids, st'.links = st.links.set (k - 1) out ++ kids ∧ LagDone env k r out kids ∧
      st'.pairs = (peerEnds [out]).foldl addPair st.pairs ∧ (∀ x ∈ st.ids.value, x ∈ st'.ids.value) ∧
      (r.peer = .auto → ∃ g, groupOf out = some g ∧ .i g ∈ st'.ids.value ∧ .i g ∉ st.ids.value) := by
  unfold lagLink at h
  split at h
  · cases h
  · rename_i ms hm
    split at h
    · rename_i hp
      unfold lagMemberLinks at h
      split at h
      · cases h
      · rename_i es e hne hn
        have h0 : e = 0 := by
          cases e with
          | zero => rfl
          | succ n =>
            have := normMembers_err hn
            subst this
            exact (hne rfl).elim
        subst h0
        cases h
        refine ⟨.virtual es, es.map (.member k), rfl, ⟨ms, es, hm, .inl ⟨hp, normMembers_ok.1 hn, ?_, rfl, rfl⟩⟩, rfl,
          fun x hx => hx, fun ha => by rw [hp] at ha; cases ha⟩
        rintro rfl
        exact hne rfl
    · rename_i n hp
      simp only [Except.ok.injEq] at h
      obtain ⟨out, kids, h1, h2, h3, h4, h5⟩ := peerLinks_done hm (by rw [hp]; simp)
        (fun n' hn' => by rw [hp] at hn'; cases hn'; rfl) h he
      exact ⟨out, kids, h1, h2, h3, fun x hx => by rw [h4]; exact hx, fun ha => by rw [hp] at ha; cases ha⟩
    · rename_i hp
      split at h
      · cases h
      · rename_i g ids hi
        simp only [Except.ok.injEq] at h
        obtain ⟨out, kids, h1, h2, h3, h4, h5⟩ := peerLinks_done (st := { st with ids := ids }) hm (by rw [hp]; simp)
          (fun n' hn' => by rw [hp] at hn'; cases hn') h he
        have hfresh : .i g ∉ st.ids.value ∧ ids.value = .i g :: st.ids.value := by
          unfold IdVar.getNext at hi
          split at hi
          · cases hi
          · split at hi
            · cases hi
            · rename_i n hl
              cases hi
              exact ⟨(nextLoop_ok hl).1, rfl⟩
        refine ⟨out, kids, h1, h2, h3, fun x hx => ?_, fun _ => ⟨g, h5, ?_, hfresh.1⟩⟩
        · rw [h4]; dsimp only; rw [hfresh.2]; exact List.mem_cons_of_mem _ hx
        · rw [h4]; dsimp only; rw [hfresh.2]; exact List.mem_cons_self ..

/-! ### The loop over links -/

theorem kidsOf_append (k : Nat) (a b : List LagOut) : kidsOf k (a ++ b) = kidsOf k a ++ kidsOf k b := by
  simp [kidsOf]

/-- The index of the parent of a member link. -/
def lagParent : LagOut → Option Nat
  | .member p _ => some p
  | .peerMore p _ => some p
  | _ => none

theorem kidsOf_all {k : Nat} {l : List LagOut} (h : ∀ e ∈ l, lagParent e = some k) : kidsOf k l = l := by
  unfold kidsOf
  rw [List.filter_eq_self]
  intro e he
  have := h e he
  cases e <;> simp [lagParent] at this ⊢ <;> exact this

theorem kidsOf_none {k : Nat} {l : List LagOut} (h : ∀ e ∈ l, lagParent e ≠ some k) : kidsOf k l = [] := by
  unfold kidsOf
  rw [List.filter_eq_nil_iff]
  intro e he
  have := h e he
  cases e <;> simp [lagParent] at this ⊢ <;> exact this

theorem lagDone_kids {env : PeerEnv} {k : Nat} {r : RawLag} {out : LagOut} {kids : List LagOut}
    (h : LagDone env k r out kids) : ∀ e ∈ kids, lagParent e = some k := by
  obtain ⟨ms, es, -, ⟨-, -, -, -, rfl⟩ | ⟨-, -, g, -, ⟨-, -, rfl⟩ | ⟨f, more, -, -, rfl, -⟩⟩⟩ := h
  · intro e he
    obtain ⟨x, -, rfl⟩ := List.mem_map.1 he
    rfl
  · simp
  · intro e he
    obtain ⟨x, -, rfl⟩ := List.mem_map.1 he
    rfl

theorem lagDone_out {env : PeerEnv} {k : Nat} {r : RawLag} {out : LagOut} {kids : List LagOut}
    (h : LagDone env k r out kids) : lagParent out = none ∧ ∀ g, groupOf out = some g → r.peer ≠ .auto → r.peer = .num g := by
  obtain ⟨ms, es, -, ⟨hp, -, -, rfl, -⟩ | ⟨hp, -, g, hg, ⟨-, rfl, -⟩ | ⟨f, more, -, rfl, -⟩⟩⟩ := h
  · exact ⟨rfl, by simp [groupOf]⟩
  all_goals
    refine ⟨rfl, ?_⟩
    intro g' h' ha
    simp only [groupOf, Option.some.injEq] at h'
    subst h'
    cases hr : r.peer with
    | no => exact absurd hr hp
    | auto => exact absurd hr ha
    | num n => rw [hg n hr]

/-- The state after the first `k` links. -/
structure LagInv (env : PeerEnv) (links : List LagOut) (k : Nat) (st : LagLinksSt) (base extra : List LagOut) : Prop where
  eq : st.links = base ++ extra
  len : base.length = links.length
  rest : ∀ (i : Nat), k ≤ i → base[i]? = links[i]?
  plain : ∀ (i x : Nat), links[i]? = some (.plain x) → base[i]? = some (.plain x)
  done : ∀ i, i < k → ∀ r, links[i]? = some (.raw r) →
    ∃ out, base[i]? = some out ∧ LagDone env (i + 1) r out (kidsOf (i + 1) extra)
  kids : ∀ e ∈ extra, ∃ p r, p < k ∧ links[p]? = some (.raw r) ∧ lagParent e = some (p + 1)
  pairs : st.pairs = mlagPairs (peerEnds (base.take k))
  ids : ∀ g ∈ userGroups links, .i g ∈ st.ids.value
  used : ∀ i, i < k → ∀ o g, base[i]? = some o → groupOf o = some g → .i g ∈ st.ids.value
  auto : ∀ i, i < k → ∀ r, links[i]? = some (.raw r) → r.peer = .auto →
    ∃ o g, base[i]? = some o ∧ groupOf o = some g ∧ g ∉ userGroups links ∧
      ∀ j, j < k → j ≠ i → ∀ o', base[j]? = some o' → groupOf o' ≠ some g

theorem userGroups_mem {links : List LagOut} {i : Nat} {r : RawLag} {n : Int} (h : links[i]? = some (.raw r))
    (hp : r.peer = .num n) : n ∈ userGroups links := by
  unfold userGroups
  rw [List.mem_filterMap]
  exact ⟨_, List.mem_of_getElem? h, by simp [hp]⟩

theorem peerEnds_append (a b : List LagOut) : peerEnds (a ++ b) = peerEnds a ++ peerEnds b := by
  simp [peerEnds]

theorem lagInv_plain {env : PeerEnv} {links : List LagOut} {k : Nat} {st : LagLinksSt} {base extra : List LagOut}
    (hi : LagInv env links k st base extra) {x : Nat} (hk : links[k]? = some (.plain x)) :
    LagInv env links (k + 1) st base extra := by
  have hb : base[k]? = some (.plain x) := by rw [hi.rest k (Nat.le_refl _), hk]
  refine ⟨hi.eq, hi.len, fun i h => hi.rest i (by omega), hi.plain, ?_, ?_, ?_, hi.ids, ?_, ?_⟩
  · intro i h r hr
    by_cases hik : i = k
    · subst hik; rw [hk] at hr; cases hr
    · exact hi.done i (by omega) r hr
  · intro e he
    obtain ⟨p, r, hp, hr, h⟩ := hi.kids e he
    exact ⟨p, r, by omega, hr, h⟩
  · rw [List.take_add_one, hb, Option.toList_some, peerEnds_append, hi.pairs]
    simp [peerEnds]
  · intro i h o g ho hg
    by_cases hik : i = k
    · subst hik; rw [hb] at ho; cases ho; cases hg
    · exact hi.used i (by omega) o g ho hg
  · intro i h r hr ha
    by_cases hik : i = k
    · subst hik; rw [hk] at hr; cases hr
    · obtain ⟨o, g, h1, h2, h2', h3⟩ := hi.auto i (by omega) r hr ha
      refine ⟨o, g, h1, h2, h2', ?_⟩
      intro j hj hji o' ho'
      by_cases hjk : j = k
      · subst hjk; rw [hb] at ho'; cases ho'; simp [groupOf]
      · exact h3 j (by omega) hji o' ho'

theorem lagInv_raw {env : PeerEnv} {links : List LagOut} {k : Nat} {st st' : LagLinksSt} {base extra : List LagOut}
    (hi : LagInv env links k st base extra) {r : RawLag} (hk : links[k]? = some (.raw r))
    (h : lagLink env (k + 1) r st = .ok (st', true)) (he : st'.errs = 0) :
    ∃ base' extra', LagInv env links (k + 1) st' base' extra' := by
  obtain ⟨out, kids, h1, h2, h3, h4, h5⟩ := lagLink_done h he
  have hklt : k < base.length := by
    rw [hi.len]
    exact (List.getElem?_eq_some_iff.1 hk).1
  have hkids := lagDone_kids h2
  have hout := lagDone_out h2
  have hnew : (base.set k out)[k]? = some out := by simp [hklt]
  have hold : ∀ i, i ≠ k → (base.set k out)[i]? = base[i]? := fun i hne => by simp [Ne.symm hne]
  refine ⟨base.set k out, extra ++ kids, ?_, by simp [hi.len], ?_, ?_, ?_, ?_, ?_, ?_, ?_, ?_⟩
  · rw [h1, hi.eq, Nat.add_sub_cancel, List.set_append_left k out hklt, List.append_assoc]
  · intro i hik
    rw [hold i (by omega), hi.rest i (by omega)]
  · intro i x hx
    have : i ≠ k := by rintro rfl; rw [hk] at hx; cases hx
    rw [hold i this, hi.plain i x hx]
  · intro i hik r' hr'
    by_cases hx : i = k
    · subst hx
      rw [hk] at hr'
      cases hr'
      refine ⟨out, hnew, ?_⟩
      rw [kidsOf_append, kidsOf_all hkids, kidsOf_none, List.nil_append]
      · exact h2
      · intro e hee
        obtain ⟨p, r', hp, hr', hpe⟩ := hi.kids e hee
        rw [hpe]
        simp only [ne_eq, Option.some.injEq]
        omega
    · obtain ⟨o, ho, hd⟩ := hi.done i (by omega) r' hr'
      refine ⟨o, by rw [hold i hx, ho], ?_⟩
      rw [kidsOf_append, kidsOf_none (l := kids), List.append_nil]
      · exact hd
      · intro e hee
        rw [hkids e hee]
        simp only [ne_eq, Option.some.injEq]
        omega
  · intro e hee
    rcases List.mem_append.1 hee with hee | hee
    · obtain ⟨p, r', hp, hr', hpe⟩ := hi.kids e hee
      exact ⟨p, r', by omega, hr', hpe⟩
    · exact ⟨k, r, by omega, hk, hkids e hee⟩
  · rw [List.take_add_one, hnew, Option.toList_some, peerEnds_append, h3, hi.pairs, List.take_set_of_le (Nat.le_refl _)]
    unfold mlagPairs
    rw [List.foldl_append]
  · exact fun g hg => h4 _ (hi.ids g hg)
  · intro i hik o g ho hg
    by_cases hx : i = k
    · subst hx
      rw [hnew] at ho
      cases ho
      by_cases ha : r.peer = .auto
      · obtain ⟨g', hg', hv, -⟩ := h5 ha
        rw [hg] at hg'
        cases hg'
        exact hv
      · exact h4 _ (hi.ids g (userGroups_mem hk (hout.2 g hg ha)))
    · rw [hold i hx] at ho
      exact h4 _ (hi.used i (by omega) o g ho hg)
  · intro i hik r' hr' ha
    by_cases hx : i = k
    · subst hx
      rw [hk] at hr'
      cases hr'
      obtain ⟨g, hg, -, hf⟩ := h5 ha
      refine ⟨out, g, hnew, hg, fun hu => hf (hi.ids g hu), ?_⟩
      intro j hj hji o' ho' hg'
      rw [hold j hji] at ho'
      exact hf (hi.used j (by omega) o' g ho' hg')
    · obtain ⟨o, g, q1, q2, q2', q3⟩ := hi.auto i (by omega) r' hr' ha
      refine ⟨o, g, by rw [hold i hx, q1], q2, q2', ?_⟩
      intro j hj hji o' ho' hg'
      by_cases hjk : j = k
      · subst hjk
        rw [hnew] at ho'
        cases ho'
        have hu := hi.used i (by omega) o g q1 q2
        by_cases hb : r.peer = .auto
        · obtain ⟨g2, hg2, -, hf⟩ := h5 hb
          rw [hg'] at hg2
          cases hg2
          exact hf hu
        · exact q2' (userGroups_mem hk (hout.2 g hg' hb))
      · rw [hold j hjk] at ho'
        exact q3 j (by omega) hji o' ho' hg'

theorem lagLinksLoop_errs {env : PeerEnv} {k : Nat} {rest : List LagOut} {st st' : LagLinksSt} {b : Bool}
    (h : lagLinksLoop env k rest st = .ok (st', b)) : st.errs ≤ st'.errs := by
  induction rest generalizing k st with
  | nil => cases h; simp
  | cons l rest ih =>
    cases l with
    | raw r =>
      unfold lagLinksLoop at h
      split at h
      · cases h
      · rename_i h1
        cases h
        exact lagLink_errs h1
      · rename_i h1
        exact Nat.le_trans (lagLink_errs h1) (ih h)
    | _ => exact ih h

theorem lagLinksLoop_inv {env : PeerEnv} {links pre rest : List LagOut} {st st' : LagLinksSt} {base extra : List LagOut}
    (hu : ∀ l ∈ links, UserLink l) (hl : links = pre ++ rest) (hi : LagInv env links pre.length st base extra)
    (h : lagLinksLoop env (pre.length + 1) rest st = .ok (st', true)) (he : st'.errs = 0) :
    ∃ base' extra', LagInv env links links.length st' base' extra' := by
  induction rest generalizing pre st base extra with
  | nil =>
    cases h
    rw [List.append_nil] at hl
    subst hl
    exact ⟨base, extra, hi⟩
  | cons l rest ih =>
    have hk : links[pre.length]? = some l := by rw [hl]; simp
    have hlu := hu l (by rw [hl]; simp)
    have hl' : links = (pre ++ [l]) ++ rest := by rw [hl]; simp
    have hlen : (pre ++ [l]).length = pre.length + 1 := by simp
    cases l with
    | plain x =>
      have h' : lagLinksLoop env (pre.length + 1 + 1) rest st = .ok (st', true) := h
      have hi' := lagInv_plain hi hk
      rw [← hlen] at hi' h'
      exact ih hl' hi' h'
    | raw r =>
      unfold lagLinksLoop at h
      split at h
      · cases h
      · cases h
      · rename_i st1 h1
        have he1 : st1.errs = 0 := by
          have := lagLinksLoop_errs h
          omega
        obtain ⟨b', e', hi'⟩ := lagInv_raw hi hk h1 he1
        rw [← hlen] at hi' h
        exact ih hl' hi' h
    | _ => cases hlu

theorem lagLinks_inv {env : PeerEnv} {links : List LagOut} {st : LagLinksSt}
    (hu : ∀ l ∈ links, UserLink l) (h : lagLinks env links = .ok (st, true)) (he : st.errs = 0) :
    ∃ base extra, LagInv env links links.length st base extra := by
  unfold lagLinks at h
  refine lagLinksLoop_inv (pre := []) (base := links) (extra := []) hu rfl ?_ h he
  refine ⟨by simp, rfl, fun _ _ => rfl, fun _ _ h => h, ?_, by simp, ?_, ?_, ?_, ?_⟩
  · intro i hi; simp at hi
  · rfl
  · intro g hg
    simp only [peerIds, IdVar.setCounter, IdVar.extend, IdVar.create, List.append_nil]
    exact List.mem_map.2 ⟨g, hg, rfl⟩
  · intro i hi; simp at hi
  · intro i hi; simp at hi

theorem lagInv_noKids {env : PeerEnv} {links : List LagOut} {st : LagLinksSt} {base extra : List LagOut}
    (hu : ∀ l ∈ links, UserLink l) (hi : LagInv env links links.length st base extra) (k : Nat) : kidsOf k base = [] := by
  refine kidsOf_none fun e he => ?_
  obtain ⟨i, hlt, hg⟩ := List.mem_iff_getElem.1 he
  have hb : base[i]? = some e := by rw [List.getElem?_eq_getElem hlt, hg]
  have hlt' : i < links.length := by rw [← hi.len]; exact hlt
  have hlk : links[i]? = some links[i] := List.getElem?_eq_getElem hlt'
  have hul := hu links[i] (List.getElem_mem hlt')
  cases hc : links[i] with
  | plain x =>
    rw [hc] at hlk
    have := hi.plain i x hlk
    rw [hb] at this
    cases this
    simp [lagParent]
  | raw r =>
    rw [hc] at hlk
    obtain ⟨out, ho, hd⟩ := hi.done i hlt' r hlk
    rw [hb] at ho
    cases ho
    rw [(lagDone_out hd).1]
    simp
  | _ => rw [hc] at hul; cases hul

theorem lagLinks_done {env : PeerEnv} {links : List LagOut} {st : LagLinksSt}
    (hu : ∀ l ∈ links, UserLink l) (h : lagLinks env links = .ok (st, true)) (he : st.errs = 0)
    {i : Nat} {r : RawLag} (hr : links[i]? = some (.raw r)) :
    ∃ out, st.links[i]? = some out ∧ LagDone env (i + 1) r out (kidsOf (i + 1) st.links) := by
  obtain ⟨base, extra, hi⟩ := lagLinks_inv hu h he
  have hlt : i < links.length := (List.getElem?_eq_some_iff.1 hr).1
  obtain ⟨out, ho, hd⟩ := hi.done i hlt r hr
  refine ⟨out, ?_, ?_⟩
  · rw [hi.eq, List.getElem?_append_left (by rw [hi.len]; exact hlt), ho]
  · rw [hi.eq, kidsOf_append, lagInv_noKids hu hi, List.nil_append]
    exact hd

/-- **C136 (links without LAGs).**  Links without the `lag` attribute are not changed. -/
theorem C136_plain {env : PeerEnv} {links : List LagOut} {st : LagLinksSt}
    (hu : ∀ l ∈ links, UserLink l) (h : lagLinks env links = .ok (st, true)) (he : st.errs = 0)
    {i x : Nat} (hx : links[i]? = some (.plain x)) : st.links[i]? = some (.plain x) := by
  obtain ⟨base, extra, hi⟩ := lagLinks_inv hu h he
  have hlt : i < links.length := (List.getElem?_eq_some_iff.1 hx).1
  rw [hi.eq, List.getElem?_append_left (by rw [hi.len]; exact hlt), hi.plain i x hx]

/-- **C136 (LAG).**  When there are no errors, every LAG link has at least one member; every member connects two different
nodes and has no LAG attributes apart from the number of the LAG interface.  For every member, one physical link
between these nodes is created (in the order of members), and nothing else is created for this LAG. -/
theorem C136_lag {env : PeerEnv} {links : List LagOut} {st : LagLinksSt}
    (hu : ∀ l ∈ links, UserLink l) (h : lagLinks env links = .ok (st, true)) (he : st.errs = 0)
    {i : Nat} {r : RawLag} (hr : links[i]? = some (.raw r)) (hp : r.peer = .no) :
    ∃ ms es, r.members = some ms ∧ ms ≠ [] ∧ List.Forall₂ (MemberIs false) ms es ∧
      st.links[i]? = some (.virtual es) ∧ kidsOf (i + 1) st.links = es.map (.member (i + 1)) := by
  obtain ⟨out, ho, ms, es, hm, ⟨-, h1, h2, rfl, h4⟩ | ⟨hn, -⟩⟩ := lagLinks_done hu h he hr
  · refine ⟨ms, es, hm, ?_, h1, ho, h4⟩
    rintro rfl
    cases h1
    exact h2 rfl
  · exact absurd hp hn

/-- **C136 (MLAG peer link).**  When there are no errors, a peer link with members becomes a link between the nodes of its
first member; these nodes are different, use the same device, and the device supports MLAG.  For every other member, one
link is created, and it connects the same two nodes.  The MLAG group specified by the user is used. -/
theorem C136_peer {env : PeerEnv} {links : List LagOut} {st : LagLinksSt}
    (hu : ∀ l ∈ links, UserLink l) (h : lagLinks env links = .ok (st, true)) (he : st.errs = 0)
    {i : Nat} {r : RawLag} {m : RawMember} {rest : List RawMember} (hr : links[i]? = some (.raw r)) (hp : r.peer ≠ .no)
    (hm : r.members = some (m :: rest)) :
    ∃ g a b more, st.links[i]? = some (.peer g (a, b)) ∧ (∀ n, r.peer = .num n → g = n) ∧ MemberIs true m (a, b) ∧
      List.Forall₂ (MemberIs true) rest more ∧ kidsOf (i + 1) st.links = more.map (.peerMore (i + 1)) ∧
      (∀ e ∈ more, e = (a, b) ∨ e = (b, a)) ∧ env.device a = env.device b ∧ env.mlagOk a = true ∧ env.mlagOk b = true := by
  obtain ⟨out, ho, ms, es, hm', ⟨hn, -⟩ | ⟨-, h1, g, hg, ⟨rfl, -⟩ | ⟨f, more, rfl, rfl, h3, h4, h5, h6, h7⟩⟩⟩ :=
    lagLinks_done hu h he hr
  · exact absurd hn hp
  · rw [hm] at hm'
    cases hm'
    cases h1
  · rw [hm] at hm'
    cases hm'
    cases h1 with
    | cons ha hb =>
      refine ⟨g, f.1, f.2, more, ho, hg, ha, hb, h3, ?_, h5, h6, h7⟩
      intro e hee
      have hne : e.1 ≠ e.2 := by
        obtain ⟨hlen, hh⟩ := List.forall₂_iff_get.1 hb
        obtain ⟨j, hj, hje⟩ := List.mem_iff_getElem.1 hee
        have := hh j (by omega) hj
        rw [List.get_eq_getElem, List.get_eq_getElem, hje] at this
        exact this.2.1
      obtain ⟨q1, q2⟩ := h4 e hee
      obtain ⟨e1, e2⟩ := e
      simp only [Prod.mk.injEq] at *
      rcases q1 with rfl | rfl <;> rcases q2 with q2 | q2 <;> simp_all

/-- **C136 (MLAG peers).**  The MLAG peers are the nodes at the ends of peer links. -/
theorem C136_peers {env : PeerEnv} {links : List LagOut} {st : LagLinksSt}
    (hu : ∀ l ∈ links, UserLink l) (h : lagLinks env links = .ok (st, true)) (he : st.errs = 0) :
    st.pairs = mlagPairs (peerEnds st.links) := by
  obtain ⟨base, extra, hi⟩ := lagLinks_inv hu h he
  rw [hi.pairs, hi.eq, peerEnds_append, ← hi.len, List.take_length]
  have : peerEnds extra = [] := by
    unfold peerEnds
    rw [List.filterMap_eq_nil_iff]
    intro e hee
    obtain ⟨p, r, -, -, hp⟩ := hi.kids e hee
    cases e <;> simp [lagParent] at hp ⊢
  rw [this, List.append_nil]

/-- **C136 (groups).**  The MLAG group that netlab assigned to a peer link is different from the groups of all other peer
links. -/
theorem C136_groups {env : PeerEnv} {links : List LagOut} {st : LagLinksSt}
    (hu : ∀ l ∈ links, UserLink l) (h : lagLinks env links = .ok (st, true)) (he : st.errs = 0)
    {i : Nat} {r : RawLag} (hr : links[i]? = some (.raw r)) (hp : r.peer = .auto) :
    ∃ o g, st.links[i]? = some o ∧ groupOf o = some g ∧
      ∀ j o', j ≠ i → st.links[j]? = some o' → groupOf o' ≠ some g := by
  obtain ⟨base, extra, hi⟩ := lagLinks_inv hu h he
  have hlt : i < links.length := (List.getElem?_eq_some_iff.1 hr).1
  obtain ⟨o, g, h1, h2, -, h3⟩ := hi.auto i hlt r hr hp
  refine ⟨o, g, ?_, h2, ?_⟩
  · rw [hi.eq, List.getElem?_append_left (by rw [hi.len]; exact hlt), h1]
  · intro j o' hji ho'
    rw [hi.eq] at ho'
    by_cases hj : j < base.length
    · rw [List.getElem?_append_left hj] at ho'
      exact h3 j (by rw [← hi.len]; exact hj) hji o' ho'
    · rw [List.getElem?_append_right (by omega)] at ho'
      obtain ⟨p, r', -, -, hpe⟩ := hi.kids o' (List.mem_of_getElem? ho')
      cases o' <;> simp [lagParent] at hpe <;> simp [groupOf]

/-- **C136 (nothing else).**  Apart from the original links, the topology contains only links created for a LAG or
a peer link. -/
theorem C136_nothing_else {env : PeerEnv} {links : List LagOut} {st : LagLinksSt}
    (hu : ∀ l ∈ links, UserLink l) (h : lagLinks env links = .ok (st, true)) (he : st.errs = 0)
    {i : Nat} {l : LagOut} (hl : st.links[i]? = some l) (hge : links.length ≤ i) :
    ∃ k r, links[k]? = some (.raw r) ∧ l ∈ kidsOf (k + 1) st.links := by
  obtain ⟨base, extra, hi⟩ := lagLinks_inv hu h he
  rw [hi.eq, List.getElem?_append_right (by rw [hi.len]; exact hge)] at hl
  have hmem := List.mem_of_getElem? hl
  obtain ⟨k, r, -, hr, hp⟩ := hi.kids l hmem
  refine ⟨k, r, hr, ?_⟩
  unfold kidsOf
  rw [List.mem_filter]
  refine ⟨by rw [hi.eq]; exact List.mem_append_right _ hmem, ?_⟩
  cases l <;> simp [lagParent] at hp ⊢ <;> exact hp

theorem morePeerLinks_false {k : Nat} {first : String × String} {es : List (String × String)} {st st' : LagLinksSt}
    (h : morePeerLinks k first es st = (st', false)) (he : st'.errs = 0) : False := by
  induction es generalizing st with
  | nil => cases h
  | cons e rest ih =>
    unfold morePeerLinks at h
    split at h
    · exact ih h
    · cases h; simp at he

theorem lagLinksLoop_stop {env : PeerEnv} {k : Nat} {rest : List LagOut} {st st' : LagLinksSt}
    (h : lagLinksLoop env k rest st = .ok (st', false)) (he : st'.errs = 0) :
    ∃ r, .raw r ∈ rest ∧ r.members = some [] ∧ r.peer = .no := by
  induction rest generalizing k st with
  | nil => cases h
  | cons l rest ih =>
    cases l with
    | raw r =>
      unfold lagLinksLoop at h
      split at h
      · cases h
      · rename_i h1
        cases h
        refine ⟨r, List.mem_cons_self .., ?_⟩
        unfold lagLink at h1
        have hpe : ∀ g ms st1, peerLinks env k g ms st1 = (st', false) → False := by
          intro g ms st1 h2
          unfold peerLinks at h2
          split at h2
          · cases h2
          · dsimp only at h2
            split at h2
            · cases h2; simp at he
            · split at h2
              · cases h2; simp at he
              · exact morePeerLinks_false h2 he
        cases hm : r.members with
        | none => rw [hm] at h1; cases h1; simp at he
        | some ms =>
          rw [hm] at h1
          dsimp only at h1
          cases hp : r.peer with
          | no =>
            rw [hp] at h1
            simp only [Except.ok.injEq] at h1
            unfold lagMemberLinks at h1
            split at h1
            · rename_i e hn
              cases h1
              simp only [Nat.add_eq_zero_iff] at he
              obtain ⟨-, rfl⟩ := he
              have := normMembers_ok.1 hn
              cases this
              exact ⟨rfl, rfl⟩
            · cases h1
          | num n =>
            rw [hp] at h1
            simp only [Except.ok.injEq] at h1
            exact (hpe _ _ _ h1).elim
          | auto =>
            rw [hp] at h1
            dsimp only at h1
            split at h1
            · cases h1
            · simp only [Except.ok.injEq] at h1
              exact (hpe _ _ _ h1).elim
      · obtain ⟨r', h1, h2⟩ := ih h
        exact ⟨r', List.mem_cons_of_mem _ h1, h2⟩
    | _ =>
      obtain ⟨r', h1, h2⟩ := ih h
      exact ⟨r', List.mem_cons_of_mem _ h1, h2⟩

/-- **C136 (all links are processed).**  Unless an error is reported, all LAG links are processed, provided that no LAG has
an empty list of members. -/
theorem C136_all_processed {env : PeerEnv} {links : List LagOut} {st : LagLinksSt} {b : Bool}
    (h : lagLinks env links = .ok (st, b)) (he : st.errs = 0)
    (hne : ∀ r, .raw r ∈ links → r.peer = .no → r.members ≠ some []) : b = true := by
  cases b with
  | true => rfl
  | false =>
    obtain ⟨r, h1, h2, h3⟩ := lagLinksLoop_stop h he
    exact absurd h2 (hne r h1 h3)

/-- **C136 (invalid members).**  A member that does not connect two different nodes, or has other LAG attributes, is
reported. -/
theorem C136_invalid {env : PeerEnv} {links : List LagOut} {st : LagLinksSt}
    (hu : ∀ l ∈ links, UserLink l) (h : lagLinks env links = .ok (st, true))
    {r : RawLag} {ms : List RawMember} {m : RawMember} (hr : .raw r ∈ links) (hm : r.members = some ms) (hmm : m ∈ ms)
    (hbad : ∀ e, ¬ MemberIs (decide (r.peer ≠ .no)) m e) : st.errs ≠ 0 := by
  intro he
  obtain ⟨i, hi, hg⟩ := List.mem_iff_getElem.1 hr
  have hr' : links[i]? = some (.raw r) := by rw [List.getElem?_eq_getElem hi, hg]
  have key : ∀ p es, List.Forall₂ (MemberIs p) ms es → ∃ e, MemberIs p m e := by
    intro p es hf
    obtain ⟨hlen, hh⟩ := List.forall₂_iff_get.1 hf
    obtain ⟨j, hj, hje⟩ := List.mem_iff_getElem.1 hmm
    have := hh j hj (by omega)
    rw [List.get_eq_getElem, List.get_eq_getElem, hje] at this
    exact ⟨_, this⟩
  obtain ⟨out, -, ms', es, hm', ⟨hp, h1, -⟩ | ⟨hp, h1, -⟩⟩ := lagLinks_done hu h he hr'
  · rw [hm] at hm'
    cases hm'
    obtain ⟨e, hee⟩ := key _ _ h1
    refine hbad e ?_
    rw [hp]
    exact hee
  · rw [hm] at hm'
    cases hm'
    obtain ⟨e, hee⟩ := key _ _ h1
    refine hbad e ?_
    rw [decide_eq_true hp]
    exact hee

/-- Two LAGs, a peer link with two members and two automatic groups. -/
def lagDemo : List LagOut :=
  [.plain 7, .raw ⟨some [⟨["a", "b"], none⟩, ⟨["a", "b"], some (true, 0)⟩], .no⟩,
   .raw ⟨some [⟨["a", "c"], none⟩, ⟨["c", "a"], none⟩], .auto⟩, .raw ⟨some [⟨["x", "y"], none⟩], .num 1⟩]

example : (∀ l ∈ lagDemo, UserLink l) ∧ (match lagLinks ⟨fun _ => "eos", fun _ => true⟩ lagDemo with
    | .ok (st, b) => st.errs = 0 ∧ b = true ∧ st.links =
      [.plain 7, .virtual [("a", "b"), ("a", "b")], .peer 2 ("a", "c"), .peer 1 ("x", "y"),
       .member 2 ("a", "b"), .member 2 ("a", "b"), .peerMore 3 ("c", "a")]
    | .error _ => False) := by
  constructor
  · intro l hl
    simp only [lagDemo, List.mem_cons, List.not_mem_nil, or_false] at hl
    rcases hl with rfl | rfl | rfl | rfl <;> trivial
  · simp [lagDemo, lagLinks, lagLinksLoop, lagLink, lagMemberLinks, normMembers, normMember, badLagAttrs, peerLinks, peerIds,
      userGroups, IdVar.getNext, IdVar.setCounter, IdVar.extend, IdVar.create, nextLoop, morePeerLinks]

/-- **C136 (defect).**  A LAG with an empty list of members is not reported, and it prevents processing of all LAG links after
it: the second LAG gets no member links. -/
theorem C136_empty_members :
    lagLinks ⟨fun _ => "eos", fun _ => true⟩ [.raw ⟨some [], .no⟩, .raw ⟨some [⟨["a", "b"], none⟩], .no⟩] =
      .ok (⟨[.raw ⟨some [], .no⟩, .raw ⟨some [⟨["a", "b"], none⟩], .no⟩], [], peerIds [], 0⟩, false) := by
  decide +kernel

/-- **C136 (defect).**  A peer link with an empty list of members is not reported; the result is a link without nodes. -/
theorem C136_empty_peer (env : PeerEnv) :
    lagLinks env [.raw ⟨some [], .num 1⟩] = .ok (⟨[.peerEmpty 1], [], peerIds [.raw ⟨some [], .num 1⟩], 0⟩, true) := by
  rfl

/-! ### C59: sides of a LAG -/

theorem onSide_true {pairs : List (String × String)} {s : List String} {x y : String} (hy : y ∈ s)
    (h : x = y ∨ pairs.lookup x = some y) : onSide pairs s x = true := by
  unfold onSide
  rcases h with rfl | h
  · simp [hy]
  · simp [h, hy]

theorem onSide_false {pairs : List (String × String)} {A s : List String} {x : String} (hs : ∀ y ∈ s, y ∈ A)
    (hx : x ∉ A) (h : ∀ p, pairs.lookup x = some p → p ∉ A) : onSide pairs s x = false := by
  unfold onSide
  rw [Bool.or_eq_false_iff]
  refine ⟨by simpa using fun hh => hx (hs x hh), ?_⟩
  split
  · rename_i p hp
    simpa using fun hh => h p hp (hs p hh)
  · rfl

theorem sideOk_peer {pairs : List (String × String)} {A : List String} (h : LagSideOk pairs A) {x y : String}
    (hx : x ∈ A) (hy : y ∈ A) : x = y ∨ pairs.lookup x = some y := by
  rcases h with ⟨a, rfl⟩ | ⟨a, b, rfl, h1, h2⟩
  · simp at hx hy; simp [hx, hy]
  · simp only [List.mem_cons, List.not_mem_nil, or_false] at hx hy
    rcases hx with rfl | rfl <;> rcases hy with rfl | rfl <;> simp [h1, h2]

theorem splitMembers_complete {pairs : List (String × String)} {A B : List String} (hA : LagSideOk pairs A)
    (hB : LagSideOk pairs B) (hd : ∀ x ∈ A, x ∉ B) (hab : ∀ x ∈ A, ∀ y, pairs.lookup x = some y → y ∉ B)
    (hba : ∀ x ∈ B, ∀ y, pairs.lookup x = some y → y ∉ A) (ms : List LagMember) (hc : Connects A B ms)
    (s : List String × List String) (h1 : ∀ y ∈ s.1, y ∈ A) (h2 : ∀ y ∈ s.2, y ∈ B) (n1 : ∃ y, y ∈ s.1) (n2 : ∃ y, y ∈ s.2) :
    ∃ t, splitMembers pairs ms s = some t ∧ (∀ y ∈ t.1, y ∈ A) ∧ (∀ y ∈ t.2, y ∈ B) := by
  induction ms generalizing s with
  | nil => exact ⟨s, rfl, h1, h2⟩
  | cons m rest ih =>
    obtain ⟨y1, hy1⟩ := n1
    obtain ⟨y2, hy2⟩ := n2
    have hd' : ∀ x ∈ B, x ∉ A := fun x hx hx' => hd x hx' hx
    have hcr : Connects A B rest := fun m' hm' => hc m' (List.mem_cons_of_mem _ hm')
    have done : ∀ s' : List String × List String, splitMember pairs s m = some s' → (∀ y ∈ s'.1, y ∈ A) →
        (∀ y ∈ s'.2, y ∈ B) → (∃ y, y ∈ s'.1) → (∃ y, y ∈ s'.2) →
        ∃ t, splitMembers pairs (m :: rest) s = some t ∧ (∀ y ∈ t.1, y ∈ A) ∧ (∀ y ∈ t.2, y ∈ B) := by
      intro s' he a1 a2 a3 a4
      obtain ⟨t, ht, q⟩ := ih hcr s' a1 a2 a3 a4
      refine ⟨t, ?_, q⟩
      unfold splitMembers
      rw [he]
      exact ht
    rcases hc m (List.mem_cons_self ..) with ⟨ha, hb⟩ | ⟨ha, hb⟩
    · have e1 := onSide_true (pairs := pairs) hy1 (sideOk_peer hA ha (h1 _ hy1))
      refine done (setAdd s.1 m.a, setAdd s.2 m.b) (by unfold splitMember; rw [e1]; rfl) ?_ ?_ ?_ ?_
      · intro y hy
        rcases mem_setAdd.1 hy with h | rfl
        · exact h1 y h
        · exact ha
      · intro y hy
        rcases mem_setAdd.1 hy with h | rfl
        · exact h2 y h
        · exact hb
      · exact ⟨m.a, mem_setAdd.2 (.inr rfl)⟩
      · exact ⟨m.b, mem_setAdd.2 (.inr rfl)⟩
    · have e1 := onSide_false (pairs := pairs) h1 (hd' _ ha) (hba _ ha)
      have e2 := onSide_false (pairs := pairs) h2 (hd _ hb) (hab _ hb)
      have e3 := onSide_true (pairs := pairs) hy2 (sideOk_peer hB ha (h2 _ hy2))
      refine done (setAdd s.1 m.b, setAdd s.2 m.a) (by unfold splitMember; rw [e1, e2, e3]; rfl) ?_ ?_ ?_ ?_
      · intro y hy
        rcases mem_setAdd.1 hy with h | rfl
        · exact h1 y h
        · exact hb
      · intro y hy
        rcases mem_setAdd.1 hy with h | rfl
        · exact h2 y h
        · exact ha
      · exact ⟨m.b, mem_setAdd.2 (.inr rfl)⟩
      · exact ⟨m.a, mem_setAdd.2 (.inr rfl)⟩

/-- **C59 (supported LAGs).**  A LAG between a node or a pair of MLAG peers, and another node or pair of MLAG peers, is
accepted, whatever the order of member links and of the nodes on each of them; the nodes are divided into these two sides.
No node on one side may be an MLAG peer of a node on the other side. -/
theorem C59_supported {pairs : List (String × String)} {A B : List String} {ms : List LagMember} (hA : LagSideOk pairs A)
    (hB : LagSideOk pairs B) (hd : ∀ x ∈ A, x ∉ B) (hab : ∀ x ∈ A, ∀ y, pairs.lookup x = some y → y ∉ B)
    (hba : ∀ x ∈ B, ∀ y, pairs.lookup x = some y → y ∉ A) (hc : Connects A B ms) (hne : ms ≠ []) :
    ∃ a b, lagSides pairs ms = some (a, b) ∧
      (((∀ y ∈ a, y ∈ A) ∧ ∀ y ∈ b, y ∈ B) ∨ ((∀ y ∈ a, y ∈ B) ∧ ∀ y ∈ b, y ∈ A)) := by
  cases ms with
  | nil => exact absurd rfl hne
  | cons m rest =>
    have hcr : Connects A B rest := fun m' hm' => hc m' (List.mem_cons_of_mem _ hm')
    rcases hc m (List.mem_cons_self ..) with ⟨ha, hb⟩ | ⟨ha, hb⟩
    · obtain ⟨t, ht, h1, h2⟩ := splitMembers_complete hA hB hd hab hba rest hcr ([m.a], [m.b]) (by simpa using ha)
        (by simpa using hb) ⟨m.a, by simp⟩ ⟨m.b, by simp⟩
      exact ⟨t.1, t.2, ht, .inl ⟨h1, h2⟩⟩
    · obtain ⟨t, ht, h1, h2⟩ := splitMembers_complete hB hA (fun x hx hx' => hd x hx' hx) hba hab rest
        (fun m' hm' => (hcr m' hm').symm) ([m.a], [m.b]) (by simpa using ha)
        (by simpa using hb) ⟨m.a, by simp⟩ ⟨m.b, by simp⟩
      exact ⟨t.1, t.2, ht, .inr ⟨h1, h2⟩⟩

/-- A LAG between two pairs of MLAG peers. -/
example : let pairs := mlagPairs [("a", "b"), ("x", "y")]
    LagSideOk pairs ["a", "b"] ∧ LagSideOk pairs ["x", "y"] ∧
    Connects ["a", "b"] ["x", "y"] [⟨"a", "x", none, none⟩, ⟨"y", "b", none, none⟩] ∧
    lagSides pairs [⟨"a", "x", none, none⟩, ⟨"y", "b", none, none⟩] = some (["a", "b"], ["x", "y"]) := by
  refine ⟨.inr ⟨"a", "b", rfl, by decide +kernel, by decide +kernel⟩, .inr ⟨"x", "y", rfl, by decide +kernel, by decide +kernel⟩,
    ?_, by decide +kernel⟩
  intro m hm
  simp only [List.mem_cons, List.not_mem_nil, or_false] at hm
  rcases hm with rfl | rfl <;> simp

/-- **C59 (defect).**  A LAG between two MLAG peers is not recognized when its members list the nodes in different order: both
nodes appear on both sides. -/
theorem C59_lag_between_peers :
    lagSides (mlagPairs [("a", "b")]) [⟨"a", "b", none, none⟩, ⟨"b", "a", none, none⟩] = some (["a", "b"], ["b", "a"]) := by
  decide +kernel

end Netlab
