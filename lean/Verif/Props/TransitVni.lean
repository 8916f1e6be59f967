import Verif.Model.TransitVni
import Verif.Lemmas.Box
/-!
# C22: EVPN transit VNIs
-/

namespace Netlab

theorem getNextVni_spec (start : Int) (used : List Int) :
    start < getNextVni start used ∧ getNextVni start used ∉ used := by
  induction start using getNextVni.induct (used := used) with
  | case1 s h ih =>
    rw [getNextVni, dif_pos h]
    exact ⟨by omega, ih.2⟩
  | case2 s h =>
    rw [getNextVni, dif_neg h]
    exact ⟨by omega, h⟩

theorem transitPass1_spec : ∀ (d : TVniDict) (l : List Int),
    (∀ x ∈ l, x ∈ (transitPass1 true l d).1) ∧
    (∀ x ∈ (transitPass1 true l d).1, x ∈ l ∨ ∃ k, (k, TVni.num x) ∈ d) ∧
    (∀ k n, (k, .num n) ∈ d → n ∈ (transitPass1 true l d).1) ∧
    (transitPass1 true l d).2.2.1 = false ∧
    ((transitPass1 true l d).2.1 = 0 → (d.map (·.1)).Nodup → ∀ k n, d.lookup k = some (.num n) →
      n ∉ l ∧ ∀ k', k' ≠ k → d.lookup k' ≠ some (.num n)) ∧
    ((transitPass1 true l d).2.2.2 = 0 → ∀ k v, (k, v) ∈ d → v = .missing ∨ v = .null)
  | [], l => by simp [transitPass1]
  | (k, v) :: r, l => by
    have skip : ∀ (c : Nat), (∀ n, v ≠ .num n) →
        transitPass1 true l ((k, v) :: r) = ((transitPass1 true l r).1, (transitPass1 true l r).2.1,
          (transitPass1 true l r).2.2.1, (transitPass1 true l r).2.2.2 + c) →
        (c = 0 → v = .missing ∨ v = .null) →
        (∀ x ∈ l, x ∈ (transitPass1 true l ((k, v) :: r)).1) ∧
        (∀ x ∈ (transitPass1 true l ((k, v) :: r)).1, x ∈ l ∨ ∃ j, (j, TVni.num x) ∈ (k, v) :: r) ∧
        (∀ j n, (j, .num n) ∈ (k, v) :: r → n ∈ (transitPass1 true l ((k, v) :: r)).1) ∧
        (transitPass1 true l ((k, v) :: r)).2.2.1 = false ∧
        ((transitPass1 true l ((k, v) :: r)).2.1 = 0 → (((k, v) :: r).map (·.1)).Nodup →
          ∀ j n, ((k, v) :: r).lookup j = some (.num n) →
          n ∉ l ∧ ∀ k', k' ≠ j → ((k, v) :: r).lookup k' ≠ some (.num n)) ∧
        ((transitPass1 true l ((k, v) :: r)).2.2.2 = 0 →
          ∀ j w, (j, w) ∈ (k, v) :: r → w = .missing ∨ w = .null) := by
      intro c hv heq hc
      obtain ⟨h1, h2, h3, h4, h5, h6⟩ := transitPass1_spec r l
      rw [heq]
      refine ⟨h1, ?_, ?_, h4, ?_, ?_⟩
      · intro x hx
        rcases h2 x hx with h | ⟨j, h⟩
        · exact .inl h
        · exact .inr ⟨j, List.mem_cons_of_mem _ h⟩
      · intro j n hj
        rcases List.mem_cons.1 hj with h | h
        · cases h; exact absurd rfl (hv n)
        · exact h3 j n h
      · intro he hnd j n hj
        rw [List.map_cons, List.nodup_cons] at hnd
        have hjk : j ≠ k := by
          rintro rfl
          rw [lookup_cons_self] at hj
          exact hv n (Option.some.inj hj)
        rw [lookup_cons_ne _ _ hjk] at hj
        obtain ⟨a, b⟩ := h5 he hnd.2 j n hj
        refine ⟨a, fun k' hk' => ?_⟩
        by_cases e : k' = k
        · subst e
          rw [lookup_cons_self]
          intro x
          exact hv n (Option.some.inj x)
        · rw [lookup_cons_ne _ _ e]
          exact b k' hk'
      · intro hcount j w hj
        simp only at hcount
        rcases List.mem_cons.1 hj with h | h
        · cases h; exact hc (by omega)
        · exact h6 (by omega) j w h
    cases v with
    | missing => exact skip 0 (by simp) (by simp [transitPass1, TVni.truthy]) (by simp)
    | null => exact skip 0 (by simp) (by simp [transitPass1, TVni.truthy]) (by simp)
    | flag b => exact skip 1 (by simp) (by simp [transitPass1]) (by simp)
    | ref s => exact skip 1 (by simp) (by simp [transitPass1]) (by simp)
    | num n =>
      by_cases hn : n ∈ l
      · obtain ⟨h1, h2, h3, h4, h5, h6⟩ := transitPass1_spec r l
        have heq : transitPass1 true l ((k, .num n) :: r) =
          ((transitPass1 true l r).1, (transitPass1 true l r).2.1 + 1,
            (transitPass1 true l r).2.2.1, (transitPass1 true l r).2.2.2 + 1) := by
          simp [transitPass1, hn]
        rw [heq]
        refine ⟨h1, ?_, ?_, h4, by simp, by simp⟩
        · intro x hx
          rcases h2 x hx with h | ⟨j, h⟩
          · exact .inl h
          · exact .inr ⟨j, List.mem_cons_of_mem _ h⟩
        · intro j m hj
          rcases List.mem_cons.1 hj with h | h
          · cases h; exact h1 _ hn
          · exact h3 j m h
      · obtain ⟨h1, h2, h3, h4, h5, h6⟩ := transitPass1_spec r (l ++ [n])
        have heq : transitPass1 true l ((k, .num n) :: r) =
          ((transitPass1 true (l ++ [n]) r).1, (transitPass1 true (l ++ [n]) r).2.1,
            (transitPass1 true (l ++ [n]) r).2.2.1, (transitPass1 true (l ++ [n]) r).2.2.2 + 1) := by
          simp [transitPass1, hn]
        rw [heq]
        refine ⟨fun x hx => h1 x (by simp [hx]), ?_, ?_, h4, ?_, by simp⟩
        · intro x hx
          rcases h2 x hx with h | ⟨j, h⟩
          · rw [List.mem_append, List.mem_singleton] at h
            rcases h with h | rfl
            · exact .inl h
            · exact .inr ⟨k, by simp⟩
          · exact .inr ⟨j, List.mem_cons_of_mem _ h⟩
        · intro j m hj
          rcases List.mem_cons.1 hj with h | h
          · cases h; exact h1 _ (by simp)
          · exact h3 j m h
        · intro he hnd j m hj
          rw [List.map_cons, List.nodup_cons] at hnd
          by_cases e : j = k
          · subst e
            rw [lookup_cons_self] at hj
            cases hj
            refine ⟨hn, fun k' hk' hl => ?_⟩
            rw [lookup_cons_ne _ _ hk'] at hl
            exact (h5 he hnd.2 k' n hl).1 (by simp)
          · rw [lookup_cons_ne _ _ e] at hj
            obtain ⟨a, b⟩ := h5 he hnd.2 j m hj
            simp only [List.mem_append, List.mem_singleton, not_or] at a
            refine ⟨a.1, fun k' hk' => ?_⟩
            by_cases ek : k' = k
            · subst ek
              rw [lookup_cons_self]
              intro x
              cases x
              exact a.2 rfl
            · rw [lookup_cons_ne _ _ ek]
              exact b k' hk'

/-- What the second pass does to a value (`s0` is the first automatic VNI) -/
def Pass2Rel (used : List Int) (s0 start : Int) : TVni → TVni → Prop
  | .missing, w => w = .missing
  | .null, _ => False
  | .ref s, w => w = .ref s
  | .flag false, w => w = .missing
  | .flag true, w => ∃ n, w = .num n ∧ start ≤ n ∧ 4096 ≤ n ∧ n ≤ 16777215 ∧ (n ∈ used → n = s0)
  | .num n, w => w = .num n ∧ 4096 ≤ n ∧ n ≤ 16777215

theorem Pass2Rel.mono {used : List Int} {s0 s s' : Int} (h : s ≤ s') {v w : TVni}
    (hr : Pass2Rel used s0 s' v w) : Pass2Rel used s0 s v w := by
  cases v with
  | flag b =>
    cases b with
    | false => exact hr
    | true =>
      obtain ⟨n, h1, h2, h3⟩ := hr
      exact ⟨n, h1, by omega, h3⟩
  | missing => exact hr
  | null => exact hr
  | num n => exact hr
  | ref s => exact hr

theorem transitPass2_spec {used : List Int} {s0 : Int} : ∀ (d : TVniDict) (start : Int),
    (start ∈ used → start = s0) →
    (∀ k n, (k, .num n) ∈ d → n ∈ used) →
    (transitPass2 used start d).2 = 0 →
    (∀ k, (d.lookup k = none ∧ (transitPass2 used start d).1.lookup k = none) ∨
      ∃ v w, d.lookup k = some v ∧ (transitPass2 used start d).1.lookup k = some w ∧
        Pass2Rel used s0 start v w) ∧
    ∀ k k', k ≠ k' → d.lookup k = some (.flag true) → d.lookup k' = some (.flag true) →
      (transitPass2 used start d).1.lookup k ≠ (transitPass2 used start d).1.lookup k'
  | [], start, _, _, _ => by simp [transitPass2]
  | (k0, v) :: r, start, hs, hd, he => by
    have hd' : ∀ k n, (k, TVni.num n) ∈ r → n ∈ used := fun k n h => hd k n (List.mem_cons_of_mem _ h)
    -- one step: the head becomes `w`, the tail continues with `s'`
    have step : ∀ (w : TVni) (s' : Int), (s' ∈ used → s' = s0) → start ≤ s' → Pass2Rel used s0 start v w →
        (v = .flag true → w = .num start ∧ start < s') →
        transitPass2 used start ((k0, v) :: r) =
          ((k0, w) :: (transitPass2 used s' r).1, (transitPass2 used s' r).2) →
        (∀ k, (((k0, v) :: r).lookup k = none ∧
            (transitPass2 used start ((k0, v) :: r)).1.lookup k = none) ∨
          ∃ x y, ((k0, v) :: r).lookup k = some x ∧
            (transitPass2 used start ((k0, v) :: r)).1.lookup k = some y ∧ Pass2Rel used s0 start x y) ∧
        ∀ k k', k ≠ k' → ((k0, v) :: r).lookup k = some (.flag true) →
          ((k0, v) :: r).lookup k' = some (.flag true) →
          (transitPass2 used start ((k0, v) :: r)).1.lookup k ≠
            (transitPass2 used start ((k0, v) :: r)).1.lookup k' := by
      intro w s' hs' hle hrel htrue heq
      rw [heq] at he ⊢
      simp only at he ⊢
      obtain ⟨a, b⟩ := transitPass2_spec r s' hs' hd' he
      have fresh : v = .flag true → ∀ k', k' ≠ k0 → r.lookup k' = some (.flag true) →
          (transitPass2 used s' r).1.lookup k' ≠ some w := by
        intro hv k' _ hl hx
        obtain ⟨rfl, hlt⟩ := htrue hv
        rcases a k' with ⟨x, -⟩ | ⟨x, y, e1, e2, e3⟩
        · rw [x] at hl; cases hl
        · rw [hl] at e1
          obtain rfl := Option.some.inj e1
          obtain ⟨n, rfl, h2, -⟩ := e3
          rw [hx] at e2
          cases e2
          omega
      refine ⟨fun k => ?_, ?_⟩
      · by_cases e : k = k0
        · subst e
          exact .inr ⟨v, w, lookup_cons_self .., lookup_cons_self .., hrel⟩
        · rw [lookup_cons_ne _ _ e, lookup_cons_ne _ _ e]
          rcases a k with h | ⟨x, y, e1, e2, e3⟩
          · exact .inl h
          · exact .inr ⟨x, y, e1, e2, e3.mono hle⟩
      · intro k k' hkk h1 h2
        by_cases e : k = k0
        · subst e
          rw [lookup_cons_self] at h1
          rw [lookup_cons_ne _ _ (Ne.symm hkk)] at h2
          rw [lookup_cons_self, lookup_cons_ne _ _ (Ne.symm hkk)]
          exact fun x => fresh (Option.some.inj h1) k' (Ne.symm hkk) h2 x.symm
        · rw [lookup_cons_ne _ _ e] at h1 ⊢
          by_cases e' : k' = k0
          · subst e'
            rw [lookup_cons_self] at h2 ⊢
            exact fresh (Option.some.inj h2) k e h1
          · rw [lookup_cons_ne _ _ e'] at h2 ⊢
            exact b k k' hkk h1 h2
    cases v with
    | missing => exact step .missing start hs (Int.le_refl _) rfl (by simp) (by simp [transitPass2])
    | ref s => exact step (.ref s) start hs (Int.le_refl _) rfl (by simp) (by simp [transitPass2])
    | null => simp [transitPass2] at he
    | flag b =>
      cases b with
      | false =>
        exact step .missing start hs (Int.le_refl _) rfl (by simp) (by simp [transitPass2])
      | true =>
        by_cases hr : start < 4096 ∨ start > 16777215
        · simp [transitPass2, hr] at he
        · obtain ⟨g1, g2⟩ := getNextVni_spec start used
          exact step (.num start) (getNextVni start used) (fun h => absurd h g2) (by omega)
            ⟨start, rfl, Int.le_refl _, by omega, by omega, hs⟩ (fun _ => ⟨rfl, g1⟩)
            (by simp [transitPass2, hr])
    | num n =>
      by_cases hr : n < 4096 ∨ n > 16777215
      · simp [transitPass2, hr] at he
      · by_cases hne : n = start
        · obtain ⟨g1, g2⟩ := getNextVni_spec start used
          exact step (.num n) (getNextVni start used) (fun h => absurd h g2) (by omega)
            ⟨rfl, by omega, by omega⟩ (by simp) (by
              subst hne
              simp [transitPass2, hr])
        · exact step (.num n) start hs (Int.le_refl _) ⟨rfl, by omega, by omega⟩ (by simp)
            (by simp [transitPass2, hr, hne])

theorem transitPass3_spec : ∀ (ks : List String) (d : TVniDict), (transitPass3 d ks).2 = 0 →
    (∀ k v, d.lookup k = some v → (∀ s, v ≠ .ref s) → (transitPass3 d ks).1.lookup k = some v) ∧
    (∀ k, ((transitPass3 d ks).1.lookup k).isSome = (d.lookup k).isSome) ∧
    (∀ k s, d.lookup k = some (.ref s) → (transitPass3 d ks).1.lookup k = some (.ref s) ∨
      ∃ n, (transitPass3 d ks).1.lookup k = some (.num n) ∧
        (transitPass3 d ks).1.lookup s = some (.num n)) ∧
    (∀ k ∈ ks, ∀ s, (transitPass3 d ks).1.lookup k ≠ some (.ref s))
  | [], d, _ => by
    exact ⟨fun k v h _ => h, fun _ => rfl, fun k s h => .inl h, by simp⟩
  | k0 :: ks, d, he => by
    simp only [transitPass3] at he ⊢
    have skip : (∀ s, d.lookup k0 ≠ some (.ref s)) → (transitPass3 d ks).2 = 0 →
        (∀ k v, d.lookup k = some v → (∀ s, v ≠ .ref s) → (transitPass3 d ks).1.lookup k = some v) ∧
        (∀ k, ((transitPass3 d ks).1.lookup k).isSome = (d.lookup k).isSome) ∧
        (∀ k s, d.lookup k = some (.ref s) → (transitPass3 d ks).1.lookup k = some (.ref s) ∨
          ∃ n, (transitPass3 d ks).1.lookup k = some (.num n) ∧
            (transitPass3 d ks).1.lookup s = some (.num n)) ∧
        (∀ k ∈ k0 :: ks, ∀ s, (transitPass3 d ks).1.lookup k ≠ some (.ref s)) := by
      intro hn he
      obtain ⟨a, b, c, e⟩ := transitPass3_spec ks d he
      refine ⟨a, b, c, fun k hk s => ?_⟩
      rcases List.mem_cons.1 hk with rfl | hk
      · cases hl : d.lookup k with
        | none =>
          have := b k
          rw [hl] at this
          intro hx
          rw [hx] at this
          cases this
        | some v =>
          rw [a k v hl (fun s hs => hn s (by rw [hl, hs]))]
          intro hx
          exact hn s (by rw [hl]; exact hx)
      · exact e k hk s
    cases hl : d.lookup k0 with
    | none =>
      simp only [hl] at he
      exact skip (by simp [hl]) he
    | some v =>
      cases v with
      | missing => simp only [hl] at he; exact skip (by simp [hl]) he
      | null => simp only [hl] at he; exact skip (by simp [hl]) he
      | num n => simp only [hl] at he; exact skip (by simp [hl]) he
      | flag b => simp only [hl] at he; exact skip (by simp [hl]) he
      | ref s =>
        simp only [hl] at he
        cases hs : d.lookup s with
        | none => simp [hs] at he
        | some w =>
          cases w with
          | missing => simp [hs] at he
          | null => simp [hs] at he
          | flag b => simp [hs] at he
          | ref b => simp [hs] at he
          | num n =>
            simp only [hs] at he ⊢
            obtain ⟨a, b, c, e⟩ := transitPass3_spec ks (setKey d k0 (.num n)) he
            have hk0 : (setKey d k0 (.num n)).lookup k0 = some (.num n) := by
              rw [lookup_setKey, if_pos rfl]
            have hsk : s ≠ k0 := by
              rintro rfl
              rw [hl] at hs; cases hs
            have fin : (transitPass3 (setKey d k0 (.num n)) ks).1.lookup k0 = some (.num n) :=
              a k0 _ hk0 (by simp)
            have fins : (transitPass3 (setKey d k0 (.num n)) ks).1.lookup s = some (.num n) :=
              a s _ (by rw [lookup_setKey, if_neg hsk]; exact hs) (by simp)
            refine ⟨fun k v hk hv => ?_, fun k => ?_, fun k s' hk => ?_, fun k hk s' => ?_⟩
            · have : k ≠ k0 := by
                rintro rfl
                rw [hl] at hk
                cases hk
                exact hv s rfl
              exact a k v (by rw [lookup_setKey, if_neg this]; exact hk) hv
            · rw [b k, lookup_setKey]
              by_cases e0 : k = k0
              · subst e0; simp [hl]
              · simp [e0]
            · by_cases e0 : k = k0
              · subst e0
                rw [hl] at hk
                cases hk
                exact .inr ⟨n, fin, fins⟩
              · exact c k s' (by rw [lookup_setKey, if_neg e0]; exact hk)
            · rcases List.mem_cons.1 hk with rfl | hk
              · rw [fin]; simp
              · exact e k hk s'

/-- The three passes together -/
theorem transit_facts {start : Int} {d d' : TVniDict} (hnd : (d.map (·.1)).Nodup)
    (h : vrfTransitVni true start d = (d', 0)) :
    ((d' = d ∧ ∀ k v, d.lookup k = some v → v = .missing ∨ v = .null)) ∨
    ∃ (used : List Int) (d2 : TVniDict), (∀ k n, d.lookup k = some (.num n) → n ∈ used) ∧
      (∀ k, (d.lookup k = none ∧ d2.lookup k = none) ∨
        ∃ v w, d.lookup k = some v ∧ d2.lookup k = some w ∧ Pass2Rel used start start v w) ∧
      (∀ k k', k ≠ k' → d.lookup k = some (.flag true) → d.lookup k' = some (.flag true) →
        d2.lookup k ≠ d2.lookup k') ∧
      (∀ k n, d.lookup k = some (.num n) → ∀ k', k' ≠ k → d.lookup k' ≠ some (.num n)) ∧
      (∀ k v, d2.lookup k = some v → (∀ s, v ≠ .ref s) → d'.lookup k = some v) ∧
      (∀ k s, d2.lookup k = some (.ref s) →
        ∃ n, d'.lookup k = some (.num n) ∧ d'.lookup s = some (.num n)) := by
  unfold vrfTransitVni at h
  obtain ⟨h1, h2, h3, h4, h5, h6⟩ := transitPass1_spec d []
  generalize transitPass1 true [] d = P at h h1 h2 h3 h4 h5 h6
  obtain ⟨used, e1, bad, count⟩ := P
  simp only at h h1 h2 h3 h4 h5 h6
  subst h4
  simp only [Bool.false_eq_true, if_false] at h
  by_cases hc : count = 0
  · rw [if_pos hc] at h
    simp only [Prod.mk.injEq] at h
    exact .inl ⟨h.1.symm, fun k v hk => h6 hc k v (mem_of_lookup hk)⟩
  · rw [if_neg hc] at h
    simp only [Prod.mk.injEq] at h
    obtain ⟨rfl, he⟩ := h
    right
    obtain ⟨a, b⟩ := transitPass2_spec d start (fun _ => rfl) h3 (by omega)
    obtain ⟨c1, c2, c3, c4⟩ := transitPass3_spec (d.map (·.1)) (transitPass2 used start d).1 (by omega)
    refine ⟨used, _, fun k n hk => h3 k n (mem_of_lookup hk), a, b,
      fun k n hk => (h5 (by omega) hnd k n hk).2, c1, fun k s hk => ?_⟩
    rcases c3 k s hk with hx | hx
    · exfalso
      rcases a k with ⟨-, y⟩ | ⟨v, w, y, -⟩
      · rw [hk] at y; cases y
      · exact c4 k (List.mem_map.2 ⟨(k, v), mem_of_lookup y, rfl⟩) s hx
    · exact hx

/-- C22: with VXLAN transport and no errors, two VRFs whose transit VNI is a number or `true` end
up with different VNIs.  The only exception is the first automatic VNI, which may be equal to a static VNI (see
`C22_first_auto_vni_clashes`). -/
theorem C22_transit_vnis_differ (start : Int) (d d' : TVniDict)
    (hnd : (d.map (·.1)).Nodup)
    (h : vrfTransitVni true start d = (d', 0)) (k k' : String) (hk : k ≠ k') (n : Int)
    (h1 : d.lookup k = some (.flag true) ∨ ∃ m, d.lookup k = some (.num m))
    (h2 : d.lookup k' = some (.flag true) ∨ ∃ m, d.lookup k' = some (.num m))
    (hn : d'.lookup k = some (.num n)) (hn' : d'.lookup k' = some (.num n)) :
    n = start ∧ ((d.lookup k = some (.flag true) ∧ d.lookup k' = some (.num start)) ∨
      (d.lookup k = some (.num start) ∧ d.lookup k' = some (.flag true))) := by
  rcases transit_facts hnd h with ⟨-, x⟩ | ⟨used, d2, a, b, c, e, f, g⟩
  · rcases h1 with h1 | ⟨m, h1⟩ <;> have := x _ _ h1 <;> simp at this
  · have auto : ∀ j, d.lookup j = some (.flag true) →
        ∃ i, d2.lookup j = some (.num i) ∧ d'.lookup j = some (.num i) ∧ (i ∈ used → i = start) := by
      intro j hj
      rcases b j with ⟨x, -⟩ | ⟨v, w, x, y, z⟩
      · rw [x] at hj; cases hj
      · rw [hj] at x
        obtain rfl := Option.some.inj x
        obtain ⟨i, rfl, -, -, -, z⟩ := z
        exact ⟨i, y, f j _ y (by simp), z⟩
    have stat : ∀ j i, d.lookup j = some (.num i) → d'.lookup j = some (.num i) := by
      intro j i hj
      rcases b j with ⟨x, -⟩ | ⟨v, w, x, y, z⟩
      · rw [x] at hj; cases hj
      · rw [hj] at x
        obtain rfl := Option.some.inj x
        obtain ⟨rfl, -⟩ := z
        exact f j _ y (by simp)
    rcases h1 with h1 | ⟨m, h1⟩
    · obtain ⟨i, x1, x2, x3⟩ := auto k h1
      rw [hn] at x2
      cases x2
      rcases h2 with h2 | ⟨m', h2⟩
      · obtain ⟨i', y1, y2, y3⟩ := auto k' h2
        rw [hn'] at y2
        cases y2
        exact absurd (x1.trans y1.symm) (c k k' hk h1 h2)
      · have := stat k' m' h2
        rw [hn'] at this
        cases this
        have e := x3 (a k' n h2)
        subst e
        exact ⟨rfl, .inl ⟨h1, h2⟩⟩
    · have := stat k m h1
      rw [hn] at this
      cases this
      rcases h2 with h2 | ⟨m', h2⟩
      · obtain ⟨i', y1, y2, y3⟩ := auto k' h2
        rw [hn'] at y2
        cases y2
        have e := y3 (a k n h1)
        subst e
        exact ⟨rfl, .inr ⟨h1, h2⟩⟩
      · have := stat k' m' h2
        rw [hn'] at this
        cases this
        exact absurd h2 (e k n h1 k' (Ne.symm hk))

/-- C22: under the same conditions static VNIs are kept, `true` becomes a VNI between the start value and
16777215 (and at least 4096), `false` removes the transit VNI and a VRF name becomes the VNI of
that VRF. -/
theorem C22_transit_vni_values (start : Int) (d d' : TVniDict)
    (hnd : (d.map (·.1)).Nodup)
    (h : vrfTransitVni true start d = (d', 0)) (k : String) :
    (∀ n, d.lookup k = some (.num n) → d'.lookup k = some (.num n) ∧ 4096 ≤ n ∧ n ≤ 16777215) ∧
    (d.lookup k = some (.flag true) →
      ∃ n, d'.lookup k = some (.num n) ∧ start ≤ n ∧ 4096 ≤ n ∧ n ≤ 16777215) ∧
    (d.lookup k = some (.flag false) → d'.lookup k = some .missing) ∧
    (∀ s, d.lookup k = some (.ref s) →
      ∃ n, d'.lookup k = some (.num n) ∧ d'.lookup s = some (.num n)) := by
  rcases transit_facts hnd h with ⟨-, x⟩ | ⟨used, d2, a, b, c, e, f, g⟩
  · refine ⟨fun n hn => ?_, fun hn => ?_, fun hn => ?_, fun s hn => ?_⟩ <;>
      have := x _ _ hn <;> simp at this
  · have hb : ∀ v, d.lookup k = some v → ∃ w, d2.lookup k = some w ∧ Pass2Rel used start start v w := by
      intro v hv
      rcases b k with ⟨x, -⟩ | ⟨v', w, x, y, z⟩
      · rw [x] at hv; cases hv
      · rw [hv] at x
        obtain rfl := Option.some.inj x
        exact ⟨w, y, z⟩
    refine ⟨fun n hn => ?_, fun hn => ?_, fun hn => ?_, fun s hn => ?_⟩
    · obtain ⟨w, y, rfl, z⟩ := hb _ hn
      exact ⟨f k _ y (by simp), z⟩
    · obtain ⟨w, y, n, rfl, z1, z2, z3, -⟩ := hb _ hn
      exact ⟨n, f k _ y (by simp), z1, z2, z3⟩
    · obtain ⟨w, y, z⟩ := hb _ hn
      have z' : w = .missing := z
      subst z'
      exact f k _ y (by simp)
    · obtain ⟨w, y, z⟩ := hb _ hn
      have z' : w = .ref s := z
      subst z'
      exact g k s y

/-- Non-vacuity: two automatic VNIs around a static one, and a shared VNI -/
example : vrfTransitVni true 200000
    [("a", .flag true), ("b", .num 200001), ("c", .ref "a"), ("d", .flag true), ("e", .missing)] =
    ([("a", .num 200000), ("b", .num 200001), ("c", .num 200000), ("d", .num 200002),
      ("e", .missing)], 0) := by
  decide +kernel

/-- C22 fails in general: the first automatic VNI is not compared with static VNIs, so a VRF with
an automatic VNI can share the VNI with another VRF, without an error. -/
theorem C22_first_auto_vni_clashes :
    vrfTransitVni true 200000 [("a", .flag true), ("b", .num 200000)] =
      ([("a", .num 200000), ("b", .num 200000)], 0) := by
  decide +kernel

/-- C22: without VXLAN transport, every VRF with a transit VNI is an error. -/
theorem C22_mpls_transit_vni_error (start : Int) (d : TVniDict) (k : String) (v : TVni)
    (hk : (k, v) ∈ d) (hv : v.truthy = true) : 0 < (vrfTransitVni false start d).2 := by
  have key : ∀ (d : TVniDict) (l : List Int), (k, v) ∈ d → 0 < (transitPass1 false l d).2.1 := by
    intro d
    induction d with
    | nil => simp
    | cons x r ih =>
      obtain ⟨k0, w⟩ := x
      intro l hm
      by_cases hw : w.truthy = true
      · simp [transitPass1, hw]
      · have hmem : (k, v) ∈ r := by
          rcases List.mem_cons.1 hm with e | e
          · cases e; exact absurd hv hw
          · exact e
        simp only [transitPass1]
        rw [if_neg (by simp [hw])]
        cases w with
        | missing => exact ih l hmem
        | null => exact ih l hmem
        | flag b => exact ih l hmem
        | ref b => exact ih l hmem
        | num n =>
          by_cases hn : n ∈ l
          · simp [hn]
          · simp only [hn, if_false]
            exact ih _ hmem
  have := key d [] hk
  unfold vrfTransitVni
  generalize transitPass1 false [] d = P at this
  obtain ⟨used, e1, bad, count⟩ := P
  simp only at this ⊢
  split
  · exact this
  · split
    · exact this
    · simp only; omega

/-- C22: in that case no transit VNI is changed. -/
theorem C22_mpls_transit_vni_unchanged (start : Int) (d : TVniDict) (k : String) (v : TVni)
    (hk : (k, v) ∈ d) (hv : v.truthy = true) : (vrfTransitVni false start d).1 = d := by
  have key : ∀ (d : TVniDict) (l : List Int), (k, v) ∈ d → (transitPass1 false l d).2.2.1 = true := by
    intro d
    induction d with
    | nil => simp
    | cons x r ih =>
      obtain ⟨k0, w⟩ := x
      intro l hm
      by_cases hw : w.truthy = true
      · simp [transitPass1, hw]
      · have hmem : (k, v) ∈ r := by
          rcases List.mem_cons.1 hm with e | e
          · cases e; exact absurd hv hw
          · exact e
        simp only [transitPass1]
        rw [if_neg (by simp [hw])]
        cases w with
        | missing => exact ih l hmem
        | null => exact ih l hmem
        | flag b => exact ih l hmem
        | ref b => exact ih l hmem
        | num n =>
          by_cases hn : n ∈ l
          · simp only [hn, if_true]
            exact ih _ hmem
          · simp only [hn, if_false]
            exact ih _ hmem
  have := key d [] hk
  unfold vrfTransitVni
  generalize transitPass1 false [] d = P at this
  obtain ⟨used, e1, bad, count⟩ := P
  simp only at this ⊢
  simp [this]

/-- Non-vacuity: one VRF with a transit VNI is enough to stop the allocation. -/
example : vrfTransitVni false 200000 [("a", .num 5000), ("b", .flag false)] =
    ([("a", .num 5000), ("b", .flag false)], 1) := by
  decide +kernel

end Netlab
