import Verif.Spec.NodeDevice
import Verif.Lemmas.Box

namespace Netlab

open Spec

/-! ### Provider -/

theorem ndProvider_spec (env : NdEnv) (n : List (String × Val)) (sec : List String) :
    (ndProvider env n sec = none ∧ ¬ GoodProvider env n) ∨
    ∃ m s, ndProvider env n sec = some (m, s) ∧ GoodProvider env n ∧
      (∀ k, k ≠ "provider" → m.lookup k = n.lookup k) ∧
      (n.lookup "provider" = some (.str env.top) → m.lookup "provider" = none) ∧
      (n.lookup "provider" ≠ some (.str env.top) → m.lookup "provider" = n.lookup "provider") ∧
      (∀ q, q ∈ s ↔ q ∈ sec ∨ (n.lookup "provider" = some (.str q) ∧ q ≠ env.top)) := by
  unfold ndProvider
  cases hp : n.lookup "provider" with
  | none =>
    right
    exact ⟨n, sec, rfl, fun v h => (by rw [hp] at h; cases h), fun k _ => rfl, fun h => (nomatch h), fun _ => hp, fun q => by simp⟩
  | some v =>
    have bad : (∀ p, v ≠ .str p) → ¬ GoodProvider env n := by
      intro hv hg
      rcases hg v hp with h | ⟨p, h, _⟩
      · exact hv _ h
      · exact hv _ h
    cases v with
    | str p =>
      simp only
      by_cases ht : p = env.top
      · right
        rw [if_pos ht]
        refine ⟨_, _, rfl, fun v h => ?_, fun k hk => ?_, fun _ => ?_, fun h => ?_, fun q => ?_⟩
        · rw [hp] at h; cases h; exact Or.inl (by rw [ht])
        · rw [lookup_popKey, if_neg hk]
        · rw [lookup_popKey, if_pos rfl]
        · exact absurd (by rw [ht]) h
        · constructor
          · exact Or.inl
          · rintro (h | ⟨h, hq⟩)
            · exact h
            · cases h; exact absurd ht hq
      · rw [if_neg ht]
        by_cases h1 : (env.provs.lookup p).isNone = true
        · left
          rw [if_pos h1]
          refine ⟨rfl, fun hg => ?_⟩
          rcases hg _ hp with h | ⟨q, h, ⟨x, hx⟩, _⟩
          · cases h; exact ht rfl
          · cases h; rw [hx] at h1; cases h1
        · rw [if_neg h1]
          by_cases h2 : (!ndHas (env.provs.lookup env.top) p) = true
          · left
            rw [if_pos h2]
            refine ⟨rfl, fun hg => ?_⟩
            rcases hg _ hp with h | ⟨q, h, _, x, y, hx, hy⟩
            · cases h; exact ht rfl
            · cases h
              rw [hx] at h2
              simp [ndHas, hy] at h2
          · right
            rw [if_neg h2]
            refine ⟨_, _, rfl, fun v h => ?_, fun k _ => rfl, fun h => ?_, fun _ => hp, fun q => ?_⟩
            · rw [hp] at h; cases h
              right
              refine ⟨p, rfl, ?_, ?_⟩
              · cases hx : env.provs.lookup p with
                | none => rw [hx] at h1; exact absurd rfl h1
                | some x => exact ⟨x, rfl⟩
              · cases hx : env.provs.lookup env.top with
                | none => rw [hx] at h2; simp [ndHas] at h2
                | some x =>
                  rw [hx] at h2
                  cases x with
                  | dict d =>
                    cases hy : d.lookup p with
                    | none => simp [ndHas, hy] at h2
                    | some y => exact ⟨d, y, rfl, hy⟩
                  | _ => simp [ndHas] at h2
            · cases h
              exact absurd rfl ht
            · by_cases hc : sec.contains p = true
              · rw [if_pos hc]
                constructor
                · exact Or.inl
                · rintro (h | ⟨h, _⟩)
                  · exact h
                  · cases h; exact List.contains_iff_mem.1 hc
              · rw [if_neg hc, List.mem_append, List.mem_singleton]
                constructor
                · rintro (h | rfl)
                  · exact Or.inl h
                  · exact Or.inr ⟨rfl, ht⟩
                · rintro (h | ⟨h, _⟩)
                  · exact Or.inl h
                  · cases h; exact Or.inr rfl
    | _ => exact Or.inl ⟨rfl, bad (by simp)⟩

/-! ### Device -/

theorem ndDefault_lookup (env : NdEnv) (n : List (String × Val)) (k : String) :
    (ndDefault env n).lookup k = if k = "device" then some (askedDevice env n) else n.lookup k := by
  unfold ndDefault askedDevice
  cases h : n.lookup "device" with
  | none =>
    simp only [Option.isNone_none, if_true, lookup_setKey, Option.getD_none]
  | some v =>
    simp only [Option.isNone_some, Bool.false_eq_true, if_false, Option.getD_some]
    by_cases hk : k = "device"
    · subst hk; simp [h]
    · simp [hk]

theorem ndDevProv_lookup (env : NdEnv) (dev n : List (String × Val)) (k : String) :
    (ndDevProv env dev n).lookup k = if k = "provider" then
      (match dev.lookup "provider" with
      | some (.str p) => if p = env.top then n.lookup "provider" else some (.str p)
      | some v => some v
      | none => n.lookup "provider") else n.lookup k := by
  unfold ndDevProv
  cases h : dev.lookup "provider" with
  | none => by_cases hk : k = "provider" <;> simp [hk]
  | some v =>
    cases v with
    | str p =>
      simp only
      by_cases hp : p = env.top
      · rw [if_pos hp, if_pos hp]
        by_cases hk : k = "provider" <;> simp [hk]
      · rw [if_neg hp, if_neg hp, lookup_setKey]
    | _ => simp only [lookup_setKey]

theorem ndDevMod_lookup (dev n : List (String × Val)) (k : String) :
    (ndDevMod dev n).lookup k = if k = "module" then modulesOf dev n else n.lookup k := by
  unfold ndDevMod modulesOf
  cases h : ndPath dev "node" "module" with
  | none => by_cases hk : k = "module" <;> simp [hk]
  | some m =>
    simp only
    by_cases hm : m.truthy = true
    · cases hn : n.lookup "module" with
      | none => by_cases hk : k = "module" <;> simp [hm, hk, lookup_setKey, Option.filter]
      | some v => by_cases hk : k = "module" <;> simp [hm, hk, hn]
    · by_cases hk : k = "module" <;> simp [hm, hk, Option.filter]

theorem ndDevice_spec (env : NdEnv) (n : List (String × Val)) :
    (ndDevice env n = .err ∧ ¬ ∃ d v, askedDevice env n = .str d ∧ d ≠ "" ∧ env.devs.lookup d = some v) ∨
    (ndDevice env n = .fatal ∧ ∃ d v, askedDevice env n = .str d ∧ env.devs.lookup d = some v ∧ v.isDict = false) ∨
    ∃ d dev, KnownDevice env n d dev ∧ ndDevice env n = .ok (ndDevMod dev (ndDevProv env dev (ndDefault env n))) := by
  unfold ndDevice
  rw [ndDefault_lookup, if_pos rfl]
  cases ha : askedDevice env n with
  | str d =>
    simp only
    by_cases hd : d = ""
    · left
      refine ⟨if_pos hd, ?_⟩
      rintro ⟨e, v, h, h', _⟩
      cases h; exact h' hd
    · rw [if_neg hd]
      cases hl : env.devs.lookup d with
      | none =>
        left
        refine ⟨rfl, ?_⟩
        rintro ⟨e, v, h, _, h'⟩
        cases h; rw [hl] at h'; cases h'
      | some v =>
        cases v with
        | dict dev => exact Or.inr (Or.inr ⟨d, dev, ⟨ha, hd, hl⟩, rfl⟩)
        | _ => exact Or.inr (Or.inl ⟨rfl, d, _, rfl, hl, rfl⟩)
  | _ =>
    left
    refine ⟨rfl, ?_⟩
    rintro ⟨e, v, h, _⟩
    cases h

/-! ### Image -/

theorem ndProvData_lookup (p : String) (pdata n m : List (String × Val)) (h : ndProvData p pdata n = .ok m) :
    (∀ k, k ≠ p → m.lookup k = n.lookup k) ∧
    ((pdata.lookup "node" = none ∧ m.lookup p = n.lookup p) ∨
      ∃ x y, pdata.lookup "node" = some (.dict x) ∧ (n.lookup p = none ∧ y = [] ∨ n.lookup p = some (.dict y)) ∧
        m.lookup p = some (.dict (mergeDict x y))) := by
  unfold ndProvData at h
  cases hx : pdata.lookup "node" with
  | none => rw [hx] at h; cases h; exact ⟨fun _ _ => rfl, Or.inl ⟨rfl, rfl⟩⟩
  | some v =>
    rw [hx] at h
    cases v with
    | dict x =>
      simp only at h
      cases hn : n.lookup p with
      | none =>
        rw [hn] at h; cases h
        refine ⟨fun k hk => by rw [lookup_setKey, if_neg hk], Or.inr ⟨x, [], rfl, Or.inl ⟨rfl, rfl⟩, ?_⟩⟩
        rw [lookup_setKey, if_pos rfl, mergeDict]
      | some w =>
        rw [hn] at h
        cases w with
        | dict y =>
          cases h
          refine ⟨fun k hk => by rw [lookup_setKey, if_neg hk], Or.inr ⟨x, y, rfl, Or.inr rfl, ?_⟩⟩
          rw [lookup_setKey, if_pos rfl]
        | _ => cases h
    | _ => cases h

theorem ndBox_lookup (dev pdata n m : List (String × Val)) (h : ndBox dev pdata n = .ok m) :
    (∃ i, imageOf dev pdata n = some i ∧ m.lookup "box" = some i) ∧ ∀ k, k ≠ "box" → k ≠ "image" → m.lookup k = n.lookup k := by
  unfold ndBox at h
  unfold imageOf
  by_cases hb : ((n.lookup "box").getD .null).truthy = true
  · rw [if_pos hb] at h; cases h
    rw [if_pos hb]
    refine ⟨?_, fun _ _ _ => rfl⟩
    cases hx : n.lookup "box" with
    | none => rw [hx] at hb; cases hb
    | some i => exact ⟨i, rfl, rfl⟩
  · rw [if_neg hb] at h
    rw [if_neg hb]
    have set : ∀ i, (setKey n "box" i).lookup "box" = some i ∧ ∀ k, k ≠ "box" → k ≠ "image" → (setKey n "box" i).lookup k = n.lookup k := by
      intro i
      refine ⟨by simp [lookup_setKey], fun k hk _ => by rw [lookup_setKey, if_neg hk]⟩
    cases hi : n.lookup "image" with
    | some i =>
      rw [hi] at h; cases h
      refine ⟨⟨i, rfl, ?_⟩, fun k hk hk' => ?_⟩
      · rw [lookup_popKey, if_neg (by decide)]; exact (set i).1
      · rw [lookup_popKey, if_neg hk']; exact (set i).2 k hk hk'
    | none =>
      rw [hi] at h
      simp only at h
      cases hd : dev.lookup "image" with
      | some v =>
        rw [hd] at h
        cases v with
        | str i => cases h; exact ⟨⟨_, rfl, (set _).1⟩, (set _).2⟩
        | _ => cases h
      | none =>
        rw [hd] at h
        simp only at h
        cases hp : pdata.lookup "image" with
        | some v =>
          rw [hp] at h
          cases v with
          | str i => cases h; exact ⟨⟨_, rfl, (set _).1⟩, (set _).2⟩
          | _ => cases h
        | none => rw [hp] at h; cases h

/-- The node after provider and device processing -/
theorem ndStage (env : NdEnv) (n n1 n2 : List (String × Val)) (sec s1 : List String) (h1 : ndProvider env n sec = some (n1, s1)) (h2 : ndDevice env n1 = .ok n2) :
    GoodProvider env n ∧ ∃ d dev, KnownDevice env n d dev ∧
      (∀ k, k ≠ "provider" → k ≠ "module" → n2.lookup k = if k = "device" then some (.str d) else n.lookup k) ∧
      n2.lookup "module" = modulesOf dev n ∧ FinalProvider env dev n (n2.lookup "provider") := by
  rcases ndProvider_spec env n sec with ⟨h1', _⟩ | ⟨n1', s1', h1', hg, l1, hlt, hln, _⟩
  · rw [h1'] at h1; cases h1
  · rw [h1'] at h1
    cases h1
    refine ⟨hg, ?_⟩
    rcases ndDevice_spec env n1 with ⟨h2', _⟩ | ⟨h2', _⟩ | ⟨d, dev, hk, h2'⟩
    · rw [h2'] at h2; cases h2
    · rw [h2'] at h2; cases h2
    · rw [h2'] at h2
      simp only [NdRes.ok.injEq] at h2
      have hask : askedDevice env n1 = askedDevice env n := by
        unfold askedDevice; rw [l1 _ (by decide)]
      refine ⟨d, dev, ⟨hask ▸ hk.1, hk.2⟩, ?_, ?_, ?_⟩
      · intro k hk1 hk2
        rw [← h2, ndDevMod_lookup, if_neg hk2, ndDevProv_lookup, if_neg hk1, ndDefault_lookup, hk.1, l1 k hk1]
      · rw [← h2, ndDevMod_lookup, if_pos rfl]
        unfold modulesOf
        rw [ndDevProv_lookup, if_neg (by decide), ndDefault_lookup, if_neg (by decide), l1 _ (by decide)]
      · rw [← h2, ndDevMod_lookup, if_neg (by decide), ndDevProv_lookup, if_pos rfl, ndDefault_lookup, if_neg (by decide)]
        have base : (∀ w, dev.lookup "provider" = some w → w = .str env.top) →
            FinalProvider env dev n (n1.lookup "provider") := by
          intro hw
          by_cases ht : n.lookup "provider" = some (.str env.top)
          · rw [hlt ht]
            exact .topology hw (fun v hv => by rw [ht] at hv; cases hv; rfl)
          · rw [hln ht]
            cases hv : n.lookup "provider" with
            | none => exact .topology hw (fun v h => by rw [hv] at h; cases h)
            | some v => exact .node v hw hv (fun he => ht (by rw [hv, he]))
        cases hd : dev.lookup "provider" with
        | none => exact base (fun w h => by rw [hd] at h; cases h)
        | some v =>
          cases v with
          | str p =>
            simp only
            by_cases hp : p = env.top
            · rw [if_pos hp]
              exact base (fun w h => by rw [hd] at h; cases h; rw [hp])
            · rw [if_neg hp]
              exact .device _ hd (fun h => by cases h; exact hp rfl)
          | _ => exact .device _ hd (by simp)

theorem ndPdata_spec (dev pdata : List (String × Val)) (p : String) (hpd : ndPdata dev p = some pdata) :
    dev.lookup p = none ∧ pdata = [] ∨ dev.lookup p = some (.dict pdata) := by
  unfold ndPdata at hpd
  cases hv : dev.lookup p with
  | none => rw [hv] at hpd; cases hpd; exact Or.inl ⟨rfl, rfl⟩
  | some v =>
    rw [hv] at hpd
    cases v with
    | dict x => cases hpd; exact Or.inr rfl
    | _ => cases hpd

theorem finalProvider_name (env : NdEnv) (hnames : ProviderNames env) (n dev : List (String × Val)) (d p : String) (hg : GoodProvider env n)
    (hd : env.devs.lookup d = some (.dict dev)) (y : Option Val) (lp : FinalProvider env dev n y) (hp : y.getD (.str env.top) = .str p) :
    p ∉ ["device", "provider", "module", "box", "image"] := by
  intro hmem
  obtain ⟨a1, a2, a3⟩ := hnames p hmem
  cases lp with
  | device v hv _ =>
    simp only [Option.getD_some] at hp
    exact a3 d dev hd (by rw [hv, hp])
  | node v _ hv hne =>
    simp only [Option.getD_some] at hp
    rcases hg v hv with h | ⟨q, hq, ⟨x, hx⟩, _⟩
    · exact hne h
    · rw [hp] at hq; cases hq
      rw [a2] at hx; cases hx
  | topology _ _ =>
    simp only [Option.getD_none] at hp
    cases hp; exact a1 rfl

/-- All details of an accepted node. -/
theorem ndNode_ok (env : NdEnv) (hnames : ProviderNames env) (n m : List (String × Val)) (sec s : List String) (h : ndNode env n sec = (.ok m, s)) :
    GoodProvider env n ∧ ∃ d p dev pdata, NodeCompleted env n m d p dev pdata := by
  unfold ndNode at h
  cases h1 : ndProvider env n sec with
  | none => rw [h1] at h; cases h
  | some x =>
    obtain ⟨n1, s1⟩ := x
    rw [h1] at h
    simp only at h
    cases h2 : ndDevice env n1 with
    | err => rw [h2] at h; cases h
    | fatal => rw [h2] at h; cases h
    | ok n2 =>
      rw [h2] at h
      simp only [Prod.mk.injEq] at h
      obtain ⟨h, rfl⟩ := h
      obtain ⟨hg, d, dev, hk, l2, lm, lp⟩ := ndStage env n n1 n2 sec s1 h1 h2
      refine ⟨hg, ?_⟩
      unfold ndImage ndGetProv at h
      have hdv : n2.lookup "device" = some (.str d) := by rw [l2 _ (by decide) (by decide), if_pos rfl]
      rw [hdv] at h
      cases hp : (n2.lookup "provider").getD (.str env.top) with
      | str p =>
        rw [hp] at h
        simp only [hk.2.2] at h
        cases hpd : ndPdata dev p with
        | none => rw [hpd] at h; cases h
        | some pdata =>
          rw [hpd] at h
          simp only at h
          have hpn := finalProvider_name env hnames n dev d p hg hk.2.2 _ lp hp
          simp only [List.mem_cons, List.not_mem_nil, or_false, not_or] at hpn
          cases hprov : ndProvData p pdata n2 with
          | err => rw [hprov] at h; cases h
          | fatal => rw [hprov] at h; cases h
          | ok n3 =>
            rw [hprov] at h
            obtain ⟨b1, b2⟩ := ndProvData_lookup p pdata n2 n3 hprov
            obtain ⟨⟨i, c1, c2⟩, c3⟩ := ndBox_lookup dev pdata n3 m h
            have e : ∀ k, k ≠ "box" → k ≠ "image" → k ≠ p → m.lookup k = n2.lookup k := fun k h1 h2 h3 => (c3 k h1 h2).trans (b1 k h3)
            have ne : ∀ k, k ≠ p → k ≠ "provider" → k ≠ "module" → k ≠ "device" → n3.lookup k = n.lookup k := fun k h1 h2 h3 h4 => by
              rw [b1 k h1, l2 k h2 h3, if_neg h4]
            have hprv := e "provider" (by decide) (by decide) (Ne.symm hpn.2.1)
            refine ⟨d, p, dev, pdata, hk, ?_, ?_, ?_, ndPdata_spec _ _ _ hpd, ⟨i, ?_, c2⟩, ?_, ?_, ?_⟩
            · rw [e "device" (by decide) (by decide) (Ne.symm hpn.1), hdv]
            · rw [hprv]; exact lp
            · rw [hprv]; exact hp
            · unfold imageOf at c1 ⊢
              rw [ne "box" (Ne.symm hpn.2.2.2.1) (by decide) (by decide) (by decide), ne "image" (Ne.symm hpn.2.2.2.2) (by decide) (by decide) (by decide)] at c1
              exact c1
            · rw [e "module" (by decide) (by decide) (Ne.symm hpn.2.2.1), lm]
            · rw [c3 p hpn.2.2.2.1 hpn.2.2.2.2]
              rw [l2 p hpn.2.1 hpn.2.2.1, if_neg hpn.1] at b2
              exact b2
            · intro k hk
              simp only [List.mem_cons, List.not_mem_nil, or_false, not_or] at hk
              rw [e k hk.2.2.2.1 hk.2.2.2.2.1 hk.2.2.2.2.2, l2 k hk.2.1 hk.2.2.1, if_neg hk.1]
      | _ => rw [hp] at h; cases h

/-- Reasons for an error -/
theorem ndNode_err (env : NdEnv) (hnames : ProviderNames env) (n : List (String × Val)) (sec s : List String) (h : ndNode env n sec = (.err, s)) :
    NodeRejected env n := by
  unfold ndNode at h
  cases h1 : ndProvider env n sec with
  | none =>
    rcases ndProvider_spec env n sec with ⟨_, hb⟩ | ⟨n1', s1', h1', _⟩
    · exact .provider hb
    · rw [h1] at h1'; cases h1'
  | some x =>
    obtain ⟨n1, s1⟩ := x
    rw [h1] at h
    simp only at h
    cases h2 : ndDevice env n1 with
    | fatal => rw [h2] at h; cases h
    | err =>
      rcases ndProvider_spec env n sec with ⟨h1', _⟩ | ⟨n1', s1', h1', hg, l1, hlt, hln, _⟩
      · rw [h1'] at h1; cases h1
      · rw [h1'] at h1
        cases h1
        have hask : askedDevice env n1 = askedDevice env n := by
          unfold askedDevice; rw [l1 _ (by decide)]
        rcases ndDevice_spec env n1 with ⟨_, hb⟩ | ⟨h2', _⟩ | ⟨d, dev, hk, h2'⟩
        · rw [hask] at hb; exact .device hb
        · rw [h2'] at h2; cases h2
        · rw [h2'] at h2; cases h2
    | ok n2 =>
      rw [h2] at h
      simp only [Prod.mk.injEq] at h
      obtain ⟨h, rfl⟩ := h
      obtain ⟨hg, d, dev, hk, l2, lm, lp⟩ := ndStage env n n1 n2 sec s1 h1 h2
      unfold ndImage ndGetProv at h
      have hdv : n2.lookup "device" = some (.str d) := by rw [l2 _ (by decide) (by decide), if_pos rfl]
      rw [hdv] at h
      cases hp : (n2.lookup "provider").getD (.str env.top) with
      | str p =>
        rw [hp] at h
        simp only [hk.2.2] at h
        cases hpd : ndPdata dev p with
        | none => rw [hpd] at h; cases h
        | some pdata =>
          rw [hpd] at h
          simp only at h
          have hpn := finalProvider_name env hnames n dev d p hg hk.2.2 _ lp hp
          simp only [List.mem_cons, List.not_mem_nil, or_false, not_or] at hpn
          cases hprov : ndProvData p pdata n2 with
          | err =>
            unfold ndProvData at hprov
            cases hx : pdata.lookup "node" with
            | none => rw [hx] at hprov; cases hprov
            | some v =>
              rw [hx] at hprov
              cases v with
              | dict x =>
                simp only at hprov
                cases hy : n2.lookup p with
                | none => rw [hy] at hprov; cases hprov
                | some w => rw [hy] at hprov; cases w <;> cases hprov
              | _ => cases hprov
          | fatal => rw [hprov] at h; cases h
          | ok n3 =>
            rw [hprov] at h
            obtain ⟨b1, _⟩ := ndProvData_lookup p pdata n2 n3 hprov
            have ne : ∀ k, k ≠ p → k ≠ "provider" → k ≠ "module" → k ≠ "device" → n3.lookup k = n.lookup k := fun k h1 h2 h3 h4 => by
              rw [b1 k h1, l2 k h2 h3, if_neg h4]
            simp only at h
            unfold ndBox at h
            rw [ne "box" (Ne.symm hpn.2.2.2.1) (by decide) (by decide) (by decide), ne "image" (Ne.symm hpn.2.2.2.2) (by decide) (by decide) (by decide)] at h
            by_cases hb : ((n.lookup "box").getD .null).truthy = true
            · rw [if_pos hb] at h; cases h
            · rw [if_neg hb] at h
              cases hi : n.lookup "image" with
              | some i => rw [hi] at h; cases h
              | none =>
                rw [hi] at h
                simp only at h
                refine .image d p dev pdata _ hk lp hp (ndPdata_spec _ _ _ hpd) (by simpa using hb) hi (fun i hor => ?_)
                cases hd : dev.lookup "image" with
                | some v =>
                  rw [hd] at h hor
                  simp only [Option.some_or, Option.some.injEq] at hor
                  subst hor
                  cases h
                | none =>
                  rw [hd] at h hor
                  simp only [Option.none_or] at hor
                  rw [hor] at h
                  cases h
      | _ => rw [hp] at h; cases h

/-- C94: every node of an accepted topology has a known device, a compatible provider, and an image; attributes of the node are never overwritten (with the
exception of the provider). -/
theorem C94_accepted (env : NdEnv) (hnames : ProviderNames env) (nodes outs : List (String × List (String × Val))) (sec sec' : List String)
    (h : ndNodes env nodes sec = some (outs, sec', 0)) :
    List.Forall₂ (fun n m => m.1 = n.1 ∧ GoodProvider env n.2 ∧ ∃ d p dev pdata, NodeCompleted env n.2 m.2 d p dev pdata) nodes outs := by
  induction nodes generalizing sec outs with
  | nil => cases h; exact .nil
  | cons n r ih =>
    unfold ndNodes at h
    cases hn : ndNode env n.2 sec with
    | mk x s =>
      rw [hn] at h
      cases x with
      | fatal => cases h
      | err =>
        obtain ⟨y, _, he⟩ := Option.map_eq_some_iff.1 h
        simp only [Prod.mk.injEq] at he
        omega
      | ok m =>
        obtain ⟨⟨o, s', e⟩, hy, he⟩ := Option.map_eq_some_iff.1 h
        simp only [Prod.mk.injEq] at he
        obtain ⟨rfl, rfl, rfl⟩ := he
        exact .cons ⟨rfl, ndNode_ok env hnames n.2 m sec s hn⟩ (ih _ _ hy)

theorem ndNode_sec (env : NdEnv) (n : List (String × Val)) (sec : List String) (q : String) :
    q ∈ (ndNode env n sec).2 ↔ q ∈ sec ∨ (n.lookup "provider" = some (.str q) ∧ q ≠ env.top ∧ GoodProvider env n) := by
  unfold ndNode
  rcases ndProvider_spec env n sec with ⟨h1, hb⟩ | ⟨n1, s1, h1, hg, _, _, _, hs⟩
  · rw [h1]
    constructor
    · exact Or.inl
    · rintro (h | ⟨_, _, h⟩)
      · exact h
      · exact absurd h hb
  · rw [h1]
    have goal : q ∈ s1 ↔ q ∈ sec ∨ (n.lookup "provider" = some (.str q) ∧ q ≠ env.top ∧ GoodProvider env n) := by
      rw [hs]
      constructor
      · rintro (h | ⟨a, b⟩)
        · exact Or.inl h
        · exact Or.inr ⟨a, b, hg⟩
      · rintro (h | ⟨a, b, _⟩)
        · exact Or.inl h
        · exact Or.inr ⟨a, b⟩
    simp only
    cases ndDevice env n1 <;> exact goal

/-- C94: the secondary providers are the valid providers requested by nodes. -/
theorem C94_secondary (env : NdEnv) (nodes outs : List (String × List (String × Val))) (sec sec' : List String) (e : Nat)
    (h : ndNodes env nodes sec = some (outs, sec', e)) (q : String) :
    q ∈ sec' ↔ q ∈ sec ∨ ∃ n ∈ nodes, n.2.lookup "provider" = some (.str q) ∧ q ≠ env.top ∧ GoodProvider env n.2 := by
  induction nodes generalizing sec outs e with
  | nil => cases h; simp
  | cons n r ih =>
    unfold ndNodes at h
    have key : ∀ s o e', ndNodes env r s = some (o, sec', e') → (ndNode env n.2 sec).2 = s →
        (q ∈ sec' ↔ q ∈ sec ∨ ∃ m ∈ n :: r, m.2.lookup "provider" = some (.str q) ∧ q ≠ env.top ∧ GoodProvider env m.2) := by
      intro s o e' hr hs
      rw [ih _ _ _ hr, ← hs, ndNode_sec]
      constructor
      · rintro ((h | h) | ⟨m, hm, h⟩)
        · exact Or.inl h
        · exact Or.inr ⟨n, List.mem_cons_self, h⟩
        · exact Or.inr ⟨m, List.mem_cons_of_mem _ hm, h⟩
      · rintro (hh | ⟨m, hm, hh⟩)
        · exact Or.inl (Or.inl hh)
        · rcases List.mem_cons.1 hm with rfl | hm
          · exact Or.inl (Or.inr hh)
          · exact Or.inr ⟨m, hm, hh⟩
    cases hn : ndNode env n.2 sec with
    | mk x s =>
      rw [hn] at h
      cases x with
      | fatal => cases h
      | err =>
        obtain ⟨⟨o, s', e'⟩, hy, he⟩ := Option.map_eq_some_iff.1 h
        simp only [Prod.mk.injEq] at he
        obtain ⟨rfl, rfl, rfl⟩ := he
        exact key s o e' hy (by rw [hn])
      | ok m =>
        obtain ⟨⟨o, s', e'⟩, hy, he⟩ := Option.map_eq_some_iff.1 h
        simp only [Prod.mk.injEq] at he
        obtain ⟨rfl, rfl, rfl⟩ := he
        exact key s o e' hy (by rw [hn])

/-- C94: an error is reported only for a node with a wrong provider, with a missing or unknown device, or without an image. -/
theorem C94_no_spurious (env : NdEnv) (hnames : ProviderNames env) (nodes outs : List (String × List (String × Val))) (sec sec' : List String) (e : Nat)
    (h : ndNodes env nodes sec = some (outs, sec', e)) (he : e ≠ 0) : ∃ n ∈ nodes, NodeRejected env n.2 := by
  induction nodes generalizing sec outs e with
  | nil => cases h; exact absurd rfl he
  | cons n r ih =>
    unfold ndNodes at h
    cases hn : ndNode env n.2 sec with
    | mk x s =>
      rw [hn] at h
      cases x with
      | fatal => cases h
      | err => exact ⟨n, List.mem_cons_self, ndNode_err env hnames n.2 sec s hn⟩
      | ok m =>
        obtain ⟨⟨o, s', e'⟩, hy, he'⟩ := Option.map_eq_some_iff.1 h
        simp only [Prod.mk.injEq] at he'
        obtain ⟨rfl, rfl, rfl⟩ := he'
        obtain ⟨m, hm, hr⟩ := ih _ _ _ hy he
        exact ⟨m, List.mem_cons_of_mem _ hm, hr⟩

/-! ### Device attributes -/

theorem ndCopy_lookup (src n : List (String × Val)) (a k : String) :
    (ndCopy src n a).lookup k = (n.lookup k).or (if k = a then src.lookup k else none) := by
  unfold ndCopy
  cases hs : src.lookup a with
  | none =>
    by_cases hk : k = a
    · subst hk; simp [hs]
    · simp [hk]
  | some v =>
    simp only
    cases hn : n.lookup a with
    | none =>
      simp only [Option.isNone_none, if_true, lookup_setKey]
      by_cases hk : k = a
      · subst hk; simp [hs, hn]
      · simp [hk]
    | some w =>
      simp only [Option.isNone_some, Bool.false_eq_true, if_false]
      by_cases hk : k = a
      · subst hk; simp [hn]
      · simp [hk]

theorem foldl_ndCopy (src : List (String × Val)) (l : List String) (n : List (String × Val)) (k : String) :
    (l.foldl (ndCopy src) n).lookup k = (n.lookup k).or (if k ∈ l then src.lookup k else none) := by
  induction l generalizing n with
  | nil => simp
  | cons a r ih =>
    rw [List.foldl_cons, ih, ndCopy_lookup]
    by_cases hk : k = a
    · subst hk
      have : ∀ o : Option Val, o.or (if k ∈ r then o else none) = o := by
        intro o; cases o <;> simp
      rw [if_pos rfl, if_pos List.mem_cons_self, Option.or_assoc, this]
    · simp [hk]

theorem ndDevData_lookup (provs dev pdata : List (String × Val)) (k : String) :
    (ndDevData provs dev pdata).lookup k = if k ∈ provs.map (·.1) then none else (mergeDict dev pdata).lookup k := by
  unfold ndDevData
  generalize mergeDict dev pdata = d
  induction provs generalizing d with
  | nil => simp
  | cons p r ih =>
    rw [List.foldl_cons, ih, lookup_popKey]
    by_cases hk : k = p.1
    · subst hk; simp
    · simp only [List.map_cons, List.mem_cons, hk, false_or, if_false]

/-- C94: the names of nodes are not changed, and no node is lost. -/
theorem C94_names (env : NdEnv) (nodes : List (String × List (String × Val))) (sec : List String) (out : List (String × List (String × Val)))
    (s : List String) (e : Nat) (h : ndNodes env nodes sec = some (out, s, e)) : out.map (·.1) = nodes.map (·.1) := by
  induction nodes generalizing sec out s e with
  | nil => cases h; rfl
  | cons n r ih =>
    unfold ndNodes at h
    split at h
    · cases h
    · rename_i m s' _
      obtain ⟨x, hx, he⟩ := Option.map_eq_some_iff.1 h
      rw [← (Prod.mk.inj he).1, List.map_cons, List.map_cons, ih s' x.1 x.2.1 x.2.2 hx]
    · rename_i s' _
      obtain ⟨x, hx, he⟩ := Option.map_eq_some_iff.1 h
      rw [← (Prod.mk.inj he).1, List.map_cons, List.map_cons, ih s' x.1 x.2.1 x.2.2 hx]

/-- C94: a node using a daemon is marked as a daemon; its configuration files must be a dictionary. -/
theorem C94_daemon (attrs : List String) (provs dev pdata n : List (String × Val)) (hp : ∀ k ∈ ["daemon", "daemon_parent", "daemon_config"], k ∉ provs.map (·.1))
    (v : Val) (hv : (mergeDict dev pdata).lookup "daemon" = some v) (ht : v.truthy = true) :
    (ndAttrs attrs provs dev pdata n).1.lookup "_daemon" = some (.bool true) ∧
    (ndAttrs attrs provs dev pdata n).1.lookup "_daemon_parent" = some (((mergeDict dev pdata).lookup "daemon_parent").getD (.dict [])) ∧
    ∀ c, (mergeDict dev pdata).lookup "daemon_config" = some c →
      (∃ d, c = .dict d ∧ (ndAttrs attrs provs dev pdata n).1.lookup "_daemon_config" = some c ∧ (ndAttrs attrs provs dev pdata n).2 = 0) ∨
      ((∀ d, c ≠ .dict d) ∧ (ndAttrs attrs provs dev pdata n).1.lookup "_daemon_config" = none ∧ (ndAttrs attrs provs dev pdata n).2 = 1) := by
  have hl : ∀ k ∈ ["daemon", "daemon_parent", "daemon_config"], (ndDevData provs dev pdata).lookup k = (mergeDict dev pdata).lookup k := by
    intro k hk
    rw [ndDevData_lookup, if_neg (hp k hk)]
  have hchk : ∀ (m : List (String × Val)) (k : String), k ≠ "_daemon_config" → (ndDaemonCheck m).1.lookup k = m.lookup k := by
    intro m k hk
    unfold ndDaemonCheck
    split
    · rfl
    · simp only
      rw [lookup_popKey, if_neg hk]
    · rfl
  obtain ⟨m, hm⟩ : ∃ m, ndAttrs attrs provs dev pdata n = ndDaemonCheck (ndDaemon (ndDevData provs dev pdata) m) := ⟨_, rfl⟩
  rw [hm]
  have hd : ndDaemon (ndDevData provs dev pdata) m =
      (match (mergeDict dev pdata).lookup "daemon_config" with
       | some c => setKey (setKey (setKey m "_daemon" (.bool true)) "_daemon_parent" (((mergeDict dev pdata).lookup "daemon_parent").getD (.dict []))) "_daemon_config" c
       | none => setKey (setKey m "_daemon" (.bool true)) "_daemon_parent" (((mergeDict dev pdata).lookup "daemon_parent").getD (.dict []))) := by
    unfold ndDaemon
    rw [hl _ (by simp), hl _ (by simp), hl _ (by simp), hv]
    simp only [Option.getD_some, ht, if_true]
    cases (mergeDict dev pdata).lookup "daemon_config" <;> rfl
  rw [hd]
  refine ⟨?_, ?_, fun c hc => ?_⟩
  · rw [hchk _ _ (by decide)]
    split
    · rw [lookup_setKey, if_neg (by decide), lookup_setKey, if_neg (by decide), lookup_setKey, if_pos rfl]
    · rw [lookup_setKey, if_neg (by decide), lookup_setKey, if_pos rfl]
  · rw [hchk _ _ (by decide)]
    split
    · rw [lookup_setKey, if_neg (by decide), lookup_setKey, if_pos rfl]
    · rw [lookup_setKey, if_pos rfl]
  · rw [hc]
    simp only
    have hlk : ∀ y : List (String × Val), (setKey y "_daemon_config" c).lookup "_daemon_config" = some c := fun y => by rw [lookup_setKey, if_pos rfl]
    unfold ndDaemonCheck
    rw [hlk]
    cases c with
    | dict d => exact Or.inl ⟨d, rfl, hlk _, rfl⟩
    | _ => exact Or.inr ⟨fun d h => (nomatch h), by simp only; rw [lookup_popKey, if_pos rfl], rfl⟩

/-- C94: an attribute of a node keeps its value; a missing attribute gets a value from device data (for attributes that can be used in nodes) or from default
node attributes of the device. -/
theorem C94_attributes (attrs : List String) (provs dev pdata n : List (String × Val)) (k : String)
    (hk : k ∉ ["_daemon", "_daemon_parent", "_daemon_config"]) (defaults : List (String × Val))
    (hd : dev.lookup "node" = some (.dict defaults) ∨ dev.lookup "node" = none ∧ defaults = []) :
    (ndAttrs attrs provs dev pdata n).1.lookup k =
      (n.lookup k).or ((if k ∈ attrs ∧ k ∉ provs.map (·.1) then (mergeDict dev pdata).lookup k else none).or (defaults.lookup k)) := by
  simp only [List.mem_cons, List.not_mem_nil, or_false, not_or] at hk
  have hc : ∀ m : List (String × Val), (ndDaemonCheck m).1.lookup k = m.lookup k := by
    intro m
    unfold ndDaemonCheck
    split
    · rfl
    · simp only
      rw [lookup_popKey, if_neg hk.2.2]
    · rfl
  have hm : ∀ data m : List (String × Val), (ndDaemon data m).lookup k = m.lookup k := by
    intro data m
    unfold ndDaemon
    split
    · simp only
      split
      · rw [lookup_setKey, if_neg hk.2.2, lookup_setKey, if_neg hk.2.1, lookup_setKey, if_neg hk.1]
      · rw [lookup_setKey, if_neg hk.2.1, lookup_setKey, if_neg hk.1]
    · rfl
  have h1 : ((attrs.foldl (ndCopy (ndDevData provs dev pdata)) n).lookup k) =
      (n.lookup k).or (if k ∈ attrs ∧ k ∉ provs.map (·.1) then (mergeDict dev pdata).lookup k else none) := by
    rw [foldl_ndCopy, ndDevData_lookup]
    by_cases ha : k ∈ attrs
    · by_cases hp : k ∈ provs.map (·.1)
      · rw [if_pos ha, if_pos hp, if_neg (fun h => h.2 hp)]
      · rw [if_pos ha, if_neg hp, if_pos ⟨ha, hp⟩]
    · rw [if_neg ha, if_neg (fun h => ha h.1)]
  unfold ndAttrs
  simp only
  rw [hc, hm]
  rcases hd with hd | ⟨hd, rfl⟩
  · rw [hd]
    simp only
    rw [foldl_ndCopy, h1, Option.or_assoc]
    by_cases hx : k ∈ defaults.map (·.1)
    · rw [if_pos hx]
    · rw [if_neg hx, lookup_eq_none_iff.2 hx]
  · rw [hd]
    simp only
    rw [h1]
    simp

/-! ### Examples -/

/-- Settings with a container and a virtual machine provider, and a device that always uses containers -/
def ndExEnv : NdEnv :=
  { top := "libvirt", provs := [("libvirt", .dict [("clab", .dict [])]), ("clab", .dict [])],
    devs := [("frr", .dict [("clab", .dict [("image", .str "frr:10"), ("node", .dict [("kind", .str "linux")])])]),
      ("bird", .dict [("provider", .str "clab"), ("image", .str "bird:3"), ("node", .dict [("module", .list [.str "bgp"])])])],
    defdev := .str "frr" }

example : ProviderNames ndExEnv := by
  intro p hp
  simp only [List.mem_cons, List.not_mem_nil, or_false] at hp
  rcases hp with rfl | rfl | rfl | rfl | rfl
  all_goals
    refine ⟨by decide, rfl, fun d dev h1 h2 => ?_⟩
    have hm := mem_of_lookup h1
    simp only [ndExEnv, List.mem_cons, Prod.mk.injEq, List.not_mem_nil, or_false] at hm
    rcases hm with ⟨_, h⟩ | ⟨_, h⟩
    all_goals
      cases h
      simp [List.lookup] at h2

example : ndNodes ndExEnv [("r1", [("provider", .str "clab"), ("clab", .dict [("kind", .str "x")])])] [] =
    some ([("r1", [("provider", .str "clab"), ("clab", .dict [("kind", .str "x")]), ("device", .str "frr"), ("box", .str "frr:10")])], ["clab"], 0) := by
  rfl

/-- C94 defect: a provider requested by the device is not added to the secondary providers, the provider is thus never started. -/
theorem C94_device_provider :
    (ndNodes ndExEnv [("b1", [("device", .str "bird")])] []).map (fun x => (x.1.map (fun n => n.2.lookup "provider"), x.2)) =
      some ([some (.str "clab")], [], 0) := by
  rfl

/-- C94 defect: a provider requested by the device replaces the provider specified in the node without an error. -/
theorem C94_provider_replaced :
    (ndNodes { ndExEnv with top := "clab", provs := [("clab", .dict [("libvirt", .dict [])]), ("libvirt", .dict [])],
                            devs := [("bird", .dict [("provider", .str "external"), ("image", .str "bird:3")])] }
      [("b1", [("device", .str "bird"), ("provider", .str "libvirt")])] []).map (fun x => (x.1.map (fun n => n.2.lookup "provider"), x.2)) =
      some ([some (.str "external")], ["libvirt"], 0) := by
  rfl

end Netlab
