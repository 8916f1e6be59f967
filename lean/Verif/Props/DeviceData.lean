import Verif.Model.DeviceData
import Verif.Lemmas.Box
import Verif.Lemmas.Util
import Verif.Props.VlanAccess

namespace Netlab

open Spec

theorem vaFalse_iff (v : Val) : vaFalse v = true ↔ v = .bool false := by
  cases v with
  | bool b => cases b <;> simp [vaFalse]
  | _ => simp [vaFalse]

/-! ### Device attributes and features -/

/-- C100: a device attribute has the provider-specific value when there is one; when both values are dictionaries, provider-specific parts prevail and other parts
are those of the device. -/
theorem C100_attribute (dev pd : List (String × Val)) (attr : String) :
    (pd.lookup attr = none → gdAttr dev pd attr = dev.lookup attr) ∧
    (∀ x, pd.lookup attr = some x → (∀ d e, x = .dict d → dev.lookup attr ≠ some (.dict e)) → gdAttr dev pd attr = some x) ∧
    (∀ p v, pd.lookup attr = some (.dict p) → dev.lookup attr = some (.dict v) → (p.map (·.1)).Nodup →
      ∃ r, gdAttr dev pd attr = some (.dict r) ∧ ∀ k, (p.lookup k = none → r.lookup k = v.lookup k) ∧
        ∀ y, p.lookup k = some y → (∀ d, y ≠ .dict d) → r.lookup k = some y) := by
  unfold gdAttr
  refine ⟨fun h => by rw [h], fun x h hx => ?_, fun p v hp hv hn => ?_⟩
  · rw [h]
    cases x with
    | dict d =>
      simp only
      cases hd : dev.lookup attr with
      | none => rfl
      | some w => cases w with
        | dict e => exact absurd hd (hx d e rfl)
        | _ => rfl
    | _ => rfl
  · rw [hp, hv]
    refine ⟨_, rfl, fun k => ⟨fun hk => ?_, fun y hk hy => ?_⟩⟩
    · rw [lookup_mergeDict _ _ hn, hk]
      cases v.lookup k <;> rfl
    · rw [lookup_mergeDict _ _ hn, hk]
      cases v.lookup k with
      | none => rfl
      | some z =>
        cases y with
        | dict d => exact absurd rfl (hy d)
        | _ => cases z <;> simp [mergedOpt, mergeVal]

/-- C100: features of a node are used in preference to features of the device. -/
theorem C100_features (nf : Option Val) (dev pd f : List (String × Val)) (h : gdFeatures nf dev pd = some f) :
    (∀ n, nf = some (.dict n) → (n.map (·.1)).Nodup → ∀ k y, n.lookup k = some y → (∀ d, y ≠ .dict d) → f.lookup k = some y) ∧
    (∀ d, gdAttr dev pd "features" = some (.dict d) → (d = [] ∨ ∀ n, nf = some (.dict n) → (n.map (·.1)).Nodup) →
      ∀ k, (∀ n, nf = some (.dict n) → n.lookup k = none) → f.lookup k = d.lookup k) := by
  have hm : ∀ (a n : List (String × Val)), (n.map (·.1)).Nodup → ∀ k y, n.lookup k = some y → (∀ d, y ≠ .dict d) → (mergeDict a n).lookup k = some y := by
    intro a n hn k y hk hy
    rw [lookup_mergeDict _ _ hn, hk]
    cases a.lookup k with
    | none => rfl
    | some z =>
      cases y with
      | dict d => exact absurd rfl (hy d)
      | _ => cases z <;> simp [mergedOpt, mergeVal]
  unfold gdFeatures at h
  simp only at h
  constructor
  · rintro n rfl hn k y hk hy
    simp only at h
    cases hf : gdAttr dev pd "features" with
    | none => rw [hf] at h; cases h; exact hk
    | some v =>
      rw [hf] at h
      simp only at h
      split at h
      · cases v with
        | dict d => cases h; exact hm d n hn k y hk hy
        | _ => cases h
      · cases h; exact hk
  · intro d hd hn k hk
    rw [hd] at h
    simp only at h
    split at h
    · rename_i ht
      have hne : d ≠ [] := by rintro rfl; simp [Val.truthy] at ht
      cases h
      have hn := hn.resolve_left hne
      cases nf with
      | none =>
        simp only [mergeDict]
      | some w =>
        cases w with
        | dict n =>
          simp only
          rw [lookup_mergeDict _ _ (hn n rfl), hk n rfl]
          cases d.lookup k <;> rfl
        | _ => simp only [mergeDict]
    · rename_i ht
      have hd0 : d = [] := by
        cases d with
        | nil => rfl
        | cons a r => simp [Val.truthy] at ht
      subst hd0
      cases h
      cases nf with
      | none => rfl
      | some w =>
        cases w with
        | dict n => exact hk n rfl
        | _ => rfl

/-! ### Daemons -/

/-- C100: daemons become devices; a daemon with the name of a device is rejected, and other devices are not changed. -/
theorem C100_daemons (daemons devs : List (String × Device)) (hn : (daemons.map (·.1)).Nodup) :
    (ddMerge daemons devs = none ↔ ∃ d ∈ daemons, d.1 ∈ devs.map (·.1)) ∧
    ∀ out, ddMerge daemons devs = some out → ∀ n, out.lookup n = match daemons.lookup n with
      | some d => some (ddDaemon n d)
      | none => devs.lookup n := by
  have hs : ∀ n, (devs.lookup n).isSome = true ↔ n ∈ devs.map (·.1) := by
    intro n
    rw [Option.isSome_iff_ne_none, ne_eq, lookup_eq_none_iff, Classical.not_not]
  unfold ddMerge
  constructor
  · split
    · rename_i h
      simp only [true_iff]
      obtain ⟨d, hd, h⟩ := List.any_eq_true.1 h
      exact ⟨d, hd, (hs _).1 h⟩
    · rename_i h
      simp only [reduceCtorEq, false_iff]
      rintro ⟨d, hd, hh⟩
      exact h (List.any_eq_true.2 ⟨d, hd, (hs _).2 hh⟩)
  · intro out ho n
    split at ho
    · cases ho
    · cases ho
      clear hs
      rename_i h
      clear h
      induction daemons generalizing devs with
      | nil => rfl
      | cons d r ih =>
        rw [List.map_cons, List.nodup_cons] at hn
        rw [List.foldl_cons, ih _ hn.2]
        by_cases hd : n = d.1
        · subst hd
          rw [lookup_eq_none_iff.2 hn.1, lookup_cons_self]
          simp only
          rw [lookup_setKey, if_pos rfl]
        · rw [lookup_cons_ne _ _ hd]
          cases r.lookup n with
          | some x => rfl
          | none => simp only; rw [lookup_setKey, if_neg hd]

/-- C100: attributes of a device created from a daemon. -/
theorem C100_daemon_attributes (name : String) (d : Device) :
    ∃ p, (ddDaemon name d).parent = some p ∧ (d.parent = some p ∨ d.parent = none ∧ p = "linux") ∧
      (ddDaemon name d).data.lookup "daemon" = some (.bool true) ∧ (ddDaemon name d).data.lookup "daemon_parent" = some (.str p) ∧
      (∃ g v, (ddDaemon name d).data.lookup "group_vars" = some (.dict g) ∧ g.lookup "netlab_device_type" = some v ∧
        ((∀ e, d.data.lookup "group_vars" = some (.dict e) → e.lookup "netlab_device_type" = none) → v = .str name) ∧
        (∀ e, d.data.lookup "group_vars" = some (.dict e) → (∀ w, e.lookup "netlab_device_type" = some w → v = w) ∧
          ∀ k, k ≠ "netlab_device_type" → g.lookup k = e.lookup k)) ∧
      ∀ k, k ≠ "daemon" → k ≠ "daemon_parent" → k ≠ "group_vars" → (ddDaemon name d).data.lookup k = d.data.lookup k := by
  refine ⟨d.parent.getD "linux", rfl, by cases d.parent <;> simp, ?_⟩
  have hg : (setKey d.data "daemon" (.bool true)).lookup "group_vars" = d.data.lookup "group_vars" := by rw [lookup_setKey, if_neg (by decide)]
  have hd : (setKey d.data "daemon" (.bool true)).lookup "daemon" = some (.bool true) := by rw [lookup_setKey, if_pos rfl]
  have ho : ∀ k, k ≠ "daemon" → (setKey d.data "daemon" (.bool true)).lookup k = d.data.lookup k := fun k hk => by rw [lookup_setKey, if_neg hk]
  unfold ddDaemon
  simp only
  rw [hg]
  generalize setKey d.data "daemon" (.bool true) = x at *
  obtain ⟨gv, hgv⟩ : ∃ gv, gv = ddDict (d.data.lookup "group_vars") := ⟨_, rfl⟩
  have he : ∀ e, d.data.lookup "group_vars" = some (.dict e) → gv = e := by
    intro e h
    rw [hgv, h]
    rfl
  rw [← hgv]
  cases ht : gv.lookup "netlab_device_type" with
  | none =>
    simp only [Option.isNone_none, if_true]
    refine ⟨?_, by rw [lookup_setKey, if_pos rfl], ⟨setKey gv "netlab_device_type" (.str name), .str name, ?_, by rw [lookup_setKey, if_pos rfl], fun _ => rfl,
      fun e h => ⟨fun w hw => ?_, fun k hk => ?_⟩⟩, ?_⟩
    · rw [lookup_setKey, if_neg (by decide), lookup_setKey, if_neg (by decide), hd]
    · rw [lookup_setKey, if_neg (by decide), lookup_setKey, if_pos rfl]
    · rw [he e h] at ht
      rw [ht] at hw
      cases hw
    · rw [lookup_setKey, if_neg hk, he e h]
    · intro k h1 h2 h3
      rw [lookup_setKey, if_neg h2, lookup_setKey, if_neg h3, ho k h1]
  | some v =>
    simp only [Option.isNone_some, Bool.false_eq_true, if_false]
    have hdg : d.data.lookup "group_vars" = some (.dict gv) := by
      cases hl : d.data.lookup "group_vars" with
      | none => rw [hl] at hgv; rw [hgv] at ht; cases ht
      | some w =>
        cases w with
        | dict e => rw [he e hl]
        | _ => rw [hl] at hgv; rw [hgv] at ht; cases ht
    refine ⟨?_, by rw [lookup_setKey, if_pos rfl], ⟨gv, v, ?_, ht, fun h => ?_, fun e h => ⟨fun w hw => ?_, fun k hk => by rw [he e h]⟩⟩, ?_⟩
    · rw [lookup_setKey, if_neg (by decide), hd]
    · rw [lookup_setKey, if_neg (by decide), hg, hdg]
    · rw [h gv hdg] at ht; cases ht
    · rw [he e h, hw] at ht; exact (Option.some.inj ht).symm
    · intro k h1 h2 h3
      rw [lookup_setKey, if_neg h2, ho k h1]

/-! ### Lists of supported devices -/

/-- C100: features after the processing: features without parameters become empty dictionaries, features that are not supported are removed. -/
theorem C100_device_features (mods : List (String × DdModule)) (f : List (String × Val)) (p : String × Val) :
    p ∈ ddFeatures mods f ↔
      (∃ v, (p.1, v) ∈ f ∧ (v = .null ∨ v = .bool true) ∧ p.2 = .dict []) ∨
      (p ∈ f ∧ p.2 ≠ .null ∧ p.2 ≠ .bool true ∧ ¬ (p.2 = .bool false ∧ ∃ m, mods.lookup p.1 = some m ∧ m.attrs = true)) := by
  obtain ⟨k, w⟩ := p
  unfold ddFeatures
  rw [List.mem_filterMap]
  constructor
  · rintro ⟨⟨j, v⟩, hj, he⟩
    simp only at he
    split at he
    · cases he; exact Or.inl ⟨_, hj, Or.inl rfl, rfl⟩
    · cases he; exact Or.inl ⟨_, hj, Or.inr rfl, rfl⟩
    · split at he
      · rename_i m hm
        split at he
        · cases he
        · rename_i ha
          cases he
          refine Or.inr ⟨hj, by simp, by simp, ?_⟩
          rintro ⟨-, m', hm', ha'⟩
          simp only at hm hm'
          rw [hm] at hm'
          cases hm'
          exact ha ha'
      · rename_i hm
        cases he
        refine Or.inr ⟨hj, by simp, by simp, ?_⟩
        rintro ⟨-, m', hm', -⟩
        simp only at hm hm'
        rw [hm] at hm'
        cases hm'
    · rename_i h1 h2 h3
      cases he
      exact Or.inr ⟨hj, h1, h2, fun h => h3 h.1⟩
  · rintro (⟨v, hv, h, hw⟩ | ⟨hp, h1, h2, h3⟩)
    · simp only at hw
      subst hw
      rcases h with rfl | rfl
      · exact ⟨_, hv, rfl⟩
      · exact ⟨_, hv, rfl⟩
    · refine ⟨_, hp, ?_⟩
      simp only at h1 h2 h3 ⊢
      split
      · exact absurd rfl h1
      · exact absurd rfl h2
      · cases hm : mods.lookup k with
        | none => rfl
        | some m =>
          simp only
          rw [if_neg]
          exact fun ha => h3 ⟨rfl, m, hm, ha⟩
      · rfl

theorem ddAdd_mem (d x : String) (m : DdModule) : x ∈ (ddAdd d m).on.getD [] ↔ x ∈ m.on.getD [] ∨ x = d := by
  unfold ddAdd
  simp only [Option.getD_some]
  split
  · rename_i h
    rw [List.contains_iff_mem] at h
    exact ⟨Or.inl, fun h' => h'.elim id (fun h' => h' ▸ h)⟩
  · rw [List.mem_append, List.mem_singleton]

theorem ddAdd_nodup (d : String) (m : DdModule) (h : (m.on.getD []).Nodup) : ((ddAdd d m).on.getD []).Nodup := by
  unfold ddAdd
  simp only [Option.getD_some]
  split
  · exact h
  · rename_i hc
    rw [List.contains_iff_mem] at hc
    rw [List.nodup_append]
    exact ⟨h, List.nodup_singleton d, fun a ha b hb he => hc (by rw [List.mem_singleton] at hb; rw [← hb, ← he]; exact ha)⟩

theorem ddModStep_lookup (d : String) (mods : List (String × DdModule)) (p : String × Val) (n : String) :
    (ddModStep d mods p).lookup n = (mods.lookup n).map (fun m => if n = p.1 ∧ m.attrs = true ∧ vaFalse p.2 = false then ddAdd d m else m) := by
  unfold ddModStep
  cases hm : mods.lookup p.1 with
  | none =>
    simp only
    by_cases hn : n = p.1
    · rw [hn, hm]; rfl
    · simp [hn]
  | some m =>
    simp only
    by_cases hc : (m.attrs && !vaFalse p.2) = true
    · rw [if_pos hc, lookup_setKey]
      rw [Bool.and_eq_true, Bool.not_eq_true'] at hc
      by_cases hn : n = p.1
      · rw [if_pos hn, hn, hm]
        simp [hc.1, hc.2]
      · simp [hn]
    · rw [if_neg hc]
      rw [Bool.and_eq_true, Bool.not_eq_true'] at hc
      by_cases hn : n = p.1
      · rw [hn, hm, Option.map_some, if_neg (fun h => hc h.2)]
      · simp [hn]

/-- C100: a device is on the list of supported devices of a module exactly when it is already there or has the feature (even without parameters, but not when it is set
to false). The lists have no duplicates. -/
theorem C100_supported_on (devs : List (String × Option (List (String × Val)))) (mods : List (String × DdModule)) (n : String) :
    (mods.lookup n = none → (ddSupport devs mods).lookup n = none) ∧
    ∀ m, mods.lookup n = some m → ∃ m', (ddSupport devs mods).lookup n = some m' ∧ m'.attrs = m.attrs ∧
      (m.attrs = false → m' = m) ∧
      ((m.on.getD []).Nodup → (m'.on.getD []).Nodup) ∧
      (m.attrs = true → ∀ x, x ∈ m'.on.getD [] ↔ x ∈ m.on.getD [] ∨ ∃ f v, (x, some f) ∈ devs ∧ (n, v) ∈ f ∧ v ≠ .bool false) := by
  have feat : ∀ (d : String) (f : List (String × Val)) (mods : List (String × DdModule)),
      (mods.lookup n = none → (f.foldl (ddModStep d) mods).lookup n = none) ∧
      ∀ m, mods.lookup n = some m → ∃ m', (f.foldl (ddModStep d) mods).lookup n = some m' ∧ m'.attrs = m.attrs ∧ (m.attrs = false → m' = m) ∧
        ((m.on.getD []).Nodup → (m'.on.getD []).Nodup) ∧
        (m.attrs = true → ∀ x, x ∈ m'.on.getD [] ↔ x ∈ m.on.getD [] ∨ x = d ∧ ∃ v, (n, v) ∈ f ∧ v ≠ .bool false) := by
    intro d f
    induction f with
    | nil => intro mods; exact ⟨fun h => h, fun m hm => ⟨m, hm, rfl, fun _ => rfl, fun h => h, fun _ x => by simp⟩⟩
    | cons p r ih =>
      intro mods
      obtain ⟨i1, i2⟩ := ih (ddModStep d mods p)
      rw [List.foldl_cons]
      have hs := ddModStep_lookup d mods p n
      refine ⟨fun h => i1 (by rw [hs, h]; rfl), fun m hm => ?_⟩
      rw [hm, Option.map_some] at hs
      obtain ⟨m', h1, h2, h3, h4, h5⟩ := i2 _ hs
      have hf : vaFalse p.2 = false ↔ p.2 ≠ .bool false := by rw [← Bool.not_eq_true, ne_eq, vaFalse_iff]
      by_cases hc : n = p.1 ∧ m.attrs = true ∧ vaFalse p.2 = false
      · rw [if_pos hc] at h2 h3 h4 h5
        refine ⟨m', h1, h2, fun h => (by rw [hc.2.1] at h; cases h), fun h => h4 (ddAdd_nodup d m h), fun ha x => ?_⟩
        rw [h5 hc.2.1, ddAdd_mem]
        constructor
        · rintro ((h | h) | ⟨h, v, hv, hvf⟩)
          · exact Or.inl h
          · exact Or.inr ⟨h, p.2, by rw [hc.1]; exact List.mem_cons_self .., hf.1 hc.2.2⟩
          · exact Or.inr ⟨h, v, List.mem_cons_of_mem _ hv, hvf⟩
        · rintro (h | ⟨h, -⟩)
          · exact Or.inl (Or.inl h)
          · exact Or.inl (Or.inr h)
      · rw [if_neg hc] at h2 h3 h4 h5
        refine ⟨m', h1, h2, h3, h4, fun ha x => ?_⟩
        rw [h5 ha]
        constructor
        · rintro (h | ⟨h, v, hv, hvf⟩)
          · exact Or.inl h
          · exact Or.inr ⟨h, v, List.mem_cons_of_mem _ hv, hvf⟩
        · rintro (h | ⟨h, v, hv, hvf⟩)
          · exact Or.inl h
          · rcases List.mem_cons.1 hv with hp | hv
            · exact absurd ⟨by rw [← hp], ha, hf.2 (by rw [← hp]; exact hvf)⟩ hc
            · exact Or.inr ⟨h, v, hv, hvf⟩
  unfold ddSupport
  induction devs generalizing mods with
  | nil => exact ⟨fun h => h, fun m hm => ⟨m, hm, rfl, fun _ => rfl, fun h => h, fun _ x => by simp⟩⟩
  | cons d r ih =>
    rw [List.foldl_cons]
    obtain ⟨f1, f2⟩ := feat d.1 (d.2.getD []) mods
    obtain ⟨i1, i2⟩ := ih ((d.2.getD []).foldl (ddModStep d.1) mods)
    refine ⟨fun h => i1 (f1 h), fun m hm => ?_⟩
    obtain ⟨m1, a1, a2, a3, a4, a5⟩ := f2 m hm
    obtain ⟨m', b1, b2, b3, b4, b5⟩ := i2 m1 a1
    refine ⟨m', b1, b2.trans a2, fun h => (b3 (a2.trans h)).trans (a3 h), fun h => b4 (a4 h), fun ha x => ?_⟩
    rw [b5 (a2.trans ha), a5 ha]
    constructor
    · rintro ((h | ⟨h, v, hv, hvf⟩) | ⟨f, v, hf, h⟩)
      · exact Or.inl h
      · right
        obtain ⟨dn, df⟩ := d
        cases df with
        | none => exact absurd hv (by simp)
        | some f => exact ⟨f, v, by rw [h]; exact List.mem_cons_self .., hv, hvf⟩
      · exact Or.inr ⟨f, v, List.mem_cons_of_mem _ hf, h⟩
    · rintro (h | ⟨f, v, hf, hv, hvf⟩)
      · exact Or.inl (Or.inl h)
      · rcases List.mem_cons.1 hf with he | hf
        · exact Or.inl (Or.inr ⟨by rw [← he], v, by rw [← he]; exact hv, hvf⟩)
        · exact Or.inr ⟨f, v, hf, hv, hvf⟩

/-! ### Final checks -/

/-- C100: template devices are removed; without errors, all other devices have an interface name and a description. -/
theorem C100_final (devs : List (String × Device)) (d : String × Device) :
    (d ∈ (ddFinal devs).1 ↔ d ∈ devs ∧ d.2.data.lookup "template" = none) ∧
    ((ddFinal devs).2 = 0 ↔ ∀ d ∈ (ddFinal devs).1, d.2.data.lookup "interface_name" ≠ none ∧ d.2.data.lookup "description" ≠ none) := by
  have hs : ∀ {α : Type} (l : List α) (f : α → Nat), (l.map f).sum = 0 ↔ ∀ x ∈ l, f x = 0 := by
    intro α l f
    induction l with
    | nil => simp
    | cons a r ih => simp [ih]
  unfold ddFinal
  constructor
  · simp [List.mem_filter]
  · simp only
    rw [hs]
    refine forall_congr' fun x => forall_congr' fun _ => ?_
    rw [Nat.add_eq_zero_iff]
    cases x.2.data.lookup "interface_name" <;> cases x.2.data.lookup "description" <;> simp

example : (ddSupport [("eos", some [("ospf", .null), ("bgp", .bool false)]), ("linux", none)] [("ospf", ⟨true, none⟩), ("bgp", ⟨true, none⟩)]).map (fun m => (m.1, m.2.on)) =
    [("ospf", some ["eos"]), ("bgp", none)] := by decide +kernel
example : (ddMerge [("bird", ⟨none, []⟩)] [("linux", ⟨none, []⟩)]).isSome = true := by decide +kernel
example : (ddDaemon "bird" ⟨none, []⟩).parent = some "linux" := rfl

/-- C100 defect: a feature that is not a module stays in device features when it is set to false, so `in` tests consider it a supported feature. -/
theorem C100_false_feature : (ddFeatures [] [("initial", .bool false)]).map (·.1) = ["initial"] := by rfl

end Netlab
