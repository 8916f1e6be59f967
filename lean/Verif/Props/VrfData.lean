import Verif.Spec.VrfData
import Verif.Lemmas.Box
import Verif.Props.ModHooks
/-!
# C144: VRFs used on interfaces
-/

namespace Netlab
open Spec Classical

theorem vrfKnown_iff (globals vrfs : List (String × List (String × Val))) (v : String) :
    vrfKnown globals vrfs v = true ↔ VrfDefined globals v ∨ VrfDefined vrfs v := by
  have h : ∀ l : List (String × List (String × Val)), (!((l.lookup v).getD []).isEmpty) = true ↔ VrfDefined l v := by
    intro l
    unfold VrfDefined
    cases l.lookup v with
    | none => simp
    | some d => cases d <;> simp
  unfold vrfKnown
  rw [Bool.or_eq_true, h, h]

/-- State of the loop over interfaces -/
structure VrfLoopInv (globals vrfs : List (String × List (String × Val))) (done : List (Option String))
    (s : List (String × List (String × Val)) × List String) : Prop where
  lookup : ∀ v, s.1.lookup v = match vrfs.lookup v with
    | some d => some d
    | none => if some v ∈ done ∧ VrfDefined globals v then some [] else none
  errs : ∀ v, v ∈ s.2 ↔ some v ∈ done ∧ ¬ VrfDefined globals v ∧ ¬ VrfDefined vrfs v
  nodup : (vrfs.map (·.1)).Nodup → (s.1.map (·.1)).Nodup

theorem vrfOnIntf_inv {globals vrfs : List (String × List (String × Val))} {done : List (Option String)}
    {s : List (String × List (String × Val)) × List String} (h : VrfLoopInv globals vrfs done s) (o : Option String) :
    VrfLoopInv globals vrfs (done ++ [o]) (vrfOnIntf globals s o) := by
  cases o with
  | none =>
    refine ⟨fun v => ?_, fun v => ?_, h.nodup⟩
    · have : (some v ∈ done ++ [none]) ↔ some v ∈ done := by simp
      simp only [this]; exact h.lookup v
    · have : (some v ∈ done ++ [none]) ↔ some v ∈ done := by simp
      rw [this]; exact h.errs v
  | some x =>
    have hk : vrfKnown globals s.1 x = true ↔ VrfDefined globals x ∨ VrfDefined vrfs x := by
      rw [vrfKnown_iff]
      refine or_congr_right ?_
      unfold VrfDefined
      rw [h.lookup x]
      cases vrfs.lookup x with
      | some d => rfl
      | none =>
        dsimp only
        constructor
        · rintro ⟨d, hd, hn⟩
          split at hd
          · cases hd; exact absurd rfl hn
          · cases hd
        · rintro ⟨d, hd, -⟩; cases hd
    have hmem : ∀ v, (some v ∈ done ++ [some x]) ↔ some v ∈ done ∨ v = x := by intro v; simp
    unfold vrfOnIntf
    dsimp only
    cases hkx : vrfKnown globals s.1 x with
    | false =>
      have hn : ¬ (VrfDefined globals x ∨ VrfDefined vrfs x) := fun q => by rw [hk.2 q] at hkx; cases hkx
      rw [if_pos (by rfl)]
      refine ⟨fun v => ?_, fun v => ?_, h.nodup⟩
      · simp only [hmem]
        rw [h.lookup v]
        cases vrfs.lookup v with
        | some d => rfl
        | none =>
          dsimp only
          by_cases hvx : v = x
          · subst hvx
            rw [if_neg (fun q => hn (.inl q.2)), if_neg (fun q => hn (.inl q.2))]
          · simp [hvx]
      · rw [hmem, List.mem_append, List.mem_singleton, h.errs]
        constructor
        · rintro (⟨a, b⟩ | rfl)
          · exact ⟨.inl a, b⟩
          · exact ⟨.inr rfl, not_or.1 hn⟩
        · rintro ⟨a | a, b⟩
          · exact .inl ⟨a, b⟩
          · exact .inr a
    | true =>
      have hd := hk.1 hkx
      rw [if_neg (by decide)]
      have herr : ∀ v, v ∈ s.2 ↔ some v ∈ done ++ [some x] ∧ ¬ VrfDefined globals v ∧ ¬ VrfDefined vrfs v := by
        intro v
        rw [hmem, h.errs]
        constructor
        · rintro ⟨a, b⟩; exact ⟨.inl a, b⟩
        · rintro ⟨a | rfl, b⟩
          · exact ⟨a, b⟩
          · exact absurd hd (not_or.2 b)
      by_cases hany : s.1.any (fun p => p.1 == x) = true
      · rw [if_pos hany]
        refine ⟨fun v => ?_, herr, h.nodup⟩
        simp only [hmem]
        rw [h.lookup v]
        cases hl : vrfs.lookup v with
        | some d => rfl
        | none =>
          dsimp only
          by_cases hvx : v = x
          · subst hvx
            have hs : s.1.lookup v ≠ none := by
              intro hnone
              rw [List.lookup_eq_none_iff] at hnone
              obtain ⟨p, hp, hpx⟩ := List.any_eq_true.1 hany
              have := hnone p hp
              rw [beq_iff_eq] at hpx
              simp [hpx] at this
            rw [h.lookup v, hl] at hs
            dsimp only at hs
            split at hs
            · rename_i q
              rw [if_pos q, if_pos ⟨.inr rfl, q.2⟩]
            · exact absurd rfl hs
          · simp [hvx]
      · rw [if_neg hany]
        have hnone : s.1.lookup x = none := by
          rw [List.lookup_eq_none_iff]
          intro p hp
          cases hpx : (x == p.1) with
          | false => simpa using hpx
          | true =>
            exact absurd (List.any_eq_true.2 ⟨p, hp, by rw [beq_iff_eq] at hpx ⊢; exact hpx.symm⟩) hany
        refine ⟨fun v => ?_, herr, fun hu => nodup_setKey (h.nodup hu) _ _⟩
        simp only [hmem]
        rw [lookup_setKey]
        by_cases hvx : v = x
        · subst hvx
          rw [if_pos rfl]
          have hl := h.lookup v
          rw [hnone] at hl
          cases hv : vrfs.lookup v with
          | some d => rw [hv] at hl; cases hl
          | none =>
            dsimp only
            have hdv : VrfDefined globals v := hd.resolve_right (by rintro ⟨d, q, -⟩; rw [hv] at q; cases q)
            rw [if_pos ⟨.inr rfl, hdv⟩]
        · rw [if_neg hvx, h.lookup v]
          simp [hvx]

theorem vrfLoop_inv (globals vrfs : List (String × List (String × Val))) (intfs : List (Option String)) :
    ∀ (done : List (Option String)) (s : List (String × List (String × Val)) × List String), VrfLoopInv globals vrfs done s →
    VrfLoopInv globals vrfs (done ++ intfs) (intfs.foldl (vrfOnIntf globals) s) := by
  induction intfs with
  | nil => intro done s h; simpa using h
  | cons o r ih =>
    intro done s h
    have := ih (done ++ [o]) _ (vrfOnIntf_inv h o)
    simpa using this

theorem vrfLoop_start (globals vrfs : List (String × List (String × Val))) (intfs : List (Option String)) :
    VrfLoopInv globals vrfs intfs (intfs.foldl (vrfOnIntf globals) (vrfs, [])) := by
  have := vrfLoop_inv globals vrfs intfs [] (vrfs, []) ⟨fun v => by cases vrfs.lookup v <;> simp, fun v => by simp, id⟩
  simpa using this

theorem lookup_mergeGlobal (globals : List (String × List (String × Val))) (l : List (String × List (String × Val))) (v : String) :
    (l.map (mergeGlobalVrf globals)).lookup v = (l.lookup v).map fun d =>
      match globals.lookup v with
      | some g => mergeDict g d
      | none => d := by
  induction l with
  | nil => rfl
  | cons p r ih =>
    obtain ⟨k, d⟩ := p
    have hk : (mergeGlobalVrf globals (k, d)).1 = k := by
      unfold mergeGlobalVrf; dsimp only; split <;> rfl
    by_cases hv : v = k
    · subst hv
      rw [List.map_cons, List.lookup_cons, hk, List.lookup_cons]
      simp only [beq_self_eq_true, Option.map_some]
      unfold mergeGlobalVrf
      dsimp only
      cases globals.lookup v <;> rfl
    · have : (v == k) = false := by simpa using hv
      rw [List.map_cons, List.lookup_cons, hk, List.lookup_cons, this]
      exact ih

/-- C144: a VRF used on an interface that is not defined in the node or in the topology is reported, and nothing else is. -/
theorem C144_reported (globals vrfs : List (String × List (String × Val))) (intfs : List (Option String)) (v : String) :
    v ∈ (vrfPostLink globals vrfs intfs).2 ↔ some v ∈ intfs ∧ ¬ VrfDefined globals v ∧ ¬ VrfDefined vrfs v :=
  (vrfLoop_start globals vrfs intfs).errs v

/-- C144: the VRFs of a node are the VRFs defined in the node and the global VRFs used on its interfaces. -/
theorem C144_vrfs (globals vrfs : List (String × List (String × Val))) (intfs : List (Option String)) (v : String) :
    (vrfPostLink globals vrfs intfs).1.lookup v ≠ none ↔ vrfs.lookup v ≠ none ∨ (some v ∈ intfs ∧ VrfDefined globals v) := by
  unfold vrfPostLink
  dsimp only
  rw [lookup_mergeGlobal, (vrfLoop_start globals vrfs intfs).lookup v]
  cases vrfs.lookup v with
  | some d => simp
  | none =>
    dsimp only
    by_cases hc : some v ∈ intfs ∧ VrfDefined globals v
    · rw [if_pos hc]; simp [hc]
    · rw [if_neg hc]; simpa using hc

/-- C144: the attributes of a VRF of a node are those of the global VRF with the same name, except those specified in the node. -/
theorem C144_attributes (globals vrfs : List (String × List (String × Val))) (intfs : List (Option String))
    (hu : ∀ v d, vrfs.lookup v = some d → Val.UniqueKeys (.dict d)) (v : String) (r : List (String × Val))
    (hr : (vrfPostLink globals vrfs intfs).1.lookup v = some r) (p : List String) (w : Val) :
    Val.leafAt (.dict r) p w ↔
      Val.leafAt (.dict ((vrfs.lookup v).getD [])) p w ∨
      (Val.leafAt (.dict ((globals.lookup v).getD [])) p w ∧ Untouched (.dict ((vrfs.lookup v).getD [])) p) := by
  unfold vrfPostLink at hr
  dsimp only at hr
  rw [lookup_mergeGlobal, (vrfLoop_start globals vrfs intfs).lookup v] at hr
  have huniq : Val.UniqueKeys (.dict ((vrfs.lookup v).getD [])) := by
    cases hv : vrfs.lookup v with
    | some d => exact hu v d hv
    | none =>
      intro q d hq
      cases q with
      | nil => simp only [Option.getD_none, Val.at, Option.some.injEq, Val.dict.injEq] at hq; subst hq; exact List.nodup_nil
      | cons k t => simp [Val.at] at hq
  have hd : ∃ d, (vrfs.lookup v).getD [] = d ∧ (match globals.lookup v with | some g => mergeDict g d | none => d) = r := by
    refine ⟨_, rfl, ?_⟩
    cases hv : vrfs.lookup v with
    | some d =>
      rw [hv] at hr
      exact Option.some.inj hr
    | none =>
      rw [hv] at hr
      dsimp only at hr
      by_cases hc : some v ∈ intfs ∧ VrfDefined globals v
      · rw [if_pos hc] at hr
        exact Option.some.inj hr
      · rw [if_neg hc] at hr
        cases hr
  obtain ⟨d, hd, hm⟩ := hd
  rw [hd] at huniq ⊢
  cases hg : globals.lookup v with
  | none =>
    rw [hg] at hm
    dsimp only at hm
    subst hm
    constructor
    · exact .inl
    · rintro (h | ⟨h, -⟩)
      · exact h
      · exact absurd h (leafAt_nil p w)
  | some g =>
    rw [hg] at hm
    dsimp only at hm
    subst hm
    exact mergeDict_leaves g d huniq p w

/-- Non-vacuity: a VRF defined in both places, a global VRF and an unknown VRF; the second global VRF is not used. -/
example :
    vrfPostLink [("red", [("id", .int 1), ("rd", .str "65000:1")]), ("blue", [("id", .int 2)]), ("gray", [("id", .int 3)])]
      [("red", [("rd", .str "65000:101")])] [some "red", none, some "blue", some "green"] =
    ([("red", [("id", .int 1), ("rd", .str "65000:101")]), ("blue", [("id", .int 2)])], ["green"]) := by decide +kernel

end Netlab
