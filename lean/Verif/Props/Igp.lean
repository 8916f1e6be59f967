import Verif.Model.Igp
import Verif.Spec.Igp
import Verif.Lemmas.Box
import Mathlib.Data.List.Forall2
/-!
# C30: passive interfaces, C56: interfaces running a routing protocol
-/

namespace Netlab
open Spec

/-! ### Lemmas -/

theorem igpIntf_external (runs : String → Bool) (al : List String) (i : IgpIntf)
    (h : igpExternal i = true) : igpIntf runs al i = ({ i with igp := .missing }, false) := by
  unfold igpIntf; rw [if_pos h]

theorem igpExternal_iff (i : IgpIntf) :
    igpExternal i = true ↔ i.role = "external" ∨ i.igp = .off := by
  simp [igpExternal]

theorem igpPassive_iff (runs : String → Bool) (i : IgpIntf) (d : IgpData)
    (hd : d.passive = explicitPassive i) :
    igpPassive runs i d = true ↔ ShouldBePassive runs i := by
  unfold igpPassive ShouldBePassive
  rw [← hd]
  cases hp : d.passive with
  | some b => cases b <;> simp
  | none =>
    simp only [reduceCtorEq, false_or, true_and]
    by_cases h : (i.role == "passive" || i.role == "external" || i.type == "stub") = true
    · rw [if_pos h]
      simp only [Bool.or_eq_true, beq_iff_eq] at h
      simp only [true_iff]
      rcases h with (h | h) | h
      · exact .inl h
      · exact .inr (.inl h)
      · exact .inr (.inr (.inl h))
    · rw [if_neg h]
      simp only [Bool.or_eq_true, beq_iff_eq, not_or] at h
      by_cases hs : i.role = "stub"
      · simp [hs, isTrueStub, h.2]
      · simp [hs, h.1.1, h.1.2, h.2]

theorem igpIntf_configured (runs : String → Bool) (al : List String) (i : IgpIntf)
    (h : igpExternal i = false) : IgpConfigured runs i (igpIntf runs al i).1 := by
  unfold igpIntf
  rw [if_neg (by simp [h])]
  obtain ⟨-, h2⟩ := not_or.1 (fun x => Bool.false_ne_true (h.symm.trans ((igpExternal_iff i).2 x)))
  refine ⟨rfl, rfl, rfl, _, rfl, ?_, ?_, ?_⟩
  · simp only [Option.some.injEq]
    apply igpPassive_iff
    unfold explicitPassive
    cases i.igp <;> rfl
  · simp only [Option.some.injEq, ← Bool.not_eq_true]
    refine not_congr (igpPassive_iff _ _ _ ?_)
    unfold explicitPassive
    cases i.igp <;> rfl
  · unfold explicitType igpNetworkType
    cases hi : i.igp with
    | off => exact absurd hi h2
    | missing =>
      simp only [beq_iff_eq]
      split <;> rfl
    | data d =>
      simp only
      cases hn : d.ntype with
      | none =>
        simp only [Option.map_none, beq_iff_eq]
        split <;> rfl
      | some t =>
        cases t with
        | none => simp
        | some t =>
          by_cases ht : t = ""
          · simp [ht]
          · simp only [beq_iff_eq, ht, if_false, Option.map_some, Option.getD_some]
            split <;> rfl

/-- The first two steps for one interface. -/
def igpStep (runs : String → Bool) (al : List String) (i : IgpIntf) : IgpIntf :=
  removeUnaddressed (igpIntf runs al i).1

theorem igpIntf_fields (runs : String → Bool) (al : List String) (i : IgpIntf) :
    (igpIntf runs al i).1.af = i.af ∧ (igpIntf runs al i).1.dhcp = i.dhcp ∧
    (igpIntf runs al i).1.vrf = i.vrf ∧ (igpIntf runs al i).1.name = i.name ∧
    (igpIntf runs al i).1.ngb = i.ngb := by
  unfold igpIntf; split <;> exact ⟨rfl, rfl, rfl, rfl, rfl⟩

theorem igpStep_fields (runs : String → Bool) (al : List String) (i : IgpIntf) :
    (igpStep runs al i).af = i.af ∧ (igpStep runs al i).dhcp = i.dhcp ∧
    (igpStep runs al i).vrf = i.vrf ∧ (igpStep runs al i).name = i.name ∧
    (igpStep runs al i).ngb = i.ngb := by
  unfold igpStep removeUnaddressed
  split <;> exact igpIntf_fields runs al i

theorem igpStep_runs (runs : String → Bool) (al : List String) (i : IgpIntf) (h : RunsIgp i) :
    IgpConfigured runs i (igpStep runs al i) := by
  obtain ⟨h1, h2, h3⟩ := h
  have he : igpExternal i = false := by
    cases hb : igpExternal i with
    | false => rfl
    | true => rcases (igpExternal_iff i).1 hb with e | e; exact absurd e h1; exact absurd e h2
  have hc := igpIntf_configured runs al i he
  obtain ⟨fa, fd, -⟩ := igpIntf_fields runs al i
  unfold igpStep removeUnaddressed
  rw [if_pos]
  · exact hc
  · rw [fa, fd]
    simp only [List.any_cons, List.any_nil, Bool.or_false, Bool.or_eq_true, List.contains_iff_mem]
    rcases h3 with h | h | h | h
    · exact .inl (.inl h)
    · exact .inl (.inr h)
    · exact .inr (.inl h)
    · exact .inr (.inr h)

theorem igpStep_not_runs (runs : String → Bool) (al : List String) (i : IgpIntf)
    (h : ¬ RunsIgp i) : (igpStep runs al i).igp = .missing := by
  unfold igpStep removeUnaddressed
  obtain ⟨fa, fd, -⟩ := igpIntf_fields runs al i
  rw [fa, fd]
  by_cases hx : igpExternal i = true
  · rw [igpIntf_external runs al i hx]
    split <;> rfl
  · rw [if_neg]
    intro hany
    apply h
    have hne := fun c => hx ((igpExternal_iff i).2 c)
    refine ⟨fun e => hne (.inl e), fun e => hne (.inr e), ?_⟩
    simp only [List.any_cons, List.any_nil, Bool.or_false, Bool.or_eq_true,
      List.contains_iff_mem] at hany
    rcases hany with (h | h) | (h | h)
    · exact .inl h
    · exact .inr (.inl h)
    · exact .inr (.inr (.inl h))
    · exact .inr (.inr (.inr h))

theorem igpStep_iff (runs : String → Bool) (al : List String) (i : IgpIntf) :
    (igpStep runs al i).igp ≠ .missing ↔ RunsIgp i := by
  constructor
  · intro h
    by_cases hr : RunsIgp i
    · exact hr
    · exact absurd (igpStep_not_runs runs al i hr) h
  · intro h e
    obtain ⟨-, -, -, d, hd, -⟩ := igpStep_runs runs al i h
    rw [hd] at e; cases e

theorem igpTransform_l1 (runs : String → Bool) (al : List String) (ifs : List IgpIntf) :
    ((ifs.map (igpIntf runs al)).map (·.1)).map removeUnaddressed = ifs.map (igpStep runs al) := by
  rw [List.map_map, List.map_map]; rfl

/-- What happens with interfaces in the VRF loop. -/
theorem vrfIntfLoop_ifs (runs : String → Bool) (l : List IgpIntf) (vrfs : List (String × VrfIgp)) :
    (vrfIntfLoop runs vrfs l).2 = l.map removeVrfIntf := by
  induction l generalizing vrfs with
  | nil => rfl
  | cons i is ih =>
    simp only [vrfIntfLoop, List.map_cons, ih]
    congr 1
    unfold vrfIntfStep removeVrfIntf
    obtain ⟨nm, ro, ty, vr, af, dh, ng, ig⟩ := i
    cases ig <;> cases vr <;> simp only [Option.isSome_some, Option.isSome_none, if_true,
      Bool.false_eq_true, if_false]
    all_goals cases (vrfs.lookup _).getD VrfIgp.missing <;> rfl

/-- The interfaces of a VRF running the protocol. -/
def vrfMembers (v : String) (l : List IgpIntf) : List IgpIntf :=
  l.filter (fun i => i.igp != .missing && i.vrf == some v)

/-- The final state of a VRF. -/
def vrfFinal (runs : String → Bool) (x : VrfIgp) (L : List IgpIntf) : VrfIgp :=
  match x with
  | .off => .off
  | .on => .data (some true) L
  | .missing => .data (some (L.any (fun i => i.ngb.any runs))) L
  | .data a ifs => .data (some (a.getD false || L.any (fun i => i.ngb.any runs))) (ifs ++ L)

theorem vrfIntfLoop_vrf (runs : String → Bool) (v : String) (l : List IgpIntf)
    (vrfs : List (String × VrfIgp)) :
    (vrfIntfLoop runs vrfs l).1.lookup v =
      if vrfMembers v l = [] then vrfs.lookup v
      else if vrfs.lookup v = some .off then some .off
      else some (vrfFinal runs ((vrfs.lookup v).getD .missing) (vrfMembers v l)) := by
  induction l generalizing vrfs with
  | nil => simp [vrfIntfLoop, vrfMembers]
  | cons i is ih =>
    simp only [vrfIntfLoop]
    rw [ih]
    by_cases hm : (i.igp != .missing && i.vrf == some v) = true
    · have hcons : vrfMembers v (i :: is) = i :: vrfMembers v is := by
        unfold vrfMembers; rw [List.filter_cons, if_pos hm]
      rw [hcons, if_neg (List.cons_ne_nil _ _)]
      simp only [Bool.and_eq_true, bne_iff_ne, ne_eq, beq_iff_eq] at hm
      obtain ⟨hm1, hm2⟩ := hm
      have hstep : (vrfIntfStep runs vrfs i).1.lookup v =
          if vrfs.lookup v = some .off then some .off
          else some (vrfFinal runs ((vrfs.lookup v).getD .missing) [i]) := by
        unfold vrfIntfStep
        rw [hm2]
        cases hi : i.igp with
        | missing => exact absurd hi hm1
        | _ =>
          simp only
          cases hl : vrfs.lookup v with
          | none => simp [lookup_setKey, vrfFinal]
          | some x => cases x <;> simp [lookup_setKey, vrfFinal, hl]
      rw [hstep]
      by_cases hoff : vrfs.lookup v = some .off
      · simp [hoff]
      · rw [if_neg hoff, if_neg hoff]
        have hno : ∀ L, vrfFinal runs ((vrfs.lookup v).getD .missing) L ≠ .off := by
          intro L
          cases hl : vrfs.lookup v with
          | none => simp [vrfFinal]
          | some x =>
            cases x with
            | off => exact absurd hl hoff
            | _ => simp [vrfFinal]
        have hno' : ¬ (some (vrfFinal runs ((vrfs.lookup v).getD .missing) [i]) = some .off) :=
          fun e => hno _ (Option.some.inj e)
        by_cases he : vrfMembers v is = []
        · rw [if_pos he, he]
        · rw [if_neg he, if_neg hno']
          congr 1
          simp only [Option.getD_some]
          cases hl : (vrfs.lookup v).getD .missing with
          | off =>
            exact absurd (by simp [hl, vrfFinal]) (hno [])
          | on => simp [vrfFinal]
          | missing => simp [vrfFinal]
          | data a ifs => simp [vrfFinal, Bool.or_assoc]
    · have hcons : vrfMembers v (i :: is) = vrfMembers v is := by
        unfold vrfMembers; rw [List.filter_cons, if_neg hm]
      have hstep : (vrfIntfStep runs vrfs i).1.lookup v = vrfs.lookup v := by
        unfold vrfIntfStep
        cases hi : i.igp with
        | missing => rfl
        | _ =>
          cases hv : i.vrf with
          | none => rfl
          | some w =>
            have hw : w ≠ v := by
              rintro rfl
              apply hm
              simp [hi, hv]
            have hw' : ¬ v = w := fun e => hw e.symm
            simp only
            cases hl : (vrfs.lookup w).getD .missing <;> simp [lookup_setKey, hw']
      rw [hcons, hstep]

theorem vrfMembers_map (runs : String → Bool) (al : List String) (v : String)
    (ifs : List IgpIntf) :
    vrfMembers v (ifs.map (igpStep runs al)) =
      (ifs.filter (fun i => decide (RunsIgp i ∧ i.vrf = some v))).map (igpStep runs al) := by
  unfold vrfMembers
  rw [List.filter_map]
  congr 1
  apply List.filter_congr
  intro i _
  simp only [Function.comp]
  have h1 := igpStep_iff runs al i
  obtain ⟨-, -, h2, -⟩ := igpStep_fields runs al i
  rw [h2]
  by_cases hr : RunsIgp i
  · have : ((igpStep runs al i).igp != .missing) = true := by simpa using h1.2 hr
    rw [this, Bool.true_and, Bool.eq_iff_iff]
    simp [hr]
  · have : ((igpStep runs al i).igp != .missing) = false := by
      simpa using igpStep_not_runs runs al i hr
    simp [this, hr]

theorem lookup_map_cleanup (l : List (String × VrfIgp)) (v : String) :
    (l.map (fun p => (p.1, vrfIgpCleanup p.2))).lookup v = (l.lookup v).map vrfIgpCleanup := by
  induction l with
  | nil => rfl
  | cons p r ih =>
    obtain ⟨a, b⟩ := p
    by_cases h : v = a
    · subst h; simp
    · rw [List.map_cons, lookup_cons_ne _ _ (by simpa using h),
        lookup_cons_ne _ _ (by simpa using h), ih]

theorem igpTransform_ifs (va : Bool) (runs : String → Bool) (al lb : List String)
    (vrfs : List (String × VrfIgp)) (ifs : List IgpIntf) :
    (igpTransform va runs al lb vrfs ifs).ifs =
      ifs.map (fun i => removeVrfIntf (igpStep runs al i)) := by
  simp only [igpTransform, vrfIntfLoop_ifs, List.map_map, ite_self]
  rfl

theorem removeVrf_step_iff (runs : String → Bool) (al : List String) (i : IgpIntf) :
    (removeVrfIntf (igpStep runs al i)).igp ≠ .missing ↔ RunsIgp i ∧ i.vrf = none := by
  obtain ⟨-, -, h2, -⟩ := igpStep_fields runs al i
  unfold removeVrfIntf
  rw [h2]
  cases hv : i.vrf with
  | some w => simp
  | none => simpa using igpStep_iff runs al i

/-! ### Properties -/

/-- **C30.**  The protocol runs in passive mode on an interface iff it was explicitly requested, or
(without an explicit setting) the link has the passive or external role, is a stub link, or has
the stub role and no neighbor runs the protocol. -/
theorem C30_passive (runs : String → Bool) (allowed : List String) (i : IgpIntf) (d : IgpData)
    (h : (igpIntf runs allowed i).1.igp = .data d) :
    (d.passive = some true ↔ ShouldBePassive runs i) ∧
    (d.passive = some false ↔ ¬ ShouldBePassive runs i) := by
  have he : igpExternal i = false := by
    cases hb : igpExternal i with
    | false => rfl
    | true => rw [igpIntf_external runs allowed i hb] at h; cases h
  obtain ⟨-, -, -, d', hd, h1, h2, -⟩ := igpIntf_configured runs allowed i he
  rw [hd] at h
  cases h
  exact ⟨h1, h2⟩

/-- **C30 (explicit setting).**  An explicit `passive` setting always wins. -/
theorem C30_explicit_wins (runs : String → Bool) (allowed : List String) (i : IgpIntf)
    (d d' : IgpData) (b : Bool) (hi : i.igp = .data d') (hb : d'.passive = some b)
    (h : (igpIntf runs allowed i).1.igp = .data d) : d.passive = some b := by
  obtain ⟨h1, h2⟩ := C30_passive runs allowed i d h
  have he : explicitPassive i = some b := by simp [explicitPassive, hi, hb]
  cases b with
  | true => exact h1.2 (.inl he)
  | false =>
    refine h2.2 ?_
    rintro (h | ⟨h, -⟩) <;> rw [he] at h <;> cases h

/-- **C56 (global instance).**  After the transformation the protocol runs on an interface in the
global routing table iff the interface is not external, the protocol is not turned off on it, it
has an address, and it is not in a VRF.  The passive flag and the network type of such an
interface are as specified. -/
theorem C56_global_interfaces (va : Bool) (runs : String → Bool) (allowed lb : List String)
    (vrfs : List (String × VrfIgp)) (ifs : List IgpIntf) (k : Nat) (i : IgpIntf)
    (hk : ifs[k]? = some i) :
    ∃ o, (igpTransform va runs allowed lb vrfs ifs).ifs[k]? = some o ∧ o.name = i.name ∧
      (RunsIgp i ∧ i.vrf = none → IgpConfigured runs i o) ∧
      (¬ (RunsIgp i ∧ i.vrf = none) → o.igp = .missing) := by
  rw [igpTransform_ifs, List.getElem?_map, hk]
  refine ⟨removeVrfIntf (igpStep runs allowed i), rfl, ?_, ?_, ?_⟩
  · obtain ⟨-, -, -, h, -⟩ := igpStep_fields runs allowed i
    unfold removeVrfIntf
    split <;> exact h
  · rintro ⟨h1, h2⟩
    have hc := igpStep_runs runs allowed i h1
    unfold removeVrfIntf
    rw [if_neg]
    · exact hc
    · rw [hc.2.2.1, h2]; simp
  · intro h
    by_cases hm : (removeVrfIntf (igpStep runs allowed i)).igp = .missing
    · exact hm
    · exact absurd ((removeVrf_step_iff runs allowed i).1 hm) h

/-- **C56 (VRF instances).**  For protocols that can run in VRFs: the VRF instance exists after the
transformation iff the protocol is not turned off in the VRF and either the VRF instance is forced
with the `active` attribute, or the VRF has an interface running the protocol, and the instance
is forced with `<proto>: True` or one of the interfaces has a neighbor running the protocol.
The interfaces of the instance are exactly the interfaces of the VRF on which the protocol should
run. -/
theorem C56_vrf_instances (runs : String → Bool) (allowed lb : List String)
    (vrfs : List (String × VrfIgp)) (hempty : ∀ v a l, vrfs.lookup v = some (.data a l) → l = [])
    (ifs : List IgpIntf) (v : String) :
    let members := ifs.filter (fun i => decide (RunsIgp i ∧ i.vrf = some v))
    let out := (igpTransform true runs allowed lb vrfs ifs).vrfs
    ((∃ a l, out.lookup v = some (.data a l)) ↔
      vrfs.lookup v ≠ some .off ∧
      (vrfs.lookup v = some (.data (some true) []) ∨
        (members ≠ [] ∧
          (vrfs.lookup v = some .on ∨ ∃ i ∈ members, ∃ n ∈ i.ngb, runs n = true)))) ∧
    (∀ a l, out.lookup v = some (.data a l) →
      a = some true ∧ List.Forall₂ (IgpConfigured runs) members l) ∧
    (∀ x, out.lookup v = some x → x = .missing ∨ ∃ a l, x = .data a l) := by
  intro members out
  have hout : out.lookup v = (if members = [] then vrfs.lookup v
      else if vrfs.lookup v = some .off then some .off
      else some (vrfFinal runs ((vrfs.lookup v).getD .missing)
        (members.map (igpStep runs allowed)))).map vrfIgpCleanup := by
    show (igpTransform true runs allowed lb vrfs ifs).vrfs.lookup v = _
    simp only [igpTransform, igpTransform_l1, if_true]
    rw [lookup_map_cleanup, vrfIntfLoop_vrf, vrfMembers_map]
    simp only [List.map_eq_nil_iff]
    rfl
  have hany : (members.map (igpStep runs allowed)).any (fun i => i.ngb.any runs) = true ↔
      ∃ i ∈ members, ∃ n ∈ i.ngb, runs n = true := by
    simp only [List.any_map, List.any_eq_true, Function.comp]
    constructor
    · rintro ⟨i, hi, n, hn, hr⟩
      rw [(igpStep_fields runs allowed i).2.2.2.2] at hn
      exact ⟨i, hi, n, hn, hr⟩
    · rintro ⟨i, hi, n, hn, hr⟩
      refine ⟨i, hi, n, ?_, hr⟩
      rw [(igpStep_fields runs allowed i).2.2.2.2]; exact hn
  have hf2 : List.Forall₂ (IgpConfigured runs) members (members.map (igpStep runs allowed)) := by
    rw [List.forall₂_map_right_iff]
    apply List.forall₂_same.2
    intro i hi
    have := (List.mem_filter.1 hi).2
    exact igpStep_runs runs allowed i (of_decide_eq_true this).1
  have hclean : ∀ y x, vrfIgpCleanup y = x → x = .missing ∨ ∃ a l, x = .data a l := by
    intro y x hx
    rw [← hx]
    unfold vrfIgpCleanup
    split
    · exact .inr ⟨_, _, rfl⟩
    · exact .inl rfl
  refine ⟨?_, ?_, ?_⟩
  · rw [hout]
    by_cases hm : members = []
    · rw [if_pos hm]
      have hmne : ¬ (members ≠ []) := fun h => h hm
      simp only [hmne, false_and, or_false]
      cases hl : vrfs.lookup v with
      | none => simp
      | some x =>
        cases x with
        | data a l =>
          obtain rfl := hempty v a l hl
          rcases a with _ | (_ | _) <;> simp [vrfIgpCleanup]
        | _ => simp [vrfIgpCleanup]
    · rw [if_neg hm]
      by_cases hoff : vrfs.lookup v = some .off
      · simp [hoff, vrfIgpCleanup]
      · rw [if_neg hoff]
        simp only [ne_eq, hoff, not_false_eq_true, true_and, hm]
        rw [← hany]
        cases hl : vrfs.lookup v with
        | none =>
          simp only [Option.getD_none, vrfFinal, Option.map_some, reduceCtorEq, false_or]
          cases (members.map (igpStep runs allowed)).any (fun i => i.ngb.any runs) <;>
            simp [vrfIgpCleanup]
        | some x =>
          cases x with
          | off => exact absurd hl hoff
          | on => simp [vrfFinal, vrfIgpCleanup]
          | missing =>
            simp only [Option.getD_some, vrfFinal, Option.map_some]
            cases (members.map (igpStep runs allowed)).any (fun i => i.ngb.any runs) <;>
              simp [vrfIgpCleanup]
          | data a l =>
            obtain rfl := hempty v a l hl
            simp only [Option.getD_some, vrfFinal, Option.map_some]
            rcases a with _ | (_ | _) <;>
            cases (members.map (igpStep runs allowed)).any (fun i => i.ngb.any runs) <;>
              simp [vrfIgpCleanup]
  · intro a l h
    rw [hout] at h
    have hcl : ∀ y, vrfIgpCleanup y = .data a l → a = some true ∧ y = .data (some true) l := by
      intro y hy
      unfold vrfIgpCleanup at hy
      split at hy
      · cases hy; exact ⟨rfl, rfl⟩
      · cases hy
    obtain ⟨y, hy1, hy2⟩ := Option.map_eq_some_iff.1 h
    obtain ⟨ha, hy⟩ := hcl y hy2
    refine ⟨ha, ?_⟩
    subst hy
    by_cases hm : members = []
    · rw [if_pos hm] at hy1
      obtain rfl := hempty v _ _ hy1
      rw [hm]; exact .nil
    · rw [if_neg hm] at hy1
      by_cases hoff : vrfs.lookup v = some .off
      · rw [if_pos hoff] at hy1; cases hy1
      · rw [if_neg hoff] at hy1
        have hy1 := Option.some.inj hy1
        cases hl : vrfs.lookup v with
        | none =>
          rw [hl] at hy1
          simp only [Option.getD_none, vrfFinal, VrfIgp.data.injEq] at hy1
          rw [← hy1.2]; exact hf2
        | some x =>
          rw [hl] at hy1
          cases x with
          | off => exact absurd hl hoff
          | data a' l' =>
            obtain rfl := hempty v a' l' hl
            simp only [Option.getD_some, vrfFinal, VrfIgp.data.injEq, List.nil_append] at hy1
            rw [← hy1.2]; exact hf2
          | _ =>
            simp only [Option.getD_some, vrfFinal, VrfIgp.data.injEq] at hy1
            rw [← hy1.2]; exact hf2
  · intro x h
    rw [hout] at h
    obtain ⟨y, -, hy⟩ := Option.map_eq_some_iff.1 h
    exact hclean y x hy

/-- **C56 (address families).**  The global instance has exactly the address families of the
loopback interface and of the global interfaces running the protocol. -/
theorem C56_address_families (va : Bool) (runs : String → Bool) (allowed lb : List String)
    (vrfs : List (String × VrfIgp)) (ifs : List IgpIntf) (a : String) :
    a ∈ (igpTransform va runs allowed lb vrfs ifs).af ↔
      (a = "ipv4" ∨ a = "ipv6") ∧
      (a ∈ lb ∨ ∃ i ∈ ifs, RunsIgp i ∧ i.vrf = none ∧ (a ∈ i.af ∨ a ∈ i.dhcp)) := by
  have haf : (igpTransform va runs allowed lb vrfs ifs).af =
      routingAf lb (igpTransform va runs allowed lb vrfs ifs).ifs := rfl
  rw [haf, igpTransform_ifs]
  have hfields : ∀ i, (removeVrfIntf (igpStep runs allowed i)).af = i.af ∧
      (removeVrfIntf (igpStep runs allowed i)).dhcp = i.dhcp ∧
      (removeVrfIntf (igpStep runs allowed i)).vrf = i.vrf := by
    intro i
    obtain ⟨h1, h2, h3, -⟩ := igpStep_fields runs allowed i
    unfold removeVrfIntf
    split <;> exact ⟨h1, h2, h3⟩
  simp only [routingAf, List.mem_filter, List.mem_cons, List.not_mem_nil, or_false,
    Bool.or_eq_true, List.contains_iff_mem, List.any_map, List.any_eq_true, Function.comp,
    Bool.and_eq_true, bne_iff_ne, Option.isNone_iff_eq_none]
  refine and_congr_right (fun _ => or_congr_right ?_)
  constructor
  · rintro ⟨i, hi, ⟨h1, h2⟩, -⟩
    obtain ⟨h3, h4⟩ := (removeVrf_step_iff runs allowed i).1 h1
    rw [(hfields i).1, (hfields i).2.1] at h2
    exact ⟨i, hi, h3, h4, h2⟩
  · rintro ⟨i, hi, h3, h4, h2⟩
    refine ⟨i, hi, ⟨(removeVrf_step_iff runs allowed i).2 ⟨h3, h4⟩, ?_⟩, ?_⟩
    · rw [(hfields i).1, (hfields i).2.1]; exact h2
    · rw [(hfields i).2.2]; exact h4

/-- **C56 (unused protocol).**  The protocol is removed from the node iff it runs on no global
interface and in no VRF. -/
theorem C56_removed_iff (runs : String → Bool) (allowed lb : List String)
    (vrfs : List (String × VrfIgp)) (ifs : List IgpIntf) :
    (igpTransform true runs allowed lb vrfs ifs).removed = true ↔
      (¬ ∃ i ∈ ifs, RunsIgp i ∧ i.vrf = none) ∧
      ¬ ∃ v a l, (v, VrfIgp.data a l) ∈ (igpTransform true runs allowed lb vrfs ifs).vrfs := by
  have hrem : (igpTransform true runs allowed lb vrfs ifs).removed =
      unusedIgp (igpTransform true runs allowed lb vrfs ifs).af
        (igpTransform true runs allowed lb vrfs ifs).ifs
        (igpTransform true runs allowed lb vrfs ifs).vrfs := rfl
  rw [hrem]
  simp only [unusedIgp, Bool.not_eq_true', Bool.or_eq_false_iff, Bool.and_eq_false_iff]
  have h1 : (igpTransform true runs allowed lb vrfs ifs).ifs.any (fun i => i.igp != .missing) = true
      ↔ ∃ i ∈ ifs, RunsIgp i ∧ i.vrf = none := by
    rw [igpTransform_ifs]
    simp only [List.any_map, List.any_eq_true, Function.comp, bne_iff_ne]
    exact ⟨fun ⟨i, hi, h⟩ => ⟨i, hi, (removeVrf_step_iff runs allowed i).1 h⟩,
      fun ⟨i, hi, h⟩ => ⟨i, hi, (removeVrf_step_iff runs allowed i).2 h⟩⟩
  have h2 : (∃ i ∈ ifs, RunsIgp i ∧ i.vrf = none) →
      (igpTransform true runs allowed lb vrfs ifs).af.isEmpty = false := by
    rintro ⟨i, hi, hr, hv⟩
    have : ∃ a, a ∈ (igpTransform true runs allowed lb vrfs ifs).af := by
      rcases hr.2.2 with h | h | h | h
      · exact ⟨"ipv4", (C56_address_families ..).2 ⟨.inl rfl, .inr ⟨i, hi, hr, hv, .inl h⟩⟩⟩
      · exact ⟨"ipv4", (C56_address_families ..).2 ⟨.inl rfl, .inr ⟨i, hi, hr, hv, .inr h⟩⟩⟩
      · exact ⟨"ipv6", (C56_address_families ..).2 ⟨.inr rfl, .inr ⟨i, hi, hr, hv, .inl h⟩⟩⟩
      · exact ⟨"ipv6", (C56_address_families ..).2 ⟨.inr rfl, .inr ⟨i, hi, hr, hv, .inr h⟩⟩⟩
    obtain ⟨a, ha⟩ := this
    cases hl : (igpTransform true runs allowed lb vrfs ifs).af with
    | nil => rw [hl] at ha; cases ha
    | cons => rfl
  have h3 : (igpTransform true runs allowed lb vrfs ifs).vrfs.any (fun p => p.2 != .missing) = true
      ↔ ∃ v a l, (v, VrfIgp.data a l) ∈ (igpTransform true runs allowed lb vrfs ifs).vrfs := by
    simp only [List.any_eq_true, bne_iff_ne]
    constructor
    · rintro ⟨⟨v, x⟩, hp, hx⟩
      refine ⟨v, ?_⟩
      have hp' := hp
      simp only [igpTransform, if_true, List.mem_map] at hp'
      obtain ⟨q, -, hq⟩ := hp'
      cases hq
      unfold vrfIgpCleanup at hx
      split at hx
      · rename_i l heq
        refine ⟨some true, l, ?_⟩
        simpa [vrfIgpCleanup, heq] using hp
      · exact absurd rfl hx
    · rintro ⟨v, a, l, hp⟩
      exact ⟨_, hp, by simp⟩
  rw [← h1] at h2 ⊢
  rw [← h3]
  simp only [Bool.not_eq_true]
  constructor
  · rintro ⟨h | h, hv⟩
    · exact ⟨h, hv⟩
    · refine ⟨?_, hv⟩
      cases hb : (igpTransform true runs allowed lb vrfs ifs).ifs.any (fun i => i.igp != .missing) with
      | false => rfl
      | true => rw [h2 hb] at h; cases h
  · rintro ⟨h, hv⟩
    exact ⟨.inl h, hv⟩

/-- Non-vacuity: a node with an inter-router link, a host-facing stub link, an external link, a
link without addresses and two VRF interfaces. -/
example :
    let runs := fun n => n == "r2"
    let out := igpTransform true runs ["point-to-point"] ["ipv4"] [("red", .missing), ("blue", .on)]
      [{ name := "eth1", af := ["ipv4"], ngb := ["r2"] },
       { name := "eth2", role := "stub", af := ["ipv4"], ngb := ["h1"] },
       { name := "eth3", role := "external", af := ["ipv4"], ngb := ["r2"] },
       { name := "eth4", ngb := ["r2"] },
       { name := "eth5", vrf := some "red", af := ["ipv6"], ngb := ["r2", "h1"] },
       { name := "eth6", vrf := some "blue", dhcp := ["ipv4"], ngb := ["h1", "h2"] }]
    out.removed = false ∧ out.af = ["ipv4"] ∧
    out.ifs.map (fun i => (i.name, i.igp)) =
      [("eth1", .data ⟨some false, some (some "point-to-point")⟩),
       ("eth2", .data ⟨some true, some (some "point-to-point")⟩), ("eth3", .missing),
       ("eth4", .missing), ("eth5", .missing), ("eth6", .missing)] ∧
    out.vrfs.map (fun p => (p.1, match p.2 with
      | .data _ l => l.map (·.name)
      | _ => [])) = [("red", ["eth5"]), ("blue", ["eth6"])] := by
  decide

end Netlab
