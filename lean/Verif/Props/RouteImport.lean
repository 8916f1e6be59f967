import Verif.Spec.RouteImport
import Verif.Lemmas.Assoc
import Verif.Lemmas.Box
/-!
# C83: route import and default routes
-/

namespace Netlab

open Spec

theorem riTruthy_iff (f : RiFeat) : f.truthy = true ↔ ImportSupported f := by
  cases f with
  | off => simp [RiFeat.truthy, ImportSupported]
  | all => simp [RiFeat.truthy, ImportSupported]
  | list l => simp [RiFeat.truthy, ImportSupported]

theorem riAccepts_iff (f : RiFeat) (hf : f.truthy = true) (s : String) : f.accepts s = true ↔ SourceSupported f s := by
  cases f with
  | off => simp [RiFeat.truthy] at hf
  | all => simp [RiFeat.accepts, SourceSupported]
  | list l => simp [RiFeat.accepts, SourceSupported]

theorem riAware_iff (f : RiFeat) : f.vrfAware = true ↔ VrfImportSupported f := by
  cases f with
  | off => simp [RiFeat.vrfAware, VrfImportSupported]
  | all => simp [RiFeat.vrfAware, VrfImportSupported]
  | list l => simp [RiFeat.vrfAware, VrfImportSupported]

theorem riAware_truthy (f : RiFeat) (h : f.vrfAware = true) : f.truthy = true := by
  cases f with
  | off => cases h
  | all => rfl
  | list l =>
    simp only [RiFeat.vrfAware] at h
    cases l with
    | nil => cases h
    | cons a l => rfl

theorem riAddPolicy_mono (env : RiEnv) (st : RiPol) (p : String) :
    st.errors ≤ (riAddPolicy env st p).errors ∧ ∀ q ∈ st.pols, q ∈ (riAddPolicy env st p).pols := by
  unfold riAddPolicy
  repeat' split
  all_goals simp +contextual

theorem riAddPolicy_spec (env : RiEnv) (st : RiPol) (p : String) :
    ((riAddPolicy env st p).errors = st.errors ↔ (p ≠ "" → PolUsable env st.pols p)) ∧
    ((p ≠ "" → PolUsable env st.pols p) → (p ≠ "" → p ∈ (riAddPolicy env st p).pols) ∧
      ∀ q, PolUsable env (riAddPolicy env st p).pols q ↔ PolUsable env st.pols q) := by
  unfold riAddPolicy PolUsable
  by_cases h1 : p = ""
  · simp [h1]
  rw [if_neg h1]
  by_cases h2 : p ∈ st.pols
  · rw [if_pos (by simpa using h2)]
    simp [h2]
  rw [if_neg (by simpa using h2)]
  by_cases h3 : p ∈ env.glob
  · rw [if_pos (by simpa using h3)]
    by_cases h4 : env.polOk p = true
    · simp only [h4, h2, h3]
      refine ⟨by simp, fun _ => ⟨by simp, fun q => ?_⟩⟩
      simp only [List.mem_append, List.mem_singleton]
      constructor
      · rintro ((h | h) | h)
        · exact .inl h
        · subst h; exact .inr ⟨h3, h4⟩
        · exact .inr h
      · rintro (h | h)
        · exact .inl (.inl h)
        · exact .inr h
    · simp [h1, h2, h3, h4]
  · rw [if_neg (by simpa using h3)]
    simp [h1, h2, h3]

theorem riPolicy?_iff (v : RiVal) (p : String) : v.policy? = some p ↔ p ≠ "" ∧ ∃ a, v = .dict (some p) a := by
  cases v with
  | dict q a =>
    cases q with
    | none => simp [RiVal.policy?]
    | some q =>
      simp only [RiVal.policy?]
      by_cases hq : q = ""
      · subst hq
        simp
      · rw [if_neg hq]
        simp
        rintro rfl; exact hq
  | _ => simp [RiVal.policy?]

/-- What the loop leaves in the dictionary. -/
def riOut (v : RiVal) : Option RiVal := if v = .no then none else some v.norm

/-- No error is reported for the entry. -/
def RiStepOk (env : RiEnv) (pols : List String) (s : String) (v : RiVal) : Prop :=
  env.feat.accepts s = true ∧ (v ≠ .no → ImportOk env pols s v)

theorem riFail_errors (st : RiState) : st.fail.pol.errors = st.pol.errors + 1 := rfl

theorem riNorm_policy (v : RiVal) : v.norm.policy? = v.policy? := by cases v <;> rfl

theorem riPolicy_cases (env : RiEnv) (st : RiState) (v : RiVal) :
    (riPolicy env st v = none ∧ ∃ p, v.policy? = some p ∧ env.feat = .all) ∨
    ∃ r, riPolicy env st v = some r ∧ r.dict = st.dict ∧ st.pol.errors ≤ r.pol.errors ∧ (∀ q ∈ st.pol.pols, q ∈ r.pol.pols) := by
  unfold riPolicy
  cases hp : v.policy? with
  | none => exact .inr ⟨st, by simp⟩
  | some p =>
    cases hf : env.feat with
    | off => exact .inr ⟨_, rfl, rfl, riAddPolicy_mono _ _ _⟩
    | all => exact .inl ⟨rfl, p, rfl, rfl⟩
    | list l =>
      simp only []
      by_cases hl : l.contains "no_policy" = true
      · rw [if_pos hl]
        exact .inr ⟨_, rfl, rfl, by simp [riFail_errors], fun q hq => hq⟩
      · rw [if_neg hl]
        exact .inr ⟨_, rfl, rfl, riAddPolicy_mono _ _ _⟩

/-- Errors are never removed. -/
theorem riEntry_mono (env : RiEnv) (st r : RiState) (s : String) (h : riEntry env st s = some r) :
    st.pol.errors ≤ r.pol.errors ∧ ∀ q ∈ st.pol.pols, q ∈ r.pol.pols := by
  unfold riEntry at h
  split at h
  · cases h; simp
  split at h
  · cases h; exact ⟨by rw [riFail_errors]; omega, fun q hq => hq⟩
  split at h
  · cases h; simp
  · cases h; simp
  · simp only [] at h
    split at h
    · cases h; exact ⟨by rw [riFail_errors]; simp, fun q hq => hq⟩
    split at h
    · cases h; exact ⟨by rw [riFail_errors]; simp, fun q hq => hq⟩
    · rcases riPolicy_cases env _ _ with ⟨hn, _⟩ | ⟨r', hr', _, h1, h2⟩
      · rw [hn] at h; cases h
      · rw [hr'] at h; cases h; exact ⟨h1, h2⟩

theorem riEntry_ok (env : RiEnv) (st : RiState) (s : String) (v : RiVal) (hs : st.stop = false) (hv : st.dict.lookup s = some v)
    (hok : RiStepOk env st.pol.pols s v) :
    ∃ r, riEntry env st s = some r ∧ r.stop = false ∧ r.pol.errors = st.pol.errors ∧
      (∀ j, r.dict.lookup j = if j = s then riOut v else st.dict.lookup j) ∧
      (∀ q, PolUsable env r.pol.pols q ↔ PolUsable env st.pol.pols q) ∧
      (∀ p a, v = .dict (some p) a → p ≠ "" → p ∈ r.pol.pols) := by
  obtain ⟨ha, hi⟩ := hok
  obtain ⟨dict, pol, stop⟩ := st
  cases hs
  have hs : (false : Bool) = false := rfl
  simp only [] at hv hi
  unfold riEntry
  rw [ha]
  simp only [Bool.false_eq_true, if_false, Bool.not_true, hv]
  by_cases hno : v = .no
  · subst hno
    refine ⟨_, rfl, hs, rfl, fun j => ?_, fun _ => Iff.rfl, fun p a h => (nomatch h)⟩
    simp only [lookup_popKey, riOut, if_true]
  obtain ⟨h1, h2, h3⟩ := hi hno
  have hlk : ∀ j, (setKey dict s v.norm).lookup j = if j = s then riOut v else dict.lookup j := by
    intro j
    rw [lookup_setKey, riOut, if_neg hno]
  have hmod : (!env.modules.contains s && s != "connected") = false := by
    rcases h1 with h1 | h1
    · subst h1; simp
    · simp [h1]
  have main : ∃ r, riPolicy env ({ dict := setKey dict s v.norm, pol := pol } : RiState) v.norm = some r ∧ r.stop = false ∧ r.pol.errors = pol.errors ∧
      (∀ j, r.dict.lookup j = if j = s then riOut v else dict.lookup j) ∧
      (∀ q, PolUsable env r.pol.pols q ↔ PolUsable env pol.pols q) ∧
      (∀ p a, v = .dict (some p) a → p ≠ "" → p ∈ r.pol.pols) := by
    unfold riPolicy
    rw [riNorm_policy]
    cases hp : v.policy? with
    | none =>
      refine ⟨_, rfl, hs, rfl, hlk, fun _ => Iff.rfl, fun p a hv hne => ?_⟩
      have := (riPolicy?_iff v p).mpr ⟨hne, a, hv⟩
      rw [hp] at this; cases this
    | some p =>
      obtain ⟨hne, a, hva⟩ := (riPolicy?_iff v p).mp hp
      obtain ⟨⟨l, hl, hnp⟩, hu⟩ := h3 p a hva hne
      rw [hl]
      simp only []
      rw [if_neg (by simpa using hnp)]
      obtain ⟨ha1, ha2⟩ := riAddPolicy_spec env pol p
      obtain ⟨ha3, ha4⟩ := ha2 (fun _ => hu)
      refine ⟨_, rfl, hs, ha1.mpr (fun _ => hu), hlk, ha4, fun p' a' hv' hne' => ?_⟩
      rw [hva] at hv'
      cases hv'
      exact ha3 hne'
  cases v with
  | no => exact absurd rfl hno
  | _ =>
    simp only [hmod, Bool.false_eq_true, if_false]
    rw [if_neg h2]
    exact main

theorem riEntry_bad (env : RiEnv) (hf : env.feat.truthy = true) (st : RiState) (s : String) (v : RiVal) (hs : st.stop = false) (hv : st.dict.lookup s = some v)
    (hok : ¬ RiStepOk env st.pol.pols s v) :
    riEntry env st s = none ∨ ∃ r, riEntry env st s = some r ∧ st.pol.errors < r.pol.errors := by
  obtain ⟨dict, pol, stop⟩ := st
  cases hs
  simp only [] at hv hok
  unfold riEntry
  simp only [Bool.false_eq_true, if_false]
  by_cases ha : env.feat.accepts s = true
  · rw [ha]
    simp only [Bool.not_true, Bool.false_eq_true, if_false, hv]
    by_cases hno : v = .no
    · exact absurd ⟨ha, fun h => absurd hno h⟩ hok
    have main : (if (!env.modules.contains s && s != "connected") = true then some ({ dict := setKey dict s v.norm, pol := pol } : RiState).fail
        else if s = env.proto then some ({ dict := setKey dict s v.norm, pol := pol } : RiState).fail
        else riPolicy env ({ dict := setKey dict s v.norm, pol := pol } : RiState) v.norm) = none ∨
        ∃ r, (if (!env.modules.contains s && s != "connected") = true then some ({ dict := setKey dict s v.norm, pol := pol } : RiState).fail
        else if s = env.proto then some ({ dict := setKey dict s v.norm, pol := pol } : RiState).fail
        else riPolicy env ({ dict := setKey dict s v.norm, pol := pol } : RiState) v.norm) = some r ∧ pol.errors < r.pol.errors := by
      by_cases hm : (!env.modules.contains s && s != "connected") = true
      · rw [if_pos hm]
        exact .inr ⟨_, rfl, by rw [riFail_errors]; simp⟩
      rw [if_neg hm]
      by_cases hp : s = env.proto
      · rw [if_pos hp]
        exact .inr ⟨_, rfl, by rw [riFail_errors]; simp⟩
      rw [if_neg hp]
      have hsrc : s = "connected" ∨ s ∈ env.modules := by
        by_cases hc : s = "connected"
        · exact .inl hc
        · right
          simpa [hc] using hm
      unfold riPolicy
      rw [riNorm_policy]
      cases hpol : v.policy? with
      | none =>
        exfalso
        apply hok
        refine ⟨ha, fun _ => ⟨hsrc, hp, fun p a hva hne => ?_⟩⟩
        have := (riPolicy?_iff v p).mpr ⟨hne, a, hva⟩
        rw [hpol] at this; cases this
      | some p =>
        obtain ⟨hne, a, hva⟩ := (riPolicy?_iff v p).mp hpol
        cases hfe : env.feat with
        | off => rw [hfe] at hf; cases hf
        | all => exact .inl rfl
        | list l =>
          simp only []
          by_cases hl : l.contains "no_policy" = true
          · rw [if_pos hl]
            exact .inr ⟨_, rfl, by show _ < pol.errors + 1; omega⟩
          · rw [if_neg hl]
            refine .inr ⟨_, rfl, ?_⟩
            have h1 := (riAddPolicy_mono env pol p).1
            have h2 : (riAddPolicy env pol p).errors ≠ pol.errors := by
              intro he
              apply hok
              refine ⟨ha, fun _ => ⟨hsrc, hp, fun p' a' hva' _ => ?_⟩⟩
              rw [hva] at hva'
              cases hva'
              exact ⟨⟨l, hfe, by simpa using hl⟩, (riAddPolicy_spec env pol p).1.mp he hne⟩
            show pol.errors < (riAddPolicy env pol p).errors
            omega
    cases v with
    | no => exact absurd rfl hno
    | _ => exact main
  · simp only [ha]
    exact .inr ⟨_, rfl, by rw [riFail_errors]; simp⟩

theorem riLoop_mono (env : RiEnv) (ks : List String) (st r : RiState) (h : ks.foldlM (riEntry env) st = some r) :
    st.pol.errors ≤ r.pol.errors ∧ ∀ q ∈ st.pol.pols, q ∈ r.pol.pols := by
  induction ks generalizing st with
  | nil => cases h; simp
  | cons k ks ih =>
    rw [List.foldlM_cons] at h
    cases hk : riEntry env st k with
    | none => rw [hk] at h; cases h
    | some a =>
      rw [hk] at h
      obtain ⟨h1, h2⟩ := riEntry_mono env st a k hk
      obtain ⟨h3, h4⟩ := ih a h
      exact ⟨by omega, fun q hq => h4 q (h2 q hq)⟩

theorem riStepOk_congr {env : RiEnv} {pols pols' : List String} (h : ∀ q, PolUsable env pols q ↔ PolUsable env pols' q) (s : String) (v : RiVal) :
    RiStepOk env pols s v ↔ RiStepOk env pols' s v := by
  have : ∀ a b : List String, (∀ q, PolUsable env a q ↔ PolUsable env b q) → RiStepOk env a s v → RiStepOk env b s v := by
    intro a b hab hok
    exact ⟨hok.1, fun hn => ⟨(hok.2 hn).1, (hok.2 hn).2, fun p x hp hne => ⟨((hok.2 hn).3 p x hp hne).1, (hab p).mp ((hok.2 hn).3 p x hp hne).2⟩⟩⟩
  exact ⟨this _ _ h, this _ _ (fun q => (h q).symm)⟩

theorem riLoop_spec (env : RiEnv) (hf : env.feat.truthy = true) (ks : List String) (hn : ks.Nodup) (st : RiState) (hs : st.stop = false)
    (hk : ∀ k ∈ ks, ∃ v, st.dict.lookup k = some v) :
    ((∃ r, ks.foldlM (riEntry env) st = some r ∧ r.pol.errors = st.pol.errors) ↔
      ∀ k ∈ ks, ∀ v, st.dict.lookup k = some v → RiStepOk env st.pol.pols k v) ∧
    ∀ r, ks.foldlM (riEntry env) st = some r → r.pol.errors = st.pol.errors →
      (∀ j, r.dict.lookup j = if j ∈ ks then (st.dict.lookup j).bind riOut else st.dict.lookup j) ∧
      (∀ k ∈ ks, ∀ p a, st.dict.lookup k = some (.dict (some p) a) → p ≠ "" → p ∈ r.pol.pols) ∧
      (∀ q, PolUsable env r.pol.pols q ↔ PolUsable env st.pol.pols q) := by
  induction ks generalizing st with
  | nil =>
    constructor
    · simp
    · intro r hr _
      cases hr
      simp
  | cons k ks ih =>
    obtain ⟨v, hv⟩ := hk k (by simp)
    obtain ⟨hkn, hn'⟩ := List.nodup_cons.mp hn
    by_cases hok : RiStepOk env st.pol.pols k v
    · obtain ⟨a, ha, hs', he, hl, hu, hp⟩ := riEntry_ok env st k v hs hv hok
      have hother : ∀ j ∈ ks, a.dict.lookup j = st.dict.lookup j := by
        intro j hj
        rw [hl j, if_neg]
        rintro rfl; exact hkn hj
      obtain ⟨h1, h2⟩ := ih hn' a hs' (fun j hj => by rw [hother j hj]; exact hk j (by simp [hj]))
      rw [List.foldlM_cons, ha]
      simp only [Option.bind_eq_bind, Option.bind_some]
      rw [← he]
      constructor
      · rw [h1]
        constructor
        · intro h j hj w hw
          rcases List.mem_cons.mp hj with rfl | hj
          · rw [hv] at hw; cases hw; exact hok
          · exact (riStepOk_congr hu j w).mp (h j hj w (by rw [hother j hj]; exact hw))
        · intro h j hj w hw
          rw [hother j hj] at hw
          exact (riStepOk_congr hu j w).mpr (h j (by simp [hj]) w hw)
      · intro r hr hre
        obtain ⟨h3, h4, h5⟩ := h2 r hr hre
        refine ⟨fun j => ?_, fun j hj p x hx hne => ?_, fun q => (h5 q).trans (hu q)⟩
        · rw [h3 j]
          by_cases hjk : j = k
          · subst hjk
            rw [if_neg hkn, if_pos (by simp), hl j, if_pos rfl, hv]
            rfl
          · by_cases hj : j ∈ ks
            · rw [if_pos hj, if_pos (by simp [hj]), hother j hj]
            · rw [if_neg hj, if_neg (by simp [hj, hjk]), hl j, if_neg hjk]
        · rcases List.mem_cons.mp hj with rfl | hj
          · rw [hv] at hx
            cases hx
            exact (riLoop_mono env ks a r hr).2 p (hp p x rfl hne)
          · exact h4 j hj p x (by rw [hother j hj]; exact hx) hne
    · have hbad := riEntry_bad env hf st k v hs hv hok
      have hno : ∀ r, (k :: ks).foldlM (riEntry env) st = some r → r.pol.errors ≠ st.pol.errors := by
        intro r hr
        rw [List.foldlM_cons] at hr
        rcases hbad with h | ⟨a, ha, hlt⟩
        · rw [h] at hr; cases hr
        · rw [ha] at hr
          have := (riLoop_mono env ks a r hr).1
          omega
      constructor
      · constructor
        · rintro ⟨r, hr, he⟩
          exact absurd he (hno r hr)
        · intro h
          exact absurd (h k (by simp) v hv) hok
      · intro r hr he
        exact absurd he (hno r hr)

theorem riRename_lookup (d : List (String × RiVal)) (k : String) :
    (riRename d).lookup k = if k = "ripv2" then none else if k = "rip" then (d.lookup "ripv2").or (d.lookup "rip") else d.lookup k := by
  unfold riRename
  cases hd : d.lookup "ripv2" with
  | none =>
    by_cases h1 : k = "ripv2"
    · subst h1; simp [hd]
    · rw [if_neg h1]
      by_cases h2 : k = "rip"
      · subst h2; simp
      · rw [if_neg h2]
  | some v =>
    simp only [lookup_popKey, lookup_setKey]
    by_cases h1 : k = "ripv2"
    · simp [h1]
    · rw [if_neg h1, if_neg h1]
      by_cases h2 : k = "rip"
      · simp [h2]
      · rw [if_neg h2, if_neg h2]

theorem riOut_some (w v : RiVal) : riOut w = some v ↔ w ≠ .no ∧ v = (if w = .yes then .dict none false else w) := by
  cases w <;> simp [riOut, RiVal.norm, eq_comm]

/-- **C83** (accepted imports).  Import requests are accepted exactly when the device can import routes into the protocol and from every
listed source, and all sources that are not disabled are other protocols running on the node (or connected routes) and use policies
that exist and can be used. -/
theorem C83_accepted_iff (env : RiEnv) (st : RiPol) (d : List (String × RiVal)) (hd : (d.map (·.1)).Nodup) :
    (∃ r, riCheck env st d = some r ∧ r.1.errors = st.errors) ↔ ImportsOk env st.pols d := by
  unfold riCheck ImportsOk
  by_cases hf : env.feat.truthy = true
  · rw [hf]
    simp only [Bool.not_true, Bool.false_eq_true, if_false]
    have hk : ∀ k ∈ d.map (·.1), ∃ v, d.lookup k = some v := by
      intro k hk
      cases h : d.lookup k with
      | none => exact absurd hk (lookup_eq_none_iff.mp h)
      | some v => exact ⟨v, rfl⟩
    have h := (riLoop_spec env hf (d.map (·.1)) hd { dict := d, pol := st } rfl hk).1
    constructor
    · rintro ⟨r, hr, he⟩
      cases hx : (d.map (·.1)).foldlM (riEntry env) { dict := d, pol := st } with
      | none => rw [hx] at hr; cases hr
      | some x =>
        rw [hx] at hr
        cases hr
        have := h.mp ⟨x, hx, he⟩
        refine ⟨(riTruthy_iff _).mp hf, fun s v hv => ?_⟩
        have hok := this s (List.mem_map.mpr ⟨(s, v), mem_of_lookup hv, rfl⟩) v hv
        exact ⟨(riAccepts_iff _ hf s).mp hok.1, hok.2⟩
    · rintro ⟨_, hall⟩
      obtain ⟨x, hx, he⟩ := h.mpr (fun k _ v hv => ⟨(riAccepts_iff _ hf k).mpr (hall k v hv).1, (hall k v hv).2⟩)
      exact ⟨(x.pol, riRename x.dict), by rw [hx]; rfl, he⟩
  · simp only [hf]
    constructor
    · rintro ⟨r, hr, he⟩
      cases hr
      simp at he
    · rintro ⟨h, _⟩
      exact absurd ((riTruthy_iff _).mpr h) hf

/-- **C83** (final imports).  When the requests are accepted, the final imports are exactly the requested ones without those that are
disabled, RIPv2 is called RIP, and all policies used in imports are on the node. -/
theorem C83_imports (env : RiEnv) (st : RiPol) (d : List (String × RiVal)) (hd : (d.map (·.1)).Nodup) (hr : "rip" ∉ d.map (·.1))
    (r : RiPol × List (String × RiVal)) (h : riCheck env st d = some r) (he : r.1.errors = st.errors) :
    Imported d r.2 ∧ PoliciesPresent r.2 r.1.pols := by
  have hok := (C83_accepted_iff env st d hd).mp ⟨r, h, he⟩
  have hf := (riTruthy_iff _).mpr hok.1
  unfold riCheck at h
  rw [hf] at h
  simp only [Bool.not_true, Bool.false_eq_true, if_false] at h
  cases hx : (d.map (·.1)).foldlM (riEntry env) { dict := d, pol := st } with
  | none => rw [hx] at h; cases h
  | some x =>
    rw [hx] at h
    cases h
    have hk : ∀ k ∈ d.map (·.1), ∃ v, d.lookup k = some v := by
      intro k hk
      cases h : d.lookup k with
      | none => exact absurd hk (lookup_eq_none_iff.mp h)
      | some v => exact ⟨v, rfl⟩
    obtain ⟨h1, h2, _⟩ := (riLoop_spec env hf (d.map (·.1)) hd { dict := d, pol := st } rfl hk).2 x hx he
    have hl : ∀ j, x.dict.lookup j = (d.lookup j).bind riOut := by
      intro j
      rw [h1 j]
      split
      · rfl
      · rename_i hj
        simp only [lookup_eq_none_iff.mpr hj, Option.bind_none]
    have hrn : d.lookup "rip" = none := lookup_eq_none_iff.mpr hr
    have himp : Imported d (riRename x.dict) := by
      intro k v
      rw [riRename_lookup]
      by_cases hk2 : k = "ripv2"
      · subst hk2
        rw [if_pos rfl]
        constructor
        · intro h; cases h
        · rintro ⟨s, w, _, _, hs, _⟩
          unfold SourceName at hs
          split at hs
          · exact absurd hs (by decide)
          · rename_i hne; exact absurd hs.symm hne
      · rw [if_neg hk2]
        by_cases hk3 : k = "rip"
        · subst hk3
          rw [if_pos rfl, hl, hl, hrn]
          simp only [Option.bind_none, Option.or_none]
          constructor
          · intro h
            cases hw : d.lookup "ripv2" with
            | none => rw [hw] at h; cases h
            | some w =>
              rw [hw] at h
              obtain ⟨a, b⟩ := (riOut_some w v).mp h
              exact ⟨"ripv2", w, hw, a, rfl, b⟩
          · rintro ⟨s, w, hw, hno, hs, hv⟩
            have : s = "ripv2" := by
              unfold SourceName at hs
              split at hs
              · assumption
              · subst hs; rw [hrn] at hw; cases hw
            subst this
            rw [hw]
            exact (riOut_some w v).mpr ⟨hno, hv⟩
        · rw [if_neg hk3, hl]
          constructor
          · intro h
            cases hw : d.lookup k with
            | none => rw [hw] at h; cases h
            | some w =>
              rw [hw] at h
              obtain ⟨a, b⟩ := (riOut_some w v).mp h
              exact ⟨k, w, hw, a, by unfold SourceName; rw [if_neg hk2], b⟩
          · rintro ⟨s, w, hw, hno, hs, hv⟩
            have : k = s := by
              unfold SourceName at hs
              split at hs
              · exact absurd hs hk3
              · exact hs
            subst this
            rw [hw]
            exact (riOut_some w v).mpr ⟨hno, hv⟩
    refine ⟨himp, fun k p a hka hne => ?_⟩
    obtain ⟨s, w, hw, _, _, hv⟩ := (himp k _).mp hka
    have hw' : w = .dict (some p) a := by
      split at hv
      · cases hv
      · exact hv.symm
    subst hw'
    exact h2 s (List.mem_map.mpr ⟨_, mem_of_lookup hw, rfl⟩) p a hw hne

theorem riVrfProto_iff (env : RiEnv) (v : List (String × RiProto)) (s : String) :
    riVrfProto env v s = true ↔ s = "connected" ∨ s = "static" ∨ RunsInVrf env v s := by
  unfold riVrfProto RunsInVrf
  simp only [Bool.or_eq_true, beq_iff_eq, Bool.and_eq_true, or_assoc]
  constructor
  · rintro (h | h | h | h)
    · exact .inl h
    · exact .inr (.inl h)
    · obtain ⟨x, hx⟩ := Option.isSome_iff_exists.mp h
      exact .inr (.inr (.inl (List.mem_map.mpr ⟨(s, x), mem_of_lookup hx, rfl⟩)))
    · exact .inr (.inr (.inr h))
  · rintro (h | h | h | h)
    · exact .inl h
    · exact .inr (.inl h)
    · refine .inr (.inr (.inl ?_))
      cases hl : v.lookup s with
      | none => exact absurd h (lookup_eq_none_iff.mp hl)
      | some x => rfl
    · exact .inr (.inr (.inr h))

theorem riAuto_spec (p : String → Bool) (srcs : List String) (d : Option (List (String × RiVal))) (k : String) (x : RiVal) :
    ((srcs.foldl (fun d s => if p s then some (setKey (d.getD []) (riName s) (.dict none true)) else d) d).getD []).lookup k = some x ↔
    (∃ s ∈ srcs, p s = true ∧ k = SourceName s ∧ x = .dict none true) ∨
      ((∀ s ∈ srcs, p s = true → k ≠ SourceName s) ∧ (d.getD []).lookup k = some x) := by
  induction srcs generalizing d with
  | nil => simp
  | cons s srcs ih =>
    rw [List.foldl_cons, ih]
    by_cases hp : p s = true
    · rw [if_pos hp]
      simp only [Option.getD_some, lookup_setKey]
      have hn : riName s = SourceName s := rfl
      rw [hn]
      by_cases hk : k = SourceName s
      · rw [if_pos hk]
        constructor
        · rintro (⟨t, ht, h⟩ | ⟨_, h⟩)
          · exact .inl ⟨t, by simp [ht], h⟩
          · exact .inl ⟨s, by simp, hp, hk, by cases h; rfl⟩
        · rintro (⟨t, ht, hpt, hkt, hx⟩ | ⟨h, _⟩)
          · rcases List.mem_cons.mp ht with rfl | ht
            · by_cases hex : ∃ t ∈ srcs, p t = true ∧ k = SourceName t
              · obtain ⟨t', h1, h2, h3⟩ := hex
                exact .inl ⟨t', h1, h2, h3, hx⟩
              · exact .inr ⟨fun t' h1 h2 h3 => hex ⟨t', h1, h2, h3⟩, by rw [hx]⟩
            · exact .inl ⟨t, ht, hpt, hkt, hx⟩
          · exact absurd hk (h s (by simp) hp)
      · rw [if_neg hk]
        constructor
        · rintro (⟨t, ht, h⟩ | ⟨h1, h2⟩)
          · exact .inl ⟨t, by simp [ht], h⟩
          · refine .inr ⟨fun t ht hpt => ?_, h2⟩
            rcases List.mem_cons.mp ht with rfl | ht
            · exact hk
            · exact h1 t ht hpt
        · rintro (⟨t, ht, hpt, hkt, hx⟩ | ⟨h1, h2⟩)
          · rcases List.mem_cons.mp ht with rfl | ht
            · exact absurd hkt hk
            · exact .inl ⟨t, ht, hpt, hkt, hx⟩
          · exact .inr ⟨fun t ht => h1 t (by simp [ht]), h2⟩
    · rw [if_neg hp]
      constructor
      · rintro (⟨t, ht, h⟩ | ⟨h1, h2⟩)
        · exact .inl ⟨t, by simp [ht], h⟩
        · refine .inr ⟨fun t ht hpt => ?_, h2⟩
          rcases List.mem_cons.mp ht with rfl | ht
          · exact absurd hpt hp
          · exact h1 t ht hpt
      · rintro (⟨t, ht, hpt, hkt, hx⟩ | ⟨h1, h2⟩)
        · rcases List.mem_cons.mp ht with rfl | ht
          · exact absurd hpt hp
          · exact .inl ⟨t, ht, hpt, hkt, hx⟩
        · exact .inr ⟨fun t ht => h1 t (by simp [ht]), h2⟩

theorem riCheck_mono (env : RiEnv) (st : RiPol) (d : List (String × RiVal)) (r : RiPol × List (String × RiVal)) (h : riCheck env st d = some r) :
    st.errors ≤ r.1.errors ∧ ∀ q ∈ st.pols, q ∈ r.1.pols := by
  unfold riCheck at h
  split at h
  · cases h; simp
  · cases hx : (d.map (·.1)).foldlM (riEntry env) { dict := d, pol := st } with
    | none => rw [hx] at h; cases h
    | some x =>
      rw [hx] at h
      cases h
      exact riLoop_mono env _ _ _ hx

theorem riCheck_usable (env : RiEnv) (st : RiPol) (d : List (String × RiVal)) (hd : (d.map (·.1)).Nodup)
    (r : RiPol × List (String × RiVal)) (h : riCheck env st d = some r) (he : r.1.errors = st.errors) (q : String) :
    PolUsable env r.1.pols q ↔ PolUsable env st.pols q := by
  have hok := (C83_accepted_iff env st d hd).mp ⟨r, h, he⟩
  have hf := (riTruthy_iff _).mpr hok.1
  unfold riCheck at h
  rw [hf] at h
  simp only [Bool.not_true, Bool.false_eq_true, if_false] at h
  cases hx : (d.map (·.1)).foldlM (riEntry env) { dict := d, pol := st } with
  | none => rw [hx] at h; cases h
  | some x =>
    rw [hx] at h
    cases h
    have hk : ∀ k ∈ d.map (·.1), ∃ v, d.lookup k = some v := by
      intro k hk
      cases h : d.lookup k with
      | none => exact absurd hk (lookup_eq_none_iff.mp h)
      | some v => exact ⟨v, rfl⟩
    exact (riLoop_spec env hf (d.map (·.1)) hd { dict := d, pol := st } rfl hk).2 x hx he |>.2.2 q

/-- The explicit imports of a VRF are well-formed dictionaries. -/
def RiWf (env : RiEnv) (v : List (String × RiProto)) : Prop :=
  ∀ d, v.lookup env.proto = some (.data (some d)) → (d.map (·.1)).Nodup ∧ "rip" ∉ d.map (·.1)

/-- The target protocol is a routing protocol. -/
def RiTarget (env : RiEnv) : Prop := env.proto ≠ "connected" ∧ env.proto ≠ "static"

theorem riVrfProto_target (env : RiEnv) (ht : RiTarget env) (v : List (String × RiProto)) :
    riVrfProto env v env.proto = true ↔ RunsInVrf env v env.proto := by
  rw [riVrfProto_iff]
  constructor
  · rintro (h | h | h)
    · exact absurd h ht.1
    · exact absurd h ht.2
    · exact h
  · exact fun h => .inr (.inr h)

theorem riVrf_spec (env : RiEnv) (ht : RiTarget env) (srcs : List String) (st : RiPol) (v : List (String × RiProto)) (hw : RiWf env v) :
    ((∃ r, riVrf env srcs st v = some r ∧ r.1.errors = st.errors) ↔ VrfOk env st.pols v) ∧
    ∀ r, riVrf env srcs st v = some r →
      st.errors ≤ r.1.errors ∧ (∀ q ∈ st.pols, q ∈ r.1.pols) ∧
      (r.1.errors = st.errors → (∀ q, PolUsable env r.1.pols q ↔ PolUsable env st.pols q) ∧ VrfProcessed env srcs v r.2 ∧
        ∀ d d', v.lookup env.proto = some (.data (some d)) → r.2.lookup env.proto = some (.data (some d')) → PoliciesPresent d' r.1.pols) := by
  unfold riVrf
  by_cases hrun : riVrfProto env v env.proto = true
  · have hrun' := (riVrfProto_target env ht v).mp hrun
    rw [hrun]
    simp only [Bool.not_true, Bool.false_eq_true, if_false]
    have key : (∀ d, v.lookup env.proto ≠ some (.data (some d))) → (∀ b, v.lookup env.proto ≠ some (.flag b)) →
        ∀ w, w = (if env.feat.vrfAware && env.feat.truthy then some (st, setKey v env.proto (.data (riAuto env (setKey v env.proto (.data none)) srcs)))
          else some (st, setKey v env.proto (.data none))) →
        ((∃ r, w = some r ∧ r.1.errors = st.errors) ↔ VrfOk env st.pols v) ∧
        ∀ r, w = some r →
          st.errors ≤ r.1.errors ∧ (∀ q ∈ st.pols, q ∈ r.1.pols) ∧
          (r.1.errors = st.errors → (∀ q, PolUsable env r.1.pols q ↔ PolUsable env st.pols q) ∧ VrfProcessed env srcs v r.2 ∧
            ∀ d d', v.lookup env.proto = some (.data (some d)) → r.2.lookup env.proto = some (.data (some d')) → PoliciesPresent d' r.1.pols) := by
      intro hnd hnf w hweq
      have hok : VrfOk env st.pols v := fun _ => ⟨hnf, fun d hd => absurd hd (hnd d)⟩
      by_cases ha : env.feat.vrfAware = true
      · rw [ha, riAware_truthy _ ha] at hweq
        simp only [Bool.and_self, if_true] at hweq
        subst hweq
        refine ⟨⟨fun _ => hok, fun _ => ⟨_, rfl, rfl⟩⟩, ?_⟩
        rintro r ⟨⟩
        refine ⟨Nat.le_refl _, fun q hq => hq, fun _ => ⟨fun _ => Iff.rfl, ?_, fun d _ hd => absurd hd (hnd d)⟩⟩
        constructor
        · intro p hp
          simp only [lookup_setKey, if_neg hp]
        · exact fun h => absurd hrun' h
        · exact fun d hd => absurd hd (hnd d)
        · intro _ _ _ k x
          unfold VrfImports
          simp only [lookup_setKey, if_true]
          have hauto := riAuto_spec (fun s => riVrfProto env (setKey v env.proto (.data none)) s || (env.proto == "bgp" && env.keys.contains s)) srcs none k x
          have hiff : ∀ s, (riVrfProto env (setKey v env.proto (.data none)) s || (env.proto == "bgp" && env.keys.contains s)) = true ↔ AutoSource env v s := by
            intro s
            unfold AutoSource
            rw [Bool.or_eq_true, riVrfProto_iff]
            simp only [Bool.and_eq_true, beq_iff_eq, List.contains_iff_mem]
            have : RunsInVrf env (setKey v env.proto (.data none)) s ↔ s = env.proto ∨ RunsInVrf env v s := by
              unfold RunsInVrf
              rw [keys_setKey]
              split
              · rename_i hin
                constructor
                · exact .inr
                · rintro (rfl | h)
                  · exact .inl hin
                  · exact h
              · rw [List.mem_append, List.mem_singleton]
                constructor
                · rintro ((h | h) | h)
                  · exact .inr (.inl h)
                  · exact .inl h
                  · exact .inr (.inr h)
                · rintro (h | h | h)
                  · exact .inl (.inr h)
                  · exact .inl (.inl h)
                  · exact .inr h
            rw [this]
            simp only [or_assoc]
          have hiff2 : (∃ s ∈ srcs, AutoSource env v s ∧ k = SourceName s ∧ x = .dict none true) ↔
              ((riAuto env (setKey v env.proto (.data none)) srcs).getD []).lookup k = some x := by
            unfold riAuto
            rw [hauto]
            simp only [Option.getD_none, List.lookup_nil]
            constructor
            · rintro ⟨s, hs, h1, h2⟩
              exact .inl ⟨s, hs, (hiff s).mpr h1, h2⟩
            · rintro (⟨s, hs, h1, h2⟩ | ⟨_, h⟩)
              · exact ⟨s, hs, (hiff s).mp h1, h2⟩
              · cases h
          rw [hiff2]
          cases hra : riAuto env (setKey v env.proto (.data none)) srcs with
          | none => simp
          | some d => simp
        · exact fun _ h => absurd ((riAware_iff _).mp ha) h
      · simp only [ha, Bool.false_and] at hweq
        simp only [Bool.false_eq_true, if_false] at hweq
        subst hweq
        refine ⟨⟨fun _ => hok, fun _ => ⟨_, rfl, rfl⟩⟩, ?_⟩
        rintro r ⟨⟩
        refine ⟨Nat.le_refl _, fun q hq => hq, fun _ => ⟨fun _ => Iff.rfl, ?_, fun d _ hd => absurd hd (hnd d)⟩⟩
        constructor
        · intro p hp
          simp only [lookup_setKey, if_neg hp]
        · exact fun h => absurd hrun' h
        · exact fun d hd => absurd hd (hnd d)
        · exact fun _ _ h => absurd ((riAware_iff _).mpr h) ha
        · rintro _ _ k x ⟨d, hd, _⟩
          simp only [lookup_setKey, if_true] at hd
          cases hd
    cases hl : v.lookup env.proto with
    | none =>
      have hkey := key (by simp [hl]) (by simp [hl]) _ rfl
      rw [hl] at hkey
      exact hkey
    | some x =>
      cases x with
      | flag b =>
        simp only []
        refine ⟨⟨fun ⟨r, hr, _⟩ => (nomatch hr), fun h => absurd hl ((h hrun').1 b)⟩, fun r hr => (nomatch hr)⟩
      | data i =>
        cases i with
        | none =>
          have hkey := key (by simp [hl]) (by simp [hl]) _ rfl
          rw [hl] at hkey
          exact hkey
        | some d =>
          simp only []
          obtain ⟨hw1, hw2⟩ := hw d hl
          by_cases ha : env.feat.vrfAware = true
          · rw [if_pos ha]
            constructor
            · constructor
              · rintro ⟨r, hr, he⟩
                cases hc : riCheck env st d with
                | none => rw [hc] at hr; cases hr
                | some c =>
                  rw [hc] at hr
                  cases hr
                  intro _
                  refine ⟨by simp [hl], fun d' hd' => ?_⟩
                  rw [hl] at hd'
                  cases hd'
                  exact ⟨(riAware_iff _).mp ha, (C83_accepted_iff env st d hw1).mp ⟨c, hc, he⟩⟩
              · intro h
                obtain ⟨c, hc, he⟩ := (C83_accepted_iff env st d hw1).mpr ((h hrun').2 d hl).2
                exact ⟨(c.1, setKey v env.proto (.data (some c.2))), by rw [hc]; rfl, he⟩
            · intro r hr
              cases hc : riCheck env st d with
              | none => rw [hc] at hr; cases hr
              | some c =>
                rw [hc] at hr
                cases hr
                obtain ⟨hm1, hm2⟩ := riCheck_mono env st d c hc
                refine ⟨hm1, hm2, fun he => ?_⟩
                obtain ⟨hi, hpp⟩ := C83_imports env st d hw1 hw2 c hc he
                refine ⟨riCheck_usable env st d hw1 c hc he, ?_, ?_⟩
                · constructor
                  · intro p hp
                    simp only [lookup_setKey, if_neg hp]
                  · exact fun h => absurd hrun' h
                  · intro d' hd'
                    rw [hl] at hd'
                    cases hd'
                    exact ⟨c.2, by simp [lookup_setKey], hi⟩
                  · exact fun _ h => absurd hl (h d)
                  · exact fun h => absurd hl (h d)
                · intro d0 d' _ hd'
                  simp only [lookup_setKey, if_true] at hd'
                  cases hd'
                  exact hpp
          · rw [if_neg ha]
            refine ⟨⟨fun ⟨r, hr, _⟩ => (nomatch hr), fun h => absurd ((riAware_iff _).mpr ((h hrun').2 d hl).1) ha⟩, fun r hr => (nomatch hr)⟩
  · have hrun' : ¬ RunsInVrf env v env.proto := fun h => hrun ((riVrfProto_target env ht v).mpr h)
    have hnone : v.lookup env.proto = none := lookup_eq_none_iff.mpr (fun h => hrun' (.inl h))
    simp only [hrun]
    refine ⟨⟨fun _ h => absurd h hrun', fun _ => ⟨_, rfl, rfl⟩⟩, ?_⟩
    rintro r ⟨⟩
    refine ⟨Nat.le_refl _, fun q hq => hq, fun _ => ⟨fun _ => Iff.rfl, ?_, fun d _ hd => by rw [hnone] at hd; cases hd⟩⟩
    constructor
    · exact fun _ _ => rfl
    · exact fun _ => rfl
    · intro d hd; rw [hnone] at hd; cases hd
    · exact fun h => absurd h hrun'
    · rintro _ _ k x ⟨d, hd, _⟩
      rw [hnone] at hd; cases hd

theorem riVrfs_spec (env : RiEnv) (ht : RiTarget env) (srcs : List String) (l : List (String × List (String × RiProto))) (st : RiPol)
    (hw : ∀ p ∈ l, RiWf env p.2) :
    ((∃ r, riVrfs env srcs st l = some r ∧ r.1.errors = st.errors) ↔ ∀ p ∈ l, VrfOk env st.pols p.2) ∧
    ∀ r, riVrfs env srcs st l = some r →
      st.errors ≤ r.1.errors ∧ (∀ q ∈ st.pols, q ∈ r.1.pols) ∧
      (r.1.errors = st.errors → List.Forall₂ (fun a b => a.1 = b.1 ∧ VrfProcessed env srcs a.2 b.2 ∧
        ∀ d d', a.2.lookup env.proto = some (.data (some d)) → b.2.lookup env.proto = some (.data (some d')) → PoliciesPresent d' r.1.pols) l r.2) := by
  induction l generalizing st with
  | nil =>
    refine ⟨⟨fun _ => by simp, fun _ => ⟨_, rfl, rfl⟩⟩, ?_⟩
    rintro r ⟨⟩
    exact ⟨Nat.le_refl _, fun q hq => hq, fun _ => .nil⟩
  | cons p l ih =>
    obtain ⟨n, v⟩ := p
    obtain ⟨h1, h2⟩ := riVrf_spec env ht srcs st v (hw (n, v) (by simp))
    cases hv : riVrf env srcs st v with
    | none =>
      have hnone : riVrfs env srcs st ((n, v) :: l) = none := by simp [riVrfs, hv]
      rw [hnone]
      refine ⟨⟨fun ⟨r, hr, _⟩ => (nomatch hr), fun h => ?_⟩, fun r hr => (nomatch hr)⟩
      obtain ⟨r, hr, _⟩ := h1.mpr (h (n, v) (by simp))
      rw [hv] at hr; cases hr
    | some a =>
      obtain ⟨hm1, hm2, hm3⟩ := h2 a hv
      obtain ⟨h3, h4⟩ := ih a.1 (fun p hp => hw p (by simp [hp]))
      have heq : riVrfs env srcs st ((n, v) :: l) = (riVrfs env srcs a.1 l).map (fun b => (b.1, (n, a.2) :: b.2)) := by
        simp only [riVrfs, hv, Option.bind_eq_bind, Option.bind_some]
        cases riVrfs env srcs a.1 l <;> rfl
      rw [heq]
      constructor
      · constructor
        · rintro ⟨r, hr, he⟩
          cases hb : riVrfs env srcs a.1 l with
          | none => rw [hb] at hr; cases hr
          | some b =>
            rw [hb] at hr
            cases hr
            have hle := (h4 b hb).1
            have he' : b.1.errors = st.errors := he
            have hea : a.1.errors = st.errors := by omega
            have hok := h3.mp ⟨b, hb, by omega⟩
            intro p hp
            rcases List.mem_cons.mp hp with rfl | hp
            · exact h1.mp ⟨a, hv, hea⟩
            · intro hrun
              obtain ⟨x, y⟩ := hok p hp hrun
              refine ⟨x, fun d hd => ⟨(y d hd).1, (y d hd).2.1, fun s w hsw => ?_⟩⟩
              have hz := (y d hd).2.2 s w hsw
              refine ⟨hz.1, fun hn => ⟨(hz.2 hn).1, (hz.2 hn).2, fun q b' hq hne => ?_⟩⟩
              exact ⟨((hz.2 hn).3 q b' hq hne).1, ((hm3 hea).1 q).mp ((hz.2 hn).3 q b' hq hne).2⟩
        · intro h
          obtain ⟨a', ha', hea⟩ := h1.mpr (h (n, v) (by simp))
          rw [hv] at ha'
          cases ha'
          obtain ⟨b, hb, heb⟩ := h3.mpr (fun p hp hrun => by
            obtain ⟨x, y⟩ := h p (by simp [hp]) hrun
            refine ⟨x, fun d hd => ⟨(y d hd).1, (y d hd).2.1, fun s w hsw => ?_⟩⟩
            have hz := (y d hd).2.2 s w hsw
            refine ⟨hz.1, fun hn => ⟨(hz.2 hn).1, (hz.2 hn).2, fun q b' hq hne => ?_⟩⟩
            exact ⟨((hz.2 hn).3 q b' hq hne).1, ((hm3 hea).1 q).mpr ((hz.2 hn).3 q b' hq hne).2⟩)
          exact ⟨(b.1, (n, a.2) :: b.2), by rw [hb]; rfl, by show b.1.errors = _; omega⟩
      · intro r hr
        cases hb : riVrfs env srcs a.1 l with
        | none => rw [hb] at hr; cases hr
        | some b =>
          rw [hb] at hr
          cases hr
          obtain ⟨hb1, hb2, hb3⟩ := h4 b hb
          refine ⟨Nat.le_trans hm1 hb1, fun q hq => hb2 q (hm2 q hq), fun he => ?_⟩
          have he' : b.1.errors = st.errors := he
          obtain ⟨_, hpr, hpp⟩ := hm3 (by omega)
          refine .cons ⟨rfl, hpr, fun d d' hd hd' k p a' hka hne => hb2 p (hpp d d' hd hd' k p a' hka hne)⟩ (hb3 (by omega))

/-- Node data can be processed: dictionaries have unique keys, and `rip` is not a source (`netsim/data/types.py:884-896`). -/
structure RiNodeWf (env : RiEnv) (n : RiNode) : Prop where
  nodup : (n.imp.map (·.1)).Nodup
  rip : "rip" ∉ n.imp.map (·.1)
  vrfs : ∀ p ∈ n.vrfs, RiWf env p.2

/-- **C83** (imports on a node).  Route imports on a node are accepted exactly when global import requests and explicit import requests
of all VRFs running the protocol are acceptable (and the device can import routes in VRFs). -/
theorem C83_node_accepted_iff (env : RiEnv) (ht : RiTarget env) (srcs : List String) (st : RiPol) (n : RiNode) (hw : RiNodeWf env n) :
    (∃ r, riProcess env srcs st n = some r ∧ r.1.errors = st.errors) ↔
      (n.imp ≠ [] → ImportsOk env st.pols n.imp) ∧ ∀ p ∈ n.vrfs, VrfOk env st.pols p.2 := by
  have tr : ∀ a b : List String, (∀ q, PolUsable env a q ↔ PolUsable env b q) → ∀ v, VrfOk env a v → VrfOk env b v := by
    intro a b hab v h hrun
    obtain ⟨x, y⟩ := h hrun
    refine ⟨x, fun d hd => ⟨(y d hd).1, (y d hd).2.1, fun s w hsw => ?_⟩⟩
    have hz := (y d hd).2.2 s w hsw
    refine ⟨hz.1, fun hn => ⟨(hz.2 hn).1, (hz.2 hn).2, fun q b' hq hne => ?_⟩⟩
    exact ⟨((hz.2 hn).3 q b' hq hne).1, (hab q).mp ((hz.2 hn).3 q b' hq hne).2⟩
  unfold riProcess
  by_cases hi : n.imp = []
  · have : n.imp.isEmpty = true := by simp [hi]
    simp only [this, if_true, Option.bind_eq_bind, Option.bind_some]
    have h := (riVrfs_spec env ht srcs n.vrfs st hw.vrfs).1
    constructor
    · rintro ⟨r, hr, he⟩
      cases hb : riVrfs env srcs st n.vrfs with
      | none => rw [hb] at hr; cases hr
      | some b =>
        rw [hb] at hr
        cases hr
        exact ⟨fun hn => absurd hi hn, h.mp ⟨b, hb, he⟩⟩
    · rintro ⟨_, hv⟩
      obtain ⟨b, hb, he⟩ := h.mpr hv
      exact ⟨(b.1, ⟨n.imp, b.2⟩), by rw [hb]; rfl, he⟩
  · have : n.imp.isEmpty = false := by simpa using hi
    simp only [this, Bool.false_eq_true, if_false, Option.bind_eq_bind]
    have hc := C83_accepted_iff env st n.imp hw.nodup
    constructor
    · rintro ⟨r, hr, he⟩
      cases ha : riCheck env st n.imp with
      | none => rw [ha] at hr; cases hr
      | some a =>
        rw [ha] at hr
        simp only [Option.bind_some] at hr
        cases hb : riVrfs env srcs a.1 n.vrfs with
        | none => rw [hb] at hr; cases hr
        | some b =>
          rw [hb] at hr
          cases hr
          have hm := (riCheck_mono env st n.imp a ha).1
          have hs := riVrfs_spec env ht srcs n.vrfs a.1 hw.vrfs
          have hm2 := (hs.2 b hb).1
          have he' : b.1.errors = st.errors := he
          have hea : a.1.errors = st.errors := by omega
          refine ⟨fun _ => hc.mp ⟨a, ha, hea⟩, fun p hp => tr _ _ (riCheck_usable env st n.imp hw.nodup a ha hea) p.2 (hs.1.mp ⟨b, hb, by omega⟩ p hp)⟩
    · rintro ⟨h1, h2⟩
      obtain ⟨a, ha, hea⟩ := hc.mpr (h1 hi)
      have hs := riVrfs_spec env ht srcs n.vrfs a.1 hw.vrfs
      obtain ⟨b, hb, heb⟩ := hs.1.mpr (fun p hp => tr _ _ (fun q => (riCheck_usable env st n.imp hw.nodup a ha hea q).symm) p.2 (h2 p hp))
      exact ⟨(b.1, ⟨a.2, b.2⟩), by rw [ha]; simp only [Option.bind_some]; rw [hb]; rfl, by show b.1.errors = _; omega⟩

/-- **C83** (imports on a node: outcome).  Accepted global and VRF imports are the requested ones; a VRF without import requests gets
automatic imports when the device can import routes in VRFs; other VRF data are not changed. -/
theorem C83_node (env : RiEnv) (ht : RiTarget env) (srcs : List String) (st : RiPol) (n : RiNode) (hw : RiNodeWf env n)
    (r : RiPol × RiNode) (h : riProcess env srcs st n = some r) (he : r.1.errors = st.errors) :
    Imported n.imp r.2.imp ∧ PoliciesPresent r.2.imp r.1.pols ∧
    List.Forall₂ (fun a b => a.1 = b.1 ∧ VrfProcessed env srcs a.2 b.2 ∧
      ∀ d d', a.2.lookup env.proto = some (.data (some d)) → b.2.lookup env.proto = some (.data (some d')) → PoliciesPresent d' r.1.pols)
      n.vrfs r.2.vrfs := by
  unfold riProcess at h
  by_cases hi : n.imp = []
  · have : n.imp.isEmpty = true := by simp [hi]
    simp only [this, if_true, Option.bind_eq_bind, Option.bind_some] at h
    cases hb : riVrfs env srcs st n.vrfs with
    | none => rw [hb] at h; cases h
    | some b =>
      rw [hb] at h
      cases h
      refine ⟨?_, ?_, ((riVrfs_spec env ht srcs n.vrfs st hw.vrfs).2 b hb).2.2 he⟩
      · simp only [hi]; intro k v; simp
      · simp only [hi]; intro k p a hk; simp at hk
  · have : n.imp.isEmpty = false := by simpa using hi
    simp only [this, Bool.false_eq_true, if_false, Option.bind_eq_bind] at h
    cases ha : riCheck env st n.imp with
    | none => rw [ha] at h; cases h
    | some a =>
      rw [ha] at h
      simp only [Option.bind_some] at h
      cases hb : riVrfs env srcs a.1 n.vrfs with
      | none => rw [hb] at h; cases h
      | some b =>
        rw [hb] at h
        cases h
        have hm := (riCheck_mono env st n.imp a ha).1
        have hs := (riVrfs_spec env ht srcs n.vrfs a.1 hw.vrfs).2 b hb
        have he' : b.1.errors = st.errors := he
        have hm2 := hs.1
        obtain ⟨h1, h2⟩ := C83_imports env st n.imp hw.nodup hw.rip a ha (by omega)
        exact ⟨h1, fun k p x hk hne => hs.2.1 p (h2 k p x hk hne), hs.2.2 (by omega)⟩

theorem riRemoveOne_spec (p : String) (st r : List (String × RiProto) × Nat) (rp : String) (h : riRemoveOne p st rp = some r) :
    st.2 ≤ r.2 ∧ (∀ q, q ≠ rp → r.1.lookup q = st.1.lookup q) ∧
    (∀ k x, k ≠ p → (VrfImports r.1 rp k x ↔ VrfImports st.1 rp k x)) ∧
    (r.2 = st.2 → ∀ x, ¬ VrfImports r.1 rp p x) ∧ (r.1.lookup rp).isSome = (st.1.lookup rp).isSome := by
  unfold riRemoveOne at h
  split at h
  · rename_i d hd
    split at h
    · rename_i hp
      cases h
      refine ⟨Nat.le_refl _, fun _ _ => rfl, fun _ _ _ => Iff.rfl, ?_, rfl⟩
      rintro _ x ⟨d', hd', hx⟩
      rw [hd] at hd'
      cases hd'
      rw [hp] at hx; cases hx
    · cases h
      refine ⟨Nat.le_refl _, fun q hq => by simp [lookup_setKey, hq], fun k x hk => ?_, ?_, by simp [lookup_setKey, hd]⟩
      · unfold VrfImports
        simp only [lookup_setKey, if_true, hd]
        constructor
        · rintro ⟨d', hd', hx⟩
          cases hd'
          rw [lookup_popKey, if_neg hk] at hx
          exact ⟨d, rfl, hx⟩
        · rintro ⟨d', hd', hx⟩
          cases hd'
          exact ⟨_, rfl, by rw [lookup_popKey, if_neg hk]; exact hx⟩
      · rintro _ x ⟨d', hd', hx⟩
        simp only [lookup_setKey, if_true] at hd'
        cases hd'
        rw [lookup_popKey, if_pos rfl] at hx
        cases hx
    · cases h
      exact ⟨by simp, fun _ _ => rfl, fun _ _ _ => Iff.rfl, fun h => by simp at h, rfl⟩
    · cases h
  · rename_i hd
    cases h
    refine ⟨Nat.le_refl _, fun _ _ => rfl, fun _ _ _ => Iff.rfl, ?_, rfl⟩
    rintro _ x ⟨d', hd', _⟩
    exact hd d' hd'

theorem riRemove_spec (p : String) (l : List String) (hn : l.Nodup) (st r : List (String × RiProto) × Nat) (h : l.foldlM (riRemoveOne p) st = some r) :
    st.2 ≤ r.2 ∧ (∀ q, q ∉ l → r.1.lookup q = st.1.lookup q) ∧
    (∀ rp k x, k ≠ p → (VrfImports r.1 rp k x ↔ VrfImports st.1 rp k x)) ∧
    (r.2 = st.2 → ∀ rp ∈ l, ∀ x, ¬ VrfImports r.1 rp p x) ∧ ∀ q, (r.1.lookup q).isSome = (st.1.lookup q).isSome := by
  induction l generalizing st with
  | nil => cases h; simp
  | cons rp l ih =>
    rw [List.foldlM_cons] at h
    obtain ⟨hnr, hnl⟩ := List.nodup_cons.mp hn
    cases ha : riRemoveOne p st rp with
    | none => rw [ha] at h; cases h
    | some a =>
      rw [ha] at h
      obtain ⟨a1, a2, a3, a4, a5⟩ := riRemoveOne_spec p st a rp ha
      obtain ⟨b1, b2, b3, b4, b5⟩ := ih hnl a h
      refine ⟨Nat.le_trans a1 b1, fun q hq => ?_, fun q k x hk => ?_, fun he q hq x => ?_, fun q => ?_⟩
      · rw [b2 q (fun h => hq (by simp [h])), a2 q (fun h => hq (by simp [h]))]
      · rw [b3 q k x hk]
        by_cases hq : q = rp
        · subst hq; exact a3 k x hk
        · unfold VrfImports; rw [a2 q hq]
      · rcases List.mem_cons.mp hq with rfl | hq
        · intro hx
          apply a4 (by omega) x
          unfold VrfImports at hx ⊢
          rwa [b2 q hnr] at hx
        · exact b4 (by omega) q hq x
      · rw [b5 q]
        by_cases hq : q = rp
        · subst hq; exact a5
        · rw [a2 q hq]

/-- **C83** (protocols that are not active in a VRF).  When a protocol is removed from a VRF without an error, it is no longer in the
VRF, no routing protocol in the VRF imports its routes, and all other imports are unchanged. -/
theorem C83_removed (p : String) (v : List (String × RiProto)) (r : List (String × RiProto) × Nat) (h : riDrop p v = some r) (he : r.2 = 0) :
    p ∉ r.1.map (·.1) ∧
    (∀ rp ∈ ["bgp", "ospf", "isis", "ripv2", "eigrp"], ∀ x, ¬ VrfImports r.1 rp p x) ∧
    (∀ rp k x, rp ≠ p → k ≠ p → (VrfImports r.1 rp k x ↔ VrfImports v rp k x)) ∧
    (∀ q, q ≠ p → (q ∈ r.1.map (·.1) ↔ q ∈ v.map (·.1))) := by
  unfold riDrop at h
  cases hr : riRemove p v with
  | none => rw [hr] at h; cases h
  | some a =>
    rw [hr] at h
    cases h
    obtain ⟨_, _, h3, h4, h5⟩ := riRemove_spec p riProtocols (by decide) (v, 0) a hr
    have hv : ∀ rp k x, rp ≠ p → (VrfImports (popKey a.1 p) rp k x ↔ VrfImports a.1 rp k x) := by
      intro rp k x hne
      unfold VrfImports
      rw [lookup_popKey, if_neg hne]
    have hk : ∀ (l : List (String × RiProto)) q, q ∈ l.map (·.1) ↔ (l.lookup q).isSome = true := by
      intro l q
      cases hq : l.lookup q with
      | none => simp only [lookup_eq_none_iff.mp hq, Option.isSome_none, Bool.false_eq_true]
      | some x => simp only [Option.isSome_some, iff_true]; exact List.mem_map.mpr ⟨(q, x), mem_of_lookup hq, rfl⟩
    refine ⟨?_, fun rp hrp x hx => ?_, fun rp k x hne hk => ?_, fun q hq => ?_⟩
    · apply lookup_eq_none_iff.mp
      rw [lookup_popKey, if_pos rfl]
    · by_cases hne : rp = p
      · subst hne
        obtain ⟨d, hd, _⟩ := hx
        rw [lookup_popKey, if_pos rfl] at hd
        cases hd
      · exact h4 he rp hrp x ((hv rp p x hne).mp hx)
    · rw [hv rp k x hne, h3 rp k x hk]
    · rw [hk, hk, lookup_popKey, if_neg hq, h5 q]

/-- **C83** (removal of imports).  The removal fails exactly when a protocol in the VRF explicitly imports routes of the removed one. -/
theorem C83_removed_iff (p : String) (v : List (String × RiProto)) :
    (∃ r, riDrop p v = some r ∧ r.2 = 0) ↔
      ∀ rp ∈ ["bgp", "ospf", "isis", "ripv2", "eigrp"], ∀ x, VrfImports v rp p x → ∃ pol, x = .dict pol true := by
  have key : ∀ (l : List String), l.Nodup → ∀ st : List (String × RiProto) × Nat,
      (∃ r, l.foldlM (riRemoveOne p) st = some r ∧ r.2 = st.2) ↔ ∀ rp ∈ l, ∀ x, VrfImports st.1 rp p x → ∃ pol, x = .dict pol true := by
    intro l
    induction l with
    | nil => intro _ st; exact ⟨fun _ => by simp, fun _ => ⟨st, rfl, rfl⟩⟩
    | cons rp l ih =>
      intro hn st
      obtain ⟨hnr, hnl⟩ := List.nodup_cons.mp hn
      rw [List.foldlM_cons]
      have one : (∃ a, riRemoveOne p st rp = some a ∧ a.2 = st.2) ↔ ∀ x, VrfImports st.1 rp p x → ∃ pol, x = .dict pol true := by
        unfold riRemoveOne VrfImports
        split
        · rename_i d hd
          split
          · rename_i hp
            refine ⟨fun _ x hx => ?_, fun _ => ⟨_, rfl, rfl⟩⟩
            obtain ⟨d', hd', hx⟩ := hx
            rw [hd] at hd'; cases hd'; rw [hp] at hx; cases hx
          · rename_i pol hp
            refine ⟨fun _ x hx => ?_, fun _ => ⟨_, rfl, rfl⟩⟩
            obtain ⟨d', hd', hx⟩ := hx
            rw [hd] at hd'; cases hd'; rw [hp] at hx; cases hx; exact ⟨pol, rfl⟩
          · rename_i pol hp
            constructor
            · rintro ⟨a, ha, he⟩; cases ha; simp at he
            · intro hx
              obtain ⟨_, h⟩ := hx _ ⟨d, hd, hp⟩
              cases h
          · rename_i w h1 h2 hp
            constructor
            · rintro ⟨a, ha, _⟩; cases ha
            · intro hx
              obtain ⟨pol, h⟩ := hx _ ⟨d, hd, hp⟩
              exact absurd h (h1 pol)
        · rename_i hd
          refine ⟨fun _ x hx => ?_, fun _ => ⟨_, rfl, rfl⟩⟩
          obtain ⟨d', hd', _⟩ := hx
          exact absurd hd' (hd d')
      cases ha : riRemoveOne p st rp with
      | none =>
        simp only [Option.bind_eq_bind, Option.bind_none]
        constructor
        · rintro ⟨r, hr, _⟩; cases hr
        · intro h
          obtain ⟨a, ha', _⟩ := one.mpr (h rp (by simp))
          rw [ha] at ha'; cases ha'
      | some a =>
        simp only [Option.bind_eq_bind, Option.bind_some]
        obtain ⟨a1, a2, _⟩ := riRemoveOne_spec p st a rp ha
        have hsame : ∀ q ∈ l, ∀ x, VrfImports a.1 q p x ↔ VrfImports st.1 q p x := by
          intro q hq x
          unfold VrfImports
          rw [a2 q (by rintro rfl; exact hnr hq)]
        constructor
        · rintro ⟨r, hr, he⟩
          have hle := (riRemove_spec p l hnl a r hr).1
          have hea : a.2 = st.2 := by omega
          intro q hq x hx
          rcases List.mem_cons.mp hq with rfl | hq
          · exact one.mp ⟨a, ha, hea⟩ x hx
          · exact (ih hnl a).mp ⟨r, hr, by omega⟩ q hq x ((hsame q hq x).mpr hx)
        · intro h
          obtain ⟨a', ha', hea⟩ := one.mpr (h rp (by simp))
          rw [ha] at ha'; cases ha'
          obtain ⟨r, hr, her⟩ := (ih hnl a).mpr (fun q hq x hx => h q (by simp [hq]) x ((hsame q hq x).mp hx))
          exact ⟨r, hr, by omega⟩
  have h := key riProtocols (by decide) (v, 0)
  unfold riDrop riRemove
  constructor
  · rintro ⟨r, hr, he⟩
    cases hx : riProtocols.foldlM (riRemoveOne p) (v, 0) with
    | none => rw [hx] at hr; cases hr
    | some a =>
      rw [hx] at hr
      cases hr
      exact h.mp ⟨a, hx, he⟩
  · intro hh
    obtain ⟨a, ha, he⟩ := h.mpr hh
    exact ⟨(popKey a.1 p, a.2), by rw [ha]; rfl, he⟩

theorem rdAdjust_spec (env : RiEnv) (feat : RdFeat) (st : RiPol) (v : Option RdVal) :
    st.errors ≤ (rdAdjust env feat st v).1.errors ∧ (∀ q ∈ st.pols, q ∈ (rdAdjust env feat st v).1.pols) ∧
    ((rdAdjust env feat st v).1.errors = st.errors ↔ DefaultOk env st.pols feat v) ∧ DefaultFinal v (rdAdjust env feat st v).2 ∧
    (DefaultOk env st.pols feat v → (∀ q, PolUsable env (rdAdjust env feat st v).1.pols q ↔ PolUsable env st.pols q) ∧
      ∀ e p, v = some (.dict e (some p)) → p ≠ "" → p ∈ (rdAdjust env feat st v).1.pols) := by
  cases v with
  | none => simp [rdAdjust, DefaultOk, DefaultFinal]
  | some v =>
    cases v with
    | no => simp [rdAdjust, DefaultOk, DefaultFinal]
    | yes =>
      unfold rdAdjust
      by_cases hf : feat = .off
      · simp [hf, DefaultOk, DefaultFinal]
      · simp [hf, DefaultOk, DefaultFinal]
    | dict e pol =>
      unfold rdAdjust
      by_cases hf : feat = .off
      · simp [hf, DefaultOk, DefaultFinal]
      · simp only [if_neg hf]
        cases pol with
        | none => simp [hf, DefaultOk, DefaultFinal]
        | some p =>
          simp only []
          by_cases hd : feat = .dict true
          · rw [if_pos hd]
            obtain ⟨h1, h2⟩ := riAddPolicy_mono env st p
            obtain ⟨h3, h4⟩ := riAddPolicy_spec env st p
            have hok : DefaultOk env st.pols feat (some (.dict e (some p))) ↔ (p ≠ "" → PolUsable env st.pols p) := by
              unfold DefaultOk
              constructor
              · rintro (h | h | ⟨_, h⟩)
                · cases h
                · cases h
                · exact (h e p rfl).2
              · intro h
                refine .inr (.inr ⟨hf, ?_⟩)
                rintro e' p' ⟨⟩
                exact ⟨hd, h⟩
            refine ⟨h1, h2, h3.trans hok.symm, .inr (.inr ⟨e, some p, rfl, rfl⟩), fun h => ?_⟩
            obtain ⟨h5, h6⟩ := h4 (hok.mp h)
            refine ⟨h6, ?_⟩
            rintro e' p' ⟨⟩ hne
            exact h5 hne
          · rw [if_neg hd]
            have hok : ¬ DefaultOk env st.pols feat (some (.dict e (some p))) := by
              rintro (h | h | ⟨_, h⟩)
              · cases h
              · cases h
              · exact hd (h e p rfl).1
            exact ⟨by simp, fun q hq => hq, ⟨fun h => by simp at h, fun h => absurd h hok⟩, .inr (.inr ⟨e, some p, rfl, rfl⟩), fun h => absurd h hok⟩

theorem defaultOk_congr {env : RiEnv} {a b : List String} (h : ∀ q, PolUsable env a q ↔ PolUsable env b q) (feat : RdFeat) (v : Option RdVal)
    (hv : DefaultOk env a feat v) : DefaultOk env b feat v := by
  rcases hv with hv | hv | ⟨h1, h2⟩
  · exact .inl hv
  · exact .inr (.inl hv)
  · exact .inr (.inr ⟨h1, fun e p hp => ⟨(h2 e p hp).1, fun hne => (h p).mp ((h2 e p hp).2 hne)⟩⟩)

theorem rdProcess_spec (env : RiEnv) (feat : RdFeat) (l : List (Option RdVal)) (st : RiPol) :
    st.errors ≤ (rdProcess env feat st l).1.errors ∧ (∀ q ∈ st.pols, q ∈ (rdProcess env feat st l).1.pols) ∧
    ((rdProcess env feat st l).1.errors = st.errors ↔ ∀ v ∈ l, DefaultOk env st.pols feat v) ∧
    List.Forall₂ DefaultFinal l (rdProcess env feat st l).2 ∧
    ((∀ v ∈ l, DefaultOk env st.pols feat v) → ∀ e p, some (.dict e (some p)) ∈ l → p ≠ "" → p ∈ (rdProcess env feat st l).1.pols) := by
  induction l generalizing st with
  | nil => exact ⟨Nat.le_refl _, fun q hq => hq, ⟨fun _ => by simp, fun _ => rfl⟩, .nil, by simp⟩
  | cons v l ih =>
    obtain ⟨a1, a2, a3, a4, a5⟩ := rdAdjust_spec env feat st v
    obtain ⟨b1, b2, b3, b4, b5⟩ := ih (rdAdjust env feat st v).1
    simp only [rdProcess]
    refine ⟨Nat.le_trans a1 b1, fun q hq => b2 q (a2 q hq), ⟨fun he => ?_, fun h => ?_⟩, .cons a4 b4, fun h e p hm hne => ?_⟩
    · have hea : (rdAdjust env feat st v).1.errors = st.errors := by omega
      have hok := a3.mp hea
      intro w hw
      rcases List.mem_cons.mp hw with rfl | hw
      · exact hok
      · exact defaultOk_congr (a5 hok).1 feat w (b3.mp (by omega) w hw)
    · have hok := h v (by simp)
      have hea := a3.mpr hok
      rw [b3.mpr (fun w hw => defaultOk_congr (fun q => ((a5 hok).1 q).symm) feat w (h w (by simp [hw])))]
      exact hea
    · have hok := h v (by simp)
      rcases List.mem_cons.mp hm with hm | hm
      · exact b2 p ((a5 hok).2 e p hm.symm hne)
      · exact b5 (fun w hw => defaultOk_congr (fun q => ((a5 hok).1 q).symm) feat w (h w (by simp [hw]))) e p hm hne

/-- **C83** (default routes).  Default route settings of the global routing protocol instance and of its VRF instances are accepted
exactly when the device can originate default routes in the protocol (and use policies, when a policy is given) and the
policies can be used.  Disabled default routes are removed, `true` becomes an enabled default route, and the policies are on
the node. -/
theorem C83_default_routes (env : RiEnv) (feat : RdFeat) (st : RiPol) (l : List (Option RdVal)) :
    ((rdProcess env feat st l).1.errors = st.errors ↔ ∀ v ∈ l, DefaultOk env st.pols feat v) ∧
    List.Forall₂ DefaultFinal l (rdProcess env feat st l).2 ∧
    ((rdProcess env feat st l).1.errors = st.errors →
      ∀ e p, some (.dict e (some p)) ∈ l → p ≠ "" → p ∈ (rdProcess env feat st l).1.pols) := by
  obtain ⟨_, _, h3, h4, h5⟩ := rdProcess_spec env feat l st
  exact ⟨h3, h4, fun he => h5 (h3.mp he)⟩

/-! ### A concrete case -/

/-- OSPF on a device that can import BGP, RIP and connected routes. -/
def demoRi : RiEnv := ⟨"ospf", .list ["bgp", "ripv2", "connected", "vrf"], ["ospf", "bgp", "ripv2"], ["bgp", "ospf", "ripv2"], true, ["p1"], fun _ => true⟩

/-- BGP on the same device. -/
def demoRiBgp : RiEnv := { demoRi with proto := "bgp", feat := .list ["ospf", "connected", "vrf"] }

example : riProcess demoRi ["bgp", "connected"] ⟨[], 0⟩
    ⟨[("bgp", .dict (some "p1") false), ("ripv2", .yes), ("connected", .no)],
     [("red", [("ospf", .data none)]), ("blue", [("ospf", .data (some [("connected", .yes)]))]), ("green", [])]⟩ =
    some (⟨["p1"], 0⟩, ⟨[("bgp", .dict (some "p1") false), ("rip", .dict none false)],
      [("red", [("ospf", .data (some [("bgp", .dict none true), ("connected", .dict none true)]))]),
       ("blue", [("ospf", .data (some [("connected", .dict none false)]))]), ("green", [])]⟩) := by
  decide +kernel

example : RiTarget demoRi ∧ RiNodeWf demoRi ⟨[("bgp", .dict (some "p1") false), ("ripv2", .yes), ("connected", .no)],
     [("red", [("ospf", .data none)]), ("blue", [("ospf", .data (some [("connected", .yes)]))])]⟩ := by
  refine ⟨⟨by decide, by decide⟩, by decide, by decide, fun p hp d hd => ?_⟩
  simp only [List.mem_cons, List.not_mem_nil, or_false] at hp
  rcases hp with rfl | rfl
  · cases hd
  · cases hd; decide

example : riDrop "ospf" [("bgp", .data (some [("ospf", .dict none true), ("connected", .dict none true)])), ("ospf", .data none)] =
    some ([("bgp", .data (some [("connected", .dict none true)]))], 0) := by decide +kernel

example : rdProcess demoRi (.dict true) ⟨[], 0⟩ [some .yes, none, some .no, some (.dict false (some "p1"))] =
    (⟨["p1"], 0⟩, [some (.dict true none), none, none, some (.dict false (some "p1"))]) := by decide +kernel

/-! ### Defects -/

/-- **C83** (defect).  A request to disable an import is rejected when the device cannot import routes from that source. -/
theorem C83_disabled_rejected : ∃ r, riCheck demoRi ⟨[], 0⟩ [("isis", .no)] = some r ∧ r.1.errors = 1 := by
  exact ⟨_, rfl, by decide +kernel⟩

/-- **C83** (defect).  An explicit VRF import into a protocol that cannot import routes in VRFs crashes instead of reporting an error:
the error message uses a variable that is not set. -/
theorem C83_vrf_import_crash (env : RiEnv) (srcs : List String) (st : RiPol) (v : List (String × RiProto)) (d : List (String × RiVal))
    (hd : v.lookup env.proto = some (.data (some d))) (hf : ¬ VrfImportSupported env.feat) : riVrf env srcs st v = none := by
  have hrun : riVrfProto env v env.proto = true :=
    (riVrfProto_iff _ _ _).mpr (.inr (.inr (.inl (List.mem_map.mpr ⟨_, mem_of_lookup hd, rfl⟩))))
  unfold riVrf
  rw [hrun]
  simp only [Bool.not_true, Bool.false_eq_true, if_false, hd]
  rw [if_neg (fun h => hf ((riAware_iff _).mp h))]

example : ¬ VrfImportSupported (.list ["bgp", "connected"]) := by
  rintro (h | ⟨l, h, hl⟩)
  · cases h
  · cases h; revert hl; decide

/-- **C83** (defect).  Automatic VRF imports are not limited to the sources the device supports: BGP imports RIP routes although the device
can only import OSPF and connected routes, and an explicit request for the same import is rejected. -/
theorem C83_auto_unsupported :
    riVrf demoRiBgp ["connected", "ospf", "ripv2"] ⟨[], 0⟩ [("bgp", .data none), ("ripv2", .data none)] =
      some (⟨[], 0⟩, [("bgp", .data (some [("connected", .dict none true), ("ospf", .dict none true), ("rip", .dict none true)])), ("ripv2", .data none)]) ∧
    riVrf demoRiBgp ["connected", "ospf", "ripv2"] ⟨[], 0⟩ [("bgp", .data (some [("ripv2", .yes)])), ("ripv2", .data none)] =
      some (⟨[], 1⟩, [("bgp", .data (some [("rip", .yes)])), ("ripv2", .data none)]) := by
  constructor <;> decide +kernel

/-- **C83** (defect).  Automatic imports of RIP routes are never removed: they are stored under the name `rip`, and the imports
of `ripv2` are removed when RIPv2 is not active in the VRF. -/
theorem C83_rip_kept (v : List (String × RiProto)) (d : List (String × RiVal)) (x : RiVal) (hv : v.lookup "bgp" = some (.data (some d)))
    (hx : d.lookup "rip" = some x) (r : List (String × RiProto) × Nat) (h : riDrop "ripv2" v = some r) : VrfImports r.1 "bgp" "rip" x := by
  unfold riDrop at h
  cases hr : riRemove "ripv2" v with
  | none => rw [hr] at h; cases h
  | some a =>
    rw [hr] at h
    cases h
    obtain ⟨_, _, h3, _⟩ := riRemove_spec "ripv2" riProtocols (by decide) (v, 0) a hr
    obtain ⟨d', hd', hx'⟩ := (h3 "bgp" "rip" x (by decide)).mpr ⟨d, hv, hx⟩
    exact ⟨d', by rw [lookup_popKey, if_neg (by decide)]; exact hd', hx'⟩

example : riDrop "ripv2" [("bgp", .data (some [("rip", .dict none true)]))] = some ([("bgp", .data (some [("rip", .dict none true)]))], 0) := by
  decide +kernel

/-- **C83** (defect).  The removal of imports crashes when the importing protocol has not been processed yet: `import: [ isis ]` is still
`{ isis: True }`. -/
theorem C83_removal_crash : riDrop "isis" [("ospf", .data (some [("isis", .yes)]))] = none := by decide +kernel

end Netlab
