import Verif.Spec.Quirks
import Verif.Props.Nodeset
import Verif.Props.RefList
import Verif.Lemmas.Assoc
import Verif.Lemmas.Util
import Verif.Lemmas.Box
/-!
# C108: device quirks
-/

namespace Netlab
open Netlab.Spec

/-! ## Reporting -/

/-- **C108**: a quirk is always reported unless its warning is disabled (set to a false value) in device settings. -/
theorem C108_reported (v : Option Val) :
    quirkReported v = false ↔ v = some (.bool false) ∨ v = some .null ∨ v = some (.int 0) ∨ v = some (.str "") ∨ v = some (.list []) ∨ v = some (.dict []) := by
  cases v with
  | none => simp [quirkReported]
  | some v => cases v <;> simp [quirkReported, quirkTrue]

/-! ## Ansible collections -/

theorem lookup_flatMap_none {c : String} : ∀ (l : List (List (String × String))), (∀ x ∈ l, c ∉ x.map Prod.fst) → (l.flatMap id).lookup c = none := by
  intro l h
  rw [lookup_eq_none_iff]
  intro hm
  simp only [List.mem_map, List.mem_flatMap, id] at hm
  obtain ⟨p, ⟨x, hx, hp⟩, he⟩ := hm
  exact h x hx (he ▸ List.mem_map_of_mem hp)

theorem lookup_append_or {c : String} (a b : List (String × String)) : (a ++ b).lookup c = (a.lookup c).or (b.lookup c) := by
  induction a with
  | nil => simp
  | cons p a ih =>
    obtain ⟨k, x⟩ := p
    by_cases h : c == k
    · simp [List.lookup_cons, h]
    · simp only [List.cons_append, List.lookup_cons, h, ih]

/-- **C108**: the version of an Ansible collection is taken from the first location in which the collection is installed. -/
theorem C108_first_location (locations : List (List (String × String))) (c v : String) :
    acGet locations c = some v ↔ FirstVersion locations c v := by
  unfold acGet FirstVersion
  constructor
  · intro h
    induction locations with
    | nil => simp at h
    | cons l r ih =>
      rw [List.flatMap_cons, lookup_append_or] at h
      cases hl : l.lookup c with
      | some w =>
        rw [id, hl] at h
        simp at h
        exact ⟨[], l, r, rfl, h ▸ hl, by simp⟩
      | none =>
        rw [id, hl] at h
        simp at h
        obtain ⟨pre, loc, post, h1, h2, h3⟩ := ih (by simpa using h)
        refine ⟨l :: pre, loc, post, by rw [h1]; rfl, h2, ?_⟩
        intro x hx
        rcases List.mem_cons.1 hx with rfl | hx
        · exact lookup_eq_none_iff.1 hl
        · exact h3 x hx
  · rintro ⟨pre, loc, post, rfl, h2, h3⟩
    rw [List.flatMap_append, lookup_append_or, lookup_flatMap_none _ h3, List.flatMap_cons, lookup_append_or, id, h2]
    simp

/-- **C108**: the check succeeds exactly when the collection is installed, and its version is (in textual order) not lower than the required one. -/
theorem C108_collection (locations : List (List (String × String))) (warned : List String) (device c : String) (version : Option String) :
    (acNeed locations warned device c version).1 = true ↔ ∃ v, FirstVersion locations c v ∧ ∀ w, version = some w → w ≤ v := by
  simp only [← C108_first_location]
  unfold acNeed
  cases hg : acGet locations c with
  | none => simp; split <;> simp
  | some v =>
    cases version with
    | none => simp
    | some w =>
      simp only
      by_cases hw : w ≤ v
      · simp [hw]
      · rw [if_neg hw]
        split <;> simp [hw]

theorem acNeed_step (locations : List (List (String × String))) (warned : List String) (device c : String) (version : Option String) :
    (acNeed locations warned device c version).2 =
      if (acNeed locations [] device c version).1 = true ∨ device ∈ warned then (warned, 0) else (device :: warned, 1) := by
  unfold acNeed
  cases hg : acGet locations c with
  | none => by_cases h : device ∈ warned <;> simp [h]
  | some v =>
    cases version with
    | none => simp
    | some w =>
      simp only
      by_cases hw : w ≤ v
      · simp [hw]
      · by_cases h : device ∈ warned <;> simp [h, hw]

theorem acCheckAll_spec (locations : List (List (String × String))) (checks : List (String × String × Option String)) (warned : List String) :
    ∃ reported : List String, reported.Nodup ∧ acCheckAll locations checks warned = reported.length ∧
      ∀ d, d ∈ reported ↔ d ∉ warned ∧ ∃ c v, (d, c, v) ∈ checks ∧ (acNeed locations [] d c v).1 = false := by
  induction checks generalizing warned with
  | nil => exact ⟨[], .nil, rfl, by simp⟩
  | cons x r ih =>
    obtain ⟨d, c, v⟩ := x
    unfold acCheckAll
    rw [acNeed_step]
    by_cases h : (acNeed locations [] d c v).1 = true ∨ d ∈ warned
    · rw [if_pos h]
      obtain ⟨rep, h1, h2, h3⟩ := ih warned
      refine ⟨rep, h1, by simpa using h2, ?_⟩
      intro e
      rw [h3]
      refine and_congr_right fun he => ⟨fun ⟨c', v', hm, hf⟩ => ⟨c', v', List.mem_cons_of_mem _ hm, hf⟩, ?_⟩
      rintro ⟨c', v', hm, hf⟩
      rcases List.mem_cons.1 hm with heq | hm
      · cases heq
        rcases h with h | h
        · rw [h] at hf; cases hf
        · exact absurd h he
      · exact ⟨c', v', hm, hf⟩
    · rw [if_neg h]
      have h' : (acNeed locations [] d c v).1 = false ∧ d ∉ warned := by
        rw [not_or] at h
        exact ⟨by simpa using h.1, h.2⟩
      obtain ⟨rep, h1, h2, h3⟩ := ih (d :: warned)
      have hd : d ∉ rep := fun hm => ((h3 d).1 hm).1 List.mem_cons_self
      refine ⟨d :: rep, List.nodup_cons.2 ⟨hd, h1⟩, by simp only [h2, List.length_cons]; omega, ?_⟩
      intro e
      rw [List.mem_cons, h3]
      constructor
      · rintro (rfl | ⟨he, c', v', hm, hf⟩)
        · exact ⟨h'.2, c, v, List.mem_cons_self, h'.1⟩
        · exact ⟨fun hw => he (List.mem_cons_of_mem _ hw), c', v', List.mem_cons_of_mem _ hm, hf⟩
      · rintro ⟨he, c', v', hm, hf⟩
        by_cases hde : e = d
        · exact Or.inl hde
        · right
          refine ⟨by simp [hde, he], c', v', ?_, hf⟩
          rcases List.mem_cons.1 hm with heq | hm
          · cases heq; exact absurd rfl hde
          · exact hm

/-- **C108**: the number of missing-collection errors is the number of device types for which a check failed: every such device type is reported exactly once no matter how many nodes use it. -/
theorem C108_reported_once (locations : List (List (String × String))) (checks : List (String × String × Option String)) :
    ∃ reported : List String, reported.Nodup ∧ acCheckAll locations checks [] = reported.length ∧
      ∀ d, d ∈ reported ↔ ∃ c v, (d, c, v) ∈ checks ∧ (acNeed locations [] d c v).1 = false := by
  obtain ⟨rep, h1, h2, h3⟩ := acCheckAll_spec locations checks []
  exact ⟨rep, h1, h2, fun d => by rw [h3]; simp⟩

example : acCheckAll [[("nokia.srlinux", "0.5.0")]] [("srlinux", "nokia.srlinux", none), ("sros", "nokia.grpc", none), ("sros", "nokia.grpc", none)] [] = 1 := by decide +kernel

/-- **C108** (defect): versions are compared as text: version 0.10.0 of a collection isn't good enough when we need version 0.9.0. -/
theorem C108_version_text :
    (acNeed [[("nokia.srlinux", "0.10.0")]] [] "srlinux" "nokia.srlinux" (some "0.9.0")).1 = false := by decide +kernel

/-- **C108** (defect): cEOS versions are compared as text: cEOS 4.100.0F is older than 4.32.1F. -/
theorem C108_ceos_text : eosMplsWarning "ceos:4.100.0F" = true ∧ eosMplsWarning "ceos:4.33.1F" = false ∧ eosMplsWarning "registry:5000/ceos:4.33.1F" = false ∧
    eosMplsWarning "registry:1000/ceos:4.33.1F" = true := by decide +kernel

/-! ## Junos interface names -/

theorem junosDot_iff (s : String) : junosDot s = true ↔ '.' ∈ s.toList := by unfold junosDot; simp

theorem junosFirst_name (m : Bool) (i : JunosIntf) : (junosFirst m i).ifname = junosName i.ifname := by
  unfold junosFirst junosName
  by_cases h : '.' ∈ i.ifname.toList
  · rw [if_pos ((junosDot_iff _).2 h), if_pos h]
  · rw [if_neg (fun hd => h ((junosDot_iff _).1 hd)), if_neg h]
    have hm : ∀ (j : JunosIntf) (d : Int), (junosMtu j d).ifname = j.ifname := by
      intro j d; unfold junosMtu; split <;> rfl
    simp only
    split <;> simp [hm, junosUnit0]

theorem junosFirst_same (m : Bool) (i : JunosIntf) : (junosFirst m i).vlan = i.vlan ∧ (junosFirst m i).mtu = i.mtu ∧ (junosFirst m i).master = i.master ∧ (junosFirst m i).native = i.native := by
  unfold junosFirst
  split
  · exact ⟨rfl, rfl, rfl, rfl⟩
  · have hm : ∀ (j : JunosIntf) (d : Int), (junosMtu j d).vlan = j.vlan ∧ (junosMtu j d).mtu = j.mtu ∧ (junosMtu j d).master = j.master ∧ (junosMtu j d).native = j.native := by
      intro j d; unfold junosMtu; split <;> exact ⟨rfl, rfl, rfl, rfl⟩
    simp only
    split
    · exact hm (junosUnit0 i) 14
    · exact hm (junosUnit0 i) 14

theorem junosName_dot (s : String) : '.' ∈ (junosName s).toList := by
  unfold junosName
  split
  · assumption
  · simp

/-- A string with a separator is split into the first part and the rest. -/
theorem mem_split_first {sep : Char} {l : List Char} (h : sep ∈ l) : ∃ p r, l = p ++ sep :: r ∧ sep ∉ p := by
  induction l with
  | nil => simp at h
  | cons c l ih =>
    by_cases hc : c = sep
    · exact ⟨[], l, by simp [hc], by simp⟩
    · have : sep ∈ l := by
        rcases List.mem_cons.1 h with rfl | h
        · exact absurd rfl hc
        · exact h
      obtain ⟨p, r, h1, h2⟩ := ih this
      exact ⟨c :: p, r, by rw [h1]; rfl, by simp only [List.mem_cons, not_or]; exact ⟨fun hh => hc hh.symm, h2⟩⟩

theorem junosSplit_spec (i : JunosIntf) (h : '.' ∈ i.ifname.toList) :
    ∃ p u, JunosParts i.ifname p u ∧ junosSplit i = { i with parent := p, unit := u } := by
  obtain ⟨p, r, h1, h2⟩ := mem_split_first h
  unfold junosSplit
  by_cases hr : '.' ∈ r
  · obtain ⟨u, r', h3, h4⟩ := mem_split_first hr
    rw [h1, splitOnChar_append _ _ _ h2, h3, splitOnChar_append _ _ _ h4]
    refine ⟨String.ofList p, String.ofList u, ⟨by simpa using h2, by simpa using h4, '.' :: r', ?_, Or.inr rfl⟩, rfl⟩
    rw [h1, h3]; simp
  · rw [h1, splitOnChar_append _ _ _ h2, splitOnChar_one _ _ hr]
    refine ⟨String.ofList p, String.ofList r, ⟨by simpa using h2, by simpa using hr, [], ?_, Or.inl rfl⟩, rfl⟩
    rw [h1]; simp

theorem sep_unique {sep : Char} {a b x y : List Char} (ha : sep ∉ a) (hb : sep ∉ b) (h : a ++ sep :: x = b ++ sep :: y) : a = b ∧ x = y := by
  induction a generalizing b with
  | nil =>
    cases b with
    | nil => simpa using h
    | cons c b => simp at h; exact absurd (by simp [← h.1]) hb
  | cons c a ih =>
    cases b with
    | nil => simp at h; exact absurd (by simp [h.1]) ha
    | cons d b =>
      simp only [List.cons_append, List.cons.injEq] at h
      simp only [List.mem_cons, not_or] at ha hb
      obtain ⟨h1, h2⟩ := ih ha.2 hb.2 h.2
      exact ⟨by rw [h.1, h1], h2⟩

/-- **C108**: parts of a Junos interface name are unambiguous. -/
theorem C108_parts_unique {name p u p' u' : String} (h : JunosParts name p u) (h' : JunosParts name p' u') : p = p' ∧ u = u' := by
  obtain ⟨hp, hu, r, h1, h2⟩ := h
  obtain ⟨hp', hu', r', h1', h2'⟩ := h'
  rw [h1] at h1'
  rw [List.append_assoc, List.append_assoc, List.cons_append, List.cons_append] at h1'
  obtain ⟨e1, e2⟩ := sep_unique hp hp' h1'
  refine ⟨String.toList_inj.1 e1, String.toList_inj.1 ?_⟩
  have key : ∀ {a b x y : List Char}, '.' ∉ a → '.' ∉ b → (x = [] ∨ x.head? = some '.') → (y = [] ∨ y.head? = some '.') → a ++ x = b ++ y → a = b := by
    intro a b x y ha hb hx hy he
    rcases hx with rfl | hx
    · rcases hy with rfl | hy
      · simpa using he
      · cases y with
        | nil => simp at hy
        | cons c y =>
          simp at hy; subst hy
          rw [List.append_nil] at he
          exact absurd (by rw [he]; simp) ha
    · cases x with
      | nil => simp at hx
      | cons c x =>
        simp at hx; subst hx
        rcases hy with rfl | hy
        · rw [List.append_nil] at he
          exact absurd (by rw [← he]; simp) hb
        · cases y with
          | nil => simp at hy
          | cons d y =>
            simp at hy; subst hy
            exact (sep_unique ha hb he).1
  exact key hu hu' h2 h2' e2

theorem junosMaster_same (model : String) (base : List String) (i : JunosIntf) :
    (junosMaster model base i).ifname = i.ifname ∧ (junosMaster model base i).parent = i.parent ∧ (junosMaster model base i).unit = i.unit ∧
    (junosMaster model base i).vlan = i.vlan ∧ (junosMaster model base i).nativeId = i.nativeId := by
  have hm : ∀ (j : JunosIntf) (d : Int), (junosMtu j d).ifname = j.ifname ∧ (junosMtu j d).parent = j.parent ∧ (junosMtu j d).unit = j.unit ∧ (junosMtu j d).vlan = j.vlan ∧ (junosMtu j d).nativeId = j.nativeId := by
    intro j d; unfold junosMtu; split <;> exact ⟨rfl, rfl, rfl, rfl, rfl⟩
  unfold junosMaster
  split
  · simp only
    split
    · exact hm _ _
    · split
      · exact hm _ _
      · exact ⟨rfl, rfl, rfl, rfl, rfl⟩
  · exact ⟨rfl, rfl, rfl, rfl, rfl⟩

/-- **C108**: every interface of a Junos device gets a unit: unit 0 is added to names without one; the physical interface and the unit are always the two parts of the resulting name. -/
theorem C108_junos_names (m : Bool) (model : String) (l : List JunosIntf) :
    (junosFix m model l).map (·.ifname) = l.map (fun i => junosName i.ifname) ∧
    ∀ i ∈ junosFix m model l, JunosParts i.ifname i.parent i.unit := by
  unfold junosFix
  simp only
  constructor
  · rw [List.map_map, List.map_map]
    apply List.map_congr_left
    intro i _
    simp only [Function.comp]
    rw [(junosMaster_same _ _ _).1]
    obtain ⟨p, u, _, h⟩ := junosSplit_spec (junosFirst m i) (by rw [junosFirst_name]; exact junosName_dot _)
    rw [h]; exact junosFirst_name m i
  · intro i hi
    simp only [List.mem_map] at hi
    obtain ⟨_, ⟨j, _, rfl⟩, rfl⟩ := hi
    obtain ⟨p, u, hp, h⟩ := junosSplit_spec (junosFirst m j) (by rw [junosFirst_name]; exact junosName_dot _)
    have hs := junosMaster_same model (junosBase m (l.map (fun i => junosSplit (junosFirst m i)))) (junosSplit (junosFirst m j))
    rw [hs.1, hs.2.1, hs.2.2.1, h]
    exact hp

example : (junosFix false "" [{ ifname := "ge-0/0/0" }, { ifname := "irb.100" }, { ifname := "lo0" }]).map (fun i => (i.ifname, i.parent, i.unit)) =
    [("ge-0/0/0.0", "ge-0/0/0", "0"), ("irb.100", "irb", "100"), ("lo0.0", "lo0", "0")] := by decide +kernel

/-- **C108**: different interfaces have different names as long as no interface has the name another interface gets with unit 0. -/
theorem C108_junos_distinct (m : Bool) (model : String) (l : List JunosIntf) (hn : (l.map (·.ifname)).Nodup)
    (h0 : ∀ i ∈ l, ∀ j ∈ l, '.' ∉ i.ifname.toList → j.ifname ≠ i.ifname ++ ".0") :
    ((junosFix m model l).map (·.ifname)).Nodup := by
  rw [(C108_junos_names m model l).1]
  unfold List.Nodup at hn ⊢
  rw [List.pairwise_map] at hn ⊢
  refine hn.imp_of_mem ?_
  intro a b ha hb hne he
  unfold junosName at he
  split at he <;> split at he <;> rename_i h1 h2
  · exact hne he
  · exact h0 b hb a ha h2 he
  · exact h0 a ha b hb h1 he.symm
  · apply hne
    have := congrArg String.toList he
    simp only [String.toList_append] at this
    exact String.toList_inj.1 (List.append_cancel_right this)

/-- **C108** (defect): an interface and its unit-0 subinterface end up with the same name. -/
theorem C108_junos_clash : (junosFix false "" [{ ifname := "lo0" }, { ifname := "lo0.0" }]).map (·.ifname) = ["lo0.0", "lo0.0"] := by decide +kernel

/-- **C108**: interface names in the VRF OSPF data are changed the same way as interface names in node data: they keep referring to the same interfaces, and the physical interface and unit of the renamed
ones are correct. -/
theorem C108_junos_vrf (l : List JunosIntf) :
    (junosVrfFix l).map (·.ifname) = l.map (fun i => junosName i.ifname) ∧
    ∀ i ∈ l, '.' ∉ i.ifname.toList → ∃ j ∈ junosVrfFix l, JunosParts j.ifname i.ifname "0" ∧ j.parent = i.ifname ∧ j.unit = "0" := by
  unfold junosVrfFix
  constructor
  · rw [List.map_map]
    apply List.map_congr_left
    intro i _
    simp only [Function.comp, junosName]
    by_cases h : '.' ∈ i.ifname.toList
    · rw [if_pos ((junosDot_iff _).2 h), if_pos h]
    · rw [if_neg (fun hd => h ((junosDot_iff _).1 hd)), if_neg h]; rfl
  · intro i hi h
    refine ⟨junosUnit0 i, List.mem_map.2 ⟨i, hi, if_neg (fun hd => h ((junosDot_iff _).1 hd))⟩, ⟨h, by decide, [], ?_, Or.inl rfl⟩, rfl, rfl⟩
    simp [junosUnit0]

/-- **C108**: renaming interfaces twice is the same as renaming them once. -/
theorem C108_junos_again (m m' : Bool) (model model' : String) (l : List JunosIntf) :
    (junosFix m' model' (junosFix m model l)).map (fun i => (i.ifname, i.parent, i.unit)) = (junosFix m model l).map (fun i => (i.ifname, i.parent, i.unit)) := by
  have hdot : ∀ i ∈ junosFix m model l, '.' ∈ i.ifname.toList := by
    intro i hi
    have h : i.ifname ∈ (junosFix m model l).map (·.ifname) := List.mem_map_of_mem hi
    rw [(C108_junos_names m model l).1] at h
    obtain ⟨j, _, hj⟩ := List.mem_map.1 h
    rw [← hj]; exact junosName_dot _
  have hparts := (C108_junos_names m model l).2
  generalize junosFix m model l = L at *
  unfold junosFix
  simp only [List.map_map]
  apply List.map_congr_left
  intro i hi
  simp only [Function.comp]
  have hs := junosMaster_same model' (junosBase m' (L.map (fun i => junosSplit (junosFirst m' i)))) (junosSplit (junosFirst m' i))
  rw [hs.1, hs.2.1, hs.2.2.1]
  have hf : junosFirst m' i = i := by
    unfold junosFirst
    rw [if_pos ((junosDot_iff _).2 (hdot i hi))]
  rw [hf]
  obtain ⟨p, u, hp, h⟩ := junosSplit_spec i (hdot i hi)
  obtain ⟨e1, e2⟩ := C108_parts_unique hp (hparts i hi)
  rw [h]; simp [e1, e2]

/-! ## Junos MTU and VLAN parameters -/

theorem mem_junosBase {m : Bool} {l : List JunosIntf} {p : String} :
    p ∈ junosBase m l ↔ m = true ∧ ∃ j ∈ l, j.vlan.isSome = true ∧ j.parent = p := by
  unfold junosBase
  cases m with
  | false => simp
  | true =>
    simp only [if_true, List.mem_map, List.mem_filter, true_and]
    constructor
    · rintro ⟨j, ⟨h1, h2⟩, h3⟩; exact ⟨j, h1, h2, h3⟩
    · rintro ⟨j, h1, h2, h3⟩; exact ⟨j, ⟨h1, h2⟩, h3⟩

/-- The header length counted into the interface MTU -/
theorem junosMtu_some (i : JunosIntf) (d : Int) (mtu : Int) (h : i.mtu = some mtu) : (junosMtu i d).headerMtu = some (mtu + d) := by
  unfold junosMtu; rw [h]

theorem junosMtu_none (i : JunosIntf) (d : Int) (h : i.mtu = none) : junosMtu i d = i := by
  unfold junosMtu; rw [h]

theorem junosCarries_iff (m : Bool) (model : String) (l : List JunosIntf) (b : List String) (i : JunosIntf) :
    (i.unit = "0" ∧ i.parent ∈ junosBase m l) ↔ CarriesVlans m (l.map (junosMaster model b)) (junosMaster model b i) := by
  unfold CarriesVlans
  rw [mem_junosBase, (junosMaster_same model b i).2.1, (junosMaster_same model b i).2.2.1]
  constructor
  · rintro ⟨h1, h2, j, hj, h3, h4⟩
    exact ⟨h2, h1, junosMaster model b j, List.mem_map_of_mem hj, by rw [(junosMaster_same model b j).2.2.2.1]; exact h3, by rw [(junosMaster_same model b j).2.1]; exact h4⟩
  · rintro ⟨h2, h1, j, hj, h3, h4⟩
    obtain ⟨k, hk, rfl⟩ := List.mem_map.1 hj
    rw [(junosMaster_same model b k).2.2.2.1] at h3
    rw [(junosMaster_same model b k).2.1] at h4
    exact ⟨h1, h2, k, hk, h3, h4⟩

/-- **C108**: an interface is marked as carrying VLANs exactly when the device uses VLANs, the interface is unit 0, and some interface with VLAN data uses the same physical interface. -/
theorem C108_junos_master (m : Bool) (model : String) (l : List JunosIntf) (h0 : ∀ i ∈ l, i.master = false) :
    ∀ i ∈ junosFix m model l, (i.master = true ↔ CarriesVlans m (junosFix m model l) i) := by
  intro i hi
  unfold junosFix at hi ⊢
  simp only at hi ⊢
  obtain ⟨j, hj, rfl⟩ := List.mem_map.1 hi
  rw [← junosCarries_iff]
  have hjm : j.master = false := by
    obtain ⟨k, hk, rfl⟩ := List.mem_map.1 hj
    obtain ⟨p, u, _, h⟩ := junosSplit_spec (junosFirst m k) (by rw [junosFirst_name]; exact junosName_dot _)
    rw [h]
    exact (junosFirst_same m k).2.2.1.trans (h0 k hk)
  have hm : ∀ (x : JunosIntf) (d : Int), (junosMtu x d).master = x.master := by
    intro x d; unfold junosMtu; split <;> rfl
  unfold junosMaster
  by_cases hc : j.unit = "0" ∧ j.parent ∈ junosBase m (l.map (fun i => junosSplit (junosFirst m i)))
  · rw [if_pos hc]
    simp only
    refine ⟨fun _ => hc, fun _ => ?_⟩
    split
    · rw [hm]
    · split
      · rw [hm]
      · rfl
  · rw [if_neg hc]
    simp [hc, hjm]

/-- **C108**: the MTU with headers: 22 bytes are added on interfaces that need flexible VLAN tagging, 14 bytes on all other physical interfaces (those without a unit in the original name). -/
theorem C108_junos_mtu (m : Bool) (model : String) (l : List JunosIntf) (h0 : ∀ i ∈ l, i.headerMtu = none) :
    List.Forall (fun p : JunosIntf × JunosIntf => p.2.headerMtu = p.1.mtu.bind (fun mtu =>
        open Classical in
        if CarriesVlans m (junosFix m model l) p.2 ∧ FlexTagging model p.1 then some (mtu + 22)
        else if '.' ∈ p.1.ifname.toList then none else some (mtu + 14)))
      (l.zip (junosFix m model l)) := by
  rw [List.forall_iff_forall_mem]
  rintro ⟨i, j⟩ hij
  classical
  have hzip : j = junosMaster model (junosBase m (l.map (fun i => junosSplit (junosFirst m i)))) (junosSplit (junosFirst m i)) ∧ i ∈ l := by
    unfold junosFix at hij
    simp only [List.map_map] at hij
    rw [List.zip_map_right] at hij
    obtain ⟨⟨a, b⟩, hab, he⟩ := List.mem_map.1 hij
    have hab' : a = b ∧ a ∈ l := by
      have := List.of_mem_zip hab
      refine ⟨?_, this.1⟩
      have hz : l.zip l = l.map (fun x => (x, x)) := by
        clear hij this hab h0 he
        induction l with
        | nil => rfl
        | cons x l ih => simp [ih]
      rw [hz] at hab
      obtain ⟨x, _, hx⟩ := List.mem_map.1 hab
      cases hx; rfl
    simp only [Prod.map, id, Prod.mk.injEq] at he
    obtain ⟨rfl, rfl⟩ := he
    obtain ⟨rfl, h⟩ := hab'
    exact ⟨rfl, h⟩
  obtain ⟨hj, hi⟩ := hzip
  have hcar := junosCarries_iff m model (l.map (fun i => junosSplit (junosFirst m i))) (junosBase m (l.map (fun i => junosSplit (junosFirst m i)))) (junosSplit (junosFirst m i))
  rw [← hj] at hcar
  have hall : junosFix m model l = (l.map (fun i => junosSplit (junosFirst m i))).map (junosMaster model (junosBase m (l.map (fun i => junosSplit (junosFirst m i))))) := rfl
  rw [← hall] at hcar
  simp only [← hcar]
  obtain ⟨p, u, _, hs⟩ := junosSplit_spec (junosFirst m i) (by rw [junosFirst_name]; exact junosName_dot _)
  have hv : (junosSplit (junosFirst m i)).vlan = i.vlan := by rw [hs]; exact (junosFirst_same m i).1
  have ht : (junosSplit (junosFirst m i)).mtu = i.mtu := by rw [hs]; exact (junosFirst_same m i).2.1
  have hh : (junosSplit (junosFirst m i)).headerMtu = if '.' ∈ i.ifname.toList then none else i.mtu.map (· + 14) := by
    have : (junosSplit (junosFirst m i)).headerMtu = (junosFirst m i).headerMtu := by rw [hs]
    rw [this]
    unfold junosFirst
    by_cases hd : '.' ∈ i.ifname.toList
    · rw [if_pos ((junosDot_iff _).2 hd), if_pos hd]; exact h0 i hi
    · rw [if_neg (fun h => hd ((junosDot_iff _).1 h)), if_neg hd]
      have : (junosMtu (junosUnit0 i) 14).headerMtu = i.mtu.map (· + 14) := by
        unfold junosMtu
        have hu : (junosUnit0 i).mtu = i.mtu := rfl
        rw [hu]
        cases hmt : i.mtu with
        | none => exact h0 i hi
        | some x => rfl
      simp only
      split <;> exact this
  rw [hj]
  generalize junosSplit (junosFirst m i) = x at *
  generalize junosBase m (l.map (fun i => junosSplit (junosFirst m i))) = B at *
  have hmt : ∀ (y : JunosIntf) (d : Int), y.mtu = i.mtu → y.headerMtu = x.headerMtu → (junosMtu y d).headerMtu = (match i.mtu with | some v => some (v + d) | none => x.headerMtu) := by
    intro y d hy hyx; unfold junosMtu; rw [hy]; cases i.mtu <;> simp [hyx]
  unfold junosMaster
  by_cases hc : x.unit = "0" ∧ x.parent ∈ B
  · rw [if_pos hc]
    simp only
    unfold FlexTagging
    rw [hv]
    by_cases hr : model = "router"
    · rw [if_pos hr, hmt, hh]
      on_goal 2 => exact ht
      on_goal 2 => rfl
      cases i.mtu with
      | none => by_cases hd : '.' ∈ i.ifname.toList <;> simp [hd]
      | some v => simp [hc, hr]
    · rw [if_neg hr]
      by_cases hl : model = "l3-switch" ∧ (i.vlan = none ∨ i.vlan = some (some "route"))
      · rw [if_pos hl, hmt, hh]
        on_goal 2 => exact ht
        on_goal 2 => rfl
        cases i.mtu with
        | none => by_cases hd : '.' ∈ i.ifname.toList <;> simp [hd]
        | some v => simp [hc, hl]
      · rw [if_neg hl]
        simp only [hh]
        cases i.mtu with
        | none => by_cases hd : '.' ∈ i.ifname.toList <;> simp [hd]
        | some v =>
          simp only [Option.bind_some, Option.map_some]
          have hnf : ¬ ((x.unit = "0" ∧ x.parent ∈ B) ∧ (model = "router" ∨ model = "l3-switch" ∧ (i.vlan = none ∨ i.vlan = some (some "route")))) := by
            rintro ⟨_, h | h⟩
            · exact hr h
            · exact hl h
          rw [if_neg hnf]
  · rw [if_neg hc, hh]
    cases i.mtu with
    | none => by_cases hd : '.' ∈ i.ifname.toList <;> simp [hd]
    | some v =>
      simp only [Option.bind_some, Option.map_some]
      have hnf : ¬ ((x.unit = "0" ∧ x.parent ∈ B) ∧ FlexTagging model i) := fun h => hc h.1
      rw [if_neg hnf]

example : (junosFix true "router" [{ ifname := "ge-0/0/0", mtu := some 1500 }, { ifname := "ge-0/0/0.100", mtu := some 1500, vlan := some (some "route") }, { ifname := "ge-0/0/1", mtu := some 1500 }]).map
    (fun i => (i.headerMtu, i.master)) = [(some 1522, true), (none, false), (some 1514, false)] := by decide +kernel

/-- **C108**: the ID of the native VLAN is set on the physical interface of a device using VLANs. -/
theorem C108_junos_native (m : Bool) (model : String) (l : List JunosIntf) (h0 : ∀ i ∈ l, i.nativeId = none) (k : Nat) (i : JunosIntf) (hk : l[k]? = some i) :
    ∃ j, (junosFix m model l)[k]? = some j ∧ j.nativeId = if m = true ∧ '.' ∉ i.ifname.toList then i.native else none := by
  unfold junosFix
  simp only [List.getElem?_map, hk, Option.map_some]
  refine ⟨_, rfl, ?_⟩
  rw [(junosMaster_same _ _ _).2.2.2.2]
  obtain ⟨p, u, _, hs⟩ := junosSplit_spec (junosFirst m i) (by rw [junosFirst_name]; exact junosName_dot _)
  rw [hs]
  simp only
  have hi := h0 i (List.mem_of_getElem? hk)
  unfold junosFirst
  by_cases hd : '.' ∈ i.ifname.toList
  · rw [if_pos ((junosDot_iff _).2 hd), if_neg (fun h => h.2 hd)]; exact hi
  · rw [if_neg (fun h => hd ((junosDot_iff _).1 h))]
    have hm : (junosMtu (junosUnit0 i) 14).native = i.native ∧ (junosMtu (junosUnit0 i) 14).nativeId = none := by
      unfold junosMtu; split <;> exact ⟨rfl, hi⟩
    simp only [hm.1]
    cases m with
    | false => simp [hm.2]
    | true =>
      cases hn : i.native with
      | none => simp [hm.2]
      | some v => simp [hd]

/-! ## Loopbacks -/

theorem junosCount_lookup (c : List (String × Nat)) (vrf v : String) :
    ((junosCount c vrf).lookup v).getD 0 = (c.lookup v).getD 0 + (if vrf = v then 1 else 0) := by
  unfold junosCount
  cases h : c.lookup vrf with
  | some n =>
    simp only
    rw [lookup_setKey]
    by_cases hv : vrf = v
    · subst hv; simp [h]
    · have : ¬ v = vrf := fun e => hv e.symm
      simp [hv, this]
  | none =>
    simp only
    have ha : ∀ (a b : List (String × Nat)), (a ++ b).lookup v = (a.lookup v).or (b.lookup v) := by
      intro a b
      induction a with
      | nil => simp
      | cons p a ih =>
        obtain ⟨k, x⟩ := p
        by_cases hh : v == k
        · simp [List.lookup_cons, hh]
        · simp only [List.cons_append, List.lookup_cons, hh, ih]
    rw [ha]
    by_cases hv : vrf = v
    · subst hv; simp [h]
    · have : (v == vrf) = false := by simpa using fun e : v = vrf => hv e.symm
      simp [hv, List.lookup_cons, this]

theorem junosCount_keys (c : List (String × Nat)) (vrf : String) (hn : (c.map Prod.fst).Nodup) : ((junosCount c vrf).map Prod.fst).Nodup := by
  unfold junosCount
  cases h : c.lookup vrf with
  | some n => exact nodup_setKey hn _ _
  | none =>
    simp only [List.map_append, List.map_cons, List.map_nil]
    rw [List.nodup_append]
    refine ⟨hn, by simp, ?_⟩
    intro a ha b hb he
    simp at hb
    subst hb; subst he
    exact lookup_eq_none_iff.1 h ha

theorem junosCount_foldl (l : List String) (c : List (String × Nat)) (hn : (c.map Prod.fst).Nodup) (v : String) :
    ((l.foldl junosCount c).map Prod.fst).Nodup ∧ ((l.foldl junosCount c).lookup v).getD 0 = (c.lookup v).getD 0 + l.count v := by
  induction l generalizing c with
  | nil => exact ⟨hn, by simp⟩
  | cons x l ih =>
    obtain ⟨h1, h2⟩ := ih (junosCount c x) (junosCount_keys c x hn)
    refine ⟨h1, ?_⟩
    rw [List.foldl_cons, h2, junosCount_lookup, List.count_cons]
    by_cases hx : x = v
    · simp [hx]; omega
    · simp [hx]

/-- **C108**: the device is rejected exactly for VRFs with more than one loopback (including the main one); each such VRF is reported once. -/
theorem C108_loopbacks (loopback : Bool) (intfs : List (String × Option String)) :
    (junosLoopbacks loopback intfs).Nodup ∧ ∀ v, v ∈ junosLoopbacks loopback intfs ↔ loopbacksIn loopback intfs v > 1 := by
  unfold junosLoopbacks
  simp only
  have hs : ((if loopback then [("default", 1)] else []).map Prod.fst : List String).Nodup := by cases loopback <;> simp
  have hcnt : ∀ v, (((intfs.filter (fun i => i.1 == "loopback")).map (fun i => i.2.getD "default")).count v) = (intfs.filter (fun i => i.1 == "loopback" && i.2.getD "default" == v)).length := by
    intro v
    rw [List.count_eq_countP, List.countP_map, List.countP_eq_length_filter, List.filter_filter]
    congr 1
    apply List.filter_congr
    intro x _
    simp only [Function.comp]
    rw [Bool.and_comm]
  generalize hl : (intfs.filter (fun i => i.1 == "loopback")).map (fun i => i.2.getD "default") = L at *
  generalize hc : L.foldl junosCount (if loopback then [("default", 1)] else []) = c at *
  have hk : (c.map Prod.fst).Nodup := by rw [← hc]; exact (junosCount_foldl L _ hs "").1
  refine ⟨?_, ?_⟩
  · exact (List.Sublist.nodup (List.Sublist.map _ List.filter_sublist) hk)
  · intro v
    have hv := (junosCount_foldl L _ hs v).2
    rw [hc, hcnt] at hv
    have hst : ((if loopback then [("default", 1)] else [] : List (String × Nat)).lookup v).getD 0 = if loopback = true ∧ v = "default" then 1 else 0 := by
      cases loopback with
      | false => simp
      | true =>
        by_cases hd : v = "default"
        · subst hd; simp
        · have : (v == "default") = false := by simpa using hd
          simp [List.lookup_cons, this, hd]
    rw [hst] at hv
    unfold loopbacksIn
    rw [← hv]
    simp only [List.mem_map, List.mem_filter, decide_eq_true_eq]
    constructor
    · rintro ⟨⟨a, n⟩, ⟨h1, h2⟩, rfl⟩
      rw [lookup_of_mem hk h1]
      exact h2
    · intro h
      cases hlk : c.lookup v with
      | none => rw [hlk] at h; simp at h
      | some n => rw [hlk] at h; exact ⟨(v, n), ⟨mem_of_lookup hlk, h⟩, rfl⟩

example : junosLoopbacks true [("loopback", none), ("lan", none), ("loopback", some "red")] = ["default"] := by decide +kernel

/-! ## ArubaCX -/

/-- **C108**: ArubaCX OSPF process IDs: there is an error exactly when there are more than 62 VRFs; otherwise every VRF gets the next process ID starting with 2, so the IDs are different, never 1
(the global OSPF process), and at most 63. -/
theorem C108_ospf_index (vrfs : List String) :
    ((acxIndex vrfs 2).2 = true ↔ vrfs.length > 62) ∧
    ((acxIndex vrfs 2).2 = false → (acxIndex vrfs 2).1.map Prod.fst = vrfs ∧ (acxIndex vrfs 2).1.map Prod.snd = List.range' 2 vrfs.length) ∧
    ∀ p ∈ (acxIndex vrfs 2).1, 2 ≤ p.2 ∧ p.2 ≤ 63 := by
  have key : ∀ (l : List String) (i : Nat), i ≤ 64 → ((acxIndex l i).2 = true ↔ l.length + i > 64) ∧
      ((acxIndex l i).2 = false → (acxIndex l i).1.map Prod.fst = l ∧ (acxIndex l i).1.map Prod.snd = List.range' i l.length) ∧
      ∀ p ∈ (acxIndex l i).1, i ≤ p.2 ∧ p.2 ≤ 63 := by
    intro l
    induction l with
    | nil => intro i hi; simp [acxIndex]; omega
    | cons v r ih =>
      intro i hi
      unfold acxIndex
      by_cases h : i > 63
      · rw [if_pos h]; simp; omega
      · rw [if_neg h]
        obtain ⟨h1, h2, h3⟩ := ih (i + 1) (by omega)
        refine ⟨?_, ?_, ?_⟩
        · simp only [h1, List.length_cons]; omega
        · intro he
          obtain ⟨a, b⟩ := h2 he
          simp only [List.map_cons, a, b, List.length_cons]
          exact ⟨trivial, (List.range'_succ ..).symm⟩
        · intro p hp
          rcases List.mem_cons.1 hp with rfl | hp
          · exact ⟨Nat.le_refl _, by simp only; omega⟩
          · have := h3 p hp; omega
  have h := key vrfs 2 (by omega)
  exact ⟨by rw [h.1]; omega, h.2.1, h.2.2⟩

/-- Peers of a node when all of them have the same role -/
theorem acxRole_all {peers : List AcxIntf} {r old : Option String} (hne : peers ≠ []) (h : ∀ p ∈ peers, p.role = r) :
    acxRole peers old = some (if r = some "primary" then "secondary" else "primary") := by
  unfold acxRole
  induction peers generalizing old with
  | nil => exact absurd rfl hne
  | cons p rest ih =>
    rw [List.foldl_cons]
    cases hr : rest with
    | nil => simp [h p List.mem_cons_self]
    | cons q rest' =>
      rw [← hr]
      exact ih (by rw [hr]; simp) (fun x hx => h x (List.mem_cons_of_mem _ hx))

theorem acxNode_group (nodes : List AcxNode) (n : AcxNode) (g : Int) (hg : g ≠ 0) (i : AcxIntf) (hi : i ∈ (acxNode nodes n).intfs) (hig : i.group = some g) :
    ∃ j ∈ n.intfs, j.group = some g ∧ i.role = acxRole (acxPeers nodes n.name g) j.role := by
  unfold acxNode at hi
  obtain ⟨j, hj, rfl⟩ := List.mem_map.1 hi
  cases hjg : j.group with
  | none => simp [hjg] at hig
  | some k =>
    rw [hjg] at hig
    simp only at hig
    by_cases hk : k = 0
    · rw [if_pos hk, hjg] at hig
      cases hig; exact absurd hk hg
    · rw [if_neg hk] at hig
      simp only at hig
      cases hig
      exact ⟨j, hj, hjg, by simp [hk]⟩

theorem acxNode_has (nodes : List AcxNode) (n : AcxNode) (g : Int) : (∃ i ∈ (acxNode nodes n).intfs, i.group = some g) ↔ ∃ i ∈ n.intfs, i.group = some g := by
  unfold acxNode
  simp only [List.mem_map]
  constructor
  · rintro ⟨_, ⟨j, hj, rfl⟩, h⟩
    refine ⟨j, hj, ?_⟩
    cases hjg : j.group with
    | none => simp [hjg] at h
    | some k =>
      simp only [hjg] at h
      by_cases hk : k = 0
      · rw [if_pos hk, hjg] at h; exact h
      · rw [if_neg hk] at h; simpa [hjg] using h
  · rintro ⟨j, hj, h⟩
    refine ⟨_, ⟨j, hj, rfl⟩, ?_⟩
    rw [h]
    simp only
    split <;> simp [h]

theorem acxStep_has (nodes : List AcxNode) (name : String) (g : Int) (a : String) : HasPeerLink g a (acxStep nodes name) ↔ HasPeerLink g a nodes := by
  unfold HasPeerLink acxStep
  constructor
  · rintro ⟨n, hn, hna, hi⟩
    obtain ⟨m, hm, rfl⟩ := List.mem_map.1 hn
    refine ⟨m, hm, ?_, ?_⟩
    · split at hna
      · exact hna
      · exact hna
    · split at hi
      · exact (acxNode_has _ _ _).1 hi
      · exact hi
  · rintro ⟨n, hn, hna, hi⟩
    refine ⟨_, List.mem_map_of_mem hn, ?_, ?_⟩
    · split
      · exact hna
      · exact hna
    · split
      · exact (acxNode_has _ _ _).2 hi
      · exact hi

/-- Processing a node that is not in the pair changes nothing in the peer group. -/
theorem acxStep_other {nodes : List AcxNode} {name : String} {g : Int} {a b : String} {ra rb : Option String} (hg : g ≠ 0)
    (h : PairRoles g a b ra rb nodes) (hna : name ≠ a) (hnb : name ≠ b) : PairRoles g a b ra rb (acxStep nodes name) := by
  intro n hn i hi hig
  unfold acxStep at hn
  obtain ⟨m, hm, rfl⟩ := List.mem_map.1 hn
  split at hi
  · rename_i hc
    obtain ⟨j, hj, hjg, _⟩ := acxNode_group _ _ g hg i hi hig
    rcases (h m hm j hj hjg).2 with ⟨e, _⟩ | ⟨e, _⟩
    · exact absurd (hc.1.symm.trans e) hna
    · exact absurd (hc.1.symm.trans e) hnb
  · rename_i hc
    rw [if_neg hc]
    exact h m hm i hi hig

theorem mem_acxPeers {nodes : List AcxNode} {me : String} {g : Int} {p : AcxIntf} :
    p ∈ acxPeers nodes me g ↔ ∃ n ∈ nodes, n.name ≠ me ∧ n.aruba = true ∧ p ∈ n.intfs ∧ p.group = some g := by
  unfold acxPeers
  simp only [List.mem_flatMap]
  constructor
  · rintro ⟨n, hn, hp⟩
    split at hp
    · rename_i hc
      rw [List.mem_filter] at hp
      exact ⟨n, hn, hc.1, hc.2, hp.1, by simpa using hp.2⟩
    · simp at hp
  · rintro ⟨n, hn, h1, h2, h3, h4⟩
    exact ⟨n, hn, by rw [if_pos ⟨h1, h2⟩, List.mem_filter]; exact ⟨h3, by simp [h4]⟩⟩

/-- Processing the first node of the pair -/
theorem acxStep_first {nodes : List AcxNode} {g : Int} {a b : String} {ra rb : Option String} (hg : g ≠ 0) (hab : a ≠ b)
    (h : PairRoles g a b ra rb nodes) (hb : HasPeerLink g b nodes) :
    PairRoles g a b (some (if rb = some "primary" then "secondary" else "primary")) rb (acxStep nodes a) := by
  have hrole : ∀ old, acxRole (acxPeers nodes a g) old = some (if rb = some "primary" then "secondary" else "primary") := by
    intro old
    apply acxRole_all
    · obtain ⟨n, hn, hnb, i, hi, hig⟩ := hb
      have : i ∈ acxPeers nodes a g := mem_acxPeers.2 ⟨n, hn, by rw [hnb]; exact fun e => hab e.symm, (h n hn i hi hig).1, hi, hig⟩
      intro he; rw [he] at this; simp at this
    · intro p hp
      obtain ⟨n, hn, hna, _, hpi, hpg⟩ := mem_acxPeers.1 hp
      rcases (h n hn p hpi hpg).2 with ⟨e, _⟩ | ⟨_, e⟩
      · exact absurd e hna
      · exact e
  intro n hn i hi hig
  unfold acxStep at hn
  obtain ⟨m, hm, rfl⟩ := List.mem_map.1 hn
  split at hi
  · rename_i hc
    rw [if_pos hc]
    obtain ⟨j, hj, hjg, hjr⟩ := acxNode_group _ _ g hg i hi hig
    refine ⟨hc.2, Or.inl ⟨hc.1, ?_⟩⟩
    rw [hjr, hc.1, hrole]
  · rename_i hc
    rw [if_neg hc]
    obtain ⟨h1, h2⟩ := h m hm i hi hig
    rcases h2 with ⟨e, _⟩ | h2
    · exact absurd ⟨e, h1⟩ hc
    · exact ⟨h1, Or.inr h2⟩

theorem pairRoles_swap {g : Int} {a b : String} {ra rb : Option String} {nodes : List AcxNode} (h : PairRoles g a b ra rb nodes) : PairRoles g b a rb ra nodes := by
  intro n hn i hi hig
  obtain ⟨h1, h2⟩ := h n hn i hi hig
  exact ⟨h1, h2.symm⟩

theorem foldl_acx_other {g : Int} {a b : String} {ra rb : Option String} (hg : g ≠ 0) (l : List String) (hl : ∀ x ∈ l, x ≠ a ∧ x ≠ b) (nodes : List AcxNode)
    (h : PairRoles g a b ra rb nodes) (ha : HasPeerLink g a nodes) (hb : HasPeerLink g b nodes) :
    PairRoles g a b ra rb (l.foldl acxStep nodes) ∧ HasPeerLink g a (l.foldl acxStep nodes) ∧ HasPeerLink g b (l.foldl acxStep nodes) := by
  induction l generalizing nodes with
  | nil => exact ⟨h, ha, hb⟩
  | cons x l ih =>
    have hx := hl x List.mem_cons_self
    exact ih (fun y hy => hl y (List.mem_cons_of_mem _ hy)) _ (acxStep_other hg h hx.1 hx.2) ((acxStep_has _ _ _ _).2 ha) ((acxStep_has _ _ _ _).2 hb)

/-- **C108**: when an MLAG peer group is used on two ArubaCX switches, the first switch in the lab topology becomes the primary and the other one the secondary switch: every peer link interface gets the
role, no matter what other devices and peer groups there are in the lab. -/
theorem C108_vsx_roles (nodes : List AcxNode) (g : Int) (hg : g ≠ 0) (a b : String) (pre mid post : List String)
    (hnames : nodes.map (·.name) = pre ++ a :: mid ++ b :: post) (hn : (nodes.map (·.name)).Nodup)
    (h : PairRoles g a b none none nodes) (ha : HasPeerLink g a nodes) (hb : HasPeerLink g b nodes) :
    PairRoles g a b (some "primary") (some "secondary") (acxAll nodes) ∧ HasPeerLink g a (acxAll nodes) ∧ HasPeerLink g b (acxAll nodes) := by
  rw [hnames] at hn
  have hall : acxAll nodes = (pre ++ a :: mid ++ b :: post).foldl acxStep nodes := by unfold acxAll; rw [hnames]
  rw [hall]
  clear hall hnames
  rw [List.append_assoc, List.cons_append] at hn
  rw [List.nodup_append] at hn
  obtain ⟨_, hn2, hn3⟩ := hn
  rw [List.nodup_cons] at hn2
  obtain ⟨hn4, hn5⟩ := hn2
  rw [List.nodup_append] at hn5
  obtain ⟨_, hn6, hn7⟩ := hn5
  rw [List.nodup_cons] at hn6
  have hab : a ≠ b := fun e => hn4 (by rw [e]; simp)
  have hpre : ∀ x ∈ pre, x ≠ a ∧ x ≠ b := fun x hx => ⟨hn3 x hx a (by simp), hn3 x hx b (by simp)⟩
  have hmid : ∀ x ∈ mid, x ≠ a ∧ x ≠ b := fun x hx => ⟨fun e => hn4 (by rw [← e]; simp [hx]), hn7 x hx b (by simp)⟩
  have hpost : ∀ x ∈ post, x ≠ a ∧ x ≠ b := fun x hx => ⟨fun e => hn4 (by rw [← e]; simp [hx]), fun e => hn6.1 (e ▸ hx)⟩
  rw [List.append_assoc, List.foldl_append, List.cons_append, List.foldl_cons, List.foldl_append, List.foldl_cons]
  obtain ⟨h1, ha1, hb1⟩ := foldl_acx_other hg pre hpre nodes h ha hb
  have h2 := acxStep_first hg hab h1 hb1
  simp only [reduceCtorEq, if_false] at h2
  obtain ⟨h3, ha3, hb3⟩ := foldl_acx_other hg mid hmid _ h2 ((acxStep_has _ _ _ _).2 ha1) ((acxStep_has _ _ _ _).2 hb1)
  have h4 := acxStep_first hg (fun e => hab e.symm) (pairRoles_swap h3) ha3
  simp only [if_true] at h4
  exact foldl_acx_other hg post hpost _ (pairRoles_swap h4) ((acxStep_has _ _ _ _).2 ha3) ((acxStep_has _ _ _ _).2 hb3)

example : (acxAll [⟨"s1", true, [⟨none, none⟩, ⟨some 1, none⟩]⟩, ⟨"h", false, [⟨none, none⟩]⟩, ⟨"s2", true, [⟨some 1, none⟩]⟩]).map (fun n => n.intfs.map (·.role)) =
    [[none, some "primary"], [none], [some "secondary"]] := by decide +kernel

/-! ## VLANs, modules, groups -/

/-- **C108**: VLAN 1 is never left tagged in a trunk without a native VLAN; all other trunks are left unchanged. -/
theorem C108_tagged_1 (fakeId : Nat) (hf : fakeId ≠ 0) (name : String) (i : TrunkIntf) :
    (1 ∈ (vlan1Tagged fakeId name i).trunk → ∃ v, v ≠ 0 ∧ (vlan1Tagged fakeId name i).access = some v) ∧
    (vlan1Tagged fakeId name i).trunk = i.trunk ∧
    ((1 ∉ i.trunk ∨ ∃ v, v ≠ 0 ∧ i.access = some v) → vlan1Tagged fakeId name i = i) ∧
    (1 ∈ i.trunk → i.access = none → (vlan1Tagged fakeId name i).access = some fakeId ∧ (vlan1Tagged fakeId name i).native = some name) := by
  unfold vlan1Tagged
  by_cases h : (i.trunk.contains 1 && (i.access == none || i.access == some 0)) = true
  · rw [if_pos h]
    simp at h
    refine ⟨fun _ => ⟨fakeId, hf, rfl⟩, rfl, ?_, fun _ _ => ⟨rfl, rfl⟩⟩
    rintro (h1 | ⟨v, hv, he⟩)
    · exact absurd h.1 h1
    · rw [he] at h; simp [hv] at h
  · rw [if_neg h]
    simp at h
    refine ⟨?_, rfl, fun _ => rfl, ?_⟩
    · intro h1
      have := h h1
      cases ha : i.access with
      | none => exact absurd ha this.1
      | some v => exact ⟨v, fun e => this.2 (by rw [ha, e]), rfl⟩
    · intro h1 h2; exact absurd h2 (h h1).1

/-- **C108**: VLANs with reserved IDs (1002 to 1005 on Cisco IOS layer-2 images, 3967 and above on Nexus OS) are always rejected, and nothing else is. -/
theorem C108_reserved (vlans : List (String × Nat)) :
    (reservedVlansIos vlans = 0 ↔ ∀ v ∈ vlans, v.2 < 1002 ∨ v.2 > 1005) ∧ (reservedVlansNxos vlans = 0 ↔ ∀ v ∈ vlans, v.2 ≤ 3966) := by
  unfold reservedVlansIos reservedVlansNxos
  simp only [List.length_eq_zero_iff, List.filter_eq_nil_iff]
  constructor
  · refine forall_congr' fun v => forall_congr' fun _ => ?_
    simp; omega
  · refine forall_congr' fun v => forall_congr' fun _ => ?_
    simp

/-- **C108**: a Linux node loses the routing module exactly when the only routing data it has are the static routes; the other modules stay in the same order. -/
theorem C108_linux (modules : List String) (hn : modules.Nodup) (routing : Option (List String)) :
    (linuxModules modules routing).filter (· != "routing") = modules.filter (· != "routing") ∧
    ("routing" ∈ linuxModules modules routing ↔ "routing" ∈ modules ∧ routing ≠ some ["static"]) := by
  unfold linuxModules
  cases routing with
  | none => simp
  | some k =>
    simp only
    by_cases h : (modules.contains "routing" && k == ["static"]) = true
    · rw [if_pos h]
      simp at h
      rw [List.Nodup.erase_eq_filter hn]
      refine ⟨by rw [List.filter_filter]; simp, ?_⟩
      simp [h.2]
    · rw [if_neg h]
      simp at h
      exact ⟨rfl, ⟨fun hm => ⟨hm, by simpa using h hm⟩, fun hm => hm.1⟩⟩

theorem eosBundle_fold (b : List EosVlan) (intfs : List String) :
    b.foldl (fun l v => l.filter (fun i => i != "Vlan" ++ v.id.repr)) intfs = intfs.filter (fun i => b.all (fun v => i != "Vlan" ++ v.id.repr)) := by
  induction b generalizing intfs with
  | nil => simp only [List.foldl_nil, List.all_nil]; exact (List.filter_eq_self.2 (by simp)).symm
  | cons v b ih =>
    rw [List.foldl_cons, ih, List.filter_filter]
    apply List.filter_congr
    intro x _
    rw [List.all_cons, Bool.and_comm]

/-- **C108**: EVPN/MPLS VLAN bundles on EOS: exactly the VLAN interfaces of VLANs in a bundle are removed; there is an error exactly when one of those VLANs is not in the bridge mode.  Nothing changes on
nodes that do not use MPLS transport. -/
theorem C108_bundle (transport : Option String) (vlans : List EosVlan) (intfs : List String) :
    (transport ≠ some "mpls" → eosBundle transport vlans intfs = (intfs, 0)) ∧
    (transport = some "mpls" →
      (eosBundle transport vlans intfs).1.Sublist intfs ∧
      (∀ i, i ∈ (eosBundle transport vlans intfs).1 ↔ i ∈ intfs ∧ ∀ v ∈ vlans, v.bundle = true → i ≠ "Vlan" ++ v.id.repr) ∧
      ((eosBundle transport vlans intfs).2 = 0 ↔ ∀ v ∈ vlans, v.bundle = true → v.mode = "bridge")) := by
  unfold eosBundle
  refine ⟨fun h => if_neg h, fun h => ?_⟩
  rw [if_pos h]
  simp only [eosBundle_fold]
  refine ⟨List.filter_sublist, fun i => ?_, ?_⟩
  · simp only [List.mem_filter, List.all_eq_true, bne_iff_ne]
    refine and_congr_right fun _ => ⟨fun hh v hv hb => hh v ⟨hv, hb⟩, fun hh v hv => hh v hv.1 hv.2⟩
  · simp only [List.length_eq_zero_iff, List.filter_eq_nil_iff, List.mem_filter]
    refine ⟨fun hh v hv hb => ?_, fun hh v hv => ?_⟩
    · have := hh v ⟨hv, hb⟩
      simpa using this
    · simp [hh v hv.1 hv.2]

/-- **C108**: nodes with unknown devices become members of the `unprovisioned` group (once); the members specified in the topology stay in front. -/
theorem C108_unknown (members nodes : List String) :
    (∀ n, n ∈ unknownMembers members nodes ↔ n ∈ members ∨ n ∈ nodes) ∧ (members.Nodup → (unknownMembers members nodes).Nodup) ∧ members <+: unknownMembers members nodes := by
  obtain ⟨h1, h2, h3, _⟩ := appendNew_spec members nodes
  exact ⟨h1, h2, h3⟩

/-- **C108**: passive interfaces are explicitly turned into active ones, all other interfaces are left alone. -/
theorem C108_passive_value (l : List (String × Option Bool)) (k : Nat) (name : String) (v : Option Bool) (h : l[k]? = some (name, v)) :
    (v = some true → (nvuePassive l).1[k]? = some (name, some false)) ∧ (v ≠ some true → (nvuePassive l).1[k]? = some (name, v)) := by
  unfold nvuePassive
  simp only [List.getElem?_map, h, Option.map_some]
  exact ⟨fun hv => by simp [hv], fun hv => by simp [hv]⟩

/-- **C108**: after the conversion no VRF OSPF interface is passive; a warning is reported exactly when something was changed; interfaces and their order don't change. -/
theorem C108_passive (l : List (String × Option Bool)) :
    (∀ i ∈ (nvuePassive l).1, i.2 ≠ some true) ∧ (nvuePassive l).1.map Prod.fst = l.map Prod.fst ∧ ((nvuePassive l).2 = false ↔ (nvuePassive l).1 = l) := by
  unfold nvuePassive
  refine ⟨?_, ?_, ?_⟩
  · intro i hi
    obtain ⟨j, _, rfl⟩ := List.mem_map.1 hi
    split
    · simp
    · assumption
  · simp only [List.map_map]
    apply List.map_congr_left
    intro x _
    simp only [Function.comp]
    split <;> rfl
  · simp only
    constructor
    · intro h
      rw [List.any_eq_false] at h
      conv => rhs; rw [← List.map_id l]
      apply List.map_congr_left
      intro x hx
      have := h x hx
      rw [if_neg (by simpa using this)]; rfl
    · intro h
      rw [List.any_eq_false]
      intro x hx he
      have hx' : x ∈ l.map (fun i => if i.2 = some true then (i.1, some false) else i) := by rw [h]; exact hx
      obtain ⟨j, _, hj⟩ := List.mem_map.1 hx'
      have he' : x.2 = some true := by simpa using he
      split at hj
      · rw [← hj] at he'; simp at he'
      · rename_i hc; rw [hj] at hc; exact hc he'

example : nvuePassive [("swp1", some true), ("swp2", none)] = ([("swp1", some false), ("swp2", none)], true) := by decide +kernel

end Netlab
