import Verif.Spec.DeviceChecks
import Verif.Props.Quirks
import Verif.Props.LabHost
import Verif.Props.BgpSession
import Mathlib.Tactic.Tauto
import Mathlib.Tactic.ByContra
/-!
# C131: unsupported combinations of features are reported
-/

namespace Netlab
open Spec

theorem dcReport_zero {w : String → Option Val} (hw : ∀ q, quirkReported (w q) = true) (q : String) (b : Bool) : dcReport w q b = 0 ↔ b = false := by
  unfold dcReport
  rw [hw]
  cases b <;> simp

theorem sum_zero_iff {α : Type} (l : List α) (f : α → Nat) : (l.map f).sum = 0 ↔ ∀ a ∈ l, f a = 0 := by
  induction l with
  | nil => simp
  | cons a l ih => simp [ih]

theorem containsText_iff (text part : String) : ContainsText text part ↔ subIn part.toList text.toList = true := by
  rw [subIn_iff]
  unfold ContainsText
  constructor
  · rintro ⟨a, b, rfl⟩; exact ⟨a.toList, b.toList, by simp⟩
  · rintro ⟨a, b, h⟩
    exact ⟨String.ofList a, String.ofList b, String.toList_inj.1 (by simpa using h)⟩

theorem isContainer_iff (t : DcTopo) (n : DcNode) : IsContainer t n ↔ dcProvider t n = "clab" := by
  unfold IsContainer dcProvider
  cases n.provider <;> simp

theorem srlChassis_iff (c : String) : SrlChassis c ↔ srlChassis.contains c = true := by
  unfold SrlChassis srlChassis
  simp

theorem dictSame_iff {a b : List (String × Val)} (ha : (a.map (·.1)).Nodup) (hb : (b.map (·.1)).Nodup) : dictSame a b = true ↔ SameSettings a b := by
  unfold dictSame SameSettings
  simp only [Bool.and_eq_true, beq_iff_eq, List.all_eq_true]
  constructor
  · rintro ⟨hl, h⟩ k
    cases hk : a.lookup k with
    | some v => exact (h (k, v) (mem_of_lookup hk)).symm
    | none =>
      cases hbk : b.lookup k with
      | none => rfl
      | some v =>
        exfalso
        -- all keys of `a` are keys of `b`; `b` has one more
        have hsub : k :: a.map (·.1) ⊆ b.map (·.1) := by
          intro x hx
          rcases List.mem_cons.1 hx with rfl | hx
          · exact List.mem_map.2 ⟨_, mem_of_lookup hbk, rfl⟩
          · obtain ⟨p, hp, rfl⟩ := List.mem_map.1 hx
            exact List.mem_map.2 ⟨_, mem_of_lookup (h p hp), rfl⟩
        have hnd : (k :: a.map (·.1)).Nodup := List.nodup_cons.2 ⟨(lookup_eq_none_iff).1 hk, ha⟩
        have := (List.Nodup.subperm hnd hsub).length_le
        simp at this
        omega
  · intro h
    refine ⟨?_, fun kv hkv => ?_⟩
    · have h1 : a.map (·.1) ⊆ b.map (·.1) := by
        intro x hx
        by_contra hn
        have := (lookup_eq_none_iff).2 hn
        rw [← h x] at this
        exact (lookup_eq_none_iff).1 this hx
      have h2 : b.map (·.1) ⊆ a.map (·.1) := by
        intro x hx
        by_contra hn
        have := (lookup_eq_none_iff).2 hn
        rw [h x] at this
        exact (lookup_eq_none_iff).1 this hx
      have e1 := (List.Nodup.subperm ha h1).length_le
      have e2 := (List.Nodup.subperm hb h2).length_le
      simp at e1 e2
      omega
    · rw [← h, lookup_of_mem ha hkv]

theorem dcMerge_iff {n : DcNode} (hk : DcKeys n) {i : DcIntf} (hi : i ∈ n.intfs) {o : List (String × Val)} (ho : i.ospf = some o) :
    dcMerge n i o = true ↔ Mergeable n i o := by
  unfold dcMerge Mergeable
  have h1 := hk.2 i hi o ho
  cases hl : n.lo with
  | none => simp
  | some l =>
    have h2 := hk.1 l hl
    simp only [Bool.and_eq_true, Bool.or_eq_true, Option.isNone_iff_eq_none, dictSame_iff h1 h2, dictSame_iff h1 (nodup_setKey h2 _ _), Option.some.injEq,
      exists_eq_left']
    unfold SameSettings
    simp only [lookup_setKey]

theorem dcNvueLo_iff {n : DcNode} (hk : DcKeys n) {i : DcIntf} (hi : i ∈ n.intfs) :
    (dcNvueLo n i).2 = true ↔ i.type = "loopback" ∧ ∃ o, i.ospf = some o ∧ ¬Mergeable n i o := by
  unfold dcNvueLo
  split
  · rename_i ht
    cases ho : i.ospf with
    | none => simp
    | some o =>
      have := dcMerge_iff hk hi ho
      by_cases hm : dcMerge n i o = true
      · simp [hm, ← this]
      · simp [hm, ← this, ht]
  · rename_i ht
    simp [ht]

theorem dcAsa_zero {t : DcTopo} (ht : (t.nodes.map (·.name)).Nodup) {n : DcNode} (hn : NbrsExist t n) :
    dcAsa t n = 0 ↔ ∀ i ∈ n.intfs, i.isis = some (some "point-to-point") → i.nbrs = [] := by
  unfold dcAsa
  rw [List.length_eq_zero_iff, List.flatMap_eq_nil_iff]
  constructor
  · intro h i hi hp
    cases hb : i.nbrs with
    | nil => rfl
    | cons b r =>
      exfalso
      have hbm : b ∈ i.nbrs := by rw [hb]; exact List.mem_cons_self
      have h1 := h i (List.mem_filter.2 ⟨hi, by simp [hp]⟩)
      rw [List.flatMap_eq_nil_iff] at h1
      have h2 := h1 b hbm
      obtain ⟨m, hm, hname, j, hj, hjn⟩ := hn i hi b hbm
      cases hf : t.nodes.find? (fun m => m.name == b.1) with
      | none =>
        rw [List.find?_eq_none] at hf
        exact hf m hm (by simp [hname])
      | some m' =>
        have hm' := List.mem_of_find?_eq_some hf
        have hn' := List.find?_some hf
        simp only [beq_iff_eq] at hn'
        have he : m' = m := eq_of_map_nodup ht hm' hm (by rw [hn', hname])
        subst he
        rw [hf] at h2
        simp only [hp, List.filter_eq_nil_iff, List.mem_filter] at h2
        exact h2 j ⟨hj, by simp [hjn]⟩ (by simp)
  · intro h i hi
    obtain ⟨hi, hs⟩ := List.mem_filter.1 hi
    rw [List.flatMap_eq_nil_iff]
    intro b hb
    split
    · rw [List.filter_eq_nil_iff]
      intro r hr hp
      simp only [beq_iff_eq] at hp
      rw [h i hi hp] at hb
      cases hb
    · rfl

theorem dcVlan1_zero {w : String → Option Val} (hw : ∀ q, quirkReported (w q) = true) (n : DcNode) :
    dcVlan1 w n = 0 ↔ ∀ i ∈ n.intfs, ¬(i.type = "vlan_member" ∧ i.accessId = some 1) := by
  unfold dcVlan1
  rw [sum_zero_iff]
  simp only [dcReport_zero hw, List.mem_filter, Bool.not_or, Bool.and_eq_true, Bool.not_eq_true', bne_eq_false_iff_eq]
  constructor
  · intro h i hi hc; exact absurd (h i ⟨hi, hc⟩) (by simp)
  · intro h i hi; exact absurd hi.2 (h i hi.1)

theorem dcDellOspf_zero {w : String → Option Val} (hw : ∀ q, quirkReported (w q) = true) (l : List DcIntf) :
    dcDellOspf w l = 0 ↔ ∀ i ∈ l, ¬(i.type = "svi" ∧ i.ospf ≠ none) := by
  unfold dcDellOspf
  rw [dcReport_zero hw]
  simp only [List.any_eq_false, Bool.not_or, Bool.and_eq_true, Bool.not_eq_true', bne_eq_false_iff_eq, Option.isNone_eq_false_iff]
  constructor
  · intro h i hi hc; exact h i hi ⟨Option.ne_none_iff_isSome.1 hc.2, hc.1⟩
  · intro h i hi hc; exact h i hi ⟨hc.2, Option.ne_none_iff_isSome.2 hc.1⟩

theorem dcVirtual_iff (t : DcTopo) {n : DcNode} (hd : n.device = "dellos10") : dcVirtual t n = true ↔ ContainsText (t.svi "dellos10") "virtual-network" := by
  unfold dcVirtual
  rw [containsText_iff, hd]

theorem dcNvueNative_zero {w : String → Option Val} (hw : ∀ q, quirkReported (w q) = true) (t : DcTopo) (n : DcNode) :
    dcNvueNative w t n = 0 ↔ ∀ i ∈ n.intfs, ∀ v, i.native = some v → t.vlans.lookup v = some (some "route") →
      ∀ j ∈ n.intfs, j.parent = some i.ifindex → ¬(j.vlanMode = none ∨ j.vlanMode = some "bridge" ∨ j.vlanMode = some "irb") := by
  have hmode : ∀ j : DcIntf, ["bridge", "irb"].contains (j.vlanMode.getD "irb") = true ↔ (j.vlanMode = none ∨ j.vlanMode = some "bridge" ∨ j.vlanMode = some "irb") := by
    intro j; cases j.vlanMode <;> simp
  have hnat : ∀ v, (dcNativeMode t v == some "route") = true ↔ t.vlans.lookup v = some (some "route") := by
    intro v; unfold dcNativeMode; cases t.vlans.lookup v <;> simp
  unfold dcNvueNative
  rw [List.sum_eq_zero_iff_forall_eq_nat]
  simp only [List.mem_flatMap, List.mem_map, List.mem_filter, Bool.and_eq_true, beq_iff_eq, hmode]
  constructor
  · intro h i hi v hv hr j hj hp hm
    have := h (dcReport w "native_routed_on_mixed_trunk" true) ⟨i, ⟨hi, by rw [hv]; exact (hnat v).2 hr⟩, j, ⟨hj, hp, hm⟩, rfl⟩
    rw [dcReport_zero hw] at this
    exact absurd this (by simp)
  · rintro h x ⟨i, ⟨hi, hc⟩, j, ⟨hj, hp, hm⟩, rfl⟩
    exfalso
    cases hv : i.native with
    | none => rw [hv] at hc; exact absurd hc (by simp)
    | some v => rw [hv] at hc; exact h i hi v hv ((hnat v).1 hc) j hj hp hm

theorem dcEosIntfs_mem (n : DcNode) (i : DcIntf) : i ∈ dcEosIntfs n ↔ i ∈ n.intfs ∧ ¬BundleSvi n i := by
  unfold dcEosIntfs BundleSvi
  split
  · rename_i he
    have he : "evpn" ∈ n.mods := by simpa using he
    rw [List.mem_filter]
    apply and_congr_right
    intro hi
    by_cases ht : n.transport = some "mpls"
    · rw [ht, List.contains_iff_mem, ((C108_bundle (some "mpls") (n.vlans.map (·.2)) (n.intfs.map (·.ifname))).2 rfl).2.1]
      constructor
      · rintro ⟨_, h⟩ ⟨_, _, v, hv, hb, hn⟩
        exact h v.2 (List.mem_map_of_mem hv) hb hn
      · intro h
        refine ⟨List.mem_map_of_mem hi, fun v hv hb hn => h ⟨he, rfl, ?_⟩⟩
        obtain ⟨x, hx, rfl⟩ := List.mem_map.1 hv
        exact ⟨x, hx, hb, hn⟩
    · rw [(C108_bundle n.transport (n.vlans.map (·.2)) (n.intfs.map (·.ifname))).1 ht]
      simp only [List.contains_iff_mem, List.mem_map_of_mem hi, ht, false_and, and_false, not_false_eq_true]
  · rename_i he
    have he : "evpn" ∉ n.mods := by simpa using he
    simp [he]

theorem if_zero {c : Prop} [Decidable c] {x : Nat} : (if c then x else 0) = 0 ↔ (c → x = 0) := by by_cases h : c <;> simp [h]

theorem dcDell_zero {w : String → Option Val} (hw : ∀ q, quirkReported (w q) = true) (t : DcTopo) {n : DcNode} (hd : n.device = "dellos10") :
    dcDell w t n = 0 ↔ ¬Unsupported t n := by
  unfold dcDell dcDellAnycast dcDellVrrp dcDellPvrst dcDellComm
  simp only [Nat.add_eq_zero_iff, if_zero, dcDellOspf_zero hw, sum_zero_iff, dcReport_zero hw, List.contains_iff_mem, List.any_eq_false, Bool.and_eq_true, bne_iff_ne, beq_iff_eq]
  constructor
  · rintro ⟨⟨⟨h1, h2⟩, h3⟩, h4⟩ hu
    cases hu <;> try (simp_all [IsJunos]; done)
    case dellOspf i _ ho hi ht hn =>
      rcases hi with hi | ⟨v, hv, hi⟩
      · exact (h1 ho).1 i hi ⟨ht, hn⟩
      · exact (h1 ho).2 v hv i hi ⟨ht, hn⟩
    case dellVrrp i _ hg hv hi ht hc hx => exact (h2 hg).2 hv ((dcVirtual_iff t hd).2 hx) i hi ⟨ht, hc⟩
    case dellPvrst _ hs hp hx =>
      have := h3 hs hp
      rw [(dcVirtual_iff t hd).2 hx] at this
      exact absurd this (by simp)
    case dellComm c _ hr hc hs =>
      have := h4 hr c hc
      exact hs (by simpa using this)
  · intro hu
    refine ⟨⟨⟨fun h1 => ⟨fun i hi hc => ?_, fun v hv i hi hc => ?_⟩, fun h1 => ⟨fun h2 i hi hc => ?_, fun h2 h3 i hi hc => ?_⟩⟩, fun h1 => ?_⟩, fun h1 c hc => ?_⟩
    · exact hu (.dellOspf i hd h1 (Or.inl hi) hc.1 hc.2)
    · exact hu (.dellOspf i hd h1 (Or.inr ⟨v, hv, hi⟩) hc.1 hc.2)
    · exact hu (.dellAnycast i hd h1 h2 hi hc.1 hc.2)
    · exact hu (.dellVrrp i hd h1 h2 hi hc.1 hc.2 ((dcVirtual_iff t hd).1 h3))
    · intro hp
      rw [Bool.eq_false_iff]
      intro hv
      exact hu (.dellPvrst hd h1 hp ((dcVirtual_iff t hd).1 hv))
    · rw [Bool.eq_false_iff]
      intro hs
      exact hu (.dellComm c hd h1 hc (by simpa using hs))

theorem dcNvue_zero {w : String → Option Val} (hw : ∀ q, quirkReported (w q) = true) (t : DcTopo) {n : DcNode} (hd : n.device = "cumulus_nvue") (hk : DcKeys n) :
    dcNvue w t n = 0 ↔ ¬Unsupported t n := by
  have hp : ∀ s : Option String, (s.getD "stp" != "pvrst") = true ↔ s ≠ some "pvrst" := by
    intro s; cases s <;> simp
  unfold dcNvue dcNvueStp dcVrfDefault
  simp only [Nat.add_eq_zero_iff, if_zero, dcReport_zero hw, dcNvueNative_zero hw, List.contains_iff_mem, List.length_eq_zero_iff, List.filter_eq_nil_iff]
  constructor
  · rintro ⟨⟨h1, h2⟩, h3⟩ hu
    cases hu <;> try (simp_all [IsJunos]; done)
    case cumVrf v _ ho hv hdv => exact (h1 ho).1.1 v hv hdv
    case nvueLo i o _ ho hi ht hio hm =>
      have := (h1 ho).2
      rw [List.any_eq_false] at this
      exact this i hi ((dcNvueLo_iff hk hi).2 ⟨ht, o, hio, hm⟩)
    case nvueNative i j v _ hv hi hn hr hj hpj hm => exact h3 hv i hi v hn hr j hj hpj hm
  · intro hu
    refine ⟨⟨fun h1 => ⟨⟨fun v hv hc => ?_, fun h6 => ?_⟩, ?_⟩, fun h1 => ?_⟩, fun h1 i hi v hv hr j hj hp hm => ?_⟩
    · exact hu (.cumVrf v (Or.inr hd) h1 hv hc)
    · exact absurd (.nvueOspf6 hd h1 h6) hu
    · rw [List.any_eq_false]
      intro i hi hc
      obtain ⟨ht, o, ho, hm⟩ := (dcNvueLo_iff hk hi).1 hc
      exact hu (.nvueLo i o hd h1 hi ht ho hm)
    · rw [Bool.or_eq_false_iff]
      constructor
      · rw [List.any_eq_false]
        intro i hi hc
        rw [Bool.and_eq_true, Bool.or_eq_true, hp] at hc
        exact hu (.nvueStp i hd h1 hi hc.1 (by simpa using hc.2))
      · rw [Bool.eq_false_iff]
        intro hc
        rw [Bool.and_eq_true, hp, List.any_eq_true] at hc
        obtain ⟨hs, i, hi, hc⟩ := hc
        rw [List.any_eq_true] at hc
        obtain ⟨⟨v, b⟩, hv, hb⟩ := hc
        simp only at hb
        subst hb
        exact hu (.nvueTrunk i v hd h1 hi hv hs)
    · exact hu (.nvueNative i j v hd h1 hi hv hr hj hp hm)

theorem ceosMapped_iff (n : DcNode) : ceosMapped n = true ↔ ∃ b ∈ n.binds, ContainsText b "/mnt/flash/ceos-config" := by
  unfold ceosMapped
  rw [List.any_eq_true]
  simp only [containsText_iff]
  rfl

theorem dcCeos_zero (n : DcNode) : (dcCeos n).2 = 0 ↔ ¬((n.serial = true ∨ n.sysmac = true) ∧ n.kind = some "ceos" ∧ ceosMapped n = true) := by
  unfold dcCeos
  cases n.serial <;> cases n.sysmac <;> by_cases hk : n.kind = some "ceos" <;> cases hm : ceosMapped n <;> simp [hk]

theorem dcEos_zero (t : DcTopo) {n : DcNode} (hd : n.device = "eos") : dcEos t n = 0 ↔ ¬Unsupported t n := by
  unfold dcEos dcEosAnycast dcEosDhcp
  simp only [Nat.add_eq_zero_iff, if_zero, List.contains_iff_mem, dcCeos_zero]
  constructor
  · rintro ⟨⟨⟨h1, h2⟩, h3⟩, h4⟩ hu
    cases hu <;> try (simp_all [IsJunos]; done)
    case eosBundle v _ he ht hv hb hm =>
      have := h1 he
      rw [ht, ((C108_bundle (some "mpls") (n.vlans.map (·.2)) (n.intfs.map (·.ifname))).2 rfl).2.2] at this
      exact hm (this v.2 (List.mem_map_of_mem hv) hb)
    case eosAnycast i _ hg hc hi hb ha hv =>
      have := h2 hg
      rw [(isContainer_iff t n).1 hc] at this
      simp only [bne_self_eq_false, Bool.false_eq_true, if_false, if_zero] at this
      exact absurd (this (List.any_eq_true.2 ⟨i, (dcEosIntfs_mem n i).2 ⟨hi, hb⟩, by simp [ha, hv]⟩)) (by simp)
    case eosDhcp i _ hg hc hi hb ha =>
      have := h3 hg
      rw [(isContainer_iff t n).1 hc] at this
      simp only [bne_self_eq_false, Bool.false_eq_true, if_false, List.length_eq_zero_iff, List.filter_eq_nil_iff] at this
      exact this i ((dcEosIntfs_mem n i).2 ⟨hi, hb⟩) ha
    case eosSerial b _ hs hk hb hc => exact h4 ⟨hs, hk, (ceosMapped_iff n).2 ⟨b, hb, hc⟩⟩
  · intro hu
    refine ⟨⟨⟨fun h1 => ?_, fun h1 => ?_⟩, fun h1 => ?_⟩, fun hc => ?_⟩
    · by_cases ht : n.transport = some "mpls"
      · rw [ht, ((C108_bundle (some "mpls") (n.vlans.map (·.2)) (n.intfs.map (·.ifname))).2 rfl).2.2]
        intro v hv hb
        by_contra hm
        obtain ⟨x, hx, rfl⟩ := List.mem_map.1 hv
        exact hu (.eosBundle x hd h1 ht hx hb hm)
      · rw [(C108_bundle n.transport (n.vlans.map (·.2)) (n.intfs.map (·.ifname))).1 ht]
    · split
      · rfl
      · rename_i hp
        rw [if_zero]
        intro hc
        obtain ⟨i, hi, hc⟩ := List.any_eq_true.1 hc
        obtain ⟨hi, hb⟩ := (dcEosIntfs_mem n i).1 hi
        exact absurd (.eosAnycast i hd h1 ((isContainer_iff t n).2 (by simpa using hp)) hi hb (by simp at hc; exact hc.1) (by simp at hc; exact hc.2)) hu
    · split
      · rfl
      · rename_i hp
        rw [List.length_eq_zero_iff, List.filter_eq_nil_iff]
        intro i hi hc
        obtain ⟨hi, hb⟩ := (dcEosIntfs_mem n i).1 hi
        exact hu (.eosDhcp i hd h1 ((isContainer_iff t n).2 (by simpa using hp)) hi hb hc)
    · obtain ⟨b, hb, hc'⟩ := (ceosMapped_iff n).1 hc.2.2
      exact hu (.eosSerial b hd hc.1 hc.2.1 hb hc')

theorem dcSrl_zero (t : DcTopo) {n : DcNode} (hd : n.device = "srlinux") : dcSrl n = 0 ↔ ¬Unsupported t n := by
  unfold dcSrl dcSrlDeny
  simp only [Nat.add_eq_zero_iff, if_zero, List.length_eq_zero_iff, List.filter_eq_nil_iff, List.contains_iff_mem]
  have hty : srlChassis.contains (n.ctype.getD "") = true ↔ ∃ c, n.ctype = some c ∧ SrlChassis c := by
    cases hc : n.ctype with
    | none => simp [srlChassis]
    | some c => simp [srlChassis_iff]
  constructor
  · rintro ⟨⟨⟨h1, h2⟩, h3⟩, h4⟩ hu
    cases hu <;> try (simp_all [IsJunos]; done)
    case srlLeak v _ hv he hm hc =>
      refine absurd (h2 ?_) (by simp)
      rw [Bool.and_eq_true, List.any_eq_true]
      refine ⟨by simpa using hv, v, hm, ?_⟩
      simpa [he] using hc
    case srlDeny p _ hr hp hdn => exact h4 hr p hp (List.any_eq_true.2 ⟨_, hdn, by simp⟩)
  · intro hu
    refine ⟨⟨⟨fun h1 => ?_, fun h1 => ?_⟩, fun h1 => ?_⟩, fun h1 p hp hc => ?_⟩
    · rw [Bool.and_eq_true, hty] at h1
      obtain ⟨⟨c, hc, hs⟩, hl⟩ := h1
      exact absurd (.srlLicense c hd hc hs (by simpa using hl)) hu
    · rw [Bool.and_eq_true, List.any_eq_true] at h1
      obtain ⟨hv, v, hm, hc⟩ := h1
      simp at hc
      exact absurd (.srlLeak v hd (by simpa using hv) hc.2 hm hc.1) hu
    · rw [Bool.and_eq_true, Bool.not_eq_true', Bool.eq_false_iff] at h1
      exact absurd (.srlMpls hd (by simpa using h1.1) (fun c hc hs => h1.2 (hty.2 ⟨c, hc, hs⟩))) hu
    · obtain ⟨a, ha, hc⟩ := List.any_eq_true.1 hc
      simp only [beq_iff_eq] at hc
      subst hc
      exact hu (.srlDeny p hd h1 hp ha)

theorem reservedVlans_ios (l : List (String × EosVlan)) :
    reservedVlansIos (l.map (fun v => (v.1, v.2.id))) = 0 ↔ ∀ v ∈ l, ¬(1002 ≤ v.2.id ∧ v.2.id ≤ 1005) := by
  unfold reservedVlansIos
  rw [List.length_eq_zero_iff, List.filter_eq_nil_iff]
  simp only [List.mem_map, forall_exists_index, and_imp, Bool.and_eq_true, decide_eq_true_eq]
  constructor
  · intro h v hv hc; exact h _ v hv rfl ⟨hc.1, by omega⟩
  · rintro h _ v hv rfl hc; exact h v hv ⟨hc.1, by have := hc.2; omega⟩

theorem reservedVlans_nxos (l : List (String × EosVlan)) :
    reservedVlansNxos (l.map (fun v => (v.1, v.2.id))) = 0 ↔ ∀ v ∈ l, ¬(3967 ≤ v.2.id) := by
  unfold reservedVlansNxos
  rw [List.length_eq_zero_iff, List.filter_eq_nil_iff]
  simp only [List.mem_map, forall_exists_index, and_imp, decide_eq_true_eq]
  constructor
  · intro h v hv hc; exact h _ v hv rfl (by omega)
  · rintro h _ v hv rfl hc; exact h v hv (by omega)

theorem unknown_zero (t : DcTopo) {n : DcNode} (hd : n.device = "unknown") : dcUnknown t n = 0 ↔ ¬Unsupported t n := by
  unfold dcUnknown
  constructor
  · intro h hu
    cases hu <;> try (simp_all [IsJunos]; done)
  · intro hu
    split
    · rfl
    · rename_i hp
      rw [if_zero]
      intro hk
      exact absurd (.unknownKind hd (by tauto) (Option.isNone_iff_eq_none.1 hk)) hu

/-- **C131**: a device check reports an error exactly when the node uses something its device does not support (assuming none of the
device warnings are disabled). -/
theorem C131_reported (w : String → Option Val) (hw : ∀ q, quirkReported (w q) = true) (t : DcTopo) (ht : (t.nodes.map (·.name)).Nodup)
    (n : DcNode) (hn : NbrsExist t n) (hk : DcKeys n) : dcErrors w t n = 0 ↔ ¬Unsupported t n := by
  unfold dcErrors
  by_cases hd0 : n.device = "asav"
  · rw [if_pos hd0]
    have hd := hd0
    simp only [if_zero, List.contains_iff_mem, dcAsa_zero ht hn]
    constructor
    · intro h hu
      cases hu <;> try (simp_all [IsJunos]; done)
    · intro hu h i hi hp
      by_contra hb
      exact hu (.asaIsis i hd h hi hp hb)
  rw [if_neg hd0]
  by_cases hd1 : n.device = "frr"
  · rw [if_pos hd1]
    have hd := hd1
    simp only [if_zero, List.contains_iff_mem, dcFrr, dcReport_zero hw, List.any_eq_false, beq_iff_eq]
    constructor
    · intro h hu
      cases hu <;> try (simp_all [IsJunos]; done)
    · intro hu h i hi hp
      exact hu (.frrStp i hd h hi hp)
  rw [if_neg hd1]
  by_cases hd2 : n.device = "iosv"
  · rw [if_pos hd2]
    have hd := hd2
    simp only [Nat.add_eq_zero_iff, if_zero, List.contains_iff_mem, dcVrrpBvi, dcVlan1_zero hw, List.any_eq_true, Bool.and_eq_true, beq_iff_eq]
    constructor
    · rintro ⟨h1, h2⟩ hu
      cases hu <;> try (simp_all [IsJunos]; done)
    · intro hu
      refine ⟨fun h1 ⟨i, hi, hp, hty⟩ => ?_, fun h1 i hi hc => ?_⟩
      · exact absurd (.iosVrrp i hd h1 hi hty hp) hu
      · exact hu (.iosVlan1 i hd h1 hi hc.1 hc.2)
  rw [if_neg hd2]
  by_cases hd3 : n.device = "iosvl2"
  · rw [if_pos hd3]
    have hd := hd3
    simp only [if_zero, List.contains_iff_mem, reservedVlans_ios]
    constructor
    · intro h hu
      cases hu <;> try (simp_all [IsJunos]; done)
      case iosVlans v _ hv hm h1 h2 => exact h hv v hm ⟨h1, h2⟩
    · intro hu h v hv hc
      exact hu (.iosVlans v (Or.inl hd) h hv hc.1 hc.2)
  rw [if_neg hd3]
  by_cases hd4 : n.device = "ioll2"
  · rw [if_pos hd4]
    have hd := hd4
    simp only [if_zero, List.contains_iff_mem, reservedVlans_ios]
    constructor
    · intro h hu
      cases hu <;> try (simp_all [IsJunos]; done)
      case iosVlans v _ hv hm h1 h2 => exact h hv v hm ⟨h1, h2⟩
    · intro hu h v hv hc
      exact hu (.iosVlans v (Or.inr hd) h hv hc.1 hc.2)
  rw [if_neg hd4]
  by_cases hd5 : n.device = "nxos"
  · rw [if_pos hd5]
    have hd := hd5
    simp only [if_zero, List.contains_iff_mem, hw, reservedVlans_nxos, forall_const]
    constructor
    · intro h hu
      cases hu <;> try (simp_all [IsJunos]; done)
      case nxosVlans v _ hv hm h1 => exact h hv v hm h1
    · intro hu h v hv hc
      exact hu (.nxosVlans v hd h hv hc)
  rw [if_neg hd5]
  by_cases hd6 : n.device = "dellos10"
  · rw [if_pos hd6]
    have hd := hd6
    exact dcDell_zero hw t hd
  rw [if_neg hd6]
  by_cases hd7 : n.device = "cumulus"
  · rw [if_pos hd7]
    have hd := hd7
    simp only [if_zero, List.contains_iff_mem, dcVrfDefault, List.length_eq_zero_iff, List.filter_eq_nil_iff]
    constructor
    · intro h hu
      cases hu <;> try (simp_all [IsJunos]; done)
      case cumVrf v _ ho hv hdv => exact h ho v hv hdv
    · intro hu h v hv hc
      exact hu (.cumVrf v (Or.inl hd) h hv hc)
  rw [if_neg hd7]
  by_cases hd8 : n.device = "cumulus_nvue"
  · rw [if_pos hd8]
    have hd := hd8
    exact dcNvue_zero hw t hd hk
  rw [if_neg hd8]
  by_cases hd9 : n.device = "eos"
  · rw [if_pos hd9]
    have hd := hd9
    exact dcEos_zero t hd
  rw [if_neg hd9]
  by_cases hd10 : n.device = "srlinux"
  · rw [if_pos hd10]
    have hd := hd10
    exact dcSrl_zero t hd
  rw [if_neg hd10]
  by_cases hd11 : n.device = "arubacx"
  · rw [if_pos hd11]
    have hd := hd11
    have hx := (C108_ospf_index (n.vrfs.map (·.1))).1
    rw [List.length_map] at hx
    split
    · rename_i hc
      simp only [Bool.and_eq_true, List.contains_iff_mem, hx] at hc
      simp only [Nat.one_ne_zero, false_iff, not_not]
      exact .acxVrfs hd hc.1.1 hc.1.2 hc.2
    · rename_i hc
      simp only [Bool.and_eq_true, List.contains_iff_mem, hx] at hc
      rw [if_zero]
      constructor
      · intro h hu
        cases hu <;> try (simp_all [IsJunos]; done)
        case acxMpls _ h1 h2 =>
          refine absurd (h ?_) (by simp)
          rw [Bool.and_eq_true]
          refine ⟨by simpa using h1, ?_⟩
          cases hp : n.provider <;> simp_all
      · intro hu h
        rw [Bool.and_eq_true] at h
        refine absurd (.acxMpls hd (by simpa using h.1) ?_) hu
        intro hp
        rw [hp] at h
        exact absurd h.2 (by simp)
  rw [if_neg hd11]
  by_cases hd12 : n.device = "linux"
  · rw [if_pos hd12]
    have hd := hd12
    simp only [Nat.add_eq_zero_iff, dcIndirect, sum_zero_iff, dcReport_zero hw, if_zero, ← isContainer_iff, List.contains_iff_mem]
    constructor
    · rintro ⟨h1, h2⟩ hu
      cases hu <;> try (simp_all [IsJunos]; done)
    · intro hu
      refine ⟨fun b hb => ?_, fun h1 h2 => ?_⟩
      · cases b with
        | true => rfl
        | false => exact absurd (.indirect (Or.inl hd) hb) hu
      · exact absurd (.linuxDhcp hd h1 h2) hu
  rw [if_neg hd12]
  by_cases hd13 : n.device = "bird"
  · rw [if_pos hd13]
    have hd := hd13
    simp only [dcIndirect, sum_zero_iff, dcReport_zero hw]
    constructor
    · intro h1 hu
      cases hu <;> try (simp_all [IsJunos]; done)
    · intro hu b hb
      cases b with
      | true => rfl
      | false => exact absurd (.indirect (Or.inr hd) hb) hu
  rw [if_neg hd13]
  by_cases hd14 : n.device = "vsrx" ∨ n.device = "vmx" ∨ n.device = "vptx" ∨ n.device = "vjunos-router" ∨ n.device = "vjunos-switch"
  · rw [if_pos hd14]
    have hd := hd14
    simp only [dcJunos, sum_zero_iff, dcReport_zero hw]
    constructor
    · intro h hu
      cases hu <;> try (simp_all; done)
    · intro hu b hb
      rw [Bool.eq_false_iff]
      intro hc
      simp only [Bool.and_eq_true, beq_iff_eq, Bool.or_eq_true] at hc
      exact hu (.junosEvpn b hd hb hc.1.1 hc.1.2 hc.2)
  rw [if_neg hd14]
  by_cases hd15 : n.device = "unknown"
  · rw [if_pos hd15]
    have hd := hd15
    exact unknown_zero t hd
  · rw [if_neg hd15]
    simp only [true_iff]
    intro hu
    cases hu <;> simp_all [IsJunos]

/-- A lab used in examples: a cEOS container with an anycast gateway on a physical interface, and a Cumulus NVUE switch with two loopbacks. -/
def dcLab : DcTopo :=
  { provider := "clab",
    nodes := [
      { name := "s1", device := "eos", mods := ["gateway"], intfs := [{ ifname := "Ethernet1", gwProto := some "anycast", nbrs := [("s2", "swp1")] }] },
      { name := "s2", device := "cumulus_nvue", provider := some "libvirt", mods := ["ospf"], lo := some [("area", .str "0.0.0.0"), ("passive", .bool false)],
        intfs := [{ ifname := "swp1", nbrs := [("s1", "Ethernet1")] }, { ifname := "lo1", type := "loopback", ospf := some [("area", .str "0.0.0.0"), ("passive", .bool false)] }] }] }

example : (dcLab.nodes.map (·.name)).Nodup ∧ (∀ n ∈ dcLab.nodes, DcKeys n) ∧ dcLab.nodes.map (dcErrors (fun _ => none) dcLab) = [1, 0] := by
  refine ⟨by decide, ?_, by decide +kernel⟩
  intro n hn
  simp only [dcLab, List.mem_cons, List.not_mem_nil, or_false] at hn
  rcases hn with rfl | rfl <;> simp [DcKeys]

example : ∀ n ∈ dcLab.nodes, NbrsExist dcLab n := by
  intro n hn
  simp only [dcLab, List.mem_cons, List.not_mem_nil, or_false] at hn
  rcases hn with rfl | rfl <;> simp [NbrsExist, IntfExists, dcLab]

/-- **C131**: errors reported for these devices do not depend on device settings: they cannot be disabled. -/
theorem C131_always (w w' : String → Option Val) (t : DcTopo) (n : DcNode)
    (h : n.device ∈ ["asav", "iosvl2", "ioll2", "cumulus", "eos", "srlinux", "arubacx", "unknown"]) : dcErrors w t n = dcErrors w' t n := by
  simp only [List.mem_cons, List.not_mem_nil, or_false] at h
  unfold dcErrors
  rcases h with h | h | h | h | h | h | h | h <;> simp [h]

/-- **C131**: disabling device warnings never results in more errors. -/
theorem C131_fewer (w w' : String → Option Val) (hw : ∀ q, quirkReported (w q) = true → quirkReported (w' q) = true) (t : DcTopo) (n : DcNode) :
    dcErrors w t n ≤ dcErrors w' t n := by
  have hr : ∀ q b, dcReport w q b ≤ dcReport w' q b := by
    intro q b
    unfold dcReport
    have := hw q
    cases b <;> cases h1 : quirkReported (w q) <;> simp_all
  have hs : ∀ {α : Type} (l : List α) (f g : α → Nat), (∀ a, f a ≤ g a) → (l.map f).sum ≤ (l.map g).sum := by
    intro α l f g h
    induction l with
    | nil => simp
    | cons a l ih => simp only [List.map_cons, List.sum_cons]; exact Nat.add_le_add (h a) ih
  have hif : ∀ {c : Prop} [Decidable c] {a b a' b' : Nat}, a ≤ a' → b ≤ b' → (if c then a else b) ≤ (if c then a' else b') := by
    intro c _ a b a' b' h1 h2; split <;> assumption
  unfold dcErrors
  refine hif (Nat.le_refl _) (hif (hif (hr _ _) (Nat.le_refl _)) (hif (Nat.add_le_add (Nat.le_refl _) (hif (hs _ _ _ (fun _ => hr _ _)) (Nat.le_refl _))) (hif (Nat.le_refl _)
    (hif (Nat.le_refl _) (hif (hif ?_ (Nat.le_refl _)) (hif ?_ (hif (Nat.le_refl _) (hif ?_ (hif (Nat.le_refl _) (hif (Nat.le_refl _) (hif (Nat.le_refl _)
      (hif (Nat.add_le_add (hs _ _ _ (fun _ => hr _ _)) (Nat.le_refl _)) (hif (hs _ _ _ (fun _ => hr _ _)) (hif (hs _ _ _ (fun _ => hr _ _)) (Nat.le_refl _)))))))))))))))
  · have := hw "vlan.range"
    cases h1 : quirkReported (w "vlan.range") <;> simp_all
  · unfold dcDell
    refine Nat.add_le_add (Nat.add_le_add (Nat.add_le_add (hif (Nat.add_le_add (hr _ _) (hs _ _ _ (fun _ => hr _ _))) (Nat.le_refl _)) (hif (Nat.add_le_add (hif (hr _ _) (Nat.le_refl _))
      (hif (hif (hr _ _) (Nat.le_refl _)) (Nat.le_refl _))) (Nat.le_refl _))) (hif (hif (hr _ _) (Nat.le_refl _)) (Nat.le_refl _))) (hif (hs _ _ _ (fun _ => hr _ _)) (Nat.le_refl _))
  · unfold dcNvue
    refine Nat.add_le_add (Nat.add_le_add (hif (Nat.add_le_add (Nat.le_refl _) (hr _ _)) (Nat.le_refl _)) (hif (hr _ _) (Nat.le_refl _))) (hif ?_ (Nat.le_refl _))
    unfold dcNvueNative
    rw [← List.map_flatMap, ← List.map_flatMap]
    exact hs _ _ _ (fun _ => hr _ _)

/-- **C131** (defect): an unknown virtual machine in a containerlab lab needs a containerlab kind. -/
theorem C131_unknown_vm :
    dcErrors (fun _ => none) { provider := "clab" } { name := "x", device := "unknown", provider := some "libvirt" } = 1 ∧
    ¬IsContainer { provider := "clab" } { name := "x", device := "unknown", provider := some "libvirt" } := by
  constructor
  · decide +kernel
  · simp [IsContainer]

/-- **C131** (defect): a mixed trunk with a routed native VLAN is not reported on Cumulus NVUE when the VLAN is defined only on nodes. -/
theorem C131_native_local :
    let n : DcNode := { name := "s", device := "cumulus_nvue", mods := ["vlan"], intfs := [{ ifname := "swp1", ifindex := 1, «native» := some "red" }, { ifname := "swp1.2", ifindex := 40000, parent := some 1, vlanMode := some "irb" }] }
    dcErrors (fun _ => none) {} n = 0 ∧ dcErrors (fun _ => none) { vlans := [("red", some "route")] } n = 1 := by
  constructor <;> decide +kernel

/-! ## Changes of node data -/

/-- **C131**: Cumulus NVUE loopbacks: when there is no error, no loopback interface has OSPF settings (they are merged with the primary loopback);
other interfaces do not change. -/
theorem C131_loopbacks (w : String → Option Val) (hw : ∀ q, quirkReported (w q) = true) (t : DcTopo) (n : DcNode) (hd : n.device = "cumulus_nvue")
    (ho : "ospf" ∈ n.mods) (he : dcErrors w t n = 0) :
    ∃ f, (dcApply t n).intfs = n.intfs.map f ∧
      ∀ i ∈ n.intfs, (i.type = "loopback" → f i = { i with ospf := none }) ∧ (i.type ≠ "loopback" → f i = i) := by
  refine ⟨fun i => (dcNvueLo n i).1, ?_, ?_⟩
  · unfold dcApply
    rw [if_pos hd]
    simp only [List.contains_iff_mem, ho, if_true]
    split
    · unfold dcSharedVtep
      repeat' split
      all_goals rfl
    · rfl
  · have h : dcNvue w t n = 0 := by
      unfold dcErrors at he
      simpa [hd] using he
    unfold dcNvue at h
    simp only [Nat.add_eq_zero_iff, if_zero, dcReport_zero hw, List.contains_iff_mem, List.any_eq_false] at h
    have h1 := (h.1.1 ho).2
    intro i hi
    have h2 := h1 i hi
    show (i.type = "loopback" → (dcNvueLo n i).1 = _) ∧ (i.type ≠ "loopback" → (dcNvueLo n i).1 = _)
    unfold dcNvueLo at h2 ⊢
    constructor
    · intro ht
      rw [if_pos ht] at h2 ⊢
      cases hio : i.ospf with
      | none => simp only; cases i; simp_all
      | some o =>
        rw [hio] at h2
        simp only at h2 ⊢
        split at h2
        · rename_i hm; rw [if_pos hm]
        · exact absurd rfl h2
    · intro ht; rw [if_neg ht]

theorem dcStub_type (i : DcIntf) : (dcStub i).type = i.type ∧ (dcStub i).ipv4 = i.ipv4 ∧ (dcStub i).ifname = i.ifname ∧ (dcStub i).ospf.isSome = i.ospf.isSome := by
  unfold dcStub
  repeat' split
  all_goals simp_all

/-- **C131**: cEOS stub interfaces: OSPF network type is point-to-point on every stub interface with an IPv4 address; other interfaces, and other OSPF settings, do not change. -/
theorem C131_stub (i : DcIntf) :
    (i.ospf ≠ none ∧ i.type = "stub" ∧ i.ipv4 = true → ospfNetType (dcStub i) = some (.str "point-to-point")) ∧
    (¬(i.ospf ≠ none ∧ i.type = "stub" ∧ i.ipv4 = true) → dcStub i = i) ∧
    { dcStub i with ospf := i.ospf } = i ∧
    ∀ k, k ≠ "network_type" → (dcStub i).ospf.bind (·.lookup k) = i.ospf.bind (·.lookup k) := by
  unfold dcStub ospfNetType
  obtain ⟨ifname, ifindex, type, vrf, ospf, isis, ipv4⟩ := i
  cases ospf with
  | none => simp
  | some o =>
    by_cases ht : type = "stub"
    · subst ht
      cases ipv4
      · simp
      · refine ⟨fun _ => by simp [lookup_setKey], fun h => absurd ⟨by simp, rfl, rfl⟩ h, by simp, fun k hk => by simp [lookup_setKey, hk]⟩
    · simp [ht]

/-- **C131**: on cEOS containers the change is made on interfaces of the node, and on VRF interfaces; nothing changes on virtual machines. -/
theorem C131_stubs (t : DcTopo) (n : DcNode) :
    (IsContainer t n → (dcStubs t n).intfs = n.intfs.map dcStub ∧ (dcStubs t n).vrfs.map (fun v => (v.1, v.2.ospf)) = n.vrfs.map (fun v => (v.1, v.2.ospf.map dcStub))) ∧
    (¬IsContainer t n → dcStubs t n = n) := by
  rw [isContainer_iff]
  unfold dcStubs
  constructor
  · intro h
    simp [h]
  · intro h
    simp [h]

/-- **C131**: cEOS serial number and MAC address: when there is no error, the configuration file is mapped into the container exactly once, together with the
template used to create it; the other mappings do not change. -/
theorem C131_ceos (n : DcNode) (hs : n.serial = true ∨ n.sysmac = true) (hk : n.kind = some "ceos") (he : (dcCeos n).2 = 0) :
    ∃ b, (dcCeos n).1.binds = n.binds ++ [b] ∧ ContainsText b "/mnt/flash/ceos-config" ∧ (∀ x ∈ n.binds, ¬ContainsText x "/mnt/flash/ceos-config") ∧
      "ceos-config:/mnt/flash/ceos-config" ∈ (dcCeos n).1.templates ∧ (dcCeos n).1.intfs = n.intfs := by
  have hm : ceosMapped n = false := by
    rw [dcCeos_zero] at he
    cases h : ceosMapped n
    · rfl
    · exact absurd ⟨hs, hk, h⟩ he
  have hno : ∀ x ∈ n.binds, ¬ContainsText x "/mnt/flash/ceos-config" := by
    intro x hx hc
    have := (ceosMapped_iff n).2 ⟨x, hx, hc⟩
    rw [hm] at this
    cases this
  have hct : ContainsText ("clab_files/" ++ n.name ++ "/ceos-config:" ++ ceosFile) "/mnt/flash/ceos-config" :=
    ⟨"clab_files/" ++ n.name ++ "/ceos-config:", "", by simp [ceosFile]⟩
  refine ⟨"clab_files/" ++ n.name ++ "/ceos-config:" ++ ceosFile, ?_, hct, hno, ?_, ?_⟩
  · unfold dcCeos dcAppend
    have hnc : ¬n.binds.contains ("clab_files/" ++ n.name ++ "/ceos-config:" ++ ceosFile) = true := by
      intro hc
      exact hno _ (List.contains_iff_mem.1 hc) hct
    rw [if_neg (by rcases hs with h | h <;> simp [h]), if_neg (by simp [hk]), if_neg (by simp [hm])]
    dsimp only
    rw [if_neg hnc]
  · unfold dcCeos dcAppend
    rw [if_neg (by rcases hs with h | h <;> simp [h]), if_neg (by simp [hk]), if_neg (by simp [hm])]
    dsimp only
    split
    · rename_i h; exact List.contains_iff_mem.1 h
    · exact List.mem_append_right _ (by simp [ceosFile])
  · unfold dcCeos
    rw [if_neg (by rcases hs with h | h <;> simp [h]), if_neg (by simp [hk]), if_neg (by simp [hm])]

example : let n : DcNode := { name := "s1", device := "eos", kind := some "ceos", serial := true, binds := ["x:/etc/x"] }
    (dcCeos n).2 = 0 ∧ (dcCeos n).1.binds = ["x:/etc/x", "clab_files/s1/ceos-config:/mnt/flash/ceos-config"] := by decide +kernel

/-! ## Shared VTEPs -/

theorem dcShared_keep (t : DcTopo) (n : DcNode) : (dcSharedVtep t n).name = n.name ∧ (dcSharedVtep t n).vtep = n.vtep := by
  unfold dcSharedVtep
  repeat' split
  all_goals simp_all

theorem dcCeos_keep (n : DcNode) : (dcCeos n).1.name = n.name ∧ (dcCeos n).1.vtep = n.vtep := by
  unfold dcCeos
  repeat' split
  all_goals simp

theorem dcStubs_keep (t : DcTopo) (n : DcNode) : (dcStubs t n).name = n.name ∧ (dcStubs t n).vtep = n.vtep := by
  unfold dcStubs
  split <;> simp

theorem dcApply_keep (t : DcTopo) (n : DcNode) : (dcApply t n).name = n.name ∧ (dcApply t n).vtep = n.vtep := by
  unfold dcApply
  split
  · dsimp only
    split <;> split <;> simp [dcShared_keep]
  · split
    · dsimp only
      split <;> simp [dcCeos_keep, dcStubs_keep]
    · simp

/-- Names and VTEPs of nodes -/
def dcVteps (t : DcTopo) : List (String × Option String) := t.nodes.map (fun n => (n.name, n.vtep))

theorem dcStep_vteps (t : DcTopo) (name : String) : dcVteps (dcStep t name) = dcVteps t := by
  unfold dcVteps dcStep
  rw [List.map_map]
  apply List.map_congr_left
  intro n _
  simp only [Function.comp]
  split
  · simp [dcApply_keep]
  · rfl

theorem dcFold_node (l : List String) (hl : l.Nodup) (t : DcTopo) (n : DcNode) (hn : n ∈ t.nodes) :
    if n.name ∈ l then ∃ t', dcVteps t' = dcVteps t ∧ dcApply t' n ∈ (l.foldl dcStep t).nodes else n ∈ (l.foldl dcStep t).nodes := by
  induction l generalizing t n with
  | nil => simpa using hn
  | cons a l ih =>
    rw [List.nodup_cons] at hl
    rw [List.foldl_cons]
    by_cases ha : n.name = a
    · rw [if_pos (by rw [ha]; exact List.mem_cons_self)]
      refine ⟨t, rfl, ?_⟩
      have hm : dcApply t n ∈ (dcStep t a).nodes := by
        unfold dcStep
        exact List.mem_map.2 ⟨n, hn, by rw [if_pos ha]⟩
      have := ih hl.2 (dcStep t a) _ hm
      rw [(dcApply_keep t n).1, ha, if_neg hl.1] at this
      exact this
    · have hm : n ∈ (dcStep t a).nodes := by
        unfold dcStep
        exact List.mem_map.2 ⟨n, hn, by rw [if_neg ha]⟩
      have := ih hl.2 (dcStep t a) n hm
      by_cases hx : n.name ∈ l
      · rw [if_pos (List.mem_cons_of_mem _ hx)]
        rw [if_pos hx] at this
        obtain ⟨t', h1, h2⟩ := this
        exact ⟨t', by rw [h1, dcStep_vteps], h2⟩
      · rw [if_neg (by simp [ha, hx])]
        rw [if_neg hx] at this
        exact this

/-- **C131**: Cumulus NVUE switches with a shared VTEP: after all nodes are processed, a switch whose VTEP is also used by another node has the name of such a node;
nothing changes when the VTEP is not shared. -/
theorem C131_shared_vtep (t : DcTopo) (ht : (t.nodes.map (·.name)).Nodup) (n : DcNode) (hn : n ∈ t.nodes) (hd : n.device = "cumulus_nvue") (hm : "vxlan" ∈ n.mods)
    (v : String) (hv : n.vtep = some v) (hv0 : v ≠ "") :
    ∃ n' ∈ (dcAll t).nodes, n'.name = n.name ∧
      ((∃ m ∈ t.nodes, m.name ≠ n.name ∧ m.vtep = some v) → ∃ m ∈ t.nodes, m.name ≠ n.name ∧ m.vtep = some v ∧ n'.shared = some m.name) ∧
      ((∀ m ∈ t.nodes, m.name ≠ n.name → m.vtep ≠ some v) → n'.shared = n.shared) := by
  have h := dcFold_node (t.nodes.map (·.name)) ht t n hn
  rw [if_pos (List.mem_map_of_mem hn)] at h
  obtain ⟨t', h1, h2⟩ := h
  have hvt : ∀ m s, (m, s) ∈ dcVteps t' ↔ (m, s) ∈ dcVteps t := by intro m s; rw [h1]
  refine ⟨dcApply t' n, h2, (dcApply_keep t' n).1, ?_⟩
  obtain ⟨n1, hn1, hnm, hvt1, hsh⟩ : ∃ n1, dcApply t' n = dcSharedVtep t' n1 ∧ n1.name = n.name ∧ n1.vtep = some v ∧ n1.shared = n.shared := by
    unfold dcApply
    rw [if_pos hd]
    dsimp only
    rw [if_pos (by simpa using hm)]
    refine ⟨_, rfl, ?_, ?_, ?_⟩ <;> split <;> simp [hv]
  rw [hn1]
  unfold dcSharedVtep
  rw [hvt1]
  dsimp only
  rw [if_neg hv0]
  cases hf : t'.nodes.find? (fun m => m.name != n1.name && m.vtep == some v) with
  | none =>
    rw [List.find?_eq_none] at hf
    dsimp only
    refine ⟨?_, fun _ => hsh⟩
    rintro ⟨m, hm, hne, hmv⟩
    exfalso
    obtain ⟨m', hm', he⟩ := List.mem_map.1 ((hvt m.name m.vtep).2 (List.mem_map.2 ⟨m, hm, rfl⟩))
    have e1 : m'.name = m.name := congrArg Prod.fst he
    have e2 : m'.vtep = m.vtep := congrArg Prod.snd he
    exact hf m' hm' (by simp [hnm, e1, e2, hne, hmv])
  | some m' =>
    have hp := List.find?_some hf
    have hm' := List.mem_of_find?_eq_some hf
    simp only [Bool.and_eq_true, bne_iff_ne, beq_iff_eq, hnm] at hp
    obtain ⟨m, hm, he⟩ := List.mem_map.1 ((hvt m'.name m'.vtep).1 (List.mem_map.2 ⟨m', hm', rfl⟩))
    have e1 : m.name = m'.name := congrArg Prod.fst he
    have e2 : m.vtep = m'.vtep := congrArg Prod.snd he
    dsimp only
    refine ⟨fun _ => ⟨m, hm, by rw [e1]; exact hp.1, by rw [e2]; exact hp.2, by rw [e1]⟩, fun h => ?_⟩
    exact absurd (by rw [e2]; exact hp.2) (h m hm (by rw [e1]; exact hp.1))

/-- **C131**: two switches (and no other node) with the same VTEP point to each other. -/
theorem C131_mlag_pair (t : DcTopo) (ht : (t.nodes.map (·.name)).Nodup) (a b : DcNode) (ha : a ∈ t.nodes) (hb : b ∈ t.nodes) (hab : a.name ≠ b.name)
    (hda : a.device = "cumulus_nvue") (hdb : b.device = "cumulus_nvue") (hma : "vxlan" ∈ a.mods) (hmb : "vxlan" ∈ b.mods) (v : String) (hv0 : v ≠ "")
    (hva : a.vtep = some v) (hvb : b.vtep = some v) (hx : ∀ m ∈ t.nodes, m.vtep = some v → m = a ∨ m = b) :
    (∃ n ∈ (dcAll t).nodes, n.name = a.name ∧ n.shared = some b.name) ∧ ∃ n ∈ (dcAll t).nodes, n.name = b.name ∧ n.shared = some a.name := by
  obtain ⟨n1, h1, h2, h3, _⟩ := C131_shared_vtep t ht a ha hda hma v hva hv0
  obtain ⟨n2, g1, g2, g3, _⟩ := C131_shared_vtep t ht b hb hdb hmb v hvb hv0
  obtain ⟨m, hm, hne, hmv, hs⟩ := h3 ⟨b, hb, Ne.symm hab, hvb⟩
  obtain ⟨m', hm', hne', hmv', hs'⟩ := g3 ⟨a, ha, hab, hva⟩
  constructor
  · refine ⟨n1, h1, h2, ?_⟩
    rcases hx m hm hmv with rfl | rfl
    · exact absurd rfl hne
    · exact hs
  · refine ⟨n2, g1, g2, ?_⟩
    rcases hx m' hm' hmv' with rfl | rfl
    · exact hs'
    · exact absurd rfl hne'

example : (dcAll { nodes := [
      { name := "s1", device := "cumulus_nvue", mods := ["vxlan"], vtep := some "10.0.0.1" },
      { name := "s2", device := "cumulus_nvue", mods := ["vxlan"], vtep := some "10.0.0.1" },
      { name := "s3", device := "cumulus_nvue", mods := ["vxlan"], vtep := some "10.0.0.3" }] }).nodes.map (·.shared) = [some "s2", some "s1", none] := by decide +kernel

/-- **C131**: changes of an EOS node: interfaces of VLANs in EVPN/MPLS bundles are removed, stub interfaces are changed on containers running OSPF, other interfaces stay the same. -/
theorem C131_eos_interfaces (t : DcTopo) (n : DcNode) (hd : n.device = "eos") (i : DcIntf) :
    i ∈ (dcApply t n).intfs ↔ ∃ j ∈ n.intfs, ¬BundleSvi n j ∧ (("ospf" ∈ n.mods ∧ IsContainer t n ∧ i = dcStub j) ∨ (¬("ospf" ∈ n.mods ∧ IsContainer t n) ∧ i = j)) := by
  have hc : ∀ m, (dcCeos m).1.intfs = m.intfs := by
    intro m
    unfold dcCeos
    repeat' split
    all_goals rfl
  have hp : dcProvider t { n with intfs := dcEosIntfs n } = dcProvider t n := rfl
  unfold dcApply
  rw [if_neg (by rw [hd]; decide), if_pos hd]
  dsimp only
  rw [hc]
  by_cases ho : "ospf" ∈ n.mods
  · rw [if_pos (by simpa using ho)]
    unfold dcStubs
    rw [hp, isContainer_iff]
    by_cases hpr : dcProvider t n = "clab"
    · rw [if_neg (by simp [hpr])]
      simp only [List.mem_map, dcEosIntfs_mem, ho, hpr, true_and, not_true_eq_false, false_and, or_false]
      constructor
      · rintro ⟨j, ⟨h1, h2⟩, rfl⟩; exact ⟨j, h1, h2, rfl⟩
      · rintro ⟨j, h1, h2, rfl⟩; exact ⟨j, ⟨h1, h2⟩, rfl⟩
    · rw [if_pos (by simp [hpr])]
      simp only [dcEosIntfs_mem, hpr, false_and, and_false, false_or, not_false_eq_true, true_and]
      constructor
      · rintro ⟨h1, h2⟩; exact ⟨i, h1, h2, rfl⟩
      · rintro ⟨j, h1, h2, rfl⟩; exact ⟨h1, h2⟩
  · rw [if_neg (by simpa using ho)]
    simp only [dcEosIntfs_mem, ho, false_and, false_or, not_false_eq_true, true_and]
    constructor
    · rintro ⟨h1, h2⟩; exact ⟨i, h1, h2, rfl⟩
    · rintro ⟨j, h1, h2, rfl⟩; exact ⟨h1, h2⟩

end Netlab
