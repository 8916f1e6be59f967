import Verif.Lemmas.Ipam
import Mathlib.Data.List.Nodup
/-! # Helper lemmas: point-to-point numbering, policy selection, duplicate detection -/

namespace Netlab
open Spec

/-- Position of every interface in the list sorted by node name. -/
theorem ipamP2p_positions (pfx : Net) (ifs out : List LinkIntf) (ok : Bool)
    (h : ipamP2p pfx ifs = (out, ok)) :
    out.length = ifs.length ∧ ∃ pos : Nat → Nat,
      (∀ k i, ifs[k]? = some i → pos k < ifs.length ∧
        out[k]? = some { i with ip := (setAddress pfx (ipamStart pfx + pos k) i.ip).1 } ∧
        (ok = true → (setAddress pfx (ipamStart pfx + pos k) i.ip).2 = true)) ∧
      (∀ j k, j < ifs.length → k < ifs.length → pos j = pos k → j = k) ∧
      (∀ j k x y, ifs[j]? = some x → ifs[k]? = some y → x.node < y.node → pos j < pos k) ∧
      ((∀ k i, ifs[k]? = some i → (setAddress pfx (ipamStart pfx + pos k) i.ip).2 = true) →
        ok = true) := by
  unfold ipamP2p at h
  generalize hs : ifs.zipIdx.mergeSort (fun a b => decide (a.1.node ≤ b.1.node)) = srt at h
  simp only [ipamP2pLoop_eq, Prod.mk.injEq] at h
  obtain ⟨rfl, rfl⟩ := h
  have hperm : srt.Perm ifs.zipIdx := hs ▸ List.mergeSort_perm ..
  have hsorted : srt.Pairwise (fun a b => decide (a.1.node ≤ b.1.node) = true) := by
    rw [← hs]
    refine List.pairwise_mergeSort ?_ ?_ _
    · intro a b c h1 h2
      simp only [decide_eq_true_eq] at *
      exact String.le_trans h1 h2
    · intro a b
      simp only [Bool.or_eq_true, decide_eq_true_eq]
      exact String.le_total ..
  have hlen : srt.length = ifs.length := by
    have := hperm.length_eq
    simpa using this
  have hsnd : (srt.map Prod.snd).Nodup := by
    have hp := (hperm.map Prod.snd).nodup_iff
    rw [List.zipIdx_map_snd] at hp
    exact hp.2 List.nodup_range'
  -- every interface has a position
  have hex : ∀ k, k < ifs.length → ∃ m : Nat, ∃ i, ifs[k]? = some i ∧ srt[m]? = some (i, k) := by
    intro k hk
    have hm : (ifs[k], k) ∈ srt := by
      rw [hperm.mem_iff, List.mem_zipIdx_iff_getElem?]
      simp
    obtain ⟨m, hm, e⟩ := List.mem_iff_getElem.1 hm
    exact ⟨m, ifs[k], by simp, by rw [List.getElem?_eq_getElem hm, e]⟩
  have huniq : ∀ (m m' : Nat) (x y : LinkIntf × Nat), srt[m]? = some x → srt[m']? = some y →
      x.2 = y.2 → m = m' := by
    intro m m' x y h1 h2 h3
    obtain ⟨l1, e1⟩ := List.getElem?_eq_some_iff.1 h1
    obtain ⟨l2, e2⟩ := List.getElem?_eq_some_iff.1 h2
    refine (List.Nodup.getElem_inj_iff hsnd (hi := by simpa using l1) (hj := by simpa using l2)).1 ?_
    simp [e1, e2, h3]
  classical
  refine ⟨by simp, fun k => if hk : k < ifs.length then (hex k hk).choose else 0, ?_, ?_, ?_, ?_⟩
  · intro k i hi
    obtain ⟨hk, rfl⟩ := List.getElem?_eq_some_iff.1 hi
    simp only [hk, dif_pos]
    obtain ⟨i', hi', hm⟩ := (hex k hk).choose_spec
    generalize (hex k hk).choose = m at *
    rw [hi] at hi'
    cases hi'
    obtain ⟨hml, hme⟩ := List.getElem?_eq_some_iff.1 hm
    refine ⟨by omega, ?_, ?_⟩
    · rw [List.getElem?_map, List.getElem?_zipIdx]
      simp only [hi, Option.map_some, Nat.zero_add, Option.some.injEq]
      have hfind : (srt.mapIdx (fun m x =>
          (({ x.1 with ip := (setAddress pfx (ipamStart pfx + m) x.1.ip).1 } : LinkIntf), x.2))).find?
          (fun y => y.2 == k) =
          some ({ ifs[k] with ip := (setAddress pfx (ipamStart pfx + m) ifs[k].ip).1 }, k) := by
        rw [List.find?_eq_some_iff_getElem]
        refine ⟨by simp, m, by simpa using hml, by simp [hme], ?_⟩
        intro j hj
        simp only [List.getElem_mapIdx, Bool.not_eq_eq_eq_not, Bool.not_true, beq_eq_false_iff_ne,
          ne_eq]
        intro hjk
        have := huniq j m srt[j] (ifs[k], k) (by simp) hm hjk
        omega
      rw [hfind]
      rfl
    · intro hall
      rw [List.all_eq_true] at hall
      have := hall ((ifs[k], k), m) (by rw [List.mem_zipIdx_iff_getElem?]; exact hm)
      simpa using this
  · intro j k hj hk hjk
    simp only [hj, hk, dif_pos] at hjk
    obtain ⟨i1, -, hm1⟩ := (hex j hj).choose_spec
    obtain ⟨i2, -, hm2⟩ := (hex k hk).choose_spec
    rw [hjk, hm2] at hm1
    simp only [Option.some.injEq, Prod.mk.injEq] at hm1
    exact hm1.2.symm
  · intro j k x y hx hy hlt
    obtain ⟨hj, rfl⟩ := List.getElem?_eq_some_iff.1 hx
    obtain ⟨hk, rfl⟩ := List.getElem?_eq_some_iff.1 hy
    simp only [hj, hk, dif_pos]
    obtain ⟨i1, e1, hm1⟩ := (hex j hj).choose_spec
    obtain ⟨i2, e2, hm2⟩ := (hex k hk).choose_spec
    generalize (hex j hj).choose = m at *
    generalize (hex k hk).choose = m' at *
    rw [hx] at e1; cases e1
    rw [hy] at e2; cases e2
    rcases Nat.lt_or_ge m m' with h | h
    · exact h
    · exfalso
      obtain ⟨l1, q1⟩ := List.getElem?_eq_some_iff.1 hm1
      obtain ⟨l2, q2⟩ := List.getElem?_eq_some_iff.1 hm2
      have hne : m ≠ m' := by
        rintro rfl
        rw [hm1] at hm2
        simp only [Option.some.injEq, Prod.mk.injEq] at hm2
        rw [hm2.1] at hlt
        exact absurd hlt (String.lt_irrefl _)
      have := (List.pairwise_iff_getElem.1 hsorted) m' m l2 l1 (by omega)
      rw [q1, q2] at this
      simp only [decide_eq_true_eq] at this
      exact absurd this (String.not_le.2 hlt)
  · intro hall
    rw [List.all_eq_true]
    rintro ⟨⟨i, k⟩, m⟩ hm
    rw [List.mem_zipIdx_iff_getElem?] at hm
    simp only at hm
    have hmem : (i, k) ∈ ifs.zipIdx := hperm.mem_iff.1 (List.mem_of_getElem? hm)
    rw [List.mem_zipIdx_iff_getElem?] at hmem
    simp only at hmem
    have hk : k < ifs.length := (List.getElem?_eq_some_iff.1 hmem).1
    have := hall k i hmem
    simp only [hk, dif_pos] at this
    obtain ⟨i2, -, hm2⟩ := (hex k hk).choose_spec
    have e := huniq m _ (i, k) (i2, k) hm hm2 rfl
    rw [← e] at this
    exact this

/-! ### Duplicate detection -/

/-- The addresses found on a list of interfaces. -/
def linkAddrs (ifs : List LinkIntf) : List (Nat × Nat) :=
  ifs.filterMap (fun i => match i.ip with | .addr a l => some (a, l) | _ => none)

theorem dupLoop_zero_iff (seen : List (Nat × Nat)) (ifs : List LinkIntf) :
    dupLoop seen ifs = 0 ↔ (linkAddrs ifs).Nodup ∧ ∀ x ∈ linkAddrs ifs, x ∉ seen := by
  induction ifs generalizing seen with
  | nil => simp [dupLoop, linkAddrs]
  | cons i is ih =>
    have hcons : ∀ a l, i.ip = .addr a l → linkAddrs (i :: is) = (a, l) :: linkAddrs is := by
      intro a l h
      simp [linkAddrs, h]
    have hskip : (∀ a l, i.ip ≠ .addr a l) → linkAddrs (i :: is) = linkAddrs is := by
      intro h
      simp only [linkAddrs, List.filterMap_cons]
    unfold dupLoop
    split
    · rename_i a l hip
      rw [hcons a l hip]
      by_cases hc : seen.contains (a, l) = true
      · rw [if_pos hc]
        constructor
        · intro h; omega
        · rintro ⟨-, h⟩
          exact absurd (by simpa using hc) (h (a, l) (by simp))
      · rw [if_neg hc, ih]
        have hc' : (a, l) ∉ seen := by simpa using hc
        simp only [List.nodup_cons, List.mem_cons, not_or, forall_eq_or_imp]
        constructor
        · rintro ⟨h1, h2⟩
          exact ⟨⟨fun hm => (h2 _ hm).1 rfl, h1⟩, hc', fun x hx => (h2 x hx).2⟩
        · rintro ⟨⟨h1, h2⟩, -, h3⟩
          exact ⟨h2, fun x hx => ⟨by rintro rfl; exact h1 hx, h3 x hx⟩⟩
    · rename_i hip
      rw [hskip (fun a l h => hip a l h), ih]

/-! ### Maximum and policy -/

theorem listMax?_ge {l : List Int} {m : Int} (h : listMax? l = some m) : ∀ x ∈ l, x ≤ m := by
  induction l generalizing m with
  | nil => simp
  | cons y ys ih =>
    simp only [listMax?] at h
    cases hy : listMax? ys with
    | none =>
      rw [hy] at h
      cases h
      cases ys with
      | nil => simp
      | cons z zs =>
        simp only [listMax?] at hy
        split at hy <;> cases hy
    | some n =>
      rw [hy] at h
      simp only [Option.some.injEq] at h
      intro x hx
      rcases List.mem_cons.1 hx with rfl | hx
      · omega
      · have := ih hy x hx; omega

theorem listMax?_isSome {l : List Int} (h : l ≠ []) : ∃ m, listMax? l = some m := by
  cases l with
  | nil => exact absurd rfl h
  | cons y ys =>
    simp only [listMax?]
    split <;> exact ⟨_, rfl⟩

end Netlab
