import Verif.Model.RrCluster
/-!
# C55: route reflector cluster IDs
-/

namespace Netlab

/-- `m` is the lowest router ID of the route reflectors in AS `a` that have no cluster ID. -/
def Spec.LowestRouterId (topo : List RrNode) (a : Int) (m : String) : Prop :=
  (∃ n ∈ topo, n.asn = some a ∧ n.rr = true ∧ n.clusterId = none ∧ n.routerId = m) ∧
  ∀ n ∈ topo, n.asn = some a → n.rr = true → n.clusterId = none → ¬ n.routerId < m

open Spec

theorem foldl_min_spec (l : List String) (s : String) :
    (l.foldl (fun a b => if b < a then b else a) s ∈ s :: l) ∧
    ∀ x ∈ s :: l, ¬ x < l.foldl (fun a b => if b < a then b else a) s := by
  induction l generalizing s with
  | nil => simp
  | cons b r ih =>
    rw [List.foldl_cons]
    by_cases h : b < s
    · rw [if_pos h]
      obtain ⟨h1, h2⟩ := ih b
      refine ⟨List.mem_cons_of_mem _ h1, ?_⟩
      intro x hx
      rcases List.mem_cons.1 hx with rfl | hx
      · intro hlt
        have := h2 b List.mem_cons_self
        exact this (String.lt_trans h hlt)
      · exact h2 x hx
    · rw [if_neg h]
      obtain ⟨h1, h2⟩ := ih s
      constructor
      · rcases List.mem_cons.1 h1 with e | e
        · rw [e]; exact List.mem_cons_self
        · exact List.mem_cons_of_mem _ (List.mem_cons_of_mem _ e)
      · intro x hx
        rcases List.mem_cons.1 hx with rfl | hx
        · exact h2 x List.mem_cons_self
        · rcases List.mem_cons.1 hx with rfl | hx
          · intro hlt
            have hs := h2 s List.mem_cons_self
            apply h
            generalize List.foldl _ s r = m at hlt hs
            by_cases hms : m < s
            · exact String.lt_trans hlt hms
            · have : m = s := String.le_antisymm (String.not_lt.1 hs) (String.not_lt.1 hms)
              rw [← this]; exact hlt
          · exact h2 x (List.mem_cons_of_mem _ hx)

theorem minString_spec {l : List String} {m : String} (h : minString l = some m) : m ∈ l ∧ ∀ x ∈ l, ¬ x < m := by
  cases l with
  | nil => simp [minString] at h
  | cons s r =>
    obtain rfl := Option.some.inj h
    exact foldl_min_spec r s

/-- The update done by `rrClusterAs` to a node -/
def rrUpdate (topo : List RrNode) (a : Int) (n : RrNode) : RrNode :=
  if n.isRrIn a && n.clusterId.isNone then
    { n with clusterId := some (match minString ((topo.filter (fun n => n.isRrIn a && n.clusterId.isNone)).map
        (·.routerId)) with
      | some m => if m = "" then n.routerId else m
      | none => n.routerId) }
  else n

theorem rrUpdate_other (topo : List RrNode) (a : Int) (n : RrNode) (h : n.asn ≠ some a ∨ n.rr = false ∨ n.clusterId ≠ none) :
    rrUpdate topo a n = n := by
  unfold rrUpdate
  rw [if_neg]
  simp only [RrNode.isRrIn, Bool.and_eq_true, decide_eq_true_eq, Option.isNone_iff_eq_none, not_and]
  rintro ⟨h1, h2⟩ h3
  rcases h with h | h | h
  · exact h h1
  · rw [h2] at h; cases h
  · exact h h3

theorem rrUpdate_rr (topo : List RrNode) (a : Int) (n : RrNode) (hid : ∀ n ∈ topo, n.routerId ≠ "") (hn : n ∈ topo)
    (h1 : n.asn = some a) (h2 : n.rr = true) (h3 : n.clusterId = none) :
    ∃ m, LowestRouterId topo a m ∧ rrUpdate topo a n = { n with clusterId := some m } := by
  unfold rrUpdate
  have hc : (n.isRrIn a && n.clusterId.isNone) = true := by simp [RrNode.isRrIn, h1, h2, h3]
  rw [if_pos hc]
  have hmem : n.routerId ∈ (topo.filter (fun n => n.isRrIn a && n.clusterId.isNone)).map (·.routerId) :=
    List.mem_map.2 ⟨n, List.mem_filter.2 ⟨hn, hc⟩, rfl⟩
  generalize hl : (topo.filter (fun n => n.isRrIn a && n.clusterId.isNone)).map (·.routerId) = l at hmem
  cases hm : minString l with
  | none =>
    cases l with
    | nil => simp at hmem
    | cons s r => simp [minString] at hm
  | some m =>
    obtain ⟨m1, m2⟩ := minString_spec hm
    rw [← hl] at m1 m2
    simp only [List.mem_map, List.mem_filter, RrNode.isRrIn, Bool.and_eq_true, decide_eq_true_eq,
      Option.isNone_iff_eq_none] at m1 m2
    obtain ⟨k, ⟨hk, ⟨k1, k2⟩, k3⟩, k4⟩ := m1
    have hne : m ≠ "" := by rw [← k4]; exact hid k hk
    refine ⟨m, ⟨⟨k, hk, k1, k2, k3, k4⟩, ?_⟩, ?_⟩
    · intro j hj j1 j2 j3
      exact m2 _ ⟨j, ⟨hj, ⟨j1, j2⟩, j3⟩, rfl⟩
    · simp [hne]

theorem lowest_map (topo : List RrNode) (a b : Int) (hab : a ≠ b) (m : String) :
    LowestRouterId (topo.map (rrUpdate topo b)) a m ↔ LowestRouterId topo a m := by
  have hsame : ∀ n ∈ topo, (rrUpdate topo b n).asn = n.asn ∧ (rrUpdate topo b n).rr = n.rr ∧
      (rrUpdate topo b n).routerId = n.routerId := by
    intro n _
    unfold rrUpdate
    split <;> simp
  have hne : ∀ n : RrNode, n.asn = some a → rrUpdate topo b n = n := fun n h =>
    rrUpdate_other topo b n (.inl (by rw [h]; simpa using hab))
  unfold LowestRouterId
  simp only [List.mem_map, forall_exists_index, and_imp, forall_apply_eq_imp_iff₂]
  constructor
  · rintro ⟨⟨n, ⟨k, hk, rfl⟩, h1, h2, h3, h4⟩, h⟩
    have ek := hne k (by rw [← (hsame k hk).1]; exact h1)
    rw [ek] at h1 h2 h3 h4
    refine ⟨⟨k, hk, h1, h2, h3, h4⟩, ?_⟩
    intro j hj j1 j2 j3
    have := h j hj
    rw [hne j j1] at this
    exact this j1 j2 j3
  · rintro ⟨⟨k, hk, h1, h2, h3, h4⟩, h⟩
    refine ⟨⟨k, ⟨k, hk, hne k h1⟩, h1, h2, h3, h4⟩, ?_⟩
    intro j hj j1 j2 j3
    have ej := hne j (by rw [← (hsame j hj).1]; exact j1)
    rw [ej] at j1 j2 j3 ⊢
    exact h j hj j1 j2 j3

/-- C55: whatever the order in which AS numbers are processed, all route reflectors in an AS that have no cluster ID get
the same one, the lowest router ID among them.  Cluster IDs set by the user and all other nodes do not change. -/
theorem C55_rr_cluster_ids (asns : List Int) (topo : List RrNode) (hnd : asns.Nodup)
    (hid : ∀ n ∈ topo, n.routerId ≠ "")
    (hall : ∀ n ∈ topo, ∀ a, n.asn = some a → a ∈ asns) :
    ∃ f : RrNode → RrNode, buildRrClusters asns topo = topo.map f ∧ ∀ n ∈ topo,
      ((n.rr = false ∨ n.asn = none ∨ n.clusterId ≠ none) → f n = n) ∧
      (∀ a, n.asn = some a → n.rr = true → n.clusterId = none →
        ∃ m, LowestRouterId topo a m ∧ f n = { n with clusterId := some m }) := by
  have key : ∀ (asns : List Int) (topo : List RrNode), asns.Nodup → (∀ n ∈ topo, n.routerId ≠ "") →
      ∃ f : RrNode → RrNode, buildRrClusters asns topo = topo.map f ∧ ∀ n ∈ topo,
        ((n.rr = false ∨ n.asn = none ∨ n.clusterId ≠ none ∨ (∀ a, n.asn = some a → a ∉ asns)) → f n = n) ∧
        (∀ a ∈ asns, n.asn = some a → n.rr = true → n.clusterId = none →
          ∃ m, LowestRouterId topo a m ∧ f n = { n with clusterId := some m }) := by
    intro asns
    induction asns with
    | nil => intro topo _ _; exact ⟨id, by simp [buildRrClusters], by simp⟩
    | cons b r ih =>
      intro topo hnd hid
      rw [List.nodup_cons] at hnd
      have hs : buildRrClusters (b :: r) topo = buildRrClusters r (topo.map (rrUpdate topo b)) := rfl
      have hid' : ∀ n ∈ topo.map (rrUpdate topo b), n.routerId ≠ "" := by
        intro n hn
        obtain ⟨k, hk, rfl⟩ := List.mem_map.1 hn
        have : (rrUpdate topo b k).routerId = k.routerId := by unfold rrUpdate; split <;> rfl
        rw [this]; exact hid k hk
      obtain ⟨f, hf, hp⟩ := ih _ hnd.2 hid'
      refine ⟨f ∘ rrUpdate topo b, by rw [hs, hf, List.map_map], ?_⟩
      intro n hn
      have hpn := hp _ (List.mem_map.2 ⟨n, hn, rfl⟩)
      constructor
      · intro h
        have e : rrUpdate topo b n = n := by
          apply rrUpdate_other
          rcases h with h | h | h | h
          · exact .inr (.inl h)
          · exact .inl (by rw [h]; simp)
          · exact .inr (.inr h)
          · exact .inl fun e => h b e List.mem_cons_self
        rw [e] at hpn
        rw [Function.comp, e]
        apply hpn.1
        rcases h with h | h | h | h
        · exact .inl h
        · exact .inr (.inl h)
        · exact .inr (.inr (.inl h))
        · exact .inr (.inr (.inr fun a ha hm => h a ha (List.mem_cons_of_mem _ hm)))
      · intro a ha h1 h2 h3
        by_cases hab : a = b
        · subst hab
          obtain ⟨m, hm, e⟩ := rrUpdate_rr topo a n hid hn h1 h2 h3
          refine ⟨m, hm, ?_⟩
          rw [e] at hpn
          rw [Function.comp, e]
          exact hpn.1 (.inr (.inr (.inl (by simp))))
        · have e : rrUpdate topo b n = n := rrUpdate_other _ _ _ (.inl (by rw [h1]; simpa using hab))
          rw [e] at hpn
          rw [Function.comp, e]
          have har : a ∈ r := by
            rcases List.mem_cons.1 ha with h | h
            · exact absurd h hab
            · exact h
          obtain ⟨m, hm, e'⟩ := hpn.2 a har h1 h2 h3
          exact ⟨m, (lowest_map topo a b hab m).1 hm, e'⟩
  obtain ⟨f, hf, hp⟩ := key asns topo hnd hid
  refine ⟨f, hf, fun n hn => ⟨fun h => ?_, fun a h1 h2 h3 => (hp n hn).2 a (hall n hn a h1) h1 h2 h3⟩⟩
  apply (hp n hn).1
  rcases h with h | h | h
  · exact .inl h
  · exact .inr (.inl h)
  · exact .inr (.inr (.inl h))

/-- Non-vacuity -/
example : (buildRrClusters [65000, 65001]
    [{ name := "a", asn := some 65000, rr := true, routerId := "10.0.0.2" },
     { name := "b", asn := some 65000, rr := true, routerId := "10.0.0.1" },
     { name := "c", asn := some 65000, routerId := "10.0.0.0" },
     { name := "d", asn := some 65001, rr := true, routerId := "10.0.0.4" },
     { name := "e", asn := some 65000, rr := true, routerId := "10.0.0.0", clusterId := some "1.1.1.1" }]).map
      (·.clusterId) = [some "10.0.0.1", some "10.0.0.1", none, some "10.0.0.4", some "1.1.1.1"] := by
  decide +kernel

/-- C55: router IDs are compared as text, so "lowest" is not the lowest IPv4 address: 10.0.0.10 comes before
10.0.0.9. -/
theorem C55_lowest_is_textual : Spec.LowestRouterId
    [{ name := "a", asn := some 65000, rr := true, routerId := "10.0.0.10" },
     { name := "b", asn := some 65000, rr := true, routerId := "10.0.0.9" }] 65000 "10.0.0.10" := by
  unfold Spec.LowestRouterId
  decide +kernel

end Netlab
