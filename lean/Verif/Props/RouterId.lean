import Verif.Model.RouterId
import Verif.Props.Pools
import Verif.Lemmas.Box
import Mathlib.Data.List.Perm.Subperm
/-!
# C31: router identifiers
-/

namespace Netlab
open Spec

/-! ### Lemmas -/

theorem runRequests_append (pools : Pools) (r1 r2 : List (List String × Nat)) :
    runRequests pools (r1 ++ r2) =
      ((runRequests pools r1).1 ++ (runRequests (runRequests pools r1).2 r2).1,
        (runRequests (runRequests pools r1).2 r2).2) := by
  induction r1 generalizing pools with
  | nil => simp [runRequests]
  | cons x xs ih =>
    obtain ⟨pl, n⟩ := x
    simp only [List.cons_append, runRequests, ih]

theorem runRequests_one (pools : Pools) (pl : List String) (n : Nat) :
    runRequests pools [(pl, n)] =
      ([(n, (getPrefix pools pl n).1, (getPrefix pools pl n).2.1)],
        (getPrefix pools pl n).2.2.1) := by
  simp [runRequests]

/-- A request for a router identifier is a sequence of pool requests (at most one). -/
theorem poolRid_run (pools : Pools) (n : Nat) :
    ∃ reqs log, runRequests pools reqs = (log, (poolRid pools n).2.1) ∧
      (∀ e ∈ log, e.1 = n) ∧
      ∀ w a, (poolRid pools n).1 = some (w, a) →
        ∃ e, log = [e] ∧ e.1 = n ∧ ∃ s, HandsOut e "router_id" "ipv4" s ∧ s.w = w ∧ s.base = a := by
  unfold poolRid
  cases hl : pools.lookup "router_id" with
  | none => exact ⟨[], [], rfl, by simp, by simp⟩
  | some pool =>
    simp only
    by_cases he : pool.isEmpty = true
    · rw [if_pos he]
      exact ⟨[], [], rfl, by simp, by simp⟩
    · rw [if_neg he]
      have hsel : (getPrefix pools ["router_id"] n).1 = some "router_id" := by
        have hany : pools.any (fun kv => kv.1 == "router_id") = true := by
          rw [List.any_eq_true]
          exact ⟨_, mem_of_lookup hl, by simp⟩
        simp [getPrefix, getPool, hany]
      cases hx : (getPrefix pools ["router_id"] n).2.1.lookup "ipv4" with
      | none =>
        exact ⟨[(["router_id"], n)], _, runRequests_one .., by simp, by simp⟩
      | some x =>
        cases x with
        | attr v =>
          exact ⟨[(["router_id"], n)], _, runRequests_one .., by simp, by simp⟩
        | net s =>
          refine ⟨[(["router_id"], n)], _, runRequests_one .., by simp, ?_⟩
          intro w a h
          simp only [Option.some.injEq, Prod.mk.injEq] at h
          refine ⟨_, rfl, rfl, s, ⟨hsel, mem_of_lookup hx⟩, h.1, h.2⟩

theorem routerId_id (n : RidNode) (proto : String) (pools : Pools) :
    (routerId n proto pools).1.id = n.id := by
  unfold routerId
  repeat' (first | rfl | ((try dsimp only); split))

theorem routerId_run (n : RidNode) (proto : String) (pools : Pools) :
    ∃ reqs log, runRequests pools reqs = (log, (routerId n proto pools).2.1) ∧
      ((routerId n proto pools).1.rid = n.rid ∨
        ∃ e ∈ log, e.1 = n.id ∧ ∃ s, HandsOut e "router_id" "ipv4" s ∧
          (routerId n proto pools).1.rid = some (.ip s.w s.base)) := by
  unfold routerId
  cases h1 : n.protos.lookup proto with
  | some r => cases r <;> exact ⟨[], [], rfl, .inl rfl⟩
  | none =>
    simp only
    cases h2 : n.rid with
    | some r =>
      cases r
      · exact ⟨[], [], rfl, .inl rfl⟩
      · exact ⟨[], [], rfl, .inl h2⟩
    | none =>
      simp only
      cases h3 : n.lb with
      | some a => exact ⟨[], [], rfl, .inl rfl⟩
      | none =>
        obtain ⟨reqs, log, hr, -, hs⟩ := poolRid_run pools n.id
        simp only
        cases h4 : (poolRid pools n.id).1 with
        | none => exact ⟨reqs, log, hr, .inl h2⟩
        | some x =>
          obtain ⟨w, a⟩ := x
          obtain ⟨e, rfl, he, s, hs1, hs2, hs3⟩ := hs w a h4
          refine ⟨reqs, [e], hr, .inr ⟨e, by simp, he, s, hs1, ?_⟩⟩
          simp [hs2, hs3]

theorem ridRun_inv (ops : List RidOp) (nodes : List RidNode) (pools : Pools) :
    ∃ reqs log, runRequests pools reqs = (log, (ridRun (nodes, pools) ops).2) ∧
      (ridRun (nodes, pools) ops).1.length = nodes.length ∧
      ∀ (k : Nat) (n : RidNode), nodes[k]? = some n →
        ∃ o, (ridRun (nodes, pools) ops).1[k]? = some o ∧ o.id = n.id ∧
          (o.rid = n.rid ∨ ∃ e ∈ log, e.1 = n.id ∧ ∃ s, HandsOut e "router_id" "ipv4" s ∧
            o.rid = some (.ip s.w s.base)) := by
  induction ops generalizing nodes pools with
  | nil => exact ⟨[], [], rfl, rfl, fun k n h => ⟨n, h, rfl, .inl rfl⟩⟩
  | cons op ops ih =>
    have hrun : ridRun (nodes, pools) (op :: ops) = ridRun (ridStep (nodes, pools) op) ops := rfl
    rw [hrun]
    have step : ∃ reqs log, runRequests pools reqs = (log, (ridStep (nodes, pools) op).2) ∧
        (ridStep (nodes, pools) op).1.length = nodes.length ∧
        ∀ (k : Nat) (n : RidNode), nodes[k]? = some n →
          ∃ o, (ridStep (nodes, pools) op).1[k]? = some o ∧ o.id = n.id ∧
            (o.rid = n.rid ∨ ∃ e ∈ log, e.1 = n.id ∧ ∃ s, HandsOut e "router_id" "ipv4" s ∧
              o.rid = some (.ip s.w s.base)) := by
      cases op with
      | other pl m =>
        exact ⟨[(pl, m)], _, runRequests_one .., rfl, fun k n h => ⟨n, h, rfl, .inl rfl⟩⟩
      | assign j proto =>
        simp only [ridStep]
        cases hj : nodes[j]? with
        | none => exact ⟨[], [], rfl, rfl, fun k n h => ⟨n, h, rfl, .inl rfl⟩⟩
        | some m =>
          obtain ⟨reqs, log, h1, h2⟩ := routerId_run m proto pools
          refine ⟨reqs, log, h1, by simp, ?_⟩
          intro k n hk
          by_cases hjk : j = k
          · subst hjk
            rw [hj] at hk
            cases hk
            have hlt : j < nodes.length := (List.getElem?_eq_some_iff.1 hj).1
            refine ⟨_, by simp [hlt], routerId_id .., h2⟩
          · exact ⟨n, by simp [hjk, hk], rfl, .inl rfl⟩
    obtain ⟨r1, l1, s1, s2, s3⟩ := step
    obtain ⟨r2, l2, t1, t2, t3⟩ := ih (ridStep (nodes, pools) op).1 (ridStep (nodes, pools) op).2
    refine ⟨r1 ++ r2, l1 ++ l2, ?_, ?_, ?_⟩
    · rw [runRequests_append, s1]
      simp only
      rw [t1]
    · exact t2.trans s2
    · intro k n hk
      obtain ⟨o1, ho1, hid1, hr1⟩ := s3 k n hk
      obtain ⟨o2, ho2, hid2, hr2⟩ := t3 k o1 ho1
      refine ⟨o2, ho2, hid2.trans hid1, ?_⟩
      rcases hr2 with hr2 | ⟨e, he, hei, s, hs⟩
      · rw [hr2]
        rcases hr1 with hr1 | ⟨e, he, hei, s, hs⟩
        · exact .inl hr1
        · exact .inr ⟨e, List.mem_append_left _ he, hei, s, hs⟩
      · exact .inr ⟨e, List.mem_append_right _ he, hei.trans hid1, s, hs⟩

theorem pairwise_or {α : Type} {R : α → α → Prop} {l : List α} (h : l.Pairwise R) {a b : α}
    (ha : a ∈ l) (hb : b ∈ l) (hne : a ≠ b) : R a b ∨ R b a := by
  induction h with
  | nil => cases ha
  | cons hx _ ih =>
    rcases List.mem_cons.1 ha with e | ha1
    · rcases List.mem_cons.1 hb with e' | hb1
      · exact absurd (e.trans e'.symm) hne
      · rw [e]; exact .inl (hx _ hb1)
    · rcases List.mem_cons.1 hb with e | hb1
      · rw [e]; exact .inr (hx _ ha1)
      · exact ih ha1 hb1

theorem disjoint_base {s t : Net} (h : Spec.Disjoint s t) : s.base ≠ t.base := by
  intro e
  refine h s.base ⟨⟨Nat.le_refl _, ?_⟩, ⟨?_, ?_⟩⟩
  · exact Nat.lt_add_of_pos_right (Nat.two_pow_pos _)
  · omega
  · have := Nat.two_pow_pos (t.w - t.plen); omega

/-! ### Properties -/

/-- **C31 (precedence).**  The router identifier used by a protocol is the protocol-specific one if
it is set, otherwise the node one, otherwise the IPv4 loopback address, otherwise an address from
the router identifier pool.  Values that are not addresses are reported. -/
theorem C31_precedence (n : RidNode) (proto : String) (pools : Pools) :
    (∀ r, n.protos.lookup proto = some r →
      (routerId n proto pools).1 = n ∧ (routerId n proto pools).2.1 = pools ∧
      ((routerId n proto pools).2.2 = 0 ↔ ∃ w a, r = .ip w a)) ∧
    (n.protos.lookup proto = none →
      (∀ w a, n.rid = some (.ip w a) →
        (routerId n proto pools).1.protos.lookup proto = some (.ip w a) ∧
        (routerId n proto pools).1.rid = n.rid ∧ (routerId n proto pools).2 = (pools, 0)) ∧
      (∀ s, n.rid = some (.bad s) → (routerId n proto pools).2.2 = 1) ∧
      (n.rid = none →
        (∀ a, n.lb = some a →
          (routerId n proto pools).1.protos.lookup proto = some (.ip 32 a) ∧
          (routerId n proto pools).1.rid = none ∧ (routerId n proto pools).2 = (pools, 0)) ∧
        (n.lb = none →
          (routerId n proto pools).2 = (poolRid pools n.id).2 ∧
          (routerId n proto pools).1.rid = (poolRid pools n.id).1.map (fun x => .ip x.1 x.2) ∧
          (routerId n proto pools).1.protos.lookup proto =
            (poolRid pools n.id).1.map (fun x => .ip x.1 x.2)))) := by
  refine ⟨?_, ?_⟩
  · intro r hr
    unfold routerId
    rw [hr]
    cases r <;> simp
  · intro h1
    refine ⟨?_, ?_, ?_⟩
    · intro w a h2
      simp [routerId, h1, h2, lookup_setKey]
    · intro s h2
      simp [routerId, h1, h2]
    · intro h2
      refine ⟨?_, ?_⟩
      · intro a h3
        simp [routerId, h1, h2, h3, lookup_setKey]
      · intro h3
        simp only [routerId, h1, h2, h3]
        cases h4 : (poolRid pools n.id).1 with
        | none => simp [h1, h2]
        | some x => simp [lookup_setKey]

/-- **C31 (protocols agree).**  Two protocols without protocol-specific router identifiers use the
same router identifier on a node, whatever happens with the pools in between. -/
theorem C31_protocols_agree (n : RidNode) (p q : String) (pools pools' : Pools) (r : Rid)
    (hp : n.protos.lookup p = none) (hq : n.protos.lookup q = none) (hpq : p ≠ q)
    (h : (routerId n p pools).1.protos.lookup p = some r) :
    let n1 := (routerId n p pools).1
    (routerId n1 q pools').1.protos.lookup p = some r ∧
    (routerId n1 q pools').1.protos.lookup q = some r ∧ (routerId n1 q pools').2 = (pools', 0) := by
  intro n1
  have hqp : ¬ q = p := fun e => hpq e.symm
  have h0 : (routerId n p pools).1.protos.lookup q = none ∧
      ((∃ w a, (routerId n p pools).1.rid = some (.ip w a) ∧ r = .ip w a) ∨
       (∃ a, (routerId n p pools).1.rid = none ∧ (routerId n p pools).1.lb = some a ∧
          r = .ip 32 a)) := by
    unfold routerId at h ⊢
    rw [hp] at h ⊢
    simp only at h ⊢
    cases h2 : n.rid with
    | some x =>
      rw [h2] at h
      cases x with
      | bad s => simp [hp] at h
      | ip w a =>
        simp only [lookup_setKey, if_true, Option.some.injEq] at h
        simp [lookup_setKey, hqp, hq, ← h]
    | none =>
      rw [h2] at h
      simp only at h ⊢
      cases h3 : n.lb with
      | some a =>
        rw [h3] at h
        simp only [lookup_setKey, if_true, Option.some.injEq] at h
        simp [lookup_setKey, hqp, hq, ← h]
      | none =>
        rw [h3] at h
        simp only at h ⊢
        cases h4 : (poolRid pools n.id).1 with
        | none => rw [h4] at h; simp [hp] at h
        | some x =>
          rw [h4] at h
          simp only [lookup_setKey, if_true, Option.some.injEq] at h
          simp [lookup_setKey, hqp, hq, ← h]
  obtain ⟨hq', hor⟩ := h0
  have hpre := (C31_precedence n1 q pools').2 hq'
  have hkeep : (routerId n1 q pools').1.protos.lookup p = n1.protos.lookup p := by
    have hq'' : n1.protos.lookup q = none := hq'
    unfold routerId
    rw [hq'']
    simp only
    split
    · simp [lookup_setKey, hpq]
    · rfl
    · split
      · simp [lookup_setKey, hpq]
      · split
        · simp [lookup_setKey, hpq]
        · rfl
  refine ⟨hkeep.trans h, ?_⟩
  rcases hor with ⟨w, a, h1, rfl⟩ | ⟨a, h1, h2, rfl⟩
  · obtain ⟨h3, -, h4⟩ := hpre.1 w a h1
    exact ⟨h3, h4⟩
  · obtain ⟨h3, -, h4⟩ := (hpre.2.2 h1).1 a h2
    exact ⟨h3, h4⟩

/-- **C31 (pool identifiers are unique).**  In any history of router identifier assignments and
other pool requests, two nodes (with different non-zero identifiers) that got their router
identifiers from the pool have different router identifiers. -/
theorem C31_pool_ids_distinct (nodes : List RidNode) (pools : Pools) (hf : FreshPools pools)
    (ops : List RidOp) (j k : Nat) (a b a' b' : RidNode) (x y : Rid)
    (ha : nodes[j]? = some a) (hb : nodes[k]? = some b) (hid : a.id ≠ b.id)
    (ha0 : a.rid = none) (hb0 : b.rid = none)
    (ha' : (ridRun (nodes, pools) ops).1[j]? = some a')
    (hb' : (ridRun (nodes, pools) ops).1[k]? = some b')
    (hx : a'.rid = some x) (hy : b'.rid = some y) : x ≠ y := by
  obtain ⟨reqs, log, hr, -, hn⟩ := ridRun_inv ops nodes pools
  have hpw := C04_different_requests_disjoint pools _ reqs log hf hr
  obtain ⟨o, ho, -, h1⟩ := hn j a ha
  rw [ha'] at ho
  cases ho
  obtain ⟨o, ho, -, h2⟩ := hn k b hb
  rw [hb'] at ho
  cases ho
  rcases h1 with h1 | ⟨e, he, hei, s, hs, hes⟩
  · rw [hx, ha0] at h1; cases h1
  rcases h2 with h2 | ⟨f, hf', hfi, t, ht, hft⟩
  · rw [hy, hb0] at h2; cases h2
  have hef : e ≠ f := by
    rintro rfl
    exact hid (hei.symm.trans hfi)
  have hdis : s.base ≠ t.base := by
    rcases pairwise_or hpw he hf' hef with h | h
    · exact disjoint_base (h _ _ _ _ hs ht (by rw [hei, hfi]; exact hid))
    · exact (disjoint_base (h _ _ _ _ ht hs (by rw [hei, hfi]; exact hid.symm))).symm
  rintro rfl
  rw [hx] at hes
  rw [hy] at hft
  have := hes.symm.trans hft
  simp only [Option.some.injEq, Rid.ip.injEq] at this
  exact hdis this.2

/-! ### Unique router identifiers of VRF instances -/

/-- All addresses in a list of pool log entries. -/
def logRids (log : List (Nat × Option String × List (String × PfxEntry))) (a : Nat × Nat) : Prop :=
  ∃ e ∈ log, ∃ s, HandsOut e "router_id" "ipv4" s ∧ (s.w, s.base) = a

theorem ridLoop_run (bl : List (Nat × Nat)) (k : Nat) (pools : Pools) :
    ∃ reqs log, runRequests pools reqs = (log, (ridLoop bl k pools).2.1) ∧
      (∀ e ∈ log, e.1 = 0) ∧
      (∀ a, (ridLoop bl k pools).1 = some a → a ∉ bl ∧ ∃ pre e s, log = pre ++ [e] ∧
        HandsOut e "router_id" "ipv4" s ∧ (s.w, s.base) = a) ∧
      ((ridLoop bl k pools).2.2 = true → k ≤ log.length ∧ ∀ e ∈ log, ∃ s,
        HandsOut e "router_id" "ipv4" s ∧ (s.w, s.base) ∈ bl) := by
  induction k generalizing pools with
  | zero => exact ⟨[], [], rfl, by simp, by simp [ridLoop], by simp⟩
  | succ k ih =>
    obtain ⟨r1, l1, h1, h2, h3⟩ := poolRid_run pools 0
    simp only [ridLoop]
    cases hp : (poolRid pools 0).1 with
    | none => exact ⟨r1, l1, h1, h2, by simp, by simp⟩
    | some a =>
      obtain ⟨e, rfl, -, s, hs, hs1, hs2⟩ := h3 a.1 a.2 hp
      simp only
      by_cases hb : bl.contains a = true
      · rw [if_pos hb]
        obtain ⟨r2, l2, t1, t2, t3, t4⟩ := ih (poolRid pools 0).2.1
        refine ⟨r1 ++ r2, [e] ++ l2, ?_, ?_, ?_, ?_⟩
        · rw [runRequests_append, h1]
          simp only
          rw [t1]
        · intro f hf
          rcases List.mem_append.1 hf with hf | hf
          · exact h2 f hf
          · exact t2 f hf
        · intro b hbb
          obtain ⟨hnb, pre, f, t, hpre, ht⟩ := t3 b hbb
          exact ⟨hnb, [e] ++ pre, f, t, by simp [hpre], ht⟩
        · intro hx
          obtain ⟨u1, u2⟩ := t4 hx
          refine ⟨by simp; omega, ?_⟩
          intro f hf
          rcases List.mem_append.1 hf with hf | hf
          · obtain rfl := List.mem_singleton.1 hf
            refine ⟨s, hs, ?_⟩
            rw [hs1, hs2]
            simpa using hb
          · exact u2 f hf
      · rw [if_neg hb]
        refine ⟨r1, [e], h1, h2, ?_, by simp⟩
        intro b hbb
        cases hbb
        refine ⟨by simpa using hb, [], e, s, rfl, hs, ?_⟩
        rw [hs1, hs2]

/-- **C31 (the search for an unused identifier ends).**  Whatever happened with the pools before,
the search for a router identifier not in the blacklist ends after at most one attempt more than
there are blacklisted identifiers: it finds an identifier or runs out of addresses. -/
theorem C31_unique_loop_ends (pools0 pools : Pools) (hf : FreshPools pools0)
    (reqs : List (List String × Nat))
    (log : List (Nat × Option String × List (String × PfxEntry)))
    (h : runRequests pools0 reqs = (log, pools)) (bl : List (Nat × Nat)) :
    (ridLoop bl (bl.length + 1) pools).2.2 = false := by
  cases hx : (ridLoop bl (bl.length + 1) pools).2.2 with
  | false => rfl
  | true =>
    exfalso
    obtain ⟨r2, l2, h1, h2, -, h4⟩ := ridLoop_run bl (bl.length + 1) pools
    obtain ⟨hlen, hall⟩ := h4 hx
    have hfull : runRequests pools0 (reqs ++ r2) = (log ++ l2, (ridLoop bl (bl.length + 1) pools).2.1) := by
      rw [runRequests_append, h]
      simp only
      rw [h1]
    have hpw := C03_sequential_disjoint pools0 _ _ _ hf hfull
    have hpw2 := (List.pairwise_append.1 hpw).2.1
    classical
    let f : Nat × Option String × List (String × PfxEntry) → Nat × Nat := fun e =>
      if hs : ∃ s, HandsOut e "router_id" "ipv4" s ∧ (s.w, s.base) ∈ bl
      then (hs.choose.w, hs.choose.base) else (0, 0)
    have hf1 : ∀ e ∈ l2, ∃ s, HandsOut e "router_id" "ipv4" s ∧ f e = (s.w, s.base) ∧ f e ∈ bl := by
      intro e he
      have hs := hall e he
      refine ⟨hs.choose, hs.choose_spec.1, ?_, ?_⟩
      · simp only [f]; rw [dif_pos hs]
      · simp only [f]; rw [dif_pos hs]; exact hs.choose_spec.2
    have hnd : (l2.map f).Nodup := by
      unfold List.Nodup
      rw [List.pairwise_map]
      refine hpw2.imp_of_mem ?_
      intro a b ha hb hr he
      obtain ⟨s, hs, hsf, -⟩ := hf1 a ha
      obtain ⟨t, ht, htf, -⟩ := hf1 b hb
      have := disjoint_base (hr _ _ _ _ hs ht (h2 a ha))
      rw [hsf, htf] at he
      simp only [Prod.mk.injEq] at he
      exact this he.2
    have hsub : l2.map f ⊆ bl := by
      intro x hx
      obtain ⟨e, he, rfl⟩ := List.mem_map.1 hx
      obtain ⟨-, -, -, h⟩ := hf1 e he
      exact h
    have hle : (l2.map f).length ≤ bl.length :=
      (List.Nodup.subperm hnd hsub).length_le
    simp at hle
    omega

theorem uniqueRids_run (bl : List (Nat × Nat)) (vs used : List (Nat × Nat)) (pools : Pools) :
    ∃ reqs log, runRequests pools reqs = (log, (uniqueRids bl used vs pools).2.1) ∧
      (∀ e ∈ log, e.1 = 0) ∧
      (∀ x ∈ (uniqueRids bl used vs pools).1, x ∈ vs ∨ (x ∉ bl ∧ logRids log x)) := by
  induction vs generalizing used pools with
  | nil => exact ⟨[], [], rfl, by simp, by simp [uniqueRids]⟩
  | cons v vs ih =>
    simp only [uniqueRids]
    by_cases hu : used.contains v = true
    · rw [if_pos hu]
      obtain ⟨r1, l1, h1, h2, h3, -⟩ := ridLoop_run bl (bl.length + 1) pools
      obtain ⟨r2, l2, t1, t2, t3⟩ := ih used (ridLoop bl (bl.length + 1) pools).2.1
      have hrun : runRequests pools (r1 ++ r2) = (l1 ++ l2,
          (uniqueRids bl used vs (ridLoop bl (bl.length + 1) pools).2.1).2.1) := by
        rw [runRequests_append, h1]
        simp only
        rw [t1]
      have h0 : ∀ e ∈ l1 ++ l2, e.1 = 0 := by
        intro e he
        rcases List.mem_append.1 he with he | he
        · exact h2 e he
        · exact t2 e he
      have hrest : ∀ x ∈ (uniqueRids bl used vs (ridLoop bl (bl.length + 1) pools).2.1).1,
          x ∈ v :: vs ∨ (x ∉ bl ∧ logRids (l1 ++ l2) x) := by
        intro x hx
        rcases t3 x hx with h | ⟨h, e, he, s⟩
        · exact .inl (List.mem_cons_of_mem _ h)
        · exact .inr ⟨h, e, List.mem_append_right _ he, s⟩
      cases hl : (ridLoop bl (bl.length + 1) pools).1 with
      | none =>
        refine ⟨r1 ++ r2, l1 ++ l2, hrun, h0, ?_⟩
        intro x hx
        rcases List.mem_cons.1 hx with rfl | hx
        · exact .inl (List.mem_cons_self ..)
        · exact hrest x hx
      | some a =>
        refine ⟨r1 ++ r2, l1 ++ l2, hrun, h0, ?_⟩
        intro x hx
        rcases List.mem_cons.1 hx with rfl | hx
        · obtain ⟨hnb, pre, e, s, hpre, hs⟩ := h3 x hl
          exact .inr ⟨hnb, e, by simp [hpre], s, hs⟩
        · exact hrest x hx
    · rw [if_neg hu]
      obtain ⟨r2, l2, t1, t2, t3⟩ := ih (used ++ [v]) pools
      refine ⟨r2, l2, t1, t2, ?_⟩
      intro x hx
      rcases List.mem_cons.1 hx with rfl | hx
      · exact .inl (List.mem_cons_self ..)
      · rcases t3 x hx with h | h
        · exact .inl (List.mem_cons_of_mem _ h)
        · exact .inr h

/-- **C31 (unique identifiers of VRF instances).**  On a device that needs a unique router
identifier for every instance of a routing protocol: `used` are the router identifiers of the
global instance, `vs` those of VRF instances, all of them blacklisted together with identifiers of
other nodes.  When every identifier could be changed, all instances on the node have different
identifiers, and a changed identifier is not used anywhere in the lab. -/
theorem C31_unique_vrf_ids (pools0 pools : Pools) (hf : FreshPools pools0)
    (reqs : List (List String × Nat))
    (log : List (Nat × Option String × List (String × PfxEntry)))
    (h : runRequests pools0 reqs = (log, pools)) (bl used vs : List (Nat × Nat))
    (hused : used.Nodup) (hub : ∀ x ∈ used, x ∈ bl) (hvb : ∀ x ∈ vs, x ∈ bl)
    (hw : (uniqueRids bl used vs pools).2.2 = 0) :
    (used ++ (uniqueRids bl used vs pools).1).Nodup ∧
    (uniqueRids bl used vs pools).1.length = vs.length ∧
    ∀ (k : Nat) (x y : Nat × Nat), vs[k]? = some x →
      (uniqueRids bl used vs pools).1[k]? = some y → y = x ∨ y ∉ bl := by
  induction vs generalizing used pools reqs log with
  | nil => simp [uniqueRids, hused]
  | cons v vs ih =>
    have hvb' : ∀ x ∈ vs, x ∈ bl := fun x hx => hvb x (List.mem_cons_of_mem _ hx)
    simp only [uniqueRids] at hw ⊢
    by_cases hu : used.contains v = true
    · rw [if_pos hu] at hw ⊢
      obtain ⟨r1, l1, h1, h2, h3, -⟩ := ridLoop_run bl (bl.length + 1) pools
      have hrun : runRequests pools0 (reqs ++ r1) =
          (log ++ l1, (ridLoop bl (bl.length + 1) pools).2.1) := by
        rw [runRequests_append, h]
        simp only
        rw [h1]
      cases hl : (ridLoop bl (bl.length + 1) pools).1 with
      | none => simp only [hl] at hw; omega
      | some a =>
        simp only [hl] at hw ⊢
        obtain ⟨i1, i2, i3⟩ := ih (ridLoop bl (bl.length + 1) pools).2.1 (reqs ++ r1) (log ++ l1) hrun
          used hused hub hvb' hw
        obtain ⟨hnb, pre, e, s, hpre, hs, hsa⟩ := h3 a hl
        obtain ⟨r2, l2, t1, t2, t3⟩ := uniqueRids_run bl vs used (ridLoop bl (bl.length + 1) pools).2.1
        have hfull : runRequests pools0 ((reqs ++ r1) ++ r2) = ((log ++ l1) ++ l2,
            (uniqueRids bl used vs (ridLoop bl (bl.length + 1) pools).2.1).2.1) := by
          rw [runRequests_append, hrun]
          simp only
          rw [t1]
        have hpw := C03_sequential_disjoint pools0 _ _ _ hf hfull
        have hcross := (List.pairwise_append.1 hpw).2.2
        have hnew : a ∉ (uniqueRids bl used vs (ridLoop bl (bl.length + 1) pools).2.1).1 := by
          intro ha
          rcases t3 a ha with hv | ⟨-, f, hfm, t, ht, hta⟩
          · exact hnb (hvb' a hv)
          · have hem : e ∈ log ++ l1 := by rw [hpre]; simp
            have hee : e.1 = 0 := h2 e (by rw [hpre]; simp)
            have := disjoint_base (hcross e hem f hfm _ _ _ _ hs ht hee)
            rw [← hsa] at hta
            simp only [Prod.mk.injEq] at hta
            exact this hta.2.symm
        refine ⟨?_, by simp [i2], ?_⟩
        · rw [List.nodup_append] at i1 ⊢
          obtain ⟨n1, n2, n3⟩ := i1
          refine ⟨n1, List.nodup_cons.2 ⟨hnew, n2⟩, ?_⟩
          intro x hx y hy
          rcases List.mem_cons.1 hy with rfl | hy
          · rintro rfl; exact hnb (hub _ hx)
          · exact n3 x hx y hy
        · intro k x y hk hy
          cases k with
          | zero =>
            simp only [List.getElem?_cons_zero, Option.some.injEq] at hy
            rw [← hy]; exact .inr hnb
          | succ k => exact i3 k x y hk hy
    · rw [if_neg hu] at hw ⊢
      have hvu : v ∉ used := by simpa using hu
      have hused' : (used ++ [v]).Nodup := by
        rw [List.nodup_append]
        refine ⟨hused, by simp, ?_⟩
        intro x hx y hy
        obtain rfl := List.mem_singleton.1 hy
        rintro rfl; exact hvu hx
      have hub' : ∀ x ∈ used ++ [v], x ∈ bl := by
        intro x hx
        rcases List.mem_append.1 hx with hx | hx
        · exact hub x hx
        · obtain rfl := List.mem_singleton.1 hx
          exact hvb _ (List.mem_cons_self ..)
      obtain ⟨i1, i2, i3⟩ := ih pools reqs log h (used ++ [v]) hused' hub' hvb' hw
      refine ⟨by simpa using i1, by simp [i2], ?_⟩
      intro k x y hk hy
      cases k with
      | zero =>
        simp only [List.getElem?_cons_zero, Option.some.injEq] at hy hk
        rw [← hy, ← hk]; exact .inl rfl
      | succ k => exact i3 k x y hk hy

/-- Non-vacuity: a pool 10.0.0.0/30 with /32 prefixes; nodes 1 and 2 get router identifiers from the
pool, node 3 has a loopback, node 4 a configured identifier. -/
example :
    let pools : Pools := [("router_id", [("ipv4", .gen (Gen.create "router_id" ⟨32, 4, 30⟩ 32))])]
    let out := ridRun ([{ id := 1 }, { id := 2 }, { id := 3, lb := some 77 },
      { id := 4, rid := some (.ip 32 99) }], pools)
      [.assign 0 "ospf", .assign 1 "bgp", .assign 0 "bgp", .assign 2 "ospf", .assign 3 "ospf"]
    out.1.map (·.rid) = [some (.ip 32 5), some (.ip 32 6), none, some (.ip 32 99)] ∧
    out.1.map (·.protos) = [[("ospf", .ip 32 5), ("bgp", .ip 32 5)], [("bgp", .ip 32 6)],
      [("ospf", .ip 32 77)], [("ospf", .ip 32 99)]] := by
  decide +kernel

/-- Non-vacuity: two VRF instances with the identifier of the global instance. -/
example :
    let pools : Pools := [("router_id", [("ipv4", .gen (Gen.create "router_id" ⟨32, 8, 29⟩ 32))])]
    let r := uniqueRids [(32, 9), (32, 10), (32, 77)] [(32, 77)] [(32, 77), (32, 10), (32, 77)] pools
    r.1 = [(32, 11), (32, 10), (32, 12)] ∧ r.2.2 = 0 := by
  decide +kernel

end Netlab
