import Verif.Spec.Plan
import Verif.Props.NodeId
import Verif.Props.LabAddr
import Verif.Lemmas.PoolSystem
/-!
# C119: additions to a lab topology don't change the existing parts of the lab
-/

namespace Netlab

open Spec

/-! ### Identifier sets -/

/-- The second set has additional identifiers `X`; its counter could be lower, but the skipped identifiers are used. -/
structure IdsExt (X : List IdVal) (v v' : IdVar) : Prop where
  max : v'.max = v.max
  mem : ∀ x, x ∈ v'.value ↔ x ∈ v.value ∨ x ∈ X
  next : ∃ c c', v.next = some c ∧ v'.next = some c' ∧ c' ≤ c ∧ c ≤ v.max ∧ ∀ k, c' ≤ k → k < c → .i k ∈ v'.value

theorem nextLoop_least {used : List IdVal} {max next n : Int} (h1 : .i n ∉ used) (h2 : next ≤ n) (h3 : n ≤ max)
    (h4 : ∀ k, next ≤ k → k < n → .i k ∈ used) : nextLoop used max next = .ok n := by
  cases h : nextLoop used max next with
  | error e => exact absurd ((nextLoop_error h).2 n h2 h3) h1
  | ok m =>
    obtain ⟨a1, a2, _, a4⟩ := nextLoop_ok h
    rcases Int.lt_trichotomy m n with hl | he | hg
    · exact absurd (h4 m a2 hl) a1
    · rw [he]
    · exact absurd (a4 n h2 hg) h1

theorem getNext_some {v w : IdVar} {n : Int} (h : v.getNext = .ok (n, w)) :
    ∃ c, v.next = some c ∧ nextLoop v.value v.max c = .ok n ∧ w = { v with value := .i n :: v.value, next := some n } := by
  unfold IdVar.getNext at h
  cases hn : v.next with
  | none => simp [hn] at h
  | some c =>
    simp only [hn] at h
    cases hl : nextLoop v.value v.max c with
    | error e => simp [hl] at h
    | ok m =>
      simp only [hl, Except.ok.injEq, Prod.mk.injEq] at h
      obtain ⟨rfl, rfl⟩ := h
      exact ⟨c, rfl, hl, rfl⟩

theorem idsExt_next {X : List IdVal} {v v' w : IdVar} {n : Int} (h : IdsExt X v v') (hg : v.getNext = .ok (n, w)) (hx : .i n ∉ X) :
    ∃ w', v'.getNext = .ok (n, w') ∧ IdsExt X w w' := by
  obtain ⟨c, hc, hl, rfl⟩ := getNext_some hg
  obtain ⟨c1, c', e1, e2, e3, e4, e5⟩ := h.next
  rw [hc] at e1
  cases e1
  obtain ⟨a1, a2, a3, a4⟩ := nextLoop_ok hl
  have hn : nextLoop v'.value v'.max c' = .ok n := by
    refine nextLoop_least ?_ (by omega) (by rw [h.max]; exact a3 e4) ?_
    · rw [h.mem]
      rintro (x | x)
      · exact a1 x
      · exact hx x
    · intro k k1 k2
      by_cases hk : k < c
      · exact e5 k k1 hk
      · exact (h.mem _).2 (.inl (a4 k (by omega) k2))
  refine ⟨{ v' with value := .i n :: v'.value, next := some n }, ?_, ⟨h.max, ?_, n, n, rfl, rfl, Int.le_refl _, a3 e4, ?_⟩⟩
  · unfold IdVar.getNext
    simp only [e2, hn]
  · intro x
    simp only [List.mem_cons, h.mem]
    exact or_assoc.symm
  · intro k k1 k2
    omega

theorem idsExt_skip {X : List IdVal} {v v' w : IdVar} {n : Int} (h : IdsExt X v v') (hg : v.getNext = .ok (n, w)) (hx : .i n ∈ X) : IdsExt X w v' := by
  obtain ⟨c, hc, hl, rfl⟩ := getNext_some hg
  obtain ⟨c1, c', e1, e2, e3, e4, e5⟩ := h.next
  rw [hc] at e1
  cases e1
  obtain ⟨a1, a2, a3, a4⟩ := nextLoop_ok hl
  refine ⟨h.max, ?_, n, c', rfl, e2, by omega, a3 e4, ?_⟩
  · intro x
    simp only [List.mem_cons]
    rw [h.mem]
    constructor
    · rintro (y | y)
      · exact .inl (.inr y)
      · exact .inr y
    · rintro ((rfl | y) | y)
      · exact .inr hx
      · exact .inl y
      · exact .inr y
  · intro k k1 k2
    by_cases hk : k < c
    · exact e5 k k1 hk
    · exact (h.mem _).2 (.inl (a4 k (by omega) k2))

/-! ### Node identifiers -/

theorem validateNodeIds_append (p : String → Option Int) (a b : List NodeRec) :
    validateNodeIds p (a ++ b) = (validateNodeIds p a).bind (fun x => (validateNodeIds p b).map (x ++ ·)) := by
  induction a with
  | nil => simp [validateNodeIds]
  | cons n r ih =>
    simp only [List.cons_append, validateNodeIds, ih]
    cases n.id with
    | none => cases validateNodeIds p r <;> cases validateNodeIds p b <;> rfl
    | some v =>
      dsimp only
      cases mustBeInt p (some 1) (some 150) v with
      | none => rfl
      | some v' => cases validateNodeIds p r <;> cases validateNodeIds p b <;> rfl

theorem validate_static {p : String → Option Int} {ns out : List NodeRec} (h : validateNodeIds p ns = some out) :
    ∀ m ∈ out, ∀ i, NodeRec.staticId m = some i → ∃ n ∈ ns, SpecifiedId p n.id i := by
  induction ns generalizing out with
  | nil =>
    cases h
    simp
  | cons n r ih =>
    simp only [validateNodeIds] at h
    intro m hm i hi
    cases hid : n.id with
    | none =>
      rw [hid] at h
      obtain ⟨x, hx, rfl⟩ := Option.map_eq_some_iff.1 h
      rcases List.mem_cons.1 hm with rfl | hm
      · simp [NodeRec.staticId, hid] at hi
      · obtain ⟨k, k1, k2⟩ := ih hx m hm i hi
        exact ⟨k, List.mem_cons_of_mem _ k1, k2⟩
    | some v =>
      rw [hid] at h
      dsimp only at h
      cases hv : mustBeInt p (some 1) (some 150) v with
      | none => rw [hv] at h; cases h
      | some v' =>
        rw [hv] at h
        obtain ⟨x, hx, rfl⟩ := Option.map_eq_some_iff.1 h
        rcases List.mem_cons.1 hm with rfl | hm
        · refine ⟨n, List.mem_cons_self, ?_⟩
          simp only [NodeRec.staticId] at hi
          cases v' with
          | int j =>
            cases hi
            unfold mustBeInt at hv
            split at hv
            · next s =>
              split at hv
              · next j hj =>
                cases hv
                exact .inr ⟨s, hid, hj⟩
              · split at hv <;> cases hv
            · split at hv
              · cases hv
                exact .inl hid
              · cases hv
          | _ => cases hi
        · obtain ⟨k, k1, k2⟩ := ih hx m hm i hi
          exact ⟨k, List.mem_cons_of_mem _ k1, k2⟩

theorem assignMissing_ext {X : List IdVal} {a b out out' : List NodeRec} {v v' : IdVar} (he : IdsExt X v v') (h : assignMissing a v = .ok out)
    (h' : assignMissing (a ++ b) v' = .ok out') (hx : ∀ r ∈ out, ∀ i, r.id = some (.int i) → .i i ∉ X) : ∃ t, out' = out ++ t := by
  induction a generalizing out out' v v' with
  | nil =>
    cases h
    exact ⟨out', rfl⟩
  | cons n r ih =>
    simp only [List.cons_append, assignMissing] at h h'
    cases hid : n.id with
    | some y =>
      rw [hid] at h h'
      dsimp only at h h'
      cases h1 : assignMissing r v with
      | error e => rw [h1] at h; cases h
      | ok o =>
        rw [h1] at h
        cases h
        cases h2 : assignMissing (r ++ b) v' with
        | error e => rw [h2] at h'; cases h'
        | ok o' =>
          rw [h2] at h'
          cases h'
          obtain ⟨t, rfl⟩ := ih he h1 h2 (fun r hr => hx r (List.mem_cons_of_mem _ hr))
          exact ⟨t, rfl⟩
    | none =>
      rw [hid] at h h'
      dsimp only at h h'
      cases hg : v.getNext with
      | error e => rw [hg] at h; cases h
      | ok p =>
        obtain ⟨i, w⟩ := p
        rw [hg] at h
        dsimp only at h
        cases h1 : assignMissing r w with
        | error e => rw [h1] at h; cases h
        | ok o =>
          rw [h1] at h
          cases h
          obtain ⟨w', k1, k2⟩ := idsExt_next he hg (hx _ List.mem_cons_self i rfl)
          rw [k1] at h'
          dsimp only at h'
          cases h2 : assignMissing (r ++ b) w' with
          | error e => rw [h2] at h'; cases h'
          | ok o' =>
            rw [h2] at h'
            cases h'
            obtain ⟨t, rfl⟩ := ih k2 h1 h2 (fun r hr => hx r (List.mem_cons_of_mem _ hr))
            exact ⟨t, rfl⟩

/-- **C119**: nodes added at the end of the list of nodes don't change identifiers of other nodes, when the identifiers specified for new nodes are not used in
the original lab. -/
theorem C119_node_ids (pyInt : String → Option Int) (reserved : IdVar) (a b out out' : List NodeRec) (h : nodeIdPipeline pyInt reserved a = .ok out)
    (h' : nodeIdPipeline pyInt reserved (a ++ b) = .ok out')
    (hx : ∀ n ∈ b, ∀ i, SpecifiedId pyInt n.id i → ∀ r ∈ out, r.id ≠ some (.int i)) : ∃ t, out' = out ++ t ∧ t.map (·.name) = b.map (·.name) := by
  have hlen : out.map (·.name) = a.map (·.name) := by
    obtain ⟨_, e, _⟩ := C02_node_ids pyInt reserved a out h
    exact e
  have hlen' : out'.map (·.name) = (a ++ b).map (·.name) := by
    obtain ⟨_, e, _⟩ := C02_node_ids pyInt reserved (a ++ b) out' h'
    exact e
  suffices hs : ∃ t, out' = out ++ t by
    obtain ⟨t, rfl⟩ := hs
    refine ⟨t, rfl, ?_⟩
    rw [List.map_append, List.map_append, hlen] at hlen'
    exact List.append_cancel_left hlen'
  unfold nodeIdPipeline at h h'
  rw [validateNodeIds_append] at h'
  cases ha : validateNodeIds pyInt a with
  | none => rw [ha] at h; cases h
  | some A =>
    cases hb : validateNodeIds pyInt b with
    | none => rw [ha, hb] at h'; cases h'
    | some B =>
      rw [ha] at h
      rw [ha, hb] at h'
      simp only [Option.bind_some, Option.map_some] at h h'
      obtain ⟨_, ca, _⟩ := validateNodeIds_ok ha
      obtain ⟨_, cb, _⟩ := validateNodeIds_ok hb
      unfold transformNodeIds at h h'
      rcases hr : reserveStatic pyInt A reserved with ⟨r, v, e⟩
      rcases hr' : reserveStatic pyInt (A ++ B) reserved with ⟨r', v', e'⟩
      rw [hr] at h
      rw [hr'] at h'
      cases e with
      | true => cases h
      | false =>
        cases e' with
        | true => cases h'
        | false =>
          dsimp only at h h'
          obtain ⟨rfl, _, _, m1, _⟩ := reserveStatic_ok ca hr
          obtain ⟨rfl, _, _, m2, _⟩ := reserveStatic_ok (fun n hn => (List.mem_append.1 hn).elim (ca n) (cb n)) hr'
          refine assignMissing_ext (X := (B.filterMap NodeRec.staticId).map .i) (v := v.setCounter 1 MAX_NODE_ID) (v' := v'.setCounter 1 MAX_NODE_ID) ⟨rfl, ?_, 1, 1, rfl, rfl, Int.le_refl _, by simp [IdVar.setCounter, MAX_NODE_ID], ?_⟩ h h' ?_
          · intro x
            show x ∈ v'.value ↔ x ∈ v.value ∨ _
            rw [m1, m2]
            simp only [List.filterMap_append, List.mem_append, List.mem_map]
            constructor
            · rintro (k | ⟨i, k | k, rfl⟩)
              · exact .inl (.inl k)
              · exact .inl (.inr ⟨i, k, rfl⟩)
              · exact .inr ⟨i, k, rfl⟩
            · rintro ((k | ⟨i, k, rfl⟩) | ⟨i, k, rfl⟩)
              · exact .inl k
              · exact .inr ⟨i, .inl k, rfl⟩
              · exact .inr ⟨i, .inr k, rfl⟩
          · intro k k1 k2
            omega
          · intro r hr i hi hm
            rw [List.mem_map] at hm
            obtain ⟨j, hj, hij⟩ := hm
            cases hij
            obtain ⟨m, hm, hms⟩ := List.mem_filterMap.1 hj
            obtain ⟨n, hn, hs⟩ := validate_static hb m hm i hms
            exact hx n hn i hs r hr hi

/-! ### Address pools -/

/-- Pools with the same names; pools outside of `S` are the same. -/
structure PoolsExt (S : String → Prop) (p p' : Pools) : Prop where
  keys : p'.map (·.1) = p.map (·.1)
  same : ∀ q, ¬ S q → p'.lookup q = p.lookup q

theorem PoolsExt.any {S : String → Prop} {p p' : Pools} (h : PoolsExt S p p') (q : String) : p'.any (fun kv => kv.1 == q) = p.any (fun kv => kv.1 == q) := by
  have : ∀ l : Pools, l.any (fun kv => kv.1 == q) = (l.map (·.1)).any (· == q) := by
    intro l
    rw [List.any_map]
    rfl
  rw [this, this, h.keys]

theorem PoolsExt.isSome {S : String → Prop} {p p' : Pools} (h : PoolsExt S p p') (q : String) : (p'.lookup q).isSome = (p.lookup q).isSome := by
  have : ∀ l : Pools, (l.lookup q).isSome = (l.map (·.1)).any (· == q) := by
    intro l
    induction l with
    | nil => rfl
    | cons x r ih =>
      rw [List.lookup_cons]
      by_cases hk : q = x.1
      · simp [hk]
      · have : (q == x.1) = false := by simpa using hk
        rw [this]
        simp only [List.map_cons, List.any_cons, ih]
        have h2 : (x.1 == q) = false := by simpa using fun h => hk h.symm
        rw [h2, Bool.false_or]
  rw [this, this, h.keys]

theorem PoolsExt.getPool {S : String → Prop} {p p' : Pools} (h : PoolsExt S p p') (l : List String) : Netlab.getPool p' l = Netlab.getPool p l := by
  induction l with
  | nil => rfl
  | cons a r ih => simp only [Netlab.getPool, h.any, ih]

theorem keys_setPool (q : String) (x : Pool) (p : Pools) : (setPool q x p).map (·.1) = p.map (·.1) := by
  induction p with
  | nil => rfl
  | cons y r ih =>
    unfold setPool
    split
    · rfl
    · simp [ih]

theorem PoolsExt.getPrefix {S : String → Prop} {p p' : Pools} (h : PoolsExt S p p') (l : List String) (n : Nat)
    (hs : ∀ q, (getPrefix p l n).1 = some q → ¬ S q) :
    (getPrefix p' l n).1 = (getPrefix p l n).1 ∧ (getPrefix p' l n).2.1 = (getPrefix p l n).2.1 ∧ (getPrefix p' l n).2.2.2 = (getPrefix p l n).2.2.2 ∧
      PoolsExt S (getPrefix p l n).2.2.1 (getPrefix p' l n).2.2.1 := by
  unfold Netlab.getPrefix at hs ⊢
  simp only [h.getPool] at hs ⊢
  cases hg : Netlab.getPool p (if l.isEmpty = true then ["lan"] else l) with
  | none => exact ⟨rfl, rfl, rfl, h⟩
  | some q =>
    rw [hg] at hs
    have hq : ¬ S q := hs q rfl
    simp only [h.same q hq]
    refine ⟨trivial, trivial, trivial, ?_, ?_⟩
    · rw [keys_setPool, keys_setPool, h.keys]
    · intro r hr
      by_cases hrq : r = q
      · subst hrq
        by_cases ha : p.any (fun kv => kv.1 == r) = true
        · rw [lookup_setPool_self _ _ _ ha, lookup_setPool_self _ _ _ (by rw [h.any]; exact ha)]
        · have hn : ∀ (x : Pool) (l : Pools), ¬ l.any (fun kv => kv.1 == r) = true → setPool r x l = l := by
            intro x l hl
            induction l with
            | nil => rfl
            | cons y t ih =>
              simp only [List.any_cons, Bool.or_eq_true, not_or] at hl
              unfold setPool
              rw [if_neg hl.1, ih hl.2]
          rw [hn _ _ ha, hn _ _ (by rw [h.any]; exact ha)]
          exact h.same r hr
      · rw [lookup_setPool_ne _ _ _ _ hrq, lookup_setPool_ne _ _ _ _ hrq]
        exact h.same r hr

theorem PoolsExt.refl (S : String → Prop) (p : Pools) : PoolsExt S p p := ⟨rfl, fun _ _ => rfl⟩

theorem PoolsExt.trans {S : String → Prop} {p q r : Pools} (h1 : PoolsExt S p q) (h2 : PoolsExt S q r) : PoolsExt S p r :=
  ⟨h2.keys.trans h1.keys, fun x hx => (h2.same x hx).trans (h1.same x hx)⟩

/-- A prefix taken from a pool changes only that pool. -/
theorem getPrefix_ext (S : String → Prop) (p : Pools) (q : String) (n : Nat) (hs : S q) : PoolsExt S p (getPrefix p [q] n).2.2.1 := by
  unfold getPrefix getPool
  simp only [List.isEmpty_cons, Bool.false_eq_true, if_false]
  by_cases ha : p.any (fun kv => kv.1 == q) = true
  · simp only [ha, if_true]
    exact ⟨keys_setPool _ _ _, fun r hr => lookup_setPool_ne _ _ _ _ (fun h => hr (h ▸ hs))⟩
  · have ha : p.any (fun kv => kv.1 == q) = false := Bool.eq_false_iff.2 ha
    simp only [ha, getPool, Bool.false_eq_true, if_false]
    exact PoolsExt.refl _ _

theorem runRequests_ext {S : String → Prop} (l : List (List String × Nat)) {p p' : Pools} (h : PoolsExt S p p')
    (hs : ∀ x ∈ (runRequests p l).1, ∀ q, x.2.1 = some q → ¬ S q) :
    (runRequests p' l).1 = (runRequests p l).1 ∧ PoolsExt S (runRequests p l).2 (runRequests p' l).2 := by
  induction l generalizing p p' with
  | nil => exact ⟨rfl, h⟩
  | cons x r ih =>
    obtain ⟨pl, n⟩ := x
    simp only [runRequests] at hs ⊢
    obtain ⟨e1, e2, _, e4⟩ := h.getPrefix pl n (fun q hq => hs _ List.mem_cons_self q hq)
    obtain ⟨f1, f2⟩ := ih e4 (fun x hx => hs x (List.mem_cons_of_mem _ hx))
    exact ⟨by rw [e1, e2, f1], f2⟩

/-! ### Loopback addresses -/

theorem lbNodes_append (a b : List LbNode) (p : Pools) :
    (lbNodes p (a ++ b)).1 = (lbNodes p a).1 ++ (lbNodes (lbNodes p a).2.2 b).1 ∧ (lbNodes p (a ++ b)).2.2 = (lbNodes (lbNodes p a).2.2 b).2.2 := by
  induction a generalizing p with
  | nil => exact ⟨rfl, rfl⟩
  | cons n r ih =>
    simp only [List.cons_append, lbNodes]
    by_cases hh : n.host = true
    · simp only [hh, if_true]
      exact ⟨by rw [(ih p).1]; rfl, (ih p).2⟩
    · simp only [hh, if_false, Bool.false_eq_true]
      exact ⟨by rw [(ih _).1]; rfl, (ih _).2⟩

theorem lbNodes_ext (S : String → Prop) (b : List LbNode) (p : Pools) (hs : ∀ n ∈ b, n.host = false → S (n.pool.getD "loopback")) :
    PoolsExt S p (lbNodes p b).2.2 := by
  induction b generalizing p with
  | nil => exact PoolsExt.refl _ _
  | cons n r ih =>
    simp only [lbNodes]
    by_cases hh : n.host = true
    · simp only [hh, if_true]
      exact ih p (fun m hm => hs m (List.mem_cons_of_mem _ hm))
    · simp only [hh, if_false, Bool.false_eq_true]
      exact (getPrefix_ext S p _ n.id (hs n List.mem_cons_self (by simpa using hh))).trans (ih _ (fun m hm => hs m (List.mem_cons_of_mem _ hm)))

theorem lbNodes_fst (l : List LbNode) (p : Pools) : (lbNodes p l).1.map (·.1) = l := by
  induction l generalizing p with
  | nil => rfl
  | cons n r ih =>
    simp only [lbNodes]
    by_cases hh : n.host = true
    · simp only [hh, if_true, List.map_cons, ih]
    · simp only [hh, if_false, Bool.false_eq_true, List.map_cons, ih]

/-! ### Links -/

theorem ipamUnnumbered_congr (b : Option Bool) {loop loop' : String → Option Bool} (v6 : Bool) (ifs : List LinkIntf) (h : ∀ i ∈ ifs, loop' i.node = loop i.node) :
    ipamUnnumbered b loop' v6 ifs = ipamUnnumbered b loop v6 ifs := by
  induction ifs with
  | nil => rfl
  | cons i r ih =>
    simp only [ipamUnnumbered, ih (fun j hj => h j (List.mem_cons_of_mem _ hj)), h i List.mem_cons_self]

theorem ipamIdBased_congr (pfx : Net) {ids ids' : String → Int} (ifs : List LinkIntf) (h : ∀ i ∈ ifs, ids' i.node = ids i.node) :
    ipamIdBased pfx ids' ifs = ipamIdBased pfx ids ifs := by
  induction ifs with
  | nil => rfl
  | cons i r ih =>
    simp only [ipamIdBased, ih (fun j hj => h j (List.mem_cons_of_mem _ hj)), h i List.mem_cons_self]

theorem assignAf_congr (p2p : Bool) (gwid : Option Int) (alloc : Option Policy) {ids ids' : String → Int} {loop loop' : String → Option Bool} (v6 : Bool) (pfx : Net)
    (ifs : List LinkIntf) (h1 : ∀ i ∈ ifs, ids' i.node = ids i.node) (h2 : ∀ i ∈ ifs, loop' i.node = loop i.node) :
    assignAf p2p gwid alloc ids' loop' v6 pfx ifs = assignAf p2p gwid alloc ids loop v6 pfx ifs := by
  have hm : ifs.map (fun i => ids' i.node) = ifs.map (fun i => ids i.node) := List.map_congr_left h1
  have hr : ∀ p, runPolicy p pfx gwid ids' loop' v6 ifs = runPolicy p pfx gwid ids loop v6 ifs := by
    intro p
    unfold runPolicy
    rw [ipamUnnumbered_congr none v6 ifs h2, ipamIdBased_congr pfx ifs h1]
  unfold assignAf choosePolicy
  rw [hm]
  simp only [hr]

theorem laAf_congr (p2p : Bool) (gwid : Option Int) (alloc : Option (Option Policy)) {ids ids' : String → Int} {loop loop' : String → Option Bool} (v6 : Bool)
    (e : Option PfxEntry) (ifs : List LinkIntf) (h1 : ∀ i ∈ ifs, ids' i.node = ids i.node) (h2 : ∀ i ∈ ifs, loop' i.node = loop i.node) :
    laAf p2p gwid alloc ids' loop' v6 e ifs = laAf p2p gwid alloc ids loop v6 e ifs := by
  have hc := fun a n => assignAf_congr p2p gwid a v6 n ifs h1 h2
  have hu := fun b => ipamUnnumbered_congr b v6 ifs h2
  unfold laAf
  simp only [hc, hu]

theorem laAssign_congr {ids ids' : String → Int} {l4 l4' l6 l6' : String → Option Bool} (l : LaLink) (pfx : List (String × PfxEntry))
    (h1 : ∀ i ∈ l.ifs, ids' i.node = ids i.node) (h2 : ∀ i ∈ l.ifs, l4' i.node = l4 i.node) (h3 : ∀ i ∈ l.ifs, l6' i.node = l6 i.node) :
    laAssign ids' l4' l6' l pfx = laAssign ids l4 l6 l pfx := by
  have m1 : ∀ i ∈ l.ifs.map (fun i => (⟨i.node, i.v4⟩ : LinkIntf)), ids' i.node = ids i.node := by
    intro i hi
    obtain ⟨j, hj, rfl⟩ := List.mem_map.1 hi
    exact h1 j hj
  have m2 : ∀ i ∈ l.ifs.map (fun i => (⟨i.node, i.v6⟩ : LinkIntf)), ids' i.node = ids i.node := by
    intro i hi
    obtain ⟨j, hj, rfl⟩ := List.mem_map.1 hi
    exact h1 j hj
  have m3 : ∀ i ∈ l.ifs.map (fun i => (⟨i.node, i.v4⟩ : LinkIntf)), l4' i.node = l4 i.node := by
    intro i hi
    obtain ⟨j, hj, rfl⟩ := List.mem_map.1 hi
    exact h2 j hj
  have m4 : ∀ i ∈ l.ifs.map (fun i => (⟨i.node, i.v6⟩ : LinkIntf)), l6' i.node = l6 i.node := by
    intro i hi
    obtain ⟨j, hj, rfl⟩ := List.mem_map.1 hi
    exact h3 j hj
  unfold laAssign
  simp only [laAf_congr l.p2p l.gwid (laAlloc pfx) false (pfx.lookup "ipv4") _ m1 m3, laAf_congr l.p2p l.gwid (laAlloc pfx) true (pfx.lookup "ipv6") _ m2 m4,
    ipamUnnumbered_congr none false _ m3, ipamUnnumbered_congr none true _ m4]

theorem laPrefix_ext {S : String → Prop} {p p' : Pools} (h : PoolsExt S p p') (l : LaLink) (hs : ∀ q, (laPrefix p l).src = some q → ¬ S q) :
    (laPrefix p' l).src = (laPrefix p l).src ∧ (laPrefix p' l).pfx = (laPrefix p l).pfx ∧ (laPrefix p' l).err = (laPrefix p l).err ∧
      PoolsExt S (laPrefix p l).pools (laPrefix p' l).pools := by
  have hc : laCandidates p' l = laCandidates p l := by
    unfold laCandidates
    cases l.pool <;> cases l.role <;> simp only [h.isSome]
  have hf : ∀ x, (∀ q, (laFromPool p l x).src = some q → ¬ S q) → (laFromPool p' l x).src = (laFromPool p l x).src ∧ (laFromPool p' l x).pfx = (laFromPool p l x).pfx ∧
      (laFromPool p' l x).err = (laFromPool p l x).err ∧ PoolsExt S (laFromPool p l x).pools (laFromPool p' l x).pools := by
    intro x hx
    unfold laFromPool at hx ⊢
    by_cases hu : l.unnumbered = true
    · simp only [hu, if_true]
      exact ⟨trivial, trivial, trivial, h⟩
    · simp only [hu, if_false, Bool.false_eq_true] at hx ⊢
      obtain ⟨e1, e2, e3, e4⟩ := h.getPrefix (laCandidates p l).1 0 hx
      rw [hc, e1, e2, e3]
      exact ⟨rfl, rfl, rfl, e4⟩
  unfold laPrefix at hs ⊢
  cases hp : l.pfx with
  | none =>
    rw [hp] at hs
    exact hf [] hs
  | some x =>
    obtain ⟨d, e⟩ := x
    rw [hp] at hs
    dsimp only at hs ⊢
    by_cases hd : (d.isEmpty || laHas "ipv4" d || laHas "ipv6" d) = true
    · rw [if_pos hd, if_pos hd]
      exact ⟨rfl, rfl, rfl, h⟩
    · rw [if_neg hd, if_neg hd]
      rw [if_neg hd] at hs
      obtain ⟨e1, e2, e3, e4⟩ := hf d hs
      exact ⟨e1, e2, by simp only [e3], e4⟩

theorem laLinks_ext {S : String → Prop} {ids ids' : String → Int} {l4 l4' l6 l6' : String → Option Bool} {dup : Bool} (links more : List LaLink) {p p' q q' : Pools}
    {outs outs' : List LaOut} (h : PoolsExt S p p') (hl : laLinks ids l4 l6 dup p links = some (outs, q)) (hl' : laLinks ids' l4' l6' dup p' (links ++ more) = some (outs', q'))
    (h1 : ∀ l ∈ links, ∀ i ∈ l.ifs, ids' i.node = ids i.node ∧ l4' i.node = l4 i.node ∧ l6' i.node = l6 i.node) (hs : ∀ o ∈ outs, ∀ x, o.src = some x → ¬ S x) :
    ∃ t, outs' = outs ++ t ∧ t.length = more.length := by
  induction links generalizing p p' outs outs' with
  | nil =>
    cases hl
    refine ⟨outs', rfl, ?_⟩
    exact (laLinks_log more _ _ outs' hl').1
  | cons l r ih =>
    simp only [List.cons_append, laLinks] at hl hl'
    cases ha : laLink ids l4 l6 dup p l with
    | none => rw [ha] at hl; cases hl
    | some x =>
      obtain ⟨o, p1⟩ := x
      rw [ha] at hl
      dsimp only at hl
      cases hb : laLinks ids l4 l6 dup p1 r with
      | none => rw [hb] at hl; cases hl
      | some y =>
        rw [hb] at hl
        cases hl
        have hl1 := h1 l List.mem_cons_self
        have hstep : ∃ p1', laLink ids' l4' l6' dup p' l = some (o, p1') ∧ PoolsExt S p1 p1' := by
          unfold laLink at ha ⊢
          dsimp only at ha ⊢
          have hsrc : ∀ z, (laPrefix p l).src = some z → ¬ S z := by
            cases hq : laAssign ids l4 l6 l (laPrefix p l).pfx with
            | none => simp [hq] at ha
            | some z =>
              simp only [hq, Option.some.injEq, Prod.mk.injEq] at ha
              intro z hz
              refine hs o List.mem_cons_self z ?_
              rw [← ha.1]
              exact hz
          obtain ⟨e1, e2, e3, e4⟩ := laPrefix_ext h l hsrc
          rw [e1, e2, e3, laAssign_congr l _ (fun i hi => (hl1 i hi).1) (fun i hi => (hl1 i hi).2.1) (fun i hi => (hl1 i hi).2.2)]
          cases hq : laAssign ids l4 l6 l (laPrefix p l).pfx with
          | none => simp [hq] at ha
          | some z =>
            simp only [hq, Option.some.injEq, Prod.mk.injEq] at ha ⊢
            obtain ⟨a1, rfl⟩ := ha
            exact ⟨_, ⟨a1, rfl⟩, e4⟩
        obtain ⟨p1', g1, g2⟩ := hstep
        rw [g1] at hl'
        dsimp only at hl'
        cases hc : laLinks ids' l4' l6' dup p1' (r ++ more) with
        | none => rw [hc] at hl'; cases hl'
        | some z =>
          rw [hc] at hl'
          cases hl'
          obtain ⟨t, t1, t2⟩ := ih g2 hb hc (fun l hl => h1 l (List.mem_cons_of_mem _ hl)) (fun o ho => hs o (List.mem_cons_of_mem _ ho))
          exact ⟨t, by rw [t1]; rfl, t2⟩

/-! ### Node interfaces -/

theorem createInterfaces_append (dev : String → NodeDev) (a b : List LinkReq) (all : List NodeIf) :
    (createInterfaces dev all (a ++ b)).1 = (createInterfaces dev (createInterfaces dev all a).1 b).1 := by
  induction a generalizing all with
  | nil => rfl
  | cons l r ih =>
    simp only [List.cons_append, createInterfaces]
    exact ih _

theorem createInterfaces_prefix (dev : String → NodeDev) (b : List LinkReq) (all : List NodeIf) : all <+: (createInterfaces dev all b).1 := by
  induction b generalizing all with
  | nil => exact List.prefix_refl _
  | cons l r ih =>
    simp only [createInterfaces]
    exact (List.prefix_append _ _).trans (ih _)

/-! ### The whole lab -/

theorem planId_append {recs more : List NodeRec} {n : String} (h : n ∈ recs.map (·.name)) : planId (recs ++ more) n = planId recs n := by
  unfold planId
  rw [List.find?_append]
  cases hf : recs.find? (·.name == n) with
  | some r => rfl
  | none =>
    obtain ⟨r, hr, rfl⟩ := List.mem_map.1 h
    exact absurd (List.find?_eq_none.1 hf r hr) (by simp)

theorem planLoop_append (af : String) {lbs more : List (LbNode × LbState)} {n : String} (h : n ∈ lbs.map (·.1.name)) :
    planLoop af (lbs ++ more) n = planLoop af lbs n := by
  unfold planLoop
  rw [List.find?_append]
  cases hf : lbs.find? (fun x => x.1.name == n) with
  | some r => rfl
  | none =>
    obtain ⟨r, hr, rfl⟩ := List.mem_map.1 h
    exact absurd (List.find?_eq_none.1 hf r hr) (by simp)

theorem zipWith_planLb_names {nodes : List PlanNode} {recs : List NodeRec} (h : recs.length = nodes.length) :
    (List.zipWith planLb nodes recs).map (·.name) = nodes.map (·.name) := by
  induction nodes generalizing recs with
  | nil => simp
  | cons n r ih =>
    cases recs with
    | nil => cases h
    | cons x t => simp only [List.zipWith_cons_cons, List.map_cons, ih (Nat.succ.inj h), planLb]

theorem mem_zipWith_planLb {nodes : List PlanNode} {recs : List NodeRec} {n : LbNode} (h : n ∈ List.zipWith planLb nodes recs) :
    ∃ m ∈ nodes, n.host = m.host ∧ n.pool = m.pool := by
  induction nodes generalizing recs with
  | nil => simp at h
  | cons m r ih =>
    cases recs with
    | nil => simp at h
    | cons x t =>
      rw [List.zipWith_cons_cons, List.mem_cons] at h
      rcases h with rfl | h
      · exact ⟨m, List.mem_cons_self, rfl, rfl⟩
      · obtain ⟨k, k1, k2⟩ := ih h
        exact ⟨k, List.mem_cons_of_mem _ k1, k2⟩

/-- **C119**: nodes and links added to the lab topology change nothing in the original lab: nodes have the same identifiers and loopback addresses, links have the
same prefixes, interfaces the same indices, names, addresses and neighbors.  New nodes come after the existing ones, new links as well; identifiers specified for
new nodes are not used in the original lab, and the pools for loopbacks of new nodes are not used for prefixes. -/
theorem C119_lab (e : PlanEnv) (nodes nodes' : List PlanNode) (links links' : List PlanLink) (out out' : PlanOut)
    (h : plan e nodes links = some out) (h' : plan e (nodes ++ nodes') (links ++ links') = some out')
    (hl : ∀ l ∈ links, ∀ i ∈ l.la.ifs, i.node ∈ nodes.map (·.name))
    (hid : ∀ n ∈ nodes', ∀ i, SpecifiedId e.pyInt n.id i → ∀ r ∈ out.ids, r.id ≠ some (.int i))
    (hp : ∀ p, LoopbackPool nodes' p → ¬ PrefixPool out p) :
    (∃ t, out'.ids = out.ids ++ t) ∧ (∃ t, out'.loopbacks = out.loopbacks ++ t) ∧ out'.prefixes = out.prefixes ∧ (∃ t, out'.links = out.links ++ t) ∧
      ∃ t, out'.ifs = out.ifs ++ t := by
  unfold plan at h h'
  cases hn : nodeIdPipeline e.pyInt e.reserved (nodes.map (fun n => ⟨n.name, n.id⟩)) with
  | error x => rw [hn] at h; cases h
  | ok recs =>
    cases hn' : nodeIdPipeline e.pyInt e.reserved ((nodes ++ nodes').map (fun n => ⟨n.name, n.id⟩)) with
    | error x => rw [hn'] at h'; cases h'
    | ok recs' =>
      rw [hn] at h
      rw [hn'] at h'
      dsimp only at h h'
      generalize hlb : lbNodes e.pools (List.zipWith planLb nodes recs) = lbs at h
      generalize hlb' : lbNodes e.pools (List.zipWith planLb (nodes ++ nodes') recs') = lbs' at h'
      cases ha : laLinks (planId recs) (planLoop "ipv4" lbs.1) (planLoop "ipv6" lbs.1) e.dup (runRequests lbs.2.2 e.mid).2 (links.map (·.la)) with
      | none => rw [ha] at h; cases h
      | some r =>
        cases ha' : laLinks (planId recs') (planLoop "ipv4" lbs'.1) (planLoop "ipv6" lbs'.1) e.dup (runRequests lbs'.2.2 e.mid).2 ((links ++ links').map (·.la)) with
        | none => rw [ha'] at h'; cases h'
        | some r' =>
          rw [ha] at h
          rw [ha'] at h'
          cases h
          cases h'
          dsimp only at hid ⊢
          have hrn : recs.map (·.name) = nodes.map (·.name) := by
            obtain ⟨_, k, _⟩ := C02_node_ids _ _ _ _ hn
            rw [k, List.map_map]
            rfl
          have hrl : recs.length = nodes.length := by simpa using congrArg List.length hrn
          rw [List.map_append] at hn'
          obtain ⟨t, rfl, _⟩ := C119_node_ids e.pyInt e.reserved _ _ recs recs' hn hn' (fun n hn i hi r hr => by
            obtain ⟨m, hm, rfl⟩ := List.mem_map.1 hn
            exact hid m hm i hi r hr)
          rw [List.zipWith_append (by rw [hrl])] at hlb'
          obtain ⟨k1, k2⟩ := lbNodes_append (List.zipWith planLb nodes recs) (List.zipWith planLb nodes' t) e.pools
          rw [hlb', hlb] at k1 k2
          have hS : PoolsExt (LoopbackPool nodes') lbs.2.2 lbs'.2.2 := by
            rw [k2]
            refine lbNodes_ext _ _ _ ?_
            intro n hn hh
            obtain ⟨m, hm, e1, e2⟩ := mem_zipWith_planLb hn
            exact ⟨m, hm, by rw [← e1]; exact hh, by rw [e2]⟩
          obtain ⟨m1, m2⟩ := runRequests_ext e.mid hS (fun x hx q hq hs => hp q hs (.inr ⟨x, hx, hq⟩))
          rw [List.map_append] at ha'
          have hnames : lbs.1.map (·.1.name) = nodes.map (·.name) := by
            have := lbNodes_fst (List.zipWith planLb nodes recs) e.pools
            rw [hlb] at this
            have h2 := congrArg (List.map (·.name)) this
            rw [zipWith_planLb_names hrl, List.map_map] at h2
            exact h2
          obtain ⟨u, u1, u2⟩ := laLinks_ext (links.map (·.la)) (links'.map (·.la)) m2 ha ha' (by
            intro l hl' i hi
            obtain ⟨pl, hpl, rfl⟩ := List.mem_map.1 hl'
            have hin := hl pl hpl i hi
            refine ⟨planId_append (by rw [hrn]; exact hin), ?_, ?_⟩
            · rw [k1]
              exact planLoop_append _ (by rw [hnames]; exact hin)
            · rw [k1]
              exact planLoop_append _ (by rw [hnames]; exact hin)) (fun o ho x hx hs => hp x hs (.inl ⟨o, ho, hx⟩))
          refine ⟨⟨t, rfl⟩, ⟨_, k1⟩, m1, ⟨u, u1⟩, ?_⟩
          have hlen : r.1.length = links.length := by simpa using (laLinks_log _ _ _ _ ha).1
          rw [u1, List.zipWith_append (by rw [hlen]), createInterfaces_append]
          obtain ⟨w, hw⟩ := createInterfaces_prefix e.dev (List.zipWith planReq links' u) (createInterfaces e.dev [] (List.zipWith planReq links r.1)).1
          exact ⟨w, hw.symm⟩

/-! ### Examples and defects -/

namespace StabilityExample

def dev : NodeDev := ⟨none, none, some (fun i => "Ethernet" ++ toString i), fun _ => none, none, false⟩

def env (mid : List (List String × Nat)) : PlanEnv := ⟨fun _ => none, {}, laExPools, mid, fun _ => dev, true⟩

def node (n : String) (id : Option Val) (pool : Option String) : PlanNode := ⟨n, id, false, pool, []⟩

def link (i : Int) (a b : String) : PlanLink :=
  ⟨i, ⟨"links", false, none, none, false, none, none, ["lan"], [⟨a, .missing, .missing⟩, ⟨b, .missing, .missing⟩]⟩,
    [⟨none, none, none, .missing, .missing, none⟩, ⟨none, none, none, .missing, .missing, none⟩]⟩

def ids (o : Option PlanOut) : List (String × Int) := (o.map (fun p => p.ids.map (fun r => (r.name, recId r)))).getD []

def lbs (o : Option PlanOut) : List (String × Option (Nat × Nat)) :=
  (o.map (fun p => p.loopbacks.map (fun r => (r.1.name, match r.2.lb.lookup "ipv4" with | some (.addr a l) => some (a, l) | _ => none)))).getD []

def addrs (o : Option PlanOut) : List (String × Int × Option String × IfAddr) := (o.map (fun p => p.ifs.map (fun r => (r.node, r.ifindex, r.ifname, r.ip4)))).getD []

/-- Two nodes with a link, and the same lab with one more node and one more link -/
def small : Option PlanOut := plan (env []) [node "a" none none, node "b" (some (.int 7)) none] [link 1 "a" "b"]

def large : Option PlanOut := plan (env []) ([node "a" none none, node "b" (some (.int 7)) none] ++ [node "c" (some (.int 3)) none]) ([link 1 "a" "b"] ++ [link 2 "c" "a"])

example : small.isSome = true ∧ large.isSome = true := by decide +kernel

example : ids small = [("a", 1), ("b", 7)] ∧ ids large = [("a", 1), ("b", 7), ("c", 3)] := by decide +kernel

example : lbs small = [("a", some (10 * 2 ^ 24 + 1, 32)), ("b", some (10 * 2 ^ 24 + 7, 32))] ∧
    lbs large = lbs small ++ [("c", some (10 * 2 ^ 24 + 3, 32))] := by decide +kernel

example : addrs small = [("a", 1, some "Ethernet1", .addr (172 * 2 ^ 24 + 2 ^ 20 + 1) 24), ("b", 1, some "Ethernet1", .addr (172 * 2 ^ 24 + 2 ^ 20 + 7) 24)] ∧
    addrs large = addrs small ++ [("c", 1, some "Ethernet1", .addr (172 * 2 ^ 24 + 2 ^ 20 + 256 + 3) 24),
      ("a", 2, some "Ethernet2", .addr (172 * 2 ^ 24 + 2 ^ 20 + 256 + 1) 24)] := by decide +kernel

/-- The example meets the conditions of `C119_lab`. -/
example : (∀ n ∈ [node "c" (some (.int 3)) none], ∀ i, SpecifiedId (env []).pyInt n.id i → ∀ o, small = some o → ∀ r ∈ o.ids, r.id ≠ some (.int i)) ∧
    ∀ p, LoopbackPool [node "c" (some (.int 3)) none] p → ∀ o, small = some o → ¬ PrefixPool o p := by
  refine ⟨?_, ?_⟩
  · intro n hn i hi o ho r hr
    simp only [List.mem_singleton] at hn
    subst hn
    simp only [SpecifiedId, node, env, Option.some.injEq, Val.int.injEq, reduceCtorEq, and_false, exists_false, or_false] at hi
    subst hi
    have h1 : (small.map (fun p => p.ids.all (fun r => r.id != some (.int 3)))) = some true := by decide +kernel
    rw [ho] at h1
    simp only [Option.map_some, Option.some.injEq, List.all_eq_true] at h1
    simpa using h1 r hr
  · rintro p ⟨n, hn, _, rfl⟩ o ho hp
    simp only [List.mem_singleton] at hn
    subst hn
    have h1 : (small.map (fun p => p.links.all (fun l => l.src != some "loopback") && p.prefixes.all (fun x => x.2.1 != some "loopback"))) = some true := by decide +kernel
    rw [ho] at h1
    simp only [Option.map_some, Option.some.injEq, Bool.and_eq_true, List.all_eq_true] at h1
    rcases hp with ⟨l, hl, e⟩ | ⟨x, hx, e⟩
    · simpa [e, node] using h1.1 l hl
    · simpa [e, node] using h1.2 x hx

end StabilityExample

open StabilityExample in
/-- C119 defect (the condition on identifiers is needed): a new node takes the identifier of an existing node, which then gets another identifier, loopback
address and interface address. -/
theorem C119_static_id_shifts :
    let old := plan (env []) [node "a" none none, node "b" none none] [link 1 "a" "b"]
    let new := plan (env []) ([node "a" none none, node "b" none none] ++ [node "c" (some (.int 1)) none]) [link 1 "a" "b"]
    ids old = [("a", 1), ("b", 2)] ∧ ids new = [("a", 2), ("b", 3), ("c", 1)] ∧
      lbs old ≠ (lbs new).take 2 ∧ addrs old ≠ addrs new := by
  decide +kernel

open StabilityExample in
/-- C119 defect (the condition on pools is needed): the loopback of a new node takes a prefix from the pool used for links, and the prefixes of existing links change. -/
theorem C119_loopback_pool_shifts :
    let old := plan (env []) [node "a" none none, node "b" none none] [link 1 "a" "b"]
    let new := plan (env []) ([node "a" none none, node "b" none none] ++ [node "c" none (some "lan")]) [link 1 "a" "b"]
    ids new = ids old ++ [("c", 3)] ∧ addrs old = [("a", 1, some "Ethernet1", .addr (172 * 2 ^ 24 + 2 ^ 20 + 1) 24), ("b", 1, some "Ethernet1", .addr (172 * 2 ^ 24 + 2 ^ 20 + 2) 24)] ∧
      addrs new = [("a", 1, some "Ethernet1", .addr (172 * 2 ^ 24 + 2 ^ 20 + 3 * 256 + 1) 24), ("b", 1, some "Ethernet1", .addr (172 * 2 ^ 24 + 2 ^ 20 + 3 * 256 + 2) 24)] := by
  decide +kernel

open StabilityExample in
/-- C119 defect: prefixes allocated before link prefixes (for example the prefix of a new VLAN) change the prefixes of all existing links. -/
theorem C119_vlan_prefix_shifts :
    let nodes := [node "a" none none, node "b" none none]
    addrs (plan (env []) nodes [link 1 "a" "b"]) = [("a", 1, some "Ethernet1", .addr (172 * 2 ^ 24 + 2 ^ 20 + 1) 24), ("b", 1, some "Ethernet1", .addr (172 * 2 ^ 24 + 2 ^ 20 + 2) 24)] ∧
    addrs (plan (env [(["vlan", "lan"], 0)]) nodes [link 1 "a" "b"]) =
      [("a", 1, some "Ethernet1", .addr (172 * 2 ^ 24 + 2 ^ 20 + 256 + 1) 24), ("b", 1, some "Ethernet1", .addr (172 * 2 ^ 24 + 2 ^ 20 + 256 + 2) 24)] := by
  decide +kernel

end Netlab
