import Verif.Spec.Loopback
import Verif.Props.Pools
import Verif.Props.PoolSetup

namespace Netlab

open Spec

/-! ### Loopback attributes -/

theorem hasStatic_iff (n : LbNode) (af : String) : HasStatic n af ↔ lbTruthy (n.lb.lookup af) = true := by
  unfold HasStatic lbTruthy
  cases h : n.lb.lookup af with
  | none => simp
  | some v =>
    cases v with
    | addr a p => simp
    | other x => simp

theorem lbEntry_ne (st : LbState) (x : String × PfxEntry) (k : String) (h : k ≠ x.1) : (lbEntry st x).lb.lookup k = st.lb.lookup k := by
  unfold lbEntry
  split
  · rfl
  · rfl
  · split
    · rfl
    · rw [lookup_setKey, if_neg h]

theorem lbEntry_static (st : LbState) (x : String × PfxEntry) (k : String) (h : lbTruthy (st.lb.lookup k) = true) :
    (lbEntry st x).lb.lookup k = st.lb.lookup k := by
  by_cases hk : k = x.1
  · unfold lbEntry
    split
    · rfl
    · rfl
    · rw [← hk, if_pos h]
  · exact lbEntry_ne st x k hk

theorem lbFold_static (l : List (String × PfxEntry)) (st : LbState) (k : String) (h : lbTruthy (st.lb.lookup k) = true) :
    (l.foldl lbEntry st).lb.lookup k = st.lb.lookup k := by
  induction l generalizing st with
  | nil => rfl
  | cons x r ih =>
    have := lbEntry_static st x k h
    rw [List.foldl_cons, ih _ (by rw [this]; exact h), this]

theorem lbFold_not_mem (l : List (String × PfxEntry)) (st : LbState) (k : String) (h : k ∉ l.map (·.1)) :
    (l.foldl lbEntry st).lb.lookup k = st.lb.lookup k := by
  induction l generalizing st with
  | nil => rfl
  | cons x r ih =>
    rw [List.map_cons, List.mem_cons, not_or] at h
    rw [List.foldl_cons, ih _ h.2, lbEntry_ne st x k h.1]

theorem lbFold_net (l : List (String × PfxEntry)) (hn : (l.map (·.1)).Nodup) (st : LbState) (k : String) (p : Net) (hm : (k, PfxEntry.net p) ∈ l)
    (h : lbTruthy (st.lb.lookup k) = false) : (l.foldl lbEntry st).lb.lookup k = some (lbValue k (.net p)) := by
  induction l generalizing st with
  | nil => cases hm
  | cons x r ih =>
    rw [List.map_cons, List.nodup_cons] at hn
    rw [List.foldl_cons]
    rcases List.mem_cons.1 hm with rfl | hm
    · rw [lbFold_not_mem r _ k hn.1]
      simp [lbEntry, h, lookup_setKey]
    · have hk : k ≠ x.1 := by
        rintro rfl
        exact hn.1 (List.mem_map_of_mem (f := (·.1)) hm)
      exact ih hn.2 _ hm (by rw [lbEntry_ne st x k hk]; exact h)

theorem lbFold_addr (l : List (String × PfxEntry)) (st : LbState) (k : String) (a pl : Nat) (h : (l.foldl lbEntry st).lb.lookup k = some (.addr a pl)) :
    st.lb.lookup k = some (.addr a pl) ∨ ∃ p, (k, PfxEntry.net p) ∈ l ∧ lbValue k (.net p) = .addr a pl := by
  induction l generalizing st with
  | nil => exact Or.inl h
  | cons x r ih =>
    rw [List.foldl_cons] at h
    rcases ih _ h with h1 | ⟨p, hp, hv⟩
    · by_cases hk : k = x.1
      · obtain ⟨y, e⟩ := x
        subst hk
        cases e with
        | attr v =>
          left
          simp only [lbEntry] at h1
          split at h1
          · exact h1
          · exact h1
          · split at h1
            · exact h1
            · simp only at h1
              rw [lookup_setKey, if_pos rfl] at h1
              cases Option.some.inj h1
        | net p =>
          simp only [lbEntry] at h1
          split at h1
          · exact Or.inl h1
          · simp only at h1
            rw [lookup_setKey, if_pos rfl] at h1
            exact Or.inr ⟨p, List.mem_cons_self, Option.some.inj h1⟩
      · rw [lbEntry_ne st x k hk] at h1
        exact Or.inl h1
    · exact Or.inr ⟨p, List.mem_cons_of_mem _ hp, hv⟩

/-! ### Requests -/

/-- Requests made by loopback interfaces -/
def lbReqs (nodes : List LbNode) : List (List String × Nat) := (nodes.filter (fun n => !n.host)).map (fun n => ([n.pool.getD "loopback"], n.id))

/-- A node and its request -/
def LbRel (o : LbNode × LbState) (e : Nat × Option String × List (String × PfxEntry)) : Prop :=
  e.1 = o.1.id ∧ (e.2.2 ≠ [] → e.2.1 = some (LbNode.poolName o.1)) ∧ ∃ c, o.2.lb = (e.2.2.foldl lbEntry { lb := o.1.lb, af := [], err := c }).lb

theorem lbNodes_log (nodes : List LbNode) (pools : Pools) :
    ∃ log, runRequests pools (lbReqs nodes) = (log, (lbNodes pools nodes).2.2) ∧
      List.Forall₂ LbRel ((lbNodes pools nodes).1.filter (fun o => !o.1.host)) log := by
  induction nodes generalizing pools with
  | nil => exact ⟨[], rfl, .nil⟩
  | cons n r ih =>
    unfold lbNodes
    cases hh : n.host with
    | true =>
      obtain ⟨log, h1, h2⟩ := ih pools
      refine ⟨log, ?_, ?_⟩
      · have : lbReqs (n :: r) = lbReqs r := by simp [lbReqs, hh]
        rw [this]
        exact h1
      · simp only [if_true]
        rw [List.filter_cons_of_neg (by simp [hh])]
        exact h2
    | false =>
      obtain ⟨log, h1, h2⟩ := ih (getPrefix pools [n.pool.getD "loopback"] n.id).2.2.1
      refine ⟨(n.id, (getPrefix pools [n.pool.getD "loopback"] n.id).1, (getPrefix pools [n.pool.getD "loopback"] n.id).2.1) :: log, ?_, ?_⟩
      · have : lbReqs (n :: r) = ([n.pool.getD "loopback"], n.id) :: lbReqs r := by simp [lbReqs, hh]
        rw [this]
        simp only [runRequests, Bool.false_eq_true, if_false, lbIntf]
        rw [h1]
      · simp only [Bool.false_eq_true, if_false]
        rw [List.filter_cons_of_pos (by simp [hh])]
        refine .cons ⟨rfl, fun hne => ?_, _, rfl⟩ h2
        simp only [getPrefix, List.isEmpty_cons, Bool.false_eq_true, if_false] at hne ⊢
        cases hp : getPool pools [n.pool.getD "loopback"] with
        | none => rw [hp] at hne; exact absurd rfl hne
        | some p =>
          simp only [getPool] at hp
          split at hp
          · cases hp; rfl
          · cases hp

theorem pairwise_forall₂ {α β : Type} {R : α → β → Prop} {S : β → β → Prop} {T : α → α → Prop} {l : List α} {m : List β} (h : List.Forall₂ R l m)
    (hp : m.Pairwise S) (ht : ∀ a b c d, R a c → R b d → S c d → T a b) : l.Pairwise T := by
  induction h with
  | nil => exact .nil
  | @cons a c l m hac hlm ih =>
    rw [List.pairwise_cons] at hp ⊢
    refine ⟨fun b hb => ?_, ih hp.2⟩
    obtain ⟨d, hd, hbd⟩ : ∃ d ∈ m, R b d := by
      clear ih hp
      induction hlm with
      | nil => cases hb
      | @cons x y l m hxy _ ih2 =>
        rcases List.mem_cons.1 hb with rfl | hb
        · exact ⟨y, List.mem_cons_self, hxy⟩
        · obtain ⟨d, hd, h⟩ := ih2 hb
          exact ⟨d, List.mem_cons_of_mem _ hd, h⟩
    exact ht a b c d hac hbd (hp.1 d hd)

/-- Address families and widths of addresses -/
def AfWidth (pools : Pools) : Prop := ∀ p net plen, AllocatesFrom pools p "ipv6" net plen → net.w = 128

theorem lbValue_covers (af : String) (s : Net) (a pl : Nat) (h : lbValue af (.net s) = .addr a pl) (hw : af = "ipv6" → s.w = 128) (hwf : s.WF) :
    Covers s a ∧ pl = s.plen := by
  have hpos : 0 < 2 ^ (s.w - s.plen) := Nat.two_pow_pos _
  simp only [lbValue] at h
  by_cases h6 : af = "ipv6"
  · rw [if_pos h6] at h
    by_cases hp : s.plen = 128
    · rw [if_pos hp] at h
      cases h
      exact ⟨⟨Nat.le_refl _, by omega⟩, rfl⟩
    · rw [if_neg hp] at h
      cases h
      refine ⟨⟨by omega, ?_⟩, rfl⟩
      have h1 := hwf.1
      have h2 := hw h6
      have : 2 ^ 1 ≤ 2 ^ (s.w - s.plen) := Nat.pow_le_pow_right (by omega) (by omega)
      omega
  · rw [if_neg h6] at h
    cases h
    exact ⟨⟨Nat.le_refl _, by omega⟩, rfl⟩

/-- A loopback address taken from a pool belongs to the prefix in the log. -/
theorem lbRel_prefix (o : LbNode × LbState) (e : Nat × Option String × List (String × PfxEntry)) (h : LbRel o e) (af : String) (a pl : Nat)
    (hf : LbFromPool o af a pl) : ∃ s, HandsOut e (LbNode.poolName o.1) af s ∧ lbValue af (.net s) = .addr a pl := by
  obtain ⟨_, h2, c, h3⟩ := h
  obtain ⟨_, hs, ha⟩ := hf
  rw [h3] at ha
  rcases lbFold_addr _ _ af a pl ha with h | ⟨s, hm, hv⟩
  · refine absurd ⟨_, h, ?_⟩ hs
    intro x hx; cases hx
  · refine ⟨s, ⟨h2 (fun h => by rw [h] at hm; cases hm), hm⟩, hv⟩

theorem handsOut_width (pools pools' : Pools) (reqs : List (List String × Nat)) (log : List (Nat × Option String × List (String × PfxEntry)))
    (hf : FreshPools pools) (hw : AfWidth pools) (h : runRequests pools reqs = (log, pools')) (e : Nat × Option String × List (String × PfxEntry))
    (he : e ∈ log) (p af : String) (s : Net) (hs : HandsOut e p af s) : s.WF ∧ (af = "ipv6" → s.w = 128) := by
  obtain ⟨net, plen, h1, _, h3, h4, _⟩ := C03_length_and_containment pools pools' reqs log hf h e he p af s hs
  exact ⟨h4, fun h6 => by subst h6; rw [h3, hw p net plen h1]⟩

/-- C95: loopback addresses taken from the same pool by nodes with different identifiers are different, whatever was allocated earlier. -/
theorem C95_unique (p0 : Pools) (hf : FreshPools p0) (hw : ∀ p net plen, AllocatesFrom p0 p "ipv6" net plen → net.w = 128)
    (pre : List (List String × Nat)) (nodes : List LbNode) :
    (lbNodes (runRequests p0 pre).2 nodes).1.Pairwise (fun a b => a.1.id ≠ b.1.id → LbNode.poolName a.1 = LbNode.poolName b.1 →
      ∀ af x lx y ly, LbFromPool a af x lx → LbFromPool b af y ly → x ≠ y) := by
  obtain ⟨log, h1, h2⟩ := lbNodes_log nodes (runRequests p0 pre).2
  have hrun : runRequests p0 (pre ++ lbReqs nodes) = ((runRequests p0 pre).1 ++ log, (lbNodes (runRequests p0 pre).2 nodes).2.2) := by
    rw [runRequests_append, h1]
  have hd := (List.pairwise_append.1 (C04_different_requests_disjoint p0 _ _ _ hf hrun)).2.1
  have hmem : ∀ e ∈ log, ∀ p af s, HandsOut e p af s → s.WF ∧ (af = "ipv6" → s.w = 128) := fun e he p af s hs =>
    handsOut_width p0 _ _ _ hf hw hrun e (List.mem_append_right _ he) p af s hs
  have hd' : log.Pairwise (fun a b => a ∈ log ∧ b ∈ log ∧ ∀ p af s t, HandsOut a p af s → HandsOut b p af t → a.1 ≠ b.1 → Spec.Disjoint s t) := by
    rw [List.pairwise_iff_getElem] at hd ⊢
    intro i j hi hj hij
    exact ⟨List.getElem_mem hi, List.getElem_mem hj, hd i j hi hj hij⟩
  have key := pairwise_forall₂ (T := fun a b : LbNode × LbState => a.1.id ≠ b.1.id → LbNode.poolName a.1 = LbNode.poolName b.1 →
      ∀ af x lx y ly, LbFromPool a af x lx → LbFromPool b af y ly → x ≠ y) h2 hd' (by
    rintro a b c d hac hbd ⟨hc, hdm, hdis⟩ hid hpool af x lx y ly hx hy rfl
    obtain ⟨s, hs, hvs⟩ := lbRel_prefix a c hac af x lx hx
    obtain ⟨t, ht, hvt⟩ := lbRel_prefix b d hbd af x ly hy
    rw [← hpool] at ht
    have ws := hmem c hc _ _ _ hs
    have wt := hmem d hdm _ _ _ ht
    exact hdis _ _ s t hs ht (by rw [hac.1, hbd.1]; exact hid) x ⟨(lbValue_covers af s x lx hvs ws.2 ws.1).1, (lbValue_covers af t x ly hvt wt.2 wt.1).1⟩)
  rw [List.pairwise_filter] at key
  refine key.imp (fun {a b} h hid hpool af x lx y ly hx hy => ?_)
  exact h (by simp [hx.1]) (by simp [hy.1]) hid hpool af x lx y ly hx hy

/-- C95: a loopback address taken from a pool does not belong to a prefix allocated earlier from that pool for something else. -/
theorem C95_not_in_earlier (p0 : Pools) (hf : FreshPools p0) (hw : ∀ p net plen, AllocatesFrom p0 p "ipv6" net plen → net.w = 128)
    (pre : List (List String × Nat)) (nodes : List LbNode) (o : LbNode × LbState) (ho : o ∈ (lbNodes (runRequests p0 pre).2 nodes).1)
    (af : String) (a pl : Nat) (h : LbFromPool o af a pl) (e : Nat × Option String × List (String × PfxEntry)) (he : e ∈ (runRequests p0 pre).1)
    (hid : e.1 ≠ o.1.id) (s : Net) (hs : HandsOut e (LbNode.poolName o.1) af s) : ¬ Covers s a := by
  obtain ⟨log, h1, h2⟩ := lbNodes_log nodes (runRequests p0 pre).2
  have hrun : runRequests p0 (pre ++ lbReqs nodes) = ((runRequests p0 pre).1 ++ log, (lbNodes (runRequests p0 pre).2 nodes).2.2) := by
    rw [runRequests_append, h1]
  have hd := (List.pairwise_append.1 (C04_different_requests_disjoint p0 _ _ _ hf hrun)).2.2
  have hof : o ∈ (lbNodes (runRequests p0 pre).2 nodes).1.filter (fun o => !o.1.host) := List.mem_filter.2 ⟨ho, by simp [h.1]⟩
  obtain ⟨d, hdm, hr⟩ : ∃ d ∈ log, LbRel o d := by
    clear hd hrun h1 ho
    generalize hL : (lbNodes (runRequests p0 pre).2 nodes).1.filter (fun o => !o.1.host) = L at h2 hof
    clear hL
    induction h2 with
    | nil => cases hof
    | @cons x y l m hxy _ ih =>
      rcases List.mem_cons.1 hof with rfl | hof
      · exact ⟨y, List.mem_cons_self, hxy⟩
      · obtain ⟨d, hd, h⟩ := ih hof
        exact ⟨d, List.mem_cons_of_mem _ hd, h⟩
  obtain ⟨t, ht, hvt⟩ := lbRel_prefix o d hr af a pl h
  have wt := handsOut_width p0 _ _ _ hf hw hrun d (List.mem_append_right _ hdm) _ _ _ ht
  intro hc
  exact hd e he d hdm _ _ s t hs ht (by rw [hr.1]; exact hid) a ⟨hc, (lbValue_covers af t a pl hvt wt.2 wt.1).1⟩

theorem lbNodes_mem (nodes : List LbNode) (pools : Pools) (o : LbNode × LbState) (ho : o ∈ (lbNodes pools nodes).1) :
    o.1 ∈ nodes ∧ ((o.1.host = true ∧ o.2.lb = o.1.lb ∧ o.2.af = []) ∨
      (o.1.host = false ∧ ∃ reqs, o.2 = (lbIntf (runRequests pools reqs).2 o.1).1) ∧ o.2.err ≤ (lbNodes pools nodes).2.1) := by
  induction nodes generalizing pools with
  | nil => cases ho
  | cons n r ih =>
    unfold lbNodes at ho ⊢
    cases hh : n.host with
    | true =>
      rw [hh] at ho
      simp only [if_true, List.mem_cons] at ho ⊢
      rcases ho with rfl | ho
      · exact ⟨Or.inl rfl, Or.inl ⟨hh, rfl, rfl⟩⟩
      · obtain ⟨h1, h2⟩ := ih pools ho
        exact ⟨Or.inr h1, h2⟩
    | false =>
      rw [hh] at ho
      simp only [Bool.false_eq_true, if_false, List.mem_cons] at ho ⊢
      rcases ho with rfl | ho
      · exact ⟨Or.inl rfl, Or.inr ⟨⟨hh, [], rfl⟩, Nat.le_add_right _ _⟩⟩
      · obtain ⟨h1, h2⟩ := ih _ ho
        refine ⟨Or.inr h1, ?_⟩
        rcases h2 with h2 | ⟨⟨h2, reqs, h3⟩, h4⟩
        · exact Or.inl h2
        · refine Or.inr ⟨⟨h2, ([n.pool.getD "loopback"], n.id) :: reqs, ?_⟩, by omega⟩
          rw [h3]
          rfl

/-- C95: addresses specified in nodes are not changed, and hosts get no loopback. -/
theorem C95_static (pools : Pools) (nodes : List LbNode) (o : LbNode × LbState) (ho : o ∈ (lbNodes pools nodes).1) :
    (o.1.host = true → o.2.lb = o.1.lb ∧ o.2.af = []) ∧ ∀ af, HasStatic o.1 af → o.2.lb.lookup af = o.1.lb.lookup af := by
  obtain ⟨_, h⟩ := lbNodes_mem nodes pools o ho
  rcases h with h | ⟨⟨h, reqs, h3⟩, _⟩
  · exact ⟨fun _ => h.2, fun af _ => by rw [h.2.1]⟩
  · refine ⟨fun hh => (by rw [h] at hh; cases hh), fun af hs => ?_⟩
    rw [h3]
    simp only [lbIntf]
    exact lbFold_static _ _ af ((hasStatic_iff _ _).1 hs)

theorem lbFold_err (l : List (String × PfxEntry)) (st : LbState) : st.err ≤ (l.foldl lbEntry st).err := by
  induction l generalizing st with
  | nil => exact Nat.le_refl _
  | cons x r ih =>
    refine Nat.le_trans ?_ (ih _)
    unfold lbEntry
    split
    · exact Nat.le_succ _
    · exact Nat.le_refl _
    · split <;> exact Nat.le_refl _

/-- A pool has a generator for an address family. -/
def LbGen (pools : Pools) (p af : String) : Prop := ∃ pool g, pools.lookup p = some pool ∧ (af, PoolEntry.gen g) ∈ pool

theorem hasGen_run (reqs : List (List String × Nat)) (pools : Pools) (hn : PoolsNodup pools) (p af : String) (h : LbGen pools p af) :
    PoolsNodup (runRequests pools reqs).2 ∧ LbGen (runRequests pools reqs).2 p af := by
  induction reqs generalizing pools with
  | nil => exact ⟨hn, h⟩
  | cons x r ih =>
    obtain ⟨pl, n⟩ := x
    simp only [runRequests]
    cases hg : getPrefix pools pl n with
    | mk sel y =>
      obtain ⟨pfx, pools', e⟩ := y
      obtain ⟨h1, h2, h3⟩ := getPrefix_step hn hg
      refine ih pools' h1 ?_
      obtain ⟨pool, g, hl, hm⟩ := h
      by_cases hs : sel = some p
      · obtain ⟨pool', hl', _, h5⟩ := h3 p hs
        rw [hl] at hl'
        cases hl'
        obtain ⟨g', hg'⟩ := poolPrefix_gen_kept n pool hm
        exact ⟨_, g', h5, hg'⟩
      · exact ⟨pool, g, by rw [h2 p hs]; exact hl, hm⟩

theorem any_of_lookup {pools : Pools} {p : String} {pool : Pool} (h : pools.lookup p = some pool) : pools.any (fun kv => kv.1 == p) = true :=
  List.any_eq_true.2 ⟨_, mem_of_lookup h, by simp⟩

/-- C95: without errors, every node that is not a host has an address in every address family of its loopback pool: its own, or one from the pool. -/
theorem C95_assigned (p0 : Pools) (hf : FreshPools p0) (hw : ∀ p net plen, AllocatesFrom p0 p "ipv6" net plen → net.w = 128)
    (pre : List (List String × Nat)) (nodes : List LbNode) (herr : (lbNodes (runRequests p0 pre).2 nodes).2.1 = 0)
    (o : LbNode × LbState) (ho : o ∈ (lbNodes (runRequests p0 pre).2 nodes).1) (hh : o.1.host = false) (af : String) (net : Net) (plen : Nat)
    (ha : AllocatesFrom p0 (LbNode.poolName o.1) af net plen) :
    HasStatic o.1 af ∨ ∃ a, LbFromPool o af a plen ∧ Covers net a := by
  by_cases hs : HasStatic o.1 af
  · exact Or.inl hs
  · right
    have hn0 : PoolsNodup p0 := fun p pool h => (hf p pool h).1
    obtain ⟨pool0, g0, hl0, hg0, hgp, hgl⟩ := ha
    have hgen0 : LbGen p0 (LbNode.poolName o.1) af := ⟨pool0, g0, hl0, mem_of_lookup hg0⟩
    obtain ⟨_, h | ⟨⟨_, reqs, h3⟩, h4⟩⟩ := lbNodes_mem nodes _ o ho
    · rw [hh] at h; cases h.1
    · have happ : (runRequests (runRequests p0 pre).2 reqs).2 = (runRequests p0 (pre ++ reqs)).2 := by rw [runRequests_append]
      rw [happ] at h3
      obtain ⟨hn, pool, g, hl, hm⟩ := hasGen_run (pre ++ reqs) p0 hn0 _ af hgen0
      have hgp' : getPool (runRequests p0 (pre ++ reqs)).2 [o.1.pool.getD "loopback"] = some (o.1.pool.getD "loopback") := by
        have hany : ((runRequests p0 (pre ++ reqs)).2.any (fun kv => kv.1 == o.1.pool.getD "loopback")) = true := any_of_lookup hl
        simp only [getPool]
        rw [if_pos hany]
      have hget : getPrefix (runRequests p0 (pre ++ reqs)).2 [o.1.pool.getD "loopback"] o.1.id =
          (some (o.1.pool.getD "loopback"), (poolPrefix o.1.id pool).1,
            setPool (o.1.pool.getD "loopback") (poolPrefix o.1.id pool).2.1 (runRequests p0 (pre ++ reqs)).2, (poolPrefix o.1.id pool).2.2) := by
        have hl' : (runRequests p0 (pre ++ reqs)).2.lookup (o.1.pool.getD "loopback") = some pool := hl
        simp only [getPrefix, List.isEmpty_cons, Bool.false_eq_true, if_false, hgp', hl', Option.getD_some]
      have he0 : o.2.err = 0 := by omega
      have hpe : (poolPrefix o.1.id pool).2.2 = 0 := by
        have h5 := lbFold_err (poolPrefix o.1.id pool).1 { lb := o.1.lb, af := [], err := (poolPrefix o.1.id pool).2.2 }
        rw [h3] at he0
        simp only [lbIntf, hget] at he0
        simp only at h5
        omega
      obtain ⟨s, hsm⟩ := poolPrefix_no_errors o.1.id pool hpe hm
      have hnd : ((poolPrefix o.1.id pool).1.map (·.1)).Nodup := (poolPrefix_pfx_sublist o.1.id pool).nodup (hn _ pool hl)
      have hfin : o.2.lb.lookup af = some (lbValue af (.net s)) := by
        rw [h3]
        simp only [lbIntf, hget]
        refine lbFold_net _ hnd _ af s hsm ?_
        cases hx : lbTruthy (o.1.lb.lookup af) with
        | false => rfl
        | true => exact absurd ((hasStatic_iff _ _).2 hx) hs
      have hrun : runRequests p0 (pre ++ reqs ++ [([o.1.pool.getD "loopback"], o.1.id)]) =
          ((runRequests p0 (pre ++ reqs)).1 ++ [(o.1.id, some (o.1.pool.getD "loopback"), (poolPrefix o.1.id pool).1)],
            setPool (o.1.pool.getD "loopback") (poolPrefix o.1.id pool).2.1 (runRequests p0 (pre ++ reqs)).2) := by
        rw [runRequests_append p0 (pre ++ reqs)]
        simp only [runRequests, hget]
      have hho : HandsOut (o.1.id, some (o.1.pool.getD "loopback"), (poolPrefix o.1.id pool).1) (LbNode.poolName o.1) af s := ⟨rfl, hsm⟩
      obtain ⟨net', plen', ⟨pool1, g1, hl1, hg1, hp1, hpl1⟩, hlen, hwid, hwf, hin⟩ :=
        C03_length_and_containment p0 _ _ _ hf hrun _ (List.mem_append_right _ List.mem_cons_self) _ af s hho
      rw [hl0] at hl1
      cases hl1
      rw [hg0] at hg1
      cases hg1
      have hw6 : af = "ipv6" → s.w = 128 := by
        rintro rfl
        rw [hwid, ← hp1]
        exact hw _ _ _ ⟨pool0, g0, hl0, hg0, rfl, rfl⟩
      obtain ⟨a, pl, hv⟩ : ∃ a pl, lbValue af (.net s) = .addr a pl := by
        simp only [lbValue]
        split
        · split <;> exact ⟨_, _, rfl⟩
        · exact ⟨_, _, rfl⟩
      have hc := lbValue_covers af s a pl hv hw6 hwf
      refine ⟨a, ⟨hh, hs, ?_⟩, ?_⟩
      · rw [hfin, hv, hc.2, hlen, ← hpl1, hgl]
      · rw [← hgp, hp1]
        exact hin a hc.1

/-- C95: without errors, loopback addresses of nodes that are not hosts are neither network nor broadcast addresses of subnets, and are not unnumbered. -/
theorem C95_checked (pools : Pools) (nodes : List LbNode) (herr : (lbNodes pools nodes).2.1 = 0) (o : LbNode × LbState) (ho : o ∈ (lbNodes pools nodes).1)
    (hh : o.1.host = false) (af : String) (w : Nat) (haf : af = "ipv4" ∧ w = 32 ∨ af = "ipv6" ∧ w = 128) :
    (∀ b, o.2.lb.lookup af ≠ some (.other (.bool b))) ∧
      ∀ a plen, o.2.lb.lookup af = some (.addr a plen) → w - plen > 1 → a % 2 ^ (w - plen) ≠ 0 ∧ a % 2 ^ (w - plen) ≠ 2 ^ (w - plen) - 1 := by
  obtain ⟨_, h | ⟨⟨_, reqs, h3⟩, h4⟩⟩ := lbNodes_mem nodes _ o ho
  · rw [hh] at h; cases h.1
  · have he0 : o.2.err = 0 := by omega
    have hlb : lbCheck 32 (o.2.lb.lookup "ipv4") = 0 ∧ lbCheck 128 (o.2.lb.lookup "ipv6") = 0 := by
      rw [h3] at he0 ⊢
      simp only [lbIntf] at he0 ⊢
      omega
    have hc : lbCheck w (o.2.lb.lookup af) = 0 := by
      rcases haf with ⟨rfl, rfl⟩ | ⟨rfl, rfl⟩
      · exact hlb.1
      · exact hlb.2
    refine ⟨fun b hb => ?_, fun a plen hb hw => ?_⟩
    · rw [hb] at hc
      simp [lbCheck] at hc
    · rw [hb] at hc
      have hz : 2 ^ 2 ≤ 2 ^ (w - plen) := Nat.pow_le_pow_right (by omega) hw
      have hbits : hostBitsOk w (.addr a plen) = true := by
        simp only [lbCheck] at hc
        split at hc
        · assumption
        · cases hc
      simp only [hostBitsOk] at hbits
      split at hbits
      · cases hbits
      · rw [if_neg (by omega)] at hbits
        split at hbits
        · cases hbits
        · split at hbits
          · cases hbits
          · rename_i h1 h2
            simp only [beq_iff_eq] at h1 h2
            exact ⟨h1, h2⟩

/-! ### Examples -/

/-- A pool with /32 prefixes for IPv4 and /64 prefixes for IPv6 -/
def lbExPools : Pools :=
  [("loopback", [("ipv4", .gen (Gen.create "loopback" ⟨32, 10 * 2 ^ 24, 24⟩ 32)), ("ipv6", .gen (Gen.create "loopback" ⟨128, 2 ^ 125, 48⟩ 64))])]

example : FreshPools lbExPools := by
  intro p pool h
  have hm := mem_of_lookup h
  simp only [lbExPools, List.mem_cons, Prod.mk.injEq, List.not_mem_nil, or_false] at hm
  obtain ⟨rfl, rfl⟩ := hm
  refine ⟨by decide, fun af g hg => ?_⟩
  simp only [List.mem_cons, Prod.mk.injEq, PoolEntry.gen.injEq, List.not_mem_nil, or_false] at hg
  rcases hg with ⟨_, rfl⟩ | ⟨_, rfl⟩
  · exact ⟨⟨by decide, by decide, by decide⟩, by decide, by decide, rfl⟩
  · exact ⟨⟨by decide, by decide, by decide⟩, by decide, by decide, rfl⟩

example : (lbNodes lbExPools [⟨"a", 1, false, none, []⟩, ⟨"h", 2, true, none, []⟩, ⟨"b", 3, false, none, [("ipv4", .addr 42 32)]⟩]).2.1 = 0 ∧
    (lbNodes lbExPools [⟨"a", 1, false, none, []⟩, ⟨"h", 2, true, none, []⟩, ⟨"b", 3, false, none, [("ipv4", .addr 42 32)]⟩]).1.map (fun o => o.2.lb) =
      [[("ipv4", .addr (10 * 2 ^ 24 + 1) 32), ("ipv6", .addr (2 ^ 125 + 2 ^ 64 + 1) 64)], [],
       [("ipv4", .addr 42 32), ("ipv6", .addr (2 ^ 125 + 3 * 2 ^ 64 + 1) 64)]] := by
  constructor <;> rfl

/-- C95 defect: attributes of the pool become loopback attributes and address families of the node. -/
theorem C95_pool_attribute :
    let r := (lbIntf [("loopback", [("ipv4", .gen (Gen.create "loopback" ⟨32, 10 * 2 ^ 24, 24⟩ 32)), ("allocation", .attr (.str "p2p"))])] ⟨"a", 1, false, none, []⟩).1
    r.err = 0 ∧ r.af = [("ipv4", true), ("allocation", true)] := by
  constructor <;> rfl

/-- C95 defect: loopback addresses cannot be allocated from an IPv4 pool with shorter prefixes. -/
theorem C95_ipv4_subnet (id : Nat) (h : id ≠ 0) (h' : id < 3) :
    (lbIntf [("lb", [("ipv4", .gen (Gen.create "lb" ⟨32, 10 * 2 ^ 24, 22⟩ 24))])] ⟨"a", id, false, some "lb", []⟩).1.err = 1 := by
  have : id = 1 ∨ id = 2 := by omega
  rcases this with rfl | rfl <;> rfl

end Netlab
