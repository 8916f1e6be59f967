import Verif.Spec.RidLab
import Verif.Props.RouterId
import Verif.Props.BgpLab
/-!
# Router identifiers in the whole lab (C122)
-/

namespace Netlab

open Netlab.Spec

/-! ### Pools with requests by index -/

theorem Gen.fill_seq (p0 : Nat) : ∀ (k : Nat) (g : Gen) (n : Nat), g.cache = (List.range' p0 n).map (g.pool.subnet g.plen) → g.pos = p0 + n →
    ∃ m, (g.fill k).1.cache = (List.range' p0 m).map (g.pool.subnet g.plen) ∧ (g.fill k).1.pos = p0 + m ∧ (g.fill k).1.pool = g.pool ∧ (g.fill k).1.plen = g.plen := by
  intro k
  induction k with
  | zero => exact fun g n h1 h2 => ⟨n, h1, h2, rfl, rfl⟩
  | succ k ih =>
    intro g n h1 h2
    unfold Gen.fill
    cases hn : g.next? with
    | none => exact ⟨n, h1, h2, rfl, rfl⟩
    | some x =>
      obtain ⟨s, g'⟩ := x
      unfold Gen.next? at hn
      split at hn
      · simp only [Option.some.injEq, Prod.mk.injEq] at hn
        obtain ⟨rfl, rfl⟩ := hn
        dsimp only
        refine ih _ (n + 1) ?_ ?_
        · dsimp only
          rw [h1, h2, List.range'_1_concat, List.map_append]
          rfl
        · dsimp only
          omega
      · cases hn

/-- A generator that gets only requests by index returns the subnet with that index. -/
theorem Gen.run_indexed (p0 : Nat) : ∀ (ns : List Nat) (g g' : Gen) (log : List (Nat × Option Net)) (n : Nat), g.cache = (List.range' p0 n).map (g.pool.subnet g.plen) → g.pos = p0 + n →
    g.run ns = (log, g') → (∀ x ∈ log, x.1 ≠ 0) → ∀ k s, (k, some s) ∈ log → s = g.pool.subnet g.plen (p0 + (k - 1)) := by
  intro ns
  induction ns with
  | nil =>
    intro g g' log n _ _ h _ k s hm
    simp only [Gen.run, Prod.mk.injEq] at h
    rw [← h.1] at hm
    cases hm
  | cons i ns ih =>
    intro g g' log n h1 h2 h h0 k s hm
    simp only [Gen.run] at h
    rcases hr : g.request i with ⟨o, g1⟩
    rcases hr2 : g1.run ns with ⟨log1, g2⟩
    simp only [hr, hr2, Prod.mk.injEq] at h
    obtain ⟨rfl, rfl⟩ := h
    have hi : i ≠ 0 := h0 (i, o) List.mem_cons_self
    obtain ⟨m, c1, c2, c3, c4⟩ := Gen.fill_seq p0 (i - g.cache.length) g n h1 h2
    unfold Gen.request at hr
    rw [if_neg hi] at hr
    rcases hf : g.fill (i - g.cache.length) with ⟨gf, b⟩
    rw [hf] at hr c1 c2 c3 c4
    have hg1 : g1 = gf := by
      cases b <;> simp only [Prod.mk.injEq] at hr <;> exact hr.2.symm
    subst hg1
    rcases List.mem_cons.1 hm with he | hm
    · simp only [Prod.mk.injEq] at he
      obtain ⟨rfl, rfl⟩ := he
      cases b with
      | false =>
        simp only [Prod.mk.injEq] at hr
        cases hr.1
      | true =>
        simp only [Prod.mk.injEq] at hr
        have hs := hr.1
        dsimp only at c1
        rw [c1, List.getElem?_map, Option.map_eq_some_iff] at hs
        obtain ⟨x, hx, rfl⟩ := hs
        rw [List.getElem?_range'] at hx
        · rw [← Option.some.inj hx]
          congr 1
          omega
        · by_contra hc
          rw [List.getElem?_eq_none (by simp; omega)] at hx
          cases hx
    · have := ih g1 g2 log1 m (by rw [c3, c4]; exact c1) c2 hr2 (fun x hx => h0 x (List.mem_cons_of_mem _ hx)) k s hm
      rw [c3, c4] at this
      exact this

theorem allocates_unique {pools : Pools} {p af : String} {m n : Net} {k l : Nat} (h1 : AllocatesFrom pools p af m k) (h2 : AllocatesFrom pools p af n l) : m = n ∧ k = l := by
  obtain ⟨pool, g, a1, a2, rfl, rfl⟩ := h1
  obtain ⟨pool', g', b1, b2, rfl, rfl⟩ := h2
  rw [a1] at b1
  cases b1
  rw [a2] at b2
  cases b2
  exact ⟨rfl, rfl⟩

/-- A pool of IPv4 addresses that gets only requests by index returns the address with that index. -/
theorem pool_indexed {pools pools' : Pools} {reqs : List (List String × Nat)} {log : List (Nat × Option String × List (String × PfxEntry))} (hf : FreshPools pools)
    (h : runRequests pools reqs = (log, pools')) {p : String} (hi : ∀ e ∈ log, e.2.1 = some p → e.1 ≠ 0) {af : String} {net : Net} (hw : net.w = 32) (ha : AllocatesFrom pools p af net 32)
    {e : Nat × Option String × List (String × PfxEntry)} (he : e ∈ log) {s : Net} (hs : HandsOut e p af s) : s = net.subnet 32 e.1 := by
  have hnd : PoolsNodup pools := fun p pool hp => (hf p pool hp).1
  have hpair : ∀ {pools : Pools} {reqs : List (List String × Nat)} {log : List (Nat × Option String × List (String × PfxEntry))}, PoolsNodup pools → runRequests pools reqs = (log, pools') →
      e ∈ log → projEntry p af e = some (e.1, some s) := by
    clear he h hi log reqs ha hf hnd
    intro pools reqs
    induction reqs generalizing pools with
    | nil =>
      intro log _ h he
      simp only [runRequests, Prod.mk.injEq] at h
      obtain ⟨rfl, rfl⟩ := h
      cases he
    | cons r rs ih =>
      intro log hnd h he
      obtain ⟨pl, n⟩ := r
      simp only [runRequests] at h
      rcases hgp : getPrefix pools pl n with ⟨sel, pfx, pools1, e1⟩
      rcases hrr : runRequests pools1 rs with ⟨log1, pools2⟩
      simp only [hgp, hrr, Prod.mk.injEq] at h
      obtain ⟨rfl, rfl⟩ := h
      obtain ⟨h1, h2, h3⟩ := getPrefix_step hnd hgp
      rcases List.mem_cons.1 he with rfl | he
      · obtain ⟨ha, hb⟩ := hs
        have ha : sel = some p := ha
        obtain ⟨pool, hp, rfl, -⟩ := h3 p ha
        obtain ⟨g, hg⟩ := poolPrefix_net_gen n pool hb
        obtain ⟨-, q2⟩ := poolPrefix_gen n pool (hnd p pool hp) hg
        subst ha
        rw [projEntry_eq (hnd p pool hp) hg, (q2 _).1 hb]
      · exact ih h1 hrr he
  obtain ⟨pool, g, a1, a2, a3, a4⟩ := ha
  have hm := mem_of_lookup a2
  obtain ⟨ns, g', hr⟩ := proj_run hnd ⟨pool, a1, hm⟩ h
  obtain ⟨b1, b2, b3, b4⟩ := (hf p pool a1).2 af g hm
  have hcache : g.cache = [] ∧ g.pos = 1 := by
    rw [b4]
    unfold Gen.create
    rw [a3, a4, hw]
    exact ⟨rfl, rfl⟩
  have hall : ∀ x ∈ log.filterMap (projEntry p af), x.1 ≠ 0 := by
    intro x hx
    obtain ⟨e', he', hp'⟩ := List.mem_filterMap.1 hx
    unfold projEntry at hp'
    split at hp'
    · rename_i hc
      cases hp'
      exact hi e' he' hc
    · cases hp'
  have hmem : (e.1, some s) ∈ log.filterMap (projEntry p af) := List.mem_filterMap.2 ⟨e, he, hpair hnd h he⟩
  have := Gen.run_indexed 1 ns g g' _ 0 (by rw [hcache.1]; rfl) hcache.2 hr hall e.1 s hmem
  rw [this, a3, a4]
  congr 1
  have := hall _ hmem
  dsimp only at this
  omega

/-! ### Sources of router identifiers -/

/-- Where a router identifier comes from -/
def RidSrc (log : List (Nat × Option String × List (String × PfxEntry))) (n : RidNode) (x : Rid) : Prop :=
  (∃ a, n.lb = some a ∧ x = .ip 32 a) ∨
  (n.lb = none ∧ ∃ e ∈ log, e.1 = n.id ∧ ∃ s, HandsOut e "router_id" "ipv4" s ∧ x = .ip s.w s.base)

structure RidOk (log : List (Nat × Option String × List (String × PfxEntry))) (n o : RidNode) : Prop where
  id : o.id = n.id
  lb : o.lb = n.lb
  rid : ∀ x, o.rid = some x → RidSrc log n x
  protos : ∀ p x, o.protos.lookup p = some x → RidSrc log n x

theorem RidSrc.mono {log log' : List (Nat × Option String × List (String × PfxEntry))} {n : RidNode} {x : Rid} (h : RidSrc log n x) : RidSrc (log ++ log') n x := by
  rcases h with h | ⟨h, e, he, r⟩
  · exact .inl h
  · exact .inr ⟨h, e, List.mem_append_left _ he, r⟩

theorem RidOk.mono {log : List (Nat × Option String × List (String × PfxEntry))} (log' : List (Nat × Option String × List (String × PfxEntry))) {n o : RidNode} (h : RidOk log n o) :
    RidOk (log ++ log') n o := ⟨h.id, h.lb, fun x hx => (h.rid x hx).mono, fun p x hx => (h.protos p x hx).mono⟩

theorem RidOk.set {log : List (Nat × Option String × List (String × PfxEntry))} {n o : RidNode} (h : RidOk log n o) (proto : String) {x : Rid} (hx : RidSrc log n x) (o' : RidNode)
    (h1 : o'.id = o.id) (h2 : o'.lb = o.lb) (h3 : o'.protos = setKey o.protos proto x) (hr : ∀ y, o'.rid = some y → RidSrc log n y) : RidOk log n o' := by
  refine ⟨h1.trans h.id, h2.trans h.lb, hr, fun p y hy => ?_⟩
  rw [h3, lookup_setKey] at hy
  split at hy
  · cases hy
    exact hx
  · exact h.protos p y hy

theorem routerId_ok {log : List (Nat × Option String × List (String × PfxEntry))} {n o : RidNode} (h : RidOk log n o) (proto : String) (pools : Pools) :
    ∃ reqs log', runRequests pools reqs = (log', (routerId o proto pools).2.1) ∧ (∀ e ∈ log', e.1 = n.id) ∧ RidOk (log ++ log') n (routerId o proto pools).1 := by
  unfold routerId
  cases h1 : o.protos.lookup proto with
  | some r => cases r <;> exact ⟨[], [], rfl, by simp, by simpa using h⟩
  | none =>
    dsimp only
    cases h2 : o.rid with
    | some r =>
      cases r with
      | ip w a =>
        refine ⟨[], [], rfl, by simp, ?_⟩
        rw [List.append_nil]
        exact h.set proto (h.rid _ h2) _ rfl rfl rfl (fun y hy => h.rid y (h2.trans hy))
      | bad s => exact ⟨[], [], rfl, by simp, by simpa using h⟩
    | none =>
      dsimp only
      cases h3 : o.lb with
      | some a =>
        refine ⟨[], [], rfl, by simp, ?_⟩
        rw [List.append_nil]
        exact h.set proto (.inl ⟨a, by rw [← h.lb]; exact h3, rfl⟩) _ rfl h3.symm rfl (fun y hy => h.rid y (h2.trans hy))
      | none =>
        obtain ⟨reqs, log', hr, hid, hs⟩ := poolRid_run pools o.id
        dsimp only
        have hid' : ∀ e ∈ log', e.1 = n.id := fun e he => (hid e he).trans h.id
        cases h4 : (poolRid pools o.id).1 with
        | none => exact ⟨reqs, log', hr, hid', h.mono _⟩
        | some x =>
          obtain ⟨w, a⟩ := x
          obtain ⟨e, rfl, he, s, hs1, hs2, hs3⟩ := hs w a h4
          have hsrc : RidSrc (log ++ [e]) n (.ip w a) :=
            .inr ⟨by rw [← h.lb]; exact h3, e, by simp, he.trans h.id, s, hs1, by rw [hs2, hs3]⟩
          refine ⟨reqs, [e], hr, hid', (h.mono [e]).set proto hsrc _ rfl h3.symm rfl ?_⟩
          intro y hy
          cases hy
          exact hsrc

theorem forall₂_set {α β : Type} {R : α → β → Prop} {l : List α} {m : List β} (h : List.Forall₂ R l m) {k : Nat} {o' : β} (hs : ∀ n, l[k]? = some n → R n o') :
    List.Forall₂ R l (m.set k o') := by
  induction h generalizing k with
  | nil => exact .nil
  | cons hd tl ih =>
    cases k with
    | zero => exact .cons (hs _ rfl) tl
    | succ k => exact .cons hd (ih (fun n hn => hs n (by simpa using hn)))

theorem getPool_mem {pools : Pools} {pl : List String} {p : String} (h : getPool pools pl = some p) : p ∈ pl := by
  induction pl with
  | nil => cases h
  | cons x r ih =>
    simp only [getPool] at h
    split at h
    · cases h
      exact List.mem_cons_self
    · exact List.mem_cons_of_mem _ (ih h)

theorem getPrefix_selected (pools : Pools) (pl : List String) (n : Nat) (q : String) (h : (getPrefix pools pl n).1 = some q) : q ∈ pl ∨ pl = [] := by
  unfold getPrefix at h
  cases pl with
  | nil => exact .inr rfl
  | cons x r =>
    left
    dsimp only [List.isEmpty_cons] at h
    rw [if_neg (by decide)] at h
    cases hp : getPool pools (x :: r) with
    | none => rw [hp] at h; cases h
    | some p =>
      rw [hp] at h
      cases h
      exact getPool_mem hp

/-- Router identifiers of nodes after any number of steps, and the requests made in those steps -/
theorem ridRun_src (start : List RidNode) (all : List RidOp) (ops : List RidOp) (hops : ∀ x ∈ ops, x ∈ all) : ∀ (cur : List RidNode) (pools : Pools) (log : List (Nat × Option String × List (String × PfxEntry))),
    List.Forall₂ (RidOk log) start cur →
    ∃ reqs log', runRequests pools reqs = (log', (ridRun (cur, pools) ops).2) ∧
      (∀ e ∈ log', (∃ n ∈ start, e.1 = n.id) ∨ ∃ pl, .other pl e.1 ∈ all ∧ ∀ q, e.2.1 = some q → q ∈ pl ∨ pl = []) ∧
      List.Forall₂ (RidOk (log ++ log')) start (ridRun (cur, pools) ops).1 := by
  induction ops with
  | nil =>
    intro cur pools log h
    exact ⟨[], [], rfl, by simp, by simpa [ridRun] using h⟩
  | cons op ops ih =>
    intro cur pools log h
    have hrun : ridRun (cur, pools) (op :: ops) = ridRun (ridStep (cur, pools) op) ops := rfl
    rw [hrun]
    have step : ∃ reqs log', runRequests pools reqs = (log', (ridStep (cur, pools) op).2) ∧
        (∀ e ∈ log', (∃ n ∈ start, e.1 = n.id) ∨ ∃ pl, .other pl e.1 ∈ all ∧ ∀ q, e.2.1 = some q → q ∈ pl ∨ pl = []) ∧
        List.Forall₂ (RidOk (log ++ log')) start (ridStep (cur, pools) op).1 := by
      cases op with
      | other pl m =>
        refine ⟨[(pl, m)], _, runRequests_one .., ?_, h.imp (fun _ _ hr => hr.mono _)⟩
        intro e he
        rw [List.mem_singleton] at he
        subst he
        exact .inr ⟨pl, hops _ List.mem_cons_self, fun q hq => getPrefix_selected _ _ _ _ hq⟩
      | assign j proto =>
        simp only [ridStep]
        cases hj : cur[j]? with
        | none => exact ⟨[], [], rfl, by simp, by simpa using h⟩
        | some o =>
          obtain ⟨n, hn, hok⟩ := forall₂_getElem h.flip hj
          obtain ⟨reqs, log', r1, r2, r3⟩ := routerId_ok hok proto pools
          refine ⟨reqs, log', r1, fun e he => .inl ⟨n, List.mem_of_getElem? hn, r2 e he⟩, ?_⟩
          refine forall₂_set (h.imp (fun _ _ hr => hr.mono _)) (fun n' hn' => ?_)
          rw [hn] at hn'
          cases hn'
          exact r3
    obtain ⟨r1, l1, s1, s2, s3⟩ := step
    obtain ⟨r2, l2, t1, t2, t3⟩ := ih (fun x hx => hops x (List.mem_cons_of_mem _ hx)) (ridStep (cur, pools) op).1 (ridStep (cur, pools) op).2 _ s3
    refine ⟨r1 ++ r2, l1 ++ l2, ?_, ?_, ?_⟩
    · rw [runRequests_append, s1]
      dsimp only
      rw [t1]
    · intro e he
      rcases List.mem_append.1 he with he | he
      · exact s2 e he
      · exact t2 e he
    · rw [← List.append_assoc]
      exact t3

/-! ### The property -/

/-- Addresses allocated to different nodes are different. -/
theorem compatible_bases {p0 pools' : Pools} (hf : FreshPools p0) {reqs : List (List String × Nat)} {log : List (Nat × Option String × List (String × PfxEntry))}
    (h : runRequests p0 reqs = (log, pools')) {olog : List (Nat × Option String × List (String × PfxEntry))} {ops : List RidOp} {p q : String}
    (hns : ∀ r, NotSequential olog ops r → ∀ e ∈ log, e.2.1 = some r → e.1 ≠ 0) (hc : RidCompatible p0 olog ops p q)
    {e f : Nat × Option String × List (String × PfxEntry)} (he : e ∈ log) (hfm : f ∈ log) (hne : e.1 ≠ f.1) {s t : Net} (hs : HandsOut e p "ipv4" s) (ht : HandsOut f q "ipv4" t) : s.base ≠ t.base := by
  rcases hc with rfl | hc | ⟨net, hw, hp, hq, n1, n2⟩
  · have hpw := C04_different_requests_disjoint p0 _ reqs log hf h
    rcases pairwise_or hpw he hfm (fun hh => hne (congrArg Prod.fst hh)) with k | k
    · exact disjoint_base (k p "ipv4" s t hs ht hne)
    · exact Ne.symm (disjoint_base (k p "ipv4" t s ht hs (Ne.symm hne)))
  · obtain ⟨m, k, a1, -, -, -, a5⟩ := C03_length_and_containment p0 pools' reqs log hf h e he p "ipv4" s hs
    obtain ⟨n, l, b1, -, -, -, b5⟩ := C03_length_and_containment p0 pools' reqs log hf h f hfm q "ipv4" t ht
    have hd := hc m k n l a1 b1
    exact disjoint_base (fun x hx => hd x ⟨a5 x hx.1, b5 x hx.2⟩)
  · rw [pool_indexed hf h (hns p n1) hw hp he hs, pool_indexed hf h (hns q n2) hw hq hfm ht]
    simp only [Net.subnet, hw]
    simp
    exact hne

/-- **C122**: router identifiers of different nodes are different -- whether they are IPv4 loopback addresses or identifiers from the `router_id` pool, for any sequence of routing protocols
and nodes, and whatever else is allocated from address pools before or after that. -/
theorem C122_unique (p0 : Pools) (hf : FreshPools p0) (pre rest : List (List String × Nat)) (nodes : List LbNode) (hid : (nodes.map (·.id)).Nodup) (hpos : ∀ n ∈ nodes, n.id ≠ 0)
    (hst : ∀ n ∈ nodes, ¬ HasStatic n "ipv4") (start : List RidNode) (hstart : List.Forall₂ RidStart (lbNodes (runRequests p0 pre).2 nodes).1 start) (ops : List RidOp)
    (hc : ∀ p q, RidPool nodes p → RidPool nodes q →
      RidCompatible p0 ((runRequests p0 pre).1 ++ (runRequests (lbNodes (runRequests p0 pre).2 nodes).2.2 rest).1) ops p q)
    (j k : Nat) (hjk : j ≠ k) (a b : RidNode)
    (ha : (ridRun (start, (runRequests (lbNodes (runRequests p0 pre).2 nodes).2.2 rest).2) ops).1[j]? = some a)
    (hb : (ridRun (start, (runRequests (lbNodes (runRequests p0 pre).2 nodes).2.2 rest).2) ops).1[k]? = some b)
    (p q : String) (x y : Rid) (hx : a.protos.lookup p = some x) (hy : b.protos.lookup q = some y) : x ≠ y := by
  obtain ⟨llog, l1, l2⟩ := lbNodes_log nodes (runRequests p0 pre).2
  have hfst := lbNodes_fst nodes (runRequests p0 pre).2
  have hhost := lbNodes_host nodes (runRequests p0 pre).2
  obtain ⟨rreqs, rlog, r1, r2, r3⟩ := ridRun_src start ops ops (fun _ h => h) start (runRequests (lbNodes (runRequests p0 pre).2 nodes).2.2 rest).2 [] (by
    rw [List.forall₂_same]
    intro n hn
    obtain ⟨o, -, hs⟩ := forall₂_mem_left hstart.flip hn
    exact ⟨rfl, rfl, fun x hx => (by rw [hs.rid] at hx; cases hx), fun p x hx => (by rw [hs.protos] at hx; cases hx)⟩)
  rw [List.nil_append] at r3
  have hrun : runRequests p0 (((pre ++ lbReqs nodes) ++ rest) ++ rreqs) =
      ((((runRequests p0 pre).1 ++ llog) ++ (runRequests (lbNodes (runRequests p0 pre).2 nodes).2.2 rest).1) ++ rlog,
        (ridRun (start, (runRequests (lbNodes (runRequests p0 pre).2 nodes).2.2 rest).2) ops).2) := by
    rw [runRequests_append, runRequests_append, runRequests_append, l1]
    dsimp only
    rw [r1]
  generalize hL : (((runRequests p0 pre).1 ++ llog) ++ (runRequests (lbNodes (runRequests p0 pre).2 nodes).2.2 rest).1) ++ rlog = L at hrun
  -- nodes
  obtain ⟨na, hna, oka⟩ := forall₂_getElem r3.flip ha
  obtain ⟨nb, hnb, okb⟩ := forall₂_getElem r3.flip hb
  obtain ⟨oa, hoa, sa⟩ := forall₂_getElem hstart.flip hna
  obtain ⟨ob, hob, sb⟩ := forall₂_getElem hstart.flip hnb
  have hmem : ∀ o ∈ (lbNodes (runRequests p0 pre).2 nodes).1, o.1 ∈ nodes := by
    intro o ho
    rw [← hfst]
    exact List.mem_map.2 ⟨o, ho, rfl⟩
  have hids : na.id ≠ nb.id := by
    intro he
    have e1 : (nodes.map (·.id))[j]? = some na.id := by
      rw [← hfst, List.map_map, List.getElem?_map, hoa]
      exact congrArg some sa.id.symm
    have e2 : (nodes.map (·.id))[k]? = some na.id := by
      rw [← hfst, List.map_map, List.getElem?_map, hob, he]
      exact congrArg some sb.id.symm
    obtain ⟨h1, v1⟩ := List.getElem?_eq_some_iff.1 e1
    obtain ⟨h2, v2⟩ := List.getElem?_eq_some_iff.1 e2
    exact hjk ((List.Nodup.getElem_inj_iff hid).1 (v1.trans v2.symm))
  have hstartpos : ∀ n ∈ start, n.id ≠ 0 := by
    intro n hn
    obtain ⟨o, ho, hs⟩ := forall₂_mem_left hstart.flip hn
    rw [hs.id]
    exact hpos _ (hmem o ho)
  -- every identifier was handed out by one of the pools
  have src : ∀ {o : LbNode × LbState} {n : RidNode} {x : Rid}, o ∈ (lbNodes (runRequests p0 pre).2 nodes).1 → RidStart o n → RidSrc rlog n x →
      ∃ P, RidPool nodes P ∧ ∃ e ∈ L, e.1 = n.id ∧ ∃ s w, HandsOut e P "ipv4" s ∧ x = .ip w s.base := by
    intro o n x ho hs hsrc
    rcases hsrc with ⟨v, hv, rfl⟩ | ⟨-, e, he, hei, s, hh, rfl⟩
    · rw [hs.lb] at hv
      have hno := hst _ (hmem o ho)
      unfold lbAddrOf at hv
      split at hv
      · rename_i v' pl hlk
        cases hv
        have hh : o.1.host = false := by
          cases hb : o.1.host with
          | false => rfl
          | true =>
            rw [hhost o ho hb] at hlk
            exact absurd ⟨_, hlk, fun x hx => (by cases hx)⟩ hno
        obtain ⟨e, he, hr⟩ := forall₂_mem_left l2 (List.mem_filter.2 ⟨ho, by simp [hh]⟩)
        obtain ⟨s, h1, h2⟩ := lbRel_prefix o e hr "ipv4" v pl ⟨hh, hno, hlk⟩
        refine ⟨LbNode.poolName o.1, .inr ⟨o.1, hmem o ho, hh, rfl⟩, e, ?_, hr.1.trans hs.id.symm, s, 32, h1, ?_⟩
        · rw [← hL]
          exact List.mem_append_left _ (List.mem_append_left _ (List.mem_append_right _ he))
        · simp only [lbValue] at h2
          rw [if_neg (by decide)] at h2
          cases h2
          rfl
      · cases hv
    · refine ⟨"router_id", .inl rfl, e, ?_, hei, s, s.w, hh, rfl⟩
      rw [← hL]
      exact List.mem_append_right _ he
  obtain ⟨P, hP, e, he, hei, s, w, hs, rfl⟩ := src (List.mem_of_getElem? hoa) sa (oka.protos p x hx)
  obtain ⟨Q, hQ, f, hfm, hfi, t, w', ht, rfl⟩ := src (List.mem_of_getElem? hob) sb (okb.protos q y hy)
  have hns : ∀ r, NotSequential ((runRequests p0 pre).1 ++ (runRequests (lbNodes (runRequests p0 pre).2 nodes).2.2 rest).1) ops r → ∀ e ∈ L, e.2.1 = some r → e.1 ≠ 0 := by
    intro r hr e he her
    rw [← hL] at he
    rcases List.mem_append.1 he with he | he
    · rcases List.mem_append.1 he with he | he
      · rcases List.mem_append.1 he with he | he
        · exact hr.1 e (List.mem_append_left _ he) her
        · obtain ⟨o, ho, hrel⟩ := forall₂_mem_left l2.flip he
          rw [hrel.1]
          exact hpos _ (hmem o (List.mem_filter.1 ho).1)
      · exact hr.1 e (List.mem_append_right _ he) her
    · rcases r2 e he with ⟨n, hn, hen⟩ | ⟨pl, hpl, hsel⟩
      · rw [hen]
        exact hstartpos n hn
      · intro h0
        rw [h0] at hpl
        obtain ⟨c1, c2⟩ := hr.2 pl hpl
        rcases hsel r her with c | c
        · exact c2 c
        · exact c1 c
  have := compatible_bases hf hrun hns (hc P Q hP hQ) he hfm (by rw [hei, hfi]; exact hids) hs ht
  intro hxy
  injection hxy with _ hbase
  exact this hbase

/-! ### Examples and defects -/

namespace RidLabExample

def net0 : Net := ⟨32, 10 * 2 ^ 24, 24⟩

/-- Default address pools -/
def exPools : Pools := [("loopback", [("ipv4", .gen (Gen.create "loopback" net0 32))]), ("router_id", [("ipv4", .gen (Gen.create "router_id" net0 32))]),
  ("lan", [("ipv4", .gen (Gen.create "lan" ⟨32, 172 * 2 ^ 24 + 2 ^ 20, 16⟩ 24))])]

/-- A router and a host -/
def exNodes : List LbNode := [⟨"a", 1, false, none, []⟩, ⟨"b", 2, true, none, []⟩]

def exStart : List RidNode := [⟨1, [], none, some (10 * 2 ^ 24 + 1)⟩, ⟨2, [], none, none⟩]

def exOps : List RidOp := [.assign 0 "ospf", .other ["lan"] 0, .assign 1 "ospf", .assign 0 "bgp", .assign 1 "bgp"]

end RidLabExample

open RidLabExample in
example : FreshPools exPools := by
  intro p pool h
  have hm := mem_of_lookup h
  simp only [exPools, List.mem_cons, Prod.mk.injEq, List.not_mem_nil, or_false] at hm
  rcases hm with ⟨rfl, rfl⟩ | ⟨rfl, rfl⟩ | ⟨rfl, rfl⟩
  all_goals
    refine ⟨by decide, fun af g hg => ?_⟩
    simp only [List.mem_cons, Prod.mk.injEq, PoolEntry.gen.injEq, List.not_mem_nil, or_false] at hg
    obtain ⟨_, rfl⟩ := hg
    exact ⟨⟨by decide, by decide, by decide⟩, by decide, by decide, rfl⟩

open RidLabExample in
example : (exNodes.map (·.id)).Nodup ∧ (∀ n ∈ exNodes, n.id ≠ 0) ∧ (∀ n ∈ exNodes, ¬ HasStatic n "ipv4") := by
  refine ⟨by decide, by decide, ?_⟩
  intro n hn
  simp only [exNodes, List.mem_cons, List.not_mem_nil, or_false] at hn
  rcases hn with rfl | rfl <;> rintro ⟨x, hx, -⟩ <;> cases hx

open RidLabExample in
example : List.Forall₂ RidStart (lbNodes (runRequests exPools []).2 exNodes).1 exStart := by
  refine .cons ⟨?_, ?_, rfl, rfl⟩ (.cons ⟨?_, ?_, rfl, rfl⟩ .nil) <;> decide +kernel

open RidLabExample in
/-- The default pools are compatible although they use the same prefix. -/
example (p q : String) (hp : RidPool exNodes p) (hq : RidPool exNodes q) :
    RidCompatible exPools ((runRequests exPools []).1 ++ (runRequests (lbNodes (runRequests exPools []).2 exNodes).2.2 [(["lan"], 0)]).1) exOps p q := by
  have key : ∀ p, RidPool exNodes p → p = "router_id" ∨ p = "loopback" := by
    intro p hp
    rcases hp with rfl | ⟨n, hn, hh, rfl⟩
    · exact .inl rfl
    · simp only [exNodes, List.mem_cons, List.not_mem_nil, or_false] at hn
      rcases hn with rfl | rfl
      · exact .inr rfl
      · cases hh
  have hlog : (runRequests (lbNodes (runRequests exPools []).2 exNodes).2.2 [(["lan"], 0)]).1.map (fun e => (e.1, e.2.1)) = [(0, some "lan")] := by decide +kernel
  have ns : ∀ p, p = "router_id" ∨ p = "loopback" →
      NotSequential ((runRequests exPools []).1 ++ (runRequests (lbNodes (runRequests exPools []).2 exNodes).2.2 [(["lan"], 0)]).1) exOps p := by
    intro p hp
    refine ⟨?_, ?_⟩
    · intro e he hep
      rw [show (runRequests exPools []).1 = [] from rfl, List.nil_append] at he
      have := List.mem_map_of_mem (f := fun e => (e.1, e.2.1)) he
      rw [hlog] at this
      simp only [List.mem_singleton, Prod.mk.injEq] at this
      rw [this.2] at hep
      rcases hp with rfl | rfl <;> exact absurd hep (by decide)
    · intro pl hpl
      simp only [exOps, List.mem_cons, RidOp.other.injEq, List.not_mem_nil, or_false, reduceCtorEq, false_or] at hpl
      rcases hp with rfl | rfl <;> simp [hpl.1]
  have al : ∀ p, p = "router_id" ∨ p = "loopback" → AllocatesFrom exPools p "ipv4" net0 32 := by
    intro p hp
    rcases hp with rfl | rfl
    · exact ⟨_, _, rfl, rfl, rfl, rfl⟩
    · exact ⟨_, _, rfl, rfl, rfl, rfl⟩
  exact .inr (.inr ⟨net0, rfl, al p (key p hp), al q (key q hq), ns p (key p hp), ns q (key q hq)⟩)

open RidLabExample in
example : (ridRun (exStart, (runRequests (lbNodes (runRequests exPools []).2 exNodes).2.2 [(["lan"], 0)]).2) exOps).1.map (fun n => (n.id, n.protos)) =
    [(1, [("ospf", .ip 32 (10 * 2 ^ 24 + 1)), ("bgp", .ip 32 (10 * 2 ^ 24 + 1))]), (2, [("ospf", .ip 32 (10 * 2 ^ 24 + 2)), ("bgp", .ip 32 (10 * 2 ^ 24 + 2))])] := by
  decide +kernel

namespace RidLabExample

/-- The loopback address of a node is specified in the topology. -/
def exStatic : List LbNode := [⟨"a", 1, false, none, [("ipv4", .addr (10 * 2 ^ 24 + 2) 32)]⟩, ⟨"b", 2, true, none, []⟩]

/-- Assign router identifiers to nodes with loopback addresses -/
def ridsOf (pools : Pools) (nodes : List LbNode) (ops : List RidOp) : List (List (String × Rid)) × Nat :=
  let lbs := lbNodes pools nodes
  ((ridRun (lbs.1.map (fun x => ⟨x.1.id, [], none, lbAddrOf (x.2.lb.lookup "ipv4")⟩), lbs.2.2) ops).1.map (·.protos), lbs.2.1)

/-- The `router_id` pool is a part of the loopback pool. -/
def exPart : Pools := [("loopback", [("ipv4", .gen (Gen.create "loopback" net0 32))]), ("router_id", [("ipv4", .gen (Gen.create "router_id" ⟨32, 10 * 2 ^ 24, 25⟩ 31))])]

def exTwo : List LbNode := [⟨"a", 3, true, none, []⟩, ⟨"b", 4, false, none, []⟩]

end RidLabExample

open RidLabExample in
/-- C122 defect (loopback addresses have to be allocated from pools): a loopback address specified in the lab topology is used as the router identifier of one node and allocated from
the `router_id` pool to another one, without an error. -/
theorem C122_static_loopback : ridsOf exPools exStatic [.assign 0 "ospf", .assign 1 "ospf"] = ([[("ospf", .ip 32 (10 * 2 ^ 24 + 2))], [("ospf", .ip 32 (10 * 2 ^ 24 + 2))]], 0) := by
  decide +kernel

open RidLabExample in
/-- C122 defect (pools have to be compatible): overlapping `loopback` and `router_id` pools with different prefix lengths are accepted, and two nodes get the same router identifier. -/
theorem C122_overlapping_pools : ridsOf exPart exTwo [.assign 0 "ospf", .assign 1 "ospf"] = ([[("ospf", .ip 32 (10 * 2 ^ 24 + 4))], [("ospf", .ip 32 (10 * 2 ^ 24 + 4))]], 0) := by
  decide +kernel

end Netlab
