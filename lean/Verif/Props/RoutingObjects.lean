import Verif.Model.RoutingObjects
import Verif.Lemmas.Box
/-!
# C25-C27: routing policies and filters
-/

namespace Netlab

/-! ## C25: merge of global and node objects -/

theorem normalizeFrom_length {α : Type} (i : Nat) (l : List (RawEntry α)) : (normalizeFrom i l).length = l.length := by
  induction l generalizing i with
  | nil => rfl
  | cons e r ih => simp [normalizeFrom, ih]

theorem normalizeFrom_getElem? {α : Type} (i k : Nat) (l : List (RawEntry α)) :
    (normalizeFrom i l)[k]? = l[k]?.map (fun e => normalizeEntry e (i + k)) := by
  induction l generalizing i k with
  | nil => simp [normalizeFrom]
  | cons e r ih =>
    cases k with
    | zero => simp [normalizeFrom]
    | succ k => simp [normalizeFrom, ih, Nat.add_assoc, Nat.add_comm 1 k]

/-- C25: normalization keeps the entries in place, does not change sequence numbers and actions specified by the user,
and otherwise uses action `permit` and ten times the position of the entry. -/
theorem C25_normalized_entries {α : Type} (l : List (RawEntry α)) (k : Nat) (e : RawEntry α) (h : l[k]? = some e) :
    ∃ e', (normalizeObject l)[k]? = some e' ∧ e'.body = e.body ∧
      (∀ s, e.sequence = some s → e'.sequence = some s) ∧
      (e.sequence = none → e'.sequence = some (10 * (k + 1))) ∧
      (∀ a, e.action = some a → e'.action = some a) ∧ (e.action = none → e'.action = some "permit") := by
  refine ⟨normalizeEntry e k, ?_, rfl, ?_, ?_, ?_, ?_⟩
  · simp [normalizeObject, normalizeFrom_getElem?, h]
  · intro s hs; simp [normalizeEntry, hs]
  · intro hs; simp [normalizeEntry, hs, Int.mul_comm]
  · intro s hs; simp [normalizeEntry, hs]
  · intro hs; simp [normalizeEntry, hs]

/-- C25: normalization done twice (imported objects are normalized again) has no further effect. -/
theorem C25_normalize_idempotent {α : Type} (l : List (RawEntry α)) :
    normalizeObject (normalizeObject l) = normalizeObject l := by
  apply List.ext_getElem?
  intro k
  simp only [normalizeObject, normalizeFrom_getElem?, Nat.zero_add, Option.map_map]
  congr 1

/-- C25: with both objects present, the result of the merge (when there is anything to add) contains the node entries and
the global entries with sequence numbers not used on the node, each of them once, ordered by sequence number. -/
theorem C25_merge_entries {α : Type} (np tp r : List (RpEntry α)) (h : mergeEntries np tp = some r) :
    r.Perm (np ++ tp.filter (fun e => ∀ n ∈ np, n.sequence ≠ e.sequence)) ∧
    r.Pairwise (fun a b => a.sequence ≤ b.sequence) := by
  unfold mergeEntries at h
  simp only at h
  split at h
  · cases h
  · obtain rfl := Option.some.inj h
    have hf : tp.filter (fun e => decide (e.sequence ∉ np.map (·.sequence))) =
        tp.filter (fun e => decide (∀ n ∈ np, n.sequence ≠ e.sequence)) := by
      congr 1
      funext e
      simp
    constructor
    · rw [← hf]
      exact List.mergeSort_perm _ _
    · have := List.pairwise_mergeSort (le := fun (a b : RpEntry α) => decide (a.sequence ≤ b.sequence))
        (by intro a b c h1 h2; simp only [decide_eq_true_eq] at *; omega)
        (by intro a b; simp only [Bool.or_eq_true, decide_eq_true_eq]; omega)
        (np ++ tp.filter (fun e => decide (e.sequence ∉ np.map (·.sequence))))
      simpa using this

/-- C25: nothing is added if and only if all global sequence numbers are used on the node. -/
theorem C25_merge_nothing {α : Type} (np tp : List (RpEntry α)) :
    mergeEntries np tp = none ↔ ∀ e ∈ tp, ∃ n ∈ np, n.sequence = e.sequence := by
  unfold mergeEntries
  simp only
  by_cases h : (tp.filter (fun e => decide (e.sequence ∉ np.map (·.sequence)))).isEmpty = true
  · simp only [h, if_true, true_iff]
    rw [List.isEmpty_iff, List.filter_eq_nil_iff] at h
    intro e he
    have := h e he
    simpa using this
  · simp only [h]
    simp only [Bool.false_eq_true, if_false, reduceCtorEq, false_iff]
    intro hall
    apply h
    rw [List.isEmpty_iff, List.filter_eq_nil_iff]
    intro e he
    have := hall e he
    simpa using this

/-- Spec: the entry with sequence number `s` in the merged object: the node entry, or the global entry when the node has none. -/
def Spec.MergedEntry {α : Type} (np tp : List (RpEntry α)) (e : RpEntry α) : Prop :=
  e ∈ np ∨ (e ∈ tp ∧ ∀ n ∈ np, n.sequence ≠ e.sequence)

/-- C25: entries of a node object after the import.  A missing (or null) object becomes a copy of the global
object; otherwise the node keeps all its entries and gets exactly the global entries with sequence numbers it does not
use. -/
theorem C25_import_object {α : Type} (node : Option (List (RpEntry α))) (topo : Option (List (RpEntry α)))
    (hsome : ¬ (node = none ∧ topo = none)) :
    ∃ r, (importObject (node.map .list) topo).2 = some (.list r) ∧
      ∀ e, e ∈ r ↔ Spec.MergedEntry (node.getD []) (topo.getD []) e := by
  cases node with
  | none =>
    cases topo with
    | none => simp at hsome
    | some t => exact ⟨t, rfl, by simp [Spec.MergedEntry]⟩
  | some np =>
    cases topo with
    | none => exact ⟨np, rfl, by simp [Spec.MergedEntry]⟩
    | some tp =>
      cases hm : mergeEntries np tp with
      | none =>
        refine ⟨np, by simp [importObject, hm], fun e => ⟨.inl, ?_⟩⟩
        rintro (h | ⟨h, h2⟩)
        · exact h
        · obtain ⟨n, hn, e1⟩ := (C25_merge_nothing np tp).1 hm e h
          exact absurd e1 (h2 n hn)
      | some r =>
        refine ⟨r, by simp [importObject, hm], fun e => ?_⟩
        rw [(C25_merge_entries np tp r hm).1.mem_iff]
        simp [Spec.MergedEntry]

/-- C25: a referenced object that exists neither on the node nor globally is an error. -/
theorem C25_missing_object {α : Type} (node : Option (RObj α)) (topo : Option (List (RpEntry α))) :
    (importObject node topo).1 = .missing ↔ node = none ∧ topo = none := by
  cases node with
  | none => cases topo <;> simp [importObject]
  | some n =>
    cases topo with
    | none => simp [importObject]
    | some t =>
      cases n with
      | expanded l => simp [importObject]
      | list np =>
        simp only [importObject]
        cases mergeEntries np t <;> simp

/-- C25: with distinct sequence numbers in both objects the merged object has strictly increasing sequence
numbers. -/
theorem C25_merge_strictly_ordered {α : Type} (np tp r : List (RpEntry α)) (h : mergeEntries np tp = some r)
    (hn : (np.map (·.sequence)).Nodup) (ht : (tp.map (·.sequence)).Nodup) :
    r.Pairwise (fun a b => a.sequence < b.sequence) := by
  obtain ⟨hp, hs⟩ := C25_merge_entries np tp r h
  have hnd : (r.map (·.sequence)).Nodup := by
    rw [(hp.map _).nodup_iff, List.map_append, List.nodup_append]
    refine ⟨hn, (List.Sublist.map _ List.filter_sublist).nodup ht, ?_⟩
    intro a ha b hb
    simp only [List.mem_map, List.mem_filter, decide_eq_true_eq] at ha hb
    obtain ⟨x, hx, rfl⟩ := ha
    obtain ⟨y, ⟨-, hy⟩, rfl⟩ := hb
    exact hy x hx
  rw [List.nodup_iff_pairwise_ne, List.pairwise_map] at hnd
  exact (hs.and hnd).imp (fun ⟨h1, h2⟩ => by omega)

/-- C25: importing an object again has no effect. -/
theorem C25_import_idempotent {α : Type} (node : Option (List (RpEntry α))) (tp : List (RpEntry α))
    (r : List (RpEntry α)) (h : (importObject (node.map .list) (some tp)).2 = some (.list r)) :
    importObject (some (.list r)) (some tp) = (.unchanged, some (.list r)) := by
  have hall : mergeEntries r tp = none := by
    rw [C25_merge_nothing]
    obtain ⟨r', h', hr⟩ := C25_import_object node (some tp) (by simp)
    rw [h] at h'
    have e1 := Option.some.inj h'
    injection e1 with e1
    subst e1
    intro e he
    by_cases hx : ∃ n ∈ node.getD [], n.sequence = e.sequence
    · obtain ⟨n, hn, e1⟩ := hx
      exact ⟨n, (hr n).2 (.inl hn), e1⟩
    · refine ⟨e, (hr e).2 (.inr ⟨he, ?_⟩), rfl⟩
      intro n hn e1
      exact hx ⟨n, hn, e1⟩
  simp [importObject, hall]

/-- Non-vacuity: node entries 10 and 30, global entries 20 and 30 -/
example : mergeEntries [⟨30, "n30"⟩, ⟨10, "n10"⟩] [⟨20, "t20"⟩, ⟨30, "t30"⟩] =
    some [⟨10, "n10"⟩, ⟨20, "t20"⟩, ⟨30, "n30"⟩] := by
  simp [mergeEntries, List.mergeSort, List.MergeSort.Internal.splitInTwo]

/-- C25 fails for the order when there is nothing to add: node entries stay in the order in which they were written. -/
theorem C25_not_sorted_when_unchanged :
    importObject (some (.list [⟨20, "b"⟩, ⟨10, "a"⟩])) (some [⟨10, "x"⟩]) =
      (.unchanged, some (.list [⟨20, "b"⟩, ⟨10, "a"⟩])) := by
  decide +kernel

/-- C25 fails for community lists used in an imported policy: `import_policy_filters` runs twice for such a policy, and the
second run works on the list already expanded by the first one (the program crashes). -/
theorem C25_global_community_import_crashes {α : Type} (t : List (RpEntry α)) (ht : t ≠ []) :
    (importCommunity (importCommunity none (some t)).2 (some t)).1 = .crash := by
  cases t with
  | nil => exact absurd rfl ht
  | cons a r => simp [importCommunity, importObject]

/-! ## C26: prefix filters -/

/-- Spec: prefix of an entry in an address family: that of a named prefix or (without a named prefix) of an address pool,
or else the one in the entry itself -/
def Spec.EntryPrefix (pools named : List (String × PfxAf)) (e : PrefixEntry) (af : Afam) : Option String :=
  let sel : PfxAf → Option String := fun x => match af with | .v4 => x.ipv4 | .v6 => x.ipv6
  let ref : Option String := match e.pfx, e.pool with
    | some p, _ => (named.lookup p).bind sel
    | none, some p => (pools.lookup p).bind sel
    | none, none => none
  ref.or (e.inAf af)

/-- Spec: the limit `v` as seen in an address family -/
def Spec.limitFor (v : Option PfxLen) (af : Afam) : Option Int :=
  match v with
  | none => none
  | some (.num n) => some n
  | some (.perAf v4 v6) => match af with | .v4 => v4 | .v6 => v6

/-- Spec: the number of bits in an address -/
def Spec.addrBits : Afam → Int
  | .v4 => 32
  | .v6 => 128

/-- Spec: `x` is the entry of the list for address family `af` made from `e` -/
structure Spec.AfEntry (pools named : List (String × PfxAf)) (af : Afam) (e x : PrefixEntry) : Prop where
  sequence : x.sequence = e.sequence
  action : x.action = e.action
  pfx : x.inAf af = Spec.EntryPrefix pools named e af
  noRefs : x.pool = none ∧ x.pfx = none
  otherAf : ∀ af', af' ≠ af → x.inAf af' = none
  min : ∀ n, Spec.limitFor e.min af = some n → x.min = some (.num n) ∧ 0 ≤ n ∧ n ≤ Spec.addrBits af
  max : ∀ n, Spec.limitFor e.max af = some n → x.max = some (.num n) ∧ 0 ≤ n ∧ n ≤ Spec.addrBits af
  noMin : e.min = none → x.min = none
  noMax : e.max = none → x.max = none

open Spec

theorem expandPrefixEntry_inAf (pools named : List (String × PfxAf)) (e : PrefixEntry) (af : Afam) :
    (expandPrefixEntry pools named e).inAf af = EntryPrefix pools named e af := by
  obtain ⟨s, a, v4, v6, pool, pfx, mn, mx⟩ := e
  cases pfx with
  | some p =>
    cases hl : named.lookup p with
    | none => cases af <;> simp [expandPrefixEntry, EntryPrefix, PrefixEntry.inAf, hl]
    | some x => cases af <;> simp [expandPrefixEntry, EntryPrefix, PrefixEntry.inAf, hl]
  | none =>
    cases pool with
    | none => cases af <;> simp [expandPrefixEntry, EntryPrefix, PrefixEntry.inAf]
    | some p =>
      cases hl : pools.lookup p with
      | none => cases af <;> simp [expandPrefixEntry, EntryPrefix, PrefixEntry.inAf, hl]
      | some x => cases af <;> simp [expandPrefixEntry, EntryPrefix, PrefixEntry.inAf, hl]

theorem expandPrefixEntry_rest (pools named : List (String × PfxAf)) (e : PrefixEntry) :
    (expandPrefixEntry pools named e).sequence = e.sequence ∧ (expandPrefixEntry pools named e).action = e.action ∧
    (expandPrefixEntry pools named e).pool = none ∧ (expandPrefixEntry pools named e).pfx = none ∧
    (expandPrefixEntry pools named e).min = e.min ∧ (expandPrefixEntry pools named e).max = e.max := by
  unfold expandPrefixEntry
  simp only
  split <;> simp

theorem adjustMinMax_ok {v : Option PfxLen} {af : Afam} {w : Option PfxLen} (h : adjustMinMax v af = (w, false)) :
    (∀ n, limitFor v af = some n → w = some (.num n) ∧ 0 ≤ n ∧ n ≤ addrBits af) ∧ (v = none → w = none) := by
  rw [show addrBits af = af.maxLen by cases af <;> rfl]
  have key : ∀ n : Int, (if n < 0 then (v, true) else if n > af.maxLen then (v, true)
      else ((some (.num n) : Option PfxLen), false)) = (w, false) → w = some (.num n) ∧ 0 ≤ n ∧ n ≤ af.maxLen := by
    intro n hn
    split at hn
    · cases hn
    · split at hn
      · cases hn
      · cases hn
        exact ⟨rfl, by omega, by omega⟩
  cases v with
  | none =>
    simp only [adjustMinMax] at h
    cases h
    exact ⟨by simp [limitFor], by simp⟩
  | some x =>
    cases x with
    | num m =>
      refine ⟨?_, by simp⟩
      intro n hn
      simp only [limitFor] at hn
      cases hn
      exact key m h
    | perAf v4 v6 =>
      refine ⟨?_, by simp⟩
      intro n hn
      cases af with
      | v4 =>
        simp only [limitFor] at hn
        subst hn
        exact key n h
      | v6 =>
        simp only [limitFor] at hn
        subst hn
        exact key n h

theorem createAfEntry_ok (pools named : List (String × PfxAf)) (e : PrefixEntry) (af : Afam)
    (h : (createAfEntry (expandPrefixEntry pools named e) af).2 = 0) :
    AfEntry pools named af e (createAfEntry (expandPrefixEntry pools named e) af).1 := by
  obtain ⟨h1, h2, h3, h4, h5, h6⟩ := expandPrefixEntry_rest pools named e
  have h7 := expandPrefixEntry_inAf pools named e
  generalize expandPrefixEntry pools named e = x at *
  cases hmn : adjustMinMax x.min af with
  | mk mn b1 =>
    cases hmx : adjustMinMax x.max af with
    | mk mx b2 =>
      simp only [createAfEntry, hmn, hmx] at h ⊢
      have hb1 : b1 = false := by cases b1 <;> simp at h ⊢
      have hb2 : b2 = false := by cases b2 <;> simp at h ⊢
      subst hb1; subst hb2
      have k1 := adjustMinMax_ok hmn
      have k2 := adjustMinMax_ok hmx
      rw [h5] at k1
      rw [h6] at k2
      refine ⟨h1, h2, ?_, ⟨h3, h4⟩, ?_, k1.1, k2.1, k1.2, k2.2⟩
      · rw [← h7]
        cases af <;> simp [PrefixEntry.inAf]
      · intro af' hne
        cases af <;> cases af' <;> simp_all [PrefixEntry.inAf]

theorem afPrefixList_ok (pools named : List (String × PfxAf)) (l : List PrefixEntry) (af : Afam)
    (h : (afPrefixList (l.map (expandPrefixEntry pools named)) af).2 = 0) :
    let sel := l.filter (fun e => (EntryPrefix pools named e af).isSome)
    (sel = [] → (afPrefixList (l.map (expandPrefixEntry pools named)) af).1 = emptyPrefixList af) ∧
    (sel ≠ [] → ∃ f : PrefixEntry → PrefixEntry,
      (afPrefixList (l.map (expandPrefixEntry pools named)) af).1 = sel.map f ∧
      ∀ e ∈ sel, AfEntry pools named af e (f e)) := by
  have hsel : (l.map (expandPrefixEntry pools named)).filter (fun e => (e.inAf af).isSome) =
      (l.filter (fun e => (EntryPrefix pools named e af).isSome)).map (expandPrefixEntry pools named) := by
    rw [List.filter_map]
    congr 1
    apply List.filter_congr
    intro e _
    simp [Function.comp, expandPrefixEntry_inAf]
  simp only [afPrefixList, hsel, List.map_map] at h ⊢
  generalize l.filter (fun e => (EntryPrefix pools named e af).isSome) = sel at h ⊢
  constructor
  · rintro rfl
    simp
  · intro hne
    refine ⟨fun e => (createAfEntry (expandPrefixEntry pools named e) af).1, ?_, ?_⟩
    · have : (sel.map ((fun e => createAfEntry e af) ∘ expandPrefixEntry pools named)).isEmpty = false := by
        cases sel with
        | nil => exact absurd rfl hne
        | cons => rfl
      rw [this]
      simp [Function.comp]
    · intro e he
      apply createAfEntry_ok
      have hz : ∀ (l : List Nat), l.sum = 0 → ∀ x ∈ l, x = 0 := by
        intro l
        induction l with
        | nil => simp
        | cons a r ih =>
          intro hs x hx
          rw [List.sum_cons] at hs
          rcases List.mem_cons.1 hx with rfl | hx
          · omega
          · exact ih (by omega) x hx
      apply hz _ h
      exact List.mem_map.2 ⟨e, he, rfl⟩

/-- C26: when no error is reported, the list for an address family consists of the entries with a prefix in that address
family, in the original order, with their sequence numbers and actions, that prefix, and limits valid for the
address family; if there is no such entry, the list denies everything. -/
theorem C26_prefix_lists (pools named : List (String × PfxAf)) (l a b : List PrefixEntry)
    (h : expandPrefixList pools named l = (a, b, 0)) (af : Afam) :
    let sel := l.filter (fun e => (EntryPrefix pools named e af).isSome)
    let out := match af with | .v4 => a | .v6 => b
    (sel = [] → out = emptyPrefixList af) ∧
    (sel ≠ [] → ∃ f : PrefixEntry → PrefixEntry, out = sel.map f ∧ ∀ e ∈ sel, AfEntry pools named af e (f e)) := by
  unfold expandPrefixList at h
  simp only [Prod.mk.injEq] at h
  obtain ⟨rfl, rfl, he⟩ := h
  cases af with
  | v4 => exact afPrefixList_ok pools named l .v4 (by omega)
  | v6 => exact afPrefixList_ok pools named l .v6 (by omega)

/-- C26: a limit outside of the range of the address family is an error. -/
theorem C26_limit_out_of_range (pools named : List (String × PfxAf)) (l : List PrefixEntry) (e : PrefixEntry) (af : Afam)
    (he : e ∈ l) (hp : (EntryPrefix pools named e af).isSome = true) (n : Int)
    (hn : limitFor e.min af = some n ∨ limitFor e.max af = some n) (hr : n < 0 ∨ addrBits af < n) :
    0 < (expandPrefixList pools named l).2.2 := by
  apply Nat.pos_of_ne_zero
  intro h0
  generalize hx : expandPrefixList pools named l = R at h0
  obtain ⟨a, b, c⟩ := R
  simp only at h0
  subst h0
  have hk := (C26_prefix_lists pools named l a b hx af).2
  have hm : e ∈ l.filter (fun e => (EntryPrefix pools named e af).isSome) := List.mem_filter.2 ⟨he, hp⟩
  obtain ⟨f, -, hf⟩ := hk (List.ne_nil_of_mem hm)
  have := hf e hm
  rcases hn with hn | hn
  · obtain ⟨-, h1, h2⟩ := this.min n hn
    omega
  · obtain ⟨-, h1, h2⟩ := this.max n hn
    omega

/-- C26: no error is reported when all limits are within the range of the address family. -/
theorem C26_limit_accepted (pools named : List (String × PfxAf)) (l : List PrefixEntry)
    (h : ∀ e ∈ l, ∀ af, (EntryPrefix pools named e af).isSome = true → ∀ n, limitFor e.min af = some n ∨ limitFor e.max af = some n →
      0 ≤ n ∧ n ≤ addrBits af) :
    (expandPrefixList pools named l).2.2 = 0 := by
  have key : ∀ (v : Option PfxLen) (af : Afam), (∀ n, limitFor v af = some n → 0 ≤ n ∧ n ≤ addrBits af) →
      (adjustMinMax v af).2 = false := by
    intro v af hv
    have hb : addrBits af = af.maxLen := by cases af <;> rfl
    cases v with
    | none => rfl
    | some x =>
      cases x with
      | num m =>
        obtain ⟨h1, h2⟩ := hv m rfl
        simp only [adjustMinMax]
        rw [if_neg (by omega), if_neg (by omega)]
      | perAf v4 v6 =>
        simp only [adjustMinMax]
        split
        · rfl
        · rename_i n hn
          obtain ⟨h1, h2⟩ := hv n (by cases af <;> exact hn)
          rw [if_neg (by omega), if_neg (by omega)]
  have af0 : ∀ af, (afPrefixList (l.map (expandPrefixEntry pools named)) af).2 = 0 := by
    intro af
    simp only [afPrefixList]
    have : ∀ x : List Nat, (∀ y ∈ x, y = 0) → x.sum = 0 := by
      intro x hx
      induction x with
      | nil => rfl
      | cons a r ih =>
        rw [List.sum_cons, hx a List.mem_cons_self, ih (fun y hy => hx y (List.mem_cons_of_mem _ hy))]
    apply this
    intro y hy
    simp only [List.map_map, List.mem_map, List.mem_filter, Function.comp] at hy
    obtain ⟨z, ⟨⟨e, he, rfl⟩, hz⟩, rfl⟩ := hy
    rw [expandPrefixEntry_inAf] at hz
    obtain ⟨-, -, -, -, h5, h6⟩ := expandPrefixEntry_rest pools named e
    have k1 := key e.min af (fun n hn => h e he af hz n (.inl hn))
    have k2 := key e.max af (fun n hn => h e he af hz n (.inr hn))
    simp only [createAfEntry, h5, h6, k1, k2]
    rfl
  simp only [expandPrefixList, af0]

/-- C26: the list used when an address family has no entries denies the default prefix. -/
theorem C26_empty_list (af : Afam) : ∃ e, emptyPrefixList af = [e] ∧ e.action = "deny" ∧
    e.inAf af = some (match af with | .v4 => "0.0.0.0/0" | .v6 => "::/0") ∧ e.min = none ∧ e.max = none := by
  cases af <;> exact ⟨_, rfl, rfl, rfl, rfl, rfl⟩

/-- Non-vacuity: an entry using a pool, an IPv6 entry and per-address-family limits -/
example : expandPrefixList [("lan", { ipv4 := some "172.16.0.0/16", ipv6 := none })] []
    [{ sequence := 10, action := "permit", pool := some "lan", min := some (.perAf (some 24) none) },
     { sequence := 20, action := "deny", ipv6 := some "2001:db8::/32", max := some (.num 64) }] =
    ([{ sequence := 10, action := "permit", ipv4 := some "172.16.0.0/16", min := some (.num 24) }],
     [{ sequence := 20, action := "deny", ipv6 := some "2001:db8::/32", max := some (.num 64) }], 0) := by
  decide +kernel

/-- C26 fails for limits: a limit set for the other address family only is not removed, the entry keeps the whole dictionary
instead of a number. -/
theorem C26_limit_dictionary_left :
    (expandPrefixList [] []
      [{ sequence := 10, action := "permit", ipv4 := some "10.0.0.0/8", min := some (.perAf none (some 64)) }]) =
    ([{ sequence := 10, action := "permit", ipv4 := some "10.0.0.0/8", min := some (.perAf none (some 64)) }],
     emptyPrefixList .v6, 0) := by
  decide +kernel

/-! ## C27: AS-path and community lists -/

theorem le_foldl_max (l : List Int) (m : Int) : m ≤ l.foldl max m ∧ ∀ x ∈ l, x ≤ l.foldl max m := by
  induction l generalizing m with
  | nil => simp
  | cons a r ih =>
    rw [List.foldl_cons]
    obtain ⟨h1, h2⟩ := ih (max m a)
    refine ⟨by omega, ?_⟩
    intro x hx
    rcases List.mem_cons.1 hx with rfl | hx
    · omega
    · exact h2 x hx

/-- Numbers of AS-path lists: distinct, positive, at most one per name -/
structure Spec.GoodNumbers (num : List (String × Int)) : Prop where
  names : (num.map (·.1)).Nodup
  numbers : (num.map (·.2)).Nodup
  positive : ∀ p ∈ num, 0 < p.2

theorem setKey_new {β : Type} (d : List (String × β)) (k : String) (v : β) (h : d.lookup k = none) :
    setKey d k v = d ++ [(k, v)] := by
  induction d with
  | nil => rfl
  | cons a r ih =>
    obtain ⟨a, b⟩ := a
    by_cases hak : a = k
    · subst hak
      simp [List.lookup] at h
    · have hne : (k == a) = false := by simpa using fun e => hak e.symm
      simp only [List.lookup, hne] at h
      have hne' : (a == k) = false := by simpa using hak
      simp [setKey, hne', ih h]

/-- C27: whatever the sequence of AS-path lists processed, numbers assigned to them are positive and pairwise distinct,
every list gets a number, and a number once assigned does not change. -/
theorem C27_aspath_numbers (names : List String) (num : List (String × Int)) (h : GoodNumbers num) :
    GoodNumbers (names.foldl numberAspath num) ∧
    (∀ n ∈ names, ((names.foldl numberAspath num).lookup n).isSome = true) ∧
    (∀ n i, num.lookup n = some i → (names.foldl numberAspath num).lookup n = some i) := by
  induction names generalizing num with
  | nil => exact ⟨h, by simp, fun _ _ h => h⟩
  | cons n r ih =>
    rw [List.foldl_cons]
    have hstep : GoodNumbers (numberAspath num n) ∧ ((numberAspath num n).lookup n).isSome = true ∧
        ∀ m i, num.lookup m = some i → (numberAspath num n).lookup m = some i := by
      unfold numberAspath
      cases hl : num.lookup n with
      | some i => exact ⟨h, by simp [hl], fun _ _ h => h⟩
      | none =>
        simp only
        obtain ⟨g1, g2⟩ := le_foldl_max (num.map (·.2)) 0
        generalize (num.map (·.2)).foldl max 0 = m at g1 g2
        refine ⟨⟨nodup_setKey h.names n _, ?_, ?_⟩, ?_, ?_⟩
        · rw [setKey_new num n _ hl, List.map_append, List.nodup_append]
          refine ⟨h.numbers, by simp, ?_⟩
          intro a ha b hb
          simp only [List.map_cons, List.map_nil, List.mem_singleton] at hb
          have := g2 a ha
          omega
        · intro p hp
          rw [setKey_new num n _ hl, List.mem_append] at hp
          rcases hp with hp | hp
          · exact h.positive p hp
          · simp only [List.mem_singleton] at hp
            subst hp
            show 0 < m + 1
            omega
        · rw [lookup_setKey]; simp
        · intro k i hk
          rw [lookup_setKey]
          by_cases e : k = n
          · subst e; rw [hl] at hk; cases hk
          · simp [e, hk]
    obtain ⟨s1, s2, s3⟩ := hstep
    obtain ⟨i1, i2, i3⟩ := ih _ s1
    refine ⟨i1, ?_, fun m i hm => i3 m i (s3 m i hm)⟩
    intro m hm
    rcases List.mem_cons.1 hm with rfl | hm
    · obtain ⟨i, hi⟩ := Option.isSome_iff_exists.1 s2
      rw [i3 m i hi]; rfl
    · exact i2 m hm

/-- Non-vacuity -/
example : ["a", "b", "a", "c"].foldl numberAspath [("b", 7)] = [("b", 7), ("a", 8), ("c", 9)] := by
  decide +kernel

/-- Spec: text of a community entry: the `list` attribute unless it is missing or empty, or else the `path` attribute;
items of a list are separated by spaces. -/
def Spec.commText (e : CommEntry) : Option String :=
  let text : CommVal → Option String := fun v => match v with
    | .text s => some s
    | .items l => if ∃ x ∈ l, x.isRight = true then none else some (" ".intercalate (l.filterMap (·.getLeft?)))
  match e.list with
  | some (.text "") | some (.items []) | none => text (e.path.getD (.text ""))
  | some v => text v

/-- Spec: the entry needs a regular expression: specified by the user, or the value is empty (match everything), or has
something else than digits, colons and spaces. -/
def Spec.NeedsRegexp (e : CommEntry) : Prop :=
  (∃ r, e.regexp = some r ∧ r ≠ "") ∨
  (e.regexp = none ∧ ∃ s, Spec.commText e = some s ∧
    (s = "" ∨ ∃ c ∈ s.toList, ¬ (c.isDigit = true ∨ c = ':' ∨ c = ' ')))

theorem isPlainCommunity_iff (s : String) (h : s ≠ "") :
    isPlainCommunity s = true ↔ ¬ ∃ c ∈ s.toList, ¬ (c.isDigit = true ∨ c = ':' ∨ c = ' ') := by
  have hne : s.toList ≠ [] := by
    intro e
    apply h
    exact String.toList_eq_nil_iff.1 e
  simp only [isPlainCommunity, Bool.and_eq_true, decide_eq_true_eq, hne, ne_eq, not_false_eq_true, true_and,
    List.all_eq_true, Bool.or_eq_true, beq_iff_eq, not_exists, not_and, Classical.not_not]
  constructor
  · intro h c hc
    have := h c hc
    rcases this with (h | h) | h
    · exact .inl h
    · exact .inr (.inl h)
    · exact .inr (.inr h)
  · intro h c hc
    rcases h c hc with h | h | h
    · exact .inl (.inl h)
    · exact .inl (.inr h)
    · exact .inr h

theorem finish_regexp (s : String) : ((fixClistEntry.finish s).regexp.any (· != "")) = true ↔
    (s = "" ∨ ∃ c ∈ s.toList, ¬ (c.isDigit = true ∨ c = ':' ∨ c = ' ')) := by
  unfold fixClistEntry.finish
  by_cases hs : s = ""
  · simp [hs]
  · rw [if_neg hs]
    by_cases hp : isPlainCommunity s = true
    · rw [if_pos hp]
      have := (isPlainCommunity_iff s hs).1 hp
      simp only [Option.any_none, Bool.false_eq_true, hs, false_or, false_iff]
      exact this
    · rw [if_neg hp]
      have := Classical.not_not.1 (mt (isPlainCommunity_iff s hs).2 hp)
      simp only [Option.any_some, bne_iff_ne, ne_eq, hs, not_false_eq_true, false_or, true_iff]
      exact this

theorem fixClistEntry_text (e : CommEntry) (h : e.regexp = none) :
    fixClistEntry e = (Spec.commText e).map fixClistEntry.finish := by
  obtain ⟨re, lst, path, value⟩ := e
  simp only at h
  subst h
  have key : ∀ v : CommVal, (match v with
      | .items l =>
        if l.any (fun x => x.isRight) then none
        else some (fixClistEntry.finish (" ".intercalate (l.filterMap (fun x => x.getLeft?))))
      | .text s => some (fixClistEntry.finish s)) =
      (match v with
      | .text s => some s
      | .items l => if ∃ x ∈ l, x.isRight = true then none else some (" ".intercalate (l.filterMap (·.getLeft?)))
        : Option String).map fixClistEntry.finish := by
    intro v
    cases v with
    | text s => rfl
    | items l =>
      simp only [List.any_eq_true]
      split <;> simp
  unfold fixClistEntry Spec.commText
  cases lst with
  | none => exact key _
  | some v =>
    cases v with
    | text s =>
      by_cases hs : s = ""
      · subst hs; exact key _
      · have ht : CommVal.truthy (.text s) = true := by simp [CommVal.truthy, hs]
        simp only [ht, if_true]
        split
        · rename_i h; simp only [Option.some.injEq, CommVal.text.injEq] at h; exact absurd h hs
        · rename_i h; simp at h
        · rename_i h; cases h
        · rename_i h
          obtain rfl := Option.some.inj h
          rfl
    | items l =>
      cases l with
      | nil => exact key _
      | cons a r => exact key (.items (a :: r))

/-- C27: a community list is of the expanded type if and only if one of its entries needs a regular expression. -/
theorem C27_expanded_iff_regexp (l : List CommEntry) :
    (expandCommunityList l).2.1 = true ↔ ∃ e ∈ l, NeedsRegexp e := by
  induction l with
  | nil => simp [expandCommunityList]
  | cons e r ih =>
    have hstep : (expandCommunityList (e :: r)).2.1 =
        (((fixClistEntry e).any (fun e' => e'.regexp.any (· != ""))) || (expandCommunityList r).2.1) := by
      rw [expandCommunityList]
      generalize expandCommunityList r = R
      obtain ⟨r', x, n⟩ := R
      cases fixClistEntry e <;> simp
    rw [hstep, Bool.or_eq_true, ih]
    have he : ((fixClistEntry e).any (fun e' => e'.regexp.any (· != ""))) = true ↔ NeedsRegexp e := by
      cases hre : e.regexp with
      | some x => simp [fixClistEntry, hre, NeedsRegexp]
      | none =>
        rw [fixClistEntry_text e hre, Option.any_map]
        cases ht : Spec.commText e with
        | none => simp [NeedsRegexp, hre, ht]
        | some s =>
          simp only [NeedsRegexp, hre, ht, Option.any_some]
          rw [finish_regexp]
          simp
    rw [he]
    simp

/-- C27: entries keep their order; every entry without an error gets a value: its regular expression, or its text, or
`.*` if the text is empty. -/
theorem C27_community_values (l : List CommEntry) (h : (expandCommunityList l).2.2 = 0) :
    (expandCommunityList l).1.map (·.value) = l.map (fun e => match e.regexp with
      | some r => some r
      | none => (Spec.commText e).map (fun s => if s = "" then ".*" else s)) := by
  induction l with
  | nil => rfl
  | cons e r ih =>
    rw [expandCommunityList] at h ⊢
    generalize expandCommunityList r = R at *
    obtain ⟨r', x, n⟩ := R
    cases hf : fixClistEntry e with
    | none => simp [hf] at h
    | some e' =>
      simp only [hf] at h
      simp only [List.map_cons, ih h, List.cons.injEq, and_true]
      cases hre : e.regexp with
      | some y =>
        simp only [fixClistEntry, hre] at hf
        obtain rfl := Option.some.inj hf
        rfl
      | none =>
        rw [fixClistEntry_text e hre] at hf
        cases ht : Spec.commText e with
        | none => rw [ht] at hf; simp at hf
        | some s =>
          rw [ht] at hf
          obtain rfl := Option.some.inj hf
          simp only [Option.map_some]
          unfold fixClistEntry.finish
          by_cases hs : s = ""
          · simp [hs]
          · rw [if_neg hs]
            split <;> simp

/-- Non-vacuity -/
example : expandCommunityList [{ path := some (.items [.inl "65000:100", .inl "65001:100"]) },
    { path := some (.text "_6510.:307_") }, { path := some (.text "") }] =
    ([{ value := some "65000:100 65001:100" }, { regexp := some "_6510.:307_", value := some "_6510.:307_" },
      { regexp := some ".*", value := some ".*" }], true, 0) := by
  decide +kernel

end Netlab
