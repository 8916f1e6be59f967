import Verif.Model.Mgmt
import Verif.Spec.Mgmt
/-!
# C47: management addresses
-/

namespace Netlab
open Spec

theorem augmentMgmtAll_some (t : MgmtText) (pool : Option MgmtPool) (l : List MgmtNode)
    (out : List MgmtNode) (e : Nat) (h : augmentMgmtAll t pool l = some (out, e)) :
    out.length = l.length ∧
    ∀ i (hi : i < l.length) (ho : i < out.length), ∃ k, augmentMgmt t pool l[i] = some (out[i], k) ∧
      k ≤ e := by
  induction l generalizing out e with
  | nil =>
    simp only [augmentMgmtAll, Option.some.injEq, Prod.mk.injEq] at h
    obtain ⟨rfl, rfl⟩ := h
    simp
  | cons n rest ih =>
    unfold augmentMgmtAll at h
    split at h
    · cases h
    · rename_i r hr
      split at h
      · cases h
      · rename_i q hq
        simp only [Option.some.injEq, Prod.mk.injEq] at h
        obtain ⟨rfl, rfl⟩ := h
        obtain ⟨hl, hall⟩ := ih q.1 q.2 hq
        refine ⟨by simp [hl], ?_⟩
        intro i hi ho
        cases i with
        | zero => exact ⟨r.2, by simpa using hr, by omega⟩
        | succ i =>
          simp only [List.length_cons] at hi ho
          obtain ⟨k, hk, hle⟩ := hall i (by omega) (by omega)
          exact ⟨k, by simpa using hk, by omega⟩

theorem mgmtDup_zero (used : List String) (l : List (Option String)) :
    mgmtDup used l = 0 ↔ (∀ a, some a ∈ l → a ∉ used) ∧ l.Pairwise Different := by
  induction l generalizing used with
  | nil => simp [mgmtDup]
  | cons x rest ih =>
    cases x with
    | none =>
      simp only [mgmtDup, ih, List.mem_cons, List.pairwise_cons]
      constructor
      · rintro ⟨h1, h2⟩
        refine ⟨fun a ha => h1 a (by simpa using ha), ?_, h2⟩
        intro y _ s e
        cases e
      · rintro ⟨h1, _, h2⟩
        exact ⟨fun a ha => h1 a (Or.inr ha), h2⟩
    | some a =>
      unfold mgmtDup
      by_cases hc : a ∈ used
      · rw [if_pos (by simpa using hc)]
        constructor
        · intro h
          omega
        · rintro ⟨h1, _⟩
          exact absurd hc (h1 a (by simp))
      · rw [if_neg (by simpa using hc), ih]
        simp only [List.mem_cons, not_or, List.pairwise_cons]
        constructor
        · rintro ⟨h1, h2⟩
          refine ⟨?_, ?_, h2⟩
          · rintro b (e | hb)
            · cases e
              exact hc
            · exact (h1 b hb).2
          · intro y hy s e hys
            cases e
            subst hys
            exact (h1 a hy).1 rfl
        · rintro ⟨h1, h2, h3⟩
          refine ⟨fun b hb => ⟨?_, h1 b (Or.inr hb)⟩, h3⟩
          intro e
          subst e
          exact h2 _ hb b rfl rfl

theorem mgmtPipeline_some (t : MgmtText) (pool : Option MgmtPool) (l out : List MgmtNode) (e : Nat)
    (h : mgmtPipeline t pool l = some (out, e)) :
    ∃ e', augmentMgmtAll t pool l = some (out, e') ∧ e = e' + checkDuplicateMgmt out := by
  unfold mgmtPipeline at h
  split at h
  · cases h
  · rename_i r hr
    simp only [Option.some.injEq, Prod.mk.injEq] at h
    obtain ⟨rfl, rfl⟩ := h
    exact ⟨r.2, hr, rfl⟩

/-- **C47 (no duplicates).**  When no error is reported, no two nodes have the same management IPv4,
IPv6 or MAC address, static addresses included. -/
theorem C47_no_duplicates (t : MgmtText) (pool : Option MgmtPool) (l out : List MgmtNode)
    (h : mgmtPipeline t pool l = some (out, 0)) :
    out.Pairwise (fun a b => Different a.ipv4 b.ipv4 ∧ Different a.ipv6 b.ipv6 ∧
      Different a.mac b.mac) := by
  obtain ⟨e', _, he⟩ := mgmtPipeline_some t pool l out 0 h
  unfold checkDuplicateMgmt at he
  have h4 := ((mgmtDup_zero [] (out.map (·.ipv4))).1 (by omega)).2
  have h6 := ((mgmtDup_zero [] (out.map (·.ipv6))).1 (by omega)).2
  have hm := ((mgmtDup_zero [] (out.map (·.mac))).1 (by omega)).2
  rw [List.pairwise_map] at h4 h6 hm
  exact (h4.and (h6.and hm))

theorem nth_pos (p : Net) (id start a : Nat) (h : p.nth? ((id : Int) + start) = some a) :
    a = p.base + (id + start) ∧ id + start < p.size := by
  unfold Net.nth? at h
  rw [if_pos (by omega)] at h
  split at h
  · rename_i hlt
    simp only [Option.some.injEq] at h
    omega
  · cases h

theorem mgmtAf_some (fmt : Nat → String) (pfx : Option Net) (start id : Nat) (s : String)
    (h : (mgmtAf fmt pfx start id).1 = some s) :
    ∃ p, pfx = some p ∧ s = fmt (p.base + (id + start)) ∧ id + start < p.size := by
  unfold mgmtAf at h
  split at h
  · cases h
  · rename_i p
    split at h
    · rename_i a ha
      obtain ⟨h1, h2⟩ := nth_pos p id start a ha
      simp only [Option.some.injEq] at h
      subst h1
      exact ⟨p, rfl, h.symm, h2⟩
    · cases h

/-- What `augment_mgmt_if` stores in a node without static management addresses -/
theorem augmentMgmt_auto (t : MgmtText) (pool : Option MgmtPool) (n m : MgmtNode) (k : Nat)
    (h : augmentMgmt t pool n = some (m, k)) (h4 : n.ipv4 = none) (h6 : n.ipv6 = none) :
    (∀ s, m.ipv4 = some s → ∃ p net, pool = some p ∧ p.ipv4 = some net ∧
      s = t.fmt4 (net.base + (n.id + p.start)) ∧ n.id + p.start < net.size) ∧
    (∀ s, m.ipv6 = some s → ∃ p net, pool = some p ∧ p.ipv6 = some net ∧
      s = t.fmt6 (net.base + (n.id + p.start)) ∧ n.id + p.start < net.size) := by
  unfold augmentMgmt at h
  split at h
  · cases h
  · rename_i r hr
    simp only [Option.some.injEq, Prod.mk.injEq] at h
    obtain ⟨rfl, -⟩ := h
    unfold mgmtAddr at hr
    rw [if_neg (by simp [h4, h6])] at hr
    split at hr
    · cases hr
      constructor <;> (intro s hs; cases hs)
    · rename_i p
      split at hr
      · cases hr
      · simp only [Option.some.injEq] at hr
        subst hr
        constructor
        · intro s hs
          obtain ⟨net, h1, h2, h3⟩ := mgmtAf_some _ _ _ _ _ hs
          exact ⟨p, net, rfl, h1, h2, h3⟩
        · intro s hs
          obtain ⟨net, h1, h2, h3⟩ := mgmtAf_some _ _ _ _ _ hs
          exact ⟨p, net, rfl, h1, h2, h3⟩

theorem augmentMgmt_mac (t : MgmtText) (pool : Option MgmtPool) (n m : MgmtNode) (k : Nat)
    (h : augmentMgmt t pool n = some (m, k)) (hn : n.mac = none) (s : String) (hs : m.mac = some s) :
    ∃ p x, pool = some p ∧ p.mac = some x ∧ s = t.fmtMac (setOctet3 x n.id) := by
  unfold augmentMgmt at h
  split at h
  · cases h
  · simp only [Option.some.injEq, Prod.mk.injEq] at h
    obtain ⟨rfl, _⟩ := h
    unfold mgmtMac at hs
    rw [hn] at hs
    simp only at hs
    split at hs
    · rename_i x hx
      cases pool with
      | none => cases hx
      | some p => exact ⟨p, x, rfl, hx, (Option.some.inj hs).symm⟩
    · cases hs

/-- **C47 (addresses inside the subnet).**  Every automatically assigned management address belongs to
the management prefix of its address family. -/
theorem C47_in_subnet (t : MgmtText) (p : MgmtPool) (l out : List MgmtNode) (e : Nat)
    (h : mgmtPipeline t (some p) l = some (out, e)) (i : Nat) (hi : i < l.length)
    (ho : i < out.length) (h4 : l[i].ipv4 = none) (h6 : l[i].ipv6 = none) :
    (∀ s, out[i].ipv4 = some s → ∃ net, p.ipv4 = some net ∧ InNet t.fmt4 net s) ∧
    (∀ s, out[i].ipv6 = some s → ∃ net, p.ipv6 = some net ∧ InNet t.fmt6 net s) := by
  obtain ⟨e', h', _⟩ := mgmtPipeline_some t _ l out e h
  obtain ⟨k, hk, _⟩ := (augmentMgmtAll_some t _ l out e' h').2 i hi ho
  obtain ⟨a, b⟩ := augmentMgmt_auto t _ _ _ _ hk h4 h6
  constructor
  · intro s hs
    obtain ⟨q, net, hq, hn, e1, e2⟩ := a s hs
    cases hq
    exact ⟨net, hn, _, e1, by omega, by omega⟩
  · intro s hs
    obtain ⟨q, net, hq, hn, e1, e2⟩ := b s hs
    cases hq
    exact ⟨net, hn, _, e1, by omega, by omega⟩

theorem setOctet3_inj (x i j : Nat) (h : setOctet3 x i = setOctet3 x j) : i = j := by
  unfold setOctet3 at h
  omega

/-- **C47 (unique automatic addresses).**  Two nodes with different ids never get the same management
IPv4, IPv6 or MAC address, when these addresses are assigned automatically. -/
theorem C47_unique (t : MgmtText) (ht : MgmtText.Faithful t) (pool : Option MgmtPool)
    (l out : List MgmtNode) (e : Nat) (h : mgmtPipeline t pool l = some (out, e))
    (i j : Nat) (hi : i < l.length) (hj : j < l.length) (hio : i < out.length) (hjo : j < out.length)
    (hid : l[i].id ≠ l[j].id) :
    (l[i].ipv4 = none → l[i].ipv6 = none → l[j].ipv4 = none → l[j].ipv6 = none →
      Different out[i].ipv4 out[j].ipv4 ∧ Different out[i].ipv6 out[j].ipv6) ∧
    (l[i].mac = none → l[j].mac = none → Different out[i].mac out[j].mac) := by
  obtain ⟨e', h', _⟩ := mgmtPipeline_some t _ l out e h
  obtain ⟨k, hk, _⟩ := (augmentMgmtAll_some t _ l out e' h').2 i hi hio
  obtain ⟨k', hk', _⟩ := (augmentMgmtAll_some t _ l out e' h').2 j hj hjo
  constructor
  · intro a4 a6 b4 b6
    obtain ⟨p4, p6⟩ := augmentMgmt_auto t _ _ _ _ hk a4 a6
    obtain ⟨q4, q6⟩ := augmentMgmt_auto t _ _ _ _ hk' b4 b6
    constructor
    · intro s hs hs'
      obtain ⟨p, n, e1, e2, e3, _⟩ := p4 s hs
      obtain ⟨p', n', f1, f2, f3, _⟩ := q4 s hs'
      rw [e1] at f1
      cases f1
      rw [e2] at f2
      cases f2
      have := ht.1 _ _ (e3.symm.trans f3)
      omega
    · intro s hs hs'
      obtain ⟨p, n, e1, e2, e3, _⟩ := p6 s hs
      obtain ⟨p', n', f1, f2, f3, _⟩ := q6 s hs'
      rw [e1] at f1
      cases f1
      rw [e2] at f2
      cases f2
      have := ht.2.1 _ _ (e3.symm.trans f3)
      omega
  · intro am bm s hs hs'
    obtain ⟨p, x, e1, e2, e3⟩ := augmentMgmt_mac t _ _ _ _ hk am s hs
    obtain ⟨p', x', f1, f2, f3⟩ := augmentMgmt_mac t _ _ _ _ hk' bm s hs'
    rw [e1] at f1
    cases f1
    rw [e2] at f2
    cases f2
    exact hid (setOctet3_inj _ _ _ (ht.2.2 _ _ (e3.symm.trans f3)))

/-- **C47 (static addresses are kept).**  A node with a static management address keeps it and does not
get an address of the other family; a static MAC address is only reformatted. -/
theorem C47_static_kept (t : MgmtText) (pool : Option MgmtPool) (l out : List MgmtNode) (e : Nat)
    (h : mgmtPipeline t pool l = some (out, e)) (i : Nat) (hi : i < l.length) (ho : i < out.length) :
    out[i].id = l[i].id ∧
    ((l[i].ipv4 ≠ none ∨ l[i].ipv6 ≠ none) → out[i].ipv4 = l[i].ipv4 ∧ out[i].ipv6 = l[i].ipv6) ∧
    (∀ m x, l[i].mac = some m → t.parseMac m = some x → out[i].mac = some (t.fmtMac x)) := by
  obtain ⟨e', h', _⟩ := mgmtPipeline_some t _ l out e h
  obtain ⟨k, hk, _⟩ := (augmentMgmtAll_some t _ l out e' h').2 i hi ho
  generalize out[i] = m at hk
  generalize l[i] = n at hk
  unfold augmentMgmt at hk
  split at hk
  · cases hk
  · rename_i r hr
    simp only [Option.some.injEq, Prod.mk.injEq] at hk
    obtain ⟨rfl, _⟩ := hk
    refine ⟨rfl, ?_, ?_⟩
    · intro hs
      unfold mgmtAddr at hr
      have : (n.ipv4.isSome || n.ipv6.isSome) = true := by
        rcases hs with hs | hs
        · cases h4 : n.ipv4 with
          | none => exact absurd h4 hs
          | some _ => simp
        · cases h4 : n.ipv6 with
          | none => exact absurd h4 hs
          | some _ => simp
      rw [if_pos this] at hr
      cases hr
      exact ⟨rfl, rfl⟩
    · intro x v hx hv
      simp only [mgmtMac, hx, hv]

/-- **C47 (every node is reachable).**  When no error is reported every node has a management address,
and with automatic assignment it has one in every address family of the management pool. -/
theorem C47_every_node (t : MgmtText) (pool : Option MgmtPool) (l out : List MgmtNode)
    (h : mgmtPipeline t pool l = some (out, 0)) (i : Nat) (hi : i < l.length) (ho : i < out.length) :
    (out[i].ipv4 ≠ none ∨ out[i].ipv6 ≠ none) ∧
    (l[i].ipv4 = none → l[i].ipv6 = none → ∀ p, pool = some p →
      (p.ipv4 ≠ none → out[i].ipv4 ≠ none) ∧ (p.ipv6 ≠ none → out[i].ipv6 ≠ none)) := by
  obtain ⟨e', h', he⟩ := mgmtPipeline_some t _ l out 0 h
  obtain ⟨k, hk, hle⟩ := (augmentMgmtAll_some t _ l out e' h').2 i hi ho
  have hk0 : k = 0 := by omega
  subst hk0
  generalize out[i] = m at hk
  generalize l[i] = n at hk
  unfold augmentMgmt at hk
  split at hk
  · cases hk
  · rename_i r hr
    simp only [Option.some.injEq, Prod.mk.injEq] at hk
    obtain ⟨rfl, hk⟩ := hk
    have hr0 : r.2.2 = 0 := by omega
    unfold mgmtAddr at hr
    by_cases hs : (n.ipv4.isSome || n.ipv6.isSome) = true
    · rw [if_pos hs] at hr
      cases hr
      simp only
      constructor
      · cases h4 : n.ipv4 with
        | none =>
          right
          cases h6 : n.ipv6 with
          | none => simp [h4, h6] at hs
          | some _ => simp
        | some _ => left; simp
      · intro h4 h6
        simp [h4, h6] at hs
    · rw [if_neg hs] at hr
      split at hr
      · cases hr
        cases hr0
      · rename_i p
        split at hr
        · cases hr
        · simp only [Option.some.injEq] at hr
          subst hr
          simp only at hr0
          have fam : ∀ (fmt : Nat → String) (pfx : Option Net), (mgmtAf fmt pfx p.start n.id).2 = 0 →
              pfx ≠ none → (mgmtAf fmt pfx p.start n.id).1 ≠ none := by
            intro fmt pfx h0 hne
            cases pfx with
            | none => exact absurd rfl hne
            | some q =>
              unfold mgmtAf at h0 ⊢
              simp only at h0 ⊢
              split
              · simp
              · rename_i hx
                rw [hx] at h0
                cases h0
          constructor
          · cases h4 : (mgmtAf t.fmt4 p.ipv4 p.start n.id).1 with
            | some _ => left; simp
            | none =>
              right
              intro h6
              simp only at h6
              rw [h4, h6] at hr0
              simp at hr0
          · intro _ _ q hq
            cases hq
            exact ⟨fam _ _ (by omega), fam _ _ (by omega)⟩

/-- **C47 (success).**  When the pool has enough addresses for every node id, and no static
addresses are used, no error is reported. -/
theorem C47_success (t : MgmtText) (ht : MgmtText.Faithful t) (p : MgmtPool) (l : List MgmtNode)
    (hstart : p.start ≠ 0) (haf : p.ipv4 ≠ none ∨ p.ipv6 ≠ none)
    (hfit : ∀ n ∈ l, (∀ net, p.ipv4 = some net → n.id + p.start < net.size) ∧
      ∀ net, p.ipv6 = some net → n.id + p.start < net.size)
    (hst : ∀ n ∈ l, n.ipv4 = none ∧ n.ipv6 = none ∧ n.mac = none)
    (hids : l.Pairwise (fun a b => a.id ≠ b.id)) :
    ∃ out, mgmtPipeline t (some p) l = some (out, 0) := by
  have fam : ∀ (fmt : Nat → String) (pfx : Option Net) (id : Nat),
      (∀ net, pfx = some net → id + p.start < net.size) →
      (mgmtAf fmt pfx p.start id).2 = 0 ∧ (pfx ≠ none → (mgmtAf fmt pfx p.start id).1 ≠ none) := by
    intro fmt pfx id hf
    cases pfx with
    | none => exact ⟨rfl, fun h => absurd rfl h⟩
    | some q =>
      have hq := hf q rfl
      have : q.nth? ((id : Int) + p.start) = some (q.base + (id + p.start)) := by
        unfold Net.nth?
        rw [if_pos (by omega), if_pos (by omega)]
        simp only [Option.some.injEq]
        omega
      simp only [mgmtAf, this]
      exact ⟨trivial, fun _ => by simp⟩
  have one : ∀ n ∈ l, ∃ m, augmentMgmt t (some p) n = some (m, 0) := by
    intro n hn
    obtain ⟨s4, s6, sm⟩ := hst n hn
    obtain ⟨f4, f6⟩ := hfit n hn
    obtain ⟨a4, b4⟩ := fam t.fmt4 p.ipv4 n.id f4
    obtain ⟨a6, b6⟩ := fam t.fmt6 p.ipv6 n.id f6
    have hne : ((mgmtAf t.fmt4 p.ipv4 p.start n.id).1.isNone &&
        (mgmtAf t.fmt6 p.ipv6 p.start n.id).1.isNone) = false := by
      rcases haf with h | h
      · have := b4 h
        cases hx : (mgmtAf t.fmt4 p.ipv4 p.start n.id).1 with
        | none => exact absurd hx this
        | some _ => rfl
      · have := b6 h
        cases hx : (mgmtAf t.fmt6 p.ipv6 p.start n.id).1 with
        | none => exact absurd hx this
        | some _ => simp
    have hmac : (mgmtMac t (some p) n).2 = 0 := by
      unfold mgmtMac
      rw [sm]
      simp only
      split <;> rfl
    refine ⟨⟨n.id, (mgmtAf t.fmt4 p.ipv4 p.start n.id).1, (mgmtAf t.fmt6 p.ipv6 p.start n.id).1,
      (mgmtMac t (some p) n).1⟩, ?_⟩
    · unfold augmentMgmt mgmtAddr
      rw [if_neg (by simp [s4, s6])]
      simp only
      have h0 : ¬ ((p.start == 0 && (p.ipv4.isSome || p.ipv6.isSome)) = true) := by
        simp [hstart]
      rw [if_neg h0]
      simp only [hmac, a4, a6, hne]
      rfl
  have all : ∀ l' : List MgmtNode, (∀ n ∈ l', n ∈ l) → ∃ out, augmentMgmtAll t (some p) l' = some (out, 0) := by
    intro l'
    induction l' with
    | nil => exact fun _ => ⟨[], rfl⟩
    | cons n rest ih =>
      intro hsub
      obtain ⟨m, hm⟩ := one n (hsub n (by simp))
      obtain ⟨out, ho⟩ := ih (fun x hx => hsub x (by simp [hx]))
      exact ⟨m :: out, by simp [augmentMgmtAll, hm, ho]⟩
  obtain ⟨out, ho⟩ := all l (fun _ h => h)
  refine ⟨out, ?_⟩
  have hp : mgmtPipeline t (some p) l = some (out, 0 + checkDuplicateMgmt out) := by
    simp [mgmtPipeline, ho]
  have hlen := (augmentMgmtAll_some t _ l out 0 ho).1
  have hd : ∀ i j (hi : i < out.length) (hj : j < out.length), i < j →
      Different out[i].ipv4 out[j].ipv4 ∧ Different out[i].ipv6 out[j].ipv6 ∧
      Different out[i].mac out[j].mac := by
    intro i j hi hj hij
    have hid := List.pairwise_iff_getElem.1 hids i j (by omega) (by omega) hij
    have := C47_unique t ht (some p) l out _ hp i j (by omega) (by omega) hi hj hid
    obtain ⟨i4, i6, im⟩ := hst l[i] (List.getElem_mem _)
    obtain ⟨j4, j6, jm⟩ := hst l[j] (List.getElem_mem _)
    obtain ⟨x, y⟩ := this.1 i4 i6 j4 j6
    exact ⟨x, y, this.2 im jm⟩
  have hz : checkDuplicateMgmt out = 0 := by
    unfold checkDuplicateMgmt
    rw [(mgmtDup_zero [] _).2, (mgmtDup_zero [] _).2, (mgmtDup_zero [] _).2]
    all_goals
      refine ⟨by simp, ?_⟩
      rw [List.pairwise_map, List.pairwise_iff_getElem]
      intro i j hi hj hij
    · exact (hd i j hi hj hij).2.2
    · exact (hd i j hi hj hij).2.1
    · exact (hd i j hi hj hij).1
  rw [hp, hz]

/-- Text conversions used in the examples -/
def mgmtSampleText : MgmtText := ⟨fun n => "4:" ++ toString n, fun n => "6:" ++ toString n,
  fun n => "m:" ++ toString n, fun _ => none⟩

/-- The default management pool, `192.168.121.0/24` starting at 100 (`netsim/defaults/addressing.yml:10-15`) -/
def mgmtSamplePool : MgmtPool := ⟨some ⟨32, 3232266496, 24⟩, none, 100, some 0xCAFE00010000⟩

example : mgmtPipeline mgmtSampleText (some mgmtSamplePool) [⟨1, none, none, none⟩, ⟨2, none, none, none⟩] =
    some ([⟨1, some "4:3232266597", none, some (mgmtSampleText.fmtMac 0xCAFE00010000)⟩,
      ⟨2, some "4:3232266598", none, some (mgmtSampleText.fmtMac 0xCAFE00020000)⟩], 0) := by decide +kernel

/-- **C47 (defect).**  The last address of the management prefix is used: with the default
management pool (`192.168.121.0/24` starting at 100) the node with id 155 gets the broadcast address and no error is
reported. -/
theorem C47_broadcast_assigned :
    mgmtPipeline mgmtSampleText (some mgmtSamplePool) [⟨155, none, none, none⟩] =
      some ([⟨155, some (mgmtSampleText.fmt4 (3232266496 + 255)), none,
        some (mgmtSampleText.fmtMac 0xCAFE009B0000)⟩], 0) := by decide +kernel

/-- **C47 (too many nodes).**  A node id past the end of the management prefix is reported. -/
theorem C47_overflow_reported (t : MgmtText) (p : MgmtPool) (net : Net) (hp : p.ipv4 = some net)
    (l out : List MgmtNode) (e : Nat) (h : mgmtPipeline t (some p) l = some (out, e))
    (n : MgmtNode) (hn : n ∈ l) (h4 : n.ipv4 = none) (h6 : n.ipv6 = none)
    (hbig : net.size ≤ n.id + p.start) : 0 < e := by
  apply Nat.pos_of_ne_zero
  intro he
  subst he
  obtain ⟨i, hi, rfl⟩ := List.getElem_of_mem hn
  obtain ⟨e', h', _⟩ := mgmtPipeline_some t _ l out 0 h
  have hlen := (augmentMgmtAll_some t _ l out e' h').1
  have ho : i < out.length := by omega
  obtain ⟨k, hk, _⟩ := (augmentMgmtAll_some t _ l out e' h').2 i hi ho
  have hne := ((C47_every_node t _ l out h i hi ho).2 h4 h6 p rfl).1 (by simp [hp])
  cases hx : out[i].ipv4 with
  | none => exact hne hx
  | some s =>
    obtain ⟨q, net', e1, e2, _, e4⟩ := (augmentMgmt_auto t _ _ _ _ hk h4 h6).1 s hx
    cases e1
    rw [hp] at e2
    cases e2
    omega

end Netlab
