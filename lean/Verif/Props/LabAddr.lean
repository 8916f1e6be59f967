import Verif.Spec.LabAddr
import Verif.Props.IpamPolicy
import Verif.Props.Loopback
import Verif.Props.Validators
import Verif.Props.Svi
/-!
# C116: addresses are unique in the whole lab
-/

namespace Netlab

open Spec

/-! ### Addresses on a link -/

theorem nth_covers {n : Net} {i : Int} {a : Nat} (h : n.nth? i = some a) : Covers n a := by
  unfold Net.nth? at h
  unfold Covers
  have hs := net_size_pos n
  have he : n.size = 2 ^ (n.w - n.plen) := rfl
  by_cases h0 : 0 ≤ i
  · rw [if_pos h0] at h
    by_cases h1 : i < n.size
    · rw [if_pos h1] at h
      have := Option.some.inj h
      omega
    · rw [if_neg h1] at h; cases h
  · rw [if_neg h0] at h
    by_cases h1 : -i ≤ n.size
    · rw [if_pos h1] at h
      have := Option.some.inj h
      omega
    · rw [if_neg h1] at h; cases h

theorem setAddress_covers {pfx : Net} {n : Int} {x : IfAddr} (hs : ¬ StaticAddr x) {a l : Nat} (h : (setAddress pfx n x).1 = .addr a l) :
    l = pfx.plen ∧ Covers pfx a := by
  have hn : ∀ i, nthIp pfx i = some (.addr a l) → l = pfx.plen ∧ Covers pfx a := by
    intro i hi
    unfold nthIp at hi
    cases hx : pfx.nth? i with
    | none => rw [hx] at hi; cases hi
    | some b =>
      rw [hx] at hi
      simp only [Option.map_some, Option.some.injEq, IfAddr.addr.injEq] at hi
      exact ⟨hi.2.symm, hi.1 ▸ nth_covers hx⟩
  cases x with
  | missing =>
    unfold setAddress at h
    cases hx : nthIp pfx n with
    | none => rw [hx] at h; cases h
    | some b => rw [hx] at h; exact hn n (by rw [hx]; exact congrArg some h)
  | flag b => cases h
  | index i =>
    simp only [setAddress] at h
    cases hx : nthIp pfx i with
    | none => rw [hx] at h; cases h
    | some b => rw [hx] at h; exact hn i (by rw [hx]; exact congrArg some h)
  | text a l => exact absurd (Or.inl ⟨a, l, rfl⟩) hs
  | addr a l => exact absurd (Or.inr ⟨a, l, rfl⟩) hs

theorem unnumbered_spec (b : Option Bool) (loop : String → Option Bool) (v6 : Bool) (ifs : List LinkIntf) :
    (ipamUnnumbered b loop v6 ifs).1.length = ifs.length ∧
    ∀ (k : Nat) (i o : LinkIntf), ifs[k]? = some i → (ipamUnnumbered b loop v6 ifs).1[k]? = some o → ¬ StaticAddr i.ip → ∀ a l, o.ip ≠ .addr a l := by
  induction ifs with
  | nil => exact ⟨rfl, by simp⟩
  | cons x r ih =>
    have hd : ∃ y, (ipamUnnumbered b loop v6 (x :: r)).1 = y :: (ipamUnnumbered b loop v6 r).1 ∧ (¬ StaticAddr x.ip → ∀ a l, y.ip ≠ .addr a l) := by
      generalize hr : ipamUnnumbered b loop v6 r = q
      cases hx : x.ip with
      | missing =>
        simp only [ipamUnnumbered, hr, hx]
        refine ⟨_, rfl, fun _ a l => ?_⟩
        simp only
        cases b with
        | some b => simp
        | none =>
          cases loop x.node with
          | some y => simp
          | none => cases v6 <;> simp
      | flag f =>
        simp only [ipamUnnumbered, hr, hx]
        exact ⟨_, rfl, fun _ a l => by rw [hx]; simp⟩
      | index i =>
        simp only [ipamUnnumbered, hr, hx]
        exact ⟨_, rfl, fun _ a l => by rw [hx]; simp⟩
      | text a l =>
        simp only [ipamUnnumbered, hr, hx]
        exact ⟨_, rfl, fun h => absurd (Or.inl ⟨a, l, rfl⟩) h⟩
      | addr a l =>
        simp only [ipamUnnumbered, hr, hx]
        exact ⟨_, rfl, fun h => absurd (Or.inr ⟨a, l, rfl⟩) h⟩
    obtain ⟨y, hy, hq⟩ := hd
    rw [hy]
    refine ⟨by simp [ih.1], ?_⟩
    intro k i o hi ho
    cases k with
    | zero =>
      simp only [List.getElem?_cons_zero, Option.some.injEq] at hi ho
      subst hi ho
      exact hq
    | succ k =>
      rw [List.getElem?_cons_succ] at hi ho
      exact ih.2 k i o hi ho

/-- Addresses of interfaces of a link with a prefix: they belong to the prefix and have the same length. -/
theorem assignAf_covers {p2p : Bool} {gwid : Option Int} {alloc : Option Policy} {ids : String → Int} {loop : String → Option Bool} {v6 : Bool} {pfx : Net}
    {ifs out : List LinkIntf} (h : assignAf p2p gwid alloc ids loop v6 pfx ifs = some (out, true)) :
    out.length = ifs.length ∧ ∃ L, ∀ (k : Nat) (i o : LinkIntf), ifs[k]? = some i → out[k]? = some o → ¬ StaticAddr i.ip → ∀ a l, o.ip = .addr a l → l = L ∧ Covers pfx a := by
  obtain ⟨p, _, hne, hr, _⟩ := assignAf_ok h
  have hset : ∀ (f : Nat → Int), (∀ (k : Nat) (i : LinkIntf), ifs[k]? = some i → out[k]? = some { i with ip := (setAddress pfx (f k) i.ip).1 }) →
      ∃ L, ∀ (k : Nat) (i o : LinkIntf), ifs[k]? = some i → out[k]? = some o → ¬ StaticAddr i.ip → ∀ a l, o.ip = .addr a l → l = L ∧ Covers pfx a := by
    intro f hf
    refine ⟨pfx.plen, fun k i o hi ho hs a l ha => ?_⟩
    rw [hf k i hi] at ho
    cases ho
    exact setAddress_covers hs ha
  cases p with
  | error => exact absurd rfl hne
  | unnumbered =>
    simp only [runPolicy, Option.some.injEq] at hr
    have := unnumbered_spec none loop v6 ifs
    rw [hr] at this
    exact ⟨this.1, 0, fun k i o hi ho hs a l ha => absurd ha (this.2 k i o hi ho hs a l)⟩
  | p2p =>
    simp only [runPolicy, Option.some.injEq] at hr
    obtain ⟨h1, pos, h2, _⟩ := ipamP2p_positions pfx ifs out true hr
    exact ⟨h1, hset (fun k => ipamStart pfx + pos k) (fun k i hi => (h2 k i hi).2.1)⟩
  | sequential =>
    simp only [runPolicy, ipamSequential_eq, Option.some.injEq, Prod.mk.injEq] at hr
    rw [← hr.1]
    refine ⟨by simp, ?_⟩
    rw [hr.1]
    refine hset (fun k => seqHost (ipamStart pfx) gwid k) (fun k i hi => ?_)
    rw [← hr.1, List.getElem?_mapIdx, hi]
    rfl
  | idBased =>
    simp only [runPolicy, ipamIdBased_eq, Option.some.injEq, Prod.mk.injEq] at hr
    rw [← hr.1]
    refine ⟨by simp, ?_⟩
    refine ⟨pfx.plen, fun k i o hi ho hs a l ha => ?_⟩
    rw [List.getElem?_map, hi] at ho
    cases ho
    exact setAddress_covers hs ha
  | loopback =>
    simp only [runPolicy, ipamLoopback, Option.some.injEq, Prod.mk.injEq] at hr
    rw [← hr.1]
    refine ⟨by simp, pfx.w, fun k i o hi ho hs a l ha => ?_⟩
    rw [List.getElem?_map, hi] at ho
    cases ho
    simp only [IfAddr.addr.injEq] at ha
    refine ⟨ha.2.symm, by rw [← ha.1]; exact ⟨Nat.le_refl _, Nat.lt_add_of_pos_right (Nat.two_pow_pos _)⟩⟩

/-- What the user asked for: an address with or without the prefix length, the index of an address in the prefix, no address. -/
theorem setAddress_static (pfx : Net) (n : Int) :
    (∀ a l, (setAddress pfx n (.text (some a) l)) = (.addr a (l.getD pfx.plen), true)) ∧
    (∀ l, (setAddress pfx n (.text none l)).2 = false) ∧
    (∀ b, (setAddress pfx n (.flag b)) = (.flag b, true)) ∧
    (∀ i, (setAddress pfx n (.index i)).2 = true → ∃ a, pfx.nth? i = some a ∧ (setAddress pfx n (.index i)).1 = .addr a pfx.plen) := by
  refine ⟨?_, ?_, ?_, ?_⟩
  · intro a l
    cases l <;> rfl
  · intro l
    rfl
  · intro b
    rfl
  · intro i h
    unfold setAddress nthIp at *
    cases hx : pfx.nth? i with
    | none => simp [hx] at h
    | some a => exact ⟨a, rfl, by simp [hx]⟩

theorem ipamUnnumbered_eq (b : Option Bool) (loop : String → Option Bool) (v6 : Bool) (ifs : List LinkIntf) :
    ((ipamUnnumbered b loop v6 ifs).2 = true ↔ ∀ i ∈ ifs, ∀ n, i.ip ≠ .index n) ∧
    ∀ (k : Nat) (i : LinkIntf), ifs[k]? = some i → ∃ o, (ipamUnnumbered b loop v6 ifs).1[k]? = some o ∧ o.node = i.node ∧
      (i.ip ≠ .missing → o.ip = i.ip) ∧ (i.ip = .missing → (∀ x, b = some x → o.ip = .flag x) ∧
        (b = none → ∀ y, loop i.node = some y → o.ip = .flag y) ∧
        (b = none → loop i.node = none → o.ip = if v6 then .flag true else .missing)) := by
  induction ifs with
  | nil => simp [ipamUnnumbered]
  | cons x r ih =>
    generalize hr : ipamUnnumbered b loop v6 r = q at ih
    obtain ⟨q1, q2⟩ := q
    simp only at ih
    have step : ∀ (o : LinkIntf) (k : Nat) (i : LinkIntf), o.node = x.node → (x.ip ≠ .missing → o.ip = x.ip) →
        (x.ip = .missing → (∀ x, b = some x → o.ip = .flag x) ∧
        (b = none → ∀ y, loop x.node = some y → o.ip = .flag y) ∧
        (b = none → loop x.node = none → o.ip = if v6 then .flag true else .missing)) → (x :: r)[k]? = some i →
        ∃ o', (o :: q1)[k]? = some o' ∧ o'.node = i.node ∧
      (i.ip ≠ .missing → o'.ip = i.ip) ∧ (i.ip = .missing → (∀ x, b = some x → o'.ip = .flag x) ∧
        (b = none → ∀ y, loop i.node = some y → o'.ip = .flag y) ∧
        (b = none → loop i.node = none → o'.ip = if v6 then .flag true else .missing)) := by
      intro o k i h1 h2 h3 hi
      cases k with
      | zero =>
        simp only [List.getElem?_cons_zero, Option.some.injEq] at hi
        subst hi
        exact ⟨o, rfl, h1, h2, h3⟩
      | succ k =>
        simp only [List.getElem?_cons_succ] at hi ⊢
        exact ih.2 k i hi
    unfold ipamUnnumbered
    rw [hr]
    cases hx : x.ip with
    | missing =>
      refine ⟨by simp [hx, ih.1], fun k i hi => step _ k i rfl (fun h => absurd hx h) (fun _ => ?_) hi⟩
      refine ⟨?_, ?_, ?_⟩
      · rintro y rfl; rfl
      · rintro rfl y hy; simp [hy]
      · rintro rfl hy; simp [hy]
    | index n =>
      refine ⟨?_, fun k i hi => step _ k i rfl (fun _ => rfl) (fun h => by rw [hx] at h; cases h) hi⟩
      simp only [Bool.false_eq_true, List.mem_cons, forall_eq_or_imp, hx, false_iff, not_and]
      intro h
      exact absurd rfl (h n)
    | flag _ =>
      refine ⟨by simp [hx, ih.1], fun k i hi => step _ k i rfl (fun _ => rfl) (fun h => by rw [hx] at h; cases h) hi⟩
    | text _ _ =>
      refine ⟨by simp [hx, ih.1], fun k i hi => step _ k i rfl (fun _ => rfl) (fun h => by rw [hx] at h; cases h) hi⟩
    | addr _ _ =>
      refine ⟨by simp [hx, ih.1], fun k i hi => step _ k i rfl (fun _ => rfl) (fun h => by rw [hx] at h; cases h) hi⟩

/-- C116: on a link with an unnumbered address family, an interface without an address of its own is enabled or disabled for that address family as the link
says, and other interfaces keep what the user specified.  The index of an address is reported, and nothing else is. -/
theorem C116_unnumbered (p2p : Bool) (gwid : Option Int) (alloc : Option (Option Policy)) (ids : String → Int) (loop : String → Option Bool) (v6 b : Bool)
    (ifs : List LinkIntf) : ∃ out ok, laAf p2p gwid alloc ids loop v6 (some (.attr (.bool b))) ifs = some (out, ok) ∧
      (ok = true ↔ ∀ i ∈ ifs, ∀ n, i.ip ≠ .index n) ∧
      ∀ (k : Nat) (i : LinkIntf), ifs[k]? = some i → ∃ o, out[k]? = some o ∧ o.node = i.node ∧
        (i.ip = .missing → o.ip = .flag b) ∧ (i.ip ≠ .missing → o.ip = i.ip) := by
  obtain ⟨h1, h2⟩ := ipamUnnumbered_eq (some b) loop v6 ifs
  refine ⟨_, _, rfl, h1, fun k i hi => ?_⟩
  obtain ⟨o, q1, q2, q3, q4⟩ := h2 k i hi
  exact ⟨o, q1, q2, fun h => (q4 h).1 b rfl, q3⟩

/-- C116: on an unnumbered link (`unnumbered` in the prefix), a node with a loopback interface uses IPv4 when its loopback interface has an IPv4 address; a node
without one has no IPv4 address.  There is an error when an interface uses the index of an address. -/
theorem C116_unnumbered_link (ids : String → Int) (loop4 loop6 : String → Option Bool) (l : LaLink) (pfx : List (String × PfxEntry))
    (hu : laHas "unnumbered" pfx = true) : ∃ r4 r6 e, laAssign ids loop4 loop6 l pfx = some (r4, r6, e) ∧
      (e = 0 ↔ ∀ i ∈ l.ifs, (∀ n, i.v4 ≠ .index n) ∧ ∀ n, i.v6 ≠ .index n) ∧
      ∀ (k : Nat) i, l.ifs[k]? = some i → i.v4 = .missing → i.v6 = .missing → ∃ o4 o6, r4[k]? = some ⟨i.node, o4⟩ ∧ r6[k]? = some ⟨i.node, o6⟩ ∧
        o4 = (match loop4 i.node with | some y => .flag y | none => .missing) ∧
        o6 = (match loop6 i.node with | some y => .flag y | none => .flag true) := by
  have hne : pfx.isEmpty = false := by
    cases pfx with
    | nil => simp [laHas] at hu
    | cons _ _ => rfl
  unfold laAssign
  simp only [hne, Bool.false_eq_true, if_false, hu, if_true]
  obtain ⟨a1, a2⟩ := ipamUnnumbered_eq none loop4 false (l.ifs.map (fun i => (⟨i.node, i.v4⟩ : LinkIntf)))
  obtain ⟨b1, b2⟩ := ipamUnnumbered_eq none loop6 true (l.ifs.map (fun i => (⟨i.node, i.v6⟩ : LinkIntf)))
  refine ⟨_, _, _, rfl, ?_, ?_⟩
  · have e1 : ∀ c d : Bool, (if c then 0 else 1) + (if d then 0 else 1) = 0 ↔ c = true ∧ d = true := by decide
    rw [e1, a1, b1]
    simp only [List.mem_map, forall_exists_index, and_imp, forall_apply_eq_imp_iff₂]
    constructor
    · exact fun h i hi => ⟨h.1 i hi, h.2 i hi⟩
    · exact fun h => ⟨fun i hi => (h i hi).1, fun i hi => (h i hi).2⟩
  · intro k i hi h4 h6
    obtain ⟨o4, q1, q2, -, q3⟩ := a2 k ⟨i.node, i.v4⟩ (by rw [List.getElem?_map, hi]; rfl)
    obtain ⟨o6, r1, r2, -, r3⟩ := b2 k ⟨i.node, i.v6⟩ (by rw [List.getElem?_map, hi]; rfl)
    obtain ⟨-, q4, q5⟩ := q3 h4
    obtain ⟨-, r4, r5⟩ := r3 h6
    refine ⟨o4.ip, o6.ip, by rw [q1]; exact congrArg (fun n => some (⟨n, o4.ip⟩ : LinkIntf)) q2, by rw [r1]; exact congrArg (fun n => some (⟨n, o6.ip⟩ : LinkIntf)) r2, ?_, ?_⟩
    · cases hl : loop4 i.node with
      | some y => exact q4 rfl y hl
      | none => exact q5 rfl hl
    · cases hl : loop6 i.node with
      | some y => exact r4 rfl y hl
      | none => exact r5 rfl hl

/-- An unnumbered link with a router and a host. -/
example : laHas "unnumbered" [("unnumbered", .attr (.bool true))] = true ∧
    (laAssign (fun _ => 1) (fun n => if n = "r" then some true else none) (fun _ => none)
      ⟨"l", true, none, none, true, none, none, [], [⟨"r", .missing, .missing⟩, ⟨"h", .missing, .index 3⟩]⟩ [("unnumbered", .attr (.bool true))]).map (·.2.2) = some 1 := by
  decide +kernel

/-- C116: an interface on a numbered link has the address specified by the user: an address without a prefix length gets the length of the
link prefix, the index of an address is the position of the address in the link prefix, and the user can disable the address. -/
theorem C116_static_address {p2p : Bool} {gwid : Option Int} {alloc : Option Policy} {ids : String → Int} {loop : String → Option Bool}
    {v6 : Bool} {pfx : Net} {ifs out : List LinkIntf} (h : assignAf p2p gwid alloc ids loop v6 pfx ifs = some (out, true))
    (hp : choosePolicy p2p gwid alloc ids pfx ifs = some .p2p ∨ choosePolicy p2p gwid alloc ids pfx ifs = some .sequential ∨
      choosePolicy p2p gwid alloc ids pfx ifs = some .idBased)
    {k : Nat} {i : LinkIntf} (hi : ifs[k]? = some i) : ∃ o, out[k]? = some o ∧ o.node = i.node ∧
      (∀ a l, i.ip = .text (some a) l → o.ip = .addr a (l.getD pfx.plen)) ∧ (∀ l, i.ip ≠ .text none l) ∧
      (∀ b, i.ip = .flag b → o.ip = .flag b) ∧ (∀ n, i.ip = .index n → ∃ a, pfx.nth? n = some a ∧ o.ip = .addr a pfx.plen) := by
  obtain ⟨p, hc, _, hr, _⟩ := assignAf_ok h
  have key : ∀ n : Int, out[k]? = some { i with ip := (setAddress pfx n i.ip).1 } → (setAddress pfx n i.ip).2 = true →
      ∃ o, out[k]? = some o ∧ o.node = i.node ∧
      (∀ a l, i.ip = .text (some a) l → o.ip = .addr a (l.getD pfx.plen)) ∧ (∀ l, i.ip ≠ .text none l) ∧
      (∀ b, i.ip = .flag b → o.ip = .flag b) ∧ (∀ n, i.ip = .index n → ∃ a, pfx.nth? n = some a ∧ o.ip = .addr a pfx.plen) := by
    intro n ho hk
    obtain ⟨s1, s2, s3, s4⟩ := setAddress_static pfx n
    refine ⟨_, ho, rfl, ?_, ?_, ?_, ?_⟩
    · intro a l e
      simp only [e, s1]
    · intro l e
      rw [e, s2] at hk
      cases hk
    · intro b e
      simp only [e, s3]
    · intro m e
      rw [e] at hk
      obtain ⟨a, h1, h2⟩ := s4 m hk
      exact ⟨a, h1, by simp only [e, h2]⟩
  rw [hc] at hp
  simp only [Option.some.injEq] at hp
  have hk : k < ifs.length := (List.getElem?_eq_some_iff.mp hi).1
  rcases hp with rfl | rfl | rfl
  · simp only [runPolicy, Option.some.injEq] at hr
    obtain ⟨h1, pos, h2, _⟩ := ipamP2p_positions pfx ifs out true hr
    exact key _ (h2 k i hi).2.1 ((h2 k i hi).2.2 rfl)
  · simp only [runPolicy, ipamSequential_eq, Option.some.injEq, Prod.mk.injEq] at hr
    refine key (seqHost (ipamStart pfx) gwid k) ?_ ?_
    · rw [← hr.1, List.getElem?_mapIdx, hi]
      rfl
    · have := List.all_eq_true.mp hr.2 (i, k) (by rw [List.mem_zipIdx_iff_getElem?]; exact hi)
      exact this
  · simp only [runPolicy, ipamIdBased_eq, Option.some.injEq, Prod.mk.injEq] at hr
    refine key (ids i.node) ?_ ?_
    · rw [← hr.1, List.getElem?_map, hi]
      rfl
    · exact List.all_eq_true.mp hr.2 i (List.mem_of_getElem? hi)

/-- C116 (defect): the `loopback` allocation method replaces the address specified by the user. -/
theorem C116_static_lost :
    assignAf false none (some .loopback) (fun _ => 1) (fun _ => none) false ⟨32, 167772160, 24⟩ [⟨"r1", .text (some 167772165) none⟩] =
      some ([⟨"r1", .addr 167772160 32⟩], true) := by decide +kernel

example : assignAf false none (some .sequential) (fun _ => 1) (fun _ => none) false ⟨32, 167772160, 24⟩
    [⟨"r1", .text (some 167772165) none⟩, ⟨"r2", .index 7⟩, ⟨"r3", .missing⟩, ⟨"r4", .text (some 167772170) (some 28)⟩] =
      some ([⟨"r1", .addr 167772165 24⟩, ⟨"r2", .addr 167772167 24⟩, ⟨"r3", .addr 167772163 24⟩, ⟨"r4", .addr 167772170 28⟩], true) := by
  decide +kernel

/-- One address family of a link -/
theorem laAf_covers {p2p : Bool} {gwid : Option Int} {alloc : Option (Option Policy)} {ids : String → Int} {loop : String → Option Bool} {v6 : Bool}
    {e : Option PfxEntry} {ifs out : List LinkIntf} (h : laAf p2p gwid alloc ids loop v6 e ifs = some (out, true)) :
    out.length = ifs.length ∧ ∃ L, ∀ (k : Nat) (i o : LinkIntf), ifs[k]? = some i → out[k]? = some o → ¬ StaticAddr i.ip → ∀ a l, o.ip = .addr a l →
      l = L ∧ ∃ s, e = some (.net s) ∧ Covers s a := by
  unfold laAf at h
  cases e with
  | none =>
    cases h
    refine ⟨rfl, 0, fun k i o hi ho hs a l ha => ?_⟩
    rw [hi] at ho
    cases ho
    exact absurd (Or.inr ⟨a, l, ha⟩) hs
  | some e =>
    cases e with
    | attr v =>
      cases v with
      | bool b =>
        simp only [Option.some.injEq] at h
        have := unnumbered_spec (some b) loop v6 ifs
        rw [h] at this
        exact ⟨this.1, 0, fun k i o hi ho hs a l ha => absurd ha (this.2 k i o hi ho hs a l)⟩
      | _ => simp at h
    | net s =>
      have hx : ∃ al, assignAf p2p gwid al ids loop v6 s ifs = some (out, true) := by
        cases alloc with
        | none => exact ⟨none, h⟩
        | some al =>
          cases al with
          | none => cases h
          | some p => exact ⟨some p, h⟩
      obtain ⟨al, hx⟩ := hx
      obtain ⟨h1, L, h2⟩ := assignAf_covers hx
      refine ⟨h1, L, fun k i o hi ho hs a l ha => ?_⟩
      obtain ⟨h3, h4⟩ := h2 k i o hi ho hs a l ha
      exact ⟨h3, s, rfl, h4⟩

/-- Addresses of interfaces of a link -/
theorem laAssign_covers {ids : String → Int} {loop4 loop6 : String → Option Bool} {l : LaLink} {pfx : List (String × PfxEntry)}
    {i4 i6 : List LinkIntf} (h : laAssign ids loop4 loop6 l pfx = some (i4, i6, 0)) (af : String) (haf : AfName af) :
    let out := if af = "ipv6" then i6 else i4
    out.length = l.ifs.length ∧ ∃ L, ∀ (k : Nat) (i : LaIntf) (o : LinkIntf), l.ifs[k]? = some i → out[k]? = some o → ¬ StaticAddr (LaIntf.ip af i) → ∀ a pl, o.ip = .addr a pl →
      pl = L ∧ ∃ s, pfx.lookup af = some (.net s) ∧ Covers s a := by
  have hmap : ∀ (f : LaIntf → LinkIntf) (out : List LinkIntf) (e : Option PfxEntry), (∀ i, (f i).ip = LaIntf.ip af i) →
      (out.length = (l.ifs.map f).length ∧ ∃ L, ∀ (k : Nat) (i o : LinkIntf), (l.ifs.map f)[k]? = some i → out[k]? = some o → ¬ StaticAddr i.ip → ∀ a pl, o.ip = .addr a pl →
        pl = L ∧ ∃ s, e = some (.net s) ∧ Covers s a) →
      out.length = l.ifs.length ∧ ∃ L, ∀ (k : Nat) (i : LaIntf) (o : LinkIntf), l.ifs[k]? = some i → out[k]? = some o → ¬ StaticAddr (LaIntf.ip af i) → ∀ a pl, o.ip = .addr a pl →
        pl = L ∧ ∃ s, e = some (.net s) ∧ Covers s a := by
    rintro f out e hf ⟨h1, L, h2⟩
    refine ⟨by simpa using h1, L, fun k i o hi ho hs => h2 k (f i) o (by rw [List.getElem?_map, hi]; rfl) ho (by rw [hf]; exact hs)⟩
  have hnone : ∀ (ifs out : List LinkIntf) (e : Option PfxEntry), (out.length = ifs.length ∧ ∀ (k : Nat) (i o : LinkIntf), ifs[k]? = some i → out[k]? = some o →
      ¬ StaticAddr i.ip → ∀ a l, o.ip ≠ .addr a l) → (out.length = ifs.length ∧ ∃ L, ∀ (k : Nat) (i o : LinkIntf), ifs[k]? = some i → out[k]? = some o → ¬ StaticAddr i.ip →
        ∀ a pl, o.ip = .addr a pl → pl = L ∧ ∃ s, e = some (.net s) ∧ Covers s a) :=
    fun ifs out e hh => ⟨hh.1, 0, fun k i o hi ho hs a l ha => absurd ha (hh.2 k i o hi ho hs a l)⟩
  have hid : ∀ ifs : List LinkIntf, ∀ (k : Nat) (i o : LinkIntf), ifs[k]? = some i → ifs[k]? = some o → ¬ StaticAddr i.ip → ∀ a l, o.ip ≠ .addr a l := by
    intro ifs k i o hi ho hs a l ha
    rw [hi] at ho
    cases ho
    exact hs (Or.inr ⟨a, l, ha⟩)
  unfold laAssign at h
  simp only at h
  by_cases hp : pfx.isEmpty
  · rw [if_pos hp] at h
    simp only [Option.some.injEq, Prod.mk.injEq] at h
    obtain ⟨rfl, rfl, _⟩ := h
    rcases haf with rfl | rfl
    · exact hmap (fun i => ⟨i.node, i.v4⟩) _ _ (fun i => rfl) (hnone _ _ _ ⟨rfl, hid _⟩)
    · exact hmap (fun i => ⟨i.node, i.v6⟩) _ _ (fun i => rfl) (hnone _ _ _ ⟨rfl, hid _⟩)
  · rw [if_neg hp] at h
    by_cases hu : laHas "unnumbered" pfx
    · rw [if_pos hu] at h
      simp only [Option.some.injEq, Prod.mk.injEq] at h
      obtain ⟨rfl, rfl, _⟩ := h
      rcases haf with rfl | rfl
      · exact hmap (fun i => ⟨i.node, i.v4⟩) _ _ (fun i => rfl) (hnone _ _ _ (unnumbered_spec none loop4 false _))
      · exact hmap (fun i => ⟨i.node, i.v6⟩) _ _ (fun i => rfl) (hnone _ _ _ (unnumbered_spec none loop6 true _))
    · rw [if_neg hu] at h
      cases h4 : laAf l.p2p l.gwid (laAlloc pfx) ids loop4 false (pfx.lookup "ipv4") (l.ifs.map (fun i => (⟨i.node, i.v4⟩ : LinkIntf))) with
      | none => rw [h4] at h; cases h
      | some r4 =>
        cases h6 : laAf l.p2p l.gwid (laAlloc pfx) ids loop6 true (pfx.lookup "ipv6") (l.ifs.map (fun i => (⟨i.node, i.v6⟩ : LinkIntf))) with
        | none => rw [h4, h6] at h; cases h
        | some r6 =>
          rw [h4, h6] at h
          simp only [Option.some.injEq, Prod.mk.injEq] at h
          obtain ⟨rfl, rfl, he⟩ := h
          have hf4 : r4.2 = true := by
            cases hh : r4.2 with
            | true => rfl
            | false => rw [hh] at he; simp at he
          have hf6 : r6.2 = true := by
            cases hh : r6.2 with
            | true => rfl
            | false => rw [hh] at he; simp at he
          rcases haf with rfl | rfl
          · exact hmap (fun i => ⟨i.node, i.v4⟩) _ _ (fun i => rfl) (laAf_covers (by rw [h4]; exact congrArg some (Prod.ext rfl hf4)))
          · exact hmap (fun i => ⟨i.node, i.v6⟩) _ _ (fun i => rfl) (laAf_covers (by rw [h6]; exact congrArg some (Prod.ext rfl hf6)))

/-! ### Prefixes of links -/

/-- An answer of the address pools -/
abbrev PoolAnswer := Nat × Option String × List (String × PfxEntry)

theorem laMerge_lookup (extra d : List (String × PfxEntry)) (k : String) (h : extra.lookup k = none) :
    (extra.foldl (fun d x => setKey d x.1 x.2) d).lookup k = d.lookup k := by
  induction extra generalizing d with
  | nil => rfl
  | cons x r ih =>
    obtain ⟨j, v⟩ := x
    have hne : k ≠ j := by
      rintro rfl
      rw [lookup_cons_self] at h
      cases h
    rw [lookup_cons_ne _ _ hne] at h
    rw [List.foldl_cons, ih _ h, lookup_setKey, if_neg hne]

/-- The prefix of a link that has no prefix of its own comes from the pool. -/
def LaRel (x : LaLink × LaOut) (e : Option PoolAnswer) : Prop :=
  ¬ OwnPrefix x.1 → ∀ af s, AfName af → x.2.pfx.lookup af = some (.net s) → ∃ d p, e = some d ∧ d.1 = 0 ∧ x.2.src = some p ∧ HandsOut d p af s

theorem laFromPool_log (pools : Pools) (l : LaLink) (extra : List (String × PfxEntry)) (hx : ∀ af, AfName af → extra.lookup af = none) :
    ∃ (req : Option (List String × Nat)) (e : Option PoolAnswer), runRequests pools req.toList = (e.toList, (laFromPool pools l extra).pools) ∧
      ∀ af s, AfName af → (laFromPool pools l extra).pfx.lookup af = some (.net s) →
        ∃ d p, e = some d ∧ d.1 = 0 ∧ (laFromPool pools l extra).src = some p ∧ HandsOut d p af s := by
  unfold laFromPool
  by_cases hu : l.unnumbered = true
  · rw [if_pos hu]
    refine ⟨none, none, rfl, fun af s haf h => ?_⟩
    rcases haf with rfl | rfl <;> simp [List.lookup] at h
  · rw [if_neg hu]
    simp only
    refine ⟨some ((laCandidates pools l).1, 0), some (0, (getPrefix pools (laCandidates pools l).1 0).1, (getPrefix pools (laCandidates pools l).1 0).2.1), rfl, ?_⟩
    intro af s haf h
    rw [laMerge_lookup _ _ _ (hx af haf)] at h
    have hm := mem_of_lookup h
    unfold getPrefix at hm ⊢
    simp only at hm ⊢
    cases hg : getPool pools (if (laCandidates pools l).1.isEmpty then ["lan"] else (laCandidates pools l).1) with
    | none => rw [hg] at hm; cases hm
    | some p =>
      rw [hg] at hm
      exact ⟨_, p, rfl, rfl, rfl, rfl, hm⟩

theorem laPrefix_log (pools : Pools) (l : LaLink) :
    ∃ (req : Option (List String × Nat)) (e : Option PoolAnswer), runRequests pools req.toList = (e.toList, (laPrefix pools l).pools) ∧
      (¬ OwnPrefix l → ∀ af s, AfName af → (laPrefix pools l).pfx.lookup af = some (.net s) →
        ∃ d p, e = some d ∧ d.1 = 0 ∧ (laPrefix pools l).src = some p ∧ HandsOut d p af s) := by
  unfold laPrefix
  cases hp : l.pfx with
  | none =>
    obtain ⟨req, e, h1, h2⟩ := laFromPool_log pools l [] (fun _ _ => rfl)
    exact ⟨req, e, h1, fun _ => h2⟩
  | some x =>
    obtain ⟨d, er⟩ := x
    simp only
    by_cases hc : (d.isEmpty || laHas "ipv4" d || laHas "ipv6" d) = true
    · rw [if_pos hc]
      refine ⟨none, none, rfl, fun hn af s haf h => ?_⟩
      refine absurd ⟨d, er, hp, ?_⟩ hn
      rcases haf with rfl | rfl
      · left; simp only at h; rw [h]; simp
      · right; simp only at h; rw [h]; simp
    · rw [if_neg hc]
      have hx : ∀ af, AfName af → d.lookup af = none := by
        intro af haf
        simp only [Bool.or_eq_true, not_or, laHas, Option.isSome_iff_ne_none, ne_eq, Decidable.not_not] at hc
        rcases haf with rfl | rfl
        · exact hc.1.2
        · exact hc.2
      obtain ⟨req, e, h1, h2⟩ := laFromPool_log pools l d hx
      exact ⟨req, e, h1, fun _ => h2⟩

theorem laLink_src {ids : String → Int} {loop4 loop6 : String → Option Bool} {dup : Bool} {pools pools' : Pools} {l : LaLink} {o : LaOut}
    (h : laLink ids loop4 loop6 dup pools l = some (o, pools')) :
    o.src = (laPrefix pools l).src ∧ o.pfx = (laPrefix pools l).pfx ∧ pools' = (laPrefix pools l).pools ∧
    ∃ e, laAssign ids loop4 loop6 l o.pfx = some (o.if4, o.if6, e) ∧ o.gw4 = (laGateway l.gwid o.pfx).1 ∧ o.gw6 = (laGateway l.gwid o.pfx).2.1 ∧
      o.err = (laPrefix pools l).err + (laGateway l.gwid o.pfx).2.2 + e + (if dup then dupCheck o.gw4 o.if4 + dupCheck o.gw6 o.if6 else 0) := by
  unfold laLink at h
  simp only at h
  cases ha : laAssign ids loop4 loop6 l (laPrefix pools l).pfx with
  | none => rw [ha] at h; cases h
  | some r =>
    rw [ha] at h
    simp only [Option.some.injEq, Prod.mk.injEq] at h
    obtain ⟨rfl, rfl⟩ := h
    exact ⟨rfl, rfl, rfl, r.2.2, ha, rfl, rfl, rfl⟩

theorem laLinks_log {ids : String → Int} {loop4 loop6 : String → Option Bool} {dup : Bool} (links : List LaLink) (pools pools' : Pools) (outs : List LaOut)
    (h : laLinks ids loop4 loop6 dup pools links = some (outs, pools')) :
    outs.length = links.length ∧ (∀ x ∈ links.zip outs, ∃ q q', laLink ids loop4 loop6 dup q x.1 = some (x.2, q')) ∧
    ∃ reqs es, runRequests pools reqs = (es.filterMap id, pools') ∧ List.Forall₂ LaRel (links.zip outs) es := by
  induction links generalizing pools outs with
  | nil =>
    cases h
    exact ⟨rfl, by simp, [], [], rfl, .nil⟩
  | cons l r ih =>
    unfold laLinks at h
    cases hl : laLink ids loop4 loop6 dup pools l with
    | none => rw [hl] at h; cases h
    | some x =>
      rw [hl] at h
      simp only at h
      cases hr : laLinks ids loop4 loop6 dup x.2 r with
      | none => rw [hr] at h; cases h
      | some y =>
        rw [hr] at h
        simp only [Option.some.injEq, Prod.mk.injEq] at h
        obtain ⟨rfl, rfl⟩ := h
        obtain ⟨h1, h2, reqs, es, h3, h4⟩ := ih x.2 y.1 hr
        obtain ⟨req, e, h5, h6⟩ := laPrefix_log pools l
        obtain ⟨a1, a2, a3, _⟩ := laLink_src (o := x.1) (pools' := x.2) hl
        refine ⟨by simp [h1], ?_, req.toList ++ reqs, e :: es, ?_, ?_⟩
        · intro z hz
          rcases List.mem_cons.1 hz with rfl | hz
          · exact ⟨pools, x.2, hl⟩
          · exact h2 z hz
        · rw [runRequests_append, h5]
          simp only
          rw [← a3, h3]
          cases e <;> simp
        · refine .cons ?_ h4
          intro hn
          have := h6 hn
          rw [← a1, ← a2] at this
          exact this

/-- Prefixes handed out by address pools don't overlap when the pools don't. -/
theorem answers_apart (p0 pools' : Pools) (hf : FreshPools p0) (used : String → Prop) (ha : PoolsApart p0 used) (reqs : List (List String × Nat))
    (log : List PoolAnswer) (h : runRequests p0 reqs = (log, pools')) :
    log.Pairwise (fun a b => ∀ p q af s t, used p → used q → HandsOut a p af s → HandsOut b q af t → (a.1 = 0 ∨ a.1 ≠ b.1) → Spec.Disjoint s t) := by
  have h1 := C03_sequential_disjoint p0 pools' reqs log hf h
  have h2 := C04_different_requests_disjoint p0 pools' reqs log hf h
  rw [List.pairwise_iff_getElem] at h1 h2 ⊢
  intro i j hi hj hij p q af s t up uq hs ht hc
  by_cases hpq : p = q
  · subst hpq
    rcases hc with hc | hc
    · exact h1 i j hi hj hij p af s t hs ht hc
    · exact h2 i j hi hj hij p af s t hs ht hc
  · obtain ⟨m, k, a1, _, _, _, a5⟩ := C03_length_and_containment p0 pools' reqs log hf h _ (List.getElem_mem hi) p af s hs
    obtain ⟨n, l, b1, _, _, _, b5⟩ := C03_length_and_containment p0 pools' reqs log hf h _ (List.getElem_mem hj) q af t ht
    exact fun a hh => ha p q af m k n l up uq hpq a1 b1 a ⟨a5 a hh.1, b5 a hh.2⟩

/-! ### The whole lab -/

theorem mem_assignedOnLink {af : String} {x : LaLink × LaOut} {a : Nat} :
    a ∈ assignedOnLink af x ↔ ¬ OwnPrefix x.1 ∧ ∃ (k : Nat) (i : LaIntf) (o : LinkIntf), x.1.ifs[k]? = some i ∧ (LaOut.ifs af x.2)[k]? = some o ∧
      ¬ StaticAddr (LaIntf.ip af i) ∧ ∃ l, o.ip = .addr a l := by
  unfold assignedOnLink
  by_cases ho : OwnPrefix x.1
  · simp [ho]
  · rw [if_neg ho, List.mem_filterMap]
    constructor
    · rintro ⟨⟨i, o⟩, hm, hv⟩
      obtain ⟨k, hk, he⟩ := List.mem_iff_getElem.1 hm
      rw [List.getElem_zip] at he
      simp only [Prod.mk.injEq] at he
      have hk1 : k < x.1.ifs.length := by simp at hk; omega
      have hk2 : k < (LaOut.ifs af x.2).length := by simp at hk; omega
      simp only at hv
      by_cases hs : StaticAddr (LaIntf.ip af i)
      · rw [if_pos hs] at hv; cases hv
      · rw [if_neg hs] at hv
        refine ⟨ho, k, i, o, by rw [List.getElem?_eq_getElem hk1, he.1], by rw [List.getElem?_eq_getElem hk2, he.2], hs, ?_⟩
        cases hip : o.ip with
        | addr b l => rw [hip] at hv; cases hv; exact ⟨l, rfl⟩
        | _ => rw [hip] at hv; cases hv
    · rintro ⟨_, k, i, o, h1, h2, hs, l, hl⟩
      refine ⟨(i, o), ?_, ?_⟩
      · rw [List.mem_iff_getElem?]
        exact ⟨k, by rw [List.getElem?_zip_eq_some]; exact ⟨h1, h2⟩⟩
      · simp only
        rw [if_neg hs, hl]
        rfl

/-- What's known about an addressed link -/
theorem laLink_covers {ids : String → Int} {loop4 loop6 : String → Option Bool} {dup : Bool} {pools pools' : Pools} {l : LaLink} {o : LaOut}
    (h : laLink ids loop4 loop6 dup pools l = some (o, pools')) (he : o.err = 0) (af : String) (haf : AfName af) :
    (LaOut.ifs af o).length = l.ifs.length ∧
    (∃ L, ∀ (k : Nat) (i : LaIntf) (y : LinkIntf), l.ifs[k]? = some i → (LaOut.ifs af o)[k]? = some y → ¬ StaticAddr (LaIntf.ip af i) → ∀ a pl, y.ip = .addr a pl →
      pl = L ∧ ∃ s, o.pfx.lookup af = some (.net s) ∧ Covers s a) ∧
    (dup = true → dupCheck (LaOut.gateway af o) (LaOut.ifs af o) = 0) := by
  obtain ⟨_, _, _, e, h1, _, _, h4⟩ := laLink_src h
  have he0 : e = 0 := by omega
  subst he0
  have := laAssign_covers h1 af haf
  simp only at this
  refine ⟨this.1, this.2, fun hd => ?_⟩
  rw [if_pos hd] at h4
  rcases haf with rfl | rfl
  · show dupCheck o.gw4 o.if4 = 0
    omega
  · show dupCheck o.gw6 o.if6 = 0
    omega

theorem assignedOnLink_nodup {ids : String → Int} {loop4 loop6 : String → Option Bool} {pools pools' : Pools} {l : LaLink} {o : LaOut}
    (h : laLink ids loop4 loop6 true pools l = some (o, pools')) (he : o.err = 0) (af : String) (haf : AfName af) : (assignedOnLink af (l, o)).Nodup := by
  classical
  obtain ⟨h1, ⟨L, h2⟩, h3⟩ := laLink_covers h he af haf
  have hd := ((C51_duplicate_check_exact _ _).1 (h3 rfl)).1
  unfold assignedOnLink
  by_cases ho : OwnPrefix l
  · rw [if_pos ho]; exact List.nodup_nil
  · rw [if_neg ho]
    unfold List.Nodup
    rw [List.pairwise_filterMap, List.pairwise_iff_getElem]
    intro j k hj hk hjk a ha b hb hab
    subst hab
    rw [List.getElem_zip] at ha hb
    simp only at ha hb
    have hj1 : j < l.ifs.length := by simp at hj; omega
    have hj2 : j < (LaOut.ifs af o).length := by simp at hj; omega
    have hk1 : k < l.ifs.length := by simp at hk; omega
    have hk2 : k < (LaOut.ifs af o).length := by simp at hk; omega
    have get : ∀ (m : Nat) (h1 : m < l.ifs.length) (h2' : m < (LaOut.ifs af o).length),
        (if StaticAddr (LaIntf.ip af l.ifs[m]) then none else addrOf ((LaOut.ifs af o)[m]).ip) = some a →
        ((LaOut.ifs af o)[m]).ip = .addr a L := by
      intro m h1 h2' hm
      by_cases hs : StaticAddr (LaIntf.ip af l.ifs[m])
      · rw [if_pos hs] at hm; cases hm
      · rw [if_neg hs] at hm
        cases hip : ((LaOut.ifs af o)[m]).ip with
        | addr b pl =>
          rw [hip] at hm
          cases hm
          rw [(h2 m _ _ (List.getElem?_eq_getElem h1) (List.getElem?_eq_getElem h2') hs a pl hip).1]
        | _ => rw [hip] at hm; cases hm
    exact hd j k _ _ a L (by omega) (List.getElem?_eq_getElem hj2) (List.getElem?_eq_getElem hk2) (get j hj1 hj2 ha) (get k hk1 hk2 hb)

theorem mem_assignedLoopbacks {af : String} {nodes : List (LbNode × LbState)} {a : Nat} :
    a ∈ assignedLoopbacks af nodes ↔ ∃ o ∈ nodes, ∃ pl, LbFromPool o af a pl := by
  unfold assignedLoopbacks LbFromPool
  rw [List.mem_filterMap]
  constructor
  · rintro ⟨o, ho, hv⟩
    refine ⟨o, ho, ?_⟩
    by_cases hs : o.1.host = true ∨ HasStatic o.1 af
    · rw [if_pos hs] at hv; cases hv
    · rw [if_neg hs] at hv
      cases hl : o.2.lb.lookup af with
      | none => rw [hl] at hv; cases hv
      | some v =>
        cases v with
        | other v => rw [hl] at hv; cases hv
        | addr b pl =>
          rw [hl] at hv
          cases hv
          exact ⟨pl, by simpa using fun h => hs (Or.inl h), fun h => hs (Or.inr h), rfl⟩
  · rintro ⟨o, ho, pl, h1, h2, h3⟩
    refine ⟨o, ho, ?_⟩
    have hn : ¬ (o.1.host = true ∨ HasStatic o.1 af) := by
      rintro (h | h)
      · rw [h1] at h; cases h
      · exact h2 h
    rw [if_neg hn, h3]
    rfl

/-- **C116**: all addresses netlab assigned from address pools, loopback addresses and addresses of all interfaces of all links, are different, as long as node IDs
are different and the pools don't overlap.  `pre` and `mid` are other prefixes taken from pools before and after the loopbacks (named prefixes, VLANs...). -/
theorem C116_unique (p0 : Pools) (hf : FreshPools p0) (hw : ∀ p net plen, AllocatesFrom p0 p "ipv6" net plen → net.w = 128)
    (pre mid : List (List String × Nat)) (nodes : List LbNode) (hid : (nodes.map (·.id)).Nodup)
    (ids : String → Int) (loop4 loop6 : String → Option Bool) (links : List LaLink) (outs : List LaOut) (pools' : Pools)
    (h : laLinks ids loop4 loop6 true (runRequests (lbNodes (runRequests p0 pre).2 nodes).2.2 mid).2 links = some (outs, pools'))
    (herr : ∀ o ∈ outs, o.err = 0) (hp : PoolsApart p0 (UsedPool nodes outs)) (af : String) (haf : AfName af) :
    (assignedLoopbacks af (lbNodes (runRequests p0 pre).2 nodes).1 ++ (links.zip outs).flatMap (assignedOnLink af)).Nodup := by
  obtain ⟨log1, l1, l2⟩ := lbNodes_log nodes (runRequests p0 pre).2
  obtain ⟨hlen, hstep, reqs, es, k1, k2⟩ := laLinks_log links _ _ outs h
  have hrun : runRequests p0 ((pre ++ lbReqs nodes) ++ (mid ++ reqs)) =
      (((runRequests p0 pre).1 ++ log1) ++ ((runRequests (lbNodes (runRequests p0 pre).2 nodes).2.2 mid).1 ++ es.filterMap id), pools') := by
    rw [runRequests_append, runRequests_append, l1]
    simp only
    rw [runRequests_append, k1]
  have hall := answers_apart p0 pools' hf (UsedPool nodes outs) hp _ _ hrun
  have hmem := fun e he p af s hs => handsOut_width p0 pools' _ _ hf hw hrun e he p af s hs
  have hids : (lbNodes (runRequests p0 pre).2 nodes).1.Pairwise (fun a b => a.1.id ≠ b.1.id) := by
    have : (lbNodes (runRequests p0 pre).2 nodes).1.map (·.1) = nodes := by
      generalize (runRequests p0 pre).2 = q
      clear * -
      induction nodes generalizing q with
      | nil => rfl
      | cons n r ih =>
        unfold lbNodes
        split
        · simp [ih]
        · simp [ih]
    have h2 : ((lbNodes (runRequests p0 pre).2 nodes).1.map (fun o => o.1.id)).Nodup := by
      rw [show (fun o : LbNode × LbState => o.1.id) = (fun n : LbNode => n.id) ∘ (fun o : LbNode × LbState => o.1) from rfl, ← List.map_map, this]
      exact hid
    unfold List.Nodup at h2
    rwa [List.pairwise_map] at h2
  -- addresses and answers
  have hlb : ∀ o ∈ (lbNodes (runRequests p0 pre).2 nodes).1, ∀ a pl, LbFromPool o af a pl → UsedPool nodes outs (LbNode.poolName o.1) := by
    intro o ho a pl hh
    exact Or.inl ⟨o.1, (lbNodes_mem nodes _ o ho).1, hh.1, rfl⟩
  have hlink : ∀ x ∈ links.zip outs, ∀ e, LaRel x e → ∀ a ∈ assignedOnLink af x,
      ∃ ans p s, e = some ans ∧ ans.1 = 0 ∧ UsedPool nodes outs p ∧ HandsOut ans p af s ∧ Covers s a := by
    intro x hx e hr a ha
    obtain ⟨ho, k, i, y, h1, h2, h3, pl, h4⟩ := mem_assignedOnLink.1 ha
    obtain ⟨q, q', hq⟩ := hstep x hx
    obtain ⟨_, ⟨L, hc⟩, _⟩ := laLink_covers hq (herr _ (List.of_mem_zip hx).2) af haf
    obtain ⟨_, s, hs1, hs2⟩ := hc k i y h1 h2 h3 a pl h4
    obtain ⟨ans, p, r1, r2, r3, r4⟩ := hr ho af s haf hs1
    exact ⟨ans, p, s, r1, r2, Or.inr ⟨x.2, (List.of_mem_zip hx).2, r3⟩, r4, hs2⟩
  obtain ⟨hA, hB, hx⟩ := List.pairwise_append.1 hall
  have hl1 := (List.pairwise_append.1 hA).2.1
  have hl2 := (List.pairwise_append.1 hB).2.1
  have hfrom : ∀ o ∈ (lbNodes (runRequests p0 pre).2 nodes).1, ∀ a pl, LbFromPool o af a pl → ∀ e ∈ log1, LbRel o e →
      ∃ s, HandsOut e (LbNode.poolName o.1) af s ∧ Covers s a := by
    intro o ho a pl hh e he hr
    obtain ⟨s, h1, h2⟩ := lbRel_prefix o e hr af a pl hh
    obtain ⟨w1, w2⟩ := hmem e (List.mem_append_left _ (List.mem_append_right _ he)) _ _ _ h1
    exact ⟨s, h1, (lbValue_covers af s a pl h2 w2 w1).1⟩
  rw [List.nodup_append]
  refine ⟨?_, ?_, ?_⟩
  · have h3 : (lbNodes (runRequests p0 pre).2 nodes).1.filter (fun o => !o.1.host) |>.Pairwise
        (fun a b => a.1.id ≠ b.1.id → ∀ x y pl ql, LbFromPool a af x pl → LbFromPool b af y ql → x ≠ y) := by
      refine pairwise_forall₂ (forall₂_with_mem l2) hl1 ?_
      rintro a b c d ⟨r1, m1, n1⟩ ⟨r2, m2, n2⟩ hcd hne x y pl ql hx hy rfl
      have m1' := (List.mem_filter.1 m1).1
      have m2' := (List.mem_filter.1 m2).1
      obtain ⟨s, s1, s2⟩ := hfrom a m1' x pl hx c n1 r1
      obtain ⟨t, t1, t2⟩ := hfrom b m2' x ql hy d n2 r2
      exact hcd _ _ af s t (hlb a m1' x pl hx) (hlb b m2' x ql hy) s1 t1 (Or.inr (by rw [r1.1, r2.1]; exact hne)) x ⟨s2, t2⟩
    rw [List.pairwise_filter] at h3
    unfold assignedLoopbacks List.Nodup
    rw [List.pairwise_filterMap]
    refine (hids.and h3).imp ?_
    rintro a b ⟨hne, h⟩ x hx y hy
    classical
    have lf : ∀ (o : LbNode × LbState) (x : Nat), (if o.1.host = true ∨ HasStatic o.1 af then none else lbAddrOf (o.2.lb.lookup af)) = some x →
        ∃ pl, LbFromPool o af x pl := by
      intro o x hx
      have := (mem_assignedLoopbacks (af := af) (nodes := [o]) (a := x)).1 (by unfold assignedLoopbacks; rw [List.mem_filterMap]; exact ⟨o, List.mem_singleton.2 rfl, hx⟩)
      obtain ⟨o', ho', pl, h⟩ := this
      rw [List.mem_singleton.1 ho'] at h
      exact ⟨pl, h⟩
    obtain ⟨pl, h1⟩ := lf a x hx
    obtain ⟨ql, h2⟩ := lf b y hy
    exact h (by simp [h1.1]) (by simp [h2.1]) hne x y pl ql h1 h2
  · rw [List.nodup_flatMap]
    constructor
    · intro x hx
      obtain ⟨q, q', hq⟩ := hstep x hx
      exact assignedOnLink_nodup hq (herr _ (List.of_mem_zip hx).2) af haf
    · rw [List.pairwise_filterMap] at hl2
      refine pairwise_forall₂ (forall₂_with_mem k2) hl2 ?_
      rintro a b c d ⟨r1, m1, n1⟩ ⟨r2, m2, n2⟩ hcd x hx hy
      obtain ⟨e, p, s, e1, e2, e3, e4, e5⟩ := hlink a m1 c r1 x hx
      obtain ⟨f, q, t, f1, f2, f3, f4, f5⟩ := hlink b m2 d r2 x hy
      exact hcd e e1 f f1 p q af s t e3 f3 e4 f4 (Or.inl e2) x ⟨e5, f5⟩
  · intro a ha b hb hab
    subst hab
    obtain ⟨o, ho, pl, hh⟩ := mem_assignedLoopbacks.1 ha
    obtain ⟨x, hx1, hx2⟩ := List.mem_flatMap.1 hb
    obtain ⟨e, he1, he2⟩ := forall₂_mem_left l2 (List.mem_filter.2 ⟨ho, by simp [hh.1]⟩)
    obtain ⟨f, hf1, hf2⟩ := forall₂_mem_left k2 hx1
    obtain ⟨s, s1, s2⟩ := hfrom o ho a pl hh e he1 he2
    obtain ⟨ans, p, t, e1, e2, e3, e4, e5⟩ := hlink x hx1 f hf2 a hx2
    subst e1
    refine hx e (List.mem_append_right _ he1) ans (List.mem_append_right _ (List.mem_filterMap.2 ⟨_, hf1, rfl⟩)) _ p af s t (hlb o ho a pl hh) e3 s1 e4 ?_ a ⟨s2, e5⟩
    by_cases h0 : e.1 = 0
    · exact Or.inl h0
    · exact Or.inr (by rw [e2]; exact h0)

theorem getPool_first (pools : Pools) (l : List String) (p : String) : getPool pools l = some p ↔ FirstSuch (fun q => q ∈ pools.map (·.1)) l p := by
  have hq : ∀ q, (pools.any (fun kv => kv.1 == q) = true) ↔ q ∈ pools.map (·.1) := by
    intro q
    simp [List.any_eq_true]
  have hf : getPool pools l = l.find? (fun q => pools.any (fun kv => kv.1 == q)) := by
    induction l with
    | nil => rfl
    | cons x r ih =>
      unfold getPool
      rw [List.find?_cons]
      cases hx : pools.any (fun kv => kv.1 == x) with
      | true => rfl
      | false => simp [ih]
  rw [hf, find?_first]
  simp only [hq]

/-- **C116**: the prefix of a link comes from the first existing pool: the pool specified with the link (or its role) and then the pools for the link type.  An
unknown pool is an error even when another pool is used. -/
theorem C116_pool_choice {ids : String → Int} {loop4 loop6 : String → Option Bool} {dup : Bool} {pools pools' : Pools} {l : LaLink} {o : LaOut}
    (h : laLink ids loop4 loop6 dup pools l = some (o, pools')) (hp : l.pfx = none) (hu : l.unnumbered = false) (hd : l.dflt ≠ []) :
    (∀ p, o.src = some p ↔ FirstSuch (fun q => q ∈ pools.map (·.1)) (wantedPools l) p) ∧
    (∀ p, l.pool = some p → p ∉ pools.map (·.1) → o.err ≠ 0) ∧
    (o.src = none → o.err ≠ 0 ∧ o.pfx = [] ∧ pools' = pools) := by
  obtain ⟨h1, h2, h3, e, _, _, _, h4⟩ := laLink_src h
  have hc : (laCandidates pools l).1 = wantedPools l := by
    unfold laCandidates wantedPools
    cases l.pool <;> cases l.role <;> rfl
  have hne : (wantedPools l).isEmpty = false := by
    unfold wantedPools
    cases hl : l.dflt with
    | nil => exact absurd hl hd
    | cons a r => simp
  have hl : laPrefix pools l = ⟨(getPrefix pools (wantedPools l) 0).1, (getPrefix pools (wantedPools l) 0).2.1, (getPrefix pools (wantedPools l) 0).2.2.1,
      (laCandidates pools l).2 + (getPrefix pools (wantedPools l) 0).2.2.2⟩ := by
    unfold laPrefix laFromPool
    rw [hp]
    simp only
    rw [hu, if_neg (by simp), hc]
    rfl
  have hsrc : o.src = getPool pools (wantedPools l) := by
    rw [h1, hl]
    simp only
    unfold getPrefix
    rw [hne]
    simp only [Bool.false_eq_true, if_false]
    cases getPool pools (wantedPools l) <;> rfl
  refine ⟨fun p => by rw [hsrc]; exact getPool_first _ _ _, ?_, ?_⟩
  · intro p hlp hnp
    have : (laCandidates pools l).2 = 1 := by
      unfold laCandidates
      rw [hlp]
      simp only
      rw [lookup_eq_none_iff.2 hnp]
      rfl
    rw [hl] at h4
    simp only at h4
    omega
  · intro hn
    rw [hsrc] at hn
    have hg : getPrefix pools (wantedPools l) 0 = (none, [], pools, 1) := by
      unfold getPrefix
      rw [hne]
      simp only [Bool.false_eq_true, if_false]
      rw [hn]
    rw [hl, hg] at h2 h3 h4
    simp only at h2 h3 h4
    exact ⟨by omega, h2, h3⟩

/-- **C116**: a link that has its own IPv4 or IPv6 prefix keeps it, and nothing is taken from address pools. -/
theorem C116_own_prefix {ids : String → Int} {loop4 loop6 : String → Option Bool} {dup : Bool} {pools pools' : Pools} {l : LaLink} {o : LaOut}
    (h : laLink ids loop4 loop6 dup pools l = some (o, pools')) (d : List (String × PfxEntry)) (e : Nat) (hp : l.pfx = some (d, e))
    (hd : d.lookup "ipv4" ≠ none ∨ d.lookup "ipv6" ≠ none) : o.src = none ∧ o.pfx = d ∧ pools' = pools := by
  obtain ⟨h1, h2, h3, _⟩ := laLink_src h
  have hc : (d.isEmpty || laHas "ipv4" d || laHas "ipv6" d) = true := by
    simp only [laHas, Bool.or_eq_true, Option.isSome_iff_ne_none]
    rcases hd with hd | hd
    · exact Or.inl (Or.inr hd)
    · exact Or.inr hd
  have : laPrefix pools l = ⟨none, d, pools, e⟩ := by
    unfold laPrefix
    rw [hp]
    simp only
    rw [if_pos hc]
  rw [this] at h1 h2 h3
  exact ⟨h1, h2, h3⟩

/-- **C116**: every address netlab assigned to an interface belongs to the prefix of the link in the same address family. -/
theorem C116_in_prefix {ids : String → Int} {loop4 loop6 : String → Option Bool} {dup : Bool} {pools pools' : Pools} {l : LaLink} {o : LaOut}
    (h : laLink ids loop4 loop6 dup pools l = some (o, pools')) (he : o.err = 0) (af : String) (haf : AfName af) :
    (LaOut.ifs af o).length = l.ifs.length ∧
    ∀ (k : Nat) (i : LaIntf) (y : LinkIntf), l.ifs[k]? = some i → (LaOut.ifs af o)[k]? = some y → ¬ StaticAddr (LaIntf.ip af i) → ∀ a pl, y.ip = .addr a pl →
      ∃ s, o.pfx.lookup af = some (.net s) ∧ Covers s a := by
  obtain ⟨h1, ⟨L, h2⟩, _⟩ := laLink_covers h he af haf
  exact ⟨h1, fun k i y hi hy hs a pl ha => (h2 k i y hi hy hs a pl ha).2⟩

/-- **C116**: the gateway of a link has an address from the link prefix, and no interface has the same address. -/
theorem C116_gateway {ids : String → Int} {loop4 loop6 : String → Option Bool} {pools pools' : Pools} {l : LaLink} {o : LaOut}
    (h : laLink ids loop4 loop6 true pools l = some (o, pools')) (he : o.err = 0) (af : String) (haf : AfName af) (a pl : Nat) (hg : LaOut.gateway af o = some (a, pl)) :
    (∃ s g, o.pfx.lookup af = some (.net s) ∧ l.gwid = some g ∧ g ≠ 0 ∧ s.nth? g = some a ∧ Covers s a ∧ pl = s.plen) ∧
    ∀ x ∈ LaOut.ifs af o, x.ip ≠ .addr a pl := by
  obtain ⟨_, _, h3⟩ := laLink_covers h he af haf
  refine ⟨?_, fun x hx => ((C51_duplicate_check_exact _ _).1 (h3 rfl)).2 x hx _ hg⟩
  obtain ⟨_, _, _, e, _, g4, g6, _⟩ := laLink_src h
  have hga : ∀ en, (laGwAf l.gwid en).1 = some (a, pl) → ∃ s g, en = some (.net s) ∧ l.gwid = some g ∧ g ≠ 0 ∧ s.nth? g = some a ∧ Covers s a ∧ pl = s.plen := by
    intro en hen
    unfold laGwAf at hen
    cases hgw : l.gwid with
    | none => rw [hgw] at hen; cases hen
    | some g =>
      rw [hgw] at hen
      cases en with
      | none => cases hen
      | some x =>
        cases x with
        | attr v => cases hen
        | net s =>
          simp only at hen
          by_cases h0 : g = 0
          · rw [if_pos h0] at hen; cases hen
          · rw [if_neg h0] at hen
            cases hn : s.nth? g with
            | none => rw [hn] at hen; cases hen
            | some b =>
              rw [hn] at hen
              simp only [Option.some.injEq, Prod.mk.injEq] at hen
              obtain ⟨rfl, rfl⟩ := hen
              exact ⟨s, g, rfl, rfl, h0, hn, nth_covers hn, rfl⟩
  have hgg : ∀ pfx, (∀ x, (laGateway l.gwid pfx).1 = some x → (laGwAf l.gwid (pfx.lookup "ipv4")).1 = some x) ∧
      (∀ x, (laGateway l.gwid pfx).2.1 = some x → (laGwAf l.gwid (pfx.lookup "ipv6")).1 = some x) := by
    intro pfx
    unfold laGateway
    simp only
    by_cases hc : (laGwAf l.gwid (pfx.lookup "ipv4")).2 ≠ 0
    · rw [if_pos hc]
      exact ⟨fun x hx => (nomatch hx), fun x hx => (nomatch hx)⟩
    · rw [if_neg hc]
      exact ⟨fun x hx => hx, fun x hx => hx⟩
  rcases haf with rfl | rfl
  · have hg' : o.gw4 = some (a, pl) := hg
    exact hga _ ((hgg o.pfx).1 _ (by rw [← g4]; exact hg'))
  · have hg' : o.gw6 = some (a, pl) := hg
    exact hga _ ((hgg o.pfx).2 _ (by rw [← g6]; exact hg'))

/-! ### Examples and defects -/

def laExPools : Pools := [("loopback", [("ipv4", .gen (Gen.create "loopback" ⟨32, 10 * 2 ^ 24, 24⟩ 32))]),
  ("six", [("ipv6", .gen (Gen.create "six" ⟨128, 2 ^ 125, 48⟩ 64))]),
  ("lan", [("ipv4", .gen (Gen.create "lan" ⟨32, 172 * 2 ^ 24 + 2 ^ 20, 16⟩ 24))])]

def laExIds (n : String) : Int := if n = "a" then 1 else 2

def laExLink (p2p : Bool) (gw : Option Int) (pfx : Option (List (String × PfxEntry) × Nat)) (dflt : List String) : LaLink :=
  ⟨"links[1]", p2p, gw, pfx, false, none, none, dflt, [⟨"a", .missing, .missing⟩, ⟨"b", .missing, .missing⟩]⟩

def laExOut : List LaOut := ((laLinks laExIds (fun _ => none) (fun _ => none) true
  (lbNodes laExPools [⟨"a", 1, false, none, []⟩, ⟨"b", 2, false, none, []⟩]).2.2
  [laExLink false none none ["lan"], laExLink false (some (-2)) none ["lan"], laExLink false none none ["six", "lan"]]).map (·.1)).getD []

/-- Three links (one of them with a gateway) get addresses from two pools -/
example : laExOut.map (fun o => (o.err, o.src)) = [(0, some "lan"), (0, some "lan"), (0, some "six")] := by decide +kernel

example : laExOut.map (fun o => o.if4.map (·.ip)) = [[.addr (172 * 2 ^ 24 + 2 ^ 20 + 1) 24, .addr (172 * 2 ^ 24 + 2 ^ 20 + 2) 24],
    [.addr (172 * 2 ^ 24 + 2 ^ 20 + 257) 24, .addr (172 * 2 ^ 24 + 2 ^ 20 + 258) 24], [.missing, .missing]] := by decide +kernel

example : laExOut.map (fun o => o.gw4) = [none, some (172 * 2 ^ 24 + 2 ^ 20 + 510, 24), none] := by decide +kernel

example : laExOut.map (fun o => o.if6.map (·.ip)) = [[.missing, .missing], [.missing, .missing], [.addr (2 ^ 125 + 1) 64, .addr (2 ^ 125 + 2) 64]] := by decide +kernel

example : FreshPools laExPools := by
  intro p pool h
  have hm := mem_of_lookup h
  simp only [laExPools, List.mem_cons, Prod.mk.injEq, List.not_mem_nil, or_false] at hm
  rcases hm with ⟨rfl, rfl⟩ | ⟨rfl, rfl⟩ | ⟨rfl, rfl⟩
  all_goals
    refine ⟨by decide, fun af g hg => ?_⟩
    simp only [List.mem_cons, Prod.mk.injEq, PoolEntry.gen.injEq, List.not_mem_nil, or_false] at hg
    obtain ⟨_, rfl⟩ := hg
    exact ⟨⟨by decide, by decide, by decide⟩, by decide, by decide, rfl⟩

/-- C116 defect: prefixes specified in the topology are not compared with address pools, and interfaces of two links get the same addresses without an error. -/
theorem C116_static_overlap :
    ∃ outs pools', laLinks laExIds (fun _ => none) (fun _ => none) true laExPools
      [laExLink false none (some ([("ipv4", .net ⟨32, 172 * 2 ^ 24 + 2 ^ 20, 24⟩)], 0)) ["lan"], laExLink false none none ["lan"]] = some (outs, pools') ∧
      (∀ o ∈ outs, o.err = 0) ∧ ∃ a b, outs = [a, b] ∧ a.if4 = b.if4 ∧ a.if4.map (·.ip) = [.addr (172 * 2 ^ 24 + 2 ^ 20 + 1) 24, .addr (172 * 2 ^ 24 + 2 ^ 20 + 2) 24] := by
  refine ⟨_, _, rfl, ?_, _, _, rfl, ?_, ?_⟩
  · intro o ho
    simp only [List.mem_cons, List.not_mem_nil, or_false] at ho
    rcases ho with rfl | rfl <;> rfl
  · rfl
  · rfl

/-- C116 defect: a link with an unknown address pool gets a prefix from another pool (the error is reported). -/
theorem C116_unknown_pool :
    ∃ o pools', laLink laExIds (fun _ => none) (fun _ => none) true laExPools { laExLink false none none ["lan"] with pool := some "core" } = some (o, pools') ∧
      o.src = some "lan" ∧ o.err = 1 := ⟨_, _, rfl, rfl, rfl⟩

end Netlab
