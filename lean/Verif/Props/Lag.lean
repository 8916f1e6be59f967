import Verif.Spec.Lag
/-!
# C59: LAG interfaces; C42: MLAG peers
-/

namespace Netlab
open Netlab.Spec

/-! ### Sides -/

theorem mem_setAdd {s : List String} {x y : String} : y ∈ setAdd s x ↔ y ∈ s ∨ y = x := by
  unfold setAdd
  by_cases h : s.contains x = true
  · rw [if_pos h]
    have hx : x ∈ s := by simpa using h
    constructor
    · exact Or.inl
    · rintro (h | rfl)
      · exact h
      · exact hx
  · rw [if_neg h]
    simp

theorem splitMember_spec {pairs : List (String × String)} {s t : List String × List String} {m : LagMember}
    (h : splitMember pairs s m = some t) :
    (∀ y ∈ s.1, y ∈ t.1) ∧ (∀ y ∈ s.2, y ∈ t.2) ∧ ((m.a ∈ t.1 ∧ m.b ∈ t.2) ∨ (m.b ∈ t.1 ∧ m.a ∈ t.2)) ∧
      (∀ y, y ∈ t.1 ∨ y ∈ t.2 → (y ∈ s.1 ∨ y ∈ s.2) ∨ y = m.a ∨ y = m.b) := by
  unfold splitMember at h
  by_cases h1 : (onSide pairs s.1 m.a || onSide pairs s.2 m.b) = true
  · rw [if_pos h1] at h
    obtain rfl := Option.some.inj h
    simp only [mem_setAdd]
    refine ⟨fun y h => .inl h, fun y h => .inl h, ?_, fun y h => ?_⟩ <;> grind
  · rw [if_neg h1] at h
    by_cases h2 : (onSide pairs s.2 m.a || onSide pairs s.1 m.b) = true
    · rw [if_pos h2] at h
      obtain rfl := Option.some.inj h
      simp only [mem_setAdd]
      refine ⟨fun y h => .inl h, fun y h => .inl h, ?_, fun y h => ?_⟩ <;> grind
    · rw [if_neg h2] at h
      cases h

theorem splitMembers_spec {pairs : List (String × String)} (ms : List LagMember) {s t : List String × List String}
    (h : splitMembers pairs ms s = some t) :
    (∀ y ∈ s.1, y ∈ t.1) ∧ (∀ y ∈ s.2, y ∈ t.2) ∧
      (∀ m ∈ ms, (m.a ∈ t.1 ∧ m.b ∈ t.2) ∨ (m.b ∈ t.1 ∧ m.a ∈ t.2)) ∧
      (∀ y, y ∈ t.1 ∨ y ∈ t.2 → (y ∈ s.1 ∨ y ∈ s.2) ∨ ∃ m ∈ ms, y = m.a ∨ y = m.b) := by
  induction ms generalizing s with
  | nil =>
    obtain rfl := Option.some.inj h
    exact ⟨fun y h => h, fun y h => h, by simp, fun y h => .inl h⟩
  | cons m rest ih =>
    rw [splitMembers] at h
    cases hm : splitMember pairs s m with
    | none => rw [hm] at h; cases h
    | some u =>
      rw [hm] at h
      obtain ⟨a1, a2, a3, a4⟩ := splitMember_spec hm
      obtain ⟨b1, b2, b3, b4⟩ := ih h
      refine ⟨fun y h => b1 y (a1 y h), fun y h => b2 y (a2 y h), ?_, ?_⟩
      · intro k hk
        rcases List.mem_cons.mp hk with rfl | hk
        · rcases a3 with ⟨p, q⟩ | ⟨p, q⟩
          · exact .inl ⟨b1 _ p, b2 _ q⟩
          · exact .inr ⟨b1 _ p, b2 _ q⟩
        · exact b3 k hk
      · intro y hy
        rcases b4 y hy with h | ⟨k, hk, h⟩
        · rcases a4 y h with h | h
          · exact .inl h
          · exact .inr ⟨m, List.mem_cons_self .., h⟩
        · exact .inr ⟨k, List.mem_cons_of_mem _ hk, h⟩

/-- C59: every member link of a LAG connects the two sides of the LAG, and the two sides contain only the nodes at the
ends of member links. -/
theorem C59_sides {pairs : List (String × String)} {ms : List LagMember} {a b : List String}
    (h : lagSides pairs ms = some (a, b)) :
    (∀ m ∈ ms, (m.a ∈ a ∧ m.b ∈ b) ∨ (m.b ∈ a ∧ m.a ∈ b)) ∧
      (∀ n, n ∈ a ∨ n ∈ b ↔ ∃ m ∈ ms, n = m.a ∨ n = m.b) := by
  cases ms with
  | nil => simp [lagSides] at h
  | cons m rest =>
    rw [lagSides] at h
    obtain ⟨h1, h2, h3, h4⟩ := splitMembers_spec rest h
    have ha : m.a ∈ a := h1 m.a (by simp)
    have hb : m.b ∈ b := h2 m.b (by simp)
    have h5 : ∀ k ∈ m :: rest, (k.a ∈ a ∧ k.b ∈ b) ∨ (k.b ∈ a ∧ k.a ∈ b) := by
      intro k hk
      rcases List.mem_cons.mp hk with rfl | hk
      · exact .inl ⟨ha, hb⟩
      · exact h3 k hk
    refine ⟨h5, fun n => ⟨fun hn => ?_, ?_⟩⟩
    · rcases h4 n hn with h | ⟨k, hk, h⟩
      · refine ⟨m, List.mem_cons_self .., ?_⟩
        simpa using h
      · exact ⟨k, List.mem_cons_of_mem _ hk, h⟩
    · rintro ⟨k, hk, h⟩
      rcases h5 k hk with ⟨p, q⟩ | ⟨p, q⟩ <;> rcases h with rfl | rfl
      · exact .inl p
      · exact .inr q
      · exact .inr q
      · exact .inl p

/-- Two switches and a dual-homed host. -/
example : lagSides [("s1", "s2"), ("s2", "s1")] [⟨"h", "s1", none, none⟩, ⟨"s2", "h", none, none⟩] =
    some (["h"], ["s1", "s2"]) := by decide +kernel

/-- C59 (defects of the check): a LAG between one node and three nodes is accepted, although only 1:1, 1:2 and 2:2 LAGs are
supported; a triangle of member links puts a node on both sides. -/
theorem C59_unsupported_accepted :
    lagSides [] [⟨"h", "s1", none, none⟩, ⟨"h", "s2", none, none⟩, ⟨"h", "s3", none, none⟩] =
        some (["h"], ["s1", "s2", "s3"]) ∧
      lagSides [] [⟨"a", "b", none, none⟩, ⟨"b", "c", none, none⟩, ⟨"c", "a", none, none⟩] =
        some (["a", "c"], ["b", "a"]) := by
  constructor <;> decide +kernel

theorem splitMembers_accepts {pairs : List (String × String)} {A B : List String}
    (hd : ∀ x ∈ A, x ∉ B)
    (hA : ∀ x ∈ A, ∀ y ∈ A, x = y ∨ pairs.lookup x = some y) (hB : ∀ x ∈ B, ∀ y ∈ B, x = y ∨ pairs.lookup x = some y)
    (hAB : ∀ x ∈ A, ∀ y ∈ B, pairs.lookup x ≠ some y ∧ pairs.lookup y ≠ some x) :
    ∀ (ms : List LagMember) (s : List String × List String), (∃ x ∈ A, x ∈ s.1) → (∃ x ∈ B, x ∈ s.2) →
      (∀ x ∈ s.1, x ∈ A) → (∀ x ∈ s.2, x ∈ B) →
      (∀ m ∈ ms, (m.a ∈ A ∧ m.b ∈ B) ∨ (m.b ∈ A ∧ m.a ∈ B)) →
      ∃ t, splitMembers pairs ms s = some t ∧ (∀ x ∈ t.1, x ∈ A) ∧ (∀ x ∈ t.2, x ∈ B) := by
  have on : ∀ (S : List String), (∀ x ∈ S, ∀ y ∈ S, x = y ∨ pairs.lookup x = some y) → ∀ l : List String,
      (∃ x ∈ S, x ∈ l) → ∀ y ∈ S, onSide pairs l y = true := by
    rintro S hS l ⟨x, hx, hxl⟩ y hy
    unfold onSide
    rcases hS y hy x hx with rfl | h
    · simp [hxl]
    · rw [h]; simp [hxl]
  have off : ∀ (S T : List String), (∀ x ∈ S, x ∉ T) → (∀ x ∈ S, ∀ y ∈ T, pairs.lookup y ≠ some x) → ∀ l : List String,
      (∀ x ∈ l, x ∈ S) → ∀ y ∈ T, onSide pairs l y = false := by
    intro S T hST hl l hlS y hy
    have h1 : l.contains y = false := by
      rw [← Bool.not_eq_true, List.contains_iff_mem]
      exact fun h => hST y (hlS y h) hy
    unfold onSide
    rw [h1, Bool.false_or]
    cases hp : pairs.lookup y with
    | none => rfl
    | some p =>
      dsimp only
      rw [← Bool.not_eq_true, List.contains_iff_mem]
      exact fun h => hl p (hlS p h) y hy hp
  intro ms
  induction ms with
  | nil => intro s _ _ h1 h2 _; exact ⟨s, rfl, h1, h2⟩
  | cons m r ih =>
    intro s hs1 hs2 h1 h2 hm
    have hr : ∀ k ∈ r, (k.a ∈ A ∧ k.b ∈ B) ∨ (k.b ∈ A ∧ k.a ∈ B) := fun k hk => hm k (List.mem_cons_of_mem _ hk)
    have step : ∃ t, splitMember pairs s m = some t ∧ (∃ x ∈ A, x ∈ t.1) ∧ (∃ x ∈ B, x ∈ t.2) ∧ (∀ x ∈ t.1, x ∈ A) ∧
        (∀ x ∈ t.2, x ∈ B) := by
      unfold splitMember
      rcases hm m (List.mem_cons_self ..) with ⟨ha, hb⟩ | ⟨hb, ha⟩
      · rw [if_pos (by rw [on A hA s.1 hs1 m.a ha]; rfl)]
        refine ⟨_, rfl, ⟨m.a, ha, by simp [mem_setAdd]⟩, ⟨m.b, hb, by simp [mem_setAdd]⟩, ?_, ?_⟩
        · intro x hx
          rcases mem_setAdd.1 hx with h | rfl
          · exact h1 x h
          · exact ha
        · intro x hx
          rcases mem_setAdd.1 hx with h | rfl
          · exact h2 x h
          · exact hb
      · rw [if_neg, if_pos (by rw [on B hB s.2 hs2 m.a ha]; rfl)]
        · refine ⟨_, rfl, ⟨m.b, hb, by simp [mem_setAdd]⟩, ⟨m.a, ha, by simp [mem_setAdd]⟩, ?_, ?_⟩
          · intro x hx
            rcases mem_setAdd.1 hx with h | rfl
            · exact h1 x h
            · exact hb
          · intro x hx
            rcases mem_setAdd.1 hx with h | rfl
            · exact h2 x h
            · exact ha
        · rw [off A B hd (fun x hx y hy => (hAB x hx y hy).2) s.1 h1 m.a ha,
            off B A (fun x hx hx' => hd x hx' hx) (fun x hx y hy => (hAB y hy x hx).1) s.2 h2 m.b hb]
          decide
    obtain ⟨t, ht, g1, g2, g3, g4⟩ := step
    obtain ⟨u, hu, h⟩ := ih t g1 g2 g3 g4 hr
    exact ⟨u, by rw [splitMembers, ht]; exact hu, h⟩

/-- C59: a LAG between two switches or MLAG pairs of switches is accepted, regardless of the order of its member links and of the nodes
in those links, and the nodes of a pair end on the same side. -/
theorem C59_mlag_accepted {pairs : List (String × String)} {A B : List String} (hd : ∀ x ∈ A, x ∉ B)
    (hA : ∀ x ∈ A, ∀ y ∈ A, x = y ∨ pairs.lookup x = some y) (hB : ∀ x ∈ B, ∀ y ∈ B, x = y ∨ pairs.lookup x = some y)
    (hAB : ∀ x ∈ A, ∀ y ∈ B, pairs.lookup x ≠ some y ∧ pairs.lookup y ≠ some x)
    {ms : List LagMember} (hne : ms ≠ []) (hm : ∀ m ∈ ms, (m.a ∈ A ∧ m.b ∈ B) ∨ (m.b ∈ A ∧ m.a ∈ B)) :
    ∃ a b, lagSides pairs ms = some (a, b) ∧
      (((∀ x ∈ a, x ∈ A) ∧ ∀ x ∈ b, x ∈ B) ∨ ((∀ x ∈ a, x ∈ B) ∧ ∀ x ∈ b, x ∈ A)) := by
  cases ms with
  | nil => exact absurd rfl hne
  | cons m r =>
    have hr : ∀ k ∈ r, (k.a ∈ A ∧ k.b ∈ B) ∨ (k.b ∈ A ∧ k.a ∈ B) := fun k hk => hm k (List.mem_cons_of_mem _ hk)
    rw [lagSides]
    rcases hm m (List.mem_cons_self ..) with ⟨ha, hb⟩ | ⟨hb, ha⟩
    · obtain ⟨t, ht, h1, h2⟩ := splitMembers_accepts hd hA hB hAB r ([m.a], [m.b]) ⟨m.a, ha, by simp⟩ ⟨m.b, hb, by simp⟩
        (by simpa using ha) (by simpa using hb) hr
      exact ⟨t.1, t.2, ht, .inl ⟨h1, h2⟩⟩
    · obtain ⟨t, ht, h1, h2⟩ := splitMembers_accepts (A := B) (B := A) (fun x hx hx' => hd x hx' hx) hB hA
        (fun x hx y hy => ⟨(hAB y hy x hx).2, (hAB y hy x hx).1⟩) r ([m.a], [m.b]) ⟨m.a, ha, by simp⟩ ⟨m.b, hb, by simp⟩
        (by simpa using ha) (by simpa using hb) (fun k hk => (hr k hk).symm.imp (fun h => ⟨h.2, h.1⟩) fun h => ⟨h.2, h.1⟩)
      exact ⟨t.1, t.2, ht, .inr ⟨h1, h2⟩⟩

/-- Non-vacuity: a LAG between two MLAG pairs. -/
example :
    let pairs := [("s1", "s2"), ("s2", "s1"), ("t1", "t2"), ("t2", "t1")]
    (∀ x ∈ ["s1", "s2"], ∀ y ∈ ["s1", "s2"], x = y ∨ pairs.lookup x = some y) ∧
    (∀ x ∈ ["s1", "s2"], ∀ y ∈ ["t1", "t2"], pairs.lookup x ≠ some y ∧ pairs.lookup y ≠ some x) ∧
    lagSides pairs [⟨"s1", "t1", none, none⟩, ⟨"t2", "s2", none, none⟩] = some (["s1", "s2"], ["t1", "t2"]) := by
  decide +kernel

/-! ### Interfaces of nodes -/

theorem lagSide_nodes {env : LagEnv} {l : LagLink} {ms : Bool} (ns : List String) {bond : Option Int} {st : LagState}
    {r : LagRes} (h : lagSide env l ms ns bond st = .ok r) :
    (∀ i ∈ r.ifs, i.linkindex = l.linkindex ∧ i.mlag = ms) ∧
      ((r.abort = false ∧ r.errs = 0 ∧ r.ifs.map (·.node) = ns) ∨ (r.abort = true ∧ r.errs = 1)) := by
  induction ns generalizing bond st r with
  | nil =>
    rw [lagSide] at h
    obtain rfl := Except.ok.inj h
    exact ⟨by simp, .inl ⟨rfl, rfl, rfl⟩⟩
  | cons n rest ih =>
    rw [lagSide] at h
    by_cases hs : (!(if ms then env.mlagOk n else env.lagOk n)) = true
    · rw [if_pos hs] at h
      obtain rfl := Except.ok.inj h
      exact ⟨by simp, .inr ⟨rfl, rfl⟩⟩
    · rw [if_neg hs] at h
      cases hi : setLagIfindex env st bond n (memberIx l.members n) ms with
      | error e => rw [hi] at h; cases h
      | ok x =>
        obtain ⟨st', bond', ix⟩ := x
        rw [hi] at h
        simp only at h
        by_cases hr : ((env.reserved n).contains ix) = true
        · rw [if_pos hr] at h
          obtain rfl := Except.ok.inj h
          exact ⟨by simp, .inr ⟨rfl, rfl⟩⟩
        · rw [if_neg hr] at h
          cases hl : lagSide env l ms rest bond' st' with
          | error e => rw [hl] at h; cases h
          | ok s =>
            rw [hl] at h
            obtain rfl := Except.ok.inj h
            obtain ⟨h1, h2⟩ := ih hl
            constructor
            · intro i hi
              rcases List.mem_cons.mp hi with rfl | hi
              · exact ⟨rfl, rfl⟩
              · exact h1 i hi
            · rcases h2 with ⟨p, q, r⟩ | ⟨p, q⟩
              · exact .inl ⟨p, q, by simp [r]⟩
              · exact .inr ⟨p, q⟩

theorem lagInterfaces_nodes {env : LagEnv} (hs : ∀ l, (env.sort l).Perm l) {l : LagLink} {st : LagState} {r : LagRes}
    (h : lagInterfaces env l st = .ok r) :
    (∀ i ∈ r.ifs, i.linkindex = l.linkindex) ∧
      (r.errs = 0 → ∃ a b, lagSides env.pairs l.members = some (a, b) ∧
        r.ifs.map (·.node) = env.sort a ++ env.sort b ∧
        ∀ i ∈ r.ifs, i.mlag = true → (i.node ∈ a ∧ a.length = 2) ∨ (i.node ∈ b ∧ b.length = 2)) := by
  unfold lagInterfaces at h
  cases hl : lagSides env.pairs l.members with
  | none =>
    rw [hl] at h
    obtain rfl := Except.ok.inj h
    exact ⟨by simp, by simp⟩
  | some ab =>
    obtain ⟨a, b⟩ := ab
    rw [hl] at h
    simp only at h
    cases h1 : lagSide env l (a.length == 2) (env.sort a) l.ifindex st with
    | error e => rw [h1] at h; cases h
    | ok x =>
      rw [h1] at h
      simp only at h
      obtain ⟨x1, x2⟩ := lagSide_nodes _ h1
      by_cases hx : x.abort = true
      · rw [if_pos hx] at h
        obtain rfl := Except.ok.inj h
        refine ⟨fun i hi => (x1 i hi).1, fun he => ?_⟩
        rcases x2 with ⟨p, _, _⟩ | ⟨_, q⟩
        · rw [hx] at p; cases p
        · omega
      · rw [if_neg hx] at h
        cases h2 : lagSide env l (b.length == 2) (env.sort b) l.ifindex x.st with
        | error e => rw [h2] at h; cases h
        | ok y =>
          rw [h2] at h
          obtain rfl := Except.ok.inj h
          obtain ⟨y1, y2⟩ := lagSide_nodes _ h2
          constructor
          · intro i hi
            rcases List.mem_append.mp hi with hi | hi
            · exact (x1 i hi).1
            · exact (y1 i hi).1
          · intro he
            simp only at he
            rcases x2 with ⟨_, _, p⟩ | ⟨_, q⟩
            · rcases y2 with ⟨_, _, q⟩ | ⟨_, q⟩
              · refine ⟨a, b, rfl, by simp [p, q], ?_⟩
                intro i hi hm
                rcases List.mem_append.mp hi with hi | hi
                · refine .inl ⟨(hs a).subset ?_, ?_⟩
                  · rw [← p]; exact List.mem_map_of_mem hi
                  · have := (x1 i hi).2
                    rw [hm] at this
                    simpa using this.symm
                · refine .inr ⟨(hs b).subset ?_, ?_⟩
                  · rw [← q]; exact List.mem_map_of_mem hi
                  · have := (y1 i hi).2
                    rw [hm] at this
                    simpa using this.symm
              · omega
            · omega

/-- C59: when there are no errors, the nodes with a LAG interface on the link are exactly the nodes at the ends of its
member links. -/
theorem C59_interfaces {env : LagEnv} (hs : ∀ l, (env.sort l).Perm l) {l : LagLink} {st : LagState} {r : LagRes}
    (h : lagInterfaces env l st = .ok r) (he : r.errs = 0) (n : String) :
    (∃ i ∈ r.ifs, i.node = n ∧ i.linkindex = l.linkindex) ↔ OnLag l n := by
  obtain ⟨h1, h2⟩ := lagInterfaces_nodes hs h
  obtain ⟨a, b, h3, h4, _⟩ := h2 he
  have h5 : (∃ i ∈ r.ifs, i.node = n ∧ i.linkindex = l.linkindex) ↔ n ∈ r.ifs.map (·.node) := by
    rw [List.mem_map]
    constructor
    · rintro ⟨i, hi, rfl, _⟩; exact ⟨i, hi, rfl⟩
    · rintro ⟨i, hi, rfl⟩; exact ⟨i, hi, rfl, h1 i hi⟩
  rw [h5, h4, List.mem_append, (hs a).mem_iff, (hs b).mem_iff]
  exact (C59_sides h3).2 n

/-- C59: a LAG interface is a part of MLAG only when its side of the LAG has two nodes. -/
theorem C59_mlag_side {env : LagEnv} (hs : ∀ l, (env.sort l).Perm l) {l : LagLink} {st : LagState} {r : LagRes}
    (h : lagInterfaces env l st = .ok r) (he : r.errs = 0) {i : LagIf} (hi : i ∈ r.ifs) (hm : i.mlag = true) :
    ∃ a b, lagSides env.pairs l.members = some (a, b) ∧
      ((i.node ∈ a ∧ a.length = 2) ∨ (i.node ∈ b ∧ b.length = 2)) := by
  obtain ⟨_, h2⟩ := lagInterfaces_nodes hs h
  obtain ⟨a, b, h3, _, h5⟩ := h2 he
  exact ⟨a, b, h3, h5 i hi hm⟩

/-! ### Numbers -/

theorem nextLoop_ge (used : List IdVal) (max next : Int) {g : Int} (h : nextLoop used max next = .ok g) : next ≤ g := by
  fun_induction nextLoop used max next with
  | case1 next hc =>
    have := Except.ok.inj h
    omega
  | case2 next hc hm => cases h
  | case3 next hc hm ih =>
    have := ih h
    omega

theorem getNext_sane {v w : IdVar} {g : Int} (h : v.getNext = .ok (g, w)) (hs : ∀ s, v.next = some s → 0 ≤ s) :
    0 ≤ g ∧ ∀ s, w.next = some s → 0 ≤ s := by
  unfold IdVar.getNext at h
  cases hn : v.next with
  | none => rw [hn] at h; cases h
  | some s =>
    rw [hn] at h
    simp only at h
    cases hl : nextLoop v.value v.max s with
    | error e => rw [hl] at h; cases h
    | ok n =>
      rw [hl] at h
      have := Except.ok.inj h
      simp only [Prod.mk.injEq] at this
      obtain ⟨rfl, rfl⟩ := this
      have h1 := nextLoop_ge _ _ _ hl
      have h2 := hs s hn
      refine ⟨by omega, ?_⟩
      intro t ht
      simp only [Option.some.injEq] at ht
      omega

/-- Effect of one assignment without a number set by the user. -/
theorem setLagIfindex_spec {env : LagEnv} (h0 : 0 ≤ env.start) {st st' : LagState} {bond bond' : Option Int} {n : String}
    {ms : Bool} {ix : Int} (h : setLagIfindex env st bond n none ms = .ok (st', bond', ix))
    (hs : LagState.Sane st) (hb : ∀ b, bond = some b → 0 ≤ b) :
    LagState.Sane st' ∧ (∀ b, bond' = some b → 0 ≤ b) ∧ (∀ m, m ≠ n → st'.next m = st.next m) ∧
      st'.next n = some (ix + 1) ∧ (∀ v, st.next n = some v → v ≤ ix) ∧
      (∀ b, bond = some b → ix = max b ((st.next n).getD b)) ∧ (ms = true → bond' = some ix) ∧ 0 ≤ ix := by
  have sane : ∀ (t : LagState) (v : Int), LagState.Sane t → 0 ≤ v → LagState.Sane (t.assign n v) := by
    intro t v ht hv
    refine ⟨?_, ht.ids⟩
    intro m w hw
    simp only [LagState.assign] at hw
    by_cases hm : m = n
    · rw [if_pos hm] at hw
      have := Option.some.inj hw
      omega
    · rw [if_neg hm] at hw
      exact ht.next m w hw
  have other : ∀ (t : LagState) (v : Int) (m : String), m ≠ n → (t.assign n v).next m = t.next m := by
    intro t v m hm
    simp only [LagState.assign]
    rw [if_neg hm]
  have own : ∀ (t : LagState) (v : Int), (t.assign n v).next n = some (v + 1) := by
    intro t v
    simp [LagState.assign]
  unfold setLagIfindex at h
  cases hbond : bond with
  | none =>
    rw [hbond] at h
    simp only at h
    by_cases hm : ms = true
    · rw [if_pos hm] at h
      cases hn : st.next n with
      | some v =>
        rw [hn] at h
        have := Except.ok.inj h
        simp only [Prod.mk.injEq] at this
        obtain ⟨rfl, rfl, rfl⟩ := this
        have hv := hs.next n v hn
        exact ⟨sane st v hs (by omega), by simp; omega, other st v, own st v, by simp, by simp, by simp, by omega⟩
      | none =>
        rw [hn] at h
        simp only at h
        cases hg : st.ids.getNext with
        | error e => rw [hg] at h; cases h
        | ok x =>
          obtain ⟨g, ids⟩ := x
          rw [hg] at h
          have := Except.ok.inj h
          simp only [Prod.mk.injEq] at this
          obtain ⟨rfl, rfl, rfl⟩ := this
          obtain ⟨h1, h2⟩ := getNext_sane hg hs.ids
          exact ⟨sane { st with ids := ids } g ⟨hs.next, h2⟩ h1, by simp; omega, other _ g, own _ g, by simp, by simp,
            by simp, h1⟩
    · rw [if_neg hm] at h
      have := Except.ok.inj h
      simp only [Prod.mk.injEq] at this
      obtain ⟨rfl, rfl, rfl⟩ := this
      have hv : 0 ≤ (st.next n).getD env.start := by
        cases hn : st.next n with
        | none => exact h0
        | some v => have := hs.next n v hn; simp; omega
      refine ⟨sane st _ hs hv, by simp, other st _, own st _, ?_, by simp, fun h => absurd h hm, hv⟩
      intro v hv
      rw [hv]
      simp
  | some b =>
    rw [hbond] at h
    simp only at h
    have hb0 := hb b hbond
    cases hn : st.next n with
    | none =>
      rw [hn] at h
      have := Except.ok.inj h
      simp only [Prod.mk.injEq] at this
      obtain ⟨rfl, rfl, rfl⟩ := this
      exact ⟨sane st b hs hb0, by simp; omega, other st b, own st b, by simp, by simp, by simp, hb0⟩
    | some v =>
      rw [hn] at h
      simp only at h
      have hv := hs.next n v hn
      by_cases hc : v ≠ 0 ∧ b < v
      · rw [if_pos hc] at h
        have := Except.ok.inj h
        simp only [Prod.mk.injEq] at this
        obtain ⟨rfl, rfl, rfl⟩ := this
        refine ⟨sane st v hs (by omega), ?_, other st v, own st v, by simp, ?_, ?_, by omega⟩
        · intro w hw
          split at hw <;> (have := Option.some.inj hw; omega)
        · simp; omega
        · intro hm; simp [hm]
      · rw [if_neg hc] at h
        have := Except.ok.inj h
        simp only [Prod.mk.injEq] at this
        obtain ⟨rfl, rfl, rfl⟩ := this
        refine ⟨sane st b hs hb0, by simp; omega, other st b, own st b, ?_, ?_, by simp, hb0⟩
        · simp; omega
        · simp; omega

/-- Numbers grow from `lo` to `hi`. -/
structure Rising (lo : Option Int) (xs : List Int) (hi : Option Int) : Prop where
  sorted : xs.Pairwise (· < ·)
  low : ∀ v, lo = some v → ∀ x ∈ xs, v ≤ x
  high : ∀ x ∈ xs, ∃ v, hi = some v ∧ x < v
  mono : ∀ v, lo = some v → ∃ w, hi = some w ∧ v ≤ w

theorem rising_nil (lo : Option Int) : Rising lo [] lo :=
  ⟨List.Pairwise.nil, by simp, by simp, fun v h => ⟨v, h, Int.le_refl _⟩⟩

theorem rising_append {lo mid hi : Option Int} {xs ys : List Int} (h1 : Rising lo xs mid) (h2 : Rising mid ys hi) :
    Rising lo (xs ++ ys) hi := by
  refine ⟨?_, ?_, ?_, ?_⟩
  · rw [List.pairwise_append]
    refine ⟨h1.sorted, h2.sorted, ?_⟩
    intro x hx y hy
    obtain ⟨v, hv, hlt⟩ := h1.high x hx
    have := h2.low v hv y hy
    omega
  · intro v hv x hx
    rcases List.mem_append.mp hx with hx | hx
    · exact h1.low v hv x hx
    · obtain ⟨w, hw, hle⟩ := h1.mono v hv
      have := h2.low w hw x hx
      omega
  · intro x hx
    rcases List.mem_append.mp hx with hx | hx
    · obtain ⟨v, hv, hlt⟩ := h1.high x hx
      obtain ⟨w, hw, hle⟩ := h2.mono v hv
      exact ⟨w, hw, by omega⟩
    · exact h2.high x hx
  · intro v hv
    obtain ⟨w, hw, hle⟩ := h1.mono v hv
    obtain ⟨u, hu, hle2⟩ := h2.mono w hw
    exact ⟨u, hu, by omega⟩

theorem memberIx_none {l : LagLink} (h : NoMemberNumbers l) (n : String) : memberIx l.members n = none := by
  unfold memberIx
  unfold NoMemberNumbers at h
  generalize l.members = ms at h
  induction ms with
  | nil => rfl
  | cons m rest ih =>
    rw [List.foldl_cons]
    obtain ⟨h1, h2⟩ := h m (List.mem_cons_self ..)
    simp only [h1, h2, Option.isSome_none, Bool.false_eq_true, ite_self]
    exact ih (fun k hk => h k (List.mem_cons_of_mem _ hk))

theorem lagNumbers_append (a b : List LagIf) (n : String) : lagNumbers (a ++ b) n = lagNumbers a n ++ lagNumbers b n := by
  simp [lagNumbers]

theorem lagSide_rising {env : LagEnv} (h0 : 0 ≤ env.start) {l : LagLink} (hl : NoMemberNumbers l) {ms : Bool}
    (ns : List String) {bond : Option Int} {st : LagState} {r : LagRes} (h : lagSide env l ms ns bond st = .ok r)
    (hs : LagState.Sane st) (hb : ∀ b, bond = some b → 0 ≤ b) :
    LagState.Sane r.st ∧ ∀ n, Rising (st.next n) (lagNumbers r.ifs n) (r.st.next n) := by
  induction ns generalizing bond st r with
  | nil =>
    rw [lagSide] at h
    obtain rfl := Except.ok.inj h
    exact ⟨hs, fun n => rising_nil _⟩
  | cons n rest ih =>
    rw [lagSide] at h
    by_cases hk : (!(if ms then env.mlagOk n else env.lagOk n)) = true
    · rw [if_pos hk] at h
      obtain rfl := Except.ok.inj h
      exact ⟨hs, fun n => rising_nil _⟩
    · rw [if_neg hk, memberIx_none hl] at h
      cases hi : setLagIfindex env st bond n none ms with
      | error e => rw [hi] at h; cases h
      | ok x =>
        obtain ⟨st', bond', ix⟩ := x
        rw [hi] at h
        simp only at h
        obtain ⟨s1, s2, s3, s4, s5, _, _, _⟩ := setLagIfindex_spec h0 hi hs hb
        by_cases hr : ((env.reserved n).contains ix) = true
        · rw [if_pos hr] at h
          obtain rfl := Except.ok.inj h
          refine ⟨s1, fun m => ?_⟩
          by_cases hm : m = n
          · subst hm
            rw [show (⟨st', [], 1, true⟩ : LagRes).st.next m = some (ix + 1) from s4]
            exact ⟨List.Pairwise.nil, by simp [lagNumbers], by simp [lagNumbers],
              fun v hv => ⟨ix + 1, rfl, by have := s5 v hv; omega⟩⟩
          · rw [show (⟨st', [], 1, true⟩ : LagRes).st.next m = st.next m from s3 m hm]
            exact rising_nil _
        · rw [if_neg hr] at h
          cases hl2 : lagSide env l ms rest bond' st' with
          | error e => rw [hl2] at h; cases h
          | ok s =>
            rw [hl2] at h
            obtain rfl := Except.ok.inj h
            obtain ⟨t1, t2⟩ := ih hl2 s1 s2
            refine ⟨t1, fun m => ?_⟩
            have e : lagNumbers (⟨l.linkindex, n, ix, ms⟩ :: s.ifs) m
                = lagNumbers [⟨l.linkindex, n, ix, ms⟩] m ++ lagNumbers s.ifs m := lagNumbers_append [_] _ _
            show Rising (st.next m) (lagNumbers (⟨l.linkindex, n, ix, ms⟩ :: s.ifs) m) (s.st.next m)
            rw [e]
            refine rising_append ?_ (t2 m)
            by_cases hm : m = n
            · subst hm
              rw [s4]
              have e2 : lagNumbers [(⟨l.linkindex, m, ix, ms⟩ : LagIf)] m = [ix] := by simp [lagNumbers]
              rw [e2]
              refine ⟨List.pairwise_singleton .., ?_, ?_, ?_⟩
              · intro v hv x hx
                rw [List.mem_singleton.mp hx]
                exact s5 v hv
              · intro x hx
                rw [List.mem_singleton.mp hx]
                exact ⟨ix + 1, rfl, by omega⟩
              · intro v hv
                exact ⟨ix + 1, rfl, by have := s5 v hv; omega⟩
            · rw [s3 m hm]
              have e2 : lagNumbers [(⟨l.linkindex, n, ix, ms⟩ : LagIf)] m = [] := by
                simp [lagNumbers, Ne.symm hm]
              rw [e2]
              exact rising_nil _

theorem lagInterfaces_rising {env : LagEnv} (h0 : 0 ≤ env.start) {l : LagLink} (hl : NoMemberNumbers l)
    (hb : ∀ b, l.ifindex = some b → 0 ≤ b) {st : LagState} {r : LagRes} (h : lagInterfaces env l st = .ok r)
    (hs : LagState.Sane st) :
    LagState.Sane r.st ∧ ∀ n, Rising (st.next n) (lagNumbers r.ifs n) (r.st.next n) := by
  unfold lagInterfaces at h
  cases hl2 : lagSides env.pairs l.members with
  | none =>
    rw [hl2] at h
    obtain rfl := Except.ok.inj h
    exact ⟨hs, fun n => rising_nil _⟩
  | some ab =>
    obtain ⟨a, b⟩ := ab
    rw [hl2] at h
    simp only at h
    cases h1 : lagSide env l (a.length == 2) (env.sort a) l.ifindex st with
    | error e => rw [h1] at h; cases h
    | ok x =>
      rw [h1] at h
      simp only at h
      obtain ⟨x1, x2⟩ := lagSide_rising h0 hl _ h1 hs hb
      by_cases hx : x.abort = true
      · rw [if_pos hx] at h
        obtain rfl := Except.ok.inj h
        exact ⟨x1, x2⟩
      · rw [if_neg hx] at h
        cases h2 : lagSide env l (b.length == 2) (env.sort b) l.ifindex x.st with
        | error e => rw [h2] at h; cases h
        | ok y =>
          rw [h2] at h
          obtain rfl := Except.ok.inj h
          obtain ⟨y1, y2⟩ := lagSide_rising h0 hl _ h2 x1 hb
          refine ⟨y1, fun n => ?_⟩
          show Rising _ (lagNumbers (x.ifs ++ y.ifs) n) _
          rw [lagNumbers_append]
          exact rising_append (x2 n) (y2 n)

theorem allLags_rising {env : LagEnv} (h0 : 0 ≤ env.start) (ls : List LagLink) (hl : ∀ l ∈ ls, NoMemberNumbers l)
    (hb : ∀ l ∈ ls, ∀ b, l.ifindex = some b → 0 ≤ b) {st : LagState} {r : LagRes} (h : allLags env ls st = .ok r)
    (hs : LagState.Sane st) :
    LagState.Sane r.st ∧ ∀ n, Rising (st.next n) (lagNumbers r.ifs n) (r.st.next n) := by
  induction ls generalizing st r with
  | nil =>
    rw [allLags] at h
    obtain rfl := Except.ok.inj h
    exact ⟨hs, fun n => rising_nil _⟩
  | cons l rest ih =>
    rw [allLags] at h
    cases h1 : lagInterfaces env l st with
    | error e => rw [h1] at h; cases h
    | ok x =>
      rw [h1] at h
      simp only at h
      cases h2 : allLags env rest x.st with
      | error e => rw [h2] at h; cases h
      | ok y =>
        rw [h2] at h
        obtain rfl := Except.ok.inj h
        obtain ⟨x1, x2⟩ := lagInterfaces_rising h0 (hl l (List.mem_cons_self ..)) (hb l (List.mem_cons_self ..)) h1 hs
        obtain ⟨y1, y2⟩ := ih (fun k hk => hl k (List.mem_cons_of_mem _ hk))
          (fun k hk => hb k (List.mem_cons_of_mem _ hk)) h2 x1
        refine ⟨y1, fun n => ?_⟩
        show Rising _ (lagNumbers (x.ifs ++ y.ifs) n) _
        rw [lagNumbers_append]
        exact rising_append (x2 n) (y2 n)

/-- C59: when the user numbers only LAG links (not their members), the numbers of LAG interfaces on a node grow in the order of
links.  No two LAG interfaces of a node have the same number, whatever the numbers of the links. -/
theorem C59_unique {env : LagEnv} (h0 : 0 ≤ env.start) {ls : List LagLink} (hl : ∀ l ∈ ls, NoMemberNumbers l)
    (hb : ∀ l ∈ ls, ∀ b, l.ifindex = some b → 0 ≤ b) {st : LagState} {r : LagRes} (h : allLags env ls st = .ok r)
    (hs : LagState.Sane st) (n : String) :
    (lagNumbers r.ifs n).Pairwise (· < ·) ∧ (lagNumbers r.ifs n).Nodup := by
  have h1 := ((allLags_rising h0 ls hl hb h hs).2 n).sorted
  exact ⟨h1, h1.imp (fun h => by omega)⟩

/-- C59 (defect): numbers set on member links are not remembered; the node gets two LAG interfaces with the same number. -/
theorem C59_member_number_collision :
    (allLags { start := 1
               lagOk := fun _ => true
               mlagOk := fun _ => true
               reserved := fun _ => []
               pairs := []
               sort := id }
      [⟨1, none, [⟨"a", "b", some 1, none⟩]⟩, ⟨2, none, [⟨"a", "c", none, none⟩]⟩]
      ⟨fun _ => none, ⟨[], some 1, 100⟩⟩).toOption.map (fun r => (r.errs, lagNumbers r.ifs "a")) = some (0, [1, 1]) := by
  decide +kernel

/-- Three LAGs, the second one numbered by the user. -/
example :
    (allLags { start := 1
               lagOk := fun _ => true
               mlagOk := fun _ => true
               reserved := fun _ => []
               pairs := []
               sort := id }
      [⟨1, none, [⟨"a", "b", none, none⟩]⟩, ⟨2, some 7, [⟨"a", "c", none, none⟩]⟩, ⟨3, some 3, [⟨"a", "b", none, none⟩]⟩]
      ⟨fun _ => none, ⟨[], some 1, 100⟩⟩).toOption.map
        (fun r => (r.errs, lagNumbers r.ifs "a", lagNumbers r.ifs "b", lagNumbers r.ifs "c")) =
      some (0, [1, 7, 8], [1, 3], [7]) := by
  decide +kernel

/-! ### MLAG peers have the same numbers -/

theorem lagSide_absent {env : LagEnv} {l : LagLink} {ms : Bool} (ns : List String) {bond : Option Int} {st : LagState}
    {r : LagRes} (h : lagSide env l ms ns bond st = .ok r) {x : String} (hx : x ∉ ns) :
    lagNumbers r.ifs x = [] ∧ r.st.next x = st.next x := by
  induction ns generalizing bond st r with
  | nil =>
    rw [lagSide] at h
    obtain rfl := Except.ok.inj h
    exact ⟨rfl, rfl⟩
  | cons n rest ih =>
    have hn : x ≠ n := fun h => hx (by simp [h])
    have hr : x ∉ rest := fun h => hx (List.mem_cons_of_mem _ h)
    have keep : ∀ {bond bond' : Option Int} {st st' : LagState} {i : Option Int} {ix : Int},
        setLagIfindex env st bond n i ms = .ok (st', bond', ix) → st'.next x = st.next x := by
      intro bond bond' st st' i ix h
      unfold setLagIfindex at h
      have e : ∀ (t : LagState) (v : Int), (t.assign n v).next x = t.next x := by
        intro t v
        simp only [LagState.assign]
        rw [if_neg hn]
      grind
    rw [lagSide] at h
    by_cases hk : (!(if ms then env.mlagOk n else env.lagOk n)) = true
    · rw [if_pos hk] at h
      obtain rfl := Except.ok.inj h
      exact ⟨rfl, rfl⟩
    · rw [if_neg hk] at h
      cases hi : setLagIfindex env st bond n (memberIx l.members n) ms with
      | error e => rw [hi] at h; cases h
      | ok y =>
        obtain ⟨st', bond', ix⟩ := y
        rw [hi] at h
        simp only at h
        by_cases hc : ((env.reserved n).contains ix) = true
        · rw [if_pos hc] at h
          obtain rfl := Except.ok.inj h
          exact ⟨rfl, keep hi⟩
        · rw [if_neg hc] at h
          cases hl2 : lagSide env l ms rest bond' st' with
          | error e => rw [hl2] at h; cases h
          | ok s =>
            rw [hl2] at h
            obtain rfl := Except.ok.inj h
            obtain ⟨t1, t2⟩ := ih hl2 hr
            refine ⟨?_, t2.trans (keep hi)⟩
            show lagNumbers (⟨l.linkindex, n, ix, ms⟩ :: s.ifs) x = []
            rw [show lagNumbers (⟨l.linkindex, n, ix, ms⟩ :: s.ifs) x
              = lagNumbers [⟨l.linkindex, n, ix, ms⟩] x ++ lagNumbers s.ifs x from lagNumbers_append [_] _ _, t1]
            simp [lagNumbers, Ne.symm hn]

theorem lagSide_pair {env : LagEnv} (h0 : 0 ≤ env.start) {l : LagLink} (hl : NoMemberNumbers l) {x y : String}
    (hxy : x ≠ y) {bond : Option Int} {st : LagState} {r : LagRes} (h : lagSide env l true [x, y] bond st = .ok r)
    (hs : LagState.Sane st) (hb : ∀ b, bond = some b → 0 ≤ b) (he : st.next x = st.next y) (ha : r.errs = 0) :
    lagNumbers r.ifs x = lagNumbers r.ifs y ∧ r.st.next x = r.st.next y := by
  rw [lagSide] at h
  by_cases hk : (!(if true then env.mlagOk x else env.lagOk x)) = true
  · rw [if_pos hk] at h
    obtain rfl := Except.ok.inj h
    cases ha
  rw [if_neg hk, memberIx_none hl] at h
  cases hi : setLagIfindex env st bond x none true with
  | error e => rw [hi] at h; cases h
  | ok z =>
    obtain ⟨st', bond', ix⟩ := z
    rw [hi] at h
    simp only at h
    obtain ⟨s1, s2, s3, s4, s5, _, s7, _⟩ := setLagIfindex_spec h0 hi hs hb
    by_cases hc : ((env.reserved x).contains ix) = true
    · rw [if_pos hc] at h
      obtain rfl := Except.ok.inj h
      cases ha
    rw [if_neg hc, lagSide] at h
    by_cases hk2 : (!(if true then env.mlagOk y else env.lagOk y)) = true
    · rw [if_pos hk2] at h
      obtain rfl := Except.ok.inj h
      cases ha
    rw [if_neg hk2, memberIx_none hl] at h
    cases hi2 : setLagIfindex env st' bond' y none true with
    | error e => rw [hi2] at h; cases h
    | ok z =>
      obtain ⟨st2, bond2, ix2⟩ := z
      rw [hi2] at h
      simp only [lagSide] at h
      obtain ⟨_, _, t3, t4, _, t6, _, _⟩ := setLagIfindex_spec h0 hi2 s1 s2
      by_cases hc2 : ((env.reserved y).contains ix2) = true
      · rw [if_pos hc2] at h
        obtain rfl := Except.ok.inj h
        cases ha
      rw [if_neg hc2] at h
      obtain rfl := Except.ok.inj h
      have e1 : ix2 = ix := by
        rw [t6 ix (s7 rfl), s3 y (Ne.symm hxy), ← he]
        cases hn : st.next x with
        | none => simp
        | some v =>
          have := s5 v hn
          simp
          omega
      subst e1
      refine ⟨by simp [lagNumbers, hxy, Ne.symm hxy], ?_⟩
      show st2.next x = st2.next y
      rw [t4, t3 x hxy, s4]

theorem lagSide_together {env : LagEnv} (h0 : 0 ≤ env.start) {l : LagLink} (hl : NoMemberNumbers l) {x y : String}
    (hxy : x ≠ y) {ns : List String} (ht : TogetherOrAbsent x y ns) {bond : Option Int} {st : LagState} {r : LagRes}
    (h : lagSide env l (ns.length == 2) ns bond st = .ok r)
    (hs : LagState.Sane st) (hb : ∀ b, bond = some b → 0 ≤ b) (he : st.next x = st.next y) (ha : r.errs = 0) :
    lagNumbers r.ifs x = lagNumbers r.ifs y ∧ r.st.next x = r.st.next y := by
  rcases ht with (rfl | rfl) | ⟨h1, h2⟩
  · exact lagSide_pair h0 hl hxy h hs hb he ha
  · obtain ⟨p, q⟩ := lagSide_pair h0 hl (Ne.symm hxy) h hs hb he.symm ha
    exact ⟨p.symm, q.symm⟩
  · obtain ⟨p, q⟩ := lagSide_absent ns h h1
    obtain ⟨u, v⟩ := lagSide_absent ns h h2
    exact ⟨by rw [p, u], by rw [q, v, he]⟩

theorem lagInterfaces_together {env : LagEnv} (hso : ∀ l, (env.sort l).Perm l) (h0 : 0 ≤ env.start) {l : LagLink}
    (hl : NoMemberNumbers l) {x y : String} (hxy : x ≠ y)
    (ht : ∀ a b, lagSides env.pairs l.members = some (a, b) →
      TogetherOrAbsent x y (env.sort a) ∧ TogetherOrAbsent x y (env.sort b))
    {st : LagState} {r : LagRes} (h : lagInterfaces env l st = .ok r)
    (hs : LagState.Sane st) (hb : ∀ b, l.ifindex = some b → 0 ≤ b) (he : st.next x = st.next y) (ha : r.errs = 0) :
    lagNumbers r.ifs x = lagNumbers r.ifs y ∧ r.st.next x = r.st.next y := by
  unfold lagInterfaces at h
  cases hl2 : lagSides env.pairs l.members with
  | none =>
    rw [hl2] at h
    obtain rfl := Except.ok.inj h
    exact ⟨rfl, he⟩
  | some ab =>
    obtain ⟨a, b⟩ := ab
    obtain ⟨ht1, ht2⟩ := ht a b hl2
    rw [hl2] at h
    simp only at h
    rw [← (hso a).length_eq, ← (hso b).length_eq] at h
    cases h1 : lagSide env l ((env.sort a).length == 2) (env.sort a) l.ifindex st with
    | error e => rw [h1] at h; cases h
    | ok u =>
      rw [h1] at h
      simp only at h
      by_cases hx : u.abort = true
      · rw [if_pos hx] at h
        obtain rfl := Except.ok.inj h
        rcases (lagSide_nodes _ h1).2 with ⟨p, _, _⟩ | ⟨_, q⟩
        · rw [hx] at p; cases p
        · omega
      · rw [if_neg hx] at h
        cases h2 : lagSide env l ((env.sort b).length == 2) (env.sort b) l.ifindex u.st with
        | error e => rw [h2] at h; cases h
        | ok v =>
          rw [h2] at h
          obtain rfl := Except.ok.inj h
          simp only at ha
          obtain ⟨p1, p2⟩ := lagSide_together h0 hl hxy ht1 h1 hs hb he (by omega)
          obtain ⟨q1, q2⟩ := lagSide_together h0 hl hxy ht2 h2 (lagSide_rising h0 hl _ h1 hs hb).1 hb p2 (by omega)
          refine ⟨?_, q2⟩
          show lagNumbers (u.ifs ++ v.ifs) x = lagNumbers (u.ifs ++ v.ifs) y
          rw [lagNumbers_append, lagNumbers_append, p1, q1]

/-- C59: when two nodes take part only in LAGs in which they form an MLAG pair, they have the same number on every LAG
(the client is connected to the same port channel on both switches). -/
theorem C59_mlag_same {env : LagEnv} (hso : ∀ l, (env.sort l).Perm l) (h0 : 0 ≤ env.start) (ls : List LagLink)
    (hl : ∀ l ∈ ls, NoMemberNumbers l) (hb : ∀ l ∈ ls, ∀ b, l.ifindex = some b → 0 ≤ b) {x y : String} (hxy : x ≠ y)
    (ht : ∀ l ∈ ls, ∀ a b, lagSides env.pairs l.members = some (a, b) →
      TogetherOrAbsent x y (env.sort a) ∧ TogetherOrAbsent x y (env.sort b))
    {st : LagState} {r : LagRes} (h : allLags env ls st = .ok r) (hs : LagState.Sane st)
    (he : st.next x = st.next y) (ha : r.errs = 0) :
    lagNumbers r.ifs x = lagNumbers r.ifs y := by
  induction ls generalizing st r with
  | nil =>
    rw [allLags] at h
    obtain rfl := Except.ok.inj h
    rfl
  | cons l rest ih =>
    rw [allLags] at h
    cases h1 : lagInterfaces env l st with
    | error e => rw [h1] at h; cases h
    | ok u =>
      rw [h1] at h
      simp only at h
      cases h2 : allLags env rest u.st with
      | error e => rw [h2] at h; cases h
      | ok v =>
        rw [h2] at h
        obtain rfl := Except.ok.inj h
        simp only at ha
        have hm := List.mem_cons_self (a := l) (l := rest)
        obtain ⟨p, q⟩ := lagInterfaces_together hso h0 (hl l hm) hxy (ht l hm) h1 hs (hb l hm) he (by omega)
        have := ih (fun k hk => hl k (List.mem_cons_of_mem _ hk)) (fun k hk => hb k (List.mem_cons_of_mem _ hk))
          (fun k hk => ht k (List.mem_cons_of_mem _ hk)) h2
          (lagInterfaces_rising h0 (hl l hm) (hb l hm) h1 hs).1 q (by omega)
        show lagNumbers (u.ifs ++ v.ifs) x = lagNumbers (u.ifs ++ v.ifs) y
        rw [lagNumbers_append, lagNumbers_append, p, this]

/-- Two switches with two dual-homed hosts. -/
example :
    (allLags { start := 1
               lagOk := fun _ => true
               mlagOk := fun _ => true
               reserved := fun _ => []
               pairs := [("s1", "s2"), ("s2", "s1")]
               sort := id }
      [⟨1, none, [⟨"h", "s1", none, none⟩, ⟨"h", "s2", none, none⟩]⟩,
       ⟨2, none, [⟨"g", "s1", none, none⟩, ⟨"g", "s2", none, none⟩]⟩]
      ⟨fun _ => none, ⟨[], some 1, 100⟩⟩).toOption.map
        (fun r => (r.errs, lagNumbers r.ifs "s1", lagNumbers r.ifs "s2", lagNumbers r.ifs "g")) =
      some (0, [1, 2], [1, 2], [1]) := by
  decide +kernel

/-- C59 (defect): when the second switch has a LAG of its own, the switches use different numbers on the MLAG, although "we
need matching lag.ifindex". -/
theorem C59_mlag_mismatch :
    (allLags { start := 1
               lagOk := fun _ => true
               mlagOk := fun _ => true
               reserved := fun _ => []
               pairs := [("s1", "s2"), ("s2", "s1")]
               sort := id }
      [⟨1, none, [⟨"g", "s2", none, none⟩]⟩,
       ⟨2, none, [⟨"h", "s1", none, none⟩, ⟨"h", "s2", none, none⟩]⟩]
      ⟨fun _ => none, ⟨[], some 1, 100⟩⟩).toOption.map
        (fun r => (r.errs, r.ifs.filterMap (fun i => if i.mlag then some (i.node, i.ifindex) else none))) =
      some (0, [("s1", 1), ("s2", 2)]) := by
  decide +kernel

/-! ### Numbers set on links -/

theorem nodup_setAdd {s : List String} (x : String) (h : s.Nodup) : (setAdd s x).Nodup := by
  unfold setAdd
  by_cases hc : s.contains x = true
  · rw [if_pos hc]; exact h
  · rw [if_neg hc, List.nodup_append]
    refine ⟨h, by simp, ?_⟩
    intro a ha b hb
    rw [List.mem_singleton.mp hb]
    rintro rfl
    exact hc (by simpa using ha)

theorem nodup_splitMembers {pairs : List (String × String)} (ms : List LagMember) {s t : List String × List String}
    (h : splitMembers pairs ms s = some t) (h1 : s.1.Nodup) (h2 : s.2.Nodup) : t.1.Nodup ∧ t.2.Nodup := by
  induction ms generalizing s with
  | nil =>
    obtain rfl := Option.some.inj h
    exact ⟨h1, h2⟩
  | cons m rest ih =>
    rw [splitMembers] at h
    cases hm : splitMember pairs s m with
    | none => rw [hm] at h; cases h
    | some u =>
      rw [hm] at h
      unfold splitMember at hm
      split at hm
      · obtain rfl := Option.some.inj hm
        exact ih h (nodup_setAdd _ h1) (nodup_setAdd _ h2)
      · split at hm
        · obtain rfl := Option.some.inj hm
          exact ih h (nodup_setAdd _ h1) (nodup_setAdd _ h2)
        · cases hm

theorem lagSide_requested {env : LagEnv} (h0 : 0 ≤ env.start) {l : LagLink} (hl : NoMemberNumbers l) {ms : Bool}
    (ns : List String) (hn : ns.Nodup) {b : Int} (hb : 0 ≤ b) {st : LagState} {r : LagRes}
    (h : lagSide env l ms ns (some b) st = .ok r) (hs : LagState.Sane st) (hf : ∀ n ∈ ns, st.next n = none) :
    ∀ i ∈ r.ifs, i.ifindex = b := by
  induction ns generalizing st r with
  | nil =>
    rw [lagSide] at h
    obtain rfl := Except.ok.inj h
    simp
  | cons n rest ih =>
    rw [lagSide] at h
    by_cases hk : (!(if ms then env.mlagOk n else env.lagOk n)) = true
    · rw [if_pos hk] at h
      obtain rfl := Except.ok.inj h
      simp
    · have hfn := hf n (List.mem_cons_self ..)
      have e : setLagIfindex env st (some b) n none ms = .ok (st.assign n b, some b, b) := by
        unfold setLagIfindex
        rw [hfn]
      rw [if_neg hk, memberIx_none hl, e] at h
      obtain ⟨s1, _, s3, _, _, _, _, _⟩ := setLagIfindex_spec h0 e hs (by intro c hc; have := Option.some.inj hc; omega)
      simp only at h
      by_cases hr : ((env.reserved n).contains b) = true
      · rw [if_pos hr] at h
        obtain rfl := Except.ok.inj h
        simp
      · rw [if_neg hr] at h
        cases hl2 : lagSide env l ms rest (some b) (st.assign n b) with
        | error e => rw [hl2] at h; cases h
        | ok s =>
          rw [hl2] at h
          obtain rfl := Except.ok.inj h
          rw [List.nodup_cons] at hn
          intro i hi
          rcases List.mem_cons.mp hi with rfl | hi
          · rfl
          · refine ih hn.2 hl2 s1 ?_ i hi
            intro k hk
            rw [s3 k (fun h => hn.1 (h ▸ hk))]
            exact hf k (List.mem_cons_of_mem _ hk)

/-- C59: when the link has a number, all its LAG interfaces have that number, provided that it is the first LAG of its nodes
and no node is on both sides. -/
theorem C59_requested {env : LagEnv} (hso : ∀ l, (env.sort l).Perm l) (h0 : 0 ≤ env.start) {l : LagLink}
    (hl : NoMemberNumbers l) {b : Int} (hb : 0 ≤ b) (hlb : l.ifindex = some b) {st : LagState} {r : LagRes}
    (h : lagInterfaces env l st = .ok r) (hs : LagState.Sane st) (hf : ∀ n, OnLag l n → st.next n = none)
    (hd : ∀ a c, lagSides env.pairs l.members = some (a, c) → ∀ n ∈ a, n ∉ c) :
    ∀ i ∈ r.ifs, i.ifindex = b := by
  unfold lagInterfaces at h
  cases hl2 : lagSides env.pairs l.members with
  | none =>
    rw [hl2] at h
    obtain rfl := Except.ok.inj h
    simp
  | some ac =>
    obtain ⟨a, c⟩ := ac
    have hd := hd a c hl2
    have hon := (C59_sides hl2).2
    have hnd : a.Nodup ∧ c.Nodup := by
      cases hm : l.members with
      | nil => rw [hm] at hl2; simp [lagSides] at hl2
      | cons m rest =>
        rw [hm, lagSides] at hl2
        exact nodup_splitMembers rest hl2 (by simp) (by simp)
    rw [hl2, hlb] at h
    simp only at h
    cases h1 : lagSide env l (a.length == 2) (env.sort a) (some b) st with
    | error e => rw [h1] at h; cases h
    | ok x =>
      rw [h1] at h
      simp only at h
      have x1 := lagSide_requested h0 hl _ ((hso a).nodup_iff.mpr hnd.1) hb h1 hs
        (fun n hn => hf n ((hon n).mp (.inl ((hso a).subset hn))))
      by_cases hx : x.abort = true
      · rw [if_pos hx] at h
        obtain rfl := Except.ok.inj h
        exact x1
      · rw [if_neg hx] at h
        cases h2 : lagSide env l (c.length == 2) (env.sort c) (some b) x.st with
        | error e => rw [h2] at h; cases h
        | ok y =>
          rw [h2] at h
          obtain rfl := Except.ok.inj h
          have hs2 := (lagSide_rising h0 hl _ h1 hs (by intro c hc; have := Option.some.inj hc; omega)).1
          have y1 := lagSide_requested h0 hl _ ((hso c).nodup_iff.mpr hnd.2) hb h2 hs2 (fun n hn => by
            have hn := (hso c).subset hn
            rw [(lagSide_absent _ h1 (fun hc => hd n ((hso a).subset hc) hn)).2]
            exact hf n ((hon n).mp (.inr hn)))
          intro i hi
          rcases List.mem_append.mp hi with hi | hi
          · exact x1 i hi
          · exact y1 i hi

/-! ### Member links -/

theorem reparentAll_cons (x : Int × Int) (lags : List (Int × Int)) (ms : List MemberIf) :
    reparentAll (x :: lags) ms = reparentAll lags (reparent ms x) := rfl

/-- What happens to one member. -/
def reparentOne (lags : List (Int × Int)) (p : Int) : Int := lags.foldl (fun p x => if p = x.1 then x.2 else p) p

theorem reparentAll_map (lags : List (Int × Int)) (ms : List MemberIf) :
    reparentAll lags ms = ms.map (fun m => { m with parent := reparentOne lags m.parent }) := by
  induction lags generalizing ms with
  | nil => simp [reparentAll, reparentOne]
  | cons x rest ih =>
    rw [reparentAll_cons, ih]
    simp only [reparent, List.map_map]
    apply List.map_congr_left
    intro m _
    simp only [Function.comp, reparentOne, List.foldl_cons]
    split <;> rfl

theorem reparentOne_other (lags : List (Int × Int)) (p : Int) (h : ∀ x ∈ lags, x.1 ≠ p) : reparentOne lags p = p := by
  induction lags with
  | nil => rfl
  | cons x rest ih =>
    unfold reparentOne
    rw [List.foldl_cons, if_neg (fun h2 => h x (List.mem_cons_self ..) h2.symm)]
    exact ih (fun y hy => h y (List.mem_cons_of_mem _ hy))

/-- C59: every member link of a LAG ends in that LAG when the number of a LAG interface is never equal to the index of a LAG link
processed later. -/
theorem C59_members {lags : List (Int × Int)} (h : lags.Pairwise (fun x y => x.1 ≠ y.1 ∧ x.2 ≠ y.1))
    (ms : List MemberIf) {m : MemberIf} (hm : m ∈ ms) {x : Int × Int} (hx : x ∈ lags) (hp : m.parent = x.1) :
    ⟨m.name, x.2⟩ ∈ reparentAll lags ms := by
  rw [reparentAll_map, List.mem_map]
  refine ⟨m, hm, ?_⟩
  have : reparentOne lags m.parent = x.2 := by
    rw [hp]
    clear hm hp
    induction lags with
    | nil => cases hx
    | cons y rest ih =>
      rw [List.pairwise_cons] at h
      unfold reparentOne
      rw [List.foldl_cons]
      rcases List.mem_cons.mp hx with rfl | hx
      · rw [if_pos rfl]
        exact reparentOne_other rest _ (fun z hz h2 => (h.1 z hz).2 h2.symm)
      · rw [if_neg (fun h2 => (h.1 x hx).1 h2.symm)]
        exact ih h.2 hx
  rw [this]

example : [((1 : Int), (1 : Int)), (2, 2), (5, 3)].Pairwise (fun x y => x.1 ≠ y.1 ∧ x.2 ≠ y.1) := by decide +kernel

/-- C59: interfaces that are not LAG members of the processed LAGs are not changed, and no interface is added or lost. -/
theorem C59_nonmembers (lags : List (Int × Int)) (ms : List MemberIf) :
    (reparentAll lags ms).map (·.name) = ms.map (·.name) ∧
      ∀ m ∈ ms, (∀ x ∈ lags, x.1 ≠ m.parent) → m ∈ reparentAll lags ms := by
  rw [reparentAll_map]
  constructor
  · rw [List.map_map]
    rfl
  · intro m hm h
    rw [List.mem_map]
    exact ⟨m, hm, by rw [reparentOne_other lags _ h]⟩

/-- C59 (defect): the LAG link with index 1 has number 2, the LAG link with index 2 has number 3.  The member of the first
LAG ends in the second one. -/
theorem C59_member_captured :
    reparentAll [(1, 2), (2, 3)] [⟨"eth1", 1⟩, ⟨"eth2", 2⟩] = [⟨"eth1", 3⟩, ⟨"eth2", 3⟩] := by decide +kernel

/-! ### C42: MLAG peers -/

theorem mem_addPair {pairs : List (String × String)} {p : String × String} {x : String × String} :
    x ∈ addPair pairs p ↔
      x = (p.2, p.1) ∨ (x.1 ≠ p.2 ∧ (x = (p.1, p.2) ∨ (x.1 ≠ p.1 ∧ x ∈ pairs))) := by
  simp only [addPair, List.mem_cons, List.mem_filter, bne_iff_ne, ne_eq]
  grind

theorem mlagPairs_from (links : List (String × String)) (init : List (String × String))
    (hne : ∀ p ∈ links, p.1 ≠ p.2)
    (h : links.Pairwise (fun p q => p.1 ≠ q.1 ∧ p.1 ≠ q.2 ∧ p.2 ≠ q.1 ∧ p.2 ≠ q.2))
    (hi : ∀ x ∈ init, ∀ p ∈ links, x.1 ≠ p.1 ∧ x.1 ≠ p.2) (a b : String) :
    (a, b) ∈ links.foldl addPair init ↔ (a, b) ∈ init ∨ (a, b) ∈ links ∨ (b, a) ∈ links := by
  induction links generalizing init with
  | nil => simp
  | cons p rest ih =>
    rw [List.pairwise_cons] at h
    have hp := hne p (List.mem_cons_self ..)
    rw [List.foldl_cons, ih (addPair init p) (fun q hq => hne q (List.mem_cons_of_mem _ hq)) h.2]
    · rw [mem_addPair, List.mem_cons, List.mem_cons]
      obtain ⟨p1, p2⟩ := p
      simp only at hp
      have hi2 : (a, b) ∈ init → a ≠ p1 ∧ a ≠ p2 := fun hx => hi (a, b) hx (p1, p2) (List.mem_cons_self ..)
      simp only [Prod.mk.injEq]
      grind
    · intro x hx q hq
      have hq2 := h.1 q hq
      rw [mem_addPair] at hx
      rcases hx with rfl | ⟨_, rfl | ⟨_, hx⟩⟩
      · exact ⟨hq2.2.2.1, hq2.2.2.2⟩
      · exact ⟨hq2.1, hq2.2.1⟩
      · exact hi x hx q (List.mem_cons_of_mem _ hq)

/-- C42: when no node has two MLAG peers, two nodes are MLAG peers exactly when they are connected with a peer link, in any
order. -/
theorem C42_pairs {links : List (String × String)} (hne : ∀ p ∈ links, p.1 ≠ p.2)
    (h : links.Pairwise (fun p q => p.1 ≠ q.1 ∧ p.1 ≠ q.2 ∧ p.2 ≠ q.1 ∧ p.2 ≠ q.2)) (a b : String) :
    (a, b) ∈ mlagPairs links ↔ (a, b) ∈ links ∨ (b, a) ∈ links := by
  unfold mlagPairs
  rw [mlagPairs_from links [] hne h (by simp)]
  simp

example : [("s1", "s2"), ("s3", "s4")].Pairwise
    (fun p q => p.1 ≠ q.1 ∧ p.1 ≠ q.2 ∧ p.2 ≠ q.1 ∧ p.2 ≠ q.2) := by decide +kernel

/-- C42 (defect): a switch with two peer links is accepted; `s2` is the MLAG peer of `s1`, but `s1` is not the peer of `s2`. -/
theorem C42_two_peers :
    mlagPairs [("s1", "s2"), ("s2", "s3")] = [("s3", "s2"), ("s2", "s3"), ("s1", "s2")] := by decide +kernel

theorem net_pair {n : Net} (hn : 2 ≤ n.size) : n.nth? 0 = some n.base ∧ n.nth? 1 = some (n.base + 1) := by
  unfold Net.nth?
  constructor
  · rw [if_pos (by omega), if_pos (by omega)]; rfl
  · rw [if_pos (by omega), if_pos (by omega)]; rfl

/-- C42: peers with addresses from a pool: the node with the smaller identifier gets the first address of the pool, the other
one the second address, and each one uses the address of the other one as the peer address. -/
theorem C42_pool {f : MlagFeatures} {net : Net} (hf : f.ip = some (.net net)) (hn : 2 ≤ net.size) {x y : MlagNode}
    (hxy : x.id < y.id) (g : Nat) :
    ∃ p q, mlagPeer f x y g = some p ∧ mlagPeer f y x g = some q ∧
      p.self = some (net.base, net.plen) ∧ q.self = some (net.base + 1, net.plen) ∧
      p.peer = some (.addr (net.base + 1)) ∧ q.peer = some (.addr net.base) := by
  obtain ⟨h0, h1⟩ := net_pair hn
  unfold mlagPeer mlagAddr
  rw [hf]
  simp only [if_pos hxy, if_neg (Int.not_lt.mpr (Int.le_of_lt hxy)), Int.sub_zero, Int.sub_self, h0, h1]
  exact ⟨_, _, rfl, rfl, rfl, rfl, rfl, rfl⟩

/-- C42: the addresses of two peers are always different, and each peer uses the address of the other one. -/
theorem C42_pool_distinct {f : MlagFeatures} {net : Net} (hf : f.ip = some (.net net)) (hn : 2 ≤ net.size)
    {x y : MlagNode} (hxy : x.id ≠ y.id) (g : Nat) :
    ∃ p q, mlagPeer f x y g = some p ∧ mlagPeer f y x g = some q ∧ p.self ≠ q.self ∧
      p.peer = q.self.map (fun a => .addr a.1) ∧ q.peer = p.self.map (fun a => .addr a.1) := by
  rcases Int.lt_or_gt_of_ne hxy with h | h
  · obtain ⟨p, q, h1, h2, h3, h4, h5, h6⟩ := C42_pool hf hn h g
    refine ⟨p, q, h1, h2, ?_, ?_, ?_⟩
    · rw [h3, h4]; simp
    · rw [h5, h4]; rfl
    · rw [h6, h3]; rfl
  · obtain ⟨p, q, h1, h2, h3, h4, h5, h6⟩ := C42_pool hf hn h g
    refine ⟨q, p, h2, h1, ?_, ?_, ?_⟩
    · rw [h3, h4]; simp
    · rw [h6, h3]; rfl
    · rw [h5, h4]; rfl

/-- C42: without a pool, the peer address is the loopback address of the other node; a missing loopback address is an error. -/
theorem C42_loopback {f : MlagFeatures} (hf : f.ip = some .loopback) (x y : MlagNode) (g : Nat) :
    ∃ p, mlagPeer f x y g = some p ∧ p.self = none ∧ p.peer = y.loopback.map PeerVal.addr ∧
      (p.errs = 0 → y.loopback.isSome) := by
  unfold mlagPeer mlagAddr
  rw [hf]
  cases hy : y.loopback with
  | none => exact ⟨_, rfl, rfl, rfl, by simp⟩
  | some a => exact ⟨_, rfl, rfl, rfl, by simp⟩

/-- C42: the backup address is the backup address of the other node; a missing address is an error. -/
theorem C42_backup {f : MlagFeatures} (hb : f.backup = true) {x y : MlagNode} {g : Nat} {p : MlagData}
    (h : mlagPeer f x y g = some p) : p.backup = y.backup ∧ (p.errs = 0 → y.backup.isSome) := by
  unfold mlagPeer at h
  cases ha : mlagAddr f x y with
  | none => rw [ha] at h; cases h
  | some z =>
    obtain ⟨u, v, w⟩ := z
    rw [ha] at h
    obtain rfl := Option.some.inj h
    constructor
    · simp [hb]
    · intro he
      cases hy : y.backup with
      | some a => rfl
      | none => simp [hb, hy] at he

/-- C42: unless the user sets the MAC address, both peers of a peer group have the same MAC address. -/
theorem C42_same_mac {f : MlagFeatures} {x y : MlagNode} {g : Nat} {p q : MlagData} (hx : x.mac = none) (hy : y.mac = none)
    (hp : mlagPeer f x y g = some p) (hq : mlagPeer f y x g = some q) : p.mac = q.mac := by
  unfold mlagPeer at hp hq
  cases ha : mlagAddr f x y with
  | none => rw [ha] at hp; cases hp
  | some z =>
    cases hb : mlagAddr f y x with
    | none => rw [hb] at hq; cases hq
    | some w =>
      rw [ha] at hp
      rw [hb] at hq
      obtain rfl := Option.some.inj hp
      obtain rfl := Option.some.inj hq
      simp [mlagMac, hx, hy]

/-- C42: nodes in different peer groups (below 65536) have different MAC addresses. -/
theorem C42_different_mac {f : MlagFeatures} {m : Nat} (hm : f.mac = some m) {x y u v : MlagNode} {g k : Nat}
    {p q : MlagData} (hx : x.mac = none) (hu : u.mac = none) (hg : g < 65536) (hk : k < 65536) (hgk : g ≠ k)
    (hp : mlagPeer f x y g = some p) (hq : mlagPeer f u v k = some q) : p.mac ≠ q.mac ∧ p.mac.isSome := by
  unfold mlagPeer at hp hq
  cases ha : mlagAddr f x y with
  | none => rw [ha] at hp; cases hp
  | some z =>
    cases hb : mlagAddr f u v with
    | none => rw [hb] at hq; cases hq
    | some w =>
      rw [ha] at hp
      rw [hb] at hq
      obtain rfl := Option.some.inj hp
      obtain rfl := Option.some.inj hq
      simp [mlagMac, hx, hu, hm]
      omega

/-- C42: the MAC address set by the user is used. -/
theorem C42_user_mac {f : MlagFeatures} {x y : MlagNode} {g m : Nat} {p : MlagData} (hx : x.mac = some m)
    (hp : mlagPeer f x y g = some p) : p.mac = some m := by
  unfold mlagPeer at hp
  cases ha : mlagAddr f x y with
  | none => rw [ha] at hp; cases hp
  | some z =>
    rw [ha] at hp
    obtain rfl := Option.some.inj hp
    simp [mlagMac, hx]

/-- C42 (defect): peer group identifiers have no upper limit, and identifiers that differ by 65536 get the same MAC address. -/
theorem C42_mac_wraps :
    mlagMac ⟨none, false, some 100⟩ ⟨1, none, none, none⟩ 1 = mlagMac ⟨none, false, some 100⟩ ⟨3, none, none, none⟩ 65537 := by
  decide +kernel

/-- Two switches with addresses from 169.254.127.0/31. -/
example : mlagPeer ⟨some (.net ⟨32, 2851995392, 31⟩), false, some 1000⟩ ⟨1, none, none, none⟩ ⟨2, none, none, none⟩ 1 =
    some ⟨some (.addr 2851995393), some (2851995392, 31), none, some 1001, 0⟩ := by decide +kernel

end Netlab
