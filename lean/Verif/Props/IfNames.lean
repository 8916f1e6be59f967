import Verif.Spec.IfNames
import Verif.Props.Links
import Verif.Props.AddrTypes
import Verif.Props.Quirks
import Std.Data.String.ToNat

namespace Netlab

open Spec

/-! ### Texts -/

theorem repr_inj_list {a b : Nat} (h : a.repr.toList = b.repr.toList) : a = b :=
  Nat.repr_inj.1 (String.toList_injective h)

theorem repr_ne_nil (n : Nat) : n.repr.toList ≠ [] := by
  unfold Nat.repr
  rw [String.toList_ofList]
  exact Nat.toDigits_ne_nil

theorem repr_length (n k : Nat) (hk : 0 < k) (h : n < 10 ^ k) : n.repr.toList.length ≤ k := by
  unfold Nat.repr
  rw [String.toList_ofList]
  induction k generalizing n with
  | zero => omega
  | succ k ih =>
    by_cases hn : n < 10
    · rw [Nat.toDigits_of_lt_base hn]
      simp
    · cases k with
      | zero => omega
      | succ k =>
        rw [Nat.toDigits_of_base_le (by decide) (by omega), List.length_append]
        have := ih (n / 10) (by omega) (by rw [Nat.div_lt_iff_lt_mul (by decide), ← Nat.pow_succ]; exact h)
        simp only [List.length_cons, List.length_nil]
        omega

/-- Digits followed by something else can be taken apart. -/
theorem digits_split {a b : List Char} (ha : ∀ c ∈ a, c.isDigit = true) (hb : ∀ c ∈ b, c.isDigit = true) {x y : List Char}
    (hx : ∀ c ∈ x.head?, c.isDigit = false) (hy : ∀ c ∈ y.head?, c.isDigit = false) (h : a ++ x = b ++ y) : a = b ∧ x = y := by
  induction a generalizing b with
  | nil =>
    cases b with
    | nil => exact ⟨rfl, h⟩
    | cons c b =>
      rw [List.nil_append] at h
      rw [h] at hx
      have h1 := hx c (by simp)
      rw [hb c (by simp)] at h1
      cases h1
  | cons d a ih =>
    cases b with
    | nil =>
      rw [List.nil_append] at h
      rw [← h] at hy
      have h1 := hy d (by simp)
      rw [ha d (by simp)] at h1
      cases h1
    | cons c b =>
      simp only [List.cons_append, List.cons.injEq] at h
      obtain ⟨e1, e2⟩ := ih (fun c hc => ha c (List.mem_cons_of_mem _ hc)) (fun c hc => hb c (List.mem_cons_of_mem _ hc)) h.2
      exact ⟨by rw [h.1, e1], e2⟩

/-- The number at the end of a text preceded by something else. -/
theorem number_end {p q : List Char} {a b : Nat} (hp : ∀ c ∈ p.getLast?, c.isDigit = false) (hq : ∀ c ∈ q.getLast?, c.isDigit = false)
    (h : p ++ a.repr.toList = q ++ b.repr.toList) : p = q ∧ a = b := by
  have h1 := congrArg List.reverse h
  rw [List.reverse_append, List.reverse_append] at h1
  have hd : ∀ n : Nat, ∀ c ∈ n.repr.toList.reverse, c.isDigit = true := fun n c hc => repr_digits n c (List.mem_reverse.1 hc)
  obtain ⟨e1, e2⟩ := digits_split (hd a) (hd b) (by rw [List.head?_reverse]; exact hp) (by rw [List.head?_reverse]; exact hq) h1
  exact ⟨List.reverse_injective e2, repr_inj_list (List.reverse_injective e1)⟩

theorem apart_ne {p q a b : List Char} (h : apart p q = true) (ha : p <+: a) (hb : q <+: b) : a ≠ b := by
  rintro rfl
  unfold apart at h
  simp only [Bool.and_eq_true, Bool.not_eq_true'] at h
  rcases Nat.le_total p.length q.length with hl | hl
  · have := List.isPrefixOf_iff_prefix.2 (List.prefix_of_prefix_length_le ha hb hl)
    rw [h.1] at this
    cases this
  · have := List.isPrefixOf_iff_prefix.2 (List.prefix_of_prefix_length_le hb ha hl)
    rw [h.2] at this
    cases this

/-! ### Templates -/

theorem litHead_spec (l : List FmtSeg) : l = (litHead l).1.map FmtSeg.lit ++ (litHead l).2 := by
  induction l with
  | nil => rfl
  | cons s r ih =>
    cases s with
    | lit c => simp only [litHead, List.map_cons, List.cons_append]; rw [← ih]
    | var v op => rfl

theorem fmtSegs_append (data : List (String × FmtVal)) (a b : List FmtSeg) :
    fmtSegs data (a ++ b) = match fmtSegs data a, fmtSegs data b with
      | some x, some y => some (x ++ y)
      | _, _ => none := by
  induction a with
  | nil =>
    rw [List.nil_append]
    show _ = match some [], fmtSegs data b with | some x, some y => some (x ++ y) | _, _ => none
    cases fmtSegs data b <;> rfl
  | cons s r ih =>
    rw [List.cons_append]
    simp only [fmtSegs]
    rw [ih]
    cases fmtSeg data s with
    | none => rfl
    | some x =>
      cases fmtSegs data r with
      | none => rfl
      | some y =>
        cases fmtSegs data b with
        | none => rfl
        | some z => simp only [List.append_assoc]

theorem fmtSegs_lits (data : List (String × FmtVal)) (a : List Char) : fmtSegs data (a.map FmtSeg.lit) = some a := by
  induction a with
  | nil => rfl
  | cons c r ih => simp only [List.map_cons, fmtSegs, fmtSeg, ih, List.cons_append, List.nil_append]

theorem fmtSegs_head (data : List (String × FmtVal)) (l : List FmtSeg) :
    fmtSegs data l = (fmtSegs data (litHead l).2).map ((litHead l).1 ++ ·) := by
  conv => lhs; rw [litHead_spec l, fmtSegs_append, fmtSegs_lits]
  cases fmtSegs data (litHead l).2 <;> rfl

/-- The name begins with the literal text at the beginning of its template. -/
theorem name_prefix {f : String} {data : List (String × FmtVal)} {s : String} (h : evalFormat f data = some s) : litPrefix f <+: s.toList := by
  unfold evalFormat at h
  unfold litPrefix
  cases hl : fmtSplit none f.toList with
  | none => rw [hl] at h; cases h
  | some l =>
    rw [hl] at h
    dsimp only at h ⊢
    rw [fmtSegs_head] at h
    cases hr : fmtSegs data (litHead l).2 with
    | none => rw [hr] at h; cases h
    | some r =>
      rw [hr] at h
      simp only [Option.map_some, Option.some.injEq] at h
      rw [← h, String.toList_ofList]
      exact List.prefix_append _ _

theorem fmtNum_inj {off n m : Nat} {op : FmtOp} (ho : opInjective off op = true) (hn : off ≤ n) (hm : off ≤ m) {s : String}
    (h1 : fmtNum n op = some s) (h2 : fmtNum m op = some s) : n = m := by
  have h := h1.trans h2.symm
  cases op with
  | id =>
    simp only [fmtNum, Option.some.injEq] at h
    exact Nat.repr_inj.1 h
  | orEmpty =>
    simp only [fmtNum, Option.some.injEq] at h
    by_cases a : n = 0
    · by_cases b : m = 0
      · omega
      · rw [if_pos a, if_neg b] at h
        have := congrArg String.toList h
        exact absurd this.symm (repr_ne_nil m)
    · by_cases b : m = 0
      · rw [if_neg a, if_pos b] at h
        have := congrArg String.toList h
        exact absurd this (repr_ne_nil n)
      · rw [if_neg a, if_neg b] at h
        exact Nat.repr_inj.1 h
  | add k =>
    simp only [fmtNum, Option.some.injEq] at h
    have := Nat.repr_inj.1 h
    omega
  | sub k =>
    simp only [opInjective, decide_eq_true_eq] at ho
    simp only [fmtNum, Option.some.injEq] at h
    rw [if_pos (by omega), if_pos (by omega)] at h
    have := Nat.repr_inj.1 h
    omega
  | mul k =>
    simp only [opInjective, decide_eq_true_eq] at ho
    simp only [fmtNum, Option.some.injEq] at h
    exact Nat.eq_of_mul_eq_mul_right (by omega) (Nat.repr_inj.1 h)
  | div k => cases ho
  | mod k => cases ho

theorem fmtSeg_num {data : List (String × FmtVal)} {v : String} {n : Nat} (hv : data.lookup v = some (.num n)) (op : FmtOp) :
    fmtSeg data (.var v op) = (fmtNum n op).map (·.toList) := by
  simp only [fmtSeg, hv]

/-- Names are different when the numbers are different. -/
theorem segs_inj {v : String} {off : Nat} {l : List FmtSeg} (hl : segsInjective v off l = true) {d1 d2 : List (String × FmtVal)} {n m : Nat}
    (h1 : d1.lookup v = some (.num n)) (h2 : d2.lookup v = some (.num m)) (hn : off ≤ n) (hm : off ≤ m) {s : List Char}
    (e1 : fmtSegs d1 l = some s) (e2 : fmtSegs d2 l = some s) : n = m := by
  have e := e1.trans e2.symm
  rw [fmtSegs_head d1 l, fmtSegs_head d2 l] at e
  unfold segsInjective at hl
  cases hh : litHead l with
  | mk a r0 =>
    rw [hh] at hl e
    dsimp only at hl e
    have hc : fmtSegs d1 r0 = fmtSegs d2 r0 := by
      cases q1 : fmtSegs d1 r0 <;> cases q2 : fmtSegs d2 r0 <;> rw [q1, q2] at e <;> simp_all
    have hsome : ∃ t, fmtSegs d1 r0 = some t := by
      rw [fmtSegs_head, hh] at e1
      cases q1 : fmtSegs d1 r0 with
      | none => dsimp only at e1; rw [q1] at e1; cases e1
      | some t => exact ⟨t, rfl⟩
    obtain ⟨t, ht⟩ := hsome
    have ht2 := hc ▸ ht
    match r0, hl, ht, ht2 with
    | .var x op :: r, hl, ht, ht2 =>
      simp only [Bool.and_eq_true, beq_iff_eq] at hl
      obtain ⟨rfl, hl⟩ := hl
      simp only [fmtSegs, fmtSeg_num h1, fmtSeg_num h2] at ht ht2
      rw [fmtSegs_head d1 r] at ht
      rw [fmtSegs_head d2 r] at ht2
      cases hr : litHead r with
      | mk b r1 =>
        rw [hr] at hl ht ht2
        dsimp only at ht ht2
        match b, r1, hl, ht, ht2 with
        | b, [], hl, ht, ht2 =>
          simp only [fmtSegs, Option.map_some, List.append_nil] at ht ht2
          cases q1 : fmtNum n op with
          | none => rw [q1] at ht; cases ht
          | some z1 =>
            cases q2 : fmtNum m op with
            | none => rw [q2] at ht2; cases ht2
            | some z2 =>
              rw [q1] at ht
              rw [q2] at ht2
              simp only [Option.map_some, Option.some.injEq] at ht ht2
              have := List.append_cancel_right (ht.trans ht2.symm)
              have := String.toList_injective this
              subst this
              have hl' : opInjective off op = true := by
                cases b <;> exact hl
              exact fmtNum_inj hl' hn hm q1 q2
        | c :: b, .var y (.mod k) :: r2, hl, ht, ht2 =>
          simp only [Bool.and_eq_true, beq_iff_eq, decide_eq_true_eq, Bool.not_eq_true', List.isEmpty_iff] at hl
          obtain ⟨⟨⟨⟨hy, hop⟩, hk⟩, hcd⟩, hr2⟩ := hl
          subst hy
          subst hop
          simp only [fmtSegs, fmtSeg_num h1, fmtSeg_num h2, fmtNum, if_neg hk, Option.map_some] at ht ht2
          rw [fmtSegs_head d1 r2, hr2] at ht
          rw [fmtSegs_head d2 r2, hr2] at ht2
          simp only [fmtSegs, Option.map_some, List.append_nil, Option.some.injEq] at ht ht2
          have hx := ht.trans ht2.symm
          obtain ⟨a1, a2⟩ := digits_split (repr_digits _) (repr_digits _) (by simpa using hcd) (by simpa using hcd) hx
          have a3 := List.append_cancel_left a2
          have a4 := List.append_cancel_right a3
          have q1 := repr_inj_list a1
          have q2 := repr_inj_list a4
          rw [← Nat.div_add_mod n k, ← Nat.div_add_mod m k, q1, q2]

theorem tmpl_inj {vs : List String} {off : Nat} {t : String} (ht : tmplInjective vs off (some t) = true) {d1 d2 : List (String × FmtVal)} {s : String}
    (e1 : evalFormat t d1 = some s) (e2 : evalFormat t d2 = some s) :
    ∃ v ∈ vs, ∀ n m, d1.lookup v = some (.num n) → d2.lookup v = some (.num m) → off ≤ n → off ≤ m → n = m := by
  unfold tmplInjective at ht
  unfold evalFormat at e1 e2
  dsimp only at ht
  cases hl : fmtSplit none t.toList with
  | none => rw [hl] at ht; cases ht
  | some l =>
    rw [hl] at ht e1 e2
    dsimp only at ht e1 e2
    obtain ⟨v, hv, hi⟩ := List.any_eq_true.1 ht
    refine ⟨v, hv, ?_⟩
    intro n m h1 h2 hn hm
    cases q1 : fmtSegs d1 l with
    | none => rw [q1] at e1; cases e1
    | some z1 =>
      cases q2 : fmtSegs d2 l with
      | none => rw [q2] at e2; cases e2
      | some z2 =>
        rw [q1] at e1
        rw [q2] at e2
        simp only [Option.map_some, Option.some.injEq] at e1 e2
        have := congrArg String.toList (e1.trans e2.symm)
        rw [String.toList_ofList, String.toList_ofList] at this
        subst this
        exact segs_inj hi h1 h2 hn hm q1 q2

/-- The separator is not a part of names of parent interfaces. -/
theorem char_free {c : Char} (hc : c.isDigit = false) {t : String} (ht : charFree c (some t) = true) {data : List (String × FmtVal)}
    (hd : ∀ v x, data.lookup v = some x → ∃ n, x = .num n) {s : String} (e : evalFormat t data = some s) : c ∉ s.toList := by
  unfold charFree at ht
  unfold evalFormat at e
  dsimp only at ht
  cases hl : fmtSplit none t.toList with
  | none => rw [hl] at ht; cases ht
  | some l =>
    rw [hl] at ht e
    dsimp only at ht e
    cases q : fmtSegs data l with
    | none => rw [q] at e; cases e
    | some z =>
      rw [q] at e
      simp only [Option.map_some, Option.some.injEq] at e
      rw [← e, String.toList_ofList]
      clear e hl
      induction l generalizing z with
      | nil =>
        cases q
        exact List.not_mem_nil
      | cons x r ih =>
        simp only [List.all_cons, Bool.and_eq_true] at ht
        simp only [fmtSegs] at q
        cases q1 : fmtSeg data x with
        | none => rw [q1] at q; cases q
        | some a =>
          cases q2 : fmtSegs data r with
          | none => rw [q1, q2] at q; cases q
          | some b =>
            rw [q1, q2] at q
            cases q
            rw [List.mem_append, not_or]
            refine ⟨?_, ih ht.2 b q2⟩
            have h1 := ht.1
            cases x with
            | lit y =>
              cases q1
              simp only [bne_iff_ne, ne_eq] at h1
              simp only [List.mem_singleton]
              exact fun h => h1 h.symm
            | var v op =>
              simp only [fmtSeg] at q1
              cases hv : data.lookup v with
              | none => rw [hv] at q1; cases q1
              | some val =>
                obtain ⟨n, rfl⟩ := hd v val hv
                rw [hv] at q1
                dsimp only at q1
                cases op <;> simp only [fmtNum] at q1
                · cases q1; exact repr_no c hc n
                · cases q1
                  split
                  · exact List.not_mem_nil
                  · exact repr_no c hc n
                · cases q1; exact repr_no c hc _
                · simp at h1
                · cases q1; exact repr_no c hc _
                · split at q1
                  · cases q1
                  · cases q1; exact repr_no c hc _
                · split at q1
                  · cases q1
                  · cases q1; exact repr_no c hc _

/-! ### Interface names -/

/-- Template of the interface or its parent. -/
def kindClass : IfKind → Nat
  | .phys _ => 0
  | .loop _ => 1
  | .tunnel _ => 2
  | .lag _ => 3
  | .svi _ _ => 4
  | .subif l _ _ _ => if l then 3 else 0

theorem optFormat_some {f : Option String} {data : List (String × FmtVal)} {s : String} (h : optFormat f data = some s) :
    ∃ t, f = some t ∧ evalFormat t data = some s := by
  cases f with
  | none => cases h
  | some t => exact ⟨t, rfl, h⟩

theorem parentName_some {d : NameDev} {l : Bool} {i : Nat} {s : String} (h : parentName d l i = some s) :
    ∃ t, (NameDev.templates d)[if l then 3 else 0]? = some (some t) ∧
      evalFormat t (if l then [("lag.ifindex", .num i)] else [("ifindex", .num i)]) = some s := by
  unfold parentName at h
  cases l with
  | false => exact ⟨d.phys, rfl, h⟩
  | true =>
    obtain ⟨t, h1, h2⟩ := optFormat_some (show optFormat d.lag [("lag.ifindex", .num i)] = some s from h)
    refine ⟨t, ?_, h2⟩
    show some d.lag = _
    rw [h1]

/-- The parts of a subinterface name. -/
structure SubShape (d : NameDev) (t : String) where
  sep : List Char
  x : String
  c : Char
  split : fmtSplit none t.toList = some (.var "ifname" .id :: (sep.map FmtSeg.lit ++ [.var x .id]))
  var : x = "subif_index" ∨ x = "vlan.access_id"
  last : sep.getLast? = some c
  digit : c.isDigit = false
  free : charFree c (some d.phys) = true ∧ charFree c d.lag = true

theorem subOk_shape {d : NameDev} {t : String} (h : subOk d = true) (ht : d.subif = some t) : Nonempty (SubShape d t) := by
  unfold subOk at h
  rw [ht] at h
  dsimp only at h
  split at h
  · next r hr =>
    cases hh : litHead r with
    | mk s r1 =>
      rw [hh] at h
      split at h
      · next s' x heq =>
        cases heq
        simp only [Bool.and_eq_true, Bool.or_eq_true, beq_iff_eq] at h
        obtain ⟨hx, h⟩ := h
        split at h
        · next c hc =>
          simp only [Bool.and_eq_true, Bool.not_eq_true'] at h
          refine ⟨⟨s, x, c, ?_, hx, hc, h.1.1, h.1.2, h.2⟩⟩
          have := litHead_spec r
          rw [hh] at this
          dsimp only at this
          rw [hr, this]
        · cases h
      · cases h
  · cases h

theorem subif_some {d : NameDev} {l : Bool} {p s v : Nat} {n : String} (h : ifName d (.subif l p s v) = some n) :
    ∃ pn t, parentName d l p = some pn ∧ d.subif = some t ∧
      evalFormat t [("ifname", .text pn), ("subif_index", .num s), ("vlan.access_id", .num v)] = some n := by
  simp only [ifName] at h
  cases hp : parentName d l p with
  | none => rw [hp] at h; cases h
  | some pn =>
    rw [hp] at h
    obtain ⟨t, h1, h2⟩ := optFormat_some h
    exact ⟨pn, t, rfl, h1, h2⟩

theorem subif_name {d : NameDev} (h : subOk d = true) {l : Bool} {p s v : Nat} {n : String} (hn : ifName d (.subif l p s v) = some n) :
    ∃ pn t, ∃ sh : SubShape d t, parentName d l p = some pn ∧ d.subif = some t ∧
      n.toList = pn.toList ++ (sh.sep ++ (if sh.x = "subif_index" then s else v).repr.toList) := by
  obtain ⟨pn, t, h1, h2, h3⟩ := subif_some hn
  obtain ⟨sh⟩ := subOk_shape h h2
  refine ⟨pn, t, sh, h1, h2, ?_⟩
  unfold evalFormat at h3
  rw [sh.split] at h3
  dsimp only at h3
  simp only [fmtSegs] at h3
  rw [fmtSegs_append, fmtSegs_lits] at h3
  have e1 : fmtSeg [("ifname", FmtVal.text pn), ("subif_index", .num s), ("vlan.access_id", .num v)] (.var "ifname" .id) = some pn.toList := by
    simp [fmtSeg, List.lookup]
  have e2 : fmtSegs [("ifname", FmtVal.text pn), ("subif_index", .num s), ("vlan.access_id", .num v)] [.var sh.x .id] =
      some (if sh.x = "subif_index" then s else v).repr.toList := by
    rcases sh.var with hx | hx <;> rw [hx] <;> simp [fmtSegs, fmtSeg, List.lookup, fmtNum]
  rw [e1, e2] at h3
  simp only [Option.map_some, Option.some.injEq] at h3
  rw [← h3, String.toList_ofList]

/-- Every name begins with the literal text of its template. -/
theorem kind_prefix {d : NameDev} (h : subOk d = true) {k : IfKind} {s : String} (hs : ifName d k = some s) :
    ∃ t, (NameDev.templates d)[kindClass k]? = some (some t) ∧ litPrefix t <+: s.toList := by
  cases k with
  | phys i =>
    obtain ⟨t, h1, h2⟩ := parentName_some (show parentName d false i = some s from hs)
    exact ⟨t, h1, name_prefix h2⟩
  | lag i =>
    obtain ⟨t, h1, h2⟩ := parentName_some (show parentName d true i = some s from hs)
    exact ⟨t, h1, name_prefix h2⟩
  | loop i =>
    obtain ⟨t, h1, h2⟩ := optFormat_some (show optFormat d.loop _ = some s from hs)
    exact ⟨t, by show some d.loop = _; rw [h1], name_prefix h2⟩
  | tunnel i =>
    obtain ⟨t, h1, h2⟩ := optFormat_some (show optFormat d.tunnel _ = some s from hs)
    exact ⟨t, by show some d.tunnel = _; rw [h1], name_prefix h2⟩
  | svi v b =>
    obtain ⟨t, h1, h2⟩ := optFormat_some (show optFormat d.svi _ = some s from hs)
    exact ⟨t, by show some d.svi = _; rw [h1], name_prefix h2⟩
  | subif l p x v =>
    obtain ⟨pn, t, sh, h1, h2, h3⟩ := subif_name h hs
    obtain ⟨t', a1, a2⟩ := parentName_some h1
    refine ⟨t', a1, ?_⟩
    rw [h3]
    exact (name_prefix a2).trans (List.prefix_append _ _)

theorem class_lt (k : IfKind) : kindClass k < 5 := by
  cases k with
  | subif l p s v => cases l <;> simp [kindClass]
  | _ => simp [kindClass]

theorem class_eq {d : NameDev} (ho : namesOk d = true) {k1 k2 : IfKind} {s : String} (h1 : ifName d k1 = some s) (h2 : ifName d k2 = some s) :
    kindClass k1 = kindClass k2 := by
  unfold namesOk at ho
  simp only [Bool.and_eq_true] at ho
  obtain ⟨⟨_, hp⟩, hs⟩ := ho
  by_cases hc : kindClass k1 = kindClass k2
  · exact hc
  · exfalso
    obtain ⟨t1, a1, a2⟩ := kind_prefix hs h1
    obtain ⟨t2, b1, b2⟩ := kind_prefix hs h2
    unfold prefixesOk at hp
    have := List.all_eq_true.1 (List.all_eq_true.1 hp (kindClass k1) (List.mem_range.2 (class_lt k1))) (kindClass k2) (List.mem_range.2 (class_lt k2))
    rw [a1, b1] at this
    simp only [Bool.or_eq_true, beq_iff_eq] at this
    rcases this with h | h
    · exact hc h
    · exact apart_ne h a2 b2 rfl

theorem parent_inj {d : NameDev} (ho : namesOk d = true) {l : Bool} {i j : Nat} {s : String} (h1 : parentName d l i = some s) (h2 : parentName d l j = some s)
    (hi : l = false → d.offset ≤ i ∧ d.offset ≤ j) : i = j := by
  unfold namesOk at ho
  simp only [Bool.and_eq_true] at ho
  obtain ⟨⟨⟨⟨⟨⟨o1, o2⟩, o3⟩, o4⟩, o5⟩, hp⟩, hs⟩ := ho
  cases l with
  | false =>
    obtain ⟨v, hv, h⟩ := tmpl_inj o1 (show evalFormat d.phys [("ifindex", .num i)] = some s from h1) (show evalFormat d.phys [("ifindex", .num j)] = some s from h2)
    rw [List.mem_singleton] at hv
    subst hv
    exact h i j rfl rfl (hi rfl).1 (hi rfl).2
  | true =>
    obtain ⟨t, a1, a2⟩ := optFormat_some (show optFormat d.lag [("lag.ifindex", .num i)] = some s from h1)
    obtain ⟨t', b1, b2⟩ := optFormat_some (show optFormat d.lag [("lag.ifindex", .num j)] = some s from h2)
    rw [a1] at b1 o4
    cases b1
    obtain ⟨v, hv, h⟩ := tmpl_inj o4 a2 b2
    rw [List.mem_singleton] at hv
    subst hv
    exact h i j rfl rfl (Nat.zero_le _) (Nat.zero_le _)

theorem sep_not_parent {d : NameDev} {t : String} (sh : SubShape d t) {l : Bool} {i : Nat} {s : String} (h : parentName d l i = some s) : sh.c ∉ s.toList := by
  obtain ⟨t', h1, h2⟩ := parentName_some h
  refine char_free sh.digit (t := t') ?_ ?_ h2
  · cases l with
    | false => cases h1; exact sh.free.1
    | true =>
      have : d.lag = some t' := by simpa [NameDev.templates] using h1
      rw [← this]
      exact sh.free.2
  · intro v x hx
    cases l with
    | false =>
      simp only [Bool.false_eq_true, if_false, List.lookup] at hx
      split at hx
      · cases hx; exact ⟨i, rfl⟩
      · cases hx
    | true =>
      simp only [if_true, List.lookup] at hx
      split at hx
      · cases hx; exact ⟨i, rfl⟩
      · cases hx

theorem sub_not_parent {d : NameDev} (ho : namesOk d = true) {l l' : Bool} {p x v i : Nat} {s : String} (h1 : ifName d (.subif l p x v) = some s)
    (h2 : parentName d l' i = some s) : False := by
  unfold namesOk at ho
  simp only [Bool.and_eq_true] at ho
  obtain ⟨pn, t, sh, a1, a2, a3⟩ := subif_name ho.2 h1
  apply sep_not_parent sh h2
  rw [a3]
  have : sh.c ∈ sh.sep := List.mem_of_getLast? sh.last
  simp [this]

/-- **C118**: two interfaces of a device with checked name templates never have the same name. -/
theorem C118_unique (d : NameDev) (ho : namesOk d = true) (k1 k2 : IfKind) (u1 : UsableIf d k1) (u2 : UsableIf d k2) (s : String) (h1 : ifName d k1 = some s)
    (h2 : ifName d k2 = some s) : SameIntf k1 k2 := by
  have hc := class_eq ho h1 h2
  have ho' := ho
  unfold namesOk at ho'
  simp only [Bool.and_eq_true] at ho'
  obtain ⟨⟨⟨⟨⟨⟨o1, o2⟩, o3⟩, o4⟩, o5⟩, hp⟩, hs⟩ := ho'
  cases k1 with
  | phys i =>
    cases k2 with
    | phys j => exact parent_inj ho (l := false) h1 h2 (fun _ => ⟨u1, u2⟩)
    | subif l p x v => exact (sub_not_parent ho h2 (l' := false) h1).elim
    | _ => cases hc
  | lag i =>
    cases k2 with
    | lag j => exact parent_inj ho (l := true) h1 h2 (fun h => by cases h)
    | subif l p x v => exact (sub_not_parent ho h2 (l' := true) h1).elim
    | _ => cases hc
  | loop i =>
    cases k2 with
    | loop j =>
      obtain ⟨t, a1, a2⟩ := optFormat_some (show optFormat d.loop _ = some s from h1)
      obtain ⟨t', b1, b2⟩ := optFormat_some (show optFormat d.loop _ = some s from h2)
      rw [a1] at b1 o2
      cases b1
      obtain ⟨v, hv, h⟩ := tmpl_inj o2 a2 b2
      rw [List.mem_singleton] at hv
      subst hv
      exact h i j rfl rfl (Nat.zero_le _) (Nat.zero_le _)
    | subif l p x v => cases l <;> cases hc
    | _ => cases hc
  | tunnel i =>
    cases k2 with
    | tunnel j =>
      obtain ⟨t, a1, a2⟩ := optFormat_some (show optFormat d.tunnel _ = some s from h1)
      obtain ⟨t', b1, b2⟩ := optFormat_some (show optFormat d.tunnel _ = some s from h2)
      rw [a1] at b1 o3
      cases b1
      obtain ⟨v, hv, h⟩ := tmpl_inj o3 a2 b2
      rw [List.mem_singleton] at hv
      subst hv
      exact h i j rfl rfl (Nat.zero_le _) (Nat.zero_le _)
    | subif l p x v => cases l <;> cases hc
    | _ => cases hc
  | svi v b =>
    cases k2 with
    | svi v' b' =>
      obtain ⟨t, a1, a2⟩ := optFormat_some (show optFormat d.svi _ = some s from h1)
      obtain ⟨t', b1, b2⟩ := optFormat_some (show optFormat d.svi _ = some s from h2)
      rw [a1] at b1 o5
      cases b1
      obtain ⟨x, hx, h⟩ := tmpl_inj o5 a2 b2
      simp only [List.mem_cons, List.not_mem_nil, or_false] at hx
      rcases hx with rfl | rfl
      · exact Or.inl (h v v' rfl rfl (Nat.zero_le _) (Nat.zero_le _))
      · exact Or.inr (h b b' rfl rfl (Nat.zero_le _) (Nat.zero_le _))
    | subif l p x v => cases l <;> cases hc
    | _ => cases hc
  | subif l p x v =>
    cases k2 with
    | phys j => exact (sub_not_parent ho h1 (l' := false) h2).elim
    | lag j => exact (sub_not_parent ho h1 (l' := true) h2).elim
    | subif l' p' x' v' =>
      have hl : l = l' := by cases l <;> cases l' <;> first | rfl | cases hc
      subst hl
      obtain ⟨pn, t, sh, a1, a2, a3⟩ := subif_name hs h1
      obtain ⟨pn', t', sh', b1, b2, b3⟩ := subif_name hs h2
      rw [a2] at b2
      cases b2
      have hsep : sh.sep = sh'.sep ∧ sh.x = sh'.x := by
        have h := sh.split.symm.trans sh'.split
        simp only [Option.some.injEq, List.cons.injEq, true_and] at h
        obtain ⟨q1, q2⟩ := List.append_inj' h rfl
        refine ⟨?_, ?_⟩
        · exact List.map_injective_iff.2 (fun a b h => by cases h; rfl) q1
        · simpa using q2
      rw [a3, ← hsep.1, ← hsep.2] at b3
      rw [← List.append_assoc, ← List.append_assoc] at b3
      have hlast : ∀ q : List Char, ∀ c ∈ (q ++ sh.sep).getLast?, c.isDigit = false := by
        intro q c hcm
        rw [List.getLast?_append, sh.last] at hcm
        simp only [Option.some_or, Option.mem_def, Option.some.injEq] at hcm
        rw [← hcm]
        exact sh.digit
      obtain ⟨e1, e2⟩ := number_end (hlast _) (hlast _) b3
      have e3 := String.toList_injective (List.append_cancel_right e1)
      subst e3
      refine ⟨rfl, ?_, ?_⟩
      · refine parent_inj ho a1 b1 ?_
        rintro rfl
        exact ⟨u1, u2⟩
      · split at e2
        · exact Or.inl e2
        · exact Or.inr e2
    | loop j => cases l <;> cases hc
    | tunnel j => cases l <;> cases hc
    | svi w b => cases l <;> cases hc

/-- Name templates of all devices and daemons are fine. -/
theorem table_ok : ∀ d ∈ nameTable, namesOk d = true := by decide +kernel

theorem table_mgmt : ∀ d ∈ nameTable, mgmtOk d = true := by decide +kernel

theorem table_prev : ∀ d ∈ nameTable, tmplInjective ["ifindex"] (d.offset - 1) (some d.phys) = true := by decide +kernel

theorem table_clab : ∀ d ∈ nameTable, clabOk d = true := by decide +kernel

/-- **C118**: on every supported device two different interfaces have different names. -/
theorem C118_devices (d : NameDev) (hd : d ∈ nameTable) (k1 k2 : IfKind) (u1 : UsableIf d k1) (u2 : UsableIf d k2) (h : ¬ SameIntf k1 k2) (s : String)
    (h1 : ifName d k1 = some s) : ifName d k2 ≠ some s :=
  fun h2 => h (C118_unique d (table_ok d hd) k1 k2 u1 u2 s h1 h2)

/-! ### Every supported interface has a name -/

theorem fmtNum_some {off n : Nat} {op : FmtOp} (h : opInjective off op = true) : ∃ s, fmtNum n op = some s := by
  cases op <;> first | exact ⟨_, rfl⟩ | cases h

theorem segs_named {v : String} {off : Nat} {l : List FmtSeg} (hl : segsInjective v off l = true) {data : List (String × FmtVal)} {n : Nat}
    (h : data.lookup v = some (.num n)) : ∃ s, fmtSegs data l = some s := by
  rw [fmtSegs_head data l]
  unfold segsInjective at hl
  cases hh : litHead l with
  | mk a r0 =>
    rw [hh] at hl
    dsimp only at hl ⊢
    suffices hx : ∃ t, fmtSegs data r0 = some t by
      obtain ⟨t, ht⟩ := hx
      rw [ht]
      exact ⟨_, rfl⟩
    match r0, hl with
    | .var x op :: r, hl =>
      simp only [Bool.and_eq_true, beq_iff_eq] at hl
      obtain ⟨rfl, hl⟩ := hl
      simp only [fmtSegs, fmtSeg_num h]
      rw [fmtSegs_head data r]
      cases hr : litHead r with
      | mk b r1 =>
        rw [hr] at hl
        match b, r1, hl with
        | b, [], hl =>
          have hl' : opInjective off op = true := by cases b <;> exact hl
          obtain ⟨s, hs⟩ := fmtNum_some (n := n) hl'
          rw [hs]
          exact ⟨_, rfl⟩
        | c :: b, .var y (.mod k) :: r2, hl =>
          simp only [Bool.and_eq_true, beq_iff_eq, decide_eq_true_eq, Bool.not_eq_true', List.isEmpty_iff] at hl
          obtain ⟨⟨⟨⟨hy, hop⟩, hk⟩, hcd⟩, hr2⟩ := hl
          subst hy
          subst hop
          simp only [fmtSegs, fmtSeg_num h, fmtNum, if_neg hk, Option.map_some]
          rw [fmtSegs_head data r2, hr2]
          exact ⟨_, rfl⟩

theorem tmpl_named {vs : List String} {off : Nat} {t : String} (ht : tmplInjective vs off (some t) = true) {data : List (String × FmtVal)}
    (hv : ∀ v ∈ vs, ∃ n, data.lookup v = some (.num n)) : ∃ s, evalFormat t data = some s := by
  unfold tmplInjective at ht
  unfold evalFormat
  dsimp only at ht
  cases hl : fmtSplit none t.toList with
  | none => rw [hl] at ht; cases ht
  | some l =>
    rw [hl] at ht
    dsimp only at ht ⊢
    obtain ⟨v, hm, hi⟩ := List.any_eq_true.1 ht
    obtain ⟨n, hn⟩ := hv v hm
    obtain ⟨s, hs⟩ := segs_named hi hn
    rw [hs]
    exact ⟨_, rfl⟩

/-- **C118**: every interface the device supports gets a name. -/
theorem C118_named (d : NameDev) (hd : d ∈ nameTable) (k : IfKind) (hk : Supported d k) : ∃ s, ifName d k = some s := by
  have ho := table_ok d hd
  unfold namesOk at ho
  simp only [Bool.and_eq_true] at ho
  obtain ⟨⟨⟨⟨⟨⟨o1, o2⟩, o3⟩, o4⟩, o5⟩, hp⟩, hs⟩ := ho
  have hpar : ∀ l i, (l = true → d.lag ≠ none) → ∃ s, parentName d l i = some s := by
    intro l i hl
    cases l with
    | false => exact tmpl_named o1 (fun v hv => by rw [List.mem_singleton] at hv; subst hv; exact ⟨i, rfl⟩)
    | true =>
      cases hlag : d.lag with
      | none => exact absurd hlag (hl rfl)
      | some t =>
        rw [hlag] at o4
        obtain ⟨s, hs⟩ := tmpl_named o4 (data := [("lag.ifindex", .num i)]) (fun v hv => by rw [List.mem_singleton] at hv; subst hv; exact ⟨i, rfl⟩)
        exact ⟨s, by simp only [parentName, if_true, hlag]; exact hs⟩
  cases k with
  | phys i => exact hpar false i (by intro h; cases h)
  | lag i => exact hpar true i (fun _ => hk)
  | loop i =>
    cases h : d.loop with
    | none => exact absurd h hk
    | some t =>
      rw [h] at o2
      obtain ⟨s, hs⟩ := tmpl_named o2 (data := [("ifindex", .num i)]) (fun v hv => by rw [List.mem_singleton] at hv; subst hv; exact ⟨i, rfl⟩)
      exact ⟨s, by simp only [ifName, h]; exact hs⟩
  | tunnel i =>
    cases h : d.tunnel with
    | none => exact absurd h hk
    | some t =>
      rw [h] at o3
      obtain ⟨s, hs⟩ := tmpl_named o3 (data := [("ifindex", .num i)]) (fun v hv => by rw [List.mem_singleton] at hv; subst hv; exact ⟨i, rfl⟩)
      exact ⟨s, by simp only [ifName, h]; exact hs⟩
  | svi v b =>
    cases h : d.svi with
    | none => exact absurd h hk
    | some t =>
      rw [h] at o5
      obtain ⟨s, hs⟩ := tmpl_named o5 (data := [("vlan", .num v), ("bvi", .num b)]) (by
        intro x hx
        simp only [List.mem_cons, List.not_mem_nil, or_false] at hx
        rcases hx with rfl | rfl
        · exact ⟨v, rfl⟩
        · exact ⟨b, rfl⟩)
      exact ⟨s, by simp only [ifName, h]; exact hs⟩
  | subif l p x v =>
    obtain ⟨pn, hpn⟩ := hpar l p hk.2
    cases h : d.subif with
    | none => exact absurd h hk.1
    | some t =>
      obtain ⟨sh⟩ := subOk_shape hs h
      simp only [ifName, hpn, h, optFormat, evalFormat, sh.split]
      simp only [fmtSegs]
      rw [fmtSegs_append, fmtSegs_lits]
      have e1 : fmtSeg [("ifname", FmtVal.text pn), ("subif_index", .num x), ("vlan.access_id", .num v)] (.var "ifname" .id) = some pn.toList := by
        simp [fmtSeg, List.lookup]
      have e2 : fmtSegs [("ifname", FmtVal.text pn), ("subif_index", .num x), ("vlan.access_id", .num v)] [.var sh.x .id] =
          some (if sh.x = "subif_index" then x else v).repr.toList := by
        rcases sh.var with hx | hx <;> rw [hx] <;> simp [fmtSegs, fmtSeg, List.lookup, fmtNum]
      rw [e1, e2]
      exact ⟨_, rfl⟩

/-! ### Management interface -/

/-- **C118**: the management interface never has the name of an interface used in the lab. -/
theorem C118_mgmt (d : NameDev) (hd : d ∈ nameTable) (k : IfKind) (u : UsableIf d k) (m : String) (hm : mgmtName d = some m) : ifName d k ≠ some m := by
  intro hk
  have ho := table_ok d hd
  have hmo := table_mgmt d hd
  have hprev : 1 ≤ d.offset → ifName d (.phys (d.offset - 1)) = some m → False := by
    intro h1 h2
    have hc := class_eq ho hk h2
    cases k with
    | phys i =>
      obtain ⟨t, a1, a2⟩ := parentName_some (show parentName d false i = some m from hk)
      have ho2 : tmplInjective ["ifindex"] (d.offset - 1) (some d.phys) = true := table_prev d hd
      obtain ⟨v, hv, h⟩ := tmpl_inj ho2 (show evalFormat d.phys [("ifindex", .num i)] = some m from hk)
        (show evalFormat d.phys [("ifindex", .num (d.offset - 1))] = some m from h2)
      rw [List.mem_singleton] at hv
      subst hv
      have hu : d.offset ≤ i := u
      have := h i (d.offset - 1) rfl rfl (by omega) (Nat.le_refl _)
      omega
    | subif l p x v => exact sub_not_parent ho hk (l' := false) h2
    | _ => cases hc
  unfold mgmtName at hm
  unfold mgmtOk at hmo
  cases h : d.mgmt with
  | none =>
    rw [h] at hm hmo
    simp only [decide_eq_true_eq] at hmo
    exact hprev hmo hm
  | some m' =>
    rw [h] at hm hmo
    simp only [Option.some.injEq] at hm
    subst hm
    simp only [Bool.or_eq_true, Bool.and_eq_true, decide_eq_true_eq, beq_iff_eq] at hmo
    rcases hmo with hmo | hmo
    · exact hprev hmo.1 hmo.2
    · have hs : subOk d = true := by
        unfold namesOk at ho
        simp only [Bool.and_eq_true] at ho
        exact ho.2
      obtain ⟨t, a1, a2⟩ := kind_prefix hs hk
      have := List.all_eq_true.1 hmo (some t) (List.mem_of_getElem? a1)
      exact apart_ne this (List.prefix_refl _) a2 rfl

/-! ### The whole lab -/

/-- The interface created from a link. -/
def kindOf (b : NodeIf) : IfKind :=
  if b.ty = some "loopback" then .loop (b.ifindex - 10000).toNat
  else if b.ty = some "tunnel" then .tunnel (b.ifindex - 20000).toNat
  else .phys b.ifindex.toNat

theorem table_offset : ∀ d ∈ nameTable, d.offset ≤ 9000 := by decide +kernel

/-- Name and index of a created interface. -/
theorem created_name {devs : String → NameDev} (hd : ∀ n, devs n ∈ nameTable) {lo mtu : String → Option Int} {sys : String → Bool}
    (hlo : ∀ n, 0 ≤ (lo n).getD 0 ∧ (lo n).getD 0 ≤ 9000) {ls : List LinkReq} {r : List NodeIf}
    (h : createInterfaces (fun n => nodeDevOf (devs n) (lo n) (mtu n) (sys n)) [] ls = (r, true))
    (hreq : ∀ l n q, (l, n, q) ∈ flatReqs ls → q.ifname = none ∧ q.ty ≠ some "lag" ∧ q.ty ≠ some "svi" ∧ ∀ x, q.ifindex = some x → IndexInRange q.ty x)
    (k : Nat) (b : NodeIf) (hk : r[k]? = some b) :
    IndexInRange b.ty b.ifindex ∧ UsableIf (devs b.node) (kindOf b) ∧ ∃ s, b.ifname = some s ∧ ifName (devs b.node) (kindOf b) = some s := by
  have hdev : ∀ n, 0 ≤ ((fun n => nodeDevOf (devs n) (lo n) (mtu n) (sys n)) n).ifOffset.getD 1 ∧
      ((fun n => nodeDevOf (devs n) (lo n) (mtu n) (sys n)) n).ifOffset.getD 1 ≤ 9000 ∧
      0 ≤ ((fun n => nodeDevOf (devs n) (lo n) (mtu n) (sys n)) n).loOffset.getD 0 ∧
      ((fun n => nodeDevOf (devs n) (lo n) (mtu n) (sys n)) n).loOffset.getD 0 ≤ 9000 := by
    intro n
    have := table_offset _ (hd n)
    simp only [nodeDevOf, Option.getD_some]
    exact ⟨by omega, by omega, hlo n⟩
  obtain ⟨-, hc⟩ := created_req h
  obtain ⟨l, n, q, hq, hs, hok⟩ := hc k b hk
  obtain ⟨r1, r2, r3, r4⟩ := hreq l n q (List.mem_of_getElem? hq)
  have hty : b.ty = q.ty := by
    have := (newInterface_index hok).2.1
    rw [← hs] at this; exact this
  have hnode : b.node = n := by
    have := (newInterface_index hok).1
    rw [← hs] at this; exact this
  have hrange : IndexInRange b.ty b.ifindex := by
    cases hx : q.ifindex with
    | none => exact (C10_index_range _ ls r h hdev k b hk l n q hq hx).1
    | some x =>
      rw [(C10_static_index_kept _ ls r h k b hk l n q hq x hx).2, hty]
      exact r4 x hx
  refine ⟨hrange, ?_⟩
  have hi : b.ifindex = (ifIdent (nodeDevOf (devs n) (lo n) (mtu n) (sys n)) ((r.take k).filter (fun i => i.node == n)) q).1 := congrArg NodeIf.ifindex hs
  have hf : b.ifname = (ifIdent (nodeDevOf (devs n) (lo n) (mtu n) (sys n)) ((r.take k).filter (fun i => i.node == n)) q).2.1 := congrArg NodeIf.ifname hs
  have ho : (ifIdent (nodeDevOf (devs n) (lo n) (mtu n) (sys n)) ((r.take k).filter (fun i => i.node == n)) q).2.2 = true := hok
  rw [hnode]
  by_cases hl : b.ty = some "loopback"
  · have hk1 : kindOf b = .loop (b.ifindex - 10000).toNat := by unfold kindOf; rw [if_pos hl]
    rw [hk1]
    refine ⟨trivial, ?_⟩
    have e1 : q.ty = some "loopback" := hty ▸ hl
    have e2 : ∀ ifs, ifIdent (nodeDevOf (devs n) (lo n) (mtu n) (sys n)) ifs q = virtualIf (nodeDevOf (devs n) (lo n) (mtu n) (sys n)) ifs "loopback" q := by
      intro ifs
      unfold ifIdent
      rw [e1]
      rfl
    rw [e2] at hi hf ho
    unfold virtualIf at hi hf ho
    rw [r1] at hi hf ho
    dsimp only at hi hf ho
    cases hv : (nodeDevOf (devs n) (lo n) (mtu n) (sys n)).virtFormat "loopback" with
    | none => rw [hv] at ho; cases ho
    | some f =>
      rw [hv] at hi hf ho
      dsimp only at hi hf ho
      rw [← hi] at hf
      have hlp : (devs n).loop ≠ none := by
        intro hno
        simp [nodeDevOf, hno] at hv
      obtain ⟨s, hs⟩ := C118_named (devs n) (hd n) (.loop (b.ifindex - 10000).toNat) hlp
      refine ⟨s, ?_, hs⟩
      rw [hf]
      simp only [nodeDevOf, if_true, Option.map_eq_some_iff] at hv
      obtain ⟨_, _, rfl⟩ := hv
      have : virtOffset "loopback" = 10000 := by decide
      rw [this]
      dsimp only
      rw [hs]
      rfl
  · by_cases ht : b.ty = some "tunnel"
    · have hk1 : kindOf b = .tunnel (b.ifindex - 20000).toNat := by unfold kindOf; rw [if_neg hl, if_pos ht]
      rw [hk1]
      refine ⟨trivial, ?_⟩
      have e1 : q.ty = some "tunnel" := hty ▸ ht
      have e2 : ∀ ifs, ifIdent (nodeDevOf (devs n) (lo n) (mtu n) (sys n)) ifs q = virtualIf (nodeDevOf (devs n) (lo n) (mtu n) (sys n)) ifs "tunnel" q := by
        intro ifs
        unfold ifIdent
        rw [e1]
        rfl
      rw [e2] at hi hf ho
      unfold virtualIf at hi hf ho
      rw [r1] at hi hf ho
      dsimp only at hi hf ho
      cases hv : (nodeDevOf (devs n) (lo n) (mtu n) (sys n)).virtFormat "tunnel" with
      | none => rw [hv] at ho; cases ho
      | some f =>
        rw [hv] at hi hf ho
        dsimp only at hi hf ho
        rw [← hi] at hf
        have hlp : (devs n).tunnel ≠ none := by
          intro hno
          simp [nodeDevOf, hno] at hv
        obtain ⟨s, hs⟩ := C118_named (devs n) (hd n) (.tunnel (b.ifindex - 20000).toNat) hlp
        refine ⟨s, ?_, hs⟩
        rw [hf]
        simp only [nodeDevOf, (by decide : ("tunnel" = "loopback") = False), if_false, if_true, Option.map_eq_some_iff] at hv
        obtain ⟨_, _, rfl⟩ := hv
        have : virtOffset "tunnel" = 20000 := by decide
        rw [this]
        dsimp only
        rw [hs]
        rfl
    · have hk1 : kindOf b = .phys b.ifindex.toNat := by unfold kindOf; rw [if_neg hl, if_neg ht]
      rw [hk1]
      have hv : isVirtual q.ty = false := by
        rw [hty] at hl ht
        simp [isVirtual, virtualTypes, hl, ht, r2, r3]
      have e2 : ∀ ifs, ifIdent (nodeDevOf (devs n) (lo n) (mtu n) (sys n)) ifs q = regularIf (nodeDevOf (devs n) (lo n) (mtu n) (sys n)) ifs q := by
        intro ifs
        unfold ifIdent
        cases hq : q.ty with
        | none => rfl
        | some t =>
          rw [hq] at hv
          dsimp only
          rw [if_neg (by rw [hv]; decide)]
      have hv' : isVirtual b.ty = false := by rw [hty]; exact hv
      have hge : ((devs n).offset : Int) ≤ b.ifindex := by
        cases hx : q.ifindex with
        | none => exact (C10_index_range _ ls r h hdev k b hk l n q hq hx).2 hv'
        | some x =>
          rw [e2] at ho hi
          simp only [regularIf, hx, decide_eq_true_eq] at ho hi
          rw [hi]
          exact ho
      refine ⟨show (devs n).offset ≤ b.ifindex.toNat by omega, ?_⟩
      obtain ⟨s, hs⟩ := C118_named (devs n) (hd n) (.phys b.ifindex.toNat) trivial
      refine ⟨s, ?_, hs⟩
      rw [e2] at hf hi
      simp only [regularIf, r1] at hf hi
      rw [← hi] at hf
      rw [hf]
      simp only [nodeDevOf, Option.map_some, hs, Option.getD_some]

/-- **C118**: interfaces of a node created from links (physical, loopback and tunnel interfaces) have different names unless the user
specified an interface index that's already used. -/
theorem C118_lab (devs : String → NameDev) (hd : ∀ n, devs n ∈ nameTable) (lo mtu : String → Option Int) (sys : String → Bool)
    (hlo : ∀ n, 0 ≤ (lo n).getD 0 ∧ (lo n).getD 0 ≤ 9000) (ls : List LinkReq) (r : List NodeIf)
    (h : createInterfaces (fun n => nodeDevOf (devs n) (lo n) (mtu n) (sys n)) [] ls = (r, true))
    (hreq : ∀ l n q, (l, n, q) ∈ flatReqs ls → q.ifname = none ∧ q.ty ≠ some "lag" ∧ q.ty ≠ some "svi" ∧ ∀ x, q.ifindex = some x → IndexInRange q.ty x)
    (j k : Nat) (a b : NodeIf) (hjk : j < k) (hj : r[j]? = some a) (hk : r[k]? = some b) (hn : a.node = b.node) (hs : a.ifname = b.ifname) :
    ∃ l n q, (flatReqs ls)[k]? = some (l, n, q) ∧ q.ifindex = some b.ifindex := by
  obtain ⟨ra, ua, s, na, fa⟩ := created_name hd hlo h hreq j a hj
  obtain ⟨rb, ub, s', nb, fb⟩ := created_name hd hlo h hreq k b hk
  rw [na, nb] at hs
  cases hs
  rw [hn] at ua fa
  have hsame := C118_unique (devs b.node) (table_ok _ (hd _)) (kindOf a) (kindOf b) ua ub s fa fb
  have hlast : a.ifindex = b.ifindex := by
    unfold kindOf at hsame
    unfold IndexInRange at ra rb
    by_cases a1 : a.ty = some "loopback"
    · rw [if_pos a1] at hsame
      rw [if_pos a1] at ra
      by_cases b1 : b.ty = some "loopback"
      · rw [if_pos b1] at hsame rb
        have : (a.ifindex - 10000).toNat = (b.ifindex - 10000).toNat := hsame
        omega
      · rw [if_neg b1] at hsame
        split at hsame <;> exact hsame.elim
    · rw [if_neg a1] at hsame ra
      by_cases a2 : a.ty = some "tunnel"
      · rw [if_pos a2] at hsame ra
        by_cases b1 : b.ty = some "loopback"
        · rw [if_pos b1] at hsame
          exact hsame.elim
        · rw [if_neg b1] at hsame rb
          by_cases b2 : b.ty = some "tunnel"
          · rw [if_pos b2] at hsame rb
            have : (a.ifindex - 20000).toNat = (b.ifindex - 20000).toNat := hsame
            omega
          · rw [if_neg b2] at hsame
            exact hsame.elim
      · rw [if_neg a2] at hsame ra
        by_cases b1 : b.ty = some "loopback"
        · rw [if_pos b1] at hsame
          exact hsame.elim
        · rw [if_neg b1] at hsame rb
          by_cases b2 : b.ty = some "tunnel"
          · rw [if_pos b2] at hsame
            exact hsame.elim
          · rw [if_neg b2] at hsame rb
            have hx : a.ifindex.toNat = b.ifindex.toNat := hsame
            have pa : 0 ≤ a.ifindex := by split at ra <;> [omega; (split at ra <;> omega)]
            have pb : 0 ≤ b.ifindex := by split at rb <;> [omega; (split at rb <;> omega)]
            omega
  refine C10_unique_unless_static _ ls r h ?_ (fun l n q x hm hx => (hreq l n q hm).2.2.2 x hx) j k a b hjk hj hk hn hlast
  intro n
  have := table_offset _ (hd n)
  simp only [nodeDevOf, Option.getD_some]
  exact ⟨by omega, by omega, hlo n⟩

/-- **C118**: none of these names is the name of the management interface. -/
theorem C118_lab_mgmt (devs : String → NameDev) (hd : ∀ n, devs n ∈ nameTable) (lo mtu : String → Option Int) (sys : String → Bool)
    (hlo : ∀ n, 0 ≤ (lo n).getD 0 ∧ (lo n).getD 0 ≤ 9000) (ls : List LinkReq) (r : List NodeIf)
    (h : createInterfaces (fun n => nodeDevOf (devs n) (lo n) (mtu n) (sys n)) [] ls = (r, true))
    (hreq : ∀ l n q, (l, n, q) ∈ flatReqs ls → q.ifname = none ∧ q.ty ≠ some "lag" ∧ q.ty ≠ some "svi" ∧ ∀ x, q.ifindex = some x → IndexInRange q.ty x)
    (b : NodeIf) (hb : b ∈ r) : b.ifname ≠ none ∧ b.ifname ≠ mgmtName (devs b.node) := by
  obtain ⟨k, hk⟩ := List.mem_iff_getElem?.1 hb
  obtain ⟨rb, ub, s, nb, fb⟩ := created_name hd hlo h hreq k b hk
  refine ⟨by rw [nb]; simp, ?_⟩
  intro he
  rw [nb] at he
  exact C118_mgmt _ (hd _) _ ub s he.symm fb

/-! ### Containers -/

/-- **C118**: names of interfaces of a container are different, and none of them is `eth0`, the management interface of the
container. -/
theorem C118_container (d : NameDev) (hd : d ∈ nameTable) (i j : Nat) (hi : d.offset ≤ i) (hj : d.offset ≤ j) (s : String) (h1 : clabIfName d i = some s) :
    s ≠ "eth0" ∧ (clabIfName d j = some s → i = j) := by
  have hc := table_clab d hd
  have e : ∀ x, clabIfName d x = evalFormat (d.clab.getD d.phys) [("ifindex", .num x)] := by
    intro x
    unfold clabIfName
    cases d.clab <;> rfl
  rw [e] at h1
  rw [e]
  unfold clabOk at hc
  unfold evalFormat at h1 ⊢
  cases hl : fmtSplit none (d.clab.getD d.phys).toList with
  | none => rw [hl] at hc; cases hc
  | some l =>
    rw [hl] at hc h1
    simp only [Bool.and_eq_true, Bool.or_eq_true] at hc
    obtain ⟨hinj, hno⟩ := hc
    dsimp only at h1 ⊢
    cases q1 : fmtSegs [("ifindex", .num i)] l with
    | none => rw [q1] at h1; cases h1
    | some z =>
      rw [q1] at h1
      simp only [Option.map_some, Option.some.injEq] at h1
      subst h1
      refine ⟨?_, ?_⟩
      · intro he
        have he := congrArg String.toList he
        rw [String.toList_ofList] at he
        rcases hno with hno | hno
        · rw [fmtSegs_head] at q1
          cases q2 : fmtSegs [("ifindex", .num i)] (litHead l).2 with
          | none => rw [q2] at q1; cases q1
          | some w =>
            rw [q2] at q1
            simp only [Option.map_some, Option.some.injEq] at q1
            refine apart_ne hno (a := z) ?_ (List.prefix_refl _) he
            rw [← q1]
            exact List.prefix_append _ _
        · have hz : ∀ n : Nat, 'e' :: 't' :: 'h' :: n.repr.toList = "eth0".toList → n = 0 := by
            intro n hn
            have : n.repr.toList = (0 : Nat).repr.toList := by
              have h0 : "eth0".toList = 'e' :: 't' :: 'h' :: (0 : Nat).repr.toList := by decide
              rw [h0] at hn
              simpa using hn
            exact repr_inj_list this
          split at hno
          · next v =>
            have hv : v = "ifindex" := by
              have h0 := hinj
              simp only [segsInjective, litHead, Bool.and_eq_true, beq_iff_eq] at h0
              exact h0.1
            subst hv
            simp only [fmtSegs, fmtSeg, List.lookup, beq_self_eq_true, fmtNum, Option.map_some, Option.some.injEq, List.cons_append, List.nil_append, List.append_nil] at q1
            rw [← q1] at he
            have h4 : "eth0".toList = 'e' :: 't' :: ['h', '0'] := by decide
            rw [h4] at he
            simp only [List.cons.injEq, true_and] at he
            exact repr_no 'h' (by decide) i (by rw [he]; decide)
          · next v =>
            have hv : v = "ifindex" := by
              have h0 := hinj
              simp only [segsInjective, litHead, Bool.and_eq_true, beq_iff_eq] at h0
              exact h0.1
            subst hv
            simp only [fmtSegs, fmtSeg, List.lookup, beq_self_eq_true, fmtNum, Option.map_some, Option.some.injEq, List.cons_append, List.nil_append, List.append_nil] at q1
            rw [← q1] at he
            have := hz _ he
            simp only [decide_eq_true_eq] at hno
            omega
          · next v k =>
            have hv : v = "ifindex" := by
              have h0 := hinj
              simp only [segsInjective, litHead, Bool.and_eq_true, beq_iff_eq] at h0
              exact h0.1
            subst hv
            simp only [fmtSegs, fmtSeg, List.lookup, beq_self_eq_true, fmtNum, Option.map_some, Option.some.injEq, List.cons_append, List.nil_append, List.append_nil] at q1
            rw [← q1] at he
            have := hz _ he
            simp only [decide_eq_true_eq] at hno
            omega
          · next v k =>
            have hv : v = "ifindex" := by
              have h0 := hinj
              simp only [segsInjective, litHead, Bool.and_eq_true, beq_iff_eq] at h0
              exact h0.1
            subst hv
            simp only [decide_eq_true_eq] at hno
            simp only [fmtSegs, fmtSeg, List.lookup, beq_self_eq_true, fmtNum, Option.map_some, Option.some.injEq, List.cons_append, List.nil_append, List.append_nil,
              if_pos (show k ≤ i by omega)] at q1
            rw [← q1] at he
            have := hz _ he
            omega
          · cases hno
      · intro h2
        cases q2 : fmtSegs [("ifindex", .num j)] l with
        | none => rw [q2] at h2; cases h2
        | some w =>
          rw [q2] at h2
          simp only [Option.map_some, Option.some.injEq] at h2
          have := congrArg String.toList h2
          rw [String.toList_ofList, String.toList_ofList] at this
          subst this
          exact segs_inj hinj (n := i) (m := j) rfl rfl hi hj q1 q2

/-- **C118**: in multilab deployments the host-side names of links to bridges are unique in all labs... -/
theorem C118_veth_multilab (a b i j x y : Nat) (ha : a < 1000) (hb : b < 1000) (n n' f f' : String)
    (h : vethName true ("ml_" ++ a.repr) n i x f = vethName true ("ml_" ++ b.repr) n' j y f') : a = b ∧ i = j ∧ x = y := by
  have hl : ∀ m : Nat, m < 1000 → ("ml_" ++ m.repr).toList.take 6 = ['m', 'l', '_'] ++ m.repr.toList := by
    intro m hm
    have h3 := repr_length m 3 (by decide) (by simpa using hm)
    rw [String.toList_append]
    show List.take 6 (['m', 'l', '_'] ++ m.repr.toList) = _
    rw [List.take_of_length_le]
    simp only [List.length_append, List.length_cons, List.length_nil]
    omega
  have h1 := congrArg String.toList h
  unfold vethName at h1
  simp only [if_true] at h1
  rw [hl a ha, hl b hb] at h1
  simp only [String.toList_append, String.toList_ofList] at h1
  have h2 := number_end (p := ['m', 'l', '_'] ++ a.repr.toList ++ "_".toList ++ i.repr.toList ++ "_".toList)
    (q := ['m', 'l', '_'] ++ b.repr.toList ++ "_".toList ++ j.repr.toList ++ "_".toList) ?_ ?_ h1
  · obtain ⟨e1, e2⟩ := h2
    have e3 := List.append_cancel_right e1
    have h4 := number_end (p := ['m', 'l', '_'] ++ a.repr.toList ++ "_".toList) (q := ['m', 'l', '_'] ++ b.repr.toList ++ "_".toList) ?_ ?_ e3
    · obtain ⟨f1, f2⟩ := h4
      have f3 := List.append_cancel_left (List.append_cancel_right f1)
      exact ⟨repr_inj_list f3, f2, e2⟩
    · intro c hc
      rw [List.getLast?_append] at hc
      simp at hc
      rw [← hc]
      decide
    · intro c hc
      rw [List.getLast?_append] at hc
      simp at hc
      rw [← hc]
      decide
  · intro c hc
    rw [List.getLast?_append] at hc
    simp at hc
    rw [← hc]
    decide
  · intro c hc
    rw [List.getLast?_append] at hc
    simp at hc
    rw [← hc]
    decide

/-- ... and not longer than 15 characters. -/
theorem C118_veth_length (lab n f : String) (i x : Nat) (hi : i < 1000) (hx : x < 10000) : (vethName true lab n i x f).toList.length ≤ 15 := by
  have h1 := repr_length i 3 (by decide) (by simpa using hi)
  have h2 := repr_length x 4 (by decide) (by simpa using hx)
  unfold vethName
  simp only [if_true, String.toList_append, String.toList_ofList, List.length_append, List.length_take]
  have : "_".toList.length = 1 := by decide
  omega

/-- **C118**: without multilab they are unique when node names have at most ten characters. -/
theorem C118_veth (lab n n' f f' : String) (i j x y : Nat) (hn : n.toList.length ≤ 10) (hn' : n'.toList.length ≤ 10) (hf : '_' ∉ f.toList) (hf' : '_' ∉ f'.toList)
    (h : vethName false lab n i x f = vethName false lab n' j y f') : n = n' ∧ f = f' := by
  have h1 := congrArg String.toList h
  unfold vethName at h1
  simp only [Bool.false_eq_true, if_false, String.toList_append, String.toList_ofList, List.take_of_length_le hn, List.take_of_length_le hn'] at h1
  have h2 : n.toList ++ '_' :: f.toList = n'.toList ++ '_' :: f'.toList := by simpa using h1
  have h3 := congrArg List.reverse h2
  simp only [List.reverse_append, List.reverse_cons, List.append_assoc, List.cons_append, List.nil_append] at h3
  obtain ⟨e1, e2⟩ := sep_unique (by simpa using hf) (by simpa using hf') h3
  exact ⟨String.toList_injective (List.reverse_injective e2), String.toList_injective (List.reverse_injective e1)⟩

/-- Defect: nodes with the same first ten characters of the name have the same host-side interface names. -/
theorem C118_veth_clash : vethName false "lab" "leaf-switch-1" 1 1 "eth1" = vethName false "lab" "leaf-switch-2" 2 1 "eth1" := by decide +kernel

/-- A Linux container running FRR. -/
def nmFrr : NameDev :=
  { device := "frr", phys := "eth{ifindex}", loop := some "lo{ifindex if ifindex else \"\"}", tunnel := some "tun{ifindex}",
    lag := some "bond{lag.ifindex}", svi := some "vlan{vlan}", subif := some "{ifname}.{vlan.access_id}", mgmt := some "eth0" }

/-- An interface request. -/
def nmReq (ty name : Option String) : IfReq := ⟨ty, none, name, .missing, .missing, none⟩

/-- Links of a small lab. -/
def nmLinks (name : Option String) : List LinkReq :=
  [⟨1, [("a", nmReq none none), ("b", nmReq none none)]⟩, ⟨2, [("a", nmReq none name)]⟩, ⟨3, [("a", nmReq (some "loopback") none)]⟩,
   ⟨4, [("a", nmReq (some "tunnel") none), ("b", nmReq (some "tunnel") none)]⟩]

/-- Defect: interface names specified by the user are not compared with anything. -/
theorem C118_static_name :
    (createInterfaces (fun _ => nodeDevOf nmFrr none none false) [] (nmLinks (some "eth1"))).2 = true ∧
    (createInterfaces (fun _ => nodeDevOf nmFrr none none false) [] (nmLinks (some "eth1"))).1.map (fun i => (i.node, i.ifname)) =
      [("a", some "eth1"), ("b", some "eth1"), ("a", some "eth1"), ("a", some "lo1"), ("a", some "tun0"), ("b", some "tun0")] := by
  decide +kernel

/-! ### Examples -/

example : nameTable.length = 33 := by decide

/-- The hypotheses of `C118_lab` are met. -/
example : nmFrr ∈ nameTable ∧ (createInterfaces (fun _ => nodeDevOf nmFrr none none false) [] (nmLinks none)).2 = true ∧
    (createInterfaces (fun _ => nodeDevOf nmFrr none none false) [] (nmLinks none)).1.map (fun i => (i.node, i.ifname)) =
      [("a", some "eth1"), ("b", some "eth1"), ("a", some "eth2"), ("a", some "lo1"), ("a", some "tun0"), ("b", some "tun0")] ∧
    (flatReqs (nmLinks none)).all (fun x => x.2.2.ifname == none && x.2.2.ty != some "lag" && x.2.2.ty != some "svi" && x.2.2.ifindex == none) = true := by
  decide +kernel

/-- Names of interfaces of a few devices. -/
example : (nameTable.find? (·.device == "frr")).bind (ifName · (.subif true 3 1 100)) = some "bond3.100" := by decide +kernel
example : (nameTable.find? (·.device == "frr")).bind (ifName · (.loop 0)) = some "lo" := by decide +kernel
example : (nameTable.find? (·.device == "iol")).bind (ifName · (.phys 7)) = some "Ethernet1/3" := by decide +kernel
example : (nameTable.find? (·.device == "iol")).bind mgmtName = some "Ethernet0/0" := by decide +kernel
example : (nameTable.find? (·.device == "sonic")).bind (ifName · (.phys 3)) = some "Ethernet12" := by decide +kernel
example : (nameTable.find? (·.device == "csr")).bind (clabIfName · 2) = some "eth1" := by decide +kernel
example : (nameTable.find? (·.device == "sros")).bind (ifName · (.subif false 2 1 100)) = some "1/1/c2/1:100" := by decide +kernel

/-- The check is not always true: Junos loopback `lo0.1` would clash with subinterfaces of a port named `lo0`. -/
example : namesOk { device := "x", phys := "lo{ifindex}", loop := some "lo0.{ifindex}", subif := some "{ifname}.{vlan.access_id}" } = false := by decide +kernel

end Netlab
