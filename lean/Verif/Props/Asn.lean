import Verif.Model.Asn
import Verif.Spec.Asn
/-!
# C32: AS numbers, C33: integer ranges
-/

namespace Netlab
open Spec

/-! ## Python integers -/

theorem pyDigits_digits (l : List Char) : ∀ (acc : Nat) (seen : Bool),
    (∀ c ∈ l, c.isDigit = true) → (seen = true ∨ l ≠ []) →
    pyDigits acc seen l = some (Nat.ofDigitChars 10 l acc) := by
  induction l with
  | nil => intro acc seen _ h; rcases h with h | h
           · simp [pyDigits, h]
           · exact absurd rfl h
  | cons c r ih =>
    intro acc seen hd _
    have hc := hd c (List.mem_cons_self)
    have hu : (c == '_') = false := by
      cases h : (c == '_') with
      | false => rfl
      | true => rw [eq_of_beq h] at hc; exact absurd hc (by decide)
    simp only [pyDigits, hu, hc, if_true, Bool.false_eq_true, if_false]
    rw [ih _ true (fun x hx => hd x (List.mem_cons_of_mem _ hx)) (Or.inl rfl),
      Nat.ofDigitChars_cons]

theorem pyIntChars_digits (l : List Char) (hd : ∀ c ∈ l, c.isDigit = true) (hn : l ≠ []) :
    pyIntChars l = some ((Nat.ofDigitChars 10 l 0 : Nat) : Int) := by
  have hsp : ∀ c : Char, c.isDigit = true → pySpace c = false := by
    intro c hc
    cases h : pySpace c with
    | false => rfl
    | true =>
      simp only [pySpace, Bool.or_eq_true] at h
      exfalso
      rcases h with ((((h | h) | h) | h) | h) | h <;>
        (rw [eq_of_beq h] at hc; exact absurd hc (by decide))
  have hdrop : ∀ m : List Char, (∀ c ∈ m, c.isDigit = true) → m.dropWhile pySpace = m := by
    intro m hm
    cases m with
    | nil => rfl
    | cons c r =>
      have := hsp c (hm c (List.mem_cons_self))
      simp [this]
  unfold pyIntChars
  rw [hdrop l hd, hdrop l.reverse (fun c hc => hd c (List.mem_reverse.mp hc)), List.reverse_reverse]
  cases l with
  | nil => exact absurd rfl hn
  | cons c r =>
    have hc := hd c (List.mem_cons_self)
    have h1 : c ≠ '-' := by rintro rfl; exact absurd hc (by decide)
    have h2 : c ≠ '+' := by rintro rfl; exact absurd hc (by decide)
    have : pySigned (c :: r) = (pyDigits 0 false (c :: r)).map (fun n => (n : Int)) := by
      unfold pySigned
      split
      · rename_i h; exact absurd (List.cons.inj h).1 h1
      · rename_i h; exact absurd (List.cons.inj h).1 h2
      · rfl
    rw [this, pyDigits_digits _ 0 false hd (Or.inr hn)]
    rfl

theorem repr_digits (n : Nat) : ∀ c ∈ n.repr.toList, c.isDigit = true := by
  intro c hc
  rw [Nat.toList_repr] at hc
  exact Nat.isDigit_of_mem_toDigits (by decide) (by decide) hc

theorem pyInt_repr (n : Nat) : pyIntChars n.repr.toList = some (n : Int) := by
  rw [pyIntChars_digits _ (repr_digits n) (by rw [Nat.toList_repr]; exact Nat.toDigits_ne_nil),
    Nat.toList_repr, Nat.ofDigitChars_ten_toDigits]

/-! ## Splitting at the dots -/

theorem splitDot_ne_nil (l : List Char) : splitDot l ≠ [] := by
  cases l with
  | nil => simp [splitDot]
  | cons c r => unfold splitDot; split
                · simp
                · split <;> simp

theorem splitDot_nodot (l : List Char) (h : '.' ∉ l) : splitDot l = [l] := by
  induction l with
  | nil => rfl
  | cons c r ih =>
    have hc : (c == '.') = false := by
      cases hh : (c == '.') with
      | false => rfl
      | true => rw [eq_of_beq hh] at h; simp at h
    simp only [splitDot, hc, Bool.false_eq_true, if_false]
    rw [ih (fun hm => h (List.mem_cons_of_mem _ hm))]

theorem splitDot_dot (p r : List Char) (h : '.' ∉ p) :
    splitDot (p ++ '.' :: r) = p :: splitDot r := by
  induction p with
  | nil => simp [splitDot]
  | cons c p ih =>
    have hc : (c == '.') = false := by
      cases hh : (c == '.') with
      | false => rfl
      | true => rw [eq_of_beq hh] at h; simp at h
    simp only [List.cons_append, splitDot, hc, Bool.false_eq_true, if_false]
    rw [ih (fun hm => h (List.mem_cons_of_mem _ hm))]

/-- Every list of characters either has no dot or is split at its first dot -/
theorem dot_cases (l : List Char) : '.' ∉ l ∨ ∃ p r, l = p ++ '.' :: r ∧ '.' ∉ p := by
  induction l with
  | nil => exact Or.inl (by simp)
  | cons c l ih =>
    by_cases hc : c = '.'
    · subst hc; exact Or.inr ⟨[], l, rfl, by simp⟩
    · rcases ih with h | ⟨p, r, rfl, hp⟩
      · exact Or.inl (by simp only [List.mem_cons, not_or]; exact ⟨fun e => hc e.symm, h⟩)
      · exact Or.inr ⟨c :: p, r, rfl, by
          simp only [List.mem_cons, not_or]; exact ⟨fun e => hc e.symm, hp⟩⟩

/-! ## AS numbers -/

theorem asdotLoop_some {parts : List (List Char)} : ∀ {a v : Int}, asdotLoop a parts = some v →
    transformAsdot a parts = some v := by
  induction parts with
  | nil => intro a v h; simpa [asdotLoop, transformAsdot] using h
  | cons p ps ih =>
    intro a v h
    unfold asdotLoop at h
    unfold transformAsdot
    cases hp : pyIntChars p with
    | none => rw [hp] at h; simp at h
    | some x =>
      rw [hp] at h; simp only at h ⊢
      split at h
      · simp at h
      · exact ih h

/-- The result of `mustBeAsn` in terms of the parts of the string -/
def asnOfParts (parts : List (List Char)) (w : Val) : Prop :=
  parts.length ≤ 2 ∧ ∃ v, asdotLoop 0 parts = some v ∧ 0 < v ∧ v < 2 ^ 32 ∧ w = .int v

theorem mustBeAsn_str (s : String) (w : Val) :
    mustBeAsn (.str s) = some w ↔ asnOfParts (splitDot s.toList) w := by
  have key : asdotParsing s = true ↔ (splitDot s.toList).length ≤ 2 ∧
      ∃ v, asdotLoop 0 (splitDot s.toList) = some v ∧ 0 < v ∧ v < 2 ^ 32 := by
    unfold asdotParsing
    simp only
    generalize splitDot s.toList = parts
    by_cases hl : parts.length > 2
    · rw [if_pos hl]
      constructor
      · intro e; simp at e
      · rintro ⟨h, -⟩; omega
    · rw [if_neg hl]
      cases hv : asdotLoop 0 parts with
      | none => simp
      | some v =>
        simp only [Bool.not_eq_true', Bool.or_eq_false_iff, decide_eq_false_iff_not]
        constructor
        · rintro ⟨h1, h2⟩; exact ⟨by omega, v, rfl, by omega, by omega⟩
        · rintro ⟨-, v', e, h1, h2⟩; obtain rfl := Option.some.inj e; exact ⟨by omega, by omega⟩
  simp only [mustBeAsn, asnOfParts]
  by_cases h : asdotParsing s = true
  · rw [if_pos h]
    obtain ⟨h1, v, h2, h3, h4⟩ := key.mp h
    rw [asdotLoop_some h2]
    simp only [Option.map_some, Option.some.injEq]
    constructor
    · intro e; exact ⟨h1, v, h2, h3, h4, e.symm⟩
    · rintro ⟨-, v', e, -, -, e2⟩
      rw [h2] at e; obtain rfl := Option.some.inj e; exact e2.symm
  · rw [if_neg h]
    constructor
    · intro e; simp at e
    · rintro ⟨h1, v, h2, h3, h4, -⟩; exact absurd (key.mpr ⟨h1, v, h2, h3, h4⟩) h

theorem asdotLoop_cons (a v : Int) (p : List Char) (ps : List (List Char)) :
    asdotLoop a (p :: ps) = some v ↔
      ∃ x, pyIntChars p = some x ∧ 0 ≤ x ∧ x ≤ 65535 ∧ asdotLoop (65536 * a + x) ps = some v := by
  simp only [asdotLoop]
  cases hp : pyIntChars p with
  | none => simp
  | some x =>
    simp only [Option.some.injEq, exists_eq_left']
    by_cases hb : (decide (x < 0) || decide (x > 65535)) = true
    · rw [if_pos hb]
      simp only [Bool.or_eq_true, decide_eq_true_eq] at hb
      constructor
      · intro e; simp at e
      · rintro ⟨h1, h2, -⟩; omega
    · rw [if_neg hb]
      simp only [Bool.or_eq_true, decide_eq_true_eq, not_or] at hb
      constructor
      · intro e; exact ⟨by omega, by omega, e⟩
      · rintro ⟨-, -, e⟩; exact e

/-- **C32** a string is accepted as an AS number exactly in two cases: it has no dots and is
a 16-bit number other than zero, or it has one dot between two 16-bit numbers which are not both
zero.  The stored value is `x` or `x * 65536 + y`. -/
theorem C32_accepted_iff (s : String) (w : Val) :
    mustBeAsn (.str s) = some w ↔
      (∃ x : Int, '.' ∉ s.toList ∧ pyIntChars s.toList = some x ∧ 1 ≤ x ∧ x ≤ 65535 ∧
        w = .int x) ∨
      (∃ (p q : List Char) (x y : Int), s.toList = p ++ '.' :: q ∧ '.' ∉ p ∧ '.' ∉ q ∧
        pyIntChars p = some x ∧ pyIntChars q = some y ∧
        0 ≤ x ∧ x ≤ 65535 ∧ 0 ≤ y ∧ y ≤ 65535 ∧ IsAsn (x * 65536 + y) ∧
        w = .int (x * 65536 + y)) := by
  rw [mustBeAsn_str]
  unfold asnOfParts
  constructor
  · rintro ⟨hl, v, hv, h1, h2, rfl⟩
    rcases dot_cases s.toList with h | ⟨p, r, h, hp⟩
    · rw [splitDot_nodot _ h] at hv
      obtain ⟨x, hx, a1, a2, e⟩ := (asdotLoop_cons _ _ _ _).mp hv
      have e' : 65536 * 0 + x = v := Option.some.inj e
      exact Or.inl ⟨x, h, hx, by omega, a2, by congr 1; omega⟩
    · rcases dot_cases r with hr | ⟨q, t, hr, hq⟩
      · rw [h, splitDot_dot p r hp, splitDot_nodot _ hr] at hv
        obtain ⟨x, hx, a1, a2, e⟩ := (asdotLoop_cons _ _ _ _).mp hv
        obtain ⟨y, hy, b1, b2, e⟩ := (asdotLoop_cons _ _ _ _).mp e
        have e' : 65536 * (65536 * 0 + x) + y = v := Option.some.inj e
        exact Or.inr ⟨p, r, x, y, h, hp, hr, hx, hy, a1, a2, b1, b2, ⟨by omega, by omega⟩,
          by congr 1; omega⟩
      · rw [h, hr, splitDot_dot p _ hp, splitDot_dot q t hq] at hl
        have := List.length_pos_iff.mpr (splitDot_ne_nil t)
        simp only [List.length_cons] at hl
        omega
  · rintro (⟨x, h, hx, h1, h2, rfl⟩ | ⟨p, q, x, y, h, hp, hq, hx, hy, a1, a2, b1, b2, ⟨h1, h2⟩, rfl⟩)
    · rw [splitDot_nodot _ h]
      exact ⟨by simp, x, (asdotLoop_cons _ _ _ _).mpr
        ⟨x, hx, by omega, by omega, by simp [asdotLoop]⟩, by omega, by omega, rfl⟩
    · rw [h, splitDot_dot p q hp, splitDot_nodot _ hq]
      refine ⟨by simp, x * 65536 + y, (asdotLoop_cons _ _ _ _).mpr ⟨x, hx, a1, a2,
        (asdotLoop_cons _ _ _ _).mpr ⟨y, hy, b1, b2, ?_⟩⟩, by omega, by omega, rfl⟩
      simp only [asdotLoop, Option.some.injEq]; omega

/-- **C32** the stored AS number is always an integer between 1 and 4294967295 when the user
wrote a string -/
theorem C32_string_in_range (s : String) (w : Val) (h : mustBeAsn (.str s) = some w) :
    ∃ n, w = .int n ∧ IsAsn n := by
  rcases (C32_accepted_iff s w).mp h with ⟨x, -, -, h1, h2, e⟩ | ⟨p, q, x, y, -, -, -, -, -, -, -, -, -, ha, e⟩
  · exact ⟨x, e, h1, by omega⟩
  · exact ⟨_, e, ha⟩

theorem dot_not_digit {n : Nat} : '.' ∉ n.repr.toList := by
  intro h
  exact absurd (repr_digits n _ h) (by decide)

theorem asdotString_toList (x y : Nat) :
    (asdotString x y).toList = x.repr.toList ++ '.' :: y.repr.toList := by
  simp [asdotString, String.toList_append]

/-- **C32** the canonical asdot string `x.y` is accepted iff both parts are 16-bit numbers and
they are not both zero; the result is `x * 65536 + y` -/
theorem C32_canonical (x y : Nat) (w : Val) :
    mustBeAsn (.str (asdotString x y)) = some w ↔
      x ≤ 65535 ∧ y ≤ 65535 ∧ IsAsn (asdotValue x y) ∧ w = .int (asdotValue x y) := by
  rw [C32_accepted_iff]
  constructor
  · rintro (⟨v, h, -⟩ | ⟨p, q, a, b, e, hp, hq, ha, hb, h1, h2, h3, h4, h5, e2⟩)
    · exact absurd (by rw [asdotString_toList]; simp) h
    · rw [asdotString_toList] at e
      have e1 := splitDot_dot x.repr.toList y.repr.toList dot_not_digit
      rw [e, splitDot_dot p q hp, splitDot_nodot q hq, splitDot_nodot _ dot_not_digit] at e1
      obtain ⟨rfl, e3⟩ := List.cons.inj e1
      obtain ⟨rfl, -⟩ := List.cons.inj e3
      rw [pyInt_repr] at ha hb
      obtain rfl := Option.some.inj ha
      obtain rfl := Option.some.inj hb
      exact ⟨by omega, by omega, h5, e2⟩
  · rintro ⟨h1, h2, h3, rfl⟩
    exact Or.inr ⟨_, _, x, y, asdotString_toList x y, dot_not_digit, dot_not_digit, pyInt_repr x,
      pyInt_repr y, by omega, by omega, by omega, by omega, h3, rfl⟩

/-- **C32** two different canonical asdot strings never denote the same AS number -/
theorem C32_injective (x y x' y' : Nat) (w : Val)
    (h : mustBeAsn (.str (asdotString x y)) = some w)
    (h' : mustBeAsn (.str (asdotString x' y')) = some w) :
    asdotString x y = asdotString x' y' := by
  obtain ⟨a1, a2, -, e⟩ := (C32_canonical x y w).mp h
  obtain ⟨b1, b2, -, e'⟩ := (C32_canonical x' y' w).mp h'
  rw [e] at e'
  have : asdotValue x y = asdotValue x' y' := by simpa using e'
  unfold asdotValue at this
  have hx : x = x' := by omega
  have hy : y = y' := by omega
  rw [hx, hy]

example : mustBeAsn (.str "1.1") = some (.int 65537) :=
  (C32_canonical 1 1 _).mpr ⟨by omega, by omega, by unfold IsAsn asdotValue; omega, rfl⟩

/-- **C32** every AS number has a canonical asdot string -/
theorem C32_complete (n : Int) (h : IsAsn n) :
    ∃ x y : Nat, mustBeAsn (.str (asdotString x y)) = some (.int n) := by
  obtain ⟨h1, h2⟩ := h
  have e : asdotValue (n / 65536).toNat (n % 65536).toNat = n := by
    unfold asdotValue
    omega
  refine ⟨(n / 65536).toNat, (n % 65536).toNat, (C32_canonical _ _ _).mpr ⟨by omega, by omega, ?_, ?_⟩⟩
  · rw [e]; exact ⟨h1, h2⟩
  · rw [e]

/-- **C32** an AS number written as an integer is accepted unchanged iff it is a 4-octet number.
The range includes zero, which the error message says is invalid. -/
theorem C32_integers (i : Int) (w : Val) :
    mustBeAsn (.int i) = some w ↔ (IsAsn i ∨ i = 0) ∧ w = .int i := by
  simp only [mustBeAsn]
  by_cases h : (decide (i < 0) || decide (i > 4294967295)) = true
  · rw [if_pos h]
    simp only [Bool.or_eq_true, decide_eq_true_eq] at h
    unfold IsAsn
    constructor
    · intro e; simp at e
    · rintro ⟨h2, -⟩; omega
  · rw [if_neg h]
    simp only [Bool.or_eq_true, decide_eq_true_eq, not_or] at h
    unfold IsAsn
    constructor
    · intro e; exact ⟨by omega, (Option.some.inj e).symm⟩
    · rintro ⟨-, rfl⟩; rfl

/-- **C32** defect: the integer zero is accepted as an AS number, although the string "0" and
"0.0" are not -/
theorem C32_zero_accepted :
    mustBeAsn (.int 0) = some (.int 0) ∧ ¬ IsAsn 0 ∧
    (∀ w, mustBeAsn (.str (asdotString 0 0)) ≠ some w) :=
  ⟨(C32_integers 0 _).mpr ⟨Or.inr rfl, rfl⟩, by unfold IsAsn; omega, fun w h =>
    absurd ((C32_canonical 0 0 w).mp h).2.2.1 (by unfold IsAsn asdotValue; omega)⟩

/-- **C32** only strings and integers are accepted -/
theorem C32_other_values (v : Val) (w : Val) (h : mustBeAsn v = some w) :
    (∃ s, v = .str s) ∨ ∃ i, v = .int i := by
  cases v <;> simp [mustBeAsn] at h ⊢

/-! ## Integers -/

/-- **C33** an integer is accepted iff it is in the declared range, and it is not changed -/
theorem C33_integers (pyInt : String → Option Int) (mn mx : Option Int) (i : Int) (w : Val) :
    mustBeInt pyInt mn mx (.int i) = some w ↔ InRange mn mx (.int i) ∧ w = .int i := by
  have key : checkIntType (.int i) mn mx = true ↔ InRange mn mx (.int i) := by
    unfold checkIntType InRange
    cases mn <;> cases mx <;> simp <;> omega
  simp only [mustBeInt]
  by_cases h : checkIntType (.int i) mn mx = true
  · rw [if_pos h]
    constructor
    · intro e; exact ⟨key.mp h, (Option.some.inj e).symm⟩
    · rintro ⟨-, rfl⟩; rfl
  · rw [if_neg h]
    constructor
    · intro e; simp at e
    · rintro ⟨e, -⟩; exact absurd (key.mpr e) h

/-- **C33** whatever is accepted is stored as an integer; it is inside the declared range when
the value was not written as a string.  (Numeric strings: `C33_strings` and
`C33_string_out_of_range`.) -/
theorem C33_accepted_in_range (pyInt : String → Option Int) (mn mx : Option Int)
    (v w : Val) (h : mustBeInt pyInt mn mx v = some w) :
    (∃ i, w = .int i) ∧ ((∀ s, v ≠ .str s) → InRange mn mx w ∧ v = w) := by
  cases v with
  | int i =>
    obtain ⟨h1, rfl⟩ := (C33_integers pyInt mn mx i w).mp h
    exact ⟨⟨i, rfl⟩, fun _ => ⟨h1, rfl⟩⟩
  | str s =>
    simp only [mustBeInt] at h
    refine ⟨?_, fun hn => absurd rfl (hn s)⟩
    cases hp : pyInt s with
    | some i => rw [hp] at h; exact ⟨i, (Option.some.inj h).symm⟩
    | none => rw [hp] at h; simp [checkIntType] at h
  | null => simp [mustBeInt, checkIntType] at h
  | bool b => simp [mustBeInt, checkIntType] at h
  | list l => simp [mustBeInt, checkIntType] at h
  | dict d => simp [mustBeInt, checkIntType] at h

/-- **C33** a string is accepted iff Python converts it to an integer, and that integer is
stored without looking at the range -/
theorem C33_strings (pyInt : String → Option Int) (mn mx : Option Int) (s : String) (w : Val) :
    mustBeInt pyInt mn mx (.str s) = some w ↔ ∃ i, pyInt s = some i ∧ w = .int i := by
  simp only [mustBeInt]
  cases hp : pyInt s with
  | some i =>
    constructor
    · intro e; exact ⟨i, rfl, (Option.some.inj e).symm⟩
    · rintro ⟨j, e, rfl⟩; obtain rfl := Option.some.inj e; rfl
  | none => simp [checkIntType]

/-- **C33** defect: for every range with an upper limit a numeric string outside the range is
accepted -/
theorem C33_string_out_of_range (mn : Option Int) (b : Int) :
    ∃ (s : String) (w : Val), mustBeInt pyIntStr mn (some b) (.str s) = some w ∧
      ¬ InRange mn (some b) w := by
  refine ⟨(b.toNat + 1).repr, .int ((b.toNat + 1 : Nat) : Int), ?_, ?_⟩
  · exact (C33_strings _ _ _ _ _).mpr ⟨_, pyInt_repr _, rfl⟩
  · rintro ⟨i, e, -, h⟩
    have e' : ((b.toNat + 1 : Nat) : Int) = i := by simpa using e
    have := h b rfl
    omega

/-- **C33** Booleans are not integers (Python's `bool` is a subclass of `int`) -/
theorem C33_bool_rejected (pyInt : String → Option Int) (mn mx : Option Int) (b : Bool) :
    mustBeInt pyInt mn mx (.bool b) = none := rfl

example : mustBeInt pyIntStr (some 1) (some 4094) (.int 100) = some (.int 100) :=
  (C33_integers _ _ _ _ _).mpr ⟨⟨100, rfl, by simp, by simp⟩, rfl⟩

end Netlab
