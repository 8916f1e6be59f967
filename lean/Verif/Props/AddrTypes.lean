import Verif.Spec.AddrTypes
import Verif.Props.Nodeset
import Verif.Props.Asn
import Verif.Props.Stp
import Verif.Props.FileMap

namespace Netlab

open Spec

/-! ### IPv4 addresses -/

theorem digit_cases (c : Char) (h : c.isDigit = true) : ∃ k : Fin 10, c = Nat.digitChar k.val := by
  have h1 : 48 ≤ c.toNat ∧ c.toNat ≤ 57 := by
    simp only [Char.isDigit, Bool.and_eq_true, decide_eq_true_eq] at h
    exact ⟨UInt32.le_iff_toNat_le.1 h.1, UInt32.le_iff_toNat_le.1 h.2⟩
  have h2 : ∀ m : Fin 10, Char.ofNat (48 + m.val) = Nat.digitChar m.val := by decide
  refine ⟨⟨c.toNat - 48, by omega⟩, ?_⟩
  rw [← h2 ⟨c.toNat - 48, by omega⟩]
  have : 48 + (c.toNat - 48) = c.toNat := by omega
  simp only [this, Char.ofNat_toNat]

/-- The octet is canonical. -/
def octetChk (l : List Char) : Bool :=
  match v4Octet l with
  | some n => decide (n < 256) && l == n.repr.toList
  | none => true

theorem v4Octet_iff (l : List Char) (n : Nat) : v4Octet l = some n ↔ n < 256 ∧ l = n.repr.toList := by
  constructor
  · intro h
    have key : octetChk l = true := by
      have h0 := h
      unfold v4Octet at h0
      split at h0
      · cases h0
      · rename_i hc
        simp only [Bool.or_eq_true, not_or, Bool.not_eq_true, decide_eq_false_iff_not, Nat.not_lt] at hc
        obtain ⟨⟨⟨he, hd⟩, hl⟩, _⟩ := hc
        have hd : ∀ c ∈ l, c.isDigit = true := by
          have : l.all Char.isDigit = true := by simpa using hd
          exact List.all_eq_true.1 this
        match l, he, hd, hl with
        | [a], _, hd, _ =>
          obtain ⟨x, rfl⟩ := digit_cases a (hd a (by simp))
          exact (by decide +kernel : ∀ x : Fin 10, octetChk [Nat.digitChar x.val] = true) x
        | [a, b], _, hd, _ =>
          obtain ⟨x, rfl⟩ := digit_cases a (hd a (by simp))
          obtain ⟨y, rfl⟩ := digit_cases b (hd b (by simp))
          exact (by decide +kernel : ∀ x y : Fin 10, octetChk [Nat.digitChar x.val, Nat.digitChar y.val] = true) x y
        | [a, b, c], _, hd, _ =>
          obtain ⟨x, rfl⟩ := digit_cases a (hd a (by simp))
          obtain ⟨y, rfl⟩ := digit_cases b (hd b (by simp))
          obtain ⟨z, rfl⟩ := digit_cases c (hd c (by simp))
          exact (by decide +kernel : ∀ x y z : Fin 10, octetChk [Nat.digitChar x.val, Nat.digitChar y.val, Nat.digitChar z.val] = true) x y z
        | a :: b :: c :: d :: r, _, _, hl => simp at hl
    unfold octetChk at key
    rw [h] at key
    simpa using key
  · rintro ⟨h, rfl⟩
    exact (by decide +kernel : ∀ m : Fin 256, v4Octet m.val.repr.toList = some m.val) ⟨n, h⟩

theorem repr_no (c : Char) (hc : c.isDigit = false) (n : Nat) : c ∉ n.repr.toList := fun h => by
  have := repr_digits n c h
  rw [hc] at this
  cases this

theorem v4Chars_iff (l : List Char) (n : Nat) : v4Chars l = some n ↔ DottedQuad (String.ofList l) n := by
  constructor
  · intro h
    unfold v4Chars at h
    split at h
    · rename_i a b c d hm
      cases h
      have hf := mapM_forall₂ _ _ _ hm
      have hi := (intercalate_splitOnChar '.' l).1
      generalize hs : splitOnChar '.' l = parts at hf hi
      cases hf with
      | cons h1 hf => cases hf with
        | cons h2 hf => cases hf with
          | cons h3 hf => cases hf with
            | cons h4 hf => cases hf with
              | nil =>
                rw [v4Octet_iff] at h1 h2 h3 h4
                refine ⟨a, b, c, d, h1.1, h2.1, h3.1, h4.1, ?_, by omega⟩
                rw [← hi, h1.2, h2.2, h3.2, h4.2]
                apply String.toList_injective
                simp [List.intercalate, List.intersperse, String.toList_append]
    · cases h
  · rintro ⟨a, b, c, d, ha, hb, hc, hd, hs, hn⟩
    have hl : l = a.repr.toList ++ '.' :: (b.repr.toList ++ '.' :: (c.repr.toList ++ '.' :: d.repr.toList)) := by
      have := congrArg String.toList hs
      simpa [String.toList_append] using this
    have hsp : splitOnChar '.' l = [a.repr.toList, b.repr.toList, c.repr.toList, d.repr.toList] := by
      rw [hl, splitOnChar_append _ _ _ (repr_no '.' rfl a), splitOnChar_append _ _ _ (repr_no '.' rfl b), splitOnChar_append _ _ _ (repr_no '.' rfl c),
        splitOnChar_one _ _ (repr_no '.' rfl d)]
    have h1 := (v4Octet_iff a.repr.toList a).2 ⟨ha, rfl⟩
    have h2 := (v4Octet_iff b.repr.toList b).2 ⟨hb, rfl⟩
    have h3 := (v4Octet_iff c.repr.toList c).2 ⟨hc, rfl⟩
    have h4 := (v4Octet_iff d.repr.toList d).2 ⟨hd, rfl⟩
    have hm : [a.repr.toList, b.repr.toList, c.repr.toList, d.repr.toList].mapM v4Octet = some [a, b, c, d] := by
      rw [List.mapM_cons, List.mapM_cons, List.mapM_cons, List.mapM_cons, h1, h2, h3, h4]
      rfl
    unfold v4Chars
    rw [hsp, hm]
    simp only [Option.some.injEq]
    omega

theorem v4Addr_iff (s : String) (n : Nat) : v4Addr s = some n ↔ DottedQuad s n := by
  unfold v4Addr
  rw [v4Chars_iff, String.ofList_toList]

/-- C96: an IPv4 address has exactly one text. -/
theorem C96_ipv4_text (s : String) (n : Nat) : DottedQuad s n ↔ n < 2 ^ 32 ∧ s = v4Text n := by
  constructor
  · rintro ⟨a, b, c, d, ha, hb, hc, hd, hs, hn⟩
    refine ⟨by omega, ?_⟩
    have h1 : n / 256 / 256 / 256 = a := by omega
    have h2 : n / 256 / 256 % 256 = b := by omega
    have h3 : n / 256 % 256 = c := by omega
    have h4 : n % 256 = d := by omega
    unfold v4Text
    rw [h1, h2, h3, h4, hs]
  · rintro ⟨h, rfl⟩
    exact ⟨_, _, _, _, by omega, by omega, by omega, by omega, rfl, by omega⟩

theorem quad_no_slash (s : String) (n : Nat) (h : DottedQuad s n) : '/' ∉ s.toList := by
  obtain ⟨a, b, c, d, _, _, _, _, rfl, _⟩ := h
  simp only [String.toList_append, List.mem_append, not_or]
  refine ⟨⟨⟨⟨⟨⟨repr_no _ rfl a, by decide⟩, repr_no _ rfl b⟩, by decide⟩, repr_no _ rfl c⟩, by decide⟩, repr_no _ rfl d⟩

/-- The length function of the specification -/
def plenOf (mask : String → Option Nat) (m : String) : Option Nat := v4Plen mask m.toList

theorem v4Net_iff (mask : String → Option Nat) (s : String) (strict : Bool) :
    v4Net mask s strict = true ↔ (∃ n, DottedQuad s n) ∨ ∃ n p, Cidr (plenOf mask) s n p ∧ (strict = true → n % 2 ^ (32 - p) = 0) := by
  have hi := intercalate_splitOnChar '/' s.toList
  constructor
  · intro h
    unfold v4Net at h
    split at h
    · rename_i a hs
      rw [hs] at hi
      have ha : a = s.toList := by simpa [List.intercalate] using hi.1
      obtain ⟨n, hn⟩ := Option.isSome_iff_exists.1 h
      left
      rw [ha] at hn
      exact ⟨n, (v4Addr_iff s n).1 hn⟩
    · rename_i a m hs
      rw [hs] at hi
      have ha : s.toList = a ++ '/' :: m := by
        rw [← hi.1]
        simp [List.intercalate, List.intersperse]
      split at h
      · rename_i n p hn hp
        right
        refine ⟨n, p, ⟨String.ofList a, String.ofList m, ?_, ?_, (v4Chars_iff a n).1 hn, ?_⟩, ?_⟩
        · apply String.toList_injective
          simp [ha]
        · simpa [HasSlash] using hi.2 m (by simp)
        · simpa [plenOf] using hp
        · intro hst
          rw [hst] at h
          simpa using h
      · cases h
    · cases h
  · rintro (⟨n, hn⟩ | ⟨n, p, ⟨a, m, hs, hm, hn, hp⟩, hst⟩)
    · unfold v4Net
      rw [splitOnChar_one _ _ (quad_no_slash s n hn)]
      have := (v4Addr_iff s n).2 hn
      unfold v4Addr at this
      simp only [this, Option.isSome_some]
    · have hl : s.toList = a.toList ++ '/' :: m.toList := by simp [hs]
      have hsp : splitOnChar '/' s.toList = [a.toList, m.toList] := by
        rw [hl, splitOnChar_append _ _ _ (quad_no_slash a n hn), splitOnChar_one _ _ hm]
      have h1 := (v4Addr_iff a n).2 hn
      unfold v4Addr at h1
      unfold plenOf at hp
      unfold v4Net
      rw [hsp]
      simp only [h1, hp]
      cases strict with
      | false => rfl
      | true => simpa using hst rfl

/-- C96: a number up to 32 is a prefix length, a larger number is not. -/
theorem C96_prefix_length (mask : String → Option Nat) (p : Nat) : plenOf mask p.repr = if p ≤ 32 then some p else none := by
  have hv : v4Value p.repr.toList = p := by
    have h1 : ∀ (l : List Char) (acc : Nat), (∀ c ∈ l, c.isDigit = true) → l.foldl (fun n c => 10 * n + (c.toNat - '0'.toNat)) acc = Nat.ofDigitChars 10 l acc := by
      intro l
      induction l with
      | nil => intro acc _; rfl
      | cons c r ih =>
        intro acc h
        rw [List.foldl_cons, ih _ (fun x hx => h x (List.mem_cons_of_mem _ hx))]
        rfl
    unfold v4Value
    rw [h1 _ _ (repr_digits p), Nat.toList_repr]
    exact Nat.ofDigitChars_ten_toDigits
  have hne : p.repr.toList.isEmpty = false := by
    rw [Nat.toList_repr]
    simpa using Nat.toDigits_ne_nil
  have hall : p.repr.toList.all Char.isDigit = true := List.all_eq_true.2 (repr_digits p)
  unfold plenOf v4Plen
  rw [hne, hall, hv]
  rfl

/-! ### Address types -/

theorem is32_iff (i : Int) : (i < 0 || i > 2 ^ 32 - 1) = false ↔ Is32 i := by
  unfold Is32
  simp only [Bool.or_eq_false_iff, decide_eq_false_iff_not]
  omega

/-- C96: an IPv4 attribute is accepted exactly when its value is allowed for the use of the attribute; integers used as identifiers are changed into text, and
other values are not changed. -/
theorem C96_ipv4 (mask : String → Option Nat) (pfx : String → Option Val) (use : String) (hu : IsUse use) (v w : Val) :
    taIpv4 mask pfx use false v = some w ↔
      Ipv4Ok (plenOf mask) use v ∧ (∀ i, v = .int i → use = "id" → w = .str (v4Text i.toNat)) ∧ ((∀ i, v = .int i → use ≠ "id") → w = v) := by
  have hstr : ∀ s, taStr (fun s => (v4Addr s).isSome) (v4Net mask) use s = some w ↔ Ipv4Ok (plenOf mask) use (.str s) ∧ w = .str s := by
    intro s
    have ha : (v4Addr s).isSome = true ↔ ∃ n, DottedQuad s n := by
      rw [Option.isSome_iff_exists]
      exact ⟨fun ⟨n, hn⟩ => ⟨n, (v4Addr_iff s n).1 hn⟩, fun ⟨n, hn⟩ => ⟨n, (v4Addr_iff s n).2 hn⟩⟩
    have hn := v4Net_iff mask s
    unfold taStr
    simp only [IsUse, List.mem_cons, List.not_mem_nil, or_false] at hu
    have fin : ∀ (b : Bool), (b = true ↔ Ipv4Ok (plenOf mask) use (.str s)) →
        ((if b = true then some (Val.str s) else none) = some w ↔ Ipv4Ok (plenOf mask) use (.str s) ∧ w = .str s) := by
      intro b hb
      rw [← hb]
      cases b with
      | true => simp [eq_comm]
      | false => simp
    have oa : (use = "id" ∨ use = "address" ∨ use = "interface" ∧ '/' ∉ s.toList) → ((v4Addr s).isSome = true ↔ Ipv4Ok (plenOf mask) use (.str s)) := by
      intro hx
      refine ha.trans ⟨fun ⟨n, h⟩ => .addr s n h, fun h => ?_⟩
      cases h with
      | addr _ n h => exact ⟨n, h⟩
      | host _ n p h h' =>
        rcases hx with rfl | rfl | ⟨rfl, hsl⟩
        · exact absurd h' (by decide)
        · exact absurd h' (by decide)
        · obtain ⟨a, m, rfl, _⟩ := h
          exact absurd (by simp) hsl
      | net _ n p h hz h' =>
        rcases hx with rfl | rfl | ⟨rfl, hsl⟩ <;> exact absurd h' (by decide)
    have on : ∀ st, (st = false → use = "interface" ∨ use = "host_prefix") → (st = true → use = "prefix" ∨ use = "subnet_prefix") →
        (v4Net mask s st = true ↔ Ipv4Ok (plenOf mask) use (.str s)) := by
      intro st h1 h2
      refine (hn st).trans ⟨?_, fun h => ?_⟩
      · rintro (⟨n, h⟩ | ⟨n, p, h, hz⟩)
        · exact .addr s n h
        · cases st with
          | false => exact .host s n p h (h1 rfl)
          | true => exact .net s n p h (hz rfl) (h2 rfl)
      · cases h with
        | addr _ n h => exact Or.inl ⟨n, h⟩
        | host _ n p h h' =>
          refine Or.inr ⟨n, p, h, fun hst => ?_⟩
          rcases h2 hst with rfl | rfl <;> exact absurd h' (by decide)
        | net _ n p h hz h' => exact Or.inr ⟨n, p, h, fun _ => hz⟩
    by_cases hx : use = "id" ∨ use = "address" ∨ use = "interface" ∧ '/' ∉ s.toList
    · rw [if_pos hx]
      exact fin _ (oa hx)
    · rw [if_neg hx]
      refine fin _ (on _ (fun h => ?_) (fun h => ?_))
      · rcases hu with rfl | rfl | rfl | rfl | rfl | rfl <;> first | exact Or.inl rfl | exact Or.inr rfl | exact absurd h (by decide)
      · rcases hu with rfl | rfl | rfl | rfl | rfl | rfl
        · exact absurd (Or.inr (Or.inl rfl)) hx
        · exact Or.inl rfl
        · exact absurd h (by decide)
        · exact absurd h (by decide)
        · exact Or.inr rfl
        · exact absurd (Or.inl rfl) hx
  unfold taIpv4 taCommon
  cases v with
  | null => exact ⟨fun h => (nomatch h), fun h => (nomatch h.1)⟩
  | list l => exact ⟨fun h => (nomatch h), fun h => (nomatch h.1)⟩
  | dict d => exact ⟨fun h => (nomatch h), fun h => (nomatch h.1)⟩
  | str s =>
    simp only [Bool.false_eq_true, if_false]
    rw [hstr s]
    constructor
    · rintro ⟨h1, h2⟩
      exact ⟨h1, fun i hi => (nomatch hi), fun _ => h2⟩
    · rintro ⟨h1, _, h2⟩
      exact ⟨h1, h2 (fun i hi => (nomatch hi))⟩
  | bool b =>
    simp only
    by_cases h : use = "interface" ∨ use = "subnet_prefix"
    · rw [if_pos h]
      constructor
      · intro hw
        cases hw
        exact ⟨.bool b h, fun i hi => (nomatch hi), fun _ => rfl⟩
      · rintro ⟨_, _, h2⟩
        rw [h2 (fun i hi => (nomatch hi))]
    · rw [if_neg h]
      constructor
      · intro hw; cases hw
      · rintro ⟨h1, _⟩
        cases h1 with
        | bool _ h' => exact absurd h' h
  | int i =>
    simp only
    by_cases hid : use = "id"
    · subst hid
      rw [if_pos (by simp)]
      unfold taInt
      by_cases h32 : Is32 i
      · have := (is32_iff i).2 h32
        rw [this]
        simp only [Bool.false_eq_true, if_false, Option.some.injEq]
        constructor
        · rintro rfl
          exact ⟨.int i h32 (Or.inr rfl), fun j hj _ => by cases hj; rfl, fun hc => absurd rfl (hc i rfl)⟩
        · rintro ⟨_, h2, _⟩
          exact (h2 i rfl trivial).symm
      · have : (i < 0 || i > 2 ^ 32 - 1) = true := by
          cases hb : (i < 0 || i > 2 ^ 32 - 1) with
          | true => rfl
          | false => exact absurd ((is32_iff i).1 hb) h32
        rw [this]
        simp only [if_true]
        constructor
        · intro hw; cases hw
        · rintro ⟨h1, _⟩
          cases h1 with
          | int _ h _ => exact absurd h h32
    · rw [if_neg (fun h => hid h.1)]
      by_cases hin : use = "interface"
      · subst hin
        rw [if_neg (by simp)]
        unfold taInt
        by_cases h32 : Is32 i
        · have := (is32_iff i).2 h32
          rw [this]
          simp only [Bool.false_eq_true, if_false, Option.some.injEq]
          constructor
          · rintro rfl
            exact ⟨.int i h32 (Or.inl rfl), fun _ _ h => absurd h (by decide), fun _ => rfl⟩
          · rintro ⟨_, _, h2⟩
            exact (h2 (fun _ _ => by decide)).symm
        · have : (i < 0 || i > 2 ^ 32 - 1) = true := by
            cases hb : (i < 0 || i > 2 ^ 32 - 1) with
            | true => rfl
            | false => exact absurd ((is32_iff i).1 hb) h32
          rw [this]
          simp only [if_true]
          constructor
          · intro hw; cases hw
          · rintro ⟨h1, _⟩
            cases h1 with
            | int _ h _ => exact absurd h h32
      · rw [if_pos hin]
        constructor
        · intro hw; cases hw
        · rintro ⟨h1, _⟩
          cases h1 with
          | int _ _ h => exact absurd h (not_or.2 ⟨hin, hid⟩)

/-- C96: integers used as IPv4 identifiers are changed into the address with the same number, so identifiers are never merged. -/
theorem C96_id (mask : String → Option Nat) (pfx : String → Option Val) (i : Int) (h : Is32 i) :
    ∃ s, taIpv4 mask pfx "id" false (.int i) = some (.str s) ∧ DottedQuad s i.toNat ∧ taIpv4 mask pfx "id" false (.str s) = some (.str s) := by
  refine ⟨v4Text i.toNat, ?_, ?_, ?_⟩
  · rw [C96_ipv4 mask pfx "id" (by simp [IsUse])]
    exact ⟨.int i h (Or.inr rfl), fun j hj _ => by cases hj; rfl, fun hc => absurd rfl (hc i rfl)⟩
  · rw [C96_ipv4_text]
    exact ⟨by unfold Is32 at h; omega, rfl⟩
  · rw [C96_ipv4 mask pfx "id" (by simp [IsUse])]
    refine ⟨.addr _ i.toNat ((C96_ipv4_text _ _).2 ⟨by unfold Is32 at h; omega, rfl⟩), fun j hj => (nomatch hj), fun _ => rfl⟩

/-- C96: values of IPv4 attributes are not changed when they are validated again. -/
theorem C96_stable (mask : String → Option Nat) (pfx : String → Option Val) (use : String) (hu : IsUse use) (v w : Val)
    (h : taIpv4 mask pfx use false v = some w) : taIpv4 mask pfx use false w = some w := by
  have h0 := h
  rw [C96_ipv4 mask pfx use hu] at h
  obtain ⟨h1, h2, h3⟩ := h
  by_cases hc : ∀ i, v = .int i → use ≠ "id"
  · rw [h3 hc] at h0 ⊢
    exact h0
  · simp only [not_forall, not_not] at hc
    obtain ⟨i, rfl, rfl⟩ := hc
    have h32 : Is32 i := by
      cases h1 with
      | int _ h _ => exact h
    obtain ⟨s, hs1, _, hs3⟩ := C96_id mask pfx i h32
    rw [h0] at hs1
    cases hs1
    exact hs3

/-- C96: an IPv6 attribute is accepted exactly when its value is allowed for the use of the attribute, and is not changed. -/
theorem C96_ipv6 (addr : String → Bool) (net : String → Bool → Bool) (use : String) (hu : IsUse use) (v w : Val) :
    taIpv6 addr net use v = some w ↔ w = v ∧
      ((∃ b, v = .bool b ∧ (use = "interface" ∨ use = "subnet_prefix")) ∨ (∃ i, v = .int i ∧ use = "interface" ∧ Is32 i) ∨
       (∃ s, v = .str s ∧ addr s = true ∧ (use = "id" ∨ use = "address" ∨ use = "interface" ∧ ¬ HasSlash s)) ∨
       (∃ s, v = .str s ∧ net s false = true ∧ (use = "host_prefix" ∨ use = "interface" ∧ HasSlash s)) ∨
       (∃ s, v = .str s ∧ net s true = true ∧ (use = "prefix" ∨ use = "subnet_prefix"))) := by
  have fin : ∀ (c : Bool) (x : Val) (P : Prop), (c = true ↔ P) → ((if c = true then some x else none) = some w ↔ w = x ∧ P) := by
    intro c x P h
    rw [← h]
    cases c with
    | true => simp only [if_true, Option.some.injEq, and_true]; exact eq_comm
    | false => simp only [Bool.false_eq_true, if_false, and_false, reduceCtorEq]
  unfold taIpv6 taCommon
  cases v with
  | null => simp
  | list l => simp
  | dict d => simp
  | bool b =>
    simp only [Val.bool.injEq, reduceCtorEq, false_and, exists_false, or_false, exists_eq_left']
    by_cases h : use = "interface" ∨ use = "subnet_prefix"
    · rw [if_pos h]
      exact ⟨fun hw => by cases hw; exact ⟨rfl, h⟩, fun hw => by rw [hw.1]⟩
    · rw [if_neg h]
      exact ⟨fun hw => (nomatch hw), fun hw => absurd hw.2 h⟩
  | int i =>
    simp only [Bool.false_eq_true, and_false, if_false, Val.int.injEq, reduceCtorEq, false_and, exists_false, or_false, false_or, exists_eq_left']
    by_cases h : use = "interface"
    · rw [if_neg (fun hc => hc h)]
      have e : taInt none i = if (!(i < 0 || i > 2 ^ 32 - 1)) = true then some (Val.int i) else none := by
        unfold taInt
        cases (i < 0 || i > 2 ^ 32 - 1) <;> rfl
      rw [e]
      refine fin _ _ _ ?_
      rw [Bool.not_eq_true', is32_iff]
      exact ⟨fun h' => ⟨h, h'⟩, fun h' => h'.2⟩
    · rw [if_pos h]
      exact ⟨fun hw => (nomatch hw), fun hw => absurd hw.2.1 h⟩
  | str s =>
    simp only [IsUse, List.mem_cons, List.not_mem_nil, or_false] at hu
    simp only [taStr, Val.str.injEq, reduceCtorEq, false_and, exists_false, false_or, exists_eq_left']
    by_cases hx : use = "id" ∨ use = "address" ∨ use = "interface" ∧ '/' ∉ s.toList
    · rw [if_pos hx]
      refine fin _ _ _ ⟨fun h => Or.inl ⟨h, hx⟩, ?_⟩
      rintro (h | h | h)
      · exact h.1
      · rcases h.2 with h2 | h2
        · subst h2
          rcases hx with h4 | h4 | h4
          · exact absurd h4 (by decide)
          · exact absurd h4 (by decide)
          · exact absurd h4.1 (by decide)
        · obtain ⟨rfl, h3⟩ := h2
          rcases hx with h4 | h4 | h4
          · exact absurd h4 (by decide)
          · exact absurd h4 (by decide)
          · exact absurd h3 h4.2
      · rcases h.2 with h2 | h2 <;> subst h2 <;> rcases hx with h4 | h4 | h4 <;> first | exact absurd h4 (by decide) | exact absurd h4.1 (by decide)
    · rw [if_neg hx]
      by_cases hy : use = "interface" ∨ use = "host_prefix"
      · have hy' : (!decide (use = "interface" ∨ use = "host_prefix")) = false := by simp [hy]
        rw [hy']
        refine fin _ _ _ ⟨fun h => Or.inr (Or.inl ⟨h, ?_⟩), ?_⟩
        · rcases hy with hy | hy
          · refine Or.inr ⟨hy, ?_⟩
            apply Classical.byContradiction
            intro hs
            exact hx (Or.inr (Or.inr ⟨hy, hs⟩))
          · exact Or.inl hy
        · rintro (h | h | h)
          · exact absurd h.2 hx
          · exact h.1
          · rcases h.2 with h2 | h2 <;> (subst h2; exact absurd hy (by decide))
      · have hy' : (!decide (use = "interface" ∨ use = "host_prefix")) = true := by simp [hy]
        rw [hy']
        rw [not_or] at hy hx
        refine fin _ _ _ ⟨fun h => Or.inr (Or.inr ⟨h, ?_⟩), ?_⟩
        · rcases hu with h | h | h | h | h | h
          · exact absurd (Or.inl h) hx.2
          · exact Or.inl h
          · exact absurd h hy.2
          · exact absurd h hy.1
          · exact Or.inr h
          · exact absurd h hx.1
        · rintro (h | h | h)
          · exact absurd h.2 (not_or.2 hx)
          · rcases h.2 with h2 | h2
            · exact absurd h2 hy.2
            · exact absurd h2.1 hy.1
          · exact h.1

/-- C96: a named prefix with an IPv4 prefix is replaced with that prefix where named prefixes are allowed. -/
theorem C96_named (mask : String → Option Nat) (pfx : String → Option Val) (use : String) (s : String) :
    (∀ d w, pfx s = some (.dict d) → d.lookup "ipv4" = some w → taIpv4 mask pfx use true (.str s) = some w) ∧
    ((∀ d w, pfx s = some (.dict d) → d.lookup "ipv4" ≠ some w) → taIpv4 mask pfx use true (.str s) = taIpv4 mask pfx use false (.str s)) := by
  constructor
  · intro d w h1 h2
    simp only [taIpv4, taCommon, if_true, taNamed, h1, h2]
  · intro h
    have : taNamed pfx s = none := by
      unfold taNamed
      split
      · rename_i d hd
        cases hl : d.lookup "ipv4" with
        | none => rfl
        | some w => exact absurd hl (h d w hd)
      · rfl
    simp only [taIpv4, taCommon, if_true, this, Bool.false_eq_true, if_false]

/-! ### Other types -/

/-- C96: a value of a boolean attribute is a boolean, or a text with the same meaning. -/
theorem C96_bool (v : Val) (b : Bool) : taBool v = some (.bool b) ↔ v = .bool b ∨ (b = true ∧ (v = .str "True" ∨ v = .str "true")) ∨
    (b = false ∧ (v = .str "False" ∨ v = .str "false")) := by
  unfold taBool
  cases v with
  | str s =>
    simp only
    by_cases h1 : s = "True" ∨ s = "true"
    · rw [if_pos h1]
      rcases h1 with rfl | rfl <;> cases b <;> simp
    · rw [if_neg h1]
      rw [not_or] at h1
      by_cases h2 : s = "False" ∨ s = "false"
      · rw [if_pos h2]
        rcases h2 with rfl | rfl <;> cases b <;> simp
      · rw [if_neg h2]
        rw [not_or] at h2
        simp [h1, h2]
  | bool c => simp
  | _ => simp

/-- C96: names used as references are names of existing objects. -/
theorem C96_reference (l : List String) (v w : Val) : taMember l v = some w ↔ ∃ s, s ∈ l ∧ v = .str s ∧ w = .str s := by
  unfold taMember
  cases v with
  | str s =>
    by_cases h : s ∈ l
    · simp [h, eq_comm]
    · simp [h]
  | _ => simp

/-- C96: MAC addresses are unicast addresses. -/
theorem C96_mac (eui : String → Option Nat) (v w : Val) :
    taMac eui v = some w ↔ w = v ∧ ∃ s n, v = .str s ∧ eui s = some n ∧ n / 2 ^ 40 % 2 = 0 := by
  unfold taMac
  cases v with
  | str s =>
    simp only
    cases h : eui s with
    | none => simp [h]
    | some n =>
      simp only
      by_cases h1 : n / 2 ^ 40 % 2 = 1
      · rw [if_pos h1]
        constructor
        · intro hw; cases hw
        · rintro ⟨_, s', n', hs, hn, hz⟩
          cases hs
          rw [h] at hn
          cases hn
          omega
      · rw [if_neg h1]
        have : n / 2 ^ 40 % 2 = 0 := by omega
        constructor
        · intro hw
          cases hw
          exact ⟨rfl, s, n, rfl, h, this⟩
        · rintro ⟨rfl, _⟩
          rfl
  | _ => simp

/-- C96: an accepted route distinguisher or route target is a missing value, an offset, or a text that VRF code can parse. -/
theorem C96_rd (v : Val) : (taRd v).isSome = true ↔ v = .null ∨ (∃ b, v = .bool b) ∨ (∃ i, v = .int i) ∨ ∃ s, v = .str s ∧ (rdrtParse s).isSome = true := by
  unfold taRd
  cases v with
  | str s =>
    simp only [reduceCtorEq, exists_false, false_or, Val.str.injEq, exists_eq_left']
    unfold rdrtParse
    split
    · rename_i t i hs
      cases hi : pyIntChars i with
      | none =>
        cases ht : pyIntChars t <;> simp
      | some b =>
        cases ht : pyIntChars t with
        | some a => simp
        | none => cases hv : (v4Chars t).isSome <;> simp
    · rfl
  | _ => simp

/-- C96: a parsed route target or route distinguisher consists of an integer or an IPv4 address, and an integer. -/
theorem C96_rd_parts (t i : String) (x : Int ⊕ String) (b : Int) (ht : NoColon t) (hi : NoColon i) :
    rdrtParse (t ++ ":" ++ i) = some (x, b) ↔ pyIntChars i.toList = some b ∧
      ((∃ a, x = .inl a ∧ pyIntChars t.toList = some a) ∨ (pyIntChars t.toList = none ∧ x = .inr t ∧ ∃ n, DottedQuad t n)) := by
  have hsp : splitOnChar ':' (t ++ ":" ++ i).toList = [t.toList, i.toList] := by
    have : (t ++ ":" ++ i).toList = t.toList ++ ':' :: i.toList := by simp
    rw [this, splitOnChar_append _ _ _ ht, splitOnChar_one _ _ hi]
  have hv : (v4Chars t.toList).isSome = true ↔ ∃ n, DottedQuad t n := by
    rw [Option.isSome_iff_exists]
    exact ⟨fun ⟨n, hn⟩ => ⟨n, (v4Addr_iff t n).1 hn⟩, fun ⟨n, hn⟩ => ⟨n, (v4Addr_iff t n).2 hn⟩⟩
  unfold rdrtParse
  rw [hsp]
  simp only [String.ofList_toList]
  cases h1 : pyIntChars t.toList with
  | some a =>
    cases h2 : pyIntChars i.toList with
    | some c =>
      simp only [Option.some.injEq, Prod.mk.injEq, reduceCtorEq, false_and, or_false]
      constructor
      · rintro ⟨rfl, rfl⟩; exact ⟨rfl, a, rfl, rfl⟩
      · rintro ⟨rfl, _, rfl, rfl⟩; exact ⟨rfl, rfl⟩
    | none =>
      cases hb : (v4Chars t.toList).isSome <;> simp
  | none =>
    simp only [reduceCtorEq, and_false, exists_false, false_or, true_and]
    by_cases hb : (v4Chars t.toList).isSome = true
    · rw [if_pos hb]
      have := hv.1 hb
      cases h2 : pyIntChars i.toList with
      | none => simp
      | some c =>
        simp only [Option.map_some, Option.some.injEq, Prod.mk.injEq]
        constructor
        · rintro ⟨rfl, rfl⟩; exact ⟨rfl, rfl, this⟩
        · rintro ⟨rfl, rfl, _⟩; exact ⟨rfl, rfl⟩
    · rw [if_neg hb]
      constructor
      · intro h; cases h
      · rintro ⟨_, _, h⟩
        exact absurd (hv.2 h) hb

/-- C96: an IS-IS NET consists of dots and of an even number of hexadecimal digits. -/
theorem C96_net (v w : Val) : taNet v = some w ↔ w = v ∧ ∃ s, v = .str s ∧ s ≠ "" ∧ (∀ c ∈ s.toList, c = '.' ∨ c ∈ "0123456789abcdef".toList) ∧
    (s.toList.filter (· ≠ '.')).length % 2 = 0 := by
  have hch : ∀ c : Char, taNetChar c = true ↔ c = '.' ∨ c ∈ "0123456789abcdef".toList := by
    intro c
    have hl : "0123456789abcdef".toList = ['0', '1', '2', '3', '4', '5', '6', '7', '8', '9', 'a', 'b', 'c', 'd', 'e', 'f'] := rfl
    rw [hl]
    constructor
    · intro h
      simp only [taNetChar, Bool.or_eq_true, Bool.and_eq_true, decide_eq_true_eq, beq_iff_eq] at h
      rcases h with (h | h) | h
      · have h1 : 48 ≤ c.toNat ∧ c.toNat ≤ 57 := ⟨UInt32.le_iff_toNat_le.1 h.1, UInt32.le_iff_toNat_le.1 h.2⟩
        right
        have hc : c = Char.ofNat (48 + (c.toNat - 48)) := by
          have : 48 + (c.toNat - 48) = c.toNat := by omega
          rw [this, Char.ofNat_toNat]
        rw [hc]
        exact (by decide : ∀ m : Fin 10, Char.ofNat (48 + m.val) ∈ ['0', '1', '2', '3', '4', '5', '6', '7', '8', '9', 'a', 'b', 'c', 'd', 'e', 'f']) ⟨c.toNat - 48, by omega⟩
      · have h1 : 97 ≤ c.toNat ∧ c.toNat ≤ 102 := ⟨UInt32.le_iff_toNat_le.1 h.1, UInt32.le_iff_toNat_le.1 h.2⟩
        right
        have hc : c = Char.ofNat (97 + (c.toNat - 97)) := by
          have : 97 + (c.toNat - 97) = c.toNat := by omega
          rw [this, Char.ofNat_toNat]
        rw [hc]
        exact (by decide : ∀ m : Fin 6, Char.ofNat (97 + m.val) ∈ ['0', '1', '2', '3', '4', '5', '6', '7', '8', '9', 'a', 'b', 'c', 'd', 'e', 'f']) ⟨c.toNat - 97, by omega⟩
      · exact Or.inl h
    · rintro (rfl | h)
      · decide
      · exact (by decide : ∀ c ∈ ['0', '1', '2', '3', '4', '5', '6', '7', '8', '9', 'a', 'b', 'c', 'd', 'e', 'f'], taNetChar c = true) c h
  unfold taNet
  cases v with
  | str s =>
    simp only [Val.str.injEq, exists_eq_left']
    by_cases h1 : (s.toList.isEmpty || !s.toList.all taNetChar) = true
    · rw [if_pos h1]
      constructor
      · intro h; cases h
      · rintro ⟨_, hne, hall, _⟩
        simp only [Bool.or_eq_true, Bool.not_eq_true'] at h1
        rcases h1 with h1 | h1
        · refine absurd (String.toList_injective ?_) hne
          simpa using h1
        · have : s.toList.all taNetChar = true := List.all_eq_true.2 (fun c hc => (hch c).2 (hall c hc))
          rw [this] at h1
          cases h1
    · rw [if_neg h1]
      simp only [Bool.or_eq_true, Bool.not_eq_true', not_or, Bool.not_eq_true, Bool.not_eq_false] at h1
      have hne : s ≠ "" := by
        rintro rfl
        exact absurd h1.1 (by decide)
      have hall : ∀ c ∈ s.toList, c = '.' ∨ c ∈ "0123456789abcdef".toList := fun c hc => (hch c).1 (List.all_eq_true.1 h1.2 c hc)
      by_cases h2 : (s.toList.filter (· ≠ '.')).length % 2 ≠ 0
      · rw [if_pos h2]
        constructor
        · intro h; cases h
        · rintro ⟨_, _, _, h⟩
          exact absurd h h2
      · rw [if_neg h2]
        constructor
        · intro h
          cases h
          exact ⟨rfl, hne, hall, Classical.not_not.1 h2⟩
        · rintro ⟨rfl, _⟩
          rfl
  | _ => simp

/-- C96: a text used as a prefix becomes an IPv4 or an IPv6 prefix, or the named prefix with that name. -/
theorem C96_prefix_str (mask : String → Option Nat) (net6 : String → Bool) (pfx : String → Option Val) (v w : Val) :
    taPrefixStr mask net6 pfx v = some w ↔ ∃ s, v = .str s ∧
      ((Ipv4Ok (plenOf mask) "prefix" v ∧ w = .dict [("ipv4", v)]) ∨ (¬ Ipv4Ok (plenOf mask) "prefix" v ∧ net6 s = true ∧ w = .dict [("ipv6", v)]) ∨
       (¬ Ipv4Ok (plenOf mask) "prefix" v ∧ net6 s = false ∧ pfx s = some w)) := by
  unfold taPrefixStr
  cases v with
  | str s =>
    have h4 : v4Net mask s true = true ↔ Ipv4Ok (plenOf mask) "prefix" (.str s) := by
      rw [v4Net_iff]
      constructor
      · rintro (⟨n, h⟩ | ⟨n, p, h, hz⟩)
        · exact .addr s n h
        · exact .net s n p h (hz rfl) (Or.inl rfl)
      · intro h
        cases h with
        | addr _ n h => exact Or.inl ⟨n, h⟩
        | host _ n p h h' => exact absurd h' (by decide)
        | net _ n p h hz _ => exact Or.inr ⟨n, p, h, fun _ => hz⟩
    simp only [Val.str.injEq, exists_eq_left']
    by_cases h : v4Net mask s true = true
    · rw [if_pos h]
      have hp := h4.1 h
      constructor
      · intro hw
        cases hw
        exact Or.inl ⟨hp, rfl⟩
      · rintro (⟨_, rfl⟩ | h' | h')
        · rfl
        · exact absurd hp h'.1
        · exact absurd hp h'.1
    · rw [if_neg h]
      have hn : ¬ Ipv4Ok (plenOf mask) "prefix" (.str s) := fun hh => h (h4.2 hh)
      cases h6 : net6 s with
      | true =>
        constructor
        · intro hw
          cases hw
          exact Or.inr (Or.inl ⟨hn, rfl, rfl⟩)
        · rintro (h' | ⟨_, _, rfl⟩ | h')
          · exact absurd h'.1 hn
          · rfl
          · exact absurd h'.2.1 (by decide)
      | false => simp [hn]
  | _ => simp

/-! ### Examples -/

example : taIpv4 (fun _ => none) (fun _ => none) "id" false (.int 10) = some (.str "0.0.0.10") := by rfl
example : Ipv4Ok (plenOf (fun _ => none)) "host_prefix" (.str "10.0.0.1/24") :=
  .host _ (10 * 2 ^ 24 + 1) 24 ⟨"10.0.0.1", "24", by decide, by unfold HasSlash; decide, ⟨10, 0, 0, 1, by omega, by omega, by omega, by omega, by decide, by omega⟩,
    C96_prefix_length _ 24⟩ (Or.inr rfl)
example : rdrtParse "10.0.0.1:7" = some (.inr "10.0.0.1", 7) := by decide +kernel
example : rdrtParse "65000:7" = some (.inl 65000, 7) := by decide +kernel

/-- C96 defect: although prefixes should have a prefix length, an address is accepted as a prefix. -/
theorem C96_prefix_without_length (s : String) (n : Nat) (h : DottedQuad s n) (use : String) (hu : use = "prefix" ∨ use = "host_prefix" ∨ use = "subnet_prefix")
    (mask : String → Option Nat) (pfx : String → Option Val) : ¬ HasSlash s ∧ taIpv4 mask pfx use false (.str s) = some (.str s) := by
  refine ⟨quad_no_slash s n h, ?_⟩
  rw [C96_ipv4 mask pfx use (by rcases hu with rfl | rfl | rfl <;> simp [IsUse])]
  exact ⟨.addr s n h, fun i hi => (nomatch hi), fun _ => rfl⟩

/-- C96 defect: a multicast prefix is accepted as a subnet prefix. -/
theorem C96_multicast_subnet (mask : String → Option Nat) (pfx : String → Option Val) :
    taIpv4 mask pfx "subnet_prefix" false (.str "224.0.0.0/24") = some (.str "224.0.0.0/24") := by
  rw [C96_ipv4 mask pfx _ (by simp [IsUse])]
  refine ⟨.net _ (224 * 2 ^ 24) 24 ⟨"224.0.0.0", "24", by decide, by unfold HasSlash; decide,
    ⟨224, 0, 0, 0, by omega, by omega, by omega, by omega, by decide, by omega⟩, C96_prefix_length _ 24⟩ (by decide) (Or.inr rfl), fun i hi => (nomatch hi), fun _ => rfl⟩

/-- C96 defect: an IS-IS NET without any digits is accepted. -/
theorem C96_empty_net : (taNet (.str "...")).isSome = true := by decide +kernel

/-- C96 defect: negative numbers and booleans are accepted as route distinguishers. -/
theorem C96_strange_rd (i : Int) (b : Bool) : (taRd (.int i)).isSome = true ∧ (taRd (.bool b)).isSome = true ∧ (taRd (.str "-1:-1")).isSome = true :=
  ⟨rfl, rfl, by decide +kernel⟩

end Netlab
