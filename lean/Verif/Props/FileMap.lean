import Verif.Spec.FileMap
import Verif.Model.Settings
import Verif.Props.Nodeset
import Verif.Props.Fabric
import Verif.Props.Stp
import Verif.Props.BgpSession

namespace Netlab

open Spec

/-! ### Dictionaries -/

theorem fmChain_nested (path : List String) (v k : String) : fmChain k (NestedFile path v) = (dottedName (k :: path), .str v) := by
  induction path generalizing k with
  | nil => simp [NestedFile, fmChain]; rfl
  | cons a r ih =>
    simp only [NestedFile]
    rw [fmChain, ih]
    rfl

theorem fmChain_str (v : Val) (k s : String) (h : (fmChain k v).2 = .str s) : ∃ path, v = NestedFile path s := by
  induction k, v using fmChain.induct with
  | case1 k a v ih =>
    rw [fmChain] at h
    obtain ⟨path, hp⟩ := ih h
    exact ⟨a :: path, by rw [hp]; rfl⟩
  | case2 k v hv =>
    rw [fmChain] at h
    · exact ⟨[], h⟩
    · exact hv

theorem dottedName_head (k : String) (path : List String) :
    dottedName (k :: path) = k ∨ ∃ r, (dottedName (k :: path)).toList = k.toList ++ '.' :: r := by
  induction path generalizing k with
  | nil => exact Or.inl rfl
  | cons a r ih =>
    right
    have he : dottedName (k :: a :: r) = dottedName ((k ++ "." ++ a) :: r) := rfl
    rw [he]
    rcases ih (k ++ "." ++ a) with h | ⟨x, h⟩
    · exact ⟨a.toList, by rw [h]; simp⟩
    · exact ⟨a.toList ++ '.' :: x, by rw [h]; simp⟩

theorem dot_prefix_inj (a b : List Char) (ha : '.' ∉ a) (hb : '.' ∉ b) (x y : List Char) (hx : x = [] ∨ ∃ r, x = '.' :: r) (hy : y = [] ∨ ∃ r, y = '.' :: r)
    (h : a ++ x = b ++ y) : a = b := by
  induction a generalizing b with
  | nil =>
    cases b with
    | nil => rfl
    | cons c r =>
      rcases hx with rfl | ⟨s, rfl⟩
      · simp at h
      · simp only [List.nil_append, List.cons_append, List.cons.injEq] at h
        exact absurd (h.1 ▸ List.mem_cons_self) hb
  | cons c r ih =>
    cases b with
    | nil =>
      rcases hy with rfl | ⟨s, rfl⟩
      · simp at h
      · simp only [List.nil_append, List.cons_append, List.cons.injEq] at h
        exact absurd (h.1 ▸ List.mem_cons_self) ha
    | cons d s =>
      simp only [List.cons_append, List.cons.injEq] at h
      rw [h.1, ih s (fun hm => ha (List.mem_cons_of_mem _ hm)) (fun hm => hb (List.mem_cons_of_mem _ hm)) h.2]

theorem dottedName_inj (k k' : String) (hk : '.' ∉ k.toList) (hk' : '.' ∉ k'.toList) (p p' : List String) (h : dottedName (k :: p) = dottedName (k' :: p')) : k = k' := by
  have key : ∀ k p, ∃ x, (dottedName (k :: p)).toList = k.toList ++ x ∧ (x = [] ∨ ∃ r, x = '.' :: r) := by
    intro k p
    rcases dottedName_head k p with h | ⟨r, h⟩
    · exact ⟨[], by rw [h]; simp, Or.inl rfl⟩
    · exact ⟨_, h, Or.inr ⟨r, rfl⟩⟩
  obtain ⟨x, h1, h2⟩ := key k p
  obtain ⟨y, h3, h4⟩ := key k' p'
  rw [h, h3] at h1
  exact String.toList_inj.1 (dot_prefix_inj _ _ hk hk' x y h2 h4 h1.symm)

/-- The key in the flattened dictionary starts with the key in the `Box`. -/
theorem fmChain_key (k : String) (v : Val) : ∃ path, (fmChain k v).1 = dottedName (k :: path) := by
  induction k, v using fmChain.induct with
  | case1 k a v ih =>
    obtain ⟨path, hp⟩ := ih
    rw [fmChain]
    exact ⟨a :: path, hp⟩
  | case2 k v hv =>
    refine ⟨[], ?_⟩
    rw [fmChain]
    · rfl
    · exact hv

theorem foldl_setKey_map {β γ : Type} (key : γ → String) (val : γ → β) (l : List γ) (d : List (String × β)) (hn : (l.map key).Nodup)
    (hd : ∀ x ∈ l, key x ∉ d.map Prod.fst) : l.foldl (fun d n => setKey d (key n) (val n)) d = d ++ l.map (fun n => (key n, val n)) := by
  induction l generalizing d with
  | nil => simp
  | cons x rest ih =>
    simp only [List.map_cons, List.nodup_cons] at hn
    have hx : setKey d (key x) (val x) = d ++ [(key x, val x)] := by
      have := setKey_append d [] (key x) (val x) (by simpa using hd x List.mem_cons_self)
      simpa [setKey] using this
    simp only [List.foldl_cons, hx]
    rw [ih _ hn.2 ?_]
    · simp
    · intro y hy
      simp only [List.map_append, List.map_cons, List.map_nil, List.mem_append, List.mem_cons, List.not_mem_nil, or_false, not_or]
      exact ⟨hd y (List.mem_cons_of_mem _ hy), fun he => hn.1 (he ▸ List.mem_map_of_mem hy)⟩

/-- The keys of a `Box` are different and have no dots. -/
theorem fmBoxToDict_eq (b : List (String × Val)) (hn : (b.map (·.1)).Nodup) (hd : ∀ p ∈ b, '.' ∉ p.1.toList) :
    fmBoxToDict b = b.map (fun p => fmChain p.1 p.2) := by
  unfold fmBoxToDict
  rw [foldl_setKey_map (fun p : String × Val => (fmChain p.1 p.2).1) (fun p => (fmChain p.1 p.2).2) b []]
  · rfl
  · rw [List.Nodup, List.pairwise_map] at hn ⊢
    have : List.Pairwise (fun a c : String × Val => a ∈ b ∧ c ∈ b ∧ a.1 ≠ c.1) b := by
      exact List.Pairwise.imp_of_mem (fun ha hc h => ⟨ha, hc, h⟩) hn
    refine this.imp ?_
    rintro a c ⟨ha, hc, hne⟩ he
    obtain ⟨p, hp⟩ := fmChain_key a.1 a.2
    obtain ⟨p', hp'⟩ := fmChain_key c.1 c.2
    simp only [hp, hp'] at he
    exact hne (dottedName_inj _ _ (hd a ha) (hd c hc) p p' he)
  · simp

/-- C91: a dictionary of files turned into a `Box` hierarchy results in one line for every file. -/
theorem C91_dict (E : List (String × List String × String)) (hn : (E.map (·.1)).Nodup) (hd : ∀ e ∈ E, '.' ∉ e.1.toList) :
    fmNormalize (.dict (E.map (fun e => (e.1, NestedFile e.2.1 e.2.2)))) = (.list (E.map (fun e => .str (dottedName (e.1 :: e.2.1) ++ ":" ++ e.2.2))), 0) := by
  have hb : fmBoxToDict (E.map (fun e => (e.1, NestedFile e.2.1 e.2.2))) = E.map (fun e => (dottedName (e.1 :: e.2.1), .str e.2.2)) := by
    rw [fmBoxToDict_eq]
    · rw [List.map_map]
      refine List.map_congr_left (fun e _ => ?_)
      exact fmChain_nested _ _ _
    · rw [List.map_map]
      exact hn
    · intro p hp
      obtain ⟨e, he, rfl⟩ := List.mem_map.1 hp
      exact hd e he
  unfold fmNormalize
  simp only [hb]
  have hz : ((E.map (fun e => (dottedName (e.1 :: e.2.1), Val.str e.2.2))).map fmDictErr).sum = 0 := by
    rw [gi_sum_zero]
    intro p hp
    obtain ⟨e, _, rfl⟩ := List.mem_map.1 hp
    rfl
  rw [if_neg (fun h => h hz)]
  simp only [fmMapping, List.map_map]
  congr 2

/-- C91: any other dictionary is rejected. -/
theorem C91_dict_rejected (b : List (String × Val)) (hn : (b.map (·.1)).Nodup) (hd : ∀ p ∈ b, '.' ∉ p.1.toList) (p : String × Val) (hp : p ∈ b)
    (hb : ∀ path s, p.2 ≠ NestedFile path s) : (fmNormalize (.dict b)).1 = .list [] ∧ (fmNormalize (.dict b)).2 ≠ 0 := by
  have hs : ((fmBoxToDict b).map fmDictErr).sum ≠ 0 := by
    rw [ne_eq, gi_sum_zero, fmBoxToDict_eq b hn hd]
    intro h
    have := h _ (List.mem_map_of_mem hp)
    unfold fmDictErr at this
    cases hv : (fmChain p.1 p.2).2 with
    | str s =>
      obtain ⟨path, hpath⟩ := fmChain_str p.2 p.1 s hv
      exact hb path s hpath
    | _ => rw [hv] at this; simp [Val.isStr] at this
  unfold fmNormalize
  simp only [if_pos hs]
  exact ⟨trivial, hs⟩

theorem setPath_nested (q : List String) (k v : String) : setPath (.str v) (k :: q) [] = some [(k, NestedFile q v)] := by
  induction q generalizing k with
  | nil => rfl
  | cons a r ih =>
    unfold setPath
    simp [ih, setKey, NestedFile]

/-- C91: the hierarchy is the one created from file names when the names are different up to the first dot. -/
theorem C91_box (E : List (String × List String × String)) (hn : (E.map (·.1)).Nodup) :
    E.foldlM (fun d e => setPath (.str e.2.2) (e.1 :: e.2.1) d) [] = some (E.map (fun e => (e.1, NestedFile e.2.1 e.2.2))) := by
  have key : ∀ (E : List (String × List String × String)) (d : List (String × Val)), (E.map (·.1)).Nodup → (∀ e ∈ E, e.1 ∉ d.map Prod.fst) →
      E.foldlM (fun d e => setPath (.str e.2.2) (e.1 :: e.2.1) d) d = some (d ++ E.map (fun e => (e.1, NestedFile e.2.1 e.2.2))) := by
    intro E
    induction E with
    | nil => intro d _ _; simp
    | cons e r ih =>
      intro d hn hd
      simp only [List.map_cons, List.nodup_cons] at hn
      have hk : e.1 ∉ d.map Prod.fst := hd e List.mem_cons_self
      have hset : ∀ v : Val, setKey d e.1 v = d ++ [(e.1, v)] := by
        intro v
        have := setKey_append d [] e.1 v (by simpa using hk)
        simpa [setKey] using this
      have hs : setPath (.str e.2.2) (e.1 :: e.2.1) d = some (d ++ [(e.1, NestedFile e.2.1 e.2.2)]) := by
        cases hq : e.2.1 with
        | nil => unfold setPath; rw [hset]; rfl
        | cons a q =>
          unfold setPath
          rw [lookup_eq_none_iff.2 hk, setPath_nested]
          simp only [Option.map_some, hset, NestedFile]
      rw [List.foldlM_cons, hs]
      simp only [Option.bind_eq_bind, Option.bind_some]
      rw [ih _ hn.2 ?_]
      · simp
      · intro x hx
        simp only [List.map_append, List.map_cons, List.map_nil, List.mem_append, List.mem_cons, List.not_mem_nil, or_false, not_or]
        exact ⟨hd x (List.mem_cons_of_mem _ hx), fun he => hn.1 (he ▸ List.mem_map_of_mem hx)⟩
  have := key E [] hn (by simp)
  simpa using this

/-! ### Lists -/

theorem splitOnChar_length (sep : Char) (l : List Char) : (splitOnChar sep l).length = l.count sep + 1 := by
  induction l with
  | nil => rfl
  | cons c r ih =>
    unfold splitOnChar
    by_cases h : (c == sep) = true
    · rw [if_pos h, List.length_cons, ih, beq_iff_eq.1 h, List.count_cons_self]
    · rw [if_neg h]
      have hc : (c :: r).count sep = r.count sep := List.count_cons_of_ne (by simpa using h)
      rw [hc]
      cases hs : splitOnChar sep r with
      | nil => exact absurd hs (splitOnChar_ne_nil sep r)
      | cons p ps => rw [hs] at ih; simpa using ih

theorem one_colon_iff (s : String) : (splitOnChar ':' s.toList).length = 2 ↔ ∃ h t, s = h ++ ":" ++ t ∧ NoColon h ∧ NoColon t := by
  rw [splitOnChar_length]
  constructor
  · intro hc
    have hm : ':' ∈ s.toList := List.count_pos_iff.1 (by omega)
    obtain ⟨a, b, hab⟩ := List.append_of_mem hm
    have : a.count ':' = 0 ∧ b.count ':' = 0 := by
      rw [hab, List.count_append, List.count_cons_self] at hc
      omega
    refine ⟨String.ofList a, String.ofList b, ?_, ?_, ?_⟩
    · rw [← String.toList_inj]
      simp [hab]
    · unfold NoColon
      rw [String.toList_ofList]
      exact List.count_eq_zero.1 this.1
    · unfold NoColon
      rw [String.toList_ofList]
      exact List.count_eq_zero.1 this.2
  · rintro ⟨h, t, rfl, h1, h2⟩
    have e1 := List.count_eq_zero.2 h1
    have e2 := List.count_eq_zero.2 h2
    simp [e1, e2]

/-- C91: a list is accepted, and not changed, exactly when every element is a string with a single colon; other lists are emptied. -/
theorem C91_list (l : List Val) :
    ((∀ x ∈ l, ∃ h t, x = .str (h ++ ":" ++ t) ∧ NoColon h ∧ NoColon t) ∧ fmNormalize (.list l) = (.list l, 0)) ∨
    ((∃ x ∈ l, ¬ ∃ h t, x = .str (h ++ ":" ++ t) ∧ NoColon h ∧ NoColon t) ∧ (fmNormalize (.list l)).1 = .list [] ∧ (fmNormalize (.list l)).2 ≠ 0) := by
  have hz : ∀ x, fmListErr x = 0 ↔ ∃ h t, x = .str (h ++ ":" ++ t) ∧ NoColon h ∧ NoColon t := by
    intro x
    unfold fmListErr
    cases x with
    | str s =>
      simp only [Val.str.injEq]
      rw [← one_colon_iff]
      by_cases h : (splitOnChar ':' s.toList).length = 2 <;> simp [h]
    | _ => simp
  by_cases h : (l.map fmListErr).sum = 0
  · left
    refine ⟨fun x hx => (hz x).1 ((gi_sum_zero _ _).1 h x hx), ?_⟩
    unfold fmNormalize
    exact if_neg (by simp [h])
  · right
    refine ⟨?_, ?_⟩
    · rw [gi_sum_zero] at h
      simp only [Classical.not_forall] at h
      obtain ⟨x, hx, hne⟩ := h
      exact ⟨x, hx, fun hh => hne ((hz x).2 hh)⟩
    · unfold fmNormalize
      have h' : (l.map fmListErr).sum ≠ 0 := h
      simp only [if_pos h']
      exact ⟨trivial, h⟩

/-! ### Lines -/

theorem fmSplit_line (h t : String) (hh : NoColon h) : fmSplit (h ++ ":" ++ t) = some (h, t) := by
  have hl : (h ++ ":" ++ t).toList = h.toList ++ ':' :: t.toList := by simp
  have hw : ∀ l r : List Char, ':' ∉ l → (l ++ ':' :: r).takeWhile (· ≠ ':') = l ∧ (l ++ ':' :: r).dropWhile (· ≠ ':') = ':' :: r := by
    intro l r hl
    induction l with
    | nil => simp
    | cons c l ih =>
      simp only [List.mem_cons, not_or] at hl
      have hc : c ≠ ':' := fun he => hl.1 he.symm
      rw [List.cons_append, List.takeWhile_cons_of_pos (by simpa using hc), List.dropWhile_cons_of_pos (by simpa using hc), (ih hl.2).1, (ih hl.2).2]
      exact ⟨rfl, rfl⟩
  unfold fmSplit
  rw [hl, (hw _ _ hh).1, (hw _ _ hh).2]
  rw [if_pos (by simp)]
  simp

theorem fmSplit_spec (s : String) (p : String × String) (h : fmSplit s = some p) : s = p.1 ++ ":" ++ p.2 ∧ NoColon p.1 := by
  unfold fmSplit at h
  by_cases hc : s.toList.contains ':' = true
  · have hm : ':' ∈ s.toList := List.contains_iff_mem.1 hc
    have hw : ∀ l : List Char, ':' ∈ l → ∃ a b, l = a ++ ':' :: b ∧ ':' ∉ a := by
      intro l hl
      induction l with
      | nil => cases hl
      | cons c l ih =>
        by_cases he : c = ':'
        · exact ⟨[], l, by rw [he]; rfl, by simp⟩
        · obtain ⟨a, b, hab, ha⟩ := ih (by rcases List.mem_cons.1 hl with h | h; exact absurd h.symm he; exact h)
          refine ⟨c :: a, b, by rw [hab]; rfl, ?_⟩
          simp only [List.mem_cons, not_or]
          exact ⟨fun h => he h.symm, ha⟩
    obtain ⟨a, b, hab, ha⟩ := hw _ hm
    have hs : s = String.ofList a ++ ":" ++ String.ofList b := by
      rw [← String.toList_inj]
      simp [hab]
    have hn : NoColon (String.ofList a) := by
      unfold NoColon
      rw [String.toList_ofList]
      exact ha
    have := fmSplit_line (String.ofList a) (String.ofList b) hn
    rw [← hs] at this
    unfold fmSplit at this
    rw [h] at this
    cases this
    exact ⟨hs, hn⟩
  · rw [if_neg hc] at h
    cases h

theorem fmDict_parsed (m : List String) (l : List (String × String)) (h : ParsedLines m l) (hn : (l.map (·.1)).Nodup) : fmDict m = some l := by
  have : m.mapM fmSplit = some l := by
    unfold ParsedLines at h
    induction h with
    | nil => rfl
    | @cons s p m l hp _ ih =>
      simp only [List.map_cons, List.nodup_cons] at hn
      rw [List.mapM_cons, hp.1, fmSplit_line _ _ hp.2, ih hn.2]
      rfl
  unfold fmDict
  rw [this]
  simp only [Option.map_some, Option.some.injEq]
  rw [foldl_setKey_map (fun p : String × String => p.1) (fun p => p.2) l [] hn (by simp)]
  simp

theorem parsed_mapping (d : List (String × String)) (h : ∀ p ∈ d, NoColon p.1) : ParsedLines (fmMapping d) d := by
  unfold ParsedLines fmMapping
  induction d with
  | nil => exact .nil
  | cons p r ih => exact .cons ⟨rfl, h p List.mem_cons_self⟩ (ih (fun x hx => h x (List.mem_cons_of_mem _ hx)))

/-- C91: a dictionary written as lines is read back. -/
theorem C91_round_trip (d : List (String × String)) (hn : (d.map (·.1)).Nodup) (h : ∀ p ∈ d, NoColon p.1) : fmDict (fmMapping d) = some d :=
  fmDict_parsed _ _ (parsed_mapping d h) hn

/-! ### Extra files -/

theorem startsWith_append (p r : String) : StartsWith p (p ++ r) := ⟨r, rfl⟩

/-- The files created from templates -/
def fmUsed (found : String → Bool) (folder : String) (b t : List (String × String)) : List (String × String) :=
  (t.filter (fun p => (b.lookup (fileName p.1)).isNone && found (fileName p.1))).map (fun p => (folder ++ "/" ++ fileName p.1, p.2))

theorem fmExtraLoop_spec (found : String → Bool) (folder : String) (b : List (String × String)) (t a : List (String × String))
    (hb : ∀ p ∈ b, ¬ StartsWith (folder ++ "/") p.1) (ht : ∀ p ∈ t, ¬ StartsWith (folder ++ "/") (fileName p.1)) (hn : (t.map (fun p => fileName p.1)).Nodup)
    (ha : ∀ p ∈ a, StartsWith (folder ++ "/") p.1) (hd : ∀ p ∈ t, folder ++ "/" ++ fileName p.1 ∉ a.map (·.1)) :
    fmExtraLoop found folder t (b ++ a) = (b ++ a ++ fmUsed found folder b t,
      (t.filter (fun p => (b.lookup (fileName p.1)).isNone && !found (fileName p.1))).length) := by
  induction t generalizing a with
  | nil => simp [fmExtraLoop, fmUsed]
  | cons p r ih =>
    simp only [List.map_cons, List.nodup_cons] at hn
    have hr := fun (x : String × String) (hx : x ∈ r) => ht x (List.mem_cons_of_mem _ hx)
    have hdr := fun (x : String × String) (hx : x ∈ r) => hd x (List.mem_cons_of_mem _ hx)
    have hlook : (b ++ a).lookup (fileName p.1) = b.lookup (fileName p.1) := by
      have hna : a.lookup (fileName p.1) = none := by
        rw [lookup_eq_none_iff]
        intro hm
        obtain ⟨x, hx, he⟩ := List.mem_map.1 hm
        have := ha x hx
        rw [he] at this
        exact ht p List.mem_cons_self this
      rw [List.lookup_append, hna]
      simp
    have hdot : ncDot p.1 = fileName p.1 := rfl
    unfold fmExtraLoop
    rw [hdot, hlook]
    unfold fmUsed
    by_cases h1 : (b.lookup (fileName p.1)).isSome = true
    · have h1' : (b.lookup (fileName p.1)).isNone = false := by
        cases hx : b.lookup (fileName p.1) with
        | none => rw [hx] at h1; cases h1
        | some v => rfl
      rw [if_pos h1, ih a hr hn.2 ha hdr, List.filter_cons_of_neg (by simp [h1']), List.filter_cons_of_neg (by simp [h1'])]
      rfl
    · have h1' : (b.lookup (fileName p.1)).isNone = true := by
        cases hx : b.lookup (fileName p.1) with
        | none => rfl
        | some v => rw [hx] at h1; exact absurd rfl h1
      rw [if_neg h1]
      by_cases h2 : (!found (fileName p.1)) = true
      · have h2' : found (fileName p.1) = false := by simpa using h2
        rw [if_pos h2, ih a hr hn.2 ha hdr, List.filter_cons_of_neg (by simp [h2']), List.filter_cons_of_pos (by simp [h1', h2'])]
        rfl
      · have h2' : found (fileName p.1) = true := by simpa using h2
        rw [if_neg h2]
        have hnew : folder ++ "/" ++ fileName p.1 ∉ (b ++ a).map Prod.fst := by
          rw [List.map_append, List.mem_append, not_or]
          refine ⟨fun hm => ?_, hd p List.mem_cons_self⟩
          obtain ⟨x, hx, he⟩ := List.mem_map.1 hm
          exact hb x hx (by rw [he]; exact startsWith_append _ _)
        have hset : setKey (b ++ a) (folder ++ "/" ++ fileName p.1) p.2 = b ++ (a ++ [(folder ++ "/" ++ fileName p.1, p.2)]) := by
          have := setKey_append (b ++ a) [] (folder ++ "/" ++ fileName p.1) p.2 (by simpa using hnew)
          simpa [setKey] using this
        rw [hset, ih _ hr hn.2 ?_ ?_, List.filter_cons_of_pos (by simp [h1', h2']), List.filter_cons_of_neg (by simp [h2'])]
        · simp [fmUsed]
        · intro x hx
          rcases List.mem_append.1 hx with hx | hx
          · exact ha x hx
          · rw [List.mem_singleton.1 hx]
            exact startsWith_append _ _
        · intro x hx
          simp only [List.map_append, List.map_cons, List.map_nil, List.mem_append, List.mem_cons, List.not_mem_nil, or_false, not_or]
          refine ⟨hdr x hx, fun he => hn.1 ?_⟩
          have : fileName x.1 = fileName p.1 := by
            rw [← String.toList_inj] at he ⊢
            simpa using he
          rw [← this]
          exact List.mem_map_of_mem (f := fun p : String × String => fileName p.1) hx

/-- C91: templates add a mapping for every template that exists and is not a mapped file; existing mappings are kept; every other template that is
not a mapped file is an error. -/
theorem C91_extra (found : String → Bool) (folder : String) (templates binds : List String) (t b : List (String × String)) (h0 : templates ≠ [])
    (ht : ParsedLines templates t) (hb : ParsedLines binds b) (htn : (t.map (fun p => fileName p.1)).Nodup) (hbn : (b.map (·.1)).Nodup)
    (hbf : ∀ p ∈ b, ¬ StartsWith (folder ++ "/") p.1) (htf : ∀ p ∈ t, ¬ StartsWith (folder ++ "/") (fileName p.1)) :
    fmExtra found folder templates binds = some (
      binds ++ (t.filter (fun p => (b.lookup (fileName p.1)).isNone && found (fileName p.1))).map (fun p => folder ++ "/" ++ fileName p.1 ++ ":" ++ p.2),
      (t.filter (fun p => (b.lookup (fileName p.1)).isNone && !found (fileName p.1))).length) := by
  have htn' : (t.map (·.1)).Nodup := by
    rw [List.Nodup, List.pairwise_map] at htn ⊢
    exact htn.imp (fun h he => h (by rw [he]))
  unfold fmExtra
  rw [if_neg (by simpa using h0), fmDict_parsed _ _ ht htn', fmDict_parsed _ _ hb hbn]
  simp only
  have := fmExtraLoop_spec found folder b t [] hbf htf htn (by simp) (by simp)
  rw [List.append_nil] at this
  rw [this]
  have hm : fmMapping b = binds := by
    unfold ParsedLines at hb
    clear this hbn hbf
    induction hb with
    | nil => rfl
    | cons h _ ih => simp only [fmMapping, List.map_cons] at ih ⊢; rw [ih, h.1]; rfl
  have hu : fmMapping (b ++ fmUsed found folder b t) =
      binds ++ (t.filter (fun p => (b.lookup (fileName p.1)).isNone && found (fileName p.1))).map (fun p => folder ++ "/" ++ fileName p.1 ++ ":" ++ p.2) := by
    rw [← hm]
    unfold fmMapping fmUsed
    rw [List.map_append, List.map_map]
    rfl
  simp only [hu]

/-- C91: extra files never cause a crash when the lists are normalized; a line without a colon is a crash. -/
theorem C91_crash_iff (found : String → Bool) (folder : String) (templates binds : List String) :
    fmExtra found folder templates binds = none ↔ templates ≠ [] ∧ ∃ s, (s ∈ templates ∨ s ∈ binds) ∧ NoColon s := by
  have hs : ∀ s, fmSplit s = none ↔ NoColon s := by
    intro s
    unfold fmSplit NoColon
    rw [← List.contains_iff_mem]
    by_cases h : s.toList.contains ':' = true
    · rw [if_pos h]; simpa using h
    · rw [if_neg h]; simp at h; simp [h]
  have hd : ∀ m, fmDict m = none ↔ ∃ s ∈ m, NoColon s := by
    intro m
    unfold fmDict
    rw [Option.map_eq_none_iff]
    constructor
    · intro h
      apply Classical.byContradiction
      intro hno
      obtain ⟨r, hr⟩ := mapM_option_some fmSplit m (fun s hsm => by
        cases hx : fmSplit s with
        | none => exact absurd ⟨s, hsm, (hs s).1 hx⟩ hno
        | some y => exact ⟨y, rfl⟩)
      rw [hr] at h
      cases h
    · rintro ⟨s, hsm, hc⟩
      cases hm : m.mapM fmSplit with
      | none => rfl
      | some r =>
        obtain ⟨y, _, hy⟩ := forall₂_pick_left (mapM_forall₂ _ _ _ hm) hsm
        rw [(hs s).2 hc] at hy
        cases hy
  unfold fmExtra
  by_cases h0 : templates = []
  · subst h0; simp
  · rw [if_neg (by simpa using h0)]
    cases h1 : fmDict templates with
    | none =>
      simp only [true_iff]
      obtain ⟨s, hsm, hc⟩ := (hd _).1 h1
      exact ⟨h0, s, Or.inl hsm, hc⟩
    | some t =>
      cases h2 : fmDict binds with
      | none =>
        simp only [true_iff]
        obtain ⟨s, hsm, hc⟩ := (hd _).1 h2
        exact ⟨h0, s, Or.inr hsm, hc⟩
      | some b =>
        simp only [reduceCtorEq, false_iff]
        rintro ⟨_, s, hsm | hsm, hc⟩
        · rw [(hd templates).2 ⟨s, hsm, hc⟩] at h1; cases h1
        · rw [(hd binds).2 ⟨s, hsm, hc⟩] at h2; cases h2

/-! ### Examples and defects -/

example : fmNormalize (.dict [("hosts", .str "/etc/hosts"), ("snmp", .dict [("conf", .str "/etc/snmp.conf:ro")])]) =
    (.list [.str "hosts:/etc/hosts", .str "snmp.conf:/etc/snmp.conf:ro"], 0) := by
  exact C91_dict [("hosts", [], "/etc/hosts"), ("snmp", ["conf"], "/etc/snmp.conf:ro")] (by decide) (by decide)

example : fmExtra (fun f => f == "frr.conf" || f == "bgp") "clab_files/r1" ["frr@conf:/etc/frr.conf", "bgp:/etc/bgp", "isis:/etc/isis", "hosts:/etc/hosts"]
      ["hosts:/etc/hosts2"] =
    some (["hosts:/etc/hosts2", "clab_files/r1/frr.conf:/etc/frr.conf", "clab_files/r1/bgp:/etc/bgp"], 1) := by decide

/-- C91 defect: two files with the same name up to the first dot cannot be specified in a dictionary. -/
theorem C91_common_prefix :
    [(["daemons", "conf"], "/etc/a"), (["daemons", "txt"], "/etc/b")].foldlM (fun d e => setPath (.str e.2) e.1 d) [] =
      some [("daemons", .dict [("conf", .str "/etc/a"), ("txt", .str "/etc/b")])] ∧
    (fmNormalize (.dict [("daemons", .dict [("conf", .str "/etc/a"), ("txt", .str "/etc/b")])])).1 = .list [] ∧
    (fmNormalize (.dict [("daemons", .dict [("conf", .str "/etc/a"), ("txt", .str "/etc/b")])])).2 ≠ 0 := by
  refine ⟨rfl, C91_dict_rejected _ (by decide) (by decide) _ List.mem_cons_self ?_⟩
  intro path s h
  cases path with
  | nil => simp [NestedFile] at h
  | cons a r => simp [NestedFile] at h

/-- C91: a missing value is an empty mapping, and values that are neither lists nor dictionaries are rejected. -/
theorem C91_other (v : Val) (h : ∀ l, v ≠ .list l) (h' : ∀ d, v ≠ .dict d) :
    (v = .null → fmNormalize v = (.list [], 0)) ∧ (v ≠ .null → (fmNormalize v).2 ≠ 0) := by
  cases v with
  | list l => exact absurd rfl (h l)
  | dict d => exact absurd rfl (h' d)
  | null => exact ⟨fun _ => rfl, fun hn => absurd rfl hn⟩
  | _ => exact ⟨fun hn => (nomatch hn), fun _ => by simp [fmNormalize]⟩

/-- C91: mappings of nodes without templates are not changed. -/
theorem C91_no_templates (found : String → Bool) (folder : String) (binds : List String) : fmExtra found folder [] binds = some (binds, 0) := rfl

/-- C91 defect: a host file mapped to two target files is mapped to one of them when the node uses templates. -/
theorem C91_bind_lost :
    fmExtra (fun _ => true) "clab_files/r1" ["bgp:/etc/bgp"] ["hosts:/etc/a", "hosts:/etc/b"] = some (["hosts:/etc/b", "clab_files/r1/bgp:/etc/bgp"], 0) := by
  decide

end Netlab
