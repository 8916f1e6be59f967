import Verif.Spec.LinkNorm
import Verif.Lemmas.Assoc
import Verif.Lemmas.Box
import Verif.Props.Nodeset
import Std.Data.String.ToNat
/-!
# C58: link normalization
-/

namespace Netlab

open Spec

/-! ### Interfaces -/

theorem adjustIf_iff (nodes : List String) (v : Val) (i : List (String × Val)) :
    adjustIf nodes v = some i ↔ IfOf nodes v i := by
  constructor
  · intro h
    cases v with
    | str n =>
      simp only [adjustIf] at h
      split at h
      · rename_i hc
        obtain rfl := Option.some.inj h
        exact .name n (by simpa using hc)
      · exact absurd h (by simp)
    | dict d =>
      simp only [adjustIf] at h
      split at h
      · rename_i n hn
        split at h
        · rename_i hc
          obtain rfl := Option.some.inj h
          exact .dict d n hn (by simpa using hc)
        · exact absurd h (by simp)
      · exact absurd h (by simp)
    | _ => simp [adjustIf] at h
  · intro h
    cases h with
    | name n h => simp [adjustIf, nodeIf, h]
    | dict i n hn h =>
      unfold IfNode at hn
      simp [adjustIf, hn, h]

theorem adjustIfs_ok (nodes : List String) (vs : List Val) (h : (adjustIfs nodes vs).errs = 0) :
    List.Forall₂ (IfOf nodes) vs (adjustIfs nodes vs).val := by
  induction vs with
  | nil => exact .nil
  | cons v rest ih =>
    simp only [adjustIfs] at h ⊢
    cases ha : adjustIf nodes v with
    | none => simp [ha] at h
    | some i =>
      simp only [ha] at h ⊢
      exact .cons ((adjustIf_iff nodes v i).mp ha) (ih h)

theorem adjustIfs_of (nodes : List String) (vs : List Val) (is : List (List (String × Val)))
    (h : List.Forall₂ (IfOf nodes) vs is) : adjustIfs nodes vs = ⟨is, 0⟩ := by
  induction h with
  | nil => rfl
  | cons hv _ ih => simp [adjustIfs, (adjustIf_iff nodes _ _).mpr hv, ih]

theorem keyIf_ok (k : String) (v : Val) (i : List (String × Val)) (h : keyIf k v = some i) : KeyIfOf (k, v) i := by
  cases v with
  | null =>
    simp only [keyIf] at h
    obtain rfl := Option.some.inj h
    exact .empty k
  | dict d =>
    simp only [keyIf] at h
    obtain rfl := Option.some.inj h
    refine .dict k d _ ?_ ?_
    · unfold IfNode
      rw [lookup_setKey, if_pos rfl]
    · intro a ha
      rw [lookup_setKey, if_neg ha]
  | _ => simp [keyIf] at h

theorem splitLink_ok (nodes : List String) (d : List (String × Val)) (h : (splitLink nodes d).errs = 0) :
    (splitLink nodes d).val.1 = d.filter (fun p => !nodes.contains p.1) ∧
    List.Forall₂ KeyIfOf (d.filter (fun p => nodes.contains p.1)) (splitLink nodes d).val.2 := by
  induction d with
  | nil => exact ⟨rfl, .nil⟩
  | cons p rest ih =>
    obtain ⟨k, v⟩ := p
    simp only [splitLink] at h ⊢
    by_cases hk : nodes.contains k = true
    · rw [if_pos hk] at h ⊢
      cases hv : keyIf k v with
      | none => simp [hv] at h
      | some i =>
        simp only [hv] at h ⊢
        obtain ⟨h1, h2⟩ := ih h
        rw [List.filter_cons, if_neg (by simpa using hk), List.filter_cons, if_pos (by simpa using hk)]
        exact ⟨h1, .cons (keyIf_ok k v i hv) h2⟩
    · rw [if_neg hk] at h ⊢
      obtain ⟨h1, h2⟩ := ih h
      rw [List.filter_cons, if_pos (by simpa using hk), List.filter_cons, if_neg (by simpa using hk)]
      exact ⟨by simp only [h1], h2⟩

theorem stringIfs_ok (nodes : List String) (l : List (List Char)) (h : (stringIfs nodes l).errs = 0) :
    (stringIfs nodes l).val = (l.map (fun n => String.ofList (pyStrip n))).map (fun n => [("node", .str n)]) ∧
    ∀ n ∈ l.map (fun n => String.ofList (pyStrip n)), ∃ x ∈ nodes, x.toList <+: n.toList := by
  induction l with
  | nil => exact ⟨rfl, by simp⟩
  | cons n rest ih =>
    simp only [stringIfs] at h ⊢
    by_cases hk : linkNodeOk nodes (pyStrip n) = true
    · rw [if_pos hk] at h ⊢
      obtain ⟨h1, h2⟩ := ih h
      refine ⟨by simp [h1, nodeIf], ?_⟩
      intro m hm
      rw [List.map_cons] at hm
      rcases List.mem_cons.mp hm with hm | hm
      · subst hm
        unfold linkNodeOk at hk
        rw [Bool.or_eq_true] at hk
        rcases hk with hk | hk
        · exact ⟨_, by simpa using hk, List.prefix_refl _⟩
        · rw [List.any_eq_true] at hk
          obtain ⟨x, hx, hp⟩ := hk
          exact ⟨x, hx, by simpa using hp⟩
      · exact h2 m hm
    · rw [if_neg hk] at h
      simp at h

/-! ### Links -/

theorem adjustLink_ok (nodes : List String) (name : String) (v : Val) (h : (adjustLink nodes name v).errs = 0) :
    ∃ l, (adjustLink nodes name v).val = some l ∧ l.name = name ∧ NormOf nodes v l := by
  cases v with
  | dict d =>
    simp only [adjustLink] at h ⊢
    cases hv : d.lookup "interfaces" with
    | some v =>
      simp only [hv] at h ⊢
      have h0 : (ifaceList v).errs = 0 := by omega
      have h1 : (adjustIfs nodes (ifaceList v).val).errs = 0 := by omega
      refine ⟨_, rfl, rfl, .interfaces d v (ifaceList v).val _ hv ?_ (adjustIfs_ok nodes _ h1) rfl⟩
      cases v with
      | list l => exact .inl rfl
      | null => exact .inr (.inl ⟨rfl, rfl⟩)
      | dict d => simp [ifaceList] at h0
      | _ => exact .inr (.inr ⟨rfl, rfl⟩)
    | none =>
      simp only [hv] at h ⊢
      obtain ⟨h1, h2⟩ := splitLink_ok nodes d h
      exact ⟨_, rfl, rfl, .keys d _ hv h2 h1⟩
  | list l =>
    simp only [adjustLink] at h ⊢
    exact ⟨_, rfl, rfl, .list l _ (adjustIfs_ok nodes l h) rfl⟩
  | str s =>
    simp only [adjustLink] at h ⊢
    obtain ⟨h1, h2⟩ := stringIfs_ok nodes _ h
    exact ⟨_, rfl, rfl, .string s _ _ rfl h2 h1 rfl⟩
  | _ => simp [adjustLink] at h

theorem disabled_iff (l : NLink) : l.disabled = true ↔ Disabled l := by
  unfold NLink.disabled Disabled
  split
  · rename_i h
    simp [h]
  · rename_i h
    constructor
    · intro hf
      exact absurd hf (by simp)
    · intro hd
      exact absurd hd h

theorem normalized_append {nodes : List String} {vs ws : List Val} {ls ms : List NLink} (h : Normalized nodes vs ls)
    (h' : Normalized nodes ws ms) : Normalized nodes (vs ++ ws) (ls ++ ms) := by
  induction h with
  | nil => exact h'
  | keep v l vs ls hn hd _ ih => exact .keep v l _ _ hn hd ih
  | drop v l vs ls hn hd _ ih => exact .drop v l _ _ hn hd ih

theorem adjustElems_ok (nodes : List String) (path : String) (n : Nat) (vs : List Val)
    (h : (adjustElems nodes path n vs).errs = 0) : Normalized nodes vs (adjustElems nodes path n vs).val := by
  induction vs generalizing n with
  | nil => exact .nil
  | cons v rest ih =>
    simp only [adjustElems] at h ⊢
    have ha : (adjustLink nodes (linkName path n) v).errs = 0 ∧ (adjustElems nodes path (n + 1) rest).errs = 0 := by
      split at h
      · split at h <;> (simp only at h; omega)
      · simp only at h
        omega
    obtain ⟨l, hl, -, hno⟩ := adjustLink_ok nodes _ v ha.1
    simp only [hl]
    by_cases hd : l.disabled = true
    · rw [if_pos hd]
      exact .drop v l _ _ hno ((disabled_iff l).mp hd) (ih (n + 1) ha.2)
    · rw [if_neg hd]
      exact .keep v l _ _ hno (fun q => hd ((disabled_iff l).mpr q)) (ih (n + 1) ha.2)

mutual
  /-- Normalization of links. -/
  theorem adjustLinks_ok (nodes : List String) (path : String) : ∀ v : Val, (adjustLinks nodes path v).errs = 0 →
      Normalized nodes (linkVals v) (adjustLinks nodes path v).val
    | .dict d, h => by
      simp only [adjustLinks, linkVals] at h ⊢
      exact adjustGroups_ok nodes path d h
    | .list l, h => by
      simp only [adjustLinks, linkVals] at h ⊢
      exact adjustElems_ok nodes path 1 l h
    | .str s, h => by
      simp only [adjustLinks, linkVals] at h ⊢
      split
      · exact .nil
      · rename_i hs
        rw [if_neg hs] at h
        obtain ⟨l, hl, -, hno⟩ := adjustLink_ok nodes path (.str s) h
        simp only [hl, Option.toList_some]
        refine .keep _ l _ _ hno ?_ .nil
        cases hno with
        | string _ _ ns _ _ _ ha =>
          unfold Disabled
          rw [ha]
          simp
    | .null, _ => by
      simp only [adjustLinks, linkVals]
      exact .nil
    | .bool b, _ => by
      simp only [adjustLinks, linkVals]
      exact .nil
    | .int i, _ => by
      simp only [adjustLinks, linkVals]
      exact .nil
  /-- Normalization of link groups. -/
  theorem adjustGroups_ok (nodes : List String) (path : String) : ∀ d : List (String × Val),
      (adjustGroups nodes path d).errs = 0 → Normalized nodes (groupVals d) (adjustGroups nodes path d).val
    | [], _ => by
      simp only [adjustGroups, groupVals]
      exact .nil
    | p :: rest, h => by
      simp only [adjustGroups, groupVals] at h ⊢
      exact normalized_append (adjustGroup_ok nodes path p (by omega)) (adjustGroups_ok nodes path rest (by omega))
  /-- Normalization of a link group. -/
  theorem adjustGroup_ok (nodes : List String) (path : String) : ∀ p : String × Val,
      (adjustGroup nodes path p).errs = 0 → Normalized nodes (pairVals p) (adjustGroup nodes path p).val
    | (k, v), h => by
      simp only [adjustGroup, pairVals] at h ⊢
      exact adjustLinks_ok nodes (path ++ "." ++ k) v h
end

/-- **C58.**  Without errors, the normalized list has the links of the topology and of all its link groups, in the same
order and without disabled links; every link has its attributes and its interfaces with all their attributes. -/
theorem C58_all_links (nodes : List String) (path : String) (v : Val) (h : (adjustLinks nodes path v).errs = 0) :
    Normalized nodes (linkVals v) (adjustLinks nodes path v).val :=
  adjustLinks_ok nodes path v h

/-- Every interface of a normalized link. -/
theorem normOf_ends {nodes : List String} {v : Val} {l : NLink} (h : NormOf nodes v l) (i : List (String × Val))
    (hi : i ∈ l.ifs) : ∃ n, IfNode i n ∧ (n ∈ nodes ∨ v.isStr = true ∧ ∃ x ∈ nodes, x.toList <+: n.toList) := by
  have hforall : ∀ vs is, List.Forall₂ (IfOf nodes) vs is → i ∈ is → ∃ n, IfNode i n ∧ n ∈ nodes := by
    intro vs is hf hm
    induction hf with
    | nil => exact absurd hm (by simp)
    | cons hh _ ih =>
      rcases List.mem_cons.mp hm with hm | hm
      · subst hm
        cases hh with
        | name n hn => exact ⟨n, rfl, hn⟩
        | dict _ n hn h => exact ⟨n, hn, h⟩
      · exact ih hm
  cases h with
  | interfaces d v vs l hv hvs hf ha =>
    obtain ⟨n, h1, h2⟩ := hforall _ _ hf hi
    exact ⟨n, h1, .inl h2⟩
  | list vs l hf ha =>
    obtain ⟨n, h1, h2⟩ := hforall _ _ hf hi
    exact ⟨n, h1, .inl h2⟩
  | keys d l hv hf ha =>
    have hk : ∀ ps is, List.Forall₂ KeyIfOf ps is → i ∈ is → (∀ p ∈ ps, p.1 ∈ nodes) → ∃ n, IfNode i n ∧ n ∈ nodes := by
      intro ps is hf hm hp
      induction hf with
      | nil => exact absurd hm (by simp)
      | cons hh _ ih =>
        rcases List.mem_cons.mp hm with hm | hm
        · subst hm
          cases hh with
          | empty k => exact ⟨k, rfl, hp _ (List.mem_cons_self ..)⟩
          | dict k d i hn h => exact ⟨k, hn, hp _ (List.mem_cons_self ..)⟩
        · exact ih hm (fun p q => hp p (List.mem_cons_of_mem _ q))
    obtain ⟨n, h1, h2⟩ := hk _ _ hf hi (by
      intro p hp
      simpa using (List.mem_filter.mp hp).2)
    exact ⟨n, h1, .inl h2⟩
  | string s l ns hs hn hl ha =>
    rw [hl] at hi
    obtain ⟨n, hn1, rfl⟩ := List.mem_map.mp hi
    exact ⟨n, rfl, .inr ⟨rfl, hn n hn1⟩⟩

/-- **C58.**  Without errors, every interface belongs to a node of the topology (links without strings). -/
theorem C58_known_nodes (nodes : List String) (name : String) (v : Val) (hs : v.isStr = false)
    (h : (adjustLink nodes name v).errs = 0) :
    ∃ l, (adjustLink nodes name v).val = some l ∧ ∀ i ∈ l.ifs, ∃ n ∈ nodes, IfNode i n := by
  obtain ⟨l, hl, -, hno⟩ := adjustLink_ok nodes name v h
  refine ⟨l, hl, fun i hi => ?_⟩
  obtain ⟨n, h1, h2 | ⟨h2, -⟩⟩ := normOf_ends hno i hi
  · exact ⟨n, h2, h1⟩
  · rw [hs] at h2
    exact absurd h2 (by simp)

/-- **C58, an exception.**  A mistyped node name in a link string is accepted when it starts with the name of a node. -/
theorem C58_prefix_accepted : adjustLink ["r1", "r2"] "links[1]" (.str "r1-r22") =
    ⟨some ⟨"links[1]", [], [[("node", .str "r1")], [("node", .str "r22")]]⟩, 0⟩ := by rfl

/-! ### Equivalent ways to write a link -/

theorem pyStrip_of_plain {s : List Char} (h : ∀ c ∈ s, c.isWhitespace = false) : pyStrip s = s := by
  have hd : ∀ t : List Char, (∀ c ∈ t, c.isWhitespace = false) → t.dropWhile Char.isWhitespace = t := by
    intro t ht
    cases t with
    | nil => rfl
    | cons c r => rw [List.dropWhile_cons, if_neg (by simp [ht c (List.mem_cons_self ..)])]
  unfold pyStrip
  rw [hd s h, hd s.reverse (by simpa using h), List.reverse_reverse]

theorem stringIfs_of (nodes ns : List String) (hn : ∀ n ∈ ns, n ∈ nodes)
    (hp : ∀ n ∈ ns, ∀ c ∈ n.toList, c.isWhitespace = false) :
    stringIfs nodes (ns.map String.toList) = ⟨ns.map (fun n => [("node", .str n)]), 0⟩ := by
  induction ns with
  | nil => rfl
  | cons n rest ih =>
    have h1 : pyStrip n.toList = n.toList := pyStrip_of_plain (hp n (List.mem_cons_self ..))
    have h2 : linkNodeOk nodes n.toList = true := by
      unfold linkNodeOk
      rw [String.ofList_toList]
      simp [hn n (List.mem_cons_self ..)]
    simp only [List.map_cons, stringIfs, h1, h2, if_true, String.ofList_toList,
      ih (fun m q => hn m (List.mem_cons_of_mem _ q)) (fun m q => hp m (List.mem_cons_of_mem _ q)), nodeIf]

theorem names_forall (nodes ns : List String) (hn : ∀ n ∈ ns, n ∈ nodes) :
    List.Forall₂ (IfOf nodes) (ns.map Val.str) (ns.map (fun n => [("node", .str n)])) := by
  induction ns with
  | nil => exact .nil
  | cons n rest ih =>
    exact .cons (.name n (hn n (List.mem_cons_self ..))) (ih (fun m q => hn m (List.mem_cons_of_mem _ q)))

theorem splitLink_names (nodes ns : List String) (hn : ∀ n ∈ ns, n ∈ nodes) :
    splitLink nodes (ns.map (fun n => (n, Val.null))) = ⟨([], ns.map (fun n => [("node", .str n)])), 0⟩ := by
  induction ns with
  | nil => rfl
  | cons n rest ih =>
    simp only [List.map_cons, splitLink, ih (fun m q => hn m (List.mem_cons_of_mem _ q)), keyIf]
    rw [if_pos (by simpa using hn n (List.mem_cons_self ..))]
    rfl

/-- **C58.**  A link with nodes `a`, `b`, ... can be written as `a-b-...`, `[a, b, ...]`, `{interfaces: [a, b, ...]}` or
`{a:, b:, ...}`: the result is the same. -/
theorem C58_syntaxes (nodes ns : List String) (name : String) (hne : ns ≠ []) (hn : ∀ n ∈ ns, n ∈ nodes)
    (hi : "interfaces" ∉ ns)
    (hp : ∀ n ∈ ns, ∀ c ∈ n.toList, c.isWhitespace = false ∧ c ≠ '-') :
    let link : NRes (Option NLink) := ⟨some ⟨name, [], ns.map (fun n => [("node", .str n)])⟩, 0⟩
    adjustLink nodes name (.str (String.ofList (List.intercalate ['-'] (ns.map String.toList)))) = link ∧
    adjustLink nodes name (.list (ns.map Val.str)) = link ∧
    adjustLink nodes name (.dict [("interfaces", .list (ns.map Val.str))]) = link ∧
    adjustLink nodes name (.dict (ns.map (fun n => (n, Val.null)))) = link := by
  refine ⟨?_, ?_, ?_, ?_⟩
  · simp only [adjustLink, String.toList_ofList]
    rw [splitOnChar_intercalate '-' _ (by simpa using hne) (by
      intro e he hc
      obtain ⟨n, hn', rfl⟩ := List.mem_map.mp he
      exact (hp n hn' '-' hc).2 rfl),
      stringIfs_of nodes ns hn (fun n q c hc => (hp n q c hc).1)]
  · simp only [adjustLink, adjustIfs_of nodes _ _ (names_forall nodes ns hn)]
  · simp only [adjustLink, List.lookup_cons, beq_self_eq_true, ifaceList,
      adjustIfs_of nodes _ _ (names_forall nodes ns hn)]
    simp [popKey]
  · have hl : (ns.map (fun n => (n, Val.null))).lookup "interfaces" = none := by
      rw [lookup_eq_none_iff]
      simpa using hi
    simp only [adjustLink, hl, splitLink_names nodes ns hn]

/-! ### Link names -/

/-- The suffix of a link name below the path: empty, an index or the name of a group. -/
def Suffix (s : List Char) : Prop := s = [] ∨ ∃ r, s = '[' :: r ∨ s = '.' :: r

theorem takeWhile_key (k t : List Char) (h1 : '.' ∉ k) (h2 : '[' ∉ k) (ht : Suffix t) :
    (k ++ t).takeWhile (fun c => c != '.' && c != '[') = k := by
  have hk : ∀ c ∈ k, (c != '.' && c != '[') = true := by
    intro c hc
    have ha : c ≠ '.' := fun e => h1 (e ▸ hc)
    have hb : c ≠ '[' := fun e => h2 (e ▸ hc)
    simp [ha, hb]
  rw [List.takeWhile_append_of_pos hk]
  rcases ht with rfl | ⟨r, rfl | rfl⟩ <;> simp

/-- Names of links are below the path, and they are different. -/
def NamesOk (path : String) (ls : List NLink) : Prop :=
  (ls.map NLink.name).Nodup ∧ ∀ l ∈ ls, ∃ s, Suffix s ∧ l.name.toList = path.toList ++ s

theorem adjustLink_name (nodes : List String) (name : String) (v : Val) (l : NLink)
    (h : (adjustLink nodes name v).val = some l) : l.name = name := by
  cases v with
  | dict d =>
    simp only [adjustLink] at h
    split at h <;> (obtain rfl := Option.some.inj h; rfl)
  | list l =>
    simp only [adjustLink] at h
    obtain rfl := Option.some.inj h
    rfl
  | str s =>
    simp only [adjustLink] at h
    obtain rfl := Option.some.inj h
    rfl
  | _ => simp [adjustLink] at h

theorem linkName_inj {path : String} {i j : Nat} (h : linkName path i = linkName path j) : i = j := by
  unfold linkName at h
  have h1 : (path ++ "[" ++ toString i ++ "]").toList = (path ++ "[" ++ toString j ++ "]").toList := by rw [h]
  simp only [String.toList_append, List.append_assoc] at h1
  have h2 := List.append_cancel_left (List.append_cancel_left h1)
  have h3 := List.append_cancel_right h2
  have h4 : toString i = toString j := String.toList_injective h3
  exact Nat.repr_inj.1 h4

theorem names_elems (nodes : List String) (path : String) (n : Nat) (vs : List Val) :
    ((adjustElems nodes path n vs).val.map NLink.name).Nodup ∧
    ∀ l ∈ (adjustElems nodes path n vs).val, ∃ i, n ≤ i ∧ l.name = linkName path i := by
  induction vs generalizing n with
  | nil => exact ⟨by simp [adjustElems], by simp [adjustElems]⟩
  | cons v rest ih =>
    obtain ⟨h1, h2⟩ := ih (n + 1)
    have hbase : ∀ l ∈ (adjustElems nodes path (n + 1) rest).val, ∃ i, n ≤ i ∧ l.name = linkName path i := by
      intro l hl
      obtain ⟨i, hi, hn⟩ := h2 l hl
      exact ⟨i, by omega, hn⟩
    simp only [adjustElems]
    cases hv : (adjustLink nodes (linkName path n) v).val with
    | none => exact ⟨h1, hbase⟩
    | some l =>
      simp only
      by_cases hd : l.disabled = true
      · rw [if_pos hd]
        exact ⟨h1, hbase⟩
      · rw [if_neg hd]
        have hname := adjustLink_name nodes _ v l hv
        refine ⟨?_, ?_⟩
        · simp only [List.map_cons, List.nodup_cons]
          refine ⟨?_, h1⟩
          intro hm
          obtain ⟨l', hl', he⟩ := List.mem_map.mp hm
          obtain ⟨i, hi, hn⟩ := h2 l' hl'
          rw [hn, hname] at he
          have := linkName_inj he
          omega
        · intro l' hl'
          rcases List.mem_cons.mp hl' with hl' | hl'
          · exact ⟨n, Nat.le_refl _, by rw [hl', hname]⟩
          · exact hbase l' hl'

theorem names_groups (nodes : List String) (path : String) (d : List (String × Val)) (hn : (d.map Prod.fst).Nodup)
    (hc : ∀ k v, (k, v) ∈ d → '.' ∉ k.toList ∧ '[' ∉ k.toList)
    (ih : ∀ k v, (k, v) ∈ d → NamesOk (path ++ "." ++ k) (adjustLinks nodes (path ++ "." ++ k) v).val) :
    ((adjustGroups nodes path d).val.map NLink.name).Nodup ∧
    ∀ l ∈ (adjustGroups nodes path d).val, ∃ k v t, (k, v) ∈ d ∧ Suffix t ∧
      l.name.toList = path.toList ++ ('.' :: (k.toList ++ t)) := by
  induction d with
  | nil => exact ⟨by simp [adjustGroups], by simp [adjustGroups]⟩
  | cons p rest ihd =>
    obtain ⟨k, v⟩ := p
    simp only [List.map_cons, List.nodup_cons] at hn
    obtain ⟨h1, h2⟩ := ihd hn.2 (fun k' v' q => hc k' v' (List.mem_cons_of_mem _ q))
      (fun k' v' q => ih k' v' (List.mem_cons_of_mem _ q))
    obtain ⟨g1, g2⟩ := ih k v (List.mem_cons_self ..)
    have g2' : ∀ l ∈ (adjustLinks nodes (path ++ "." ++ k) v).val, ∃ t, Suffix t ∧
        l.name.toList = path.toList ++ ('.' :: (k.toList ++ t)) := by
      intro l hl
      obtain ⟨t, ht, he⟩ := g2 l hl
      refine ⟨t, ht, ?_⟩
      rw [he]
      simp
    simp only [adjustGroups, adjustGroup, List.map_append]
    refine ⟨?_, ?_⟩
    · rw [List.nodup_append]
      refine ⟨g1, h1, ?_⟩
      intro a ha b hb hab
      subst hab
      obtain ⟨l, hl, rfl⟩ := List.mem_map.mp ha
      obtain ⟨l', hl', he⟩ := List.mem_map.mp hb
      obtain ⟨t, ht, e1⟩ := g2' l hl
      obtain ⟨k', v', t', hm, ht', e2⟩ := h2 l' hl'
      rw [he, e1] at e2
      have e3 := List.append_cancel_left e2
      simp only [List.cons.injEq, true_and] at e3
      have hk1 := takeWhile_key k.toList t (hc k v (List.mem_cons_self ..)).1 (hc k v (List.mem_cons_self ..)).2 ht
      have hk2 := takeWhile_key k'.toList t' (hc k' v' (List.mem_cons_of_mem _ hm)).1
        (hc k' v' (List.mem_cons_of_mem _ hm)).2 ht'
      rw [e3, hk2] at hk1
      have := String.toList_injective hk1
      subst this
      exact hn.1 (List.mem_map.mpr ⟨_, hm, rfl⟩)
    · intro l hl
      rcases List.mem_append.mp hl with hl | hl
      · obtain ⟨t, ht, he⟩ := g2' l hl
        exact ⟨k, v, t, List.mem_cons_self .., ht, he⟩
      · obtain ⟨k', v', t', hm, q⟩ := h2 l hl
        exact ⟨k', v', t', List.mem_cons_of_mem _ hm, q⟩

/-- **C58.**  All links have different names, even with errors. -/
theorem C58_names (nodes : List String) (path : String) (v : Val) (hp : PlainGroups v) :
    ((adjustLinks nodes path v).val.map NLink.name).Nodup := by
  have hgen : NamesOk path (adjustLinks nodes path v).val := by
    induction hp generalizing path with
    | leaf v h =>
      cases v with
      | dict d => simp [Val.isDict] at h
      | list l =>
        simp only [adjustLinks]
        obtain ⟨h1, h2⟩ := names_elems nodes path 1 l
        refine ⟨h1, ?_⟩
        intro x hx
        obtain ⟨i, -, he⟩ := h2 x hx
        refine ⟨('[' :: ((toString i).toList ++ [']'])), .inr ⟨_, .inl rfl⟩, ?_⟩
        rw [he]
        unfold linkName
        simp
      | str s =>
        simp only [adjustLinks]
        split
        · exact ⟨by simp, by simp⟩
        · simp only [adjustLink, Option.toList_some]
          refine ⟨by simp, ?_⟩
          intro l hl
          simp only [List.mem_cons, List.not_mem_nil, or_false] at hl
          subst hl
          exact ⟨[], .inl rfl, by simp⟩
      | null => simp [adjustLinks, NamesOk]
      | bool b => simp [adjustLinks, NamesOk]
      | int i => simp [adjustLinks, NamesOk]
    | groups d hn hc _ ih =>
      simp only [adjustLinks]
      obtain ⟨h1, h2⟩ := names_groups nodes path d hn hc (fun k v hm => ih k v hm (path ++ "." ++ k))
      refine ⟨h1, ?_⟩
      intro l hl
      obtain ⟨k, v, t, -, -, he⟩ := h2 l hl
      exact ⟨_, .inr ⟨_, .inr rfl⟩, he⟩
  exact hgen.1

/-- Links in two groups, one of them disabled. -/
example : ((adjustLinks ["r1", "r2", "h"] "links" (.dict [
      ("core", .list [.str "r1 - r2", .dict [("r1", .null), ("disable", .bool true)]]),
      ("edge", .list [.dict [("h", .dict [("gateway", .bool false)]), ("r1", .null), ("type", .str "lan")]])])).val.map
        (fun l => (l.name, l.attrs.map Prod.fst, l.ifs.length)),
    (adjustLinks ["r1", "r2", "h"] "links" (.dict [
      ("core", .list [.str "r1 - r2", .dict [("r1", .null), ("disable", .bool true)]]),
      ("edge", .list [.dict [("h", .dict [("gateway", .bool false)]), ("r1", .null), ("type", .str "lan")]])])).errs) =
    ([("links.core[1]", [], 2), ("links.edge[1]", ["type"], 2)], 0) := by decide +kernel

end Netlab
