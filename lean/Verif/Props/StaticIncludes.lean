import Verif.Model.StaticIncludes
import Verif.Lemmas.Box
/-!
# C28: includes in static route lists
-/

namespace Netlab

namespace Spec

/-- `Flat static l xs`: `xs` is the list `l` with every `include` replaced by the (flat) routes of the included list; a
next hop specified next to the `include` is merged into all included routes. -/
inductive Flat (static : List (String × List SrEntry)) : List SrEntry → List SrEntry → Prop
  | nil : Flat static [] []
  | route (e : SrEntry) (r xs : List SrEntry) : e.incl = none → Flat static r xs → Flat static (e :: r) (e :: xs)
  | incl (e : SrEntry) (name : String) (l r xs ys : List SrEntry) : e.incl = some name →
      static.lookup name = some l → Flat static (l.map (withNexthop e)) xs → Flat static r ys →
      Flat static (e :: r) (xs ++ ys)

/-- List `a` includes list `b`. -/
def Includes (static : List (String × List SrEntry)) (b a : String) : Prop :=
  ∃ l, static.lookup a = some l ∧ ∃ e ∈ l, e.incl = some b

/-- A non-empty chain of includes from list `a` to list `b` -/
inductive Chain (static : List (String × List SrEntry)) : String → String → Prop
  | one (a b : String) : Includes static b a → Chain static a b
  | step (a b c : String) : Includes static b a → Chain static b c → Chain static a c

/-- All included lists exist and includes are nested at most `d` levels deep. -/
def DepthLe (static : List (String × List SrEntry)) : Nat → List SrEntry → Prop
  | 0, l => ∀ e ∈ l, e.incl = none
  | d + 1, l => ∀ e ∈ l, e.incl = none ∨
      ∃ name l', e.incl = some name ∧ static.lookup name = some l' ∧ DepthLe static d l'

end Spec

open Spec

theorem Flat.append {static : List (String × List SrEntry)} {a b xs ys : List SrEntry}
    (ha : Flat static a xs) (hb : Flat static b ys) : Flat static (a ++ b) (xs ++ ys) := by
  induction ha with
  | nil => exact hb
  | route e r xs h1 _ ih => exact .route e _ _ h1 ih
  | incl e name l r xs zs h1 h2 h3 _ _ ih =>
    rw [List.append_assoc]
    exact .incl e name l _ _ _ h1 h2 h3 ih

theorem Flat.split {static : List (String × List SrEntry)} (a b zs : List SrEntry) (h : Flat static (a ++ b) zs) :
    ∃ xs ys, zs = xs ++ ys ∧ Flat static a xs ∧ Flat static b ys := by
  induction a generalizing zs with
  | nil => exact ⟨[], zs, rfl, .nil, h⟩
  | cons e r ih =>
    cases h with
    | route _ _ xs h1 h2 =>
      obtain ⟨x, y, rfl, hx, hy⟩ := ih _ h2
      exact ⟨e :: x, y, rfl, .route e r x h1 hx, hy⟩
    | incl _ name l _ xs ys h1 h2 h3 h4 =>
      obtain ⟨x, y, rfl, hx, hy⟩ := ih _ h4
      exact ⟨xs ++ x, y, (List.append_assoc ..).symm, .incl e name l r xs x h1 h2 h3 hx, hy⟩

/-- The flat list is unique. -/
theorem Flat.unique {static : List (String × List SrEntry)} {l xs ys : List SrEntry}
    (hx : Flat static l xs) (hy : Flat static l ys) : xs = ys := by
  induction hx generalizing ys with
  | nil => cases hy; rfl
  | route e r xs h1 _ ih =>
    cases hy with
    | route _ _ zs _ h3 => rw [ih h3]
    | incl _ name l _ _ _ h2 => rw [h1] at h2; cases h2
  | incl e name l r xs zs h1 h2 _ _ ih1 ih2 =>
    cases hy with
    | route _ _ _ h3 => rw [h1] at h3; cases h3
    | incl _ name' l' _ as bs h3 h4 h5 h6 =>
      rw [h1] at h3
      obtain rfl := Option.some.inj h3
      rw [h2] at h4
      obtain rfl := Option.some.inj h4
      rw [ih1 h5, ih2 h6]

theorem withNexthop_incl (e x : SrEntry) : (withNexthop e x).incl = x.incl := by
  unfold withNexthop
  split <;> rfl

theorem withNexthop_remove (e x : SrEntry) : (withNexthop e x).remove = x.remove := by
  unfold withNexthop
  split <;> rfl

/-- No entry has the internal `remove` flag. -/
def Clean (l : List SrEntry) : Prop := ∀ e ∈ l, e.remove = false

theorem includePass_clean (static : List (String × List SrEntry)) (hs : ∀ p ∈ static, Clean p.2) (l : List SrEntry)
    (hl : Clean l) :
    (includePass static l).1.filter (fun e => !e.remove) = l.filter (fun e => e.incl.isNone) ∧
    Clean (includePass static l).2.1 := by
  induction l with
  | nil => exact ⟨rfl, by simp [includePass, Clean]⟩
  | cons e r ih =>
    obtain ⟨i1, i2⟩ := ih (fun x hx => hl x (List.mem_cons_of_mem _ hx))
    have he := hl e List.mem_cons_self
    rw [includePass]
    generalize includePass static r = P at i1 i2
    obtain ⟨l', a, rq, n⟩ := P
    cases hi : e.incl with
    | none => exact ⟨by simp [he, hi] at i1 ⊢; exact i1, i2⟩
    | some name =>
      simp only
      cases hlk : static.lookup name with
      | none => exact ⟨by simp [hi] at i1 ⊢; exact i1, i2⟩
      | some x =>
        refine ⟨by simp [hi] at i1 ⊢; exact i1, ?_⟩
        intro y hy
        rcases List.mem_append.1 hy with hy | hy
        · obtain ⟨z, hz, rfl⟩ := List.mem_map.1 hy
          rw [withNexthop_remove]
          have hmem : (name, x) ∈ static := mem_of_lookup hlk
          exact hs _ hmem z hz
        · exact i2 y hy

theorem includePass_flat (static : List (String × List SrEntry)) (l : List SrEntry)
    (he : (includePass static l).2.2.2 = 0) (ks as : List SrEntry)
    (hk : ks = l.filter (fun e => e.incl.isNone)) (ha : Flat static (includePass static l).2.1 as) :
    ∃ xs, Flat static l xs ∧ xs.Perm (ks ++ as) := by
  induction l generalizing ks as with
  | nil =>
    simp only [includePass] at ha
    cases ha
    exact ⟨[], .nil, by simp [hk]⟩
  | cons e r ih =>
    rw [includePass] at he ha
    generalize includePass static r = P at ih he ha
    obtain ⟨l', a, rq, n⟩ := P
    cases hi : e.incl with
    | none =>
      simp only [hi] at he ha
      obtain ⟨xs, h1, h2⟩ := ih he _ as rfl ha
      refine ⟨e :: xs, .route e r xs hi h1, ?_⟩
      subst hk
      simp only [List.filter_cons, hi, Option.isNone_none, if_true, List.cons_append]
      exact h2.cons e
    | some name =>
      simp only [hi] at he ha
      cases hlk : static.lookup name with
      | none => simp [hlk] at he
      | some x =>
        simp only [hlk] at he ha
        obtain ⟨p, q, rfl, hp, hq⟩ := Flat.split _ _ _ ha
        obtain ⟨xs, h1, h2⟩ := ih he _ q rfl hq
        refine ⟨p ++ xs, .incl e name x r p xs hi hlk hp h1, ?_⟩
        subst hk
        simp only [List.filter_cons, hi, Option.isNone_some, Bool.false_eq_true, if_false]
        have : (p ++ xs).Perm (p ++ (r.filter (fun e => e.incl.isNone) ++ q)) := List.Perm.append_left p h2
        refine this.trans ?_
        rw [← List.append_assoc, ← List.append_assoc]
        exact List.Perm.append_right q List.perm_append_comm

theorem includePass_none (static : List (String × List SrEntry)) (l : List SrEntry)
    (he : (includePass static l).2.2.2 = 0) (hrq : (includePass static l).2.2.1 = false) :
    (includePass static l).1 = l ∧ ∀ e ∈ l, e.incl = none := by
  induction l with
  | nil => exact ⟨rfl, by simp⟩
  | cons e r ih =>
    rw [includePass] at he hrq ⊢
    generalize includePass static r = P at ih he hrq
    obtain ⟨l', a, rq, n⟩ := P
    cases hi : e.incl with
    | none =>
      simp only [hi] at he hrq ih ⊢
      obtain ⟨h1, h2⟩ := ih he hrq
      refine ⟨by rw [h1], ?_⟩
      intro x hx
      rcases List.mem_cons.1 hx with rfl | hx
      · exact hi
      · exact h2 x hx
    | some name =>
      simp only [hi] at he hrq
      cases hlk : static.lookup name <;> simp [hlk] at he hrq

theorem flat_of_plain (static : List (String × List SrEntry)) (l : List SrEntry) (h : ∀ e ∈ l, e.incl = none) :
    Flat static l l := by
  induction l with
  | nil => exact .nil
  | cons e r ih =>
    exact .route e r r (h e List.mem_cons_self) (ih fun x hx => h x (List.mem_cons_of_mem _ hx))

theorem flat_plain {static : List (String × List SrEntry)} {l xs : List SrEntry} (h : Flat static l xs) :
    ∀ e ∈ xs, e.incl = none := by
  induction h with
  | nil => simp
  | route e r xs h1 _ ih =>
    intro x hx
    rcases List.mem_cons.1 hx with rfl | hx
    · exact h1
    · exact ih x hx
  | incl e name l r xs ys _ _ _ _ ih1 ih2 =>
    intro x hx
    rcases List.mem_append.1 hx with hx | hx
    · exact ih1 x hx
    · exact ih2 x hx

theorem includeLoop_flat (static : List (String × List SrEntry)) (hs : ∀ p ∈ static, Clean p.2) (limit : Nat)
    (l r : List SrEntry) (hl : Clean l) (h : includeLoop static limit l = (r, 0)) :
    ∃ xs, Flat static l xs ∧ xs.Perm r := by
  induction limit generalizing l with
  | zero =>
    rw [includeLoop] at h
    have hn := includePass_none static l
    generalize includePass static l = P at h hn
    obtain ⟨l', a, rq, n⟩ := P
    simp only at h hn
    cases rq with
    | true => simp at h
    | false =>
      simp only [Bool.false_eq_true, if_false, Prod.mk.injEq] at h
      obtain ⟨h1, h2⟩ := hn h.2 rfl
      rw [← h.1, h1]
      exact ⟨l, flat_of_plain static l h2, .refl _⟩
  | succ limit ih =>
    rw [includeLoop] at h
    have hn := includePass_none static l
    have hc := includePass_clean static hs l hl
    have hf := includePass_flat static l
    generalize includePass static l = P at h hn hc hf
    obtain ⟨l', a, rq, n⟩ := P
    simp only at h hn hc hf
    cases rq with
    | false =>
      simp only [Bool.false_eq_true, if_false, Prod.mk.injEq] at h
      obtain ⟨h1, h2⟩ := hn h.2 rfl
      rw [← h.1, h1]
      exact ⟨l, flat_of_plain static l h2, .refl _⟩
    | true =>
      simp only [if_true, Prod.mk.injEq] at h
      have hfil : (l' ++ a).filter (fun e => !e.remove) = l.filter (fun e => e.incl.isNone) ++ a := by
        rw [List.filter_append, hc.1]
        congr 1
        rw [List.filter_eq_self]
        intro e he
        simp [hc.2 e he]
      rw [hfil] at h
      have hcl : Clean (l.filter (fun e => e.incl.isNone) ++ a) := by
        intro e he
        rcases List.mem_append.1 he with he | he
        · exact hl e (List.mem_filter.1 he).1
        · exact hc.2 e he
      obtain ⟨ys, hy, hp⟩ := ih _ hcl (by
        generalize includeLoop static limit (l.filter (fun e => e.incl.isNone) ++ a) = R at h ⊢
        obtain ⟨r', m⟩ := R
        simp only at h
        rw [h.1]
        congr 1
        omega)
      obtain ⟨ks, as, rfl, h1, h2⟩ := Flat.split _ _ _ hy
      have hks : ks = l.filter (fun e => e.incl.isNone) :=
        Flat.unique h1 (flat_of_plain static _ (by
          intro e he
          have := (List.mem_filter.1 he).2
          simpa using this))
      obtain ⟨xs, h3, h4⟩ := hf (by omega) ks as hks h2
      exact ⟨xs, h3, h4.trans hp⟩

/-- C28: when no error is reported, the result has no includes and consists of exactly the routes obtained by replacing
every include with the routes of the included list (as many times as it is included).  The order may
differ: included routes are added to the end of the list. -/
theorem C28_includes_expanded (static : List (String × List SrEntry)) (l r : List SrEntry)
    (hs : ∀ p ∈ static, Clean p.2) (hl : Clean l) (h : includeStatic static l = (r, 0)) :
    ∃ xs, Flat static l xs ∧ r.Perm xs ∧ ∀ e ∈ r, e.incl = none := by
  obtain ⟨xs, h1, h2⟩ := includeLoop_flat static hs 19 l r hl h
  exact ⟨xs, h1, h2.symm, fun e he => flat_plain h1 e (h2.mem_iff.2 he)⟩

theorem flat_acc {static : List (String × List SrEntry)} {l xs : List SrEntry} (h : Flat static l xs) :
    ∀ e ∈ l, ∀ a, e.incl = some a → Acc (Includes static) a := by
  induction h with
  | nil => simp
  | route e r xs h1 _ ih =>
    intro x hx a ha
    rcases List.mem_cons.1 hx with rfl | hx
    · rw [h1] at ha; cases ha
    · exact ih x hx a ha
  | incl e name l r xs ys h1 h2 _ _ ih1 ih2 =>
    intro x hx a ha
    rcases List.mem_cons.1 hx with rfl | hx
    · rw [h1] at ha
      obtain rfl := Option.some.inj ha
      constructor
      rintro b ⟨l', hl', y, hy, hb⟩
      rw [h2] at hl'
      obtain rfl := Option.some.inj hl'
      exact ih1 (withNexthop x y) (List.mem_map.2 ⟨y, hy, rfl⟩) b (by rw [withNexthop_incl, hb])
    · exact ih2 x hx a ha

theorem not_acc_of_loop {static : List (String × List SrEntry)} {a : String} (h : Acc (Includes static) a) :
    ¬ Chain static a a := by
  have trans : ∀ {a b c}, Chain static a b → Chain static b c → Chain static a c := by
    intro a b c h1 h2
    induction h1 with
    | one x y h => exact .step x y c h h2
    | step x y z h _ ih => exact .step x y c h (ih h2)
  induction h with
  | intro a _ ih =>
    intro hc
    cases hc with
    | one _ _ h => exact ih a h (.one a a h)
    | step _ b _ h hb => exact ih b h (trans hb (.one a b h))

/-- C28: include loops are always reported. -/
theorem C28_loop_reported (static : List (String × List SrEntry)) (l : List SrEntry)
    (hs : ∀ p ∈ static, Clean p.2) (hl : Clean l) (e : SrEntry) (he : e ∈ l) (a b : String)
    (ha : e.incl = some a) (hab : a = b ∨ Chain static a b) (hloop : Chain static b b) :
    0 < (includeStatic static l).2 := by
  apply Nat.pos_of_ne_zero
  intro h0
  generalize hx : includeStatic static l = R at h0
  obtain ⟨r, n⟩ := R
  simp only at h0
  subst h0
  obtain ⟨xs, hf, -⟩ := C28_includes_expanded static l r hs hl hx
  have hacc := flat_acc hf e he a ha
  have hb : Acc (Includes static) b := by
    rcases hab with rfl | hab
    · exact hacc
    · have key : ∀ {y z}, Chain static y z → Acc (Includes static) y → Acc (Includes static) z := by
        intro y z hc
        induction hc with
        | one _ _ h => exact fun k => k.inv h
        | step _ _ _ h _ ih => exact fun k => ih (k.inv h)
      exact key hab hacc
  exact not_acc_of_loop hb hloop

/-- C28: including a list that does not exist is reported. -/
theorem C28_missing_reported (static : List (String × List SrEntry)) (l : List SrEntry)
    (e : SrEntry) (he : e ∈ l) (a : String) (ha : e.incl = some a) (hmiss : static.lookup a = none) :
    0 < (includeStatic static l).2 := by
  have hp : 0 < (includePass static l).2.2.2 := by
    induction l with
    | nil => simp at he
    | cons x r ih =>
      rw [includePass]
      rcases List.mem_cons.1 he with rfl | he
      · simp [ha, hmiss]
      · have := ih he
        generalize includePass static r = P at this
        obtain ⟨l', b, rq, n⟩ := P
        cases x.incl with
        | none => exact this
        | some name => cases hlk : static.lookup name <;> simp [hlk] <;> simpa using this
  unfold includeStatic
  rw [includeLoop]
  generalize includePass static l = P at hp
  obtain ⟨l', b, rq, n⟩ := P
  simp only at hp ⊢
  cases rq <;> simp <;> omega

theorem includePass_depth (static : List (String × List SrEntry)) (d : Nat) (l : List SrEntry)
    (h : DepthLe static (d + 1) l) :
    (includePass static l).2.2.2 = 0 ∧ DepthLe static d (includePass static l).2.1 := by
  induction l with
  | nil =>
    refine ⟨rfl, ?_⟩
    cases d <;> simp [includePass, DepthLe]
  | cons e r ih =>
    have hr : DepthLe static (d + 1) r := fun x hx => h x (List.mem_cons_of_mem _ hx)
    obtain ⟨i1, i2⟩ := ih hr
    have he := h e List.mem_cons_self
    rw [includePass]
    generalize includePass static r = P at i1 i2
    obtain ⟨l', a, rq, n⟩ := P
    rcases he with he | ⟨name, x, h1, h2, h3⟩
    · simp only [he]
      exact ⟨i1, i2⟩
    · simp only [h1, h2]
      refine ⟨i1, ?_⟩
      have hmap : DepthLe static d (x.map (withNexthop e)) := by
        cases d with
        | zero =>
          intro y hy
          obtain ⟨z, hz, rfl⟩ := List.mem_map.1 hy
          rw [withNexthop_incl]
          exact h3 z hz
        | succ d =>
          intro y hy
          obtain ⟨z, hz, rfl⟩ := List.mem_map.1 hy
          rw [withNexthop_incl]
          exact h3 z hz
      cases d with
      | zero =>
        intro y hy
        rcases List.mem_append.1 hy with hy | hy
        · exact hmap y hy
        · exact i2 y hy
      | succ d =>
        intro y hy
        rcases List.mem_append.1 hy with hy | hy
        · exact hmap y hy
        · exact i2 y hy

theorem includePass_plain (static : List (String × List SrEntry)) (l : List SrEntry) (h : ∀ e ∈ l, e.incl = none) :
    includePass static l = (l, [], false, 0) := by
  induction l with
  | nil => rfl
  | cons e r ih =>
    rw [includePass, ih fun x hx => h x (List.mem_cons_of_mem _ hx)]
    simp [h e List.mem_cons_self]

theorem DepthLe.plain_append {static : List (String × List SrEntry)} {d : Nat} {l a : List SrEntry}
    (hl : ∀ e ∈ l, e.incl = none) (ha : DepthLe static d a) : DepthLe static d (l ++ a) := by
  cases d with
  | zero =>
    intro e he
    rcases List.mem_append.1 he with he | he
    · exact hl e he
    · exact ha e he
  | succ d =>
    intro e he
    rcases List.mem_append.1 he with he | he
    · exact .inl (hl e he)
    · exact ha e he

theorem includeLoop_depth (static : List (String × List SrEntry)) (hs : ∀ p ∈ static, Clean p.2) (d : Nat)
    (l : List SrEntry) (hl : Clean l) (h : DepthLe static d l) : (includeLoop static d l).2 = 0 := by
  induction d generalizing l with
  | zero =>
    rw [includeLoop, includePass_plain static l h]
    rfl
  | succ d ih =>
    rw [includeLoop]
    obtain ⟨h1, h2⟩ := includePass_depth static d l h
    have hc := includePass_clean static hs l hl
    generalize includePass static l = P at h1 h2 hc
    obtain ⟨l', a, rq, n⟩ := P
    simp only at h1 h2 hc
    cases rq with
    | false => simpa using h1
    | true =>
      have hfil : (l' ++ a).filter (fun e => !e.remove) = l.filter (fun e => e.incl.isNone) ++ a := by
        rw [List.filter_append, hc.1]
        congr 1
        rw [List.filter_eq_self]
        intro e he
        simp [hc.2 e he]
      simp only [if_true, hfil]
      have hcl : Clean (l.filter (fun e => e.incl.isNone) ++ a) := by
        intro e he
        rcases List.mem_append.1 he with he | he
        · exact hl e (List.mem_filter.1 he).1
        · exact hc.2 e he
      have := ih _ hcl (DepthLe.plain_append (by
        intro e he
        have := (List.mem_filter.1 he).2
        simpa using this) h2)
      omega

/-- C28: lists nested at most 19 levels deep are expanded without an error. -/
theorem C28_depth_19_accepted (static : List (String × List SrEntry)) (l : List SrEntry)
    (hs : ∀ p ∈ static, Clean p.2) (hl : Clean l) (h : DepthLe static 19 l) : (includeStatic static l).2 = 0 :=
  includeLoop_depth static hs 19 l hl h

theorem lookup_mergeFlat (a b : List (String × String)) (hb : (b.map (·.1)).Nodup) (k : String) :
    (mergeFlat a b).lookup k = (b.lookup k).or (a.lookup k) := by
  unfold mergeFlat
  induction b generalizing a with
  | nil => rfl
  | cons p r ih =>
    obtain ⟨j, v⟩ := p
    simp only [List.map_cons, List.nodup_cons] at hb
    rw [List.foldl_cons, ih _ hb.2, lookup_setKey]
    by_cases e : k = j
    · subst e
      have : r.lookup k = none := by
        rw [lookup_eq_none_iff]
        exact hb.1
      simp [this]
    · have hne : (k == j) = false := by simpa using e
      simp [List.lookup, hne, e]

/-- C28: an included route has the attributes of the route in the included list; its next hop has all attributes of
the next hop specified next to the include, and attributes of its own next hop which are not specified there.  Without
a next hop next to the include the route does not change. -/
theorem C28_included_nexthop (e x : SrEntry) :
    (withNexthop e x).body = x.body ∧ (withNexthop e x).incl = x.incl ∧
    (e.nexthop = none → withNexthop e x = x) ∧
    (∀ nh, e.nexthop = some nh → (nh.map (·.1)).Nodup → ∃ nh', (withNexthop e x).nexthop = some nh' ∧
      ∀ k, nh'.lookup k = (nh.lookup k).or ((x.nexthop.getD []).lookup k)) := by
  refine ⟨?_, withNexthop_incl e x, ?_, ?_⟩
  · unfold withNexthop; split <;> rfl
  · intro h; simp [withNexthop, h]
  · intro nh h hnd
    exact ⟨mergeFlat (x.nexthop.getD []) nh, by simp [withNexthop, h], lookup_mergeFlat _ _ hnd⟩

namespace IncludeExample

def static : List (String × List SrEntry) :=
  [("a", [{ body := "r1" }, { incl := some "b" }]),
   ("b", [{ body := "r2", nexthop := some [("ipv4", "10.0.0.1")] }])]

/-- Non-vacuity -/
example : includeStatic static [{ incl := some "a", nexthop := some [("vrf", "red")] }, { body := "r0" }] =
    ([{ body := "r0" }, { body := "r1", nexthop := some [("vrf", "red")] },
      { body := "r2", nexthop := some [("ipv4", "10.0.0.1"), ("vrf", "red")] }], 0) := by
  decide +kernel

/-- A chain of lists -/
def chain : List (String × List SrEntry) :=
  (List.range 20).map (fun i => (toString i, if i = 0 then [{ body := "r" }] else [{ incl := some (toString (i - 1)) }]))

end IncludeExample

open IncludeExample in
/-- C28: a chain of 19 lists is accepted, a chain of 20 lists is reported as a possible loop. -/
theorem C28_depth_20_rejected :
    includeStatic chain [{ incl := some "18" }] = ([{ body := "r" }], 0) ∧
    includeStatic chain [{ incl := some "19" }] = ([{ body := "r" }], 1) := by
  decide +kernel

end Netlab
