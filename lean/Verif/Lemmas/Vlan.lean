import Verif.Lemmas.Assigns
import Verif.Lemmas.Box
import Verif.Spec.Vlan
/-!
# Lemmas for C20
-/

namespace Netlab
open Spec

/-- The counter of an identifier set started at `start` with the limit `mx` -/
def CounterOk (start mx : Int) (v : IdVar) : Prop :=
  v.max = mx ∧ ∃ cur, v.next = some cur ∧ start ≤ cur ∧ (start ≤ mx → cur ≤ mx)

theorem getNext_counter {start mx n : Int} {v v' : IdVar} (hc : CounterOk start mx v)
    (h : v.getNext = .ok (n, v')) :
    .i n ∉ v.value ∧ start ≤ n ∧ (start ≤ mx → n ≤ mx) ∧ v'.value = .i n :: v.value ∧
      CounterOk start mx v' := by
  obtain ⟨h1, cur, h2, h3, h4⟩ := hc
  simp only [IdVar.getNext, h2, h1] at h
  cases hl : nextLoop v.value mx cur with
  | error e => simp [hl] at h
  | ok m =>
    simp only [hl, Except.ok.injEq, Prod.mk.injEq] at h
    obtain ⟨rfl, rfl⟩ := h
    obtain ⟨a, b, c, -⟩ := nextLoop_ok hl
    exact ⟨a, by omega, fun hs => c (h4 hs), rfl, rfl, m, rfl, by omega, fun hs => c (h4 hs)⟩

/-- set of integers in an identifier set -/
def UsedInt (v : IdVar) (n : Int) : Prop := IdVal.i n ∈ v.value

/-- identifier at a key of a VLAN dictionary -/
def idIn (d : VlanDict) (v : String) : Option Int := (d.lookup v).bind (·.id)

/-- VNI at a key of a VLAN dictionary -/
def vniIn (d : VlanDict) (v : String) : Option Int := (d.lookup v).bind vniNum

theorem setVlanId_assigns {start mx : Int} {st st' : VlanDict × IdVar} {v : String}
    (hc : CounterOk start mx st.2) (h : setVlanId st v = .ok st') :
    Assigns (fun k => start ≤ k ∧ (start ≤ mx → k ≤ mx)) (idIn st.1) (UsedInt st.2)
      (idIn st'.1) (UsedInt st'.2) ∧ CounterOk start mx st'.2 ∧
      (∀ w, (st'.1.lookup w).isSome = (st.1.lookup w).isSome) ∧
      (∀ w, (st'.1.lookup w).map (·.vni) = (st.1.lookup w).map (·.vni)) ∧
      ((st.1.lookup v).isSome → idIn st'.1 v ≠ none) := by
  obtain ⟨d, var⟩ := st
  simp only [setVlanId] at h
  cases hl : d.lookup v with
  | none =>
    simp only [hl] at h
    cases h
    exact ⟨.refl, hc, fun _ => rfl, fun _ => rfl, by simp⟩
  | some a =>
    simp only [hl] at h
    cases hi : a.id with
    | some i =>
      simp only [hi] at h
      cases h
      exact ⟨.refl, hc, fun _ => rfl, fun _ => rfl, by simp [idIn, hl, hi]⟩
    | none =>
      simp only [hi] at h
      cases hn : var.getNext with
      | error e => simp [hn] at h
      | ok p =>
        obtain ⟨n, var'⟩ := p
        simp only [hn, Except.ok.injEq] at h
        subst h
        obtain ⟨h1, h2, h3, h4, h5⟩ := getNext_counter hc hn
        refine ⟨.step v n .refl (by simp [idIn, hl, hi]) h1 ⟨h2, h3⟩ ?_ ?_ ?_, h5, ?_, ?_, ?_⟩
        · simp [idIn, lookup_setKey]
        · intro q hq
          simp [idIn, lookup_setKey, hq]
        · intro x hx
          simp only [UsedInt, h4, List.mem_cons, IdVal.i.injEq]
          exact hx.elim .inr .inl
        · intro w
          simp only [lookup_setKey]
          by_cases e : w = v
          · subst e; simp [hl]
          · simp [e]
        · intro w
          simp only [lookup_setKey]
          by_cases e : w = v
          · subst e; simp [hl]
          · simp [e]
        · intro _
          simp [idIn, lookup_setKey]

theorem validateVlans_assigns {start mx : Int} : ∀ (vs : List String) (st st' : VlanDict × IdVar),
    CounterOk start mx st.2 → validateVlans st vs = .ok st' →
    Assigns (fun k => start ≤ k ∧ (start ≤ mx → k ≤ mx)) (idIn st.1) (UsedInt st.2)
      (idIn st'.1) (UsedInt st'.2) ∧ CounterOk start mx st'.2 ∧
      (∀ w, (st'.1.lookup w).isSome = (st.1.lookup w).isSome) ∧
      (∀ w, (st'.1.lookup w).map (·.vni) = (st.1.lookup w).map (·.vni)) ∧
      (∀ v ∈ vs, (st.1.lookup v).isSome → idIn st'.1 v ≠ none)
  | [], st, st', hc, h => by
    simp only [validateVlans, Except.ok.injEq] at h
    subst h
    exact ⟨.refl, hc, fun _ => rfl, fun _ => rfl, by simp⟩
  | v :: vs, st, st', hc, h => by
    simp only [validateVlans] at h
    cases hs : setVlanId st v with
    | error e => simp [hs] at h
    | ok st1 =>
      simp only [hs] at h
      obtain ⟨a1, a2, a3, a4, a5⟩ := setVlanId_assigns hc hs
      obtain ⟨b1, b2, b3, b4, b5⟩ := validateVlans_assigns vs st1 st' a2 h
      refine ⟨a1.trans b1, b2, fun w => by rw [b3, a3], fun w => by rw [b4, a4], ?_⟩
      intro w hw hsome
      rw [List.mem_cons] at hw
      rcases hw with rfl | hw
      · have := a5 hsome
        cases hk : idIn st1.1 w with
        | none => exact absurd hk this
        | some k => rw [b1.kept w k hk]; simp
      · exact b5 w hw (by rw [a3]; exact hsome)

theorem mergeGlobalVlans_lookup (g : VlanDict) : ∀ (d : VlanDict) (w : String),
    (mergeGlobalVlans g d).1.lookup w =
      (d.lookup w).map (fun v => match g.lookup w with
        | some gv => mergeVlan gv v
        | none => v)
  | [], w => rfl
  | (k, v) :: r, w => by
    have ih := mergeGlobalVlans_lookup g r w
    unfold mergeGlobalVlans
    by_cases e : w = k
    · subst e
      cases hg : g.lookup w with
      | none => rw [lookup_cons_self, lookup_cons_self]; rfl
      | some gv => rw [lookup_cons_self, lookup_cons_self]; rfl
    · cases hg : g.lookup k with
      | none => rw [lookup_cons_ne _ _ e, lookup_cons_ne _ _ e, ih]
      | some gv => rw [lookup_cons_ne _ _ e, lookup_cons_ne _ _ e, ih]

/-- no error: node VLANs have no identifier or VNI or the same one as the global VLAN -/
theorem mergeGlobalVlans_errs (g : VlanDict) : ∀ (d : VlanDict) (w : String) (v gv : Vlan),
    (mergeGlobalVlans g d).2 = 0 → d.lookup w = some v → g.lookup w = some gv →
    (v.id = none ∨ v.id = gv.id) ∧ (v.vni = .missing ∨ v.vni = gv.vni)
  | [], w, v, gv, _, h, _ => by simp at h
  | (k, x) :: r, w, v, gv, he, h, hg => by
    unfold mergeGlobalVlans at he
    by_cases e : w = k
    · subst e
      rw [lookup_cons_self] at h
      obtain rfl := Option.some.inj h
      simp only [hg] at he
      have : globalNodeMismatch x gv = 0 := by omega
      unfold globalNodeMismatch at this
      constructor
      · by_cases h1 : x.id = none
        · exact .inl h1
        · by_cases h2 : x.id = gv.id
          · exact .inr h2
          · rw [if_pos ⟨h1, h2⟩] at this; omega
      · by_cases h1 : x.vni = .missing
        · exact .inl h1
        · by_cases h2 : x.vni = gv.vni
          · exact .inr h2
          · rw [if_pos (c := x.vni ≠ .missing ∧ _) ⟨h1, h2⟩] at this; omega
    · rw [lookup_cons_ne _ _ e] at h
      refine mergeGlobalVlans_errs g r w v gv ?_ h hg
      cases hk : g.lookup k with
      | none => simpa only [hk] using he
      | some y => simp only [hk] at he; omega

/-- identifiers of VLANs defined in nodes only -/
def ownIdIn (g : VlanDict) (nodes : List (String × VlanDict)) (p : String × String) : Option Int :=
  if (g.lookup p.2).isSome then none else (nodes.lookup p.1).bind (fun d => idIn d p.2)

def ownVniIn (g : VlanDict) (nodes : List (String × VlanDict)) (p : String × String) : Option Int :=
  if (g.lookup p.2).isSome then none else (nodes.lookup p.1).bind (fun d => vniIn d p.2)

/-- What happens to the VLANs of one node -/
structure NodeVlanRel (g d d' : VlanDict) : Prop where
  same : ∀ w, (d'.lookup w).isSome = (d.lookup w).isSome
  hasId : ∀ w v', d'.lookup w = some v' → v'.id ≠ none
  kept : ∀ w v v' k, d.lookup w = some v → d'.lookup w = some v' → v.id = some k → v'.id = some k
  copied : ∀ w v gv v', d.lookup w = some v → g.lookup w = some gv → gv.id ≠ none →
    d'.lookup w = some v' → v.id = none → v'.id = gv.id
  vni : ∀ w v v', d.lookup w = some v → d'.lookup w = some v' → v'.vni = v.vni ∨
    (v.vni = .missing ∧ ∃ gv, g.lookup w = some gv ∧ v'.vni = gv.vni)

theorem lookup_keys_mem {β : Type} {d : List (String × β)} {w : String} {v : β}
    (h : d.lookup w = some v) : w ∈ d.map (·.1) :=
  List.mem_map_of_mem (f := (·.1)) (mem_of_lookup h)

theorem nodeVlan_rel {start mx : Int} {g d d2 : VlanDict} {var var' : IdVar}
    (hc : CounterOk start mx var)
    (h : validateVlans ((mergeGlobalVlans g d).1, var) ((mergeGlobalVlans g d).1.map (·.1))
      = .ok (d2, var')) : NodeVlanRel g d d2 := by
  obtain ⟨a1, a2, a3, a4, a5⟩ := validateVlans_assigns _ _ _ hc h
  simp only at a1 a2 a3 a4 a5
  have hm := mergeGlobalVlans_lookup g d
  refine ⟨?_, ?_, ?_, ?_, ?_⟩
  · intro w
    rw [a3, hm]
    cases d.lookup w <;> rfl
  · intro w v' hv'
    have hs : ((mergeGlobalVlans g d).1.lookup w).isSome := by
      rw [← a3, hv']; rfl
    obtain ⟨x, hx⟩ := Option.isSome_iff_exists.1 hs
    have := a5 w (lookup_keys_mem hx) hs
    simpa [idIn, hv'] using this
  · intro w v v' k hv hv' hk
    have : idIn (mergeGlobalVlans g d).1 w = some k := by
      rw [idIn, hm, hv]
      simp only [Option.map_some, Option.bind_some]
      cases g.lookup w with
      | none => exact hk
      | some gv => simp [mergeVlan, hk]
    have := a1.kept w k this
    simpa [idIn, hv'] using this
  · intro w v gv v' hv hg hgi hv' hk
    obtain ⟨k, hgk⟩ : ∃ k, gv.id = some k := by
      cases hgv : gv.id with
      | none => exact absurd hgv hgi
      | some k => exact ⟨k, rfl⟩
    have : idIn (mergeGlobalVlans g d).1 w = some k := by
      rw [idIn, hm, hv]
      simp [mergeVlan, hk, hg, hgk]
    have := a1.kept w k this
    rw [hgk]
    simpa [idIn, hv'] using this
  · intro w v v' hv hv'
    have h4 := a4 w
    rw [hv', hm, hv] at h4
    simp only [Option.map_some, Option.some.injEq] at h4
    cases hg : g.lookup w with
    | none =>
      simp only [hg] at h4
      exact .inl h4
    | some gv =>
      simp only [hg, mergeVlan] at h4
      cases hvni : v.vni with
      | missing =>
        simp only [hvni] at h4
        exact .inr ⟨rfl, gv, rfl, h4⟩
      | flag b => simp only [hvni] at h4; exact .inl h4
      | num n => simp only [hvni] at h4; exact .inl h4

theorem ownIdIn_merge (g d : VlanDict) (w : String) (h : (g.lookup w).isSome = false) :
    idIn (mergeGlobalVlans g d).1 w = idIn d w := by
  rw [idIn, idIn, mergeGlobalVlans_lookup]
  have : g.lookup w = none := by simpa using h
  rw [this]
  cases d.lookup w <;> rfl

/-- Assignments in the dictionary of the first node seen as assignments in all nodes -/
theorem assigns_head {R : Int → Prop} {U U' : Int → Prop} (g : VlanDict)
    (key : VlanDict → String → Option Int) {n : String} {d d' : VlanDict}
    (r : List (String × VlanDict)) (h : Assigns R (key d) U (key d') U') :
    Assigns R (fun p : String × String => if (g.lookup p.2).isSome then none else
        (((n, d) :: r).lookup p.1).bind (fun d => key d p.2)) U
      (fun p : String × String => if (g.lookup p.2).isSome then none else
        (((n, d') :: r).lookup p.1).bind (fun d => key d p.2)) U' := by
  have h1 := h.pull (Q := String × String)
    (fun p => if (g.lookup p.2).isSome then none else if p.1 = n then some p.2 else none)
    (fun p => if (g.lookup p.2).isSome then none else
        (r.lookup p.1).bind (fun d => key d p.2))
    (by
      intro a b p ha hb
      obtain ⟨a1, a2⟩ := a
      obtain ⟨b1, b2⟩ := b
      simp only at ha hb
      split at ha
      · cases ha
      split at ha
      · split at hb
        · cases hb
        split at hb
        · cases ha; cases hb; simp_all
        · cases hb
      · cases ha)
  have conv : ∀ x : VlanDict, (fun p : String × String =>
      (if (g.lookup p.2).isSome then none else if p.1 = n then some p.2 else none).elim
        (if (g.lookup p.2).isSome then none else
          (r.lookup p.1).bind (fun d => key d p.2)) (key x)) =
      (fun p : String × String => if (g.lookup p.2).isSome then none else
        (((n, x) :: r).lookup p.1).bind (fun d => key d p.2)) := by
    intro x
    funext p
    by_cases hg : (g.lookup p.2).isSome
    · simp [hg]
    · by_cases hp : p.1 = n
      · simp only [hg, hp, if_true, if_false, Bool.false_eq_true, lookup_cons_self]
        rfl
      · simp only [hg, hp, if_false, Bool.false_eq_true]
        rw [lookup_cons_ne _ _ hp]
        rfl
  rw [conv, conv] at h1
  exact h1

theorem assigns_tail {R : Int → Prop} {U U' : Int → Prop} (g : VlanDict)
    (key : VlanDict → String → Option Int) (n : String) (d : VlanDict)
    {r r' : List (String × VlanDict)}
    (h : Assigns R (fun p : String × String => if (g.lookup p.2).isSome then none else
        (r.lookup p.1).bind (fun d => key d p.2)) U
      (fun p : String × String => if (g.lookup p.2).isSome then none else
        (r'.lookup p.1).bind (fun d => key d p.2)) U') :
    Assigns R (fun p : String × String => if (g.lookup p.2).isSome then none else
        (((n, d) :: r).lookup p.1).bind (fun d => key d p.2)) U
      (fun p : String × String => if (g.lookup p.2).isSome then none else
        (((n, d) :: r').lookup p.1).bind (fun d => key d p.2)) U' := by
  have h1 := h.pull (Q := String × String)
    (fun p => if p.1 = n then none else some p)
    (fun p => if (g.lookup p.2).isSome then none else key d p.2)
    (by
      intro a b p ha hb
      split at ha
      · cases ha
      split at hb
      · cases hb
      cases ha; cases hb; rfl)
  have conv : ∀ x : List (String × VlanDict), (fun p : String × String =>
      (if p.1 = n then none else some p).elim
        (if (g.lookup p.2).isSome then none else key d p.2)
        (fun p => if (g.lookup p.2).isSome then none else
          (x.lookup p.1).bind (fun d => key d p.2))) =
      (fun p : String × String => if (g.lookup p.2).isSome then none else
        (((n, d) :: x).lookup p.1).bind (fun d => key d p.2)) := by
    intro x
    funext p
    by_cases hp : p.1 = n
    · simp only [hp, if_true, lookup_cons_self]
      rfl
    · simp only [hp, if_false]
      rw [lookup_cons_ne _ _ hp]
      rfl
  rw [conv, conv] at h1
  exact h1

theorem nodeVlans_spec {start mx : Int} (g : VlanDict) :
    ∀ (nodes nodes' : List (String × VlanDict)) (var var' : IdVar) (e : Nat),
    CounterOk start mx var → nodeVlans g var nodes = .ok (nodes', var', e) →
    Assigns (fun k => start ≤ k ∧ (start ≤ mx → k ≤ mx)) (ownIdIn g nodes) (UsedInt var)
      (ownIdIn g nodes') (UsedInt var') ∧ CounterOk start mx var' ∧
    ∀ n, (nodes.lookup n = none ∧ nodes'.lookup n = none) ∨
      ∃ d d', nodes.lookup n = some d ∧ nodes'.lookup n = some d' ∧ NodeVlanRel g d d' ∧
        (e = 0 → ∀ w v gv, d.lookup w = some v → g.lookup w = some gv →
          (v.id = none ∨ v.id = gv.id) ∧ (v.vni = .missing ∨ v.vni = gv.vni))
  | [], nodes', var, var', e, hc, h => by
    simp only [nodeVlans, Except.ok.injEq, Prod.mk.injEq] at h
    obtain ⟨rfl, rfl, rfl⟩ := h
    exact ⟨.refl, hc, fun n => .inl ⟨rfl, rfl⟩⟩
  | (n, d) :: r, nodes', var, var', e, hc, h => by
    simp only [nodeVlans] at h
    cases hv : validateVlans ((mergeGlobalVlans g d).1, var)
        ((mergeGlobalVlans g d).1.map (·.1)) with
    | error x => simp [hv] at h
    | ok p =>
      obtain ⟨d2, var1⟩ := p
      simp only [hv] at h
      cases hr : nodeVlans g var1 r with
      | error x => simp [hr] at h
      | ok q =>
        obtain ⟨r', var2, e2⟩ := q
        simp only [hr, Except.ok.injEq, Prod.mk.injEq] at h
        obtain ⟨rfl, rfl, rfl⟩ := h
        obtain ⟨a1, a2, a3, a4, a5⟩ := validateVlans_assigns _ _ _ hc hv
        obtain ⟨b1, b2, b3⟩ := nodeVlans_spec g r r' var1 var2 e2 a2 hr
        have hrel := nodeVlan_rel hc hv
        refine ⟨?_, b2, ?_⟩
        · have c1 := assigns_head (n := n) g idIn r a1
          have c2 := assigns_tail g idIn n d2 b1
          have hsame : ownIdIn g ((n, d) :: r) =
              ownIdIn g ((n, (mergeGlobalVlans g d).1) :: r) := by
            funext p
            unfold ownIdIn
            by_cases hg : (g.lookup p.2).isSome
            · simp [hg]
            · by_cases hp : p.1 = n
              · simp only [hg, hp, lookup_cons_self, Option.bind_some]
                rw [ownIdIn_merge _ _ _ (Bool.eq_false_iff.2 hg)]
              · simp only [hg]
                rw [lookup_cons_ne _ _ hp, lookup_cons_ne _ _ hp]
          rw [hsame]
          exact c1.trans c2
        · intro m
          by_cases hm : m = n
          · subst hm
            refine .inr ⟨d, d2, lookup_cons_self .., lookup_cons_self .., hrel, ?_⟩
            intro he w v gv h1 h2
            exact mergeGlobalVlans_errs g d w v gv (by omega) h1 h2
          · rw [lookup_cons_ne _ _ hm, lookup_cons_ne _ _ hm]
            rcases b3 m with h | ⟨x, x', h1, h2, h3, h4⟩
            · exact .inl h
            · exact .inr ⟨x, x', h1, h2, h3, fun he => h4 (by omega)⟩

/-- Properties of an automatically assigned VNI: either the start value plus a VLAN
identifier or the next value of the counter. -/
def VniRange (start : Int) (id : Option Int) (k : Int) : Prop :=
  (∃ vid, id = some vid ∧ k = start + vid) ∨ (start ≤ k ∧ (start ≤ 16777215 → k ≤ 16777215))

/-- What one or more steps of VNI assignment do to a dictionary; `L` are the names of VLANs
whose VNI may be set. -/
structure VniUpd (start : Int) (L : String → Prop) (st st' : VlanDict × IdVar × Nat) :
    Prop where
  assigns : Assigns (fun _ => True) (vniIn st.1) (UsedInt st.2.1) (vniIn st'.1) (UsedInt st'.2.1)
  counter : CounterOk start 16777215 st'.2.1
  ids : ∀ w, (st'.1.lookup w).map (·.id) = (st.1.lookup w).map (·.id)
  vnis : ∀ w a b, st.1.lookup w = some a → st'.1.lookup w = some b →
    b.vni = a.vni ∨ (L w ∧ a.vni ≠ .flag false ∧ vniNum a = none ∧
      ∃ k, vniNum b = some k ∧ VniRange start a.id k)

theorem VniUpd.id {start : Int} {L : String → Prop} {d : VlanDict}
    {var : IdVar} (hc : CounterOk start 16777215 var) (e e' : Nat) :
    VniUpd start L (d, var, e) (d, var, e') :=
  ⟨.refl, hc, fun _ => rfl, fun w a b h1 h2 => by rw [h1] at h2; cases h2; exact .inl rfl⟩

theorem VniUpd.trans {start : Int} {L : String → Prop}
    {a b c : VlanDict × IdVar × Nat} (h1 : VniUpd start L a b) (h2 : VniUpd start L b c) :
    VniUpd start L a c := by
  refine ⟨h1.assigns.trans h2.assigns, h2.counter, fun w => by rw [h2.ids, h1.ids], ?_⟩
  intro w x z hx hz
  have hy : ∃ y, b.1.lookup w = some y := by
    have := h2.ids w
    rw [hz] at this
    cases hb : b.1.lookup w with
    | none => simp [hb] at this
    | some y => exact ⟨y, rfl⟩
  obtain ⟨y, hy⟩ := hy
  rcases h1.vnis w x y hx hy with e1 | ⟨l1, n1, m1, k1⟩
  · rcases h2.vnis w y z hy hz with e2 | ⟨l2, n2, m2, k2⟩
    · exact .inl (by rw [e2, e1])
    · have hid := h1.ids w
      rw [hx, hy] at hid
      simp only [Option.map_some, Option.some.injEq] at hid
      refine .inr ⟨l2, by rw [← e1]; exact n2, ?_, by rw [← hid]; exact k2⟩
      simpa [vniNum, e1] using m2
  · rcases h2.vnis w y z hy hz with e2 | ⟨l2, n2, m2, k2⟩
    · refine .inr ⟨l1, n1, m1, ?_⟩
      simpa [vniNum, e2] using k1
    · obtain ⟨k, hk, -⟩ := k1
      rw [hk] at m2
      cases m2

theorem autoVni_upd {start : Int} {L : String → Prop} {d : VlanDict} {var : IdVar}
    {errs : Nat} {v : String} {x : Vlan} {st' : VlanDict × IdVar × Nat}
    (hc : CounterOk start 16777215 var)
    (hl : d.lookup v = some x) (hL : L v) (hx : vniNum x = none) (hf : x.vni ≠ .flag false)
    (h : autoVni start d var errs v x = .ok st') :
    VniUpd start L (d, var, errs) st' ∧
      (x.id ≠ none → ∃ b, st'.1.lookup v = some b ∧ vniNum b ≠ none) := by
  have assign : ∀ (y : Int) (var' : IdVar),
      ¬ UsedInt var y → VniRange start x.id y → CounterOk start 16777215 var' →
      (∀ k, UsedInt var k ∨ k = y → UsedInt var' k) →
      st' = (setKey d v { x with vni := .num y }, var', errs) →
      VniUpd start L (d, var, errs) st' ∧
      (x.id ≠ none → ∃ b, st'.1.lookup v = some b ∧ vniNum b ≠ none) := by
    intro y var' hu hR hc' hU he
    subst he
    refine ⟨⟨.step v y .refl (by simp [vniIn, hl, hx]) hu trivial ?_ ?_ hU, hc', ?_, ?_⟩, ?_⟩
    · simp [vniIn, lookup_setKey, vniNum]
    · intro q hq; simp [vniIn, lookup_setKey, hq]
    · intro w
      simp only [lookup_setKey]
      by_cases e : w = v
      · subst e; simp [hl]
      · simp [e]
    · intro w a b h1 h2
      simp only [lookup_setKey] at h1 h2
      by_cases e : w = v
      · subst e
        rw [hl] at h1
        cases h1
        simp only [if_true, Option.some.injEq] at h2
        subst h2
        exact .inr ⟨hL, hf, hx, y, by simp [vniNum], hR⟩
      · simp only [e, if_false] at h2
        rw [h1] at h2
        cases h2
        exact .inl rfl
    · intro _
      exact ⟨_, by rw [lookup_setKey, if_pos rfl], by simp [vniNum]⟩
  unfold autoVni at h
  cases hi : x.id with
  | none =>
    simp only [hi, Except.ok.injEq] at h
    subst h
    exact ⟨.id hc _ _, fun h => absurd rfl h⟩
  | some vid =>
    rw [hi] at assign
    simp only [hi] at h
    by_cases hu : var.isUsed (.i (start + vid)) = true
    · rw [if_pos hu] at h
      cases hn : var.getNext with
      | error e => simp [hn] at h
      | ok q =>
        obtain ⟨n, var'⟩ := q
        simp only [hn, Except.ok.injEq] at h
        obtain ⟨h1, h2, h3, h4, h5⟩ := getNext_counter hc hn
        exact assign n var' h1 (.inr ⟨h2, h3⟩) h5
          (by intro k hk; simp only [UsedInt, h4, List.mem_cons, IdVal.i.injEq]
              exact hk.elim .inr .inl) (by rw [← h])
    · rw [if_neg hu] at h
      refine assign (start + vid) (var.extend [.i (start + vid)]) ?_
        (.inl ⟨vid, rfl, rfl⟩) hc ?_ (by rw [← Except.ok.inj h])
      · intro hmem
        exact hu (by simpa [IdVar.isUsed, UsedInt] using hmem)
      · intro k hk
        simp only [UsedInt, IdVar.extend, List.mem_append, List.mem_singleton,
          IdVal.i.injEq]
        exact hk.elim .inr .inl

theorem setVlanVni_upd {start : Int} {glob : Option VlanDict} {L : String → Prop}
    {st st' : VlanDict × IdVar × Nat} {v : String}
    (hc : CounterOk start 16777215 st.2.1)
    (hL : glob.bind (·.lookup v) = none → L v)
    (h : setVlanVni start glob st v = .ok st') :
    VniUpd start L st st' ∧
      (∀ a, glob.bind (·.lookup v) = none → st.1.lookup v = some a → a.id ≠ none →
        a.vni ≠ .flag false → ∃ b, st'.1.lookup v = some b ∧ vniNum b ≠ none) := by
  obtain ⟨d, var, errs⟩ := st
  simp only at hc
  simp only [setVlanVni] at h
  cases hl : d.lookup v with
  | none =>
    simp only [hl, Except.ok.injEq] at h
    subst h
    exact ⟨.id hc _ _, fun a _ h1 => by simp at h1⟩
  | some x =>
    simp only [hl] at h
    cases hgl : glob.bind (·.lookup v) with
    | some gv =>
      simp only [hgl] at h
      split at h
      · obtain rfl := Except.ok.inj h
        exact ⟨.id hc _ _, fun a h0 => by simp at h0⟩
      · obtain rfl := Except.ok.inj h
        exact ⟨.id hc _ _, fun a h0 => by simp at h0⟩
    | none =>
      simp only [hgl] at h
      have auto : vniNum x = none → x.vni ≠ .flag false →
          autoVni start d var errs v x = .ok st' → VniUpd start L (d, var, errs) st' ∧
          (∀ a, (none : Option Vlan) = none → some x = some a → a.id ≠ none →
            a.vni ≠ .flag false → ∃ b, st'.1.lookup v = some b ∧ vniNum b ≠ none) := by
        intro h1 h2 h3
        obtain ⟨a1, a2⟩ := autoVni_upd hc hl (hL hgl) h1 h2 h3
        exact ⟨a1, fun a _ h1 h2 _ => by cases h1; exact a2 h2⟩
      cases hvni : x.vni with
      | flag b =>
        cases b with
        | false =>
          simp only [hvni, Except.ok.injEq] at h
          subst h
          exact ⟨.id hc _ _, fun a _ h1 _ h3 => by cases h1; exact absurd hvni h3⟩
        | true =>
          simp only [hvni] at h
          exact auto (by simp [vniNum, hvni]) (by simp [hvni]) h
      | missing =>
        simp only [hvni] at h
        exact auto (by simp [vniNum, hvni]) (by simp [hvni]) h
      | num n =>
        have done : ∀ e, VniUpd start L (d, var, errs) (d, var, e) ∧
          (∀ a, (none : Option Vlan) = none → some x = some a → a.id ≠ none →
            a.vni ≠ .flag false → ∃ b, (d, var, e).1.lookup v = some b ∧ vniNum b ≠ none) :=
          fun e => ⟨.id hc _ _, fun a _ _ _ _ => ⟨x, hl, by simp [vniNum, hvni]⟩⟩
        simp only [hvni] at h
        split at h
        · obtain rfl := Except.ok.inj h
          exact done _
        · obtain rfl := Except.ok.inj h
          exact done _

theorem assignVni_upd {start : Int} {glob : Option VlanDict} {L : String → Prop} :
    ∀ (vs : List String) (st st' : VlanDict × IdVar × Nat),
    CounterOk start 16777215 st.2.1 →
    (∀ v ∈ vs, glob.bind (·.lookup v) = none → L v) →
    assignVni start glob st vs = .ok st' →
    VniUpd start L st st' ∧
      (∀ v ∈ vs, ∀ a, glob.bind (·.lookup v) = none → st.1.lookup v = some a → a.id ≠ none →
        a.vni ≠ .flag false → ∃ b, st'.1.lookup v = some b ∧ vniNum b ≠ none)
  | [], st, st', hc, hL, h => by
    simp only [assignVni, Except.ok.injEq] at h
    subst h
    exact ⟨.id hc _ _, by simp⟩
  | v :: vs, st, st', hc, hL, h => by
    simp only [assignVni] at h
    cases hs : setVlanVni start glob st v with
    | error e => simp [hs] at h
    | ok st1 =>
      simp only [hs] at h
      obtain ⟨a1, a2⟩ := setVlanVni_upd hc (hL v (List.mem_cons_self ..)) hs
      have forw : ∀ w a, st.1.lookup w = some a →
          ∃ b, st1.1.lookup w = some b ∧ b.id = a.id := by
        intro w a hw
        have := a1.ids w
        rw [hw] at this
        cases hb : st1.1.lookup w with
        | none => simp [hb] at this
        | some y => exact ⟨y, rfl, by simpa [hb] using this⟩
      obtain ⟨b1, b2⟩ := assignVni_upd vs st1 st' a1.counter
        (fun w hw => hL w (List.mem_cons_of_mem _ hw)) h
      refine ⟨a1.trans b1, ?_⟩
      intro w hw a hg hwa hid hf
      obtain ⟨b, hb, hbid⟩ := forw w a hwa
      rcases List.mem_cons.1 hw with rfl | hw
      · obtain ⟨b', hb', hn⟩ := a2 a hg hwa hid hf
        cases hk : vniIn st1.1 w with
        | none => simp [vniIn, hb'] at hk; exact absurd hk hn
        | some k =>
          have := b1.assigns.kept w k hk
          unfold vniIn at this
          cases hc : st'.1.lookup w with
          | none => simp [hc] at this
          | some c => exact ⟨c, rfl, by simp [hc] at this; simp [this]⟩
      · refine b2 w hw b hg hb (by rw [hbid]; exact hid) ?_
        rcases a1.vnis w a b hwa hb with e | ⟨-, -, -, k, hk, -⟩
        · rw [e]; exact hf
        · intro e; simp [vniNum, e] at hk

theorem assignNodeVnis_upd {start : Int} (g : VlanDict)
    (lists : String → List String) :
    ∀ (nodes nodes' : List (String × VlanDict)) (st : IdVar × Nat) (var' : IdVar) (e' : Nat),
    CounterOk start 16777215 st.1 →
    assignNodeVnis start g lists st nodes = .ok (nodes', var', e') →
    Assigns (fun _ => True) (ownVniIn g nodes) (UsedInt st.1) (ownVniIn g nodes')
      (UsedInt var') ∧ CounterOk start 16777215 var' ∧
    ∀ n, (nodes.lookup n = none ∧ nodes'.lookup n = none) ∨
      ∃ d d', nodes.lookup n = some d ∧ nodes'.lookup n = some d' ∧
        (∀ w, (d'.lookup w).map (·.id) = (d.lookup w).map (·.id)) ∧
        (∀ w a b, d.lookup w = some a → d'.lookup w = some b → b.vni = a.vni ∨
          (w ∈ lists n ∧ g.lookup w = none ∧ a.vni ≠ .flag false ∧ vniNum a = none ∧
            ∃ k, vniNum b = some k ∧ VniRange start a.id k)) ∧
        (∀ w ∈ lists n, ∀ a, g.lookup w = none → d.lookup w = some a → a.id ≠ none →
          a.vni ≠ .flag false → ∃ b, d'.lookup w = some b ∧ vniNum b ≠ none)
  | [], nodes', st, var', e', hc, h => by
    simp only [assignNodeVnis, Except.ok.injEq, Prod.mk.injEq] at h
    obtain ⟨rfl, rfl, rfl⟩ := h
    exact ⟨.refl, hc, fun n => .inl ⟨rfl, rfl⟩⟩
  | (n, d) :: r, nodes', st, var', e', hc, h => by
    simp only [assignNodeVnis] at h
    cases hv : assignVni start (some g) (d, st.1, st.2) (lists n) with
    | error x => simp [hv] at h
    | ok p =>
      obtain ⟨d2, var1, e1⟩ := p
      simp only [hv] at h
      cases hr : assignNodeVnis start g lists (var1, e1) r with
      | error x => simp [hr] at h
      | ok q =>
        obtain ⟨r', var2, e2⟩ := q
        simp only [hr, Except.ok.injEq, Prod.mk.injEq] at h
        obtain ⟨rfl, rfl, rfl⟩ := h
        obtain ⟨a1, a2⟩ := assignVni_upd (glob := some g) (L := fun w => w ∈ lists n ∧ g.lookup w = none)
          (lists n) _ _ hc (fun v hv hg => ⟨hv, hg⟩) hv
        obtain ⟨b1, b2, b3⟩ := assignNodeVnis_upd g lists r r' (var1, e1) var2 e2 a1.counter hr
        refine ⟨?_, b2, ?_⟩
        · have c1 := assigns_head (n := n) g vniIn r a1.assigns
          have c2 := assigns_tail g vniIn n d2 b1
          exact c1.trans c2
        · intro m
          by_cases hm : m = n
          · subst hm
            refine .inr ⟨d, d2, lookup_cons_self .., lookup_cons_self .., a1.ids, ?_, ?_⟩
            · intro w a b h1 h2
              rcases a1.vnis w a b h1 h2 with h | ⟨⟨x1, x2⟩, x3⟩
              · exact .inl h
              · exact .inr ⟨x1, x2, x3⟩
            · intro w hw a hg
              exact a2 w hw a hg
          · rw [lookup_cons_ne _ _ hm, lookup_cons_ne _ _ hm]
            exact b3 m

theorem foldl_extend_mem {f : VlanDict → List IdVal} (nodes : List (String × VlanDict)) :
    ∀ (v : IdVar) (x : IdVal), x ∈ (nodes.foldl (fun v n => v.extend (f n.2)) v).value ↔
      x ∈ v.value ∨ ∃ n ∈ nodes, x ∈ f n.2 := by
  induction nodes with
  | nil => simp
  | cons n r ih =>
    intro v x
    rw [List.foldl_cons, ih]
    simp only [IdVar.extend, List.mem_append, List.mem_cons, exists_eq_or_imp]
    constructor
    · rintro ((h | h) | h) <;> simp [*]
    · rintro (h | h | h) <;> simp [*]

theorem foldl_extend_counter {f : VlanDict → List IdVal} (nodes : List (String × VlanDict)) :
    ∀ (v : IdVar), (nodes.foldl (fun v n => v.extend (f n.2)) v).next = v.next ∧
      (nodes.foldl (fun v n => v.extend (f n.2)) v).max = v.max := by
  induction nodes with
  | nil => intro v; exact ⟨rfl, rfl⟩
  | cons n r ih =>
    intro v
    rw [List.foldl_cons]
    exact ih _

theorem counterOk_foldl {f : VlanDict → List IdVal} (nodes : List (String × VlanDict))
    (v : IdVar) (start mx : Int) :
    CounterOk start mx (nodes.foldl (fun v n => v.extend (f n.2)) (v.setCounter start mx)) := by
  obtain ⟨h1, h2⟩ := foldl_extend_counter (f := f) nodes (v.setCounter start mx)
  exact ⟨h2, start, h1, Int.le_refl _, fun h => h⟩

theorem vlanAt_id_used {start : Int} {t : VlanTopo} {p : VlanPos} {a : Vlan} {k : Int}
    (h : vlanAt t p = some a) (hk : a.id = some k) : UsedInt (populateVlanIdSet start t) k := by
  unfold UsedInt populateVlanIdSet
  rw [foldl_extend_mem]
  obtain ⟨s, v⟩ := p
  cases s with
  | none =>
    left
    simp only [IdVar.setCounter, IdVar.extend, List.mem_append, vlanIds, List.mem_filterMap]
    exact .inl ⟨(v, a), mem_of_lookup h, by simp [hk]⟩
  | some n =>
    right
    simp only [vlanAt, Option.bind_eq_some_iff] at h
    obtain ⟨d, h1, h2⟩ := h
    exact ⟨(n, d), mem_of_lookup h1, by
      simp only [vlanIds, List.mem_filterMap]
      exact ⟨(v, a), mem_of_lookup h2, by simp [hk]⟩⟩

theorem vlanAt_vni_used {start : Int} {t : VlanTopo} {p : VlanPos} {a : Vlan} {k : Int}
    (h : vlanAt t p = some a) (hk : vniNum a = some k) : UsedInt (registerStaticVni start t) k := by
  have hk' : a.vni = .num k := by
    unfold vniNum at hk
    split at hk
    · rename_i n hn; cases hk; exact hn
    · cases hk
  unfold UsedInt registerStaticVni
  rw [foldl_extend_mem]
  obtain ⟨s, v⟩ := p
  cases s with
  | none =>
    left
    simp only [IdVar.setCounter, IdVar.extend, List.mem_append, vlanVnis, List.mem_filterMap]
    exact .inl ⟨(v, a), mem_of_lookup h, by simp [hk']⟩
  | some n =>
    right
    simp only [vlanAt, Option.bind_eq_some_iff] at h
    obtain ⟨d, h1, h2⟩ := h
    exact ⟨(n, d), mem_of_lookup h1, by
      simp only [vlanVnis, List.mem_filterMap]
      exact ⟨(v, a), mem_of_lookup h2, by simp [hk']⟩⟩

/-- identifiers of VLANs that are not copies of global VLANs -/
def ownAt (t : VlanTopo) (G : VlanDict) (key : Vlan → Option Int) (p : VlanPos) : Option Int :=
  match p.1 with
  | none => (t.vlans.lookup p.2).bind key
  | some _ => if (G.lookup p.2).isSome then none else (vlanAt t p).bind key

theorem assigns_global {R : Int → Prop} {U U' : Int → Prop} (G : VlanDict)
    (key : Vlan → Option Int) (nodes : List (String × VlanDict)) {d d' : VlanDict}
    (h : Assigns R (fun v => (d.lookup v).bind key) U (fun v => (d'.lookup v).bind key) U') :
    Assigns R (ownAt ⟨d, nodes⟩ G key) U (ownAt ⟨d', nodes⟩ G key) U' := by
  have h1 := h.pull (Q := VlanPos)
    (fun p => if p.1 = none then some p.2 else none)
    (fun p => if (G.lookup p.2).isSome then none else (vlanAt ⟨[], nodes⟩ p).bind key)
    (by
      rintro ⟨a1, a2⟩ ⟨b1, b2⟩ p ha hb
      simp only at ha hb
      split at ha
      · split at hb
        · cases ha; cases hb; simp_all
        · cases hb
      · cases ha)
  have conv : ∀ x : VlanDict, (fun p : VlanPos => (if p.1 = none then some p.2 else none).elim
      (if (G.lookup p.2).isSome then none else (vlanAt ⟨[], nodes⟩ p).bind key)
      (fun v => (x.lookup v).bind key)) = ownAt ⟨x, nodes⟩ G key := by
    intro x
    funext p
    obtain ⟨s, v⟩ := p
    cases s with
    | none => rfl
    | some n => rfl
  rw [conv, conv] at h1
  exact h1

theorem assigns_nodes {R : Int → Prop} {U U' : Int → Prop} (G d : VlanDict)
    (key : Vlan → Option Int) {nodes nodes' : List (String × VlanDict)}
    (h : Assigns R (fun p : String × String => if (G.lookup p.2).isSome then none else
        (nodes.lookup p.1).bind (fun d => (d.lookup p.2).bind key)) U
      (fun p : String × String => if (G.lookup p.2).isSome then none else
        (nodes'.lookup p.1).bind (fun d => (d.lookup p.2).bind key)) U') :
    Assigns R (ownAt ⟨d, nodes⟩ G key) U (ownAt ⟨d, nodes'⟩ G key) U' := by
  have h1 := h.pull (Q := VlanPos)
    (fun p => p.1.map (fun n => (n, p.2)))
    (fun p => (d.lookup p.2).bind key)
    (by
      rintro ⟨a1, a2⟩ ⟨b1, b2⟩ p ha hb
      cases a1 <;> cases b1 <;> simp_all
      obtain ⟨rfl, rfl⟩ := Prod.mk.inj (ha.trans hb.symm)
      trivial)
  have conv : ∀ x : List (String × VlanDict),
      (fun p : VlanPos => (p.1.map (fun n => (n, p.2))).elim ((d.lookup p.2).bind key)
        (fun p : String × String => if (G.lookup p.2).isSome then none else
          (x.lookup p.1).bind (fun d => (d.lookup p.2).bind key))) = ownAt ⟨d, x⟩ G key := by
    intro x
    funext p
    obtain ⟨s, v⟩ := p
    cases s with
    | none => rfl
    | some n =>
      simp only [Option.map_some, Option.elim, ownAt, vlanAt]
      rw [Option.bind_assoc]
  rw [conv, conv] at h1
  exact h1

end Netlab
