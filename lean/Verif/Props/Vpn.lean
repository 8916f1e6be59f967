import Verif.Props.Vrf
import Verif.Props.Svi
import Verif.Spec.Vpn
/-!
# C126: VPNs are connected and isolated

`vrfIdTransform` followed by `vrfRtTransform` is what the VRF module does with the VRFs of a topology
(identifiers and RDs, then route targets).
-/

namespace Netlab
open Spec

theorem rdAsRt_str {rd : RdAttr} {r : String} : RtVal.str r ∈ rdAsRt rd ↔ rd = .str r := by
  cases rd <;> simp [rdAsRt, eq_comm]

/-- What the second pass says about one kind of route targets -/
def RtPass (sel : Vrf → Option (List RtVal)) (t1 t2 : VrfTopo) : Prop :=
  ∀ p, (vrfAt t1 p = none ∧ vrfAt t2 p = none) ∨
    ∃ a b, vrfAt t1 p = some a ∧ vrfAt t2 p = some b ∧ sel b ≠ none ∧
      RtCases t1 p a.rd (sel a) (if p.1 = none then none else (vrfAt t2 (none, p.2)).bind sel) (sel b)

theorem rtPass_imp {okRd : String → Bool} {t t' : VrfTopo}
    (h : vrfRtTransform okRd t = .ok (t', 0)) : RtPass (·.imp) t t' := by
  intro p
  rcases vrfRt_facts h p with x | ⟨a, b, x, y, -, -, z, -, c, -⟩
  · exact .inl x
  · exact .inr ⟨a, b, x, y, z, c⟩

theorem rtPass_exp {okRd : String → Bool} {t t' : VrfTopo}
    (h : vrfRtTransform okRd t = .ok (t', 0)) : RtPass (·.exp) t t' := by
  intro p
  rcases vrfRt_facts h p with x | ⟨a, b, x, y, -, -, -, z, -, c⟩
  · exact .inl x
  · exact .inr ⟨a, b, x, y, z, c⟩

/-- The first pass keeps the VRFs and what the user wrote. -/
structure IdPass (sel : Vrf → Option (List RtVal)) (t t1 : VrfTopo) : Prop where
  same : ∀ p, (vrfAt t1 p).isSome = (vrfDef t p).isSome
  kept : ∀ p, (vrfAt t1 p).bind sel = (vrfDef t p).bind sel

theorem vrfId_rts {okRd : String → Bool} {t t1 : VrfTopo} {s : VrfSets}
    (h : vrfIdTransform okRd t = .ok (t1, s, 0)) (p : VrfPos) (a b : Vrf)
    (ha : vrfDef t p = some a) (hb : vrfAt t1 p = some b) : b.imp = a.imp ∧ b.exp = a.exp := by
  obtain ⟨⟨U, V, hf, -⟩, -⟩ := vrfFacts h
  rcases normalizeAll_def okRd t p with ⟨h1, -⟩ | ⟨v, v', h1, h2, hn⟩
  · rw [h1] at ha; cases ha
  rw [ha] at h1
  obtain rfl := Option.some.inj h1
  have := hf.rts p v' b h2 hb
  exact ⟨this.1.trans hn.rts.1, this.2.trans hn.rts.2⟩

theorem idPass_of {okRd : String → Bool} {t t1 : VrfTopo} {s : VrfSets}
    (h : vrfIdTransform okRd t = .ok (t1, s, 0)) :
    IdPass (·.imp) t t1 ∧ IdPass (·.exp) t t1 := by
  have hs : ∀ p, (vrfAt t1 p).isSome = (vrfDef t p).isSome := fun p =>
    (C21_every_vrf_has_id_rd okRd t t1 s 0 h p).1
  have hk : ∀ p, (vrfAt t1 p).bind (·.imp) = (vrfDef t p).bind (·.imp) ∧
      (vrfAt t1 p).bind (·.exp) = (vrfDef t p).bind (·.exp) := by
    intro p
    have := hs p
    cases ha : vrfDef t p with
    | none =>
      rw [ha] at this
      cases hb : vrfAt t1 p with
      | none => exact ⟨rfl, rfl⟩
      | some b => rw [hb] at this; cases this
    | some a =>
      rw [ha] at this
      cases hb : vrfAt t1 p with
      | none => rw [hb] at this; cases this
      | some b => exact vrfId_rts h p a b ha hb
  exact ⟨⟨hs, fun p => (hk p).1⟩, ⟨hs, fun p => (hk p).2⟩⟩

theorem isGlobal_isSome (t : VrfTopo) (w : String) : isGlobalVrf t w = (vrfDef t (none, w)).isSome := rfl

/-- The outcome of both passes for one kind of route targets: the RD of the VPN if the user wrote
nothing, otherwise the meaning of what the user wrote. -/
theorem rt_outcome {sel : Vrf → Option (List RtVal)} {t t1 t2 : VrfTopo}
    (h1 : IdPass sel t t1) (h2 : RtPass sel t1 t2) (p : VrfPos) (b : Vrf) (hb : vrfAt t2 p = some b) :
    (writtenRt sel t p = none → ∃ g, vrfAt t1 (vpnOf t p) = some g ∧ sel b = some (rdAsRt g.rd)) ∧
    (∀ q l, writtenRt sel t p = some (q, l) →
      ∃ l', sel b = some l' ∧ List.Forall₂ (RtMeans t1 q) l l') := by
  rcases h2 p with ⟨-, x⟩ | ⟨a, b', ha, hb', hne, hc⟩
  · rw [x] at hb; cases hb
  rw [hb] at hb'
  obtain rfl := Option.some.inj hb'
  have ka := h1.kept p
  rw [ha, Option.bind_some] at ka
  have kg := h1.kept (vpnOf t p)
  -- a global VRF or a node VRF that is not a part of one
  have own : (p.1 = none ∨ vrfAt t2 (none, p.2) = none) → vpnOf t p = p →
      (writtenRt sel t p = none → ∃ g, vrfAt t1 (vpnOf t p) = some g ∧ sel b = some (rdAsRt g.rd)) ∧
      (∀ q l, writtenRt sel t p = some (q, l) →
        ∃ l', sel b = some l' ∧ List.Forall₂ (RtMeans t1 q) l l') := by
    intro hg hv
    unfold writtenRt
    rw [hv, ← ka]
    have hg' : (if p.1 = none then none else (vrfAt t2 (none, p.2)).bind sel) = none := by
      rcases hg with hg | hg <;> simp [hg]
    cases hs : sel a with
    | some l =>
      refine ⟨fun x => absurd x (by simp), ?_⟩
      intro q l' e
      simp only [Option.some.injEq, Prod.mk.injEq] at e
      obtain ⟨rfl, rfl⟩ := e
      exact hc.given l hs
    | none =>
      exact ⟨fun _ => ⟨a, ha, hc.dfltRd hs hg'⟩, fun q l e => by cases e⟩
  cases hg : isGlobalVrf t p.2 with
  | false =>
    have hv : vpnOf t p = p := by simp [vpnOf, hg]
    refine own (.inr ?_) hv
    rw [isGlobal_isSome, ← h1.same] at hg
    rcases h2 (none, p.2) with ⟨-, x⟩ | ⟨a', b', x, -⟩
    · exact x
    · rw [x] at hg; cases hg
  | true =>
    have hv : vpnOf t p = (none, p.2) := by simp [vpnOf, hg]
    cases hp1 : p.1 with
    | none =>
      have : vpnOf t p = p := by rw [hv, ← hp1]
      exact own (.inl hp1) this
    | some n =>
      rcases h2 (none, p.2) with ⟨x, -⟩ | ⟨ga, gb, hga, hgb, hgne, hgc⟩
      · rw [isGlobal_isSome, ← h1.same, x] at hg
        cases hg
      rw [hp1] at hc
      simp only [reduceCtorEq, if_false, hgb, Option.bind_some] at hc
      simp only [if_true] at hgc
      rw [hv, hga, Option.bind_some] at kg
      unfold writtenRt
      rw [hv, ← ka, ← kg]
      cases hs : sel a with
      | some l =>
        refine ⟨fun x => absurd x (by simp), ?_⟩
        intro q l' e
        simp only [Option.some.injEq, Prod.mk.injEq] at e
        obtain ⟨rfl, rfl⟩ := e
        exact hc.given l hs
      | none =>
        have hcp := hc.copied hs hgne
        cases hsg : sel ga with
        | none => exact ⟨fun _ => ⟨ga, hga, hcp.trans (hgc.dfltRd hsg rfl)⟩, fun q l e => by cases e⟩
        | some l =>
          refine ⟨fun x => absurd x (by simp), ?_⟩
          intro q l' e
          simp only [Option.map_some, Option.some.injEq, Prod.mk.injEq] at e
          obtain ⟨rfl, rfl⟩ := e
          obtain ⟨l', u, v⟩ := hgc.given l hsg
          exact ⟨l', hcp.trans u, v⟩

theorem vpnOf_own (t : VrfTopo) (p : VrfPos) : OwnVrf t (vpnOf t p) := by
  unfold vpnOf OwnVrf
  cases h : isGlobalVrf t p.2 <;> simp [h]

theorem exists_vrfAt2 {sel : Vrf → Option (List RtVal)} {t t1 t2 : VrfTopo}
    (h1 : IdPass sel t t1) (h2 : RtPass sel t1 t2) {p : VrfPos} (hp : (vrfDef t p).isSome) :
    ∃ b, vrfAt t2 p = some b := by
  rw [← h1.same] at hp
  rcases h2 p with ⟨x, -⟩ | ⟨a, b, -, y, -⟩
  · rw [x] at hp; cases hp
  · exact ⟨b, y⟩

theorem rtMeans_unique {t : VrfTopo} {p : VrfPos} {rt o o' : RtVal} (h : RtMeans t p rt o)
    (h' : RtMeans t p rt o') : o = o' := by
  cases rt with
  | null => exact h.elim
  | num n =>
    obtain ⟨a, h1, rfl⟩ := h
    obtain ⟨a', h2, rfl⟩ := h'
    rw [h1] at h2
    cases h2
    rfl
  | str x =>
    unfold RtMeans at h h'
    dsimp only at h h'
    by_cases hc : ':' ∈ x.toList
    · rw [if_pos hc] at h h'
      rw [h, h']
    · rw [if_neg hc] at h h'
      obtain ⟨v, r, h1, h2, rfl⟩ := h
      obtain ⟨v', r', h3, h4, rfl⟩ := h'
      rw [h1] at h3
      cases h3
      rw [h2] at h4
      cases h4
      rfl

/-- C126: two VRFs of the same VPN for which the user wrote no route targets accept each other's
routes, whatever the nodes they are on, their AS numbers and their static RDs.  (The statement is about the
routes of `p` in `q`; the VPN must have an RD.) -/
theorem C126_connected (okRd : String → Bool) (t t1 t2 : VrfTopo) (s : VrfSets)
    (h1 : vrfIdTransform okRd t = .ok (t1, s, 0)) (h2 : vrfRtTransform okRd t1 = .ok (t2, 0))
    (p q : VrfPos) (hp : (vrfDef t p).isSome) (hq : (vrfDef t q).isSome)
    (hpq : vpnOf t p = vpnOf t q) (he : writtenExp t p = none) (hi : writtenImp t q = none)
    (hnull : ∀ a, vrfDef t (vpnOf t p) = some a → a.rd ≠ .null) :
    Accepts t2 q p := by
  obtain ⟨ii, ie⟩ := idPass_of h1
  obtain ⟨c, hc⟩ := exists_vrfAt2 ie (rtPass_exp h2) hp
  obtain ⟨b, hb⟩ := exists_vrfAt2 ii (rtPass_imp h2) hq
  obtain ⟨g, hg, hx⟩ := (rt_outcome ie (rtPass_exp h2) p c hc).1 he
  obtain ⟨g', hg', hx'⟩ := (rt_outcome ii (rtPass_imp h2) q b hb).1 hi
  rw [← hpq, hg] at hg'
  obtain rfl := Option.some.inj hg'
  have hown := vpnOf_own t p
  have hsome := ii.same (vpnOf t p)
  rw [hg] at hsome
  obtain ⟨a, ha⟩ := Option.isSome_iff_exists.1 hsome.symm
  have hrd : ∃ r, g.rd = .str r := by
    have hk := C21_static_values_kept okRd t t1 s h1 (vpnOf t p) a g ha hg (.inl hown)
    cases har : a.rd with
    | null => exact absurd har (hnull a ha)
    | str x => exact ⟨x, hk.2.1 x har⟩
    | num n =>
      obtain ⟨asn, -, e⟩ := hk.2.2.1 n har
      exact ⟨_, e⟩
    | missing =>
      obtain ⟨asn, n, -, -, -, e, -⟩ := C21_auto_rd_format okRd t t1 s h1 (vpnOf t p) a g hown ha har hg
      exact ⟨_, e⟩
  obtain ⟨r, hr⟩ := hrd
  refine ⟨b, c, r, hb, hc, ?_, ?_⟩
  · simp [hx', rdAsRt_str, hr]
  · simp [hx, rdAsRt_str, hr]

/-- C126: VPNs with automatic RDs are isolated.  If the user wrote no export route targets for VRF `p` and
no RD for its VPN, then a VRF of another VPN accepts its routes if and only if the user asked for it: one of the import
route targets written for that VRF means the RD of the VPN.  The theorem needs global VRFs. -/
theorem C126_isolated (okRd : String → Bool) (t t1 t2 : VrfTopo) (s : VrfSets)
    (h1 : vrfIdTransform okRd t = .ok (t1, s, 0)) (h2 : vrfRtTransform okRd t1 = .ok (t2, 0))
    (hglob : t.vrfs ≠ none) (p q : VrfPos) (a : Vrf)
    (hp : (vrfDef t p).isSome) (hq : (vrfDef t q).isSome) (hpq : vpnOf t p ≠ vpnOf t q)
    (ha : vrfDef t (vpnOf t p) = some a) (hauto : a.rd = .missing) (he : writtenExp t p = none) :
    Accepts t2 q p ↔ ∃ pos l rt g r, writtenImp t q = some (pos, l) ∧ rt ∈ l ∧
      vrfAt t1 (vpnOf t p) = some g ∧ g.rd = .str r ∧ RtMeans t1 pos rt (.str r) := by
  obtain ⟨ii, ie⟩ := idPass_of h1
  obtain ⟨c, hc⟩ := exists_vrfAt2 ie (rtPass_exp h2) hp
  obtain ⟨b, hb⟩ := exists_vrfAt2 ii (rtPass_imp h2) hq
  obtain ⟨g, hg, hx⟩ := (rt_outcome ie (rtPass_exp h2) p c hc).1 he
  have hown := vpnOf_own t p
  have hi := rt_outcome ii (rtPass_imp h2) q b hb
  constructor
  · rintro ⟨b', c', r, hb', hc', m1, m2⟩
    rw [hb] at hb'
    rw [hc] at hc'
    obtain rfl := Option.some.inj hb'
    obtain rfl := Option.some.inj hc'
    rw [hx] at m2
    have hr : g.rd = .str r := rdAsRt_str.1 m2
    cases hw : writtenImp t q with
    | none =>
      obtain ⟨g', hg', hx'⟩ := hi.1 hw
      rw [hx'] at m1
      refine absurd (rdAsRt_str.1 m1) (C21_auto_rd_unique okRd t t1 s 0 h1 hglob (vpnOf t p) (vpnOf t q)
        a g g' r hown ha hauto hg hr hg' hpq ?_)
      intro e1 e2
      apply hpq
      have hg1 : isGlobalVrf t (vpnOf t p).2 = true := by
        have : vpnOf t p = (none, (vpnOf t p).2) := by rw [← e1]
        rw [isGlobal_isSome, ← this, ha]; rfl
      have e3 : (vpnOf t q).1 = none := by
        have hq2 : (vpnOf t q).2 = q.2 := by unfold vpnOf; split <;> rfl
        rw [← e2, hq2] at hg1
        simp [vpnOf, hg1]
      exact Prod.ext (e1.trans e3.symm) e2.symm
    | some w =>
      obtain ⟨pos, l⟩ := w
      obtain ⟨l', e, hf⟩ := hi.2 pos l hw
      rw [e] at m1
      obtain ⟨rt, m, hm⟩ := forall₂_mem_right hf m1
      exact ⟨pos, l, rt, g, r, rfl, m, hg, hr, hm⟩
  · rintro ⟨pos, l, rt, g', r, hw, m, hg', hr, hm⟩
    rw [hg] at hg'
    obtain rfl := Option.some.inj hg'
    obtain ⟨l', e, hf⟩ := hi.2 pos l hw
    obtain ⟨o, mo, ho⟩ := forall₂_mem_left hf m
    refine ⟨b, c, r, hb, hc, ?_, ?_⟩
    · rw [e]
      rwa [rtMeans_unique hm ho]
    · simp [hx, rdAsRt_str, hr]

/-- C126: routes are leaked by VRF name.  If the import route targets written for VRF `q` include the name of
a global VRF, `q` accepts the routes of every VRF of that VPN for which the user wrote no export route
targets. -/
theorem C126_named (okRd : String → Bool) (t t1 t2 : VrfTopo) (s : VrfSets)
    (h1 : vrfIdTransform okRd t = .ok (t1, s, 0)) (h2 : vrfRtTransform okRd t1 = .ok (t2, 0))
    (p q pos : VrfPos) (l : List RtVal)
    (hp : (vrfDef t p).isSome) (hq : (vrfDef t q).isSome) (hg : isGlobalVrf t p.2 = true)
    (hname : ':' ∉ p.2.toList) (he : writtenExp t p = none)
    (hw : writtenImp t q = some (pos, l)) (hm : .str p.2 ∈ l) :
    Accepts t2 q p := by
  obtain ⟨ii, ie⟩ := idPass_of h1
  obtain ⟨c, hc⟩ := exists_vrfAt2 ie (rtPass_exp h2) hp
  obtain ⟨b, hb⟩ := exists_vrfAt2 ii (rtPass_imp h2) hq
  obtain ⟨g, hgr, hx⟩ := (rt_outcome ie (rtPass_exp h2) p c hc).1 he
  obtain ⟨l', e, hf⟩ := (rt_outcome ii (rtPass_imp h2) q b hb).2 pos l hw
  obtain ⟨o, mo, ho⟩ := forall₂_mem_left hf hm
  unfold RtMeans at ho
  dsimp only at ho
  rw [if_neg hname] at ho
  obtain ⟨v, r, hv, hr, rfl⟩ := ho
  rw [show vpnOf t p = (none, p.2) by simp [vpnOf, hg]] at hgr
  rw [hgr, Option.some_or] at hv
  cases hv
  refine ⟨b, c, r, hb, hc, ?_, ?_⟩
  · rw [e]; exact mo
  · simp [hx, rdAsRt_str, hr]

/-! ## Non-vacuity and limits -/

/-- The two passes -/
def vpnRun (t : VrfTopo) : Option VrfTopo :=
  match vrfIdTransform (fun _ => true) t with
  | .ok (t1, _, 0) =>
    match vrfRtTransform (fun _ => true) t1 with
    | .ok (t2, 0) => some t2
    | _ => none
  | _ => none

/-- Two customers, a shared services VRF that imports the first one, nodes in different autonomous
systems and a local VRF -/
def vpnExample : VrfTopo where
  bgpAs := some 65000
  vrfs := some [("red", {}), ("blue", {}), ("shared", { imp := some [.str "shared", .str "red"] })]
  nodes := [("r1", { bgpAs := some 65001, vrfs := [("red", {}), ("blue", {}), ("x", {})] }),
    ("r2", { bgpAs := some 65002, vrfs := [("red", {}), ("shared", {})] })]

/-- Can the VRF at the first position use the routes of the second one? -/
def acceptsB (t : VrfTopo) (q p : VrfPos) : Bool :=
  match vrfAt t q, vrfAt t p with
  | some b, some c => (b.imp.getD []).any fun r => r != .null && (c.exp.getD []).contains r
  | _, _ => false

/-- `red` is connected and leaked into `shared`; `blue` and `x` are isolated. -/
example : (vpnRun vpnExample).map (fun t =>
      [acceptsB t (some "r1", "red") (some "r2", "red"), acceptsB t (some "r2", "red") (some "r1", "red"),
       acceptsB t (some "r2", "shared") (some "r1", "red"), acceptsB t (some "r1", "red") (some "r2", "shared"),
       acceptsB t (some "r2", "red") (some "r1", "blue"), acceptsB t (some "r2", "red") (some "r1", "x")]) =
    some [true, true, true, false, false, false] := by
  decide +kernel

/-- The hypotheses of `C126_isolated` and `C126_named` hold in this lab. -/
example : vpnOf vpnExample (some "r1", "red") ≠ vpnOf vpnExample (some "r2", "shared") ∧
    writtenExp vpnExample (some "r1", "red") = none ∧
    writtenImp vpnExample (some "r2", "shared") = some ((none, "shared"), [.str "shared", .str "red"]) := by
  decide +kernel

/-- C126 does not hold without global VRFs: `r2` accepts the routes of the unrelated VRF `a` on `r1`, although no
route targets are written anywhere. -/
theorem C126_leak_without_globals :
    ∃ t2, vpnRun vrfClash = some t2 ∧ vpnOf vrfClash (some "r1", "a") ≠ vpnOf vrfClash (some "r2", "b") ∧
      writtenImp vrfClash (some "r2", "b") = none ∧ writtenExp vrfClash (some "r1", "a") = none ∧
      Accepts t2 (some "r2", "b") (some "r1", "a") := by
  have h : (vpnRun vrfClash).map (fun t => (vrfAt t (some "r2", "b"), vrfAt t (some "r1", "a"))) =
      some (some { id := some 5, rd := .str "65000:1", imp := some [.str "65000:1"],
                   exp := some [.str "65000:1"] },
            some { id := some 1, rd := .str "65000:1", imp := some [.str "65000:1"],
                   exp := some [.str "65000:1"] }) := by
    decide +kernel
  obtain ⟨t2, h1, h2⟩ := Option.map_eq_some_iff.1 h
  simp only [Prod.mk.injEq] at h2
  exact ⟨t2, h1, by decide +kernel, by decide +kernel, by decide +kernel, _, _, "65000:1", h2.1, h2.2,
    by simp, by simp⟩

/-- A VRF defined in two nodes -/
def vpnNodeLocal : VrfTopo where
  bgpAs := some 65000
  nodes := [("r1", { vrfs := [("red", {})] }), ("r2", { vrfs := [("red", {})] })]

/-- C126_connected needs a global VRF: VRFs with the same name in two nodes do not exchange routes. -/
theorem C126_node_vrfs_disconnected :
    (vpnRun vpnNodeLocal).map (fun t => (acceptsB t (some "r1", "red") (some "r2", "red"),
      acceptsB t (some "r2", "red") (some "r1", "red"), acceptsB t (some "r1", "red") (some "r1", "red"))) =
    some (false, false, true) := by
  decide +kernel

end Netlab
