import Mathlib.Data.List.Forall2
import Verif.Lemmas.Vrf
/-!
# C21: VRF identifiers, route distinguishers and route targets
-/

namespace Netlab
open Spec

theorem lookup_map_snd {α β : Type} (f : String → α → β) (k : String) : ∀ l : List (String × α),
    (l.map fun n => (n.1, f n.1 n.2)).lookup k = (l.lookup k).map (f k)
  | [] => rfl
  | (a, b) :: r => by
    rw [List.map_cons]
    by_cases e : k = a
    · subst e; simp
    · rw [lookup_cons_ne _ _ e, lookup_cons_ne _ _ e, lookup_map_snd f k r]

theorem le_sum_of_mem' {x : Nat} : ∀ {l : List Nat}, x ∈ l → x ≤ l.sum
  | a :: l, h => by
    rw [List.sum_cons]
    rcases List.mem_cons.1 h with rfl | h
    · omega
    · have := le_sum_of_mem' h
      omega

theorem atScope_in (t : VrfTopo) (g : VrfDict) (hg : ∀ v, t.vrfs.bind (·.lookup v) = g.lookup v)
    (p : VrfPos) : atScope g (vrfDictsIn t.nodes) p = vrfDef t p := by
  obtain ⟨s, v⟩ := p
  cases s with
  | none => simp [atScope, vrfDef, hg]
  | some n =>
    simp only [atScope, vrfDef, vrfDictsIn]
    rw [lookup_map_snd (fun _ (nd : VrfNode) => pullVrfs nd.vrfs nd.vlanVrfs)]
    cases t.nodes.lookup n with
    | none => rfl
    | some nd => simp [pullVrfs_lookup]

theorem atScope_out (t : VrfTopo) (g : VrfDict) (hg : ∀ v, t.vrfs.bind (·.lookup v) = g.lookup v)
    (p : VrfPos) : atScope g (vrfDictsOut t.nodes) p = vrfAt t p := by
  obtain ⟨s, v⟩ := p
  cases s with
  | none => simp [atScope, vrfAt, hg]
  | some n =>
    simp only [atScope, vrfAt, vrfDictsOut]
    rw [lookup_map_snd (fun _ (nd : VrfNode) => nd.vrfs)]
    cases t.nodes.lookup n <;> rfl

theorem ownKey_own {K : Type} (G : String → Bool) (key : Vrf → Option K) (g : VrfDict)
    (ns : List (String × VrfDict)) (p : VrfPos) (h : p.1 = none ∨ G p.2 = false) :
    ownKey G key g ns p = (atScope g ns p).bind key := by
  obtain ⟨s, v⟩ := p
  cases s with
  | none => rfl
  | some n =>
    have h' : G v = false := by simpa using h
    simp [ownKey, h']

/-- `getRdAs` finds the first nonzero AS number -/
theorem getRdAs_eq (t : VrfTopo) (a b : Option Int) :
    getRdAs a b t = [a, b, t.bgpAs, t.vrfAs].findSome? fun x => if x = some 0 then none else x := by
  have key : ∀ (x : Option Int) (l : List (Option Int)),
      orInt x (l.findSome? fun x => if x = some 0 then none else x) =
        (x :: l).findSome? fun x => if x = some 0 then none else x := by
    intro x l
    rw [List.findSome?_cons]
    cases x with
    | none => simp [orInt]
    | some n =>
      by_cases e : n = 0
      · subst e; simp [orInt]
      · simp only [Option.some.injEq, e, if_false]
        unfold orInt
        split
        · rename_i heq; cases heq; exact absurd rfl e
        · rename_i heq; cases heq; rfl
        · rename_i heq; cases heq
  unfold getRdAs
  have h0 : orInt t.vrfAs none =
    orInt t.vrfAs (([] : List (Option Int)).findSome? fun x => if x = some 0 then none else x) := rfl
  rw [h0, key, key, key, key]

/-- How normalization changes definitions -/
theorem normalizeAll_def (okRd : String → Bool) (t : VrfTopo) (p : VrfPos) :
    (vrfDef t p = none ∧ vrfDef (normalizeAll okRd t).1 p = none) ∨
    ∃ v v', vrfDef t p = some v ∧ vrfDef (normalizeAll okRd t).1 p = some v' ∧
      NormRel (vrfAsn t p) (normalizeAll okRd t).2 v v' := by
  obtain ⟨s, w⟩ := p
  cases s with
  | none =>
    simp only [vrfDef, normalizeAll]
    cases hv : t.vrfs with
    | none => simp
    | some g =>
      simp only [Option.map_some, Option.bind_some, Option.getD_some]
      have hasn : vrfAsn t (none, w) = getRdAs t.bgpAs t.vrfAs t := by
        rw [getRdAs_eq]
        simp only [vrfAsn, Option.bind_none, List.nil_append, List.findSome?_cons, List.findSome?_nil]
        cases (if t.bgpAs = some 0 then none else t.bgpAs) with
        | some x => rfl
        | none =>
          cases (if t.vrfAs = some 0 then none else t.vrfAs) <;> rfl
      rw [hasn]
      rcases normalizeVrfs_lookup (okRd := okRd) (asn := getRdAs t.bgpAs t.vrfAs t) g w with
        h | ⟨v, v', h1, h2, h3⟩
      · exact .inl h
      · exact .inr ⟨v, v', h1, h2, h3.id, h3.rts, h3.missing, h3.null, h3.str,
          fun he => h3.num (by omega)⟩
  | some n =>
    simp only [vrfDef, normalizeAll, List.map_map]
    have hl := lookup_map_snd (fun _ (nd : VrfNode) => ({ nd with
        vrfs := (normalizeVrfs okRd (getRdAs nd.bgpAs nd.vrfAs t) nd.vrfs).1 } : VrfNode)) n t.nodes
    have hconv : ((fun n : String × VrfNode × VrfDict × Nat =>
          (n.1, ({ n.2.1 with vrfs := n.2.2.1 } : VrfNode))) ∘
        fun n : String × VrfNode => (n.1, n.2, normalizeVrfs okRd (getRdAs n.2.bgpAs n.2.vrfAs t) n.2.vrfs)) =
      fun n => (n.1, ({ n.2 with
        vrfs := (normalizeVrfs okRd (getRdAs n.2.bgpAs n.2.vrfAs t) n.2.vrfs).1 } : VrfNode)) := rfl
    rw [hconv, hl]
    cases hn : t.nodes.lookup n with
    | none => simp
    | some nd =>
      simp only [Option.map_some, Option.bind_some]
      have hasn : vrfAsn t (some n, w) = getRdAs nd.bgpAs nd.vrfAs t := by
        rw [getRdAs_eq]
        simp [vrfAsn, hn]
      have hle : ∀ m : Nat, m = (normalizeVrfs okRd (getRdAs nd.bgpAs nd.vrfAs t) nd.vrfs).2 →
          m ≤ (List.map ((fun x : String × VrfNode × VrfDict × Nat => x.2.2.2) ∘
            fun n => (n.1, n.2, normalizeVrfs okRd (getRdAs n.2.bgpAs n.2.vrfAs t) n.2.vrfs))
            t.nodes).sum := by
        intro m hm
        apply le_sum_of_mem'
        rw [hm]
        exact List.mem_map.2 ⟨(n, nd), mem_of_lookup hn, rfl⟩
      rw [hasn]
      rcases normalizeVrfs_lookup (okRd := okRd) (asn := getRdAs nd.bgpAs nd.vrfAs t) nd.vrfs w with
        ⟨h1, h2⟩ | ⟨v, v', h1, h2, h3⟩
      · rw [h1, h2]
        by_cases hm : w ∈ nd.vlanVrfs
        · simp only [hm, if_true, Option.none_or]
          exact .inr ⟨_, _, rfl, rfl, .same (by simp)⟩
        · simp [hm]
      · rw [h1, h2]
        refine .inr ⟨v, v', rfl, rfl, h3.id, h3.rts, h3.missing, h3.null, h3.str, fun he => h3.num ?_⟩
        have := hle _ rfl
        omega

/-- What is known after identifiers were assigned; `T` is the normalized topology -/
structure VrfFacts (T t' : VrfTopo) (e : Nat) (U : Int → Prop) (V : String → Prop) : Prop where
  idA : ∃ U', Assigns (fun k : Int => 1 ≤ k ∧ k ≤ 4095)
    (ownKey (isGlobalVrf T) (·.id) (T.vrfs.getD []) (vrfDictsIn T.nodes)) U
    (ownKey (isGlobalVrf T) (·.id) (t'.vrfs.getD []) (vrfDictsOut t'.nodes)) U'
  rdA : ∃ V', Assigns (fun _ => True)
    (ownKey (isGlobalVrf T) rdStr (T.vrfs.getD []) (vrfDictsIn T.nodes)) V
    (ownKey (isGlobalVrf T) rdStr (t'.vrfs.getD []) (vrfDictsOut t'.nodes)) V'
  same : ∀ p, (vrfAt t' p).isSome = (vrfDef T p).isSome
  done : e = 0 → ∀ p v, vrfAt t' p = some v → VrfDone v
  rdkept : ∀ p v v', OwnVrf T p → vrfDef T p = some v → vrfAt t' p = some v' →
    v.rd ≠ .missing → v'.rd = v.rd
  copy : ∀ n w v v' g, vrfDef T (some n, w) = some v → vrfAt t' (some n, w) = some v' →
    vrfAt t' (none, w) = some g → v' = v ∨ (v'.id = g.id ∧ v'.rd = g.rd)
  donekept : ∀ p v, vrfDef T p = some v → VrfDone v → vrfAt t' p = some v
  rts : ∀ p v v', vrfDef T p = some v → vrfAt t' p = some v' → v'.imp = v.imp ∧ v'.exp = v.exp
  auto : ∀ p v v', OwnVrf T p → vrfDef T p = some v → vrfAt t' p = some v' →
    v' = v ∨ ∃ a n, vrfAsn T p = some a ∧ (1 ≤ n ∧ n ≤ 4095) ∧ v' = setVrfAutoId v n (mkRd a n)

theorem vrfAsn_global (t : VrfTopo) (w : String) :
    vrfAsn t (none, w) = getRdAs t.bgpAs t.vrfAs t := by
  rw [getRdAs_eq]
  simp only [vrfAsn, Option.bind_none, List.nil_append, List.findSome?_cons, List.findSome?_nil]
  cases (if t.bgpAs = some 0 then none else t.bgpAs) with
  | some x => rfl
  | none =>
    cases (if t.vrfAs = some 0 then none else t.vrfAs) <;> rfl

theorem vrfAsn_node {t : VrfTopo} {n w : String} {nd : VrfNode} (hn : t.nodes.lookup n = some nd) :
    vrfAsn t (some n, w) = getRdAs nd.bgpAs nd.vrfAs t := by
  rw [getRdAs_eq]
  simp [vrfAsn, hn]

theorem nodes_facts {T : VrfTopo} {glob : Option VrfDict} {e : Nat} {nodes ns : List (String × VrfNode)}
    (hn : nodes = T.nodes)
    (h : ∀ n, (nodes.lookup n = none ∧ ns.lookup n = none) ∨
      ∃ nd d', nodes.lookup n = some nd ∧ ns.lookup n = some { nd with vrfs := d' } ∧
        NodeVrfRel glob (getRdAs nd.bgpAs nd.vrfAs T) e (pullVrfs nd.vrfs nd.vlanVrfs) d') (t' : VrfTopo) (ht : t'.nodes = ns)
    (n w : String) :
    (vrfDef T (some n, w) = none ∧ vrfAt t' (some n, w) = none) ∨
    ∃ d d', vrfDef T (some n, w) = d.lookup w ∧ vrfAt t' (some n, w) = d'.lookup w ∧
      NodeVrfRel glob (vrfAsn T (some n, w)) e d d' := by
  subst hn ht
  simp only [vrfDef, vrfAt]
  rcases h n with ⟨h1, h2⟩ | ⟨nd, d', h1, h2, h3⟩
  · left; simp [h1, h2]
  · right
    rw [← vrfAsn_node (w := w) h1] at h3
    refine ⟨_, d', ?_, by rw [h2]; rfl, h3⟩
    rw [h1, pullVrfs_lookup]
    rfl

theorem vrfFacts_of_some {okRd : String → Bool} {t t' : VrfTopo} {s : VrfSets} {e : Nat}
    {g : VrfDict} (hg : (normalizeAll okRd t).1.vrfs = some g)
    (h : vrfIdTransform okRd t = .ok (t', s, e)) :
    VrfFacts (normalizeAll okRd t).1 t' e
      (UsedInt (populateVrfSets initVrfSets g (normalizeAll okRd t).1.nodes).ids)
      (UsedStr (populateVrfSets initVrfSets g (normalizeAll okRd t).1.nodes).rds) ∧
    (normalizeAll okRd t).2 ≤ e := by
  unfold vrfIdTransform at h
  generalize normalizeAll okRd t = N at h hg ⊢
  obtain ⟨T, e0⟩ := N
  simp only at h hg ⊢
  simp only [hg] at h
  generalize hs0 : populateVrfSets initVrfSets g T.nodes = s0 at h ⊢
  have hc0 : CounterOk 1 4095 s0.ids := by
    obtain ⟨-, -, a, b⟩ := populate_ids g T.nodes initVrfSets
    rw [hs0] at a b
    exact ⟨b, 1, a, Int.le_refl _, fun h => h⟩
  cases h1 : setVrfIds none (getRdAs T.bgpAs T.vrfAs T) g s0 (g.map (·.1)) with
  | error x => simp [h1] at h
  | ok q =>
    obtain ⟨g', s1, e1⟩ := q
    simp only [h1] at h
    cases h2 : nodeVrfIds T (some g') s1 T.nodes with
    | error x => simp [h2] at h
    | ok q2 =>
      obtain ⟨ns, s2, e2⟩ := q2
      simp only [h2, Except.ok.injEq, Prod.mk.injEq] at h
      obtain ⟨rfl, rfl, rfl⟩ := h
      obtain ⟨a1, a2⟩ := setVrfIds_upd _ g g' s0 s1 e1 hc0 h1
      obtain ⟨b1, b2, b3, b4⟩ := nodeVrfIds_upd g' T.nodes ns s1 s2 e2 a1.counter h2
      have hG : globName (some g') = isGlobalVrf T := by
        funext w
        simp [globName, isGlobalVrf, hg, a1.same w]
      have nf := nodes_facts (T := T) (glob := some g') rfl b4
        { T with vrfs := some g', nodes := ns } rfl
      have gdone : e1 = 0 → ∀ k v', g'.lookup k = some v' → VrfDone v' := by
        intro he k v' hv'
        refine a2 (by simp) he k v' (.inl ?_) hv'
        have := a1.same k
        rw [hv'] at this
        obtain ⟨x, hx⟩ := Option.isSome_iff_exists.1 (this.symm.trans (by rfl))
        exact List.mem_map.2 ⟨(k, x), mem_of_lookup hx, rfl⟩
      have G0 : ∀ w, globName none w = false := fun w => rfl
      refine ⟨⟨⟨UsedInt s2.ids, ?_⟩, ⟨UsedStr s2.rds, ?_⟩, ?_, ?_, ?_, ?_, ?_, ?_, ?_⟩, by omega⟩
      rotate_right 1
      · rintro ⟨p1, w⟩ v v' ho hv hv'
        cases p1 with
        | none =>
          rw [vrfAsn_global]
          exact a1.auto w v v' rfl (by simpa [vrfDef, hg] using hv) hv'
        | some n =>
          rcases nf n w with ⟨a, b⟩ | ⟨d, d', a, b, _, _, z, zd⟩
          · rw [a] at hv; cases hv
          · rw [a] at hv
            rw [b] at hv'
            exact z.auto w v v' (by rw [hG]; simpa [OwnVrf] using ho) hv hv'
      · rw [hG] at b1
        have a := a1.idA
        simp only [G0, Bool.false_eq_true, if_false] at a
        have := (assigns_scope_global (isGlobalVrf T) (·.id) (vrfDictsIn T.nodes) a).trans b1
        simpa [hg] using this
      · rw [hG] at b2
        have a := a1.rdA
        simp only [G0, Bool.false_eq_true, if_false] at a
        have := (assigns_scope_global (isGlobalVrf T) rdStr (vrfDictsIn T.nodes) a).trans b2
        simpa [hg] using this
      · rintro ⟨p1, w⟩
        cases p1 with
        | none => simpa [vrfAt, vrfDef, hg] using a1.same w
        | some n =>
          rcases nf n w with ⟨x, y⟩ | ⟨d, d', x, y, _, _, z, -⟩
          · rw [x, y]
          · rw [x, y, z.same]
      · rintro he ⟨p1, w⟩ v hv
        cases p1 with
        | none => exact gdone (by omega) w v hv
        | some n =>
          rcases nf n w with ⟨x, y⟩ | ⟨d, d', x, y, _, _, z, zd⟩
          · rw [y] at hv; cases hv
          · rw [y] at hv
            refine zd (fun k g hk => gdone (by omega) k g hk) (by omega) w v hv
      · rintro ⟨p1, w⟩ v v' ho hv hv' hr
        cases p1 with
        | none =>
          refine a1.rdkept w v v' rfl ?_ hv' hr
          simpa [vrfDef, hg] using hv
        | some n =>
          rcases nf n w with ⟨x, y⟩ | ⟨d, d', x, y, _, _, z, zd⟩
          · rw [y] at hv'; cases hv'
          · rw [y] at hv'
            rw [x] at hv
            refine z.rdkept w v v' ?_ hv hv' hr
            rw [hG]
            simpa [OwnVrf] using ho
      · intro n w v v' x hv hv' hx
        rcases nf n w with ⟨a, b⟩ | ⟨d, d', a, b, _, _, z, zd⟩
        · rw [b] at hv'; cases hv'
        · rw [b] at hv'
          rw [a] at hv
          have hx' : g'.lookup w = some x := hx
          rcases z.copy w v v' hv hv' with e | ⟨y, hy, e1, e2⟩ | e
          · exact .inl e
          · simp only [Option.bind_some] at hy
            rw [hx'] at hy
            cases hy
            exact .inr ⟨e1, e2⟩
          · simp [globName, hx'] at e
      · rintro ⟨p1, w⟩ v hv hd
        cases p1 with
        | none => exact a1.donekept w v (by simpa [vrfDef, hg] using hv) hd
        | some n =>
          rcases nf n w with ⟨a, b⟩ | ⟨d, d', a, b, _, _, z, zd⟩
          · rw [a] at hv; cases hv
          · rw [a] at hv
            rw [b]
            exact z.donekept w v hv hd
      · rintro ⟨p1, w⟩ v v' hv hv'
        cases p1 with
        | none => exact a1.rts w v v' (by simpa [vrfDef, hg] using hv) hv'
        | some n =>
          rcases nf n w with ⟨a, b⟩ | ⟨d, d', a, b, _, _, z, zd⟩
          · rw [a] at hv; cases hv
          · rw [a] at hv
            rw [b] at hv'
            exact z.rts w v v' hv hv'

theorem vrfFacts_of_none {okRd : String → Bool} {t t' : VrfTopo} {s : VrfSets} {e : Nat}
    (hg : (normalizeAll okRd t).1.vrfs = none)
    (h : vrfIdTransform okRd t = .ok (t', s, e)) :
    VrfFacts (normalizeAll okRd t).1 t' e (UsedInt initVrfSets.ids) (UsedStr initVrfSets.rds) ∧
    (normalizeAll okRd t).2 ≤ e := by
  unfold vrfIdTransform at h
  generalize normalizeAll okRd t = N at h hg ⊢
  obtain ⟨T, e0⟩ := N
  simp only at h hg ⊢
  simp only [hg] at h
  cases h2 : nodeVrfIds T none initVrfSets T.nodes with
  | error x => simp [h2] at h
  | ok q2 =>
    obtain ⟨ns, s2, e2⟩ := q2
    simp only [h2, Except.ok.injEq, Prod.mk.injEq] at h
    obtain ⟨rfl, rfl, rfl⟩ := h
    obtain ⟨b1, b2, b3, b4⟩ := nodeVrfIds_upd [] T.nodes ns initVrfSets s2 e2 initVrfSets_counter h2
    have hG : globName none = isGlobalVrf T := by
      funext w
      simp [globName, isGlobalVrf, hg]
    have nf := nodes_facts (T := T) (glob := none) rfl b4
      { T with vrfs := none, nodes := ns } rfl
    refine ⟨⟨⟨UsedInt s2.ids, ?_⟩, ⟨UsedStr s2.rds, ?_⟩, ?_, ?_, ?_, ?_, ?_, ?_, ?_⟩, by omega⟩
    rotate_right 1
    · rintro ⟨p1, w⟩ v v' ho hv hv'
      cases p1 with
      | none => simp [vrfAt] at hv'
      | some n =>
        rcases nf n w with ⟨a, b⟩ | ⟨d, d', a, b, _, _, z, zd⟩
        · rw [a] at hv; cases hv
        · rw [a] at hv
          rw [b] at hv'
          exact z.auto w v v' rfl hv hv'
    · rw [hG] at b1
      simpa [hg] using b1
    · rw [hG] at b2
      simpa [hg] using b2
    · rintro ⟨p1, w⟩
      cases p1 with
      | none => simp [vrfAt, vrfDef, hg]
      | some n =>
        rcases nf n w with ⟨x, y⟩ | ⟨d, d', x, y, _, _, z, -⟩
        · rw [x, y]
        · rw [x, y, z.same]
    · rintro he ⟨p1, w⟩ v hv
      cases p1 with
      | none => simp [vrfAt] at hv
      | some n =>
        rcases nf n w with ⟨x, y⟩ | ⟨d, d', x, y, _, _, z, zd⟩
        · rw [y] at hv; cases hv
        · rw [y] at hv
          exact zd (by simp) (by omega) w v hv
    · rintro ⟨p1, w⟩ v v' ho hv hv' hr
      cases p1 with
      | none => simp [vrfAt] at hv'
      | some n =>
        rcases nf n w with ⟨x, y⟩ | ⟨d, d', x, y, _, _, z, zd⟩
        · rw [y] at hv'; cases hv'
        · rw [y] at hv'
          rw [x] at hv
          exact z.rdkept w v v' rfl hv hv' hr
    · intro n w v v' x hv hv' hx
      simp [vrfAt] at hx
    · rintro ⟨p1, w⟩ v hv hd
      cases p1 with
      | none => simp [vrfDef, hg] at hv
      | some n =>
        rcases nf n w with ⟨a, b⟩ | ⟨d, d', a, b, _, _, z, zd⟩
        · rw [a] at hv; cases hv
        · rw [a] at hv
          rw [b]
          exact z.donekept w v hv hd
    · rintro ⟨p1, w⟩ v v' hv hv'
      cases p1 with
      | none => simp [vrfAt] at hv'
      | some n =>
        rcases nf n w with ⟨a, b⟩ | ⟨d, d', a, b, _, _, z, zd⟩
        · rw [a] at hv; cases hv
        · rw [a] at hv
          rw [b] at hv'
          exact z.rts w v v' hv hv'

theorem getD_lookup (t : VrfTopo) (v : String) :
    t.vrfs.bind (·.lookup v) = (t.vrfs.getD []).lookup v := by
  cases t.vrfs <;> rfl

theorem ownKey_def {K : Type} (key : Vrf → Option K) (T : VrfTopo) (p : VrfPos) (h : OwnVrf T p) :
    ownKey (isGlobalVrf T) key (T.vrfs.getD []) (vrfDictsIn T.nodes) p = (vrfDef T p).bind key := by
  rw [ownKey_own _ _ _ _ _ h, atScope_in T _ (getD_lookup T)]

theorem ownKey_at {K : Type} (key : Vrf → Option K) (T t : VrfTopo) (p : VrfPos) (h : OwnVrf T p) :
    ownKey (isGlobalVrf T) key (t.vrfs.getD []) (vrfDictsOut t.nodes) p = (vrfAt t p).bind key := by
  rw [ownKey_own _ _ _ _ _ h, atScope_out t _ (getD_lookup t)]

theorem normalizeAll_vrfs (okRd : String → Bool) (t : VrfTopo) (w : String) :
    isGlobalVrf (normalizeAll okRd t).1 w = isGlobalVrf t w ∧
    ((normalizeAll okRd t).1.vrfs = none ↔ t.vrfs = none) := by
  constructor
  · have := normalizeAll_def okRd t (none, w)
    simp only [vrfDef] at this
    unfold isGlobalVrf
    rcases this with ⟨h1, h2⟩ | ⟨v, v', h1, h2, -⟩
    · rw [h1, h2]
    · rw [h1, h2]; rfl
  · simp [normalizeAll]

theorem ownVrf_norm {okRd : String → Bool} {t : VrfTopo} {p : VrfPos} :
    OwnVrf (normalizeAll okRd t).1 p ↔ OwnVrf t p := by
  unfold OwnVrf
  rw [(normalizeAll_vrfs okRd t p.2).1]

/-- Values in the topology are in the identifier sets. -/
theorem vrfDef_used {T : VrfTopo} {g : VrfDict} (hg : T.vrfs = some g) {p : VrfPos} {v : Vrf}
    (h : vrfDef T p = some v) :
    (∀ k, v.id = some k → UsedInt (populateVrfSets initVrfSets g T.nodes).ids k) ∧
    (∀ k, rdStr v = some k → UsedStr (populateVrfSets initVrfSets g T.nodes).rds k) := by
  obtain ⟨a, b, -, -⟩ := populate_ids g T.nodes initVrfSets
  have hrd : ∀ k, rdStr v = some k → v.rd = .str k := by
    intro k hk
    unfold rdStr at hk
    split at hk
    · cases hk; assumption
    · cases hk
  obtain ⟨p1, w⟩ := p
  cases p1 with
  | none =>
    simp only [vrfDef, hg, Option.bind_some] at h
    exact ⟨fun k hk => a _ (.inr (.inl (vrfIds_mem h hk))),
      fun k hk => b _ (.inr (.inl (vrfRds_mem h (hrd k hk))))⟩
  | some n =>
    simp only [vrfDef, Option.bind_eq_some_iff] at h
    obtain ⟨nd, h1, h2⟩ := h
    cases hl : nd.vrfs.lookup w with
    | none =>
      rw [hl, Option.none_or] at h2
      split at h2
      · cases h2
        exact ⟨by simp, by simp [rdStr]⟩
      · cases h2
    | some x =>
      rw [hl, Option.some_or] at h2
      cases h2
      exact ⟨fun k hk => a _ (.inr (.inr ⟨(n, nd), mem_of_lookup h1, vrfIds_mem hl hk⟩)),
        fun k hk => b _ (.inr (.inr ⟨(n, nd), mem_of_lookup h1, vrfRds_mem hl (hrd k hk)⟩))⟩

theorem vrfFacts {okRd : String → Bool} {t t' : VrfTopo} {s : VrfSets} {e : Nat}
    (h : vrfIdTransform okRd t = .ok (t', s, e)) :
    (∃ U V, VrfFacts (normalizeAll okRd t).1 t' e U V ∧
      (t.vrfs ≠ none → ∀ p v, vrfDef (normalizeAll okRd t).1 p = some v →
        (∀ k, v.id = some k → U k) ∧ (∀ k, rdStr v = some k → V k))) ∧
    (normalizeAll okRd t).2 ≤ e := by
  cases hg : (normalizeAll okRd t).1.vrfs with
  | none =>
    obtain ⟨h1, h2⟩ := vrfFacts_of_none hg h
    refine ⟨⟨_, _, h1, fun hn => ?_⟩, h2⟩
    exact absurd ((normalizeAll_vrfs okRd t "").2.1 hg) hn
  | some g =>
    obtain ⟨h1, h2⟩ := vrfFacts_of_some hg h
    exact ⟨⟨_, _, h1, fun _ p v hv => vrfDef_used hg hv⟩, h2⟩

/-! ## The properties -/

/-- C21: after a run without errors, the VRFs are the VRFs defined in the topology (including
those used by VLANs of a node), and each has an identifier and an RD attribute. -/
theorem C21_every_vrf_has_id_rd (okRd : String → Bool) (t t' : VrfTopo) (s : VrfSets) (e : Nat)
    (h : vrfIdTransform okRd t = .ok (t', s, e)) (p : VrfPos) :
    (vrfAt t' p).isSome = (vrfDef t p).isSome ∧
    (e = 0 → ∀ v, vrfAt t' p = some v → v.id ≠ none ∧ v.rd ≠ .missing) := by
  obtain ⟨⟨U, V, hf, -⟩, -⟩ := vrfFacts h
  refine ⟨?_, fun he v hv => hf.done he p v hv⟩
  rw [hf.same p]
  rcases normalizeAll_def okRd t p with ⟨h1, h2⟩ | ⟨v, v', h1, h2, -⟩
  · rw [h1, h2]
  · rw [h1, h2]; rfl

/-- C21: an identifier or a string RD set by the user is kept in a VRF that is not a node copy
of a global VRF, and an integer RD is prefixed with the AS number; a node copy keeps its values when it
has both an identifier and an RD. -/
theorem C21_static_values_kept (okRd : String → Bool) (t t' : VrfTopo) (s : VrfSets)
    (h : vrfIdTransform okRd t = .ok (t', s, 0)) (p : VrfPos) (a b : Vrf)
    (ha : vrfDef t p = some a) (hb : vrfAt t' p = some b)
    (ho : OwnVrf t p ∨ (a.id ≠ none ∧ a.rd ≠ .missing)) :
    (∀ k, a.id = some k → b.id = some k) ∧ (∀ x, a.rd = .str x → b.rd = .str x) ∧
    (∀ n, a.rd = .num n → ∃ asn, vrfAsn t p = some asn ∧
      b.rd = .str (toString asn ++ ":" ++ toString n)) ∧
    b.imp = a.imp ∧ b.exp = a.exp := by
  obtain ⟨⟨U, V, hf, -⟩, he⟩ := vrfFacts h
  rcases normalizeAll_def okRd t p with ⟨h1, -⟩ | ⟨v, v', h1, h2, hn⟩
  · rw [h1] at ha; cases ha
  rw [ha] at h1
  obtain rfl := Option.some.inj h1
  have hrd : a.rd ≠ .missing → b.rd = v'.rd := by
    intro hr
    have hr' : v'.rd ≠ .missing := fun x => hr (hn.missing.1 x)
    rcases ho with ho | ho
    · exact hf.rdkept p v' b (ownVrf_norm.2 ho) h2 hb hr'
    · have := hf.donekept p v' h2 ⟨by rw [hn.id]; exact ho.1, hr'⟩
      rw [hb] at this
      cases this
      rfl
  refine ⟨fun k hk => ?_, fun x hx => ?_, fun n hx => ?_, ?_⟩
  · rcases ho with ho | ho
    · obtain ⟨U', hA⟩ := hf.idA
      have := hA.kept p k
      rw [ownKey_def _ _ _ (ownVrf_norm.2 ho), ownKey_at _ _ _ _ (ownVrf_norm.2 ho), h2, hb] at this
      exact this (by simp [hn.id, hk])
    · have := hf.donekept p v' h2 ⟨by rw [hn.id]; exact ho.1, fun x => ho.2 (hn.missing.1 x)⟩
      rw [hb] at this
      cases this
      rw [hn.id, hk]
  · rw [hrd (by simp [hx]), hn.str x hx]
  · obtain ⟨asn, q1, q2⟩ := hn.num (by omega) n hx
    exact ⟨asn, q1, by rw [hrd (by simp [hx]), q2]; rfl⟩
  · have := hf.rts p v' b h2 hb
    exact ⟨this.1.trans hn.rts.1, this.2.trans hn.rts.2⟩

/-- C21: a node copy of a global VRF without an identifier or without an RD gets both from the
global VRF. -/
theorem C21_copy_gets_global_values (okRd : String → Bool) (t t' : VrfTopo) (s : VrfSets)
    (h : vrfIdTransform okRd t = .ok (t', s, 0)) (n w : String) (a b g : Vrf)
    (ha : vrfDef t (some n, w) = some a) (hb : vrfAt t' (some n, w) = some b)
    (hg : vrfAt t' (none, w) = some g) (hn : a.id = none ∨ a.rd = .missing) :
    b.id = g.id ∧ b.rd = g.rd := by
  obtain ⟨⟨U, V, hf, -⟩, he⟩ := vrfFacts h
  rcases normalizeAll_def okRd t (some n, w) with ⟨h1, -⟩ | ⟨v, v', h1, h2, hr⟩
  · rw [h1] at ha; cases ha
  rw [ha] at h1
  obtain rfl := Option.some.inj h1
  rcases hf.copy n w v' b g h2 hb hg with e | e
  · have := hf.done rfl _ _ hb
    rw [e] at this
    rcases hn with hn | hn
    · exact absurd (hr.id.trans hn) this.1
    · exact absurd (hr.missing.2 hn) this.2
  · exact e

/-- The VRF at position `q` uses its own static values or is a VRF different from `p`: the
final value of `key` there is not the automatic value of `p`. -/
theorem vrf_unique_aux {K : Type} {R : K → Prop} {key : Vrf → Option K} {T t' : VrfTopo} {e : Nat}
    {U : Int → Prop} {V : String → Prop} {W W' : K → Prop} (hf : VrfFacts T t' e U V)
    (hA : Assigns R (ownKey (isGlobalVrf T) key (T.vrfs.getD []) (vrfDictsIn T.nodes)) W
      (ownKey (isGlobalVrf T) key (t'.vrfs.getD []) (vrfDictsOut t'.nodes)) W')
    (hcopy : ∀ v v' : Vrf, v'.id = v.id ∧ v'.rd = v.rd → key v' = key v)
    (hW : ∀ p v, vrfDef T p = some v → ∀ k, key v = some k → W k)
    (p q : VrfPos) (a b c : Vrf) (k : K) (hp : OwnVrf T p)
    (ha : vrfDef T p = some a) (hauto : key a = none) (hb : vrfAt t' p = some b)
    (hk : key b = some k) (hc : vrfAt t' q = some c)
    (hpq : p ≠ q) (hq : p.1 = none → q.2 ≠ p.2) :
    key c ≠ some k ∧ R k := by
  have h0 : ∀ p k, ownKey (isGlobalVrf T) key (T.vrfs.getD []) (vrfDictsIn T.nodes) p = some k →
      W k := by
    intro r j hr
    by_cases ho : OwnVrf T r
    · rw [ownKey_def _ _ _ ho, Option.bind_eq_some_iff] at hr
      obtain ⟨v, hv, hj⟩ := hr
      exact hW r v hv j hj
    · exfalso
      unfold OwnVrf at ho
      rw [not_or] at ho
      obtain ⟨r1, r2⟩ := r
      cases r1 with
      | none => exact ho.1 rfl
      | some n => simp [ownKey, ho.2] at hr
  have hp0 : ownKey (isGlobalVrf T) key (T.vrfs.getD []) (vrfDictsIn T.nodes) p = none := by
    rw [ownKey_def _ _ _ hp, ha]; exact hauto
  have hp1 : ownKey (isGlobalVrf T) key (t'.vrfs.getD []) (vrfDictsOut t'.nodes) p = some k := by
    rw [ownKey_at _ _ _ _ hp, hb]; exact hk
  have hRk := hA.new_used p k hp0 hp1
  refine ⟨?_, hRk.2.1⟩
  by_cases ho : OwnVrf T q
  · have := hA.unique h0 p q k hpq hp0 hp1
    rw [ownKey_at _ _ _ _ ho, hc] at this
    exact this
  · obtain ⟨q1, w⟩ := q
    cases q1 with
    | none => exact absurd (.inl rfl) ho
    | some n =>
      have hgl : isGlobalVrf T w = true := by
        simp only [OwnVrf, not_or] at ho
        simpa using ho.2
      obtain ⟨x, hx⟩ : ∃ x, vrfDef T (some n, w) = some x := by
        have := hf.same (some n, w)
        rw [hc] at this
        exact Option.isSome_iff_exists.1 this.symm
      obtain ⟨g, hg⟩ : ∃ g, vrfAt t' (none, w) = some g := by
        have := hf.same (none, w)
        rw [show vrfDef T (none, w) = T.vrfs.bind (·.lookup w) from rfl] at this
        unfold isGlobalVrf at hgl
        rw [hgl] at this
        exact Option.isSome_iff_exists.1 this
      rcases hf.copy n w x c g hx hc hg with e1 | e1
      · subst e1
        intro hkc
        exact hRk.1 (hW _ _ hx k hkc)
      · rw [hcopy g c e1]
        have hne : p ≠ (none, w) := by
          rintro rfl
          exact hq rfl rfl
        have := hA.unique h0 p (none, w) k hne hp0 hp1
        rw [ownKey_at _ _ _ _ (.inl rfl), hg] at this
        exact this

/-- C21: an automatic VRF identifier is between 1 and 4095 and differs from the identifier of every
other VRF (not counting node copies of the same global VRF).  The theorem needs global VRFs: see
`C21_static_rd_not_registered` for what happens without them. -/
theorem C21_auto_id_unique (okRd : String → Bool) (t t' : VrfTopo) (s : VrfSets) (e : Nat)
    (h : vrfIdTransform okRd t = .ok (t', s, e)) (hglob : t.vrfs ≠ none)
    (p q : VrfPos) (a b c : Vrf) (k : Int) (hp : OwnVrf t p)
    (ha : vrfDef t p = some a) (hauto : a.id = none) (hb : vrfAt t' p = some b)
    (hk : b.id = some k) (hc : vrfAt t' q = some c)
    (hpq : p ≠ q) (hq : p.1 = none → q.2 ≠ p.2) :
    c.id ≠ some k ∧ 1 ≤ k ∧ k ≤ 4095 := by
  obtain ⟨⟨U, V, hf, hUV⟩, -⟩ := vrfFacts h
  obtain ⟨U', hA⟩ := hf.idA
  rcases normalizeAll_def okRd t p with ⟨h1, -⟩ | ⟨v, v', h1, h2, hr⟩
  · rw [h1] at ha; cases ha
  rw [ha] at h1
  obtain rfl := Option.some.inj h1
  exact vrf_unique_aux hf hA (fun _ _ h => h.1) (fun p v hv => (hUV hglob p v hv).1)
    p q v' b c k (ownVrf_norm.2 hp) h2 (hr.id.trans hauto) hb hk hc hpq hq

/-- C21: an automatic RD differs from the RD of every other VRF (not counting node copies of the same
global VRF).  The theorem needs global VRFs. -/
theorem C21_auto_rd_unique (okRd : String → Bool) (t t' : VrfTopo) (s : VrfSets) (e : Nat)
    (h : vrfIdTransform okRd t = .ok (t', s, e)) (hglob : t.vrfs ≠ none)
    (p q : VrfPos) (a b c : Vrf) (k : String) (hp : OwnVrf t p)
    (ha : vrfDef t p = some a) (hauto : a.rd = .missing) (hb : vrfAt t' p = some b)
    (hk : b.rd = .str k) (hc : vrfAt t' q = some c)
    (hpq : p ≠ q) (hq : p.1 = none → q.2 ≠ p.2) :
    c.rd ≠ .str k := by
  obtain ⟨⟨U, V, hf, hUV⟩, -⟩ := vrfFacts h
  obtain ⟨V', hA⟩ := hf.rdA
  rcases normalizeAll_def okRd t p with ⟨h1, -⟩ | ⟨v, v', h1, h2, hr⟩
  · rw [h1] at ha; cases ha
  rw [ha] at h1
  obtain rfl := Option.some.inj h1
  have := (vrf_unique_aux hf hA (fun v v' h => by simp [rdStr, h.2])
    (fun p v hv => (hUV hglob p v hv).2) p q v' b c k (ownVrf_norm.2 hp) h2
    (by simp [rdStr, hr.missing.2 hauto]) hb (by simp [rdStr, hk]) hc hpq hq).1
  intro hx
  exact this (by simp [rdStr, hx])

theorem vrfAsn_norm (okRd : String → Bool) (t : VrfTopo) (p : VrfPos) :
    vrfAsn (normalizeAll okRd t).1 p = vrfAsn t p := by
  obtain ⟨p1, w⟩ := p
  cases p1 with
  | none => rfl
  | some n =>
    have hl := lookup_map_snd (fun _ (nd : VrfNode) => ({ nd with
        vrfs := (normalizeVrfs okRd (getRdAs nd.bgpAs nd.vrfAs t) nd.vrfs).1 } : VrfNode)) n t.nodes
    simp only [vrfAsn, normalizeAll, List.map_map, Option.bind_some]
    have hconv : ((fun n : String × VrfNode × VrfDict × Nat =>
          (n.1, ({ n.2.1 with vrfs := n.2.2.1 } : VrfNode))) ∘
        fun n : String × VrfNode => (n.1, n.2, normalizeVrfs okRd (getRdAs n.2.bgpAs n.2.vrfAs t) n.2.vrfs)) =
      fun n => (n.1, ({ n.2 with
        vrfs := (normalizeVrfs okRd (getRdAs n.2.bgpAs n.2.vrfAs t) n.2.vrfs).1 } : VrfNode)) := rfl
    rw [hconv, hl]
    cases t.nodes.lookup n <;> rfl

/-- C21: an automatic RD consists of the AS number and a number between 1 and 4095, which is also
the identifier if the identifier is automatic. -/
theorem C21_auto_rd_format (okRd : String → Bool) (t t' : VrfTopo) (s : VrfSets)
    (h : vrfIdTransform okRd t = .ok (t', s, 0)) (p : VrfPos) (a b : Vrf) (hp : OwnVrf t p)
    (ha : vrfDef t p = some a) (hauto : a.rd = .missing) (hb : vrfAt t' p = some b) :
    ∃ asn n, vrfAsn t p = some asn ∧ 1 ≤ n ∧ n ≤ 4095 ∧
      b.rd = .str (toString asn ++ ":" ++ toString n) ∧ (a.id = none → b.id = some n) := by
  obtain ⟨⟨U, V, hf, hUV⟩, -⟩ := vrfFacts h
  rcases normalizeAll_def okRd t p with ⟨h1, -⟩ | ⟨v, v', h1, h2, hr⟩
  · rw [h1] at ha; cases ha
  rw [ha] at h1
  obtain rfl := Option.some.inj h1
  have hm := hr.missing.2 hauto
  rcases hf.auto p v' b (ownVrf_norm.2 hp) h2 hb with e | ⟨x, n, e1, e2, e3⟩
  · exact absurd (e ▸ hm) (hf.done rfl p b hb).2
  · rw [vrfAsn_norm] at e1
    refine ⟨x, n, e1, e2.1, e2.2, ?_, fun hi => ?_⟩
    · rw [e3]
      simp [setVrfAutoId, hm, mkRd]
    · rw [e3]
      simp [setVrfAutoId, hr.id.trans hi]

/-- C21: two automatic identifiers, or two automatic RDs, always differ, with or without global
VRFs. -/
theorem C21_autos_differ (okRd : String → Bool) (t t' : VrfTopo) (s : VrfSets)
    (h : vrfIdTransform okRd t = .ok (t', s, 0))
    (p q : VrfPos) (a b a' b' : Vrf) (hp : OwnVrf t p) (hq : OwnVrf t q) (hpq : p ≠ q)
    (ha : vrfDef t p = some a) (ha' : vrfDef t q = some a')
    (hb : vrfAt t' p = some b) (hb' : vrfAt t' q = some b') :
    (a.id = none → a'.id = none → b.id ≠ b'.id) ∧
    (a.rd = .missing → a'.rd = .missing → b.rd ≠ b'.rd) := by
  have hdone := (C21_every_vrf_has_id_rd okRd t t' s 0 h p).2 rfl b hb
  have hform := C21_auto_rd_format okRd t t' s h p a b hp ha
  obtain ⟨⟨U, V, hf, hUV⟩, -⟩ := vrfFacts h
  rcases normalizeAll_def okRd t p with ⟨h1, -⟩ | ⟨v, v', h1, h2, hr⟩
  · rw [h1] at ha; cases ha
  rw [ha] at h1
  obtain rfl := Option.some.inj h1
  rcases normalizeAll_def okRd t q with ⟨h3, -⟩ | ⟨w, w', h3, h4, hr'⟩
  · rw [h3] at ha'; cases ha'
  rw [ha'] at h3
  obtain rfl := Option.some.inj h3
  have hp' := (ownVrf_norm (okRd := okRd)).2 hp
  have hq' := (ownVrf_norm (okRd := okRd)).2 hq
  constructor
  · intro hi hi'
    obtain ⟨k, hk⟩ := Option.ne_none_iff_exists'.1 hdone.1
    obtain ⟨U', hA⟩ := hf.idA
    have := hA.autos_differ p q k hpq
    rw [ownKey_def _ _ _ hp', ownKey_def _ _ _ hq', ownKey_at _ _ _ _ hp', ownKey_at _ _ _ _ hq',
      h2, h4, hb, hb'] at this
    have := this (hr.id.trans hi) (hr'.id.trans hi') hk
    exact fun x => this (x.symm.trans hk)
  · intro hi hi'
    obtain ⟨V', hA⟩ := hf.rdA
    obtain ⟨asn, n, -, -, -, hk, -⟩ := hform hi hb
    have := hA.autos_differ p q (toString asn ++ ":" ++ toString n) hpq
    rw [ownKey_def _ _ _ hp', ownKey_def _ _ _ hq', ownKey_at _ _ _ _ hp', ownKey_at _ _ _ _ hq',
      h2, h4, hb, hb'] at this
    have := this (by simp [rdStr, hr.missing.2 hi]) (by simp [rdStr, hr'.missing.2 hi'])
      (by simp [rdStr, hk])
    intro x
    exact this (by simp [rdStr, ← x, hk])

/-! ## What the code does not guarantee -/

/-- Two nodes, no global VRFs -/
def vrfClash : VrfTopo where
  bgpAs := some 65000
  nodes := [("r1", { vrfs := [("a", {})] }),
    ("r2", { vrfs := [("b", { id := some 5, rd := .str "65000:1" })] })]

/-- C21 does not hold without global VRFs: static RDs of node VRFs are not registered
(`module_pre_transform` returns early) and an automatic RD equals a static RD. -/
theorem C21_static_rd_not_registered :
    (vrfIdTransform (fun _ => true) vrfClash).toOption.map
      (fun r => (r.2.2, vrfAt r.1 (some "r1", "a"), vrfAt r.1 (some "r2", "b"))) =
    some (0, some { id := some 1, rd := .str "65000:1" },
      some { id := some 5, rd := .str "65000:1" }) := by
  decide +kernel

/-- A node VRF with a static RD and no identifier -/
def vrfOverwrite : VrfTopo where
  bgpAs := some 65000
  vrfs := some [("red", {}), ("blue", {})]
  nodes := [("r1", { vrfs := [("red", { rd := .str "65000:99" }), ("x", {})] }),
    ("r2", { vlanVrfs := ["blue"] })]

/-- C21 does not hold for node copies of global VRFs: the static RD of a node VRF is replaced by
the RD of the global VRF when the node VRF has no identifier. -/
theorem C21_node_rd_overwritten :
    (vrfIdTransform (fun _ => true) vrfOverwrite).toOption.map
      (fun r => (r.2.2, vrfAt r.1 (some "r1", "red"))) =
    some (0, some { id := some 1, rd := .str "65000:1" }) := by
  decide +kernel

/-- Non-vacuity: in the same topology, the local VRF `x` gets the next identifier and VRF `blue` is
copied into `r2`. -/
example :
    (vrfIdTransform (fun _ => true) vrfOverwrite).toOption.map
      (fun r => (vrfAt r.1 (none, "blue"), vrfAt r.1 (some "r2", "blue"),
        vrfAt r.1 (some "r1", "x"))) =
    some (some { id := some 2, rd := .str "65000:2" }, some { id := some 2, rd := .str "65000:2" },
      some { id := some 3, rd := .str "65000:3" }) := by
  decide +kernel

/-- C21 does not hold for RDs set to null: contrary to the comment in the code, no RD is
generated. -/
theorem C21_null_rd_stays_null (okRd : String → Bool) (t t' : VrfTopo) (s : VrfSets) (e : Nat)
    (h : vrfIdTransform okRd t = .ok (t', s, e)) (p : VrfPos) (a b : Vrf) (hp : OwnVrf t p)
    (ha : vrfDef t p = some a) (hnull : a.rd = .null) (hb : vrfAt t' p = some b) :
    b.rd = .null := by
  obtain ⟨⟨U, V, hf, hUV⟩, -⟩ := vrfFacts h
  rcases normalizeAll_def okRd t p with ⟨h1, -⟩ | ⟨v, v', h1, h2, hr⟩
  · rw [h1] at ha; cases ha
  rw [ha] at h1
  obtain rfl := Option.some.inj h1
  have hn := hr.null.2 hnull
  rw [hf.rdkept p v' b (ownVrf_norm.2 hp) h2 hb (by simp [hn]), hn]

/-! ## Route targets -/

theorem resolveRts_spec {okRd : String → Bool} {asn : Option Int} {glob obj : VrfDict} :
    ∀ (l l' : List RtVal), resolveRts okRd asn glob obj l = .ok (l', 0) →
    List.Forall₂ (fun rt out => ∃ s, out = .str s ∧ resolveRt okRd asn glob obj rt = .ok (some s))
      l l'
  | [], l', h => by
    simp only [resolveRts, Except.ok.injEq, Prod.mk.injEq] at h
    rw [← h.1]
    exact .nil
  | rt :: r, l', h => by
    simp only [resolveRts] at h
    cases h1 : resolveRt okRd asn glob obj rt with
    | error e => simp [h1] at h
    | ok x =>
      simp only [h1] at h
      cases h2 : resolveRts okRd asn glob obj r with
      | error e => simp [h2] at h
      | ok q =>
        obtain ⟨l2, n⟩ := q
        simp only [h2] at h
        cases x with
        | none => simp at h
        | some s =>
          simp only [Except.ok.injEq, Prod.mk.injEq] at h
          obtain ⟨rfl, rfl⟩ := h
          exact .cons ⟨s, rfl, h1⟩ (resolveRts_spec r l2 h2)

/-- The meaning of a route target attribute at one position -/
def RtAttr (okRd : String → Bool) (asn : Option Int) (glob obj : VrfDict) (rd : RdAttr)
    (rts gRts out : Option (List RtVal)) : Prop :=
  ∃ l e, setRt okRd asn glob obj rd rts gRts = .ok (l, e) ∧ out = some l ∧ e = 0

theorem setRtsLoop_spec {okRd : String → Bool} {asn : Option Int} {isG : Bool}
    {glob obj : VrfDict} : ∀ (d d' : VrfDict),
    setRtsLoop okRd asn isG glob obj d = .ok (d', 0) → ∀ w,
    (d.lookup w = none ∧ d'.lookup w = none) ∨
    ∃ v v', d.lookup w = some v ∧ d'.lookup w = some v' ∧ v'.id = v.id ∧ v'.rd = v.rd ∧
      RtAttr okRd asn glob obj v.rd v.imp ((if isG then none else glob.lookup w).bind (·.imp)) v'.imp ∧
      RtAttr okRd asn glob obj v.rd v.exp ((if isG then none else glob.lookup w).bind (·.exp)) v'.exp
  | [], d', h, w => by
    simp only [setRtsLoop, Except.ok.injEq, Prod.mk.injEq] at h
    rw [← h.1]
    exact .inl ⟨rfl, rfl⟩
  | (k, v) :: r, d', h, w => by
    simp only [setRtsLoop] at h
    generalize hi : setRt okRd asn glob obj v.rd v.imp
      ((if isG = true then none else glob.lookup k).bind (·.imp)) = ri at h
    cases ri with
    | error e => simp at h
    | ok qi =>
      obtain ⟨imp, e1⟩ := qi
      simp only at h
      generalize he : setRt okRd asn glob obj v.rd v.exp
        ((if isG = true then none else glob.lookup k).bind (·.exp)) = re at h
      cases re with
      | error e => simp at h
      | ok qe =>
        obtain ⟨exp, e2⟩ := qe
        simp only at h
        cases h3 : setRtsLoop okRd asn isG glob obj r with
        | error e => simp [h3] at h
        | ok q =>
          obtain ⟨r', e3⟩ := q
          simp only [h3, Except.ok.injEq, Prod.mk.injEq] at h
          obtain ⟨rfl, hs⟩ := h
          by_cases ew : w = k
          · subst ew
            exact .inr ⟨v, _, lookup_cons_self .., lookup_cons_self .., rfl, rfl,
              ⟨imp, e1, hi, rfl, by omega⟩, ⟨exp, e2, he, rfl, by omega⟩⟩
          · rw [lookup_cons_ne _ _ ew, lookup_cons_ne _ _ ew]
            exact setRtsLoop_spec r r' (by rw [h3]; congr 2; omega) w

theorem nodeRts_spec {okRd : String → Bool} {t : VrfTopo} {glob : VrfDict} :
    ∀ (nodes ns : List (String × VrfNode)), nodeRts okRd t glob nodes = .ok (ns, 0) → ∀ n,
    (nodes.lookup n = none ∧ ns.lookup n = none) ∨
    ∃ nd d', nodes.lookup n = some nd ∧ ns.lookup n = some { nd with vrfs := d' } ∧
      setRtsLoop okRd (getRdAs nd.bgpAs nd.vrfAs t) false glob nd.vrfs nd.vrfs = .ok (d', 0)
  | [], ns, h, n => by
    simp only [nodeRts, Except.ok.injEq, Prod.mk.injEq] at h
    rw [← h.1]
    exact .inl ⟨rfl, rfl⟩
  | (m, nd) :: r, ns, h, n => by
    simp only [nodeRts] at h
    cases h1 : setRtsLoop okRd (getRdAs nd.bgpAs nd.vrfAs t) false glob nd.vrfs nd.vrfs with
    | error e => simp [h1] at h
    | ok q =>
      obtain ⟨d', e1⟩ := q
      simp only [h1] at h
      cases h2 : nodeRts okRd t glob r with
      | error e => simp [h2] at h
      | ok q2 =>
        obtain ⟨r', e2⟩ := q2
        simp only [h2, Except.ok.injEq, Prod.mk.injEq] at h
        obtain ⟨rfl, hs⟩ := h
        by_cases en : n = m
        · subst en
          exact .inr ⟨nd, d', lookup_cons_self .., lookup_cons_self .., by
            rw [h1]; congr 2; omega⟩
        · rw [lookup_cons_ne _ _ en, lookup_cons_ne _ _ en]
          exact nodeRts_spec r r' (by rw [h2]; congr 2; omega) n

/-- One route target means what the specification says. -/
theorem resolveRt_means {okRd : String → Bool} {t : VrfTopo} {p : VrfPos} {glob obj : VrfDict}
    (hg : ∀ w, (glob.lookup w).map (·.rd) = (vrfAt t (none, w)).map (·.rd))
    (ho : ∀ w, (obj.lookup w).map (·.rd) = (vrfAt t (p.1, w)).map (·.rd))
    {rt : RtVal} {x : String} (h : resolveRt okRd (vrfAsn t p) glob obj rt = .ok (some x)) :
    RtMeans t p rt (.str x) := by
  cases rt with
  | null => simp [resolveRt] at h
  | num n =>
    simp only [resolveRt] at h
    cases hv : vrfAsn t p with
    | none => simp [hv] at h
    | some a =>
      simp only [hv, Except.ok.injEq, Option.some.injEq] at h
      exact ⟨a, hv, by rw [← h]; rfl⟩
  | str y =>
    simp only [resolveRt] at h
    simp only [RtMeans]
    by_cases hc : ':' ∈ y.toList
    · rw [if_pos hc]
      rw [if_pos (by simpa using hc)] at h
      split at h
      · cases h; rfl
      · cases h
    · rw [if_neg hc]
      rw [if_neg (by simpa using hc)] at h
      have key : ∀ v : Vrf, ((glob.lookup y).or (obj.lookup y)).map (·.rd) = some v.rd →
          ∃ v', (vrfAt t (none, y)).or (vrfAt t (p.1, y)) = some v' ∧ v'.rd = v.rd := by
        intro v hv
        have e : (((vrfAt t (none, y)).or (vrfAt t (p.1, y))).map (·.rd)) = some v.rd := by
          rw [← hv, Option.map_or, Option.map_or, hg, ho]
        rw [Option.map_eq_some_iff] at e
        exact e
      have hgv : ∀ r, getVrfRd glob obj y = .ok (some (.str r)) →
          ∃ v : Vrf, ((glob.lookup y).or (obj.lookup y)).map (·.rd) = some v.rd ∧ v.rd = .str r := by
        intro r hr
        unfold getVrfRd at hr
        cases hv : (glob.lookup y).or (obj.lookup y) with
        | none => rw [hv] at hr; simp at hr
        | some v =>
          rw [hv] at hr
          simp only at hr
          refine ⟨v, rfl, ?_⟩
          cases hrd : v.rd <;> simp [hrd] at hr ⊢
          exact hr
      cases hq : getVrfRd glob obj y with
      | error e => simp [hq] at h
      | ok q =>
        cases q with
        | none => simp [hq] at h
        | some q =>
          cases q with
          | null => simp [hq] at h
          | num n => simp [hq] at h
          | str r =>
            simp only [hq, Except.ok.injEq, Option.some.injEq] at h
            subst h
            obtain ⟨v, hv, hr⟩ := hgv r hq
            obtain ⟨v', e1, e2⟩ := key v hv
            exact ⟨v', r, e1, e2.trans hr, rfl⟩

/-- The three cases of a route target attribute; `own` says that the value is not copied from `g`. -/
structure RtCases (t : VrfTopo) (p : VrfPos) (rd : RdAttr) (rts gRts out : Option (List RtVal)) :
    Prop where
  dflt : rts = none → gRts = none → ∀ x, rd = .str x → out = some [.str x]
  dfltRd : rts = none → gRts = none → out = some (rdAsRt rd)
  copied : rts = none → gRts ≠ none → out = gRts
  given : ∀ l, rts = some l → ∃ l', out = some l' ∧ List.Forall₂ (RtMeans t p) l l'

theorem rtCases_of {okRd : String → Bool} {t : VrfTopo} {p : VrfPos} {glob obj : VrfDict}
    (hg : ∀ w, (glob.lookup w).map (·.rd) = (vrfAt t (none, w)).map (·.rd))
    (ho : ∀ w, (obj.lookup w).map (·.rd) = (vrfAt t (p.1, w)).map (·.rd))
    {rd : RdAttr} {rts gRts out : Option (List RtVal)}
    (h : RtAttr okRd (vrfAsn t p) glob obj rd rts gRts out) : RtCases t p rd rts gRts out := by
  obtain ⟨l, e, h1, rfl, rfl⟩ := h
  refine ⟨?_, ?_, ?_, ?_⟩
  · rintro rfl rfl x rfl
    simp only [setRt, rdAsRt, Except.ok.injEq, Prod.mk.injEq] at h1
    rw [← h1.1]
  · rintro rfl rfl
    simp only [setRt, Except.ok.injEq, Prod.mk.injEq] at h1
    rw [← h1.1]
  · rintro rfl hn
    cases gRts with
    | none => exact absurd rfl hn
    | some g =>
      simp only [setRt, Except.ok.injEq, Prod.mk.injEq] at h1
      rw [h1.1]
  · rintro l0 rfl
    simp only [setRt] at h1
    refine ⟨l, rfl, (resolveRts_spec l0 l h1).imp ?_⟩
    rintro rt out ⟨x, rfl, hx⟩
    exact resolveRt_means hg ho hx

theorem vrfRt_facts {okRd : String → Bool} {t t' : VrfTopo}
    (h : vrfRtTransform okRd t = .ok (t', 0)) (p : VrfPos) :
    (vrfAt t p = none ∧ vrfAt t' p = none) ∨
    ∃ a b, vrfAt t p = some a ∧ vrfAt t' p = some b ∧ b.id = a.id ∧ b.rd = a.rd ∧
      b.imp ≠ none ∧ b.exp ≠ none ∧
      RtCases t p a.rd a.imp (if p.1 = none then none else (vrfAt t' (none, p.2)).bind (·.imp)) b.imp ∧
      RtCases t p a.rd a.exp (if p.1 = none then none else (vrfAt t' (none, p.2)).bind (·.exp)) b.exp := by
  unfold vrfRtTransform at h
  simp only at h
  cases h1 : setRtsLoop okRd (getRdAs t.bgpAs t.vrfAs t) true (t.vrfs.getD []) (t.vrfs.getD [])
      (t.vrfs.getD []) with
  | error e => simp [h1] at h
  | ok q =>
    obtain ⟨g', e1⟩ := q
    simp only [h1] at h
    cases h2 : nodeRts okRd t g' t.nodes with
    | error e => simp [h2] at h
    | ok q2 =>
      obtain ⟨ns, e2⟩ := q2
      simp only [h2, Except.ok.injEq, Prod.mk.injEq] at h
      obtain ⟨rfl, hs⟩ := h
      have e1z : e1 = 0 := by omega
      have e2z : e2 = 0 := by omega
      subst e1z e2z
      have hgl := setRtsLoop_spec _ g' h1
      have hg0 : ∀ w, ((t.vrfs.getD []).lookup w) = vrfAt t (none, w) := fun w => (getD_lookup t w).symm
      have hg1 : ∀ w, vrfAt { t with vrfs := t.vrfs.map fun _ => g', nodes := ns } (none, w) =
          g'.lookup w := by
        intro w
        simp only [vrfAt]
        cases hv : t.vrfs with
        | some g => rfl
        | none =>
          rw [hv] at h1
          simp only [Option.getD_none, setRtsLoop, Except.ok.injEq, Prod.mk.injEq] at h1
          rw [← h1.1]
          rfl
      have hgrd : ∀ w, (g'.lookup w).map (·.rd) = (vrfAt t (none, w)).map (·.rd) := by
        intro w
        rw [← hg0]
        rcases hgl w with ⟨x, y⟩ | ⟨v, v', x, y, -, z, -⟩
        · rw [x, y]
        · rw [x, y]; simp [z]
      have hne : ∀ {okRd asn glob obj rd rts gRts out}, RtAttr okRd asn glob obj rd rts gRts out →
          out ≠ none := by
        rintro _ _ _ _ _ _ _ _ ⟨l, e, -, rfl, -⟩
        simp
      obtain ⟨p1, w⟩ := p
      cases p1 with
      | none =>
        rw [hg1, ← hg0]
        rcases hgl w with ⟨x, y⟩ | ⟨v, v', x, y, z1, z2, z3, z4⟩
        · exact .inl ⟨x, y⟩
        · right
          rw [← vrfAsn_global t w] at z3 z4
          refine ⟨v, v', x, y, z1, z2, hne z3, hne z4, ?_, ?_⟩
          · simpa using rtCases_of (fun w => by rw [hg0]) (fun w => by rw [hg0]) z3
          · simpa using rtCases_of (fun w => by rw [hg0]) (fun w => by rw [hg0]) z4
      | some n =>
        rcases nodeRts_spec _ _ h2 n with ⟨x, y⟩ | ⟨nd, d', x, y, z⟩
        · left
          simp [vrfAt, x, y]
        · have hobj : ∀ w, nd.vrfs.lookup w = vrfAt t (some n, w) := by
            intro w; simp [vrfAt, x]
          have hout : vrfAt { t with vrfs := t.vrfs.map fun _ => g', nodes := ns } (some n, w) =
              d'.lookup w := by
            simp [vrfAt, y]
          rw [hout, ← hobj, hg1]
          rcases setRtsLoop_spec _ _ z w with ⟨u1, u2⟩ | ⟨v, v', u1, u2, z1, z2, z3, z4⟩
          · exact .inl ⟨u1, u2⟩
          · right
            rw [← vrfAsn_node (w := w) x] at z3 z4
            refine ⟨v, v', u1, u2, z1, z2, hne z3, hne z4, ?_, ?_⟩
            · simpa using rtCases_of (p := (some n, w)) hgrd (fun w => by rw [hobj]) z3
            · simpa using rtCases_of (p := (some n, w)) hgrd (fun w => by rw [hobj]) z4

/-- C21: a VRF without import (export) route targets imports (exports) its own RD; a node copy of a global
VRF gets the route targets of the global VRF.  Identifiers and RDs do not change. -/
theorem C21_rt_default (okRd : String → Bool) (t t' : VrfTopo)
    (h : vrfRtTransform okRd t = .ok (t', 0)) (p : VrfPos) (a b : Vrf)
    (ha : vrfAt t p = some a) (hb : vrfAt t' p = some b) :
    (b.id = a.id ∧ b.rd = a.rd) ∧
    (∀ x, OwnVrf t p → a.rd = .str x →
      (a.imp = none → b.imp = some [.str x]) ∧ (a.exp = none → b.exp = some [.str x])) ∧
    (¬ OwnVrf t p → ∃ g, vrfAt t' (none, p.2) = some g ∧
      (a.imp = none → b.imp = g.imp) ∧ (a.exp = none → b.exp = g.exp)) := by
  rcases vrfRt_facts h p with ⟨x, -⟩ | ⟨a', b', x, y, z1, z2, -, -, z3, z4⟩
  · rw [x] at ha; cases ha
  rw [ha] at x
  rw [hb] at y
  obtain rfl := Option.some.inj x
  obtain rfl := Option.some.inj y
  refine ⟨⟨z1, z2⟩, ?_, ?_⟩
  · intro x ho hr
    have hg : p.1 = none ∨ vrfAt t' (none, p.2) = none := by
      rcases ho with ho | ho
      · exact .inl ho
      · right
        rcases vrfRt_facts h (none, p.2) with ⟨-, u⟩ | ⟨a', b', u, -⟩
        · exact u
        · unfold isGlobalVrf at ho
          rw [show t.vrfs.bind (·.lookup p.2) = some a' from u] at ho
          cases ho
    refine ⟨fun hi => z3.dflt hi ?_ x hr, fun hi => z4.dflt hi ?_ x hr⟩
    · rcases hg with hg | hg <;> simp [hg]
    · rcases hg with hg | hg <;> simp [hg]
  · intro ho
    have ho1 : p.1 ≠ none := fun e => ho (.inl e)
    have ho2 : isGlobalVrf t p.2 = true := by
      cases hx : isGlobalVrf t p.2 with
      | true => rfl
      | false => exact absurd (.inr hx) ho
    rcases vrfRt_facts h (none, p.2) with ⟨u, -⟩ | ⟨a', g, u, v, -, -, w1, w2, -⟩
    · unfold isGlobalVrf at ho2
      rw [show t.vrfs.bind (·.lookup p.2) = none from u] at ho2
      cases ho2
    · refine ⟨g, v, fun hi => ?_, fun hi => ?_⟩
      · have := z3.copied hi
        simp only [ho1, if_false, v, Option.bind_some] at this
        exact this w1
      · have := z4.copied hi
        simp only [ho1, if_false, v, Option.bind_some] at this
        exact this w2

/-- C21: the route targets written by the user are resolved one by one and in order: numbers get the AS
number, `a:b` values are kept and VRF names are replaced by the RD of the VRF. -/
theorem C21_rt_resolved (okRd : String → Bool) (t t' : VrfTopo)
    (h : vrfRtTransform okRd t = .ok (t', 0)) (p : VrfPos) (a b : Vrf)
    (ha : vrfAt t p = some a) (hb : vrfAt t' p = some b) :
    (∀ l, a.imp = some l → ∃ l', b.imp = some l' ∧ List.Forall₂ (RtMeans t p) l l') ∧
    (∀ l, a.exp = some l → ∃ l', b.exp = some l' ∧ List.Forall₂ (RtMeans t p) l l') := by
  rcases vrfRt_facts h p with ⟨x, -⟩ | ⟨a', b', x, y, z1, z2, -, -, z3, z4⟩
  · rw [x] at ha; cases ha
  rw [ha] at x
  rw [hb] at y
  obtain rfl := Option.some.inj x
  obtain rfl := Option.some.inj y
  exact ⟨z3.given, z4.given⟩

/-- Non-vacuity: hub-and-spoke route targets -/
example :
    (vrfRtTransform (fun _ => true) {
      bgpAs := some 65000
      vrfs := some [("hub", { id := some 1, rd := .str "65000:1", imp := some [.str "spoke", .num 7] }),
        ("spoke", { id := some 2, rd := .str "65000:2" })]
      nodes := [("r1", { vrfs := [("hub", { id := some 1, rd := .str "65000:1" })] })] }).toOption.map
      (fun r => (r.2, (vrfAt r.1 (none, "hub")).bind (·.imp), (vrfAt r.1 (some "r1", "hub")).bind (·.imp),
        (vrfAt r.1 (none, "spoke")).bind (·.exp))) =
    some (0, some [.str "65000:2", .str "65000:7"], some [.str "65000:2", .str "65000:7"],
      some [.str "65000:2"]) := by
  decide +kernel

end Netlab
