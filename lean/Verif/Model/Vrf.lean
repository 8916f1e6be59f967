import Verif.Lemmas.IdSet
import Verif.Model.Box
/-!
# VRF identifiers, route distinguishers and route targets (`netsim/modules/vrf.py`)
-/

namespace Netlab

/-- The `rd` attribute of a VRF (`netsim/modules/vrf.py:126-142`) -/
inductive RdAttr where
  | missing
  | null
  | num (n : Int)
  | str (s : String)
  deriving Repr, DecidableEq

/-- A route target (`netsim/modules/vrf.py:243-268`); `null` appears when the RD is null. -/
inductive RtVal where
  | null
  | num (n : Int)
  | str (s : String)
  deriving Repr, DecidableEq

/-- The attributes of a VRF used in `netsim/modules/vrf.py:83-272`.  Import and export route
targets are lists (`must_be_list`, line 240, turns a scalar into a list). -/
structure Vrf where
  id : Option Int := none
  rd : RdAttr := .missing
  imp : Option (List RtVal) := none
  exp : Option (List RtVal) := none
  deriving Repr, DecidableEq

/-- A `vrfs` dictionary; null definitions are empty definitions
(`netsim/modules/vrf.py:114-115`, `vrf.py:450-451`). -/
abbrev VrfDict := List (String × Vrf)

/-- The parts of a node used in `netsim/modules/vrf.py:440-453`: the AS numbers, the VRFs and the
VRFs used by VLANs of the node (line 442). -/
structure VrfNode where
  bgpAs : Option Int := none
  vrfAs : Option Int := none
  vrfs : VrfDict := []
  vlanVrfs : List String := []
  deriving Repr, DecidableEq

/-- The parts of the topology used in `netsim/modules/vrf.py:422-437`; `vrfs` is `none` when there
are no global VRFs. -/
structure VrfTopo where
  bgpAs : Option Int := none
  vrfAs : Option Int := none
  vrfs : Option VrfDict := none
  nodes : List (String × VrfNode) := []
  deriving Repr, DecidableEq

/-- Python's `or` for optional integers: a missing value and zero are false
(`netsim/modules/vrf.py:58-62`). -/
def orInt (a b : Option Int) : Option Int :=
  match a with
  | some 0 => b
  | some n => some n
  | none => b

/-- `netsim/modules/vrf.py:57-62` (`get_rd_as_number`), including the `if not asn` test of
its callers (zero is not usable). -/
def getRdAs (bgpAs vrfAs : Option Int) (t : VrfTopo) : Option Int :=
  orInt bgpAs (orInt vrfAs (orInt t.bgpAs (orInt t.vrfAs none)))

/-- `f'{asn}:{vrf_id}'` (`netsim/modules/vrf.py:88`) -/
def mkRd (asn id : Int) : String := toString asn ++ ":" ++ toString id

/-- The loop over VRFs in `normalize_vrf_dict` (`netsim/modules/vrf.py:113-143`): integer RDs become
`asn:rd` strings, the loop stops (line 136) when there is no AS number.  The number of
errors is returned; `okRd` is the format check `parse_rdrt_value` (lines 68-81).  The check of reserved
names is left out. -/
def normalizeVrfs (okRd : String → Bool) (asn : Option Int) : VrfDict → VrfDict × Nat
  | [] => ([], 0)
  | (k, v) :: r =>
    match v.rd with
    | .num n =>
      match asn with
      | none => ((k, v) :: r, 1)
      | some a =>
        let (r', e) := normalizeVrfs okRd asn r
        ((k, { v with rd := .str (mkRd a n) }) :: r', e)
    | .str s =>
      let (r', e) := normalizeVrfs okRd asn r
      ((k, v) :: r', if okRd s then e else e + 1)
    | _ =>
      let (r', e) := normalizeVrfs okRd asn r
      ((k, v) :: r', e)

/-- `build_id_set` (`netsim/modules/_dataplane.py:39-54`) for the attribute `id` -/
def vrfIds (d : VrfDict) : List IdVal := d.filterMap fun kv => kv.2.id.map .i

/-- `build_id_set` (`netsim/modules/_dataplane.py:39-54`) for the attribute `rd` -/
def vrfRds (d : VrfDict) : List IdVal :=
  d.filterMap fun kv => match kv.2.rd with
    | .num n => some (.i n)
    | .str s => some (.s s)
    | _ => none

/-- The two identifier sets used by the module (`netsim/modules/vrf.py:37-41`) -/
structure VrfSets where
  ids : IdVar
  rds : IdVar
  deriving Repr, DecidableEq

/-- `netsim/modules/vrf.py:37-41` (`init_vrf_static_ids`) -/
def initVrfSets : VrfSets where
  ids := (({} : IdVar).create).setCounter 1 4095
  rds := ({} : IdVar).create

/-- `netsim/modules/vrf.py:46-52` (`populate_vrf_static_ids`) -/
def populateVrfSets (s : VrfSets) (g : VrfDict) (nodes : List (String × VrfNode)) : VrfSets :=
  nodes.foldl (fun s n => { ids := s.ids.extend (vrfIds n.2.vrfs), rds := s.rds.extend (vrfRds n.2.vrfs) })
    { ids := s.ids.extend (vrfIds g), rds := s.rds.extend (vrfRds g) }

/-- Number of identifiers that `get_next_id` (`netsim/modules/_dataplane.py:86-100`) can still
hand out (termination measure of the loop in `getNextVrfId`). -/
def idBudget (v : IdVar) : Nat :=
  match v.next with
  | none => 0
  | some c => if v.value.contains (.i c) then (v.max - c).toNat else (v.max - c).toNat + 1

theorem getNext_budget {v v' : IdVar} {n : Int} (h : v.getNext = .ok (n, v')) :
    idBudget v' < idBudget v := by
  unfold IdVar.getNext at h
  cases hn : v.next with
  | none => simp [hn] at h
  | some c =>
    simp only [hn] at h
    cases hl : nextLoop v.value v.max c with
    | error e => simp [hl] at h
    | ok m =>
      simp only [hl, Except.ok.injEq, Prod.mk.injEq] at h
      obtain ⟨rfl, rfl⟩ := h
      simp only [idBudget, hn, List.contains_cons, beq_self_eq_true, Bool.true_or, if_true]
      by_cases hc : v.value.contains (.i c) = true
      · rw [if_pos hc]
        rw [nextLoop] at hl
        simp only [hc, Bool.not_true, Bool.false_eq_true, if_false] at hl
        by_cases hm : c + 1 > v.max
        · rw [if_pos hm] at hl; cases hl
        · rw [if_neg hm] at hl
          obtain ⟨-, h2, h3, -⟩ := nextLoop_ok hl
          have := h3 (by omega)
          omega
      · rw [if_neg hc]
        obtain ⟨-, h2, -, -⟩ := nextLoop_ok hl
        omega

/-- `netsim/modules/vrf.py:83-95` (`get_next_vrf_id`).  Line 85 takes the wrong set: the
identifier is added to the set of RDs (a harmless mistake, `get_next_id` has already added it to
the set of identifiers). -/
def getNextVrfId (asn : Int) (s : VrfSets) : Except Fatal (Int × String × VrfSets) :=
  match _h : s.ids.getNext with
  | .error e => .error e
  | .ok (n, ids') =>
    if s.rds.isUsed (.s (mkRd asn n)) then getNextVrfId asn { s with ids := ids' }
    else .ok (n, mkRd asn n, { ids := ids', rds := s.rds.extend [.i n, .s (mkRd asn n)] })
termination_by idBudget s.ids
decreasing_by exact getNext_budget _h

/-- `netsim/modules/vrf.py:156-161` (`set_vrf_auto_id`).  `not 'rd' in vrf` is false for an RD set
to null. -/
def setVrfAutoId (v : Vrf) (id : Int) (rd : String) : Vrf :=
  { v with
    id := match v.id with
      | some n => some n
      | none => some id
    rd := match v.rd with
      | .missing => .str rd
      | r => r }

/-- `netsim/modules/vrf.py:151-154` (`vrf_needs_id`) -/
def vrfNeedsId (v : Vrf) : Bool := !(v.rd != .missing && v.id.isSome)

/-- The loop in `set_vrf_ids` (`netsim/modules/vrf.py:202-217`).  `glob` is the global dictionary
when a node is processed (`none` for the global VRFs or when there are none).  The loop stops when there
is no AS number (line 216); errors are counted. -/
def setVrfIds (glob : Option VrfDict) (asn : Option Int) (d : VrfDict) (s : VrfSets) :
    List String → Except Fatal (VrfDict × VrfSets × Nat)
  | [] => .ok (d, s, 0)
  | k :: ks =>
    match d.lookup k with
    | none => setVrfIds glob asn d s ks
    | some v =>
      if vrfNeedsId v then
        match glob.bind (·.lookup k) with
        | some g => setVrfIds glob asn (setKey d k { v with id := g.id, rd := g.rd }) s ks
        | none =>
          match asn with
          | none => .ok (d, s, 1)
          | some a =>
            match getNextVrfId a s with
            | .error e => .error e
            | .ok (n, rd, s') => setVrfIds glob asn (setKey d k (setVrfAutoId v n rd)) s' ks
      else setVrfIds glob asn d s ks

/-- `node.vrfs` after the loop at `netsim/modules/vrf.py:449-451` (`node_pre_transform`): VRFs used by VLANs
are added.  The loop iterates over a Python set; `order` is the order in which its
elements are visited. -/
def pullVrfs (d : VrfDict) : List String → VrfDict
  | [] => d
  | k :: ks =>
    match d.lookup k with
    | some _ => pullVrfs d ks
    | none => pullVrfs (setKey d k {}) ks

/-- `node_pre_transform` (`netsim/modules/vrf.py:440-453`) for all nodes, identifiers only -/
def nodeVrfIds (t : VrfTopo) (glob : Option VrfDict) (s : VrfSets) :
    List (String × VrfNode) → Except Fatal (List (String × VrfNode) × VrfSets × Nat)
  | [] => .ok ([], s, 0)
  | (n, nd) :: r =>
    let d := pullVrfs nd.vrfs nd.vlanVrfs
    match setVrfIds glob (getRdAs nd.bgpAs nd.vrfAs t) d s (d.map (·.1)) with
    | .error e => .error e
    | .ok (d', s', e1) =>
      match nodeVrfIds t glob s' r with
      | .error e => .error e
      | .ok (r', s'', e2) => .ok ((n, { nd with vrfs := d' }) :: r', s'', e1 + e2)

/-- `normalize_vrf_ids` (`netsim/modules/vrf.py:145-149`) -/
def normalizeAll (okRd : String → Bool) (t : VrfTopo) : VrfTopo × Nat :=
  let g := t.vrfs.map (normalizeVrfs okRd (getRdAs t.bgpAs t.vrfAs t))
  let ns := t.nodes.map fun n => (n.1, n.2, normalizeVrfs okRd (getRdAs n.2.bgpAs n.2.vrfAs t) n.2.vrfs)
  ({ t with vrfs := g.map (·.1), nodes := ns.map fun n => (n.1, { n.2.1 with vrfs := n.2.2.1 }) },
   (g.map (·.2)).getD 0 + (ns.map (·.2.2.2)).sum)

/-- VRF identifiers and RDs of the whole topology: `module_pre_transform`
(`netsim/modules/vrf.py:422-437`) up to `set_vrf_ids`, then `node_pre_transform` for all nodes.  The early
return in line 431 skips the registration of static values when there are no global VRFs. The
program stops at line 434 (`exit_on_error`) if the normalization reported errors (only when
there are global VRFs, but all errors are fatal later on). -/
def vrfIdTransform (okRd : String → Bool) (t0 : VrfTopo) :
    Except Fatal (VrfTopo × VrfSets × Nat) :=
  let (t, e0) := normalizeAll okRd t0
  match t.vrfs with
  | none =>
    match nodeVrfIds t none initVrfSets t.nodes with
    | .error e => .error e
    | .ok (ns, s, e) => .ok ({ t with nodes := ns }, s, e0 + e)
  | some g =>
    match setVrfIds none (getRdAs t.bgpAs t.vrfAs t) g (populateVrfSets initVrfSets g t.nodes)
        (g.map (·.1)) with
    | .error e => .error e
    | .ok (g', s, e1) =>
      match nodeVrfIds t (some g') s t.nodes with
      | .error e => .error e
      | .ok (ns, s', e2) => .ok ({ t with vrfs := some g', nodes := ns }, s', e0 + e1 + e2)

/-- `netsim/modules/vrf.py:169-188` (`get_vrf_id`): the RD of a VRF; the global VRF is
preferred.  `none`: unknown VRF (an error is reported); a VRF without RD is a fatal error. -/
def getVrfRd (glob obj : VrfDict) (name : String) : Except Fatal (Option RtVal) :=
  match (glob.lookup name).or (obj.lookup name) with
  | none => .ok none
  | some v =>
    match v.rd with
    | .missing => .error .fatal
    | .null => .ok (some .null)
    | .num n => .ok (some (.num n))
    | .str s => .ok (some (.str s))

/-- One route target in the loop at `netsim/modules/vrf.py:243-269`: the value added to the list,
or `none` after an error message (or when the RD of the other VRF is null, line 264). -/
def resolveRt (okRd : String → Bool) (asn : Option Int) (glob obj : VrfDict) (rt : RtVal) :
    Except Fatal (Option String) :=
  match rt with
  | .num n =>
    match asn with
    | none => .ok none
    | some a => .ok (some (mkRd a n))
  | .null => .ok none
  | .str s =>
    if s.toList.contains ':' then
      if okRd s then .ok (some s) else .ok none
    else
      match getVrfRd glob obj s with
      | .error e => .error e
      | .ok (some (.str r)) => .ok (some r)
      | .ok _ => .ok none

/-- The loop over a list of route targets (`netsim/modules/vrf.py:242-271`) with the number of values that were
dropped -/
def resolveRts (okRd : String → Bool) (asn : Option Int) (glob obj : VrfDict) :
    List RtVal → Except Fatal (List RtVal × Nat)
  | [] => .ok ([], 0)
  | rt :: r =>
    match resolveRt okRd asn glob obj rt with
    | .error e => .error e
    | .ok x =>
      match resolveRts okRd asn glob obj r with
      | .error e => .error e
      | .ok (l, n) =>
        match x with
        | some s => .ok (.str s :: l, n)
        | none => .ok (l, n + 1)

/-- RD as a list of route targets (`[ vdata.rd ]`, `netsim/modules/vrf.py:238`) -/
def rdAsRt : RdAttr → List RtVal
  | .str s => [.str s]
  | .num n => [.num n]
  | _ => [.null]

/-- One iteration of the inner loop of `set_import_export_rt` (`netsim/modules/vrf.py:231-271`): the final value of
the attribute.  `rts` is the attribute (`none`: missing), `gRts` is the attribute of
the global VRF when a node VRF is processed and the VRF is also defined globally. -/
def setRt (okRd : String → Bool) (asn : Option Int) (glob obj : VrfDict) (rd : RdAttr)
    (rts gRts : Option (List RtVal)) : Except Fatal (List RtVal × Nat) :=
  match rts with
  | none =>
    match gRts with
    | some g => .ok (g, 0)
    | none => .ok (rdAsRt rd, 0)
  | some l => resolveRts okRd asn glob obj l

/-- The loop over VRFs in `set_import_export_rt` (`netsim/modules/vrf.py:230-271`).  `glob` is the
global dictionary, `obj` the dictionary of the processed object (its RDs do not change in the loop),
`isGlobal` is the test in line 226.  The number of dropped values is returned. -/
def setRtsLoop (okRd : String → Bool) (asn : Option Int) (isGlobal : Bool) (glob obj : VrfDict) :
    VrfDict → Except Fatal (VrfDict × Nat)
  | [] => .ok ([], 0)
  | (k, v) :: r =>
    let g := if isGlobal then none else glob.lookup k
    match setRt okRd asn glob obj v.rd v.imp (g.bind (·.imp)) with
    | .error e => .error e
    | .ok (imp, e1) =>
      match setRt okRd asn glob obj v.rd v.exp (g.bind (·.exp)) with
      | .error e => .error e
      | .ok (exp, e2) =>
        match setRtsLoop okRd asn isGlobal glob obj r with
        | .error e => .error e
        | .ok (r', e3) => .ok ((k, { v with imp := some imp, exp := some exp }) :: r', e1 + e2 + e3)

/-- `set_import_export_rt` (`netsim/modules/vrf.py:222-271`) for all nodes -/
def nodeRts (okRd : String → Bool) (t : VrfTopo) (glob : VrfDict) :
    List (String × VrfNode) → Except Fatal (List (String × VrfNode) × Nat)
  | [] => .ok ([], 0)
  | (n, nd) :: r =>
    match setRtsLoop okRd (getRdAs nd.bgpAs nd.vrfAs t) false glob nd.vrfs nd.vrfs with
    | .error e => .error e
    | .ok (d', e1) =>
      match nodeRts okRd t glob r with
      | .error e => .error e
      | .ok (r', e2) => .ok ((n, { nd with vrfs := d' }) :: r', e1 + e2)

/-- Route targets of the whole topology (`netsim/modules/vrf.py:437` for the global VRFs, line 454 for
the nodes).  In the program, a node gets its route targets right after its identifiers; route targets are not
used when identifiers are set, so the two passes can be separated. -/
def vrfRtTransform (okRd : String → Bool) (t : VrfTopo) : Except Fatal (VrfTopo × Nat) :=
  let glob := t.vrfs.getD []
  match setRtsLoop okRd (getRdAs t.bgpAs t.vrfAs t) true glob glob glob with
  | .error e => .error e
  | .ok (g', e1) =>
    match nodeRts okRd t g' t.nodes with
    | .error e => .error e
    | .ok (ns, e2) => .ok ({ t with vrfs := t.vrfs.map fun _ => g', nodes := ns }, e1 + e2)

end Netlab
