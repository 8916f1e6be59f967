import Verif.Model.Box
/-!
# EVPN transit VNIs (`netsim/modules/evpn.py`)
-/

namespace Netlab

/-- The `evpn.transit_vni` attribute of a global VRF (`netsim/modules/evpn.py:204`) -/
inductive TVni where
  | missing
  | null
  | num (n : Int)
  | flag (b : Bool)
  | ref (vrf : String)
  deriving Repr, DecidableEq

/-- The `vrfs` dictionary as used in `netsim/modules/evpn.py:194-261`: only the transit VNI is kept -/
abbrev TVniDict := List (String × TVni)

/-- Truth value of the attribute (`if vni and …`, `netsim/modules/evpn.py:205`) -/
def TVni.truthy : TVni → Bool
  | .num n => n != 0
  | .flag b => b
  | .ref s => s != ""
  | _ => false

/-- First pass of `vrf_transit_vni` (`netsim/modules/evpn.py:203-223`): the list of static VNIs (the parameter
`l` is the list built so far), the number of errors, the flag `vni_error` and `vni_count`. -/
def transitPass1 (vxlan : Bool) (l : List Int) : TVniDict → List Int × Nat × Bool × Nat
  | [] => (l, 0, false, 0)
  | (_, v) :: r =>
    if v.truthy && !vxlan then
      let (l', e, _, c) := transitPass1 vxlan l r
      (l', e + 1, true, c)
    else
      match v with
      | .num n =>
        if n ∈ l then
          let (l', e, x, c) := transitPass1 vxlan l r
          (l', e + 1, x, c + 1)
        else
          let (l', e, x, c) := transitPass1 vxlan (l ++ [n]) r
          (l', e, x, c + 1)
      | .flag _ | .ref _ =>
        let (l', e, x, c) := transitPass1 vxlan l r
        (l', e, x, c + 1)
      | _ => transitPass1 vxlan l r

theorem mem_le_foldl_max {l : List Int} {x m : Int} (h : x ∈ l) : x ≤ l.foldl max m := by
  induction l generalizing m with
  | nil => simp at h
  | cons a r ih =>
    have mono : ∀ (r : List Int) (m : Int), m ≤ r.foldl max m := by
      intro r
      induction r with
      | nil => intro m; exact Int.le_refl _
      | cons b r ih => intro m; exact Int.le_trans (Int.le_max_left m b) (ih _)
    rcases List.mem_cons.1 h with rfl | h
    · exact Int.le_trans (Int.le_max_right m x) (mono r _)
    · exact ih h

/-- `netsim/modules/evpn.py:188-192` (`get_next_vni`): the loop ends because the list is finite. -/
def getNextVni (start : Int) (used : List Int) : Int :=
  if _h : start + 1 ∈ used then getNextVni (start + 1) used else start + 1
termination_by (used.foldl max 0 - start).toNat
decreasing_by
  have := mem_le_foldl_max (m := 0) _h
  omega

/-- Second pass of `vrf_transit_vni` (`netsim/modules/evpn.py:231-243`) with `must_be_int` (`true_value` is the
next transit VNI, `netsim/data/types.py:283-295`; a false value is removed). -/
def transitPass2 (used : List Int) (start : Int) : TVniDict → TVniDict × Nat
  | [] => ([], 0)
  | (k, v) :: r =>
    match v with
    | .ref _ | .missing =>
      let (r', e) := transitPass2 used start r
      ((k, v) :: r', e)
    | .null =>
      let (r', e) := transitPass2 used start r
      ((k, v) :: r', e + 1)
    | .flag false =>
      let (r', e) := transitPass2 used start r
      ((k, .missing) :: r', e)
    | .flag true =>
      if start < 4096 ∨ start > 16777215 then
        let (r', e) := transitPass2 used start r
        ((k, .num start) :: r', e + 1)
      else
        let (r', e) := transitPass2 used (getNextVni start used) r
        ((k, .num start) :: r', e)
    | .num n =>
      if n < 4096 ∨ n > 16777215 then
        let (r', e) := transitPass2 used start r
        ((k, v) :: r', e + 1)
      else
        let (r', e) := transitPass2 used (if n = start then getNextVni start used else start) r
        ((k, v) :: r', e)

/-- Third pass of `vrf_transit_vni` (`netsim/modules/evpn.py:245-264`): VRF names are replaced by the VNI of that VRF. -/
def transitPass3 (d : TVniDict) : List String → TVniDict × Nat
  | [] => (d, 0)
  | k :: ks =>
    match d.lookup k with
    | some (.ref s) =>
      match d.lookup s with
      | some (.num n) => transitPass3 (setKey d k (.num n)) ks
      | _ =>
        let (d', e) := transitPass3 d ks
        (d', e + 1)
    | _ => transitPass3 d ks

/-- `netsim/modules/evpn.py:194-264` (`vrf_transit_vni`) with the number of reported errors -/
def vrfTransitVni (vxlan : Bool) (start : Int) (d : TVniDict) : TVniDict × Nat :=
  let (used, e1, bad, count) := transitPass1 vxlan [] d
  if bad then (d, e1)
  else if count = 0 then (d, e1)
  else
    let (d2, e2) := transitPass2 used start d
    let (d3, e3) := transitPass3 d2 (d.map (·.1))
    (d3, e1 + e2 + e3)

end Netlab
