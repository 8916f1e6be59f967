import Verif.Model.Ipam
import Verif.Spec.Ipam
/-! # Helper lemmas for interface addressing -/

namespace Netlab
open Spec

theorem nthIp_nonneg {pfx : Net} {i : Int} (h : 0 ≤ i) :
    nthIp pfx i = if i < pfx.size then some (.addr (pfx.base + i.toNat) pfx.plen) else none := by
  unfold nthIp Net.nth?
  by_cases h2 : i < pfx.size <;> simp [h, h2]

theorem setAddress_missing_ok {pfx : Net} {i : Int} {x : IfAddr} (h : 0 ≤ i)
    (hs : setAddress pfx i .missing = (x, true)) :
    i < pfx.size ∧ x = .addr (pfx.base + i.toNat) pfx.plen := by
  simp only [setAddress, nthIp_nonneg h] at hs
  by_cases h2 : i < pfx.size
  · simp [h2] at hs
    exact ⟨h2, hs.symm⟩
  · simp [h2] at hs

theorem setAddress_missing_fit {pfx : Net} {i : Int} (h : 0 ≤ i) (h2 : i < pfx.size) :
    setAddress pfx i .missing = (.addr (pfx.base + i.toNat) pfx.plen, true) := by
  simp [setAddress, nthIp_nonneg h, h2]

theorem setAddress_missing_fail {pfx : Net} {i : Int} (h : (pfx.size : Int) ≤ i) :
    setAddress pfx i .missing = (.missing, false) := by
  have h0 : 0 ≤ i := by omega
  have h2 : ¬ i < pfx.size := by omega
  simp [setAddress, nthIp_nonneg h0, h2]

theorem ipamIdBased_eq (pfx : Net) (ids : String → Int) (ifs : List LinkIntf) :
    ipamIdBased pfx ids ifs =
      (ifs.map (fun i => { i with ip := (setAddress pfx (ids i.node) i.ip).1 }),
       ifs.all (fun i => (setAddress pfx (ids i.node) i.ip).2)) := by
  induction ifs with
  | nil => rfl
  | cons i is ih => simp [ipamIdBased, ih]

/-- Number of the `k`-th interface when the loop is entered with `count + start = n`. -/
theorem seqHost_head (n : Int) (gw : Option Int) :
    seqHost n gw 0 = if some n = gw then n + 1 else n := by
  unfold seqHost
  cases gw with
  | none => simp
  | some g =>
    simp only [Option.some.injEq]
    by_cases h : n = g
    · subst h; simp
    · rw [if_neg h, if_neg (by omega)]; simp

theorem ipamSeqLoop_eq (pfx : Net) (gw : Option Int) (c s : Int) (ifs : List LinkIntf) :
    ipamSeqLoop pfx gw c s ifs =
      (ifs.mapIdx (fun k i => { i with ip := (setAddress pfx (seqHost (c + s) gw k) i.ip).1 }),
       ifs.zipIdx.all (fun x => (setAddress pfx (seqHost (c + s) gw x.2) x.1.ip).2)) := by
  have allIdx : ∀ (l : List LinkIntf) (f : LinkIntf → Nat → Bool) (n : Nat),
      (l.zipIdx (n + 1)).all (fun x => f x.1 x.2) = (l.zipIdx n).all (fun x => f x.1 (x.2 + 1)) := by
    intro l f
    induction l with
    | nil => intro n; rfl
    | cons a l ih => intro n; simp only [List.zipIdx_cons, List.all_cons, ih]
  induction ifs generalizing c s with
  | nil => rfl
  | cons i is ih =>
    have hh := seqHost_head (c + s) gw
    simp only [ipamSeqLoop, ih, List.mapIdx_cons, List.zipIdx_cons, List.all_cons]
    by_cases hg : some (c + s) = gw
    · have hh' : seqHost (c + s) gw 0 = c + (s + 1) := by rw [hh, if_pos hg]; omega
      have ht : ∀ k, seqHost (c + 1 + (s + 1)) gw k = seqHost (c + s) gw (k + 1) := by
        intro k
        subst hg
        simp only [seqHost]
        rw [if_neg (by omega), if_pos (by omega)]
        push_cast; omega
      simp only [if_pos hg, hh', ht]
      rw [allIdx is (fun x k => (setAddress pfx (seqHost (c + s) gw k) x.ip).2) 0]
    · have hh' : seqHost (c + s) gw 0 = c + s := by rw [hh, if_neg hg]
      have ht : ∀ k, seqHost (c + 1 + s) gw k = seqHost (c + s) gw (k + 1) := by
        intro k
        cases gw with
        | none => simp only [seqHost]; push_cast; omega
        | some g =>
          have hne : c + s ≠ g := fun h => hg (by rw [h])
          simp only [seqHost]
          by_cases hc : c + 1 + s ≤ g ∧ g ≤ c + 1 + s + k
          · rw [if_pos hc, if_pos (by push_cast; omega)]; push_cast; omega
          · rw [if_neg hc, if_neg (by push_cast; omega)]; push_cast; omega
      simp only [if_neg hg, hh', ht]
      rw [allIdx is (fun x k => (setAddress pfx (seqHost (c + s) gw k) x.ip).2) 0]

theorem ipamSequential_eq (pfx : Net) (gw : Option Int) (ifs : List LinkIntf) :
    ipamSequential pfx gw ifs =
      (ifs.mapIdx (fun k i =>
        { i with ip := (setAddress pfx (seqHost (ipamStart pfx) gw k) i.ip).1 }),
       ifs.zipIdx.all (fun x => (setAddress pfx (seqHost (ipamStart pfx) gw x.2) x.1.ip).2)) := by
  unfold ipamSequential
  rw [ipamSeqLoop_eq]
  simp

theorem seqHost_ge (start : Int) (gw : Option Int) (k : Nat) :
    start + k ≤ seqHost start gw k ∧ seqHost start gw k ≤ start + k + 1 := by
  unfold seqHost
  split
  · omega
  · split <;> omega

theorem seqHost_strictMono (start : Int) (gw : Option Int) {j k : Nat} (h : j < k) :
    seqHost start gw j < seqHost start gw k := by
  unfold seqHost
  cases gw with
  | none => simp; omega
  | some g =>
    simp only
    by_cases h1 : start ≤ g ∧ g ≤ start + j
    · rw [if_pos h1, if_pos (by omega)]; omega
    · rw [if_neg h1]
      split <;> omega

theorem seqHost_ne_gw (start : Int) (gw : Int) (k : Nat) : seqHost start (some gw) k ≠ gw := by
  unfold seqHost
  simp only
  split <;> omega

theorem net_size (n : Net) : n.size = 2 ^ (n.w - n.plen) := rfl

theorem net_size_pos (n : Net) : 0 < n.size := Nat.two_pow_pos _

/-- The final check accepts an address exactly when it is usable (and not multicast). -/
theorem hostBitsOk_host {pfx : Net} (hw : pfx.WF) {i : Nat} (hi : i < pfx.size) :
    hostBitsOk pfx.w (.addr (pfx.base + i) pfx.plen) = true ↔
      isMulticast pfx.w (pfx.base + i) = false ∧ (2 < pfx.size → i ≠ 0 ∧ i ≠ pfx.size - 1) := by
  obtain ⟨-, ⟨m, hm⟩, -⟩ := hw
  have hmod : (pfx.base + i) % pfx.size = i := by
    rw [hm, Nat.mul_add_mod, Nat.mod_eq_of_lt hi]
  rw [net_size] at hmod hi ⊢
  simp only [hostBitsOk]
  by_cases h1 : isMulticast pfx.w (pfx.base + i) = true
  · simp [h1]
  · simp only [h1, Bool.false_eq_true, if_false, true_and]
    by_cases h2 : 2 ^ (pfx.w - pfx.plen) ≤ 2
    · simp only [h2, if_true, true_iff]
      intro h; omega
    · rw [hmod]
      simp only [h2, if_false, beq_iff_eq]
      by_cases h3 : i = 0
      · simp [h3]; omega
      · by_cases h4 : i = 2 ^ (pfx.w - pfx.plen) - 1
        · simp [h4]
          omega
        · simp [h3, h4]

theorem usable_of_hostBits {pfx : Net} (hw : pfx.WF) {i : Nat} (hi : i < pfx.size)
    (h : hostBitsOk pfx.w (.addr (pfx.base + i) pfx.plen) = true) :
    UsableHost pfx (pfx.base + i) := by
  have h2 := ((hostBitsOk_host hw hi).1 h).2
  rw [net_size] at *
  refine ⟨⟨by omega, by omega⟩, fun h3 => ?_⟩
  have := h2 h3
  omega

/-! ### Two-step assignment -/

theorem assignAf_eq {p2p : Bool} {gwid : Option Int} {alloc : Option Policy} {ids : String → Int}
    {loop : String → Option Bool} {v6 : Bool} {pfx : Net} {ifs : List LinkIntf} {p : Policy}
    (hp : choosePolicy p2p gwid alloc ids pfx ifs = some p) (hne : p ≠ .error) :
    assignAf p2p gwid alloc ids loop v6 pfx ifs =
      (runPolicy p pfx gwid ids loop v6 ifs).map
        (fun q => (q.1, q.2 && q.1.all (fun i => hostBitsOk pfx.w i.ip))) := by
  unfold assignAf
  rw [hp]
  cases p with
  | error => exact absurd rfl hne
  | _ => all_goals
          simp only
          generalize runPolicy _ pfx gwid ids loop v6 ifs = res
          cases res <;> rfl

theorem assignAf_ok {p2p : Bool} {gwid : Option Int} {alloc : Option Policy} {ids : String → Int}
    {loop : String → Option Bool} {v6 : Bool} {pfx : Net} {ifs out : List LinkIntf}
    (h : assignAf p2p gwid alloc ids loop v6 pfx ifs = some (out, true)) :
    ∃ p, choosePolicy p2p gwid alloc ids pfx ifs = some p ∧
      p ≠ .error ∧ runPolicy p pfx gwid ids loop v6 ifs = some (out, true) ∧
      ∀ i ∈ out, hostBitsOk pfx.w i.ip = true := by
  cases hp : choosePolicy p2p gwid alloc ids pfx ifs with
  | none => simp [assignAf, hp] at h
  | some p =>
    have hne : p ≠ .error := by
      rintro rfl
      simp [assignAf, hp] at h
    refine ⟨p, rfl, hne, ?_⟩
    rw [assignAf_eq hp hne] at h
    cases hr : runPolicy p pfx gwid ids loop v6 ifs with
    | none => simp [hr] at h
    | some q =>
      obtain ⟨r, ok⟩ := q
      simp only [hr, Option.map_some, Option.some.injEq, Prod.mk.injEq, Bool.and_eq_true,
        List.all_eq_true] at h
      obtain ⟨rfl, rfl, h3⟩ := h
      exact ⟨rfl, h3⟩

/-! ### Point-to-point numbering -/

theorem ipamP2pLoop_eq (pfx : Net) (n : Int) (l : List (LinkIntf × Nat)) :
    ipamP2pLoop pfx n l =
      (l.mapIdx (fun m x => ({ x.1 with ip := (setAddress pfx (n + m) x.1.ip).1 }, x.2)),
       l.zipIdx.all (fun x => (setAddress pfx (n + x.2) x.1.1.ip).2)) := by
  have allIdx : ∀ (l : List (LinkIntf × Nat)) (f : LinkIntf × Nat → Nat → Bool) (n : Nat),
      (l.zipIdx (n + 1)).all (fun x => f x.1 x.2) = (l.zipIdx n).all (fun x => f x.1 (x.2 + 1)) := by
    intro l f
    induction l with
    | nil => intro n; rfl
    | cons a l ih => intro n; simp only [List.zipIdx_cons, List.all_cons, ih]
  induction l generalizing n with
  | nil => rfl
  | cons x is ih =>
    obtain ⟨i, k⟩ := x
    have ht : ∀ m : Nat, n + 1 + (m : Int) = n + ((m + 1 : Nat) : Int) := by intro m; push_cast; omega
    simp only [ipamP2pLoop, ih, List.mapIdx_cons, List.zipIdx_cons, List.all_cons, ht]
    rw [allIdx is (fun x k => (setAddress pfx (n + k) x.1.ip).2) 0]
    simp

end Netlab
