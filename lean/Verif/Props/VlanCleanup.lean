import Verif.Spec.VlanCleanup
import Verif.Props.Svi
/-!
# C158: neighbors and descriptions of VLAN access interfaces
-/

namespace Netlab
open Spec

theorem ifDescr_spec (node : String) (l : List String) : IfText (ifDescr node l) node l := by
  match l with
  | [] => exact ⟨fun _ => rfl, fun x h => by simp at h, fun h => by simp at h⟩
  | [y] => exact ⟨fun h => by simp at h, fun x h => by cases h; rfl, fun h => by simp at h⟩
  | y :: z :: r => exact ⟨fun h => by simp at h, fun x h => by simp at h, fun _ => rfl⟩

theorem vlanFinal_nodes {t : SvTopo} {nodes : List SvNode} {out : List (String × List (SvIf × Option String))}
    (h : vlanFinal t nodes = .ok out) : ∃ l upds, vlanIfNodes t nodes = .ok (l, upds) ∧
      List.Forall₂ (NodeOf t upds) nodes l ∧
      out = l.map (fun nd => (nd.name, vcNode { nd with ifs := nd.ifs.map (setNgb t l upds nd) })) := by
  simp only [vlanFinal, sviTopology] at h
  cases hv : vlanIfNodes t nodes with
  | error a => simp [hv] at h
  | ok r =>
    obtain ⟨l, upds⟩ := r
    simp only [hv, Except.ok.injEq] at h
    refine ⟨l, upds, rfl, (vlanIfNodes_spec t nodes hv).1, ?_⟩
    rw [← h, List.map_map]
    rfl

theorem forall₂_take_map {α β γ : Type} {R : α → β → Prop} {S : α → γ → Prop} {f : β → γ} (l : List α) (m : List β)
    (h : List.Forall₂ R l (m.take l.length)) (hi : ∀ a b, R a b → S a (f b)) : List.Forall₂ S l ((m.map f).take l.length) := by
  rw [← List.map_take]
  rw [List.forall₂_map_right_iff]
  exact h.imp hi

/-- C158: after the transformation, a bridged interface in a VLAN has the neighbors connected to its own link, in the original order,
and its description lists these neighbors and the access VLAN. -/
theorem C158_restored {t : SvTopo} {nodes : List SvNode} {out : List (String × List (SvIf × Option String))}
    (h : vlanFinal t nodes = .ok out) :
    List.Forall₂ (fun nd o => o.1 = nd.name ∧ (nd.aware = true → List.Forall₂ (fun (i : SvIf) (j : SvIf × Option String) =>
        ∀ v, memberOfVlan i v → j.1.neighbors = i.neighbors ∧ j.1.saved = none ∧
          ∃ text, IfText text nd.name (i.neighbors.map SvNgb.node) ∧
            (i.access = none → j.2 = some text) ∧
            (i.access = some v → v ≠ "" → j.2 = some ("[Access VLAN " ++ v ++ "] " ++ text)))
        nd.ifs (o.2.take nd.ifs.length))) nodes out := by
  obtain ⟨l, upds, -, hl, rfl⟩ := vlanFinal_nodes h
  rw [List.forall₂_map_right_iff]
  refine hl.imp ?_
  intro nd nd' hn
  refine ⟨hn.name.1, fun ha => ?_⟩
  rcases hn with ⟨hf, -⟩ | ⟨-, us, hc, -⟩
  · rw [ha] at hf; cases hf
  have hname : nd'.name = nd.name := (createSvi_name hc).1
  have haw : nd'.aware = true := by
    obtain ⟨st, -, -, rfl⟩ := createSvi_inv hc
    exact ha
  obtain ⟨st, hi, -, hst⟩ := createSvi_inv hc
  have htake : List.Forall₂ (StepOf st.vlans) nd.ifs (nd'.ifs.take nd.ifs.length) := by
    rw [hst]
    simp only
    rw [List.take_left' hi.out.length_eq.symm]
    exact hi.out
  simp only [vcNode, haw, if_true, List.map_map]
  refine forall₂_take_map nd.ifs nd'.ifs htake ?_
  intro i j hs v hv
  cases hs with
  | none h1 h2 => exact absurd hv.1 (h1 v)
  | routed w vd h1 h2 h3 h4 h5 => exact absurd h2 hv.2
  | member w vd h1 h2 h3 h4 =>
    subst h4
    have hset : setNgb t l upds nd' (physIf vd i) = physIf vd i := rfl
    simp only [Function.comp, hset]
    refine ⟨rfl, rfl, ifDescr nd.name (i.neighbors.map SvNgb.node), ifDescr_spec _ _, ?_, ?_⟩
    · intro hn
      simp only [vcIf, physIf, vcName, hn, hname]
    · intro hn hne
      simp only [vcIf, physIf, vcName, hn, hname, if_neg hne]
      rfl

/-- C158: the cleanup does not change any other interface: VLAN interfaces keep their VLAN-wide lists of neighbors. -/
theorem C158_others (node : String) (i : SvIf) (h : i.saved = none) : vcIf node i = (i, none) := by
  simp [vcIf, h]

/-- C158: no temporary data is left in nodes using VLANs. -/
theorem C158_clean (nd : SvNode) (h : nd.aware = true) : ∀ j ∈ vcNode nd, j.1.saved = none := by
  intro j hj
  simp only [vcNode, h, if_true, List.mem_map] at hj
  obtain ⟨i, -, rfl⟩ := hj
  simp only [vcIf]
  split
  · assumption
  · rfl

/-- Non-vacuity: a switch with two access interfaces in the same VLAN -/
example : ((vlanFinal { vlans := [("red", { id := some 100 })] }
    [{ name := "s1", sviName := some (fun _ _ _ => "Vlan100"),
       ifs := [{ ifindex := 1, ifname := "eth1", kind := "lan", access := some "red", mode := some .irb, vlanName := some "red",
                 neighbors := [⟨"h1", "eth1", none, none⟩] },
               { ifindex := 2, ifname := "eth2", kind := "lan", access := some "red", mode := some .irb, vlanName := some "red",
                 neighbors := [⟨"h2", "eth1", none, none⟩, ⟨"h3", "eth1", none, none⟩] }] }]).toOption.getD []).map
      (fun n => n.2.map (fun j => (j.1.ifname, j.1.neighbors.map SvNgb.node, j.2))) =
    [[("eth1", ["h1"], some "[Access VLAN red] s1 -> h1"), ("eth2", ["h2", "h3"], some "[Access VLAN red] s1 -> [h2,h3]"),
      ("Vlan100", ["h1", "h2", "h3"], none)]] := by decide +kernel

end Netlab
