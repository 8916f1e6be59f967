import Verif.Model.Inventory
import Verif.Lemmas.Settings
import Verif.Props.BgpSession
/-!
# C102: Ansible inventory
-/

namespace Netlab
open Spec

/-! ## Host variables -/

theorem lookup_reverse_cons {β : Type} (x : String × β) (r : List (String × β)) (k : String) :
    (x :: r).reverse.lookup k = (r.reverse.lookup k).or (if k = x.1 then some x.2 else none) := by
  rw [List.reverse_cons]
  generalize r.reverse = l
  obtain ⟨a, b⟩ := x
  induction l with
  | nil =>
    by_cases h : k = a
    · subst h; simp
    · simp [lookup_cons_ne _ _ h, h]
  | cons y l ih =>
    obtain ⟨c, e⟩ := y
    by_cases h : k = c
    · subst h; simp
    · rw [List.cons_append, lookup_cons_ne _ _ h, lookup_cons_ne _ _ h, ih]

theorem aiAssign_lookup (l h : List (String × Val)) (k : String) :
    (aiAssign h l).lookup k = (l.reverse.lookup k).or (h.lookup k) := by
  unfold aiAssign
  induction l generalizing h with
  | nil => simp
  | cons x r ih =>
    rw [List.foldl_cons, ih, lookup_setKey, lookup_reverse_cons]
    cases r.reverse.lookup k with
    | some _ => rfl
    | none => by_cases hk : k = x.1 <;> simp [hk]

theorem lookup_reverse_nodup {β : Type} {l : List (String × β)} (h : (l.map (·.1)).Nodup) (k : String) : l.reverse.lookup k = l.lookup k := by
  have hr : (l.reverse.map (·.1)).Nodup := by rw [List.map_reverse]; exact (List.reverse_perm _).nodup_iff.2 h
  cases hl : l.lookup k with
  | none =>
    rw [lookup_eq_none_iff] at hl ⊢
    simpa using hl
  | some v => exact lookup_of_mem hr (by simpa using mem_of_lookup hl)

theorem aiDefaults_lookup (l h : List (String × Val)) (k : String) :
    (l.foldl aiDefault h).lookup k = (h.lookup k).or (l.lookup k) := by
  induction l generalizing h with
  | nil => simp
  | cons x r ih =>
    obtain ⟨a, b⟩ := x
    rw [List.foldl_cons, ih]
    unfold aiDefault
    by_cases hk : k = a
    · subst hk
      rw [lookup_cons_self]
      cases hh : h.lookup k with
      | some v => simp [hh]
      | none => simp [lookup_setKey]
    · rw [lookup_cons_ne _ _ hk]
      split
      · rfl
      · rw [lookup_setKey, if_neg hk]

/-- The address Ansible uses to connect to the node: the host name, or the management IPv4 address -/
def ansibleHost (d : List (String × Val)) : Option Val :=
  ((Val.at (.dict d) ["hostname"]).filter Val.truthy).or ((Val.at (.dict d) ["mgmt", "ipv4"]).filter Val.truthy)

theorem aiTranslate_lookup (d : List (String × Val)) (k : String) :
    (aiTranslate d).reverse.lookup k = if k = "ansible_host" then ansibleHost d else none := by
  have key : ∀ (a b : Option Val), ((a.toList.map (fun v => ("ansible_host", v))) ++ (b.toList.map (fun v => ("ansible_host", v)))).reverse.lookup k =
      if k = "ansible_host" then b.or a else none := by
    intro a b
    by_cases hk : k = "ansible_host"
    · subst hk; cases a <;> cases b <;> simp
    · cases a <;> cases b <;> simp [hk, lookup_cons_ne]
  rw [← show ((Val.at (.dict d) ["hostname"]).filter Val.truthy).or ((Val.at (.dict d) ["mgmt", "ipv4"]).filter Val.truthy) = ansibleHost d from rfl, ← key]
  congr 2
  unfold aiTranslate
  congr 1
  · rw [at_dict_cons]
    cases hm : d.lookup "mgmt" with
    | none => rfl
    | some v =>
      cases v with
      | dict m =>
        simp only [Option.bind_some, at_dict_cons]
        cases m.lookup "ipv4" with
        | none => rfl
        | some w => cases ht : w.truthy <;> simp [Val.at, Option.filter, ht]
      | _ => rfl
  · rw [at_dict_cons]
    cases d.lookup "hostname" with
    | none => rfl
    | some w => cases ht : w.truthy <;> simp [Val.at, Option.filter, ht]

theorem aiAttrs_lookup (d : List (String × Val)) (k : String) :
    (aiAttrs d).lookup k = if k = "name" ∨ k = "device" then none else d.lookup k := by
  unfold aiAttrs
  induction d with
  | nil => simp
  | cons x r ih =>
    obtain ⟨a, b⟩ := x
    rw [List.filter_cons]
    split
    · rename_i h
      by_cases hk : k = a
      · subst hk
        rw [lookup_cons_self, lookup_cons_self, if_neg]
        simpa using h
      · rw [lookup_cons_ne _ _ hk, lookup_cons_ne _ _ hk, ih]
    · rename_i h
      rw [ih]
      by_cases hk : k = a
      · subst hk
        have h' : k = "name" ∨ k = "device" := by
          by_cases h1 : k = "name"
          · exact Or.inl h1
          · simp [h1] at h; exact Or.inr h
        rw [if_pos h', if_pos h']
      · rw [lookup_cons_ne _ _ hk]

theorem aiPorts_lookup (p : AiProv) (id : Int) (hp : (p.portMap.map (·.2)).Nodup) (k : String) (v : Val) :
    (aiPorts p id).reverse.lookup k = some v ↔ ∃ port f, (port, k) ∈ p.portMap ∧ p.forwarded.lookup port = some f ∧ v = .int (f + id) := by
  have hn : ((aiPorts p id).map (·.1)).Nodup := by
    have : ((aiPorts p id).map (·.1)).Sublist (p.portMap.map (·.2)) := by
      unfold aiPorts
      generalize p.portMap = l
      induction l with
      | nil => simp
      | cons x r ih =>
        rw [List.filterMap_cons]
        cases p.forwarded.lookup x.1 with
        | none => simpa using ih.cons _
        | some f => simpa using ih.cons_cons x.2
    exact this.nodup hp
  rw [lookup_reverse_nodup hn]
  constructor
  · intro h
    have := mem_of_lookup h
    unfold aiPorts at this
    rw [List.mem_filterMap] at this
    obtain ⟨m, hm, he⟩ := this
    rw [Option.map_eq_some_iff] at he
    obtain ⟨f, hf, he⟩ := he
    simp only [Prod.mk.injEq] at he
    exact ⟨m.1, f, by rw [← he.1]; exact hm, hf, he.2.symm⟩
  · rintro ⟨port, f, hm, hf, rfl⟩
    apply lookup_of_mem hn
    unfold aiPorts
    rw [List.mem_filterMap]
    exact ⟨_, hm, by simp [hf]⟩

/-- **C102**: host variables.  Forwarded ports (the starting port plus the node ID) win over provider variables, provider variables win over node attributes (all of them apart from the name
and the device), node attributes win over the `ansible_host` set from the host name or the management IPv4 address, and the variables of device groups are used only for nodes
with a non-default provider and only when the variable isn't set. -/
theorem C102_host_vars (p : AiProv) (n : AiNode) (hi : (p.inventory.map (·.1)).Nodup) (hd : (n.data.map (·.1)).Nodup) (hp : (p.portMap.map (·.2)).Nodup) (k : String) :
    (∀ port f, (port, k) ∈ p.portMap → p.forwarded.lookup port = some f → (aiHost p n).lookup k = some (.int (f + n.id))) ∧
    ((∀ port f, (port, k) ∈ p.portMap → p.forwarded.lookup port ≠ some f) →
      (aiHost p n).lookup k =
        ((((p.inventory.lookup k).or (if k = "name" ∨ k = "device" then none else n.data.lookup k)).or
          (if k = "ansible_host" then ansibleHost n.data else none)).or
            (if (n.data.lookup "provider").isSome then p.groupVars.lookup k else none))) := by
  have hattr : ((aiAttrs n.data).map (·.1)).Nodup := by
    have : ((aiAttrs n.data).map (·.1)).Sublist (n.data.map (·.1)) := List.Sublist.map _ List.filter_sublist
    exact this.nodup hd
  have hbase : ∀ k, (aiAssign (aiAssign (aiAssign (aiAssign [] (aiTranslate n.data)) (aiAttrs n.data)) p.inventory) (aiPorts p n.id)).lookup k =
      ((aiPorts p n.id).reverse.lookup k).or (((p.inventory.lookup k).or (if k = "name" ∨ k = "device" then none else n.data.lookup k)).or
          (if k = "ansible_host" then ansibleHost n.data else none)) := by
    intro k
    rw [aiAssign_lookup, aiAssign_lookup, aiAssign_lookup, aiAssign_lookup, lookup_reverse_nodup hi, lookup_reverse_nodup hattr, aiAttrs_lookup, aiTranslate_lookup]
    simp [Option.or_assoc]
  have hh : (aiHost p n).lookup k = ((aiPorts p n.id).reverse.lookup k).or ((((p.inventory.lookup k).or (if k = "name" ∨ k = "device" then none else n.data.lookup k)).or
          (if k = "ansible_host" then ansibleHost n.data else none)).or
            (if (n.data.lookup "provider").isSome then p.groupVars.lookup k else none)) := by
    unfold aiHost
    simp only
    by_cases hpr : (n.data.lookup "provider").isSome = true
    · rw [if_pos hpr, if_pos hpr, aiDefaults_lookup, hbase, Option.or_assoc]
    · rw [if_neg hpr, if_neg hpr, hbase]; simp
  constructor
  · intro port f hm hf
    rw [hh, (aiPorts_lookup p n.id hp k _).2 ⟨port, f, hm, hf, rfl⟩]
    rfl
  · intro hno
    have : (aiPorts p n.id).reverse.lookup k = none := by
      cases hl : (aiPorts p n.id).reverse.lookup k with
      | none => rfl
      | some v =>
        obtain ⟨port, f, hm, hf, _⟩ := (aiPorts_lookup p n.id hp k v).1 hl
        exact absurd hf (hno port f hm)
    rw [hh, this]
    rfl

example : aiHost { inventory := [("ansible_connection", .str "docker")], portMap := [("ssh", "ansible_port")], forwarded := [("ssh", 2000)], groupVars := [("x", .int 1), ("id", .int 7)] }
      { name := "a", id := 3, data := [("name", .str "a"), ("id", .int 3), ("mgmt", .dict [("ipv4", .str "10.0.0.3")]), ("provider", .str "clab")] } =
    [("ansible_host", .str "10.0.0.3"), ("id", .int 3), ("mgmt", .dict [("ipv4", .str "10.0.0.3")]), ("provider", .str "clab"), ("ansible_connection", .str "docker"),
      ("ansible_port", .int 2003), ("x", .int 1)] := by rfl

/-! ## Groups -/

/-- Hosts in a group -/
def hostsIn (inv : List (String × InvGroup)) (g : String) : List (String × List (String × Val)) := ((inv.lookup g).getD {}).hosts

theorem aiAdd_hosts (inv : List (String × InvGroup)) (o : String × String × List (String × Val)) (g m : String) :
    (hostsIn (aiAdd inv o) g).lookup m = if g = o.1 ∧ m = o.2.1 then some o.2.2 else (hostsIn inv g).lookup m := by
  unfold hostsIn aiAdd
  simp only
  rw [lookup_setKey]
  by_cases hg : g = o.1
  · subst hg
    simp [lookup_setKey]
  · simp [hg]

theorem aiAdd_other (inv : List (String × InvGroup)) (o : String × String × List (String × Val)) (g : String) :
    ((aiAdd inv o).lookup g).isSome = ((inv.lookup g).isSome || decide (g = o.1)) ∧
    (((aiAdd inv o).lookup g).getD {}).vars = ((inv.lookup g).getD {}).vars ∧
    (((aiAdd inv o).lookup g).getD {}).children = ((inv.lookup g).getD {}).children := by
  unfold aiAdd
  simp only
  rw [lookup_setKey]
  by_cases hg : g = o.1
  · subst hg; simp
  · simp [hg]

/-- Hosts after adding a list of hosts -/
theorem aiAdds_hosts (ops : List (String × String × List (String × Val))) : ∀ (inv : List (String × InvGroup)) (g m : String) (d : List (String × Val)),
    (hostsIn (ops.foldl aiAdd inv) g).lookup m = some d →
      (g, m, d) ∈ ops ∨ ((hostsIn inv g).lookup m = some d ∧ ∀ e, (g, m, e) ∉ ops) := by
  induction ops with
  | nil => intro inv g m d h; exact Or.inr ⟨h, by simp⟩
  | cons o r ih =>
    intro inv g m d h
    rw [List.foldl_cons] at h
    rcases ih _ _ _ _ h with h1 | ⟨h1, h2⟩
    · exact Or.inl (List.mem_cons_of_mem _ h1)
    · rw [aiAdd_hosts] at h1
      split at h1
      · rename_i hc
        simp only [Option.some.injEq] at h1
        left
        have : (g, m, d) = o := by rw [hc.1, hc.2, ← h1]
        rw [this]
        simp
      · rename_i hc
        right
        refine ⟨h1, ?_⟩
        intro e he
        rcases List.mem_cons.1 he with he | he
        · exact hc (by rw [← he]; exact ⟨rfl, rfl⟩)
        · exact h2 e he

theorem aiAdds_some (ops : List (String × String × List (String × Val))) : ∀ (inv : List (String × InvGroup)) (g m : String),
    ((hostsIn (ops.foldl aiAdd inv) g).lookup m).isSome = true ↔ ((hostsIn inv g).lookup m).isSome = true ∨ ∃ e, (g, m, e) ∈ ops := by
  induction ops with
  | nil => simp
  | cons o r ih =>
    intro inv g m
    rw [List.foldl_cons, ih, aiAdd_hosts]
    by_cases hc : g = o.1 ∧ m = o.2.1
    · rw [if_pos hc]
      simp only [Option.isSome_some, true_or, true_iff]
      right
      exact ⟨o.2.2, by rw [hc.1, hc.2]; simp⟩
    · rw [if_neg hc]
      constructor
      · rintro (h | ⟨e, h⟩)
        · exact Or.inl h
        · exact Or.inr ⟨e, List.mem_cons_of_mem _ h⟩
      · rintro (h | ⟨e, h⟩)
        · exact Or.inl h
        · rcases List.mem_cons.1 h with h | h
          · exact absurd ⟨by rw [← h], by rw [← h]⟩ hc
          · exact Or.inr ⟨e, h⟩

theorem aiAdds_other (ops : List (String × String × List (String × Val))) : ∀ (inv : List (String × InvGroup)) (g : String),
    (((ops.foldl aiAdd inv).lookup g).isSome = true ↔ (inv.lookup g).isSome = true ∨ ∃ o ∈ ops, o.1 = g) ∧
    (((ops.foldl aiAdd inv).lookup g).getD {}).vars = ((inv.lookup g).getD {}).vars ∧
    (((ops.foldl aiAdd inv).lookup g).getD {}).children = ((inv.lookup g).getD {}).children := by
  induction ops with
  | nil => simp
  | cons o r ih =>
    intro inv g
    have h1 := ih (aiAdd inv o) g
    have h2 := aiAdd_other inv o g
    rw [List.foldl_cons]
    refine ⟨?_, h1.2.1.trans h2.2.1, h1.2.2.trans h2.2.2⟩
    rw [h1.1, h2.1]
    simp only [Bool.or_eq_true, decide_eq_true_eq, List.mem_cons, exists_eq_or_imp, or_assoc, eq_comm (a := g)]

theorem aiDevVars_lookup (devs : List (String × List (String × Val) × List (String × Val) × Val)) (inv : List (String × InvGroup)) (g : String) :
    (inv.map (aiDevVars devs)).lookup g = (inv.lookup g).map (fun x => (aiDevVars devs (g, x)).2) := by
  have hk : ∀ p, (aiDevVars devs p).1 = p.1 := by
    intro p; unfold aiDevVars; split <;> rfl
  induction inv with
  | nil => rfl
  | cons x r ih =>
    obtain ⟨a, b⟩ := x
    rw [List.map_cons]
    have := hk (a, b)
    by_cases h : g = a
    · subst h
      rw [lookup_cons_self]
      generalize hg : aiDevVars devs (g, b) = y at this
      obtain ⟨y1, y2⟩ := y
      simp only at this
      subst this
      rw [lookup_cons_self]
      simp [hg]
    · rw [lookup_cons_ne _ _ h, ← ih]
      generalize aiDevVars devs (a, b) = y at this
      obtain ⟨y1, y2⟩ := y
      simp only at this
      subst this
      rw [lookup_cons_ne _ _ h]

theorem aiDevVars_keep (devs : List (String × List (String × Val) × List (String × Val) × Val)) (p : String × InvGroup) :
    (aiDevVars devs p).2.hosts = p.2.hosts ∧ (aiDevVars devs p).2.children = p.2.children := by
  unfold aiDevVars; split <;> exact ⟨rfl, rfl⟩

theorem hostsIn_devVars (devs : List (String × List (String × Val) × List (String × Val) × Val)) (inv : List (String × InvGroup)) (g : String) :
    hostsIn (inv.map (aiDevVars devs)) g = hostsIn inv g := by
  unfold hostsIn
  rw [aiDevVars_lookup]
  cases inv.lookup g with
  | none => rfl
  | some x => simp [(aiDevVars_keep devs (g, x)).1]

/-- Members of a group -/
theorem aiMembers_spec (nodes groups ms : List String) : ∀ (g : InvGroup),
    (∀ m, ((ms.foldl (aiMember nodes groups) g).hosts.lookup m) =
      (g.hosts.lookup m).or (if m ∈ ms ∧ m ∈ nodes then some [] else none)) ∧
    (∀ m, m ∈ (ms.foldl (aiMember nodes groups) g).children ↔ m ∈ g.children ∨ (m ∈ ms ∧ m ∉ nodes ∧ m ∈ groups)) ∧
    (ms.foldl (aiMember nodes groups) g).vars = g.vars := by
  induction ms with
  | nil => intro g; simp
  | cons x r ih =>
    intro g
    rw [List.foldl_cons]
    obtain ⟨i1, i2, i3⟩ := ih (aiMember nodes groups g x)
    refine ⟨?_, ?_, ?_⟩
    · intro m
      rw [i1]
      unfold aiMember
      by_cases hn : nodes.contains x = true
      · rw [if_pos hn]
        have hn' : x ∈ nodes := by simpa using hn
        by_cases hx : (g.hosts.lookup x).isSome = true
        · rw [if_pos hx]
          by_cases hm : m = x
          · subst hm
            obtain ⟨y, hy⟩ := Option.isSome_iff_exists.1 hx
            simp [hy]
          · simp [hm]
        · rw [if_neg hx]
          simp only
          rw [lookup_setKey]
          by_cases hm : m = x
          · subst hm
            have : g.hosts.lookup m = none := by
              cases hl : g.hosts.lookup m with
              | none => rfl
              | some _ => rw [hl] at hx; simp at hx
            simp [this, hn']
          · simp [hm]
      · rw [if_neg hn]
        have hn' : x ∉ nodes := by simpa using hn
        have hs : (if groups.contains x = true then (if g.children.contains x = true then g else { g with children := g.children ++ [x] }) else g).hosts = g.hosts := by
          split
          · split <;> rfl
          · rfl
        rw [hs]
        by_cases hm : m = x
        · subst hm; simp [hn']
        · simp [hm]
    · intro m
      rw [i2]
      unfold aiMember
      by_cases hn : nodes.contains x = true
      · rw [if_pos hn]
        have hn' : x ∈ nodes := by simpa using hn
        have hs : (if (g.hosts.lookup x).isSome = true then g else { g with hosts := setKey g.hosts x [] }).children = g.children := by
          split <;> rfl
        rw [hs]
        constructor
        · rintro (h | ⟨h1, h2⟩)
          · exact Or.inl h
          · exact Or.inr ⟨List.mem_cons_of_mem _ h1, h2⟩
        · rintro (h | ⟨h1, h2⟩)
          · exact Or.inl h
          · rcases List.mem_cons.1 h1 with rfl | h1
            · exact absurd hn' h2.1
            · exact Or.inr ⟨h1, h2⟩
      · rw [if_neg hn]
        have hn' : x ∉ nodes := by simpa using hn
        by_cases hg : groups.contains x = true
        · rw [if_pos hg]
          have hg' : x ∈ groups := by simpa using hg
          have hs : m ∈ (if g.children.contains x = true then g else { g with children := g.children ++ [x] }).children ↔ m ∈ g.children ∨ m = x := by
            split
            · rename_i h
              have h' : x ∈ g.children := by simpa using h
              constructor
              · exact Or.inl
              · rintro (h | rfl) <;> assumption
            · simp
          rw [hs]
          constructor
          · rintro ((h | rfl) | ⟨h1, h2⟩)
            · exact Or.inl h
            · exact Or.inr ⟨by simp, hn', hg'⟩
            · exact Or.inr ⟨List.mem_cons_of_mem _ h1, h2⟩
          · rintro (h | ⟨h1, h2⟩)
            · exact Or.inl (Or.inl h)
            · rcases List.mem_cons.1 h1 with rfl | h1
              · exact Or.inl (Or.inr rfl)
              · exact Or.inr ⟨h1, h2⟩
        · rw [if_neg hg]
          have hg' : x ∉ groups := by simpa using hg
          constructor
          · rintro (h | ⟨h1, h2⟩)
            · exact Or.inl h
            · exact Or.inr ⟨List.mem_cons_of_mem _ h1, h2⟩
          · rintro (h | ⟨h1, h2⟩)
            · exact Or.inl h
            · rcases List.mem_cons.1 h1 with rfl | h1
              · exact absurd h2.2 hg'
              · exact Or.inr ⟨h1, h2⟩
    · rw [i3]
      unfold aiMember
      split
      · split <;> rfl
      · split
        · split <;> rfl
        · rfl

theorem aiGroup_hosts (nodes groups : List String) (inv : List (String × InvGroup)) (d : AiGroupDef) (g m : String) :
    (hostsIn (aiGroup nodes groups inv d) g).lookup m =
      ((hostsIn inv g).lookup m).or (if d.name == g && d.members.contains m && nodes.contains m then some [] else none) := by
  unfold hostsIn aiGroup
  simp only
  rw [lookup_setKey]
  by_cases hg : g = d.name
  · subst hg
    rw [if_pos rfl, Option.getD_some, (aiMembers_spec nodes groups d.members _).1 m]
    simp
  · have : (d.name == g) = false := by simpa using fun h => hg h.symm
    simp [hg, this]

theorem aiGroups_hosts (nodes groups : List String) (ds : List AiGroupDef) : ∀ (inv : List (String × InvGroup)) (g m : String),
    (hostsIn (ds.foldl (aiGroup nodes groups) inv) g).lookup m =
      ((hostsIn inv g).lookup m).or (if ds.any (fun d => d.name == g && d.members.contains m && nodes.contains m) then some [] else none) := by
  induction ds with
  | nil => simp
  | cons d r ih =>
    intro inv g m
    rw [List.foldl_cons, ih, aiGroup_hosts, List.any_cons, Option.or_assoc]
    congr 1
    cases (d.name == g && d.members.contains m && nodes.contains m) <;> simp

/-- Child groups -/
def childrenIn (inv : List (String × InvGroup)) (g : String) : List String := ((inv.lookup g).getD {}).children

/-- Group variables -/
def varsIn (inv : List (String × InvGroup)) (g : String) : List (String × Val) := ((inv.lookup g).getD {}).vars

theorem childrenIn_devVars (devs : List (String × List (String × Val) × List (String × Val) × Val)) (inv : List (String × InvGroup)) (g : String) :
    childrenIn (inv.map (aiDevVars devs)) g = childrenIn inv g := by
  unfold childrenIn
  rw [aiDevVars_lookup]
  cases inv.lookup g with
  | none => rfl
  | some x => simp [(aiDevVars_keep devs (g, x)).2]

theorem varsIn_devVars (devs : List (String × List (String × Val) × List (String × Val) × Val)) (inv : List (String × InvGroup)) (g : String) (h : devs.lookup g = none) :
    varsIn (inv.map (aiDevVars devs)) g = varsIn inv g := by
  unfold varsIn
  rw [aiDevVars_lookup]
  cases inv.lookup g with
  | none => rfl
  | some x => simp [aiDevVars, h]

theorem aiGroups_children (nodes groups : List String) (ds : List AiGroupDef) : ∀ (inv : List (String × InvGroup)) (g m : String),
    m ∈ childrenIn (ds.foldl (aiGroup nodes groups) inv) g ↔
      m ∈ childrenIn inv g ∨ ∃ d ∈ ds, d.name = g ∧ m ∈ d.members ∧ m ∉ nodes ∧ m ∈ groups := by
  induction ds with
  | nil => simp
  | cons d r ih =>
    intro inv g m
    rw [List.foldl_cons, ih]
    have h1 : m ∈ childrenIn (aiGroup nodes groups inv d) g ↔ m ∈ childrenIn inv g ∨ (d.name = g ∧ m ∈ d.members ∧ m ∉ nodes ∧ m ∈ groups) := by
      unfold childrenIn aiGroup
      simp only
      rw [lookup_setKey]
      by_cases hg : g = d.name
      · subst hg
        rw [if_pos rfl, Option.getD_some, (aiMembers_spec nodes groups d.members _).2.1 m]
        simp
      · have : ¬ d.name = g := fun h => hg h.symm
        simp [hg, this]
    rw [h1]
    simp only [List.mem_cons, exists_eq_or_imp, or_assoc]

theorem aiGroup_vars (nodes groups : List String) (inv : List (String × InvGroup)) (d : AiGroupDef) (g : String) :
    varsIn (aiGroup nodes groups inv d) g = if d.name = g then mergeDict (varsIn inv g) d.vars else varsIn inv g := by
  unfold varsIn aiGroup
  simp only
  rw [lookup_setKey]
  by_cases hg : g = d.name
  · subst hg
    rw [if_pos rfl, if_pos rfl, Option.getD_some, (aiMembers_spec nodes groups d.members _).2.2]
  · have : ¬ d.name = g := fun h => hg h.symm
    simp [hg, this]

theorem aiGroups_vars_other (nodes groups : List String) (ds : List AiGroupDef) (g : String) (h : ∀ d ∈ ds, d.name ≠ g) : ∀ (inv : List (String × InvGroup)),
    varsIn (ds.foldl (aiGroup nodes groups) inv) g = varsIn inv g := by
  induction ds with
  | nil => simp
  | cons d r ih =>
    intro inv
    rw [List.foldl_cons, ih (fun d hd => h d (by simp [hd])), aiGroup_vars, if_neg (h d (by simp))]

theorem aiGroups_vars (nodes groups : List String) (ds : List AiGroupDef) (hn : (ds.map (·.name)).Nodup) (d : AiGroupDef) (hd : d ∈ ds) : ∀ (inv : List (String × InvGroup)),
    varsIn (ds.foldl (aiGroup nodes groups) inv) d.name = mergeDict (varsIn inv d.name) d.vars := by
  induction ds with
  | nil => simp at hd
  | cons x r ih =>
    intro inv
    simp only [List.map_cons, List.nodup_cons] at hn
    rw [List.foldl_cons]
    rcases List.mem_cons.1 hd with rfl | hd
    · rw [aiGroups_vars_other _ _ _ _ (fun y hy he => hn.1 (by rw [← he]; exact List.mem_map_of_mem hy)), aiGroup_vars, if_pos rfl]
    · rw [ih hn.2 hd, aiGroup_vars, if_neg]
      intro he
      exact hn.1 (by rw [he]; exact List.mem_map_of_mem hd)

/-- Is the node in an inventory group created for nodes with modules, custom configuration, or daemons? -/
def InExtra (n : AiNode) (g : String) : Prop :=
  (g = "modules" ∧ (n.data.lookup "module").any Val.truthy = true) ∨ (g = "custom_configs" ∧ (n.data.lookup "config").any Val.truthy = true) ∨
    (g = "daemons" ∧ (n.data.lookup "_daemon").any Val.truthy = true)

theorem mem_aiOps (prov : AiNode → AiProv) (n : AiNode) (g m : String) (d : List (String × Val)) :
    (g, m, d) ∈ aiOps prov n ↔ m = n.name ∧ ((g = aiDevice n ∧ d = aiHost (prov n) n) ∨ (InExtra n g ∧ d = [])) := by
  unfold aiOps InExtra
  rw [List.mem_cons, List.mem_filterMap]
  constructor
  · rintro (h | ⟨x, hx, h⟩)
    · simp only [Prod.mk.injEq] at h
      exact ⟨h.2.1, Or.inl ⟨h.1, h.2.2⟩⟩
    · split at h
      · rename_i ht
        simp only [Option.some.injEq, Prod.mk.injEq] at h
        obtain ⟨rfl, rfl, rfl⟩ := h
        refine ⟨rfl, Or.inr ⟨?_, rfl⟩⟩
        simp only [List.mem_cons, List.not_mem_nil, or_false] at hx
        rcases hx with rfl | rfl | rfl
        · exact Or.inl ⟨rfl, ht⟩
        · exact Or.inr (Or.inl ⟨rfl, ht⟩)
        · exact Or.inr (Or.inr ⟨rfl, ht⟩)
      · simp at h
  · rintro ⟨rfl, (⟨rfl, rfl⟩ | ⟨h, rfl⟩)⟩
    · exact Or.inl rfl
    · right
      rcases h with ⟨rfl, h⟩ | ⟨rfl, h⟩ | ⟨rfl, h⟩
      · exact ⟨("module", "modules"), by simp, by rw [if_pos h]⟩
      · exact ⟨("config", "custom_configs"), by simp, by rw [if_pos h]⟩
      · exact ⟨("_daemon", "daemons"), by simp, by rw [if_pos h]⟩

theorem hostsIn_start (a b : List (String × Val)) (g m : String) :
    (hostsIn [("all", { vars := a }), ("modules", { vars := b }), ("custom_configs", {}), ("daemons", {})] g).lookup m = none := by
  unfold hostsIn
  cases h : List.lookup g [("all", ({ vars := a } : InvGroup)), ("modules", { vars := b }), ("custom_configs", {}), ("daemons", {})] with
  | none => rfl
  | some x =>
    have := mem_of_lookup h
    simp only [List.mem_cons, Prod.mk.injEq, List.not_mem_nil, or_false] at this
    rcases this with ⟨_, rfl⟩ | ⟨_, rfl⟩ | ⟨_, rfl⟩ | ⟨_, rfl⟩ <;> rfl

section create
variable (allvars modvars : List (String × Val)) (prov : AiNode → AiProv) (devs : List (String × List (String × Val) × List (String × Val) × Val))
  (nodes : List AiNode) (groups : List AiGroupDef)

/-- **C102**: a host is in an inventory group exactly when it's the device group of the node, the group of nodes with modules, custom configuration or daemons (and the node
belongs there), or a topology group with the node among its members. -/
theorem C102_members (g m : String) :
    ((hostsIn (aiCreate allvars modvars prov devs nodes groups) g).lookup m).isSome = true ↔
      (∃ n ∈ nodes, n.name = m ∧ (aiDevice n = g ∨ InExtra n g)) ∨
      (∃ d ∈ groups, d.name = g ∧ m ∈ d.members ∧ ∃ n ∈ nodes, n.name = m) := by
  unfold aiCreate
  simp only
  rw [aiGroups_hosts, hostsIn_devVars]
  have h1 := aiAdds_some (nodes.flatMap (aiOps prov)) [("all", { vars := allvars }), ("modules", { vars := modvars }), ("custom_configs", {}), ("daemons", {})] g m
  rw [hostsIn_start] at h1
  simp only [Option.isSome_none, Bool.false_eq_true, false_or] at h1
  rw [Option.isSome_or, Bool.or_eq_true, h1]
  apply or_congr
  · constructor
    · rintro ⟨e, he⟩
      rw [List.mem_flatMap] at he
      obtain ⟨n, hn, he⟩ := he
      rw [mem_aiOps] at he
      refine ⟨n, hn, he.1.symm, ?_⟩
      rcases he.2 with h | h
      · exact Or.inl h.1.symm
      · exact Or.inr h.1
    · rintro ⟨n, hn, rfl, (h | h)⟩
      · exact ⟨aiHost (prov n) n, List.mem_flatMap.2 ⟨n, hn, (mem_aiOps prov n g n.name _).2 ⟨rfl, Or.inl ⟨h.symm, rfl⟩⟩⟩⟩
      · exact ⟨[], List.mem_flatMap.2 ⟨n, hn, (mem_aiOps prov n g n.name _).2 ⟨rfl, Or.inr ⟨h, rfl⟩⟩⟩⟩
  · have : (if (groups.any fun d => d.name == g && d.members.contains m && (List.map (fun x => x.name) nodes).contains m) = true then some ([] : List (String × Val)) else none).isSome = true ↔
        (groups.any fun d => d.name == g && d.members.contains m && (List.map (fun x => x.name) nodes).contains m) = true := by
      split
      · rename_i h; exact ⟨fun _ => h, fun _ => rfl⟩
      · rename_i h; exact ⟨fun h' => by simp at h', fun h' => absurd h' h⟩
    rw [this, List.any_eq_true]
    constructor
    · rintro ⟨d, hd, h⟩
      simp only [Bool.and_eq_true, beq_iff_eq, List.contains_iff_mem, List.mem_map] at h
      exact ⟨d, hd, h.1.1, h.1.2, h.2⟩
    · rintro ⟨d, hd, h1, h2, h3⟩
      refine ⟨d, hd, ?_⟩
      simp only [Bool.and_eq_true, beq_iff_eq, List.contains_iff_mem, List.mem_map]
      exact ⟨⟨h1, h2⟩, h3⟩

/-- **C102**: the group of a node is its device, and nodes without a device are in the group `all`. -/
theorem C102_device_group (n : AiNode) :
    (∀ d, n.data.lookup "device" = some (.str d) → aiDevice n = d) ∧ (n.data.lookup "device" = none → aiDevice n = "all") := by
  constructor
  · intro d h
    simp [aiDevice, h]
  · intro h
    simp [aiDevice, h]

/-- **C102**: the variables of a node are in its device group and nowhere else: the node has no variables in other groups. -/
theorem C102_host_data (hn : (nodes.map (·.name)).Nodup) (hx : ∀ n ∈ nodes, aiDevice n ∉ ["modules", "custom_configs", "daemons"]) (n : AiNode) (hm : n ∈ nodes) :
    (hostsIn (aiCreate allvars modvars prov devs nodes groups) (aiDevice n)).lookup n.name = some (aiHost (prov n) n) ∧
    ∀ g d, g ≠ aiDevice n → (hostsIn (aiCreate allvars modvars prov devs nodes groups) g).lookup n.name = some d → d = [] := by
  have huniq : ∀ g d, (g, n.name, d) ∈ nodes.flatMap (aiOps prov) → (g = aiDevice n ∧ d = aiHost (prov n) n) ∨ (InExtra n g ∧ d = []) := by
    intro g d h
    rw [List.mem_flatMap] at h
    obtain ⟨n', hn', h⟩ := h
    rw [mem_aiOps] at h
    have : n' = n := by
      exact eq_of_map_nodup hn hn' hm h.1.symm
    subst this
    exact h.2
  unfold aiCreate
  simp only
  constructor
  · rw [aiGroups_hosts, hostsIn_devVars]
    have h1 := (aiAdds_some (nodes.flatMap (aiOps prov)) [("all", { vars := allvars }), ("modules", { vars := modvars }), ("custom_configs", {}), ("daemons", {})] (aiDevice n) n.name).2
      (Or.inr ⟨_, List.mem_flatMap.2 ⟨n, hm, (mem_aiOps prov n _ _ _).2 ⟨rfl, Or.inl ⟨rfl, rfl⟩⟩⟩⟩)
    obtain ⟨d, hd⟩ := Option.isSome_iff_exists.1 h1
    rw [hd]
    rcases aiAdds_hosts _ _ _ _ _ hd with h2 | ⟨h2, _⟩
    · rcases huniq _ _ h2 with h3 | ⟨h3, _⟩
      · rw [h3.2]; rfl
      · exfalso
        apply hx n hm
        rcases h3 with h3 | h3 | h3 <;> rw [h3.1] <;> simp
    · rw [hostsIn_start] at h2; simp at h2
  · intro g d hg h
    rw [aiGroups_hosts, hostsIn_devVars, Option.or_eq_some_iff] at h
    rcases h with h | ⟨_, h⟩
    · rcases aiAdds_hosts _ _ _ _ _ h with h2 | ⟨h2, _⟩
      · rcases huniq _ _ h2 with h3 | ⟨_, h3⟩
        · exact absurd h3.1 hg
        · exact h3
      · rw [hostsIn_start] at h2; simp at h2
    · split at h
      · simpa using h.symm
      · simp at h

theorem childrenIn_start (a b : List (String × Val)) (g : String) :
    childrenIn [("all", { vars := a }), ("modules", { vars := b }), ("custom_configs", {}), ("daemons", {})] g = [] := by
  unfold childrenIn
  cases h : List.lookup g [("all", ({ vars := a } : InvGroup)), ("modules", { vars := b }), ("custom_configs", {}), ("daemons", {})] with
  | none => rfl
  | some x =>
    have := mem_of_lookup h
    simp only [List.mem_cons, Prod.mk.injEq, List.not_mem_nil, or_false] at this
    rcases this with ⟨_, rfl⟩ | ⟨_, rfl⟩ | ⟨_, rfl⟩ | ⟨_, rfl⟩ <;> rfl

/-- **C102**: the children of an inventory group are the members of the topology group that are groups (and not nodes). -/
theorem C102_children (g m : String) :
    m ∈ childrenIn (aiCreate allvars modvars prov devs nodes groups) g ↔
      ∃ d ∈ groups, d.name = g ∧ m ∈ d.members ∧ (∀ n ∈ nodes, n.name ≠ m) ∧ ∃ e ∈ groups, e.name = m := by
  unfold aiCreate
  simp only
  rw [aiGroups_children]
  have : childrenIn (List.map (aiDevVars devs) (List.foldl aiAdd [("all", { vars := allvars }), ("modules", { vars := modvars }), ("custom_configs", {}), ("daemons", {})]
      (List.flatMap (aiOps prov) nodes))) g = [] := by
    rw [childrenIn_devVars]
    exact (aiAdds_other (nodes.flatMap (aiOps prov)) _ g).2.2.trans (childrenIn_start allvars modvars g)
  rw [this]
  simp only [List.not_mem_nil, false_or, List.mem_map, not_exists, not_and, ne_eq]

/-- **C102**: the variables of a device group are the group variables of the device with the group variables for the provider on top of them and the device features; the variables
of a topology group are added on top of them. -/
theorem C102_group_vars (hn : (groups.map (·.name)).Nodup) (n : AiNode) (hm : n ∈ nodes) (gv pv : List (String × Val)) (f : Val)
    (hd : devs.lookup (aiDevice n) = some (gv, pv, f)) :
    (∀ d ∈ groups, d.name = aiDevice n → varsIn (aiCreate allvars modvars prov devs nodes groups) (aiDevice n) = mergeDict (setKey (mergeDict gv pv) "features" f) d.vars) ∧
    ((∀ d ∈ groups, d.name ≠ aiDevice n) → varsIn (aiCreate allvars modvars prov devs nodes groups) (aiDevice n) = setKey (mergeDict gv pv) "features" f) := by
  have h0 : varsIn (List.map (aiDevVars devs) (List.foldl aiAdd [("all", { vars := allvars }), ("modules", { vars := modvars }), ("custom_configs", {}), ("daemons", {})]
      (List.flatMap (aiOps prov) nodes))) (aiDevice n) = setKey (mergeDict gv pv) "features" f := by
    have h1 := ((aiAdds_other (nodes.flatMap (aiOps prov)) [("all", { vars := allvars }), ("modules", { vars := modvars }), ("custom_configs", {}), ("daemons", {})] (aiDevice n)).1).2
      (Or.inr ⟨_, List.mem_flatMap.2 ⟨n, hm, (mem_aiOps prov n _ _ _).2 ⟨rfl, Or.inl ⟨rfl, rfl⟩⟩⟩, rfl⟩)
    obtain ⟨x, hx⟩ := Option.isSome_iff_exists.1 h1
    unfold varsIn
    rw [aiDevVars_lookup, hx]
    simp [aiDevVars, hd]
  unfold aiCreate
  simp only
  constructor
  · intro d hdg he
    rw [← he, aiGroups_vars _ _ _ hn d hdg, he, h0]
  · intro hno
    rw [aiGroups_vars_other _ _ _ _ hno, h0]

/-- **C102**: the variables of a topology group that is not a device group and not one of the built-in groups are the variables specified in the topology. -/
theorem C102_topology_group_vars (hn : (groups.map (·.name)).Nodup) (d : AiGroupDef) (hd : d ∈ groups) (hv : devs.lookup d.name = none)
    (ha : d.name ≠ "all") (hmod : d.name ≠ "modules") :
    varsIn (aiCreate allvars modvars prov devs nodes groups) d.name = mergeDict [] d.vars := by
  unfold aiCreate
  simp only
  rw [aiGroups_vars _ _ _ hn d hd]
  congr 1
  have h1 := (aiAdds_other (nodes.flatMap (aiOps prov)) [("all", { vars := allvars }), ("modules", { vars := modvars }), ("custom_configs", {}), ("daemons", {})] d.name).2.1
  rw [varsIn_devVars _ _ _ hv]
  refine h1.trans ?_
  rw [lookup_cons_ne _ _ ha, lookup_cons_ne _ _ hmod]
  cases h : List.lookup d.name [("custom_configs", ({} : InvGroup)), ("daemons", {})] with
  | none => rfl
  | some x =>
    have := mem_of_lookup h
    simp only [List.mem_cons, Prod.mk.injEq, List.not_mem_nil, or_false] at this
    rcases this with ⟨_, rfl⟩ | ⟨_, rfl⟩ <;> rfl

end create

/-! ## Files with host variables -/

/-- **C102**: variables of a host are split between the inventory file and the host variables file: every variable is in exactly one of them with its value. -/
theorem C102_split (h : List (String × Val)) (k : String) :
    (aiSplit h).1.lookup k = (if k ∈ aiMinKeys then h.lookup k else none) ∧ (aiSplit h).2.lookup k = (if k ∈ aiMinKeys then none else h.lookup k) := by
  unfold aiSplit
  induction h with
  | nil => simp
  | cons x r ih =>
    obtain ⟨a, b⟩ := x
    simp only at ih ⊢
    by_cases ha : a ∈ aiMinKeys
    · have hc : aiMinKeys.contains a = true := List.contains_iff_mem.2 ha
      simp only [List.filter_cons, hc, if_true, Bool.not_true, Bool.false_eq_true, if_false]
      by_cases hk : k = a
      · subst hk
        rw [lookup_cons_self, lookup_cons_self, if_pos ha, if_pos ha, ih.2, if_pos ha]
        exact ⟨rfl, rfl⟩
      · rw [lookup_cons_ne _ _ hk, lookup_cons_ne _ _ hk]; exact ih
    · have hc : aiMinKeys.contains a = false := by
        cases h : aiMinKeys.contains a with
        | false => rfl
        | true => exact absurd (List.contains_iff_mem.1 h) ha
      simp only [List.filter_cons, hc, if_true, Bool.not_false, Bool.false_eq_true, if_false]
      by_cases hk : k = a
      · subst hk
        rw [lookup_cons_self, lookup_cons_self, if_neg ha, if_neg ha, ih.1, if_neg ha]
        exact ⟨rfl, rfl⟩
      · rw [lookup_cons_ne _ _ hk, lookup_cons_ne _ _ hk]; exact ih

/-- Unique groups and unique hosts in every group -/
def InvOk (inv : List (String × InvGroup)) : Prop :=
  (inv.map (·.1)).Nodup ∧ ∀ p ∈ inv, (p.2.hosts.map (·.1)).Nodup

theorem invOk_set {inv : List (String × InvGroup)} (h : InvOk inv) (k : String) (g : InvGroup) (hg : (g.hosts.map (·.1)).Nodup) : InvOk (setKey inv k g) := by
  refine ⟨nodup_setKey h.1 k g, ?_⟩
  intro p hp
  have hl := lookup_of_mem (nodup_setKey h.1 k g) hp
  rw [lookup_setKey] at hl
  split at hl
  · simp only [Option.some.injEq] at hl; rw [← hl]; exact hg
  · exact h.2 _ (mem_of_lookup hl)

theorem invOk_get {inv : List (String × InvGroup)} (h : InvOk inv) (k : String) : ((((inv.lookup k).getD {}).hosts).map (·.1)).Nodup := by
  cases hl : inv.lookup k with
  | none => simp
  | some g => exact h.2 _ (mem_of_lookup hl)

theorem aiMembers_nodup (nodes groups ms : List String) : ∀ (g : InvGroup), (g.hosts.map (·.1)).Nodup →
    (((ms.foldl (aiMember nodes groups) g).hosts).map (·.1)).Nodup := by
  induction ms with
  | nil => intro g h; exact h
  | cons x r ih =>
    intro g h
    rw [List.foldl_cons]
    apply ih
    unfold aiMember
    split
    · split
      · exact h
      · exact nodup_setKey h _ _
    · split
      · split <;> exact h
      · exact h

theorem invOk_create (allvars modvars : List (String × Val)) (prov : AiNode → AiProv) (devs : List (String × List (String × Val) × List (String × Val) × Val))
    (nodes : List AiNode) (groups : List AiGroupDef) : InvOk (aiCreate allvars modvars prov devs nodes groups) := by
  unfold aiCreate
  simp only
  have h0 : InvOk [("all", { vars := allvars }), ("modules", { vars := modvars }), ("custom_configs", {}), ("daemons", {})] := by
    refine ⟨by simp, ?_⟩
    intro p hp
    simp only [List.mem_cons, List.not_mem_nil, or_false] at hp
    rcases hp with rfl | rfl | rfl | rfl <;> simp
  have h1 : ∀ (ops : List (String × String × List (String × Val))) (inv : List (String × InvGroup)), InvOk inv → InvOk (ops.foldl aiAdd inv) := by
    intro ops
    induction ops with
    | nil => intro inv h; exact h
    | cons o r ih =>
      intro inv h
      rw [List.foldl_cons]
      exact ih _ (invOk_set h _ _ (nodup_setKey (invOk_get h _) _ _))
  have h2 : ∀ (inv : List (String × InvGroup)), InvOk inv → InvOk (inv.map (aiDevVars devs)) := by
    intro inv h
    constructor
    · have : (inv.map (aiDevVars devs)).map (·.1) = inv.map (·.1) := by
        rw [List.map_map]
        apply List.map_congr_left
        intro p _
        simp only [Function.comp_apply]
        unfold aiDevVars; split <;> rfl
      rw [this]; exact h.1
    · intro p hp
      rw [List.mem_map] at hp
      obtain ⟨q, hq, rfl⟩ := hp
      rw [(aiDevVars_keep devs q).1]
      exact h.2 q hq
  have h3 : ∀ (N G : List String) (ds : List AiGroupDef) (inv : List (String × InvGroup)), InvOk inv → InvOk (ds.foldl (aiGroup N G) inv) := by
    intro N G ds
    induction ds with
    | nil => intro inv h; exact h
    | cons d r ih =>
      intro inv h
      rw [List.foldl_cons]
      exact ih _ (invOk_set h _ _ (aiMembers_nodup _ _ _ _ (invOk_get h _)))
  exact h3 _ _ _ _ (h2 _ (h1 _ _ h0))

theorem mem_aiHostFiles {inv : List (String × InvGroup)} (hi : InvOk inv) (h : String) (c : List (String × Val)) :
    (h, c) ∈ aiHostFiles inv ↔ ∃ g d, (hostsIn inv g).lookup h = some d ∧ d ≠ [] ∧ c = (aiSplit d).2 := by
  unfold aiHostFiles
  rw [List.mem_flatMap]
  constructor
  · rintro ⟨g, hg, hm⟩
    rw [List.mem_filterMap] at hm
    obtain ⟨x, hx, hm⟩ := hm
    split at hm
    · simp at hm
    · rename_i hne
      simp only [Option.some.injEq, Prod.mk.injEq] at hm
      refine ⟨g.1, x.2, ?_, by intro he; rw [he] at hne; simp at hne, hm.2.symm⟩
      unfold hostsIn
      rw [lookup_of_mem hi.1 hg, ← hm.1]
      exact lookup_of_mem (hi.2 g hg) hx
  · rintro ⟨g, d, hl, hne, rfl⟩
    unfold hostsIn at hl
    cases hg : inv.lookup g with
    | none => rw [hg] at hl; simp at hl
    | some x =>
      rw [hg] at hl
      refine ⟨(g, x), mem_of_lookup hg, ?_⟩
      rw [List.mem_filterMap]
      refine ⟨(h, d), mem_of_lookup hl, ?_⟩
      rw [if_neg]
      simpa using hne

/-- **C102**: exactly one file with host variables is written for every node, and it contains all variables of the node that are not in the inventory file. -/
theorem C102_host_files (allvars modvars : List (String × Val)) (prov : AiNode → AiProv) (devs : List (String × List (String × Val) × List (String × Val) × Val))
    (nodes : List AiNode) (groups : List AiGroupDef) (hn : (nodes.map (·.name)).Nodup) (hx : ∀ n ∈ nodes, aiDevice n ∉ ["modules", "custom_configs", "daemons"])
    (hid : ∀ n ∈ nodes, aiHost (prov n) n ≠ []) :
    (∀ h c, (h, c) ∈ aiHostFiles (aiCreate allvars modvars prov devs nodes groups) ↔ ∃ n ∈ nodes, n.name = h ∧ c = (aiSplit (aiHost (prov n) n)).2) ∧
    ((aiHostFiles (aiCreate allvars modvars prov devs nodes groups)).map (·.1)).Nodup := by
  have hok := invOk_create allvars modvars prov devs nodes groups
  have hdata := C102_host_data allvars modvars prov devs nodes groups hn hx
  have hmem := C102_members allvars modvars prov devs nodes groups
  have hnode : ∀ g h d, (hostsIn (aiCreate allvars modvars prov devs nodes groups) g).lookup h = some d → ∃ n ∈ nodes, n.name = h := by
    intro g h d hl
    rcases (hmem g h).1 (by rw [hl]; rfl) with ⟨n, hn', he, _⟩ | ⟨_, _, _, _, n, hn', he⟩ <;> exact ⟨n, hn', he⟩
  -- host data of a node is in a single group
  have honly : ∀ g h d, (hostsIn (aiCreate allvars modvars prov devs nodes groups) g).lookup h = some d → d ≠ [] →
      ∃ n ∈ nodes, n.name = h ∧ g = aiDevice n ∧ d = aiHost (prov n) n := by
    intro g h d hl hne
    obtain ⟨n, hn', rfl⟩ := hnode g h d hl
    by_cases hg : g = aiDevice n
    · subst hg
      rw [(hdata n hn').1] at hl
      exact ⟨n, hn', rfl, rfl, by simpa using hl.symm⟩
    · exact absurd ((hdata n hn').2 g d hg hl) hne
  constructor
  · intro h c
    rw [mem_aiHostFiles hok]
    constructor
    · rintro ⟨g, d, hl, hne, rfl⟩
      obtain ⟨n, hn', he, _, rfl⟩ := honly g h d hl hne
      exact ⟨n, hn', he, rfl⟩
    · rintro ⟨n, hn', rfl, rfl⟩
      exact ⟨aiDevice n, _, (hdata n hn').1, hid n hn', rfl⟩
  · generalize aiCreate allvars modvars prov devs nodes groups = inv at *
    have key : ∀ (l : List (String × InvGroup)), (∀ p ∈ l, p ∈ inv) → (l.map (·.1)).Nodup → ((aiHostFiles l).map (·.1)).Nodup := by
      intro l
      induction l with
      | nil => intro _ _; simp [aiHostFiles]
      | cons x r ih =>
        intro hsub hnd
        simp only [List.map_cons, List.nodup_cons] at hnd
        have hx' := hsub x (by simp)
        have hcons : aiHostFiles (x :: r) = (x.2.hosts.filterMap (fun h => if h.2.isEmpty then none else some (h.1, (aiSplit h.2).2))) ++ aiHostFiles r := by
          simp [aiHostFiles]
        have hmem1 : ∀ h c, (h, c) ∈ (x.2.hosts.filterMap (fun h => if h.2.isEmpty then none else some (h.1, (aiSplit h.2).2))) →
            ∃ d, (hostsIn inv x.1).lookup h = some d ∧ d ≠ [] := by
          intro h c hm
          rw [List.mem_filterMap] at hm
          obtain ⟨y, hy, hm⟩ := hm
          split at hm
          · simp at hm
          · rename_i hne
            simp only [Option.some.injEq, Prod.mk.injEq] at hm
            refine ⟨y.2, ?_, by intro he; rw [he] at hne; simp at hne⟩
            unfold hostsIn
            rw [lookup_of_mem hok.1 hx', ← hm.1]
            exact lookup_of_mem (hok.2 x hx') hy
        rw [hcons, List.map_append, List.nodup_append]
        refine ⟨?_, ih (fun p hp => hsub p (by simp [hp])) hnd.2, ?_⟩
        · have hs : ((x.2.hosts.filterMap (fun h => if h.2.isEmpty then none else some (h.1, (aiSplit h.2).2))).map (·.1)).Sublist (x.2.hosts.map (·.1)) := by
            generalize x.2.hosts = hs
            induction hs with
            | nil => simp
            | cons y t ih2 =>
              rw [List.filterMap_cons]
              split
              · rename_i he
                simpa using ih2.cons _
              · rename_i b he
                split at he
                · simp at he
                · simp only [Option.some.injEq] at he
                  rw [← he]
                  simpa using ih2.cons_cons y.1
          exact hs.nodup (hok.2 x hx')
        · intro a ha b hb hab
          subst hab
          rw [List.mem_map] at ha hb
          obtain ⟨⟨h1, c1⟩, hm1, rfl⟩ := ha
          obtain ⟨⟨h2, c2⟩, hm2, he⟩ := hb
          simp only at he
          subst he
          obtain ⟨d1, hl1, hne1⟩ := hmem1 _ _ hm1
          have hr : ∃ g d, g ∈ r.map (·.1) ∧ (hostsIn inv g).lookup h2 = some d ∧ d ≠ [] := by
            unfold aiHostFiles at hm2
            rw [List.mem_flatMap] at hm2
            obtain ⟨g, hg, hm2⟩ := hm2
            rw [List.mem_filterMap] at hm2
            obtain ⟨y, hy, hm2⟩ := hm2
            split at hm2
            · simp at hm2
            · rename_i hne
              simp only [Option.some.injEq, Prod.mk.injEq] at hm2
              refine ⟨g.1, y.2, List.mem_map_of_mem hg, ?_, by intro he; rw [he] at hne; simp at hne⟩
              unfold hostsIn
              have hgi := hsub g (by simp [hg])
              rw [lookup_of_mem hok.1 hgi, ← hm2.1]
              exact lookup_of_mem (hok.2 g hgi) hy
          obtain ⟨g, d2, hg, hl2, hne2⟩ := hr
          obtain ⟨n1, hn1, e1, eg1, _⟩ := honly _ _ _ hl1 hne1
          obtain ⟨n2, hn2, e2, eg2, _⟩ := honly _ _ _ hl2 hne2
          have : n1 = n2 := eq_of_map_nodup hn hn1 hn2 (e1.trans e2.symm)
          subst this
          exact hnd.1 (by rw [eg1, ← eg2]; exact hg)
    exact key inv (fun p hp => hp) hok.1

/-- **C102**: the inventory file has the same groups, hosts and children as the inventory; the variables of a host are its connection variables. -/
theorem C102_inventory_file (inv : List (String × InvGroup)) (g : String) :
    ((aiMinInv inv).lookup g).isSome = (inv.lookup g).isSome ∧ childrenIn (aiMinInv inv) g = childrenIn inv g ∧
    ∀ h, (hostsIn (aiMinInv inv) g).lookup h = ((hostsIn inv g).lookup h).map (fun d => (aiSplit d).1) := by
  have hl : (aiMinInv inv).lookup g = (inv.lookup g).map (fun x => { x with hosts := x.hosts.map (fun h => (h.1, if h.2.isEmpty then h.2 else (aiSplit h.2).1)), vars := [] }) := by
    unfold aiMinInv
    induction inv with
    | nil => rfl
    | cons x r ih =>
      obtain ⟨a, b⟩ := x
      rw [List.map_cons]
      by_cases h : g = a
      · subst h; simp
      · rw [lookup_cons_ne _ _ h, lookup_cons_ne _ _ h, ih]
  unfold childrenIn hostsIn
  rw [hl]
  cases inv.lookup g with
  | none => simp
  | some x =>
    refine ⟨rfl, rfl, ?_⟩
    intro h
    simp only [Option.map_some, Option.getD_some]
    generalize x.hosts = l
    induction l with
    | nil => rfl
    | cons y r ih =>
      obtain ⟨a, b⟩ := y
      rw [List.map_cons]
      by_cases hh : h = a
      · subst hh
        rw [lookup_cons_self, lookup_cons_self]
        cases b <;> rfl
      · rw [lookup_cons_ne _ _ hh, lookup_cons_ne _ _ hh, ih]

/-! ## Addresses of lab devices -/

/-- The list of addresses -/
def addrList (hosts : List (String × List (String × List String))) (h kw : String) : List String := (((hosts.lookup h).getD []).lookup kw).getD []

theorem aiAppend_list (hosts : List (String × List (String × List String))) (o : String × String × String) (h kw : String) :
    addrList (aiAppend hosts o) h kw =
      if h = o.1 ∧ kw = o.2.1 then (if (addrList hosts h kw).contains o.2.2 then addrList hosts h kw else addrList hosts h kw ++ [o.2.2]) else addrList hosts h kw := by
  unfold addrList aiAppend
  simp only
  rw [lookup_setKey]
  by_cases h1 : h = o.1
  · subst h1
    rw [if_pos rfl, Option.getD_some, lookup_setKey]
    by_cases h2 : kw = o.2.1
    · subst h2; simp
    · simp [h2]
  · simp [h1]

/-- Addresses requested for a list, in the order of interfaces -/
def wanted (ops : List (String × String × String)) (h kw : String) : List String :=
  ops.filterMap (fun o => if o.1 = h ∧ o.2.1 = kw then some o.2.2 else none)

theorem aiAppends_list (ops : List (String × String × String)) (h kw : String) : ∀ (hosts : List (String × List (String × List String))),
    (addrList hosts h kw).Nodup →
    (addrList (ops.foldl aiAppend hosts) h kw).Nodup ∧
    (∀ a, a ∈ addrList (ops.foldl aiAppend hosts) h kw ↔ a ∈ addrList hosts h kw ∨ a ∈ wanted ops h kw) ∧
    (addrList (ops.foldl aiAppend hosts) h kw).head? = (addrList hosts h kw).head?.or (wanted ops h kw).head? := by
  induction ops with
  | nil => intro hosts hn; simp [wanted, hn]
  | cons o r ih =>
    intro hosts hn
    rw [List.foldl_cons]
    by_cases hc : h = o.1 ∧ kw = o.2.1
    · have hw : wanted (o :: r) h kw = o.2.2 :: wanted r h kw := by
        unfold wanted
        rw [List.filterMap_cons, if_pos ⟨hc.1.symm, hc.2.symm⟩]
      have hl := aiAppend_list hosts o h kw
      rw [if_pos hc] at hl
      by_cases hx : (addrList hosts h kw).contains o.2.2 = true
      · rw [if_pos hx] at hl
        have hx' : o.2.2 ∈ addrList hosts h kw := by simpa using hx
        obtain ⟨i1, i2, i3⟩ := ih (aiAppend hosts o) (by rw [hl]; exact hn)
        rw [hl] at i2 i3
        refine ⟨i1, ?_, ?_⟩
        · intro a
          rw [i2, hw, List.mem_cons]
          constructor
          · rintro (h | h)
            · exact Or.inl h
            · exact Or.inr (Or.inr h)
          · rintro (h | rfl | h)
            · exact Or.inl h
            · exact Or.inl hx'
            · exact Or.inr h
        · rw [i3]
          cases hh : addrList hosts h kw with
          | nil => rw [hh] at hx'; simp at hx'
          | cons y t => rfl
      · rw [if_neg hx] at hl
        have hx' : o.2.2 ∉ addrList hosts h kw := by simpa using hx
        obtain ⟨i1, i2, i3⟩ := ih (aiAppend hosts o) (by
          rw [hl, List.nodup_append]
          refine ⟨hn, by simp, ?_⟩
          intro a ha b hb hab
          simp only [List.mem_singleton] at hb
          subst hb; subst hab
          exact hx' ha)
        rw [hl] at i2 i3
        refine ⟨i1, ?_, ?_⟩
        · intro a
          rw [i2, hw, List.mem_append, List.mem_singleton, List.mem_cons, or_assoc]
        · rw [i3, hw]
          cases addrList hosts h kw <;> simp
    · have hw : wanted (o :: r) h kw = wanted r h kw := by
        unfold wanted
        rw [List.filterMap_cons, if_neg (fun h => hc ⟨h.1.symm, h.2.symm⟩)]
      have hl := aiAppend_list hosts o h kw
      rw [if_neg hc] at hl
      have := ih (aiAppend hosts o) (by rw [hl]; exact hn)
      rw [hl] at this
      rw [hw]
      exact this

/-- The interfaces of a node, starting with the loopback interface -/
def AiHostNode.all (n : AiHostNode) : List AiIntf := n.loopback.toList ++ n.intfs

/-- The name under which an address of the interface is listed -/
def AiIntf.host (n : AiHostNode) (i : AiIntf) : String :=
  match i.vrf with
  | some v => n.name ++ "-" ++ v
  | none => n.name

/-- The address of an interface -/
def AiIntf.addr (i : AiIntf) (kw : String) : Val := if kw = "ipv4" then i.ipv4 else i.ipv6

theorem mem_aiAddr (ip : String → String) (h kw : String) (v : Val) (o : String × String × String) :
    o ∈ aiAddr ip h kw v ↔ ∃ s, v = .str s ∧ o = (h, kw, ip s) := by
  cases v <;> simp [aiAddr]

/-- **C102**: the IPv4 (IPv6) addresses listed for a host are the IPv4 (IPv6) addresses of node interfaces listed under that name, without duplicates. -/
theorem C102_addresses (ip : String → String) (nodes : List AiHostNode) (h kw : String) (hk : kw = "ipv4" ∨ kw = "ipv6") :
    (addrList (aiHosts ip nodes) h kw).Nodup ∧
    ∀ a, a ∈ addrList (aiHosts ip nodes) h kw ↔ ∃ n ∈ nodes, ∃ i ∈ n.all, AiIntf.host n i = h ∧ ∃ s, i.addr kw = .str s ∧ a = ip s := by
  obtain ⟨h1, h2, _⟩ := aiAppends_list (nodes.flatMap (aiAddrs ip)) h kw [] (by simp [addrList])
  refine ⟨h1, ?_⟩
  intro a
  unfold aiHosts
  rw [h2]
  have hk' : kw ≠ "loopback" := by rcases hk with rfl | rfl <;> decide
  have h0 : a ∉ addrList [] h kw := by simp [addrList]
  rw [or_iff_right h0]
  unfold wanted
  rw [List.mem_filterMap]
  constructor
  · rintro ⟨o, ho, hc⟩
    split at hc
    · rename_i hcond
      simp only [Option.some.injEq] at hc
      rw [List.mem_flatMap] at ho
      obtain ⟨n, hn, ho⟩ := ho
      unfold aiAddrs at ho
      rw [List.mem_append] at ho
      rcases ho with ho | ho
      · exfalso
        cases hl : n.loopback with
        | none => rw [hl] at ho; simp at ho
        | some l =>
          rw [hl] at ho
          simp only [List.mem_append, mem_aiAddr] at ho
          rcases ho with ⟨s, _, rfl⟩ | ⟨s, _, rfl⟩ <;> exact hk' hcond.2.symm
      · rw [List.mem_flatMap] at ho
        obtain ⟨i, hi, ho⟩ := ho
        simp only [List.mem_append, mem_aiAddr] at ho
        refine ⟨n, hn, i, hi, ?_⟩
        rcases ho with ⟨s, hs, rfl⟩ | ⟨s, hs, rfl⟩
        · simp only at hcond hc
          refine ⟨hcond.1, s, ?_, hc.symm⟩
          unfold AiIntf.addr
          rw [if_pos hcond.2.symm, hs]
        · simp only at hcond hc
          refine ⟨hcond.1, s, ?_, hc.symm⟩
          unfold AiIntf.addr
          rw [if_neg (by rw [← hcond.2]; decide), hs]
    · simp at hc
  · rintro ⟨n, hn, i, hi, rfl, s, hs, rfl⟩
    refine ⟨(AiIntf.host n i, kw, ip s), ?_, by simp⟩
    rw [List.mem_flatMap]
    refine ⟨n, hn, ?_⟩
    unfold aiAddrs
    rw [List.mem_append, List.mem_flatMap]
    right
    refine ⟨i, hi, ?_⟩
    simp only [List.mem_append, mem_aiAddr]
    rcases hk with rfl | rfl
    · exact Or.inl ⟨s, hs, rfl⟩
    · exact Or.inr ⟨s, hs, rfl⟩

/-- **C102**: the list of loopback addresses of a host has the addresses of its loopback interface and nothing else. -/
theorem C102_loopback_addresses (ip : String → String) (nodes : List AiHostNode) (h a : String) :
    a ∈ addrList (aiHosts ip nodes) h "loopback" ↔ ∃ n ∈ nodes, n.name = h ∧ ∃ l, n.loopback = some l ∧ ∃ s, (l.ipv4 = .str s ∨ l.ipv6 = .str s) ∧ a = ip s := by
  obtain ⟨_, h2, _⟩ := aiAppends_list (nodes.flatMap (aiAddrs ip)) h "loopback" [] (by simp [addrList])
  unfold aiHosts
  rw [h2]
  have h0 : a ∉ addrList [] h "loopback" := by simp [addrList]
  rw [or_iff_right h0]
  unfold wanted
  rw [List.mem_filterMap]
  constructor
  · rintro ⟨o, ho, hc⟩
    split at hc
    · rename_i hcond
      simp only [Option.some.injEq] at hc
      rw [List.mem_flatMap] at ho
      obtain ⟨n, hn, ho⟩ := ho
      unfold aiAddrs at ho
      rw [List.mem_append] at ho
      rcases ho with ho | ho
      · cases hl : n.loopback with
        | none => rw [hl] at ho; simp at ho
        | some l =>
          rw [hl] at ho
          simp only [List.mem_append, mem_aiAddr] at ho
          rcases ho with ⟨s, hs, rfl⟩ | ⟨s, hs, rfl⟩
          · exact ⟨n, hn, hcond.1, l, hl, s, Or.inl hs, hc.symm⟩
          · exact ⟨n, hn, hcond.1, l, hl, s, Or.inr hs, hc.symm⟩
      · exfalso
        rw [List.mem_flatMap] at ho
        obtain ⟨i, hi, ho⟩ := ho
        simp only [List.mem_append, mem_aiAddr] at ho
        rcases ho with ⟨s, _, rfl⟩ | ⟨s, _, rfl⟩ <;> exact absurd hcond.2 (by simp)
    · simp at hc
  · rintro ⟨n, hn, rfl, l, hl, s, hs, rfl⟩
    refine ⟨(n.name, "loopback", ip s), ?_, by simp⟩
    rw [List.mem_flatMap]
    refine ⟨n, hn, ?_⟩
    unfold aiAddrs
    rw [List.mem_append, hl]
    left
    simp only [List.mem_append, mem_aiAddr]
    rcases hs with hs | hs
    · exact Or.inl ⟨s, hs, rfl⟩
    · exact Or.inr ⟨s, hs, rfl⟩

/-- **C102** (defect): the addresses of a node interface in a VRF are listed together with the addresses of another node when the name of that node is the name of the node followed by
the VRF name. -/
theorem C102_vrf_name_clash :
    aiHosts (fun s => s) [{ name := "a", loopback := none, intfs := [{ vrf := some "red", ipv4 := .str "10.0.0.1", ipv6 := .bool false }] },
      { name := "a-red", loopback := none, intfs := [{ vrf := none, ipv4 := .str "10.0.0.2", ipv6 := .bool false }] }] =
    [("a-red", [("ipv4", ["10.0.0.1", "10.0.0.2"])])] := by rfl

/-- **C102** (defect): a topology group called `modules` adds its members to the hosts with configuration modules although they don't use any. -/
theorem C102_reserved_group :
    (hostsIn (aiCreate [] [] (fun _ => { inventory := [], portMap := [], forwarded := [], groupVars := [] }) [] [{ name := "a", id := 1, data := [("id", .int 1)] }]
      [{ name := "modules", members := ["a"], vars := [] }]) "modules").lookup "a" = some [] := by rfl

example : (aiCreate [("netlab_name", .str "x")] [] (fun _ => { inventory := [("ansible_connection", .str "docker")], portMap := [], forwarded := [], groupVars := [] })
      [("frr", [("u", .int 1)], [("u", .int 2)], .dict [])]
      [{ name := "a", id := 1, data := [("id", .int 1), ("device", .str "frr"), ("module", .list [.str "ospf"])] }]
      [{ name := "g", members := ["a", "h", "zz"], vars := [("v", .int 3)] }, { name := "h", members := [], vars := [] }]).map (fun p => (p.1, p.2.hosts.map (·.1), p.2.children)) =
    [("all", [], []), ("modules", ["a"], []), ("custom_configs", [], []), ("daemons", [], []), ("frr", ["a"], []), ("g", ["a"], ["h"]), ("h", [], [])] := by
  rfl

end Netlab
