import Verif.Spec.Access
import Verif.Props.Inventory

namespace Netlab

open Spec

/-! ### Inventory data -/

theorem acTrue_iff (v : Val) : acTrue v = true ↔ TrueValue v := by
  cases v <;> simp [acTrue, TrueValue]

theorem whenTrue_some (v : Val) : whenTrue (some v) = if acTrue v then some v else none := by
  unfold whenTrue
  simp only [Option.bind_some]
  by_cases h : acTrue v = true
  · rw [if_pos h, if_pos ((acTrue_iff v).1 h)]
  · rw [if_neg h, if_neg (fun e => h ((acTrue_iff v).2 e))]

theorem acSetTrue_lookup (host : List (String × Val)) (k : String) (v : Option Val) (q : String) :
    (acSetTrue host k v).lookup q = (if q = k then whenTrue v else none).or (host.lookup q) := by
  cases v with
  | none => simp [acSetTrue, whenTrue]
  | some v =>
    rw [whenTrue_some]
    unfold acSetTrue
    simp only
    by_cases h : acTrue v = true
    · rw [if_pos h, if_pos h, lookup_setKey]
      by_cases hq : q = k <;> simp [hq]
    · rw [if_neg h, if_neg h]
      by_cases hq : q = k <;> simp [hq]

theorem acPorts_spec (p : AcProvider) (i : Int) : ∀ (l : List (String × String)) (host : List (String × Val)), (l.map (·.2)).Nodup →
    ∃ h, acPorts p (some (.int i)) l host = some h ∧
      (∀ a k f, (a, k) ∈ l → p.forwarded.lookup a = some f → h.lookup k = some (.int (f + i))) ∧
      (∀ k, (∀ a f, (a, k) ∈ l → p.forwarded.lookup a ≠ some f) → h.lookup k = host.lookup k)
  | [], host, _ => ⟨host, rfl, fun _ _ _ h => (nomatch h), fun _ _ => rfl⟩
  | (a, k) :: r, host, hn => by
    simp only [List.map_cons, List.nodup_cons] at hn
    unfold acPorts
    cases hf : p.forwarded.lookup a with
    | none =>
      obtain ⟨h, h1, h2, h3⟩ := acPorts_spec p i r host hn.2
      refine ⟨h, h1, fun b q f hm hl => ?_, fun q hq => h3 q (fun b f hm => hq b f (List.mem_cons_of_mem _ hm))⟩
      rcases List.mem_cons.1 hm with e | hm
      · cases e; rw [hf] at hl; cases hl
      · exact h2 b q f hm hl
    | some f =>
      obtain ⟨h, h1, h2, h3⟩ := acPorts_spec p i r (setKey host k (.int (f + i))) hn.2
      refine ⟨h, h1, fun b q f' hm hl => ?_, fun q hq => ?_⟩
      · rcases List.mem_cons.1 hm with e | hm
        · cases e
          rw [hf] at hl
          cases hl
          rw [h3 k (fun b f' hm _ => hn.1 (List.mem_map.2 ⟨(b, k), hm, rfl⟩)), lookup_setKey, if_pos rfl]
        · exact h2 b q f' hm hl
      · rw [h3 q (fun b f' hm => hq b f' (List.mem_cons_of_mem _ hm)), lookup_setKey, if_neg]
        rintro rfl
        exact hq a f List.mem_cons_self hf

theorem lookup_foldl_assign (l h : List (String × Val)) (hn : (l.map (·.1)).Nodup) (k : String) :
    (l.foldl (fun h x => setKey h x.1 x.2) h).lookup k = (l.lookup k).or (h.lookup k) := by
  rw [← lookup_reverse_nodup hn, ← aiAssign_lookup]
  rfl

/-- **C114**: the value of every setting used to connect to a device.  Forwarded ports are changed by the ID of the node and override everything else; other settings
come, in this order, from the provider, from the node, from the name or management address of the node, and from the device. -/
theorem C114_host (groupVars : List (String × Val)) (ignore : List String) (p : AcProvider) (node : List (String × Val)) (i : Int)
    (hg : (groupVars.map (·.1)).Nodup) (hi : (p.inventory.map (·.1)).Nodup) (hd : (node.map (·.1)).Nodup) (hp : (p.portMap.map (·.2)).Nodup)
    (hid : HostSetting groupVars ignore p.inventory node "id" = some (.int i)) :
    ∃ host, acHost groupVars ignore p node = some host ∧
      (∀ a k f, (a, k) ∈ p.portMap → p.forwarded.lookup a = some f → host.lookup k = some (.int (f + i))) ∧
      (∀ k, (∀ a f, (a, k) ∈ p.portMap → p.forwarded.lookup a ≠ some f) → host.lookup k = HostSetting groupVars ignore p.inventory node k) := by
  have hfil : ∀ k, (node.filter (fun x => !ignore.contains x.1)).lookup k = if k ∈ ignore then none else node.lookup k := by
    intro k
    clear hid hd
    induction node with
    | nil => simp
    | cons x r ih =>
      obtain ⟨a, b⟩ := x
      by_cases ha : a ∈ ignore
      · rw [List.filter_cons_of_neg (by simpa using ha), ih]
        by_cases hk : k = a
        · subst hk; rw [if_pos ha, if_pos ha]
        · rw [lookup_cons_ne _ _ hk]
      · rw [List.filter_cons_of_pos (by simpa using ha)]
        by_cases hk : k = a
        · subst hk; rw [if_neg ha, lookup_cons_self, lookup_cons_self]
        · rw [lookup_cons_ne _ _ hk, lookup_cons_ne _ _ hk, ih]
  have hmgmt : acMgmt node = MgmtAddress node := rfl
  have hval : ∀ k, (p.inventory.foldl (fun h x => setKey h x.1 x.2) ((node.filter (fun x => !ignore.contains x.1)).foldl (fun h x => setKey h x.1 x.2)
      (acSetTrue (acSetTrue (acSetTrue (groupVars.foldl (fun h x => setKey h x.1 x.2) []) "ansible_host" (acMgmt node)) "ansible_host" (node.lookup "hostname"))
        "id" (node.lookup "id")))).lookup k = HostSetting groupVars ignore p.inventory node k := by
    intro k
    rw [lookup_foldl_assign _ _ hi, lookup_foldl_assign _ _ (hd.sublist (List.filter_sublist.map _)), hfil, acSetTrue_lookup, acSetTrue_lookup, acSetTrue_lookup,
      lookup_foldl_assign _ _ hg, hmgmt]
    unfold HostSetting
    congr 2
    by_cases h1 : k = "ansible_host"
    · subst h1
      simp [Option.or_assoc]
    · by_cases h2 : k = "id"
      · subst h2; simp
      · simp [h1, h2]
  obtain ⟨h, h1, h2, h3⟩ := acPorts_spec p i p.portMap (p.inventory.foldl (fun h x => setKey h x.1 x.2) ((node.filter (fun x => !ignore.contains x.1)).foldl (fun h x => setKey h x.1 x.2)
      (acSetTrue (acSetTrue (acSetTrue (groupVars.foldl (fun h x => setKey h x.1 x.2) []) "ansible_host" (acMgmt node)) "ansible_host" (node.lookup "hostname"))
        "id" (node.lookup "id")))) hp
  refine ⟨h, ?_, h2, fun k hk => (h3 k hk).trans (hval k)⟩
  unfold acHost acProviderSettings
  simp only
  rw [hval, hid]
  exact h1

example : acHost [("ansible_user", .str "admin"), ("id", .int 0)] ["name", "device"] ⟨[("ansible_connection", .str "docker")], [("ssh", "ansible_port")], [("ssh", 2000)]⟩
    [("name", .str "r1"), ("id", .int 3), ("mgmt", .dict [("ipv4", .str "192.168.121.103")])] =
    some [("ansible_user", .str "admin"), ("id", .int 3), ("ansible_host", .str "192.168.121.103"), ("mgmt", .dict [("ipv4", .str "192.168.121.103")]),
      ("ansible_connection", .str "docker"), ("ansible_port", .int 2003)] := by decide +kernel

/-! ### Commands executed on devices -/

theorem acHasArgs_iff (s : List Char) : acHasArgs s = true ↔ HasArgs s := by
  induction s using acHasArgs.induct with
  | case1 => simp [acHasArgs, HasArgs]
  | case2 r =>
    simp only [acHasArgs, true_iff]
    exact ⟨[], r, rfl⟩
  | case3 c r h ih =>
    have he : acHasArgs (c :: r) = acHasArgs r := by
      conv => lhs; unfold acHasArgs
      split
      · rename_i heq; cases heq
      · rename_i heq
        cases heq
        exact absurd rfl (h _ rfl)
      · rename_i heq; cases heq; rfl
    rw [he, ih]
    unfold HasArgs
    constructor
    · rintro ⟨a, b, rfl⟩; exact ⟨c :: a, b, rfl⟩
    · rintro ⟨a, b, e⟩
      cases a with
      | nil =>
        simp only [List.nil_append, List.cons.injEq] at e
        exact absurd e.2 (fun h2 => h _ e.1 h2)
      | cons x a =>
        simp only [List.cons_append, List.cons.injEq] at e
        exact ⟨a, b, e.2⟩

theorem acSubst_cons (v : List Char) (c : Char) (r : List Char) (h : ¬ (c = '$' ∧ r.head? = some '@')) : acSubst v (c :: r) = c :: acSubst v r := by
  conv => lhs; unfold acSubst
  split
  · rename_i heq; cases heq
  · rename_i heq
    cases heq
    exact absurd ⟨rfl, rfl⟩ h
  · rename_i heq; cases heq; rfl

theorem acSubst_part (v a t : List Char) (ha : ¬ HasArgs a) (ht : t.head? ≠ some '@') : acSubst v (a ++ t) = a ++ acSubst v t := by
  induction a with
  | nil => rfl
  | cons c r ih =>
    have hr : ¬ HasArgs r := fun ⟨x, y, e⟩ => ha ⟨c :: x, y, by rw [e]; rfl⟩
    rw [List.cons_append, acSubst_cons, ih hr, List.cons_append]
    rintro ⟨rfl, h⟩
    cases r with
    | nil => exact ht h
    | cons d r =>
      simp only [List.cons_append, List.head?_cons, Option.some.injEq] at h
      subst h
      exact ha ⟨[], r, rfl⟩

/-- **C114**: `$@` in a device-specific command is replaced everywhere, and nothing else changes. -/
theorem C114_substitute (v : List Char) (parts : List (List Char)) (h : ∀ p ∈ parts, ¬ HasArgs p) :
    acSubst v (Joined ['$', '@'] parts) = Joined v parts := by
  induction parts with
  | nil => rfl
  | cons x r ih =>
    cases r with
    | nil =>
      have := acSubst_part v x [] (h x List.mem_cons_self) (by simp)
      simpa [Joined, acSubst] using this
    | cons y r =>
      unfold Joined
      rw [List.append_assoc, acSubst_part v x _ (h x List.mem_cons_self) (by simp)]
      have : acSubst v (['$', '@'] ++ Joined ['$', '@'] (y :: r)) = v ++ acSubst v (Joined ['$', '@'] (y :: r)) := by
        conv => lhs; unfold acSubst
        rfl
      rw [this, ih (fun p hp => h p (List.mem_cons_of_mem _ hp)), List.append_assoc]

theorem acJoin_eq (l : List (List Char)) : acJoin l = Joined [' '] l := by
  induction l with
  | nil => rfl
  | cons x r ih =>
    cases r with
    | nil => rfl
    | cons y r =>
      unfold acJoin Joined
      rw [ih]
      simp

/-- **C114**: the parameters of a show command are never lost: all of them replace every `$@` in the device-specific command, or they are added after it. -/
theorem C114_show (template rest : List (List Char)) :
    ((∀ a ∈ template, ¬ HasArgs a) → acShow template rest = template ++ rest) ∧
    ((∃ a ∈ template, HasArgs a) → List.Forall₂ (fun a c => (¬ HasArgs a ∧ c = a) ∨
      ∃ parts, (∀ p ∈ parts, ¬ HasArgs p) ∧ 2 ≤ parts.length ∧ a = Joined ['$', '@'] parts ∧ c = Joined (Joined [' '] rest) parts) template (acShow template rest)) := by
  have hsplit : ∀ (n : Nat) (a : List Char), a.length ≤ n → HasArgs a → ∃ parts, (∀ p ∈ parts, ¬ HasArgs p) ∧ 2 ≤ parts.length ∧ a = Joined ['$', '@'] parts := by
    -- split at the first occurrence
    have first : ∀ a : List Char, HasArgs a → ∃ x y, a = x ++ '$' :: '@' :: y ∧ ¬ HasArgs x := by
      intro a
      induction a with
      | nil => rintro ⟨x, y, e⟩; simp at e
      | cons c r ih =>
        intro ha
        by_cases hc : c = '$' ∧ r.head? = some '@'
        · obtain ⟨rfl, hr⟩ := hc
          obtain ⟨y, rfl⟩ := List.head?_eq_some_iff.1 hr
          exact ⟨[], y, rfl, by rintro ⟨x, z, e⟩; simp at e⟩
        · have hr : HasArgs r := by
            obtain ⟨x, y, e⟩ := ha
            cases x with
            | nil =>
              simp only [List.nil_append, List.cons.injEq] at e
              exact absurd ⟨e.1, by rw [e.2]; rfl⟩ hc
            | cons d x =>
              simp only [List.cons_append, List.cons.injEq] at e
              exact ⟨x, y, e.2⟩
          obtain ⟨x, y, e, hx⟩ := ih hr
          refine ⟨c :: x, y, by rw [e]; rfl, ?_⟩
          rintro ⟨u, w, e2⟩
          cases u with
          | nil =>
            simp only [List.nil_append, List.cons.injEq] at e2
            refine hc ⟨e2.1, ?_⟩
            rw [e, e2.2]
            rfl
          | cons d u =>
            simp only [List.cons_append, List.cons.injEq] at e2
            exact hx ⟨u, w, e2.2⟩
    intro n
    induction n with
    | zero =>
      intro a hl ha
      have : a = [] := List.length_eq_zero_iff.1 (Nat.le_zero.1 hl)
      subst this
      obtain ⟨x, y, e⟩ := ha
      simp at e
    | succ n ih =>
      intro a hl ha
      obtain ⟨x, y, rfl, hx⟩ := first a ha
      by_cases hy : HasArgs y
      · obtain ⟨parts, h1, h2, h3⟩ := ih y (by simp at hl; omega) hy
        refine ⟨x :: parts, ?_, by simp; omega, ?_⟩
        · intro p hp
          rcases List.mem_cons.1 hp with rfl | hp
          · exact hx
          · exact h1 p hp
        · cases parts with
          | nil => simp at h2
          | cons p ps =>
            unfold Joined
            rw [← h3]
            simp
      · refine ⟨[x, y], ?_, by simp, by simp [Joined]⟩
        intro p hp
        simp only [List.mem_cons, List.not_mem_nil, or_false] at hp
        rcases hp with rfl | rfl
        · exact hx
        · exact hy
  have hany : template.any acHasArgs = true ↔ ∃ a ∈ template, HasArgs a := by
    rw [List.any_eq_true]
    simp only [acHasArgs_iff]
  constructor
  · intro h
    have hn : ¬ template.any acHasArgs = true := fun e => by
      obtain ⟨a, ha, hh⟩ := hany.1 e
      exact h a ha hh
    unfold acShow
    simp only
    rw [if_neg hn]
    congr 1
    conv => rhs; rw [← List.map_id template]
    apply List.map_congr_left
    intro a ha
    rw [if_neg (fun e => h a ha ((acHasArgs_iff a).1 e))]
    rfl
  · intro h
    unfold acShow
    simp only
    rw [if_pos (hany.2 h), List.forall₂_map_right_iff]
    refine List.forall₂_same.2 fun a _ => ?_
    by_cases ha : HasArgs a
    · rw [if_pos ((acHasArgs_iff a).2 ha)]
      obtain ⟨parts, h1, h2, h3⟩ := hsplit _ a (Nat.le_refl _) ha
      refine Or.inr ⟨parts, h1, h2, h3, ?_⟩
      rw [h3, C114_substitute _ _ h1, acJoin_eq]
    · rw [if_neg (fun e => ha ((acHasArgs_iff a).1 e))]
      exact Or.inl ⟨ha, rfl⟩

example : acShow ["vtysh".toList, "-c".toList, "show $@ json".toList] ["bgp".toList, "summary".toList] =
    ["vtysh".toList, "-c".toList, "show bgp summary json".toList] ∧ acShow ["sudo".toList] ["ip".toList, "route".toList] = ["sudo".toList, "ip".toList, "route".toList] := by
  decide +kernel

/-- **C114**: a command and a show command can't be used together; a command is executed as specified. -/
theorem C114_command (template args rest : List (List Char)) :
    (acCommand template args rest = none ↔ rest ≠ [] ∧ args ≠ []) ∧ (args = [] → acCommand template args rest = some rest) ∧
    (rest = [] → args ≠ [] → template = [] → acCommand template args rest = some ("show".toList :: args)) ∧
    (rest = [] → args ≠ [] → template ≠ [] → ∃ cmd, acCommand template args rest = some cmd ∧
      List.Forall₂ (fun a c => (' ' ∈ a ∧ c = '"' :: a ++ ['"']) ∨ (' ' ∉ a ∧ c = a)) (acShow template args) cmd) := by
  unfold acCommand
  refine ⟨?_, fun h => ?_, fun h1 h2 h3 => ?_, fun h1 h2 h3 => ?_⟩
  · by_cases h : rest ≠ [] ∧ args ≠ []
    · rw [if_pos h]; simp [h]
    · rw [if_neg h]
      simp only [h, iff_false]
      by_cases ha : args ≠ []
      · rw [if_pos ha]; simp
      · rw [if_neg ha]; simp
  · subst h; simp
  · subst h1; subst h3; simp [h2]
  · subst h1
    refine ⟨acQuote (acShow template args), by simp [h2, h3], ?_⟩
    unfold acQuote
    rw [List.forall₂_map_right_iff]
    refine List.forall₂_same.2 fun a _ => ?_
    by_cases h : ' ' ∈ a
    · rw [if_pos (by simpa using h)]; exact Or.inl ⟨h, rfl⟩
    · rw [if_neg (by simpa using h)]; exact Or.inr ⟨h, rfl⟩

/-- **C114**: an SSH session is started with the user name and host name just before the command; the password (if any) is passed to `sshpass`, and the private key and
port are used. -/
theorem C114_ssh (s : AcSsh) (rest : List String) :
    (∃ opts, acSshArgs s rest = opts ++ [(s.user.map (· ++ "@")).getD "" ++ s.host] ++ rest ∧
      (∀ p, s.pass = some p → ["sshpass", "-p", p, "ssh"] <+: opts) ∧ (s.pass = none → ["ssh"] <+: opts) ∧
      (∀ p, s.port = some p → ["-p", p] <:+ opts) ∧ (∀ k, s.key = some k → ["-i", k] <:+: opts) ∧ s.extra <:+: opts) := by
  obtain ⟨host, user, pass, key, port, extra⟩ := s
  refine ⟨(match pass with | some p => ["sshpass", "-p", p] | none => []) ++
    ["ssh", "-o", "UserKnownHostsFile=/dev/null", "-o", "StrictHostKeyChecking=no", "-o", "LogLevel=ERROR"] ++ extra ++
    (match key with | some k => ["-i", k] | none => []) ++ (match port with | some p => ["-p", p] | none => []), ?_, ?_, ?_, ?_, ?_, ?_⟩
  · unfold acSshArgs
    cases user <;> cases pass <;> cases key <;> cases port <;> simp
  · rintro p h; cases h; simp
  · rintro h; cases h; simp
  · rintro p h; cases h; exact List.suffix_append _ _
  · rintro k h; cases h
    exact ⟨_, _, rfl⟩
  · exact ⟨(match pass with | some p => ["sshpass", "-p", p] | none => []) ++ ["ssh", "-o", "UserKnownHostsFile=/dev/null", "-o", "StrictHostKeyChecking=no", "-o", "LogLevel=ERROR"],
      (match key with | some k => ["-i", k] | none => []) ++ (match port with | some p => ["-p", p] | none => []), by simp⟩

example : acSshArgs ⟨"r1", some "admin", some "pw", none, some "2203", []⟩ ["show", "version"] =
    ["sshpass", "-p", "pw", "ssh", "-o", "UserKnownHostsFile=/dev/null", "-o", "StrictHostKeyChecking=no", "-o", "LogLevel=ERROR", "-p", "2203", "admin@r1", "show", "version"] := by
  decide +kernel

/-- **C114**: a command is executed in a container with the shell of the device or with bash; bash is an interactive login shell when there is no command. -/
theorem C114_docker (host : String) (shell : Option (List String)) (rest : Option String) :
    (∀ s r, shell = some s → rest = some r → acDockerArgs host shell rest = "docker" :: "exec" :: "-it" :: host :: s ++ ["-c", r]) ∧
    (∀ s, shell = some s → rest = none → acDockerArgs host shell rest = "docker" :: "exec" :: "-it" :: host :: s) ∧
    (∀ r, shell = none → rest = some r → acDockerArgs host shell rest = ["docker", "exec", "-it", host, "bash", "-c", r]) ∧
    (shell = none → rest = none → acDockerArgs host shell rest = ["docker", "exec", "-it", host, "bash", "-il"]) := by
  refine ⟨?_, ?_, ?_, ?_⟩
  · rintro s r rfl rfl; rfl
  · rintro s rfl rfl; simp [acDockerArgs]
  · rintro r rfl rfl; rfl
  · rintro rfl rfl; rfl

/-- **C114**: the console connection method is preferred; SSH is used when there is none, and unknown methods are fatal errors. -/
theorem C114_method (console conn : String) :
    (console = "" → acMethod console conn = acMethod conn "") ∧ (console ≠ "" → acMethod console conn = acMethod console "") ∧
    (acMethod console "" = .docker ↔ console = "docker") ∧
    (acMethod console "" = .ssh ↔ console ∈ ["", "paramiko", "ssh", "network_cli", "netconf", "httpapi"]) := by
  refine ⟨?_, ?_, ?_, ?_⟩
  · rintro rfl
    unfold acMethod
    by_cases h : conn = ""
    · subst h; rfl
    · simp [h]
  · intro h
    unfold acMethod
    simp [h]
  · unfold acMethod
    by_cases h : console = ""
    · subst h; decide
    · simp only [ne_eq, h, not_false_eq_true, if_true]
      by_cases hd : console = "docker"
      · simp [hd]
      · simp only [hd, if_false, iff_false]
        split <;> simp
  · unfold acMethod
    by_cases h : console = ""
    · subst h; decide
    · simp only [ne_eq, h, not_false_eq_true, if_true]
      by_cases hd : console = "docker"
      · subst hd; decide
      · simp only [hd, if_false, or_false, List.mem_cons, List.not_mem_nil, h, false_or]
        split <;> simp_all

/-- **C114** (defect): `netlab connect` to a tool with more than one command executes only the last one; a tool with an empty list of commands is a crash. -/
theorem C114_tool_last (cmds : List (List Char)) (c : List Char) (rest : List (List Char)) :
    acTool (cmds ++ [c]) rest = some ["bash".toList, "-c".toList, c ++ (if rest = [] ∨ rest = [[]] then [] else ' ' :: acJoin rest)] ∧ acTool [] rest = none := by
  refine ⟨?_, rfl⟩
  unfold acTool
  simp only [List.getLast?_append, List.getLast?_singleton, Option.some_or, Option.map_some, Option.some.injEq, List.cons.injEq, true_and, and_true,
    List.append_cancel_left_eq]
  by_cases h : rest = [] ∨ rest = [[]]
  · rw [if_pos h]
    rcases h with rfl | rfl <;> rfl
  · rw [if_neg h, if_pos]
    rcases rest with _ | ⟨x, _ | ⟨y, r⟩⟩
    · exact absurd (Or.inl rfl) h
    · intro e
      exact h (Or.inr (by unfold acJoin at e; rw [e]))
    · unfold acJoin
      simp

/-! ### Commands executed on the host -/

/-- **C114**: a command is started unless netlab is debugging the CLI, unless it's a dry run (and the command does not have to be executed), and unless it's empty; what is
not started is successful. -/
theorem C114_run_started (run : List String → Option (Int × String)) (f : AcFlags) (cmd : List String) :
    ((acRun run f cmd).2 = some cmd ↔ f.debug = false ∧ (f.dry = true → f.always = true) ∧ cmd ≠ []) ∧
    ((acRun run f cmd).2 ≠ some cmd → acRun run f cmd = (.bool true, none)) := by
  unfold acRun
  by_cases h1 : f.debug = true
  · simp [h1]
  · rw [if_neg h1]
    by_cases h2 : f.dry = true ∧ ¬ f.always = true
    · rw [if_pos h2]; simp [h2.1, h2.2]
    · rw [if_neg h2]
      have h2' : f.dry = true → f.always = true := fun a => Classical.not_not.1 (fun b => h2 ⟨a, b⟩)
      by_cases h3 : cmd = []
      · rw [if_pos h3]; simp [h3]
      · rw [if_neg h3]
        refine ⟨⟨fun _ => ⟨by simpa using h1, h2', h3⟩, fun _ => rfl⟩, fun h => absurd rfl h⟩

/-- **C114**: results of a command that was started: without other options the result is true exactly when the command was successful; when the results have to be checked
it must also have produced some output. -/
theorem C114_run_result (run : List String → Option (Int × String)) (f : AcFlags) (cmd : List String) (hs : (acRun run f cmd).2 = some cmd) :
    (∀ code out, f.exitcode = true → run cmd = some (code, out) → (acRun run f cmd).1 = .int code) ∧
    (∀ out, f.exitcode = false → f.check = true → f.stdout = true → run cmd = some (0, out) → (acRun run f cmd).1 = .text out) ∧
    (f.exitcode = false → f.check = false → ∃ b, (acRun run f cmd).1 = .bool b) ∧
    (f.exitcode = false → ((acRun run f cmd).1.isTrue = true ↔ ∃ out, run cmd = some (0, out) ∧ (f.check = true → out ≠ ""))) := by
  obtain ⟨h1, h2, h3⟩ := (C114_run_started run f cmd).1.1 hs
  have he : (acRun run f cmd).1 = acResult f (run cmd) := by
    unfold acRun
    rw [if_neg (by simp [h1]), if_neg (fun h => h.2 (h2 h.1)), if_neg h3]
  rw [he]
  unfold acResult
  cases hr : run cmd with
  | none => simp [AcRes.isTrue]
  | some x =>
    obtain ⟨code, out⟩ := x
    simp only [Option.some.injEq, Prod.mk.injEq]
    by_cases hx : f.exitcode = true
    · simp [hx]
    · have hx' : f.exitcode = false := by simpa using hx
      simp only [hx', Bool.false_eq_true, if_false]
      by_cases hc : code = 0
      · subst hc
        simp only [ne_eq, not_true_eq_false, if_false]
        cases hk : f.check <;> cases ht : f.stdout <;> simp [AcRes.isTrue]
      · simp [hc, AcRes.isTrue]

example : acRun (fun c => if c = ["ls"] then some (0, "x") else if c = ["false"] then some (1, "") else none) {} ["ls"] = (.bool true, some ["ls"]) ∧
    acRun (fun c => if c = ["false"] then some (1, "") else none) {} ["false"] = (.bool false, some ["false"]) ∧
    acRun (fun _ => none) { dry := true } ["ls"] = (.bool true, none) := by decide +kernel

/-- **C114** (defect): in a dry run, `netlab up --validate` reports that the validation failed, because the result of a command that's not executed (`True`) is
equal to exit code 1. -/
theorem C114_dry_validate (run : List String → Option (Int × String)) (f : AcFlags) (cmd : List String) (h : f.dry = true) (h2 : f.always = false) :
    acUpValidate (acRun run f cmd).1 = .failed := by
  have : (acRun run f cmd).1 = .bool true := by
    unfold acRun
    by_cases hd : f.debug = true
    · rw [if_pos hd]
    · rw [if_neg hd, if_pos ⟨h, by simp [h2]⟩]
  rw [this]
  rfl

/-- **C114** (defect): a validation command that cannot be started is not reported: the result (`False`) is equal to exit code 0. -/
theorem C114_missing_validate (run : List String → Option (Int × String)) (cmd : List String) (h : cmd ≠ []) (hr : run cmd = none) :
    acUpValidate (acRun run { exitcode := true } cmd).1 = .nothing := by
  unfold acRun acResult
  simp only [Bool.false_eq_true, if_false, false_and, h, hr]
  decide

/-- **C114**: outside of dry runs, `netlab up --validate` reports failures and warnings of the validation. -/
theorem C114_up_validate (run : List String → Option (Int × String)) (cmd : List String) (code : Int) (out : String) (h : cmd ≠ []) (hr : run cmd = some (code, out)) :
    acUpValidate (acRun run { exitcode := true } cmd).1 = if code = 1 then .failed else if code = 3 then .warning else .nothing := by
  have : (acRun run { exitcode := true } cmd).1 = .int code := by
    unfold acRun acResult
    simp [h, hr]
  rw [this]
  unfold acUpValidate AcRes.eqInt
  simp

mutual
theorem acProbe_ok (ok : List String → Bool) (quiet : Bool) : ∀ p : AcProbe, acProbe ok quiet p = .ok ↔ ∀ c, ProbeCommand p c → ok c = true
  | .cmd c => by
    unfold acProbe
    constructor
    · intro h d hd
      cases hd
      split at h
      · assumption
      · cases h
    · intro h
      rw [if_pos (h c (.cmd c))]
  | .box c => by
    unfold acProbe
    constructor
    · intro h d hd
      cases hd
      split at h
      · assumption
      · split at h <;> cases h
    · intro h
      rw [if_pos (h c (.box c))]
  | .list l => by
    unfold acProbe
    rw [acProbes_ok ok quiet l]
    constructor
    · intro h d hd
      cases hd with
      | list _ p _ hp hc => exact h p hp d hc
    · intro h p hp c hc
      exact h c (.list l p c hp hc)

theorem acProbes_ok (ok : List String → Bool) (quiet : Bool) : ∀ l : List AcProbe, acProbes ok quiet l = .ok ↔ ∀ p ∈ l, ∀ c, ProbeCommand p c → ok c = true
  | [] => by simp [acProbes]
  | p :: r => by
    unfold acProbes
    have h1 := acProbe_ok ok quiet p
    have h2 := acProbes_ok ok quiet r
    simp only [List.mem_cons, forall_eq_or_imp]
    rw [← h1, ← h2]
    cases acProbe ok quiet p <;> simp
end

/-- **C114**: a probe is successful exactly when all its commands are successful, whether or not errors are reported; quiet probes are never fatal. -/
theorem C114_probe (ok : List String → Bool) (p : AcProbe) (quiet : Bool) : acProbe ok quiet p = .ok ↔ ∀ c, ProbeCommand p c → ok c = true :=
  acProbe_ok ok quiet p

mutual
theorem acProbe_quiet (ok : List String → Bool) : ∀ p : AcProbe, acProbe ok true p ≠ .fatal
  | .cmd c => by unfold acProbe; split <;> simp
  | .box c => by unfold acProbe; split <;> simp
  | .list l => by unfold acProbe; exact acProbes_quiet ok l

theorem acProbes_quiet (ok : List String → Bool) : ∀ l : List AcProbe, acProbes ok true l ≠ .fatal
  | [] => by simp [acProbes]
  | p :: r => by
    unfold acProbes
    have h1 := acProbe_quiet ok p
    have h2 := acProbes_quiet ok r
    cases hp : acProbe ok true p <;> simp_all
end

/-- **C114**: a quiet probe is never a fatal error. -/
theorem C114_probe_quiet (ok : List String → Bool) (p : AcProbe) : acProbe ok true p ≠ .fatal := acProbe_quiet ok p

open Classical in
theorem acStatusFrom_spec (ok : List String → Bool) : ∀ (l : List AcProbe) (n : Nat), acStatusFrom ok n l =
    if (∀ p ∈ l, ∀ c, ProbeCommand p c → ok c = true) then "OK" else if n = 0 ∧ ∃ p r, l = p :: r ∧ ¬ (∀ c, ProbeCommand p c → ok c = true) then "N/A" else "FAIL"
  | [], n => by simp [acStatusFrom]
  | p :: r, n => by
    unfold acStatusFrom
    by_cases h : acProbe ok true p = .ok
    · rw [if_pos h, acStatusFrom_spec ok r]
      have h' := (C114_probe ok p true).1 h
      simp only [List.mem_cons, forall_eq_or_imp, Nat.add_eq_zero_iff, Nat.one_ne_zero, and_false, false_and, if_false]
      by_cases hr : ∀ p ∈ r, ∀ c, ProbeCommand p c → ok c = true
      · rw [if_pos hr, if_pos ⟨h', hr⟩]
      · rw [if_neg hr, if_neg (fun e => hr e.2), if_neg]
        rintro ⟨_, q, t, e, hq⟩
        cases e
        exact hq h'
    · rw [if_neg h]
      have h' : ¬ ∀ c, ProbeCommand p c → ok c = true := fun e => h ((C114_probe ok p true).2 e)
      have hall : ¬ ∀ q ∈ p :: r, ∀ c, ProbeCommand q c → ok c = true := fun e => h' (e p List.mem_cons_self)
      by_cases hn : n = 0
      · rw [if_neg (show ¬ (n ≠ 0) from fun e => e hn), if_neg hall, if_pos ⟨hn, p, r, rfl, h'⟩]
      · rw [if_pos hn, if_neg hall, if_neg (fun e => hn e.1)]

/-- **C114**: a provider works when all its probes are successful, it's not available when the first probe fails, and it's failing when another probe fails. -/
theorem C114_provider_status (ok : List String → Bool) (probes : List AcProbe) :
    (acStatus ok probes = "OK" ↔ ∀ p ∈ probes, ∀ c, ProbeCommand p c → ok c = true) ∧
    (acStatus ok probes = "N/A" ↔ ∃ p r, probes = p :: r ∧ ∃ c, ProbeCommand p c ∧ ok c = false) ∧
    (acStatus ok probes = "OK" ∨ acStatus ok probes = "N/A" ∨ acStatus ok probes = "FAIL") := by
  unfold acStatus
  rw [acStatusFrom_spec]
  have hneg : ∀ p : AcProbe, (¬ ∀ c, ProbeCommand p c → ok c = true) ↔ ∃ c, ProbeCommand p c ∧ ok c = false := by
    intro p
    simp
  have hiff : (0 = 0 ∧ ∃ p r, probes = p :: r ∧ ¬ ∀ c, ProbeCommand p c → ok c = true) ↔ ∃ p r, probes = p :: r ∧ ∃ c, ProbeCommand p c ∧ ok c = false := by
    constructor
    · rintro ⟨_, p, r, e, h⟩; exact ⟨p, r, e, (hneg p).1 h⟩
    · rintro ⟨p, r, e, h⟩; exact ⟨rfl, p, r, e, (hneg p).2 h⟩
  by_cases h : ∀ p ∈ probes, ∀ c, ProbeCommand p c → ok c = true
  · rw [if_pos h]
    refine ⟨⟨fun _ => h, fun _ => rfl⟩, ?_, Or.inl rfl⟩
    constructor
    · intro e; exact absurd e (by decide)
    · rintro ⟨p, r, rfl, c, hc, hf⟩
      rw [h p List.mem_cons_self c hc] at hf
      cases hf
  · rw [if_neg h]
    by_cases h2 : ∃ p r, probes = p :: r ∧ ∃ c, ProbeCommand p c ∧ ok c = false
    · rw [if_pos (hiff.2 h2)]
      refine ⟨?_, ⟨fun _ => h2, fun _ => rfl⟩, Or.inr (Or.inl rfl)⟩
      constructor
      · intro e; exact absurd e (by decide)
      · intro e; exact absurd e h
    · rw [if_neg (fun e => h2 (hiff.1 e))]
      refine ⟨?_, ?_, Or.inr (Or.inr rfl)⟩
      · constructor
        · intro e; exact absurd e (by decide)
        · intro e; exact absurd e h
      · constructor
        · intro e; exact absurd e (by decide)
        · intro e; exact absurd e h2

example : acStatus (fun c => c = ["kvm-ok"]) [.cmd ["kvm-ok"], .box ["virsh"]] = "FAIL" ∧ acStatus (fun _ => false) [.list [.cmd ["docker"]]] = "N/A" ∧
    acStatus (fun _ => true) [.list [.cmd ["docker"]]] = "OK" := by
  simp [acStatus, acStatusFrom, acProbe, acProbes]

end Netlab
