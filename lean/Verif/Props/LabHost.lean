import Verif.Spec.LabHost
import Verif.Lemmas.Box
import Verif.Props.RoutingObjects
import Verif.Lemmas.Util
import Mathlib.Tactic.Tauto
import Mathlib.Tactic.ByContra
/-!
# C130: resources of the lab host
-/

namespace Netlab
open Spec

/-! ### Bridges -/

theorem lookup_append_new {β : Type} (h : List (String × β)) (n b : String) (v : β) (hn : h.lookup n = none) :
    (h ++ [(n, v)]).lookup b = if b = n then some v else h.lookup b := by
  induction h with
  | nil =>
    by_cases hb : b = n
    · subst hb; simp [List.lookup]
    · rw [if_neg hb, List.nil_append, lookup_cons_ne _ _ hb]
  | cons x r ih =>
    obtain ⟨k, w⟩ := x
    by_cases hk : n = k
    · subst hk; simp [List.lookup] at hn
    · rw [lookup_cons_ne _ _ hk] at hn
      rw [List.cons_append]
      by_cases hb : b = k
      · subst hb
        rw [lookup_cons_self, lookup_cons_self, if_neg (fun e => hk e.symm)]
      · rw [lookup_cons_ne _ _ hb, lookup_cons_ne _ _ hb, ih hn]

/-- **C130 (needed bridges).** -/
theorem C130_bridge_list (links : List HLink) :
    (listBridges links).Nodup ∧ ∀ b, b ∈ listBridges links ↔ LabBridge links b := by
  unfold listBridges
  refine ⟨nodup_eraseDups _, fun b => ?_⟩
  rw [List.mem_eraseDups, List.mem_filterMap]
  unfold LabBridge
  constructor
  · rintro ⟨l, hl, h⟩
    cases hb : l.bridge with
    | none => rw [hb] at h; cases h
    | some c =>
      rw [hb] at h
      simp only at h
      split at h
      · rename_i hc
        cases h
        exact ⟨hc.1, l, hl, hb, hc.2.1, hc.2.2⟩
      · cases h
  · rintro ⟨hne, l, hl, hb, h1, h2⟩
    refine ⟨l, hl, ?_⟩
    rw [hb]
    simp only
    rw [if_pos ⟨hne, h1, h2⟩]

/-- Object of a command -/
def BrCmd.name : BrCmd → String
  | .add n => n
  | .enable n => n
  | .forward n => n
  | .del n => n

theorem brExec_other {fail : BrCmd → Bool} {h h' : BrHost} {c : BrCmd} (he : brExec fail h c = some h')
    {b : String} (hb : b ≠ c.name) : h'.lookup b = h.lookup b := by
  unfold brExec at he
  split at he
  · cases he
  · cases c with
    | add n =>
      simp only at he
      split at he
      · cases he
      · rename_i hn
        cases he
        rw [lookup_append_new _ _ _ _ (by cases hx : h.lookup n <;> simp_all)]
        exact if_neg hb
    | enable n =>
      obtain ⟨s, _, rfl⟩ := Option.map_eq_some_iff.1 he
      rw [lookup_setKey]
      exact if_neg hb
    | forward n =>
      obtain ⟨s, _, rfl⟩ := Option.map_eq_some_iff.1 he
      rw [lookup_setKey]
      exact if_neg hb
    | del n =>
      simp only at he
      split at he
      · cases he
        rw [lookup_popKey]
        exact if_neg hb
      · cases he

theorem brSeq_other {fail : BrCmd → Bool} {n : String} (cs : List BrCmd) (hc : ∀ c ∈ cs, c.name = n)
    (h s : BrHost) (hs : s ∈ brSeq fail h cs) {b : String} (hb : b ≠ n) : s.lookup b = h.lookup b := by
  induction cs generalizing h with
  | nil =>
    rw [brSeq, List.mem_singleton] at hs
    rw [hs]
  | cons c cs ih =>
    unfold brSeq at hs
    cases he : brExec fail h c with
    | none =>
      rw [he] at hs
      simp only [List.mem_singleton] at hs
      rw [hs]
    | some h' =>
      rw [he] at hs
      simp only [List.mem_cons] at hs
      rcases hs with rfl | hs
      · rfl
      · rw [ih (fun c hm => hc c (List.mem_cons_of_mem _ hm)) h' hs,
          brExec_other he (by rw [hc c (List.mem_cons_self ..)]; exact hb)]

theorem brSeq_ne_nil (fail : BrCmd → Bool) (h : BrHost) (cs : List BrCmd) : brSeq fail h cs ≠ [] := by
  cases cs with
  | nil => simp [brSeq]
  | cons c cs => unfold brSeq; split <;> simp

/-- One bridge operation: there is a final state, and other bridges do not change -/
def BrOp (f : BrHost → String → List BrHost) : Prop :=
  ∀ h n, f h n ≠ [] ∧ ∀ s ∈ f h n, ∀ b, b ≠ n → s.lookup b = h.lookup b

theorem createLinux_op (fail : BrCmd → Bool) : BrOp (createLinuxBridge fail) := by
  intro h n
  unfold createLinuxBridge
  split
  · refine ⟨by simp, fun s hs b _ => ?_⟩
    rw [List.mem_singleton.1 hs]
  · exact ⟨brSeq_ne_nil _ _ _, fun s hs b hb => brSeq_other _ (by simp [BrCmd.name]) h s hs hb⟩

theorem createOvs_op (fail : BrCmd → Bool) : BrOp (createOvsBridge fail) :=
  fun h n => ⟨brSeq_ne_nil _ _ _, fun s hs _ hb => brSeq_other _ (by simp [BrCmd.name]) h s hs hb⟩

theorem destroy_op (fail : BrCmd → Bool) : BrOp (destroyBridge fail) :=
  fun h n => ⟨brSeq_ne_nil _ _ _, fun s hs _ hb => brSeq_other _ (by simp [BrCmd.name]) h s hs hb⟩

theorem create_op (ovs : Bool) (fail : BrCmd → Bool) :
    BrOp (if ovs then createOvsBridge fail else createLinuxBridge fail) := by
  cases ovs
  · exact createLinux_op fail
  · exact createOvs_op fail

theorem getLastD_mem {α : Type} {l : List α} {d : α} (h : l ≠ []) : l.getLastD d ∈ l := by
  rw [List.getLastD_eq_getLast?, List.getLast?_eq_some_getLast h]
  exact List.getLast_mem h

theorem brLoop_ne_nil (f : BrHost → String → List BrHost) (h : BrHost) (l : List String) :
    brLoop f h l ≠ [] := by
  induction l generalizing h with
  | nil => simp [brLoop]
  | cons n ns ih => simp [brLoop, ih]

theorem brLoop_last (f : BrHost → String → List BrHost) (h : BrHost) (n : String) (ns : List String) :
    (brLoop f h (n :: ns)).getLastD h = (brLoop f ((f h n).getLastD h) ns).getLastD ((f h n).getLastD h) := by
  show (f h n ++ brLoop f ((f h n).getLastD h) ns).getLastD h = _
  generalize (f h n).getLastD h = x
  have hne := brLoop_ne_nil f x ns
  rw [List.getLastD_eq_getLast?, List.getLastD_eq_getLast?, List.getLast?_append,
    List.getLast?_eq_some_getLast hne]
  simp

theorem brLoop_other {f : BrHost → String → List BrHost} (hf : BrOp f) (l : List String) (h s : BrHost)
    (hs : s ∈ brLoop f h l) {b : String} (hb : b ∉ l) : s.lookup b = h.lookup b := by
  induction l generalizing h with
  | nil => rw [brLoop, List.mem_singleton] at hs; rw [hs]
  | cons n ns ih =>
    rw [List.mem_cons, not_or] at hb
    unfold brLoop at hs
    rcases List.mem_append.1 hs with hs | hs
    · exact (hf h n).2 s hs b hb.1
    · rw [ih _ hs hb.2]
      exact (hf h n).2 _ (getLastD_mem (hf h n).1) b hb.1

/-- **C130 (only the bridges of the lab).**  At any moment during the start or the stop of a lab --
and therefore also when the command is interrupted -- and whatever commands fail, all bridges of
the host other than the bridges of the lab (external bridges, bridges of other labs) are
in the same state as before. -/
theorem C130_other_bridges (ovs : Bool) (fail : BrCmd → Bool) (links : List HLink) (brs : List String)
    (hbrs : ∀ b, b ∈ brs ↔ LabBridge links b) (h s : BrHost)
    (hs : s ∈ clabPreStart ovs fail h brs ∨ s ∈ clabPostStop fail h brs) (b : String)
    (hb : ¬ LabBridge links b) : s.lookup b = h.lookup b := by
  rw [← hbrs] at hb
  rcases hs with hs | hs
  · exact brLoop_other (create_op ovs fail) brs h s hs hb
  · exact brLoop_other (destroy_op fail) brs h s hs hb

theorem createLinux_last (fail : BrCmd → Bool) (h : BrHost) (n : String)
    (hf : ∀ c : BrCmd, c.name = n → fail c = false) :
    ((createLinuxBridge fail h n).getLastD h).lookup n = some ((h.lookup n).getD ⟨true, true⟩) := by
  unfold createLinuxBridge
  cases hn : h.lookup n with
  | some s => simp [hn]
  | none =>
    have h1 : brExec fail h (.add n) = some (h ++ [(n, ⟨false, false⟩)]) := by
      simp [brExec, hf (.add n) rfl, hn]
    have l1 : (h ++ [(n, (⟨false, false⟩ : BrState))]).lookup n = some ⟨false, false⟩ := by
      rw [lookup_append_new _ _ _ _ hn, if_pos rfl]
    have h2 : brExec fail (h ++ [(n, ⟨false, false⟩)]) (.enable n) =
        some (setKey (h ++ [(n, ⟨false, false⟩)]) n ⟨true, false⟩) := by
      simp [brExec, hf (.enable n) rfl, l1]
    have l2 : (setKey (h ++ [(n, (⟨false, false⟩ : BrState))]) n ⟨true, false⟩).lookup n = some ⟨true, false⟩ := by
      rw [lookup_setKey, if_pos rfl]
    have h3 : brExec fail (setKey (h ++ [(n, ⟨false, false⟩)]) n ⟨true, false⟩) (.forward n) =
        some (setKey (setKey (h ++ [(n, ⟨false, false⟩)]) n ⟨true, false⟩) n ⟨true, true⟩) := by
      simp [brExec, hf (.forward n) rfl, l2]
    simp [brSeq, h1, h2, h3, lookup_setKey]

theorem createOvs_last (fail : BrCmd → Bool) (h : BrHost) (n : String)
    (hf : ∀ c : BrCmd, c.name = n → fail c = false) :
    ((createOvsBridge fail h n).getLastD h).lookup n = some ((h.lookup n).getD ⟨false, false⟩) := by
  unfold createOvsBridge
  cases hn : h.lookup n with
  | some s => simp [brSeq, brExec, hf (.add n) rfl, hn]
  | none => simp [brSeq, brExec, hf (.add n) rfl, hn, lookup_append_new _ _ _ _ hn]

theorem destroy_last (fail : BrCmd → Bool) (h : BrHost) (n : String) (hf : fail (.del n) = false) :
    ((destroyBridge fail h n).getLastD h).lookup n = none := by
  unfold destroyBridge
  cases hn : h.lookup n with
  | some s => simp [brSeq, brExec, hf, hn, lookup_popKey]
  | none => simp [brSeq, brExec, hf, hn]

theorem brLoop_result {f : BrHost → String → List BrHost} (hf : BrOp f)
    (g : Option BrState → Option BrState) (hg : ∀ x, g (g x) = g x) (l : List String)
    (hl : ∀ h, ∀ n ∈ l, ((f h n).getLastD h).lookup n = g (h.lookup n)) (h : BrHost) (b : String) :
    ((brLoop f h l).getLastD h).lookup b = if b ∈ l then g (h.lookup b) else h.lookup b := by
  induction l generalizing h with
  | nil => simp [brLoop]
  | cons n ns ih =>
    rw [brLoop_last, ih (fun h n hn => hl h n (List.mem_cons_of_mem _ hn))]
    by_cases hbn : b = n
    · subst hbn
      rw [hl h b (List.mem_cons_self ..), if_pos (List.mem_cons_self ..), hg]
      split <;> rfl
    · rw [(hf h n).2 _ (getLastD_mem (hf h n).1) b hbn]
      by_cases hm : b ∈ ns
      · rw [if_pos hm, if_pos (List.mem_cons_of_mem _ hm)]
      · rw [if_neg hm, if_neg (by simp [hbn, hm])]

/-- **C130 (start).**  When no command fails, all bridges of the lab exist after the start of the lab;
a bridge that already existed is used as it is, and a new Linux bridge is enabled and
forwards LLDP.  The order in which bridges are created does not matter. -/
theorem C130_start (ovs : Bool) (fail : BrCmd → Bool) (links : List HLink) (brs : List String)
    (hbrs : ∀ b, b ∈ brs ↔ LabBridge links b) (hok : ∀ c : BrCmd, LabBridge links c.name → fail c = false)
    (h : BrHost) (b : String) (hb : LabBridge links b) :
    ((clabPreStart ovs fail h brs).getLastD h).lookup b =
      some ((h.lookup b).getD (if ovs then ⟨false, false⟩ else ⟨true, true⟩)) := by
  have hm := (hbrs b).2 hb
  have hok' : ∀ n ∈ brs, ∀ c : BrCmd, c.name = n → fail c = false := by
    rintro n hn c rfl
    exact hok c ((hbrs _).1 hn)
  unfold clabPreStart
  cases ovs with
  | false =>
    rw [brLoop_result (create_op false fail) (fun x => some (x.getD ⟨true, true⟩)) (fun _ => rfl) brs
      (fun h n hn => createLinux_last fail h n (hok' n hn)), if_pos hm]
    rfl
  | true =>
    rw [brLoop_result (create_op true fail) (fun x => some (x.getD ⟨false, false⟩)) (fun _ => rfl) brs
      (fun h n hn => createOvs_last fail h n (hok' n hn)), if_pos hm]
    rfl

/-- **C130 (stop).**  When no delete command fails for other reasons than a missing bridge, the
host has no bridges of the lab after the lab is stopped. -/
theorem C130_stop (fail : BrCmd → Bool) (links : List HLink) (brs : List String)
    (hbrs : ∀ b, b ∈ brs ↔ LabBridge links b) (hok : ∀ b, LabBridge links b → fail (.del b) = false)
    (h : BrHost) (b : String) (hb : LabBridge links b) :
    ((clabPostStop fail h brs).getLastD h).lookup b = none := by
  unfold clabPostStop
  rw [brLoop_result (destroy_op fail) (fun _ => none) (fun _ => rfl) brs
    (fun h n hn => destroy_last fail h n (hok n ((hbrs _).1 hn))), if_pos ((hbrs b).2 hb)]

/-- **C130 (nothing is left behind).**  When the host had no bridges with the names used by the lab,
stopping the lab restores the original bridges of the host, no matter at which point the start
of the lab was interrupted, which commands failed during the start, and in which order
bridges were created and deleted. -/
theorem C130_start_stop (ovs : Bool) (fail fail' : BrCmd → Bool) (links : List HLink)
    (brs brs' : List String) (hbrs : ∀ b, b ∈ brs ↔ LabBridge links b)
    (hbrs' : ∀ b, b ∈ brs' ↔ LabBridge links b) (hok : ∀ b, LabBridge links b → fail' (.del b) = false)
    (h s : BrHost) (hs : s ∈ clabPreStart ovs fail h brs)
    (hnew : ∀ b, LabBridge links b → h.lookup b = none) :
    SameBridges ((clabPostStop fail' s brs').getLastD s) h := by
  intro b
  by_cases hb : LabBridge links b
  · rw [C130_stop fail' links brs' hbrs' hok s b hb, hnew b hb]
  · rw [C130_other_bridges ovs fail' links brs' hbrs' s _
      (.inr (getLastD_mem (brLoop_ne_nil _ _ _))) b hb]
    exact C130_other_bridges ovs fail links brs hbrs h s (.inl hs) b hb

/-- **C130 (bridges are not counted).**  A bridge that was on the host before the lab was started --
created by the user, or used by another lab -- is used by the lab, and removed when the lab is
stopped. -/
theorem C130_existing_bridge_removed :
    let links := [⟨some "br0", 3, false⟩]
    let h : BrHost := [("br0", ⟨true, false⟩)]
    let started := (clabPreStart false (fun _ => false) h (listBridges links)).getLastD h
    started = h ∧ (clabPostStop (fun _ => false) started (listBridges links)).getLastD started = [] := by
  decide

/-! ### Kernel modules -/

/-- `k` is in the list of netlab module `m` -/
def KmHas (d : List (String × List String)) (m k : String) : Prop := ∃ ks, d.lookup m = some ks ∧ k ∈ ks

theorem kmAppend_has (d : List (String × List String)) (m k m' k' : String) :
    KmHas (kmAppend d m k) m' k' ↔ KmHas d m' k' ∨ (m' = m ∧ k' = k) := by
  unfold KmHas kmAppend
  simp only [lookup_setKey]
  by_cases hm : m' = m
  · subst hm
    simp only [if_true, Option.some.injEq, exists_eq_left', true_and]
    cases hd : d.lookup m' with
    | none => simp
    | some l =>
      simp only [Option.getD_some, Option.some.injEq, exists_eq_left']
      by_cases hc : l.contains k = true
      · rw [if_pos hc]
        refine ⟨.inl, fun h => h.elim id ?_⟩
        rintro rfl
        simpa using hc
      · rw [if_neg hc, List.mem_append, List.mem_singleton]
  · simp [hm]

theorem kmAppend_keys (d : List (String × List String)) (m k : String) (h : (d.map (·.1)).Nodup) :
    ((kmAppend d m k).map (·.1)).Nodup := by
  unfold kmAppend
  exact nodup_setKey h _ _

theorem kmFold_has (ks : List String) (m : String) (d : List (String × List String)) (m' k' : String) :
    KmHas (ks.foldl (fun d k => kmAppend d m k) d) m' k' ↔ KmHas d m' k' ∨ (m' = m ∧ k' ∈ ks) := by
  induction ks generalizing d with
  | nil => simp
  | cons k ks ih =>
    rw [List.foldl_cons, ih, kmAppend_has, List.mem_cons]
    tauto

theorem kmFold_keys (ks : List String) (m : String) (d : List (String × List String))
    (h : (d.map (·.1)).Nodup) : ((ks.foldl (fun d k => kmAppend d m k) d).map (·.1)).Nodup := by
  induction ks generalizing d with
  | nil => exact h
  | cons k ks ih => exact ih _ (kmAppend_keys _ _ _ h)

/-- The needs of a node -/
def KmWants (sys : List (String × List String)) (n : KmNode) (m k : String) : Prop :=
  n.provider = "clab" ∧ ∃ dev, n.kmods = some dev ∧ (m = "initial" ∨ m ∈ n.modules) ∧
    ∃ ks, (dev.lookup m).or (sys.lookup m) = some ks ∧ k ∈ ks

theorem kmMods_has (sys dev : List (String × List String)) (ms : List String)
    (d : List (String × List String)) (m' k' : String) :
    KmHas (ms.foldl (kmMod sys dev) d) m' k' ↔
      KmHas d m' k' ∨ (m' ∈ ms ∧ ∃ ks, (dev.lookup m').or (sys.lookup m') = some ks ∧ k' ∈ ks) := by
  induction ms generalizing d with
  | nil => simp
  | cons m ms ih =>
    rw [List.foldl_cons, ih]
    unfold kmMod
    cases hk : (dev.lookup m).or (sys.lookup m) with
    | none =>
      simp only [List.mem_cons]
      constructor
      · rintro (h | ⟨h, h'⟩)
        · exact .inl h
        · exact .inr ⟨.inr h, h'⟩
      · rintro (h | ⟨rfl | h, h'⟩)
        · exact .inl h
        · obtain ⟨ks, e, -⟩ := h'
          rw [hk] at e; cases e
        · exact .inr ⟨h, h'⟩
    | some ks =>
      simp only [List.mem_cons]
      rw [kmFold_has]
      constructor
      · rintro ((h | ⟨rfl, h⟩) | ⟨h, h'⟩)
        · exact .inl h
        · exact .inr ⟨.inl rfl, ks, hk, h⟩
        · exact .inr ⟨.inr h, h'⟩
      · rintro (h | ⟨rfl | h, h'⟩)
        · exact .inl (.inl h)
        · obtain ⟨ks', e, h⟩ := h'
          rw [hk] at e; cases e
          exact .inl (.inr ⟨rfl, h⟩)
        · exact .inr ⟨h, h'⟩

theorem kmMods_keys (sys dev : List (String × List String)) (ms : List String)
    (d : List (String × List String)) (h : (d.map (·.1)).Nodup) :
    ((ms.foldl (kmMod sys dev) d).map (·.1)).Nodup := by
  induction ms generalizing d with
  | nil => exact h
  | cons m ms ih =>
    rw [List.foldl_cons]
    apply ih
    unfold kmMod
    split
    · exact h
    · exact kmFold_keys _ _ _ h

theorem kmNode_has (sys d : List (String × List String)) (n : KmNode) (m k : String) :
    KmHas (kmNode sys d n) m k ↔ KmHas d m k ∨ KmWants sys n m k := by
  unfold kmNode KmWants
  by_cases hp : n.provider = "clab"
  · rw [if_neg (not_not.2 hp)]
    cases hk : n.kmods with
    | none => simp
    | some dev =>
      simp only
      rw [kmMods_has]
      simp [hp, List.mem_cons]
  · rw [if_pos hp]
    simp [hp]

theorem kmNode_keys (sys d : List (String × List String)) (n : KmNode) (h : (d.map (·.1)).Nodup) :
    ((kmNode sys d n).map (·.1)).Nodup := by
  unfold kmNode
  split
  · exact h
  · split
    · exact h
    · exact kmMods_keys _ _ _ _ h

theorem kmNeeded_spec (sys : List (String × List String)) (nodes : List KmNode) (k : String) :
    (∃ e ∈ kmNeeded sys nodes, k ∈ e.2) ↔ NeedsKmod sys nodes k := by
  have key : ∀ (ns : List KmNode) (d : List (String × List String)), (d.map (·.1)).Nodup →
      ((ns.foldl (kmNode sys) d).map (·.1)).Nodup ∧
      ∀ m, KmHas (ns.foldl (kmNode sys) d) m k ↔ KmHas d m k ∨ ∃ n ∈ ns, KmWants sys n m k := by
    intro ns
    induction ns with
    | nil => intro d hd; exact ⟨hd, by simp⟩
    | cons n ns ih =>
      intro d hd
      obtain ⟨h1, h2⟩ := ih (kmNode sys d n) (kmNode_keys sys d n hd)
      refine ⟨h1, fun m => ?_⟩
      rw [List.foldl_cons, h2, kmNode_has]
      simp only [List.mem_cons, exists_eq_or_imp]
      tauto
  obtain ⟨h1, h2⟩ := key nodes [] List.nodup_nil
  have hent : (∃ e ∈ kmNeeded sys nodes, k ∈ e.2) ↔ ∃ m, KmHas (kmNeeded sys nodes) m k := by
    constructor
    · rintro ⟨⟨m, ks⟩, he, hk⟩
      exact ⟨m, ks, lookup_of_mem h1 he, hk⟩
    · rintro ⟨m, ks, he, hk⟩
      exact ⟨(m, ks), mem_of_lookup he, hk⟩
  rw [hent]
  unfold NeedsKmod
  constructor
  · rintro ⟨m, h⟩
    rcases (h2 m).1 h with ⟨ks, h, -⟩ | ⟨n, hn, hp, dev, hd, hm, ks, ho, hk⟩
    · cases h
    · refine ⟨n, hn, hp, dev, hd, m, hm, ?_⟩
      cases hl : dev.lookup m with
      | none => rw [hl] at ho; exact .inr ⟨rfl, ks, by simpa using ho, hk⟩
      | some x => rw [hl] at ho; exact .inl ⟨ks, by simpa using ho, hk⟩
  · rintro ⟨n, hn, hp, dev, hd, m, hm, h⟩
    refine ⟨m, (h2 m).2 (.inr ⟨n, hn, hp, dev, hd, hm, ?_⟩)⟩
    rcases h with ⟨ks, e, hk⟩ | ⟨e, ks, e', hk⟩
    · exact ⟨ks, by simp [e], hk⟩
    · exact ⟨ks, by simp [e, e'], hk⟩

theorem kmProbe_fold (bad : String → Bool) (l : List String) (s : KmState) :
    (∀ k, k ∈ (l.foldl (kmProbe bad) s).loaded ↔ k ∈ s.loaded ∨ (k ∈ l ∧ bad k = false)) ∧
    (∀ k, k ∈ (l.foldl (kmProbe bad) s).cmds ↔ k ∈ s.cmds ∨ k ∈ l) ∧
    ((l.foldl (kmProbe bad) s).errors = 0 ↔ s.errors = 0 ∧ ∀ k ∈ l, bad k = false) := by
  induction l generalizing s with
  | nil => simp
  | cons x l ih =>
    obtain ⟨h1, h2, h3⟩ := ih (kmProbe bad s x)
    rw [List.foldl_cons]
    cases hb : bad x with
    | true =>
      have e : kmProbe bad s x = { s with cmds := s.cmds ++ [x], errors := s.errors + 1 } := by
        unfold kmProbe; rw [hb]; rfl
      rw [e] at h1 h2 h3
      simp only at h1 h2 h3
      refine ⟨fun k => ?_, fun k => ?_, ?_⟩
      · rw [e, h1, List.mem_cons]
        constructor
        · rintro (h | ⟨h, h'⟩)
          · exact .inl h
          · exact .inr ⟨.inr h, h'⟩
        · rintro (h | ⟨rfl | h, h'⟩)
          · exact .inl h
          · rw [hb] at h'; cases h'
          · exact .inr ⟨h, h'⟩
      · rw [e, h2]
        simp only [List.mem_append, List.mem_singleton, List.mem_cons]
        tauto
      · rw [e, h3]
        simp [hb]
    | false =>
      have e : kmProbe bad s x = { s with loaded := x :: s.loaded, cmds := s.cmds ++ [x] } := by
        unfold kmProbe; rw [hb]; rfl
      rw [e] at h1 h2 h3
      simp only at h1 h2 h3
      refine ⟨fun k => ?_, fun k => ?_, ?_⟩
      · rw [e, h1]
        simp only [List.mem_cons]
        constructor
        · rintro ((rfl | h) | ⟨h, h'⟩)
          · exact .inr ⟨.inl rfl, hb⟩
          · exact .inl h
          · exact .inr ⟨.inr h, h'⟩
        · rintro (h | ⟨rfl | h, h'⟩)
          · exact .inl (.inr h)
          · exact .inl (.inl rfl)
          · exact .inr ⟨h, h'⟩
      · rw [e, h2]
        simp only [List.mem_append, List.mem_singleton, List.mem_cons]
        tauto
      · rw [e, h3]
        simp [hb]

theorem kmLoad_fold (bad : String → Bool) (needed : List (String × List String)) (s : KmState) :
    let r := needed.foldl (fun s e => (e.2.filter (fun k => !s.loaded.contains k)).foldl (kmProbe bad) s) s
    (∀ k, k ∈ r.loaded ↔ k ∈ s.loaded ∨ ((∃ e ∈ needed, k ∈ e.2) ∧ bad k = false)) ∧
    (∀ k, k ∈ r.cmds ↔ k ∈ s.cmds ∨ ((∃ e ∈ needed, k ∈ e.2) ∧ k ∉ s.loaded)) ∧
    (r.errors = 0 ↔ s.errors = 0 ∧ ∀ e ∈ needed, ∀ k ∈ e.2, k ∈ s.loaded ∨ bad k = false) := by
  induction needed generalizing s with
  | nil => simp
  | cons e es ih =>
    simp only [List.foldl_cons]
    obtain ⟨p1, p2, p3⟩ := kmProbe_fold bad (e.2.filter (fun k => !s.loaded.contains k)) s
    obtain ⟨h1, h2, h3⟩ := ih ((e.2.filter (fun k => !s.loaded.contains k)).foldl (kmProbe bad) s)
    have hmem : ∀ k, k ∈ e.2.filter (fun k => !s.loaded.contains k) ↔ k ∈ e.2 ∧ k ∉ s.loaded := by
      intro k; simp [List.mem_filter]
    simp only [hmem] at p1 p2 p3
    refine ⟨fun k => ?_, fun k => ?_, ?_⟩
    · rw [h1, p1]
      simp only [List.mem_cons, exists_eq_or_imp]
      by_cases hs : k ∈ s.loaded <;> simp [hs] <;> tauto
    · rw [h2, p2, p1]
      simp only [List.mem_cons, exists_eq_or_imp]
      by_cases hs : k ∈ s.loaded <;> simp [hs]
      cases bad k <;> simp <;> tauto
    · rw [h3, p3]
      simp only [List.mem_cons, forall_eq_or_imp]
      constructor
      · rintro ⟨⟨a, b⟩, c⟩
        refine ⟨a, fun k hk => ?_, fun e' he' k hk => ?_⟩
        · by_cases hs : k ∈ s.loaded
          · exact .inl hs
          · exact .inr (b k ⟨hk, hs⟩)
        · rcases c e' he' k hk with hc | hc
          · rcases (p1 k).1 hc with hc | hc
            · exact .inl hc
            · exact .inr hc.2
          · exact .inr hc
      · rintro ⟨a, b, c⟩
        refine ⟨⟨a, fun k hk => ?_⟩, fun e' he' k hk => ?_⟩
        · rcases b k hk.1 with hb | hb
          · exact absurd hb hk.2
          · exact hb
        · rcases c e' he' k hk with hc | hc
          · exact .inl ((p1 k).2 (.inl hc))
          · exact .inr hc

/-- **C130 (kernel modules).**  Before containers are started, the kernel modules needed by
containers in the lab are loaded: `modprobe` is executed exactly for the needed modules that are not
loaded yet, modules that are already loaded stay loaded, and an error is reported exactly when a
needed module is not loaded and cannot be loaded.  Without an error all needed modules
are loaded; nodes using other providers do not matter. -/
theorem C130_kernel_modules (sys : List (String × List String)) (nodes : List KmNode)
    (bad : String → Bool) (loaded : List String) :
    let r := kmLoad bad loaded (kmNeeded sys nodes)
    (∀ k, k ∈ r.cmds ↔ NeedsKmod sys nodes k ∧ k ∉ loaded) ∧
    (∀ k, k ∈ r.loaded ↔ k ∈ loaded ∨ (NeedsKmod sys nodes k ∧ bad k = false)) ∧
    (r.errors = 0 ↔ ∀ k, NeedsKmod sys nodes k → k ∈ loaded ∨ bad k = false) ∧
    (r.errors = 0 → ∀ k, NeedsKmod sys nodes k → k ∈ r.loaded) := by
  obtain ⟨h1, h2, h3⟩ := kmLoad_fold bad (kmNeeded sys nodes) ⟨loaded, [], 0⟩
  simp only [kmNeeded_spec] at h1 h2
  have h4 : (kmLoad bad loaded (kmNeeded sys nodes)).errors = 0 ↔
      ∀ k, NeedsKmod sys nodes k → k ∈ loaded ∨ bad k = false := by
    unfold kmLoad
    rw [h3]
    simp only [true_and]
    constructor
    · intro h k hk
      obtain ⟨e, he, hke⟩ := (kmNeeded_spec sys nodes k).2 hk
      exact h e he k hke
    · intro h e he k hk
      exact h k ((kmNeeded_spec sys nodes k).1 ⟨e, he, hk⟩)
  refine ⟨fun k => ?_, fun k => h1 k, h4, fun he k hk => ?_⟩
  · unfold kmLoad
    rw [h2]
    simp
  · refine (h1 k).2 ?_
    rcases h4.1 he k hk with h | h
    · exact .inl h
    · exact .inr ⟨hk, h⟩

/-! ### Images -/

theorem clabImages_spec (inst : String → Bool) (nodes : List ImgNode) (seen : List String) :
    (clabImages inst seen nodes).Nodup ∧
    ∀ b, b ∈ clabImages inst seen nodes ↔
      b ∉ seen ∧ inst b = false ∧ ∃ n, nodes.find? (fun n => n.box == b) = some n ∧ n.build = true := by
  induction nodes generalizing seen with
  | nil => simp [clabImages]
  | cons n ns ih =>
    unfold clabImages
    by_cases hs : seen.contains n.box = true
    · rw [if_pos hs]
      refine ⟨(ih seen).1, fun b => ?_⟩
      rw [(ih seen).2, List.find?_cons]
      by_cases hb : n.box = b
      · subst hb
        have : n.box ∈ seen := by simpa using hs
        simp [this]
      · rw [show (n.box == b) = false from by simpa using hb]
    · rw [if_neg hs]
      have hns : n.box ∉ seen := by simpa using hs
      obtain ⟨i1, i2⟩ := ih (n.box :: seen)
      have hrest : ∀ b, b ∈ clabImages inst (n.box :: seen) ns ↔ b ≠ n.box ∧
          (b ∉ seen ∧ inst b = false ∧ ∃ m, (n :: ns).find? (fun n => n.box == b) = some m ∧ m.build = true) := by
        intro b
        rw [i2, List.find?_cons, List.mem_cons, not_or]
        by_cases hb : n.box = b
        · subst hb; simp
        · rw [show (n.box == b) = false from by simpa using hb]
          simp only [and_assoc]
      have hself : ∀ b, b = n.box → ((n :: ns).find? (fun n => n.box == b)) = some n := by
        rintro b rfl
        rw [List.find?_cons]; simp
      split
      · rename_i hc
        refine ⟨i1, fun b => ?_⟩
        rw [hrest]
        constructor
        · exact fun h => h.2
        · intro h
          refine ⟨?_, h⟩
          rintro rfl
          obtain ⟨_, h2, m, h3, h4⟩ := h
          rw [hself _ rfl] at h3
          cases h3
          simp [h2, h4] at hc
      · rename_i hc
        simp only [Bool.or_eq_true, Bool.not_eq_true', not_or, Bool.not_eq_true, Bool.not_eq_false] at hc
        refine ⟨List.nodup_cons.2 ⟨fun h => ((hrest _).1 h).1 rfl, i1⟩, fun b => ?_⟩
        rw [List.mem_cons, hrest]
        constructor
        · rintro (rfl | h)
          · exact ⟨hns, hc.1, n, hself _ rfl, hc.2⟩
          · exact h.2
        · intro h
          by_cases hb : b = n.box
          · exact .inl hb
          · exact .inr ⟨hb, h⟩

/-- **C130 (container images).**  Every missing image is reported at most once, and it is reported
exactly when the first node using it has a device with a recipe for building the image (other images
are downloaded when the lab is started). -/
theorem C130_container_images (inst : String → Bool) (nodes : List ImgNode) :
    (clabImages inst [] nodes).Nodup ∧
    ∀ b, b ∈ clabImages inst [] nodes ↔
      inst b = false ∧ ∃ n, nodes.find? (fun n => n.box == b) = some n ∧ n.build = true := by
  obtain ⟨h1, h2⟩ := clabImages_spec inst nodes []
  exact ⟨h1, fun b => by rw [h2]; simp⟩

/-- When all nodes using the same image agree about the recipe, the lab is accepted exactly when all
images that have to be built are installed. -/
theorem C130_images_accepted (inst : String → Bool) (nodes : List ImgNode)
    (hsame : ∀ m ∈ nodes, ∀ n ∈ nodes, m.box = n.box → m.build = n.build) :
    clabImages inst [] nodes = [] ↔ ∀ n ∈ nodes, n.build = true → inst n.box = true := by
  obtain ⟨-, h⟩ := C130_container_images inst nodes
  rw [List.eq_nil_iff_forall_not_mem]
  constructor
  · intro hn n hm hb
    by_contra hc
    refine hn n.box ((h _).2 ⟨by simpa using hc, ?_⟩)
    cases hf : nodes.find? (fun m => m.box == n.box) with
    | none =>
      have := List.find?_eq_none.1 hf n hm
      simp at this
    | some m =>
      have he : m.box = n.box := by simpa using List.find?_some hf
      exact ⟨m, rfl, by rw [hsame m (List.mem_of_find?_eq_some hf) n hm he, hb]⟩
  · intro ha b hb
    obtain ⟨hi, n, hf, hbn⟩ := (h b).1 hb
    have he : n.box = b := by simpa using List.find?_some hf
    rw [← he, ha n (List.mem_of_find?_eq_some hf) hbn] at hi
    cases hi

theorem subIn_iff (s t : List Char) : subIn s t = true ↔ ∃ a b, t = a ++ s ++ b := by
  induction t with
  | nil =>
    simp only [subIn, List.isEmpty_iff]
    constructor
    · rintro rfl; exact ⟨[], [], rfl⟩
    · rintro ⟨a, b, h⟩
      have := congrArg List.length h
      simp only [List.length_nil, List.length_append] at this
      exact List.eq_nil_of_length_eq_zero (by omega)
  | cons c t ih =>
    rw [subIn, Bool.or_eq_true, ih, List.isPrefixOf_iff_prefix]
    constructor
    · rintro (⟨b, h⟩ | ⟨a, b, h⟩)
      · exact ⟨[], b, h.symm⟩
      · exact ⟨c :: a, b, by rw [h]; rfl⟩
    · rintro ⟨a, b, h⟩
      cases a with
      | nil => exact .inl ⟨b, h.symm⟩
      | cons x a =>
        refine .inr ⟨a, b, ?_⟩
        have := (List.cons.inj h).2
        exact this

/-- **C130 (Vagrant boxes).**  An installed box is never reported as missing: a line of the list of boxes
with the box name, a space, the `libvirt` provider and the version is enough, and a box without a
version in the topology matches every version. -/
theorem C130_installed_box (name ver pad rest box : List Char) (hn : ':' ∉ name) (hv : ':' ∉ ver)
    (hbox : box = name ∨ box = name ++ ':' :: ver) (lines : List (List Char)) (n : ImgNode)
    (hnode : n.box.toList = box)
    (hl : name ++ ' ' :: pad ++ "(libvirt, ".toList ++ ver ++ ')' :: rest ∈ lines) :
    libvirtImageMissing lines n = false := by
  have htw : ∀ (l r : List Char), ':' ∉ l → (l ++ ':' :: r).takeWhile (· ≠ ':') = l := by
    intro l r hl
    induction l with
    | nil => simp
    | cons c l ih =>
      have hc : c ≠ ':' := fun e => hl (by simp [e])
      rw [List.cons_append, List.takeWhile_cons]
      simp only [ne_eq, hc, not_false_eq_true, decide_true, if_true]
      rw [ih (fun h => hl (List.mem_cons_of_mem _ h))]
  have htw' : ∀ (l : List Char), ':' ∉ l → l.takeWhile (· ≠ ':') = l ∧ l.dropWhile (· ≠ ':') = [] := by
    intro l hl
    induction l with
    | nil => simp
    | cons c l ih =>
      have hc : c ≠ ':' := fun e => hl (by simp [e])
      obtain ⟨a, b⟩ := ih (fun h => hl (List.mem_cons_of_mem _ h))
      constructor
      · rw [List.takeWhile_cons]; simp only [ne_eq, hc, not_false_eq_true, decide_true, if_true]; rw [a]
      · rw [List.dropWhile_cons]; simp only [ne_eq, hc, not_false_eq_true, decide_true, if_true]; rw [b]
  have hdw : ∀ (l r : List Char), ':' ∉ l → (l ++ ':' :: r).dropWhile (· ≠ ':') = ':' :: r := by
    intro l r hl
    induction l with
    | nil => simp
    | cons c l ih =>
      have hc : c ≠ ':' := fun e => hl (by simp [e])
      rw [List.cons_append, List.dropWhile_cons]
      simp only [ne_eq, hc, not_false_eq_true, decide_true, if_true]
      rw [ih (fun h => hl (List.mem_cons_of_mem _ h))]
  have hspec : boxSpec box = (name, []) ∨ boxSpec box = (name, ver) := by
    rcases hbox with rfl | rfl
    · left; unfold boxSpec; rw [(htw' _ hn).1, (htw' _ hn).2]; rfl
    · right; unfold boxSpec; rw [htw _ _ hn, hdw _ _ hn, List.drop_one, List.tail_cons, (htw' _ hv).1]
  unfold libvirtImageMissing
  rw [if_pos]
  rw [List.any_eq_true]
  refine ⟨_, hl, ?_⟩
  unfold boxLineMatch
  rw [hnode]
  have h1 : (boxSpec box).1 = name := by rcases hspec with h | h <;> rw [h]
  rw [Bool.and_eq_true, Bool.and_eq_true, subIn_iff, subIn_iff, subIn_iff, h1]
  refine ⟨⟨name ++ ' ' :: pad, ", ".toList ++ ver ++ ')' :: rest, ?_⟩, ⟨[], pad ++ "(libvirt, ".toList ++ ver ++ ')' :: rest, ?_⟩, ?_⟩
  · have : "(libvirt, ".toList = "(libvirt".toList ++ ", ".toList := by decide
    rw [this]; simp
  · simp
  · rcases hspec with h | h <;> rw [h]
    · exact ⟨name ++ ' ' :: pad ++ "(libvirt, ".toList ++ ver, rest, by simp⟩
    · exact ⟨name ++ ' ' :: pad ++ "(libvirt, ".toList, rest, by simp⟩

/-- **C130 (boxes with similar names).**  The test looks for parts of text, so the opposite
is not true: a missing box is accepted when its name is the end of the name of another box and its
version is the end of the version of that box. -/
theorem C130_similar_box :
    libvirtImageMissing ["my-arista/veos (libvirt, 4.21)".toList] ⟨"arista/veos:1", true⟩ = false ∧
    libvirtImageMissing [] ⟨"arista/veos:1", true⟩ = true := by
  constructor <;> decide +kernel

/-! ### Management network -/

/-- **C130 (management network).**  The libvirt management network is not touched while Vagrant virtual
machines are running; otherwise a network that is not permanent is replaced with the one of the
lab, and a permanent network is created when it does not exist (and no active network has a name that
includes its name), and never changed.  Other libvirt networks do not change. -/
theorem C130_management_network (running permanent : Bool) (active : List Char)
    (nets : List (String × String)) (net subnet : String) :
    let r := createVagrantNetwork running permanent active nets net subnet
    (∀ n, n ≠ net → r.lookup n = nets.lookup n) ∧
    (running = true → r = nets) ∧
    (running = false → permanent = false → r.lookup net = some subnet) ∧
    (running = false → permanent = true → ∀ s, nets.lookup net = some s → r.lookup net = some s) ∧
    (running = false → permanent = true → nets.lookup net = none →
      (¬ ∃ a b, active = a ++ net.toList ++ b) → r.lookup net = some subnet) := by
  unfold createVagrantNetwork
  cases running with
  | true => simp
  | false =>
    cases permanent with
    | false =>
      have hp : (popKey nets net).lookup net = none := by rw [lookup_popKey, if_pos rfl]
      simp only [Bool.false_eq_true, if_false, hp, Option.isNone_none, Bool.and_self, if_true, lookup_append_new _ _ _ _ hp]
      refine ⟨fun n hn => ?_, by simp, by simp, by simp, by simp⟩
      rw [if_neg hn, lookup_popKey, if_neg hn]
    | true =>
      simp only [Bool.false_eq_true, if_false, if_true]
      cases hl : nets.lookup net with
      | some s => simp [hl]
      | none =>
        cases hs : subIn net.toList active with
        | true =>
          simp only [Bool.not_true, Option.isNone_none, Bool.and_true, Bool.false_eq_true, if_false]
          refine ⟨by simp, by simp, by simp, by simp [hl], fun _ _ _ h => ?_⟩
          exact absurd ((subIn_iff _ _).1 hs) h
        | false =>
          simp only [Bool.not_false, Option.isNone_none, Bool.and_self, if_true, lookup_append_new _ _ _ _ hl]
          refine ⟨fun n hn => by rw [if_neg hn], by simp, by simp, by simp, by simp⟩

/-- **C130 (management networks with similar names).**  A permanent management network is not created when
its name is a part of the name of an active network. -/
theorem C130_similar_network :
    createVagrantNetwork false true " lab_mgmt   active".toList [("lab_mgmt", "10.0.0.0/24")] "lab" "10.1.0.0/24" =
      [("lab_mgmt", "10.0.0.0/24")] := by
  decide +kernel

/-! ### The hypotheses are satisfiable -/

/-- A lab with a multi-access link, a point-to-point link and an external bridge; the host has another
bridge, and the command enabling the new bridge fails -/
example :
    let links := [⟨some "lab_1", 3, false⟩, ⟨none, 2, false⟩, ⟨some "ext", 3, true⟩]
    listBridges links = ["lab_1"] ∧
    clabPreStart false (fun c => c == .enable "lab_1") [("ext", ⟨true, true⟩)] ["lab_1"] =
      [[("ext", ⟨true, true⟩)], [("ext", ⟨true, true⟩), ("lab_1", ⟨false, false⟩)],
       [("ext", ⟨true, true⟩), ("lab_1", ⟨false, false⟩)]] := by
  decide

/-- Two nodes with different kernel modules for the same netlab module; one module is loaded -/
example :
    let nodes := [⟨"clab", some [], ["vrf", "mpls"]⟩, ⟨"clab", some [("vrf", ["vrf2"])], ["vrf"]⟩, ⟨"libvirt", some [], ["vxlan"]⟩]
    kmNeeded [("vrf", ["vrf"]), ("mpls", ["mpls-router"]), ("vxlan", ["vxlan"])] nodes =
      [("vrf", ["vrf", "vrf2"]), ("mpls", ["mpls-router"])] ∧
    kmLoad (fun k => k == "vrf2") ["vrf"] [("vrf", ["vrf", "vrf2"]), ("mpls", ["mpls-router"])] =
      ⟨["mpls-router", "vrf"], ["vrf2", "mpls-router"], 1⟩ := by
  decide

/-- An image used by two nodes is reported once -/
example : clabImages (fun b => b == "frr") [] [⟨"frr", true⟩, ⟨"eos", true⟩, ⟨"eos", true⟩, ⟨"x", false⟩] = ["eos"] := by
  decide

end Netlab
