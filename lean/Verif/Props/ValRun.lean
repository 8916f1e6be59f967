import Verif.Spec.ValRun
import Verif.Props.EvpnNode
import Verif.Props.Nodeset

namespace Netlab

open Spec

/-! ### Commands -/

theorem splitOnChar_joined (l : List Char) : Joined [' '] (splitOnChar ' ' l) = l ∧ ∀ w ∈ splitOnChar ' ' l, ' ' ∉ w := by
  induction l with
  | nil => simp [splitOnChar, Joined]
  | cons c r ih =>
    unfold splitOnChar
    by_cases hc : c = ' '
    · subst hc
      simp only [beq_self_eq_true, if_true]
      refine ⟨?_, ?_⟩
      · cases h : splitOnChar ' ' r with
        | nil => exact absurd h (splitOnChar_ne_nil _ _)
        | cons p ps =>
          unfold Joined
          rw [← h, ih.1]
          rfl
      · intro w hw
        rcases List.mem_cons.1 hw with rfl | hw
        · simp
        · exact ih.2 w hw
    · rw [if_neg (by simpa using hc)]
      cases h : splitOnChar ' ' r with
      | nil => exact absurd h (splitOnChar_ne_nil _ _)
      | cons p ps =>
        simp only
        rw [h] at ih
        refine ⟨?_, ?_⟩
        · cases ps with
          | nil =>
            have := ih.1
            simp only [Joined] at this ⊢
            rw [this]
          | cons q qs =>
            have := ih.1
            unfold Joined at this ⊢
            simp only [List.cons_append, List.cons.injEq, true_and]
            exact this
        · intro w hw
          rcases List.mem_cons.1 hw with rfl | hw
          · intro hm
            rcases List.mem_cons.1 hm with e | hm
            · exact hc e.symm
            · exact ih.2 p List.mem_cons_self hm
          · exact ih.2 w (List.mem_cons_of_mem _ hw)

/-- The text is a Jinja2 template. -/
def vrTemplate (s : List Char) : Prop := ∃ a b, s = a ++ '{' :: '{' :: b

theorem vrTemplate_iff (s : List Char) : pySubstr "{{".toList s = true ↔ vrTemplate s := by
  rw [pySubstr_iff]
  unfold vrTemplate
  constructor
  · rintro ⟨a, b, h⟩; exact ⟨a, b, by simpa using h⟩
  · rintro ⟨a, b, h⟩; exact ⟨a, b, by simpa using h⟩

/-- **C115**: the command executed on a device.  A text is split into words (the words are separated with one space), a list is used as it is, and a dictionary
has values for individual devices; a text with `{{` is rendered first, and it's a fatal error when it cannot be rendered. -/
theorem C115_command (render : List Char → Option (List Char)) (action : VrAction) (plugin : Option (Option VrVal)) (device : String) (v : VrVal)
    (hv : action = .one v ∨ ∃ d, action = .devices d ∧ d.lookup device = some v) :
    (∀ l, v = .words l → vrExec (vrValue render (some action) plugin device) = (.value l, 0)) ∧
    (∀ s, v = .text s → ¬ vrTemplate s → ∃ l, vrExec (vrValue render (some action) plugin device) = (.value l, 0) ∧ Joined [' '] l = s ∧ ∀ w ∈ l, ' ' ∉ w) ∧
    (∀ s t, v = .text s → vrTemplate s → render s = some t →
      ∃ l, vrExec (vrValue render (some action) plugin device) = (.value l, 0) ∧ Joined [' '] l = t ∧ ∀ w ∈ l, ' ' ∉ w) ∧
    (∀ s, v = .text s → vrTemplate s → render s = none → vrExec (vrValue render (some action) plugin device) = (.fatal, 0)) := by
  have hval : vrValue render (some action) plugin device = vrValue render (some (.one v)) plugin device := by
    rcases hv with rfl | ⟨d, rfl, hd⟩
    · rfl
    · unfold vrValue
      simp only [hd, Option.getD_some]
  rw [hval]
  refine ⟨?_, ?_, ?_, ?_⟩
  · rintro l rfl; rfl
  · rintro s rfl hs
    unfold vrValue
    simp only
    rw [if_neg (fun e => hs ((vrTemplate_iff s).1 e))]
    exact ⟨_, rfl, splitOnChar_joined s⟩
  · rintro s t rfl hs hr
    unfold vrValue
    simp only
    rw [if_pos ((vrTemplate_iff s).2 hs), hr]
    exact ⟨_, rfl, splitOnChar_joined t⟩
  · rintro s rfl hs hr
    unfold vrValue
    simp only
    rw [if_pos ((vrTemplate_iff s).2 hs), hr]
    rfl

/-- **C115**: the plugin is used only when the test has no such action; a plugin that can't be evaluated is an error, and there is no command to execute.  A device
without an action has no command, and a test with no action and no plugin is a crash. -/
theorem C115_plugin (render : List Char → Option (List Char)) (plugin : Option (Option VrVal)) (device : String) :
    (∀ a, vrValue render (some a) plugin device = vrValue render (some a) none device) ∧
    (∀ v, vrValue render none (some (some v)) device = vrValue render (some (.one v)) none device) ∧
    vrExec (vrValue render none (some none) device) = (.value [], 1) ∧
    (∀ d, d.lookup device = none → vrExec (vrValue render (some (.devices d)) plugin device) = (.value [], 0)) ∧
    (∀ action, vrValue render action plugin device = .crash ↔ action = none ∧ plugin = none) := by
  refine ⟨fun a => ?_, fun v => rfl, rfl, fun d hd => ?_, fun action => ?_⟩
  · cases a <;> rfl
  · unfold vrValue
    simp only [hd, Option.getD_none]
    rfl
  · have hx : ∀ x : VrOut VrVal, x ≠ .crash → (match x with
        | .value (VrVal.text s) =>
          if pySubstr "{{".toList s then
            match render s with
            | none => VrOut.fatal
            | some r => .value (VrVal.text r)
          else .value (VrVal.text s)
        | x => x) ≠ .crash := by
      intro x hne
      split
      · split
        · split <;> simp
        · simp
      · exact hne
    constructor
    · intro h
      cases action with
      | some a =>
        exfalso
        cases a with
        | one v => exact hx (.value v) (by simp) h
        | devices d => exact hx (.value ((d.lookup device).getD .other)) (by simp) h
      | none =>
        cases plugin with
        | none => exact ⟨rfl, rfl⟩
        | some p =>
          exfalso
          cases p with
          | none => exact hx .error (by simp) h
          | some v => exact hx (.value v) (by simp) h
    · rintro ⟨rfl, rfl⟩; rfl

example : vrExec (vrValue (fun s => some s) (some (.devices [("frr", .text "ip route".toList)])) none "frr") = (.value ["ip".toList, "route".toList], 0) := by
  decide +kernel

/-! ### Results -/

theorem pyStrip_trimmed (s : List Char) : TrimmedText s (pyStrip s) := by
  unfold pyStrip
  have h1 : s = s.takeWhile Char.isWhitespace ++ s.dropWhile Char.isWhitespace := List.takeWhile_append_dropWhile.symm
  have hend : ∀ t : List Char, t = (t.reverse.dropWhile Char.isWhitespace).reverse ++ (t.reverse.takeWhile Char.isWhitespace).reverse := by
    intro t
    rw [← List.reverse_append, List.takeWhile_append_dropWhile, List.reverse_reverse]
  have htw : ∀ t : List Char, ∀ c ∈ t.takeWhile Char.isWhitespace, c.isWhitespace = true := by
    intro t
    induction t with
    | nil => simp
    | cons x r ih =>
      intro c hc
      rw [List.takeWhile_cons] at hc
      split at hc
      · rcases List.mem_cons.1 hc with rfl | hc
        · assumption
        · exact ih c hc
      · cases hc
  have hdw : ∀ t : List Char, ∀ c, (t.dropWhile Char.isWhitespace).head? = some c → c.isWhitespace = false := by
    intro t
    induction t with
    | nil => simp
    | cons x r ih =>
      intro c hc
      rw [List.dropWhile_cons] at hc
      split at hc
      · exact ih c hc
      · rename_i h
        cases hc
        simpa using h
  generalize hd : s.dropWhile Char.isWhitespace = d at h1
  have hdh : ∀ c, d.head? = some c → c.isWhitespace = false := by rw [← hd]; exact hdw s
  refine ⟨s.takeWhile Char.isWhitespace, (d.reverse.takeWhile Char.isWhitespace).reverse, ?_, htw s, ?_, ?_, ?_⟩
  · rw [List.append_assoc, ← hend d]
    exact h1
  · intro c hc
    exact htw _ c (List.mem_reverse.1 hc)
  · intro c hc
    have hp : ((d.reverse.dropWhile Char.isWhitespace).reverse).head? = some c → d.head? = some c := by
      intro h
      have := hend d
      rw [this]
      cases hh : (d.reverse.dropWhile Char.isWhitespace).reverse with
      | nil => rw [hh] at h; cases h
      | cons x r => rw [hh] at h; exact h
    exact hdh c (hp hc)
  · intro c hc
    rw [List.getLast?_reverse] at hc
    exact hdw _ c hc

theorem trimmed_unique {s x y : List Char} (hx : TrimmedText s x) (hy : TrimmedText s y) (hne : x ≠ []) : x = y := by
  obtain ⟨a, b, e1, ha, hb, h1, h2⟩ := hx
  obtain ⟨a', b', e2, ha', hb', h1', h2'⟩ := hy
  have hyne : y ≠ [] := by
    rintro rfl
    cases x with
    | nil => exact hne rfl
    | cons c r =>
      have hm : c ∈ s := by rw [e1]; simp
      rw [e2] at hm
      have hw : c.isWhitespace = true := by
        rcases List.mem_append.1 hm with hm | hm
        · rcases List.mem_append.1 hm with hm | hm
          · exact ha' c hm
          · cases hm
        · exact hb' c hm
      rw [h1 c rfl] at hw
      cases hw
  have lead : ∀ (a a' x y : List Char), (∀ c ∈ a, c.isWhitespace = true) → (∀ c ∈ a', c.isWhitespace = true) → x ≠ [] → y ≠ [] →
      (∀ c, x.head? = some c → c.isWhitespace = false) → (∀ c, y.head? = some c → c.isWhitespace = false) → a ++ x = a' ++ y → a = a' := by
    intro a
    induction a with
    | nil =>
      intro a' x y _ ha' hx _ hx1 _ e
      cases a' with
      | nil => rfl
      | cons c r =>
        rw [List.nil_append] at e
        subst e
        have := hx1 c rfl
        rw [ha' c List.mem_cons_self] at this
        cases this
    | cons c r ih =>
      intro a' x y ha ha' hx hy hx1 hy1 e
      cases a' with
      | nil =>
        rw [List.nil_append] at e
        subst e
        have := hy1 c rfl
        rw [ha c List.mem_cons_self] at this
        cases this
      | cons d q =>
        simp only [List.cons_append, List.cons.injEq] at e
        rw [e.1, ih q x y (fun z hz => ha z (List.mem_cons_of_mem _ hz)) (fun z hz => ha' z (List.mem_cons_of_mem _ hz)) hx hy hx1 hy1 e.2]
  have hh : ∀ (u v : List Char), u ≠ [] → (u ++ v).head? = u.head? := by
    intro u v hu
    cases u with
    | nil => exact absurd rfl hu
    | cons => rfl
  have ea : a = a' := by
    refine lead a a' (x ++ b) (y ++ b') ha ha' (by simp [hne]) (by simp [hyne]) ?_ ?_ ?_
    · rw [hh _ _ hne]; exact h1
    · rw [hh _ _ hyne]; exact h1'
    · rw [← List.append_assoc, ← List.append_assoc, ← e1, ← e2]
  subst ea
  rw [e1, List.append_assoc, List.append_assoc, List.append_cancel_left_eq] at e2
  have eb : b.reverse = b'.reverse := by
    refine lead b.reverse b'.reverse x.reverse y.reverse ?_ ?_ (by simp [hne]) (by simp [hyne]) ?_ ?_ ?_
    · exact fun c hc => hb c (List.mem_reverse.1 hc)
    · exact fun c hc => hb' c (List.mem_reverse.1 hc)
    · rw [List.head?_reverse]; exact h2
    · rw [List.head?_reverse]; exact h2'
    · rw [← List.reverse_append, ← List.reverse_append, e2]
  rw [List.reverse_inj] at eb
  rw [eb] at e2
  exact List.append_cancel_right e2

theorem vrFind_iff (s : List Char) (c : Char) (hi p : Nat) : vrFind s c hi = some p ↔ p < hi ∧ ∃ a b, s = a ++ c :: b ∧ a.length = p ∧ c ∉ a := by
  unfold vrFind
  induction s generalizing hi p with
  | nil => simp
  | cons x r ih =>
    cases hi with
    | zero => simp
    | succ hi =>
      rw [List.take_succ_cons, List.findIdx?_cons]
      by_cases hx : x = c
      · subst hx
        simp only [beq_self_eq_true, if_true, Option.some.injEq]
        constructor
        · rintro rfl
          exact ⟨Nat.succ_pos _, [], r, rfl, rfl, by simp⟩
        · rintro ⟨_, a, b, e, hl, hn⟩
          cases a with
          | nil => exact hl
          | cons y a =>
            simp only [List.cons_append, List.cons.injEq] at e
            exact absurd (by rw [e.1]; exact List.mem_cons_self) hn
      · rw [if_neg (by simpa using hx)]
        cases p with
        | zero =>
          simp only [Option.map_eq_some_iff, Nat.add_eq_zero_iff, Nat.one_ne_zero, and_false, exists_false, false_iff, not_and, not_exists]
          rintro _ a b e hl
          rw [List.length_eq_zero_iff] at hl
          subst hl
          simp only [List.nil_append, List.cons.injEq] at e
          exact absurd e.1 hx
        | succ p =>
          have : (Option.map (fun i => i + 1) (List.findIdx? (fun x => x == c) (List.take hi r)) = some (p + 1)) ↔ List.findIdx? (fun x => x == c) (List.take hi r) = some p := by
            simp only [Option.map_eq_some_iff, Nat.add_right_cancel_iff, exists_eq_right]
          rw [this, ih]
          constructor
          · rintro ⟨h1, a, b, rfl, rfl, h2⟩
            refine ⟨by omega, x :: a, b, rfl, rfl, ?_⟩
            intro hm
            rcases List.mem_cons.1 hm with e | hm
            · exact hx e.symm
            · exact h2 hm
          · rintro ⟨h1, a, b, e, hl, hn⟩
            cases a with
            | nil => simp at hl
            | cons y a =>
              simp only [List.cons_append, List.cons.injEq] at e
              exact ⟨by omega, a, b, e.2, by simpa using hl, fun hm => hn (List.mem_cons_of_mem _ hm)⟩

theorem mem_before {α : Type} {a b a' b' : List α} {c d : α} (h : a ++ c :: b = a' ++ d :: b') : d ∈ a ∨ a.length ≤ a'.length := by
  rcases List.append_eq_append_iff.1 h with ⟨t, h1, _⟩ | ⟨t, h1, h2⟩
  · right; rw [h1]; simp
  · cases t with
    | nil => right; rw [h1]; simp
    | cons x t =>
      left
      simp only [List.cons_append, List.cons.injEq] at h2
      rw [h1, h2.1]
      simp

/-- The position of the first start of a JSON value -/
theorem vrLow_spec (s : List Char) :
    (∀ a c b, s = a ++ c :: b → JsonStart c → (∀ x ∈ a, ¬ JsonStart x) →
      vrLow s = a.length) ∧
    ((∀ x ∈ s, ¬ JsonStart x) →
      vrLow s = s.length) := by
  have hstep : ∀ c low, vrLower s low c = (vrFind s c low).getD low := by
    intro c low
    unfold vrLower
    cases h : vrFind s c low with
    | none => rfl
    | some p =>
      simp only
      rw [if_pos ((vrFind_iff s c low p).1 h).1]
      rfl
  have hnone : ∀ c low, (∀ a b, s = a ++ c :: b → c ∉ a → low ≤ a.length) → vrFind s c low = none := by
    intro c low h
    cases hf : vrFind s c low with
    | none => rfl
    | some p =>
      obtain ⟨h1, a, b, e, rfl, hn⟩ := (vrFind_iff s c low p).1 hf
      exact absurd (h a b e hn) (by omega)
  unfold vrLow
  simp only [List.foldl_cons, List.foldl_nil, hstep]
  constructor
  · intro a c b hs hc ha
    rcases hc with rfl | rfl
    · have h1 : vrFind s '[' s.length = some a.length := (vrFind_iff _ _ _ _).2 ⟨by rw [hs]; simp, a, b, hs, rfl, fun h => ha _ h (Or.inl rfl)⟩
      rw [h1, Option.getD_some, hnone, Option.getD_none]
      intro a' b' e _
      rcases mem_before (hs.symm.trans e) with hm | hl
      · exact absurd (Or.inr rfl) (ha _ hm)
      · exact hl
    · -- an opening brace first; a bracket may follow
      have hlow : a.length < ((vrFind s '[' s.length).getD s.length) := by
        cases hf : vrFind s '[' s.length with
        | none => rw [hs]; simp
        | some p =>
          obtain ⟨_, a', b', e, rfl, _⟩ := (vrFind_iff _ _ _ _).1 hf
          rw [Option.getD_some]
          rcases mem_before (hs.symm.trans e) with hm | hl
          · exact absurd (Or.inl rfl) (ha _ hm)
          · rcases Nat.lt_or_ge a.length a'.length with h | h
            · exact h
            · exfalso
              have hl2 : a.length = a'.length := by omega
              have := List.append_inj (hs.symm.trans e) hl2
              simp at this
      generalize ((vrFind s '[' s.length).getD s.length) = low at hlow
      have h1 : vrFind s '{' low = some a.length := (vrFind_iff _ _ _ _).2 ⟨hlow, a, b, hs, rfl, fun h => ha _ h (Or.inr rfl)⟩
      rw [h1, Option.getD_some]
  · intro h
    rw [hnone '[' _ (fun a b e _ => absurd (Or.inl rfl) (h '[' (by rw [e]; simp))), Option.getD_none]
    rw [hnone '{' _ (fun a b e _ => absurd (Or.inr rfl) (h '{' (by rw [e]; simp))), Option.getD_none]

theorem pyStrip_cases (text : List Char) : (∃ a b, text = a ++ pyStrip text ++ b ∧ (∀ c ∈ a, c.isWhitespace = true) ∧ (∀ c ∈ b, c.isWhitespace = true) ∧
    (∀ c, (pyStrip text).getLast? = some c → c.isWhitespace = false)) :=
  let ⟨a, b, h1, h2, h3, _, h5⟩ := pyStrip_trimmed text
  ⟨a, b, h1, h2, h3, h5⟩

theorem jsonStart_not_ws {c : Char} (h : JsonStart c) : c.isWhitespace = false := by
  rcases h with rfl | rfl <;> decide

/-- **C115**: everything before the first `[` or `{` and whitespace at the end of the output is skipped; the rest is parsed as a list or as an object, depending
on its first character. -/
theorem C115_json (text a b : List Char) (c : Char) (h : text = a ++ c :: b) (hc : JsonStart c) (ha : ∀ x ∈ a, ¬ JsonStart x) :
    ∃ body, TrimmedEnd (c :: b) (c :: body) ∧ (c = '[' → vrJson text = .list (c :: body)) ∧ (c = '{' → vrJson text = .object (c :: body)) := by
  obtain ⟨x, y, e, hx, hy, hl⟩ := pyStrip_cases text
  -- the JSON value starts in the stripped text
  have hcx : c ∉ x := fun hm => by
    have := hx c hm
    rw [jsonStart_not_ws hc] at this
    cases this
  have hcy : ∀ z ∈ y, ¬ JsonStart z := fun z hz hj => by
    have := hy z hz
    rw [jsonStart_not_ws hj] at this
    cases this
  have ht : ∃ t, a = x ++ t ∧ t ++ c :: b = pyStrip text ++ y := by
    rw [List.append_assoc] at e
    rcases List.append_eq_append_iff.1 (h.symm.trans e) with ⟨t, h1, h2⟩ | ⟨t, h1, h2⟩
    · cases t with
      | nil => exact ⟨[], by rw [h1]; simp, h2⟩
      | cons z t =>
        simp only [List.cons_append, List.cons.injEq] at h2
        exact absurd (by rw [h1, h2.1]; simp) hcx
    · exact ⟨t, h1, h2.symm⟩
  obtain ⟨t, hat, hts⟩ := ht
  have hu : ∃ body, pyStrip text = t ++ c :: body ∧ b = body ++ y := by
    rcases List.append_eq_append_iff.1 hts with ⟨u, h1, h2⟩ | ⟨u, _, h2⟩
    · cases u with
      | nil =>
        rw [List.nil_append] at h2
        exact absurd hc (hcy c (by rw [← h2]; exact List.mem_cons_self))
      | cons z u =>
        simp only [List.cons_append, List.cons.injEq] at h2
        exact ⟨u, by rw [h1, h2.1], h2.2⟩
    · exact absurd hc (hcy c (by rw [h2]; simp))
  obtain ⟨body, hs, hb⟩ := hu
  have hlow := (vrLow_spec (pyStrip text)).1 t c body hs hc (fun z hz => ha z (by rw [hat]; simp [hz]))
  have hj : vrJson text = if c = '[' then .list (c :: body) else .object (c :: body) := by
    unfold vrJson
    simp only
    rw [hlow]
    simp only [hs, List.drop_left]
    simp
  refine ⟨body, ⟨y, by rw [hb]; simp, hy, ?_⟩, fun hcc => ?_, fun hcc => ?_⟩
  · intro z hz
    apply hl z
    rw [hs, List.getLast?_append, hz]
    rfl
  · rw [hj, if_pos hcc]
  · rw [hj, if_neg (by rw [hcc]; decide)]

/-- **C115**: an output with no `[` or `{` is parsed without whitespace around it. -/
theorem C115_json_none (text : List Char) (h : ∀ x ∈ text, ¬ JsonStart x) : ∃ s, TrimmedText text s ∧ vrJson text = .object s := by
  obtain ⟨x, y, e, _⟩ := pyStrip_cases text
  have hs : ∀ z ∈ pyStrip text, ¬ JsonStart z := fun z hz => h z (by rw [e]; simp [hz])
  refine ⟨pyStrip text, pyStrip_trimmed text, ?_⟩
  unfold vrJson
  simp only
  rw [(vrLow_spec (pyStrip text)).2 hs, if_neg (Nat.lt_irrefl _), if_neg]
  intro hh
  cases hp : pyStrip text with
  | nil => rw [hp] at hh; cases hh
  | cons z r =>
    rw [hp] at hh
    cases hh
    exact hs '[' (by rw [hp]; exact List.mem_cons_self) (Or.inl rfl)

example : vrJson " Warning: x\n[1, {2}] \n".toList = .list "[1, {2}]".toList ∧ vrJson "{\"a\": [1]}".toList = .object "{\"a\": [1]}".toList ∧
    vrJson " error ".toList = .object "error".toList := by decide +kernel

/-- **C115**: a validation test gets parsed data exactly when there's a command to execute, the command was successful and its output is valid JSON. -/
theorem C115_parsed (parse : VrJson → Option Val) (run : List (List Char) → VrCmd) (cmd : List (List Char)) (v : Val) :
    vrParsed parse run cmd = some v ↔ cmd ≠ [] ∧ ∃ s, run cmd = .text s ∧ parse (vrJson s) = some v := by
  unfold vrParsed
  by_cases h : cmd = []
  · simp [h]
  · rw [if_neg h]
    cases run cmd with
    | failed => simp
    | text s => simp [h]

/-! ### Waiting -/

/-- **C115**: netlab waits for as long as it should (but not when the time has passed), at most five seconds at a time. -/
theorem C115_wait (wait : Int) : (vrSleeps wait).sum = max 0 wait ∧ ∀ s ∈ vrSleeps wait, 0 ≤ s ∧ s ≤ 5 := by
  have key : ∀ (n : Nat) (wait : Int), wait < n → (vrSleeps wait).sum = max 0 wait ∧ ∀ s ∈ vrSleeps wait, 0 ≤ s ∧ s ≤ 5 := by
    intro n
    induction n with
    | zero =>
      intro wait hw
      unfold vrSleeps
      rw [dif_neg (by omega)]
      refine ⟨?_, by simp⟩
      simp only [List.sum_nil]
      omega
    | succ n ih =>
      intro wait hw
      unfold vrSleeps
      by_cases h : 0 ≤ wait
      · rw [dif_pos h]
        have := ih (wait - 5) (by omega)
        rw [List.sum_cons, this.1]
        refine ⟨?_, ?_⟩
        · split <;> omega
        · intro s hs
          rcases List.mem_cons.1 hs with rfl | hs
          · split <;> omega
          · exact this.2 s hs
      · rw [dif_neg h]
        refine ⟨?_, by simp⟩
        simp only [List.sum_nil]
        omega
  exact key (wait.toNat + 1) wait (by omega)

/-- **C115**: a test is executed no earlier than its wait time after the start of the lab or after the previous test (when there's no start time, it's the wait time
itself), and there's no delay when that time has passed. -/
theorem C115_wait_until (wait : Int) (start : Option Int) (now : Int) :
    ∃ w, vrWait (some wait) start now = some w ∧ (∀ s, start = some s → now + (vrSleeps w).sum = max now (s + wait)) ∧
      (start = none → (vrSleeps w).sum = max 0 wait) ∧ vrWait none start now = none := by
  cases start with
  | none => exact ⟨wait, rfl, by simp, fun _ => (C115_wait wait).1, rfl⟩
  | some s =>
    refine ⟨s + wait - now, rfl, ?_, by simp, rfl⟩
    rintro _ ⟨⟩
    rw [(C115_wait _).1]
    omega

example : vrSleeps 12 = [5, 5, 2] := by simp [vrSleeps]

/-- **C115**: the wait time of a test is never shortened; it's extended to the longest time needed by a device. -/
theorem C115_extend (wait : Option Int) (devices : List (Option Int)) :
    wait.getD 0 ≤ (vrExtend wait devices).getD 0 ∧ (∀ v, some v ∈ devices → v ≤ (vrExtend wait devices).getD 0) ∧
    (vrExtend wait devices = wait ∨ vrExtend wait devices ∈ devices) := by
  unfold vrExtend
  induction devices generalizing wait with
  | nil => simp
  | cons d r ih =>
    rw [List.foldl_cons]
    cases d with
    | none =>
      obtain ⟨h1, h2, h3⟩ := ih wait
      refine ⟨h1, fun v hv => ?_, ?_⟩
      · rcases List.mem_cons.1 hv with e | hv
        · cases e
        · exact h2 v hv
      · rcases h3 with h | h
        · exact Or.inl h
        · exact Or.inr (List.mem_cons_of_mem _ h)
    | some x =>
      simp only
      by_cases hx : wait.getD 0 < x
      · rw [if_pos hx]
        obtain ⟨h1, h2, h3⟩ := ih (some x)
        simp only [Option.getD_some] at h1
        refine ⟨by omega, fun v hv => ?_, ?_⟩
        · rcases List.mem_cons.1 hv with e | hv
          · cases e; exact h1
          · exact h2 v hv
        · rcases h3 with h | h
          · rw [h]; exact Or.inr List.mem_cons_self
          · exact Or.inr (List.mem_cons_of_mem _ h)
      · rw [if_neg hx]
        obtain ⟨h1, h2, h3⟩ := ih wait
        refine ⟨h1, fun v hv => ?_, ?_⟩
        · rcases List.mem_cons.1 hv with e | hv
          · cases e; omega
          · exact h2 v hv
        · rcases h3 with h | h
          · exact Or.inl h
          · exact Or.inr (List.mem_cons_of_mem _ h)

theorem vrDelay_spec (devices : List (String × Option Int)) :
    0 ≤ (vrDelay devices).1 ∧ (∀ d v, (d, some v) ∈ devices → v ≤ (vrDelay devices).1) ∧
    ((vrDelay devices).1 ≠ 0 → ∃ d, (vrDelay devices).2 = some d ∧ (d, some (vrDelay devices).1) ∈ devices) := by
  unfold vrDelay
  have key : ∀ (l : List (String × Option Int)) (s : Int × Option String), 0 ≤ s.1 →
      let f := l.foldl vrSlower s
      s.1 ≤ f.1 ∧ (∀ d v, (d, some v) ∈ l → v ≤ f.1) ∧ (f = s ∨ ∃ d, f.2 = some d ∧ (d, some f.1) ∈ l) := by
    intro l
    induction l with
    | nil => intro s hs; simp
    | cons x r ih =>
      intro s hs
      obtain ⟨n, o⟩ := x
      simp only [List.foldl_cons, vrSlower]
      have skip : ∀ v, v ≤ s.1 ∨ o = none → (o = some v ∨ o = none) →
          (let f := r.foldl vrSlower s
          s.1 ≤ f.1 ∧ (∀ d v, (d, some v) ∈ (n, o) :: r → v ≤ f.1) ∧ (f = s ∨ ∃ d, f.2 = some d ∧ (d, some f.1) ∈ (n, o) :: r)) := by
        intro v hv ho
        obtain ⟨h1, h2, h3⟩ := ih s hs
        refine ⟨h1, fun d w hm => ?_, ?_⟩
        · rcases List.mem_cons.1 hm with e | hm
          · simp only [Prod.mk.injEq] at e
            rcases ho with ho | ho
            · rw [ho] at e
              have : w = v := Option.some.inj e.2
              subst this
              rcases hv with hv | hv
              · exact Int.le_trans hv h1
              · rw [hv] at ho; cases ho
            · rw [ho] at e; cases e.2
          · exact h2 d w hm
        · rcases h3 with h | ⟨d, h, hm⟩
          · exact Or.inl h
          · exact Or.inr ⟨d, h, List.mem_cons_of_mem _ hm⟩
      cases o with
      | none => exact skip 0 (Or.inr rfl) (Or.inr rfl)
      | some v =>
        simp only
        by_cases h0 : v = 0
        · rw [if_pos h0]
          exact skip v (Or.inl (by omega)) (Or.inl rfl)
        · rw [if_neg h0]
          by_cases hlt : s.1 < v
          · rw [if_pos hlt]
            obtain ⟨h1, h2, h3⟩ := ih (v, some n) (by simp only; omega)
            simp only at h1
            refine ⟨by omega, fun d w hm => ?_, ?_⟩
            · rcases List.mem_cons.1 hm with e | hm
              · cases e; exact h1
              · exact h2 d w hm
            · right
              rcases h3 with h | ⟨d, h, hm⟩
              · rw [h]; exact ⟨n, rfl, List.mem_cons_self⟩
              · exact ⟨d, h, List.mem_cons_of_mem _ hm⟩
          · rw [if_neg hlt]
            exact skip v (Or.inl (by omega)) (Or.inl rfl)
  obtain ⟨h1, h2, h3⟩ := key devices (0, none) (Int.le_refl 0)
  refine ⟨h1, h2, fun hne => ?_⟩
  rcases h3 with h | h
  · rw [h] at hne; exact absurd rfl hne
  · exact h

/-- **C115**: the first test with a wait time waits for the slowest device; other tests don't change. -/
theorem C115_first (devices : List (String × Option Int)) (tests : List (Option Int)) :
    (∀ a w b, tests = a ++ some w :: b → w ≠ 0 → (∀ x ∈ a, x = none ∨ x = some 0) →
      ∃ delay, vrFirst devices tests = a ++ some (w + delay) :: b ∧ 0 ≤ delay ∧ (∀ d v, (d, some v) ∈ devices → v ≤ delay) ∧
        (delay = 0 ∨ ∃ d, (d, some delay) ∈ devices)) ∧
    ((∀ x ∈ tests, x = none ∨ x = some 0) → vrFirst devices tests = tests) := by
  obtain ⟨h1, h2, h3⟩ := vrDelay_spec devices
  have hskip : ∀ (delay : Int) (a t : List (Option Int)), (∀ x ∈ a, x = none ∨ x = some 0) → vrExtendFirst delay (a ++ t) = a ++ vrExtendFirst delay t := by
    intro delay a t ha
    induction a with
    | nil => rfl
    | cons x a ih =>
      have e : vrExtendFirst delay (x :: a ++ t) = x :: vrExtendFirst delay (a ++ t) := by
        simp only [List.cons_append]
        rw [vrExtendFirst, if_pos (by rcases ha x List.mem_cons_self with h | h <;> rw [h] <;> rfl)]
      rw [e, ih (fun y hy => ha y (List.mem_cons_of_mem _ hy))]
      rfl
  constructor
  · rintro a w b rfl hw ha
    refine ⟨(vrDelay devices).1, ?_, h1, h2, ?_⟩
    · unfold vrFirst
      simp only
      by_cases h0 : (vrDelay devices).1 = 0
      · rw [if_pos h0, h0]; simp
      · rw [if_neg h0, hskip _ _ _ ha]
        unfold vrExtendFirst
        simp [hw]
    · by_cases h0 : (vrDelay devices).1 = 0
      · exact Or.inl h0
      · obtain ⟨d, _, hm⟩ := h3 h0
        exact Or.inr ⟨d, hm⟩
  · intro ha
    unfold vrFirst
    simp only
    split
    · rfl
    · have := hskip (vrDelay devices).1 tests [] ha
      simpa [vrExtendFirst] using this

example : vrFirst [("frr", none), ("vmx", some 30), ("iosv", some 10)] [none, some 0, some 20, some 5] = [none, some 0, some 50, some 5] ∧
    vrExtend (some 5) [none, some 3, some 20] = some 20 := by decide +kernel

/-! ### Selection of tests -/

/-- **C115**: when all selected nodes are in the topology (and there were no errors), the tests executed on at least one of them are selected, and they're executed
only on selected nodes; it's an error when there are no such tests.  The tests don't change after an error. -/
theorem C115_filter (nodes sel : List String) (tests : List VrTest) :
    ((∀ n ∈ sel, n ∈ nodes) → (∃ t ∈ tests, ∃ n ∈ t.nodes, n ∈ sel) →
      (vrFilter nodes false (some sel) tests).2 = 0 ∧
      List.Forall₂ (fun t u : VrTest => u.name = t.name ∧ u.nodes = t.nodes.filter (· ∈ sel) ∧ u.nodes ≠ [])
        (tests.filter (fun t => t.nodes.any (· ∈ sel))) (vrFilter nodes false (some sel) tests).1) ∧
    ((∀ n ∈ sel, n ∈ nodes) → (∀ t ∈ tests, ∀ n ∈ t.nodes, n ∉ sel) → vrFilter nodes false (some sel) tests = ([], 1)) ∧
    (∀ n ∈ sel, n ∉ nodes → (vrFilter nodes false (some sel) tests).1 = tests ∧ (vrFilter nodes false (some sel) tests).2 ≠ 0) ∧
    vrFilter nodes false none tests = (tests, 0) ∧ (∀ args, (vrFilter nodes true args tests).1 = tests) := by
  have hbad : (∀ n ∈ sel, n ∈ nodes) → (sel.filter (fun n => !nodes.contains n)).length = 0 := by
    intro h
    rw [List.length_eq_zero_iff, List.filter_eq_nil_iff]
    intro n hn
    simpa using h n hn
  have hcon : ∀ t : VrTest, t.nodes.any sel.contains = true ↔ ∃ n ∈ t.nodes, n ∈ sel := by
    intro t
    simp
  have hfe : (tests.filter (fun t => t.nodes.any sel.contains)) = tests.filter (fun t => t.nodes.any (· ∈ sel)) := by
    congr 1
    funext t
    congr 1
    funext n
    simp
  refine ⟨fun h1 h2 => ?_, fun h1 h2 => ?_, fun n hn hm => ?_, rfl, fun args => by cases args <;> simp [vrFilter]⟩
  · have hne : tests.filter (fun t => t.nodes.any sel.contains) ≠ [] := by
      obtain ⟨t, ht, hx⟩ := h2
      exact List.ne_nil_of_mem (List.mem_filter.2 ⟨ht, (hcon t).2 hx⟩)
    have he : vrFilter nodes false (some sel) tests =
        ((tests.filter (fun t => t.nodes.any sel.contains)).map (fun t => { t with nodes := t.nodes.filter sel.contains }), 0) := by
      unfold vrFilter
      simp only [hbad h1]
      rw [if_neg (by simp), if_neg hne]
    rw [he]
    refine ⟨rfl, ?_⟩
    simp only
    rw [List.forall₂_map_right_iff, ← hfe]
    refine List.forall₂_same.2 fun t ht => ⟨rfl, ?_, ?_⟩
    · simp only
      congr 1
      funext n
      simp
    · obtain ⟨n, hn, hs⟩ := (hcon t).1 (List.mem_filter.1 ht).2
      exact List.ne_nil_of_mem (List.mem_filter.2 ⟨hn, by simpa using hs⟩)
  · have hnil : tests.filter (fun t => t.nodes.any sel.contains) = [] := by
      rw [List.filter_eq_nil_iff]
      intro t ht hx
      obtain ⟨n, hn, hs⟩ := (hcon t).1 hx
      exact h2 t ht n hn hs
    unfold vrFilter
    simp only [hbad h1]
    rw [if_neg (by simp), if_pos hnil]
  · have hb : (sel.filter (fun n => !nodes.contains n)).length ≠ 0 := by
      rw [ne_eq, List.length_eq_zero_iff]
      exact List.ne_nil_of_mem (List.mem_filter.2 ⟨hn, by simpa using hm⟩)
    unfold vrFilter
    simp only
    rw [if_pos (Or.inr hb)]
    exact ⟨rfl, hb⟩

example : vrFilter ["a", "b"] false (some ["a"]) [⟨"t1", ["a", "b"]⟩, ⟨"t2", ["b"]⟩] = ([⟨"t1", ["a"]⟩], 0) ∧
    vrFilter ["a", "b"] false (some ["c"]) [⟨"t1", ["a", "b"]⟩] = ([⟨"t1", ["a", "b"]⟩], 1) := by decide +kernel

/-- **C115**: SuzieQ commands are executed for the node (when there is one), and return JSON data. -/
theorem C115_suzieq (show_ : String) (node : String) :
    vrSuzieq show_.toList (some node.toList) = (show_ ++ " --hostname " ++ node ++ " --format json").toList ∧
    vrSuzieq show_.toList none = (show_ ++ " --format json").toList := by
  unfold vrSuzieq
  simp only [String.toList_append]
  simp

end Netlab
