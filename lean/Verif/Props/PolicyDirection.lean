import Verif.Spec.PolicyDirection
/-!
# C142: unsupported directions and values of BGP policy attributes
-/

namespace Netlab
open Spec

theorem dirValueOk_false (l : List Val) (v : Val) : dirValueOk l v = false ↔ v ∉ l ∧ Val.str (typeName v) ∉ l := by
  unfold dirValueOk
  rw [← Bool.not_eq_true, Bool.or_eq_true, List.contains_iff_mem, List.contains_iff_mem, not_or]
  exact And.comm

/-- An unsupported direction is never reported together with values in the same direction -/
def DirInv (feat : String → String → Option (List (String × DirFeature))) (errs : List DirError) : Prop :=
  errs.Nodup ∧ ∀ e ∈ errs, ∃ f, feat e.node e.attr = some f ∧ (e.value = none ↔ f.lookup e.dir = none)

theorem checkDir_spec {feat : String → String → Option (List (String × DirFeature))} {f : List (String × DirFeature)}
    {node attr : String} (hf : feat node attr = some f) {errs : List DirError} (hi : DirInv feat errs) (kw : String) (v : Val) :
    DirInv feat (checkDir f node attr errs kw v) ∧
    ∀ e, e ∈ checkDir f node attr errs kw v ↔ e ∈ errs ∨ (e.node = node ∧ e.attr = attr ∧ e.dir = kw ∧
      ((e.value = none ∧ f.lookup kw = none) ∨
       (e.value = some v ∧ ∃ l, f.lookup kw = some (.oneOf l) ∧ v ∉ l ∧ Val.str (typeName v) ∉ l))) := by
  obtain ⟨hn, hj⟩ := hi
  unfold checkDir
  cases hk : f.lookup kw with
  | none =>
    dsimp only
    split
    · rename_i h
      refine ⟨⟨hn, hj⟩, fun e => ⟨.inl, ?_⟩⟩
      rintro (he | ⟨h1, h2, h3, h4⟩)
      · exact he
      · rcases h4 with ⟨h4, -⟩ | ⟨-, l, h5, -⟩
        · rw [List.any_eq_true] at h
          obtain ⟨x, hx, hxe⟩ := h
          simp only [Bool.and_eq_true, beq_iff_eq] at hxe
          obtain ⟨f', hf', hv⟩ := hj x hx
          rw [hxe.1.1, hxe.1.2, hf] at hf'
          cases hf'
          rw [hxe.2] at hv
          have hxv := hv.2 hk
          have : e = x := by
            cases e; cases x
            simp only at h1 h2 h3 h4 hxe hxv
            simp [h1, h2, h3, h4, hxe, hxv]
          rw [this]; exact hx
        · cases h5
    · rename_i h
      refine ⟨⟨?_, ?_⟩, fun e => ?_⟩
      · rw [List.nodup_append]
        refine ⟨hn, by simp, ?_⟩
        intro x hx y hy
        rw [List.mem_singleton] at hy
        rintro rfl
        subst hy
        apply h
        rw [List.any_eq_true]
        exact ⟨_, hx, by simp⟩
      · intro e he
        rcases List.mem_append.1 he with he | he
        · exact hj e he
        · rw [List.mem_singleton] at he
          subst he
          exact ⟨f, hf, by simp [hk]⟩
      · rw [List.mem_append, List.mem_singleton]
        constructor
        · rintro (he | rfl)
          · exact .inl he
          · exact .inr ⟨rfl, rfl, rfl, .inl ⟨rfl, rfl⟩⟩
        · rintro (he | ⟨h1, h2, h3, h4⟩)
          · exact .inl he
          · rcases h4 with ⟨h4, -⟩ | ⟨-, l, h5, -⟩
            · right
              cases e
              simp only at h1 h2 h3 h4
              simp [h1, h2, h3, h4]
            · cases h5
  | some x =>
    cases x with
    | unrestricted =>
      refine ⟨⟨hn, hj⟩, fun e => ⟨.inl, ?_⟩⟩
      rintro (he | ⟨-, -, -, ⟨-, h⟩ | ⟨-, l, h, -⟩⟩)
      · exact he
      · cases h
      · cases h
    | oneOf l =>
      dsimp only
      cases ho : dirValueOk l v with
      | true =>
        rw [if_pos rfl]
        refine ⟨⟨hn, hj⟩, fun e => ⟨.inl, ?_⟩⟩
        rintro (he | ⟨-, -, -, ⟨-, h⟩ | ⟨-, l', h, h1, h2⟩⟩)
        · exact he
        · cases h
        · cases h
          rw [(dirValueOk_false l v).2 ⟨h1, h2⟩] at ho
          cases ho
      | false =>
        rw [if_neg (by decide)]
        have hb := (dirValueOk_false l v).1 ho
        have key : ∀ e : DirError, (e.node = node ∧ e.attr = attr ∧ e.dir = kw ∧
            ((e.value = none ∧ some (DirFeature.oneOf l) = none) ∨
             (e.value = some v ∧ ∃ l', some (DirFeature.oneOf l) = some (DirFeature.oneOf l') ∧ v ∉ l' ∧
               Val.str (typeName v) ∉ l'))) ↔ e = ⟨node, attr, kw, some v⟩ := by
          intro e
          constructor
          · rintro ⟨h1, h2, h3, ⟨-, h⟩ | ⟨h4, -⟩⟩
            · cases h
            · cases e
              simp only at h1 h2 h3 h4
              simp [h1, h2, h3, h4]
          · rintro rfl
            exact ⟨rfl, rfl, rfl, .inr ⟨rfl, l, rfl, hb⟩⟩
        split
        · rename_i h
          rw [List.contains_iff_mem] at h
          refine ⟨⟨hn, hj⟩, fun e => ⟨.inl, ?_⟩⟩
          rintro (he | he)
          · exact he
          · rw [(key e).1 he]; exact h
        · rename_i h
          rw [List.contains_iff_mem] at h
          refine ⟨⟨?_, ?_⟩, fun e => ?_⟩
          · rw [List.nodup_append]
            refine ⟨hn, by simp, ?_⟩
            intro x hx y hy
            rw [List.mem_singleton] at hy
            rintro rfl
            subst hy
            exact h hx
          · intro e he
            rcases List.mem_append.1 he with he | he
            · exact hj e he
            · rw [List.mem_singleton] at he
              subst he
              exact ⟨f, hf, by simp [hk]⟩
          · rw [List.mem_append, List.mem_singleton, key]

theorem checkDirs_spec {feat : String → String → Option (List (String × DirFeature))} {f : List (String × DirFeature)}
    {node attr : String} (hf : feat node attr = some f) (d : List (String × Val)) :
    ∀ {errs : List DirError}, DirInv feat errs →
    DirInv feat (d.foldl (fun e p => checkDir f node attr e p.1 p.2) errs) ∧
    ∀ e, e ∈ d.foldl (fun e p => checkDir f node attr e p.1 p.2) errs ↔ e ∈ errs ∨ (e.node = node ∧ e.attr = attr ∧
      ∃ v, (e.dir, v) ∈ d ∧ ((e.value = none ∧ f.lookup e.dir = none) ∨
       (e.value = some v ∧ ∃ l, f.lookup e.dir = some (.oneOf l) ∧ v ∉ l ∧ Val.str (typeName v) ∉ l))) := by
  induction d with
  | nil => intro errs hi; exact ⟨hi, fun e => by simp⟩
  | cons p r ih =>
    intro errs hi
    obtain ⟨k, v⟩ := p
    obtain ⟨h1, h2⟩ := checkDir_spec hf hi k v
    obtain ⟨h3, h4⟩ := ih h1
    refine ⟨h3, fun e => ?_⟩
    rw [List.foldl_cons, h4, h2]
    constructor
    · rintro ((h | ⟨a, b, rfl, c⟩) | ⟨a, b, w, hw, c⟩)
      · exact .inl h
      · exact .inr ⟨a, b, v, List.mem_cons_self .., c⟩
      · exact .inr ⟨a, b, w, List.mem_cons_of_mem _ hw, c⟩
    · rintro (h | ⟨a, b, w, hw, c⟩)
      · exact .inl (.inl h)
      · rcases List.mem_cons.1 hw with hw | hw
        · cases hw
          exact .inl (.inr ⟨a, b, rfl, c⟩)
        · exact .inr ⟨a, b, w, hw, c⟩

theorem checkDirections_spec (feat : String → String → Option (List (String × DirFeature))) (l : List DirCheck) :
    ∀ errs : List DirError, DirInv feat errs →
    DirInv feat (l.foldl (checkAttrDirection feat) errs) ∧
    ∀ e, e ∈ l.foldl (checkAttrDirection feat) errs ↔ e ∈ errs ∨ JustifiedError feat l e := by
  induction l with
  | nil => intro errs hi; exact ⟨hi, fun e => by simp [JustifiedError]⟩
  | cons c r ih =>
    intro errs hi
    have step : DirInv feat (checkAttrDirection feat errs c) ∧
        ∀ e, e ∈ checkAttrDirection feat errs c ↔ e ∈ errs ∨ JustifiedError feat [c] e := by
      obtain ⟨cn, ca, cv⟩ := c
      have other : (∀ d, cv ≠ .dict d) ∨ feat cn ca = none →
          checkAttrDirection feat errs ⟨cn, ca, cv⟩ = errs ∧ ∀ e, ¬ JustifiedError feat [⟨cn, ca, cv⟩] e := by
        intro ho
        refine ⟨?_, ?_⟩
        · unfold checkAttrDirection
          dsimp only
          split
          · rename_i d f hf
            rcases ho with ho | ho
            · exact absurd rfl (ho d)
            · rw [ho] at hf; cases hf
          · rfl
        · rintro e ⟨c, hc, -, -, h⟩
          rw [List.mem_singleton] at hc
          subst hc
          cases he : e.value with
          | none =>
            rw [he] at h
            obtain ⟨d, f, hd, hf, -⟩ := h
            rcases ho with ho | ho
            · exact ho d hd
            · dsimp only at hf; rw [ho] at hf; cases hf
          | some v =>
            rw [he] at h
            obtain ⟨d, f, l, hd, hf, -⟩ := h
            rcases ho with ho | ho
            · exact ho d hd
            · dsimp only at hf; rw [ho] at hf; cases hf
      by_cases hd : ∃ d, cv = .dict d
      · obtain ⟨d, rfl⟩ := hd
        cases hf : feat cn ca with
        | none =>
          obtain ⟨h1, h2⟩ := other (.inr hf)
          rw [h1]
          exact ⟨hi, fun e => ⟨.inl, fun h => h.resolve_right (h2 e)⟩⟩
        | some f =>
          have hr : checkAttrDirection feat errs ⟨cn, ca, .dict d⟩ =
              d.foldl (fun e p => checkDir f cn ca e p.1 p.2) errs := by
            unfold checkAttrDirection
            dsimp only
            rw [hf]
          rw [hr]
          obtain ⟨h1, h2⟩ := checkDirs_spec hf d hi
          refine ⟨h1, fun e => ?_⟩
          rw [h2]
          refine or_congr_right ?_
          unfold JustifiedError
          simp only [List.mem_singleton, exists_eq_left]
          constructor
          · rintro ⟨a, b, v, hv, ⟨c1, c2⟩ | ⟨c1, l, c2, c3⟩⟩
            · refine ⟨a.symm, b.symm, ?_⟩
              rw [c1]
              exact ⟨d, f, rfl, hf, ⟨v, hv⟩, c2⟩
            · refine ⟨a.symm, b.symm, ?_⟩
              rw [c1]
              exact ⟨d, f, l, rfl, hf, hv, c2, c3⟩
          · rintro ⟨a, b, h⟩
            refine ⟨a.symm, b.symm, ?_⟩
            cases he : e.value with
            | none =>
              rw [he] at h
              obtain ⟨d', f', hd', hf', ⟨v, hv⟩, hl⟩ := h
              cases hd'
              dsimp only at hf'
              rw [hf] at hf'
              cases hf'
              exact ⟨v, hv, .inl ⟨rfl, hl⟩⟩
            | some v =>
              rw [he] at h
              obtain ⟨d', f', l, hd', hf', hv, hl, hb⟩ := h
              cases hd'
              dsimp only at hf'
              rw [hf] at hf'
              cases hf'
              exact ⟨v, hv, .inr ⟨rfl, l, hl, hb⟩⟩
      · obtain ⟨h1, h2⟩ := other (.inl fun d h => hd ⟨d, h⟩)
        rw [h1]
        exact ⟨hi, fun e => ⟨.inl, fun h => h.resolve_right (h2 e)⟩⟩
    obtain ⟨h1, h2⟩ := ih _ step.1
    refine ⟨h1, fun e => ?_⟩
    rw [List.foldl_cons, h2, step.2]
    unfold JustifiedError
    simp only [List.mem_cons, exists_eq_left, List.not_mem_nil, or_false, exists_eq_or_imp, or_assoc]

/-- C142: error messages are exactly the unsupported directions and values found in BGP policy attributes, and every one of them is
reported once for a node, regardless of the number of neighbors. -/
theorem C142_reported (feat : String → String → Option (List (String × DirFeature))) (l : List DirCheck) :
    (checkDirections feat l).Nodup ∧ ∀ e, e ∈ checkDirections feat l ↔ JustifiedError feat l e := by
  obtain ⟨h1, h2⟩ := checkDirections_spec feat l [] ⟨List.nodup_nil, by simp⟩
  refine ⟨h1.1, fun e => ?_⟩
  rw [show checkDirections feat l = l.foldl (checkAttrDirection feat) [] from rfl, h2]
  simp

/-- C142: nothing is reported exactly when all attributes are acceptable. -/
theorem C142_clean (feat : String → String → Option (List (String × DirFeature))) (l : List DirCheck) :
    checkDirections feat l = [] ↔
      ∀ c ∈ l, (∀ kw, ¬ BadDirection feat c kw) ∧ ∀ kw v, ¬ BadDirValue feat c kw v := by
  have h := (C142_reported feat l).2
  rw [List.eq_nil_iff_forall_not_mem]
  constructor
  · intro hn c hc
    refine ⟨fun kw hb => hn ⟨c.node, c.attr, kw, none⟩ ((h _).2 ⟨c, hc, rfl, rfl, hb⟩),
      fun kw v hb => hn ⟨c.node, c.attr, kw, some v⟩ ((h _).2 ⟨c, hc, rfl, rfl, hb⟩)⟩
  · intro hg e he
    obtain ⟨c, hc, -, -, hx⟩ := (h e).1 he
    cases hv : e.value with
    | none => rw [hv] at hx; exact (hg c hc).1 _ hx
    | some v => rw [hv] at hx; exact (hg c hc).2 _ _ hx

/-- Non-vacuity: a device that supports inbound bandwidth only, as a number; two neighbors with the same errors. -/
example :
    let feat := fun n a => if n = "r1" ∧ a = "bandwidth" then some [("in", DirFeature.oneOf [.str "int"])] else none
    let c : DirCheck := ⟨"r1", "bandwidth", .dict [("in", .str "auto"), ("out", .int 10)]⟩
    checkDirections feat [c, c, ⟨"r1", "bandwidth", .dict [("in", .int 5)]⟩, ⟨"r2", "bandwidth", .dict [("out", .int 5)]⟩] =
      [⟨"r1", "bandwidth", "in", some (.str "auto")⟩, ⟨"r1", "bandwidth", "out", none⟩] := by
  decide +kernel

end Netlab
