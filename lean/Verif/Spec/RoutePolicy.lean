import Verif.Model.RoutePolicy
/-!
# Specification vocabulary for routing policies
-/

namespace Netlab.Spec

/-- Value of an attribute of `set` or `match` -/
def SubVal (s : Option RmSub) (k : String) : Option RmVal :=
  match s with
  | some (.dict d) => d.lookup k
  | _ => none

/-- AS path prepending given as a text or a number is the AS path -/
def PrependPath (k : String) (v : Option RmVal) : Option RmVal :=
  if k = "prepend" then
    v.map (fun x => match x with | .text s => .dict [("path", s)] | .num n => .dict [("path", toString n)] | y => y)
  else v

/-- The attribute of an entry wins over the attribute of `set` or `match` when it is one of the shortcuts. -/
def ShortcutVal (kws : List String) (top : List (String × RmVal)) (s : Option RmSub) (k : String) : Option RmVal :=
  if k ∈ kws then (top.lookup k).or (SubVal s k) else SubVal s k

/-- The entry without shortcuts -/
def NormalizedEntry (setKw matchKw : List String) (idx : Nat) (e e' : RmEntry) : Prop :=
  (∀ k ∈ setKw ++ matchKw, e'.top.lookup k = none) ∧
  (∀ k, SubVal e'.set k = PrependPath k (ShortcutVal setKw e.top e.set k)) ∧
  (∀ k, SubVal e'.mtch k = ShortcutVal matchKw e.top e.mtch k) ∧
  e'.top.lookup "action" = some ((e.top.lookup "action").getD (.text "permit")) ∧
  e'.top.lookup "sequence" = some ((e.top.lookup "sequence").getD (.num (10 * (idx + 1)))) ∧
  ∀ k, k ∉ setKw ++ matchKw → k ≠ "action" → k ≠ "sequence" → e'.top.lookup k = e.top.lookup k

/-- A shortcut has no place to go: `set` or `match` is there, but it is not a dictionary -/
def NoPlace (kws : List String) (top : List (String × RmVal)) (s : Option RmSub) : Prop :=
  s = some .other ∧ ∃ k ∈ kws, top.lookup k ≠ none

/-- The device supports a keyword with the value -/
def KwOk (f : RmFeat) (kw : String) (v : RmVal) : Prop :=
  (∃ l, f = .list l ∧ kw ∈ l) ∨
  ∃ d, f = .dict d ∧ (d.lookup kw = some (.flag true) ∨
    ∃ o, d.lookup kw = some (.opts o) ∧ o ≠ [] ∧ ∀ s, v = .dict s → ∀ x ∈ s, o.lookup x.1 = some true)

/-- The device supports all entries of a policy -/
def PolicyOk (f : Option RmFeatures) (l : List (RpEntry RmBody)) : Prop :=
  ∃ g, f = some g ∧ ∀ e ∈ l, (∀ x ∈ e.body.set, KwOk g.set x.1 x.2) ∧ ∀ x ∈ e.body.mtch, KwOk g.mtch x.1 (.text x.2)

/-- Entries of a node or global object: the node entries and global entries with other sequence numbers -/
def Merges {α : Type} (node glob : Option (List (RpEntry α))) (r : List (RpEntry α)) : Prop :=
  (node ≠ none ∨ glob ≠ none) ∧
  ∀ e, e ∈ r ↔ e ∈ node.getD [] ∨ (e ∈ glob.getD [] ∧ ∀ n ∈ node.getD [], n.sequence ≠ e.sequence)

/-- The entry uses the filter -/
def UsesFilter (e : RpEntry RmBody) (t : RFilt) (n : String) : Prop :=
  ∃ kw, e.body.mtch.lookup kw = some n ∧
    ((kw = "prefix" ∧ t = .pfx) ∨ (kw = "nexthop" ∧ t = .pfx) ∨ (kw = "aspath" ∧ t = .aspath) ∨ (kw = "community" ∧ t = .community))

/-- Policy of a node -/
def NodePolicy {α : Type} (st : RpState α) (n : String) : Option (List (RpEntry RmBody)) := (st.pols.lookup n).join

/-- Filter of a node -/
def NodeFilter {α : Type} (st : RpState α) (t : RFilt) (n : String) : Option (List (RpEntry α)) :=
  (((st.filts.get t).lookup n).join).map RObj.entries

/-- A community list gets entries from the global list of the same name -/
def GlobalCommunity {α : Type} (env : RpEnv α) (st : RpState α) (n : String) : Prop :=
  ∃ e ∈ (env.filters .community n).getD [], ∀ m ∈ (NodeFilter st .community n).getD [], m.sequence ≠ e.sequence

end Netlab.Spec
