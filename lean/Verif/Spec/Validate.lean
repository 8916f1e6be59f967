import Verif.Model.Val
/-!
# Which attributes are known, and where an unknown attribute can hide

Attribute definitions are read from YAML files (`netsim/defaults/attributes.yml`,
`netsim/modules/*.yml`); the notions below describe the meaning of those files.
-/

namespace Netlab.Spec

/-- `k` is listed in `x` (a list of names, a single name, or a dictionary with that key) -/
def Listed (x : Val) (k : String) : Prop :=
  (∃ l, x = .list l ∧ Val.str k ∈ l) ∨ x = .str k ∨ ∃ d, x = .dict d ∧ k ∈ d.map (·.1)

/-- Names starting with an underscore are internal -/
def Internal (k : String) : Prop := ∃ r, k.toList = '_' :: r

/-- The namespaces used to validate an object: the primary namespace, other listed
namespaces, and whatever they include with `_namespace` -/
inductive NsReach (A : List (String × Val)) (primary : Option String) (names : String → Prop) :
    String → Prop
  | primary {a} : primary = some a → NsReach A primary names a
  | listed {a} : names a → (A.lookup a).isSome → NsReach A primary names a
  | included {a d x b} : NsReach A primary names a → A.lookup a = some (.dict d) →
      d.lookup "_namespace" = some x → (∃ l, x = .list l ∧ Val.str b ∈ l) ∨ x = .str b →
      (A.lookup b).isSome → NsReach A primary names b

/-- `k` is a known attribute: it is defined in one of the namespaces (and not excluded from
propagation, unless it is the primary namespace) or it is an internal attribute of one of them -/
def KnownAttr (A : List (String × Val)) (primary : Option String) (names : String → Prop)
    (k : String) : Prop :=
  ∃ ns d, NsReach A primary names ns ∧ A.lookup ns = some (.dict d) ∧
    ((k ∈ d.map (·.1) ∧ (primary = some ns ∨
        ∀ np, A.lookup (ns ++ "_no_propagate") = some np → ¬ Listed np k)) ∨
      ∃ i, A.lookup (ns ++ "_internal") = some (.dict i) ∧ k ∈ i.map (·.1))

/-- The object is validated as a dictionary with attributes: no namespace is just a name of a
data type -/
def IsObject (A : List (String × Val)) (primary : Option String) (names : String → Prop) : Prop :=
  ∀ ns t, NsReach A primary names ns → A.lookup ns ≠ some (.str t)

/-- Attribute `k` is defined as `t` in the primary namespace and nowhere else -/
def Defines (A : List (String × Val)) (primary : Option String) (names : String → Prop)
    (k : String) (t : Val) : Prop :=
  (∀ ns d, A.lookup ns = some (.dict d) → (d.map (·.1)).Nodup) ∧
  ∃ ns d, primary = some ns ∧ A.lookup ns = some (.dict d) ∧ d.lookup k = some t ∧
    (∀ ns' d', NsReach A primary names ns' → ns' ≠ ns → A.lookup ns' = some (.dict d') →
      k ∉ d'.map (·.1)) ∧
    (∀ ns' i, NsReach A primary names ns' → A.lookup (ns' ++ "_internal") = some (.dict i) →
      k ∉ i.map (·.1))

/-- A data type given by the name of a user-defined type stands for its definition -/
def TypeDef (topo : List (String × Val)) (dt d : Val) : Prop :=
  (∃ s, dt = .str s ∧ topo.lookup s = some d) ∨ (dt = d ∧ ∀ s, dt ≠ .str s)

/-- The definition describes a dictionary with the given known attributes -/
def KeysOf (d : List (String × Val)) (keys : List (String × Val)) : Prop :=
  (d.lookup "type" = some (.str "dict") ∧ d.lookup "_keys" = some (.dict keys)) ∨
  (d.lookup "type" = none ∧ (∀ k t, (k, t) ∈ keys ↔ (k, t) ∈ d ∧ ¬ Internal k) ∧
    ∀ k, ¬ Internal k → keys.lookup k = d.lookup k)

/-- What the validation needs to know about the rest of the attribute definitions: user-defined
data types, attributes of modules, and which values the validator of a simple data type accepts -/
structure Tables where
  topo : List (String × Val)
  modAttrs : String → List (String × Val)
  accepts : String → Val → Prop

/-- No alternate data type accepts a value of this kind (`kind` is its Python type) -/
def NoAlternative (T : Tables) (d : List (String × Val)) (kind : String) (v : Val) : Prop :=
  ∀ x a, d.lookup "_alt_types" = some x → Listed x a → a ≠ kind ∧ ¬ T.accepts a v

/-- Where a value is validated: as an object with known attributes in the given namespaces, or as
a value of a data type -/
inductive Place where
  | obj (A : List (String × Val)) (primary : Option String) (names : String → Prop)
      (modules : List String) (inModule : Bool)
  | item (A : List (String × Val)) (modules : List String) (inModule : Bool) (dt : Val)

/-- The value contains an attribute (at any depth) which is not a known attribute of the
object, an attribute of an enabled module, or an internal attribute -/
inductive Unknown (T : Tables) : Place → Val → Prop
  /-- an unknown attribute of the object -/
  | attr {A primary names modules inModule d k} :
      IsObject A primary names →
      k ∈ d.map (·.1) → ¬ Internal k → ¬ KnownAttr A primary names k →
      (k ∉ modules ∨ inModule = true) →
      Unknown T (.obj A primary names modules inModule) (.dict d)
  /-- an unknown attribute in the data of an enabled module -/
  | module {A primary names modules d k v} :
      IsObject A primary names →
      (k, v) ∈ d → ¬ Internal k → ¬ KnownAttr A primary names k → k ∈ modules →
      Unknown T (.obj (T.modAttrs k) primary (NsReach A primary names) modules true) v →
      Unknown T (.obj A primary names modules false) (.dict d)
  /-- inside the value of a known attribute -/
  | value {A primary names modules inModule d k v t} :
      IsObject A primary names →
      (k, v) ∈ d → ¬ Internal k → Defines A primary names k t →
      Unknown T (.item A modules inModule t) v →
      Unknown T (.obj A primary names modules inModule) (.dict d)
  /-- an unknown key of a dictionary with known keys -/
  | key {A modules inModule dt def_ keys d k} :
      TypeDef T.topo dt (.dict def_) → KeysOf def_ keys → NoAlternative T def_ "Box" (.dict d) →
      k ∈ d.map (·.1) → k ∉ keys.map (·.1) → Unknown T (.item A modules inModule dt) (.dict d)
  /-- inside the value of a known key -/
  | keyValue {A modules inModule dt def_ keys d k v t} :
      TypeDef T.topo dt (.dict def_) → KeysOf def_ keys → def_.lookup "_subtype" = none →
      NoAlternative T def_ "Box" (.dict d) →
      (k, v) ∈ d → keys.lookup k = some t → Unknown T (.item A modules inModule t) v →
      Unknown T (.item A modules inModule dt) (.dict d)
  /-- inside an element of a dictionary in which all elements have the same type -/
  | dictElement {A modules inModule dt def_ d k v t} :
      TypeDef T.topo dt (.dict def_) → def_.lookup "type" = some (.str "dict") →
      def_.lookup "_subtype" = some t →
      (∀ s, t = .str s → A.lookup s = none) → NoAlternative T def_ "Box" (.dict d) →
      (k, v) ∈ d → Unknown T (.item A modules inModule t) v →
      Unknown T (.item A modules inModule dt) (.dict d)
  /-- inside an element of a dictionary in which all elements are objects of the same kind -/
  | dictObject {A modules inModule dt def_ d k v s} :
      TypeDef T.topo dt (.dict def_) → def_.lookup "type" = some (.str "dict") →
      def_.lookup "_subtype" = some (.str s) →
      (A.lookup s).isSome → NoAlternative T def_ "Box" (.dict d) →
      (k, v) ∈ d → Unknown T (.obj A (some s) (· = s) modules inModule) v →
      Unknown T (.item A modules inModule dt) (.dict d)
  /-- inside an element of a list -/
  | listElement {A modules inModule dt def_ l v t} :
      TypeDef T.topo dt (.dict def_) → def_.lookup "type" = some (.str "list") →
      def_.lookup "_list_to_dict" = none → def_.lookup "_subtype" = some t →
      (∀ s, t = .str s → A.lookup s = none) → NoAlternative T def_ "BoxList" (.list l) →
      v ∈ l → Unknown T (.item A modules inModule t) v →
      Unknown T (.item A modules inModule dt) (.list l)
  /-- inside an element of a list of objects -/
  | listObject {A modules inModule dt def_ l v s} :
      TypeDef T.topo dt (.dict def_) → def_.lookup "type" = some (.str "list") →
      def_.lookup "_list_to_dict" = none → def_.lookup "_subtype" = some (.str s) →
      (A.lookup s).isSome → NoAlternative T def_ "BoxList" (.list l) →
      v ∈ l → Unknown T (.obj A (some s) (· = s) modules inModule) v →
      Unknown T (.item A modules inModule dt) (.list l)

end Netlab.Spec
