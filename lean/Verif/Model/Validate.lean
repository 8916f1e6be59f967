import Verif.Model.Box
/-!
# Attribute validation (`netsim/data/validate.py`)

A validation function returns the number of errors it logged and the (possibly rewritten)
data.  `log.fatal` and uncaught exceptions stop netlab; they count as one more error.  The boolean
return values of the functions are only used by their callers to compute another boolean
value which is never used by `validate_attributes`; they are not modelled.

The functions call each other recursively over the data and over the attribute definitions
(user-defined types can be recursive).  The recursion is modelled with a `depth` argument which
stands for Python's recursion limit: reaching depth zero is the `RecursionError`, i.e. an error.
-/

namespace Netlab

/-- A `Box`, see `netsim/data/__init__.py:15-16` (`get_empty_box`) -/
abbrev VDict := List (String × Val)

/-- `k in d` for a dictionary, for example `netsim/data/validate.py:143` -/
def VDict.has (d : VDict) (k : String) : Bool := (d.lookup k).isSome

/-- The strings in a list, or a single string turned into a list
(`netsim/data/__init__.py` `get_a_list`; `netsim/data/validate.py:477`).  Elements of other types
(never used in the attribute definitions) are ignored. -/
def strList : Val → List String
  | .list l => l.filterMap (fun v => match v with | .str s => some s | _ => none)
  | .str s => [s]
  | _ => []

/-- `k in x` for a list or a dictionary, for example `netsim/data/validate.py:107` -/
def valHas (x : Val) (k : String) : Bool :=
  match x with
  | .dict d => VDict.has d k
  | v => (strList v).contains k

/-- Python's `k.startswith('_')`, for example `netsim/data/validate.py:372` -/
def isInternal (k : String) : Bool := k.toList.head? == some '_'

/-- Results of a validation function (`netsim/data/validate.py:445-568`): the number of errors
and the data after validation -/
structure VRes where
  errs : Nat
  val : Val
  deriving Inhabited

/-- What the validation functions get from global variables and from the validators in
`netsim/data/types.py`:
* `tv name attrs v`: `must_be_<name>` (other than `must_be_dict` and `must_be_list`) and
  `post_validation` (`types.py:309-340`): `none` = there is an error, `some w` = the value is
  `w` after the transformation;
* `hasTv name`: there is such a validator;
* `hasFalse name`: the `false_value` of the validator (`types.py:342-344`);
* `inValues allowed v`: the value passes `check_valid_values` (`types.py:180-218`);
* `topoAttrs`: `topo_attributes` (`validate.py:717`);
* `modAttrs m`: `topology.defaults[m].attributes` (`validate.py:683`);
* `allModules`: `list_of_modules` (`validate.py:718`). -/
structure VCtx where
  tv : String → VDict → Val → Option Val
  hasTv : String → Bool
  hasFalse : String → Option Val
  inValues : Val → Val → Bool
  topoAttrs : VDict
  modAttrs : String → VDict
  allModules : List String

mutual
  /-- `netsim/data/validate.py:33-39` (`remove_required_flag`) -/
  def removeRequired : Val → Val
    | .dict d => .dict (removeRequiredD d)
    | v => v
  /-- The dictionary part of `netsim/data/validate.py:33-39` (`remove_required_flag`) -/
  def removeRequiredD : VDict → VDict
    | [] => []
    | p :: r => (match p with
      | (k, v) => if k == "_required" then removeRequiredD r
                  else (k, removeRequired v) :: removeRequiredD r)
end

/-- `netsim/data/validate.py:41-67` (`get_attribute_namespaces`).  The first argument is the
number of remaining iterations (at most 100), `none` is the fatal error. -/
def attrNamespaces (attributes : VDict) : Nat → Bool → List String → List String → Option (List String)
  | _, _, [], acc => some acc
  | 0, _, _ :: _, _ => none
  | n + 1, first, ns :: rest, acc =>
    if !(VDict.has attributes ns) && !first then attrNamespaces attributes n false rest acc
    else
      let acc' := if acc.contains ns then acc else acc ++ [ns]
      match attributes.lookup ns with
      | some (.dict d) =>
        match d.lookup "_namespace" with
        | some x => attrNamespaces attributes n false (rest ++ strList x) acc'
        | none => attrNamespaces attributes n false rest acc'
      | _ => attrNamespaces attributes n false rest acc'

/-- Outcome of `get_valid_attributes`: a type name, a dictionary of attributes or a fatal error
(`netsim/data/validate.py:77-117`) -/
inductive VValid where
  | type (t : String)
  | attrs (d : VDict)
  | fatal

/-- `netsim/data/validate.py:104-113`: the attributes of one namespace -/
def nsAttrs (attributes : VDict) (first : Bool) (ns : String) (d : VDict) : VDict :=
  if first then d
  else
    let d' := match attributes.lookup (ns ++ "_no_propagate") with
      | some np => d.filter (fun p => !(valHas np p.1))
      | none => d
    removeRequiredD d'

/-- `netsim/data/validate.py:113-115`: add the internal attributes of a namespace -/
def addInternal (attributes : VDict) (ns : String) (valid : VDict) : VDict :=
  match attributes.lookup (ns ++ "_internal") with
  | some (.dict i) => mergeDict valid i
  | _ => valid

/-- `netsim/data/validate.py:77-117` (`get_valid_attributes`): `first` is true for index zero. -/
def validAttrs (attributes : VDict) : Bool → List String → VDict → VValid
  | _, [], valid => .attrs valid
  | first, ns :: rest, valid =>
    match attributes.lookup ns with
    | none => validAttrs attributes false rest valid
    | some (.str t) => if valid.isEmpty then .type t else .fatal
    | some (.dict d) =>
      validAttrs attributes false rest
        (addInternal attributes ns (mergeDict (nsAttrs attributes first ns d) valid))
    | some _ => .fatal

/-- `netsim/data/validate.py:137-150` (`check_required_keys`): the number of errors -/
def requiredErrs (data attributes : VDict) : Nat :=
  (attributes.filter (fun p => (match p.2 with
    | .dict t => (match t.lookup "_required" with | some r => r.truthy | none => false)
    | _ => false) && !(VDict.has data p.1))).length

/-- `netsim/data/validate.py:414-433` (the loop in `check_valid_with`): `report` is the list of
attributes already reported -/
def validWithLoop (keys : VDict) (all : List String) : List String → List String → Nat
  | [], _ => 0
  | a :: rest, report =>
    match keys.lookup a with
    | some (.dict t) =>
      match t.lookup "_valid_with" with
      | some vw =>
        if report.contains a then validWithLoop keys all rest report
        else
          let inv := all.filter (fun x => x != a && !(valHas vw x) && !(isInternal x))
          if inv.isEmpty then validWithLoop keys all rest report
          else 1 + validWithLoop keys all rest (report ++ inv)
      | none => validWithLoop keys all rest report
    | _ => validWithLoop keys all rest report

/-- `netsim/data/validate.py:411`: the definitions of keys -/
def keysOrSelf (dataType : VDict) : VDict :=
  match dataType.lookup "_keys" with
  | some (.dict k) => k
  | _ => dataType

/-- `netsim/data/validate.py:394-433` (`check_valid_with`): the number of errors -/
def validWithErrs (data dataType : VDict) : Nat :=
  validWithLoop (keysOrSelf dataType) (data.map (·.1)) (data.map (·.1)) []

/-- `netsim/data/validate.py:358-385` (`transform_validation_shortcuts`); `none` = fatal error -/
def shortcuts (topoAttrs : VDict) (dt : Val) : Option VDict :=
  let dt' := match dt with
    | .str s => (match topoAttrs.lookup s with | some t => t | none => .str s)
    | v => v
  match dt' with
  | .str s => some [("type", .str s)]
  | .dict d =>
    if VDict.has d "type" then some d
    else some (setKey (setKey (d.filter (fun p => isInternal p.1)) "type" (.str "dict"))
      "_keys" (.dict (d.filter (fun p => !(isInternal p.1)))))
  | .list l => some [("type", .str "list"), ("valid_values", .list l)]
  | _ => none

/-- `type(data).__name__` for data in a `Box` (`netsim/data/validate.py:308`,
`netsim/data/validate.py:501`) -/
def typeName : Val → String
  | .null => "NoneType"
  | .bool _ => "bool"
  | .int _ => "int"
  | .str _ => "str"
  | .list _ => "BoxList"
  | .dict _ => "Box"

/-- `netsim/data/types.py:437-457`: `must_be_list` and `must_be_dict`; everything else comes
from the context.  `make_list` is handled as an attribute. -/
def mustBe (c : VCtx) (name : String) (attrs : VDict) (v : Val) : Option Val :=
  if name == "dict" then (if v.isDict then some v else none)
  else if name == "list" then
    match v with
    | .list l => some (.list l)
    | .str s => some (.list [.str s])
    | .int i => some (.list [.int i])
    | .bool b => some (.list [.bool b])
    | v => (match attrs.lookup "make_list" with
      | some m => if m.truthy then some (.list [v]) else none
      | none => none)
  else c.tv name attrs v

/-- Is there a function called `must_be_<name>` (`netsim/data/validate.py:521`)? -/
def hasValidator (c : VCtx) (name : String) : Bool := name == "dict" || name == "list" || c.hasTv name

/-- `netsim/data/validate.py:307-328` (`validate_alt_type`): `some w` = a matching type was
found and the value is `w`. -/
def altType (c : VCtx) (alts : List String) (v : Val) : Option Val :=
  if alts.contains (typeName v) then some v
  else alts.findSome? (fun at_ => if hasValidator c at_ then mustBe c at_ [] v else none)

/-- The `false_value` of a validator (`netsim/data/types.py:437`, `netsim/data/types.py:455`,
`netsim/data/types.py:459`) -/
def falseValue (c : VCtx) (name : String) : Option Val :=
  if name == "dict" then some (.dict [])
  else if name == "list" then some (.list [])
  else c.hasFalse name

/-- `netsim/data/types.py:259-296` (`get_value_to_check`) for an existing key.  `none` = the
key was removed from the parent dictionary, which crashes the loop over the keys
in `netsim/data/validate.py:217` or `netsim/data/validate.py:662` (dictionary changed size during
iteration). -/
def getValue (c : VCtx) (name : String) (dt : VDict) (v : Val) : Option Val :=
  let v1 : Val := match v with
    | .null =>
      if name == "dict" || name == "list" then
        (match dt.lookup "create_empty" with
        | some ce => if ce.truthy then (if name == "dict" then .dict [] else .list []) else .null
        | none => .null)
      else .null
    | v => v
  match v1, dt.lookup "true_value" with
  | .bool true, some tvl => if tvl matches .null then some v1 else some tvl
  | .bool false, some tvl => if tvl matches .null then some v1 else falseValue c name
  | _, _ => some v1

/-- `netsim/data/validate.py:182-211` and `netsim/data/validate.py:269-294`: an element with type
`_subtype` -/
def subCheck (attributes : VDict) (item : Val → Val → VRes) (obj : String → Val → VRes)
    (st v : Val) : VRes :=
  match st with
  | .str s => if VDict.has attributes s then obj s v else item st v
  | _ => item st v

/-- `netsim/data/validate.py:217-236`: an element of a dictionary with known keys -/
def keyCheck (keys : VDict) (item : Val → Val → VRes) (k : String) (v : Val) : VRes :=
  match keys.lookup k with
  | none => ⟨1, v⟩
  | some t => item t v

/-- `netsim/data/validate.py:157-239` (`validate_dictionary`).  `item dt v` is `validate_item`
for an element of the dictionary and `obj t v` is `validate_attributes` for a user-defined
type. -/
def vDictionary (c : VCtx) (attributes : VDict) (item : Val → Val → VRes) (obj : String → Val → VRes)
    (dt data : VDict) : Nat × VDict :=
  let e1 := match dt.lookup "_keytype" with
    | some (.str kt) =>
      (data.filter (fun p => (if hasValidator c kt then mustBe c kt [] (.str p.1) else none).isNone)).length
    | _ => 0
  let r2 : List (String × VRes) := match dt.lookup "_subtype" with
    | some st =>
      data.map (fun p => (p.1, subCheck attributes item obj st p.2))
    | none => data.map (fun p => (p.1, ⟨0, p.2⟩))
  let e2 := (r2.map (fun p => p.2.errs)).sum
  let data2 := r2.map (fun p => (p.1, p.2.val))
  match dt.lookup "_keys" with
  | some (.dict keys) =>
    let r3 := data2.map (fun p => (p.1, keyCheck keys item p.1 p.2))
    (e1 + e2 + (r3.map (fun p => p.2.errs)).sum + requiredErrs data2 keys,
      r3.map (fun p => (p.1, p.2.val)))
  | _ => (e1 + e2, data2)

/-- `netsim/data/validate.py:249-302` (`validate_list`): the element is replaced only by the
result of an alternate type, a failed validation (null) or an empty value, see
`netsim/data/validate.py:299-300`.  `item` returns the value to store.  A string or an integer
in a list of lists (`_subtype` of type list with its own `_subtype`) is not modelled. -/
def vList (attributes : VDict) (item : Val → Val → VRes) (obj : String → Val → VRes)
    (dt : VDict) (data : List Val) : Nat × List Val :=
  match dt.lookup "_subtype" with
  | none => (0, data)
  | some st =>
    let r := data.map (fun v => subCheck attributes item obj st v)
    ((r.map (·.errs)).sum, r.map (·.val))

/-- `netsim/data/validate.py:512-517`: attributes passed to the validator -/
def validationAttrs (dt : VDict) : VDict :=
  dt.filter (fun p => !(isInternal p.1) && p.1 != "type")

/-- `netsim/data/validate.py:531-568`: the part of `validate_item` after the alternate types,
starting with the call of the validator -/
def vItemCheck (c : VCtx) (attributes : VDict) (item : Bool → Val → Val → VRes)
    (obj : String → Val → VRes) (parent : Bool) (dt : VDict) (v : Val) : VRes :=
  match dt.lookup "type" with
  | some (.str name) =>
    if !(hasValidator c name) then ⟨1, v⟩
    else
      match (if parent then getValue c name dt v else some v) with
      | none => ⟨1, v⟩
      | some v1 =>
        match mustBe c name (validationAttrs dt) v1 with
        | none => ⟨1, if parent then v1 else .null⟩
        | some v2 =>
          let e := match dt.lookup "valid_values" with
            | some vv => if vv.truthy && !(c.inValues vv v2) then 1 else 0
            | none => 0
          if !v2.truthy then ⟨e, v2⟩
          else
            let v3 := if parent then v2 else v
            match name == "dict", v3 with
            | true, .dict d =>
              let r := vDictionary c attributes (item true) obj dt d
              ⟨e + validWithErrs d dt + r.1, .dict r.2⟩
            | _, .list l =>
              if name == "list" then
                let r := vList attributes (item false) obj dt l
                ⟨e + r.1, .list r.2⟩
              else ⟨e, v3⟩
            | _, _ => ⟨e, v3⟩
  | _ => ⟨1, v⟩

/-- `netsim/data/validate.py:487-493`: conversion of a list into a dictionary.  Dictionary keys
made from list elements other than strings are left out. -/
def listToDict (parent : Bool) (dt : VDict) (v : Val) : Val :=
  match v with
  | .list l =>
    (match dt.lookup "_list_to_dict" with
    | some x => if parent then .dict ((strList (.list l)).map (fun k => (k, x))) else .list l
    | none => .list l)
  | v => v

/-- `netsim/data/validate.py:487-510`: conversion of a list into a dictionary and alternate
types -/
def vItemAlt (c : VCtx) (attributes : VDict) (item : Bool → Val → Val → VRes)
    (obj : String → Val → VRes) (parent : Bool) (dt : VDict) (v : Val) : VRes :=
  let v' := listToDict parent dt v
  match dt.lookup "_alt_types" with
  | some alts =>
    if (dt.lookup "type").any (fun t => match t with | .str n => n == typeName v' | _ => false) then
      vItemCheck c attributes item obj parent dt v'
    else match altType c (strList alts) v' with
      | some w => ⟨0, if w.truthy then w else v'⟩
      | none => vItemCheck c attributes item obj parent dt v'
  | none => vItemCheck c attributes item obj parent dt v'

/-- `netsim/data/validate.py:473-485`: the required modules which are not enabled -/
def missingModules (modules : List String) (d : VDict) : List String :=
  match d.lookup "_requires" with
  | some rq => (strList rq).filter (fun m => !(modules.contains m))
  | none => []

/-- `netsim/data/validate.py:461-485`: the start of `validate_item` -/
def vItemStart (c : VCtx) (attributes : VDict) (modules : List String)
    (item : Bool → Val → Val → VRes) (obj : String → Val → VRes) (parent : Bool) (dt v : Val) : VRes :=
  match dt with
  | .null => ⟨0, v⟩
  | dt =>
    match shortcuts c.topoAttrs dt with
    | none => ⟨1, v⟩
    | some d =>
      let missing := missingModules modules d
      if missing.isEmpty then vItemAlt c attributes item obj parent d v
      else ⟨missing.length, v⟩

/-- The arguments of `validate_attributes` which do not change in the loop
(`netsim/data/validate.py:574-586`): `attributes`, the list of namespaces, the modules enabled for
the object, and whether this is the recursive call for the attributes of a module (`(R)` in
`module_source`).  The ignored prefix is always the underscore. -/
structure VObj where
  attributes : VDict
  attrList : List String
  modules : List String
  nested : Bool

/-- `netsim/data/validate.py:122-131` (`validate_module_can_be_false`); the same test for
`can_be_true` is in `netsim/data/validate.py:671-673`. -/
def canBe (attributes : VDict) (flag : String) (attrList : List String) : Bool :=
  match attributes.lookup flag with
  | some x => attrList.any (fun a => valHas x a)
  | none => false

/-- `x is True` or `x is False` (`netsim/data/validate.py:668-671`) -/
def isBool (b : Bool) : Val → Bool
  | .bool x => x == b
  | _ => false

/-- One iteration of the loop in `netsim/data/validate.py:662-705`.  `modObj m v` is the recursive
validation of module attributes. -/
def vKey (c : VCtx) (o : VObj) (nsList : List String) (valid : VDict)
    (item : Val → Val → VRes) (modObj : String → Val → VRes) (k : String) (v : Val) : VRes :=
  if isInternal k then ⟨0, v⟩
  else match valid.lookup k with
    | some t => item t v
    | none =>
      if o.modules.contains k && !o.nested then
        if isBool false v && canBe o.attributes "can_be_false" nsList then ⟨0, v⟩
        else if isBool true v && canBe (c.modAttrs k) "can_be_true" nsList then ⟨0, v⟩
        else modObj k v
      else ⟨1, v⟩

/-- `netsim/data/validate.py:605-705`: the body of `validate_attributes` -/
def vObject (c : VCtx) (o : VObj) (item : Val → Val → VRes)
    (modObj : List String → String → Val → VRes) (data : Val) : VRes :=
  match attrNamespaces o.attributes 100 true o.attrList [] with
  | none => ⟨1, data⟩
  | some nsList =>
    match validAttrs o.attributes true nsList [] with
    | .fatal => ⟨1, data⟩
    | .type t =>
      if !(hasValidator c t) then ⟨1, data⟩
      else ⟨if (mustBe c t [] data).isNone then 1 else 0, data⟩
    | .attrs valid =>
      match data with
      | .null => ⟨0, .dict []⟩
      | .dict d =>
        let r := d.map (fun p => (p.1, vKey c o nsList valid item (modObj nsList) p.1 p.2))
        ⟨requiredErrs d valid + validWithErrs d valid + (r.map (fun p => p.2.errs)).sum,
          .dict (r.map (fun p => (p.1, p.2.val)))⟩
      | _ => ⟨1, data⟩

mutual
  /-- `netsim/data/validate.py:445-568` (`validate_item`): `depth` is explained at the top of the
  file, `parent` is false for an element of a list, `nested` is the `(R)` flag in `module_source`. -/
  def vItem (c : VCtx) (depth : Nat) (attributes : VDict) (modules : List String) (nested parent : Bool)
      (dt v : Val) : VRes :=
    match depth with
    | 0 => ⟨1, v⟩
    | n + 1 =>
      vItemStart c attributes modules
        (fun p t w => vItem c n attributes modules nested p t w)
        (fun s w => vAttrs c n ⟨attributes, [s], modules, nested⟩ w) parent dt v
  /-- `netsim/data/validate.py:574-705` (`validate_attributes`) -/
  def vAttrs (c : VCtx) (depth : Nat) (o : VObj) (data : Val) : VRes :=
    match depth with
    | 0 => ⟨1, data⟩
    | n + 1 =>
      vObject c o
        (fun t w => vItem c n o.attributes o.modules o.nested true t w)
        (fun nsList m w => vAttrs c n ⟨c.modAttrs m, nsList, o.modules, true⟩ w) data
end

end Netlab
