import Verif.Model.Box
/-!
# Features copied between devices (`netsim/augment/config.py`, `copy_merge_device_features`)

The function changes the dictionary of devices while it goes through it.  `root` is the current value of that dictionary.  Two values
are never the same Python object: a change made in a dictionary after it was copied with a `copy` request is not made in the copy.
-/

namespace Netlab

/-- `devices[path]` and `path in devices` (`netsim/augment/config.py:114-117`); keys have no dots. -/
def featAt : Val → List String → Option Val
  | v, [] => some v
  | .dict d, k :: p => match d.lookup k with
    | some w => featAt w p
    | none => none
  | _, _ :: _ => none

/-- The assignment `data[kw] = v` (`netsim/augment/config.py:117`) where `data` is the dictionary at the path without the last key -/
def featSet (v : Val) : List String → Val → Val
  | [], _ => v
  | k :: p, .dict d => match d.lookup k with
    | some w => .dict (setKey d k (featSet v p w))
    | none => .dict d
  | _ :: _, w => w

/-- `'merge' in data[kw] or 'copy' in data[kw]` (`netsim/augment/config.py:103`) -/
def isFeatReq (d : List (String × Val)) : Bool := (d.lookup "merge").isSome || (d.lookup "copy").isSome

/-- `data[kw].get('merge',None) or data[kw].get('copy',None)` (`netsim/augment/config.py:106`); a value that is not a text (the name of
a device, without dots) results in an exception or a fatal error. -/
def featReqSrc (d : List (String × Val)) : Option String :=
  let v := match d.lookup "merge" with
    | some v => if v.truthy then some v else d.lookup "copy"
    | none => d.lookup "copy"
  match v with
  | some (.str s) => some s
  | _ => none

/-- `netsim/augment/config.py:106-117`: a request at a path (`full`, including the device name).  `none` is a fatal error or an
exception. -/
def applyFeatReq (full : List String) (d : List (String × Val)) (root : Val) : Option Val :=
  match featReqSrc d with
  | none => none
  | some s => match featAt root (s :: full.tail) with
    | none => none
    | some v =>
      if (d.lookup "merge").isSome then
        match v with
        | .dict a => some (featSet (.dict (mergeDict a d)) full root)
        | _ => none
      else some (featSet v full root)

/-- `netsim/augment/config.py:96-117` (`copy_merge_device_features`).  The values that were not visited yet have not been changed,
so the recursion goes through the original values. -/
def copyFeatures (path : List String) : List (String × Val) → Val → Option Val
  | [], root => some root
  | (k, .dict d) :: r, root =>
    if isFeatReq d then
      match applyFeatReq (path ++ [k]) d root with
      | some root => copyFeatures path r root
      | none => none
    else match copyFeatures (path ++ [k]) d root with
      | some root => copyFeatures path r root
      | none => none
  | (_, .null) :: r, root => copyFeatures path r root
  | (_, .bool _) :: r, root => copyFeatures path r root
  | (_, .int _) :: r, root => copyFeatures path r root
  | (_, .str _) :: r, root => copyFeatures path r root
  | (_, .list _) :: r, root => copyFeatures path r root

/-- `copy_merge_device_features(defaults.devices)` (`netsim/augment/config.py:129-130`) -/
def copyDevFeatures (devices : List (String × Val)) : Option Val := copyFeatures [] devices (.dict devices)

end Netlab
