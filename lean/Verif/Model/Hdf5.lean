import Verif.Model.Py

/-!
# `exorad/output/hdf5/hdf5.py` and `exorad/output/hdf5/util.py`: writing and loading dictionaries

An HDF5 group is an ordered dictionary of datasets and groups (h5py lists it alphabetically; order is
not part of any statement about it). `V` is the type of numeric contents (numbers, booleans, numeric
arrays). Names are assumed to be plain (h5py reads `/` in a name as a path): not modelled.
h5py raises ValueError when a name exists already.
-/

namespace ExoRad.Hdf5

/-- The contents of a dataset. Strings are read back as bytes. What `exorad/output/hdf5/hdf5.py:75-152` put into a dataset. -/
inductive Data (V : Type) where
  | num (v : V)
  | bytes (s : String)
  | tab (id : String)
  | tabMeta (id : String)

/-- An entry of a group (`exorad/output/hdf5/util.py:66-73`). -/
inductive Node (V : Type) where
  | ds (d : Data V)
  | group (g : List (String × Node V))

/-- `HDF5OutputGroup._entry` (`exorad/output/hdf5/hdf5.py:70-73`). -/
abbrev Group (V : Type) := Dict String (Node V)

/-- A value to be stored, as classified by `store_thing` (`util.py:118-169`). `table cols` carries the
column names with numeric contents and optional unit. `objs` is a list that numpy cannot store as one
array. A `Signal` is a dictionary (`util.py:141-143`). `other` is any unsupported type. -/
inductive Item (V : Type) where
  | quantity (v : V) (unit : String)
  | num (v : V)
  | str (s : String)
  | table (id : String) (cols : List (String × V × Option String))
  | dict (d : List (String × Item V))
  | objs (l : List (Item V))
  | other

/-- Results keep the partial writes made before an exception. The writers of `exorad/output/hdf5/hdf5.py:75-152`. -/
abbrev W (V : Type) := Group V × Except Exc Unit

variable {V : Type}

/-- `h5py.Group.create_dataset`. As called in `exorad/output/hdf5/hdf5.py:80`, `:93`, `:109`, `:115`, `:131`. -/
def createDs (g : Group V) (k : String) (d : Data V) : W V :=
  match g.get? k with
  | none => (g.set k (.ds d), .ok ())
  | some _ => (g, .error .valueError)

/-- `h5py.Group.create_group` followed by writes into the new group. As called in `exorad/output/hdf5/hdf5.py:101`, `:147`. -/
def createGroupWith (g : Group V) (k : String) (sub : Group V) : W V :=
  match g.get? k with
  | none => (g.set k (.group sub), .ok ())
  | some _ => (g, .error .valueError)

/-- `exorad/output/hdf5/hdf5.py:67`, `:98`, `exorad/output/hdf5/util.py:37`, `:80`. -/
def metaKey : String := ".__table_column_meta__"

/-- The group of one column (`hdf5.py:103-106`). -/
def columnGroup (c : String × V × Option String) : Group V :=
  match c.2.2 with
  | none => [("value", .ds (.num c.2.1))]
  | some u => [("value", .ds (.num c.2.1)), ("unit", .ds (.bytes u))]

/-- `hdf5.py:101-106`: the `<name>_to_group` groups. Column names of a table are distinct. -/
def columnGroups (cols : List (String × V × Option String)) : Group V :=
  cols.map (fun c => (c.1, .group (columnGroup c)))

/-- `hdf5.py:87-106` `write_table`. The column encoding of astropy is not modelled: the dataset and its
meta carry the identity of the table. -/
def writeTable (g : Group V) (k id : String) (cols : List (String × V × Option String)) : W V :=
  match createDs g k (.tab id) with
  | (g, .error e) => (g, .error e)
  | (g, .ok _) =>
    match createDs g (k ++ metaKey) (.tabMeta id) with
    | (g, .error e) => (g, .error e)
    | (g, .ok _) => createGroupWith g (k ++ "_to_group") (columnGroups cols)

/-- `hdf5.py:139-152` `write_quantity`. -/
def writeQuantity (g : Group V) (k : String) (v : V) (u : String) : W V :=
  if k = "value" then createDs g "value" (.num v)
  else createGroupWith g k [("value", .ds (.num v)), ("unit", .ds (.bytes u))]

/-- `util.py:111-114`: TypeError becomes ValueError. -/
def wrap : Except Exc Unit → Except Exc Unit
  | .error .typeError => .error .valueError
  | r => r

/-- Writing into something that is a dataset, not a group (`create_group` returned the existing
entry): the first item raises. `exorad/output/hdf5/hdf5.py:120-127`. -/
def intoDataset : List (String × Item V) → Except Exc Unit
  | [] => .ok ()
  | (_, .other) :: _ => .error .valueError
  | _ :: _ => .error .attributeError

mutual
/-- `util.py:118-169` `store_thing`. -/
def storeThing : Item V → String → Group V → W V
  | .quantity v u, k, g => writeQuantity g k v u
  | .num v, k, g => createDs g k (.num v)
  | .str s, k, g => createDs g k (.bytes s)
  | .table id cols, k, g => writeTable g k id cols
  | .dict d, k, g =>
    match g.get? k with
    | none => let r := saveDict d []; (g.set k (.group r.1), r.2)
    | some (.group sub) => let r := saveDict d sub; (g.set k (.group r.1), r.2)
    | some (.ds _) => (g, intoDataset d)
  | .objs l, k, g => saveObjs l 0 k g
  | .other, _, g => (g, .error .typeError)
/-- `util.py:96-115` `recursively_save_dict_contents_to_output`. -/
def saveDict : List (String × Item V) → Group V → W V
  | [], g => (g, .ok ())
  | (k, x) :: d, g =>
    match storeThing x k g with
    | (g, .ok _) => saveDict d g
    | (g, .error e) => (g, wrap (.error e))
/-- `util.py:160-162`: one entry per list element, named by its index. -/
def saveObjs : List (Item V) → Nat → String → Group V → W V
  | [], _, _, g => (g, .ok ())
  | x :: l, i, k, g =>
    match storeThing x (k ++ toString i) g with
    | (g, .ok _) => saveObjs l (i + 1) k g
    | (g, .error e) => (g, .error e)
end

/-! ## Loading -/

/-- What `load` returns. `exorad/output/hdf5/hdf5.py:247-264`. -/
inductive LVal (V : Type) where
  | num (v : V)
  | bytes (s : String)
  | qty (v : V) (unit : String)
  | table (id : String)
  | rawTab (id : String)
  | rawMeta (id : String)
  | dict (d : List (String × LVal V))

/-- `hdf5_group_to_dict` on a dataset (`util.py:67-69`). -/
def ofData : Data V → LVal V
  | .num v => .num v
  | .bytes s => .bytes s
  | .tab i => .rawTab i
  | .tabMeta i => .rawMeta i

/-- `util.py:35-36`: a group with both names becomes a quantity. `unit` is `u.Unit` (`none`:
ValueError). -/
def valueOverride (unit : String → Option String) (g : Group V) :
    Except Exc (Dict String (LVal V)) :=
  match g.get? "value", g.get? "unit" with
  | some v, some u =>
    match v, u with
    | .ds (.num x), .ds (.bytes s) =>
      match unit s with
      | some u' => .ok [("value", .qty x u')]
      | none => .error .valueError
    | _, _ => .error .typeError
  | _, _ => .ok []

/-- `elem.split(".")[0]`. `exorad/output/hdf5/util.py:41`. -/
def beforeDot (s : String) : String := String.ofList (s.toList.takeWhile (· != '.'))

/-- `util.py:76-93` `load_table`, up to astropy's column decoding. -/
def loadTable (g : Group V) (k : String) : Except Exc (String × LVal V) :=
  match g.get? k with
  | none => .error .keyError
  | some (.ds (.tab i)) =>
    match g.get? (k ++ metaKey) with
    | some (.ds (.tabMeta _)) => .ok (k, .table i)
    | some _ => .error .attributeError
    | none => .error .keyError
  | some _ => .error .typeError

/-- `util.py:38-45`. -/
def tableOverrides (g : Group V) : List String → Except Exc (Dict String (LVal V))
  | [] => .ok []
  | k :: ks =>
    if substr metaKey k then
      match loadTable g (beforeDot k) with
      | .error e => .error e
      | .ok p =>
        match tableOverrides g ks with
        | .error e => .error e
        | .ok r => .ok (p :: r)
    else tableOverrides g ks

/-- What replaces entries of a loaded group: the tables and `value` (`exorad/output/hdf5/util.py:34-44`). -/
def overrides (unit : String → Option String) (g : Group V) : Except Exc (Dict String (LVal V)) :=
  match valueOverride unit g with
  | .error e => .error e
  | .ok a =>
    match tableOverrides g g.keys with
    | .error e => .error e
    | .ok b => .ok (a ++ b : List (String × LVal V))

mutual
/-- `hdf5.py:247-264` `load` on one entry: `hdf5_group_to_dict` (`util.py:51-73`) and
`recursively_read_dict_contents` (`util.py:14-49`) in one pass. -/
def loadNode (unit : String → Option String) : Node V → Except Exc (LVal V)
  | .ds d => .ok (ofData d)
  | .group g =>
    match overrides unit g with
    | .error e => .error e
    | .ok ov =>
      match loadEntries unit ov g with
      | .error e => .error e
      | .ok r => .ok (.dict r)
/-- `util.py:46-48`. -/
def loadEntries (unit : String → Option String) (ov : Dict String (LVal V)) :
    List (String × Node V) → Except Exc (List (String × LVal V))
  | [] => .ok []
  | (k, n) :: r =>
    match ov.get? k with
    | some v =>
      match loadEntries unit ov r with
      | .error e => .error e
      | .ok vs => .ok ((k, v) :: vs)
    | none =>
      match loadNode unit n with
      | .error e => .error e
      | .ok v =>
        match loadEntries unit ov r with
        | .error e => .error e
        | .ok vs => .ok ((k, v) :: vs)
end

/-- `load` on a group. `exorad/output/hdf5/hdf5.py:247-264`. -/
def load (unit : String → Option String) (g : Group V) : Except Exc (LVal V) :=
  loadNode unit (.group g)

end ExoRad.Hdf5
