import Verif.Model.Py

/-!
# How a table is written and read: `exorad/output/hdf5/hdf5.py` `write_table`, `exorad/output/hdf5/util.py` `load_table`

`Model/Hdf5` stores a table under an identity. Here is what is inside: the columns with their values and units, and the metadata of the table. `V` is the type of a number
and `M` that of a value of the metadata.

Assumed about astropy: `represent_mixins_as_columns` gives the table itself if no column is a `Quantity`; otherwise a new `Table` of plain columns (a `Quantity`
gives its values a column with its unit, if that is not dimensionless) whose metadata are a copy with the further key `__serialized_columns__`. The YAML
header has the name and, if it is not None, the unit of each column, and the metadata if there are any; it reads back as it was.
`_construct_mixins_from_columns` gives the table itself if its metadata have no key `__serialized_columns__`. `as_array` of a table without columns is None.
Not modelled: masked columns, other mixins (`Time`, `SkyCoord`), description and format of a column, and numbers of columns with several dimensions (a row of these is
one `V`).
-/

namespace ExoRad.TableFile

/-- The values of a column: numbers, text (numpy `U`), or bytes (numpy `S`, here with the characters they encode). In `exorad/output/hdf5/hdf5.py:87-106`. -/
inductive Cells (V : Type) where
  | nums (l : List V)
  | text (l : List String)
  | bytes (l : List String)
deriving DecidableEq

/-- A plain astropy `Column`, with or without a unit, or a `Quantity`, whose unit "" is the dimensionless one. `exorad/output/hdf5/hdf5.py:165-168`. -/
inductive Kind where
  | plain (unit : Option String)
  | quantity (unit : String)
deriving DecidableEq

/-- A column of the table of `exorad/output/hdf5/hdf5.py:87`. -/
structure Column (V : Type) where
  name : String
  cells : Cells V
  kind : Kind
deriving DecidableEq

/-- An astropy `Table` or `QTable`. The argument of `exorad/output/hdf5/hdf5.py:87` and result of `exorad/output/hdf5/util.py:76-93`. -/
structure Table (V M : Type) where
  cols : List (Column V)
  metadata : Dict String M
deriving DecidableEq

/-- A value of the metadata in the file: one of the table, or astropy's record of the columns that were quantities. `exorad/output/hdf5/util.py:88-92`. -/
inductive MetaVal (M : Type) where
  | user (m : M)
  | serialized (cols : List String)
deriving DecidableEq

/-- astropy's reserved key. `exorad/output/hdf5/util.py:89`. -/
def reserved : String := "__serialized_columns__"

variable {V M : Type}

/-- `col.__class__ is u.Quantity`. For `exorad/output/hdf5/hdf5.py:176-177`. -/
def isQuantity (c : Column V) : Bool :=
  match c.kind with
  | .plain _ => false
  | .quantity _ => true

/-- The plain column of a column: the unit of a quantity is kept unless it is dimensionless (astropy `serialize._represent_mixin_as_column`).
`exorad/output/hdf5/hdf5.py:176-177`. -/
def asPlain (c : Column V) : Column V :=
  match c.kind with
  | .plain _ => c
  | .quantity u => { c with kind := .plain (if u = "" then none else some u) }

/-- `exorad/output/hdf5/hdf5.py:155-179` `_encode_mixins`, with PyYAML installed. -/
def encodeMixins (t : Table V M) : Table V (MetaVal M) :=
  let m : Dict String (MetaVal M) := t.metadata.map (fun p => (p.1, .user p.2))
  if t.cols.any isQuantity then
    ⟨t.cols.map asPlain, m.set reserved (.serialized ((t.cols.filter isQuantity).map Column.name))⟩
  else ⟨t.cols, m⟩

/-- `convert_unicode_to_bytestring` (`exorad/output/hdf5/hdf5.py:89-91`). -/
def toBytes : Cells V → Cells V
  | .text l => .bytes l
  | c => c

/-- The unit that the attribute `unit` of a column gives. `exorad/output/hdf5/hdf5.py:94`, `:105-106`. -/
def unitOf (c : Column V) : Option String :=
  match c.kind with
  | .plain u => u
  | .quantity u => some u

/-- What `write_table` puts into the file: the array with named fields, the header (`datatype` and `meta`), and the groups of the columns.
`exorad/output/hdf5/hdf5.py:93-106`. -/
structure Stored (V M : Type) where
  array : List (String × Cells V)
  datatype : List (String × Option String)
  metadata : Option (Dict String (MetaVal M))
  groups : List (String × Cells V × Option String)

/-- `exorad/output/hdf5/hdf5.py:87-106` `write_table`, for names that are not in the group yet (`Model/Hdf5` has the others). A table without columns has no array: h5py raises
TypeError. -/
def write (t : Table V M) : Except Exc (Stored V M) :=
  let e := encodeMixins t
  if e.cols.isEmpty then .error .typeError
  else
    .ok { array := e.cols.map (fun c => (c.name, toBytes c.cells))
          datatype := e.cols.map (fun c => (c.name, unitOf c))
          metadata := if e.metadata.isEmpty then none else some e.metadata
          groups := e.cols.map (fun c => (c.name, toBytes c.cells, unitOf c)) }

/-- `{x["name"]: x for x in header["datatype"]}` (`exorad/output/hdf5/util.py:82`): a later column wins. -/
def headerCols (h : List (String × Option String)) : Dict String (Option String) :=
  h.foldl (fun d x => Dict.set d x.1 x.2) []

/-- `exorad/output/hdf5/util.py:83-86`: the attributes of the columns of the header are set on the columns of the array. -/
def setAttrs (h : Dict String (Option String)) : List (String × Cells V) → Except Exc (List (Column V))
  | [] => .ok []
  | (n, x) :: r =>
    match h.get? n with
    | none => .error .keyError
    | some u =>
      match setAttrs h r with
      | .error e => .error e
      | .ok cs => .ok (⟨n, x, .plain u⟩ :: cs)

/-- The values of the metadata that are the user's. `exorad/output/hdf5/util.py:88-92`. -/
def users (d : Dict String (MetaVal M)) : Dict String M :=
  d.filterMap (fun p =>
    match p.2 with
    | .user m => some (p.1, m)
    | .serialized _ => none)

/-- `exorad/output/hdf5/util.py:88-92`: the key of astropy is popped; if it is not there, or there are no metadata, the KeyError leaves the metadata of the new table
empty. -/
def metaOf : Option (Dict String (MetaVal M)) → Dict String M
  | none => []
  | some d => if d.has reserved then users (d.removeAll [reserved]) else []

/-- `exorad/output/hdf5/util.py:76-93` `load_table`. The table has no metadata when `_construct_mixins_from_columns` is called (line 87), so no quantity is
built. -/
def load (s : Stored V M) : Except Exc (Table V M) :=
  match setAttrs (headerCols s.datatype) s.array with
  | .error e => .error e
  | .ok cs => .ok ⟨cs, metaOf s.metadata⟩

/-- Writing a table and reading it. `exorad/output/hdf5/hdf5.py:87-106`, then `exorad/output/hdf5/util.py:76-93`. -/
def roundTrip (t : Table V M) : Except Exc (Table V M) :=
  match write t with
  | .error e => .error e
  | .ok s => load s

end ExoRad.TableFile
