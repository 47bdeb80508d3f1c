import Verif.Model.Run
import Verif.Model.Channels
import Verif.Model.Pipeline

/-!
# A payload read back from HDF5: `LoadPayload` (`exorad/tasks/instrumentHandler.py:145-202`), and the use of the dictionary
`built_instr` by `exorad/utils/diffuse_light_propagation.py:14-53` `prepare`

Here units are carried: a quantity has the list of the units its magnitude was multiplied by. What astropy knows about units is
a parameter (`Units`). h5py gives bytes for a text; `u.Unit` takes both.
-/

namespace ExoRad.Loaded
open Hdf5

variable {V : Type}

/-! ## `LoadPayload` -/

/-- A channel as `LoadPayload` makes it. `exorad/tasks/instrumentHandler.py:186-201`. -/
structure LoadedChan (V : Type) where
  name : String
  cls : Channels.Class
  table : String
  description : LVal V
  built : LVal V

/-- `group[k]`: KeyError. `exorad/tasks/instrumentHandler.py:183-188`, `:200`. -/
def member (n : Node V) (k : String) : Except Exc (Node V) :=
  match n with
  | .ds _ => .error .valueError
  | .group g => Dict.getE g k

/-- `load(entry)` (`exorad/output/hdf5/hdf5.py:247-264`): a dataset has no `items()`. -/
def loadEntry (unit : String → Option String) (n : Node V) : Except Exc (LVal V) :=
  match n with
  | .ds _ => .error .attributeError
  | .group g => load unit g

/-- `x[k]` on what was loaded. `exorad/tasks/instrumentHandler.py:191`. -/
def lookup (x : LVal V) (k : String) : Except Exc (LVal V) :=
  match x with
  | .dict d => Dict.getE d k
  | _ => .error .typeError

/-- `description["channelClass"]["value"].lower().decode("utf-8")`. `exorad/tasks/instrumentHandler.py:191`. -/
def className (d : LVal V) : Except Exc String :=
  match lookup d "channelClass" with
  | .error e => .error e
  | .ok c =>
    match lookup c "value" with
    | .error e => .error e
    | .ok (.bytes s) => .ok (Source.lower s)
    | .ok _ => .error .attributeError

/-- `read_table_hdf5(ch_dir, path=name)`. `exorad/tasks/instrumentHandler.py:198`. -/
def readTable (n : Node V) (name : String) : Except Exc String :=
  match n with
  | .group g =>
    match Dict.get? g name with
    | some (.ds (.tab i)) => .ok i
    | some _ => .error .typeError
    | none => .error .osError
  | .ds _ => .error .typeError

/-- Lines 186-201: one channel. -/
def loadChannel (unit : String → Option String) (name : String) (n : Node V) : Except Exc (LoadedChan V) :=
  match member n "description" with
  | .error e => .error e
  | .ok dn =>
    match loadEntry unit dn with
    | .error e => .error e
    | .ok d =>
      match className d with
      | .error e => .error e
      | .ok c =>
        match Channels.instruments.get? c with
        | none => .error .keyError
        | some cls =>
          match readTable n name with
          | .error e => .error e
          | .ok t =>
            match member n "built_instr" with
            | .error e => .error e
            | .ok bn =>
              match loadEntry unit bn with
              | .error e => .error e
              | .ok b => .ok ⟨name, cls, t, d, b⟩

/-- The loop of lines 186-201. -/
def loadChannels (unit : String → Option String) (chs : Hdf5.Group V) : List String → Except Exc (List (LoadedChan V))
  | [] => .ok []
  | k :: ks =>
    match Dict.getE chs k with
    | .error e => .error e
    | .ok n =>
      match loadChannel unit k n with
      | .error e => .error e
      | .ok c =>
        match loadChannels unit chs ks with
        | .error e => .error e
        | .ok cs => .ok (c :: cs)

/-- h5py lists a group by name. `exorad/tasks/instrumentHandler.py:186`. -/
def h5Keys (g : Hdf5.Group V) : List String := (Dict.keys g).mergeSort (fun a b => decide (a ≤ b))

/-- Lines 182-202 `LoadPayload` on the contents of the file. -/
def loadPayload (unit : String → Option String) (file : Hdf5.Group V) : Except Exc (LVal V × List (LoadedChan V)) :=
  match Dict.getE file "payload" with
  | .error e => .error e
  | .ok p =>
    match member p "payload description" with
    | .error e => .error e
    | .ok dn =>
      match loadEntry unit dn with
      | .error e => .error e
      | .ok d =>
        match member p "channels" with
        | .error e => .error e
        | .ok (.ds _) => .error .attributeError
        | .ok (.group chs) =>
          match loadChannels unit chs (h5Keys chs) with
          | .error e => .error e
          | .ok cs => .ok (d, cs)

/-! ## Using `built_instr` -/

/-- A Python value with its units. The dictionaries `built_instr` and `description` of a channel, read in `exorad/utils/diffuse_light_propagation.py:15-53`. -/
inductive Val (V : Type) where
  | num (v : V)
  | qty (v : V) (units : List String)
  | text (s : String)
  | dict (d : List (String × Val V))
  | other

mutual
/-- A value of a freshly built channel (`exorad/utils/util.py:30-77` `to_dict` made the dictionaries of signals). -/
def ofItem : Item V → Val V
  | .quantity v u => .qty v [u]
  | .num v => .num v
  | .str s => .text s
  | .table _ _ => .other
  | .dict d => .dict (ofItems d)
  | .objs _ => .other
  | .other => .other
/-- The values of a dictionary. `exorad/models/instruments/instrument.py:86-99`. -/
def ofItems : List (String × Item V) → List (String × Val V)
  | [] => []
  | (k, x) :: d => (k, ofItem x) :: ofItems d
end

mutual
/-- A value of a loaded channel. `exorad/output/hdf5/hdf5.py:247-264`. -/
def ofLoaded : LVal V → Val V
  | .num v => .num v
  | .bytes s => .text s
  | .qty v u => .qty v [u]
  | .table _ => .other
  | .rawTab _ => .other
  | .rawMeta _ => .other
  | .dict d => .dict (ofLoadeds d)
/-- The values of a loaded dictionary. `exorad/output/hdf5/hdf5.py:247-264`. -/
def ofLoadeds : List (String × LVal V) → List (String × Val V)
  | [] => []
  | (k, x) :: d => (k, ofLoaded x) :: ofLoadeds d
end

/-- What astropy and numpy know. Used for `exorad/models/signal.py:79-125`, `exorad/utils/diffuse_light_propagation.py:26-41`. -/
structure Units (V : Type) where
  /-- `u.Unit(text)`; `none`: ValueError -/
  parse : String → Option String
  /-- `quantity.to(unit)` for a product of units; `none`: UnitConversionError -/
  convert : List String → String → Option (V → V)
  mul : V → V → V
  /-- Whether the sizes of wavelengths and data match (`exorad/models/signal.py:127-151`) -/
  fits : V → V → Bool

/-- `x[k]`. `exorad/utils/diffuse_light_propagation.py:19-41`. -/
def Val.get (x : Val V) (k : String) : Except Exc (Val V) :=
  match x with
  | .dict d => Dict.getE d k
  | _ => .error .typeError

/-- `x * u.Unit(t)`. `exorad/utils/diffuse_light_propagation.py:31-32`, `:38-39`. -/
def times (U : Units V) (x t : Val V) : Except Exc (Val V) :=
  match t with
  | .text s =>
    match U.parse s with
    | none => .error .valueError
    | some u =>
      match x with
      | .num v => .ok (.qty v [u])
      | .qty v us => .ok (.qty v (us ++ [u]))
      | _ => .error .typeError
  | _ => .error .typeError

/-- `exorad/models/signal.py:79-125` `check_quantities`: UnitConversionError is a ValueError. -/
def checkQuantities (U : Units V) (x : Val V) (unit : String) : Except Exc V :=
  match x with
  | .num v => .ok v
  | .qty v us =>
    match U.convert us unit with
    | none => .error .valueError
    | some f => .ok (f v)
  | _ => .error .typeError

/-- `Signal(d["wl_grid"]["value"] * u.Unit(d["wl_grid"]["unit"]), d["data"]["value"])`: wavelengths and data
(`diffuse_light_propagation.py:30-42`, `instrument.py:349-360`, `signal.py:43-62`). -/
def signalOf (U : Units V) (d : Val V) : Except Exc (V × V) :=
  match d.get "wl_grid" with
  | .error e => .error e
  | .ok w =>
    match w.get "value" with
    | .error e => .error e
    | .ok x =>
      match w.get "unit" with
      | .error e => .error e
      | .ok t =>
        match times U x t with
        | .error e => .error e
        | .ok wl =>
          match d.get "data" with
          | .error e => .error e
          | .ok y =>
            match y.get "value" with
            | .error e => .error e
            | .ok data =>
              match checkQuantities U wl "um" with
              | .error e => .error e
              | .ok wl =>
                match checkQuantities U data "" with
                | .error e => .error e
                | .ok data => if U.fits wl data then .ok (wl, data) else .error .valueError

/-- `d[k]["value"].value`: only quantities have it. `exorad/utils/diffuse_light_propagation.py:19-21`. -/
def magnitude (d : Val V) (k : String) : Except Exc V :=
  match d.get k with
  | .error e => .error e
  | .ok x =>
    match x.get "value" with
    | .error e => .error e
    | .ok (.qty v _) => .ok v
    | .ok _ => .error .attributeError

/-- Lines 19-23: `Fnum_y` if it is there. -/
def fnumY (d : Val V) : Except Exc (Option V) :=
  match d with
  | .dict e =>
    if Dict.has e "Fnum_y" then
      match magnitude d "Fnum_y" with
      | .error e => .error e
      | .ok v => .ok (some v)
    else .ok none
  | _ => .error .attributeError

/-- Lines 26-29: the pixel area in square metres. -/
def pixelArea (U : Units V) (d : Val V) : Except Exc V :=
  match d.get "detector" with
  | .error e => .error e
  | .ok det =>
    match det.get "delta_pix" with
    | .error e => .error e
    | .ok x =>
      match x.get "value" with
      | .error e => .error e
      | .ok (.qty v us) =>
        match U.convert (us ++ us) "m2" with
        | none => .error .valueError
        | some f => .ok (f (U.mul v v))
      | .ok _ => .error .attributeError

/-- What `prepare` takes from the channel. `exorad/utils/diffuse_light_propagation.py:15-53`. -/
structure Prepared (V : Type) where
  fnumX : V
  fnumY : Option V
  area : V
  qe : V × V
  tr : V × V

/-- `exorad/utils/diffuse_light_propagation.py:14-53` `prepare`, without the arrays of zeros it makes and the solid angle
(`Model/Psf.lean`). -/
def prepare (U : Units V) (built description : Val V) : Except Exc (Prepared V) :=
  match magnitude description "Fnum_x" with
  | .error e => .error e
  | .ok fx =>
    match fnumY description with
    | .error e => .error e
    | .ok fy =>
      match pixelArea U description with
      | .error e => .error e
      | .ok a =>
        match built.get "qe_data" with
        | .error e => .error e
        | .ok q =>
          match signalOf U q with
          | .error e => .error e
          | .ok qe =>
            match built.get "transmission_data" with
            | .error e => .error e
            | .ok t =>
              match signalOf U t with
              | .error e => .error e
              | .ok tr => .ok ⟨fx, fy, a, qe, tr⟩

/-! ## Observing with the channels -/

/-- `exorad/tasks/propagateLight.py:69-88`: the foreground light, where every channel first calls `prepare`
(`exorad/models/instruments/instrument.py:176-186`). `chans` are the dictionaries of the channels. -/
noncomputable def foregroundStep (U : Units V) (chans : List (Val V × Val V)) (chs : List Pipeline.Channel) : Pipeline.Step := fun s =>
  match Source.mapE (fun c => prepare U c.1 c.2) chans with
  | .error e => (s, .error e)
  | .ok _ => Pipeline.propagateForeground chs s

/-- The tasks of `exorad/tasks/targetHandler.py:230-248`, with the dictionaries of the channels. -/
noncomputable def steps (U : Units V) (chans : List (Val V × Val V)) (w : Pipeline.World) (p : Pipeline.Payload) : List Pipeline.Step :=
  [Pipeline.prepareTarget] ++
  (match p.foreground with
    | some sec => [Pipeline.estimateForegrounds w sec]
    | none => []) ++
  [foregroundStep U chans p.channels, Pipeline.loadSource w p, Pipeline.propagateTarget p.channels, Pipeline.noiseStep p.channels]

/-- `ObserveTarget` (`exorad/tasks/targetHandler.py:223-250`). -/
noncomputable def observe (U : Units V) (chans : List (Val V × Val V)) (w : Pipeline.World) (p : Pipeline.Payload)
    (tabs : List (Table ℝ)) (t : Pipeline.Target) : Except Exc Pipeline.Target :=
  match Pipeline.runSteps (steps U chans w p) ⟨tabs, t⟩ with
  | (_, .error e) => .error e
  | (s, .ok _) => .ok s.target

/-- The dictionaries of a channel that was just built. `exorad/models/instruments/instrument.py:86-99`. -/
def freshChan (c : Run.ChanRec V) : Val V × Val V := (.dict (ofItems c.built), .dict (ofItems c.description))

/-- The dictionaries of a loaded channel. `exorad/models/instruments/instrument.py:63-70`. -/
def loadedChan (c : LoadedChan V) : Val V × Val V := (ofLoaded c.built, ofLoaded c.description)

end ExoRad.Loaded
