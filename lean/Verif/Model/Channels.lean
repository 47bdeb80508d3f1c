import Verif.Model.Options
import Verif.Model.Source

/-!
# `exorad/tasks/instrumentHandler.py`: which channels a payload has, and how they are built

The payload is what the parser gives (`Options.Opt`). The classes `Photometer` and `Spectrometer` are a parameter: what their
construction and `build()` give. Writing the channels (`write=True`) is in `Model/Run.lean`. A text is lowered for ASCII only.
-/

namespace ExoRad.Channels

open Options (Opt Key Scalar)

/-- `x[k]` for a text `k`. (Tables are only indexed by the instrument classes; here they have no such entry.). As in `exorad/tasks/instrumentHandler.py:124-145`. -/
def item (o : Opt) (k : String) : Except Exc Opt :=
  match o with
  | .dict d => Dict.getE d k
  | .odict d => Dict.getE d (.str k)
  | .table _ => .error .keyError
  | .scalar _ => .error .typeError

/-- `x[k]` for a key of `x.keys()`. As in `exorad/tasks/instrumentHandler.py:119-145`, `:361-364`. -/
def itemKey (o : Opt) (k : Key) : Except Exc Opt :=
  match o with
  | .dict d =>
    match k with
    | .str s => Dict.getE d s
    | _ => .error .keyError
  | .odict d => Dict.getE d k
  | .table _ => .error .keyError
  | .scalar _ => .error .typeError

/-- `x.keys()`. As in `exorad/tasks/instrumentHandler.py:119-145`, `:361`. -/
def keysOf (o : Opt) : Except Exc (List Key) :=
  match o with
  | .dict d => .ok (d.map (fun p => Key.str p.1))
  | .odict d => .ok (d.map Prod.fst)
  | .table _ => .error .attributeError
  | .scalar _ => .error .attributeError

/-- `x.lower()`: only texts have it. `exorad/tasks/instrumentHandler.py:125`, `:139`, `:363`. -/
def lowerOf (o : Opt) : Except Exc String :=
  match o with
  | .scalar (.str s) => .ok (Source.lower s)
  | _ => .error .attributeError

/-- `description["channelClass"]["value"].lower()`. `exorad/tasks/instrumentHandler.py:125`, `:139`, `:363`. -/
def classOf (descr : Opt) : Except Exc String :=
  match item descr "channelClass" with
  | .error e => .error e
  | .ok c =>
    match item c "value" with
    | .error e => .error e
    | .ok v => lowerOf v

/-- Lines 358-370 `__get_channel_list__`: the loop. -/
def listLoop (channels : Opt) (wanted : String) : List Key → Except Exc (List Key)
  | [] => .ok []
  | k :: ks =>
    match itemKey channels k with
    | .error e => .error e
    | .ok d =>
      match classOf d with
      | .error e => .error e
      | .ok c =>
        match listLoop channels wanted ks with
        | .error e => .error e
        | .ok l => .ok (if c = Source.lower wanted then k :: l else l)

/-- Lines 347-370 `GetChannelList`. -/
def getChannelList (options : Opt) (wanted : String) : Except Exc (List Key) :=
  match item options "channel" with
  | .error e => .error e
  | .ok channels =>
    match keysOf channels with
    | .error e => .error e
    | .ok ks => listLoop channels wanted ks

/-- An instrument class. `exorad/tasks/instrumentHandler.py:10`. -/
inductive Class where
  | photometer
  | spectrometer
deriving DecidableEq

/-- Line 10: the classes by name. `exorad/tasks/instrumentHandler.py:10`. -/
def instruments : Dict String Class := [("photometer", .photometer), ("spectrometer", .spectrometer)]

variable {B : Type}

/-- Lines 58-72 `BuildInstrument`: `make class name description payload` is the built instrument. -/
def buildInstrument (make : Class → Opt → Opt → Opt → Except Exc B) (type : String) (name descr payload : Opt) : Except Exc B :=
  match instruments.get? type with
  | none => .error .valueError
  | some c => make c name descr payload

/-- The name of a channel is a key of the payload. `exorad/tasks/instrumentHandler.py:119-145`. -/
def ofKey : Key → Opt
  | .num q => .scalar (.float q)
  | .str s => .scalar (.str s)
  | .qty q u => .scalar (.qty false q u)
  | .unit u => .scalar (.unit u)

/-- Lines 122-136: the loop over the channels of an `OrderedDict`. -/
def buildLoop (make : Class → Opt → Opt → Opt → Except Exc B) (payload : Opt) (channels : Opt) :
    List Key → Dict Key B → Except Exc (Dict Key B)
  | [], acc => .ok acc
  | k :: ks, acc =>
    match itemKey channels k with
    | .error e => .error e
    | .ok d =>
      match classOf d with
      | .error e => .error e
      | .ok c =>
        match buildInstrument make c (ofKey k) d payload with
        | .error e => .error e
        | .ok b => buildLoop make payload channels ks (acc.set k b)

/-- Lines 137-151: the only channel. A dictionary, list or table cannot be a key (TypeError). -/
def buildSingle (make : Class → Opt → Opt → Opt → Except Exc B) (payload : Opt) (channel : Opt) : Except Exc (Dict Key B) :=
  match classOf channel with
  | .error e => .error e
  | .ok c =>
    match item channel "value" with
    | .error e => .error e
    | .ok name =>
      match buildInstrument make c name channel payload with
      | .error e => .error e
      | .ok b =>
        match name with
        | .scalar s => .ok [(s.key, b)]
        | _ => .error .typeError

/-- Lines 102-153 `BuildChannels`, without writing. -/
def buildChannels (make : Class → Opt → Opt → Opt → Except Exc B) (payload : Opt) : Except Exc (Dict Key B) :=
  match item payload "channel" with
  | .error e => .error e
  | .ok channels =>
    match keysOf channels with
    | .error e => .error e
    | .ok ks =>
      match channels with
      | .odict _ => buildLoop make payload channels ks []
      | _ => buildSingle make payload channels

end ExoRad.Channels
