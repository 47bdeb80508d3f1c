import Verif.Model.Loaded
import Verif.Props.Hdf5
import Verif.Props.RunSave
import Verif.Props.Complete

/-!
# C70: a payload read back from HDF5
-/

set_option linter.unusedSectionVars false

namespace ExoRad.Loaded
open Hdf5 Run

variable {V P R T : Type}

/-! ## What is written and what is loaded -/

/-- The group of a channel. -/
def chanItem (c : ChanRec V) : Item V :=
  .dict [(c.name, .table c.tableId c.cols), ("description", .dict c.description), ("built_instr", .dict c.built)]

/-- A channel that can be saved: its entries can be stored, and the text of its class is one that `LoadPayload` knows. -/
structure Savable (unit : String → Option String) (c : ChanRec V) (cls : Channels.Class) : Prop where
  stores : Storable unit (chanItem c)
  cls : ∃ cc s, ("channelClass", .dict cc) ∈ c.description ∧ ("value", .str s) ∈ cc ∧
    Channels.instruments.get? (Source.lower s) = some cls

/-- A group of channels was written to the file. -/
structure Written (g : Hdf5.Group V) (descr : Node V) (chs : Hdf5.Group V) (p : Hdf5.Group V) : Prop where
  payload : g.get? "payload" = some (.group p)
  descr : p.get? "payload description" = some descr
  channels : p.get? "channels" = some (.group chs)

theorem write_channel (unit : String → Option String) (c : ChanRec V) (hs : Storable unit (chanItem c)) {g p chs : Hdf5.Group V} {dn : Node V}
    (h : Written g dn chs p) (hn : c.name ∉ chs.keys) :
    ∃ g' p', storeThing (channelItem c) "payload" g = (g', .ok ()) ∧
      Written g' dn (chs ++ [(c.name, nodeOf (chanItem c))] : List _) p' := by
  have h1 : storeThing (chanItem c) c.name chs = ((chs ++ [(c.name, nodeOf (chanItem c))] : List _), .ok ()) := by
    have := store_new unit (chanItem c) c.name chs hs (by
      intro n hm
      have e : namesOf (c.name, chanItem c) = [c.name] := rfl
      rw [e, List.mem_singleton] at hm
      rw [hm]; exact hn) (by
      have e : namesOf (c.name, chanItem c) = [c.name] := rfl
      rw [e]; simp)
    rw [this]
    rfl
  have h2 : saveDict [(c.name, chanItem c)] chs = ((chs ++ [(c.name, nodeOf (chanItem c))] : List _), .ok ()) := by
    rw [saveDict, h1]
    simp only
    rw [saveDict]
  have h3 : storeThing (.dict [(c.name, chanItem c)]) "channels" p =
      (Dict.set p "channels" (.group (chs ++ [(c.name, nodeOf (chanItem c))] : List _)), .ok ()) := by
    rw [storeThing, h.channels]
    simp only [h2]
  have h4 : storeThing (channelItem c) "payload" g =
      (Dict.set g "payload" (.group (Dict.set p "channels" (.group (chs ++ [(c.name, nodeOf (chanItem c))] : List _)))), .ok ()) := by
    unfold channelItem
    rw [storeThing, h.payload]
    simp only
    have e : saveDict [("channels", Item.dict [(c.name, .dict [(c.name, .table c.tableId c.cols), ("description", .dict c.description),
        ("built_instr", .dict c.built)])])] p =
        (Dict.set p "channels" (.group (chs ++ [(c.name, nodeOf (chanItem c))] : List _)), .ok ()) := by
      rw [saveDict]
      have := h3
      unfold chanItem at this
      rw [this]
      simp only
      rw [saveDict]
      rfl
    rw [e]
  refine ⟨_, Dict.set p "channels" (.group (chs ++ [(c.name, nodeOf (chanItem c))] : List _)), h4, ?_, ?_, ?_⟩
  · exact Dict.get?_set_self _ _ _
  · rw [Dict.get?_set_ne _ _ (by decide)]; exact h.descr
  · exact Dict.get?_set_self _ _ _

/-- The entries of the group `channels`. -/
def chanNodes (cs : List (ChanRec V)) : Hdf5.Group V := cs.map (fun c => (c.name, nodeOf (chanItem c)))

theorem write_channels (unit : String → Option String) : ∀ (cs : List (ChanRec V)) {g p chs : Hdf5.Group V} {dn : Node V},
    (∀ c ∈ cs, Storable unit (chanItem c)) → Written g dn chs p → (cs.map ChanRec.name).Nodup → (∀ c ∈ cs, c.name ∉ chs.keys) →
    ∃ g' p', writeChannels (cs.map .ok) g = (g', .ok ()) ∧ Written g' dn (chs ++ chanNodes cs : List _) p'
  | [], g, p, chs, dn, _, h, _, _ => ⟨g, p, by rw [List.map_nil, writeChannels], by simpa [chanNodes] using h⟩
  | c :: cs, g, p, chs, dn, hs, h, hnd, hn => by
      obtain ⟨g', p', e, h'⟩ := write_channel unit c (hs c (by simp)) h (hn c (by simp))
      rw [List.map_cons, List.nodup_cons] at hnd
      obtain ⟨g'', p'', e', h''⟩ := write_channels unit cs (fun c' hc' => hs c' (by simp [hc'])) h' hnd.2 (by
        intro c' hc'
        rw [Dict.keys_append, List.mem_append, not_or]
        refine ⟨hn c' (by simp [hc']), ?_⟩
        simp only [Dict.keys_cons, Dict.keys_nil, List.mem_singleton]
        intro e
        exact hnd.1 (List.mem_map.mpr ⟨c', hc', e⟩))
      refine ⟨g'', p'', ?_, ?_⟩
      · rw [List.map_cons, writeChannels, e]
        exact e'
      · rw [List.append_assoc] at h''
        exact h''

/-- The payload is written completely to a file that has none. -/
theorem payload_written (unit : String → Option String) (env : Env V P R T) (pl : P) (cs : List (ChanRec V)) (hb : env.build pl = cs.map .ok)
    (hd : Storable unit (.dict (env.describe pl))) (hs : ∀ c ∈ cs, Storable unit (chanItem c)) (hnd : (cs.map ChanRec.name).Nodup)
    (g : Hdf5.Group V) (hg : g.get? "payload" = none) :
    ∃ g' p, writePayload env pl g = (g', .ok ()) ∧ Written g' (nodeOf (.dict (env.describe pl))) (chanNodes cs) p := by
  have hst : Storable unit (Item.dict [("payload description", .dict (env.describe pl)), ("channels", .dict [])]) := by
    simp only [Storable, StorableAll] at hd ⊢
    refine ⟨by simp [namesOf], ?_, ?_, by simp, by simp, hd, ?_⟩
    · intro q hq
      simp only [List.mem_cons, List.not_mem_nil, or_false] at hq
      rcases hq with rfl | rfl
      · show substr metaKey "payload description" = false
        decide
      · show substr metaKey "channels" = false
        decide
    · intro q hq i c e
      simp only [List.mem_cons, List.not_mem_nil, or_false] at hq
      rcases hq with rfl | rfl <;> cases e
    · simp
  have h1 := store_new unit _ "payload" g hst (by
    intro n hn
    have e : n = "payload" := by simpa [namesOf] using hn
    rw [e]
    exact (Dict.get?_eq_none_iff g _).mp hg) (by simp [namesOf])
  have h0 : Written (g ++ entriesOf [("payload", Item.dict [("payload description", .dict (env.describe pl)), ("channels", .dict [])])] : List _)
      (nodeOf (.dict (env.describe pl))) ([] : List _)
      ([("payload description", nodeOf (.dict (env.describe pl))), ("channels", .group [])] : List _) := by
    refine ⟨?_, ?_, ?_⟩
    · rw [Dict.get?_append, if_neg ((Dict.get?_eq_none_iff g _).mp hg)]
      simp [entriesOf, nodeOf, Dict.get?]
    · simp [Dict.get?]
    · simp [Dict.get?]
  obtain ⟨g', p', e, h⟩ := write_channels unit cs hs h0 hnd (by simp)
  refine ⟨g', p', ?_, by simpa using h⟩
  unfold writePayload
  rw [h1, hb]
  exact e

/-! ## Loading it -/

theorem reads_member {unit : String → Option String} {d : List (String × Item V)} {y : LVal V} (h : Reads unit (.dict d) y) {k : String} {x : Item V}
    (hm : (k, x) ∈ d) (hk : k ≠ "value") : ∃ z, lookup y k = .ok z ∧ Reads unit x z := by
  rw [Reads] at h
  obtain ⟨r, rfl, _, hr⟩ := h
  rw [readsAll_iff] at hr
  obtain ⟨z, hz, hc⟩ := hr k x hm
  refine ⟨z, ?_, ?_⟩
  · show Dict.getE r k = .ok z
    unfold Dict.getE
    rw [hz]
  · rcases hc with ⟨e, _⟩ | ⟨e, _⟩ | ⟨_, _, h⟩
    · exact absurd e hk
    · exact absurd e hk
    · exact h

theorem className_reads {unit : String → Option String} {d cc : List (String × Item V)} {y : LVal V} {s : String} (h : Reads unit (.dict d) y)
    (hc : ("channelClass", .dict cc) ∈ d) (hv : ("value", .str s) ∈ cc) : className y = .ok (Source.lower s) := by
  obtain ⟨z, hz, hr⟩ := reads_member h hc (by decide)
  have hr' := hr
  rw [Reads] at hr'
  obtain ⟨r, rfl, _, hrr⟩ := hr'
  rw [readsAll_iff] at hrr
  obtain ⟨b, hb, hcase⟩ := hrr _ _ hv
  have hbb : b = .bytes s := by
    rcases hcase with ⟨_, v, u, e, _⟩ | ⟨_, v, s', u, e, _⟩ | ⟨_, _, h⟩
    · cases e
    · cases e
    · rw [Reads] at h; exact h
  subst hbb
  unfold className
  rw [hz]
  have : lookup (.dict r) "value" = .ok (.bytes s) := by
    show Dict.getE r "value" = _
    unfold Dict.getE
    rw [hb]
  simp only [this]

/-- A channel that was saved loads with the same class, table, description and built dictionary. -/
theorem load_channel (unit : String → Option String) (c : ChanRec V) (cls : Channels.Class) (h : Savable unit c cls) :
    ∃ d b, loadChannel unit c.name (nodeOf (chanItem c)) = .ok ⟨c.name, cls, c.tableId, d, b⟩ ∧
      Reads unit (.dict c.description) d ∧ Reads unit (.dict c.built) b := by
  have hst := h.stores
  unfold chanItem at hst
  simp only [Storable, StorableAll] at hst
  obtain ⟨hnd, _, _, _, _, _, hd, hb, _⟩ := hst
  set g : Hdf5.Group V := entriesOf [(c.name, .table c.tableId c.cols), ("description", .dict c.description), ("built_instr", .dict c.built)] with hg
  have hkeys : (Dict.keys g).Nodup := by
    rw [hg, keys_entriesOf]
    exact hnd
  have e1 : g.get? "description" = some (nodeOf (.dict c.description)) := Dict.get?_of_mem hkeys (by simp [hg, entriesOf])
  have e2 : g.get? "built_instr" = some (nodeOf (.dict c.built)) := Dict.get?_of_mem hkeys (by simp [hg, entriesOf])
  have e3 : g.get? c.name = some (.ds (.tab c.tableId)) := Dict.get?_of_mem hkeys (by simp [hg, entriesOf])
  obtain ⟨d, hd1, hd2⟩ := load_item unit (.dict c.description) (by simp only [Storable]; exact hd) (by simp)
  obtain ⟨b, hb1, hb2⟩ := load_item unit (.dict c.built) (by simp only [Storable]; exact hb) (by simp)
  obtain ⟨cc, s, hcc, hvs, hcls⟩ := h.cls
  refine ⟨d, b, ?_, hd2, hb2⟩
  have hnode : nodeOf (chanItem c) = .group g := by rw [chanItem, nodeOf]
  have m1 : member (nodeOf (chanItem c)) "description" = .ok (nodeOf (.dict c.description)) := by
    rw [hnode]; show Dict.getE g _ = _; unfold Dict.getE; rw [e1]
  have m2 : member (nodeOf (chanItem c)) "built_instr" = .ok (nodeOf (.dict c.built)) := by
    rw [hnode]; show Dict.getE g _ = _; unfold Dict.getE; rw [e2]
  have m3 : readTable (nodeOf (chanItem c)) c.name = .ok c.tableId := by
    rw [hnode]; show (match Dict.get? g c.name with | some (.ds (.tab i)) => _ | some _ => _ | none => _) = _; rw [e3]
  have l1 : loadEntry unit (nodeOf (.dict c.description)) = .ok d := by
    rw [nodeOf] at hd1 ⊢; exact hd1
  have l2 : loadEntry unit (nodeOf (.dict c.built)) = .ok b := by
    rw [nodeOf] at hb1 ⊢; exact hb1
  unfold loadChannel
  simp only [m1, l1, className_reads hd2 hcc hvs, hcls, m3, m2, l2]

/-- C70: a stored channel whose class is none of the known ones cannot be loaded: KeyError. -/
theorem load_unknown_class (unit : String → Option String) (name : String) (n dn : Node V) (d : LVal V) (c : String)
    (h1 : member n "description" = .ok dn) (h2 : loadEntry unit dn = .ok d) (h3 : className d = .ok c)
    (h4 : c ≠ "photometer") (h5 : c ≠ "spectrometer") : loadChannel unit name n = .error .keyError := by
  have : Channels.instruments.get? c = none := by
    simp [Channels.instruments, Dict.get?, Ne.symm h4, Ne.symm h5]
  unfold loadChannel
  simp only [h1, h2, h3, this]

/-- A loaded channel is the image of a saved one. -/
structure Image (unit : String → Option String) (c : ChanRec V) (x : LoadedChan V) : Prop where
  name : x.name = c.name
  table : x.table = c.tableId
  description : Reads unit (.dict c.description) x.description
  built : Reads unit (.dict c.built) x.built

theorem load_channels (unit : String → Option String) (chs : Hdf5.Group V) (cs : List (ChanRec V)) (cl : ChanRec V → Channels.Class)
    (hc : ∀ c ∈ cs, Savable unit c (cl c)) (hget : ∀ c ∈ cs, chs.get? c.name = some (nodeOf (chanItem c))) :
    ∀ ks : List String, (∀ k ∈ ks, ∃ c ∈ cs, c.name = k) →
      ∃ l, loadChannels unit chs ks = .ok l ∧ l.map LoadedChan.name = ks ∧
        (∀ x ∈ l, ∃ c ∈ cs, x.cls = cl c ∧ Image unit c x) ∧
        ∀ c ∈ cs, c.name ∈ ks → ∃ x ∈ l, x.name = c.name
  | [], _ => ⟨[], by rw [loadChannels], rfl, by simp, by simp⟩
  | k :: ks, hk => by
      obtain ⟨c, hcm, rfl⟩ := hk k (by simp)
      obtain ⟨l, e, hn, hi, hall⟩ := load_channels unit chs cs cl hc hget ks (fun k' hk' => hk k' (by simp [hk']))
      obtain ⟨d, b, el, hd, hb⟩ := load_channel unit c (cl c) (hc c hcm)
      refine ⟨⟨c.name, cl c, c.tableId, d, b⟩ :: l, ?_, ?_, ?_, ?_⟩
      · unfold loadChannels
        have : Dict.getE chs c.name = .ok (nodeOf (chanItem c)) := by unfold Dict.getE; rw [hget c hcm]
        simp only [this, el, e]
      · simp [hn]
      · intro x hx
        rcases List.mem_cons.mp hx with rfl | hx
        · exact ⟨c, hcm, rfl, rfl, rfl, hd, hb⟩
        · exact hi x hx
      · intro c' hc' hm
        rcases List.mem_cons.mp hm with e | hm
        · exact ⟨_, List.mem_cons_self, e.symm⟩
        · obtain ⟨x, hx, e⟩ := hall c' hc' hm
          exact ⟨x, by simp [hx], e⟩

/-- C70 (the file): a payload written to a file is loaded from it with all its channels, each with its class, its table, its
description and its built dictionary, whatever the file held before. The channels come in alphabetical order. -/
theorem payload_roundtrip (unit : String → Option String) (env : Env V P R T) (pl : P) (cs : List (ChanRec V)) (cl : ChanRec V → Channels.Class)
    (hb : env.build pl = cs.map .ok) (hd : Storable unit (.dict (env.describe pl))) (hc : ∀ c ∈ cs, Savable unit c (cl c))
    (hnd : (cs.map ChanRec.name).Nodup) (g : Hdf5.Group V) (hg : g.get? "payload" = none) :
    ∃ g', writePayload env pl g = (g', .ok ()) ∧ ∃ y l, loadPayload unit g' = .ok (y, l) ∧ Reads unit (.dict (env.describe pl)) y ∧
      (l.map LoadedChan.name).Perm (cs.map ChanRec.name) ∧ (l.map LoadedChan.name).Pairwise (· ≤ ·) ∧
      ∀ x ∈ l, ∃ c ∈ cs, x.cls = cl c ∧ Image unit c x := by
  obtain ⟨g', p, e, hw⟩ := payload_written unit env pl cs hb hd (fun c h => (hc c h).stores) hnd g hg
  refine ⟨g', e, ?_⟩
  obtain ⟨y, hy1, hy2⟩ := load_item unit (.dict (env.describe pl)) hd (by simp)
  have hk : Dict.keys (chanNodes cs) = cs.map ChanRec.name := by
    unfold chanNodes Dict.keys
    rw [List.map_map]
    rfl
  have hget : ∀ c ∈ cs, Dict.get? (chanNodes cs) c.name = some (nodeOf (chanItem c)) := by
    intro c hcm
    exact Dict.get?_of_mem (by rw [hk]; exact hnd) (List.mem_map.mpr ⟨c, hcm, rfl⟩)
  have hperm : (h5Keys (chanNodes cs)).Perm (cs.map ChanRec.name) := by
    unfold h5Keys
    rw [hk]
    exact List.mergeSort_perm _ _
  obtain ⟨l, hl, hn, hi, _⟩ := load_channels unit (chanNodes cs) cs cl hc hget (h5Keys (chanNodes cs)) (by
    intro k hkm
    obtain ⟨c, hcm, he⟩ := List.mem_map.mp (hperm.mem_iff.mp hkm)
    exact ⟨c, hcm, he⟩)
  refine ⟨y, l, ?_, hy2, by rw [hn]; exact hperm, ?_, hi⟩
  · unfold loadPayload
    have m0 : Dict.getE g' "payload" = .ok (.group p) := by unfold Dict.getE; rw [hw.payload]
    have m1 : member (.group p) "payload description" = .ok (nodeOf (.dict (env.describe pl))) := by
      show Dict.getE p _ = _; unfold Dict.getE; rw [hw.descr]
    have m2 : member (.group p) "channels" = .ok (.group (chanNodes cs)) := by
      show Dict.getE p _ = _; unfold Dict.getE; rw [hw.channels]
    have m3 : loadEntry unit (nodeOf (.dict (env.describe pl))) = .ok y := by
      rw [nodeOf] at hy1 ⊢; exact hy1
    simp only [m0, m1, m2, m3, hl]
  · rw [hn]
    unfold h5Keys
    have := List.pairwise_mergeSort (le := fun a b : String => decide (a ≤ b))
      (by intro a b c h1 h2; simp only [decide_eq_true_eq] at *; exact String.le_trans h1 h2)
      (by intro a b; simp only [Bool.or_eq_true, decide_eq_true_eq]; exact String.le_total a b) (Dict.keys (chanNodes cs))
    exact this.imp (fun h => by simpa using h)

/-! ## Using it -/

/-- What is known about units: micron and dimensionless exist, a unit converts to itself, and a square micron is not a length. -/
structure Astropy (U : Units V) : Prop where
  um : U.parse "um" = some "um"
  same : ∀ u, U.convert [u] u = some id
  square : U.convert ["um", "um"] "um" = none

/-- The dictionary of a `Signal` with wavelengths in micron and dimensionless data (`Signal.to_dict`). -/
structure SignalDict (x : Item V) (wl data : V) : Prop where
  isDict : ∃ d w y, x = .dict d ∧ Dict.get? d "wl_grid" = some (.dict w) ∧ Dict.get? w "value" = some (.num wl) ∧
    Dict.get? w "unit" = some (.str "um") ∧ Dict.get? d "data" = some (.dict y) ∧ Dict.get? y "value" = some (.num data)

theorem get_ofItems (d : List (String × Item V)) (k : String) : Dict.get? (ofItems d) k = (Dict.get? d k).map ofItem := by
  induction d with
  | nil => rfl
  | cons p d ih =>
    obtain ⟨k', x⟩ := p
    rw [ofItems, Dict.get?, Dict.get?]
    split
    · rfl
    · exact ih

theorem get_ofLoadeds (d : List (String × LVal V)) (k : String) : Dict.get? (ofLoadeds d) k = (Dict.get? d k).map ofLoaded := by
  induction d with
  | nil => rfl
  | cons p d ih =>
    obtain ⟨k', x⟩ := p
    rw [ofLoadeds, Dict.get?, Dict.get?]
    split
    · rfl
    · exact ih

theorem get_fresh {d : List (String × Item V)} {k : String} {x : Item V} (h : Dict.get? d k = some x) :
    (Val.dict (ofItems d)).get k = .ok (ofItem x) := by
  show Dict.getE (ofItems d) k = _
  unfold Dict.getE
  rw [get_ofItems, h]
  rfl

theorem get_loaded {y z : LVal V} {k : String} (h : lookup y k = .ok z) : (ofLoaded y).get k = .ok (ofLoaded z) := by
  cases y with
  | dict d =>
    have h' : Dict.getE d k = .ok z := h
    rw [ofLoaded]
    show Dict.getE (ofLoadeds d) k = _
    unfold Dict.getE at h' ⊢
    rw [get_ofLoadeds]
    cases hg : Dict.get? d k with
    | none => rw [hg] at h'; cases h'
    | some v => rw [hg] at h'; cases h'; rfl
  | _ => cases h

/-- A signal of a channel that was just built is read back as it is. -/
theorem fresh_signal (U : Units V) (hU : Astropy U) (x : Item V) (wl data : V) (h : SignalDict x wl data) (hf : U.fits wl data = true) :
    signalOf U (ofItem x) = .ok (wl, data) := by
  obtain ⟨d, w, y, rfl, h1, h2, h3, h4, h5⟩ := h.isDict
  rw [ofItem]
  unfold signalOf
  simp only [get_fresh h1, get_fresh h4, ofItem, get_fresh h2, get_fresh h3, get_fresh h5, times, hU.um, checkQuantities, hU.same, id, hf, if_true]

/-- A signal whose wavelengths are in another unit is converted to micron, with the factor of that unit; one whose unit is not a
length is refused. -/
theorem signal_converted (U : Units V) {d w y : List (String × Item V)} {wl data : V} {s u : String}
    (h1 : Dict.get? d "wl_grid" = some (.dict w)) (h2 : Dict.get? w "value" = some (.num wl)) (h3 : Dict.get? w "unit" = some (.str s))
    (h4 : Dict.get? d "data" = some (.dict y)) (h5 : Dict.get? y "value" = some (.num data)) (hs : U.parse s = some u) :
    (∀ f, U.convert [u] "um" = some f → U.fits (f wl) data = true → signalOf U (ofItem (.dict d)) = .ok (f wl, data)) ∧
      (U.convert [u] "um" = none → signalOf U (ofItem (.dict d)) = .error .valueError) := by
  rw [ofItem]
  constructor
  · intro f hf hfit
    unfold signalOf
    simp only [get_fresh h1, get_fresh h4, ofItem, get_fresh h2, get_fresh h3, get_fresh h5, times, hs, checkQuantities, hf, hfit, if_true]
  · intro hf
    unfold signalOf
    simp only [get_fresh h1, get_fresh h4, ofItem, get_fresh h2, get_fresh h3, get_fresh h5, times, hs, checkQuantities, hf]

/-- What is loaded in place of a dictionary (a number, a text) has no items: TypeError. -/
theorem signal_not_dict (U : Units V) (x : Val V) (h : ∀ d, x ≠ .dict d) : signalOf U x = .error .typeError := by
  cases x with
  | dict d => exact absurd rfl (h d)
  | _ => rfl

/-- The class of a stored channel is the text under `channelClass` / `value`, in lower case. -/
theorem class_name {d : LVal V} {e : Dict String (LVal V)} {c : Dict String (LVal V)} {b : String} (hd : d = .dict e) (hc : Dict.get? e "channelClass" = some (.dict c))
    (hv : Dict.get? c "value" = some (.bytes b)) : className d = .ok (Source.lower b) := by
  subst hd
  simp [className, lookup, Dict.getE, hc, hv]

/-- A stored channel without a class is a KeyError; a class that is no dictionary is a TypeError, as is a description that is none. -/
theorem class_name_fails (d : LVal V) :
    ((∀ e, d ≠ .dict e) → className d = .error .typeError) ∧
    (∀ e, d = .dict e → Dict.get? e "channelClass" = none → className d = .error .keyError) ∧
    (∀ e c, d = .dict e → Dict.get? e "channelClass" = some c → (∀ f, c ≠ .dict f) → className d = .error .typeError) := by
  refine ⟨?_, ?_, ?_⟩
  · intro h
    cases d with
    | dict e => exact absurd rfl (h e)
    | _ => rfl
  · rintro e rfl h
    simp [className, lookup, Dict.getE, h]
  · rintro e c rfl h hc
    cases c with
    | dict f => exact absurd rfl (hc f)
    | _ => simp [className, lookup, Dict.getE, h]

/-- C70 (channels in memory): a built channel gives the diffuse light its quantum efficiency and transmission as they are. -/
theorem fresh_prepare (U : Units V) (hU : Astropy U) (c : ChanRec V) {q t : Item V} {wq q' wt t' : V}
    (hq : Dict.get? c.built "qe_data" = some q) (hqs : SignalDict q wq q') (ht : Dict.get? c.built "transmission_data" = some t)
    (hts : SignalDict t wt t') (hfq : U.fits wq q' = true) (hft : U.fits wt t' = true) {fx : V} {fy : Option V} {a : V}
    (h1 : magnitude (freshChan c).2 "Fnum_x" = .ok fx) (h2 : fnumY (freshChan c).2 = .ok fy) (h3 : pixelArea U (freshChan c).2 = .ok a) :
    prepare U (freshChan c).1 (freshChan c).2 = .ok ⟨fx, fy, a, (wq, q'), (wt, t')⟩ := by
  unfold prepare
  rw [h1]
  simp only [h2, h3]
  unfold freshChan
  simp only [get_fresh hq, fresh_signal U hU q wq q' hqs hfq, get_fresh ht, fresh_signal U hU t wt t' hts hft]

/-- C79: the f-numbers of a channel must be quantities. One given as a plain number (without `unit` in the payload) makes every
use of the channel fail with AttributeError. -/
theorem plain_fnum_fails (U : Units V) (built d e : Val V) (v : V) (hd : d.get "Fnum_x" = .ok e) (he : e.get "value" = .ok (.num v)) :
    prepare U built d = .error .attributeError := by
  unfold prepare magnitude
  simp only [hd, he]

/-- A signal loaded from HDF5: its wavelengths are a quantity already, and multiplying by the unit again gives square microns. -/
theorem loaded_signal_fails (U : Units V) (hU : Astropy U) (x : Item V) (wl data : V) (h : SignalDict x wl data) (y : LVal V)
    (hr : Reads U.parse x y) : ∃ e, signalOf U (ofLoaded y) = .error e := by
  obtain ⟨d, w, z, rfl, h1, h2, h3, h4, h5⟩ := h.isDict
  obtain ⟨yw, hyw, hrw⟩ := reads_member hr (Dict.mem_of_get? h1) (by decide)
  rw [Reads] at hrw
  obtain ⟨r, rfl, hkeys, hrr⟩ := hrw
  rw [readsAll_iff] at hrr
  obtain ⟨b, hb, hcb⟩ := hrr _ _ (Dict.mem_of_get? h2)
  obtain ⟨u, hu, hcu⟩ := hrr _ _ (Dict.mem_of_get? h3)
  have hub : u = .bytes "um" := by
    rcases hcu with ⟨e, _⟩ | ⟨e, _⟩ | ⟨_, _, h⟩
    · exact absurd e (by decide)
    · exact absurd e (by decide)
    · rw [Reads] at h; exact h
  subst hub
  have hqty : b = .qty wl "um" := by
    rcases hcb with ⟨_, v, u, e, _⟩ | ⟨_, v, s, u, e, hs, hsu, rfl⟩ | ⟨_, hn, _⟩
    · cases e
    · cases e
      rw [hu] at hs
      cases hs
      rw [hU.um] at hsu
      cases hsu
      rfl
    · exact absurd ⟨rfl, ⟨wl, rfl⟩, Dict.mem_keys_of_get? hu⟩ hn
  subst hqty
  have g1 : (ofLoaded y).get "wl_grid" = .ok (ofLoaded (.dict r)) := get_loaded hyw
  have g2 : (ofLoaded (LVal.dict r)).get "value" = .ok (.qty wl ["um"]) := by
    rw [get_loaded (z := .qty wl "um") (by show Dict.getE r _ = _; unfold Dict.getE; rw [hb])]
    rfl
  have g3 : (ofLoaded (LVal.dict r)).get "unit" = .ok (.text "um") := by
    rw [get_loaded (z := .bytes "um") (by show Dict.getE r _ = _; unfold Dict.getE; rw [hu])]
    rfl
  unfold signalOf
  simp only [g1, g2, g3, times, hU.um, checkQuantities, List.cons_append, List.nil_append, hU.square]
  cases (ofLoaded y).get "data" with
  | error e => exact ⟨e, rfl⟩
  | ok v =>
    simp only
    cases v.get "value" with
    | error e => exact ⟨e, rfl⟩
    | ok v => exact ⟨_, rfl⟩

/-- `prepare` raises for every loaded channel. -/
theorem loaded_prepare_fails (U : Units V) (hU : Astropy U) (c : ChanRec V) {q : Item V} {wq q' : V}
    (hq : Dict.get? c.built "qe_data" = some q) (hqs : SignalDict q wq q') (x : LoadedChan V) (hx : Image U.parse c x) :
    ∃ e, prepare U (loadedChan x).1 (loadedChan x).2 = .error e := by
  obtain ⟨z, hz, hr⟩ := reads_member hx.built (Dict.mem_of_get? hq) (by decide)
  obtain ⟨e, he⟩ := loaded_signal_fails U hU q wq q' hqs z hr
  unfold prepare loadedChan
  simp only [get_loaded hz, he]
  cases magnitude (ofLoaded x.description) "Fnum_x" with
  | error e => exact ⟨e, rfl⟩
  | ok _ =>
    simp only
    cases fnumY (ofLoaded x.description) with
    | error e => exact ⟨e, rfl⟩
    | ok _ =>
      simp only
      cases pixelArea U (ofLoaded x.description) with
      | error e => exact ⟨e, rfl⟩
      | ok _ => exact ⟨e, rfl⟩

theorem runSteps_stops (U : Units V) (chans : List (Val V × Val V)) (e : Exc) (h : Source.mapE (fun c => prepare U c.1 c.2) chans = .error e)
    (w : Pipeline.World) (p : Pipeline.Payload) (tabs : List (Table ℝ)) (t : Pipeline.Target) : ∃ e, observe U chans w p tabs t = .error e := by
  have step : ∀ (pre post : List Pipeline.Step) (s : Pipeline.St),
      ∃ s' e, Pipeline.runSteps (pre ++ foregroundStep U chans p.channels :: post) s = (s', .error e) := by
    intro pre post
    induction pre with
    | nil =>
      intro s
      refine ⟨s, e, ?_⟩
      have : foregroundStep U chans p.channels s = (s, .error e) := by unfold foregroundStep; rw [h]
      rw [List.nil_append, Pipeline.runSteps, this]
    | cons f pre ih =>
      intro s
      rw [List.cons_append, Pipeline.runSteps]
      rcases hf : f s with ⟨s', r⟩
      cases r with
      | error e => exact ⟨s', e, rfl⟩
      | ok _ => exact ih s'
  obtain ⟨s', e', hr⟩ := step ([Pipeline.prepareTarget] ++ (match p.foreground with
    | some sec => [Pipeline.estimateForegrounds w sec]
    | none => [])) [Pipeline.loadSource w p, Pipeline.propagateTarget p.channels, Pipeline.noiseStep p.channels] ⟨tabs, t⟩
  refine ⟨e', ?_⟩
  unfold observe
  have : steps U chans w p = ([Pipeline.prepareTarget] ++ (match p.foreground with
    | some sec => [Pipeline.estimateForegrounds w sec]
    | none => [])) ++ foregroundStep U chans p.channels :: [Pipeline.loadSource w p, Pipeline.propagateTarget p.channels, Pipeline.noiseStep p.channels] := rfl
  rw [this, hr]

/-- C70, what fails: no target can be observed with channels loaded from a file. -/
theorem loaded_channels_unusable (U : Units V) (hU : Astropy U) (cs : List (ChanRec V))
    (hsig : ∀ c ∈ cs, ∃ q wq q', Dict.get? c.built "qe_data" = some q ∧ SignalDict q wq q') (l : List (LoadedChan V)) (hl : l ≠ [])
    (hi : ∀ x ∈ l, ∃ c ∈ cs, Image U.parse c x) (w : Pipeline.World) (p : Pipeline.Payload) (tabs : List (Table ℝ)) (t : Pipeline.Target) :
    ∃ e, observe U (l.map loadedChan) w p tabs t = .error e := by
  cases l with
  | nil => exact absurd rfl hl
  | cons x l =>
    obtain ⟨c, hc, hx⟩ := hi x (by simp)
    obtain ⟨q, wq, q', hq, hqs⟩ := hsig c hc
    obtain ⟨e, he⟩ := loaded_prepare_fails U hU c hq hqs x hx
    refine runSteps_stops U _ e ?_ w p tabs t
    rw [List.map_cons, Source.mapE, he]

/-- C70, the whole of it: a payload saved to a file is loaded without complaint, and then no target can be observed with it. -/
theorem saved_payload_unusable (U : Units V) (hU : Astropy U) (env : Env V P R T) (pl : P) (cs : List (ChanRec V)) (cl : ChanRec V → Channels.Class)
    (hb : env.build pl = cs.map .ok) (hne : cs ≠ []) (hd : Storable U.parse (.dict (env.describe pl))) (hc : ∀ c ∈ cs, Savable U.parse c (cl c))
    (hsig : ∀ c ∈ cs, ∃ q wq q', Dict.get? c.built "qe_data" = some q ∧ SignalDict q wq q')
    (hnd : (cs.map ChanRec.name).Nodup) (g : Hdf5.Group V) (hg : g.get? "payload" = none) :
    ∃ g' y l, writePayload env pl g = (g', .ok ()) ∧ loadPayload U.parse g' = .ok (y, l) ∧
      ∀ w p tabs t, ∃ e, observe U (l.map loadedChan) w p tabs t = .error e := by
  obtain ⟨g', e, y, l, hl, _, hp, _, hi⟩ := payload_roundtrip U.parse env pl cs cl hb hd hc hnd g hg
  refine ⟨g', y, l, e, hl, fun w p tabs t => loaded_channels_unusable U hU cs hsig l ?_ (fun x hx => ?_) w p tabs t⟩
  · rintro rfl
    have := hp.length_eq
    cases cs with
    | nil => exact hne rfl
    | cons c cs => simp at this
  · obtain ⟨c, hc, _, h⟩ := hi x hx
    exact ⟨c, hc, h⟩

/-- With the channels in memory the dictionaries do not get in the way: the observation is the one of C19-C22. -/
theorem fresh_observation (U : Units V) (chans : List (Val V × Val V)) (h : ∀ c ∈ chans, ∃ r, prepare U c.1 c.2 = .ok r)
    (w : Pipeline.World) (p : Pipeline.Payload) (tabs : List (Table ℝ)) (t : Pipeline.Target) :
    observe U chans w p tabs t = (Pipeline.observe w p tabs t).2 := by
  have hm : ∃ rs, Source.mapE (fun c => prepare U c.1 c.2) chans = .ok rs := by
    induction chans with
    | nil => exact ⟨[], rfl⟩
    | cons c cs ih =>
      obtain ⟨r, hr⟩ := h c (by simp)
      obtain ⟨rs, hrs⟩ := ih (fun c' hc' => h c' (by simp [hc']))
      exact ⟨r :: rs, by rw [Source.mapE, hr]; simp only [hrs]⟩
  obtain ⟨rs, hrs⟩ := hm
  have hf : foregroundStep U chans p.channels = Pipeline.propagateForeground p.channels := by
    funext s
    unfold foregroundStep
    rw [hrs]
  have hsteps : steps U chans w p = Pipeline.steps w p := by
    unfold steps Pipeline.steps
    rw [hf]
    cases p.foreground <;> rfl
  unfold observe Pipeline.observe
  rw [hsteps]
  rcases Pipeline.runSteps (Pipeline.steps w p) ⟨tabs, t⟩ with ⟨s, r⟩
  cases r <;> rfl

/-! ## A concrete payload -/

namespace Demo

/-- Numbers are one natural number per array. -/
def units : Units Nat where
  parse := fun s => some s
  convert := fun us u => if us = [u] then some id else if us = ["um", "um"] ∧ u = "m2" then some id else none
  mul := (· * ·)
  fits := fun _ _ => true

theorem astropy : Astropy units := ⟨rfl, fun u => by simp [units], by simp [units]⟩

def signal (wl data : Nat) : Item Nat :=
  .dict [("wl_grid", .dict [("value", .num wl), ("unit", .str "um")]), ("data", .dict [("value", .num data), ("unit", .str "")])]

theorem signal_is (wl data : Nat) : SignalDict (signal wl data) wl data :=
  ⟨_, _, _, rfl, rfl, rfl, rfl, rfl, rfl⟩

def channel (name cls : String) : ChanRec Nat where
  name := name
  tableId := "table of " ++ name
  cols := [("Wavelength", 4, some "um")]
  description := [("value", .str name), ("channelClass", .dict [("value", .str cls)]),
    ("Fnum_x", .dict [("value", .quantity 20 ""), ("unit", .str "")]),
    ("detector", .dict [("delta_pix", .dict [("value", .quantity 18 "um"), ("unit", .str "um")])])]
  built := [("qe_data", signal 5 6), ("transmission_data", signal 7 8)]

def payload : List (ChanRec Nat) := [channel "VISPhot" "Photometer", channel "AIRS" "Spectrometer"]

def world : Env Nat Unit Unit Unit where
  attrs := []
  loadXml := fun _ => .ok ()
  describe := fun _ => [("common", .dict [("n", .num 1)])]
  build := fun _ => payload.map .ok
  loadH5 := fun _ => .ok ()
  range := fun _ => .ok ()
  drawEfficiency := fun _ => .ok true
  loadCsv := fun _ => .ok ()
  loadXlsx := fun _ => .ok ()
  observe := fun _ _ => ([], [])
  items := fun _ => []
  name := fun _ => ""

theorem savable (name cls : String) (c : Channels.Class) (hn : (name = "VISPhot" ∧ cls = "Photometer" ∧ c = .photometer) ∨
    (name = "AIRS" ∧ cls = "Spectrometer" ∧ c = .spectrometer)) : Savable units.parse (channel name cls) c := by
  have key : ∀ (d : List (String × Item Nat)), (d.flatMap namesOf).Nodup → (∀ p ∈ d, substr metaKey p.1 = false) →
      (∀ p ∈ d, ∀ i c, p.2 = .table i c → '.' ∉ p.1.toList) → (∀ v u, ("value", .quantity v u) ∈ d → ("unit", .str u) ∈ d) →
      ("value" ∈ d.map Prod.fst → "unit" ∈ d.map Prod.fst → (∃ v u, ("value", .quantity v u) ∈ d) ∨
        ∃ v s, ("value", .num v) ∈ d ∧ ("unit", .str s) ∈ d) → StorableAll units.parse d → Storable (V := Nat) units.parse (.dict d) := by
    intro d h1 h2 h3 h4 h5 h6
    rw [Storable]
    exact ⟨h1, h2, h3, fun v u h => ⟨u, h4 v u h, rfl⟩, fun a b => (h5 a b).imp id (fun ⟨v, s, x, y⟩ => ⟨v, s, s, x, y, rfl⟩), h6⟩
  have pair : ∀ v u, Storable (V := Nat) units.parse (.dict [("value", .quantity v u), ("unit", .str u)]) := by
    intro v u
    refine key _ (by simp [namesOf]) ?_ (by simp) (by simp) (by simp) (by simp [StorableAll, Storable, units])
    intro p hp; simp at hp; rcases hp with rfl | rfl <;> (simp only; decide)
  have pairN : ∀ v u, Storable (V := Nat) units.parse (.dict [("value", .num v), ("unit", .str u)]) := by
    intro v u
    refine key _ (by simp [namesOf]) ?_ (by simp) (by simp) (by simp) (by simp [StorableAll, Storable])
    intro p hp; simp at hp; rcases hp with rfl | rfl <;> (simp only; decide)
  have sig : ∀ a b, Storable units.parse (signal a b) := by
    intro a b
    refine key _ (by simp [namesOf]) ?_ (by simp) (by simp) (by simp) ⟨pairN a "um", pairN b "", trivial⟩
    intro p hp; simp at hp; rcases hp with rfl | rfl <;> (simp only; decide)
  have one : ∀ s, Storable (V := Nat) units.parse (.dict [("value", .str s)]) := by
    intro s
    refine key _ (by simp [namesOf]) ?_ (by simp) (by simp) (by simp) (by simp [StorableAll, Storable])
    intro p hp; simp at hp; subst hp; simp only; decide
  have det : Storable (V := Nat) units.parse (.dict [("delta_pix", .dict [("value", .quantity 18 "um"), ("unit", .str "um")])]) := by
    refine key _ (by simp [namesOf]) ?_ (by simp) (by simp) (by simp) ⟨pair 18 "um", trivial⟩
    intro p hp; simp at hp; subst hp; simp only; decide
  have descr : Storable (V := Nat) units.parse (.dict (channel name cls).description) := by
    refine key _ (by simp [namesOf, channel]) ?_ (by simp [channel]) (by simp [channel]) (by simp [channel])
      ⟨by simp [Storable], one cls, pair 20 "", det, trivial⟩
    intro p hp; simp [channel] at hp; rcases hp with rfl | rfl | rfl | rfl <;> (simp only; decide)
  have built : Storable (V := Nat) units.parse (.dict (channel name cls).built) := by
    refine key _ (by simp [namesOf, channel, signal]) ?_ (by simp [channel, signal]) (by simp [channel, signal]) (by simp [channel, signal])
      ⟨sig 5 6, sig 7 8, trivial⟩
    intro p hp; simp [channel] at hp; rcases hp with rfl | rfl <;> (simp only; decide)
  have cols : Storable (V := Nat) units.parse (.table (channel name cls).tableId (channel name cls).cols) := by
    rw [Storable]
    refine ⟨by simp [channel], ?_, by simp [channel], by simp [units]⟩
    intro c hc; simp [channel] at hc; subst hc; simp only; decide
  refine ⟨?_, [("value", .str cls)], cls, by simp [channel], by simp, ?_⟩
  · refine key _ ?_ ?_ ?_ ?_ ?_ ⟨cols, descr, built, trivial⟩
    · rcases hn with ⟨rfl, rfl, rfl⟩ | ⟨rfl, rfl, rfl⟩ <;> (simp [namesOf, channel]; decide)
    · intro p hp
      simp only [List.mem_cons, List.not_mem_nil, or_false] at hp
      rcases hp with rfl | rfl | rfl
      · rcases hn with ⟨rfl, rfl, rfl⟩ | ⟨rfl, rfl, rfl⟩ <;> decide
      · show substr metaKey "description" = false
        decide
      · show substr metaKey "built_instr" = false
        decide
    · intro p hp i c e
      simp only [List.mem_cons, List.not_mem_nil, or_false] at hp
      rcases hp with rfl | rfl | rfl
      · rcases hn with ⟨rfl, rfl, rfl⟩ | ⟨rfl, rfl, rfl⟩ <;> decide
      · cases e
      · cases e
    · simp
    · rcases hn with ⟨rfl, rfl, rfl⟩ | ⟨rfl, rfl, rfl⟩ <;> simp [channel]
  · rcases hn with ⟨rfl, rfl, rfl⟩ | ⟨rfl, rfl, rfl⟩ <;> decide

/-- The photometer and the spectrometer are written, loaded in alphabetical order, and unusable. -/
theorem demo : ∃ g' y l, writePayload world () [] = (g', .ok ()) ∧ loadPayload units.parse g' = .ok (y, l) ∧
    ∀ w p tabs t, ∃ e, observe units (l.map loadedChan) w p tabs t = .error e := by
  refine saved_payload_unusable units astropy world () payload (fun c => if c.name = "AIRS" then .spectrometer else .photometer) rfl
    (by simp [payload]) ?_ ?_ ?_ (by decide) [] rfl
  · simp only [world, Storable, StorableAll, and_true]
    simp [namesOf]
    decide
  · intro c hc
    simp only [payload, List.mem_cons, List.not_mem_nil, or_false] at hc
    rcases hc with rfl | rfl
    · exact savable _ _ _ (.inl ⟨rfl, rfl, by simp [channel]⟩)
    · exact savable _ _ _ (.inr ⟨rfl, rfl, by simp [channel]⟩)
  · intro c hc
    simp only [payload, List.mem_cons, List.not_mem_nil, or_false] at hc
    rcases hc with rfl | rfl <;> exact ⟨_, 5, 6, rfl, signal_is 5 6⟩

/-- Before saving, the same channel was fine. -/
theorem demo_fresh : prepare units (freshChan (channel "AIRS" "Spectrometer")).1 (freshChan (channel "AIRS" "Spectrometer")).2 =
    .ok ⟨20, none, 324, (5, 6), (7, 8)⟩ :=
  fresh_prepare units astropy (channel "AIRS" "Spectrometer") rfl (signal_is 5 6) rfl (signal_is 7 8) rfl rfl rfl rfl rfl

end Demo

end ExoRad.Loaded
