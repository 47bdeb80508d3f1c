import Verif.Model.Channels
import Verif.Lemmas.Dict
import Mathlib.Data.List.Perm.Basic

/-!
# C54: the channels of a payload
-/

namespace ExoRad.Channels

open Options (Opt Key Scalar)

set_option linter.unusedSectionVars false

variable {B : Type}

/-! ## Specification -/

/-- A description says which class of instrument the channel is. -/
def HasClass (d : Opt) (c : String) : Prop :=
  ∃ dd e, d = .dict dd ∧ Dict.get? dd "channelClass" = some (.dict e) ∧ Dict.get? e "value" = some (.scalar (.str c))

/-- A channel of a payload: name, description and class. -/
structure Chan where
  name : Key
  descr : Opt
  cls : String

/-- The payload has these channels (several, so an `OrderedDict`), in this order. -/
structure HasChannels (payload : Opt) (chs : List Chan) : Prop where
  payload : ∃ p, payload = .dict p ∧ Dict.get? p "channel" = some (.odict (chs.map (fun c => (c.name, c.descr))))
  names : (chs.map Chan.name).Nodup
  cls : ∀ c ∈ chs, HasClass c.descr c.cls

/-- The same class but for the case of the letters. -/
def SameClass (a b : String) : Prop := a.toList.map Char.toLower = b.toList.map Char.toLower

instance (a b : String) : Decidable (SameClass a b) := by unfold SameClass; infer_instance

/-- The class of instrument of a channel. -/
def Is (c : Chan) (k : Class) : Prop :=
  match k with
  | .photometer => SameClass c.cls "photometer"
  | .spectrometer => SameClass c.cls "spectrometer"

/-! ## Lemmas -/

theorem lower_iff (a b : String) : Source.lower a = Source.lower b ↔ SameClass a b := by
  unfold Source.lower SameClass
  constructor
  · intro h
    have := congrArg String.toList h
    simpa using this
  · intro h; rw [h]

theorem classOf_eq {d : Opt} {c : String} (h : HasClass d c) : classOf d = .ok (Source.lower c) := by
  obtain ⟨dd, e, rfl, h1, h2⟩ := h
  unfold classOf item
  simp only [Dict.getE, h1, h2, lowerOf]

theorem item_chan {p : Dict String Opt} {o : Opt} (h : Dict.get? p "channel" = some o) : item (.dict p) "channel" = .ok o := by
  simp [item, Dict.getE, h]

theorem get_chan {chs : List Chan} (hn : (chs.map Chan.name).Nodup) {c : Chan} (hc : c ∈ chs) :
    Dict.get? (chs.map (fun c => (c.name, c.descr))) c.name = some c.descr := by
  refine Dict.get?_of_mem ?_ (List.mem_map.2 ⟨c, hc, rfl⟩)
  unfold Dict.keys
  rw [List.map_map]
  exact hn

theorem itemKey_chan {chs : List Chan} (hn : (chs.map Chan.name).Nodup) {c : Chan} (hc : c ∈ chs) :
    itemKey (.odict (chs.map (fun c => (c.name, c.descr)))) c.name = .ok c.descr := by
  simp only [itemKey, Dict.getE, get_chan hn hc]

theorem listLoop_eq {chs : List Chan} (hn : (chs.map Chan.name).Nodup) (hcls : ∀ c ∈ chs, HasClass c.descr c.cls) (w : String) :
    ∀ l : List Chan, (∀ c ∈ l, c ∈ chs) →
      listLoop (.odict (chs.map (fun c => (c.name, c.descr)))) w (l.map Chan.name) =
        .ok ((l.filter (fun c => decide (SameClass c.cls w))).map Chan.name)
  | [], _ => rfl
  | c :: l, h => by
    have ih := listLoop_eq hn hcls w l (fun x hx => h x (by simp [hx]))
    simp only [List.map_cons]
    unfold listLoop
    rw [itemKey_chan hn (h c (by simp))]
    simp only []
    rw [classOf_eq (hcls c (h c (by simp)))]
    simp only []
    rw [ih]
    by_cases hs : SameClass c.cls w
    · simp [hs, (lower_iff _ _).2 hs]
    · have : ¬ Source.lower c.cls = Source.lower w := fun e => hs ((lower_iff _ _).1 e)
      simp [hs, this]

/-- **C54**: asked for a class, `GetChannelList` gives exactly the names of the channels of that class, whatever the case, in the
order of the payload. -/
theorem channel_list {payload : Opt} {chs : List Chan} (h : HasChannels payload chs) (w : String) :
    getChannelList payload w = .ok ((chs.filter (fun c => decide (SameClass c.cls w))).map Chan.name) := by
  obtain ⟨p, rfl, hp⟩ := h.payload
  unfold getChannelList
  rw [item_chan hp]
  simp only [keysOf, List.map_map]
  exact listLoop_eq h.names h.cls w chs (fun c hc => hc)

theorem instruments_eq (s : String) : instruments.get? s =
    if s = "photometer" then some .photometer else if s = "spectrometer" then some .spectrometer else none := by
  unfold instruments
  simp only [Dict.get?]
  by_cases h : s = "photometer"
  · simp [h]
  · rw [if_neg (Ne.symm h), if_neg h]
    by_cases h' : s = "spectrometer"
    · simp [h']
    · rw [if_neg (Ne.symm h'), if_neg h']

theorem lower_photometer : Source.lower "photometer" = "photometer" := by decide
theorem lower_spectrometer : Source.lower "spectrometer" = "spectrometer" := by decide

theorem instruments_class (c : Chan) (k : Class) : instruments.get? (Source.lower c.cls) = some k ↔ Is c k := by
  rw [instruments_eq]
  have e1 : (Source.lower c.cls = "photometer") ↔ SameClass c.cls "photometer" := by
    rw [← lower_iff, lower_photometer]
  have e2 : (Source.lower c.cls = "spectrometer") ↔ SameClass c.cls "spectrometer" := by
    rw [← lower_iff, lower_spectrometer]
  have hne : Source.lower c.cls = "photometer" → Source.lower c.cls ≠ "spectrometer" := by
    intro h h'; rw [h] at h'; exact absurd h' (by decide)
  cases k with
  | photometer =>
    unfold Is
    simp only
    rw [← e1]
    split
    · rename_i h; simp [h]
    · rename_i h; split <;> simp [h]
  | spectrometer =>
    unfold Is
    simp only
    rw [← e2]
    split
    · rename_i h; simp [h]
    · split
      · rename_i h; simp [h]
      · rename_i h; simp [h]

theorem instruments_none (c : Chan) : instruments.get? (Source.lower c.cls) = none ↔ ∀ k, ¬ Is c k := by
  constructor
  · intro h k hk
    rw [(instruments_class c k).2 hk] at h
    cases h
  · intro h
    cases he : instruments.get? (Source.lower c.cls) with
    | none => rfl
    | some k => exact absurd ((instruments_class c k).1 he) (h k)

/-- The option that is the name of a channel, unchanged. -/
inductive NameIs : Key → Opt → Prop where
  | str (s : String) : NameIs (.str s) (.scalar (.str s))
  | num (q : ℚ) : NameIs (.num q) (.scalar (.float q))
  | qty (q : ℚ) (u : String) : NameIs (.qty q u) (.scalar (.qty false q u))
  | unit (u : String) : NameIs (.unit u) (.scalar (.unit u))

theorem nameIs_iff (k : Key) (o : Opt) : NameIs k o ↔ o = ofKey k := by
  constructor
  · intro h; cases h <;> rfl
  · rintro rfl; cases k <;> constructor

/-- A channel is built with its name, description and the payload by the class that it says. -/
def Built (make : Class → Opt → Opt → Opt → Except Exc B) (payload : Opt) (c : Chan) (b : B) : Prop :=
  ∃ k n, Is c k ∧ NameIs c.name n ∧ make k n c.descr payload = .ok b

theorem buildInstrument_ok {make : Class → Opt → Opt → Opt → Except Exc B} {payload : Opt} {c : Chan} {b : B} :
    buildInstrument make (Source.lower c.cls) (ofKey c.name) c.descr payload = .ok b ↔ Built make payload c b := by
  unfold buildInstrument Built
  cases he : instruments.get? (Source.lower c.cls) with
  | none =>
    have := (instruments_none c).1 he
    constructor
    · intro h; cases h
    · rintro ⟨k, _, hk, _⟩; exact absurd hk (this k)
  | some k =>
    simp only []
    constructor
    · intro h; exact ⟨k, _, (instruments_class c k).1 he, (nameIs_iff _ _).2 rfl, h⟩
    · rintro ⟨k', n, hk', hn, h⟩
      rw [(nameIs_iff _ _).1 hn] at h
      have := (instruments_class c k').2 hk'
      rw [he] at this
      cases this
      exact h

theorem set_new {d : Dict Key B} {k : Key} {b : B} (h : k ∉ d.keys) : d.set k b = d ++ [(k, b)] := by
  induction d with
  | nil => rfl
  | cons p d ih =>
    obtain ⟨a, v⟩ := p
    simp only [Dict.keys, List.map_cons, List.mem_cons, not_or] at h
    rw [Dict.set, if_neg (fun e => h.1 e.symm), ih h.2]
    rfl

theorem buildLoop_ok {make : Class → Opt → Opt → Opt → Except Exc B} {payload : Opt} {chs : List Chan}
    (hn : (chs.map Chan.name).Nodup) (hcls : ∀ c ∈ chs, HasClass c.descr c.cls) :
    ∀ (l : List Chan) (acc r : Dict Key B), (∀ c ∈ l, c ∈ chs) → (l.map Chan.name).Nodup → (∀ c ∈ l, c.name ∉ acc.keys) →
      (buildLoop make payload (.odict (chs.map (fun c => (c.name, c.descr)))) (l.map Chan.name) acc = .ok r ↔
        ∃ bs : List B, r = acc ++ (l.map Chan.name).zip bs ∧ List.Forall₂ (Built make payload) l bs)
  | [], acc, r, _, _, _ => by
    simp only [List.map_nil, buildLoop]
    constructor
    · intro h; cases h; exact ⟨[], by simp, .nil⟩
    · rintro ⟨bs, hr, hb⟩; cases hb; simp [hr]
  | c :: l, acc, r, h, hd, ha => by
    simp only [List.map_cons, List.nodup_cons] at hd
    simp only [List.map_cons]
    unfold buildLoop
    rw [itemKey_chan hn (h c (by simp))]
    simp only []
    rw [classOf_eq (hcls c (h c (by simp)))]
    simp only []
    cases hb : buildInstrument make (Source.lower c.cls) (ofKey c.name) c.descr payload with
    | error e =>
      simp only []
      constructor
      · intro h; cases h
      · rintro ⟨bs, _, hf⟩
        cases hf with
        | cons h1 _ =>
          rw [buildInstrument_ok.2 h1] at hb
          cases hb
    | ok b =>
      simp only []
      have hk := set_new (b := b) (ha c (by simp))
      rw [hk, buildLoop_ok hn hcls l _ r (fun x hx => h x (by simp [hx])) hd.2]
      · constructor
        · rintro ⟨bs, hr, hf⟩
          exact ⟨b :: bs, by simp [hr], .cons (buildInstrument_ok.1 hb) hf⟩
        · rintro ⟨bs, hr, hf⟩
          cases hf with
          | cons h1 h2 =>
            rw [buildInstrument_ok.2 h1] at hb
            cases hb
            exact ⟨_, by simp [hr], h2⟩
      · intro x hx
        simp only [Dict.keys, List.map_append, List.map_cons, List.map_nil, List.mem_append, List.mem_singleton, not_or]
        refine ⟨ha x (by simp [hx]), fun e => hd.1 ?_⟩
        rw [← e]
        exact List.mem_map_of_mem hx

/-- **C54**: the channels of a payload are built exactly when each of them can be, and the result has one instrument per
channel, under its name and in the order of the payload, built by the class named in its own description. -/
theorem build_channels {make : Class → Opt → Opt → Opt → Except Exc B} {payload : Opt} {chs : List Chan}
    (h : HasChannels payload chs) (r : Dict Key B) :
    buildChannels make payload = .ok r ↔
      ∃ bs : List B, r = (chs.map Chan.name).zip bs ∧ List.Forall₂ (Built make payload) chs bs := by
  obtain ⟨p, hpp, hp⟩ := h.payload
  have := buildLoop_ok (make := make) (payload := payload) h.names h.cls chs [] r (fun c hc => hc) h.names (by simp [Dict.keys])
  unfold buildChannels
  rw [hpp, item_chan hp]
  simp only [keysOf, List.map_map]
  rw [hpp] at this
  simpa [Function.comp_def] using this

/-- **C54**: a channel of an unknown class makes the build fail, whatever the others are. -/
theorem unknown_class {make : Class → Opt → Opt → Opt → Except Exc B} {payload : Opt} {chs : List Chan}
    (h : HasChannels payload chs) {c : Chan} (hc : c ∈ chs) (hu : ∀ k, ¬ Is c k) : ∃ e, buildChannels make payload = .error e := by
  cases hb : buildChannels make payload with
  | error e => exact ⟨e, rfl⟩
  | ok r =>
    obtain ⟨bs, _, hf⟩ := (build_channels h r).1 hb
    exfalso
    have : ∀ {l : List Chan} {bs : List B}, List.Forall₂ (Built make payload) l bs → c ∈ l → False := by
      intro l bs hf hcl
      induction hf with
      | nil => cases hcl
      | cons h1 _ ih =>
        rcases List.mem_cons.1 hcl with rfl | hcl
        · obtain ⟨k, _, hk, _⟩ := h1; exact hu k hk
        · exact ih hcl
    exact this hf hc

/-- The exception is a ValueError when the channels before can be built. -/
theorem unknown_class_first {make : Class → Opt → Opt → Opt → Except Exc B} {payload : Opt} {chs : List Chan} {c : Chan}
    (h : HasChannels payload (c :: chs)) (hu : ∀ k, ¬ Is c k) : buildChannels make payload = .error .valueError := by
  obtain ⟨p, hpp, hp⟩ := h.payload
  unfold buildChannels
  rw [hpp, item_chan hp]
  simp only [keysOf, List.map_cons]
  unfold buildLoop itemKey Dict.getE
  simp only [Dict.get?, if_true]
  rw [classOf_eq (h.cls c (by simp))]
  simp only []
  unfold buildInstrument
  rw [(instruments_none c).2 hu]

/-- **C54**: a channel whose class is written as a plain text, or not written at all, stops the build: with a TypeError or a
KeyError when it is the first. -/
theorem class_not_entry {make : Class → Opt → Opt → Opt → Except Exc B} {payload : Opt} {p : Dict String Opt} {k : Key} {dd : Dict String Opt}
    {rest : Dict Key Opt} (hp : payload = .dict p) (h : Dict.get? p "channel" = some (.odict ((k, .dict dd) :: rest))) :
    (∀ s, Dict.get? dd "channelClass" = some (.scalar s) → buildChannels make payload = .error .typeError) ∧
    (Dict.get? dd "channelClass" = none → buildChannels make payload = .error .keyError) := by
  have key : ∀ e, classOf (.dict dd) = .error e → buildChannels make payload = .error e := by
    intro e he
    unfold buildChannels
    rw [hp, item_chan h]
    simp only [keysOf, List.map_cons]
    unfold buildLoop itemKey Dict.getE
    simp only [Dict.get?, if_true, he]
  refine ⟨fun s hs => key _ ?_, fun hn => key _ ?_⟩
  · unfold classOf item
    simp only [Dict.getE, hs]
  · unfold classOf item
    simp only [Dict.getE, hn]

/-- **C54**: once the channels are built, the lists of the photometers and of the spectrometers share out all the channels. -/
theorem lists_cover {make : Class → Opt → Opt → Opt → Except Exc B} {payload : Opt} {chs : List Chan}
    (h : HasChannels payload chs) {r : Dict Key B} (hb : buildChannels make payload = .ok r) :
    ∃ ps ss, getChannelList payload "photometer" = .ok ps ∧ getChannelList payload "spectrometer" = .ok ss ∧
      (ps ++ ss).Perm r.keys := by
  obtain ⟨bs, hr, hf⟩ := (build_channels h r).1 hb
  refine ⟨_, _, channel_list h _, channel_list h _, ?_⟩
  have hk : r.keys = chs.map Chan.name := by
    rw [hr]
    unfold Dict.keys
    exact List.map_fst_zip (by rw [List.length_map, hf.length_eq])
  rw [hk, ← List.map_append]
  apply List.Perm.map
  have hall : ∀ c ∈ chs, decide (SameClass c.cls "spectrometer") = !decide (SameClass c.cls "photometer") := by
    intro c hc
    have hex : ∃ k, Is c k := by
      have : ∀ {l : List Chan} {bs : List B}, List.Forall₂ (Built make payload) l bs → c ∈ l → ∃ k, Is c k := by
        intro l bs hf hcl
        induction hf with
        | nil => cases hcl
        | cons h1 _ ih =>
          rcases List.mem_cons.1 hcl with rfl | hcl
          · obtain ⟨k, _, hk, _⟩ := h1; exact ⟨k, hk⟩
          · exact ih hcl
      exact this hf hc
    have hnot : ¬ (SameClass c.cls "spectrometer" ∧ SameClass c.cls "photometer") := by
      rintro ⟨h1, h2⟩
      have e1 := (lower_iff _ _).2 h1
      have e2 := (lower_iff _ _).2 h2
      rw [e1] at e2
      exact absurd e2 (by decide)
    obtain ⟨k, hk⟩ := hex
    cases k with
    | photometer =>
      have hk : SameClass c.cls "photometer" := hk
      rw [decide_eq_true hk, decide_eq_false (fun h => hnot ⟨h, hk⟩)]; rfl
    | spectrometer =>
      have hk : SameClass c.cls "spectrometer" := hk
      rw [decide_eq_true hk, decide_eq_false (fun h => hnot ⟨hk, h⟩)]; rfl
  have e : chs.filter (fun c => decide (SameClass c.cls "spectrometer")) =
      chs.filter (fun c => !decide (SameClass c.cls "photometer")) := List.filter_congr hall
  rw [e]
  exact List.filter_append_perm _ _

/-! ## A single channel -/

/-- The payload has one channel: it is stored directly, not in an `OrderedDict`. -/
structure HasSingle (payload : Opt) (d : Dict String Opt) (name : Scalar) (cls : String) : Prop where
  payload : ∃ p, payload = .dict p ∧ Dict.get? p "channel" = some (.dict d)
  name : Dict.get? d "value" = some (.scalar name)
  cls : HasClass (.dict d) cls

/-- The only channel is built, under its name. -/
theorem build_single {make : Class → Opt → Opt → Opt → Except Exc B} {payload : Opt} {d : Dict String Opt} {name : Scalar}
    {cls : String} (h : HasSingle payload d name cls) {k : Class} (hk : Is ⟨name.key, .dict d, cls⟩ k) :
    buildChannels make payload = (make k (.scalar name) (.dict d) payload).map (fun b => [(name.key, b)]) := by
  obtain ⟨p, hpp, hp⟩ := h.payload
  unfold buildChannels
  rw [hpp, item_chan hp]
  simp only [keysOf]
  unfold buildSingle
  rw [classOf_eq h.cls]
  simp only [item, Dict.getE, h.name]
  unfold buildInstrument
  have := (instruments_class ⟨name.key, .dict d, cls⟩ k).2 hk
  simp only at this
  rw [this]
  simp only []
  cases make k (.scalar name) (.dict d) (.dict p) <;> rfl

/-- **C54**: for a payload of a single channel `GetChannelList` always raises, whatever class is asked for, although the channel
can be built. -/
theorem single_list_raises {payload : Opt} {d : Dict String Opt} {name : Scalar} {cls : String}
    (h : HasSingle payload d name cls)
    (hsub : ∀ e, Dict.get? d "channelClass" = some (.dict e) → Dict.get? e "channelClass" = none) (w : String) :
    ∃ e, getChannelList payload w = .error e := by
  obtain ⟨p, hpp, hp⟩ := h.payload
  unfold getChannelList
  rw [hpp, item_chan hp]
  simp only [keysOf]
  obtain ⟨dd, e, he, h1, h2⟩ := h.cls
  cases he
  have hmem : "channelClass" ∈ Dict.keys d := Dict.mem_keys_of_get? h1
  have hloop : ∀ l : List String, "channelClass" ∈ l → ∃ e, listLoop (.dict d) w (l.map Key.str) = .error e := by
    intro l
    induction l with
    | nil => intro h; cases h
    | cons k l ih =>
      intro hk
      simp only [List.map_cons]
      unfold listLoop
      cases hi : itemKey (.dict d) (.str k) with
      | error e => exact ⟨e, rfl⟩
      | ok x =>
        simp only []
        cases hc : classOf x with
        | error e => exact ⟨e, rfl⟩
        | ok c =>
          simp only []
          rcases List.mem_cons.1 hk with rfl | hk
          · exfalso
            simp only [itemKey, Dict.getE, h1] at hi
            cases hi
            simp only [classOf, item, Dict.getE, hsub e h1] at hc
            cases hc
          · obtain ⟨e, he⟩ := ih hk
            exact ⟨e, by rw [he]⟩
  have := hloop (Dict.keys d) hmem
  unfold Dict.keys at this
  rw [List.map_map] at this
  exact this

/-! ## Examples -/

namespace Demo

def descr (c : String) : Opt := .dict [("value", .scalar (.str "x")), ("channelClass", .dict [("value", .scalar (.str c))])]
def chs : List Chan :=
  [⟨.str "Phot", descr "Photometer", "Photometer"⟩, ⟨.str "Spec", descr "SPECTROMETER", "SPECTROMETER"⟩,
   ⟨.str "Phot2", descr "photometer", "photometer"⟩]
def payload : Opt := .dict [("common", .dict []), ("channel", .odict (chs.map (fun c => (c.name, c.descr))))]

theorem has : HasChannels payload chs :=
  ⟨⟨_, rfl, rfl⟩, by decide, by
    intro c hc
    simp only [chs, List.mem_cons, List.not_mem_nil, or_false] at hc
    rcases hc with rfl | rfl | rfl <;> exact ⟨_, _, rfl, rfl, rfl⟩⟩

theorem lists : getChannelList payload "PHOTOMETER" = .ok [.str "Phot", .str "Phot2"] ∧
    getChannelList payload "spectrometer" = .ok [.str "Spec"] := by
  rw [channel_list has, channel_list has]
  exact ⟨by decide +kernel, by decide +kernel⟩

def make : Class → Opt → Opt → Opt → Except Exc Class := fun k _ _ _ => .ok k

theorem built : buildChannels make payload =
    .ok [(.str "Phot", .photometer), (.str "Spec", .spectrometer), (.str "Phot2", .photometer)] := by
  rw [build_channels has]
  refine ⟨[.photometer, .spectrometer, .photometer], rfl, .cons ⟨.photometer, _, ?_, .str _, rfl⟩ (.cons ⟨.spectrometer, _, ?_, .str _, rfl⟩ (.cons ⟨.photometer, _, ?_, .str _, rfl⟩ .nil))⟩
  all_goals (unfold Is SameClass; decide)

def single : Dict String Opt := [("value", .scalar (.str "Phot")), ("channelClass", .dict [("value", .scalar (.str "Photometer"))])]
def singlePayload : Opt := .dict [("channel", .dict single)]

theorem hasSingle : HasSingle singlePayload single (.str "Phot") "Photometer" := ⟨⟨_, rfl, rfl⟩, rfl, ⟨_, _, rfl, rfl, rfl⟩⟩

theorem single_built : buildChannels make singlePayload = .ok [(.str "Phot", .photometer)] ∧
    ∃ e, getChannelList singlePayload "photometer" = .error e := by
  refine ⟨?_, single_list_raises hasSingle (by intro e he; cases he; rfl) _⟩
  rw [build_single (k := .photometer) hasSingle (by unfold Is SameClass; decide)]
  rfl

theorem unknown : ∃ e, buildChannels make (.dict [("channel", .odict [(.str "X", descr "camera")])]) = .error e := by
  have h : HasChannels (.dict [("channel", .odict [(.str "X", descr "camera")])]) [⟨.str "X", descr "camera", "camera"⟩] :=
    ⟨⟨_, rfl, rfl⟩, by decide, by
      intro c hc; rw [List.mem_singleton] at hc; subst hc; exact ⟨_, _, rfl, rfl, rfl⟩⟩
  exact ⟨_, unknown_class_first h (by intro k; cases k <;> (unfold Is SameClass; decide))⟩

end Demo

end ExoRad.Channels
