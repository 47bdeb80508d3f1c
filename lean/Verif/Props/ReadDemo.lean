import Verif.Props.Read
import Verif.Props.ReadEntries
import Verif.Props.BuildDemo

/-!
# A payload file: the hypotheses of C101 can be met
-/

set_option linter.unusedSectionVars false

namespace ExoRad.Read.Demo
open Options (Opt Key Scalar Xml Py St P)

/-- A setting with a text. -/
def leaf (tag : String) (attrib : List (String × String)) (text : String) : Xml := .node tag attrib (some text) []

/-- A section. -/
def sect (tag : String) (text : String) (c : List Xml) : Xml := .node tag [] (some text) c

def um : List (String × String) := [("unit", "um")]

def py : Py where
  int := fun s => if s = "1" then some 1 else if s = "2" then some 2 else if s = "10" then some 10 else if s = "20" then some 20
    else if s = "60" then some 60 else if s = "80" then some 80 else none
  float := fun s => if s = "1.9" then some (19 / 10) else if s = "0.25" then some (1 / 4) else if s = "0.5" then some (1 / 2)
    else if s = "0.9" then some (9 / 10) else if s = "0.1" then some (1 / 10) else none
  unit := fun s => if s = "" ∨ s = "um" ∨ s = "m2" ∨ s = "K" then some s else none
  readEcsv := fun f => some (.ok (.table f))
  readCsv := fun _ => .error .osError
  loadH5 := fun _ => .error .osError
  loadPickle := fun _ => .error .osError

def commonSect : Xml := sect "common" "" [leaf "wl_min" um "1", leaf "wl_max" um "2"]

def mirror : Xml := sect "opticalElement" "M1"
  [leaf "type" [] "surface", leaf "reflectivity" [] "0.9", leaf "emissivity" [] "0.1", leaf "temperature" [("unit", "K")] "80"]

def opticsSect : Xml := sect "optics" "" [leaf "Atel" [("unit", "m2")] "1", leaf "ForceChannelWlEdge" [] "True", mirror]

def box : Xml := sect "opticalElement" "box"
  [leaf "type" [] "detector box", leaf "temperature" [("unit", "K")] "60", leaf "datafile" [] "__ConfigPath__/box.csv"]

def slit : Xml := sect "opticalElement" "slit" [leaf "type" [] "slit", leaf "width" um "0.5"]

def phot : Xml := sect "channel" "Phot"
  [leaf "channelClass" [] "Photometer", leaf "wl_min" um "1", leaf "wl_max" um "1.9", leaf "Fnum_x" [] "20", leaf "Fnum_y" [] "10",
   sect "detector" "" [leaf "wl_min" um "1", leaf "cut_off" um "1.9", leaf "delta_pix" um "0.25", leaf "qe" [] "0.5"],
   sect "aperture" "" [leaf "radius" [] "1"], sect "optics" "" [box]]

def spec : Xml := sect "channel" "Spec"
  [leaf "channelClass" [] "Spectrometer", leaf "wl_min" um "1", leaf "wl_max" um "2", leaf "Fnum_x" [] "20", leaf "Fnum_y" [] "10",
   sect "detector" "" [leaf "wl_min" um "1", leaf "cut_off" um "1.9", leaf "delta_pix" um "0.25",
     sect "qe" "" [leaf "datafile" [] "__ConfigPath__/qe.csv"]],
   sect "wlSolution" "" [leaf "datafile" [] "__ConfigPath__/wl.csv"], leaf "targetR" [] "native", sect "optics" "" [slit, box]]

def config : Xml := leaf "ConfigPath" [] "/data"
def working : Xml := leaf "working_R" [] "2"
def comment : Xml := sect "history" "" [leaf "author" [] "me", leaf "year" [] "20"]

def doc : Xml := .node "root" [] (some "") ([config] ++ [comment, working, commonSect, opticsSect, phot, spec])

/-! ## The parser, for evaluation -/

mutual
def parser' (py : Py) (cfg : Option String) : Xml → P (Dict String Opt)
  | .node _ _ _ chs => P.bind (parseChildren' py cfg chs []) fun root => Options.finish py root
termination_by structural x => x
def parseChildren' (py : Py) (cfg : Option String) : List Xml → Dict String Opt → P (Dict String Opt)
  | [], root => P.pure root
  | x :: rest, root =>
    P.bind (parser' py cfg x) fun sub =>
    P.bind (Options.elementValue py cfg x.tag x.text (Options.addAttribs sub x.attrib)) fun p =>
    P.bind (P.ofExcept (Options.addEntry root x.tag p.1 p.2)) fun root' =>
    parseChildren' py cfg rest root'
termination_by structural x => x
end

theorem parseChildren'_eq (py : Py) (cfg : Option String) (l : List Xml) :
    ∀ root, parseChildren' py cfg l root = Options.parseChildren py cfg l root := by
  match l with
  | [] => intro root; rw [Options.parseChildren]; rfl
  | .node tag a t c :: l =>
    intro root
    rw [Options.parseChildren, ← parseChildren'_eq py cfg c []]
    have e : ∀ x root, parseChildren' py cfg (x :: l) root = P.bind (parser' py cfg x) fun sub =>
      P.bind (Options.elementValue py cfg x.tag x.text (Options.addAttribs sub x.attrib)) fun p =>
      P.bind (P.ofExcept (Options.addEntry root x.tag p.1 p.2)) fun root' => parseChildren' py cfg l root' := fun _ _ => rfl
    rw [e]
    have e2 : parseChildren' py cfg l = Options.parseChildren py cfg l := funext (parseChildren'_eq py cfg l)
    rw [e2]
    rfl
termination_by sizeOf l

theorem parser'_eq (py : Py) (cfg : Option String) (x : Xml) : parser' py cfg x = Options.parser py cfg x := by
  obtain ⟨tag, a, t, c⟩ := x
  rw [Options.parser, ← parseChildren'_eq py cfg c []]
  rfl

/-! ## The payload -/

mutual
def same : Opt → Opt → Bool
  | .scalar a, .scalar b => decide (a = b)
  | .table a, .table b => decide (a = b)
  | .dict d, .dict e => sameD d e
  | .odict d, .odict e => sameO d e
  | _, _ => false
def sameD : List (String × Opt) → List (String × Opt) → Bool
  | [], [] => true
  | (k, a) :: d, (k', b) :: e => decide (k = k') && same a b && sameD d e
  | _, _ => false
def sameO : List (Key × Opt) → List (Key × Opt) → Bool
  | [], [] => true
  | (k, a) :: d, (k', b) :: e => decide (k = k') && same a b && sameO d e
  | _, _ => false
end

mutual
theorem same_eq : ∀ a b, same a b = true → a = b
  | .scalar a, b, h => by
    cases b <;> simp [same] at h ⊢
    exact h
  | .table a, b, h => by
    cases b <;> simp [same] at h ⊢
    exact h
  | .dict d, b, h => by
    cases b <;> simp [same] at h ⊢
    exact sameD_eq _ _ h
  | .odict d, b, h => by
    cases b <;> simp [same] at h ⊢
    exact sameO_eq _ _ h
theorem sameD_eq : ∀ a b, sameD a b = true → a = b
  | [], b, h => by
    cases b <;> simp [sameD] at h ⊢
  | (k, a) :: d, b, h => by
    cases b with
    | nil => simp [sameD] at h
    | cons p e =>
      obtain ⟨k', b⟩ := p
      simp [sameD] at h
      rw [sameD_eq d e h.2, same_eq a b h.1.2, h.1.1]
theorem sameO_eq : ∀ a b, sameO a b = true → a = b
  | [], b, h => by
    cases b <;> simp [sameO] at h ⊢
  | (k, a) :: d, b, h => by
    cases b with
    | nil => simp [sameO] at h
    | cons p e =>
      obtain ⟨k', b⟩ := p
      simp [sameO] at h
      rw [sameO_eq d e h.2, same_eq a b h.1.2, h.1.1]
end

def val (s : Scalar) : Opt := .dict [("value", .scalar s)]
def txt (s : String) : Opt := val (.str s)
def qty (b : Bool) (q : ℚ) (u n : String) : Opt := .dict [("unit", .scalar (.str n)), ("value", .scalar (.qty b q u))]
def flt (q : ℚ) : Opt := val (.float q)
def int (n : ℤ) : Opt := val (.int n)

def boxO : Opt := .dict [("type", txt "detector box"), ("temperature", qty true 60 "K" "K"), ("datafile", txt "/data/box.csv"),
  ("data", .table "/data/box.csv"), ("value", .scalar (.str "box"))]

def slitO : Opt := .dict [("type", txt "slit"), ("width", qty false (1 / 2) "um" "um"), ("value", .scalar (.str "slit"))]

def mirrorO : Opt := .dict [("type", txt "surface"), ("reflectivity", flt (9 / 10)), ("emissivity", flt (1 / 10)),
  ("temperature", qty true 80 "K" "K"), ("value", .scalar (.str "M1"))]

def photO : Opt := .dict [("channelClass", txt "Photometer"), ("wl_min", qty true 1 "um" "um"), ("wl_max", qty false (19 / 10) "um" "um"),
  ("Fnum_x", int 20), ("Fnum_y", int 10),
  ("detector", .dict [("wl_min", qty true 1 "um" "um"), ("cut_off", qty false (19 / 10) "um" "um"),
    ("delta_pix", qty false (1 / 4) "um" "um"), ("qe", flt (1 / 2))]),
  ("aperture", .dict [("radius", int 1)]), ("optics", .dict [("opticalElement", boxO)]), ("value", .scalar (.str "Phot"))]

def specO : Opt := .dict [("channelClass", txt "Spectrometer"), ("wl_min", qty true 1 "um" "um"), ("wl_max", qty true 2 "um" "um"),
  ("Fnum_x", int 20), ("Fnum_y", int 10),
  ("detector", .dict [("wl_min", qty true 1 "um" "um"), ("cut_off", qty false (19 / 10) "um" "um"),
    ("delta_pix", qty false (1 / 4) "um" "um"), ("qe", .dict [("datafile", txt "/data/qe.csv"), ("data", .table "/data/qe.csv")])]),
  ("wlSolution", .dict [("datafile", txt "/data/wl.csv"), ("data", .table "/data/wl.csv")]), ("targetR", txt "native"),
  ("optics", .dict [("opticalElement", .odict [(.str "slit", slitO), (.str "box", boxO)])]), ("value", .scalar (.str "Spec"))]

def payload : Dict String Opt :=
  [("ConfigPath", txt "/data"), ("history", .dict [("author", txt "me"), ("year", int 20)]), ("working_R", int 2),
   ("common", .dict [("wl_min", qty true 1 "um" "um"), ("wl_max", qty true 2 "um" "um")]),
   ("optics", .dict [("Atel", qty true 1 "m2" "m2"), ("ForceChannelWlEdge", val (.bool true)), ("opticalElement", mirrorO)]),
   ("channel", .odict [(.str "Phot", photO), (.str "Spec", specO)])]

/-- The check of a result. -/
def check (r : St × Except Exc (Dict String Opt)) (c : Option Scalar) (w : Scalar) (p : Dict String Opt) : Bool :=
  match r with
  | (s, .ok q) => decide (s.configPath = c) && decide (s.workingR = w) && sameD q p
  | (_, .error _) => false

theorem check_eq {r : St × Except Exc (Dict String Opt)} {c : Option Scalar} {w : Scalar} {p : Dict String Opt}
    (h : check r c w p = true) : r = (⟨c, w⟩, .ok p) := by
  obtain ⟨⟨c', w'⟩, r⟩ := r
  cases r with
  | error e => simp [check] at h
  | ok q =>
    simp [check] at h
    obtain ⟨⟨rfl, rfl⟩, h⟩ := h
    rw [sameD_eq q p h]

theorem parsed : Options.parser py none doc St.init = (⟨some (.str "/data"), .int 2⟩, .ok payload) := by
  rw [← parser'_eq]
  exact check_eq (by decide +kernel)

noncomputable section

def files : Files where
  table := fun f =>
    if f = "/data/box.csv" then [("Wavelength", [1, 2]), ("Transmission", [1, 1]), ("Emissivity", [1, 1])]
    else if f = "/data/qe.csv" then [("Wavelength", [1, 3 / 2, 2]), ("Spec", [1 / 2, 1, 1 / 2])]
    else [("x", [0, 1]), ("Wavelength", [1, 2])]
  psf := fun _ => .other
  curve := fun _ => none

/-- The photometer of `Props/BuildDemo`, with its only element. -/
def photD : Build.Descr := { Build.Demo.phot with optics := some (.one Build.Demo.box) }

theorem read_box : element files boxO = some Build.Demo.box := by
  simp [element, boxO, need, may, needV, mayV, sub, Dict.get?, text, columns, bareOr, bare, inUnit, txt, qty, val, files, Build.Demo.box]

theorem read_slit : element files slitO = some Build.Demo.slit := by
  simp [element, slitO, need, may, needV, mayV, sub, Dict.get?, text, columns, bareOr, bare, inUnit, txt, qty, val, files, Build.Demo.slit]

theorem read_mirror : element files mirrorO = some Build.Demo.mirror := by
  simp [element, mirrorO, need, may, needV, mayV, sub, Dict.get?, text, columns, bareOr, bare, inUnit, txt, qty, val, flt, files,
    Build.Demo.mirror]

theorem entries_one {β : Type} {k : String} {f : Opt → Option β} {o x : Opt} {b : β} (d : Dict String Opt) (h : sub k o = some x)
    (hx : x = .dict d) (h' : f x = some b) : entries k f o = some (.one b) := by
  unfold entries
  subst hx
  rw [h]
  dsimp only
  rw [h']

theorem read_common : Read.common files (.dict payload) = some Build.Demo.common := by
  have h : elements files (.dict [("Atel", qty true 1 "m2" "m2"), ("ForceChannelWlEdge", val (.bool true)), ("opticalElement", mirrorO)]) =
      some (.one Build.Demo.mirror) := by
    unfold elements
    rw [entries_one (x := mirrorO) _ (by simp [sub, Dict.get?]) rfl read_mirror]
  simp [Read.common, payload, need, may, needV, mayV, sub, Dict.get?, h, customNoise]
  simp [flag, inUnit, qty, val, Build.Demo.common, Dict.get?]

theorem read_detector (a b c q : Opt) : detector (.dict [("wl_min", a), ("cut_off", b), ("delta_pix", c), ("qe", q)]) = some {} := by
  simp [detector, mayV, may, sub, Dict.get?]

theorem read_phot : channel files .photometer photO = some photD := by
  have h1 : noiseChannel photO = some Build.Demo.phot.noise := by
    simp [noiseChannel, photO, need, mayV, may, sub, Dict.get?, read_detector, customNoise, text, Build.Demo.phot]
  have h2 : elements files (.dict [("opticalElement", boxO)]) = some (.one Build.Demo.box) := by
    unfold elements
    rw [entries_one (x := boxO) _ (by simp [sub, Dict.get?]) rfl read_box]
  have h3 : kind files .photometer photO = some Build.Demo.phot.kind := by
    simp [kind, photO, need, sub, Dict.get?, aperture, mayV, may, int, val, bare, Build.Demo.phot]
  have h4 : ∀ q, qe files (flt q) = some (.constant q) := by
    intro q
    simp [qe, sub, flt, val, Dict.get?, need, bare]
  unfold channel
  rw [h1, h3]
  simp only [photO]
  simp [needV, mayV, need, may, sub, Dict.get?, h2, h4, qty, int, val, inUnit, bare]
  simp [photD, Build.Demo.phot]

theorem read_spec : channel files .spectrometer specO = some Build.Demo.spec := by
  have h1 : noiseChannel specO = some Build.Demo.spec.noise := by
    simp [noiseChannel, specO, need, mayV, may, sub, Dict.get?, read_detector, customNoise, text, Build.Demo.spec]
  have h2 : elements files (.dict [("opticalElement", .odict [(.str "slit", slitO), (.str "box", boxO)])]) =
      some (.many [("slit", Build.Demo.slit), ("box", Build.Demo.box)]) := by
    simp [elements, entries, sub, Dict.get?, allOf, keyed, read_slit, read_box]
  have h3 : kind files .spectrometer specO = some Build.Demo.spec.kind := by
    simp [kind, specO, need, sub, Dict.get?, specDescr, mayV, may, txt, val, resolution, resolutionValue, pairs, columns, text, files,
      Build.Demo.spec, Build.Demo.specDescr]
  have h4 : qe files (.dict [("datafile", txt "/data/qe.csv"), ("data", .table "/data/qe.csv")]) = some Build.Demo.spec.qe := by
    simp [qe, sub, Dict.get?, need, columns, files, Build.Demo.spec]
  unfold channel
  rw [h1, h3]
  simp only [specO]
  simp [needV, mayV, need, may, sub, Dict.get?, h2, h4, qty, int, val, inUnit, bare]
  simp [Build.Demo.spec]

/-- The description of the file. -/
def described : Described where
  common := Build.Demo.common
  channels := [(.str "Phot", photD), (.str "Spec", Build.Demo.spec)]
  foreground := none
  source := none
  wlMin := 1
  wlMax := 2

theorem class_phot : Channels.classOf photO = .ok "photometer" := by
  have : Source.lower "Photometer" = "photometer" := by decide +kernel
  simp [Channels.classOf, photO, Channels.item, Dict.getE, Dict.get?, txt, val, Channels.lowerOf, this]

theorem class_spec : Channels.classOf specO = .ok "spectrometer" := by
  have : Source.lower "Spectrometer" = "spectrometer" := by decide +kernel
  simp [Channels.classOf, specO, Channels.item, Dict.getE, Dict.get?, txt, val, Channels.lowerOf, this]

theorem read_channels : channels files (.dict payload) = some described.channels := by
  have : Channels.buildChannels (fun c _ d _ => .ok (channel files c d)) (.dict payload) =
      .ok [(.str "Phot", some photD), (.str "Spec", some Build.Demo.spec)] := by
    simp [Channels.buildChannels, payload, Channels.item, Dict.getE, Dict.get?, Channels.keysOf, Channels.buildLoop, Channels.itemKey,
      class_phot, class_spec, Channels.buildInstrument, Channels.instruments, read_phot, read_spec, Dict.set]
  unfold channels
  rw [this]
  rfl

theorem demo_describe : describe files (.dict payload) = some described := by
  unfold describe
  rw [read_common, read_channels]
  simp [payload, need, may, needV, sub, Dict.get?, foregrounds, entries, qty, inUnit, described]

/-- The file is read. -/
theorem demo_read : readFile files py none doc St.init = some (described, 2) := by
  have := demo_describe
  unfold readFile
  rw [parsed]
  dsimp only
  rw [this]
  rfl

/-- The hypotheses can be met: the same file with its sections in another order, the settings of a section in another order, and without
the unknown section. -/
def doc' : Xml := .node "root" [] (some "") ([config] ++ [opticsSect, phot, sect "common" "" [leaf "wl_max" um "2", leaf "wl_min" um "1"],
  spec, working])

theorem tidied : Tidied known [comment, working, commonSect, opticsSect, phot, spec]
    [opticsSect, phot, sect "common" "" [leaf "wl_max" um "2", leaf "wl_min" um "1"], spec, working] := by
  have refl : ∀ l : List Xml, Tidied known l l := tidied_refl known
  have step : ∀ (x : Xml) {l l' : List Xml}, Tidied known l l' → Tidied known (x :: l) (x :: l') := by
    intro x l l' h
    obtain ⟨tag, a, t, c⟩ := x
    exact .cons tag t (.inl rfl) (refl c) h
  have w : Options.anyHasTag "working_R" [commonSect] = false ∧ Options.anyHasTag "working_R" [opticsSect] = false ∧
      Options.anyHasTag "working_R" [phot] = false ∧ Options.anyHasTag "working_R" [spec] = false ∧
      Options.anyHasTag "working_R" [comment] = false := by
    simp [Options.anyHasTag, commonSect, opticsSect, phot, spec, comment, sect, leaf, mirror, box, slit]
  refine .trans (.drop comment _ (by decide +kernel) (by simp [comment, working, commonSect, opticsSect, phot, spec, sect, leaf, Xml.tag])
    w.2.2.2.2) ?_
  refine .trans (.swap working commonSect _ (by simp [working, commonSect, sect, leaf, Xml.tag]) (.inr w.1)) ?_
  refine .trans (step _ (.swap working opticsSect _ (by simp [working, opticsSect, sect, leaf, Xml.tag]) (.inr w.2.1))) ?_
  refine .trans (step _ (step _ (.swap working phot _ (by simp [working, phot, sect, leaf, Xml.tag]) (.inr w.2.2.1)))) ?_
  refine .trans (step _ (step _ (step _ (.swap working spec _ (by simp [working, spec, sect, leaf, Xml.tag]) (.inr w.2.2.2.1))))) ?_
  refine .trans (.swap commonSect opticsSect _ (by simp [commonSect, opticsSect, sect, Xml.tag]) (.inr w.2.1)) (step _ ?_)
  refine .trans (.swap commonSect phot _ (by simp [commonSect, phot, sect, Xml.tag]) (.inr w.2.2.1)) (step _ ?_)
  refine .cons "common" (some "") (.inl rfl) (.swap _ _ _ (by simp [leaf, Xml.tag]) (.inl (by simp [leaf, Options.anyHasTag]))) (refl _)

theorem demo_tidied : readFile files py none doc' St.init = some (described, 2) := by
  have := tidied_file_partial files py none "root" [] (some "") [config] tidied St.init payload
    (.inl ⟨.inl rfl, by
      simp [Options.anyHasTag, comment, working, commonSect, opticsSect, phot, spec, sect, leaf, mirror, box, slit]⟩)
    (by have := parsed; unfold doc at this; rw [this])
  rw [doc', this]
  exact demo_read

/-- Both files give both channels. -/
theorem demo_file_built : ∃ fuel bs, buildFile fuel Build.Demo.env files py none doc' St.init = some (some (.ok bs)) ∧
    bs.map (fun b => b.ch.noise.value) = ["Phot", "Spec"] := by
  have hs : ∀ d ∈ [photD, Build.Demo.spec], Build.SoundDescr Build.Demo.env d := by
    intro d hd
    simp only [List.mem_cons, List.not_mem_nil, or_false] at hd
    rcases hd with rfl | rfl
    · have := Build.Demo.sound_phot
      refine ⟨this.1, this.2, this.3, this.4, this.5, this.6, trivial, ?_, this.9⟩
      intro o ho
      simp only [photD, Option.some.injEq] at ho
      subst ho
      exact Build.Demo.sound_box
    · exact Build.Demo.sound_spec
  have hc : ∀ d ∈ [photD, Build.Demo.spec], Build.Complete Build.Demo.env Build.Demo.common d := by
    intro d hd
    simp only [List.mem_cons, List.not_mem_nil, or_false] at hd
    rcases hd with rfl | rfl
    · have := Build.Demo.complete_phot
      have e : Build.opticsOf Build.Demo.common photD = Build.opticsOf Build.Demo.common Build.Demo.phot := rfl
      exact ⟨this.1, by simp [photD], this.3, e ▸ this.4, this.5, this.6, this.7.1, e ▸ this.7.2⟩
    · exact Build.Demo.complete_spec
  obtain ⟨fuel, bs, h⟩ := Build.buildAll_succeeds Build.Demo.sound_env Build.Demo.sound_common hs hc
  have hb := h fuel le_rfl
  obtain ⟨_, h2, h3, _⟩ := Build.buildAll_fillable Build.Demo.sound_env Build.Demo.sound_common hs hb
  refine ⟨fuel, bs, ?_, ?_⟩
  · unfold buildFile
    rw [demo_tidied]
    exact congrArg some hb
  · have : bs.map (fun b => b.ch.noise.value) = (bs.map (fun b => b.ch.noise)).map NoiseChannel.value := by
      simp [List.map_map, Function.comp_def]
    rw [this, h2]
    rfl

/-- C101, where the order counts: `ConfigPath` must stand before the settings that use it. The same settings, with `ConfigPath` last, cannot
be read. -/
theorem config_path_last : readFile files py none (.node "root" [] (some "") [working, commonSect, opticsSect, phot, spec, config]) St.init = none := by
  have h : ∀ r : St × Except Exc (Dict String Opt), (match r with | (_, .error _) => true | (_, .ok _) => false) = true → ∃ s e, r = (s, .error e) := by
    rintro ⟨s, r⟩ h
    cases r with
    | error e => exact ⟨s, e, rfl⟩
    | ok q => simp at h
  obtain ⟨s, e, he⟩ := h (parser' py none (.node "root" [] (some "") [working, commonSect, opticsSect, phot, spec, config]) St.init)
    (by decide +kernel)
  unfold readFile
  rw [← parser'_eq, he]

/-- C107 on the demonstration payload: the mirror's reflectivity is the number under `reflectivity`, its temperature is not given … -/
example : Given mirrorO ["reflectivity"] bare Build.Demo.mirror.reflectivity ∧ Given mirrorO ["emissivity"] bare Build.Demo.mirror.emissivity ∧
    Given mirrorO ["wl_min"] (inUnit "um") none := by
  obtain ⟨_, _, _, _, _, h1, h2, h3, _⟩ := (element_entries files mirrorO Build.Demo.mirror).mp read_mirror
  exact ⟨h1, h2, by simpa [Build.Demo.mirror] using h3⟩

/-- … the width of the slit is the quantity under `width`, in µm … -/
example : Given slitO ["width"] (inUnit "um") Build.Demo.slit.width ∧ Build.Demo.slit.width = some (1 / 2) := by
  obtain ⟨_, _, _, _, _, _, _, _, _, _, _, _, h⟩ := (element_entries files slitO Build.Demo.slit).mp read_slit
  exact ⟨h, by norm_num [Build.Demo.slit]⟩

/-- … and the whole payload has the entries of a description. -/
theorem demo_entries : Has (.dict payload) ["common", "wl_min", "value"] (inUnit "um") described.wlMin ∧
    Has (.dict payload) ["common", "wl_max", "value"] (inUnit "um") described.wlMax := by
  have h := demo_describe
  obtain ⟨_, _, _, _, h1, h2⟩ := (describe_entries files _ _).mp h
  exact ⟨h1, h2⟩

end

end ExoRad.Read.Demo
