import Mathlib.Data.List.Dedup
import Verif.Props.Whole
import Verif.Props.Emitters
import Verif.Props.LitDemo
import Verif.Props.ReadDemo
import Verif.Props.TargetSheet

/-!
# A whole run: the hypotheses of C106 can be met

A payload file with the photometer and the spectrometer of `LitDemo`, and a csv list of any number of black bodies.
-/

set_option linter.unusedSectionVars false

namespace ExoRad.Whole.Demo
open Options (Opt Key Scalar Xml Py St)
open Read Read.Demo

/-! ## The payload file -/

def py2 : Py where
  int := fun s => if s = "1" then some 1 else if s = "2" then some 2 else if s = "3" then some 3 else if s = "5" then some 5 else if s = "10" then some 10
    else if s = "20" then some 20 else if s = "80" then some 80 else if s = "100" then some 100 else none
  float := fun s => if s = "1.9" then some (19 / 10) else if s = "0.25" then some (1 / 4) else if s = "0.5" then some (1 / 2)
    else if s = "0.9" then some (9 / 10) else if s = "0.1" then some (1 / 10) else none
  unit := fun s => if s = "" ∨ s = "um" ∨ s = "m2" ∨ s = "K" ∨ s = "ct" ∨ s = "ct / s" ∨ s = "Hz" then some s else none
  readEcsv := fun f => some (.ok (.table f))
  readCsv := fun _ => .error .osError
  loadH5 := fun _ => .error .osError
  loadPickle := fun _ => .error .osError

def zodiX : Xml := sect "foreground" "zodiacal" [leaf "zodiacFactor" [] "2"]

def commonX : Xml := sect "common" "" [leaf "wl_min" um "1", leaf "wl_max" um "1.9", leaf "sourceSpectrum" [] "planck", zodiX]

def filterX : Xml := sect "opticalElement" "filter" [leaf "type" [] "surface", leaf "transmission" [] "0.5"]

/-- The numbers of the detector. -/
def numbersX : List Xml := [leaf "well_depth" [("unit", "ct")] "100", leaf "f_well_depth" [] "1", leaf "freqNDR" [("unit", "Hz")] "1",
  leaf "dark_current" [("unit", "ct / s")] "2", leaf "read_noise" [("unit", "ct")] "3"]

def photX : Xml := sect "channel" "Phot"
  [leaf "channelClass" [] "Photometer", leaf "wl_min" um "1", leaf "wl_max" um "1.9", leaf "Fnum_x" [] "20", leaf "Fnum_y" [] "10",
   sect "detector" "" ([leaf "wl_min" um "1", leaf "cut_off" um "1.9", leaf "delta_pix" um "0.25", leaf "qe" [] "0.5"] ++ numbersX),
   sect "PSF" "__ConfigPath__/psf.fits" [leaf "format" [] "pixel_based"], sect "aperture" "" [leaf "radius" [] "1"], sect "optics" "" [filterX]]

def specX : Xml := sect "channel" "Spec"
  [leaf "channelClass" [] "Spectrometer", leaf "wl_min" um "1", leaf "wl_max" um "2", leaf "Fnum_x" [] "20", leaf "Fnum_y" [] "10",
   sect "detector" "" ([leaf "wl_min" um "1", leaf "cut_off" um "1.9", leaf "delta_pix" um "0.25",
     sect "qe" "" [leaf "datafile" [] "__ConfigPath__/qe.csv"]] ++ numbersX),
   sect "wlSolution" "" [leaf "datafile" [] "__ConfigPath__/wl.csv"], leaf "targetR" [] "1", leaf "WFErms" um "0.1", sect "optics" "" [filterX]]

def docX : Xml := .node "root" [] (some "") [config, leaf "working_R" [] "5", commonX, opticsSect, photX, specX]

def filterO : Opt := .dict [("type", txt "surface"), ("transmission", flt (1 / 2)), ("value", .scalar (.str "filter"))]

def numbersO : List (String × Opt) := [("well_depth", qty true 100 "ct" "ct"), ("f_well_depth", int 1), ("freqNDR", qty true 1 "Hz" "Hz"),
  ("dark_current", qty true 2 "ct / s" "ct / s"), ("read_noise", qty true 3 "ct" "ct")]

def photP : Opt := .dict [("channelClass", txt "Photometer"), ("wl_min", qty true 1 "um" "um"), ("wl_max", qty false (19 / 10) "um" "um"),
  ("Fnum_x", int 20), ("Fnum_y", int 10),
  ("detector", .dict ([("wl_min", qty true 1 "um" "um"), ("cut_off", qty false (19 / 10) "um" "um"),
    ("delta_pix", qty false (1 / 4) "um" "um"), ("qe", flt (1 / 2))] ++ numbersO)),
  ("PSF", .dict [("format", txt "pixel_based"), ("value", .scalar (.str "/data/psf.fits"))]),
  ("aperture", .dict [("radius", int 1)]), ("optics", .dict [("opticalElement", filterO)]), ("value", .scalar (.str "Phot"))]

def specP : Opt := .dict [("channelClass", txt "Spectrometer"), ("wl_min", qty true 1 "um" "um"), ("wl_max", qty true 2 "um" "um"),
  ("Fnum_x", int 20), ("Fnum_y", int 10),
  ("detector", .dict ([("wl_min", qty true 1 "um" "um"), ("cut_off", qty false (19 / 10) "um" "um"),
    ("delta_pix", qty false (1 / 4) "um" "um"), ("qe", .dict [("datafile", txt "/data/qe.csv"), ("data", .table "/data/qe.csv")])] ++ numbersO)),
  ("wlSolution", .dict [("datafile", txt "/data/wl.csv"), ("data", .table "/data/wl.csv")]), ("targetR", int 1), ("WFErms", qty false (1 / 10) "um" "um"),
  ("optics", .dict [("opticalElement", filterO)]), ("value", .scalar (.str "Spec"))]

def payloadX : Dict String Opt :=
  [("ConfigPath", txt "/data"), ("working_R", int 5),
   ("common", .dict [("wl_min", qty true 1 "um" "um"), ("wl_max", qty false (19 / 10) "um" "um"), ("sourceSpectrum", txt "planck"),
     ("foreground", .dict [("zodiacFactor", int 2), ("value", .scalar (.str "zodiacal"))])]),
   ("optics", .dict [("Atel", qty true 1 "m2" "m2"), ("ForceChannelWlEdge", val (.bool true)), ("opticalElement", mirrorO)]),
   ("channel", .odict [(.str "Phot", photP), (.str "Spec", specP)])]

theorem parsedX : Options.parser py2 none docX St.init = (⟨some (.str "/data"), .int 5⟩, .ok payloadX) := by
  rw [← parser'_eq]
  exact check_eq (by decide +kernel)

noncomputable section

def filesX : Files where
  table := files.table
  psf := fun _ => .fits ⟨Build.Demo.env.airy, 1, 1⟩
  curve := fun _ => none

theorem read_filter : element filesX filterO = some Build.Demo.filter := by
  simp [element, filterO, need, may, needV, mayV, sub, Dict.get?, text, bare, txt, val, flt, Build.Demo.filter]

theorem read_optics : elements filesX (.dict [("opticalElement", filterO)]) = some (.one Build.Demo.filter) := by
  unfold elements
  rw [entries_one (x := filterO) _ (by simp [sub, Dict.get?]) rfl read_filter]

theorem read_detectorX (a b c q : Opt) : Read.detector (.dict ([("wl_min", a), ("cut_off", b), ("delta_pix", c), ("qe", q)] ++ numbersO)) = some Build.Demo.detector := by
  simp [Read.detector, numbersO, mayV, may, need, sub, Dict.get?, qty, Read.Demo.int, val, inUnit, bare, Build.Demo.detector]

theorem read_commonX : Read.common filesX (.dict payloadX) = some Build.Demo.common := by
  have hm : element filesX mirrorO = some Build.Demo.mirror := by
    simp [element, mirrorO, need, may, needV, mayV, sub, Dict.get?, text, bareOr, bare, inUnit, txt, qty, val, flt, Build.Demo.mirror]
  have h : elements filesX (.dict [("Atel", qty true 1 "m2" "m2"), ("ForceChannelWlEdge", val (.bool true)), ("opticalElement", mirrorO)]) =
      some (.one Build.Demo.mirror) := by
    unfold elements
    rw [entries_one (x := mirrorO) _ (by simp [sub, Dict.get?]) rfl hm]
  simp [Read.common, payloadX, need, may, needV, mayV, sub, Dict.get?, h, customNoise]
  simp [flag, inUnit, qty, val, Build.Demo.common, Dict.get?]

theorem read_photX : channel filesX .photometer photP = some Build.Demo.phot3 := by
  have h1 : noiseChannel photP = some Build.Demo.phot3.noise := by
    simp only [noiseChannel, photP]
    simp only [need, mayV, may, sub, Dict.get?, if_true, if_false, String.reduceEq, read_detectorX, customNoise]
    rfl
  have h3 : kind filesX .photometer photP = some Build.Demo.phot3.kind := by
    simp [kind, photP, need, sub, Dict.get?, aperture, mayV, may, Read.Demo.int, val, bare, Build.Demo.phot3, Build.Demo.phot]
  have h4 : ∀ q, qe filesX (flt q) = some (.constant q) := by
    intro q
    simp [qe, sub, flt, val, Dict.get?, need, bare]
  have h5 : Read.psf filesX (.dict [("format", txt "pixel_based"), ("value", .scalar (.str "/data/psf.fits"))]) = Build.Demo.phot3.psf := by
    simp [Read.psf, need, mayV, may, sub, Dict.get?, text, txt, val, filesX, Build.Demo.phot3]
  unfold channel
  rw [h1, h3]
  simp only [photP]
  simp [needV, mayV, need, may, sub, Dict.get?, read_optics, h4, h5, qty, Read.Demo.int, val, inUnit, bare]
  simp [Build.Demo.phot3, Build.Demo.phot]

theorem read_specX : channel filesX .spectrometer specP = some Build.Demo.spec3 := by
  have h1 : noiseChannel specP = some Build.Demo.spec3.noise := by
    simp only [noiseChannel, specP]
    simp only [need, mayV, may, sub, Dict.get?, if_true, if_false, String.reduceEq, read_detectorX, customNoise]
    rfl
  have h3 : kind filesX .spectrometer specP = some Build.Demo.spec3.kind := by
    simp [kind, specP, need, sub, Dict.get?, specDescr, mayV, may, txt, val, resolution, resolutionValue, pairs, columns, text, filesX, files,
      Build.Demo.spec3, Build.Demo.specDescr2, Read.Demo.int, bare, qty, inUnit]
  have h4 : qe filesX (.dict [("datafile", txt "/data/qe.csv"), ("data", .table "/data/qe.csv")]) = some Build.Demo.spec3.qe := by
    simp [qe, sub, Dict.get?, need, columns, filesX, files, Build.Demo.spec3, Build.Demo.spec]
  unfold channel
  rw [h1, h3]
  simp only [specP]
  simp [needV, mayV, need, may, sub, Dict.get?, read_optics, h4, qty, Read.Demo.int, val, inUnit, bare]
  simp [Build.Demo.spec3, Build.Demo.spec]

def zodiD : Foreground.Descr ℝ := { value := "zodiacal", factor := some 2 }

/-- The description of the file. -/
def describedX : Described where
  common := Build.Demo.common
  channels := [(.str "Phot", Build.Demo.phot3), (.str "Spec", Build.Demo.spec3)]
  foreground := some (.single zodiD)
  source := some Build.Demo.planckSource
  wlMin := 1
  wlMax := 19 / 10

theorem read_channelsX : channels filesX (.dict payloadX) = some describedX.channels := by
  have c1 : Channels.classOf photP = .ok "photometer" := by
    have : Source.lower "Photometer" = "photometer" := by decide +kernel
    simp [Channels.classOf, photP, Channels.item, Dict.getE, Dict.get?, txt, val, Channels.lowerOf, this]
  have c2 : Channels.classOf specP = .ok "spectrometer" := by
    have : Source.lower "Spectrometer" = "spectrometer" := by decide +kernel
    simp [Channels.classOf, specP, Channels.item, Dict.getE, Dict.get?, txt, val, Channels.lowerOf, this]
  have : Channels.buildChannels (fun c _ d _ => .ok (channel filesX c d)) (.dict payloadX) =
      .ok [(.str "Phot", some Build.Demo.phot3), (.str "Spec", some Build.Demo.spec3)] := by
    simp [Channels.buildChannels, payloadX, Channels.item, Dict.getE, Dict.get?, Channels.keysOf, Channels.buildLoop, Channels.itemKey,
      c1, c2, Channels.buildInstrument, Channels.instruments, read_photX, read_specX, Dict.set]
  unfold channels
  rw [this]
  rfl

theorem describedX_ok : describe filesX (.dict payloadX) = some describedX := by
  have hz : foreground filesX (.dict [("zodiacFactor", Read.Demo.int 2), ("value", .scalar (.str "zodiacal"))]) = some zodiD := by
    simp [foreground, need, may, mayV, sub, Dict.get?, text, Read.Demo.int, val, bare, zodiD]
  unfold describe
  rw [read_commonX, read_channelsX]
  simp [payloadX, need, may, needV, mayV, sub, Dict.get?, foregrounds, Read.entries, hz, qty, inUnit, describedX, source, txt, val, text, Build.Demo.planckSource]

/-! ## The list -/

open TargetList (Column Item)

/-- A catalogue of stars: names, distances, temperatures, masses, radii. -/
structure Catalogue where
  name : ℕ → List Char
  D : ℕ → ℝ
  T : ℕ → ℝ
  M : ℕ → ℝ
  R : ℕ → ℝ

def listEnv : TargetList.Env ℝ :=
  { isUnit := fun u => u = ['K'] || u = ['p', 'c'] || u = ['M', '_', 's', 'u', 'n'] || u = ['R', '_', 's', 'u', 'n']
    times := fun _ _ => .error .typeError
    search := fun p s => .ok (isInfixOfChars p s)
    str := fun c => match c with | .text s => s | _ => []
    csv := fun _ => .error .osError
    xlsx := fun _ => .error .osError }

def nameC (c : Catalogue) : Column ℝ := ⟨TargetList.nameKey, none, fun i => .text (c.name i)⟩
def massC (c : Catalogue) : Column ℝ := ⟨['M'], some ['M', '_', 's', 'u', 'n'], fun i => .num (c.M i)⟩
def teffC (c : Catalogue) : Column ℝ := ⟨['T', 'e', 'f', 'f'], some ['K'], fun i => .num (c.T i)⟩
def radiusC (c : Catalogue) : Column ℝ := ⟨['R'], some ['R', '_', 's', 'u', 'n'], fun i => .num (c.R i)⟩
def distanceC (c : Catalogue) : Column ℝ := ⟨['D'], some ['p', 'c'], fun i => .num (c.D i)⟩

/-- The file: `star name`, `star M [M_sun]`, `star Teff [K]`, a column of notes, `star R [R_sun]`, `star D [pc]`. -/
def itemsX (c : Catalogue) : List (Item ℝ) :=
  [.star (nameC c), .star (massC c), .star (teffC c), .other ['n', 'o', 't', 'e'] (fun _ => .masked), .star (radiusC c), .star (distanceC c)]

def tableX (c : Catalogue) (n : ℕ) : TargetList.Table ℝ := ⟨(itemsX c).map Item.render, n⟩

theorem list_read (c : Catalogue) (n : ℕ) : TargetList.csvList listEnv (tableX c n) =
    .ok (TargetList.starTargets [nameC c, massC c, teffC c, radiusC c, distanceC c] (nameC c) n) := by
  refine TargetList.csv_stars (items := itemsX c) ?_ ?_ ?_ rfl ?_ rfl
  · intro it hit
    simp only [itemsX, List.mem_cons, List.not_mem_nil, or_false] at hit
    rcases hit with rfl | rfl | rfl | rfl | rfl | rfl
    · exact TargetList.Demo.notInfix (by show isInfixOfChars TargetList.planetWord "star name".toList = false; decide)
    · exact TargetList.Demo.notInfix (by show isInfixOfChars TargetList.planetWord "star M [M_sun]".toList = false; decide)
    · exact TargetList.Demo.notInfix (by show isInfixOfChars TargetList.planetWord "star Teff [K]".toList = false; decide)
    · exact ⟨TargetList.Demo.notInfix (by decide), TargetList.Demo.notInfix (by decide)⟩
    · exact TargetList.Demo.notInfix (by show isInfixOfChars TargetList.planetWord "star R [R_sun]".toList = false; decide)
    · exact TargetList.Demo.notInfix (by show isInfixOfChars TargetList.planetWord "star D [pc]".toList = false; decide)
  · intro x hx
    have hx' : x ∈ [nameC c, massC c, teffC c, radiusC c, distanceC c] := hx
    simp only [List.mem_cons, List.not_mem_nil, or_false] at hx'
    rcases hx' with rfl | rfl | rfl | rfl | rfl
    · exact ⟨by show ' ' ∉ TargetList.nameKey; decide, by simp [nameC], by simp [nameC]⟩
    · exact ⟨by show ' ' ∉ ['M']; decide, fun u hu => by cases hu; decide, fun u _ i _ => ⟨_, rfl⟩⟩
    · exact ⟨by show ' ' ∉ ['T', 'e', 'f', 'f']; decide, fun u hu => by cases hu; decide, fun u _ i _ => ⟨_, rfl⟩⟩
    · exact ⟨by show ' ' ∉ ['R']; decide, fun u hu => by cases hu; decide, fun u _ i _ => ⟨_, rfl⟩⟩
    · exact ⟨by show ' ' ∉ ['D']; decide, fun u hu => by cases hu; decide, fun u _ i _ => ⟨_, rfl⟩⟩
  · show ([TargetList.nameKey, ['M'], ['T', 'e', 'f', 'f'], ['R'], ['D']] : List TargetList.Text).Nodup
    decide
  · show nameC c ∈ [nameC c, massC c, teffC c, radiusC c, distanceC c]
    simp

/-! ## The run -/

open Classical in
/-- Channels in the order of the table. -/
def orderX (l : V) : V := l.dedup

/-- Two processes that are copies of this one; the second target is done first. -/
def outside (c : Catalogue) (n : ℕ) : Outside where
  xml := fun f => match f with | .bytes "payload" => .ok docX | _ => .error .osError
  csv := fun f => match f with | .bytes "list" => .ok (tableX c n) | _ => .error .osError
  xlsx := fun _ => .error .osError
  loadH5 := fun _ => .error .osError
  py := py2
  config := none
  pass := St.init
  files := filesX
  build := Build.Demo.env
  fuel := 0
  setting := ⟨Source.code, Build.Demo.world5.env, Build.Demo.world5.maps⟩
  list := listEnv
  number := fun _ v => some v
  angle := fun _ => 0
  opts := ⟨false, none, false, fun _ => .ok (), fun _ => .ok ()⟩
  full := false
  start := .fork
  nThread := 2
  sched := (List.range n).reverse
  attrs := []
  describe := fun _ => [("name", .str "demo")]
  descr := fun d => [("channelClass", .str d.noise.value)]
  built := fun _ => []
  rest := fun t => [("star", .dict [("name", .str t.name)])]
  unit := fun k => if k = "Wavelength" then some "um" else none
  order := orderX

def pl : P := (describedX, 5)

theorem loaded (c : Catalogue) (n : ℕ) : loadXml (outside c n) (.bytes "payload") = .ok pl := by
  unfold loadXml
  have : (outside c n).xml (.bytes "payload") = .ok docX := rfl
  rw [this]
  dsimp only
  have : Options.parser (outside c n).py (outside c n).config docX (outside c n).pass = (⟨some (.str "/data"), .int 5⟩, .ok payloadX) := parsedX
  rw [this]
  have : describe (outside c n).files (.dict payloadX) = some describedX := describedX_ok
  dsimp only
  rw [this]
  rfl

theorem listed (c : Catalogue) (n : ℕ) : loadCsv (outside c (n + 1)) (.bytes "list") =
    .ok (TargetList.starTargets [nameC c, massC c, teffC c, radiusC c, distanceC c] (nameC c) (n + 1)) := by
  unfold loadCsv
  have : (outside c (n + 1)).csv (.bytes "list") = .ok (tableX c (n + 1)) := rfl
  rw [this]
  have : TargetList.csvEither (outside c (n + 1)).list (tableX c (n + 1)) = .ok (TargetList.starTargets [nameC c, massC c, teffC c, radiusC c, distanceC c] (nameC c) (n + 1)) := by
    unfold TargetList.csvEither
    have h := list_read c (n + 1)
    have e : (outside c (n + 1)).list = listEnv := rfl
    rw [e, h]
    have hne : TargetList.starTargets [nameC c, massC c, teffC c, radiusC c, distanceC c] (nameC c) (n + 1) ≠ [] := by
      simp [TargetList.starTargets, List.range_succ]
    revert hne
    generalize TargetList.starTargets [nameC c, massC c, teffC c, radiusC c, distanceC c] (nameC c) (n + 1) = l
    intro hne
    cases l with
    | nil => exact (hne rfl).elim
    | cons a l => rfl
  dsimp only
  rw [this]
  rfl

theorem two {p : Build.Descr → Prop} (h1 : p Build.Demo.phot3) (h2 : p Build.Demo.spec3) : ∀ d ∈ channelsOf pl, p d := by
  intro d hd
  have hd' : d ∈ [Build.Demo.phot3, Build.Demo.spec3] := hd
  simp only [List.mem_cons, List.not_mem_nil, or_false] at hd'
  rcases hd' with rfl | rfl
  · exact h1
  · exact h2

theorem nameOnly (x : String) : Hdf5.Storable (V := V) some (.dict [("name", .str x)]) := by
  have h : substr Hdf5.metaKey "name" = false := by decide
  simp [Hdf5.Storable, Hdf5.StorableAll, Hdf5.namesOf, h]

theorem classOnly (x : String) : Hdf5.Storable (V := V) some (.dict [("channelClass", .str x)]) := by
  have h : substr Hdf5.metaKey "channelClass" = false := by decide
  simp [Hdf5.Storable, Hdf5.StorableAll, Hdf5.namesOf, h]

theorem starOnly (x : String) : Hdf5.Storable (V := V) some (.dict [("star", .dict [("name", .str x)])]) ∧
    "table" ∉ ([("star", .dict [("name", .str x)])] : List (String × Hdf5.Item V)).flatMap Hdf5.namesOf := by
  have h : substr Hdf5.metaKey "star" = false := by decide
  have h' : substr Hdf5.metaKey "name" = false := by decide
  simp [Hdf5.Storable, Hdf5.StorableAll, Hdf5.namesOf, h, h']

theorem stores (c : Catalogue) (n : ℕ) : Stores some (outside c n) pl := by
  refine ⟨?_, ?_, ?_, ?_, ?_, fun k x _ => rfl, ?_, ?_, ?_⟩
  · exact nameOnly "demo"
  · refine two ⟨by decide, by decide, by decide⟩ ⟨by decide, by decide, by decide⟩
  · exact fun d _ => classOnly d.noise.value
  · exact fun b => by simp [outside, Hdf5.Storable, Hdf5.StorableAll]
  · exact fun t => starOnly t.name
  · intro sec hsec kd hkd
    have : (.single zodiD : Foreground.Section ℝ) = sec := by simpa [pl, describedX] using hsec
    subst this
    simp only [Foreground.Section.list, List.mem_singleton] at hkd
    subst hkd
    decide
  · intro nm hnm
    simp [pl, describedX, Build.Demo.common, customNames] at hnm
  · refine two ?_ ?_ <;> intro nm hnm
    · simp [Build.Demo.phot3, customNames] at hnm
    · simp [Build.Demo.spec3, customNames] at hnm

theorem sound (c : Catalogue) (n : ℕ) : SoundPayload (outside c n) pl :=
  ⟨Build.Demo.sound_env5, Build.Demo.sound_common, two Build.Demo.sound_phot3 Build.Demo.sound_spec3, by
    show ["Phot", "Spec"].Nodup
    decide⟩

theorem clear_sky {B : ℝ → ℝ → ℝ} {m : Foreground.MapFiles ℝ} {g : List ℝ} {s sky : Foreground.Sky ℝ} (hra : s.ra = none)
    (h : Foreground.estimateForegrounds B m g (.single zodiD) s = (sky, .ok ())) : sky.transmission = s.transmission := by
  simp only [Foreground.estimateForegrounds, Foreground.estimateOne, zodiD, if_true, Foreground.estimateZodi, Foreground.coordinates, hra,
    Foreground.zodiCoefficient, Foreground.addForeground, Prod.mk.injEq, and_true] at h
  rw [← h]

theorem star_row (c : Catalogue) (n i : ℕ) (hD : c.D i ≠ 0) (hT : 0 < c.T i) (hR : c.R i ≠ 0) :
    Star (outside c n) pl (.single zodiD) ⟨i, (nameC c).value i, TargetList.row [nameC c, massC c, teffC c, radiusC c, distanceC c] i, none⟩ := by
  have hra : (targetOf (outside c n) ⟨i, (nameC c).value i, TargetList.row [nameC c, massC c, teffC c, radiusC c, distanceC c] i, none⟩).sky.ra = none := rfl
  refine ⟨⟨c.D i, c.T i, c.M i, c.R i, rfl, rfl, rfl, rfl, hD, hT, hR⟩, ?_, ?_, ?_⟩
  · show ∀ k ∈ ["name", "M", "Teff", "R", "D"], k ∈ ["name", "M", "Teff", "R", "D"]
    exact fun _ h => h
  · refine ⟨by simp [Foreground.Section.list], ?_, ?_, ?_⟩ <;> intro kd hkd <;> simp only [Foreground.Section.list, List.mem_singleton] at hkd <;> subst hkd
    · exact ⟨fun h => (h rfl).elim, fun _ => ⟨fun h => absurd h (by rw [hra]; decide), fun h => by simp [zodiD] at h⟩⟩
    · exact ⟨by simp [zodiD], by simp [zodiD], by simp [zodiD]⟩
    · decide +kernel
  · intro sky hsky d hd m x hx
    have ht : sky.transmission = none := by
      exact clear_sky hra hsky
    rw [ht]
    revert hx
    revert d
    refine two ?_ ?_ <;> intro hx
    · exact ⟨1, 19 / 10, Build.Demo.aimed_phot hx⟩
    · exact ⟨1, 2, Build.Demo.aimed_spec hx⟩

theorem world_ok (c : Catalogue) (n : ℕ) : Build.PayloadWorld (worldOf (outside c n) pl) pl.1.wlMin pl.1.wlMax pl.2 :=
  ⟨⟨by norm_num [pl, describedX], by norm_num [pl, describedX], by norm_num [pl]⟩, rfl, by simp [worldOf, Pipeline.worldAt, payloadOf, Source.Wl.um], fun _ _ => rfl, Build.Demo.world5_ok.files, Build.Demo.world5_ok.maps⟩

/-! ## The run of any such list -/

def payloadPath : Run.Path := ⟨"in", "p.xml"⟩
def listPath : Run.Path := ⟨"in", "l.csv"⟩
def outPath : Run.Path := ⟨"out", "o.h5"⟩

def args : Run.Args P R := { options := .file payloadPath, targets := .file listPath, output := some outPath }

def disk : Run.FS V := [(payloadPath, .bytes "payload"), (listPath, .bytes "list")]

theorem plain : Run.Plain args disk payloadPath listPath outPath (.bytes "payload") (.bytes "list") :=
  ⟨rfl, rfl, rfl, by decide, by decide, by decide, by decide, rfl, rfl, .inl rfl, rfl⟩

abbrev rowsX (c : Catalogue) (n : ℕ) : R := TargetList.starTargets [nameC c, massC c, teffC c, radiusC c, distanceC c] (nameC c) n

theorem sched_ok (c : Catalogue) (n : ℕ) : ∀ i < (rowsX c (n + 1)).length, i ∈ (outside c (n + 1)).sched := by
  intro i hi
  have hl : (rowsX c (n + 1)).length = n + 1 := by simp [rowsX, TargetList.starTargets]
  rw [hl] at hi
  show i ∈ (List.range (n + 1)).reverse
  simp [hi]

theorem names_ok (c : Catalogue) (n : ℕ) (hn : ∀ i ≤ n, ∀ j ≤ n, c.name i = c.name j → i = j) :
    ((rowsX c (n + 1)).map (fun row => (targetOf (outside c (n + 1)) row).name)).Nodup := by
  have : (rowsX c (n + 1)).map (fun row => (targetOf (outside c (n + 1)) row).name) = (List.range (n + 1)).map (fun i => String.ofList (c.name i)) := by
    simp only [rowsX, TargetList.starTargets, List.map_map]
    rfl
  rw [this]
  refine List.Nodup.map_on ?_ List.nodup_range
  intro i hi j hj e
  rw [List.mem_range] at hi hj
  exact hn i (by omega) j (by omega) (by simpa using congrArg String.toList e)

theorem stars_ok (c : Catalogue) (n : ℕ) (hD : ∀ i ≤ n, c.D i ≠ 0) (hT : ∀ i ≤ n, 0 < c.T i) (hR : ∀ i ≤ n, c.R i ≠ 0) :
    ∀ row ∈ rowsX c (n + 1), Star (outside c (n + 1)) pl (.single zodiD) row := by
  intro row hrow
  obtain ⟨i, hi, rfl⟩ := List.mem_map.mp hrow
  rw [List.mem_range] at hi
  exact star_row c (n + 1) i (hD i (by omega)) (hT i (by omega)) (hR i (by omega))

theorem within_ok : ∀ d ∈ channelsOf pl, Build.Within pl.1.wlMin pl.1.wlMax pl.2 d :=
  two ⟨le_refl _, le_refl _, fun s hs => by simp [Build.Demo.phot3, Build.Demo.phot] at hs⟩ Build.Demo.within_spec3

theorem budgets_ok : Build.Budgets pl.1.common (channelsOf pl) (fun _ => 100) (fun _ => 1) (fun _ => 1) (fun _ => 2) (fun _ => 3) := by
  have det : GoodDetector Build.Demo.detector 100 1 1 2 3 :=
    ⟨rfl, by norm_num, rfl, by norm_num, rfl, rfl, by norm_num, rfl, by simp [Build.Demo.detector], by simp [Build.Demo.detector]⟩
  exact ⟨two det det, two (by norm_num [Build.Demo.phot3]) (by norm_num [Build.Demo.spec3]), by simp [pl, describedX, Build.Demo.common, entries],
      two (by simp [Build.Demo.phot3, entries]) (by simp [Build.Demo.spec3, entries])⟩

/-- C106, a concrete case: the payload of this file (a photometer and a spectrometer, zodiacal light, black bodies), and a list of any number of stars with distinct names, any masses, and
positive temperatures at distances that are not zero: the run ends, and the file has the table of every star, with its noise budget. -/
theorem demo_whole (c : Catalogue) (n : ℕ) (hD : ∀ i ≤ n, c.D i ≠ 0) (hT : ∀ i ≤ n, 0 < c.T i) (hR : ∀ i ≤ n, c.R i ≠ 0)
    (hn : ∀ i ≤ n, ∀ j ≤ n, c.name i = c.name j → i = j) :
    ∃ fuel, ∀ m, fuel ≤ m → (run { outside c (n + 1) with fuel := m } args disk).2 = .ok () ∧
      ∃ g, (run { outside c (n + 1) with fuel := m } args disk).1.cur.get? outPath = some (.h5 g) ∧
        ∀ i ≤ n, ∃ r, Build.HasBudget Build.Demo.common [Build.Demo.phot3, Build.Demo.spec3] (fun _ => 100) (fun _ => 1) (fun _ => 1) (fun _ => 2) (fun _ => 3) r ∧
          ∀ k, columnIn g (String.ofList (c.name i)) k = r.get? k := by
  obtain ⟨fuel, h⟩ := whole_run (u := some) (o := outside c (n + 1)) (pl := pl) (stores c (n + 1)) (sound c (n + 1)) rfl (by norm_num [outside, Build.Demo.env])
    (by norm_num [pl, describedX, Build.Demo.common]) (by simp [channelsOf, pl, describedX]) (two Build.Demo.complete_phot3 Build.Demo.complete_spec3) (world_ok c (n + 1))
    within_ok budgets_ok (sec := .single zodiD) rfl (src := Build.Demo.planckSource) rfl rfl (by decide +kernel) (by decide +kernel)
  refine ⟨fuel, fun m hm => ?_⟩
  obtain ⟨r1, g, r2, r3⟩ := h m hm plain rfl (loaded c (n + 1)) (listed c n) (sched_ok c n) (.inl rfl) (names_ok c n hn) (stars_ok c n hD hT hR)
  refine ⟨r1, g, r2, fun i hi => ?_⟩
  exact r3 ⟨i, (nameC c).value i, TargetList.row [nameC c, massC c, teffC c, radiusC c, distanceC c] i, none⟩
      (List.mem_map.mpr ⟨i, List.mem_range.mpr (by omega), rfl⟩)

/-! ## With `full_contrib` -/

/-- The mirror emits in both channels; the filter has no temperature. -/
theorem emits : ∀ d ∈ channelsOf pl, Build.emitters Build.Demo.env5 Build.Demo.common d = ["M1"] := by
  have key : ∀ d : Build.Descr, d.optics = some (.one Build.Demo.filter) → Build.emitters Build.Demo.env5 Build.Demo.common d = ["M1"] := by
    intro d hd
    unfold Build.emitters Build.pathElements
    rw [hd]
    generalize Build.workGrid Build.Demo.env5 d = g
    simp [Build.Demo.env5, Build.Demo.common, Optics.prepareElements, Optics.buildMany, Optics.mkElement, Optics.getTransmission, Optics.getEmissivity, Build.Demo.mirror, Build.Demo.filter,
      Optics.prepend, Optics.emitting, Dict.set]
  exact two (key _ rfl) (key _ rfl)

/-- The hypotheses of `emitters_mem` for the photometer: the filter, its own element, does not emit. -/
example : "filter" ∉ Build.emitters Build.Demo.env5 Build.Demo.common Build.Demo.phot3 := by
  have hp : ∃ els, Build.pathElements Build.Demo.env5 Build.Demo.common Build.Demo.phot3 = .ok els := by
    unfold Build.pathElements
    rw [show Build.Demo.phot3.optics = some (.one Build.Demo.filter) from rfl]
    generalize Build.workGrid Build.Demo.env5 _ = g
    simp [Build.Demo.env5, Build.Demo.common, Optics.prepareElements, Optics.buildMany, Optics.mkElement, Optics.getTransmission, Optics.getEmissivity, Build.Demo.mirror, Build.Demo.filter]
  obtain ⟨els, hp⟩ := hp
  have hs := sound (⟨fun _ => [], fun _ => 0, fun _ => 0, fun _ => 0, fun _ => 0⟩ : Catalogue) 0
  rw [Build.emitters_mem (env := Build.Demo.env5) (c := Build.Demo.common) hs.common (hs.descr _ (by simp [channelsOf, pl, describedX])) hp (by simp [Build.Distinct, Build.elements, Build.Demo.common])
    (fun D hD => by
      obtain ⟨h1, h2⟩ := hD
      simp only [Build.elements, Build.Demo.common, List.mem_singleton] at h1
      subst h1
      simp [Build.Demo.mirror] at h2)
    (fun o ho => by cases ho; simp [Build.Distinct, Build.elements])]
  rintro ⟨o, ho, ⟨D, ⟨h1, _⟩, h3⟩ | ⟨h1, _⟩⟩
  · cases ho
    simp only [Build.elements, List.mem_singleton] at h1
    subst h1
    simp [Build.Demo.filter] at h3
  · cases ho
    exact h1 Build.Demo.filter ⟨by simp [Build.elements], rfl⟩

theorem elements_ok (c : Catalogue) (n : ℕ) : Elements (outside c n) pl := by
  constructor
  · intro d hd el hel
    have : Build.emitters (buildEnv (outside c n) pl) pl.1.common d = ["M1"] := emits d hd
    rw [this, List.mem_singleton] at hel
    subst hel
    exact ⟨by decide +kernel, by decide +kernel⟩
  · intro d hd el hel
    have : Build.emitters (buildEnv (outside c n) pl) pl.1.common d = ["M1"] := emits d hd
    rw [this, List.mem_singleton] at hel
    subst hel
    decide

/-- C108, a concrete case: the same run with `full_contrib` lists the mirror's light in place of `instrument_signal`. -/
theorem demo_contrib (c : Catalogue) (n : ℕ) (hD : ∀ i ≤ n, c.D i ≠ 0) (hT : ∀ i ≤ n, 0 < c.T i) (hR : ∀ i ≤ n, c.R i ≠ 0)
    (hn : ∀ i ≤ n, ∀ j ≤ n, c.name i = c.name j → i = j) :
    ∃ fuel, ∀ m, fuel ≤ m → (run { outside c (n + 1) with fuel := m, full := true } args disk).2 = .ok () ∧
      ∃ g, (run { outside c (n + 1) with fuel := m, full := true } args disk).1.cur.get? outPath = some (.h5 g) ∧
        ∀ i ≤ n, ∃ r, Build.HasBudget Build.Demo.common [Build.Demo.phot3, Build.Demo.spec3] (fun _ => 100) (fun _ => 1) (fun _ => 1) (fun _ => 2) (fun _ => 3) r ∧
          "M1 signal" ∈ r.keys ∧ "instrument_signal" ∉ r.keys ∧ ∀ k, columnIn g (String.ofList (c.name i)) k = r.get? k := by
  obtain ⟨fuel, h⟩ := whole_contrib (u := some) (o := outside c (n + 1)) (pl := pl) (stores c (n + 1)) (sound c (n + 1)) (elements_ok c (n + 1)) (by norm_num [outside, Build.Demo.env])
    (by norm_num [pl, describedX, Build.Demo.common]) (by simp [channelsOf, pl, describedX]) (two Build.Demo.complete_phot3 Build.Demo.complete_spec3) (world_ok c (n + 1))
    within_ok budgets_ok (sec := .single zodiD) rfl (src := Build.Demo.planckSource) rfl rfl (by decide +kernel) (by decide +kernel)
    (by intro kd hkd; simp only [Foreground.Section.list, List.mem_singleton] at hkd; subst hkd; decide)
  refine ⟨fuel, fun m hm => ?_⟩
  obtain ⟨_, r1, _, g, _, r2, r3⟩ := h m hm plain (outside c (n + 1)).opts (outside c (n + 1)).nThread rfl (loaded c (n + 1)) (listed c n) (sched_ok c n) (.inl rfl) (names_ok c n hn) (stars_ok c n hD hT hR)
  refine ⟨r1, g, r2, fun i hi => ?_⟩
  obtain ⟨_, r, _, b, hs, _, hr⟩ := r3 ⟨i, (nameC c).value i, TargetList.row [nameC c, massC c, teffC c, radiusC c, distanceC c] i, none⟩
      (List.mem_map.mpr ⟨i, List.mem_range.mpr (by omega), rfl⟩)
  refine ⟨r, b, ?_, hs.gone, hr⟩
  have hm : Build.Demo.phot3 ∈ channelsOf pl := by simp [channelsOf, pl, describedX]
  have := hs.parts Build.Demo.phot3 hm "M1" (by
    have e : Build.emitters (buildEnv (outside c (n + 1)) pl) pl.1.common Build.Demo.phot3 = ["M1"] := emits _ hm
    rw [e]; simp)
  exact this

end
end ExoRad.Whole.Demo
