import Verif.Props.Options
import Verif.Model.Read

/-!
# C101: the order of settings, and unknown settings, do not matter

Two parsed payloads are compared by `Eqv K`: the same values under the keys `K`, in every dictionary, whatever the order of the entries;
entries that occur several times in the same order. Whatever the code reads from a payload only depends on `known` keys, and documents
that differ in the order of their settings or in unknown settings are parsed to equivalent payloads.
-/

set_option linter.unusedSectionVars false

namespace ExoRad.Read
open Options (Opt Key Scalar Xml Py St P)

/-! ## Equivalent payloads -/

/-- The same under the keys `K`. -/
inductive Eqv (K : List String) : Opt → Opt → Prop where
  | scalar (s : Scalar) : Eqv K (.scalar s) (.scalar s)
  | table (id : String) : Eqv K (.table id) (.table id)
  | dict (d d' : Dict String Opt) (hn : ∀ k ∈ K, Dict.get? d k = none ↔ Dict.get? d' k = none)
      (h : ∀ k ∈ K, ∀ o o', Dict.get? d k = some o → Dict.get? d' k = some o' → Eqv K o o') : Eqv K (.dict d) (.dict d')
  | odict (d d' : List (Key × Opt)) (hl : d.length = d'.length)
      (h : ∀ (i : ℕ) (p p' : Key × Opt), d[i]? = some p → d'[i]? = some p' → p.1 = p'.1)
      (h' : ∀ (i : ℕ) (p p' : Key × Opt), d[i]? = some p → d'[i]? = some p' → Eqv K p.2 p'.2) : Eqv K (.odict d) (.odict d')

variable {K : List String}

theorem sizeOf_get? {d : Dict String Opt} {k : String} {o : Opt} (h : Dict.get? d k = some o) : sizeOf o < sizeOf d := by
  have := List.sizeOf_lt_of_mem (Dict.mem_of_get? h)
  simp at this
  omega

theorem Eqv.refl : ∀ o : Opt, Eqv K o o
  | .scalar s => .scalar s
  | .table id => .table id
  | .dict d => by
    refine .dict d d (fun _ _ => Iff.rfl) ?_
    intro k _ o o' h h'
    have hs := sizeOf_get? h
    rw [h] at h'
    cases h'
    exact Eqv.refl o
  | .odict d => by
    refine .odict d d rfl ?_ ?_
    · intro i p p' h h'
      rw [h] at h'
      cases h'
      rfl
    · intro i p p' h h'
      rw [h] at h'
      cases h'
      have := List.sizeOf_lt_of_mem (List.mem_of_getElem? h)
      obtain ⟨a, b⟩ := p
      simp at this
      exact Eqv.refl b
termination_by o => sizeOf o
decreasing_by all_goals (simp at *; omega)

theorem Eqv.symm {o o' : Opt} (h : Eqv K o o') : Eqv K o' o := by
  induction h with
  | scalar s => exact .scalar s
  | table id => exact .table id
  | dict d d' hn _ ih => exact .dict d' d (fun k hk => (hn k hk).symm) (fun k hk o o' h h' => ih k hk o' o h' h)
  | odict d d' hl h _ ih =>
    exact .odict d' d hl.symm (fun i p p' e e' => (h i p' p e' e).symm) (fun i p p' e e' => ih i p' p e' e)

theorem Eqv.trans {o o' o'' : Opt} (h : Eqv K o o') (h2 : Eqv K o' o'') : Eqv K o o'' := by
  induction h generalizing o'' with
  | scalar s => exact h2
  | table id => exact h2
  | dict d d' hn _ ih =>
    cases h2 with
    | dict _ d'' hn2 h2 =>
      refine .dict d d'' (fun k hk => (hn k hk).trans (hn2 k hk)) ?_
      intro k hk o o'' e e''
      cases e' : Dict.get? d' k with
      | none => rw [(hn k hk).mpr e'] at e; cases e
      | some o' => exact ih k hk o o' e e' (h2 k hk o' o'' e' e'')
  | odict d d' hl h _ ih =>
    cases h2 with
    | odict _ d'' hl2 h2 h2' =>
      have mid : ∀ (i : ℕ) (p : Key × Opt), d[i]? = some p → ∃ p', d'[i]? = some p' := by
        intro i p e
        have : i < d'.length := by rw [← hl]; exact (List.getElem?_eq_some_iff.mp e).1
        exact ⟨d'[i], List.getElem?_eq_getElem this⟩
      refine .odict d d'' (hl.trans hl2) ?_ ?_
      · intro i p p'' e e''
        obtain ⟨p', e'⟩ := mid i p e
        exact (h i p p' e e').trans (h2 i p' p'' e' e'')
      · intro i p p'' e e''
        obtain ⟨p', e'⟩ := mid i p e
        exact ih i p p' e e' (h2' i p' p'' e' e'')

/-! ## What is read -/

/-- The same is read from equivalent payloads. -/
def Resp {β : Type} (K : List String) (f : Opt → β) : Prop := ∀ o o', Eqv K o o' → f o = f o'

theorem Eqv.get? {d d' : Dict String Opt} (h : Eqv K (.dict d) (.dict d')) {k : String} (hk : k ∈ K) :
    (Dict.get? d k = none ∧ Dict.get? d' k = none) ∨ ∃ o o', Dict.get? d k = some o ∧ Dict.get? d' k = some o' ∧ Eqv K o o' := by
  cases h with
  | dict _ _ hn h =>
    cases e : Dict.get? d k with
    | none => exact .inl ⟨rfl, (hn k hk).mp e⟩
    | some o =>
      cases e' : Dict.get? d' k with
      | none => rw [(hn k hk).mpr e'] at e; cases e
      | some o' => exact .inr ⟨o, o', rfl, rfl, h k hk o o' e e'⟩

theorem Eqv.tail {p p' : Key × Opt} {d d' : List (Key × Opt)} (h : Eqv K (.odict (p :: d)) (.odict (p' :: d'))) :
    p.1 = p'.1 ∧ Eqv K p.2 p'.2 ∧ Eqv K (.odict d) (.odict d') := by
  cases h with
  | odict _ _ hl h h' =>
    refine ⟨h 0 p p' rfl rfl, h' 0 p p' rfl rfl, .odict d d' (by simpa using hl) ?_ ?_⟩
    · intro i q q' e e'
      exact h (i + 1) q q' (by simpa using e) (by simpa using e')
    · intro i q q' e e'
      exact h' (i + 1) q q' (by simpa using e) (by simpa using e')

theorem Eqv.cons {p p' : Key × Opt} {d d' : List (Key × Opt)} (h0 : p.1 = p'.1) (h1 : Eqv K p.2 p'.2)
    (h2 : Eqv K (.odict d) (.odict d')) : Eqv K (.odict (p :: d)) (.odict (p' :: d')) := by
  cases h2 with
  | odict _ _ hl h h' =>
    refine .odict _ _ (by simpa using hl) ?_ ?_
    · intro i q q' e e'
      cases i with
      | zero => simp at e e'; subst e; subst e'; exact h0
      | succ i => exact h i q q' (by simpa using e) (by simpa using e')
    · intro i q q' e e'
      cases i with
      | zero => simp at e e'; subst e; subst e'; exact h1
      | succ i => exact h' i q q' (by simpa using e) (by simpa using e')

/-- Ordered dictionaries, by recursion. -/
theorem Eqv.rec_odict {M : List (Key × Opt) → List (Key × Opt) → Prop} (nil : M [] [])
    (cons : ∀ p p' d d', p.1 = p'.1 → Eqv K p.2 p'.2 → Eqv K (.odict d) (.odict d') → M d d' → M (p :: d) (p' :: d')) :
    ∀ {d d' : List (Key × Opt)}, Eqv K (.odict d) (.odict d') → M d d'
  | [], [], _ => nil
  | [], _ :: _, h => by cases h with | odict _ _ hl _ _ => simp at hl
  | _ :: _, [], h => by cases h with | odict _ _ hl _ _ => simp at hl
  | p :: d, p' :: d', h => cons p p' d d' h.tail.1 h.tail.2.1 h.tail.2.2 (Eqv.rec_odict nil cons h.tail.2.2)

theorem Eqv.odict_get? {d d' : List (Key × Opt)} (h : Eqv K (.odict d) (.odict d')) (k : Key) :
    (Dict.get? d k = none ∧ Dict.get? d' k = none) ∨ ∃ o o', Dict.get? d k = some o ∧ Dict.get? d' k = some o' ∧ Eqv K o o' := by
  refine Eqv.rec_odict (M := fun d d' => (Dict.get? d k = none ∧ Dict.get? d' k = none) ∨
    ∃ o o', Dict.get? d k = some o ∧ Dict.get? d' k = some o' ∧ Eqv K o o') (.inl ⟨rfl, rfl⟩) ?_ h
  rintro ⟨a, o⟩ ⟨a', o'⟩ d d' h0 h1 _ ih
  simp only at h0 h1
  subst h0
  rw [Dict.get?_cons, Dict.get?_cons]
  by_cases e : a = k
  · rw [if_pos e, if_pos e]
    exact .inr ⟨o, o', rfl, rfl, h1⟩
  · rw [if_neg e, if_neg e]
    exact ih

theorem sub_eqv {o o' : Opt} (h : Eqv K o o') {k : String} (hk : k ∈ K) :
    (sub k o = none ∧ sub k o' = none) ∨ ∃ x x', sub k o = some x ∧ sub k o' = some x' ∧ Eqv K x x' := by
  cases h with
  | scalar s => exact .inl ⟨rfl, rfl⟩
  | table id => exact .inl ⟨rfl, rfl⟩
  | dict d d' hn h => exact (Eqv.dict d d' hn h).get? hk
  | odict d d' hl h h' => exact (Eqv.odict d d' hl h h').odict_get? (.str k)

theorem Resp.need {β : Type} {f : Opt → Option β} (hf : Resp K f) {k : String} (hk : k ∈ K) : Resp K (need k f) := by
  intro o o' h
  unfold Read.need
  rcases sub_eqv h hk with ⟨e, e'⟩ | ⟨x, x', e, e', hx⟩
  · rw [e, e']
  · rw [e, e']
    exact hf x x' hx

theorem Resp.may {β : Type} {f : Opt → Option β} (hf : Resp K f) {k : String} (hk : k ∈ K) : Resp K (may k f) := by
  intro o o' h
  unfold Read.may
  rcases sub_eqv h hk with ⟨e, e'⟩ | ⟨x, x', e, e', hx⟩
  · rw [e, e']
  · rw [e, e']
    dsimp only
    rw [hf x x' hx]

theorem Resp.bind {β γ : Type} {f : Opt → Option β} {g : β → Opt → Option γ} (hf : Resp K f) (hg : ∀ b, Resp K (g b)) :
    Resp K (fun o => f o >>= fun b => g b o) := by
  intro o o' h
  show (f o >>= fun b => g b o) = (f o' >>= fun b => g b o')
  rw [hf o o' h]
  cases f o' with
  | none => rfl
  | some b => exact hg b o o' h

theorem Resp.const {β : Type} (b : β) : Resp K (fun _ => b) := fun _ _ _ => rfl

theorem Resp.bare : Resp K bare := by
  intro o o' h
  cases h <;> rfl

theorem Resp.inUnit (u : String) : Resp K (inUnit u) := by
  intro o o' h
  cases h <;> rfl

theorem Resp.bareOr (u : String) : Resp K (bareOr u) := by
  intro o o' h
  cases h <;> rfl

theorem Resp.text : Resp K text := by
  intro o o' h
  cases h <;> rfl

theorem Resp.flag : Resp K flag := by
  intro o o' h
  cases h <;> rfl

theorem Resp.columns (F : Files) : Resp K (columns F) := by
  intro o o' h
  cases h <;> rfl

theorem Resp.pairs (F : Files) (x y : String) : Resp K (pairs F x y) := by
  intro o o' h
  unfold Read.pairs
  rw [Resp.columns F o o' h]

theorem allOf_eqv {β : Type} {f : Key × Opt → Option β} (hf : ∀ p p' : Key × Opt, p.1 = p'.1 → Eqv K p.2 p'.2 → f p = f p')
    {d d' : List (Key × Opt)} (h : Eqv K (.odict d) (.odict d')) : allOf f d = allOf f d' := by
  refine Eqv.rec_odict (M := fun d d' => allOf f d = allOf f d') rfl ?_ h
  intro p p' d d' h0 h1 _ ih
  unfold allOf
  rw [hf p p' h0 h1, ih]

theorem Resp.keyed {β : Type} {f : Opt → Option β} (hf : Resp K f) (p p' : Key × Opt) (h0 : p.1 = p'.1) (h1 : Eqv K p.2 p'.2) :
    keyed f p = keyed f p' := by
  unfold Read.keyed
  rw [h0, hf _ _ h1]

theorem Resp.entries {β : Type} {f : Opt → Option β} (hf : Resp K f) {k : String} (hk : k ∈ K) : Resp K (entries k f) := by
  intro o o' h
  unfold Read.entries
  rcases sub_eqv h hk with ⟨e, e'⟩ | ⟨x, x', e, e', hx⟩
  · rw [e, e']
  · rw [e, e']
    cases hx with
    | scalar s => rfl
    | table id => rfl
    | dict d d' hn h =>
      dsimp only
      rw [hf _ _ (Eqv.dict d d' hn h)]
    | odict d d' hl h h' =>
      dsimp only
      rw [allOf_eqv (hf.keyed) (Eqv.odict d d' hl h h')]

/-- The settings that the modelled code knows. -/
def known : List String :=
  ["value", "unit", "data", "datatype", "datafile", "datadict", "config_dict", -- the parser
   "type", "use", "transmission", "reflectivity", "emissivity", "wl_min", "wl_max", "temperature", "solid_angle", "wl_col_name", "width",
   "opticalElement", "name", "customNoise", -- elements and noise
   "well_depth", "f_well_depth", "frame_time", "freqNDR", "multiaccumM", "dark_current", "read_noise", "detector", "NoiseX",
   "format", "radius", "EnE", "apertureCorrection", "targetR", "wlSolution", "WFErms", "EncESolution", "window_spatial_scale",
   "window_spatial_pixel", "window_spectral_pixel", "aperture", "Fnum_x", "Fnum_y", "cut_off", "delta_pix", "qe", "PSF", "optics",
   "ForceChannelWlEdge", "Atel", "common", "zodiacalMap", "custom_map_file", "zodiacFactor", "foreground", "sourceSpectrum",
   "StellarModels", "CustomSed", "channel", "channelClass"]

/-- Compositions of readers. -/
macro "reads" : tactic => `(tactic|
  repeat' (first
    | exact Resp.bare | exact Resp.text | exact Resp.flag | exact Resp.inUnit _ | exact Resp.bareOr _ | exact Resp.columns _
    | exact Resp.pairs _ _ _ | assumption
    | (refine Resp.bind ?_ (fun _ => ?_))
    | exact Resp.const _
    | (unfold needV) | (unfold mayV)
    | (apply Resp.need) | (apply Resp.may) | (apply Resp.entries)
    | (simp [known]; done)))

theorem Resp.element (F : Files) : Resp known (element F) := by
  unfold Read.element
  reads

theorem Resp.elements (F : Files) : Resp known (elements F) := by
  intro o o' h
  unfold Read.elements
  rw [(Resp.element F).entries (by simp [known]) o o' h]

theorem Resp.customEntry : Resp known customEntry := by
  unfold Read.customEntry
  reads

theorem Resp.customNoise : Resp known customNoise := by
  intro o o' h
  unfold Read.customNoise
  rcases sub_eqv h (k := "customNoise") (by simp [known]) with ⟨e, e'⟩ | ⟨x, x', e, e', hx⟩
  · rw [e, e']
  · rw [e, e']
    cases hx with
    | scalar s => rfl
    | table id => rfl
    | dict d d' hn h =>
      dsimp only
      rw [Resp.customEntry _ _ (Eqv.dict d d' hn h)]
    | odict d d' hl h h' =>
      dsimp only
      rw [allOf_eqv (f := fun p : Key × Opt => Read.customEntry p.2) (fun p p' _ h1 => Resp.customEntry _ _ h1)
        (Eqv.odict d d' hl h h')]

theorem Resp.detector : Resp known detector := by
  unfold Read.detector
  reads

theorem Resp.noiseChannel : Resp known noiseChannel := by
  have h1 := Resp.detector
  have h2 := Resp.customNoise
  unfold Read.noiseChannel
  reads

theorem Resp.qe (F : Files) : Resp known (qe F) := by
  intro o o' h
  have h1 : Resp known (Read.need "data" (Read.columns F)) := by reads
  have h2 : Resp known (Read.need "value" Read.bare) := by reads
  unfold Read.qe
  rw [h1 o o' h, h2 o o' h]
  rcases sub_eqv h (k := "datafile") (by simp [known]) with ⟨e, e'⟩ | ⟨x, x', e, e', hx⟩
  · rw [e, e']
  · rw [e, e']

theorem Resp.psf (F : Files) : Resp known (psf F) := by
  unfold Read.psf
  reads

theorem Resp.resolution (F : Files) : Resp known (resolution F) := by
  intro o o' h
  have h1 : Resp known (Read.need "value" Read.text) := by reads
  unfold Read.resolution
  rcases sub_eqv h (k := "value") (by simp [known]) with ⟨e, e'⟩ | ⟨x, x', e, e', hx⟩
  · rw [e, e']
    dsimp only
    rcases sub_eqv h (k := "data") (by simp [known]) with ⟨e, e'⟩ | ⟨x, x', e, e', hx⟩
    · rw [e, e']
    · rw [e, e']
      dsimp only
      rw [h1 x x' hx]
  · rw [e, e']
    dsimp only
    unfold Read.resolutionValue
    rw [Resp.text x x' hx, Resp.bare x x' hx]

theorem Resp.aperture : Resp known aperture := by
  unfold Read.aperture
  reads

theorem Resp.specDescr (F : Files) : Resp known (specDescr F) := by
  have h1 := Resp.resolution F
  unfold Read.specDescr
  reads

theorem Resp.kind (F : Files) (c : Channels.Class) : Resp known (kind F c) := by
  intro o o' h
  unfold Read.kind
  cases c with
  | photometer =>
    dsimp only
    rw [Resp.aperture.need (k := "aperture") (by simp [known]) o o' h]
  | spectrometer =>
    dsimp only
    rw [Resp.specDescr F o o' h]

theorem Resp.channel (F : Files) (c : Channels.Class) : Resp known (channel F c) := by
  have h1 := Resp.noiseChannel
  have h2 := Resp.qe F
  have h3 := Resp.psf F
  have h4 := Resp.elements F
  have h5 := Resp.kind F c
  unfold Read.channel
  reads

theorem Resp.common (F : Files) : Resp known (common F) := by
  have h1 := Resp.elements F
  have h2 := Resp.customNoise
  unfold Read.common
  reads

theorem Resp.foreground (F : Files) : Resp known (foreground F) := by
  unfold Read.foreground
  reads

theorem Resp.foregrounds (F : Files) : Resp known (foregrounds F) := by
  intro o o' h
  unfold Read.foregrounds
  rw [(Resp.foreground F).entries (by simp [known]) o o' h]

theorem Resp.source : Resp known source := by
  unfold Read.source
  reads

/-! ## The channels -/

theorem item_eqv {o o' : Opt} (h : Eqv K o o') {k : String} (hk : k ∈ K) :
    (∃ e, Channels.item o k = .error e ∧ Channels.item o' k = .error e) ∨
      ∃ x x', Channels.item o k = .ok x ∧ Channels.item o' k = .ok x' ∧ Eqv K x x' := by
  cases h with
  | scalar s => exact .inl ⟨_, rfl, rfl⟩
  | table id => exact .inl ⟨_, rfl, rfl⟩
  | dict d d' hn h =>
    unfold Channels.item Dict.getE
    rcases (Eqv.dict d d' hn h).get? hk with ⟨e, e'⟩ | ⟨x, x', e, e', hx⟩
    · dsimp only; rw [e, e']; exact .inl ⟨_, rfl, rfl⟩
    · dsimp only; rw [e, e']; exact .inr ⟨x, x', rfl, rfl, hx⟩
  | odict d d' hl h h' =>
    unfold Channels.item Dict.getE
    rcases (Eqv.odict d d' hl h h').odict_get? (.str k) with ⟨e, e'⟩ | ⟨x, x', e, e', hx⟩
    · dsimp only; rw [e, e']; exact .inl ⟨_, rfl, rfl⟩
    · dsimp only; rw [e, e']; exact .inr ⟨x, x', rfl, rfl, hx⟩

theorem Resp.classOf : Resp known Channels.classOf := by
  intro o o' h
  unfold Channels.classOf
  rcases item_eqv h (k := "channelClass") (by simp [known]) with ⟨e, h1, h2⟩ | ⟨x, x', h1, h2, hx⟩
  · rw [h1, h2]
  · rw [h1, h2]
    dsimp only
    rcases item_eqv hx (k := "value") (by simp [known]) with ⟨e, h1, h2⟩ | ⟨y, y', h1, h2, hy⟩
    · rw [h1, h2]
    · rw [h1, h2]
      cases hy <;> rfl

/-- What is made of a channel does not depend on the order of its settings. -/
def Makes {B : Type} (make : Channels.Class → Opt → Opt → Opt → Except Exc B) : Prop :=
  ∀ c n d d' p p', Eqv known d d' → Eqv known p p' → make c n d p = make c n d' p'

theorem buildInstrument_eqv {B : Type} {make : Channels.Class → Opt → Opt → Opt → Except Exc B} (hm : Makes make) (t : String) (n : Opt)
    {d d' p p' : Opt} (hd : Eqv known d d') (hp : Eqv known p p') :
    Channels.buildInstrument make t n d p = Channels.buildInstrument make t n d' p' := by
  unfold Channels.buildInstrument
  cases Channels.instruments.get? t with
  | none => rfl
  | some c => exact hm c n d d' p p' hd hp

theorem buildLoop_eqv {B : Type} {make : Channels.Class → Opt → Opt → Opt → Except Exc B} (hm : Makes make) {p p' : Opt}
    (hp : Eqv known p p') {d d' : List (Key × Opt)} (h : Eqv known (.odict d) (.odict d')) (ks : List Key) :
    ∀ acc, Channels.buildLoop make p (.odict d) ks acc = Channels.buildLoop make p' (.odict d') ks acc := by
  induction ks with
  | nil => intro acc; rfl
  | cons k ks ih =>
    intro acc
    unfold Channels.buildLoop
    have e : ∀ d, Channels.itemKey (.odict d) k = Dict.getE d k := fun _ => rfl
    rw [e d, e d']
    unfold Dict.getE
    rcases h.odict_get? k with ⟨e, e'⟩ | ⟨x, x', e, e', hx⟩
    · rw [e, e']
    · rw [e, e']
      dsimp only
      rw [Resp.classOf x x' hx]
      cases Channels.classOf x' with
      | error e => rfl
      | ok c =>
        dsimp only
        rw [buildInstrument_eqv hm c _ hx hp]
        cases Channels.buildInstrument make c (Channels.ofKey k) x' p' with
        | error e => rfl
        | ok b => exact ih _

theorem buildSingle_eqv {B : Type} {make : Channels.Class → Opt → Opt → Opt → Except Exc B} (hm : Makes make)
    (hn : ∀ c n n' d p, make c n d p = make c n' d p) {p p' : Opt}
    (hp : Eqv known p p') {o o' : Opt} (h : Eqv known o o') : Channels.buildSingle make p o = Channels.buildSingle make p' o' := by
  unfold Channels.buildSingle
  rw [Resp.classOf o o' h]
  cases Channels.classOf o' with
  | error e => rfl
  | ok c =>
    dsimp only
    rcases item_eqv h (k := "value") (by simp [known]) with ⟨e, h1, h2⟩ | ⟨x, x', h1, h2, hx⟩
    · rw [h1, h2]
    · rw [h1, h2]
      dsimp only
      have : Channels.buildInstrument make c x o p = Channels.buildInstrument make c x' o' p' := by
        rw [buildInstrument_eqv hm c x h hp]
        unfold Channels.buildInstrument
        cases Channels.instruments.get? c with
        | none => rfl
        | some c => exact hn c x x' o' p'
      rw [this]
      cases Channels.buildInstrument make c x' o' p' with
      | error e => rfl
      | ok b => cases hx <;> rfl

theorem Eqv.keys {d d' : List (Key × Opt)} (h : Eqv K (.odict d) (.odict d')) : d.map Prod.fst = d'.map Prod.fst := by
  refine Eqv.rec_odict (M := fun d d' => d.map Prod.fst = d'.map Prod.fst) rfl ?_ h
  intro p p' d d' h0 _ _ ih
  simp [h0, ih]

theorem buildChannels_eqv {B : Type} {make : Channels.Class → Opt → Opt → Opt → Except Exc B} (hm : Makes make)
    (hn : ∀ c n n' d p, make c n d p = make c n' d p) : Resp known (Channels.buildChannels make) := by
  intro o o' h
  unfold Channels.buildChannels
  rcases item_eqv h (k := "channel") (by simp [known]) with ⟨e, h1, h2⟩ | ⟨x, x', h1, h2, hx⟩
  · rw [h1, h2]
  · rw [h1, h2]
    dsimp only
    cases hx with
    | scalar s => rfl
    | table id => rfl
    | dict d d' hk hd => exact buildSingle_eqv hm hn h (Eqv.dict d d' hk hd)
    | odict d d' hl hd hd' =>
      have := Eqv.odict d d' hl hd hd'
      unfold Channels.keysOf
      dsimp only
      rw [this.keys]
      exact buildLoop_eqv hm h this _ _

theorem Resp.channels (F : Files) : Resp known (channels F) := by
  intro o o' h
  unfold Read.channels
  rw [buildChannels_eqv (make := fun c _ d _ => .ok (Read.channel F c d)) ?_ ?_ o o' h]
  · intro c n d d' p p' hd _
    show Except.ok _ = Except.ok _
    rw [Resp.channel F c d d' hd]
  · intro c n n' d p
    rfl

/-- C101. What is read from a payload only depends on the known settings, and not on their order. -/
theorem describe_known (F : Files) : Resp known (describe F) := by
  have h1 := Resp.common F
  have h2 := Resp.channels F
  have h3 := Resp.foregrounds F
  have h4 := Resp.source
  unfold describe
  reads

/-! ## Documents -/

/-- Attributes with the same known names and values, in any order. -/
def SameAttribs (K : List String) (a a' : List (String × String)) : Prop :=
  a = a' ∨ ((a.map Prod.fst).Nodup ∧ (a'.map Prod.fst).Nodup ∧ ∀ n ∈ K, ∀ v, (n, v) ∈ a ↔ (n, v) ∈ a')

/-- `Tidied K l l'`: the settings `l'` are the settings `l`, at all levels in another order and without some settings whose name is not one
of `K`. Settings of one name stay in their order; there is at most one `working_R` among settings that are exchanged; if one of several
unknown settings of one name is dropped, it is the last one. -/
inductive Tidied (K : List String) : List Xml → List Xml → Prop where
  | nil : Tidied K [] []
  | cons (tag : String) (text : Option String) {a a' : List (String × String)} {c c' l l' : List Xml} (ha : SameAttribs K a a')
      (hc : Tidied K c c') (h : Tidied K l l') : Tidied K (.node tag a text c :: l) (.node tag a' text c' :: l')
  | swap (x y : Xml) (l : List Xml) (ht : x.tag ≠ y.tag)
      (hw : Options.anyHasTag "working_R" [x] = false ∨ Options.anyHasTag "working_R" [y] = false) : Tidied K (x :: y :: l) (y :: x :: l)
  | drop (x : Xml) (l : List Xml) (hk : x.tag ∉ K) (ho : ∀ y ∈ l, y.tag ≠ x.tag) (hw : Options.anyHasTag "working_R" [x] = false) :
      Tidied K (x :: l) l
  | trans {l l' l'' : List Xml} (h : Tidied K l l') (h' : Tidied K l' l'') : Tidied K l l''

/-- The configuration path `c` will not be changed by these settings: none of them is `ConfigPath`, or the path was given to the loader and
is already in use. -/
def Settled (cfg : Option String) (c : Option Scalar) (l : List Xml) : Prop :=
  ((cfg = none ∨ cfg = some "") ∧ Options.anyHasTag "ConfigPath" l = false) ∨ ∃ p, p ≠ "" ∧ cfg = some p ∧ c = some (.str p)

theorem anyHasTag_cons (T : String) (x : Xml) (l : List Xml) :
    Options.anyHasTag T (x :: l) = (Options.anyHasTag T [x] || Options.anyHasTag T l) := by
  obtain ⟨tag, a, t, c⟩ := x
  simp [Options.anyHasTag]

theorem Settled.head {cfg : Option String} {c : Option Scalar} {x : Xml} {l : List Xml} (h : Settled cfg c (x :: l)) : Settled cfg c [x] := by
  rcases h with ⟨h, h'⟩ | h
  · rw [anyHasTag_cons, Bool.or_eq_false_iff] at h'
    exact .inl ⟨h, h'.1⟩
  · exact .inr h

theorem Settled.tail {cfg : Option String} {c : Option Scalar} {x : Xml} {l : List Xml} (h : Settled cfg c (x :: l)) : Settled cfg c l := by
  rcases h with ⟨h, h'⟩ | h
  · rw [anyHasTag_cons, Bool.or_eq_false_iff] at h'
    exact .inl ⟨h, h'.2⟩
  · exact .inr h

theorem Settled.children {cfg : Option String} {c : Option Scalar} {tag : String} {a : List (String × String)} {t : Option String}
    {ch : List Xml} (h : Settled cfg c [.node tag a t ch]) : Settled cfg c ch := by
  rcases h with ⟨h, h'⟩ | h
  · simp only [Options.anyHasTag, Bool.or_eq_false_iff] at h'
    exact .inl ⟨h, h'.1.2⟩
  · exact .inr h

theorem Tidied.anyHasTag {l l' : List Xml} (h : Tidied K l l') (T : String) (hl : Options.anyHasTag T l = false) :
    Options.anyHasTag T l' = false := by
  induction h with
  | nil => exact hl
  | cons tag text ha hc h ih1 ih2 =>
    simp only [Options.anyHasTag, Bool.or_eq_false_iff] at hl ⊢
    exact ⟨⟨hl.1.1, ih1 hl.1.2⟩, ih2 hl.2⟩
  | swap x y l ht hw =>
    rw [anyHasTag_cons T x (y :: l), anyHasTag_cons T y l, Bool.or_eq_false_iff, Bool.or_eq_false_iff] at hl
    rw [anyHasTag_cons T y (x :: l), anyHasTag_cons T x l, Bool.or_eq_false_iff, Bool.or_eq_false_iff]
    exact ⟨hl.2.1, hl.1, hl.2.2⟩
  | drop x l hk ho hw =>
    rw [anyHasTag_cons] at hl
    simp only [Bool.or_eq_false_iff] at hl
    exact hl.2
  | trans h h' ih1 ih2 => exact ih2 (ih1 hl)

theorem Tidied.settled {cfg : Option String} {c : Option Scalar} {l l' : List Xml} (h : Tidied K l l') (hs : Settled cfg c l) :
    Settled cfg c l' := by
  rcases hs with ⟨h0, h'⟩ | h0
  · exact .inl ⟨h0, h.anyHasTag _ h'⟩
  · exact .inr h0

theorem Tidied.tags {l l' : List Xml} (h : Tidied K l l') (T : String) (hl : ∃ x ∈ l', x.tag = T) : ∃ x ∈ l, x.tag = T := by
  induction h with
  | nil => exact hl
  | cons tag text ha hc h ih1 ih2 =>
    obtain ⟨x, hx, e⟩ := hl
    rcases List.mem_cons.mp hx with rfl | hx
    · exact ⟨_, List.mem_cons_self, e⟩
    · obtain ⟨y, hy, e'⟩ := ih2 ⟨x, hx, e⟩
      exact ⟨y, List.mem_cons_of_mem _ hy, e'⟩
  | swap x y l ht hw =>
    obtain ⟨z, hz, e⟩ := hl
    refine ⟨z, ?_, e⟩
    simp only [List.mem_cons] at hz ⊢
    tauto
  | drop x l hk ho hw =>
    obtain ⟨z, hz, e⟩ := hl
    exact ⟨z, List.mem_cons_of_mem _ hz, e⟩
  | trans h h' ih1 ih2 => exact ih1 (ih2 hl)

/-! ## Parsing them -/

/-- The configuration path stays. -/
def Keeps {β : Type} (m : P β) (c : Option Scalar) : Prop := ∀ w, (m ⟨c, w⟩).1.configPath = c

theorem Keeps.bind {β γ : Type} {m : P β} {f : β → P γ} {c : Option Scalar} (h : Keeps m c) (h' : ∀ x, Keeps (f x) c) :
    Keeps (P.bind m f) c := by
  intro w
  have e := h w
  unfold P.bind
  rcases hm : m ⟨c, w⟩ with ⟨⟨c1, w1⟩, r⟩
  rw [hm] at e
  simp only at e
  subst e
  cases r with
  | error e => rfl
  | ok x => exact h' x w1

theorem Keeps.pure {β : Type} (x : β) (c : Option Scalar) : Keeps (P.pure x) c := fun _ => rfl

theorem Keeps.ofExcept {β : Type} (x : Except Exc β) (c : Option Scalar) : Keeps (P.ofExcept x) c := fun _ => rfl

theorem Keeps.finish (py : Py) (root : Dict String Opt) (c : Option Scalar) : Keeps (Options.finish py root) c := by
  obtain ⟨r, h⟩ := Options.finish_writes py root c
  intro w
  rw [h w]

theorem Keeps.elementValue (py : Py) {cfg : Option String} {c : Option Scalar} {tag : String} {a : List (String × String)}
    {t : Option String} {ch : List Xml} (h : Settled cfg c [.node tag a t ch]) (d : Dict String Opt) :
    Keeps (Options.elementValue py cfg tag t d) c := by
  unfold Options.elementValue
  cases t with
  | none => exact fun _ => rfl
  | some t =>
    dsimp only
    by_cases hv : Options.compactString t = ""
    · rw [if_pos hv]
      exact Keeps.pure _ _
    · rw [if_neg hv]
      refine (Keeps.ofExcept _ _).bind fun x => Keeps.bind ?_ fun y => Keeps.bind ?_ fun _ => Keeps.pure _ _
      · intro w
        rw [Options.substConfig_state]
      · intro w
        unfold Options.effects
        rcases h with ⟨h, h'⟩ | ⟨p, hp, rfl, rfl⟩
        · simp only [Options.anyHasTag, Bool.or_eq_false_iff, decide_eq_false_iff_not] at h'
          rcases h with rfl | rfl <;> by_cases h2 : tag = "working_R" <;> simp [h'.1.1, h2]
        · by_cases h2 : tag = "working_R" <;> simp [hp, h2]

theorem Keeps.parseChildren (py : Py) {cfg : Option String} {c : Option Scalar} (l : List Xml) (hs : Settled cfg c l)
    (root : Dict String Opt) : Keeps (Options.parseChildren py cfg l root) c := by
  match l with
  | [] =>
    intro w
    rw [Options.parseChildren]
    rfl
  | .node tag a t ch :: l =>
    unfold Options.parseChildren
    refine ((Keeps.parseChildren py ch hs.head.children []).bind fun r => Keeps.finish py r c).bind fun r => ?_
    exact (Keeps.elementValue py hs.head _).bind fun p => (Keeps.ofExcept _ _).bind fun root' => Keeps.parseChildren py l hs.tail root'
termination_by sizeOf l

theorem Keeps.parseOne (py : Py) {cfg : Option String} {c : Option Scalar} (x : Xml) (hs : Settled cfg c [x]) :
    Keeps (Options.parseOne py cfg x) c := by
  obtain ⟨tag, a, t, ch⟩ := x
  unfold Options.parseOne Options.parser
  exact ((Keeps.parseChildren py ch hs.children []).bind fun r => Keeps.finish py r c).bind fun r => Keeps.elementValue py hs _

/-- One setting: what it is parsed to and what it does to the working resolution depend on the configuration path only. -/
theorem parseOne_writes (py : Py) {cfg : Option String} {c : Option Scalar} (x : Xml) (hs : Settled cfg c [x]) :
    ∃ o r, Options.Writes (Options.parseOne py cfg x) c o c r ∧ (Options.anyHasTag "working_R" [x] = false → o = none) := by
  have hk := Keeps.parseOne py x hs
  obtain ⟨tag, a, t, ch⟩ := x
  have : ∃ o c' r, Options.Writes (Options.parseOne py cfg (.node tag a t ch)) c o c' r ∧
      (Options.anyHasTag "working_R" [.node tag a t ch] = false → o = none) := by
    unfold Options.parseOne Options.parser
    obtain ⟨o1, c1, r1, w1, n1, _⟩ := Options.parseChildren_writes py cfg ch [] c
    simp only [Options.anyHasTag, Bool.or_eq_false_iff, decide_eq_false_iff_not]
    cases r1 with
    | error e => exact ⟨_, _, _, w1.bind_error.bind_error, fun h => n1 h.1.2⟩
    | ok sub0 =>
      obtain ⟨r2, w2⟩ := Options.finish_writes py sub0 c1
      have w12 := w1.bind_ok w2
      cases r2 with
      | error e => exact ⟨_, _, _, w12.bind_error, fun h => by simp [n1 h.1.2]⟩
      | ok sub =>
        obtain ⟨o3, c3, r3, w3, n3, _⟩ := Options.elementValue_writes py cfg tag t (Options.addAttribs sub a) c1
        exact ⟨_, _, _, w12.bind_ok w3, fun h => by simp [n1 h.1.2, n3 h.1.1]⟩
  obtain ⟨o, c', r, hw, hn⟩ := this
  have e : c' = c := by
    have := hk (.int 0)
    rw [hw] at this
    exact this
  subst e
  exact ⟨o, r, hw, hn⟩

theorem bind_ok_iff {β γ : Type} {m : P β} {f : β → P γ} {s s' : St} {y : γ} :
    P.bind m f s = (s', .ok y) ↔ ∃ s1 x, m s = (s1, .ok x) ∧ f x s1 = (s', .ok y) := by
  unfold P.bind
  rcases m s with ⟨s1, r⟩
  cases r with
  | error e => simp
  | ok x => simp

theorem parseOne_ok_iff {py : Py} {cfg : Option String} {tag : String} {a : List (String × String)} {t : Option String}
    {ch : List Xml} {s s' : St} {p : Scalar × Dict String Opt} :
    Options.parseOne py cfg (.node tag a t ch) s = (s', .ok p) ↔
      ∃ s1 r s2 r2, Options.parseChildren py cfg ch [] s = (s1, .ok r) ∧ Options.finish py r s1 = (s2, .ok r2) ∧
        Options.elementValue py cfg tag t (Options.addAttribs r2 a) s2 = (s', .ok p) := by
  unfold Options.parseOne Options.parser
  rw [bind_ok_iff]
  constructor
  · rintro ⟨s2, r2, h, h'⟩
    obtain ⟨s1, r, h1, h2⟩ := bind_ok_iff.mp h
    exact ⟨s1, r, s2, r2, h1, h2, h'⟩
  · rintro ⟨s1, r, s2, r2, h1, h2, h'⟩
    exact ⟨s2, r2, bind_ok_iff.mpr ⟨s1, r, h1, h2⟩, h'⟩

theorem parseChildren_ok_iff {py : Py} {cfg : Option String} {x : Xml} {l : List Xml} {root : Dict String Opt} {s s' : St}
    {r : Dict String Opt} :
    Options.parseChildren py cfg (x :: l) root s = (s', .ok r) ↔
      ∃ s1 p root', Options.parseOne py cfg x s = (s1, .ok p) ∧ Options.addEntry root x.tag p.1 p.2 = .ok root' ∧
        Options.parseChildren py cfg l root' s1 = (s', .ok r) := by
  obtain ⟨tag, a, t, ch⟩ := x
  rw [Options.parseChildren, bind_ok_iff]
  constructor
  · rintro ⟨s2, r2, h, h'⟩
    obtain ⟨s1, r1, h1, h2⟩ := bind_ok_iff.mp h
    obtain ⟨s3, p, h3, h4⟩ := bind_ok_iff.mp h'
    obtain ⟨s4, root', h5, h6⟩ := bind_ok_iff.mp h4
    unfold P.ofExcept at h5
    injection h5 with e1 e2
    subst e1
    exact ⟨s3, p, root', parseOne_ok_iff.mpr ⟨s1, r1, s2, r2, h1, h2, h3⟩, e2, h6⟩
  · rintro ⟨s3, p, root', h, h4, h5⟩
    obtain ⟨s1, r1, s2, r2, h1, h2, h3⟩ := parseOne_ok_iff.mp h
    refine ⟨s2, r2, bind_ok_iff.mpr ⟨s1, r1, h1, h2⟩, bind_ok_iff.mpr ⟨s3, p, h3, bind_ok_iff.mpr ⟨s3, root', ?_, h5⟩⟩⟩
    show (s3, Options.addEntry root tag p.1 p.2) = _
    rw [show Options.addEntry root tag p.1 p.2 = .ok root' from h4]

/-! ## Equivalent dictionaries while parsing -/

/-- Equivalent under the keys `K` and, at this level, under the keys `R`. -/
def Agree (K : List String) (R : String → Prop) (d d' : Dict String Opt) : Prop :=
  ∀ k, k ∈ K ∨ R k → (Dict.get? d k = none ∧ Dict.get? d' k = none) ∨
    ∃ o o', Dict.get? d k = some o ∧ Dict.get? d' k = some o' ∧ Eqv K o o'

theorem Agree.weaken {R R' : String → Prop} {d d' : Dict String Opt} (h : Agree K R d d') (hr : ∀ k, R' k → R k) : Agree K R' d d' :=
  fun k hk => h k (hk.imp_right (hr k))

theorem Agree.refl (R : String → Prop) (d : Dict String Opt) : Agree K R d d := by
  intro k _
  cases e : Dict.get? d k with
  | none => exact .inl ⟨rfl, rfl⟩
  | some o => exact .inr ⟨o, o, rfl, rfl, Eqv.refl o⟩

theorem Agree.trans {R : String → Prop} {d d' d'' : Dict String Opt} (h : Agree K R d d') (h' : Agree K R d' d'') : Agree K R d d'' := by
  intro k hk
  rcases h k hk with ⟨e, e'⟩ | ⟨o, o', e, e', ho⟩
  · rcases h' k hk with ⟨f, f'⟩ | ⟨q, q', f, f', hq⟩
    · exact .inl ⟨e, f'⟩
    · rw [e'] at f; cases f
  · rcases h' k hk with ⟨f, f'⟩ | ⟨q, q', f, f', hq⟩
    · rw [e'] at f; cases f
    · rw [e'] at f; cases f
      exact .inr ⟨o, q', e, f', ho.trans hq⟩

theorem Agree.eqv {R : String → Prop} {d d' : Dict String Opt} (h : Agree K R d d') : Eqv K (.dict d) (.dict d') := by
  refine .dict d d' ?_ ?_
  · intro k hk
    rcases h k (.inl hk) with ⟨e, e'⟩ | ⟨o, o', e, e', _⟩ <;> simp [e, e']
  · intro k hk o o' e e'
    rcases h k (.inl hk) with ⟨f, f'⟩ | ⟨q, q', f, f', hq⟩
    · rw [e] at f; cases f
    · rw [e] at f; rw [e'] at f'; cases f; cases f'; exact hq

theorem Eqv.agree {d d' : Dict String Opt} (h : Eqv K (.dict d) (.dict d')) : Agree K (fun _ => False) d d' := by
  intro k hk
  exact h.get? (hk.resolve_right id)

theorem Agree.set {R : String → Prop} {d d' : Dict String Opt} (h : Agree K R d d') (k : String) {o o' : Opt} (ho : Eqv K o o') :
    Agree K R (d.set k o) (d'.set k o') := by
  intro k' hk
  rw [Dict.get?_set, Dict.get?_set]
  by_cases e : k' = k
  · rw [if_pos e, if_pos e]
    exact .inr ⟨o, o', rfl, rfl, ho⟩
  · rw [if_neg e, if_neg e]
    exact h k' hk

theorem Eqv.odict_set {d d' : List (Key × Opt)} (h : Eqv K (.odict d) (.odict d')) (k : Key) {o o' : Opt} (ho : Eqv K o o') :
    Eqv K (.odict (Dict.set d k o)) (.odict (Dict.set d' k o')) := by
  refine Eqv.rec_odict (M := fun d d' => Eqv K (.odict (Dict.set d k o)) (.odict (Dict.set d' k o'))) ?_ ?_ h
  · exact Eqv.cons rfl ho (Eqv.refl _)
  · rintro ⟨a, b⟩ ⟨a', b'⟩ d d' h0 h1 h2 ih
    simp only at h0 h1
    subst h0
    unfold Dict.set
    by_cases e : a = k
    · rw [if_pos e, if_pos e]
      exact Eqv.cons rfl ho h2
    · rw [if_neg e, if_neg e]
      exact Eqv.cons rfl h1 ih

/-- What an entry becomes: only the entry of the same name counts. -/
theorem addEntry_set {root r : Dict String Opt} {tag : String} {v : Scalar} {d : Dict String Opt}
    (h : Options.addEntry root tag v d = .ok r) :
    ∃ E, r = root.set tag E ∧ ∀ root', Dict.get? root' tag = Dict.get? root tag → Options.addEntry root' tag v d = .ok (root'.set tag E) := by
  unfold Options.addEntry at h
  cases e : Dict.get? root tag with
  | none =>
    rw [e] at h
    cases h
    exact ⟨_, rfl, fun root' h' => by unfold Options.addEntry; rw [h']⟩
  | some o =>
    rw [e] at h
    cases o with
    | scalar s => cases h
    | table id => cases h
    | odict q => cases h; exact ⟨_, rfl, fun root' h' => by unfold Options.addEntry; rw [h']⟩
    | dict q =>
      dsimp only at h
      cases e' : Dict.get? q "value" with
      | none => rw [e'] at h; cases h
      | some u =>
        rw [e'] at h
        cases u with
        | scalar u =>
          cases h
          exact ⟨_, rfl, fun root' h' => by unfold Options.addEntry; rw [h']; dsimp only; rw [e']⟩
        | table id => cases h
        | dict q => cases h
        | odict q => cases h

theorem addEntry_agree {R : String → Prop} {root root' r : Dict String Opt} {tag : String} {v : Scalar} {d d' : Dict String Opt}
    (hv : "value" ∈ K) (ha : Agree K R root root') (ht : tag ∈ K ∨ R tag) (hd : Eqv K (.dict d) (.dict d'))
    (h : Options.addEntry root tag v d = .ok r) : ∃ r', Options.addEntry root' tag v d' = .ok r' ∧ Agree K R r r' := by
  unfold Options.addEntry at h ⊢
  rcases ha tag ht with ⟨e, e'⟩ | ⟨o, o', e, e', ho⟩
  · rw [e] at h
    rw [e']
    cases h
    exact ⟨_, rfl, ha.set tag hd⟩
  · rw [e] at h
    rw [e']
    cases ho with
    | scalar s => cases h
    | table id => cases h
    | odict q q' hl h1 h2 =>
      cases h
      exact ⟨_, rfl, ha.set tag ((Eqv.odict q q' hl h1 h2).odict_set _ hd)⟩
    | dict q q' hn h1 =>
      have hq := Eqv.dict q q' hn h1
      dsimp only at h ⊢
      rcases hq.get? hv with ⟨f, f'⟩ | ⟨u, u', f, f', hu⟩
      · rw [f] at h
        cases h
      · rw [f] at h
        rw [f']
        cases hu with
        | scalar u =>
          cases h
          exact ⟨_, rfl, ha.set tag ((Eqv.cons (p := (u.key, .dict q)) (p' := (u.key, .dict q')) rfl hq (Eqv.refl (.odict []))).odict_set _ hd)⟩
        | table id => cases h
        | dict _ _ _ _ => cases h
        | odict _ _ _ _ _ => cases h

theorem parse_agree (py : Py) (cfg : Option String) (hv : "value" ∈ K) (l : List Xml) :
    ∀ (root root' : Dict String Opt) (s s1 : St) (r : Dict String Opt), Agree K (fun k => ∃ x ∈ l, x.tag = k) root root' →
      Options.parseChildren py cfg l root s = (s1, .ok r) →
      ∃ r', Options.parseChildren py cfg l root' s = (s1, .ok r') ∧ Agree K (fun _ => False) r r' := by
  induction l with
  | nil =>
    intro root root' s s1 r ha h
    rw [Options.parseChildren] at h ⊢
    cases h
    exact ⟨root', rfl, ha.weaken (fun _ h => h.elim)⟩
  | cons x l ih =>
    intro root root' s s1 r ha h
    obtain ⟨s2, p, root2, h1, h2, h3⟩ := parseChildren_ok_iff.mp h
    obtain ⟨root2', h2', ha2⟩ := addEntry_agree hv ha (.inr ⟨x, List.mem_cons_self, rfl⟩) (Eqv.refl _) h2
    obtain ⟨r', h3', ha3⟩ := ih root2 root2' s2 s1 r (ha2.weaken (fun k ⟨y, hy, e⟩ => ⟨y, List.mem_cons_of_mem _ hy, e⟩)) h3
    exact ⟨r', parseChildren_ok_iff.mpr ⟨s2, p, root2', h1, h2', h3'⟩, ha3⟩

/-! ## One setting with other children -/

theorem fileValue_eqv (wrong : Exc) (hv : "value" ∈ K) {o o' : Opt} (h : Eqv K o o') : Options.fileValue wrong o = Options.fileValue wrong o' := by
  cases h with
  | scalar s => rfl
  | table id => rfl
  | odict d d' h1 h2 h3 =>
    unfold Options.fileValue
    dsimp only
    rcases (Eqv.odict d d' h1 h2 h3).odict_get? (.str "value") with ⟨e, e'⟩ | ⟨x, x', e, e', _⟩ <;> rw [e, e']
  | dict d d' hn h =>
    unfold Options.fileValue
    dsimp only
    rcases (Eqv.dict d d' hn h).get? hv with ⟨e, e'⟩ | ⟨x, x', e, e', hx⟩
    · rw [e, e']
    · rw [e, e']
      cases hx <;> rfl

theorem isEcsv_eqv (hv : "value" ∈ K) (ht : "datatype" ∈ K) {d d' : Dict String Opt} (h : Eqv K (.dict d) (.dict d')) : Options.isEcsv d = Options.isEcsv d' := by
  unfold Options.isEcsv
  rcases h.get? ht with ⟨e, e'⟩ | ⟨x, x', e, e', hx⟩
  · rw [e, e']
  · rw [e, e']
    cases hx with
    | scalar s => rfl
    | table id => rfl
    | odict c c' h1 h2 h3 =>
      dsimp only
      rcases (Eqv.odict c c' h1 h2 h3).odict_get? (.str "value") with ⟨e, e'⟩ | ⟨x, x', e, e', _⟩ <;> rw [e, e']
    | dict c c' hn h =>
      dsimp only
      rcases (Eqv.dict c c' hn h).get? hv with ⟨e, e'⟩ | ⟨x, x', e, e', hx⟩
      · rw [e, e']
      · rw [e, e']
        cases hx <;> rfl

theorem loadDatafile_eqv (py : Py) (hv : "value" ∈ K) (ht : "datatype" ∈ K) (hk : "datafile" ∈ K) {d d' : Dict String Opt} (h : Eqv K (.dict d) (.dict d'))
    {s s1 : St} {r : Dict String Opt} (e : Options.loadDatafile py d s = (s1, .ok r)) :
    ∃ r', Options.loadDatafile py d' s = (s1, .ok r') ∧ Eqv K (.dict r) (.dict r') := by
  unfold Options.loadDatafile at e ⊢
  rcases h.get? hk with ⟨f, f'⟩ | ⟨x, x', f, f', hx⟩
  · rw [f] at e
    rw [f']
    cases e
    exact ⟨d', rfl, h⟩
  · rw [f] at e
    rw [f']
    dsimp only at e ⊢
    rw [← fileValue_eqv _ hv hx]
    cases h1 : Options.fileValue _ x with
    | error z => rw [h1] at e; cases e
    | ok z =>
      rw [h1] at e
      dsimp only at e ⊢
      generalize (if substr Options.placeholder z then Options.replaceConfig z s.configPath else Except.ok z) = q at e ⊢
      cases q with
      | error z => cases e
      | ok z =>
        dsimp only at e ⊢
        rw [← isEcsv_eqv hv ht h]
        cases h2 : Options.readTable py (Options.isEcsv d) z with
        | error z => rw [h2] at e; cases e
        | ok t =>
          rw [h2] at e
          cases e
          exact ⟨_, rfl, (h.agree.set "data" (Eqv.refl t)).eqv⟩

theorem loadDatadict_eqv (py : Py) (hv : "value" ∈ K) (hk : "datadict" ∈ K) {d d' : Dict String Opt} (h : Eqv K (.dict d) (.dict d'))
    {s s1 : St} {r : Dict String Opt} (e : Options.loadDatadict py d s = (s1, .ok r)) :
    ∃ r', Options.loadDatadict py d' s = (s1, .ok r') ∧ Eqv K (.dict r) (.dict r') := by
  unfold Options.loadDatadict at e ⊢
  rcases h.get? hk with ⟨f, f'⟩ | ⟨x, x', f, f', hx⟩
  · rw [f] at e
    rw [f']
    cases e
    exact ⟨d', rfl, h⟩
  · rw [f] at e
    rw [f']
    dsimp only at e ⊢
    rw [← fileValue_eqv _ hv hx]
    cases h1 : Options.fileValue _ x with
    | error z => rw [h1] at e; cases e
    | ok z =>
      rw [h1] at e
      dsimp only at e ⊢
      generalize Options.replaceConfig z s.configPath = q at e ⊢
      cases q with
      | error z => cases e
      | ok z =>
        dsimp only at e ⊢
        cases h2 : Options.readDict py z with
        | error z => rw [h2] at e; cases e
        | ok t =>
          rw [h2] at e
          cases e
          exact ⟨_, rfl, (h.agree.set "data" (Eqv.refl _)).eqv⟩

theorem loadConfigDict_eqv (py : Py) (hv : "value" ∈ K) (hk : "config_dict" ∈ K) {d d' : Dict String Opt} (h : Eqv K (.dict d) (.dict d'))
    {s s1 : St} {r : Dict String Opt} (e : Options.loadConfigDict py d s = (s1, .ok r)) :
    ∃ r', Options.loadConfigDict py d' s = (s1, .ok r') ∧ Eqv K (.dict r) (.dict r') := by
  unfold Options.loadConfigDict at e ⊢
  rcases h.get? hk with ⟨f, f'⟩ | ⟨x, x', f, f', hx⟩
  · rw [f] at e
    rw [f']
    cases e
    exact ⟨d', rfl, h⟩
  · rw [f] at e
    rw [f']
    dsimp only at e ⊢
    rw [← fileValue_eqv _ hv hx]
    exact ⟨r, e, Eqv.refl _⟩

theorem finish_eqv (py : Py) (hv : "value" ∈ K) (h0 : "datatype" ∈ K) (h1 : "datafile" ∈ K) (h2 : "datadict" ∈ K) (h3 : "config_dict" ∈ K)
    {d d' : Dict String Opt} (h : Eqv K (.dict d) (.dict d')) {s s1 : St} {r : Dict String Opt}
    (e : Options.finish py d s = (s1, .ok r)) : ∃ r', Options.finish py d' s = (s1, .ok r') ∧ Eqv K (.dict r) (.dict r') := by
  unfold Options.finish at e ⊢
  obtain ⟨s2, x, e1, e⟩ := bind_ok_iff.mp e
  obtain ⟨s3, y, e2, e3⟩ := bind_ok_iff.mp e
  obtain ⟨x', e1', hx⟩ := loadDatafile_eqv py hv h0 h1 h e1
  obtain ⟨y', e2', hy⟩ := loadDatadict_eqv py hv h2 hx e2
  obtain ⟨z', e3', hz⟩ := loadConfigDict_eqv py hv h3 hy e3
  exact ⟨z', bind_ok_iff.mpr ⟨s2, x', e1', bind_ok_iff.mpr ⟨s3, y', e2', e3'⟩⟩, hz⟩

theorem get?_addAttribs_not (a : List (String × String)) (k : String) (h : k ∉ a.map Prod.fst) :
    ∀ d : Dict String Opt, Dict.get? (Options.addAttribs d a) k = Dict.get? d k := by
  induction a with
  | nil => intro d; rfl
  | cons p a ih =>
    intro d
    simp only [List.map_cons, List.mem_cons, not_or] at h
    have e : ∀ d, Options.addAttribs d (p :: a) = Options.addAttribs (d.set p.1 (.scalar (.str p.2))) a := fun _ => rfl
    rw [e, ih h.2, Dict.get?_set_ne _ _ h.1]

theorem get?_addAttribs_mem (a : List (String × String)) (hn : (a.map Prod.fst).Nodup) (k v : String) (h : (k, v) ∈ a) :
    ∀ d : Dict String Opt, Dict.get? (Options.addAttribs d a) k = some (.scalar (.str v)) := by
  induction a with
  | nil => cases h
  | cons p a ih =>
    intro d
    simp only [List.map_cons, List.nodup_cons] at hn
    have e : ∀ d, Options.addAttribs d (p :: a) = Options.addAttribs (d.set p.1 (.scalar (.str p.2))) a := fun _ => rfl
    rw [e]
    rcases List.mem_cons.mp h with rfl | h
    · rw [get?_addAttribs_not a _ hn.1, Dict.get?_set, if_pos rfl]
    · exact ih hn.2 h _

theorem addAttribs_same (a : List (String × String)) : ∀ {d d' : Dict String Opt}, Eqv K (.dict d) (.dict d') →
    Eqv K (.dict (Options.addAttribs d a)) (.dict (Options.addAttribs d' a)) := by
  induction a with
  | nil => intro d d' h; exact h
  | cons p a ih =>
    intro d d' h
    exact ih (h.agree.set p.1 (Eqv.refl _)).eqv

theorem addAttribs_eqv {a a' : List (String × String)} (ha : SameAttribs K a a') {d d' : Dict String Opt}
    (h : Eqv K (.dict d) (.dict d')) : Eqv K (.dict (Options.addAttribs d a)) (.dict (Options.addAttribs d' a')) := by
  rcases ha with rfl | ⟨hn, hn', hs⟩
  · exact addAttribs_same a h
  · refine Agree.eqv (R := fun _ => False) ?_
    intro k hk
    have hk := hk.resolve_right id
    by_cases hm : k ∈ a.map Prod.fst
    · obtain ⟨⟨n, v⟩, hp, e⟩ := List.mem_map.mp hm
      simp only at e
      subst e
      exact .inr ⟨_, _, get?_addAttribs_mem a hn n v hp d, get?_addAttribs_mem a' hn' n v ((hs n hk v).mp hp) d', Eqv.refl _⟩
    · have hm' : k ∉ a'.map Prod.fst := by
        intro hm'
        obtain ⟨⟨n, v⟩, hp, e⟩ := List.mem_map.mp hm'
        simp only at e
        subst e
        exact hm (List.mem_map.mpr ⟨(n, v), (hs n hk v).mpr hp, rfl⟩)
      rw [get?_addAttribs_not a k hm, get?_addAttribs_not a' k hm']
      exact h.get? hk

theorem elementValue_eqv (py : Py) (cfg : Option String) (tag : String) (t : Option String) (hu : "unit" ∈ K) {d d' : Dict String Opt}
    (h : Eqv K (.dict d) (.dict d')) {s s1 : St} {p : Scalar × Dict String Opt}
    (e : Options.elementValue py cfg tag t d s = (s1, .ok p)) :
    ∃ q, Options.elementValue py cfg tag t d' s = (s1, .ok (p.1, q)) ∧ Eqv K (.dict p.2) (.dict q) := by
  have hw : ∀ v, Options.withUnit py d v = Options.withUnit py d' v := by
    intro v
    unfold Options.withUnit Options.unitName
    rcases h.get? hu with ⟨f, f'⟩ | ⟨x, x', f, f', hx⟩
    · rw [f, f']
    · rw [f, f']
      cases hx <;> rfl
  unfold Options.elementValue at e ⊢
  cases t with
  | none => cases e
  | some t =>
    dsimp only at e ⊢
    by_cases hc : Options.compactString t = ""
    · rw [if_pos hc] at e ⊢
      cases e
      exact ⟨d', rfl, h⟩
    · rw [if_neg hc] at e ⊢
      rw [← hw]
      obtain ⟨s2, x, e1, e⟩ := bind_ok_iff.mp e
      obtain ⟨s3, y, e2, e⟩ := bind_ok_iff.mp e
      obtain ⟨s4, z, e3, e4⟩ := bind_ok_iff.mp e
      cases e4
      exact ⟨_, bind_ok_iff.mpr ⟨s2, x, e1, bind_ok_iff.mpr ⟨s3, y, e2, bind_ok_iff.mpr ⟨_, z, e3, rfl⟩⟩⟩,
        (h.agree.set "value" (Eqv.refl _)).eqv⟩

/-- The keys of the parser itself. -/
def parserKeys : List String := ["value", "unit", "datatype", "datafile", "datadict", "config_dict"]

/-- Tidied settings are parsed to an equivalent payload, and have the same effects. -/
theorem tidied_parse (py : Py) (cfg : Option String) (hK : ∀ k ∈ parserKeys, k ∈ K) {l l' : List Xml} (h : Tidied K l l') :
    ∀ (root root' : Dict String Opt) (s s1 : St) (r : Dict String Opt), Settled cfg s.configPath l →
      Agree K (fun k => ∃ x ∈ l, x.tag = k) root root' → Options.parseChildren py cfg l root s = (s1, .ok r) →
      ∃ r', Options.parseChildren py cfg l' root' s = (s1, .ok r') ∧ Agree K (fun _ => False) r r' := by
  have hv : "value" ∈ K := hK _ (by simp [parserKeys])
  induction h with
  | nil => intro root root' s s1 r _ ha h; exact parse_agree py cfg hv [] root root' s s1 r ha h
  | @cons tag text a a' c c' l l' ha hc h ihc ih =>
    intro root root' s s1 r hs hag hp
    obtain ⟨s2, p, root2, h1, h2, h3⟩ := parseChildren_ok_iff.mp hp
    obtain ⟨s3, r3, s4, r4, h4, h5, h6⟩ := parseOne_ok_iff.mp h1
    obtain ⟨r3', h4', ha3⟩ := ihc [] [] s s3 r3 hs.head.children (Agree.refl _ _) h4
    obtain ⟨r4', h5', he4⟩ := finish_eqv py hv (hK _ (by simp [parserKeys])) (hK _ (by simp [parserKeys])) (hK _ (by simp [parserKeys])) (hK _ (by simp [parserKeys]))
      ha3.eqv h5
    obtain ⟨q, h6', he6⟩ := elementValue_eqv py cfg tag text (hK _ (by simp [parserKeys])) (addAttribs_eqv ha he4) h6
    obtain ⟨root2', h2', ha2⟩ := addEntry_agree hv hag (.inr ⟨_, List.mem_cons_self, rfl⟩) he6 h2
    have hc2 : s2.configPath = s.configPath := by
      have := Keeps.parseOne py (.node tag a text c) hs.head s.workingR
      rw [h1] at this
      exact this
    obtain ⟨r', h3', ha3⟩ := ih root2 root2' s2 s1 r (hc2 ▸ hs.tail)
      (ha2.weaken (fun k ⟨y, hy, e⟩ => ⟨y, List.mem_cons_of_mem _ hy, e⟩)) h3
    exact ⟨r', parseChildren_ok_iff.mpr ⟨s2, (p.1, q), root2', parseOne_ok_iff.mpr ⟨s3, r3', s4, r4', h4', h5', h6'⟩, h2', h3'⟩, ha3⟩
  | swap x y l ht hw =>
    intro root root' s s1 r hs hag hp
    obtain ⟨s2, p, root2, h1, h2, h3⟩ := parseChildren_ok_iff.mp hp
    obtain ⟨s3, q, root3, h4, h5, h6⟩ := parseChildren_ok_iff.mp h3
    obtain ⟨c, w⟩ := s
    obtain ⟨o1, r1, w1, n1⟩ := parseOne_writes py x hs.head
    obtain ⟨o2, r2, w2, n2⟩ := parseOne_writes py y hs.tail.head
    rw [w1] at h1
    injection h1 with e1 e2
    subst e1
    subst e2
    rw [w2] at h4
    injection h4 with e1 e2
    subst e1
    subst e2
    have e : o2.getD (o1.getD w) = o1.getD (o2.getD w) := by
      rcases hw with hw | hw
      · rw [n1 hw]; rfl
      · rw [n2 hw]; rfl
    obtain ⟨root2', h2', ha2⟩ := addEntry_agree hv hag (.inr ⟨x, by simp, rfl⟩) (Eqv.refl _) h2
    obtain ⟨root3', h5', ha3⟩ := addEntry_agree hv ha2 (.inr ⟨y, by simp, rfl⟩) (Eqv.refl _) h5
    obtain ⟨E1, rfl, g1⟩ := addEntry_set h2'
    obtain ⟨E2, rfl, g2⟩ := addEntry_set h5'
    have f2 := g2 root' (Dict.get?_set_ne root' E1 (Ne.symm ht)).symm
    have f1 := g1 (root'.set y.tag E2) (Dict.get?_set_ne root' E2 ht)
    have hfin : Agree K (fun k => ∃ z ∈ l, z.tag = k) root3 ((root'.set y.tag E2).set x.tag E1) := by
      intro k hk
      have := ha3 k (hk.imp_right (fun ⟨z, hz, e⟩ => ⟨z, by simp [hz], e⟩))
      have e : Dict.get? ((root'.set y.tag E2).set x.tag E1) k = Dict.get? ((root'.set x.tag E1).set y.tag E2) k := by
        rw [Dict.get?_set, Dict.get?_set, Dict.get?_set, Dict.get?_set]
        by_cases e1 : k = x.tag
        · rw [if_pos e1, if_pos e1, if_neg (by rw [e1]; exact ht)]
        · rw [if_neg e1, if_neg e1]
      rw [e]
      exact this
    obtain ⟨r', h6', ha6⟩ := parse_agree py cfg hv l _ _ _ _ _ hfin h6
    refine ⟨r', parseChildren_ok_iff.mpr ⟨⟨c, o2.getD w⟩, q, _, w2 w, f2, parseChildren_ok_iff.mpr
      ⟨⟨c, o1.getD (o2.getD w)⟩, p, _, w1 _, f1, e ▸ h6'⟩⟩, ha6⟩
  | drop x l hk ho hw =>
    intro root root' s s1 r hs hag hp
    obtain ⟨s2, p, root2, h1, h2, h3⟩ := parseChildren_ok_iff.mp hp
    obtain ⟨c, w⟩ := s
    obtain ⟨o1, r1, w1, n1⟩ := parseOne_writes py x hs.head
    rw [w1, n1 hw] at h1
    injection h1 with e1 e2
    subst e1
    obtain ⟨E1, rfl, _⟩ := addEntry_set h2
    refine parse_agree py cfg hv l _ _ _ _ _ ?_ h3
    intro k hk'
    have hne : k ≠ x.tag := by
      rintro rfl
      rcases hk' with hk' | ⟨y, hy, e⟩
      · exact hk hk'
      · exact ho y hy e
    rw [Dict.get?_set_ne _ _ hne]
    exact hag k (hk'.imp_right (fun ⟨z, hz, e⟩ => ⟨z, by simp [hz], e⟩))
  | trans h h' ih1 ih2 =>
    intro root root' s s1 r hs hag hp
    obtain ⟨r1, hp1, ha1⟩ := ih1 root root s s1 r hs (Agree.refl _ _) hp
    obtain ⟨r2, hp2, ha2⟩ := ih2 root root' s s1 r1 (h.settled hs) (hag.weaken (fun k hk => h.tags k hk)) hp1
    exact ⟨r2, hp2, ha1.trans ha2⟩

theorem parseChildren_append (py : Py) (cfg : Option String) (pre l : List Xml) :
    ∀ (root : Dict String Opt), Options.parseChildren py cfg (pre ++ l) root =
      P.bind (Options.parseChildren py cfg pre root) fun r => Options.parseChildren py cfg l r := by
  induction pre with
  | nil =>
    intro root
    rw [Options.parseChildren]
    rfl
  | cons x pre ih =>
    intro root
    obtain ⟨tag, a, t, ch⟩ := x
    rw [List.cons_append, Options.parseChildren, Options.parseChildren]
    funext s
    unfold P.bind
    rcases Options.parseChildren py cfg ch [] s with ⟨s1, r1⟩
    cases r1 with
    | error e => rfl
    | ok r1 =>
      dsimp only
      rcases Options.finish py r1 s1 with ⟨s2, r2⟩
      cases r2 with
      | error e => rfl
      | ok r2 =>
        dsimp only
        rcases Options.elementValue py cfg tag t (Options.addAttribs r2 a) s2 with ⟨s3, r3⟩
        cases r3 with
        | error e => rfl
        | ok p =>
          dsimp only
          unfold P.ofExcept
          cases Options.addEntry root tag p.1 p.2 with
          | error e => rfl
          | ok root' =>
            dsimp only
            rw [ih root']
            rfl

/-- C101, the parser: a document whose first settings are `pre` and whose other settings `l` are tidied is parsed with the same effects, to
a payload that has the same known settings. -/
theorem tidied_parser (py : Py) (cfg : Option String) (tag : String) (a : List (String × String)) (t : Option String)
    (pre : List Xml) {l l' : List Xml} (h : Tidied known l l') (s s' : St) (p : Dict String Opt)
    (hs : Settled cfg (Options.parseChildren py cfg pre [] s).1.configPath l)
    (hp : Options.parser py cfg (.node tag a t (pre ++ l)) s = (s', .ok p)) :
    ∃ p', Options.parser py cfg (.node tag a t (pre ++ l')) s = (s', .ok p') ∧ Eqv known (.dict p) (.dict p') := by
  rw [Options.parser] at hp ⊢
  rw [parseChildren_append] at hp ⊢
  obtain ⟨s2, r2, h1, h2⟩ := bind_ok_iff.mp hp
  obtain ⟨s1, r1, h3, h4⟩ := bind_ok_iff.mp h1
  rw [h3] at hs
  obtain ⟨r2', h4', ha⟩ := tidied_parse py cfg (by decide) h r1 r1 s1 s2 r2 hs (Agree.refl _ _) h4
  obtain ⟨p', h2', he⟩ := finish_eqv py (by decide) (by decide) (by decide) (by decide) (by decide) ha.eqv h2
  exact ⟨p', bind_ok_iff.mpr ⟨s2, r2', bind_ok_iff.mpr ⟨s1, r1, h3, h4'⟩, h2'⟩, he⟩

/-- The configuration path after the first settings: not given to the loader, or given and some setting with a text was read. -/
def Ready (cfg : Option String) (pre l : List Xml) : Prop :=
  ((cfg = none ∨ cfg = some "") ∧ Options.anyHasTag "ConfigPath" l = false) ∨
    ∃ p tag a t c rest, p ≠ "" ∧ cfg = some p ∧ pre = .node tag a (some t) c :: rest ∧ Options.compactString t ≠ ""

theorem elementValue_path (py : Py) (p : String) (hp : p ≠ "") (tag t : String) (ht : Options.compactString t ≠ "")
    (d : Dict String Opt) (s s' : St) (q : Scalar × Dict String Opt)
    (h : Options.elementValue py (some p) tag (some t) d s = (s', .ok q)) : s'.configPath = some (.str p) := by
  unfold Options.elementValue at h
  dsimp only at h
  rw [if_neg ht] at h
  obtain ⟨s1, x, _, h⟩ := bind_ok_iff.mp h
  obtain ⟨s2, y, _, h⟩ := bind_ok_iff.mp h
  obtain ⟨s3, z, h3, h⟩ := bind_ok_iff.mp h
  cases h
  unfold Options.effects at h3
  injection h3 with h3 _
  subst h3
  by_cases h2 : tag = "working_R" <;> simp [hp, h2]

theorem Ready.settled {py : Py} {cfg : Option String} {pre l : List Xml} (h : Ready cfg pre l) (s s1 : St) (r : Dict String Opt)
    (hp : Options.parseChildren py cfg pre [] s = (s1, .ok r)) : Settled cfg s1.configPath l := by
  rcases h with h | ⟨p, tag, a, t, c, rest, h0, rfl, rfl, ht⟩
  · exact .inl h
  · obtain ⟨s2, q, root, h1, h2, h3⟩ := parseChildren_ok_iff.mp hp
    obtain ⟨s3, r3, s4, r4, h4, h5, h6⟩ := parseOne_ok_iff.mp h1
    have e := elementValue_path py p h0 tag t ht _ _ _ _ h6
    obtain ⟨c2, w2⟩ := s2
    simp only at e
    subst e
    have := Keeps.parseChildren py rest (cfg := some p) (c := some (.str p)) (.inr ⟨p, h0, rfl, rfl⟩) root w2
    rw [h3] at this
    exact .inr ⟨p, h0, rfl, this⟩

/-- C101. A payload file that can be parsed describes the same instrument, on the same grids, when its settings are tidied: at every level
in another order, without unknown settings and unknown attributes. -/
theorem tidied_file_partial (F : Files) (py : Py) (cfg : Option String) (tag : String) (a : List (String × String)) (t : Option String)
    (pre : List Xml) {l l' : List Xml} (h : Tidied known l l') (s : St) (p : Dict String Opt) (hr : Ready cfg pre l)
    (hp : (Options.parser py cfg (.node tag a t (pre ++ l)) s).2 = .ok p) :
    readFile F py cfg (.node tag a t (pre ++ l')) s = readFile F py cfg (.node tag a t (pre ++ l)) s := by
  rcases e : Options.parser py cfg (.node tag a t (pre ++ l)) s with ⟨s', r⟩
  rw [e] at hp
  simp only at hp
  subst hp
  have hs : Settled cfg (Options.parseChildren py cfg pre [] s).1.configPath l := by
    have e' := e
    rw [Options.parser, parseChildren_append] at e'
    obtain ⟨s2, r2, h1, h2⟩ := bind_ok_iff.mp e'
    obtain ⟨s1, r1, h3, h4⟩ := bind_ok_iff.mp h1
    rw [h3]
    exact hr.settled s s1 r1 h3
  obtain ⟨p', e', he⟩ := tidied_parser py cfg tag a t pre h s s' p hs e
  unfold readFile
  rw [e, e']
  dsimp only
  rw [describe_known F _ _ he]

/-- C101. If only the order is changed, nothing else is needed: the files describe the same instrument, or neither can be read. -/
theorem reordered_file_partial (F : Files) (py : Py) (cfg : Option String) (tag : String) (a : List (String × String)) (t : Option String)
    (pre : List Xml) {l l' : List Xml} (h : Tidied known l l') (h' : Tidied known l' l) (s : St) (hr : Ready cfg pre l) :
    readFile F py cfg (.node tag a t (pre ++ l')) s = readFile F py cfg (.node tag a t (pre ++ l)) s := by
  have hr' : Ready cfg pre l' := by
    rcases hr with ⟨h0, h1⟩ | h0
    · exact .inl ⟨h0, h.anyHasTag _ h1⟩
    · exact .inr h0
  cases e : (Options.parser py cfg (.node tag a t (pre ++ l)) s).2 with
  | ok p => exact tidied_file_partial F py cfg tag a t pre h s p hr e
  | error x =>
    cases e' : (Options.parser py cfg (.node tag a t (pre ++ l')) s).2 with
    | ok p => exact (tidied_file_partial F py cfg tag a t pre h' s p hr' e').symm
    | error y =>
      unfold readFile
      rcases f : Options.parser py cfg (.node tag a t (pre ++ l)) s with ⟨s1, r1⟩
      rcases f' : Options.parser py cfg (.node tag a t (pre ++ l')) s with ⟨s2, r2⟩
      rw [f] at e
      rw [f'] at e'
      simp only at e e'
      subst e
      subst e'
      rfl

/-- C101. Also the built channels are the same. -/
theorem tidied_build_partial (fuel : ℕ) (env : Build.Env) (F : Files) (py : Py) (cfg : Option String) (tag : String)
    (a : List (String × String)) (t : Option String)
    (pre : List Xml) {l l' : List Xml} (h : Tidied known l l') (s : St) (p : Dict String Opt) (hr : Ready cfg pre l)
    (hp : (Options.parser py cfg (.node tag a t (pre ++ l)) s).2 = .ok p) :
    buildFile fuel env F py cfg (.node tag a t (pre ++ l')) s = buildFile fuel env F py cfg (.node tag a t (pre ++ l)) s := by
  unfold buildFile
  rw [tidied_file_partial F py cfg tag a t pre h s p hr hp]

theorem tidied_refl (K : List String) (l : List Xml) : Tidied K l l := by
  match l with
  | [] => exact .nil
  | .node tag a t c :: l => exact .cons tag t (.inl rfl) (tidied_refl K c) (tidied_refl K l)
termination_by sizeOf l

/-- C101. A permutation of settings with different names, of which at most one is or contains `working_R`, is tidied. -/
theorem permuted (K : List String) {l l' : List Xml} (h : l.Perm l') (hn : (l.map Xml.tag).Nodup)
    (hw : l.Pairwise (fun x y => Options.anyHasTag "working_R" [x] = false ∨ Options.anyHasTag "working_R" [y] = false)) :
    Tidied K l l' := by
  induction h with
  | nil => exact .nil
  | @cons x l l' h ih =>
    simp only [List.map_cons, List.nodup_cons] at hn
    obtain ⟨tag, a, t, c⟩ := x
    exact .cons tag t (.inl rfl) (tidied_refl K c) (ih hn.2 (List.pairwise_cons.mp hw).2)
  | swap x y l =>
    simp only [List.map_cons, List.nodup_cons, List.mem_cons, not_or] at hn
    exact .swap y x l hn.1.1 ((List.pairwise_cons.mp hw).1 x List.mem_cons_self)
  | trans h1 h2 ih1 ih2 =>
    refine .trans (ih1 hn hw) (ih2 ((h1.map Xml.tag).nodup_iff.mp hn) (h1.pairwise hw ?_))
    intro x y h
    exact h.symm

end ExoRad.Read
