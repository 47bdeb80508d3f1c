import Verif.Props.Read
import Verif.Props.Channels

/-!
# Which entry of a payload every number comes from

`Model/Read` collects what the code reads from a parsed payload. The relations here say of each field of a description under which names it
stands in the payload, in which unit, and what happens if it is missing.
-/

namespace ExoRad.Read
open Options (Opt Key Scalar)

/-- The entry under a list of names. -/
def entryAt : List String → Opt → Option Opt
  | [], o => some o
  | k :: ks, .dict d => (Dict.get? d k).bind (entryAt ks)
  | k :: ks, .odict d => (Dict.get? d (.str k)).bind (entryAt ks)
  | _, _ => none

/-- The payload has this entry, and it is read as `x`. -/
def Has {β : Type} (o : Opt) (path : List String) (f : Opt → Option β) (x : β) : Prop := ∃ v, entryAt path o = some v ∧ f v = some x

/-- The payload may have this entry: without it there is no value, with it its `value` is read. -/
def Given {β : Type} (o : Opt) (path : List String) (f : Opt → Option β) (x : Option β) : Prop :=
  (entryAt path o = none ∧ x = none) ∨ ∃ y, Has o (path ++ ["value"]) f y ∧ x = some y

/-- The payload may have this entry, which is read itself. -/
def GivenRaw {β : Type} (o : Opt) (path : List String) (f : Opt → Option β) (x : Option β) : Prop :=
  (entryAt path o = none ∧ x = none) ∨ ∃ y, Has o path f y ∧ x = some y

/-- The payload may have this entry: with it, its `data` are read. -/
def GivenData {β : Type} (o : Opt) (path : List String) (f : Opt → Option β) (x : Option β) : Prop :=
  (entryAt path o = none ∧ x = none) ∨ ∃ y, Has o (path ++ ["data"]) f y ∧ x = some y

/-- A number without a unit. -/
inductive Bare : Opt → ℝ → Prop where
  | int (n : ℤ) : Bare (.scalar (.int n)) n
  | float (q : ℚ) : Bare (.scalar (.float q)) q
  | qty (i : Bool) (q : ℚ) : Bare (.scalar (.qty i q "")) q

theorem bare_iff (o : Opt) (x : ℝ) : bare o = some x ↔ Bare o x := by
  constructor
  · intro h
    unfold bare at h
    split at h
    · cases h; exact .int _
    · cases h; exact .float _
    · split_ifs at h with hu
      cases h; subst hu; exact .qty _ _
    · cases h
  · intro h
    cases h <;> simp [bare]

/-- A quantity in this unit. -/
inductive InUnit (u : String) : Opt → ℝ → Prop where
  | qty (i : Bool) (q : ℚ) : InUnit u (.scalar (.qty i q u)) q

theorem inUnit_iff (u : String) (o : Opt) (x : ℝ) : inUnit u o = some x ↔ InUnit u o x := by
  constructor
  · intro h
    unfold inUnit at h
    split at h
    · split_ifs at h with hu
      cases h; subst hu; exact .qty _ _
    · cases h
  · intro h
    cases h; simp [inUnit]

/-- A text. -/
inductive IsText : Opt → String → Prop where
  | str (s : String) : IsText (.scalar (.str s)) s

theorem text_iff (o : Opt) (s : String) : text o = some s ↔ IsText o s := by
  constructor
  · intro h
    unfold text at h
    split at h
    · cases h; exact .str _
    · cases h
  · intro h; cases h; rfl

/-- `True` or `False`. -/
inductive IsFlag : Opt → Bool → Prop where
  | bool (b : Bool) : IsFlag (.scalar (.bool b)) b

theorem flag_iff (o : Opt) (b : Bool) : flag o = some b ↔ IsFlag o b := by
  constructor
  · intro h
    unfold flag at h
    split at h
    · cases h; exact .bool _
    · cases h
  · intro h; cases h; rfl

/-- A number as written, or a quantity in this unit. -/
inductive BareOr (u : String) : Opt → ℝ → Prop where
  | int (n : ℤ) : BareOr u (.scalar (.int n)) n
  | float (q : ℚ) : BareOr u (.scalar (.float q)) q
  | qty (i : Bool) (q : ℚ) : BareOr u (.scalar (.qty i q u)) q

theorem bareOr_iff (u : String) (o : Opt) (x : ℝ) : bareOr u o = some x ↔ BareOr u o x := by
  constructor
  · intro h
    unfold bareOr at h
    split at h
    · cases h; exact .int _
    · cases h; exact .float _
    · cases (inUnit_iff u _ x).mp h
      exact .qty _ _
  · intro h
    cases h <;> simp [bareOr, inUnit]

/-- A table: that of the file it was read from. -/
inductive IsTable (F : Files) : Opt → Dict String (List ℝ) → Prop where
  | table (id : String) : IsTable F (.table id) (F.table id)

theorem columns_iff (F : Files) (o : Opt) (t : Dict String (List ℝ)) : columns F o = some t ↔ IsTable F o t := by
  constructor
  · intro h
    unfold columns at h
    split at h
    · cases h; exact .table _
    · cases h
  · intro h; cases h; rfl

theorem entryAt_one (k : String) (o : Opt) : entryAt [k] o = sub k o := by
  cases o with
  | dict d => simp [entryAt, sub]
  | odict d => simp [entryAt, sub]
  | table _ => rfl
  | scalar _ => rfl

theorem entryAt_cons (k : String) (ks : List String) (o : Opt) : entryAt (k :: ks) o = (sub k o).bind (entryAt ks) := by
  cases o <;> rfl

variable {β : Type}

theorem need_iff {k : String} {f : Opt → Option β} {o : Opt} {x : β} : need k f o = some x ↔ ∃ v, sub k o = some v ∧ f v = some x := by
  unfold need
  cases sub k o <;> simp

theorem may_iff {k : String} {f : Opt → Option β} {o : Opt} {x : Option β} :
    may k f o = some x ↔ (sub k o = none ∧ x = none) ∨ ∃ v y, sub k o = some v ∧ f v = some y ∧ x = some y := by
  unfold may
  cases h : sub k o with
  | none => simp [eq_comm]
  | some v =>
    dsimp only
    cases hf : f v with
    | none => simp [hf]
    | some y => simp [hf, eq_comm]

theorem has_cons {k : String} {ks : List String} {f : Opt → Option β} {o : Opt} {x : β} : Has o (k :: ks) f x ↔ ∃ v, sub k o = some v ∧ Has v ks f x := by
  unfold Has
  rw [entryAt_cons]
  cases sub k o <;> simp

theorem has_nil {f : Opt → Option β} {o : Opt} {x : β} : Has o [] f x ↔ f o = some x := by
  simp [Has, entryAt]

theorem need_has {k : String} {f : Opt → Option β} {o : Opt} {x : β} : need k f o = some x ↔ Has o [k] f x := by
  rw [need_iff, has_cons]
  simp only [has_nil]

theorem needV_has {k : String} {f : Opt → Option β} {o : Opt} {x : β} : needV k f o = some x ↔ Has o [k, "value"] f x := by
  unfold needV
  rw [need_iff, has_cons]
  simp only [need_has]

theorem need_needV_has {k l : String} {f : Opt → Option β} {o : Opt} {x : β} : need k (needV l f) o = some x ↔ Has o [k, l, "value"] f x := by
  rw [need_iff, has_cons]
  simp only [needV_has]

theorem need_need_has {k l : String} {f : Opt → Option β} {o : Opt} {x : β} : need k (need l f) o = some x ↔ Has o [k, l] f x := by
  rw [need_iff, has_cons]
  simp only [need_has]

theorem may_given {k : String} {f : Opt → Option β} {o : Opt} {x : Option β} : may k f o = some x ↔ GivenRaw o [k] f x := by
  rw [may_iff]
  unfold GivenRaw
  rw [entryAt_one]
  simp only [has_cons, has_nil]
  constructor
  · rintro (h | ⟨v, y, h1, h2, h3⟩)
    · exact .inl h
    · exact .inr ⟨y, ⟨v, h1, h2⟩, h3⟩
  · rintro (h | ⟨y, ⟨v, h1, h2⟩, h3⟩)
    · exact .inl h
    · exact .inr ⟨v, y, h1, h2, h3⟩

theorem mayV_given {k : String} {f : Opt → Option β} {o : Opt} {x : Option β} : mayV k f o = some x ↔ Given o [k] f x := by
  unfold mayV Given
  rw [may_iff, entryAt_one]
  simp only [need_iff, List.cons_append, List.nil_append, has_cons, has_nil]
  constructor
  · rintro (h | ⟨v, y, h1, ⟨w, h2, h3⟩, h4⟩)
    · exact .inl h
    · exact .inr ⟨y, ⟨v, h1, w, h2, h3⟩, h4⟩
  · rintro (h | ⟨y, ⟨v, h1, w, h2, h3⟩, h4⟩)
    · exact .inl h
    · exact .inr ⟨v, y, h1, ⟨w, h2, h3⟩, h4⟩

/-- Read inside a section that every payload has. -/
theorem need_mayV_given {k l : String} {f : Opt → Option β} {o : Opt} {x : Option β} :
    need k (mayV l f) o = some x ↔ (∃ v, entryAt [k] o = some v) ∧ Given o [k, l] f x := by
  rw [need_iff]
  simp only [mayV_given]
  unfold Given
  simp only [entryAt_cons k, entryAt_one, List.cons_append, List.nil_append, has_cons (k := k), entryAt]
  cases sub k o <;> simp

theorem need_may_given {k l : String} {f : Opt → Option β} {o : Opt} {x : Option β} :
    need k (may l f) o = some x ↔ (∃ v, entryAt [k] o = some v) ∧ GivenRaw o [k, l] f x := by
  rw [need_iff]
  simp only [may_given]
  unfold GivenRaw
  simp only [entryAt_cons k, entryAt_one, has_cons (k := k), entryAt]
  cases sub k o <;> simp

theorem bindElim {γ : Type} {x : Option β} {f : β → Option γ} {y : γ} (h : (x >>= f) = some y) : ∃ a, x = some a ∧ f a = some y := Option.bind_eq_some_iff.mp h

theorem bindIntro {γ : Type} {x : Option β} {f : β → Option γ} {y : γ} {a : β} (h : x = some a) (h' : f a = some y) : (x >>= f) = some y :=
  Option.bind_eq_some_iff.mpr ⟨a, h, h'⟩

theorem mayData_given {k : String} {f : Opt → Option β} {o : Opt} {x : Option β} : may k (need "data" f) o = some x ↔ GivenData o [k] f x := by
  unfold GivenData
  rw [may_iff, entryAt_one]
  simp only [need_iff, List.cons_append, List.nil_append, has_cons, has_nil]
  constructor
  · rintro (h | ⟨v, y, h1, ⟨w, h2, h3⟩, h4⟩)
    · exact .inl h
    · exact .inr ⟨y, ⟨v, h1, w, h2, h3⟩, h4⟩
  · rintro (h | ⟨y, ⟨v, h1, w, h2, h3⟩, h4⟩)
    · exact .inl h
    · exact .inr ⟨v, y, h1, ⟨w, h2, h3⟩, h4⟩

theorem allOf_iff {γ : Type} {f : β → Option γ} : ∀ {l : List β} {l' : List γ}, allOf f l = some l' ↔ List.Forall₂ (fun a b => f a = some b) l l'
  | [], l' => by
    cases l' <;> simp [allOf]
  | a :: l, l' => by
    unfold allOf
    cases h : f a with
    | none =>
      simp only [reduceCtorEq, false_iff]
      intro h'
      cases h' with
      | cons h1 _ => rw [h] at h1; cases h1
    | some c =>
      dsimp only
      cases h2 : allOf f l with
      | none =>
        simp only [reduceCtorEq, false_iff]
        intro h'
        cases h' with
        | cons h1 h3 => rw [allOf_iff.mpr h3] at h2; cases h2
      | some cs =>
        simp only [Option.some.injEq]
        constructor
        · rintro rfl
          exact .cons h (allOf_iff.mp h2)
        · intro h'
          cases h' with
          | cons h1 h3 =>
            rw [h] at h1; cases h1
            rw [allOf_iff.mpr h3] at h2; cases h2
            rfl

/-- A section with one entry, or with several entries of the same name, told apart by their values. -/
inductive Section (f : Opt → Option β) : Option Opt → Entries β → Prop where
  | absent : Section f none .none
  | one (o : Opt) (b : β) : (∀ d, o ≠ .odict d) → f o = some b → Section f (some o) (.one b)
  | many (d : List (Key × Opt)) (l : List (String × β)) : List.Forall₂ (fun p q => p.1 = .str q.1 ∧ f p.2 = some q.2) d l → Section f (some (.odict d)) (.many l)

theorem entries_iff {k : String} {f : Opt → Option β} {o : Opt} {E : Entries β} : entries k f o = some E ↔ Section f (entryAt [k] o) E := by
  rw [entryAt_one]
  have hk : ∀ (p : Key × Opt) (q : String × β), keyed f p = some q ↔ p.1 = .str q.1 ∧ f p.2 = some q.2 := by
    rintro ⟨k, v⟩ ⟨s, b⟩
    unfold keyed
    cases k <;> simp
    cases f v <;> simp
  have one : ∀ x : Opt, (∀ d, x ≠ .odict d) → ((match f x with | none => none | some b => some (Entries.one b)) = some E ↔ Section f (some x) E) := by
    intro x hx
    cases h : f x with
    | none =>
      simp only [reduceCtorEq, false_iff]
      intro h'
      cases h' with
      | one _ b _ hb => rw [h] at hb; cases hb
      | many d l _ => exact hx d rfl
    | some b =>
      simp only [Option.some.injEq]
      constructor
      · rintro rfl
        exact .one x b hx h
      · intro h'
        cases h' with
        | one _ b' _ hb => rw [h] at hb; cases hb; rfl
        | many d l _ => exact absurd rfl (hx d)
  unfold entries
  cases sub k o with
  | none =>
    simp only [Option.some.injEq]
    constructor
    · rintro rfl; exact .absent
    · intro h; cases h; rfl
  | some x =>
    cases x with
    | odict d =>
      simp only
      cases h : allOf (keyed f) d with
      | none =>
        simp only [reduceCtorEq, false_iff]
        intro h'
        cases h' with
        | one _ b hx _ => exact hx d rfl
        | many _ l hl =>
          have := (allOf_iff (f := keyed f)).mpr (hl.imp fun p q hpq => (hk p q).mpr hpq)
          rw [h] at this; cases this
      | some l =>
        simp only [Option.some.injEq]
        constructor
        · rintro rfl
          exact .many d l (((allOf_iff (f := keyed f)).mp h).imp fun p q hpq => (hk p q).mp hpq)
        · intro h'
          cases h' with
          | one _ b hx _ => exact absurd rfl (hx d)
          | many _ l' hl =>
            have := (allOf_iff (f := keyed f)).mpr (hl.imp fun p q hpq => (hk p q).mpr hpq)
            rw [h] at this; cases this; rfl
    | dict d => exact one _ (by simp)
    | table t => exact one (.table t) (by simp)
    | scalar t => exact one (.scalar t) (by simp)

/-! ## Optical elements -/

/-- C107: the entries of an optical element: its name, type and files, its transmission, reflectivity and emissivity (numbers), its edges and width in µm, its temperature in K, its solid angle in sr. -/
theorem element_entries (F : Files) (o : Opt) (e : Optics.Descr ℝ) : element F o = some e ↔
    Has o ["value"] text e.value ∧
    Has o ["type", "value"] text e.type ∧
    GivenRaw o ["data"] (columns F) e.data ∧
    Given o ["use"] text e.use ∧
    Given o ["transmission"] bare e.transmission ∧
    Given o ["reflectivity"] bare e.reflectivity ∧
    Given o ["emissivity"] bare e.emissivity ∧
    Given o ["wl_min"] (inUnit "um") e.wlMin ∧
    Given o ["wl_max"] (inUnit "um") e.wlMax ∧
    Given o ["temperature"] (bareOr "K") e.temperature ∧
    Given o ["solid_angle"] (bareOr "sr") e.solidAngle ∧
    Given o ["wl_col_name"] text e.wlColName ∧
    Given o ["width"] (inUnit "um") e.width := by
  unfold element
  constructor
  · intro h
    obtain ⟨_, h1, h⟩ := bindElim h
    obtain ⟨_, h2, h⟩ := bindElim h
    obtain ⟨_, h3, h⟩ := bindElim h
    obtain ⟨_, h4, h⟩ := bindElim h
    obtain ⟨_, h5, h⟩ := bindElim h
    obtain ⟨_, h6, h⟩ := bindElim h
    obtain ⟨_, h7, h⟩ := bindElim h
    obtain ⟨_, h8, h⟩ := bindElim h
    obtain ⟨_, h9, h⟩ := bindElim h
    obtain ⟨_, h10, h⟩ := bindElim h
    obtain ⟨_, h11, h⟩ := bindElim h
    obtain ⟨_, h12, h⟩ := bindElim h
    obtain ⟨_, h13, h⟩ := bindElim h
    cases h
    exact ⟨need_has.mp h1, needV_has.mp h2, may_given.mp h3, mayV_given.mp h4, mayV_given.mp h5, mayV_given.mp h6, mayV_given.mp h7, mayV_given.mp h8, mayV_given.mp h9, mayV_given.mp h10, mayV_given.mp h11, mayV_given.mp h12, mayV_given.mp h13⟩
  · rintro ⟨h1, h2, h3, h4, h5, h6, h7, h8, h9, h10, h11, h12, h13⟩
    exact bindIntro (need_has.mpr h1) (bindIntro (needV_has.mpr h2) (bindIntro (may_given.mpr h3) (bindIntro (mayV_given.mpr h4) (bindIntro (mayV_given.mpr h5) (bindIntro (mayV_given.mpr h6) (bindIntro (mayV_given.mpr h7) (bindIntro (mayV_given.mpr h8) (bindIntro (mayV_given.mpr h9) (bindIntro (mayV_given.mpr h10) (bindIntro (mayV_given.mpr h11) (bindIntro (mayV_given.mpr h12) (bindIntro (mayV_given.mpr h13) rfl))))))))))))

/-- The optical elements of a section. -/
def asOptics : Entries (Optics.Descr ℝ) → Optics.Section ℝ
  | .none => .absent
  | .one e => .one e
  | .many l => .many l

/-- C107: the optical elements of a section are its entries `opticalElement`, all of them, in their order. -/
theorem elements_entries (F : Files) (o : Opt) (S : Optics.Section ℝ) : elements F o = some S ↔
    ∃ E, Section (element F) (entryAt ["opticalElement"] o) E ∧ S = asOptics E := by
  simp only [← entries_iff]
  unfold elements
  cases entries "opticalElement" (element F) o with
  | none => simp
  | some E => cases E <;> simp [asOptics, eq_comm]

/-! ## Noise -/

theorem no_data {o : Opt} {x : Option Unit} : may "data" (fun _ => (none : Option Unit)) o = some x ↔ entryAt ["data"] o = none ∧ x = none := by
  rw [may_given]
  unfold GivenRaw Has
  simp

/-- C107: the entries of a custom noise without data file: its value in ppm and its name. -/
theorem customEntry_entries (o : Opt) (e : CustomEntry) : customEntry o = some e ↔
    entryAt ["data"] o = none ∧ GivenRaw o ["value"] bare e.value ∧ Given o ["name"] text e.name := by
  unfold customEntry
  constructor
  · intro h
    obtain ⟨_, h1, h⟩ := bindElim h
    obtain ⟨_, h2, h⟩ := bindElim h
    obtain ⟨_, h3, h⟩ := bindElim h
    cases h
    exact ⟨(no_data.mp h1).1, may_given.mp h2, mayV_given.mp h3⟩
  · rintro ⟨h1, h2, h3⟩
    exact bindIntro (no_data.mpr ⟨h1, rfl⟩) (bindIntro (may_given.mpr h2) (bindIntro (mayV_given.mpr h3) rfl))

/-- The custom noises of a section: none, one, or all the entries `customNoise` in their order. -/
inductive Customs : Option Opt → Option CustomNoise → Prop where
  | absent : Customs none none
  | one (o : Opt) (e : CustomEntry) : (∀ d, o ≠ .odict d) → customEntry o = some e → Customs (some o) (some (.single e))
  | many (d : List (Key × Opt)) (l : List CustomEntry) : List.Forall₂ (fun p e => customEntry p.2 = some e) d l → Customs (some (.odict d)) (some (.many l))

/-- C107: the custom noises. -/
theorem customNoise_entries (o : Opt) (c : Option CustomNoise) : customNoise o = some c ↔ Customs (entryAt ["customNoise"] o) c := by
  rw [entryAt_one]
  have one : ∀ x : Opt, (∀ d, x ≠ .odict d) → ((match customEntry x with | none => none | some b => some (some (CustomNoise.single b))) = some c ↔ Customs (some x) c) := by
    intro x hx
    cases h : customEntry x with
    | none =>
      simp only [reduceCtorEq, false_iff]
      intro h'
      cases h' with
      | one _ b _ hb => rw [h] at hb; cases hb
      | many d l _ => exact hx d rfl
    | some b =>
      simp only [Option.some.injEq]
      constructor
      · rintro rfl
        exact .one x b hx h
      · intro h'
        cases h' with
        | one _ b' _ hb => rw [h] at hb; cases hb; rfl
        | many d l _ => exact absurd rfl (hx d)
  unfold customNoise
  cases sub "customNoise" o with
  | none =>
    simp only [Option.some.injEq]
    constructor
    · rintro rfl; exact .absent
    · intro h; cases h; rfl
  | some x =>
    cases x with
    | odict d =>
      simp only
      cases h : allOf (fun p : Key × Opt => customEntry p.2) d with
      | none =>
        simp only [reduceCtorEq, false_iff]
        intro h'
        cases h' with
        | one _ b hx _ => exact hx d rfl
        | many _ l hl =>
          rw [allOf_iff.mpr hl] at h; cases h
      | some l =>
        simp only [Option.some.injEq]
        constructor
        · rintro rfl
          exact .many d l (allOf_iff.mp h)
        · intro h'
          cases h' with
          | one _ b hx _ => exact absurd rfl (hx d)
          | many _ l' hl => rw [allOf_iff.mpr hl] at h; cases h; rfl
    | dict d => exact one _ (by simp)
    | table t => exact one (.table t) (by simp)
    | scalar t => exact one (.scalar t) (by simp)

/-- C107: the entries of a detector: well depth and read noise in counts, the used fraction of the well, frame time in s, frequency of reads in Hz, number of reads, dark current in counts per second. -/
theorem detector_entries (o : Opt) (e : Detector) : detector o = some e ↔
    Given o ["well_depth"] (inUnit "ct") e.wellDepth ∧
    Given o ["f_well_depth"] bare e.fWellDepth ∧
    Given o ["frame_time"] (inUnit "s") e.frameTime ∧
    Given o ["freqNDR"] (inUnit "Hz") e.freqNDR ∧
    Given o ["multiaccumM"] bare e.multiaccumM ∧
    Given o ["dark_current"] (inUnit "ct / s") e.darkCurrent ∧
    Given o ["read_noise"] (inUnit "ct") e.readNoise := by
  unfold detector
  constructor
  · intro h
    obtain ⟨_, h1, h⟩ := bindElim h
    obtain ⟨_, h2, h⟩ := bindElim h
    obtain ⟨_, h3, h⟩ := bindElim h
    obtain ⟨_, h4, h⟩ := bindElim h
    obtain ⟨_, h5, h⟩ := bindElim h
    obtain ⟨_, h6, h⟩ := bindElim h
    obtain ⟨_, h7, h⟩ := bindElim h
    cases h
    exact ⟨mayV_given.mp h1, mayV_given.mp h2, mayV_given.mp h3, mayV_given.mp h4, mayV_given.mp h5, mayV_given.mp h6, mayV_given.mp h7⟩
  · rintro ⟨h1, h2, h3, h4, h5, h6, h7⟩
    exact bindIntro (mayV_given.mpr h1) (bindIntro (mayV_given.mpr h2) (bindIntro (mayV_given.mpr h3) (bindIntro (mayV_given.mpr h4) (bindIntro (mayV_given.mpr h5) (bindIntro (mayV_given.mpr h6) (bindIntro (mayV_given.mpr h7) rfl))))))

/-- C107: the entries of a channel that the noise needs. -/
theorem noiseChannel_entries (o : Opt) (e : NoiseChannel) : noiseChannel o = some e ↔
    Has o ["value"] text e.value ∧
    Has o ["detector"] detector e.detector ∧
    Given o ["NoiseX"] bare e.noiseX ∧
    Customs (entryAt ["customNoise"] o) e.customNoise := by
  unfold noiseChannel
  constructor
  · intro h
    obtain ⟨_, h1, h⟩ := bindElim h
    obtain ⟨_, h2, h⟩ := bindElim h
    obtain ⟨_, h3, h⟩ := bindElim h
    obtain ⟨_, h4, h⟩ := bindElim h
    cases h
    exact ⟨need_has.mp h1, need_has.mp h2, mayV_given.mp h3, (customNoise_entries _ _).mp h4⟩
  · rintro ⟨h1, h2, h3, h4⟩
    exact bindIntro (need_has.mpr h1) (bindIntro (need_has.mpr h2) (bindIntro (mayV_given.mpr h3) (bindIntro ((customNoise_entries _ _).mpr h4) rfl)))

/-! ## Channels -/

/-- Two columns of a table, row by row. -/
def Columns (F : Files) (x y : String) (o : Opt) (l : List (ℝ × ℝ)) : Prop :=
  ∃ id a b, o = .table id ∧ (F.table id).get? x = some a ∧ (F.table id).get? y = some b ∧ l = a.zip b

theorem pairs_iff (F : Files) (x y : String) (o : Opt) (l : List (ℝ × ℝ)) : pairs F x y o = some l ↔ Columns F x y o l := by
  unfold pairs columns Columns
  cases o with
  | table id =>
    dsimp only
    cases h1 : (F.table id).get? x with
    | none => simp [h1]
    | some a =>
      cases h2 : (F.table id).get? y with
      | none => simp [h2]
      | some b => simp [h1, h2, eq_comm]
  | _ => simp

/-- C107: the quantum efficiency: the `data` of the entry if it names a `datafile`, its value if not. -/
theorem qe_entries (F : Files) (o : Opt) (q : Build.Qe) : qe F o = some q ↔
    (entryAt ["datafile"] o ≠ none ∧ ∃ t, Has o ["data"] (columns F) t ∧ q = .data t) ∨
    (entryAt ["datafile"] o = none ∧ ∃ v, Has o ["value"] bare v ∧ q = .constant v) := by
  unfold qe
  rw [entryAt_one]
  simp only [← need_has]
  cases sub "datafile" o with
  | none =>
    cases need "value" bare o <;> simp [eq_comm]
  | some x =>
    cases need "data" (columns F) o <;> simp [eq_comm]

/-- C107: the entries of a PSF: its file and format. -/
theorem psf_entries (F : Files) (o : Opt) (e : Build.PsfDescr) : psf F o = some e ↔
    (∃ path, Has o ["value"] text path ∧ e.file = F.psf path) ∧ Given o ["format"] text e.format := by
  unfold psf
  constructor
  · intro h
    obtain ⟨_, h1, h⟩ := bindElim h
    obtain ⟨_, h2, h⟩ := bindElim h
    cases h
    exact ⟨⟨_, need_has.mp h1, rfl⟩, mayV_given.mp h2⟩
  · rintro ⟨⟨p, h1, h3⟩, h2⟩
    obtain ⟨f, fm⟩ := e
    dsimp only at h3 h2
    subst h3
    exact bindIntro (need_has.mpr h1) (bindIntro (mayV_given.mpr h2) rfl)

/-- C107: the resolution of a spectrometer: the text `native`, a number, or the curve in the file that its `data` names; with neither it is refused when the channel is built. -/
inductive Resolves (F : Files) (o : Opt) : Build.Resolution → Prop where
  | native : Has o ["value"] text "native" → Resolves F o .native
  | fixed (r : ℝ) : Has o ["value"] bare r → Resolves F o (.fixed r)
  | curve (f : String) (pts : List (ℝ × ℝ)) : entryAt ["value"] o = none → Has o ["data", "value"] text f → F.curve f = some pts → Resolves F o (.curve pts)
  | unsupported : entryAt ["value"] o = none → entryAt ["data"] o = none → Resolves F o .unsupported

theorem resolution_entries (F : Files) (o : Opt) (r : Build.Resolution) : resolution F o = some r ↔ Resolves F o r := by
  unfold resolution
  have e1 := entryAt_one "value" o
  have e2 := entryAt_one "data" o
  have hh : ∀ {γ : Type} {f : Opt → Option γ} {x : γ}, Has o ["value"] f x ↔ ∃ v, sub "value" o = some v ∧ f v = some x := by
    intro γ f x
    rw [has_cons]
    simp only [has_nil]
  have hd : ∀ {x : String}, Has o ["data", "value"] text x ↔ ∃ v, sub "data" o = some v ∧ need "value" text v = some x := by
    intro x
    rw [has_cons]
    simp only [need_has]
  cases h : sub "value" o with
  | some v =>
    rw [h] at e1
    have hn : ∀ b, resolutionValue v = some b ↔ (text v = some "native" ∧ b = .native) ∨ ∃ r, bare v = some r ∧ b = .fixed r := by
      intro b
      unfold resolutionValue
      cases ht : text v with
      | some s =>
        have hb : bare v = none := by
          cases v with
          | scalar x => cases x <;> simp_all [text, bare]
          | _ => simp_all [text]
        rw [hb]
        dsimp only
        by_cases hs : s = "native"
        · subst hs; simp [eq_comm]
        · simp [hs]
      | none =>
        dsimp only
        cases bare v <;> simp [eq_comm]
    dsimp only
    rw [hn]
    constructor
    · rintro (⟨h1, rfl⟩ | ⟨r, h1, rfl⟩)
      · exact .native (hh.mpr ⟨v, h, h1⟩)
      · exact .fixed r (hh.mpr ⟨v, h, h1⟩)
    · intro hr
      cases hr with
      | native h1 =>
        obtain ⟨w, hw, h1⟩ := hh.mp h1
        rw [h] at hw; cases hw
        exact .inl ⟨h1, rfl⟩
      | fixed r h1 =>
        obtain ⟨w, hw, h1⟩ := hh.mp h1
        rw [h] at hw; cases hw
        exact .inr ⟨r, h1, rfl⟩
      | curve f pts h1 => rw [e1] at h1; cases h1
      | unsupported h1 => rw [e1] at h1; cases h1
  | none =>
    rw [h] at e1
    dsimp only
    have no : ∀ {γ : Type} {f : Opt → Option γ} {x : γ}, ¬ Has o ["value"] f x := by
      intro γ f x hx
      obtain ⟨v, hv, _⟩ := hh.mp hx
      rw [h] at hv; cases hv
    cases h2 : sub "data" o with
    | none =>
      rw [h2] at e2
      simp only [Option.some.injEq]
      constructor
      · rintro rfl; exact .unsupported e1 e2
      · intro hr
        cases hr with
        | native h1 => exact absurd h1 no
        | fixed r h1 => exact absurd h1 no
        | curve f pts _ h3 _ =>
          obtain ⟨v, hv, _⟩ := hd.mp h3
          rw [h2] at hv; cases hv
        | unsupported _ _ => rfl
    | some d =>
      rw [h2] at e2
      dsimp only
      have key : ∀ {f : String}, Has o ["data", "value"] text f ↔ need "value" text d = some f := by
        intro f
        rw [hd, h2]
        simp
      constructor
      · intro hr
        cases h3 : need "value" text d with
        | none => rw [h3] at hr; cases hr
        | some f =>
          rw [h3] at hr
          dsimp only at hr
          cases h4 : F.curve f with
          | none => rw [h4] at hr; cases hr
          | some pts =>
            rw [h4] at hr
            cases hr
            exact .curve f pts e1 (key.mpr h3) h4
      · intro hr
        cases hr with
        | native h1 => exact absurd h1 no
        | fixed r h1 => exact absurd h1 no
        | curve f pts _ h3 h4 =>
          rw [key.mp h3]
          dsimp only
          rw [h4]
        | unsupported _ h3 => rw [e2] at h3; cases h3

/-- C107: the entries of an aperture. -/
theorem aperture_entries (o : Opt) (e : Build.ApertureDescr) : aperture o = some e ↔
    Given o ["radius"] bare e.radius ∧
    Given o ["EnE"] bare e.enE ∧
    Given o ["apertureCorrection"] bare e.apertureCorrection := by
  unfold aperture
  constructor
  · intro h
    obtain ⟨_, h1, h⟩ := bindElim h
    obtain ⟨_, h2, h⟩ := bindElim h
    obtain ⟨_, h3, h⟩ := bindElim h
    cases h
    exact ⟨mayV_given.mp h1, mayV_given.mp h2, mayV_given.mp h3⟩
  · rintro ⟨h1, h2, h3⟩
    exact bindIntro (mayV_given.mpr h1) (bindIntro (mayV_given.mpr h2) (bindIntro (mayV_given.mpr h3) rfl))

theorem given_default {k : String} {f : Opt → Option β} {o : Opt} {x d : β} :
    (∃ t, may k f o = some t ∧ t.getD d = x) ↔ (entryAt [k] o = none ∧ x = d) ∨ Has o [k] f x := by
  simp only [may_given, GivenRaw]
  constructor
  · rintro ⟨t, ⟨h1, rfl⟩ | ⟨y, h1, rfl⟩, rfl⟩
    · exact .inl ⟨h1, rfl⟩
    · exact .inr h1
  · rintro (⟨h1, rfl⟩ | h1)
    · exact ⟨none, .inl ⟨h1, rfl⟩, rfl⟩
    · exact ⟨some x, .inr ⟨x, h1, rfl⟩, rfl⟩

/-- C107: what only a spectrometer has: the target resolution (`native` if not given), the wavelengths on the detector, the wavefront error in µm, the energy encircled by wavelength, the
sizes of the window. -/
theorem specDescr_entries (F : Files) (o : Opt) (e : Build.SpecDescr) : specDescr F o = some e ↔
    ((entryAt ["targetR"] o = none ∧ e.targetR = .native) ∨ Has o ["targetR"] (resolution F) e.targetR) ∧
    GivenData o ["wlSolution"] (pairs F "x" "Wavelength") e.solution ∧ Given o ["WFErms"] (inUnit "um") e.wfe ∧
    GivenData o ["EncESolution"] (pairs F "Wavelength" "EE") e.encE ∧ Given o ["window_spatial_scale"] bare e.spatialScale ∧
    Given o ["window_spatial_pixel"] bare e.spatialPixel ∧ Given o ["window_spectral_pixel"] bare e.spectralPixel := by
  unfold specDescr
  constructor
  · intro h
    obtain ⟨_, h1, h⟩ := bindElim h
    obtain ⟨_, h2, h⟩ := bindElim h
    obtain ⟨_, h3, h⟩ := bindElim h
    obtain ⟨_, h4, h⟩ := bindElim h
    obtain ⟨_, h5, h⟩ := bindElim h
    obtain ⟨_, h6, h⟩ := bindElim h
    obtain ⟨_, h7, h⟩ := bindElim h
    cases h
    exact ⟨given_default.mp ⟨_, h1, rfl⟩, mayData_given.mp h2, mayV_given.mp h3, mayData_given.mp h4, mayV_given.mp h5, mayV_given.mp h6, mayV_given.mp h7⟩
  · rintro ⟨h1, h2, h3, h4, h5, h6, h7⟩
    obtain ⟨t, ht, h8⟩ := given_default.mpr h1
    obtain ⟨a1, a2, a3, a4, a5, a6, a7⟩ := e
    dsimp only at h8 h2 h3 h4 h5 h6 h7
    subst h8
    exact bindIntro ht (bindIntro (mayData_given.mpr h2) (bindIntro (mayV_given.mpr h3) (bindIntro (mayData_given.mpr h4) (bindIntro (mayV_given.mpr h5) (bindIntro (mayV_given.mpr h6)
      (bindIntro (mayV_given.mpr h7) rfl))))))

/-- C107: what a photometer has is its aperture. -/
theorem kind_entries (F : Files) (c : Channels.Class) (o : Opt) (k : Build.Kind) : kind F c o = some k ↔
    (c = .photometer ∧ ∃ a, Has o ["aperture"] aperture a ∧ k = .photometer a) ∨ (c = .spectrometer ∧ ∃ s, specDescr F o = some s ∧ k = .spectrometer s) := by
  unfold kind
  simp only [← need_has]
  cases c with
  | photometer => cases need "aperture" aperture o <;> simp [eq_comm]
  | spectrometer => cases specDescr F o <;> simp [eq_comm]

/-- C107: the entries of a channel: its range and pixels in µm, its f-numbers, its detector's range in µm and efficiency, its PSF and optics. -/
theorem channel_entries (F : Files) (c : Channels.Class) (o : Opt) (e : Build.Descr) : channel F c o = some e ↔
    noiseChannel o = some e.noise ∧
    Has o ["wl_min", "value"] (inUnit "um") e.wlMin ∧
    Has o ["wl_max", "value"] (inUnit "um") e.wlMax ∧
    Has o ["Fnum_x", "value"] bare e.fnumX ∧
    Given o ["Fnum_y"] bare e.fnumY ∧
    Has o ["detector", "wl_min", "value"] (inUnit "um") e.detWlMin ∧
    Has o ["detector", "cut_off", "value"] (inUnit "um") e.cutOff ∧
    Has o ["detector", "delta_pix", "value"] (inUnit "um") e.deltaPix ∧
    Has o ["detector", "qe"] (qe F) e.qe ∧
    GivenRaw o ["PSF"] (psf F) e.psf ∧
    GivenRaw o ["optics"] (elements F) e.optics ∧
    kind F c o = some e.kind := by
  unfold channel
  constructor
  · intro h
    obtain ⟨_, h1, h⟩ := bindElim h
    obtain ⟨_, h2, h⟩ := bindElim h
    obtain ⟨_, h3, h⟩ := bindElim h
    obtain ⟨_, h4, h⟩ := bindElim h
    obtain ⟨_, h5, h⟩ := bindElim h
    obtain ⟨_, h6, h⟩ := bindElim h
    obtain ⟨_, h7, h⟩ := bindElim h
    obtain ⟨_, h8, h⟩ := bindElim h
    obtain ⟨_, h9, h⟩ := bindElim h
    obtain ⟨_, h10, h⟩ := bindElim h
    obtain ⟨_, h11, h⟩ := bindElim h
    obtain ⟨_, h12, h⟩ := bindElim h
    cases h
    exact ⟨Iff.rfl.mp h1, needV_has.mp h2, needV_has.mp h3, needV_has.mp h4, mayV_given.mp h5, need_needV_has.mp h6, need_needV_has.mp h7, need_needV_has.mp h8, need_need_has.mp h9, may_given.mp h10, may_given.mp h11, Iff.rfl.mp h12⟩
  · rintro ⟨h1, h2, h3, h4, h5, h6, h7, h8, h9, h10, h11, h12⟩
    exact bindIntro (Iff.rfl.mpr h1) (bindIntro (needV_has.mpr h2) (bindIntro (needV_has.mpr h3) (bindIntro (needV_has.mpr h4) (bindIntro (mayV_given.mpr h5) (bindIntro (need_needV_has.mpr h6) (bindIntro (need_needV_has.mpr h7) (bindIntro (need_needV_has.mpr h8) (bindIntro (need_need_has.mpr h9) (bindIntro (may_given.mpr h10) (bindIntro (may_given.mpr h11) (bindIntro (Iff.rfl.mpr h12) rfl)))))))))))

/-! ## The payload -/

/-- C107: what all channels share: whether the edges are forced, the area of the telescope in m², its optics, the custom noises of the payload. -/
theorem common_entries (F : Files) (o : Opt) (e : Build.Common) : common F o = some e ↔
    ((∃ v, entryAt ["optics"] o = some v) ∧ Given o ["optics", "ForceChannelWlEdge"] flag e.force) ∧ Has o ["optics", "Atel", "value"] (inUnit "m2") e.atel ∧
    Has o ["optics"] (elements F) e.optics ∧ ((entryAt ["common"] o = none ∧ e.customNoise = none) ∨ Has o ["common"] customNoise e.customNoise) := by
  unfold common
  constructor
  · intro h
    obtain ⟨_, h1, h⟩ := bindElim h
    obtain ⟨_, h2, h⟩ := bindElim h
    obtain ⟨_, h3, h⟩ := bindElim h
    obtain ⟨_, h4, h⟩ := bindElim h
    cases h
    exact ⟨need_mayV_given.mp h1, need_needV_has.mp h2, need_has.mp h3, given_default.mp ⟨_, h4, rfl⟩⟩
  · rintro ⟨h1, h2, h3, h4⟩
    obtain ⟨t, ht, h8⟩ := given_default.mpr h4
    obtain ⟨a1, a2, a3, a4⟩ := e
    dsimp only at h8 h1 h2 h3
    subst h8
    exact bindIntro (need_mayV_given.mpr h1) (bindIntro (need_needV_has.mpr h2) (bindIntro (need_has.mpr h3) (bindIntro ht rfl)))

/-- C107: the entries of a foreground. -/
theorem foreground_entries (F : Files) (o : Opt) (e : Foreground.Descr ℝ) : foreground F o = some e ↔
    Has o ["value"] text e.value ∧
    GivenRaw o ["data"] (columns F) e.data ∧
    Given o ["zodiacalMap"] flag e.zodiacalMap ∧
    Given o ["custom_map_file"] text e.mapFile ∧
    Given o ["zodiacFactor"] bare e.factor := by
  unfold foreground
  constructor
  · intro h
    obtain ⟨_, h1, h⟩ := bindElim h
    obtain ⟨_, h2, h⟩ := bindElim h
    obtain ⟨_, h3, h⟩ := bindElim h
    obtain ⟨_, h4, h⟩ := bindElim h
    obtain ⟨_, h5, h⟩ := bindElim h
    cases h
    exact ⟨need_has.mp h1, may_given.mp h2, mayV_given.mp h3, mayV_given.mp h4, mayV_given.mp h5⟩
  · rintro ⟨h1, h2, h3, h4, h5⟩
    exact bindIntro (need_has.mpr h1) (bindIntro (may_given.mpr h2) (bindIntro (mayV_given.mpr h3) (bindIntro (mayV_given.mpr h4) (bindIntro (mayV_given.mpr h5) rfl))))

/-- The foregrounds of a section. -/
def asSky : Entries (Foreground.Descr ℝ) → Option (Foreground.Section ℝ)
  | .none => none
  | .one e => some (.single e)
  | .many l => some (.many l)

/-- C107: the foregrounds of a section are its entries `foreground`, all of them, in their order. -/
theorem foregrounds_entries (F : Files) (o : Opt) (S : Option (Foreground.Section ℝ)) : foregrounds F o = some S ↔
    ∃ E, Section (foreground F) (entryAt ["foreground"] o) E ∧ S = asSky E := by
  simp only [← entries_iff]
  unfold foregrounds
  cases entries "foreground" (foreground F) o with
  | none => simp
  | some E => cases E <;> simp [asSky, eq_comm]

/-- C107: the entries of the source: its name, the directory of stellar models, the file of a custom SED. A text in a payload file is no byte string. -/
theorem source_entries (o : Opt) (e : Source.Descr) : source o = some e ↔
    Has o ["value"] text e.value ∧ e.bytes = false ∧ Given o ["StellarModels"] text e.stellarModels ∧ Given o ["CustomSed"] text e.customSed := by
  unfold source
  constructor
  · intro h
    obtain ⟨_, h1, h⟩ := bindElim h
    obtain ⟨_, h2, h⟩ := bindElim h
    obtain ⟨_, h3, h⟩ := bindElim h
    cases h
    exact ⟨need_has.mp h1, rfl, mayV_given.mp h2, mayV_given.mp h3⟩
  · rintro ⟨h1, h2, h3, h4⟩
    obtain ⟨a1, a2, a3, a4⟩ := e
    dsimp only at h1 h2 h3 h4
    subst h2
    exact bindIntro (need_has.mpr h1) (bindIntro (mayV_given.mpr h3) (bindIntro (mayV_given.mpr h4) rfl))

/-- C107: the entries of a payload. -/
theorem describe_entries (F : Files) (o : Opt) (e : Described) : describe F o = some e ↔
    common F o = some e.common ∧
    channels F o = some e.channels ∧
    Has o ["common"] (foregrounds F) e.foreground ∧
    ((∃ v, entryAt ["common"] o = some v) ∧ GivenRaw o ["common", "sourceSpectrum"] source e.source) ∧
    Has o ["common", "wl_min", "value"] (inUnit "um") e.wlMin ∧
    Has o ["common", "wl_max", "value"] (inUnit "um") e.wlMax := by
  unfold describe
  constructor
  · intro h
    obtain ⟨_, h1, h⟩ := bindElim h
    obtain ⟨_, h2, h⟩ := bindElim h
    obtain ⟨_, h3, h⟩ := bindElim h
    obtain ⟨_, h4, h⟩ := bindElim h
    obtain ⟨_, h5, h⟩ := bindElim h
    obtain ⟨_, h6, h⟩ := bindElim h
    cases h
    exact ⟨Iff.rfl.mp h1, Iff.rfl.mp h2, need_has.mp h3, need_may_given.mp h4, need_needV_has.mp h5, need_needV_has.mp h6⟩
  · rintro ⟨h1, h2, h3, h4, h5, h6⟩
    exact bindIntro (Iff.rfl.mpr h1) (bindIntro (Iff.rfl.mpr h2) (bindIntro (need_has.mpr h3) (bindIntro (need_may_given.mpr h4) (bindIntro (need_needV_has.mpr h5) (bindIntro (need_needV_has.mpr h6) rfl)))))

/-- C107: the channels of a payload with several: every one, in their order, under its name, read as a channel of the class it says. -/
theorem channels_entries (F : Files) {payload : Opt} {chs : List Channels.Chan} (h : Channels.HasChannels payload chs) (l : Dict Key Build.Descr) :
    channels F payload = some l ↔ List.Forall₂ (fun (c : Channels.Chan) q => q.1 = c.name ∧ ∃ k, Channels.Is c k ∧ channel F k c.descr = some q.2) chs l := by
  unfold channels
  have hb := fun r => Channels.build_channels (make := fun c _ d _ => Except.ok (channel F c d)) h r
  have hB : ∀ c b, Channels.Built (fun c _ d _ => Except.ok (channel F c d)) payload c b ↔ ∃ k, Channels.Is c k ∧ channel F k c.descr = b := by
    intro c b
    unfold Channels.Built
    constructor
    · rintro ⟨k, n, h1, _, h2⟩
      exact ⟨k, h1, by simpa using h2⟩
    · rintro ⟨k, h1, h2⟩
      exact ⟨k, Channels.ofKey c.name, h1, (Channels.nameIs_iff _ _).mpr rfl, by show Except.ok (channel F k c.descr) = _; rw [h2]⟩
  constructor
  · intro hl
    cases hr : Channels.buildChannels (fun c _ d _ => Except.ok (channel F c d)) payload with
    | error e => rw [hr] at hl; cases hl
    | ok r =>
      rw [hr] at hl
      dsimp only at hl
      obtain ⟨bs, rfl, hf⟩ := (hb r).mp hr
      rw [allOf_iff] at hl
      clear hr hb h
      induction hf generalizing l with
      | nil => cases hl; exact .nil
      | @cons c b chs bs h1 h2 ih =>
        rw [List.map_cons, List.zip_cons_cons] at hl
        cases hl with
        | @cons _ q _ l h3 h4 =>
          refine .cons ?_ (ih l h4)
          cases b with
          | none => cases h3
          | some d =>
            cases h3
            obtain ⟨k, hk, e⟩ := (hB _ _).mp h1
            exact ⟨rfl, k, hk, e⟩
  · intro hf
    have key : ∃ bs, List.Forall₂ (Channels.Built (fun c _ d _ => Except.ok (channel F c d)) payload) chs bs ∧
        List.Forall₂ (fun (p : Key × Option Build.Descr) q => (match p.2 with | none => none | some d => some (p.1, d)) = some q) ((chs.map Channels.Chan.name).zip bs) l := by
      clear hb h
      induction hf with
      | nil => exact ⟨[], .nil, .nil⟩
      | @cons c q chs l h1 h2 ih =>
        obtain ⟨bs, h3, h4⟩ := ih
        obtain ⟨h5, k, h6, h7⟩ := h1
        refine ⟨some q.2 :: bs, .cons ((hB _ _).mpr ⟨k, h6, h7⟩) h3, ?_⟩
        rw [List.map_cons, List.zip_cons_cons]
        exact .cons (by rw [← h5]) h4
    obtain ⟨bs, h1, h2⟩ := key
    rw [(hb _).mpr ⟨bs, rfl, h1⟩]
    exact allOf_iff.mpr h2

/-- C107: a payload with one channel. -/
theorem channel_entry (F : Files) {payload : Opt} {d : Dict String Opt} {name : Scalar} {cls : String} (h : Channels.HasSingle payload d name cls) {k : Channels.Class}
    (hk : Channels.Is ⟨name.key, .dict d, cls⟩ k) (l : Dict Key Build.Descr) : channels F payload = some l ↔ ∃ e, channel F k (.dict d) = some e ∧ l = [(name.key, e)] := by
  unfold channels
  rw [Channels.build_single h hk]
  simp only [Except.map]
  cases channel F k (.dict d) <;> simp [allOf, eq_comm]

end ExoRad.Read
