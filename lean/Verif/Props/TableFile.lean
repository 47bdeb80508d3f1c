import Verif.Model.TableFile
import Verif.Lemmas.Dict

/-!
# C110: tables read back from the output file
-/

namespace ExoRad.TableFile
variable {V M : Type}

/-- `c'` is what `c` becomes in a file: the same name and values (text as bytes), the same unit except that a dimensionless quantity has none, and never a `Quantity`. -/
structure ReadBack (c c' : Column V) : Prop where
  name : c'.name = c.name
  nums : ∀ l, c.cells = .nums l → c'.cells = .nums l
  text : ∀ l, c.cells = .text l → c'.cells = .bytes l
  bytes : ∀ l, c.cells = .bytes l → c'.cells = .bytes l
  plain_unit : ∀ u, c.kind = .plain u → c'.kind = .plain u
  quantity_unit : ∀ u, c.kind = .quantity u → u ≠ "" → c'.kind = .plain (some u)
  dimensionless : c.kind = .quantity "" → c'.kind = .plain none

theorem headerCols_get (h : List (String × Option String)) (hn : (h.map Prod.fst).Nodup) :
    ∀ n u, (n, u) ∈ h → (headerCols h).get? n = some u := by
  have gen : ∀ (h : List (String × Option String)) (d : Dict String (Option String)), (h.map Prod.fst).Nodup →
      (∀ n u, (n, u) ∈ h → (h.foldl (fun d x => Dict.set d x.1 x.2) d).get? n = some u) ∧
      (∀ n, n ∉ h.map Prod.fst → (h.foldl (fun d x => Dict.set d x.1 x.2) d).get? n = d.get? n) := by
    intro h
    induction h with
    | nil => intro d _; simp
    | cons x h ih =>
      intro d hn
      simp only [List.map_cons, List.nodup_cons] at hn
      obtain ⟨i1, i2⟩ := ih (Dict.set d x.1 x.2) hn.2
      refine ⟨fun n u hm => ?_, fun n hm => ?_⟩
      · rcases List.mem_cons.mp hm with e | e
        · subst e
          simp only [List.foldl_cons]
          rw [i2 n hn.1]; simp
        · simp only [List.foldl_cons]; exact i1 n u e
      · simp only [List.map_cons, List.mem_cons, not_or] at hm
        simp only [List.foldl_cons]
        rw [i2 n hm.2, Dict.get?_set_ne d _ hm.1]
  exact (gen h [] hn).1

theorem setAttrs_spec (h : Dict String (Option String)) (cs : List (Column V))
    (hh : ∀ c ∈ cs, h.get? c.name = some (unitOf c)) :
    setAttrs h (cs.map (fun c => (c.name, toBytes c.cells))) =
      .ok (cs.map (fun c => ⟨c.name, toBytes c.cells, .plain (unitOf c)⟩)) := by
  induction cs with
  | nil => rfl
  | cons c cs ih =>
    simp only [List.map_cons, setAttrs, hh c (by simp), ih (fun c hc => hh c (by simp [hc]))]

theorem asPlain_name (c : Column V) : (asPlain c).name = c.name := by
  unfold asPlain; split <;> rfl

theorem readBack_asPlain (c : Column V) :
    ReadBack c ⟨(asPlain c).name, toBytes (asPlain c).cells, .plain (unitOf (asPlain c))⟩ := by
  obtain ⟨n, x, k⟩ := c
  cases k with
  | plain u => refine ⟨rfl, ?_, ?_, ?_, ?_, ?_, ?_⟩ <;> simp +contextual [asPlain, toBytes, unitOf]
  | quantity u =>
    refine ⟨rfl, ?_, ?_, ?_, ?_, ?_, ?_⟩ <;> simp +contextual [asPlain, toBytes, unitOf]

theorem asPlain_of_plain (c : Column V) (h : isQuantity c = false) : asPlain c = c := by
  obtain ⟨n, x, k⟩ := c
  cases k with
  | plain u => rfl
  | quantity u => cases h

theorem encode_cols (t : Table V M) : (encodeMixins t).cols = t.cols.map asPlain := by
  unfold encodeMixins
  dsimp only
  split
  · rfl
  · rename_i h
    dsimp only
    have : ∀ c ∈ t.cols, asPlain c = c := fun c hc => asPlain_of_plain c (by
      cases e : isQuantity c with
      | false => rfl
      | true => exact absurd (List.any_eq_true.mpr ⟨c, hc, e⟩) h)
    conv_lhs => rw [← List.map_id t.cols]
    exact (List.map_congr_left (fun c hc => (this c hc).symm))

theorem removeAll_set {ν : Type} (d : Dict String ν) (k : String) (v : ν) (h : k ∉ d.keys) : (d.set k v).removeAll [k] = d := by
  induction d with
  | nil => simp [Dict.set, Dict.removeAll]
  | cons p d ih =>
    obtain ⟨a, b⟩ := p
    simp only [Dict.keys_cons, List.mem_cons, not_or] at h
    have hne : ¬ a = k := fun e => h.1 e.symm
    simp only [Dict.set, if_neg hne]
    have := ih h.2
    simp only [Dict.removeAll, List.contains_cons, List.contains_nil, Bool.or_false] at this ⊢
    rw [List.filter_cons_of_pos (by simpa using hne), this]

theorem users_user (d : Dict String M) : users (d.map (fun p => (p.1, MetaVal.user p.2)) : Dict String (MetaVal M)) = d := by
  induction d with
  | nil => rfl
  | cons p d ih =>
    unfold users at ih ⊢
    simp only [List.map_cons, List.filterMap_cons, ih]

theorem keys_user (d : Dict String M) :
    Dict.keys (d.map (fun p => (p.1, MetaVal.user p.2)) : Dict String (MetaVal M)) = d.keys := by
  simp [Dict.keys, Function.comp_def]

theorem has_set {ν : Type} (d : Dict String ν) (k : String) (v : ν) : (d.set k v).has k = true := by
  rw [Dict.has_iff, Dict.mem_keys_set]; exact Or.inl rfl

/-- What the metadata of a table become. -/
theorem metaOf_encode (t : Table V M) (hr : reserved ∉ t.metadata.keys) :
    metaOf (if (encodeMixins t).metadata.isEmpty then none else some (encodeMixins t).metadata) =
      if t.cols.any isQuantity then t.metadata else [] := by
  unfold encodeMixins
  dsimp only
  by_cases h : t.cols.any isQuantity = true
  · rw [if_pos h, if_pos h]
    dsimp only
    have hs := has_set (t.metadata.map (fun p => (p.1, MetaVal.user p.2)) : Dict String (MetaVal M)) reserved
      (.serialized ((t.cols.filter isQuantity).map Column.name))
    have hrem := removeAll_set (t.metadata.map (fun p => (p.1, MetaVal.user p.2)) : Dict String (MetaVal M)) reserved
      (.serialized ((t.cols.filter isQuantity).map Column.name)) (by rw [keys_user]; exact hr)
    generalize Dict.set (t.metadata.map (fun p => (p.1, MetaVal.user p.2)) : Dict String (MetaVal M)) reserved
      (.serialized ((t.cols.filter isQuantity).map Column.name)) = d at hs hrem ⊢
    cases d with
    | nil => simp [Dict.has] at hs
    | cons p d =>
      simp only [List.isEmpty_cons, Bool.false_eq_true, if_false, metaOf, hs, if_true, hrem, users_user]
  · rw [if_neg h, if_neg h]
    dsimp only
    split
    · rfl
    · have : Dict.has (t.metadata.map (fun p => (p.1, MetaVal.user p.2)) : Dict String (MetaVal M)) reserved = false := by
        rw [Dict.has_eq_false_iff, keys_user]; exact hr
      simp [metaOf, this]

/-- The round trip of a table, in terms of the definitions of the model. -/
theorem roundTrip_eq (t : Table V M) (hne : t.cols ≠ []) (hn : (t.cols.map Column.name).Nodup) (hr : reserved ∉ t.metadata.keys) :
    roundTrip t = .ok ⟨t.cols.map (fun c => ⟨(asPlain c).name, toBytes (asPlain c).cells, .plain (unitOf (asPlain c))⟩),
      if t.cols.any isQuantity then t.metadata else []⟩ := by
  have hc := encode_cols t
  have hm := metaOf_encode t hr
  unfold roundTrip write load
  dsimp only
  generalize encodeMixins t = e at hc hm
  have hE : e.cols.isEmpty = false := by
    rw [hc]
    cases ht : t.cols with
    | nil => exact absurd ht hne
    | cons a l => rfl
  rw [hE]
  simp only [Bool.false_eq_true, if_false]
  have hnames : (e.cols.map (fun c => (c.name, unitOf c))).map Prod.fst = t.cols.map Column.name := by
    rw [hc]; simp [Function.comp_def, asPlain_name]
  rw [setAttrs_spec _ e.cols (fun c hcm => headerCols_get _ (by rw [hnames]; exact hn) _ _ (List.mem_map.mpr ⟨c, hcm, rfl⟩))]
  simp only [hm, hc, List.map_map, Function.comp_def]

/-- **Columns.** A table with at least one column is written and read without an error, and its columns come back in their order with their names, values and units; but a
`Quantity` comes back as a plain column, without a unit if it was dimensionless, and text as bytes. -/
theorem columns_read_back (t : Table V M) (hne : t.cols ≠ []) (hn : (t.cols.map Column.name).Nodup) (hr : reserved ∉ t.metadata.keys) :
    ∃ r, roundTrip t = .ok r ∧ List.Forall₂ ReadBack t.cols r.cols := by
  refine ⟨_, roundTrip_eq t hne hn hr, ?_⟩
  dsimp only
  rw [List.forall₂_map_right_iff, List.forall₂_same]
  intro c _
  exact readBack_asPlain c

/-- **Metadata.** They come back exactly if some column is a `Quantity` or there are none. -/
theorem metadata_read_back_iff (t : Table V M) (hne : t.cols ≠ []) (hn : (t.cols.map Column.name).Nodup) (hr : reserved ∉ t.metadata.keys) :
    ∃ r, roundTrip t = .ok r ∧ (r.metadata = t.metadata ↔ (∃ c ∈ t.cols, ∃ u, c.kind = .quantity u) ∨ t.metadata = []) ∧
      ((∀ c ∈ t.cols, ∀ u, c.kind ≠ .quantity u) → r.metadata = []) := by
  refine ⟨_, roundTrip_eq t hne hn hr, ?_⟩
  dsimp only
  have hq : t.cols.any isQuantity = true ↔ ∃ c ∈ t.cols, ∃ u, c.kind = .quantity u := by
    rw [List.any_eq_true]
    constructor
    · rintro ⟨c, hc, h⟩
      refine ⟨c, hc, ?_⟩
      unfold isQuantity at h
      split at h
      · cases h
      · rename_i u e; exact ⟨u, e⟩
    · rintro ⟨c, hc, u, e⟩
      exact ⟨c, hc, by simp [isQuantity, e]⟩
  by_cases h : t.cols.any isQuantity = true
  · rw [if_pos h]
    refine ⟨⟨fun _ => Or.inl (hq.mp h), fun _ => rfl⟩, fun hno => ?_⟩
    obtain ⟨c, hc, u, e⟩ := hq.mp h
    exact absurd e (hno c hc u)
  · rw [if_neg h]
    refine ⟨⟨fun e => Or.inr e.symm, fun e => ?_⟩, fun _ => rfl⟩
    rcases e with e | e
    · exact absurd (hq.mpr e) h
    · exact e.symm

/-- **Stored again.** A table that was read and is stored and read once more has the columns of the first reading and no metadata. -/
theorem stored_again (t : Table V M) (hne : t.cols ≠ []) (hn : (t.cols.map Column.name).Nodup) (hr : reserved ∉ t.metadata.keys) :
    ∃ r r', roundTrip t = .ok r ∧ roundTrip r = .ok r' ∧ r'.cols = r.cols ∧ r'.metadata = [] := by
  refine ⟨_, _, roundTrip_eq t hne hn hr, roundTrip_eq _ ?_ ?_ ?_, ?_, ?_⟩
  · simpa using hne
  · simpa [Function.comp_def, asPlain_name] using hn
  · dsimp only
    split
    · exact hr
    · simp
  · dsimp only
    rw [List.map_map]
    apply List.map_congr_left
    intro c _
    simp only [Function.comp, asPlain, unitOf]
    congr 1
    cases (match c.kind with
      | .plain _ => c
      | .quantity u => { c with kind := .plain (if u = "" then none else some u) } : Column V).cells <;> rfl
  · dsimp only
    have : (t.cols.map (fun c => (⟨(asPlain c).name, toBytes (asPlain c).cells, .plain (unitOf (asPlain c))⟩ : Column V))).any isQuantity = false := by
      rw [List.any_eq_false]
      intro c hc
      obtain ⟨a, _, e⟩ := List.mem_map.mp hc
      subst e
      simp [isQuantity]
    rw [this]; rfl

/-- A table without columns cannot be written. -/
theorem no_columns (t : Table V M) (h : t.cols = []) : roundTrip t = .error .typeError := by
  obtain ⟨cols, m⟩ := t
  subst h
  rfl

/-- The groups `<table>_to_group` have, in order, the name, the values and the unit with which each column is read back. -/
theorem groups_written (t : Table V M) (s : Stored V M) (hw : write t = .ok s) (hn : (t.cols.map Column.name).Nodup) (hr : reserved ∉ t.metadata.keys) :
    ∃ r, roundTrip t = .ok r ∧ List.Forall₂ (fun g (c : Column V) => g.1 = c.name ∧ g.2.1 = c.cells ∧ c.kind = .plain g.2.2) s.groups r.cols := by
  have hne : t.cols ≠ [] := by
    intro e
    have := no_columns t e
    unfold roundTrip at this
    rw [hw] at this
    obtain ⟨cols, m⟩ := t
    subst e
    cases hw
  refine ⟨_, roundTrip_eq t hne hn hr, ?_⟩
  have hc := encode_cols t
  unfold write at hw
  dsimp only at hw
  generalize encodeMixins t = e at hc hw
  split at hw
  · cases hw
  · cases hw
    dsimp only
    rw [hc, List.map_map, List.forall₂_map_left_iff, List.forall₂_map_right_iff, List.forall₂_same]
    intro c _
    exact ⟨rfl, rfl, rfl⟩

namespace Demo

/-- A table like that of a target: wavelengths in micron, channel names, a dimensionless efficiency, and metadata. -/
def t : Table ℕ String :=
  ⟨[⟨"Wavelength", .nums [1, 2], .quantity "um"⟩, ⟨"chName", .text ["a", "b"], .plain none⟩, ⟨"QE", .nums [3, 4], .quantity ""⟩],
    [("name", "HD 209458"), ("version", "2")]⟩

example : t.cols ≠ [] ∧ (t.cols.map Column.name).Nodup ∧ reserved ∉ t.metadata.keys := by decide

/-- The wavelengths are no `Quantity` any more, the names are bytes and the efficiency has no unit. -/
example : roundTrip t = .ok ⟨[⟨"Wavelength", .nums [1, 2], .plain (some "um")⟩, ⟨"chName", .bytes ["a", "b"], .plain none⟩,
    ⟨"QE", .nums [3, 4], .plain none⟩], [("name", "HD 209458"), ("version", "2")]⟩ := by decide +kernel

/-- Without a `Quantity` the metadata are lost. -/
example : roundTrip (⟨[⟨"Wavelength", .nums [1, 2], .plain (some "um")⟩], [("source", "lab")]⟩ : Table ℕ String) =
    .ok ⟨[⟨"Wavelength", .nums [1, 2], .plain (some "um")⟩], []⟩ := by decide +kernel

end Demo

end ExoRad.TableFile
