import Verif.Model.Whole
import Verif.Lemmas.ResultKeys
import Verif.Props.RunMore
import Verif.Props.Loaded
import Verif.Props.Spawn
import Verif.Props.ContribBuilt

/-!
# The whole program: from the two input files to the tables of the output file

`run` is `standard_pipeline` with all its steps. C106: the output file has a table for every target of the list, and this table is the one that observing
the target alone, with the channels the payload file describes, gives; for black bodies it has the noise budget of every channel.
-/

set_option linter.unusedSectionVars false

namespace ExoRad.Whole
open Hdf5 Run

/-! ## Specification -/

/-- The column of a target's table in an output file: the dataset `targets/NAME/table/table_to_group/COLUMN/value`. -/
noncomputable def columnIn (g : Hdf5.Group V) (name column : String) : Option (List (Cell ℝ)) :=
  match (Node.group g).at ["targets", name, "table", "table_to_group", column, "value"] with
  | some (.ds (.num v)) => some v
  | _ => none

/-- A name without a dot, and not `value`. (The names of columns; h5py entries of a table are told by a suffix with a dot, and an entry `value` beside `unit` is
taken for a quantity.) -/
def PlainName (k : String) : Prop := '.' ∉ k.toList ∧ k ≠ "value"

/-- What the run writes can be stored: nothing that h5py refuses in the descriptions, plain names of channels, foregrounds and custom noises, known units. `u` is
which texts astropy reads as units. -/
structure Stores (u : String → Option String) (o : Outside) (pl : P) : Prop where
  payload : Storable u (.dict (o.describe pl))
  channels : ∀ d ∈ channelsOf pl, '.' ∉ d.noise.value.toList ∧ d.noise.value ≠ "description" ∧ d.noise.value ≠ "built_instr"
  descr : ∀ d ∈ channelsOf pl, Storable u (.dict (o.descr d))
  built : ∀ b, Storable u (.dict (o.built b))
  rest : ∀ t, Storable u (.dict (o.rest t)) ∧ "table" ∉ (o.rest t).flatMap namesOf
  units : ∀ k x, o.unit k = some x → (u x).isSome
  foregrounds : ∀ sec, pl.1.foreground = some sec → ∀ kd ∈ sec.list, '.' ∉ (Foreground.nameOf kd).toList
  custom : ∀ nm ∈ customNames pl.1.common.customNoise, '.' ∉ nm.toList
  own : ∀ d ∈ channelsOf pl, ∀ nm ∈ customNames d.noise.customNoise, '.' ∉ nm.toList

/-- The channels a payload describes are sound. -/
structure SoundPayload (o : Outside) (pl : P) : Prop where
  env : Build.SoundEnv (buildEnv o pl)
  common : Build.SoundCommon pl.1.common
  descr : ∀ d ∈ channelsOf pl, Build.SoundDescr (buildEnv o pl) d
  names : ((channelsOf pl).map (fun d => d.noise.value)).Nodup

/-- The processes that observe know the number of points of the working grids: this process, copies of it, or new ones if it is the number after importing. -/
def KnowGrid (o : Outside) (n : ℕ) : Prop := o.start = .fork ∨ o.nThread ≤ 1 ∨ n = 6000

/-- The constants, files and grids of an observation of this payload. -/
noncomputable def worldOf (o : Outside) (pl : P) : Pipeline.World := Pipeline.worldAt o.setting (payloadOf pl []) pl.2

/-! ## Names -/

theorem plain_append {a b : String} (ha : '.' ∉ a.toList) (hb : '.' ∉ b.toList) : '.' ∉ (a ++ b).toList := by
  rw [String.toList_append, List.mem_append]
  tauto

theorem not_value {a b : String} (hb : b.toList.getLast? ≠ some 'e' ∧ b.toList ≠ [] ∨ b = "_noise") : a ++ b ≠ "value" := by
  intro h
  rcases hb with ⟨h1, h2⟩ | rfl
  · have := congrArg (fun s : String => s.toList.getLast?) h
    simp only [String.toList_append] at this
    rw [List.getLast?_append_of_ne_nil _ h2] at this
    rw [this] at h1
    exact h1 (by decide)
  · have := congrArg (fun s : String => s.toList.length) h
    have hl := congrArg (fun s : String => s.toList.reverse.take 2) h
    simp only [String.toList_append, List.reverse_append] at hl
    revert hl
    simp

theorem clean_of_dotless {k : String} (h : '.' ∉ k.toList) : substr metaKey k = false := by
  rw [Bool.eq_false_iff]
  intro hs
  have := (Options.substr_iff _ _).mp hs
  refine h (this.subset ?_)
  decide

variable {u : String → Option String} {o : Outside} {pl : P}

theorem result_names (h : Stores u o pl) {bs : List Build.Built} (hs : SoundPayload o pl)
    (hbs : Build.buildAll o.fuel (buildEnv o pl) pl.1.common (channelsOf pl) = some (.ok bs)) : Pipeline.ResultNames (payloadOf pl bs) PlainName PlainName := by
  have hnoise : ∀ {k : String}, '.' ∉ k.toList → PlainName (k ++ "_noise") := fun hk => ⟨plain_append hk (by decide), not_value (.inr rfl)⟩
  have hf2 := Build.buildAll_mem hbs
  refine ⟨⟨by decide, by decide⟩, ?_, ?_, fun _ h => h, fun k hk => hnoise hk.1, hnoise (by decide), ?_, ?_⟩
  · intro k hk
    simp only [Pipeline.starNames, List.mem_cons, List.not_mem_nil, or_false] at hk
    rcases hk with rfl | rfl | rfl | rfl | rfl <;> exact ⟨by decide, by decide⟩
  · intro k hk
    obtain ⟨kd, hkd, hk⟩ := List.mem_flatMap.mp hk
    have hd : '.' ∉ (Foreground.nameOf kd).toList := by
      unfold Pipeline.sections payloadOf at hkd
      simp only at hkd
      cases hsec : pl.1.foreground with
      | none => rw [hsec] at hkd; simp at hkd
      | some sec => rw [hsec] at hkd; exact h.foregrounds sec hsec kd hkd
    simp only [List.mem_cons, List.not_mem_nil, or_false] at hk
    rcases hk with rfl | rfl
    · exact ⟨plain_append hd (by decide), not_value (.inl ⟨by decide, by decide⟩)⟩
    · exact ⟨plain_append hd (by decide), not_value (.inl ⟨by decide, by decide⟩)⟩
  · intro k hk
    simp only [fixedNoise, List.mem_cons, List.not_mem_nil, or_false] at hk
    rcases hk with rfl | rfl | rfl | rfl | rfl | rfl <;> exact ⟨by decide, by decide⟩
  · intro ch hch nm hnm
    obtain ⟨b, hb, rfl⟩ := List.mem_map.mp hch
    obtain ⟨i, hi, rfl⟩ := List.mem_iff_getElem.mp hb
    have hl := hf2.length_eq
    have hbuild := (List.forall₂_iff_get.mp hf2).2 i (by omega) hi
    have hm : (channelsOf pl)[i]'(by omega) ∈ channelsOf pl := List.getElem_mem _
    obtain ⟨_, e1, e2, _⟩ := Build.build_sound hs.env hs.common (hs.descr _ hm) hbuild
    simp only [List.get_eq_getElem] at e1 e2
    rw [e1, e2] at hnm
    rcases List.mem_append.mp hnm with hnm | hnm
    · exact hnoise (h.own _ hm nm hnm)
    · exact hnoise (h.custom nm hnm)

/-! ## The channels -/

theorem built_of {bs : List Build.Built} (hbs : Build.buildAll o.fuel (buildEnv o pl) pl.1.common (channelsOf pl) = some (.ok bs)) :
    ∀ b ∈ bs, ∃ d ∈ channelsOf pl, Build.build o.fuel (buildEnv o pl) pl.1.common false d = some (.ok b) := by
  have hf2 := Build.buildAll_mem hbs
  intro b hb
  obtain ⟨i, hi, rfl⟩ := List.mem_iff_getElem.mp hb
  have hl := hf2.length_eq
  exact ⟨(channelsOf pl)[i]'(by omega), List.getElem_mem _, (List.forall₂_iff_get.mp hf2).2 i (by omega) hi⟩

theorem channels_built (hs : SoundPayload o pl) {bs : List Build.Built} (hbs : Build.buildAll o.fuel (buildEnv o pl) pl.1.common (channelsOf pl) = some (.ok bs)) :
    Pipeline.Built (payloadOf pl bs) (bs.map Build.Built.table) := by
  have key : ∀ b ∈ bs, ∃ n, 0 < n ∧ Pipeline.Obs.Real ⟨b.ch, b.table, n, [], ⟨none, [], [], [], []⟩⟩ := by
    intro b hb
    obtain ⟨d, hd, hbuild⟩ := built_of hbs b hb
    obtain ⟨_, _, _, n, hn, hr⟩ := Build.build_sound hs.env hs.common (hs.descr d hd) hbuild
    exact ⟨n, hn, hr [] ⟨none, [], [], [], []⟩⟩
  refine ⟨by simp [payloadOf], ?_, ?_, ?_⟩
  · intro t ht
    obtain ⟨b, hb, rfl⟩ := List.mem_map.mp ht
    obtain ⟨n, hn, hr⟩ := key b hb
    have := hr.table.rect.rows
    simp only at this
    omega
  · intro t ht
    obtain ⟨b, hb, rfl⟩ := List.mem_map.mp ht
    obtain ⟨n, hn, hr⟩ := key b hb
    exact hr.table.clean
  · intro ch hch
    obtain ⟨b, hb, rfl⟩ := List.mem_map.mp hch
    obtain ⟨n, hn, hr⟩ := key b hb
    obtain ⟨h1, h2, h3⟩ := hr.table.bins
    simp only at h1 h2 h3
    refine ⟨?_, ?_, ?_⟩ <;> intro e <;> simp [e] at h1 h2 h3 <;> omega

theorem columns_plain {k : String} (hkk : k ∈ Build.builtColumns) : PlainName k := by
  simp only [Build.builtColumns, List.mem_cons, List.not_mem_nil, or_false] at hkk
  rcases hkk with rfl | rfl | rfl | rfl | rfl | rfl | rfl | rfl | rfl | rfl <;> exact ⟨by decide, by decide⟩

theorem channels_tidy (hs : SoundPayload o pl) {bs : List Build.Built} (hbs : Build.buildAll o.fuel (buildEnv o pl) pl.1.common (channelsOf pl) = some (.ok bs)) :
    ∀ b ∈ bs, Tidy PlainName b.table := by
  obtain ⟨_, _, hk, _⟩ := Build.buildAll_fillable hs.env hs.common hs.descr hbs
  intro b hb
  refine ⟨by rw [hk b hb]; decide, ?_⟩
  rw [hk b hb]
  exact fun k hkk => columns_plain hkk

theorem cols_ok (h : Stores u o pl) {t : Table ℝ} (ht : Tidy PlainName t) : ColsOk u (t.map (fun c => (c.1, c.2, o.unit c.1))) := by
  have hk : (t.map (fun c => (c.1, c.2, o.unit c.1))).map Prod.fst = t.keys := by simp [Dict.keys, Function.comp_def]
  refine ⟨by rw [hk]; exact ht.nodup, ?_, ?_, ?_⟩
  · intro c hc
    obtain ⟨q, hq, rfl⟩ := List.mem_map.mp hc
    exact clean_of_dotless (ht.names q.1 (List.mem_map.mpr ⟨q, hq, rfl⟩)).1
  · rw [hk]
    intro hv
    exact (ht.names _ hv.1).2 rfl
  · intro c hc x hx
    obtain ⟨q, hq, rfl⟩ := List.mem_map.mp hc
    exact h.units q.1 x hx

theorem record_storable (h : Stores u o pl) {d : Build.Descr} (hd : d ∈ channelsOf pl) {b : Build.Built} (hb : Tidy PlainName b.table) :
    Storable u (Loaded.chanItem (record o d b)) := by
  obtain ⟨h1, h2, h3⟩ := h.channels d hd
  have hc := cols_ok h hb
  have hm : substr metaKey d.noise.value = false := clean_of_dotless h1
  have hdot : ∀ s : String, d.noise.value ++ metaKey ≠ s ∨ '.' ∈ s.toList := by
    intro s
    by_cases e : d.noise.value ++ metaKey = s
    · right; rw [← e, String.toList_append]; exact List.mem_append_right _ (by decide)
    · exact .inl e
  have hgrp : ∀ s : String, s.toList.getLast? ≠ some 'p' → d.noise.value ++ "_to_group" ≠ s := by
    intro s hs e
    rw [← e, String.toList_append, List.getLast?_append_of_ne_nil _ (by decide)] at hs
    exact hs (by decide)
  have hlen : ∀ {x y : String}, x.toList.length ≠ y.toList.length → d.noise.value ++ x ≠ d.noise.value ++ y := by
    intro x y hxy e
    have := congrArg (fun s : String => s.toList.length) e
    simp only [String.toList_append, List.length_append] at this
    omega
  have hself : ∀ {x : String}, x.toList.length ≠ 0 → d.noise.value ≠ d.noise.value ++ x := by
    intro x hx e
    have := congrArg (fun s : String => s.toList.length) e
    simp only [String.toList_append, List.length_append] at this
    omega
  unfold Loaded.chanItem record
  simp only [Storable, StorableAll]
  refine ⟨?_, ?_, ?_, by simp, ?_, ?_⟩
  · simp only [List.flatMap_cons, List.flatMap_nil, namesOf, List.append_nil, List.cons_append, List.nil_append, List.nodup_cons, List.mem_cons, List.not_mem_nil, or_false, not_or,
      List.nodup_nil, and_true, not_false_eq_true]
    refine ⟨⟨hself (by decide), hself (by decide), h2, h3⟩, ⟨hlen (by decide), ?_, ?_⟩, ⟨hgrp _ (by decide), hgrp _ (by decide)⟩, by decide⟩
    · exact (hdot _).resolve_right (by decide)
    · exact (hdot _).resolve_right (by decide)
  · intro p hp
    simp only [List.mem_cons, List.not_mem_nil, or_false] at hp
    rcases hp with rfl | rfl | rfl
    · exact hm
    · show substr metaKey "description" = false
      decide +kernel
    · show substr metaKey "built_instr" = false
      decide +kernel
  · intro p hp i c e
    simp only [List.mem_cons, List.not_mem_nil, or_false] at hp
    rcases hp with rfl | rfl | rfl
    · exact h1
    · cases e
    · cases e
  · intro hv
    simp only [List.map_cons, List.map_nil, List.mem_cons, List.not_mem_nil, or_false] at hv ⊢
    intro hu
    exfalso
    rcases hu with hu | hu | hu
    · rcases hv with hv | hv | hv
      · rw [← hv] at hu; exact absurd hu (by decide)
      · exact absurd hv (by decide)
      · exact absurd hv (by decide)
    · exact absurd hu (by decide)
    · exact absurd hu (by decide)
  · have hdescr := h.descr d hd
    have hbuilt := h.built b
    simp only [Storable] at hdescr hbuilt
    exact ⟨hc, hdescr, hbuilt, trivial⟩

/-! ## The results -/

theorem storableAll_append {a b : List (String × Item V)} (ha : StorableAll u a) (hb : StorableAll u b) : StorableAll u (a ++ b) := by
  induction a with
  | nil => exact hb
  | cons p a ih =>
    obtain ⟨k, x⟩ := p
    simp only [StorableAll, List.cons_append] at ha ⊢
    exact ⟨ha.1, ih ha.2⟩

theorem items_storable (h : Stores u o pl) {t : Pipeline.Target} (ht : ∀ r, t.table = some r → Tidy PlainName r) : Storable u (.dict (items o t)) := by
  obtain ⟨hr, hno⟩ := h.rest t
  unfold items
  cases hr' : t.table with
  | none => simpa using hr
  | some r =>
    have hc := cols_ok h (ht r hr')
    simp only [Storable] at hr ⊢
    obtain ⟨a1, a2, a3, a4, a5, a6⟩ := hr
    refine ⟨?_, ?_, ?_, ?_, ?_, ?_⟩
    · rw [List.flatMap_append, List.nodup_append]
      refine ⟨a1, by simp [namesOf], ?_⟩
      intro x hx y hy e
      simp only [List.flatMap_cons, List.flatMap_nil, namesOf, List.append_nil, List.mem_singleton] at hy
      exact hno (by rw [← hy, ← e]; exact hx)
    · intro p hp
      rcases List.mem_append.mp hp with hp | hp
      · exact a2 p hp
      · rw [List.mem_singleton.mp hp]; show substr metaKey "table" = false; decide +kernel
    · intro p hp i c e
      rcases List.mem_append.mp hp with hp | hp
      · exact a3 p hp i c e
      · rw [List.mem_singleton.mp hp] at e; cases e
    · intro v x hv
      rcases List.mem_append.mp hv with hv | hv
      · obtain ⟨s, hs, e⟩ := a4 v x hv
        exact ⟨s, List.mem_append_left _ hs, e⟩
      · simp at hv
    · intro hv hx
      simp only [List.map_append, List.map_cons, List.map_nil, List.mem_append, List.mem_singleton] at hv hx
      rcases a5 (hv.resolve_right (by decide)) (hx.resolve_right (by decide)) with ⟨v, x, hm⟩ | ⟨v, s, x, m1, m2, m3⟩
      · exact .inl ⟨v, x, List.mem_append_left _ hm⟩
      · exact .inr ⟨v, s, x, List.mem_append_left _ m1, List.mem_append_left _ m2, m3⟩
    · refine storableAll_append a6 ?_
      simp only [StorableAll, Storable, and_true]
      refine ⟨by simp [namesOf, metaKey], fun p hp => by rw [List.mem_singleton.mp hp]; show substr metaKey "table" = false; decide +kernel, ?_, by simp, by simp, hc⟩
      intro p hp i c e
      rw [List.mem_singleton.mp hp]
      show '.' ∉ "table".toList
      decide

theorem entriesOf_append (a b : List (String × Item V)) : entriesOf (a ++ b) = entriesOf a ++ entriesOf b := by
  induction a with
  | nil => rfl
  | cons p a ih =>
    obtain ⟨k, x⟩ := p
    cases x <;> simp [entriesOf, ih]

theorem get?_append_right {β : Type} (a b : List (String × β)) (k : String) (h : k ∉ a.map Prod.fst) : Dict.get? (a ++ b) k = Dict.get? b k := by
  induction a with
  | nil => rfl
  | cons p a ih =>
    obtain ⟨q, x⟩ := p
    simp only [List.map_cons, List.mem_cons, not_or] at h
    simp only [List.cons_append, Dict.get?]
    rw [if_neg (fun e => h.1 e.symm)]
    exact ih h.2

theorem columnIn_items {g : Hdf5.Group V} {name : String} {t : Pipeline.Target} {r : Table ℝ} (hr : t.table = some r) (hno : "table" ∉ (o.rest t).flatMap namesOf)
    (h : savedAs g name = some (nodeOf (.dict (items o t)))) (c : String) : columnIn g name c = r.get? c := by
  unfold columnIn
  have e1 : (Node.group g).at ["targets", name, "table", "table_to_group", c, "value"] =
      (nodeOf (.dict (items o t))).at ["table", "table_to_group", c, "value"] := by
    rw [savedAs_eq] at h
    rw [Node.at]
    revert h
    cases Dict.get? g "targets" with
    | none => intro h; cases h
    | some n =>
      cases n with
      | ds d => intro h; cases h
      | group sub =>
        intro h
        simp only at h ⊢
        rw [Node.at]
        simp only [h]
  rw [e1]
  unfold items
  rw [hr]
  simp only [nodeOf, entriesOf_append]
  rw [Node.at]
  have hk : "table" ∉ (entriesOf (o.rest t)).map Prod.fst := by
    have := keys_entriesOf (o.rest t)
    unfold Dict.keys at this
    rw [this]
    exact hno
  rw [get?_append_right _ _ _ hk]
  simp only [entriesOf, nodeOf]
  have e2 : ∀ x : Node V, Dict.get? [("table", x)] "table" = some x := fun x => rfl
  rw [e2]
  simp only
  rw [Node.at]
  have e3 : ∀ (x y z : Node V), Dict.get? ([("table", x), ("table" ++ metaKey, y), ("table" ++ "_to_group", z)] ++ []) "table_to_group" = some z := by
    intro x y z
    rfl
  rw [e3]
  simp only
  rw [Node.at]
  have e4 : ∀ (l : Table ℝ), Dict.get? (columnGroups (l.map (fun c => (c.1, c.2, o.unit c.1)))) c =
      (l.get? c).map (fun v => Node.group (columnGroup (c, v, o.unit c))) := by
    intro l
    induction l with
    | nil => rfl
    | cons p l ih =>
      obtain ⟨k, v⟩ := p
      by_cases e : k = c
      · subst e
        simp [columnGroups, Dict.get?]
      · simp only [columnGroups, Dict.get?, List.map_cons] at ih ⊢
        rw [if_neg e, if_neg e]
        exact ih
  rw [e4]
  cases hc : r.get? c with
  | none => rfl
  | some v =>
    simp only [Option.map_some]
    rw [Node.at]
    unfold columnGroup
    cases o.unit c with
    | none => simp [Dict.get?, Node.at]
    | some x => simp [Dict.get?, Node.at]

/-! ## The steps -/

theorem collect_distinct (ts : List Pipeline.Target) (h : (ts.map Pipeline.Target.name).Nodup) : (Pipeline.collect (ts.map some)).map Prod.snd = ts.map some := by
  have key : ∀ (ts : List Pipeline.Target) (d : Dict (Option String) (Option Pipeline.Target)), (ts.map Pipeline.Target.name).Nodup →
      (∀ t ∈ ts, some t.name ∉ d.keys) →
      ((ts.map some).foldl (fun d r => Dict.set d (r.map Pipeline.Target.name) r) d).map Prod.snd = d.map Prod.snd ++ ts.map some := by
    intro ts
    induction ts with
    | nil => intro d _ _; simp
    | cons t ts ih =>
      intro d hn hd
      simp only [List.map_cons, List.nodup_cons] at hn
      simp only [List.map_cons, List.foldl_cons, Option.map_some]
      have happ : ∀ (d : Dict (Option String) (Option Pipeline.Target)) k v, k ∉ d.keys → Dict.set d k v = d ++ [(k, v)] := by
        intro d k v
        induction d with
        | nil => intro _; rfl
        | cons q d ih2 =>
          intro hk
          rw [Dict.keys_cons, List.mem_cons, not_or] at hk
          obtain ⟨q1, q2⟩ := q
          rw [Dict.set, if_neg (fun e => hk.1 e.symm), ih2 hk.2]
          rfl
      rw [ih _ hn.2, happ d _ _ (hd t (by simp))]
      · simp
      · intro t' ht'
        rw [Dict.mem_keys_set, not_or]
        refine ⟨?_, hd t' (by simp [ht'])⟩
        intro e
        exact hn.1 (List.mem_map.mpr ⟨t', ht', by simpa using e⟩)
  have := key ts [] h (by simp [Dict.keys])
  simpa [Pipeline.collect] using this

theorem build_records {bs : List Build.Built} (hbs : Build.buildAll o.fuel (buildEnv o pl) pl.1.common (channelsOf pl) = some (.ok bs)) :
    (env o).build pl = (List.zipWith (record o) (channelsOf pl) bs).map .ok := by
  have hf2 := Build.buildAll_mem hbs
  show (channelsOf pl).map (buildOne o pl) = _
  clear hbs
  revert hf2
  generalize channelsOf pl = ds
  intro hf2
  induction hf2 with
  | nil => rfl
  | cons h _ ih =>
    rw [List.map_cons, ih]
    simp [buildOne, h]

/-- The payload is written. -/
theorem payload_ok (h : Stores u o pl) (hs : SoundPayload o pl) {bs : List Build.Built}
    (hbs : Build.buildAll o.fuel (buildEnv o pl) pl.1.common (channelsOf pl) = some (.ok bs)) : (writePayload (env o) pl (withInfo (env o) [])).2 = .ok () := by
  have hlen := (Build.buildAll_mem hbs).length_eq
  have htidy := channels_tidy hs hbs
  obtain ⟨g', q, e, _⟩ := Loaded.payload_written u (env o) pl _ (build_records hbs) h.payload (by
      intro c hc
      obtain ⟨i, hi, rfl⟩ := List.mem_iff_getElem.mp hc
      rw [List.getElem_zipWith]
      exact record_storable h (List.getElem_mem _) (htidy _ (List.getElem_mem _))) (by
      have : (List.zipWith (record o) (channelsOf pl) bs).map ChanRec.name = (channelsOf pl).map (fun d => d.noise.value) := by
        apply List.ext_getElem
        · simp [hlen]
        · intro i h1 h2
          simp [record]
      rw [this]
      exact hs.names) (withInfo (env o) []) (by rw [withInfo_targets (env o) _ _ (by decide)]; rfl)
  rw [e]

theorem fresh_row (row : TargetList.Target ℝ) : Pipeline.Fresh (targetOf o row) := ⟨rfl, rfl⟩

theorem pipelineToDict_unplotted (w : Pipeline.World) (p : Pipeline.Payload) {x : Pipeline.RunOpts} (hx : x.plot = false) (s : Pipeline.Shared) (t : Pipeline.Target) :
    Pipeline.pipelineToDict w p x s t = Pipeline.pipelineToDict w p { x with draw := fun _ => .ok () } s t := by
  have : ∀ t, Pipeline.plotTarget x t = Pipeline.plotTarget { x with draw := fun _ => .ok () } t := by
    intro t; simp [Pipeline.plotTarget, hx]
  unfold Pipeline.pipelineToDict
  simp only [this]

theorem runList_unplotted (w : Pipeline.World) (p : Pipeline.Payload) {x : Pipeline.RunOpts} (hx : x.plot = false) : ∀ (ts : List Pipeline.Target) (s : Pipeline.Shared),
    Pipeline.runList w p x s ts = Pipeline.runList w p { x with draw := fun _ => .ok () } s ts
  | [], s => rfl
  | t :: ts, s => by
    simp only [Pipeline.runList, ← pipelineToDict_unplotted w p hx, runList_unplotted w p hx ts]

theorem runSteps_keeps {Q : Pipeline.St → Prop} : ∀ (fs : List Pipeline.Step), (∀ f ∈ fs, ∀ s, Q s → Q (f s).1) → ∀ s, Q s → Q (Pipeline.runSteps fs s).1
  | [], _, s, h => h
  | f :: fs, hf, s, h => by
    have h1 := hf f (by simp) s h
    unfold Pipeline.runSteps
    revert h1
    generalize f s = q
    obtain ⟨s', r⟩ := q
    intro h1
    cases r with
    | error e => exact h1
    | ok u => exact runSteps_keeps fs (fun g hg => hf g (by simp [hg])) s' h1

theorem updateWith_name {t t' : Pipeline.Target} {n n' : _} (h : Pipeline.updateWith t n = .ok (t', n')) : t'.name = t.name := by
  unfold Pipeline.updateWith at h
  split at h
  · cases h; rfl
  · cases h

theorem step_name (w : Pipeline.World) (p : Pipeline.Payload) (name : String) :
    ∀ f ∈ Pipeline.steps w p, ∀ s : Pipeline.St, s.target.name = name → (f s).1.target.name = name := by
  intro f hf s hs
  unfold Pipeline.steps at hf
  simp only [List.mem_append, List.mem_cons, List.not_mem_nil, or_false] at hf
  rcases hf with (rfl | hf) | rfl | rfl | rfl | rfl
  · unfold Pipeline.prepareTarget
    split <;> exact hs
  · split at hf
    · rw [List.mem_singleton.mp hf]
      exact hs
    · cases hf
  · unfold Pipeline.propagateForeground
    split
    · exact hs
    · split
      · exact hs
      · split
        · exact hs
        · rename_i h; exact (updateWith_name h).trans hs
  · unfold Pipeline.loadSource
    split
    · exact hs
    · split <;> exact hs
  · unfold Pipeline.propagateTarget
    split
    · exact hs
    · split
      · exact hs
      · split
        · exact hs
        · split
          · exact hs
          · rename_i h; exact (updateWith_name h).trans hs
  · unfold Pipeline.noiseStep
    split
    · exact hs
    · split <;> exact hs

/-- An observation keeps the name of the target. -/
theorem observe_name {w : Pipeline.World} {p : Pipeline.Payload} {tabs : List (Table ℝ)} {t t' : Pipeline.Target} (h : (Pipeline.observe w p tabs t).2 = .ok t') : t'.name = t.name := by
  have := runSteps_keeps (Q := fun s => s.target.name = t.name) (Pipeline.steps w p) (step_name w p t.name) ⟨tabs, t⟩ rfl
  unfold Pipeline.observe at h
  revert this h
  generalize Pipeline.runSteps (Pipeline.steps w p) ⟨tabs, t⟩ = q
  intro h this
  obtain ⟨s, r⟩ := q
  cases r with
  | error e => cases h
  | ok _ => cases h; exact this

/-- What is observed. -/
theorem observed {bs : List Build.Built} (h : Stores u o pl) (hs : SoundPayload o pl)
    (hbs : Build.buildAll o.fuel (buildEnv o pl) pl.1.common (channelsOf pl) = some (.ok bs)) {tabs : List (Table ℝ)} (htabs : tables o bs = .ok tabs)
    (hb : Pipeline.Built (payloadOf pl bs) tabs) (htidy : ∀ x ∈ tabs, Tidy PlainName x) (hplot : o.opts.plot = false) (rows : R)
    (hsched : ∀ i < rows.length, i ∈ o.sched) (hk : KnowGrid o pl.2) (hn : (rows.map (fun row => (targetOf o row).name)).Nodup)
    (res : TargetList.Target ℝ → Pipeline.Target)
    (hres : ∀ row ∈ rows, (Pipeline.observe (worldOf o pl) (payloadOf pl bs) tabs (targetOf o row)).2 = .ok (res row)) :
    ∃ ts : List Pipeline.Target, ((env o).observe pl rows).2.map Prod.snd = ts.map some ∧ (ts.map Pipeline.Target.name).Nodup ∧
      (∀ t ∈ ts, ∀ r, t.table = some r → Tidy PlainName r) ∧ List.Forall₂ (fun row t => Pipeline.SameTarget t (res row)) rows ts := by
  have hnm := result_names h hs hbs
  set w := worldOf o pl with hw
  set pay := payloadOf pl bs with hpay
  set sh : Pipeline.Shared := ⟨tabs, .info⟩ with hsh
  have hb' : Pipeline.Built pay sh.tabs := hb
  have halone : ∀ row ∈ rows, Pipeline.alone w pay o.opts sh (targetOf o row) = some (res row) := by
    intro row hrow
    have := hres row hrow
    unfold Pipeline.alone Pipeline.pipelineToDict
    rw [hsh]
    revert this
    generalize Pipeline.observe w pay tabs (targetOf o row) = q
    intro this
    obtain ⟨q1, q2⟩ := q
    simp only at this
    subst this
    simp [Pipeline.plotTarget, hplot]
  have hname : ∀ row ∈ rows, (res row).name = (targetOf o row).name := fun row hrow => observe_name (hres row hrow)
  have hrs : ∃ rs : List (Option Pipeline.Target), ((env o).observe pl rows).2 = Pipeline.collect rs ∧
      List.Forall₂ (fun row r => Pipeline.SameResult r (some (res row))) rows rs ∧ ∀ t r, some t ∈ rs → t.table = some r → Tidy PlainName r := by
    have e0 : ((env o).observe pl rows).2 = (Pipeline.observeTargetlistOn o.start o.setting pl.2 pay o.opts o.nThread o.sched sh (rows.map (targetOf o))).2 := by
      show (observe o pl rows).2 = _
      unfold observe observeList startOf
      simp only [hbs, htabs, hplot, Bool.false_eq_true, if_false]
      rfl
    have e1 : ((env o).observe pl rows).2 = (Pipeline.observeTargetlist w pay o.opts o.nThread o.sched sh (rows.map (targetOf o))).2 := by
      rw [e0]
      by_cases h1 : o.nThread ≤ 1
      · rw [Pipeline.on_one _ _ _ h1]; rfl
      · rcases hk with hk | hk | hk
        · rw [hk, Pipeline.on_fork]; rfl
        · exact absurd hk h1
        · cases hst : o.start with
          | fork => rw [Pipeline.on_fork]; rfl
          | fresh => rw [Pipeline.on_fresh _ _ (by omega), ← hk]; rfl
    rw [e1]
    unfold Pipeline.observeTargetlist
    split
    · refine ⟨_, rfl, ?_, ?_⟩
      · rw [Pipeline.pool_results w pay o.opts sh _ _ (by simpa using hsched), List.map_map]
        clear hsched hn hk e0 e1
        induction rows with
        | nil => exact .nil
        | cons row rows ih =>
          refine .cons ?_ (ih (fun r hr => hres r (by simp [hr])) (fun r hr => halone r (by simp [hr])) (fun r hr => hname r (by simp [hr])))
          rw [Function.comp, halone row (by simp)]
          exact Pipeline.SameResult.refl _
      · intro t r ht hr
        rw [Pipeline.pool_results w pay o.opts sh _ _ (by simpa using hsched), List.map_map] at ht
        obtain ⟨row, _, ht⟩ := List.mem_map.mp ht
        exact Pipeline.alone_tidy hnm w o.opts (s := sh) htidy (fresh_row row) ht hr
    · refine ⟨(Pipeline.runList w pay o.opts sh (rows.map (targetOf o))).2, rfl, ?_, ?_⟩
      · rw [runList_unplotted w pay hplot]
        have hi := Pipeline.targets_independent (w := w) (o := { o.opts with draw := fun _ => .ok () }) hb' (fun _ _ _ => rfl) (rows.map (targetOf o)) (by
          intro t ht
          obtain ⟨row, _, rfl⟩ := List.mem_map.mp ht
          exact fresh_row row)
        rw [List.forall₂_map_left_iff] at hi
        rw [List.forall₂_iff_get] at hi ⊢
        refine ⟨hi.1, fun i h1 h2 => ?_⟩
        have := hi.2 i h1 h2
        unfold Pipeline.alone at this
        rw [← pipelineToDict_unplotted w pay hplot] at this
        have ha := halone (rows.get ⟨i, h1⟩) (List.getElem_mem _)
        unfold Pipeline.alone at ha
        rwa [ha] at this
      · intro t r ht hr
        refine Pipeline.runList_tidy hnm w o.opts _ sh htidy ?_ t r ht hr
        intro t ht
        obtain ⟨row, _, rfl⟩ := List.mem_map.mp ht
        exact fresh_row row
  obtain ⟨rs, e, hf, ht⟩ := hrs
  have hts : ∃ ts : List Pipeline.Target, rs = ts.map some ∧ List.Forall₂ (fun row t => Pipeline.SameTarget t (res row)) rows ts := by
    clear e ht hn hsched halone hres hname
    induction hf with
    | nil => exact ⟨[], rfl, .nil⟩
    | cons h _ ih =>
      obtain ⟨ts, rfl, hf⟩ := ih
      cases h with
      | observed h => exact ⟨_ :: ts, rfl, .cons h hf⟩
  obtain ⟨ts, rfl, hf2⟩ := hts
  have hnames : ts.map Pipeline.Target.name = rows.map (fun row => (targetOf o row).name) := by
    clear e ht hn hsched halone hres hf
    induction hf2 with
    | nil => rfl
    | cons h _ ih =>
      rw [List.map_cons, List.map_cons, ih (fun r hr => hname r (by simp [hr])), h.name, hname _ (by simp)]
  refine ⟨ts, by rw [e]; exact collect_distinct ts (by rw [hnames]; exact hn), by rw [hnames]; exact hn, ?_, hf2⟩
  intro t htm r hr
  exact ht t r (List.mem_map.mpr ⟨t, htm, rfl⟩) hr

/-! ## What is read -/

/-- C106: what the observation reads of a row of the list: the name, the quantities `D`, `Teff`, `M` and `R` in the units of the code (nothing if there is no such quantity), the
coordinates `ra` and `dec`, and the names of all attributes of the star. -/
theorem target_read (o : Outside) (row : TargetList.Target ℝ) :
    (targetOf o row).name = String.ofList (o.list.str row.name) ∧
    (∀ v x, row.star.get? "D".toList = some (.qty v x) → (targetOf o row).star.D = o.number x v) ∧
    (∀ v x, row.star.get? "Teff".toList = some (.qty v x) → (targetOf o row).star.Teff = o.number x v) ∧
    (∀ v x, row.star.get? "M".toList = some (.qty v x) → (targetOf o row).star.M = o.number x v) ∧
    (∀ v x, row.star.get? "R".toList = some (.qty v x) → (targetOf o row).star.R = o.number x v) ∧
    ((∀ v x, row.star.get? "D".toList ≠ some (.qty v x)) → (targetOf o row).star.D = none) ∧
    ((∀ v x, row.star.get? "Teff".toList ≠ some (.qty v x)) → (targetOf o row).star.Teff = none) ∧
    ((∀ v x, row.star.get? "M".toList ≠ some (.qty v x)) → (targetOf o row).star.M = none) ∧
    ((∀ v x, row.star.get? "R".toList ≠ some (.qty v x)) → (targetOf o row).star.R = none) ∧
    (targetOf o row).sky.ra = (row.star.get? "ra".toList).map o.angle ∧ (targetOf o row).sky.dec = (row.star.get? "dec".toList).map o.angle ∧
    (∀ k, k ∈ row.star.keys → String.ofList k ∈ (targetOf o row).attrs) ∧ (targetOf o row).table = none ∧ (targetOf o row).sky.transmission = none ∧
    (targetOf o row).sky.foreground = none := by
  have hn : ∀ k, (∀ v x, row.star.get? k ≠ some (.qty v x)) → starNumber o row k = none := by
    intro k h
    unfold starNumber
    split
    · rename_i v x e; exact absurd e (h v x)
    · rfl
  have hs : ∀ k v x, row.star.get? k = some (.qty v x) → starNumber o row k = o.number x v := by
    intro k v x h
    unfold starNumber
    rw [h]
  refine ⟨rfl, hs keyD, hs keyT, hs keyM, hs keyR, hn keyD, hn keyT, hn keyM, hn keyR, rfl, rfl, ?_, rfl, rfl, rfl⟩
  intro k hk
  exact List.mem_map_of_mem hk

/-- C106: the targets of a run are those of `LoadTargetList` (`TargetList.load`) on the file. -/
theorem targets_read (o : Outside) (m : Mach V) (q : Path) (f : File V) (hf : m.cur.get? q = some f) (hc : o.list.csv q.base = o.csv f) (hx : o.list.xlsx q.base = o.xlsx f) :
    loadTargets (env o) (.file q) m = TargetList.load o.list (.file q.base (ext q.base)) := by
  simp only [loadTargets, TargetList.load, TargetList.loadFile]
  by_cases h1 : ext q.base = ".csv"
  · simp only [h1, if_true, hf, hc, env, loadCsv]
    cases o.csv f with
    | error e => cases e <;> rfl
    | ok t =>
      dsimp only
      rcases TargetList.csvEither o.list t with e | r
      · cases e <;> rfl
      · rfl
  · by_cases h2 : ext q.base = ".xlsx"
    · simp only [h2, show (".xlsx" : String) ≠ ".csv" by decide, if_false, if_true, hf, hx, env, loadXlsx]
      cases o.xlsx f with
      | error e => cases e <;> rfl
      | ok t =>
        dsimp only
        rcases TargetList.xlsxList o.list t with e | r
        · cases e <;> rfl
        · rfl
    · simp only [h1, h2, if_false]

/-! ## The output file -/

/-- The names of the elements that emit, needed to separate their contributions. -/
structure Elements (o : Outside) (pl : P) : Prop where
  quiet : Build.QuietElements (buildEnv o pl) pl.1.common (channelsOf pl)
  plain : ∀ d ∈ channelsOf pl, ∀ el ∈ Build.emitters (buildEnv o pl) pl.1.common d, '.' ∉ el.toList

/-- The tables the targets are observed with. -/
theorem tables_ok (hs : SoundPayload o pl) (hfull : o.full = true → Elements o pl) {bs : List Build.Built}
    (hbs : Build.buildAll o.fuel (buildEnv o pl) pl.1.common (channelsOf pl) = some (.ok bs)) :
    ∃ tabs, tables o bs = .ok tabs ∧ Pipeline.Built (payloadOf pl bs) tabs ∧ ∀ x ∈ tabs, Tidy PlainName x := by
  have hb := channels_built hs hbs
  have htidy := channels_tidy hs hbs
  unfold tables Contrib.startTables
  cases hf : o.full with
  | false =>
    refine ⟨_, by simp, hb, ?_⟩
    intro x hx
    obtain ⟨b, hbm, rfl⟩ := List.mem_map.mp hx
    exact htidy b hbm
  | true =>
    obtain ⟨tabs, h1, h2, h3⟩ := Build.split_tables hs.env hs.common hs.descr hs.names (hfull hf).quiet hbs
    refine ⟨tabs, by simpa using h1, ⟨by simp [payloadOf, h2], fun t ht => (h3 t ht).1, fun t ht => (h3 t ht).2.1, hb.bins⟩, ?_⟩
    intro x hx
    obtain ⟨_, _, hn, hk⟩ := h3 x hx
    refine ⟨hn, ?_⟩
    intro k hkk
    rcases hk k hkk with h | ⟨d, hd, el, hel, rfl⟩
    · exact columns_plain h
    · exact ⟨plain_append ((hfull hf).plain d hd el hel) (by decide), not_value (.inl ⟨by decide, by decide⟩)⟩

/-- C106, C108: a run without figures whose payload is an XML file with sound channels that can be built, and whose targets are the rows of a csv file, with distinct names, every one of
which can be observed alone: the run ends without an exception, and the output file has every target's table: the columns that observing this target alone with the channels gives,
with the same contents. (The column `sky TR` alone may depend on earlier targets.) With `full_contrib` the channels' tables are those with the separate contributions. -/
theorem whole_file (hu : Stores u o pl) (hs : SoundPayload o pl) (hfull : o.full = true → Elements o pl) {a : Args P R} {fs : FS V} {p q out : Path} {fp fq : File V} (h : Plain a fs p q out fp fq)
    (hplot : o.opts.plot = a.plot) (hpl : loadXml o fp = .ok pl) {bs : List Build.Built}
    (hbs : Build.buildAll o.fuel (buildEnv o pl) pl.1.common (channelsOf pl) = some (.ok bs)) {tabs : List (Table ℝ)} (htabs : tables o bs = .ok tabs) {rows : R} (hrows : loadCsv o fq = .ok rows)
    (hsched : ∀ i < rows.length, i ∈ o.sched) (hk : KnowGrid o pl.2) (hn : (rows.map (fun row => (targetOf o row).name)).Nodup)
    (hobs : ∀ row ∈ rows, ∃ t, (Pipeline.observe (worldOf o pl) (payloadOf pl bs) tabs (targetOf o row)).2 = .ok t) :
    (run o a fs).2 = .ok () ∧ ∃ g, (run o a fs).1.cur.get? out = some (.h5 g) ∧ ∀ row ∈ rows, ∀ t,
      (Pipeline.observe (worldOf o pl) (payloadOf pl bs) tabs (targetOf o row)).2 = .ok t →
      ∀ r, t.table = some r → ∃ r', Pipeline.SameTable r' r ∧ ∀ c, columnIn g (targetOf o row).name c = r'.get? c := by
  classical
  obtain ⟨res, hres⟩ : ∃ res : TargetList.Target ℝ → Pipeline.Target, ∀ row ∈ rows,
      (Pipeline.observe (worldOf o pl) (payloadOf pl bs) tabs (targetOf o row)).2 = .ok (res row) := by
    refine ⟨fun row => if hr : row ∈ rows then (hobs row hr).choose else targetOf o row, fun row hr => ?_⟩
    simp only [dif_pos hr]
    exact (hobs row hr).choose_spec
  obtain ⟨tabs', ht1, ht2, ht3⟩ := tables_ok hs hfull hbs
  have et : tabs' = tabs := by
    rw [htabs] at ht1
    exact (Except.ok.inj ht1).symm
  subst et
  obtain ⟨ts, e1, e2, e3, e4⟩ := observed hu hs hbs htabs ht2 ht3 (by rw [hplot, h.noplot]) rows hsched hk hn res hres
  have hrange : (env o).range pl = .ok () := by
    show separate o pl = _
    unfold separate
    simp only [hbs, htabs]
  obtain ⟨h1, g, h2, _, h3⟩ := run_saves_all u (env o) h pl hpl (payload_ok hu hs hbs) hrange rows hrows ts e1 e2 (fun t ht => items_storable hu (e3 t ht))
  refine ⟨h1, g, h2, ?_⟩
  intro row hrow t ht r hr
  obtain ⟨i, hi, rfl⟩ := List.mem_iff_getElem.mp hrow
  have hl := e4.length_eq
  have hi' : i < ts.length := by omega
  have hsame : Pipeline.SameTarget ts[i] (res rows[i]) := (List.forall₂_iff_get.mp e4).2 i hi hi'
  have ht' : res rows[i] = t := by
    have := hres _ hrow
    rw [ht] at this
    exact (Except.ok.inj this).symm
  rw [ht'] at hsame
  have htab := hsame.table
  have hsome := hsame.hasTable
  rw [hr] at htab hsome
  obtain ⟨r', hr'⟩ := Option.isSome_iff_exists.mp hsome
  rw [hr'] at htab
  refine ⟨r', htab, fun c => ?_⟩
  have hsv := h3 ts[i] (List.getElem_mem _)
  have hname : (env o).name ts[i] = (targetOf o rows[i]).name := hsame.name.trans (observe_name ht)
  rw [hname] at hsv
  exact columnIn_items hr' (hu.rest _).2 hsv c

/-! ## Black bodies -/

theorem same_signalSum {r r' : Table ℝ} (h : Pipeline.SameTable r' r) (i : ℕ) : Pipeline.signalSum r' i = Pipeline.signalSum r i := by
  have hkeys : ∀ t : Table ℝ, t.keys.filter (fun k => substr "signal" k && !substr "_noise" k) =
      (Dict.keys (t.filter (fun q => q.1 ≠ "sky TR"))).filter (fun k => substr "signal" k && !substr "_noise" k) := by
    intro t
    induction t with
    | nil => rfl
    | cons q t ih =>
      obtain ⟨k, v⟩ := q
      by_cases e : k = "sky TR"
      · subst e
        rw [Dict.keys_cons, List.filter_cons_of_neg (by simpa using fun hh => absurd hh (by decide)), List.filter_cons_of_neg (by simp)]
        exact ih
      · rw [List.filter_cons_of_pos (by simpa using e), Dict.keys_cons, Dict.keys_cons, List.filter_cons, List.filter_cons, ih]
  unfold Pipeline.signalSum
  have e : r'.keys.filter (fun k => substr "signal" k && !substr "_noise" k) = r.keys.filter (fun k => substr "signal" k && !substr "_noise" k) := by
    rw [hkeys r', hkeys r]
    unfold Pipeline.SameTable at h
    rw [h]
  rw [e]
  congr 1
  apply List.map_congr_left
  intro k hk
  refine Pipeline.cellAt_congr (h.get? ?_) i
  rintro rfl
  rw [List.mem_filter] at hk
  exact absurd hk.2 (by decide)

theorem same_budget {c : Build.Common} {ds : List Build.Descr} {well fw freq dark rn : NoiseChannel → ℝ} {r r' : Table ℝ} (h : Pipeline.SameTable r' r)
    (hb : Build.HasBudget c ds well fw freq dark rn r) : Build.HasBudget c ds well fw freq dark rn r' := by
  obtain ⟨names, tot, h1, h2, h3, h4, h5⟩ := hb
  have hc : ∀ k, k ≠ "sky TR" → ∀ i, Pipeline.cellAt r' k i = Pipeline.cellAt r k i := fun k hk i => Pipeline.cellAt_congr (h.get? hk) i
  refine ⟨names, tot, (h.get? (by decide)).trans h1, (h.get? (by decide)).trans h2, h3, h4, ?_⟩
  intro d hd i hi
  obtain ⟨b1, b2, b3, b4, b5⟩ := h5 d hd i hi
  have f1 := hc "frameTime" (by decide) i
  have f2 := hc "MaxSignal_inPixel" (by decide) i
  have f3 := hc "star_signal_inAperture" (by decide) i
  have f4 := hc "WindowSize" (by decide) i
  have f5 := same_signalSum h i
  refine ⟨by rw [f1]; exact b1, by rw [f1]; exact b2, by rw [f1, f2]; exact b3, by rw [f3]; exact b4, ?_⟩
  rw [f1, f3, f4, f5]
  exact b5

/-- A row of the catalogue that is a star at a distance, a black body, with what the metadata of the result need, through whose sky every channel is aimed at some stretch of
wavelengths. -/
structure Star (o : Outside) (pl : P) (sec : Foreground.Section ℝ) (row : TargetList.Target ℝ) : Prop where
  star : ∃ D T M R, starNumber o row keyD = some D ∧ starNumber o row keyT = some T ∧ starNumber o row keyM = some M ∧ starNumber o row keyR = some R ∧ D ≠ 0 ∧ 0 < T ∧ R ≠ 0
  catalogued : ∀ k ∈ ["name", "M", "Teff", "R", "D"], k ∈ (targetOf o row).attrs
  sky : Build.SkyThere (worldOf o pl) (targetOf o row) sec
  aimed : ∀ sky, Foreground.estimateForegrounds (worldOf o pl).consts.B (worldOf o pl).maps (worldOf o pl).skyGrid sec (targetOf o row).sky = (sky, .ok ()) →
    ∀ d ∈ channelsOf pl, ∀ m x, Build.build m (buildEnv o pl) pl.1.common false d = some (.ok x) →
      ∃ L U, Build.Aimed (buildEnv o pl) pl.1.common d pl.1.wlMin pl.1.wlMax (Instrument.logspace pl.1.wlMin pl.1.wlMax pl.2) sky.transmission x L U

/-- C106 (black bodies): a payload file of complete, sound channels and a csv list of black bodies: the whole run ends without an exception, and in the output file the table of every
star has the noise budget of every channel. (The loops of the builder end: from some number of steps on, the number does not matter. With `full_contrib` see `whole_contrib`.) -/
theorem whole_run (hu : Stores u o pl) (hs : SoundPayload o pl) (hfull : o.full = false) (hpp : 0 < o.build.perPhoton) (hat : 0 < pl.1.common.atel) (hds : channelsOf pl ≠ [])
    (hcp : ∀ d ∈ channelsOf pl, Build.Complete (buildEnv o pl) pl.1.common d) (hw : Build.PayloadWorld (worldOf o pl) pl.1.wlMin pl.1.wlMax pl.2)
    (hin : ∀ d ∈ channelsOf pl, Build.Within pl.1.wlMin pl.1.wlMax pl.2 d) {well fw freq dark rn : NoiseChannel → ℝ}
    (hbud : Build.Budgets pl.1.common (channelsOf pl) well fw freq dark rn) {sec : Foreground.Section ℝ} (hsec : pl.1.foreground = some sec) {src : Source.Descr}
    (hsrc : pl.1.source = some src) (hby : src.bytes = false) (hcu : Source.lower src.value ≠ "custom") (hph : Source.lower src.value ≠ "phoenix") :
    ∃ fuel, ∀ m, fuel ≤ m → ∀ {a : Args P R} {fs : FS V} {p q out : Path} {fp fq : File V}, Plain a fs p q out fp fq → o.opts.plot = a.plot → loadXml o fp = .ok pl →
      ∀ {rows : R}, loadCsv o fq = .ok rows → (∀ i < rows.length, i ∈ o.sched) → KnowGrid o pl.2 → (rows.map (fun row => (targetOf o row).name)).Nodup →
      (∀ row ∈ rows, Star o pl sec row) →
      (run { o with fuel := m } a fs).2 = .ok () ∧ ∃ g, (run { o with fuel := m } a fs).1.cur.get? out = some (.h5 g) ∧
        ∀ row ∈ rows, ∃ r, Build.HasBudget pl.1.common (channelsOf pl) well fw freq dark rn r ∧ ∀ c, columnIn g (targetOf o row).name c = r.get? c := by
  obtain ⟨fuel, bs, hbs, hobs⟩ := Build.blackbody_observation hs.env hpp hs.common hat hds hs.descr hcp hs.names hw hin hbud (sec := sec) (src := src) hby hcu hph
  refine ⟨fuel, fun m hm a fs p q out fp fq hp hplot hpl rows hrows hsched hk hn hstar => ?_⟩
  have hpay : payloadOf pl bs = ⟨bs.map Build.Built.ch, some sec, some src, ⟨pl.1.wlMin, some 1⟩, ⟨pl.1.wlMax, some 1⟩⟩ := by
    unfold payloadOf
    rw [hsec, hsrc]
  have key : ∀ row ∈ rows, ∃ t r, (Pipeline.observe (worldOf o pl) (payloadOf pl bs) (bs.map Build.Built.table) (targetOf o row)).2 = .ok t ∧ t.table = some r ∧
      Build.HasBudget pl.1.common (channelsOf pl) well fw freq dark rn r := by
    intro row hrow
    have h := hstar row hrow
    obtain ⟨D, T, M, R, h1, h2, h3, h4, hD, hT, hR⟩ := h.star
    obtain ⟨tabs', t', r, e, _, hr, hb⟩ := hobs (targetOf o row) D T M R (by show (⟨_, _, _, _⟩ : Source.StarData ℝ) = _; rw [h1, h2, h3, h4]) hD hT hR ⟨fresh_row row, h.catalogued⟩ h.sky
      (fun sky hsky d hd x hx => h.aimed sky hsky d hd fuel x hx)
    refine ⟨t', r, ?_, hr, hb⟩
    rw [hpay, e]
  have hu' : Stores u { o with fuel := m } pl := ⟨hu.payload, hu.channels, hu.descr, hu.built, hu.rest, hu.units, hu.foregrounds, hu.custom, hu.own⟩
  have hs' : SoundPayload { o with fuel := m } pl := ⟨hs.env, hs.common, hs.descr, hs.names⟩
  obtain ⟨r1, g, r2, r3⟩ := whole_file hu' hs' (fun h => absurd h (by simp [hfull])) hp hplot hpl (hbs m hm) (tabs := bs.map Build.Built.table)
    (by simp [tables, Contrib.startTables, hfull]) hrows hsched hk hn (fun row hrow => by
    obtain ⟨t, _, ht, _⟩ := key row hrow
    exact ⟨t, ht⟩)
  refine ⟨r1, g, r2, ?_⟩
  intro row hrow
  obtain ⟨t, r, ht, hr, hb⟩ := key row hrow
  obtain ⟨r', h1, h2⟩ := r3 row hrow t ht r hr
  exact ⟨r', same_budget h1 hb, h2⟩

/-! ## Separate contributions -/

theorem same_filter {r s : Table ℝ} (h : Pipeline.SameTable s r) {Q : String → Bool} (hQ : Q "sky TR" = false) : s.keys.filter Q = r.keys.filter Q := by
  have hkeys : ∀ t : Table ℝ, t.keys.filter Q = (Dict.keys (t.filter (fun q => q.1 ≠ "sky TR"))).filter Q := by
    intro t
    induction t with
    | nil => rfl
    | cons q t ih =>
      obtain ⟨k, v⟩ := q
      by_cases e : k = "sky TR"
      · subst e
        rw [Dict.keys_cons, List.filter_cons_of_neg (by simp [hQ]), List.filter_cons_of_neg (by simp)]
        exact ih
      · rw [List.filter_cons_of_pos (by simpa using e), Dict.keys_cons, Dict.keys_cons, List.filter_cons, List.filter_cons, ih]
  rw [hkeys s, hkeys r]
  unfold Pipeline.SameTable at h
  rw [h]

theorem same_mem {r s : Table ℝ} (h : Pipeline.SameTable s r) {k : String} (hk : k ≠ "sky TR") : k ∈ s.keys ↔ k ∈ r.keys := by
  rw [← not_iff_not, ← Dict.get?_eq_none_iff, ← Dict.get?_eq_none_iff, h.get? hk]

theorem same_separates {env : Build.Env} {c : Build.Common} {ds : List Build.Descr} {r s r' s' : Table ℝ} (h1 : Pipeline.SameTable s r) (h2 : Pipeline.SameTable s' r')
    (h : Build.Separates env c ds [] r r') : Build.Separates env c ds ["sky TR"] s s' := by
  have hne : ∀ el : String, el ++ " signal" ≠ "sky TR" := fun el e => Contrib.part_ne (el := el) "sky TR" (by simp) e.symm
  refine ⟨?_, ?_, ?_, ?_⟩
  · intro q hq n1 n2 n3
    have hq' : q ≠ "sky TR" := by simpa using hq
    rw [h1.get? hq', h2.get? hq']
    exact h.same q (by simp) n1 n2 n3
  · rw [same_mem h2 (by decide)]
    exact h.gone
  · intro d hd el hel
    rw [same_mem h2 (hne el)]
    exact h.parts d hd el hel
  · intro names hn i hi
    rw [h1.get? (by decide)] at hn
    rw [Pipeline.cellAt_congr (h1.get? (by decide)) i, h.sum names hn i hi, same_filter h2]
    · congr 1
      apply List.map_congr_left
      intro k hk
      refine (Pipeline.cellAt_congr (h2.get? ?_) i).symm
      rw [List.mem_filter] at hk
      obtain ⟨d, _, el, _, rfl⟩ := of_decide_eq_true hk.2
      exact hne el
    · rw [decide_eq_false_iff_not]
      rintro ⟨d, _, el, _, e⟩
      exact hne el e.symm

/-- The channels are built, their contributions can be separated, and every star can be observed with both. -/
theorem stars_observed (hs : SoundPayload o pl) (hel : Elements o pl) (hpp : 0 < o.build.perPhoton) (hat : 0 < pl.1.common.atel) (hds : channelsOf pl ≠ [])
    (hcp : ∀ d ∈ channelsOf pl, Build.Complete (buildEnv o pl) pl.1.common d) (hw : Build.PayloadWorld (worldOf o pl) pl.1.wlMin pl.1.wlMax pl.2)
    (hin : ∀ d ∈ channelsOf pl, Build.Within pl.1.wlMin pl.1.wlMax pl.2 d) {well fw freq dark rn : NoiseChannel → ℝ}
    (hbud : Build.Budgets pl.1.common (channelsOf pl) well fw freq dark rn) {sec : Foreground.Section ℝ} (hsec : pl.1.foreground = some sec) {src : Source.Descr}
    (hsrc : pl.1.source = some src) (hby : src.bytes = false) (hcu : Source.lower src.value ≠ "custom") (hph : Source.lower src.value ≠ "phoenix")
    (hinst : ∀ kd ∈ sec.list, Foreground.nameOf kd ≠ "instrument") :
    ∃ fuel bs tabs, (∀ m, fuel ≤ m → Build.buildAll m (buildEnv o pl) pl.1.common (channelsOf pl) = some (.ok bs)) ∧
      Contrib.startTables true (bs.map Build.Built.table) (bs.map (fun b => Contrib.signalTable b.signals)) = .ok tabs ∧ ∀ row, Star o pl sec row →
      ∃ t1 t2 r r', (Pipeline.observe (worldOf o pl) (payloadOf pl bs) (bs.map Build.Built.table) (targetOf o row)).2 = .ok t1 ∧
      (Pipeline.observe (worldOf o pl) (payloadOf pl bs) tabs (targetOf o row)).2 = .ok t2 ∧ t1.table = some r ∧ t2.table = some r' ∧
      Build.HasBudget pl.1.common (channelsOf pl) well fw freq dark rn r ∧ Build.HasBudget pl.1.common (channelsOf pl) well fw freq dark rn r' ∧
      Build.Separates (buildEnv o pl) pl.1.common (channelsOf pl) [] r r' := by
  obtain ⟨fuel, bs, tabs, hbs, htabs, hobs⟩ := Build.blackbody_contrib hs.env hpp hs.common hat hds hs.descr hcp hs.names hel.quiet hw hin hbud (sec := sec) (src := src) hby hcu hph hinst
  refine ⟨fuel, bs, tabs, hbs, htabs, ?_⟩
  have hpay : payloadOf pl bs = ⟨bs.map Build.Built.ch, some sec, some src, ⟨pl.1.wlMin, some 1⟩, ⟨pl.1.wlMax, some 1⟩⟩ := by
    unfold payloadOf
    rw [hsec, hsrc]
  intro row h
  obtain ⟨D, T, M, R, h1, h2, h3, h4, hD, hT, hR⟩ := h.star
  rw [hpay]
  exact hobs (targetOf o row) D T M R (by show (⟨_, _, _, _⟩ : Source.StarData ℝ) = _; rw [h1, h2, h3, h4]) hD hT hR ⟨fresh_row row, h.catalogued⟩ h.sky
    (fun sky hsky d hd x hx => h.aimed sky hsky d hd fuel x hx)

/-- C108: the same run with and without `full_contrib`: both end without an exception. The tables of every star in both output files have the noise budget of every channel, and differ
in the columns of the contributions only: `instrument_signal` without the option, one column per element that emits with it. (`k` processes, any options without figures.) -/
theorem whole_contrib (hu : Stores u o pl) (hs : SoundPayload o pl) (hel : Elements o pl) (hpp : 0 < o.build.perPhoton) (hat : 0 < pl.1.common.atel) (hds : channelsOf pl ≠ [])
    (hcp : ∀ d ∈ channelsOf pl, Build.Complete (buildEnv o pl) pl.1.common d) (hw : Build.PayloadWorld (worldOf o pl) pl.1.wlMin pl.1.wlMax pl.2)
    (hin : ∀ d ∈ channelsOf pl, Build.Within pl.1.wlMin pl.1.wlMax pl.2 d) {well fw freq dark rn : NoiseChannel → ℝ}
    (hbud : Build.Budgets pl.1.common (channelsOf pl) well fw freq dark rn) {sec : Foreground.Section ℝ} (hsec : pl.1.foreground = some sec) {src : Source.Descr}
    (hsrc : pl.1.source = some src) (hby : src.bytes = false) (hcu : Source.lower src.value ≠ "custom") (hph : Source.lower src.value ≠ "phoenix")
    (hinst : ∀ kd ∈ sec.list, Foreground.nameOf kd ≠ "instrument") :
    ∃ fuel, ∀ m, fuel ≤ m → ∀ {a : Args P R} {fs : FS V} {p q out : Path} {fp fq : File V}, Plain a fs p q out fp fq →
      ∀ (x : Pipeline.RunOpts) (k : ℕ), x.plot = a.plot → loadXml o fp = .ok pl →
      ∀ {rows : R}, loadCsv o fq = .ok rows → (∀ i < rows.length, i ∈ o.sched) → (o.start = .fork ∨ k ≤ 1 ∨ pl.2 = 6000) → (rows.map (fun row => (targetOf o row).name)).Nodup →
      (∀ row ∈ rows, Star o pl sec row) →
      (run { o with fuel := m, opts := x, nThread := k, full := false } a fs).2 = .ok () ∧ (run { o with fuel := m, opts := x, nThread := k, full := true } a fs).2 = .ok () ∧
      ∃ g g', (run { o with fuel := m, opts := x, nThread := k, full := false } a fs).1.cur.get? out = some (.h5 g) ∧ (run { o with fuel := m, opts := x, nThread := k, full := true } a fs).1.cur.get? out = some (.h5 g') ∧
        ∀ row ∈ rows, ∃ r r', Build.HasBudget pl.1.common (channelsOf pl) well fw freq dark rn r ∧ Build.HasBudget pl.1.common (channelsOf pl) well fw freq dark rn r' ∧
          Build.Separates (buildEnv o pl) pl.1.common (channelsOf pl) ["sky TR"] r r' ∧
          (∀ c, columnIn g (targetOf o row).name c = r.get? c) ∧ ∀ c, columnIn g' (targetOf o row).name c = r'.get? c := by
  obtain ⟨fuel, bs, tabs, hbs, htabs, hkey⟩ := stars_observed hs hel hpp hat hds hcp hw hin hbud hsec hsrc hby hcu hph hinst
  refine ⟨fuel, fun m hm a fs p q out fp fq hp x k hplot hpl rows hrows hsched hk hn hstar => ?_⟩
  have key := fun row (hrow : row ∈ rows) => hkey row (hstar row hrow)
  have hu' : ∀ full, Stores u { o with fuel := m, opts := x, nThread := k, full := full } pl :=
    fun full => ⟨hu.payload, hu.channels, hu.descr, hu.built, hu.rest, hu.units, hu.foregrounds, hu.custom, hu.own⟩
  have hs' : ∀ full, SoundPayload { o with fuel := m, opts := x, nThread := k, full := full } pl := fun full => ⟨hs.env, hs.common, hs.descr, hs.names⟩
  have hel' : ∀ full, Elements { o with fuel := m, opts := x, nThread := k, full := full } pl := fun full => ⟨hel.quiet, hel.plain⟩
  obtain ⟨r1, g, r2, r3⟩ := whole_file (hu' false) (hs' false) (fun _ => hel' false) hp hplot hpl (hbs m hm) (tabs := bs.map Build.Built.table)
    (by simp [tables, Contrib.startTables]) hrows hsched hk hn (fun row hrow => by
      obtain ⟨t, _, _, _, ht, _⟩ := key row hrow
      exact ⟨t, ht⟩)
  obtain ⟨s1, g', s2, s3⟩ := whole_file (hu' true) (hs' true) (fun _ => hel' true) hp hplot hpl (hbs m hm) (tabs := tabs) htabs hrows hsched hk hn (fun row hrow => by
      obtain ⟨_, t, _, _, _, ht, _⟩ := key row hrow
      exact ⟨t, ht⟩)
  refine ⟨r1, s1, g, g', r2, s2, ?_⟩
  intro row hrow
  obtain ⟨t1, t2, r, r', k1, k2, k3, k4, k5, k6, k7⟩ := key row hrow
  obtain ⟨z, x1, x2⟩ := r3 row hrow t1 k1 r k3
  obtain ⟨y, y1, y2⟩ := s3 row hrow t2 k2 r' k4
  exact ⟨z, y, same_budget x1 k5, same_budget y1 k6, same_separates x1 y1 k7, x2, y2⟩

end ExoRad.Whole
