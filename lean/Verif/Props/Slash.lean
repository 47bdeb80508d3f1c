import Verif.Model.Slash
import Verif.Props.Import
import Verif.Props.PlotCommand

/-!
# C116: the name of a target may be any text

Specification in terms of the entries of the output file: `Node.at`, what is found by following names, `Kept`, nothing stored is lost, and of
the targets the plot command selects and draws (`Selects`, `Drawable`).
-/

namespace ExoRad.Slash

open Hdf5 Plotter Run

variable {V : Type}

/-- A name that is one component: not empty, not `.`, without a slash. -/
def Plain (name : String) : Prop := '/' ∉ name.toList ∧ name ≠ "" ∧ name ≠ "."

/-- There is no dataset on the way to `p`, and nothing at `p`. -/
def Free (file : Hdf5.Group V) (p : List String) : Prop :=
  (Node.group file).at p = none ∧ ∀ q d, q <+: p → (Node.group file).at q ≠ some (.ds d)

/-! ## Paths -/

theorem splitSlash_no_slash (cs : List Char) : ∀ w ∈ Import.splitSlash cs, '/' ∉ w := by
  induction cs with
  | nil => intro w hw; simp [Import.splitSlash] at hw; subst hw; simp
  | cons c cs ih =>
    intro w hw
    unfold Import.splitSlash at hw
    cases h : Import.splitSlash cs with
    | nil =>
      exfalso
      have : ∀ l, Import.splitSlash l ≠ [] := by
        intro l
        induction l with
        | nil => simp [Import.splitSlash]
        | cons a l ih => unfold Import.splitSlash; split <;> (try split) <;> simp
      exact this _ h
    | cons v ws =>
      rw [h] at hw ih
      simp only at hw
      by_cases hc : c = '/'
      · rw [if_pos hc] at hw
        rcases List.mem_cons.mp hw with rfl | hw
        · simp
        · exact ih w hw
      · rw [if_neg hc] at hw
        rcases List.mem_cons.mp hw with rfl | hw
        · rw [List.mem_cons, not_or]
          exact ⟨fun e => hc e.symm, ih v List.mem_cons_self⟩
        · exact ih w (List.mem_cons_of_mem _ hw)

theorem parts_plain (name : String) : ∀ k ∈ parts name, Plain k := by
  intro k hk
  unfold parts at hk
  rw [List.mem_filter, List.mem_map] at hk
  obtain ⟨⟨w, hw, rfl⟩, h2⟩ := hk
  simp only [decide_eq_true_eq] at h2
  exact ⟨by simpa using splitSlash_no_slash _ w hw, h2.1, h2.2⟩

theorem parts_of_plain {name : String} (h : Plain name) : parts name = [name] ∧ absolute name = false := by
  obtain ⟨h1, h2, h3⟩ := h
  constructor
  · unfold parts
    rw [Import.splitSlash_word _ h1]
    simp [h2, h3]
  · unfold absolute
    cases hn : name.toList with
    | nil => rfl
    | cons c cs =>
      rw [hn] at h1
      simp only [List.mem_cons, not_or] at h1
      simp [Ne.symm h1.1]

/-! ## Entries -/

theorem at_cons (g : Hdf5.Group V) (k : String) (p : List String) : (Node.group g).at (k :: p) = (g.get? k).bind (fun x => x.at p) := at_two rfl k p

theorem at_ds (d : Data V) (k : String) (p : List String) : (Node.ds d).at (k :: p) = none := by simp [Node.at]

theorem saveAt_kept (d : List (String × Item V)) : ∀ (p : List String) (g : Hdf5.Group V), Kept g (saveAt d p g).1
  | [], g => by rw [saveAt]; exact Kept.refl g
  | [k], g => by rw [saveAt]; exact storeThing_kept _ _ _
  | k :: k' :: ks, g => by
    rw [saveAt]
    · split
      · rename_i h; exact Kept.set_new _ h
      · rename_i s h; exact Kept.set_group h (saveAt_kept d (k' :: ks) s)
      · exact Kept.refl g
    · simp

theorem withTargets_kept (file : Hdf5.Group V) : Kept file (withTargets file) := by
  unfold withTargets
  split
  · rename_i h; exact Kept.set_new _ h
  · exact Kept.refl file

/-- C116: writing a target of any name loses and changes nothing that was stored, whatever happens. -/
theorem write_keeps (name : String) (d : List (String × Item V)) (file : Hdf5.Group V) : Kept file (writeTarget name d file).1 := by
  unfold writeTarget
  split <;> exact (withTargets_kept file).trans (saveAt_kept d _ _)

theorem free_step {g : Hdf5.Group V} {k k' : String} {ks : List String} (h : Free g (k :: k' :: ks)) :
    (g.get? k = none ∨ ∃ s, g.get? k = some (.group s) ∧ Free s (k' :: ks)) := by
  cases hg : g.get? k with
  | none => exact .inl rfl
  | some n =>
    cases n with
    | ds x =>
      exfalso
      refine h.2 [k] x ⟨k' :: ks, rfl⟩ ?_
      rw [at_cons, hg]
      simp [Node.at]
    | group s =>
      refine .inr ⟨s, rfl, ?_, ?_⟩
      · have := h.1
        rw [at_cons, hg] at this
        exact this
      · intro q x hq hx
        refine h.2 (k :: q) x ?_ ?_
        · obtain ⟨r, hr⟩ := hq
          exact ⟨r, by rw [← hr]; rfl⟩
        · rw [at_cons, hg]
          exact hx

theorem free_nil (k : String) (ks : List String) : Free ([] : Hdf5.Group V) (k :: ks) := by
  refine ⟨by rw [at_cons]; rfl, ?_⟩
  intro q x _ hx
  cases q with
  | nil => simp [Node.at] at hx
  | cons a q => rw [at_cons] at hx; cases hx

theorem saveAt_free (unit : String → Option String) (d : List (String × Item V)) (hd : Storable unit (.dict d)) :
    ∀ (p : List String) (g : Hdf5.Group V), p ≠ [] → Free g p →
      (saveAt d p g).2 = .ok () ∧ (Node.group (saveAt d p g).1).at p = some (.group (entriesOf d)) ∧
        ∀ q, ¬ q <+: p → ¬ p <+: q → (Node.group (saveAt d p g).1).at q = (Node.group g).at q
  | [], _, h, _ => absurd rfl h
  | [k], g, _, hf => by
    have hk : g.get? k = none := by
      have := hf.1
      rw [at_cons] at this
      cases hg : g.get? k with
      | none => rfl
      | some n => rw [hg] at this; simp [Node.at] at this
    have hs : saveDict d [] = ((entriesOf d : List _), .ok ()) := by
      simp only [Storable] at hd
      have := saveDict_new unit d [] hd.2.2.2.2.2 (by simp) hd.1
      simpa using this
    have hst : storeThing (.dict d) k g = (g.set k (.group (entriesOf d)), .ok ()) := by
      rw [storeThing, hk]
      simp only [hs]
    rw [saveAt, hst]
    refine ⟨rfl, by rw [at_cons, Dict.get?_set_self]; simp [Node.at], ?_⟩
    intro q h1 h2
    cases q with
    | nil => exact absurd List.nil_prefix h1
    | cons a q =>
      rw [at_cons, at_cons, Dict.get?_set_ne]
      rintro rfl
      exact h2 ⟨q, rfl⟩
  | k :: k' :: ks, g, _, hf => by
    have main : ∀ s, (g.get? k = none ∧ s = [] ∨ g.get? k = some (.group s)) → Free s (k' :: ks) →
        saveAt d (k :: k' :: ks) g = (g.set k (.group (saveAt d (k' :: ks) s).1), (saveAt d (k' :: ks) s).2) →
        (saveAt d (k :: k' :: ks) g).2 = .ok () ∧ (Node.group (saveAt d (k :: k' :: ks) g).1).at (k :: k' :: ks) = some (.group (entriesOf d)) ∧
        ∀ q, ¬ q <+: k :: k' :: ks → ¬ k :: k' :: ks <+: q → (Node.group (saveAt d (k :: k' :: ks) g).1).at q = (Node.group g).at q := by
      intro s hs hfs he
      obtain ⟨i1, i2, i3⟩ := saveAt_free unit d hd (k' :: ks) s (by simp) hfs
      rw [he]
      refine ⟨i1, by rw [at_cons, Dict.get?_set_self]; exact i2, ?_⟩
      intro q h1 h2
      cases q with
      | nil => exact absurd List.nil_prefix h1
      | cons a q =>
        rw [at_cons, at_cons]
        by_cases ha : a = k
        · subst ha
          rw [Dict.get?_set_self, Option.bind_some]
          have q1 : ¬ q <+: k' :: ks := by
            rintro ⟨r, hr⟩
            exact h1 ⟨r, by rw [← hr]; rfl⟩
          have q2 : ¬ k' :: ks <+: q := by
            rintro ⟨r, hr⟩
            exact h2 ⟨r, by rw [← hr]; rfl⟩
          rw [i3 q q1 q2]
          rcases hs with ⟨hn, rfl⟩ | hn
          · rw [hn]
            cases q with
            | nil => exact absurd List.nil_prefix q1
            | cons b q => rw [at_cons]; rfl
          · rw [hn]; rfl
        · rw [Dict.get?_set_ne _ _ ha]
    rcases free_step hf with h | ⟨s, h, hfs⟩
    · refine main [] (.inl ⟨h, rfl⟩) (free_nil _ _) ?_
      rw [saveAt]
      · simp only [h]
      · simp
    · refine main s (.inr h) hfs ?_
      rw [saveAt]
      · simp only [h]
      · simp

/-! ## C116 -/

theorem dict_set_set {κ ν : Type} [DecidableEq κ] (d : Dict κ ν) (k : κ) (a b : ν) : (d.set k a).set k b = d.set k b := by
  induction d with
  | nil => simp [Dict.set]
  | cons p d ih =>
    obtain ⟨x, y⟩ := p
    simp only [Dict.set]
    by_cases h : x = k
    · subst h; simp [Dict.set]
    · rw [if_neg h, if_neg h]; simp only [Dict.set, if_neg h, ih]

theorem saveDict_one (name : String) (d : List (String × Item V)) (g : Hdf5.Group V) :
    saveDict [(name, .dict d)] g = storeThing (.dict d) name g := by
  have hw : ∀ e, (storeThing (.dict d) name g).2 = .error e → wrap (.error e) = .error e := by
    intro e he
    have : e ≠ .typeError := by
      rintro rfl
      rw [storeThing] at he
      split at he
      · exact save_no_type_error d _ he
      · exact save_no_type_error d _ he
      · cases d with
        | nil => simp [intoDataset] at he
        | cons p d =>
          obtain ⟨k, x⟩ := p
          cases x <;> simp [intoDataset] at he
    unfold wrap
    split
    · rename_i h; simp only [Except.error.injEq] at h; exact absurd h this
    · rfl
  rw [saveDict]
  generalize storeThing (.dict d) name g = r at hw
  obtain ⟨g', e⟩ := r
  cases e with
  | ok u => simp only; rw [saveDict]
  | error e => simp only; rw [hw e rfl]

/-- C116, what holds: a name that is one component is stored as the run of the other properties does (`targets/<name>`). -/
theorem plain_name_partial {name : String} (h : Plain name) (d : List (String × Item V)) (file : Hdf5.Group V)
    (ht : ∀ x, file.get? "targets" ≠ some (.ds x)) :
    writeTarget name d file = storeThing (.dict [(name, .dict d)]) "targets" file := by
  obtain ⟨h1, h2⟩ := parts_of_plain h
  unfold writeTarget withTargets
  rw [h1, h2]
  simp only [Bool.false_eq_true, if_false]
  rw [storeThing]
  cases hf : file.get? "targets" with
  | none =>
    simp only
    rw [saveAt]
    · simp only [Dict.get?_set_self, dict_set_set]
      rw [saveAt, saveDict_one]
    · simp
  | some n =>
    cases n with
    | ds x => exact absurd hf (ht x)
    | group s =>
      simp only
      rw [saveAt]
      · simp only [hf]
        rw [saveAt, saveDict_one]
      · simp

/-- C116, what holds: a name with slashes is stored as nested groups, complete and readable by the same name, and every other entry of
the file stays as it was. -/
theorem slash_stored_partial (unit : String → Option String) {name : String} {d : List (String × Item V)} {file : Hdf5.Group V}
    (hd : Storable unit (.dict d)) (ha : absolute name = false) (hp : parts name ≠ []) (hf : Free (withTargets file) ("targets" :: parts name)) :
    (writeTarget name d file).2 = .ok () ∧
      (Node.group (writeTarget name d file).1).at ("targets" :: parts name) = some (.group (entriesOf d)) ∧
      ∀ q, ¬ q <+: "targets" :: parts name → ¬ "targets" :: parts name <+: q →
        (Node.group (writeTarget name d file).1).at q = (Node.group (withTargets file)).at q := by
  unfold writeTarget
  rw [ha]
  simp only [Bool.false_eq_true, if_false]
  exact saveAt_free unit d hd _ _ (by simp) hf

/-- The names listed under `targets`. -/
def targetNames (file : Hdf5.Group V) : List String :=
  match file.get? "targets" with
  | some (.group g) => Dict.keys g
  | _ => []

theorem saveAt_keys (d : List (String × Item V)) (k : String) (ks : List String) (g : Hdf5.Group V) :
    ∀ x ∈ Dict.keys (saveAt d (k :: ks) g).1, x ∈ Dict.keys g ∨ x = k := by
  have hset : ∀ (n : Node V) x, x ∈ (g.set k n).keys → x ∈ Dict.keys g ∨ x = k := by
    intro n x hx
    rw [Dict.keys_set] at hx
    split at hx
    · exact .inl hx
    · rcases List.mem_append.mp hx with h | h
      · exact .inl h
      · exact .inr (by simpa using h)
  intro x hx
  cases ks with
  | nil =>
    rw [saveAt, storeThing] at hx
    split at hx
    · exact hset _ x hx
    · exact hset _ x hx
    · exact .inl hx
  | cons k' ks =>
    rw [saveAt] at hx
    · split at hx
      · exact hset _ x hx
      · exact hset _ x hx
      · exact .inl hx
    · simp

theorem write_names {name : String} (ha : absolute name = false) (d : List (String × Item V)) (file : Hdf5.Group V) :
    ∀ x ∈ targetNames (writeTarget name d file).1, x ∈ targetNames file ∨ (parts name).head? = some x ∨ parts name = [] := by
  intro x hx
  unfold writeTarget at hx
  rw [ha] at hx
  simp only [Bool.false_eq_true, if_false] at hx
  cases hp : parts name with
  | nil => exact .inr (.inr rfl)
  | cons k ks =>
    rw [hp] at hx
    cases hf : file.get? "targets" with
    | none =>
      have hw : withTargets file = file.set "targets" (.group []) := by unfold withTargets; rw [hf]
      rw [hw, saveAt] at hx
      · simp only [Dict.get?_set_self, targetNames] at hx
        rcases saveAt_keys d k ks [] x hx with h | h
        · simp [Dict.keys] at h
        · exact .inr (.inl (by rw [h]; rfl))
      · simp
    | some n =>
      have hw : withTargets file = file := by unfold withTargets; rw [hf]
      cases n with
      | ds y =>
        rw [hw, saveAt] at hx
        · simp [hf, targetNames] at hx
        · simp
      | group s =>
        rw [hw, saveAt] at hx
        · simp only [hf, Dict.get?_set_self, targetNames] at hx
          rcases saveAt_keys d k ks s x hx with h | h
          · left; simp only [targetNames, hf]; exact h
          · exact .inr (.inl (by rw [h]; rfl))
        · simp

/-- Write targets one after the other, as long as nothing raises. -/
inductive Wrote : Hdf5.Group V → List (String × List (String × Item V)) → Hdf5.Group V → Prop where
  | nil (g) : Wrote g [] g
  | cons {g g' n d ts} : (writeTarget n d g).2 = .ok () → Wrote (writeTarget n d g).1 ts g' → Wrote g ((n, d) :: ts) g'

theorem wrote_plain {file file' : Hdf5.Group V} {ts : List (String × List (String × Item V))} (h : Wrote file ts file')
    (h0 : ∀ x ∈ targetNames file, '/' ∉ x.toList) (ha : ∀ t ∈ ts, absolute t.1 = false ∧ parts t.1 ≠ []) :
    ∀ x ∈ targetNames file', '/' ∉ x.toList := by
  induction h with
  | nil g => exact h0
  | @cons g g' n d ts he hw ih =>
    refine ih ?_ (fun t ht => ha t (List.mem_cons_of_mem _ ht))
    intro x hx
    obtain ⟨a1, a2⟩ := ha (n, d) List.mem_cons_self
    rcases write_names a1 d g x hx with h | h | h
    · exact h0 x h
    · exact (parts_plain n x (List.mem_of_mem_head? h)).1
    · exact absurd h a2

theorem at_mem {β : Type} {l : List β} {n : Int} {x : β} (h : At l n x) : x ∈ l := by
  rcases h with ⟨-, h⟩ | ⟨-, h⟩
  · exact List.mem_of_getElem? h
  · exact List.mem_of_getElem? h.2

theorem forall2_left {β γ : Type} {R : β → γ → Prop} {xs : List β} {ys : List γ} (h : List.Forall₂ R xs ys) {x : β} (hx : x ∈ xs) : ∃ y, R x y := by
  induction h with
  | nil => cases hx
  | cons hr _ ih =>
    rcases List.mem_cons.mp hx with rfl | hx
    · exact ⟨_, hr⟩
    · exact ih hx

theorem get_none {κ ν : Type} [DecidableEq κ] {d : Dict κ ν} {k : κ} (h : k ∉ d.keys) : d.get? k = none := by
  by_contra hn
  obtain ⟨v, hv⟩ := Option.ne_none_iff_exists'.mp hn
  exact h (Dict.mem_keys_of_get? hv)

theorem fresh_no_table {name a b : String} {ks : List String} {file : Hdf5.Group V}
    (ha : absolute name = false) (hp : parts name = a :: b :: ks) (hb : b ≠ "table")
    (hf : ∀ x, file.get? "targets" ≠ some (.ds x)) (hfresh : a ∉ targetNames file) (d : List (String × Item V)) :
    (Node.group (writeTarget name d file).1).at ["targets", a, "table", "table"] = none := by
  have key : ∀ s : Hdf5.Group V, a ∉ Dict.keys s → (Node.group (saveAt d (a :: b :: ks) s).1).at [a, "table", "table"] = none := by
    intro s hs
    rw [saveAt]
    · rw [get_none hs]
      simp only
      rw [at_cons, Dict.get?_set_self, Option.bind_some, at_cons]
      rw [get_none]
      · rfl
      · intro hm
        rcases saveAt_keys d b ks [] _ hm with h | h
        · simp [Dict.keys] at h
        · exact hb h.symm
    · simp
  unfold writeTarget
  rw [ha, hp]
  simp only [Bool.false_eq_true, if_false]
  unfold withTargets
  cases h : file.get? "targets" with
  | none =>
    simp only
    rw [saveAt]
    · simp only [Dict.get?_set_self]
      rw [at_cons, Dict.get?_set_self]
      exact key [] (by simp [Dict.keys])
    · simp
  | some n =>
    cases n with
    | ds x => exact absurd h (hf x)
    | group s =>
      simp only
      rw [saveAt]
      · simp only [h]
        rw [at_cons, Dict.get?_set_self]
        refine key s ?_
        simpa only [targetNames, h] using hfresh
      · simp

/-- C116, what is false: a target whose name has a slash is never listed, and the plot command asked for it by name draws nothing, without
an error. -/
theorem slash_not_selected {file : Hdf5.Group V} {ts : List (String × List (String × Item V))} (h : Wrote [] ts file)
    (ha : ∀ t ∈ ts, absolute t.1 = false ∧ parts t.1 ≠ []) {name : String} (hs : '/' ∈ name.toList) :
    name ∉ targetNames file ∧ ∀ (int : List Char → Option Int) (c : Cmd) (names : List String), c.name = name → Selects int c file names → names = [] := by
  have hn : name ∉ targetNames file := fun hm => wrote_plain h (by simp [targetNames]) ha name hm hs
  refine ⟨hn, ?_⟩
  rintro int c names hc ⟨g, l, ids, picked, h1, h2, h3, h4, h5⟩
  have hnone : c.name ≠ "None" := by
    rintro e
    rw [← hc, e] at hs
    exact absurd hs (by decide)
  rw [if_neg hnone] at h5
  rw [h5, List.filter_eq_nil_iff]
  intro x hx
  simp only [decide_eq_true_eq]
  intro hxc
  apply hn
  have hl : x ∈ l := by
    clear h3 h5
    induction h4 with
    | nil => cases hx
    | cons hat _ ih =>
      rcases List.mem_cons.mp hx with rfl | hx
      · exact at_mem hat
      · exact ih hx
  have := h2.1.mem_iff.mp hl
  rw [hxc, hc] at this
  simp only [targetNames, h1]
  exact this

/-- C116, what is false: the plot command for the name of such a target ends without an error, and nothing is drawn or written. -/
theorem slash_draws_nothing {α : Type} [Field α] [LinearOrder α] [IsStrictOrderedRing α] {file : Hdf5.Group V}
    {ts : List (String × List (String × Item V))} (h : Wrote [] ts file) (ha : ∀ t ∈ ts, absolute t.1 = false ∧ parts t.1 ≠ [])
    (order : List (Cell α) → List (Cell α)) (int : List Char → Option Int) (decode : String → Input α) (c : Cmd) (fs : FS V)
    (hin : fs.get? c.input = some (.h5 file)) (hs : '/' ∈ c.name.toList) (hall : c.number = "all") {names : List String} (hsel : Selects int c file names) :
    (command order int decode c ⟨fs, []⟩).2 = .ok [] ∧ ∀ s ∈ (command order int decode c ⟨fs, []⟩).1.states, ∀ p, s.get? p = fs.get? p := by
  have hn := (slash_not_selected h ha hs).2 int c names rfl hsel
  rcases command_spec order int decode c fs with ⟨file', names', pre, post, figs, h1, h2, h3, h4, h5, h6, h7, h8⟩ | ⟨hno, -⟩
  · rw [hin] at h1
    simp only [Option.some.injEq, File.h5.injEq] at h1
    subst h1
    have hn' := (slash_not_selected h ha hs).2 int c names' rfl h3
    rw [hn'] at h4
    obtain ⟨hpre, hpost⟩ := List.append_eq_nil_iff.mp h4.symm
    subst hpre hpost
    cases h5
    rcases h8 with ⟨-, h8⟩ | ⟨n, rest, e, he, -⟩
    · exact ⟨h8, fun s hs' p => h7 s hs' p (by simp)⟩
    · cases he
  · exact absurd ⟨file, names, hin, .inl hall, hsel⟩ hno

/-- C116, what is false: after a target `<a>/<b>…` has been written to a file without `<a>`, a plot command that selects the entry `<a>` (all targets, say)
ends with an error. -/
theorem slash_stops_plots {α : Type} [Field α] [LinearOrder α] [IsStrictOrderedRing α] {name a b : String} {ks : List String} {d : List (String × Item V)} {file : Hdf5.Group V}
    (ha : absolute name = false) (hp : parts name = a :: b :: ks) (hb : b ≠ "table")
    (hf : ∀ x, file.get? "targets" ≠ some (.ds x)) (hfresh : a ∉ targetNames file)
    (order : List (Cell α) → List (Cell α)) (int : List Char → Option Int) (decode : String → Input α) (c : Cmd) (fs : FS V)
    (hin : fs.get? c.input = some (.h5 (writeTarget name d file).1)) (names : List String)
    (hsel : Selects int c (writeTarget name d file).1 names) (hmem : a ∈ names) :
    ∃ e, (command order int decode c ⟨fs, []⟩).2 = .error e := by
  have hnd : ∀ f, ¬ Drawable order decode (writeTarget name d file).1 a f := by
    rintro f ⟨id, ht, -⟩
    have := fresh_no_table ha hp hb hf hfresh d
    rw [TableIn] at ht
    rw [this] at ht
    cases ht
  rcases command_spec order int decode c fs with ⟨file', names', pre, post, figs, h1, h2, h3, h4, h5, h6, h7, h8⟩ | ⟨-, e, h⟩
  · rw [hin] at h1
    simp only [Option.some.injEq, File.h5.injEq] at h1
    subst h1
    rcases h8 with ⟨hpost, -⟩ | ⟨n, rest, e, -, -, he⟩
    · exfalso
      obtain ⟨g, k1, k2⟩ := (selected_ok int c _ names' h2).mp h3
      obtain ⟨g', k3, k4⟩ := (selected_ok int c _ names h2).mp hsel
      rw [k2] at k4
      simp only [Except.ok.injEq, Prod.mk.injEq] at k4
      rw [hpost, List.append_nil] at h4
      rw [← k4.2, h4] at hmem
      obtain ⟨f, hfd⟩ := forall2_left h5 hmem
      exact hnd f hfd
    · exact ⟨e, he⟩
  · exact ⟨e, by rw [h]⟩

theorem saveAt_top (d : List (String × Item V)) (k : String) (ks : List String) (g : Hdf5.Group V) {x : String} (hx : x ≠ k) :
    Dict.get? (saveAt d (k :: ks) g).1 x = g.get? x := by
  cases ks with
  | nil =>
    rw [saveAt, storeThing]
    split
    · exact Dict.get?_set_ne _ _ hx
    · exact Dict.get?_set_ne _ _ hx
    · rfl
  | cons k' ks =>
    rw [saveAt]
    · split
      · exact Dict.get?_set_ne _ _ hx
      · exact Dict.get?_set_ne _ _ hx
      · rfl
    · simp

/-- C116, what is false: a target whose name begins with `/` is not stored among the targets at all (unless the rest of its name leads there):
the list of targets stays as it was. -/
theorem absolute_lost {name : String} (ha : absolute name = true) (hp : (parts name).head? ≠ some "targets") (d : List (String × Item V)) (file : Hdf5.Group V) :
    targetNames (writeTarget name d file).1 = targetNames file := by
  have h1 : Dict.get? (writeTarget name d file).1 "targets" = (withTargets file).get? "targets" := by
    unfold writeTarget
    rw [if_pos ha]
    cases h : parts name with
    | nil => rw [saveAt]
    | cons k ks =>
      refine saveAt_top d k ks _ ?_
      rintro rfl
      rw [h] at hp
      exact hp rfl
  unfold targetNames
  rw [h1]
  unfold withTargets
  cases h : file.get? "targets" with
  | none => simp [Dict.get?_set_self, Dict.keys]
  | some n => simp [h]

/-- C116, what is false: a target `<a>/<s>…` is stored among the results of the target `<a>`: an entry `<s>` appears there that the target did not have. -/
theorem inside_other (unit : String → Option String) {name a s : String} {ks : List String} {d : List (String × Item V)} {file : Hdf5.Group V}
    (hd : Storable unit (.dict d)) (ha : absolute name = false) (hp : parts name = a :: s :: ks)
    (hf : Free (withTargets file) ("targets" :: parts name)) :
    ∃ n, (Node.group (writeTarget name d file).1).at ["targets", a, s] = some n := by
  obtain ⟨-, h, -⟩ := slash_stored_partial unit hd ha (by rw [hp]; simp) hf
  rw [hp, at_cons] at h
  rw [at_cons]
  cases h1 : (Dict.get? (writeTarget name d file).1 "targets") with
  | none => rw [h1] at h; cases h
  | some n1 =>
    rw [h1] at h
    simp only [Option.bind_some] at h ⊢
    cases n1 with
    | ds x => rw [at_ds] at h; cases h
    | group g1 =>
      rw [at_cons] at h ⊢
      cases h2 : Dict.get? g1 a with
      | none => rw [h2] at h; cases h
      | some n2 =>
        rw [h2] at h
        simp only [Option.bind_some] at h ⊢
        cases n2 with
        | ds x => rw [at_ds] at h; cases h
        | group g2 =>
          rw [at_cons] at h ⊢
          cases h3 : Dict.get? g2 s with
          | none => rw [h3] at h; cases h
          | some n3 => exact ⟨n3, by simp [Node.at]⟩

/-! ## Examples -/

namespace Demo

/-- A target with a star and a distance. -/
def dA : List (String × Item ℕ) := [("star", .dict [("name", .str "A")]), ("D", .num 10)]
/-- A target with a distance. -/
def dB : List (String × Item ℕ) := [("D", .num 20)]
/-- The output file with the target `A`. -/
def fileA : Hdf5.Group ℕ := (writeTarget "A" dA []).1

theorem parts_eq : parts "A/b" = ["A", "b"] ∧ parts "A//./b/" = ["A", "b"] ∧ parts "/A" = ["A"] ∧ parts "A/star" = ["A", "star"] ∧ parts "A" = ["A"] ∧
    absolute "A/b" = false ∧ absolute "/A" = true := by decide +kernel

theorem parts_eq2 : parts "A/D/x" = ["A", "D", "x"] ∧ absolute "A/D/x" = false := by decide +kernel

theorem fileA_eq : fileA = [("targets", .group [("A", .group [("star", .group [("name", .ds (.bytes "A"))]), ("D", .ds (.num 10))])])] := by
  simp [writeTarget, withTargets, absolute, saveAt, storeThing, saveDict, createDs, Dict.set, Dict.get?, parts_eq, fileA, dA]

theorem storable : Storable (fun s => some s) (.dict dB) := by simp [Storable, StorableAll, dB, namesOf]; decide

/-- The target `A/b` is stored in the results of `A`; only `A` is listed. -/
theorem inside : (writeTarget "A/b" dB fileA).1 =
    [("targets", .group [("A", .group [("star", .group [("name", .ds (.bytes "A"))]), ("D", .ds (.num 10)), ("b", .group [("D", .ds (.num 20))])])])] ∧
    (writeTarget "A/b" dB fileA).2 = .ok () ∧ targetNames (writeTarget "A/b" dB fileA).1 = ["A"] := by
  rw [fileA_eq]; simp [writeTarget, withTargets, absolute, saveAt, storeThing, saveDict, createDs, Dict.set, Dict.get?, parts_eq, dA, dB, targetNames, Dict.keys]

/-- The target `A/star` is mixed with the star of `A`, without an error. -/
theorem mixed : (writeTarget "A/star" dB fileA).1 =
    [("targets", .group [("A", .group [("star", .group [("name", .ds (.bytes "A")), ("D", .ds (.num 20))]), ("D", .ds (.num 10))])])] ∧
    (writeTarget "A/star" dB fileA).2 = .ok () := by
  rw [fileA_eq]; simp [writeTarget, withTargets, absolute, saveAt, storeThing, saveDict, createDs, Dict.set, Dict.get?, parts_eq, dA, dB]

/-- The target `/A` is stored beside the targets; a target below a dataset is an error. -/
theorem beside : (writeTarget "/A" dB []).1 = [("targets", .group []), ("A", .group [("D", .ds (.num 20))])] ∧
    (writeTarget "A/D/x" dB fileA).2 = .error .keyError := by
  rw [fileA_eq]; simp [writeTarget, withTargets, absolute, saveAt, storeThing, saveDict, createDs, Dict.set, Dict.get?, parts_eq, parts_eq2, dA, dB]

example : Plain "A" ∧ (∀ x, fileA.get? "targets" ≠ some (.ds x)) := ⟨⟨by decide, by decide, by decide⟩, by rw [fileA_eq]; intro x h; simp [Dict.get?] at h⟩

example : Free (withTargets fileA) ("targets" :: parts "A/b") := by
  rw [fileA_eq, parts_eq.1]
  refine ⟨by simp [withTargets, Dict.get?, Node.at], ?_⟩
  intro q x hq hx
  obtain ⟨r, hr⟩ := hq
  match q, hr with
  | [], _ => simp [Node.at] at hx
  | [a], hr => simp at hr; obtain ⟨rfl, -⟩ := hr; simp [withTargets, Dict.get?, Node.at] at hx
  | [a, b], hr => simp at hr; obtain ⟨rfl, rfl, -⟩ := hr; simp [withTargets, Dict.get?, Node.at] at hx
  | [a, b, c], hr => simp at hr; obtain ⟨rfl, rfl, rfl, -⟩ := hr; simp [withTargets, Dict.get?, Node.at] at hx

example : ∃ f, Wrote [] [("A", dA), ("A/b", dB)] f := by
  have h := inside.2.1
  refine ⟨_, .cons ?_ (.cons h (.nil _))⟩
  simp [writeTarget, withTargets, absolute, saveAt, storeThing, saveDict, createDs, Dict.set, Dict.get?, parts_eq, dA, dB]

/-- The command that draws everything. -/
def cmd : Cmd := ⟨⟨"", "o.h5"⟩, "plots", "all", "None"⟩

/-- A file with the only target `A/b`: the command selects `A`, which is not a target. -/
theorem selects : Selects (fun _ => none) cmd (writeTarget "A/b" dB []).1 ["A"] := by
  have h : (writeTarget "A/b" dB []).1 = [("targets", .group [("A", .group [("b", .group [("D", .ds (.num 20))])])])] := by
    simp [writeTarget, withTargets, absolute, saveAt, storeThing, saveDict, createDs, Dict.set, Dict.get?, parts_eq, dB]
  rw [h]
  refine ⟨_, ["A"], [0], ["A"], rfl, ⟨by simp [Dict.keys], by simp⟩, by decide +kernel, .cons (.inl ⟨by decide, rfl⟩) .nil, by simp [cmd]⟩

example : targetNames ([] : Hdf5.Group ℕ) = [] ∧ (parts "/A").head? ≠ some "targets" := by decide +kernel

end Demo

end ExoRad.Slash
