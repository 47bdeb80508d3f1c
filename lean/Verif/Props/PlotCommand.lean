import Verif.Props.Plotter
import Verif.Props.Misc
import Verif.Props.RunSave

/-! # The plot command (C86) -/

set_option linter.unusedSectionVars false

namespace ExoRad.Plotter
variable {α : Type} [Field α] [LinearOrder α] [IsStrictOrderedRing α] {V : Type}
open Hdf5 Run

/-! ## Specification -/

/-- The file holds the table `id` of the target `name`, where a run puts it: `targets/<name>/table/table`. -/
def TableIn (file : Hdf5.Group V) (name id : String) : Prop :=
  (Node.group file).at ["targets", name, "table", "table"] = some (.ds (.tab id))

/-- The figure `f` of the target `name` can be drawn from the file. -/
def Drawable (order : List (Cell α) → List (Cell α)) (decode : String → Input α) (file : Hdf5.Group V) (name : String) (f : Fig α) : Prop :=
  ∃ id, TableIn file name id ∧ plotTable order true (decode id) = .ok f

/-- The files in which only the figures of `names` are new. -/
def OnlyFigures (out : String) (names : List String) (fs fs' : FS V) : Prop :=
  ∀ p, (∀ n ∈ names, p ≠ figure out n) → fs'.get? p = fs.get? p

/-- The figure of every target of `names` is on the disk. -/
def AllThere (out : String) (names : List String) (fs : FS V) : Prop :=
  ∀ n ∈ names, fs.get? (figure out n) = some (.bytes "png")

/-- The names in a group, in alphabetical order. -/
def Sorted (g : Hdf5.Group V) (l : List String) : Prop := l.Perm (Dict.keys g) ∧ l.Pairwise (· ≤ ·)

/-! ## Helper lemmas -/

theorem figure_inj {out n n' : String} (h : figure out n = figure out n') : n = n' := by
  unfold figure at h
  have h1 := congrArg String.toList (congrArg Path.base h)
  rw [String.toList_append, String.toList_append] at h1
  exact String.toList_inj.mp (List.append_cancel_right h1)

theorem listing_sorted (g : Hdf5.Group V) : Sorted g (listing g) := by
  unfold listing Sorted
  refine ⟨List.mergeSort_perm _ _, ?_⟩
  have := List.pairwise_mergeSort (le := fun a b : String => decide (a ≤ b)) (by
    intro a b c h1 h2
    simp only [decide_eq_true_eq] at *
    exact String.le_trans h1 h2) (by
    intro a b
    simp only [Bool.or_eq_true, decide_eq_true_eq]
    exact String.le_total a b) (Dict.keys g)
  exact this.imp (fun h => by simpa using h)

theorem sorted_unique {g : Hdf5.Group V} {l l' : List String} (h : Sorted g l) (h' : Sorted g l') : l = l' :=
  (h.1.trans h'.1.symm).eq_of_pairwise (fun a b _ _ h1 h2 => String.le_antisymm h1 h2) h.2 h'.2

theorem listing_eq {g : Hdf5.Group V} {l : List String} (h : Sorted g l) : listing g = l := sorted_unique (listing_sorted g) h

theorem at_two {n : Node V} {g : Hdf5.Group V} : n = .group g → ∀ k p, n.at (k :: p) = (g.get? k).bind (fun x => x.at p) := by
  rintro rfl k p
  conv_lhs => unfold Node.at
  cases Dict.get? g k <;> rfl

theorem readTarget_ok (decode : String → Input α) (file g : Hdf5.Group V) (hg : file.get? "targets" = some (.group g)) (n : String) (i : Input α) :
    readTarget decode g n = .ok i ↔ ∃ id, TableIn file n id ∧ decode id = i := by
  unfold readTarget TableIn
  rw [at_two rfl, hg, Option.bind_some, at_two rfl]
  cases h1 : Dict.get? g n with
  | none => simp
  | some x =>
    cases x with
    | ds d => simp [Node.at]
    | group g1 =>
      simp only [Option.bind_some]
      rw [at_two rfl]
      cases h2 : Dict.get? g1 "table" with
      | none => simp
      | some x =>
        cases x with
        | ds d => simp [Node.at]
        | group g2 =>
          simp only [Option.bind_some]
          rw [at_two rfl]
          cases h3 : Dict.get? g2 "table" with
          | none => simp
          | some x =>
            cases x with
            | group g3 => simp [Node.at]
            | ds d =>
              cases d with
              | tab id => simp [Node.at]
              | num v => simp [Node.at]
              | bytes s => simp [Node.at]
              | tabMeta s => simp [Node.at]

theorem write_cur (m : Mach V) (p : Path) (f : File V) (q : Path) : (m.write p f).cur.get? q = if q = p then some f else m.cur.get? q := by
  by_cases h : q = p
  · subst h; simp [Mach.write, Mach.step]
  · simp only [Mach.write, Mach.step, if_neg h]
    rw [Dict.get?_set_ne _ _ h, Dict.get?_set_ne _ _ h]

theorem write_states (m : Mach V) (p : Path) (f : File V) : (m.write p f).states = m.states ++ [m.cur.set p .torn, (m.cur.set p .torn).set p f] := by
  simp [Mach.states, Mach.write, Mach.step]

/-- What the loop over the targets does. -/
theorem drawAll_spec (order : List (Cell α) → List (Cell α)) (decode : String → Input α) (out : String) (file g : Hdf5.Group V)
    (hg : file.get? "targets" = some (.group g)) : ∀ (names : List String) (m : Mach V),
    ∃ (pre post : List String) (figs : List (Fig α)), names = pre ++ post ∧ List.Forall₂ (Drawable order decode file) pre figs ∧
      OnlyFigures out pre m.cur (drawAll order decode out g names m).1.cur ∧ AllThere out pre (drawAll order decode out g names m).1.cur ∧
      (∀ s ∈ (drawAll order decode out g names m).1.states, s ∈ m.states ∨ OnlyFigures out pre m.cur s) ∧
      ((post = [] ∧ (drawAll order decode out g names m).2 = .ok figs) ∨
       ∃ n rest e, post = n :: rest ∧ (∀ f, ¬ Drawable order decode file n f) ∧ (drawAll order decode out g names m).2 = .error e)
  | [], m => ⟨[], [], [], rfl, .nil, fun _ _ => rfl, by simp [AllThere], fun s hs => .inl hs, .inl ⟨rfl, rfl⟩⟩
  | n :: ns, m => by
    have hno : ∀ e, ((∃ i, readTarget decode g n = .ok i ∧ plotTable order true i = .error e) ∨ readTarget decode g n = .error e) →
        ∀ f, ¬ Drawable order decode file n f := by
      rintro e h f ⟨id, h1, h2⟩
      have h3 := (readTarget_ok decode file g hg n _).mpr ⟨id, h1, rfl⟩
      rcases h with ⟨i, h, h'⟩ | h
      · rw [h, Except.ok.injEq] at h3
        rw [h3, h2] at h'
        cases h'
      · rw [h] at h3; cases h3
    cases hr : readTarget decode g n with
    | error e =>
      refine ⟨[], n :: ns, [], rfl, .nil, ?_⟩
      simp only [drawAll, hr]
      exact ⟨fun _ _ => rfl, by simp [AllThere], fun s hs => .inl hs, .inr ⟨n, ns, e, rfl, hno e (.inr hr), rfl⟩⟩
    | ok i =>
      cases hp : plotTable order true i with
      | error e =>
        refine ⟨[], n :: ns, [], rfl, .nil, ?_⟩
        simp only [drawAll, hr, hp]
        exact ⟨fun _ _ => rfl, by simp [AllThere], fun s hs => .inl hs, .inr ⟨n, ns, e, rfl, hno e (.inl ⟨i, hr, hp⟩), rfl⟩⟩
      | ok f =>
        have hd : Drawable order decode file n f := by
          obtain ⟨id, h1, h2⟩ := (readTarget_ok decode file g hg n i).mp hr
          exact ⟨id, h1, by rw [h2]; exact hp⟩
        obtain ⟨pre, post, figs, e1, e2, e3, e4, e5, e6⟩ := drawAll_spec order decode out file g hg ns (m.write (figure out n) (.bytes "png"))
        have hof : ∀ s, OnlyFigures out pre (m.write (figure out n) (.bytes "png")).cur s → OnlyFigures out (n :: pre) m.cur s := by
          intro s hs p hp
          rw [hs p (fun k hk => hp k (by simp [hk])), write_cur, if_neg (hp n (by simp))]
        have hst : ∀ s ∈ (m.write (figure out n) (.bytes "png") : Mach V).states, s ∈ m.states ∨ OnlyFigures out (n :: pre) m.cur s := by
          intro s hs
          rw [write_states, List.mem_append] at hs
          rcases hs with hs | hs
          · exact .inl hs
          · right
            intro p hp
            have h1 := hp n (by simp)
            simp only [List.mem_cons, List.not_mem_nil, or_false] at hs
            rcases hs with rfl | rfl
            · exact Dict.get?_set_ne _ _ h1
            · rw [Dict.get?_set_ne _ _ h1, Dict.get?_set_ne _ _ h1]
        have hres : (drawAll order decode out g (n :: ns) m).1 = (drawAll order decode out g ns (m.write (figure out n) (.bytes "png"))).1 := by
          conv_lhs => unfold drawAll
          simp only [hr, hp]
          generalize drawAll order decode out g ns (m.write (figure out n) (.bytes "png")) = q
          obtain ⟨q1, q2⟩ := q
          cases q2 <;> rfl
        have hres2 : (∀ e, (drawAll order decode out g ns (m.write (figure out n) (.bytes "png"))).2 = .error e →
              (drawAll order decode out g (n :: ns) m).2 = .error e) ∧
            (∀ fs, (drawAll order decode out g ns (m.write (figure out n) (.bytes "png"))).2 = .ok fs →
              (drawAll order decode out g (n :: ns) m).2 = .ok (f :: fs)) := by
          have hun : drawAll order decode out g (n :: ns) m = match drawAll order decode out g ns (m.write (figure out n) (.bytes "png")) with
              | (m, .error e) => (m, .error e)
              | (m, .ok fs) => (m, .ok (f :: fs)) := by
            conv_lhs => unfold drawAll
            simp only [hr, hp]
            generalize drawAll order decode out g ns (m.write (figure out n) (.bytes "png")) = q
            obtain ⟨q1, q2⟩ := q
            cases q2 <;> rfl
          rw [hun]
          generalize drawAll order decode out g ns (m.write (figure out n) (.bytes "png")) = q
          obtain ⟨q1, q2⟩ := q
          constructor
          · intro e he; simp only at he; subst he; rfl
          · intro e he; simp only at he; subst he; rfl
        refine ⟨n :: pre, post, f :: figs, by rw [e1]; rfl, .cons hd e2, ?_, ?_, ?_, ?_⟩
        · rw [hres]; exact hof _ e3
        · rw [hres]
          intro k hk
          by_cases hin : k ∈ pre
          · exact e4 k hin
          · rcases List.mem_cons.mp hk with rfl | hk
            · rw [e3 _ (fun k' hk' e => hin (by rw [figure_inj e]; exact hk')), write_cur, if_pos rfl]
            · exact absurd hk hin
        · rw [hres]
          intro s hs
          rcases e5 s hs with h | h
          · exact hst s h
          · exact .inr (hof s h)
        · rcases e6 with ⟨h1, h2⟩ | ⟨k, rest, e, h1, h2, h3⟩
          · exact .inl ⟨h1, hres2.2 _ h2⟩
          · exact .inr ⟨k, rest, e, h1, h2, hres2.1 _ h3⟩

/-- `l[n]` in Python: counted from the end if negative. -/
def At {β : Type} (l : List β) (n : Int) (x : β) : Prop :=
  (0 ≤ n ∧ l[n.toNat]? = some x) ∨ (n < 0 ∧ 0 ≤ n + l.length ∧ l[(n + l.length).toNat]? = some x)

theorem pyIndex_ok {β : Type} (l : List β) (n : Int) (x : β) : pyIndex l n = .ok x ↔ At l n x := by
  unfold pyIndex At
  by_cases h : n < 0
  · simp only [h, if_true]
    by_cases h2 : n + (l.length : Int) < 0
    · simp only [h2, if_true, reduceCtorEq, false_iff]
      omega
    · simp only [h2, if_false]
      cases h3 : l[(n + (l.length : Int)).toNat]? with
      | none => simp; omega
      | some y =>
        have h4 : ¬ 0 ≤ n := by omega
        have h5 : 0 ≤ n + (l.length : Int) := by omega
        simp [h4, h5]
  · simp only [h, if_false]
    cases h3 : l[n.toNat]? with
    | none => simp
    | some y => simp; omega

theorem pyIndex_error {β : Type} (l : List β) (n : Int) (e : Exc) (h : pyIndex l n = .error e) : e = .indexError := by
  unfold pyIndex at h
  simp only at h
  split at h
  · split at h
    · cases h; rfl
    · split at h
      · cases h; rfl
      · cases h
  · split at h
    · cases h; rfl
    · cases h

theorem pick_ok {β : Type} (l : List β) : ∀ (ids : List Int) (xs : List β), pick l ids = .ok xs ↔ List.Forall₂ (At l) ids xs
  | [], xs => by
    simp only [pick, Except.ok.injEq]
    constructor
    · rintro rfl; exact .nil
    · intro h; cases h; rfl
  | n :: ns, xs => by
    unfold pick
    cases h : pyIndex l n with
    | error e =>
      simp only [reduceCtorEq, false_iff]
      intro h'
      cases h' with
      | cons h1 _ => rw [(pyIndex_ok l n _).mpr h1] at h; cases h
    | ok x =>
      simp only
      cases h2 : pick l ns with
      | error e =>
        simp only [reduceCtorEq, false_iff]
        intro h'
        cases h' with
        | cons _ h1 => rw [(pick_ok l ns _).mpr h1] at h2; cases h2
      | ok ys =>
        simp only [Except.ok.injEq]
        constructor
        · rintro rfl; exact .cons ((pyIndex_ok l n x).mp h) ((pick_ok l ns ys).mp h2)
        · intro h'
          cases h' with
          | cons h1 h3 =>
            rw [← pyIndex_ok, h, Except.ok.injEq] at h1
            rw [← pick_ok, h2, Except.ok.injEq] at h3
            rw [h1, h3]

theorem pick_error {β : Type} (l : List β) : ∀ (ids : List Int) (e : Exc), pick l ids = .error e → e = .indexError
  | [], e, h => by cases h
  | n :: ns, e, h => by
    unfold pick at h
    cases h1 : pyIndex l n with
    | error e1 =>
      simp only [h1, Except.error.injEq] at h
      subst h
      exact pyIndex_error l n _ h1
    | ok x =>
      simp only [h1] at h
      cases h2 : pick l ns with
      | error e2 =>
        simp only [h2, Except.error.injEq] at h
        subst h
        exact pick_error l ns _ h2
      | ok ys => simp [h2] at h

theorem pick_all {β : Type} (l : List β) (ids : List Int) (hs : ids.Pairwise (· < ·)) (hm : ∀ i, i ∈ ids ↔ 0 ≤ i ∧ i < l.length) : pick l ids = .ok l := by
  have he : ids = (List.range l.length).map Int.ofNat := by
    have h1 : ((List.range l.length).map Int.ofNat).Pairwise (· < ·) := by
      rw [List.pairwise_map]
      exact List.pairwise_lt_range.imp (fun h => Int.ofNat_lt.mpr h)
    refine List.Perm.eq_of_pairwise (fun a b _ _ h1 h2 => by omega) hs h1 ?_
    refine (List.perm_ext_iff_of_nodup (hs.imp (fun h => by omega)) (h1.imp (fun h => by omega))).mpr ?_
    intro i
    rw [hm, List.mem_map]
    constructor
    · intro h; exact ⟨i.toNat, by rw [List.mem_range]; omega, Int.toNat_of_nonneg h.1⟩
    · rintro ⟨k, hk, rfl⟩; rw [List.mem_range] at hk; exact ⟨Int.natCast_nonneg k, Int.ofNat_lt.mpr hk⟩
  rw [pick_ok, he, List.forall₂_iff_get]
  refine ⟨by simp, ?_⟩
  intro k h1 h2
  left
  simp

/-! ## C86 -/

/-- The names the arguments select among the targets of the file, in alphabetical order: those at the positions
given (`all`: each once, `none`: none), and of these only the one with the given name if there is one. -/
def Selects (int : List Char → Option Int) (c : Cmd) (file : Hdf5.Group V) (names : List String) : Prop :=
  ∃ g l ids picked, file.get? "targets" = some (.group g) ∧ Sorted g l ∧ Misc.parseRange int c.number.toList l.length = some ids ∧
    List.Forall₂ (At l) ids picked ∧ names = if c.name = "None" then picked else picked.filter (fun n => n = c.name)

theorem selected_ok (int : List Char → Option Int) (c : Cmd) (file : Hdf5.Group V) (names : List String)
    (hc : c.number = "all" ∨ c.name = "None") :
    Selects int c file names ↔ ∃ g, file.get? "targets" = some (.group g) ∧ selected int c file = .ok (g, names) := by
  have hc' : ¬ (c.number ≠ "all" ∧ c.name ≠ "None") := by tauto
  constructor
  · rintro ⟨g, l, ids, picked, h1, h2, h3, h4, h5⟩
    refine ⟨g, h1, ?_⟩
    unfold selected
    rw [if_neg hc', h1]
    simp only [listing_eq h2, h3, (pick_ok l ids picked).mpr h4, h5]
    by_cases hn : c.name = "None" <;> simp [hn]
  · rintro ⟨g, h1, h⟩
    unfold selected at h
    rw [if_neg hc', h1] at h
    simp only at h
    cases h2 : Misc.parseRange int c.number.toList (listing g).length with
    | none => simp [h2] at h
    | some ids =>
      simp only [h2] at h
      cases h3 : pick (listing g) ids with
      | error e => simp [h3] at h
      | ok picked =>
        simp only [h3, Except.ok.injEq, Prod.mk.injEq, true_and] at h
        refine ⟨g, listing g, ids, picked, h1, listing_sorted g, h2, (pick_ok _ _ _).mp h3, ?_⟩
        rw [← h]
        by_cases hn : c.name = "None" <;> simp [hn]

/-- C86: whatever the arguments and the files, the command draws the selected targets one after the other, up to the first that cannot be drawn:
the figures of the targets before it are complete on the disk as `<target>.png`, and it raises; when all can be drawn it returns their figures.
Without a selection nothing is written. At every moment every other file, the input above all, is what it was. -/
theorem command_spec (order : List (Cell α) → List (Cell α)) (int : List Char → Option Int) (decode : String → Input α) (c : Cmd) (fs : FS V) :
    (∃ file names pre post, ∃ figs : List (Fig α), fs.get? c.input = some (.h5 file) ∧ (c.number = "all" ∨ c.name = "None") ∧
      Selects int c file names ∧ names = pre ++ post ∧ List.Forall₂ (Drawable order decode file) pre figs ∧
      AllThere c.out pre (command order int decode c ⟨fs, []⟩).1.cur ∧
      (∀ s ∈ (command order int decode c ⟨fs, []⟩).1.states, OnlyFigures c.out pre fs s) ∧
      ((post = [] ∧ (command order int decode c ⟨fs, []⟩).2 = .ok figs) ∨
       ∃ n rest e, post = n :: rest ∧ (∀ f, ¬ Drawable order decode file n f) ∧ (command order int decode c ⟨fs, []⟩).2 = .error e)) ∨
    ((¬ ∃ file names, fs.get? c.input = some (.h5 file) ∧ (c.number = "all" ∨ c.name = "None") ∧ Selects int c file names) ∧
      ∃ e, command order int decode c ⟨fs, []⟩ = (⟨fs, []⟩, .error e)) := by
  have hbad : (∃ e, command order int decode c ⟨fs, []⟩ = (⟨fs, []⟩, .error e)) → (¬ ∃ file g names, fs.get? c.input = some (.h5 file) ∧ selected int c file = .ok (g, names)) →
      ((¬ ∃ file names, fs.get? c.input = some (.h5 file) ∧ (c.number = "all" ∨ c.name = "None") ∧ Selects int c file names) ∧
      ∃ e, command order int decode c ⟨fs, []⟩ = (⟨fs, []⟩, .error e)) := by
    intro h1 h2
    refine ⟨?_, h1⟩
    rintro ⟨file, names, a1, a2, a3⟩
    obtain ⟨g, b1, b2⟩ := (selected_ok int c file names a2).mp a3
    exact h2 ⟨file, g, names, a1, b2⟩
  cases hf : Dict.get? fs c.input with
  | none =>
    right
    refine (hbad ⟨.osError, ?_⟩ (by rw [hf]; simp)).imp (fun h => by rw [hf] at h; exact h) id
    unfold command
    simp only [hf]
  | some x =>
    cases x with
    | bytes b =>
      right
      refine (hbad ⟨.osError, ?_⟩ (by rw [hf]; simp)).imp (fun h => by rw [hf] at h; exact h) id
      unfold command
      simp only [hf]
    | torn =>
      right
      refine (hbad ⟨.osError, ?_⟩ (by rw [hf]; simp)).imp (fun h => by rw [hf] at h; exact h) id
      unfold command
      simp only [hf]
    | h5 file =>
      cases hs : selected int c file with
      | error e =>
        right
        refine (hbad ⟨e, ?_⟩ (by
          rintro ⟨file', g, names, h1, h2⟩
          rw [hf] at h1
          cases h1
          rw [hs] at h2
          cases h2)).imp (fun h => by rw [hf] at h; exact h) id
        unfold command
        simp only [hf, hs]
      | ok q =>
        left
        obtain ⟨g, names⟩ := q
        have hc : c.number = "all" ∨ c.name = "None" := by
          by_contra hc
          push Not at hc
          unfold selected at hs
          rw [if_pos hc] at hs
          cases hs
        have hg : file.get? "targets" = some (.group g) := by
          unfold selected at hs
          rw [if_neg (by tauto)] at hs
          cases ht : file.get? "targets" with
          | none => simp [ht] at hs
          | some y =>
            simp only [ht] at hs
            cases y with
            | ds d => simp at hs
            | group g' =>
              simp only at hs
              cases h2 : Misc.parseRange int c.number.toList (listing g').length with
              | none => simp [h2] at hs
              | some ids =>
                simp only [h2] at hs
                cases h3 : pick (listing g') ids with
                | error e => simp [h3] at hs
                | ok picked =>
                  simp only [h3, Except.ok.injEq, Prod.mk.injEq] at hs
                  rw [hs.1]
        obtain ⟨pre, post, figs, e1, e2, e3, e4, e5, e6⟩ := drawAll_spec order decode c.out file g hg names ⟨fs, []⟩
        have hcmd : command order int decode c ⟨fs, []⟩ = drawAll order decode c.out g names ⟨fs, []⟩ := by
          unfold command
          simp only [hf, hs]
        rw [hcmd]
        refine ⟨file, names, pre, post, figs, rfl, hc, (selected_ok int c file names hc).mpr ⟨g, hg, hs⟩, e1, e2, e4, ?_, e6⟩
        intro s hs'
        rcases e5 s hs' with h | h
        · simp only [Mach.states, List.nil_append, List.mem_singleton] at h
          rw [h]; exact fun _ _ => rfl
        · exact h

/-- C86: which exception there is when nothing is selected. -/
theorem command_refuses (order : List (Cell α) → List (Cell α)) (int : List Char → Option Int) (decode : String → Input α) (c : Cmd) (m : Mach V) :
    ((∀ file, m.cur.get? c.input ≠ some (.h5 file)) → command order int decode c m = (m, .error .osError)) ∧
    ∀ file, m.cur.get? c.input = some (.h5 file) →
      (c.number ≠ "all" → c.name ≠ "None" → command order int decode c m = (m, .error .valueError)) ∧
      (c.number = "all" ∨ c.name = "None" → file.get? "targets" = none → command order int decode c m = (m, .error .keyError)) ∧
      (c.number = "all" ∨ c.name = "None" → ∀ g, file.get? "targets" = some (.group g) →
        (Misc.parseRange int c.number.toList (Dict.keys g).length = none → command order int decode c m = (m, .error .typeError)) ∧
        (∀ ids, Misc.parseRange int c.number.toList (Dict.keys g).length = some ids → (∃ i ∈ ids, i < -((Dict.keys g).length : Int) ∨ ((Dict.keys g).length : Int) ≤ i) →
          command order int decode c m = (m, .error .indexError))) := by
  refine ⟨?_, ?_⟩
  · intro h
    unfold command
    cases hf : Dict.get? m.cur c.input with
    | none => rfl
    | some x =>
      cases x with
      | h5 file => exact absurd hf (h file)
      | bytes b => rfl
      | torn => rfl
  · intro file hf
    have hcmd : ∀ e, selected int c file = .error e → command order int decode c m = (m, .error e) := by
      intro e he
      unfold command
      simp only [hf, he]
    refine ⟨?_, ?_, ?_⟩
    · intro h1 h2
      exact hcmd _ (by unfold selected; rw [if_pos ⟨h1, h2⟩])
    · intro h1 h2
      exact hcmd _ (by unfold selected; rw [if_neg (by tauto), h2])
    · intro h1 g hg
      have hl : (listing g).length = (Dict.keys g).length := (listing_sorted g).1.length_eq
      refine ⟨?_, ?_⟩
      · intro h2
        exact hcmd _ (by unfold selected; rw [if_neg (by tauto), hg]; simp only [hl, h2])
      · rintro ids h2 ⟨i, hi, hr⟩
        apply hcmd
        unfold selected
        rw [if_neg (by tauto), hg]
        simp only [hl, h2]
        cases h3 : pick (listing g) ids with
        | error e => rw [pick_error _ _ _ h3]
        | ok xs =>
          exfalso
          have h4 := (pick_ok _ _ _).mp h3
          have : ∀ (ids : List Int) (xs : List String), List.Forall₂ (At (listing g)) ids xs → ∀ i ∈ ids, ∃ x, At (listing g) i x := by
            intro ids xs h
            induction h with
            | nil => simp
            | cons h _ ih =>
              intro i hi
              rcases List.mem_cons.mp hi with rfl | hi
              · exact ⟨_, h⟩
              · exact ih i hi
          obtain ⟨x, hx⟩ := this _ _ h4 i hi
          have hlt : ∀ k : ℕ, (listing g)[k]? = some x → k < (Dict.keys g).length := by
            intro k hk
            rw [← hl]
            exact (List.getElem?_eq_some_iff.mp hk).1
          rcases hx with ⟨h5, h6⟩ | ⟨h5, h6, h7⟩
          · have := hlt _ h6; omega
          · rw [hl] at h6; omega

/-- The whole selection: the default arguments take every target once. -/
theorem selects_all (int : List Char → Option Int) (c : Cmd) (hn : c.number = "all") (hname : c.name = "None") (file g : Hdf5.Group V)
    (hg : file.get? "targets" = some (.group g)) (l : List String) (hl : Sorted g l) : Selects int c file l := by
  obtain ⟨ids, h1, h2, h3⟩ := (Misc.parse_range_spec int c.number.toList l.length).1 (by rw [hn]; decide)
  refine ⟨g, l, ids, l, hg, hl, h1, (pick_ok _ _ _).mp (pick_all l ids h2 h3), by rw [if_pos hname]⟩

/-- A name: that target if it is there, otherwise nothing. -/
theorem selects_name (int : List Char → Option Int) (c : Cmd) (hn : c.number = "all") (hname : c.name ≠ "None") (file g : Hdf5.Group V)
    (hg : file.get? "targets" = some (.group g)) (hnd : (Dict.keys g).Nodup) : Selects int c file (if c.name ∈ Dict.keys g then [c.name] else []) := by
  obtain ⟨ids, h1, h2, h3⟩ := (Misc.parse_range_spec int c.number.toList (listing g).length).1 (by rw [hn]; decide)
  refine ⟨g, listing g, ids, listing g, hg, listing_sorted g, h1, (pick_ok _ _ _).mp (pick_all _ ids h2 h3), ?_⟩
  rw [if_neg hname]
  have hp := (listing_sorted g).1
  have hnd' : (listing g).Nodup := hp.nodup_iff.mpr hnd
  by_cases h : c.name ∈ Dict.keys g
  · rw [if_pos h]
    have h' : c.name ∈ listing g := hp.mem_iff.mpr h
    have : (listing g).filter (fun n => decide (n = c.name)) = List.replicate ((listing g).count c.name) c.name := by
      first | exact List.filter_eq _ | (have := List.filter_eq (l := listing g) c.name; simpa [eq_comm] using this)
    rw [this, List.count_eq_one_of_mem hnd' h']
    rfl
  · rw [if_neg h, eq_comm, List.filter_eq_nil_iff]
    intro x hx
    simp only [decide_eq_true_eq]
    rintro rfl
    exact h (hp.mem_iff.mp hx)

/-- The selection is determined by the arguments and the file. -/
theorem selects_unique (int : List Char → Option Int) (c : Cmd) (file : Hdf5.Group V) (names names' : List String)
    (hc : c.number = "all" ∨ c.name = "None") (h : Selects int c file names) (h' : Selects int c file names') : names = names' := by
  obtain ⟨g, h1, h2⟩ := (selected_ok int c file names hc).mp h
  obtain ⟨g', h1', h2'⟩ := (selected_ok int c file names' hc).mp h'
  rw [h2, Except.ok.injEq, Prod.mk.injEq] at h2'
  exact h2'.2

/-- C86: when all the selected targets can be drawn the command draws exactly these: afterwards there is `<target>.png` for each of them and nothing
else has changed. -/
theorem command_draws (order : List (Cell α) → List (Cell α)) (int : List Char → Option Int) (decode : String → Input α) (c : Cmd) (fs : FS V)
    (file : Hdf5.Group V) (hf : fs.get? c.input = some (.h5 file)) (hc : c.number = "all" ∨ c.name = "None") (names : List String)
    (hs : Selects int c file names) (hd : ∀ n ∈ names, ∃ f, Drawable order decode file n f) :
    ∃ figs : List (Fig α), (command order int decode c ⟨fs, []⟩).2 = .ok figs ∧ List.Forall₂ (Drawable order decode file) names figs ∧
      AllThere c.out names (command order int decode c ⟨fs, []⟩).1.cur ∧ OnlyFigures c.out names fs (command order int decode c ⟨fs, []⟩).1.cur := by
  rcases command_spec order int decode c fs with ⟨file', names', pre, post, figs, h1, h2, h3, h4, h5, h6, h7, h8⟩ | ⟨h, _⟩
  · rw [hf] at h1
    cases h1
    have hn := selects_unique int c file names names' hc hs h3
    subst hn
    rcases h8 with ⟨h8, h9⟩ | ⟨n, rest, e, h8, h9, _⟩
    · rw [h8, List.append_nil] at h4
      subst h4
      exact ⟨figs, h9, h5, h6, h7 _ (by simp [Mach.states])⟩
    · obtain ⟨f, hf⟩ := hd n (by rw [h4, h8]; simp)
      exact absurd hf (h9 f)
  · exact absurd ⟨file, names, hf, hc, hs⟩ h

/-- C86: a name that is not in the file: no figure and no error. -/
theorem unknown_name (order : List (Cell α) → List (Cell α)) (int : List Char → Option Int) (decode : String → Input α) (c : Cmd) (fs : FS V)
    (file g : Hdf5.Group V) (hf : fs.get? c.input = some (.h5 file)) (hg : file.get? "targets" = some (.group g)) (hnum : c.number = "all")
    (hname : c.name ≠ "None") (hno : c.name ∉ Dict.keys g) :
    (command order int decode c ⟨fs, []⟩).2 = .ok [] ∧ ∀ p, (command order int decode c ⟨fs, []⟩).1.cur.get? p = fs.get? p := by
  obtain ⟨ids, h1, h2, h3⟩ := (Misc.parse_range_spec int c.number.toList (listing g).length).1 (by rw [hnum]; decide)
  have hs : Selects int c file [] := by
    refine ⟨g, listing g, ids, listing g, hg, listing_sorted g, h1, (pick_ok _ _ _).mp (pick_all _ ids h2 h3), ?_⟩
    rw [if_neg hname, eq_comm, List.filter_eq_nil_iff]
    intro x hx
    simp only [decide_eq_true_eq]
    rintro rfl
    exact hno ((listing_sorted g).1.mem_iff.mp hx)
  obtain ⟨figs, a1, a2, a3, a4⟩ := command_draws order int decode c fs file hf (.inl hnum) [] hs (by simp)
  cases a2
  exact ⟨a1, fun p => a4 p (by simp)⟩

/-! ## A run and then the command -/

variable {P R T : Type}

theorem entriesOf_get (items : List (String × Item V)) (cols : List (String × V × Option String)) (id : String) (unit : String → Option String)
    (hs : Storable unit (.dict items)) (hmem : ("table", Item.dict [("table", Item.table id cols)]) ∈ items) :
    Dict.get? (entriesOf items) "table" = some (nodeOf (.dict [("table", Item.table id cols)])) := by
  have hnd : (items.flatMap namesOf).Nodup := by
    unfold Storable at hs; exact hs.1
  clear hs
  induction items with
  | nil => cases hmem
  | cons x d ih =>
    obtain ⟨k, x⟩ := x
    rw [List.flatMap_cons, List.nodup_append] at hnd
    obtain ⟨n1, n2, n3⟩ := hnd
    rcases List.mem_cons.mp hmem with h | h
    · cases h
      simp [entriesOf, Dict.get?]
    · have hin : "table" ∈ d.flatMap namesOf := by
        rw [List.mem_flatMap]
        exact ⟨_, h, by simp [namesOf]⟩
      have hne : ∀ y ∈ namesOf (k, x), "table" ≠ y := fun y hy e => n3 y hy _ hin e.symm
      have ih := ih h n2
      cases x with
      | table i c =>
        have e1 := hne k (by simp [namesOf])
        have e2 := hne (k ++ metaKey) (by simp [namesOf])
        have e3 := hne (k ++ "_to_group") (by simp [namesOf])
        simp only [entriesOf]
        rw [List.cons_append, Dict.get?_cons, if_neg (Ne.symm e1), List.cons_append, Dict.get?_cons, if_neg (Ne.symm e2), List.cons_append, Dict.get?_cons, if_neg (Ne.symm e3)]
        exact ih
      | quantity v u =>
        have e1 := hne k (by simp [namesOf])
        simp only [entriesOf]
        rw [Dict.get?_cons, if_neg (Ne.symm e1)]; exact ih
      | num v =>
        have e1 := hne k (by simp [namesOf])
        simp only [entriesOf]
        rw [Dict.get?_cons, if_neg (Ne.symm e1)]; exact ih
      | str v =>
        have e1 := hne k (by simp [namesOf])
        simp only [entriesOf]
        rw [Dict.get?_cons, if_neg (Ne.symm e1)]; exact ih
      | dict v =>
        have e1 := hne k (by simp [namesOf])
        simp only [entriesOf]
        rw [Dict.get?_cons, if_neg (Ne.symm e1)]; exact ih
      | objs v =>
        have e1 := hne k (by simp [namesOf])
        simp only [entriesOf]
        rw [Dict.get?_cons, if_neg (Ne.symm e1)]; exact ih
      | other =>
        have e1 := hne k (by simp [namesOf])
        simp only [entriesOf]
        rw [Dict.get?_cons, if_neg (Ne.symm e1)]; exact ih

/-- C86: after a run in which every step succeeded and no target was skipped, the command with its default arguments draws every target from
the table the run saved for it, in alphabetical order, provided these tables can be drawn. -/
theorem run_then_plot (unit : String → Option String) (env : Env V P R T) {a : Args P R} {fs : FS V} {p q out : Path} {fp fq : File V} (h : Plain a fs p q out fp fq)
    (pl : P) (hpl : env.loadXml fp = .ok pl) (hw : (writePayload env pl (withInfo env [])).2 = .ok ()) (hrange : env.range pl = .ok ())
    (rows : R) (hrows : env.loadCsv fq = .ok rows) (ts : List T) (hts : (env.observe pl rows).2.map Prod.snd = ts.map some) (hne : ts ≠ [])
    (hn : (ts.map env.name).Nodup) (hs : ∀ t ∈ ts, Storable unit (.dict (env.items t)))
    (tableId : T → String) (cols : T → List (String × V × Option String))
    (htab : ∀ t ∈ ts, ("table", Item.dict [("table", Item.table (tableId t) (cols t))]) ∈ env.items t)
    (order : List (Cell α) → List (Cell α)) (int : List Char → Option Int) (decode : String → Input α) (dir : String) (fig : T → Fig α)
    (hd : ∀ t ∈ ts, plotTable order true (decode (tableId t)) = .ok (fig t)) :
    ∃ sorted : List T, sorted.Perm ts ∧ (sorted.map env.name).Pairwise (· ≤ ·) ∧
      (command order int decode { input := out, out := dir } ⟨(pipeline env a fs).1.cur, []⟩).2 = .ok (sorted.map fig) ∧
      AllThere dir (ts.map env.name) (command order int decode { input := out, out := dir } ⟨(pipeline env a fs).1.cur, []⟩).1.cur ∧
      OnlyFigures dir (ts.map env.name) (pipeline env a fs).1.cur (command order int decode { input := out, out := dir } ⟨(pipeline env a fs).1.cur, []⟩).1.cur := by
  obtain ⟨m, hf, hc, e⟩ := plain_run env h pl hpl hw hrange rows hrows
  have hnone : (writePayload env pl (withInfo env [])).1.get? "targets" = none := by
    rw [writePayload_targets env pl _ _ (by decide), withInfo_targets env _ _ (by decide)]
    rfl
  obtain ⟨m', file, e1, _, fw, _, nd, _, sv, so, tk⟩ := saveTargets_some unit env out ts [] m _ hf hn hs (by rw [hnone]; simp) (by intro t _; rw [savedAs_eq, hnone])
  rw [List.append_nil] at e1
  rw [e, hts, e1]
  simp only [saveTargets]
  have hfile := fw hne
  obtain ⟨g, hg⟩ : ∃ g, file.get? "targets" = some (.group g) := by
    obtain ⟨t, ht⟩ := List.exists_mem_of_ne_nil ts hne
    have := sv t ht
    rw [savedAs_eq] at this
    cases hx : file.get? "targets" with
    | none => simp [hx] at this
    | some x =>
      cases x with
      | ds d => exact absurd hx (nd d)
      | group g => exact ⟨g, rfl⟩
  have hget : ∀ n, Dict.get? g n = savedAs file n := by intro n; rw [savedAs_eq, hg]
  have htin : ∀ t ∈ ts, TableIn file (env.name t) (tableId t) := by
    intro t ht
    unfold TableIn
    rw [at_two rfl, hg, Option.bind_some, at_two rfl, hget, sv t ht, Option.bind_some]
    rw [show (nodeOf (.dict (env.items t)) : Node V) = .group (entriesOf (env.items t)) by simp [nodeOf]]
    rw [at_two rfl, entriesOf_get _ _ _ unit (hs t ht) (htab t ht), Option.bind_some]
    rw [show (nodeOf (.dict [("table", Item.table (tableId t) (cols t))]) : Node V) = .group (entriesOf [("table", Item.table (tableId t) (cols t))]) by simp [nodeOf]]
    rw [at_two rfl]
    simp [entriesOf, Dict.get?, Node.at]
  have hkeys : Dict.keys g = ts.map env.name := by
    have h1 : targetKeys file = Dict.keys g := by unfold targetKeys; rw [hg]
    have h2 : targetKeys (writePayload env pl (withInfo env [])).1 = [] := by unfold targetKeys; rw [hnone]
    rw [← h1, tk, h2, List.nil_append]
  obtain ⟨sorted, hperm, hsorted⟩ : ∃ sorted : List T, sorted.Perm ts ∧ (sorted.map env.name).Pairwise (· ≤ ·) := by
    refine ⟨ts.mergeSort (fun a b => decide (env.name a ≤ env.name b)), List.mergeSort_perm _ _, ?_⟩
    rw [List.pairwise_map]
    have := List.pairwise_mergeSort (le := fun a b : T => decide (env.name a ≤ env.name b)) (by
      intro a b c h1 h2
      simp only [decide_eq_true_eq] at *
      exact String.le_trans h1 h2) (by
      intro a b
      simp only [Bool.or_eq_true, decide_eq_true_eq]
      exact String.le_total _ _) ts
    exact this.imp (fun h => by simpa using h)
  have hsel : Selects int { input := out, out := dir } file (sorted.map env.name) :=
    selects_all int _ rfl rfl file g hg _ ⟨by rw [hkeys]; exact hperm.map _, hsorted⟩
  have hdr : ∀ t ∈ ts, Drawable order decode file (env.name t) (fig t) := fun t ht => ⟨tableId t, htin t ht, hd t ht⟩
  obtain ⟨figs, a1, a2, a3, a4⟩ := command_draws order int decode { input := out, out := dir } m'.cur file hfile (.inl rfl) (sorted.map env.name) hsel (by
    intro n hn
    obtain ⟨t, ht, rfl⟩ := List.mem_map.mp hn
    exact ⟨fig t, hdr t (hperm.mem_iff.mp ht)⟩)
  have hmem : ∀ n, n ∈ sorted.map env.name ↔ n ∈ ts.map env.name := fun n => (hperm.map env.name).mem_iff
  refine ⟨sorted, hperm, hsorted, ?_, ?_, ?_⟩
  · rw [a1]
    have hun : ∀ n f f', Drawable order decode file n f → Drawable order decode file n f' → f = f' := by
      rintro n f f' ⟨i, h1, h2⟩ ⟨i', h1', h2'⟩
      unfold TableIn at h1 h1'
      rw [h1, Option.some.injEq, Node.ds.injEq, Data.tab.injEq] at h1'
      subst h1'
      rw [h2, Except.ok.injEq] at h2'
      exact h2'
    have : ∀ (l : List T) (figs : List (Fig α)), (∀ t ∈ l, t ∈ ts) → List.Forall₂ (Drawable order decode file) (l.map env.name) figs → figs = l.map fig := by
      intro l
      induction l with
      | nil => intro figs _ h; cases h; rfl
      | cons t l ih =>
        intro figs hl h
        cases h with
        | cons h1 h2 => rw [List.map_cons, hun _ _ _ h1 (hdr t (hl t (by simp))), ih _ (fun t ht => hl t (by simp [ht])) h2]
    rw [this sorted figs (fun t ht => hperm.mem_iff.mp ht) a2]
  · intro n hn; exact a3 n ((hmem n).mpr hn)
  · intro p hp
    exact a4 p (fun n hn => hp n ((hmem n).mp hn))

end ExoRad.Plotter
