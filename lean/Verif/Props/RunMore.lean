import Verif.Props.RunSave

/-!
# C23, C55, C74, C75: more about runs
-/

set_option linter.unusedSectionVars false

namespace ExoRad.Run
open Hdf5

variable {V P R T : Type}

/-- If no target was skipped the dictionary holds targets with distinct names, one for every name observed. -/
theorem collect_targets (rs : List (Option Pipeline.Target)) (h : ∀ r ∈ rs, r.isSome) :
    ∃ ts : List Pipeline.Target, (Pipeline.collect rs).map Prod.snd = ts.map some ∧ (ts.map Pipeline.Target.name).Nodup ∧
      ∀ t, some t ∈ rs → t.name ∈ ts.map Pipeline.Target.name := by
  obtain ⟨h1, h2, h3⟩ := collect_spec rs
  have key : ∀ d : Dict (Option String) (Option Pipeline.Target), (∀ k ∈ d.keys, k.isSome) → (∀ kv ∈ d, kv.1 = kv.2.map Pipeline.Target.name) →
      ∃ ts : List Pipeline.Target, d.map Prod.snd = ts.map some ∧ d.keys = ts.map (fun t => some t.name) := by
    intro d
    induction d with
    | nil => intro _ _; exact ⟨[], rfl, rfl⟩
    | cons kv d ih =>
      intro hk hv
      obtain ⟨ts, e1, e2⟩ := ih (fun k hk' => hk k (by simp [hk'])) (fun x hx => hv x (by simp [hx]))
      obtain ⟨k, v⟩ := kv
      have hk1 := hk k (by simp)
      have hv1 := hv (k, v) (by simp)
      simp only at hv1
      subst hv1
      cases v with
      | none => simp at hk1
      | some t =>
        refine ⟨t :: ts, by simp [e1], ?_⟩
        rw [Dict.keys_cons, e2]
        rfl
  obtain ⟨ts, e1, e2⟩ := key (Pipeline.collect rs) (by
    intro k hk
    obtain ⟨r, hr, rfl⟩ := (h3 k).mp hk
    have := h r hr
    cases r with
    | none => simp at this
    | some t => rfl) h2
  refine ⟨ts, e1, ?_, ?_⟩
  · rw [e2] at h1
    have : ts.map (fun t => some t.name) = (ts.map Pipeline.Target.name).map some := by simp
    rw [this] at h1
    exact h1.of_map _
  · intro t ht
    have := (h3 (some t.name)).mpr ⟨some t, ht, rfl⟩
    rw [e2] at this
    simp only [List.mem_map, Option.some.injEq] at this ⊢
    exact this

/-! ## C75: a run with `replace` does not depend on the old output -/

/-- Two disks have the same files at the paths in `X`. -/
def Agree (X : Path → Prop) (m m' : Mach V) : Prop := ∀ x, X x → m.cur.get? x = m'.cur.get? x

theorem agree_write {X : Path → Prop} {m m' : Mach V} (h : Agree X m m') (p : Path) (f : File V) : Agree X (m.write p f) (m'.write p f) := by
  intro x hx
  simp only [Mach.write, Mach.step, Dict.get?_set, h x hx]

theorem andThen_rel {α β : Type} {X : Path → Prop} {r r' : Mach V × Except Exc α} {f : Mach V → α → Mach V × Except Exc β}
    (h : r.2 = r'.2 ∧ Agree X r.1 r'.1) (hf : ∀ m m' x, Agree X m m' → (f m x).2 = (f m' x).2 ∧ Agree X (f m x).1 (f m' x).1) :
    (andThen r f).2 = (andThen r' f).2 ∧ Agree X (andThen r f).1 (andThen r' f).1 := by
  obtain ⟨m, r⟩ := r
  obtain ⟨m', r'⟩ := r'
  simp only at h
  obtain ⟨rfl, h⟩ := h
  unfold andThen
  cases r with
  | error e => exact ⟨rfl, h⟩
  | ok x => exact hf m m' x h

theorem copyInto_rel {Q : Type} {X : Path → Prop} {m m' : Mach V} (h : Agree X m m') (src : Src Q) (dir : String) (hs : ∀ p, src = .file p → X p) :
    (copyInto src dir m).2 = (copyInto src dir m').2 ∧ Agree X (copyInto src dir m).1 (copyInto src dir m').1 := by
  unfold copyInto
  cases src with
  | obj x => exact ⟨rfl, h⟩
  | file p =>
    simp only [h p (hs p rfl)]
    cases m'.cur.get? p with
    | none => exact ⟨rfl, h⟩
    | some f =>
      simp only
      split
      · exact ⟨rfl, h⟩
      · exact ⟨rfl, agree_write h _ _⟩

theorem session_rel {X : Path → Prop} {m m' : Mach V} (h : Agree X m m') (env : Env V P R T) (p : Path) (hp : X p) (f : Hdf5.Group V → W V) :
    (session env p f m).2 = (session env p f m').2 ∧ Agree X (session env p f m).1 (session env p f m').1 := by
  unfold session
  rw [h p hp]
  cases m'.cur.get? p with
  | none => exact ⟨rfl, agree_write h _ _⟩
  | some x =>
    cases x with
    | h5 g => exact ⟨rfl, agree_write h _ _⟩
    | bytes s => exact ⟨rfl, h⟩
    | torn => exact ⟨rfl, h⟩

theorem preparePayload_rel {X : Path → Prop} {m m' : Mach V} (h : Agree X m m') (env : Env V P R T) (src : Src P) (out : Option Path)
    (hs : ∀ p, src = .file p → X p) (ho : ∀ o, out = some o → X o) :
    (preparePayload env src out m).2 = (preparePayload env src out m').2 ∧ Agree X (preparePayload env src out m).1 (preparePayload env src out m').1 := by
  have hb : ∀ pl, (buildPayload env out pl m).2 = (buildPayload env out pl m').2 ∧ Agree X (buildPayload env out pl m).1 (buildPayload env out pl m').1 := by
    intro pl
    unfold buildPayload
    cases out with
    | none => exact ⟨rfl, h⟩
    | some o => exact session_rel h env o (ho o rfl) _
  have hfin : ∀ (m m' : Mach V) (pl : P) (_ : Unit), Agree X m m' →
      ((fun (m : Mach V) (_ : Unit) => match env.range pl with
        | .error e => (m, .error e)
        | .ok _ => (m, .ok pl)) m () : Mach V × Except Exc P).2 = ((fun (m : Mach V) (_ : Unit) => match env.range pl with
        | .error e => (m, .error e)
        | .ok _ => (m, .ok pl)) m' () : Mach V × Except Exc P).2 ∧ Agree X ((fun (m : Mach V) (_ : Unit) => match env.range pl with
        | .error e => (m, .error e)
        | .ok _ => (m, .ok pl)) m () : Mach V × Except Exc P).1 ((fun (m : Mach V) (_ : Unit) => match env.range pl with
        | .error e => (m, .error e)
        | .ok _ => (m, .ok pl)) m' () : Mach V × Except Exc P).1 := by
    intro m m' pl _ hm
    cases env.range pl with
    | error e => exact ⟨rfl, hm⟩
    | ok u => exact ⟨rfl, hm⟩
  unfold preparePayload
  cases src with
  | obj pl =>
    simp only [if_true]
    exact andThen_rel (hb pl) (fun m m' x hm => hfin m m' pl x hm)
  | file p =>
    simp only [h p (hs p rfl)]
    split
    · exact ⟨rfl, h⟩
    · rename_i pl build _
      refine andThen_rel ?_ (fun m m' x hm => hfin m m' pl x hm)
      split
      · exact hb pl
      · exact ⟨rfl, h⟩

theorem saveTargets_rel {X : Path → Prop} (env : Env V P R T) (out : Path) (ho : X out) : ∀ (ts : List (Option T)) (m m' : Mach V), Agree X m m' →
    (saveTargets env out ts m).2 = (saveTargets env out ts m').2 ∧ Agree X (saveTargets env out ts m).1 (saveTargets env out ts m').1
  | [], m, m', h => ⟨rfl, h⟩
  | none :: ts, m, m', h => by
    unfold saveTargets
    exact session_rel h env out ho _
  | some t :: ts, m, m', h => by
    unfold saveTargets
    have h1 := session_rel h env out ho (writeTarget env t)
    revert h1
    generalize session env out (writeTarget env t) m = q
    generalize session env out (writeTarget env t) m' = q'
    obtain ⟨n, r⟩ := q
    obtain ⟨n', r'⟩ := q'
    rintro ⟨h1, h2⟩
    simp only at h1 h2
    subst h1
    cases r with
    | error e => exact ⟨rfl, h2⟩
    | ok u => exact saveTargets_rel env out ho ts n n' h2

theorem targetPlots_rel {X : Path → Prop} (a : Args P R) (names : List String) {m m' : Mach V} (h : Agree X m m') :
    Agree X (targetPlots a names m) (targetPlots a names m') := by
  unfold targetPlots
  split
  · rename_i out _ _
    induction names generalizing m m' with
    | nil => exact h
    | cons n names ih => exact ih (agree_write h _ _)
  · exact h

/-- C75: a run with `replace` does the same whatever was in the output file before: it raises the same or nothing, and
the new output is the same. Only the input files matter. -/
theorem replace_forgets_output (env : Env V P R T) (a : Args P R) (fs fs' : FS V) (out : Path) (ho : a.output = some out) (hr : a.replace = true)
    (h1 : ∀ p, a.options = .file p → p ≠ out ∧ fs.get? p = fs'.get? p) (h2 : ∀ q, a.targets = .file q → q ≠ out ∧ fs.get? q = fs'.get? q) :
    (pipeline env a fs).2 = (pipeline env a fs').2 ∧
    (pipeline env a fs).1.cur.get? out = (pipeline env a fs').1.cur.get? out := by
  let X : Path → Prop := fun x => x = out ∨ a.options = .file x ∨ a.targets = .file x
  have xo : X out := .inl rfl
  have x1 : ∀ p, a.options = .file p → X p := fun p hp => .inr (.inl hp)
  have x2 : ∀ p, a.targets = .file p → X p := fun p hp => .inr (.inr hp)
  have removed : ∀ fs : FS V, (removeOld a ⟨fs, []⟩).cur.get? out = none ∧ ∀ x, x ≠ out → (removeOld a ⟨fs, []⟩).cur.get? x = fs.get? x := by
    intro fs
    unfold removeOld
    simp only [ho, hr, Bool.true_and]
    split
    · refine ⟨?_, ?_⟩
      · simp only [Mach.remove, Mach.step]
        rw [Dict.get?_removeAll, if_pos (by simp)]
      · intro x hx
        simp only [Mach.remove, Mach.step]
        rw [Dict.get?_removeAll, if_neg (by simpa using hx)]
    · rename_i h
      simp only [Bool.not_eq_true, Option.isSome_eq_false_iff, Option.isNone_iff_eq_none] at h
      exact ⟨h, fun _ _ => rfl⟩
  have h0 : Agree X (removeOld a ⟨fs, []⟩) (removeOld a ⟨fs', []⟩) := by
    rintro x (rfl | hx | hx)
    · rw [(removed fs).1, (removed fs').1]
    · rw [(removed fs).2 x (h1 x hx).1, (removed fs').2 x (h1 x hx).1, (h1 x hx).2]
    · rw [(removed fs).2 x (h2 x hx).1, (removed fs').2 x (h2 x hx).1, (h2 x hx).2]
  have main : (pipeline env a fs).2 = (pipeline env a fs').2 ∧ Agree X (pipeline env a fs).1 (pipeline env a fs').1 := by
    unfold pipeline
    apply andThen_rel
    · unfold copyInputs
      simp only [ho]
      exact andThen_rel (copyInto_rel h0 _ _ x1) (fun m m' _ hm => copyInto_rel hm _ _ x2)
    · intro m m' _ hm
      apply andThen_rel
      · exact preparePayload_rel hm env _ _ x1 (fun o h => by rw [ho, Option.some.injEq] at h; exact h ▸ xo)
      · intro m m' pl hm
        apply andThen_rel
        · unfold efficiencyPlot
          split
          · cases env.drawEfficiency pl with
            | error e => exact ⟨rfl, hm⟩
            | ok u =>
              cases u with
              | false => exact ⟨rfl, hm⟩
              | true =>
                simp only [ho]
                exact ⟨trivial, agree_write hm _ _⟩
          · exact ⟨rfl, hm⟩
        · intro m m' _ hm
          have hl : loadTargets env a.targets m = loadTargets env a.targets m' := by
            unfold loadTargets
            cases ht : a.targets with
            | obj r => rfl
            | file q =>
              simp only [hm q (x2 q ht)]
          unfold observeAndSave
          rw [hl]
          cases loadTargets env a.targets m' with
          | error e => exact ⟨rfl, hm⟩
          | ok rows =>
            simp only [ho]
            exact saveTargets_rel env out xo _ _ _ (targetPlots_rel a _ hm)
  exact ⟨main.1, main.2 out xo⟩

/-- C75: running again with `replace` gives the same output as the first run. -/
theorem rerun_same (env : Env V P R T) (a : Args P R) (fs : FS V) (p q out : Path) (hp : a.options = .file p) (hq : a.targets = .file q)
    (ho : a.output = some out) (kp : PayloadName p) (kq : TargetsName q) (hpo : p ≠ out) (hqo : q ≠ out) (hr : a.replace = true) :
    (pipeline env a (pipeline env a fs).1.cur).2 = (pipeline env a fs).2 ∧
    (pipeline env a (pipeline env a fs).1.cur).1.cur.get? out = (pipeline env a fs).1.cur.get? out := by
  have hk := inputs_kept env a fs p q out hp hq ho kp kq hpo hqo (pipeline env a fs).1.cur (by simp [Mach.states])
  refine replace_forgets_output env a _ fs out ho hr ?_ ?_
  · intro x hx
    rw [hp, Src.file.injEq] at hx
    subst hx
    exact ⟨hpo, hk.1⟩
  · intro x hx
    rw [hq, Src.file.injEq] at hx
    subst hx
    exact ⟨hqo, hk.2⟩

/-! ## C74: appending the same payload -/

mutual
/-- Something that is not a dictionary is stored somewhere inside. -/
def HasLeaf : Item V → Prop
  | .num _ => True
  | .str _ => True
  | .quantity _ _ => True
  | .table _ _ => True
  | .dict d => HasLeafIn d
  | .objs _ => False
  | .other => False
def HasLeafIn : List (String × Item V) → Prop
  | [] => False
  | (_, x) :: d => HasLeaf x ∨ HasLeafIn d
end

theorem kept_get {g h : Hdf5.Group V} (k : Kept g h) {n : String} {x : Node V} (hx : g.get? n = some x) : h.get? n ≠ none := by
  intro hn
  have hk := k [n]
  have e : (Node.group h).at [n] = none := by
    rw [Node.at, hn]
  have e' : (Node.group g).at [n] = some x := by
    rw [Node.at, hx]
    simp only
    rw [Node.at]
  cases x with
  | ds d =>
    have := hk.1 d e'
    rw [e] at this
    cases this
  | group s =>
    obtain ⟨s', this⟩ := hk.2 s e'
    rw [e] at this
    cases this

theorem kept_sub {g h : Hdf5.Group V} (k : Kept g h) {n : String} {s : Hdf5.Group V} (hs : g.get? n = some (.group s)) :
    ∃ s', h.get? n = some (.group s') ∧ Kept s s' := by
  have step : ∀ (g : Hdf5.Group V) (s : Hdf5.Group V) (p : List String), g.get? n = some (.group s) → (Node.group g).at (n :: p) = (Node.group s).at p := by
    intro g s p h
    rw [Node.at, h]
  have e : (Node.group g).at [n] = some (.group s) := by
    rw [step g s [] hs, Node.at]
  obtain ⟨s', h'⟩ := (k [n]).2 s e
  have hn : h.get? n = some (.group s') := by
    rw [Node.at] at h'
    revert h'
    cases Dict.get? h n with
    | none => intro h'; simp at h'
    | some x =>
      simp only
      intro h'
      rw [Node.at] at h'
      exact h'
  refine ⟨s', hn, ?_⟩
  intro p
  have := k (n :: p)
  rw [step g s p hs, step h s' p hn] at this
  exact this

mutual
theorem store_twice : ∀ (x : Item V) (k : String) (g g' : Hdf5.Group V), HasLeaf x → storeThing x k g = (g', .ok ()) →
    ∀ h, Kept g' h → (storeThing x k h).2 ≠ .ok ()
  | .num v, k, g, g', _, hs, h, hk => by
    have hg : ∃ n, g'.get? k = some n := by
      rw [storeThing, createDs] at hs
      split at hs
      · simp only [Prod.mk.injEq] at hs
        rw [← hs.1]
        exact ⟨_, Dict.get?_set_self _ _ _⟩
      · simp at hs
    obtain ⟨n, hn⟩ := hg
    obtain ⟨n', hn'⟩ := Option.ne_none_iff_exists'.mp (kept_get hk hn)
    rw [(colliding_write_raises h k n' hn').1]
    simp
  | .str v, k, g, g', _, hs, h, hk => by
    have hg : ∃ n, g'.get? k = some n := by
      rw [storeThing, createDs] at hs
      split at hs
      · simp only [Prod.mk.injEq] at hs
        rw [← hs.1]
        exact ⟨_, Dict.get?_set_self _ _ _⟩
      · simp at hs
    obtain ⟨n, hn⟩ := hg
    obtain ⟨n', hn'⟩ := Option.ne_none_iff_exists'.mp (kept_get hk hn)
    rw [(colliding_write_raises h k n' hn').2.1]
    simp
  | .quantity v u, k, g, g', _, hs, h, hk => by
    have hg : ∃ n, g'.get? k = some n := by
      rw [storeThing, writeQuantity] at hs
      split at hs
      · rename_i hv
        rw [hv]
        rw [createDs] at hs
        split at hs
        · simp only [Prod.mk.injEq] at hs
          rw [← hs.1]
          exact ⟨_, Dict.get?_set_self _ _ _⟩
        · simp at hs
      · rw [createGroupWith] at hs
        split at hs
        · simp only [Prod.mk.injEq] at hs
          rw [← hs.1]
          exact ⟨_, Dict.get?_set_self _ _ _⟩
        · simp at hs
    obtain ⟨n, hn⟩ := hg
    obtain ⟨n', hn'⟩ := Option.ne_none_iff_exists'.mp (kept_get hk hn)
    rw [(colliding_write_raises h k n' hn').2.2.1]
    simp
  | .table i c, k, g, g', _, hs, h, hk => by
    have hg : ∃ n, g'.get? k = some n := by
      rw [storeThing, writeTable, createDs] at hs
      cases hgk : g.get? k with
      | some n => rw [hgk] at hs; simp at hs
      | none =>
        rw [hgk] at hs
        simp only at hs
        have h1 : (g.set k (.ds (.tab i))).get? k = some (.ds (.tab i)) := Dict.get?_set_self _ _ _
        have k1 := createDs_kept (g.set k (.ds (.tab i))) (k ++ metaKey) (.tabMeta i)
        revert hs k1
        generalize createDs (g.set k (.ds (.tab i))) (k ++ metaKey) (.tabMeta i) = q
        obtain ⟨g1, r⟩ := q
        intro hs k1
        cases r with
        | error e => simp at hs
        | ok u =>
          simp only at hs
          have k2 := createGroupWith_kept g1 (k ++ "_to_group") (columnGroups c)
          rw [hs] at k2
          exact Option.ne_none_iff_exists'.mp (kept_get (k1.trans k2) h1)
    obtain ⟨n, hn⟩ := hg
    obtain ⟨n', hn'⟩ := Option.ne_none_iff_exists'.mp (kept_get hk hn)
    rw [(colliding_write_raises h k n' hn').2.2.2.1]
    simp
  | .dict d, k, g, g', hl, hs, h, hk => by
    simp only [HasLeaf] at hl
    have key : ∀ sub : Hdf5.Group V, g' = g.set k (.group (saveDict d sub).1) → (saveDict d sub).2 = .ok () → (storeThing (.dict d) k h).2 ≠ .ok () := by
      intro sub e1 e2
      have hg : g'.get? k = some (.group (saveDict d sub).1) := by rw [e1]; exact Dict.get?_set_self _ _ _
      obtain ⟨s', hs', hk'⟩ := kept_sub hk hg
      rw [storeThing, hs']
      exact save_twice d sub _ hl (Prod.ext rfl e2) s' hk'
    rw [storeThing] at hs
    split at hs
    · simp only [Prod.mk.injEq] at hs
      exact key [] hs.1.symm hs.2
    · rename_i sub _
      simp only [Prod.mk.injEq] at hs
      exact key sub hs.1.symm hs.2
    · simp only [Prod.mk.injEq] at hs
      cases d with
      | nil => simp [HasLeafIn] at hl
      | cons q d =>
        obtain ⟨k', x⟩ := q
        cases x <;> simp [intoDataset] at hs
  | .objs _, _, _, _, hl, _, _, _ => by simp [HasLeaf] at hl
  | .other, _, _, _, hl, _, _, _ => by simp [HasLeaf] at hl
theorem save_twice : ∀ (d : List (String × Item V)) (g g' : Hdf5.Group V), HasLeafIn d → saveDict d g = (g', .ok ()) →
    ∀ h, Kept g' h → (saveDict d h).2 ≠ .ok ()
  | [], _, _, hl, _, _, _ => by simp [HasLeafIn] at hl
  | (k, x) :: d, g, g', hl, hs, h, hk => by
    rw [saveDict] at hs
    simp only [HasLeafIn] at hl
    cases hx : storeThing x k g with
    | mk g1 r =>
      rw [hx] at hs
      cases r with
      | error e =>
        simp only [Prod.mk.injEq] at hs
        exact absurd hs.2 (by cases e <;> simp [wrap])
      | ok u =>
        simp only at hs
        have k1 : Kept g1 g' := by
          have := saveDict_kept d g1
          rw [hs] at this
          exact this
        rw [saveDict]
        rcases hl with hl | hl
        · have := store_twice x k g g1 hl hx h (k1.trans hk)
          revert this
          generalize storeThing x k h = q
          obtain ⟨h1, r⟩ := q
          intro this
          cases r with
          | error e => cases e <;> simp [wrap]
          | ok u => exact absurd rfl this
        · have kh := storeThing_kept x k h
          revert kh
          generalize storeThing x k h = q
          obtain ⟨h1, r⟩ := q
          intro kh
          cases r with
          | error e => cases e <;> simp [wrap]
          | ok u => exact save_twice d g1 g' hl hs h1 (hk.trans kh)
end

/-- C74, what does not hold: a second run with `replace=False` and the same XML payload always raises, whatever the targets: its payload is already in
the output. -/
theorem append_same_payload_raises (env : Env V P R T) (a : Args P R) (fs : FS V) (p out : Path) (fp : File V) (hp : a.options = .file p)
    (ho : a.output = some out) (hr : a.replace = false) (hx : ext p.base = ".xml") (hf : fs.get? p = some fp) (pl : P) (hpl : env.loadXml fp = .ok pl)
    (hleaf : HasLeafIn (env.describe pl)) (h1 : p.base ≠ out.base) (h2 : ∀ q, a.targets = .file q → q.base ≠ out.base ∧ q.base ≠ p.base)
    (g0 g : Hdf5.Group V) (hw : (writePayload env pl g0).2 = .ok ()) (hg : fs.get? out = some (.h5 g)) (hk : Kept (writePayload env pl g0).1 g) :
    (pipeline env a fs).2 ≠ .ok () := by
  have hrem : removeOld a (⟨fs, []⟩ : Mach V) = ⟨fs, []⟩ := by
    unfold removeOld
    simp [ho, hr]
  have hcopied : ∀ m, copyInputs a (removeOld a ⟨fs, []⟩) = (m, .ok ()) → m.cur.get? p = some fp ∧ m.cur.get? out = some (.h5 g) := by
    intro m hm
    rw [hrem] at hm
    obtain ⟨m1, e1, c1, c2⟩ := copyInto_ok (P := P) p out.dir (⟨fs, []⟩ : Mach V) fp hf
    unfold copyInputs at hm
    simp only [ho, hp, andThen, e1] at hm
    cases ht : a.targets with
    | obj r => rw [ht] at hm; simp [copyInto] at hm
    | file q =>
      rw [ht] at hm
      cases hq : m1.cur.get? q with
      | none => simp [copyInto, hq] at hm
      | some fq =>
        obtain ⟨m2, e2, d1, d2⟩ := copyInto_ok (P := R) q out.dir m1 fq hq
        rw [e2] at hm
        simp only [Prod.mk.injEq, and_true] at hm
        subst hm
        refine ⟨?_, ?_⟩
        · rw [d2 p (fun e => (h2 q ht).2 e.symm), c1]
        · rw [d2 out (fun e => (h2 q ht).1 e.symm), c2 out (fun e => h1 e.symm)]
          exact hg
  have hraise : (writePayload env pl (withInfo env g)).2 ≠ .ok () := by
    intro hok
    unfold writePayload at hok hw hk
    have k0 : Kept g (withInfo env g) := withInfo_kept env g
    cases hs : storeThing (.dict [("payload description", .dict (env.describe pl)), ("channels", .dict [])]) "payload" g0 with
    | mk g1 r =>
      rw [hs] at hw hk
      cases r with
      | error e => simp at hw
      | ok u =>
        simp only at hw hk
        have k1 : Kept g1 (withInfo env g) := ((writeChannels_kept _ _).trans hk).trans k0
        have := store_twice (.dict [("payload description", .dict (env.describe pl)), ("channels", .dict [])]) "payload" g0 g1
          (by simp [HasLeaf, HasLeafIn, hleaf]) hs (withInfo env g) k1
        revert this hok
        generalize storeThing (.dict [("payload description", .dict (env.describe pl)), ("channels", .dict [])]) "payload" (withInfo env g) = q
        obtain ⟨g2, r⟩ := q
        intro hok this
        cases r with
        | error e => simp at hok
        | ok u => exact this rfl
  unfold pipeline
  cases hc : copyInputs a (removeOld a ⟨fs, []⟩) with
  | mk m r =>
    cases r with
    | error e => simp [andThen]
    | ok u =>
      obtain ⟨c1, c2⟩ := hcopied m hc
      have hprep : ∃ m' e, preparePayload env a.options a.output m = (m', .error e) := by
        unfold preparePayload
        simp only [hp, ho, hx, if_true, c1, hpl, buildPayload, session_ok env out _ m g (.inr c2)]
        revert hraise
        generalize (writePayload env pl (withInfo env g)) = q
        obtain ⟨g2, r⟩ := q
        intro hraise
        cases r with
        | error e => exact ⟨_, e, rfl⟩
        | ok u => exact absurd rfl hraise
      obtain ⟨m', e, hprep⟩ := hprep
      simp [andThen, hprep]

/-! ## C55: dispatch -/

/-- C55: a payload file with another extension than `.xml`, `.h5`, `.hdf5` raises OSError and nothing is touched; a target list with another extension
than `.csv` and `.xlsx` raises OSError. -/
theorem other_extension (env : Env V P R T) (out : Option Path) (m : Mach V) :
    (∀ p, ¬ PayloadName p → preparePayload env (.file p) out m = (m, .error .osError)) ∧
    (∀ q, ¬ TargetsName q → loadTargets env (.file q) m = .error .osError) := by
  constructor
  · intro p hp
    simp only [PayloadName, not_or] at hp
    unfold preparePayload
    simp [hp.1, hp.2.1, hp.2.2]
  · intro q hq
    simp only [TargetsName, not_or] at hq
    unfold loadTargets
    simp [hq.1, hq.2]

/-- C55: a file with a known extension is read by its own loader. -/
theorem known_extension (env : Env V P R T) (m : Mach V) (p : Path) (f : File V) (hf : m.cur.get? p = some f) :
    (ext p.base = ".xml" → ∀ e, env.loadXml f = .error e → ∀ out, preparePayload env (.file p) out m = (m, .error e)) ∧
    (ext p.base = ".xml" → ∀ pl, env.loadXml f = .ok pl → buildOnly (env.build pl) = .ok () → env.range pl = .ok () →
      preparePayload env (.file p) none m = (m, .ok pl)) ∧
    (ext p.base = ".h5" ∨ ext p.base = ".hdf5" → ∀ g, f = .h5 g → ∀ pl, env.loadH5 g = .ok pl → env.range pl = .ok () →
      ∀ out, preparePayload env (.file p) out m = (m, .ok pl)) ∧
    (ext p.base = ".csv" → ∀ r, env.loadCsv f = .ok r → loadTargets env (.file p) m = .ok r) ∧
    (ext p.base = ".xlsx" → ∀ r, env.loadXlsx f = .ok r → loadTargets env (.file p) m = .ok r) ∧
    (ext p.base = ".csv" → ∀ e, env.loadCsv f = .error e → loadTargets env (.file p) m = .error (if e = .keyError then .osError else e)) ∧
    (ext p.base = ".xlsx" → ∀ e, env.loadXlsx f = .error e → loadTargets env (.file p) m = .error (if e = .keyError then .osError else e)) := by
  refine ⟨?_, ?_, ?_, ?_, ?_, ?_, ?_⟩
  · intro hx e he out
    simp [preparePayload, hx, hf, he]
  · intro hx pl he hb hr
    simp [preparePayload, hx, hf, he, buildPayload, andThen, hb, hr]
  · intro hx g hg pl he hr out
    subst hg
    have hnx : ext p.base ≠ ".xml" := by
      rcases hx with h | h <;> rw [h] <;> decide
    simp only [preparePayload, if_neg hnx, if_pos hx, hf, he, andThen, hr]
    simp
  · intro hx r hr
    simp [loadTargets, hx, hf, hr]
  · intro hx r hr
    simp [loadTargets, hx, hf, hr]
  · intro hx e he
    cases e <;> simp [loadTargets, hx, hf, he]
  · intro hx e he
    cases e <;> simp [loadTargets, hx, hf, he]

/-- C55: without an output, the channels of a payload can be built together exactly when each can. -/
theorem buildOnly_ok_iff (cs : List (Except Exc (ChanRec V))) : buildOnly cs = .ok () ↔ ∀ c ∈ cs, ∃ r, c = .ok r := by
  induction cs with
  | nil => simp [buildOnly]
  | cons c cs ih =>
    cases c with
    | error e => simp [buildOnly]
    | ok r => simp [buildOnly, ih]

/-- C55: without an output, a run on a payload file stops with the exception of the first channel that cannot be built, and no file has changed. -/
theorem unbuildable_channel (env : Env V P R T) (a : Args P R) (fs : FS V) (p : Path) (f : File V) (pl : P) (hp : a.options = .file p) (ho : a.output = none)
    (hx : ext p.base = ".xml") (hf : fs.get? p = some f) (hl : env.loadXml f = .ok pl) (before after : List (Except Exc (ChanRec V))) (e : Exc)
    (hb : env.build pl = before ++ .error e :: after) (hok : ∀ c ∈ before, ∃ r, c = .ok r) :
    pipeline env a fs = (⟨fs, []⟩, .error e) := by
  have key : ∀ l : List (Except Exc (ChanRec V)), (∀ c ∈ l, ∃ r, c = .ok r) → buildOnly (l ++ .error e :: after) = .error e := by
    intro l
    induction l with
    | nil => intro _; rfl
    | cons c l ih =>
      intro h
      obtain ⟨r, rfl⟩ := h c (by simp)
      exact ih fun c hc => h c (by simp [hc])
  have h1 : removeOld a (⟨fs, []⟩ : Mach V) = ⟨fs, []⟩ := by simp [removeOld, ho]
  have h2 : copyInputs a (⟨fs, []⟩ : Mach V) = (⟨fs, []⟩, .ok ()) := by simp [copyInputs, ho]
  have h3 : preparePayload env a.options a.output ⟨fs, []⟩ = (⟨fs, []⟩, .error e) := by
    simp [preparePayload, hp, ho, hx, hf, hl, buildPayload, hb, key before hok, andThen]
  unfold pipeline
  rw [h1, h2]
  simp only [andThen]
  rw [h3]

/-- C55, what does not hold for the whole run: the old output is removed before the extension of the payload is looked at. -/
theorem unsupported_payload_removes_output (env : Env V P R T) (a : Args P R) (fs : FS V) (p q out : Path) (fp fq fo : File V) (hp : a.options = .file p)
    (hq : a.targets = .file q) (ho : a.output = some out) (hr : a.replace = true) (hn : ¬ PayloadName p) (h1 : p.base ≠ out.base) (h2 : q.base ≠ out.base)
    (fp' : fs.get? p = some fp) (fq' : fs.get? q = some fq) (fo' : fs.get? out = some fo) :
    (pipeline env a fs).2 = .error .osError ∧ (pipeline env a fs).1.cur.get? out = none := by
  have hpo : p ≠ out := fun e => h1 (by rw [e])
  have hqo : q ≠ out := fun e => h2 (by rw [e])
  have hrem : removeOld a (⟨fs, []⟩ : Mach V) = (⟨fs, []⟩ : Mach V).remove out := by
    unfold removeOld
    simp [ho, hr, fo']
  have g1 : ((⟨fs, []⟩ : Mach V).remove out).cur.get? p = some fp := by
    simp only [Mach.remove, Mach.step]
    rw [Dict.get?_removeAll, if_neg (by simpa using hpo), fp']
  have g2 : ((⟨fs, []⟩ : Mach V).remove out).cur.get? out = none := by
    simp only [Mach.remove, Mach.step]
    rw [Dict.get?_removeAll, if_pos (by simp)]
  have g3 : ((⟨fs, []⟩ : Mach V).remove out).cur.get? q = some fq := by
    simp only [Mach.remove, Mach.step]
    rw [Dict.get?_removeAll, if_neg (by simpa using hqo), fq']
  obtain ⟨m1, e1, c1, c2⟩ := copyInto_ok (P := P) p out.dir _ fp g1
  have hq1 : ∃ f, m1.cur.get? q = some f := by
    by_cases hb : q.base = p.base
    · by_cases hqp : q = p
      · exact ⟨fp, by rw [hqp, c1]⟩
      · unfold copyInto at e1
        simp only [g1] at e1
        split at e1
        · simp only [Prod.mk.injEq, and_true] at e1
          rw [← e1]
          exact ⟨fq, g3⟩
        · simp only [Prod.mk.injEq, and_true] at e1
          rw [← e1]
          simp only [Mach.write, Mach.step, Dict.get?_set]
          by_cases hd : q = ⟨out.dir, p.base⟩
          · exact ⟨fp, by simp [hd]⟩
          · refine ⟨fq, ?_⟩
            rw [if_neg (fun e => hd e), if_neg (fun e => hd e)]
            exact g3
    · exact ⟨fq, by rw [c2 q hb, g3]⟩
  obtain ⟨f, hq1⟩ := hq1
  obtain ⟨m2, e2, d1, d2⟩ := copyInto_ok (P := R) q out.dir m1 f hq1
  have hout : m2.cur.get? out = none := by
    rw [d2 out (fun e => h2 e.symm), c2 out (fun e => h1 e.symm), g2]
  have hc : copyInputs a (removeOld a ⟨fs, []⟩) = (m2, .ok ()) := by
    unfold copyInputs
    simp only [hrem, ho, hp, hq, andThen, e1, e2]
  unfold pipeline
  simp only [hc, andThen, hp, (other_extension env a.output m2).1 p hn]
  exact ⟨trivial, hout⟩

/-- An object in memory instead of a file: a table of targets (or a payload dictionary) together with an output raises TypeError before anything is computed, after
the old output was removed. -/
theorem table_with_output_raises (env : Env V P R T) (a : Args P R) (fs : FS V) (p out : Path) (fp : File V) (rows : R) (hp : a.options = .file p)
    (ht : a.targets = .obj rows) (ho : a.output = some out) (hpo : p ≠ out) (hf : fs.get? p = some fp) : (pipeline env a fs).2 = .error .typeError := by
  have g1 : (removeOld a ⟨fs, []⟩ : Mach V).cur.get? p = some fp := by
    unfold removeOld
    simp only [ho]
    split
    · simp only [Mach.remove, Mach.step]
      rw [Dict.get?_removeAll, if_neg (by simpa using hpo), hf]
    · exact hf
  obtain ⟨m1, e1, _, _⟩ := copyInto_ok (P := P) p out.dir _ fp g1
  have : copyInputs a (removeOld a ⟨fs, []⟩) = (m1, .error .typeError) := by
    unfold copyInputs
    simp only [ho, hp, ht, andThen, e1]
    rfl
  unfold pipeline
  rw [this]
  rfl

/-- C20: saving ends without exception only if every target was observed and every one was written without exception. -/
theorem saving_ok (env : Env V P R T) (out : Path) : ∀ (rs : List (Option T)) (m : Mach V), (saveTargets env out rs m).2 = .ok () →
    ∀ r ∈ rs, ∃ t m', r = some t ∧ (session env out (writeTarget env t) m').2 = .ok ()
  | [], _, _ => by simp
  | none :: rs, m, h => by
    exfalso
    unfold saveTargets session at h
    revert h
    cases m.cur.get? out with
    | none => simp
    | some x => cases x <;> simp
  | some t :: rs, m, h => by
    unfold saveTargets at h
    cases hs : session env out (writeTarget env t) m with
    | mk m' r =>
      rw [hs] at h
      cases r with
      | error e => simp at h
      | ok u =>
        intro r hr
        rcases List.mem_cons.mp hr with rfl | hr
        · exact ⟨t, m, rfl, by rw [hs]⟩
        · exact saving_ok env out rs m' h r hr

/-- C74: with `replace=False` an existing output that is not an HDF5 file is left alone at every point. -/
theorem other_output_kept (env : Env V P R T) (a : Args P R) (fs : FS V) (out : Path) (ho : a.output = some out) (hr : a.replace = false) (b : String)
    (hg : fs.get? out = some (.bytes b)) (h1 : ∀ p, a.options = .file p → p.base ≠ out.base ∨ p = out)
    (h2 : ∀ p, a.targets = .file p → p.base ≠ out.base ∨ p = out) (h3 : ∀ n, out ≠ figure out.dir n) :
    ∀ s ∈ (pipeline env a fs).1.states, s.get? out = some (.bytes b) := by
  have other : ∀ (m : Mach V) (p : Path) (f : File V), p ≠ out → (∀ s ∈ m.states, s.get? out = some (.bytes b)) →
      ∀ s ∈ (m.write p f).states, s.get? out = some (.bytes b) := by
    intro m p f hp hm s hs
    have hc : m.cur.get? out = some (.bytes b) := hm m.cur (by simp [Mach.states])
    simp only [Mach.states, Mach.write, Mach.step, List.mem_append, List.mem_singleton] at hs
    rcases hs with ((hs | rfl) | rfl) | rfl
    · exact hm s (by simp [Mach.states, hs])
    · exact hc
    · rw [Dict.get?_set_ne _ _ (fun e => hp e.symm), hc]
    · rw [Dict.get?_set_ne _ _ (fun e => hp e.symm), Dict.get?_set_ne _ _ (fun e => hp e.symm), hc]
  apply pipeline_inv env a fs (fun m => ∀ s ∈ m.states, s.get? out = some (.bytes b))
  · unfold removeOld
    simp only [ho, hr, Bool.false_and, Bool.false_eq_true, if_false, Mach.states, List.nil_append, List.mem_singleton, forall_eq]
    exact hg
  · intro m o p f ho' hp hne _ hm
    rw [ho, Option.some.injEq] at ho'
    subst ho'
    refine other m _ f ?_ hm
    intro e
    rcases h1 p hp with h | h
    · exact h (by rw [← e])
    · subst h
      exact hne rfl
  · intro m o p f ho' hp hne _ hm
    rw [ho, Option.some.injEq] at ho'
    subst ho'
    refine other m _ f ?_ hm
    intro e
    rcases h2 p hp with h | h
    · exact h (by rw [← e])
    · subst h
      exact hne rfl
  · intro m o n f ho' _ hm
    rw [ho, Option.some.injEq] at ho'
    subst ho'
    exact other m _ f (fun e => h3 n e.symm) hm
  · intro m o f ho' hk hm
    rw [ho, Option.some.injEq] at ho'
    subst ho'
    have hc : m.cur.get? out = some (.bytes b) := hm m.cur (by simp [Mach.states])
    unfold session
    rw [hc]
    exact hm

/-- C74, what does not hold without the condition on names: with `replace=False` an old output is overwritten by the copy of a payload of the same name in
another directory. -/
theorem copy_overwrites_output (env : Env V P R T) (a : Args P R) (fs : FS V) (p out : Path) (fp fo : File V) (hp : a.options = .file p)
    (ho : a.output = some out) (hr : a.replace = false) (hne : p ≠ out) (hb : p.base = out.base) (hf : fs.get? p = some fp) (_ho : fs.get? out = some fo) :
    ∃ s ∈ (pipeline env a fs).1.states, s.get? out = some fp := by
  have grow : ∀ (m : Mach V) (x : Path) (f : File V), (∃ s ∈ m.states, s.get? out = some fp) → ∃ s ∈ (m.write x f).states, s.get? out = some fp := by
    rintro m x f ⟨s, hs, hn⟩
    refine ⟨s, ?_, hn⟩
    simp only [Mach.states, List.mem_append, List.mem_singleton] at hs
    simp only [Mach.states, Mach.write, Mach.step, List.mem_append, List.mem_singleton]
    tauto
  have hd : (⟨out.dir, p.base⟩ : Path) = out := by rw [hb]
  have hrem : removeOld a (⟨fs, []⟩ : Mach V) = ⟨fs, []⟩ := by
    unfold removeOld
    simp [ho, hr]
  have hc : copyInto a.options out.dir (⟨fs, []⟩ : Mach V) = ((⟨fs, []⟩ : Mach V).write out fp, .ok ()) := by
    unfold copyInto
    simp only [hp, hf, hd, if_neg hne]
  have h0 : ∃ s ∈ ((⟨fs, []⟩ : Mach V).write out fp).states, s.get? out = some fp :=
    ⟨_, List.mem_append_right _ (List.mem_singleton.mpr rfl), by simp [Mach.write, Mach.step]⟩
  have hpipe : pipeline env a fs = andThen (copyInto a.targets out.dir ((⟨fs, []⟩ : Mach V).write out fp)) (fun m _ =>
      andThen (preparePayload env a.options a.output m) (fun m pl => andThen (efficiencyPlot env a pl m) (fun m _ => observeAndSave env a pl m))) := by
    unfold pipeline copyInputs
    rw [hrem]
    simp only [ho, hc, andThen]
  rw [hpipe]
  let Q : Mach V → Prop := fun m => ∃ s ∈ m.states, s.get? out = some fp
  change Q _
  have hsess : ∀ m f, Q m → Q (session env out f m).1 := by
    intro m f hm
    rcases session_cases env out f m with h | ⟨g, h, _⟩
    · rw [h]; exact hm
    · rw [h]; exact grow m _ _ hm
  have hwr : ∀ m x f, Q m → Q (m.write x f) := grow
  apply andThen_inv (Q := Q)
  · unfold copyInto
    cases a.targets with
    | obj x => exact h0
    | file q =>
      simp only
      cases ((⟨fs, []⟩ : Mach V).write out fp).cur.get? q with
      | none => exact h0
      | some f =>
        simp only
        split
        · exact h0
        · exact hwr _ _ _ h0
  · intro m _ hm
    apply andThen_inv (Q := Q)
    · unfold preparePayload
      simp only
      split
      · exact hm
      · apply andThen_inv (Q := Q)
        · split
          · unfold buildPayload
            simp only [ho]
            exact hsess m _ hm
          · exact hm
        · intro m x hm
          split <;> exact hm
    · intro m pl hm
      apply andThen_inv (Q := Q)
      · unfold efficiencyPlot
        split
        · split
          · exact hm
          · exact hm
          · split
            · exact hm
            · exact hwr _ _ _ hm
        · exact hm
      · intro m _ hm
        unfold observeAndSave
        split
        · exact hm
        · simp only [ho]
          have hplots : ∀ names m, Q m → Q (targetPlots a names m) := by
            intro names m hm
            unfold targetPlots
            split
            · induction names generalizing m with
              | nil => exact hm
              | cons n names ih => exact ih _ (hwr _ _ _ hm)
            · exact hm
          have hsave : ∀ (ts : List (Option T)) (m : Mach V), Q m → Q (saveTargets env out ts m).1 := by
            intro ts
            induction ts with
            | nil => intro m hm; exact hm
            | cons t ts ih =>
              intro m hm
              cases t with
              | none => unfold saveTargets; exact hsess m _ hm
              | some t =>
                unfold saveTargets
                have h1 := hsess m (writeTarget env t) hm
                revert h1
                generalize session env out (writeTarget env t) m = q
                intro h1
                obtain ⟨m', r⟩ := q
                cases r with
                | error e => exact h1
                | ok u => exact ih m' h1
          exact hsave _ _ (hplots _ _ hm)

end ExoRad.Run
