import Verif.Props.Run
import Verif.Props.Pipeline

/-!
# C20, C55, C74, C75: what a run saves
-/

set_option linter.unusedSectionVars false

namespace ExoRad.Run
open Hdf5

variable {V P R T : Type}

/-! ## Saving targets -/

/-- What the group `targets` of a file holds under a name. -/
def savedAs (g : Hdf5.Group V) (name : String) : Option (Node V) := (Node.group g).at ["targets", name]

theorem savedAs_eq (g : Hdf5.Group V) (name : String) : savedAs g name =
    match g.get? "targets" with
    | some (.group sub) => Dict.get? sub name
    | _ => none := by
  unfold savedAs Node.at
  cases h : Dict.get? g "targets" with
  | none => rfl
  | some n =>
    cases n with
    | ds d => simp [Node.at]
    | group sub =>
      simp only [Node.at]
      cases Dict.get? sub name <;> rfl

/-- The names in the group `targets` of a file, in the order of creation. -/
def targetKeys (g : Hdf5.Group V) : List String :=
  match g.get? "targets" with
  | some (.group sub) => Dict.keys sub
  | _ => []

theorem targetKeys_congr {g g' : Hdf5.Group V} (h : g'.get? "targets" = g.get? "targets") : targetKeys g' = targetKeys g := by
  unfold targetKeys; rw [h]

/-- Writing a target under a new name adds exactly it to the group `targets`. -/
theorem writeTarget_new (unit : String → Option String) (env : Env V P R T) (t : T) (g : Hdf5.Group V) (hs : Storable unit (.dict (env.items t)))
    (hg : ∀ d, g.get? "targets" ≠ some (.ds d)) (hn : savedAs g (env.name t) = none) :
    (writeTarget env t g).2 = .ok () ∧
    (∀ k, k ≠ "targets" → (writeTarget env t g).1.get? k = g.get? k) ∧
    (∀ d, (writeTarget env t g).1.get? "targets" ≠ some (.ds d)) ∧
    (∀ name, savedAs (writeTarget env t g).1 name = if name = env.name t then some (nodeOf (.dict (env.items t))) else savedAs g name) ∧
    targetKeys (writeTarget env t g).1 = targetKeys g ++ [env.name t] := by
  rw [savedAs_eq] at hn
  have key : ∀ sub : Hdf5.Group V, Dict.get? sub (env.name t) = none →
      saveDict [(env.name t, .dict (env.items t))] sub = ((sub ++ [(env.name t, nodeOf (.dict (env.items t)))] : List _), .ok ()) := by
    intro sub hsub
    have hk : env.name t ∉ Dict.keys sub := (Dict.get?_eq_none_iff sub _).mp hsub
    have := store_new unit (.dict (env.items t)) (env.name t) sub hs (by simpa [namesOf] using hk) (by simp [namesOf])
    rw [saveDict, this]
    simp only
    rw [saveDict]
    simp [entriesOf]
  unfold writeTarget
  cases h : g.get? "targets" with
  | none =>
    rw [storeThing, h]
    simp only
    rw [key [] rfl]
    refine ⟨rfl, ?_, ?_, ?_, by simp [targetKeys, h, Dict.keys]⟩
    · intro k hk; exact Dict.get?_set_ne _ _ hk
    · intro d; simp
    · intro name
      rw [savedAs_eq, savedAs_eq]
      simp only [Dict.get?_set_self, h]
      simp only [List.nil_append, Dict.get?]
      by_cases e : name = env.name t
      · subst e; simp
      · rw [if_neg (fun x => e x.symm), if_neg e]
  | some n =>
    cases n with
    | ds d => exact absurd h (hg d)
    | group sub =>
      rw [h] at hn
      simp only at hn
      rw [storeThing, h]
      simp only
      rw [key sub hn]
      refine ⟨rfl, ?_, ?_, ?_, by simp [targetKeys, h, Dict.keys]⟩
      · intro k hk; exact Dict.get?_set_ne _ _ hk
      · intro d; simp
      · intro name
        rw [savedAs_eq, savedAs_eq]
        simp only [Dict.get?_set_self, h]
        rw [Dict.get?_append]
        by_cases e : name = env.name t
        · subst e
          rw [if_neg ((Dict.get?_eq_none_iff sub _).mp hn)]
          simp [Dict.get?]
        · rw [if_neg e]
          split
          · rfl
          · rename_i hk
            rw [(Dict.get?_eq_none_iff sub _).mpr hk]
            simp only [Dict.get?]
            rw [if_neg (fun x => e x.symm)]

theorem withInfo_targets (env : Env V P R T) (g : Hdf5.Group V) (k : String) (hk : k ≠ "info") : (withInfo env g).get? k = g.get? k := by
  unfold withInfo
  split
  · rfl
  · rename_i h
    have hn : g.get? "info" = none := (Dict.get?_eq_none_iff g _).mpr (by
      rw [Bool.not_eq_true] at h
      exact (Dict.has_eq_false_iff g _).mp h)
    rw [storeThing, hn]
    exact Dict.get?_set_ne _ _ hk

/-- The HDF5 file at a path (`[]` if there is none yet). -/
def FileIs (m : Mach V) (p : Path) (g : Hdf5.Group V) : Prop := (m.cur.get? p = none ∧ g = []) ∨ m.cur.get? p = some (.h5 g)

theorem session_ok (env : Env V P R T) (p : Path) (f : Hdf5.Group V → W V) (m : Mach V) (g : Hdf5.Group V) (h : FileIs m p g) :
    session env p f m = (m.write p (.h5 (f (withInfo env g)).1), (f (withInfo env g)).2) := by
  unfold session
  rcases h with ⟨h, rfl⟩ | h
  · rw [h]
  · rw [h]

theorem fileIs_write (m : Mach V) (p : Path) (g : Hdf5.Group V) : FileIs (m.write p (.h5 g)) p g := by
  right
  simp [Mach.write, Mach.step]

/-- The loop that saves the targets, when none was skipped. -/
theorem saveTargets_some (unit : String → Option String) (env : Env V P R T) (out : Path) : ∀ (ts : List T) (rest : List (Option T)) (m : Mach V) (g : Hdf5.Group V), FileIs m out g →
    (ts.map env.name).Nodup → (∀ t ∈ ts, Storable unit (.dict (env.items t))) → (∀ d, g.get? "targets" ≠ some (.ds d)) →
    (∀ t ∈ ts, savedAs g (env.name t) = none) →
    ∃ m' g', saveTargets env out (ts.map some ++ rest) m = saveTargets env out rest m' ∧ FileIs m' out g' ∧ (ts ≠ [] → m'.cur.get? out = some (.h5 g')) ∧ (ts = [] → m' = m) ∧
      (∀ d, g'.get? "targets" ≠ some (.ds d)) ∧ Kept g g' ∧
      (∀ t ∈ ts, savedAs g' (env.name t) = some (nodeOf (.dict (env.items t)))) ∧
      (∀ name, name ∉ ts.map env.name → savedAs g' name = savedAs g name) ∧ targetKeys g' = targetKeys g ++ ts.map env.name
  | [], rest, m, g, hf, _, _, hd, _ => ⟨m, g, rfl, hf, by simp, by simp, hd, Kept.refl g, by simp, by simp, by simp⟩
  | t :: ts, rest, m, g, hf, hn, hs, hd, hnew => by
    have hsv : ∀ name, savedAs (withInfo env g) name = savedAs g name := by
      intro name
      rw [savedAs_eq, savedAs_eq, withInfo_targets env g _ (by decide)]
    obtain ⟨w1, w2, w3, w4, w5⟩ := writeTarget_new unit env t (withInfo env g) (hs t (by simp))
      (by rw [withInfo_targets env g _ (by decide)]; exact hd) (by rw [hsv]; exact hnew t (by simp))
    rw [List.map_cons, List.nodup_cons] at hn
    obtain ⟨m', g', e, f', fw, fe, d', k', s', o', tk⟩ := saveTargets_some unit env out ts rest (m.write out (.h5 (writeTarget env t (withInfo env g)).1))
      (writeTarget env t (withInfo env g)).1 (fileIs_write _ _ _) hn.2 (fun u hu => hs u (by simp [hu])) w3 (by
        intro u hu
        rw [w4, if_neg, hsv]
        · exact hnew u (by simp [hu])
        · intro he
          exact hn.1 (he ▸ List.mem_map.mpr ⟨u, hu, rfl⟩))
    refine ⟨m', g', ?_, f', ?_, by simp, d', (withInfo_kept env g).trans ((storeThing_kept _ _ _).trans k'), ?_, ?_, by
      rw [tk, w5, targetKeys_congr (withInfo_targets env g _ (by decide))]; simp⟩
    · simp only [List.map_cons, List.cons_append]
      conv_lhs => unfold saveTargets
      rw [session_ok env out _ m g hf, w1]
      exact e
    · intro _
      by_cases hts : ts = []
      · rw [fe hts]
        subst hts
        simp only [List.map_nil, List.nil_append] at e
        have hg' : g' = (writeTarget env t (withInfo env g)).1 := by
          have := fe rfl
          subst this
          rcases f' with ⟨h, _⟩ | h
          · simp [Mach.write, Mach.step] at h
          · simp only [Mach.write, Mach.step, Dict.get?_set_self, Option.some.injEq, File.h5.injEq] at h
            exact h.symm
        rw [hg']
        simp [Mach.write, Mach.step]
      · exact fw hts
    · intro u hu
      rcases List.mem_cons.mp hu with rfl | hu
      · rw [o' _ hn.1, w4, if_pos rfl]
      · exact s' u hu
    · intro name hname
      simp only [List.map_cons, List.mem_cons, not_or] at hname
      rw [o' _ hname.2, w4, if_neg hname.1, hsv]

/-- C20: if no target was skipped, the names are distinct and new in the file, and what is to be stored can be stored, then saving raises nothing,
every target is in the output under its name with all its values, and nothing already in the output is lost. -/
theorem all_saved (unit : String → Option String) (env : Env V P R T) (out : Path) (ts : List T) (m : Mach V) (g : Hdf5.Group V) (hf : FileIs m out g)
    (hn : (ts.map env.name).Nodup) (hs : ∀ t ∈ ts, Storable unit (.dict (env.items t))) (hd : ∀ d, g.get? "targets" ≠ some (.ds d))
    (hnew : ∀ t ∈ ts, savedAs g (env.name t) = none) (hne : ts ≠ []) :
    (saveTargets env out (ts.map some) m).2 = .ok () ∧
    ∃ g', (saveTargets env out (ts.map some) m).1.cur.get? out = some (.h5 g') ∧ Kept g g' ∧
      ∀ t ∈ ts, savedAs g' (env.name t) = some (nodeOf (.dict (env.items t))) := by
  obtain ⟨m', g', e, _, fw, _, _, k, s, _, _⟩ := saveTargets_some unit env out ts [] m g hf hn hs hd hnew
  rw [List.append_nil] at e
  rw [e]
  exact ⟨rfl, g', fw hne, k, s⟩

/-- C20, what does not hold: the first skipped target (None) ends the saving with AttributeError. The targets before it are saved; none
of those after it is, although they were observed. -/
theorem skipped_target_ends_saving (unit : String → Option String) (env : Env V P R T) (out : Path) (pre : List T) (post : List (Option T)) (m : Mach V)
    (g : Hdf5.Group V) (hf : FileIs m out g) (hn : (pre.map env.name).Nodup) (hs : ∀ t ∈ pre, Storable unit (.dict (env.items t)))
    (hd : ∀ d, g.get? "targets" ≠ some (.ds d)) (hnew : ∀ t ∈ pre, savedAs g (env.name t) = none) :
    (saveTargets env out (pre.map some ++ none :: post) m).2 = .error .attributeError ∧
    ∃ g', (saveTargets env out (pre.map some ++ none :: post) m).1.cur.get? out = some (.h5 g') ∧
      (∀ t ∈ pre, savedAs g' (env.name t) = some (nodeOf (.dict (env.items t)))) ∧
      ∀ t, some t ∈ post → env.name t ∉ pre.map env.name → savedAs g (env.name t) = none → savedAs g' (env.name t) = none := by
  obtain ⟨m', g', e, f', _, _, _, _, s, o, _⟩ := saveTargets_some unit env out pre (none :: post) m g hf hn hs hd hnew
  rw [e]
  unfold saveTargets
  rw [session_ok env out _ m' g' f']
  refine ⟨rfl, withInfo env g', by simp [Mach.write, Mach.step], ?_, ?_⟩
  · intro t ht
    rw [savedAs_eq, withInfo_targets env g' _ (by decide), ← savedAs_eq]
    exact s t ht
  · intro t _ hnot hnone
    rw [savedAs_eq, withInfo_targets env g' _ (by decide), ← savedAs_eq, o _ hnot, hnone]

/-! ## From the arguments to the file -/

theorem copyInto_ok (p : Path) (dir : String) (m : Mach V) (f : File V) (h : m.cur.get? p = some f) :
    ∃ m', copyInto (.file p : Src P) dir m = (m', .ok ()) ∧ m'.cur.get? p = some f ∧
      ∀ x, x.base ≠ p.base → m'.cur.get? x = m.cur.get? x := by
  unfold copyInto
  simp only [h]
  split
  · exact ⟨m, rfl, h, fun _ _ => rfl⟩
  · rename_i hne
    refine ⟨_, rfl, ?_, ?_⟩
    · simp only [Mach.write, Mach.step]
      rw [Dict.get?_set_ne _ _ hne, Dict.get?_set_ne _ _ hne, h]
    · intro x hx
      have hne : x ≠ ⟨dir, p.base⟩ := by
        rintro rfl
        exact hx rfl
      simp only [Mach.write, Mach.step]
      rw [Dict.get?_set_ne _ _ hne, Dict.get?_set_ne _ _ hne]

theorem writeChannels_targets : ∀ (cs : List (Except Exc (ChanRec V))) (g : Hdf5.Group V) (k : String), k ≠ "payload" →
    (writeChannels cs g).1.get? k = g.get? k
  | [], g, k, _ => rfl
  | .error e :: cs, g, k, _ => rfl
  | .ok c :: cs, g, k, hk => by
    have h1 : (storeThing (channelItem c) "payload" g).1.get? k = g.get? k := by
      unfold channelItem
      rw [storeThing]
      split
      · exact Dict.get?_set_ne _ _ hk
      · exact Dict.get?_set_ne _ _ hk
      · rfl
    unfold writeChannels
    revert h1
    generalize storeThing (channelItem c) "payload" g = q
    intro h1
    obtain ⟨g', r⟩ := q
    cases r with
    | error e => exact h1
    | ok u => exact (writeChannels_targets cs g' k hk).trans h1

theorem writePayload_targets (env : Env V P R T) (pl : P) (g : Hdf5.Group V) (k : String) (hk : k ≠ "payload") :
    (writePayload env pl g).1.get? k = g.get? k := by
  have h1 : (storeThing (.dict [("payload description", .dict (env.describe pl)), ("channels", .dict [])]) "payload" g).1.get? k = g.get? k := by
    rw [storeThing]
    split
    · exact Dict.get?_set_ne _ _ hk
    · exact Dict.get?_set_ne _ _ hk
    · rfl
  unfold writePayload
  revert h1
  generalize storeThing (.dict [("payload description", .dict (env.describe pl)), ("channels", .dict [])]) "payload" g = q
  intro h1
  obtain ⟨g', r⟩ := q
  cases r with
  | error e => exact h1
  | ok u => exact (writeChannels_targets _ g' k hk).trans h1

/-- A run described by its files: the payload is an XML file, the target list a CSV file, the output a new file with another name (or an old one to be
replaced), no figures. -/
structure Plain (a : Args P R) (fs : FS V) (p q out : Path) (fp fq : File V) : Prop where
  options : a.options = .file p
  targets : a.targets = .file q
  output : a.output = some out
  xml : ext p.base = ".xml"
  csv : ext q.base = ".csv"
  pname : p.base ≠ out.base
  qname : q.base ≠ out.base
  payload : fs.get? p = some fp
  list : fs.get? q = some fq
  fresh : a.replace = true ∨ fs.get? out = none
  noplot : a.plot = false

/-- The files after the inputs were copied. -/
theorem plain_copied {a : Args P R} {fs : FS V} {p q out : Path} {fp fq : File V} (h : Plain a fs p q out fp fq) :
    ∃ m, copyInputs a (removeOld a ⟨fs, []⟩) = (m, .ok ()) ∧ m.cur.get? p = some fp ∧ m.cur.get? q = some fq ∧ m.cur.get? out = none := by
  have hpq : p.base ≠ q.base := by
    intro e
    have h1 := h.xml
    rw [e, h.csv] at h1
    exact absurd h1 (by decide)
  have hpo : p ≠ out := fun e => h.pname (by rw [e])
  have hqo : q ≠ out := fun e => h.qname (by rw [e])
  have h0 : ∃ m : Mach V, removeOld a ⟨fs, []⟩ = m ∧ m.cur.get? p = some fp ∧ m.cur.get? q = some fq ∧ m.cur.get? out = none := by
    refine ⟨_, rfl, ?_⟩
    unfold removeOld
    simp only [h.output]
    split
    · simp only [Mach.remove, Mach.step]
      rw [Dict.get?_removeAll, if_neg (by simpa using hpo), Dict.get?_removeAll, if_neg (by simpa using hqo), Dict.get?_removeAll, if_pos (by simp)]
      exact ⟨h.payload, h.list, rfl⟩
    · rename_i hc
      refine ⟨h.payload, h.list, ?_⟩
      rcases h.fresh with hr | hn
      · simp only [hr, Bool.true_and, Bool.not_eq_true, Option.isSome_eq_false_iff, Option.isNone_iff_eq_none] at hc
        exact hc
      · exact hn
  obtain ⟨m0, e0, c1, c2, c3⟩ := h0
  obtain ⟨m1, e1, d1, d2⟩ := copyInto_ok (P := P) p out.dir m0 fp c1
  obtain ⟨m2, e2, f1, f2⟩ := copyInto_ok (P := R) q out.dir m1 fq (by rw [d2 q (fun e => hpq e.symm), c2])
  refine ⟨m2, ?_, ?_, f1, ?_⟩
  · unfold copyInputs
    rw [h.output, e0]
    simp only [h.options, h.targets, andThen, e1, e2]
  · rw [f2 p hpq, d1]
  · rw [f2 out (fun e => h.qname e.symm), d2 out (fun e => h.pname e.symm), c3]

/-- The file after the payload was written, and what is left to do. -/
theorem plain_run (env : Env V P R T) {a : Args P R} {fs : FS V} {p q out : Path} {fp fq : File V} (h : Plain a fs p q out fp fq)
    (pl : P) (hpl : env.loadXml fp = .ok pl) (hw : (writePayload env pl (withInfo env [])).2 = .ok ()) (hrange : env.range pl = .ok ())
    (rows : R) (hrows : env.loadCsv fq = .ok rows) :
    ∃ m, FileIs m out (writePayload env pl (withInfo env [])).1 ∧ m.cur.get? out = some (.h5 (writePayload env pl (withInfo env [])).1) ∧
      pipeline env a fs = saveTargets env out ((env.observe pl rows).2.map Prod.snd) m := by
  obtain ⟨m, e, c1, c2, c3⟩ := plain_copied h
  have hqo : q ≠ out := fun e => h.qname (by rw [e])
  have hs := session_ok env out (writePayload env pl) m [] (.inl ⟨c3, rfl⟩)
  refine ⟨m.write out (.h5 (writePayload env pl (withInfo env [])).1), fileIs_write _ _ _, by simp [Mach.write, Mach.step], ?_⟩
  have hprep : preparePayload env a.options a.output m = (m.write out (.h5 (writePayload env pl (withInfo env [])).1), .ok pl) := by
    unfold preparePayload
    simp only [h.options, h.output, h.xml, if_true, c1, hpl, buildPayload, hs, andThen, hw, hrange]
  have heff : ∀ m, efficiencyPlot env a pl m = (m, .ok ()) := by
    intro m
    simp [efficiencyPlot, h.noplot]
  have hq : (m.write out (.h5 (writePayload env pl (withInfo env [])).1)).cur.get? q = some fq := by
    simp only [Mach.write, Mach.step]
    rw [Dict.get?_set_ne _ _ hqo, Dict.get?_set_ne _ _ hqo, c2]
  unfold pipeline
  rw [e]
  simp only [andThen, hprep, heff]
  unfold observeAndSave
  have hl : loadTargets env a.targets (m.write out (.h5 (writePayload env pl (withInfo env [])).1)) = .ok rows := by
    unfold loadTargets
    simp only [h.targets, h.csv, if_true, hq, hrows]
  simp only [hl, targetPlots, h.noplot, h.output]

/-- C20: a run with an XML payload and a CSV target list in which every step succeeds and no target is skipped writes an output that holds
the payload and every target, under its name, with all its values. -/
theorem run_saves_all (unit : String → Option String) (env : Env V P R T) {a : Args P R} {fs : FS V} {p q out : Path} {fp fq : File V} (h : Plain a fs p q out fp fq)
    (pl : P) (hpl : env.loadXml fp = .ok pl) (hw : (writePayload env pl (withInfo env [])).2 = .ok ()) (hrange : env.range pl = .ok ())
    (rows : R) (hrows : env.loadCsv fq = .ok rows) (ts : List T) (hts : (env.observe pl rows).2.map Prod.snd = ts.map some)
    (hn : (ts.map env.name).Nodup) (hs : ∀ t ∈ ts, Storable unit (.dict (env.items t))) :
    (pipeline env a fs).2 = .ok () ∧
    ∃ g, (pipeline env a fs).1.cur.get? out = some (.h5 g) ∧ Kept (writePayload env pl (withInfo env [])).1 g ∧
      ∀ t ∈ ts, savedAs g (env.name t) = some (nodeOf (.dict (env.items t))) := by
  obtain ⟨m, hf, hc, e⟩ := plain_run env h pl hpl hw hrange rows hrows
  rw [e, hts]
  have hnone : (writePayload env pl (withInfo env [])).1.get? "targets" = none := by
    rw [writePayload_targets env pl _ _ (by decide), withInfo_targets env _ _ (by decide)]
    rfl
  by_cases hne : ts = []
  · subst hne
    exact ⟨rfl, _, hc, Kept.refl _, by simp⟩
  · exact all_saved unit env out ts m _ hf hn hs (by rw [hnone]; simp) (by intro t _; rw [savedAs_eq, hnone]) hne

/-- C20, what does not hold: in such a run one skipped target makes the run raise AttributeError, and no target that comes after it in the results is in the
output, however well it was observed. -/
theorem run_loses_targets (unit : String → Option String) (env : Env V P R T) {a : Args P R} {fs : FS V} {p q out : Path} {fp fq : File V} (h : Plain a fs p q out fp fq)
    (pl : P) (hpl : env.loadXml fp = .ok pl) (hw : (writePayload env pl (withInfo env [])).2 = .ok ()) (hrange : env.range pl = .ok ())
    (rows : R) (hrows : env.loadCsv fq = .ok rows) (pre : List T) (post : List (Option T))
    (hts : (env.observe pl rows).2.map Prod.snd = pre.map some ++ none :: post) (hn : (pre.map env.name).Nodup)
    (hs : ∀ t ∈ pre, Storable unit (.dict (env.items t))) :
    (pipeline env a fs).2 = .error .attributeError ∧
    ∃ g, (pipeline env a fs).1.cur.get? out = some (.h5 g) ∧ (∀ t ∈ pre, savedAs g (env.name t) = some (nodeOf (.dict (env.items t)))) ∧
      ∀ t, some t ∈ post → env.name t ∉ pre.map env.name → savedAs g (env.name t) = none := by
  obtain ⟨m, hf, hc, e⟩ := plain_run env h pl hpl hw hrange rows hrows
  rw [e, hts]
  have hnone : (writePayload env pl (withInfo env [])).1.get? "targets" = none := by
    rw [writePayload_targets env pl _ _ (by decide), withInfo_targets env _ _ (by decide)]
    rfl
  obtain ⟨r1, g', r2, r3, r4⟩ := skipped_target_ends_saving unit env out pre post m _ hf hn hs (by rw [hnone]; simp)
    (by intro t _; rw [savedAs_eq, hnone])
  exact ⟨r1, g', r2, r3, fun t ht hnot => r4 t ht hnot (by rw [savedAs_eq, hnone])⟩

/-! ## The dictionary of results -/

/-- The dictionary `ObserveTargetlist` gives has one entry per name, and a target's entry is under its name: the hypotheses above are met if no target was
skipped. -/
theorem collect_spec (rs : List (Option Pipeline.Target)) :
    (Pipeline.collect rs).keys.Nodup ∧ (∀ kv ∈ Pipeline.collect rs, kv.1 = kv.2.map Pipeline.Target.name) ∧
    (∀ k, k ∈ (Pipeline.collect rs).keys ↔ ∃ r ∈ rs, k = r.map Pipeline.Target.name) := by
  have key : ∀ (rs : List (Option Pipeline.Target)) (d : Dict (Option String) (Option Pipeline.Target)), d.keys.Nodup →
      (∀ kv ∈ d, kv.1 = kv.2.map Pipeline.Target.name) →
      (rs.foldl (fun d r => Dict.set d (r.map Pipeline.Target.name) r) d).keys.Nodup ∧
      (∀ kv ∈ rs.foldl (fun d r => Dict.set d (r.map Pipeline.Target.name) r) d, kv.1 = kv.2.map Pipeline.Target.name) ∧
      (∀ k, k ∈ (rs.foldl (fun d r => Dict.set d (r.map Pipeline.Target.name) r) d).keys ↔ k ∈ d.keys ∨ ∃ r ∈ rs, k = r.map Pipeline.Target.name) := by
    intro rs
    induction rs with
    | nil => intro d h1 h2; exact ⟨h1, h2, by simp⟩
    | cons r rs ih =>
      intro d h1 h2
      simp only [List.foldl_cons]
      have n1 : (Dict.set d (r.map Pipeline.Target.name) r).keys.Nodup := by
        rw [Dict.keys_set]
        split
        · exact h1
        · rename_i hk
          rw [List.nodup_append]
          refine ⟨h1, by simp, ?_⟩
          intro x hx y hy
          rw [List.mem_singleton] at hy
          subst hy
          rintro rfl
          exact hk hx
      obtain ⟨a1, a2, a3⟩ := ih (Dict.set d (r.map Pipeline.Target.name) r) n1 (by
        intro kv hkv
        obtain ⟨k, v⟩ := kv
        have := Dict.get?_of_mem n1 hkv
        rw [Dict.get?_set] at this
        simp only
        split at this
        · rename_i he
          simp only [Option.some.injEq] at this
          rw [← this, he]
        · exact h2 (k, v) (Dict.mem_of_get? this))
      refine ⟨a1, a2, ?_⟩
      intro k
      rw [a3, Dict.mem_keys_set]
      simp only [List.mem_cons, exists_eq_or_imp]
      tauto
  obtain ⟨a1, a2, a3⟩ := key rs [] (by simp [Dict.keys]) (by simp)
  exact ⟨a1, a2, fun k => by rw [Pipeline.collect, a3]; simp⟩

end ExoRad.Run
