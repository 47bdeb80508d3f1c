import Verif.Model.Program
import Verif.Props.Whole
import Verif.Props.CommandCall

/-!
# From the command line to the tables of the output file: C108
-/

set_option linter.unusedSectionVars false

namespace ExoRad.Program
open Command Whole Run

/-! ## Specification -/

/-- An instrument whose payload `pl` describes complete, sound channels with names that can be stored, foregrounds `sec` and black bodies `src`, in a world where files do not hold negative
light. -/
structure Ready (u : String → Option String) (o : Whole.Outside) (pl : P) (sec : Foreground.Section ℝ) (src : Source.Descr) (well fw freq dark rn : NoiseChannel → ℝ) : Prop where
  stores : Stores u o pl
  sound : SoundPayload o pl
  elements : Elements o pl
  perPhoton : 0 < o.build.perPhoton
  atel : 0 < pl.1.common.atel
  channels : channelsOf pl ≠ []
  complete : ∀ d ∈ channelsOf pl, Build.Complete (buildEnv o pl) pl.1.common d
  world : Build.PayloadWorld (worldOf o pl) pl.1.wlMin pl.1.wlMax pl.2
  within : ∀ d ∈ channelsOf pl, Build.Within pl.1.wlMin pl.1.wlMax pl.2 d
  budgets : Build.Budgets pl.1.common (channelsOf pl) well fw freq dark rn
  foreground : pl.1.foreground = some sec
  source : pl.1.source = some src
  planck : src.bytes = false ∧ Source.lower src.value ≠ "custom" ∧ Source.lower src.value ≠ "phoenix"
  notInstrument : ∀ kd ∈ sec.list, Foreground.nameOf kd ≠ "instrument"

/-- The files a command line names: an XML payload and a csv list, under other names than the output's. -/
structure Names (path : Word → Path) (fs : FS V) (p t out : Word) (fp ft : File V) : Prop where
  xml : ext (path p).base = ".xml"
  csv : ext (path t).base = ".csv"
  pname : (path p).base ≠ (path out).base
  tname : (path t).base ≠ (path out).base
  payload : fs.get? (path p) = some fp
  list : fs.get? (path t) = some ft

/-! ## C108 -/

/-- C108: a command line that is not one of the options of `exorad` with a payload and a target list ends the process with `SystemExit`; no file is touched. -/
theorem program_refused (o : Whole.Outside) (path : Word → Path) (int : Word → Option Int) (ws : List Word) (fs : FS V)
    (h : ¬ ∃ s, Line exoradOpts int ws s ∧ "opt" ∈ s.map Prod.fst ∧ "targetList" ∈ s.map Prod.fst) :
    program o path int ws fs = (⟨fs, []⟩, .error .systemExit) := by
  unfold program
  cases hm : main int ws with
  | ok c =>
    obtain ⟨s, hl, h1, h2, _⟩ := (exorad_call int ws c).mp hm
    exact absurd ⟨s, hl, List.mem_map.mpr ⟨_, last_mem h1, rfl⟩, List.mem_map.mpr ⟨_, last_mem h2, rfl⟩⟩ h
  | error e =>
    have : e = .systemExit := by
      unfold main at hm
      cases hp : parse exoradOpts int ws with
      | error e' => simp only [hp] at hm; cases hm; exact parse_exit _ _ _ _ hp
      | ok s => simp only [hp] at hm; cases hm
    subst this
    rfl

/-- A command line that sets the payload `p`, the list `t`, the output `out` and `n` processes. -/
structure Given (int : Word → Option Int) (ws : List Word) (s : Sets) (p t out : Word) (n : Int) : Prop where
  line : Line exoradOpts int ws s
  payload : Last s "opt" (.str p)
  list : Last s "targetList" (.str t)
  output : Last s "output" (.str out)
  processes : IsValueOf s "numberOfThreads" (.int 1) (.int n)

/-- The same, and no figures. -/
structure Sets3 (int : Word → Option Int) (ws : List Word) (s : Sets) (p t out : Word) (n : Int) : Prop extends Given int ws s p t out n where
  noplot : "plot" ∉ s.map Prod.fst

/-- The arguments a command line sets. -/
theorem program_call {int : Word → Option Int} {ws : List Word} {s : Sets} {p t out : Word} {n : Int} (h : Given int ws s p t out n) :
    ∃ f b d l, main int ws = .ok ⟨.str p, .str t, some (.str out), .bool f, .bool b, .bool d, .int n, .bool l, true⟩ ∧ (f = true ↔ "plot" ∈ s.map Prod.fst) ∧
      (b = true ↔ "contrib" ∈ s.map Prod.fst) ∧ (d = true ↔ "debug" ∈ s.map Prod.fst) := by
  have hc := (exorad_call int ws ⟨.str p, .str t, some (.str out), value s "plot" (.bool false), value s "contrib" (.bool false), value s "debug" (.bool false), .int n,
      value s "log" (.bool false), true⟩).mpr
    ⟨s, h.line, h.payload, h.list, h.output, value_isValueOf .., value_isValueOf .., value_isValueOf .., h.processes, value_isValueOf .., rfl⟩
  obtain ⟨_, _, _, ⟨f, hf⟩, ⟨b, hb⟩, ⟨d, hd⟩, _, ⟨l, hl'⟩⟩ := exorad_types int ws _ hc
  simp only at hb hd hl' hf
  rw [hb, hd, hl', hf] at hc
  have key : ∀ (k : String) (x : Bool), (∀ o ∈ exoradOpts, o.dest = k → o.kind = .flag) → value s k (.bool false) = .bool x → (x = true ↔ k ∈ s.map Prod.fst) := by
    intro k x hf hx
    rcases value_isValueOf s k (.bool false) with hv | hv
    · rw [hx] at hv
      have hm := last_mem hv
      obtain ⟨o, ho, hd, hk⟩ := line_kinds int h.line _ hm
      have hk0 : o.kind = .flag := hf o ho hd
      have : x = true := by
        rcases hk with h | h | h
        · simpa using h.2
        · rw [hk0] at h; cases h.1
        · rw [hk0] at h; cases h.1
      exact ⟨fun _ => List.mem_map.mpr ⟨_, hm, rfl⟩, fun _ => this⟩
    · rw [hx] at hv
      have : x = false := by simpa using hv.2
      subst this
      exact ⟨fun h => (by cases h), fun h => absurd h hv.1⟩
  exact ⟨f, b, d, l, hc, key "plot" f (by decide) hf, key "contrib" b (by decide) hb, key "debug" d (by decide) hd⟩

theorem few {a c : Prop} {n : Int} (h : a ∨ n ≤ 1 ∨ c) : a ∨ n.toNat ≤ 1 ∨ c := by
  rcases h with h | h | h
  · exact .inl h
  · exact .inr (.inl (by omega))
  · exact .inr (.inr h)

theorem flag_eq {x : Bool} {q : Prop} [Decidable q] (h : x = true ↔ q) : decide q = x := by
  cases x with
  | true => exact decide_eq_true (h.mp rfl)
  | false => exact decide_eq_false (fun hc => by have := h.mpr hc; cases this)

theorem program_given {int : Word → Option Int} {ws : List Word} {s : Sets} {p t out : Word} {n : Int} (h : Given int ws s p t out n) (o : Whole.Outside) (path : Word → Path) (fs : FS V) :
    program o path int ws fs = run
      { o with opts := { o.opts with plot := decide ("plot" ∈ s.map Prod.fst), outDir := some (path out).dir, debug := decide ("debug" ∈ s.map Prod.fst) }, nThread := n.toNat, full := decide ("contrib" ∈ s.map Prod.fst) }
      ⟨.file (path p), .file (path t), some (path out), true, decide ("plot" ∈ s.map Prod.fst)⟩ fs := by
  obtain ⟨f, b, d, l, hmain, h0, h1, h2⟩ := program_call h
  rw [flag_eq h0, flag_eq h1, flag_eq h2]
  unfold program
  rw [hmain]
  rfl

theorem program_eq {int : Word → Option Int} {ws : List Word} {s : Sets} {p t out : Word} {n : Int} (h : Sets3 int ws s p t out n) (o : Whole.Outside) (path : Word → Path) (fs : FS V) :
    program o path int ws fs = run
      { o with opts := { o.opts with plot := false, outDir := some (path out).dir, debug := decide ("debug" ∈ s.map Prod.fst) }, nThread := n.toNat, full := decide ("contrib" ∈ s.map Prod.fst) }
      ⟨.file (path p), .file (path t), some (path out), true, false⟩ fs := by
  rw [program_given h.toGiven, decide_eq_false h.noplot]

/-- C108: the command `exorad -p PAYLOAD -t LIST -o OUTPUT`, written in any way its options allow, with or without `-c`, `-n`, `-d`, `-l`, without `-P`. The payload describes complete, sound channels
and black bodies, the list names stars every channel is aimed at. The process ends without an exception, and the output file has a table for every star, with the noise budget of every channel. With `-c`
the table has a column for the light of every element that emits, and no `instrument_signal`. -/
theorem program_file {u : String → Option String} {o : Whole.Outside} {pl : P} {sec : Foreground.Section ℝ} {src : Source.Descr} {well fw freq dark rn : NoiseChannel → ℝ}
    (h : Ready u o pl sec src well fw freq dark rn) :
    ∃ fuel, ∀ m, fuel ≤ m → ∀ (path : Word → Path) (int : Word → Option Int) (ws : List Word) (s : Sets) (p t out : Word) (n : Int) (fs : FS V) (fp ft : File V) (rows : R),
      Sets3 int ws s p t out n → Names path fs p t out fp ft → loadXml o fp = .ok pl → loadCsv o ft = .ok rows →
      (∀ i < rows.length, i ∈ o.sched) → (o.start = .fork ∨ n ≤ 1 ∨ pl.2 = 6000) → (rows.map (fun row => (targetOf o row).name)).Nodup → (∀ row ∈ rows, Star o pl sec row) →
      (program { o with fuel := m } path int ws fs).2 = .ok () ∧ ∃ g, (program { o with fuel := m } path int ws fs).1.cur.get? (path out) = some (.h5 g) ∧
        ∀ row ∈ rows, ∃ r, Build.HasBudget pl.1.common (channelsOf pl) well fw freq dark rn r ∧ (∀ c, columnIn g (targetOf o row).name c = r.get? c) ∧
          ("contrib" ∈ s.map Prod.fst → "instrument_signal" ∉ r.keys ∧ ∀ d ∈ channelsOf pl, ∀ el ∈ Build.emitters (buildEnv o pl) pl.1.common d, el ++ " signal" ∈ r.keys) := by
  obtain ⟨hb, hcu, hph⟩ := h.planck
  obtain ⟨fuel, hrun⟩ := whole_contrib h.stores h.sound h.elements h.perPhoton h.atel h.channels h.complete h.world h.within h.budgets h.foreground h.source hb hcu hph h.notInstrument
  refine ⟨fuel, fun m hm path int ws s p t out n fs fp ft rows hset hnm hpl hrows hsched hk hnd hstar => ?_⟩
  have hplain : Plain (P := P) (R := R) ⟨.file (path p), .file (path t), some (path out), true, false⟩ fs (path p) (path t) (path out) fp ft :=
    ⟨rfl, rfl, rfl, hnm.xml, hnm.csv, hnm.pname, hnm.tname, hnm.payload, hnm.list, .inl rfl, rfl⟩
  obtain ⟨r1, r1', g, g', r2, r2', r3⟩ := hrun m hm hplain
    { o.opts with plot := false, outDir := some (path out).dir, debug := decide ("debug" ∈ s.map Prod.fst) } n.toNat rfl hpl hrows hsched (few hk) hnd hstar
  rw [program_eq hset]
  by_cases hc : "contrib" ∈ s.map Prod.fst
  · rw [decide_eq_true hc]
    refine ⟨r1', g', r2', fun row hrow => ?_⟩
    obtain ⟨r, r', k1, k2, k3, k4, k5⟩ := r3 row hrow
    exact ⟨r', k2, k5, fun _ => ⟨k3.gone, k3.parts⟩⟩
  · rw [decide_eq_false hc]
    refine ⟨r1, g, r2, fun row hrow => ?_⟩
    obtain ⟨r, r', k1, k2, k3, k4, k5⟩ := r3 row hrow
    exact ⟨r, k1, k4, fun h => absurd h hc⟩

/-- C108: two such commands, one without and one with `-c` (and both with or both without `-d`). The tables of a star in the two output files differ in the columns of the contributions only, and
`instrument_signal` of the one is the sum of the contributions in the other. -/
theorem program_contrib {u : String → Option String} {o : Whole.Outside} {pl : P} {sec : Foreground.Section ℝ} {src : Source.Descr} {well fw freq dark rn : NoiseChannel → ℝ}
    (h : Ready u o pl sec src well fw freq dark rn) :
    ∃ fuel, ∀ m, fuel ≤ m → ∀ (path : Word → Path) (int : Word → Option Int) (ws ws' : List Word) (s s' : Sets) (p t out : Word) (n : Int) (fs : FS V) (fp ft : File V) (rows : R),
      Sets3 int ws s p t out n → Sets3 int ws' s' p t out n → "contrib" ∉ s.map Prod.fst → "contrib" ∈ s'.map Prod.fst → ("debug" ∈ s.map Prod.fst ↔ "debug" ∈ s'.map Prod.fst) →
      Names path fs p t out fp ft → loadXml o fp = .ok pl → loadCsv o ft = .ok rows →
      (∀ i < rows.length, i ∈ o.sched) → (o.start = .fork ∨ n ≤ 1 ∨ pl.2 = 6000) → (rows.map (fun row => (targetOf o row).name)).Nodup → (∀ row ∈ rows, Star o pl sec row) →
      ∃ g g', (program { o with fuel := m } path int ws fs).1.cur.get? (path out) = some (.h5 g) ∧ (program { o with fuel := m } path int ws' fs).1.cur.get? (path out) = some (.h5 g') ∧
        ∀ row ∈ rows, ∃ r r', (∀ c, columnIn g (targetOf o row).name c = r.get? c) ∧ (∀ c, columnIn g' (targetOf o row).name c = r'.get? c) ∧
          Build.Separates (buildEnv o pl) pl.1.common (channelsOf pl) ["sky TR"] r r' := by
  obtain ⟨hb, hcu, hph⟩ := h.planck
  obtain ⟨fuel, hrun⟩ := whole_contrib h.stores h.sound h.elements h.perPhoton h.atel h.channels h.complete h.world h.within h.budgets h.foreground h.source hb hcu hph h.notInstrument
  refine ⟨fuel, fun m hm path int ws ws' s s' p t out n fs fp ft rows hset hset' hc hc' hdb hnm hpl hrows hsched hk hnd hstar => ?_⟩
  have hplain : Plain (P := P) (R := R) ⟨.file (path p), .file (path t), some (path out), true, false⟩ fs (path p) (path t) (path out) fp ft :=
    ⟨rfl, rfl, rfl, hnm.xml, hnm.csv, hnm.pname, hnm.tname, hnm.payload, hnm.list, .inl rfl, rfl⟩
  obtain ⟨r1, r1', g, g', r2, r2', r3⟩ := hrun m hm hplain
    { o.opts with plot := false, outDir := some (path out).dir, debug := decide ("debug" ∈ s.map Prod.fst) } n.toNat rfl hpl hrows hsched (few hk) hnd hstar
  have edb : decide ("debug" ∈ s'.map Prod.fst) = decide ("debug" ∈ s.map Prod.fst) := by rw [decide_eq_decide]; exact hdb.symm
  rw [program_eq hset, program_eq hset', decide_eq_false hc, decide_eq_true hc', edb]
  refine ⟨g, g', r2, r2', fun row hrow => ?_⟩
  obtain ⟨r, r', k1, k2, k3, k4, k5⟩ := r3 row hrow
  exact ⟨r, r', k4, k5, k3⟩

end ExoRad.Program
