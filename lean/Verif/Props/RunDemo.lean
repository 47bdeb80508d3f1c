import Verif.Props.RunMore

/-!
# Runs that meet the hypotheses of C20, C23, C74, C75
-/

namespace ExoRad.Run.Demo
open Hdf5

/-- A payload with one channel, and targets that are their names; `skip` are the names of the targets that fail. -/
def env (skip : List String) : Env Nat Unit (List String) String where
  attrs := [("creator", .str "HDF5Output")]
  loadXml := fun _ => .ok ()
  describe := fun _ => [("common", .dict [("n", .num 1)])]
  build := fun _ => [.ok ⟨"P", "table of P", [("a", 1, none)], [("value", .str "P")], [("n", .num 2)]⟩]
  loadH5 := fun _ => .error .keyError
  range := fun _ => .ok ()
  drawEfficiency := fun _ => .ok true
  loadCsv := fun _ => .ok ["A", "B", "C"]
  loadXlsx := fun _ => .error .keyError
  observe := fun _ rows => ([], rows.map (fun n => if skip.contains n then (none, none) else (some n, some n)))
  items := fun _ => [("id", .num 3)]
  name := id

def pXml : Path := ⟨"/in", "payload.xml"⟩
def pCsv : Path := ⟨"/in", "targets.csv"⟩
def pOut : Path := ⟨"/out", "run.h5"⟩

def args (replace : Bool) : Args Unit (List String) := ⟨.file pXml, .file pCsv, some pOut, replace, false⟩

def disk : FS Nat := [(pXml, .bytes "xml"), (pCsv, .bytes "csv"), (pOut, .bytes "old")]

theorem plain : Plain (args true) disk pXml pCsv pOut (.bytes "xml") (.bytes "csv") := by
  refine ⟨rfl, rfl, rfl, by decide, by decide, by decide, by decide, rfl, rfl, .inl rfl, rfl⟩

theorem written (skip : List String) : (writePayload (env skip) () (withInfo (env skip) [])).2 = .ok () := by rfl

theorem storable (t : String) (skip : List String) : Storable (fun s => some s) (.dict ((env skip).items t)) := by
  simp only [env, Storable, StorableAll, and_true]
  simp [namesOf]
  decide

/-- Nothing skipped: everything saved. -/
theorem saved : (pipeline (env []) (args true) disk).2 = .ok () ∧
    ∃ g, (pipeline (env []) (args true) disk).1.cur.get? pOut = some (.h5 g) ∧
      ∀ t ∈ ["A", "B", "C"], savedAs g t = some (.group [("id", .ds (.num 3))]) := by
  obtain ⟨h1, g, h2, _, h3⟩ := run_saves_all (fun s => some s) (env []) plain () rfl (written []) rfl ["A", "B", "C"] rfl ["A", "B", "C"] (by rfl)
    (by decide) (fun t _ => storable t [])
  exact ⟨h1, g, h2, h3⟩

/-- The second target skipped: the third is lost. -/
theorem lost : (pipeline (env ["B"]) (args true) disk).2 = .error .attributeError ∧
    ∃ g, (pipeline (env ["B"]) (args true) disk).1.cur.get? pOut = some (.h5 g) ∧
      savedAs g "A" = some (.group [("id", .ds (.num 3))]) ∧ savedAs g "C" = none := by
  obtain ⟨h1, g, h2, h3, h4⟩ := run_loses_targets (fun s => some s) (env ["B"]) plain () rfl (written ["B"]) rfl ["A", "B", "C"] rfl ["A"] [some "C"] (by rfl)
    (by decide) (fun t _ => storable t ["B"])
  exact ⟨h1, g, h2, h3 "A" (by simp), h4 "C" (by simp) (by decide)⟩

/-- The inputs are kept at every point of these runs. -/
theorem kept (skip : List String) (r : Bool) : ∀ s ∈ (pipeline (env skip) (args r) disk).1.states, s.get? pXml = some (.bytes "xml") ∧ s.get? pCsv = some (.bytes "csv") :=
  inputs_kept (env skip) (args r) disk pXml pCsv pOut rfl rfl rfl (.inl (by decide)) (.inl (by decide)) (by decide) (by decide)

/-- A second run without `replace` on the output of the first raises. -/
theorem again (g : Hdf5.Group Nat) (hg : (pipeline (env []) (args true) disk).1.cur.get? pOut = some (.h5 g)) :
    (pipeline (env []) (args false) (pipeline (env []) (args true) disk).1.cur).2 ≠ .ok () := by
  obtain ⟨_, g', h2, hk, _⟩ := run_saves_all (fun s => some s) (env []) plain () rfl (written []) rfl ["A", "B", "C"] rfl ["A", "B", "C"] (by rfl)
    (by decide) (fun t _ => storable t [])
  rw [hg] at h2
  simp only [Option.some.injEq, File.h5.injEq] at h2
  subst h2
  exact append_same_payload_raises (env []) (args false) _ pXml pOut (.bytes "xml") rfl rfl rfl (by decide)
    ((kept [] true _ (by simp [Mach.states])).1) () rfl (by simp [env, HasLeafIn, HasLeaf]) (by decide) (by
      intro q hq
      simp only [args, Src.file.injEq] at hq
      subst hq
      decide) (withInfo (env []) []) g (written []) hg hk

end ExoRad.Run.Demo
