# Formal model of ExoRad2-public in Lean 4

The plan came first; this file is kept current as the model grows (`tools/design.py` fills in the table).

## Layout

* `lean/Verif/Model/*.lean`: the model, function by function; every definition cites the file and lines of `/repo` it models and says what
  it simplifies.
* `lean/Verif/Spec/*.lean`: specifications that do not use the model (formulas of the detector noise). Other specifications (predicates such
  as "the bins partition the band", "the file holds these targets") are small definitions placed in front of the theorem that uses them.
* `lean/Verif/Lemmas/*.lean`: helper lemmas.
* `lean/Verif/Props/*.lean`: the property theorems, counterexamples where the code breaks its promise, and concrete cases that meet the
  hypotheses (`Demo` namespaces and `example`s).
* `properties.jsonl`: the properties in English. `MANIFEST.json`: which theorems prove which property. `seeded/LOG.jsonl`: wrong programs tried
  against the theorems. `tools/`: scripts that write these files.

## Conventions of the model

* Numbers are exact: `ℝ` where square roots, exponentials or logarithms occur, an arbitrary linearly ordered field otherwise. Floating-point
  rounding, overflow and the resulting failures are not modelled.
* NaN and infinity exist where the code makes them on purpose or by dividing by zero (`Model/Num`: `Num α` with `fin`, `nan`, `inf`), in the noise
  tables, and as missing values (`Option`) in binned transmissions.
* Units: every quantity is its value in the unit the code converts to, with explicit conversion factors. Where units decide the result, they are
  carried: the parser (`Model/Options`), HDF5 (`Model/Hdf5`), target lists (`Model/TargetList`), a loaded payload (`Model/Loaded`).
* An exception is a value (`Except Exc α`) with its Python class. Where an exception leaves effects behind (channel tables, files on disk, a
  partly written group) the model returns the state as well.
* A Python dictionary, an `OrderedDict` and an astropy table are association lists in insertion order. Mutation is explicit: the functions return
  every object they change, also the ones they change by accident (`vstack_tables` adds columns to its arguments).
* A process crash: `Model/Run` records every state of the disk, including half-written files; crash statements quantify over all of them.
* A schedule of the process pool is a list of positions in the order in which calls end; statements about threads quantify over all of them.
* Libraries (h5py, astropy's unit parser and table writer, scipy interpolation, the XML parser, matplotlib) are parameters with stated hypotheses
  or small executable models whose assumed behaviour is written at the definition.

## Property by property

`partial` means that the property as a user would want it is false of the code, or proved only for some inputs: then the table's theorems contain the
counterexample as a theorem (the statement that fails stays in `properties.jsonl` in full) and the part that holds. The note in `MANIFEST.json` says
which is which.

@@TABLE@@

## Defects of the code found while proving

Each is a theorem about the model, stated for all inputs of the given kind.

* Running the noise estimate twice doubles `MaxSignal_inPixel` (`estimate_max_signal_twice_doubles`), then always raises: `<signal>_noise` columns are taken for
  signals and have the wrong unit (`Again.estimate_again_fails`, C09).
* A custom noise without a name drops the rest of its section silently; two custom noises of the same value overwrite each other in the parser (C08).
* A task whose body sets no output returns the product of an earlier call (C14).
* `working_R` of a payload leaks into the next payload loaded in the process (C17).
* `ConfigPath` must stand before the settings that use it: the same file with it last cannot be read (C101).
* Rebinning drops samples outside 0.9-1.1 times the new range, so values next to the ends are wrong (C28).
* A custom solid angle of an optical element is never used (C34); a channel element with the name of a common one replaces it (C35).
* The search for an aperture radius does not terminate for requests above 0.98, raises below the energy of radius 1 (C42); a variable-R grid with
  very high resolving power does not terminate (C64).
* A photometer's radius is used as the side of a square; an aperture without radius and energy is an UnboundLocalError (C67).
* Foregrounds: the transmission of a foreground is not applied to slitless diffuse light; observing a target again squares it; a payload without
  foreground section can observe nothing (C22, C47). A foreground's transmission leaves a column in the channel tables, so results depend on whether
  another target was observed before (C19, C21).
* `get_wl_col_name` with an explicit name raises UnboundLocalError (C61).
* The integrating rebinning is negative in a bin that reaches beyond the last sample (C117).
* Scattering more pieces than there are processes leaves all but the root waiting forever (C118).
* A NaN in the new grid of a rebinning is an error although the code means to drop it (C113); data with a time axis are refused or resampled along time (C114).
* Optical elements read the numbers of a data table as microns whatever unit it declares, so a table in nanometres makes a channel blind (C115).
* One skipped target loses all later ones when saving (C20). The old output is removed before the inputs are looked at; a payload loaded from the
  output file is lost (C23, C55). Appending with the same payload always raises (C74).
* The log level after an observation is always INFO (C56). Plotting without an output directory skips every target (C71).
* The last tick of a figure depends on the order of a Python set (C87); an efficiency plot can end a run (C71).
* A payload read back from HDF5 is useless: the wavelengths of quantum efficiency and transmission are multiplied by their unit twice (C79), and its
  source becomes a black body whatever it was (C51).
* A target whose name has a slash is stored but never listed or drawn, can end up among the results of another target, and stops a plot of all targets (C116); a payload with such a channel can be saved but not loaded (C119).
* Target lists: see C53, C76-C78 in `MANIFEST.json`.

## Trusted base

* Lean 4.33.0's kernel, which checks every proof; `vcheck` replays the compiled modules.
* Axioms: every theorem depends at most on `propext`, `Quot.sound` and `Classical.choice` (`#print axioms`, checked for all theorems by the gate). No
  axiom is declared, no proof is left open, no compiled evaluation is used: `decide` is checked by the kernel.
* Mathlib (as installed), through the same kernel.
* The model's faithfulness to the Python text: a reading, not a proof. The citations make it checkable function by function; the seeded edits show that
  the theorems depend on the details of the model.

### Modelled

| code | model |
|---|---|
| `models/noise.py`, `tasks/noiseHandler.py` | `Model/Noise`; units of the options in `Model/UnitsNoise`, units of the signal columns (a target whose noise was estimated before) in `Model/NoiseAgain` |
| `utils/util.py` (`vstack_tables`, `to_dict`, `parse_range`, `chunks`), `tasks/targetHandler.py` (`UpdateTargetTable`, `EstimateMaxSignal`) | `Model/Table`, `Model/Misc` |
| `tasks/task.py` | `Model/Task` |
| `tasks/loadOptions.py`, `utils/passVal.py` | `Model/Options` |
| every `description[...]` that the instruments, optics, foregrounds, noise and sources read from a parsed payload | `Model/Read` |
| `output/hdf5/*.py`, `output/output.py` | `Model/Hdf5`; what is inside a stored table: `Model/TableFile` |
| `utils/exolib.py` | `Model/Rebin`, `Model/Planck`, `Model/Psf` |
| `models/signal.py` | `Model/Rebin`, NaN and two axes `Model/RebinMore`; constructors with units and shapes, `CustomSed` with units: `Model/SignalUnits` |
| `utils/diffuse_light_propagation.py` | `Model/Diffuse`, `Model/Loaded` |
| `models/optics/*.py` | `Model/Optics`; tables with the units of their columns (also of quantum efficiencies and foregrounds): `Model/TableUnits` |
| `models/instruments/*.py` | `Model/Instrument`, `Model/Psf`, `Model/Build`, units of lengths in `Model/Units` |
| `models/foregrounds/*.py`, `tasks/foregroundHandler.py` | `Model/Foreground` |
| `models/source.py`, `tasks/loadSource.py` | `Model/Source` |
| `tasks/targetHandler.py`, `tasks/propagateLight.py` | `Model/Pipeline`; metadata of the tables in `Model/Meta`, start of the workers of a pool in `Model/Spawn` |
| `tasks/instrumentHandler.py` | `Model/Channels`, `Model/Run`, `Model/Loaded` |
| `exorad.py` (`standard_pipeline`) | `Model/Run`, `Model/Contrib`; with the code it calls, from the input files to the output file: `Model/Whole`; with `main` before it: `Model/Program` |
| `utils/plotter.py` (what is drawn, the plot command) | `Model/Plotter`; from the words of the command line to the figures: `Model/Program` |
| `log/__init__.py`, `log/logger.py`, the logging of `standard_pipeline` and `pipeline_to_dict` | `Model/Log`, with a pool of processes `Model/LogPool` |
| the option parsers of `exorad.py:main` and `utils/plotter.py:main` (with `argparse` as they use it) | `Model/Command` |
| `models/targetlist.py`, `models/target.py` | `Model/TargetList`, `Model/Misc` |
| `exorad/__init__.py`, `utils/version_control.py` | `Model/Import` |
| `models/target.py:write`, `hdf5.py:create_group` for names that are paths | `Model/Slash`; of channels `Model/SlashChannel` |
| `exolib.rebin_` | `Model/RebinInt` |
| `utils/mpi.py` (mpi4py's collective calls are assumed) | `Model/Mpi` |
| `models/utils.py`, `log/__init__.py` (levels) | `Model/Misc`, `Model/Pipeline` |

### Not modelled

* Floating-point arithmetic; performance and memory.
* What matplotlib does with curves, bands and ticks: colours, styles, scales, limits (`Model/Plotter` has the data that are drawn); `utils/ascii_art.py`; the texts of log messages other than the two of `pipeline_to_dict`, and the layout of log lines; network access of the version check (its answer is a parameter).
* The numerical content of scipy's cubic interpolation (a parameter with the stated hypotheses), of FFT and convolution beyond kernels of ones, of
  astropy's coordinate transformations and of unit conversion factors.
* The bytes of tables inside HDF5 and YAML (in `Model/Hdf5` a table is stored under an identity; its columns, units and metadata are in `Model/TableFile`), attributes and creation times of files, soft links, permissions,
  names with `/` of anything but targets and channels.
* Units in `exolib.rebin_`, plotting helpers of `exolib`.
