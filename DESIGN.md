# Formal model of ExoRad2-public in Lean 4

The plan came first; this file is kept current as the model grows (`tools/design.py` fills in the table).

## Layout

* `lean/Verif/Model/*.lean`: the model, function by function; every definition cites the file and lines of `/repo` it models and says what
  it simplifies.
* `lean/Verif/Spec/*.lean`: specifications that do not use the model (formulas of the detector noise). Other specifications (predicates such
  as "the bins partition the band", "the file holds these targets") are small definitions placed in front of the theorem that uses them.
* `lean/Verif/Lemmas/*.lean`: helper lemmas.
* `lean/Verif/Props/*.lean`: the property theorems, counterexamples where the code breaks its promise, and concrete cases that meet the
  hypotheses (`Demo` namespaces and `example`s).
* `properties.jsonl`: the properties in English. `MANIFEST.json`: which theorems prove which property. `seeded/LOG.jsonl`: wrong programs tried
  against the theorems. `tools/`: scripts that write these files.

## Conventions of the model

* Numbers are exact: `ℝ` where square roots, exponentials or logarithms occur, an arbitrary linearly ordered field otherwise. Floating-point
  rounding, overflow and the resulting failures are not modelled.
* NaN and infinity exist where the code makes them on purpose or by dividing by zero (`Model/Num`: `Num α` with `fin`, `nan`, `inf`), in the noise
  tables, and as missing values (`Option`) in binned transmissions.
* Units: every quantity is its value in the unit the code converts to, with explicit conversion factors. Where units decide the result, they are
  carried: the parser (`Model/Options`), HDF5 (`Model/Hdf5`), target lists (`Model/TargetList`), a loaded payload (`Model/Loaded`).
* An exception is a value (`Except Exc α`) with its Python class. Where an exception leaves effects behind (channel tables, files on disk, a
  partly written group) the model returns the state as well.
* A Python dictionary, an `OrderedDict` and an astropy table are association lists in insertion order. Mutation is explicit: the functions return
  every object they change, also the ones they change by accident (`vstack_tables` adds columns to its arguments).
* A process crash: `Model/Run` records every state of the disk, including half-written files; crash statements quantify over all of them.
* A schedule of the process pool is a list of positions in the order in which calls end; statements about threads quantify over all of them.
* Libraries (h5py, astropy's unit parser and table writer, scipy interpolation, the XML parser, matplotlib) are parameters with stated hypotheses
  or small executable models whose assumed behaviour is written at the definition.

## Property by property

`partial` means that the property as a user would want it is false of the code, or proved only for some inputs: then the table's theorems contain the
counterexample as a theorem (the statement that fails stays in `properties.jsonl` in full) and the part that holds. The note in `MANIFEST.json` says
which is which.

| id | property | what is modelled, and how it is proved | status | theorems in |
|---|---|---|---|---|
| C01 | Frame time never over-fills a pixel | `frame_time` on a channel's rows; minimum over a list by induction | proved | `Props/Budget`, `Props/NoiseTable`, `Props/Noise` |
| C02 | MULTIACCUM gains are physical | `multiaccum` over ℝ; field algebra and monotonicity of the number of reads | proved | `Props/Noise` |
| C03 | multiaccumM only averages read noise | `multiaccum` with and without `multiaccumM`; algebra | proved | `Props/Noise` |
| C04 | Exactly the signal columns generate photon noise | `photon_noise` as a loop over column names; induction over the columns | proved | `Props/NoiseTable`, `Props/Noise` |
| C05 | Photon variance is additive and order independent | photon variance as a sum over columns; permutation of sums; `full_contrib` as a split | proved | `Props/Noise`, `Props/NoiseSplit` |
| C06 | Total noise is the quadrature of its parts | `EstimateNoiseInChannel` whole; compared with the formula in `Spec/Noise` | proved | `Props/Budget`, `Props/NoiseTable`, `Props/Noise`, `Props/Num` |
| C07 | Noise is monotone in every contribution | the same function at two inputs; monotonicity of square roots and sums | proved | `Props/Noise`, `Props/NoiseBounds` |
| C08 | Every declared custom noise is added | `add_custom_noise` and the parser's dictionary; induction, counterexamples | partial | `Props/NoiseAgain`, `Props/Noise`, `Props/Options` |
| C09 | Re-estimating noise is idempotent | `EstimateMaxSignal`, `UpdateTargetTable` applied twice | partial | `Props/NoiseAgain`, `Props/Table` |
| C10 | Stacking channel tables loses nothing | `vstack_tables` with its mutations; induction over the list of tables | proved | `Props/Table` |
| C100 | A channel uses the point spread function its payload names | Build.psfImages as modelled for C81; inductive Names is the specification; case analysis on the entry and format. | partial | `Props/PsfUse` |
| C101 | The order of settings and unknown settings do not matter | Relation Eqv on parsed payloads (same values under the known names, order irrelevant) and relation Tidied on documents; every reader respects Eqv, the parser maps Tidied documents to Eqv payloads (induction over Tidied, with the lemmas on the configuration path and the working resolution of C17 and C18). | partial | `Props/Read`, `Props/ReadDemo` |
| C102 | Complete descriptions of a payload and of a target lead to a result | Compose build_succeeds (C82), the success of every step of the observation (foregrounds, source, propagation, noise) and the noise budget (C81). | proved | `Props/ObserveAll`, `Props/LitBuilt`, `Props/ObserveOk`, `Props/LitDemo` |
| C103 | A channel detects a star where all its parts let light through | Rebinning keeps positive values positive (both branches: integration over the bin, interpolation); products and trapezoidal sums of nonnegative values with a positive one are positive. | proved | `Props/Lit`, `Props/LitBuilt`, `Props/Positive` |
| C104 | What the catalogue must give of a star when the payload has its own spectrum | The target carries the list of attributes of its star; `addStarMetadata` reads five of them. Follow the steps of the observation to the source, where the target has a table. | partial | `Props/Meta`, `Props/Complete` |
| C105 | The metadata of every result are its own | `Model/Meta` runs the tasks of `Model/Pipeline` and tracks which table object the target holds and the metadata of every object; a refinement theorem ties it to the pipeline, Hoare triples over the tasks give the metadata. | proved | `Props/Meta` |
| C106 | From the input files to the output file: every listed star's table, with its noise budget, is in the file | Model/Whole instantiates the parameters of Model/Run with Options.parser + Read.describe, Build, TargetList and Pipeline.observeTargetlistOn. Compose run_saves_all (C20), targets_independent (C19), pool_results (C21), build_sound (C81), blackbody_observation (C102); the columns of a result are storable because their names are known (Lemmas/ResultKeys). | proved | `Props/Whole`, `Props/WholeDemo` |
| C107 | Which payload entry every setting comes from | Model/Read collects the reads; Props/ReadEntries states them as relations between paths of the payload and fields (entryAt, Has, Given, Section) and proves each an equivalence; Props/ReadDemo applies them to a concrete payload file. | proved | `Props/ReadEntries`, `Props/ReadDemo` |
| C108 | The command `exorad`, with and without `-c`, end to end | Model/Program composes Model/Command with Model/Whole; the run with -c is proved by running the pipeline on the split tables and showing that every task reads and writes the same columns. | proved | `Props/Emitters`, `Props/Program`, `Props/Whole`, `Props/ContribBuilt` |
| C109 | `exorad -P` and `exorad-plot`, from the command line to the figures | Compose the command-line model, the whole-run model and the plotter model; prove the run with -P equal to the run without it followed by the figures, and the plot command's outcome on the file the run leaves. | proved | `Props/ProgramPlots`, `Props/WholePlots`, `Props/WholeThenPlot`, `Props/ProgramDemo` |
| C11 | Updating the target table is an overwriting merge | `UpdateTargetTable`; dictionary lemmas, histories of updates | proved | `Props/Table` |
| C110 | Tables read back from the output file | Model/TableFile: write_table with _encode_mixins, load_table; induction over the columns. | partial | `Props/TableFile`, `Props/Hdf5` |
| C111 | A signal keeps the quantities it is given, in its own units | Model/SignalUnits: the constructors with units and shapes, check_quantities by cases; success iff by inverting the conversions; same result for the same physical arguments; the constructor of the rest of the model (Signal.mk?) is the case of numbers; histories by induction; CustomSed reduced to Source.customStar by scaling. | proved | `Props/SignalUnits` |
| C112 | The wavelength range of the payload may be written in any unit | LoadSource converts neither end: np.logspace of the bare values in the unit of the upper end. Another unit of the upper end is refused by rebin, so every observation fails (by the order of the steps). With the lower end in smaller units the grid decreases from its bare value; rebinning onto a decreasing grid interpolates and gives 0 beyond the black body's samples. | partial | `Props/SourceSelect`, `Props/RangeUnits` |
| C113 | Missing wavelengths are ignored by rebinning | grids with optional numbers; the window is computed with numpy's NaN rules before the removal | partial | `Props/RebinMore` |
| C114 | A signal that varies in time is rebinned in wavelength at every time | model of rebin for data of two axes with the flattening of np.delete and the shape checks of scipy | partial | `Props/RebinMore` |
| C115 | Data tables may be written in any unit | Columns of a table with their units: bare numbers, Column with a unit, Quantity; each consumer takes the numbers or converts. Scaling of the interpolation by induction over the sorted points; a zero factor in the product of the path makes the channel's TR column zero. | partial | `Props/TableUnits`, `Props/TableUnitsDemo` |
| C116 | The name of a target may be any text | A path is split into components; groups on the way are made. Induction over the path: what was stored is kept, what is written is found by following the path. Listing and drawing are those of the plot command (C86). | partial | `Props/Meta`, `Props/Slash` |
| C117 | The integrating rebinning keeps the integral | The cumulative trapezoid sum, interpolated linearly, equals the area below steps (induction over the samples); bins of constant step telescope (induction over the grid); bounds by induction over the steps of the area. | partial | `Props/RebinInt` |
| C118 | What is scattered to the processes can be gathered again | The outcome of the call in each process as a function of the arguments of all processes, with waiting as an outcome. | partial | `Props/Mpi` |
| C119 | The name of a channel may be any text | Groups on the way of a path are made, as in C116; an invariant over the list of channels written: the entry of the first component has no description. | partial | `Props/SlashChannel`, `Props/RunDemo` |
| C12 | MaxSignal_inPixel is the sum of all contributions | `EstimateMaxSignal`; sum over the `Max` columns | proved | `Props/Table`, `Props/NoiseTable` |
| C13 | Unknown task parameters are rejected before any work | `Task.__call__` over an arbitrary body | proved | `Props/Task` |
| C14 | A task call returns the product of that call | the same, over all call histories | partial | `Props/Task` |
| C15 | Payload values are typed deterministically | the parser over XML trees; structural induction | proved | `Props/Options` |
| C16 | Repeated payload tags keep every entry | the same; repeated tags by induction over the children | proved | `Props/Options` |
| C17 | Loading a payload is independent of earlier loads | the parser with its process state (`configPath`, `working_R`); histories of loads | partial | `Props/Options` |
| C18 | ConfigPath substitution | string replacement in the parser | proved | `Props/Options` |
| C19 | A failing target does not affect the others | the whole observation (`Model/Pipeline`) with shared mutable channel tables; an invariant over the target list | partial | `Props/Pipeline`, `Props/PipelineExact` |
| C20 | Every observed target is saved | the loop of `standard_pipeline` writing targets; induction with an invariant about the file | partial | `Props/RunSave`, `Props/RunMore`, `Props/RunDemo` |
| C21 | Results do not depend on the number of threads | the process pool over every schedule; equality of results | partial | `Props/Pipeline`, `Props/PipelineExact` |
| C22 | Pipeline steps run in order and only on what they need | the tasks as a list of steps; the first that raises stops | partial | `Props/Pipeline` |
| C23 | Restarting with replace is safe for the inputs | every disk state of a run (crash points); induction over the steps | partial | `Props/Run`, `Props/RunDemo` |
| C24 | Stored payload dictionaries read back equal | `store_thing` and `load` over nested dictionaries; mutual structural induction | proved | `Props/Hdf5` |
| C25 | Writing never destroys stored data | histories of writes; `Kept` relation between groups | proved | `Props/Hdf5` |
| C26 | Rebinning keeps bounds | `rebin`; averages between minimum and maximum | proved | `Props/Rebin` |
| C27 | Rebinning is linear | the same at linear combinations | proved | `Props/Rebin` |
| C28 | Rebinning to a covered grid reproduces constants and lines | the same on constants and lines; induction over samples | partial | `Props/Rebin`, `Props/RebinExact` |
| C29 | Rebinning gives zero outside the data | the same outside the data | proved | `Props/Rebin` |
| C30 | Signals stay well formed | `Signal` operations keep shapes and units | partial | `Props/Rebin` |
| C31 | Total transmission is the product of the elements | `OpticalPath.build_transmission_table`; product over a list | proved | `Props/Optics` |
| C32 | Emission is attenuated by exactly the later elements | `chain`; each radiance times the later transmissions, by induction | proved | `Props/Optics` |
| C33 | Instrument signal is the sum of its elements | `compute_signal`; sum over elements | proved | `Props/Optics` |
| C34 | Solid angles per position | solid angles by position | partial | `Props/Optics` |
| C35 | Common optics come first in each channel | `prepend_optical_elements`; dictionary order | partial | `Props/Emitters`, `Props/Optics` |
| C36 | Element transmission and emissivity selection | `OpticalElement` value selection; case analysis | proved | `Props/Optics` |
| C37 | Out-of-band light has no effect | `_get_transmission` windowing and its use; pointwise | proved | `Props/Propagate` |
| C38 | Spectral bins partition the band | bin edges of the three spectrometer modes and the photometer | partial | `Props/Instrument`, `Props/Propagate`, `Props/Grid` |
| C39 | Fixed-R grid covers the band with resolving power R | fixed-R grid; real powers and logarithms | proved | `Props/Instrument` |
| C40 | Aperture correction precedence | aperture correction; case analysis | proved | `Props/Propagate` |
| C41 | PSF kernel conserves pixel area | `binnedPSF` kernels; sums over grids | proved | `Props/Psf` |
| C42 | Aperture search terminates with the requested energy | `find_aperture_radius` as a bounded-free loop; termination and bracketing | partial | `Props/Aperture` |
| C43 | Pixel solid angle | `OmegaPix`; trigonometry | proved | `Props/Omega` |
| C44 | PSF wavelength interpolation stays between its neighbours | `interpolate_paos_psf`; convex combinations | proved | `Props/PsfSelect` |
| C45 | Slit convolution collects every photon | `convolve_with_slit`; exchange of sums | proved | `Props/Diffuse` |
| C46 | Slitless diffuse light is the band integral times the window | `integrate_light`; trapezoid rule | proved | `Props/Diffuse` |
| C47 | Foreground attenuation | foreground chain; induction over foregrounds | partial | `Props/Foreground` |
| C48 | Zodiacal light scales with its fit coefficient | `ZodiacalFrg`; nearest entry, scaling | partial | `Props/Foreground` |
| C49 | Planck spectrum is positive and increasing with temperature | `planck` over ℝ; positivity, monotone in temperature | proved | `Props/Planck`, `Props/SourceSelect` |
| C50 | Star SED scales with solid angle | `Star`; linearity of the rebinned spectrum | proved | `Props/Source`, `Props/SourceSelect` |
| C51 | Source type selection and fallback | `LoadSource` decision logic over all texts and files | partial | `Props/SourceSelect` |
| C52 | Nearest stellar model is chosen | nearest model; argmin lemmas | proved | `Props/SourceSelect`, `Props/PsfSelect` |
| C53 | Target list parsing keeps every row | the readers of target lists as functions on cells; list induction | proved | `Props/TargetList`, `Props/TargetFiles`, `Props/TargetFormats`, `Props/TargetSheet` |
| C54 | Channel selection and construction | `BuildChannels`, `GetChannelList` on parsed payloads | proved | `Props/Channels` |
| C55 | Payload dispatch by extension | extensions and dispatch in `PreparePayload`, `LoadTargetList` | partial | `Props/Options`, `Props/Run`, `Props/RunMore` |
| C56 | Log level is preserved across observations | levels before, during and after observations | partial | `Props/Pipeline` |
| C57 | Update message only for outdated versions | version comparison on lists of numbers | proved | `Props/Misc` |
| C58 | Selection strings | `parse_range` on characters | proved | `Props/Misc` |
| C59 | Chunking is a partition | `chunks`; list induction | proved | `Props/Misc` |
| C60 | Objects are stored without internals | `to_dict` over object trees | proved | `Props/Misc` |
| C61 | Wavelength column discovery | `get_wl_col_name` | partial | `Props/Misc` |
| C62 | Rebinning onto the same grid changes nothing | `rebin` onto its own grid | proved | `Props/Rebin` |
| C63 | Files referenced by a payload section | reading data tables of a section, paths | proved | `Props/Options` |
| C64 | Variable-R grid terminates and covers the band | variable-R grid as a loop; termination measure | partial | `Props/Grid` |
| C65 | Efficiency columns of the channel table | columns TR and QE of the channel table | proved | `Props/Instrument` |
| C66 | Pixel grid of a spectrometer | pixel grid and its wavelength solution | proved | `Props/Grid`, `Props/Propagate`, `Props/ObserveOk`, `Props/Solution` |
| C67 | Extraction windows | window sizes of photometer and spectrometer | partial | `Props/Aperture` |
| C68 | Brightest pixel of the point source | maximum in a pixel from the PSF | proved | `Props/Psf` |
| C69 | PSF file selection | choice of the PSF by file type | proved | `Props/PsfSelect`, `Props/SourceSelect` |
| C70 | A saved payload is loaded completely | `BuildChannels` writing and `LoadPayload` reading one file; the HDF5 round trip | proved | `Props/Loaded` |
| C71 | Plots do not change the results | plots as effects that may fail | partial | `Props/RunPlots`, `Props/Pipeline`, `Props/PlotRun`, `Props/PlotMore` |
| C72 | A well-formed observation succeeds | the whole observation: no step raises for well-formed input | proved | `Props/Budget`, `Props/Complete`, `Props/CompleteDemo` |
| C73 | Light is never negative | signs through every step of the pipeline | proved | `Props/NonNeg`, `Props/Emission` |
| C74 | Appending keeps the old results | `standard_pipeline` without replace on an existing output | partial | `Props/Run`, `Props/RunMore`, `Props/RunDemo` |
| C75 | Replacing forgets the old output | two runs from disks that differ in the output | proved | `Props/RunMore` |
| C76 | Mistakes and repetitions in a target list | repeated and missing columns, wrong cells | proved | `Props/TargetFiles`, `Props/TargetFormats`, `Props/TargetList`, `Props/TargetSheet` |
| C77 | Which reader reads a target list | readers tried in order | proved | `Props/TargetFormats` |
| C78 | Searching a target | `searchTarget` on characters | proved | `Props/TargetFormats`, `Props/TargetSheet` |
| C79 | A payload loaded from HDF5 observes like the one that was saved | `prepare` on dictionaries with units, fresh and loaded | partial | `Props/Loaded`, `Props/PipelineExact` |
| C80 | Asking for the separate contributions changes nothing else | `hstack` and the loop of `full_contrib` in front of `observe`; two runs compared column by column through `noise_split` | proved | `Props/Contrib`, `Props/WholeDemo` |
| C81 | Built channels are complete and physical | `Instrument.build` put together from builders, optical path and signals (Model/Build); an invariant per stage | proved | `Props/Build`, `Props/BuildDemo`, `Props/PipelineExact`, `Props/SpawnDemo` |
| C82 | A complete description can be built, and each omission is refused | a specification `Complete` of the description; success stage by stage, the unbounded loops modelled with fuel that may grow; the converse by inversion | proved | `Props/BuildOk`, `Props/BuildNeeds`, `Props/BuildDemo`, `Props/PipelineExact` |
| C83 | From the description of the instrument to the noise of a target | C81 joined with the noise budget of a whole observation (Props/Budget) | proved | `Props/EndToEnd`, `Props/BuildDemo`, `Props/PipelineExact`, `Props/SpawnDemo` |
| C84 | The table of a built channel says what the description says | inversion of `build`, each column of the table equated with a formula over the description | proved | `Props/BuildValues`, `Props/BuildValuesDemo` |
| C85 | The figures of a target show its table | the loops of the plotter over column names and channels (Model/Plotter); an invariant "placed" over all steps of an observation shows that what was observed can be drawn | proved | `Props/Plotter`, `Props/PlotRun`, `Props/PlotMore`, `Props/PlotDemo` |
| C86 | The plot command draws the selected targets and touches nothing else | the command over the disk of Model/Run; induction over the selected names with the states of the disk | proved | `Props/PlotCommand`, `Props/PlotDemo` |
| C87 | A figure is determined by its table | two arbitrary enumerations of the set of names compared; a counterexample for the ticks | partial | `Props/Plotter`, `Props/PlotMore` |
| C88 | The efficiency figure shows transmission, quantum efficiency and their product | the product on the rebinned grid (Model/Rebin); inversion of `build` for the grids | proved | `Props/Plotter`, `Props/PlotMore`, `Props/PlotDemo` |
| C89 | A length may be written in any unit | Build once more with the units of three lengths as parameters and bare numbers where the code drops a unit (Model/Units); scaling lemmas for interpolation, pixel grid, windows and light | partial | `Props/Units`, `Props/UnitsDemo` |
| C90 | A log file holds every message of the run once | The log as a state machine over messages, level changes and added files (Model/Log); exact contents by induction over the history; the run as a history | partial | `Props/Log`, `Props/LogRun` |
| C91 | The screen shows progress, errors and every skipped target | Same machine; what one target shows, then induction over the list | proved | `Props/Log`, `Props/LogRun` |
| C92 | With debug every message is shown | Same machine, with debug; the screen of a whole run, exactly | partial | `Props/LogRun` |
| C93 | The command line makes the call it describes | argparse as used here over words of characters (Model/Command); an inductive grammar of command lines, equivalence with the parser by induction on the length of the line | proved | `Props/CommandCall`, `Props/CommandLine`, `Props/Command` |
| C94 | The number of threads does not change the results on any platform | PassVal.working_R as a parameter of the process (Model/Spawn); the length of the spectrum of a star is followed through the observation, fork reduces to C22; the counterexample is a run of the whole model with two resolutions | partial | `Props/Spawn`, `Props/SpawnDemo` |
| C95 | The log of several processes | workers with own level and handlers over a shared screen and shared files, any history whose projection to each worker is its list of targets (Model/LogPool); induction on the history, grouping by worker as a permutation | partial | `Props/LogPool` |
| C96 | Importing the package does not depend on the network or the repository | git directory and network as parameters (Model/Import); case analysis of each step, splitlines and split by induction, the message from C57 | partial | `Props/Import` |
| C97 | The signal is proportional to the light of the star | Scaling lemmas through density, trapz, window integrals, rebinning and pixel maxima give channelTarget of a scaled SED; before_noise and the merged table for both targets; the columns compared by name. | proved | `Props/Bright`, `Props/BrightDemo` |
| C98 | A brighter star has a smaller relative noise | observation_budget for both targets; one frame time per channel from the longest unsaturated frame; monotone shot gain on integer reads; a bound of the read gain of the shorter ramp; counterexample evaluated exactly. | partial | `Props/Bright`, `Props/BrightDemo` |
| C99 | Times, counts and rates of a detector may be written in any unit | Model/UnitsNoise: values in seconds and counts plus the size of the unit each option was written in; np.floor rounds in the unit. Matched units: equality by unfolding. Whole product: the estimate equals the one at the rounded rate; monotonicity of the two gains. | partial | `Props/UnitsNoise` |


## Defects of the code found while proving

Each is a theorem about the model, stated for all inputs of the given kind.

* Running the noise estimate twice doubles `MaxSignal_inPixel` (`estimate_max_signal_twice_doubles`), then always raises: `<signal>_noise` columns are taken for
  signals and have the wrong unit (`Again.estimate_again_fails`, C09).
* A custom noise without a name drops the rest of its section silently; two custom noises of the same value overwrite each other in the parser (C08).
* A task whose body sets no output returns the product of an earlier call (C14).
* `working_R` of a payload leaks into the next payload loaded in the process (C17).
* `ConfigPath` must stand before the settings that use it: the same file with it last cannot be read (C101).
* Rebinning drops samples outside 0.9-1.1 times the new range, so values next to the ends are wrong (C28).
* A custom solid angle of an optical element is never used (C34); a channel element with the name of a common one replaces it (C35).
* The search for an aperture radius does not terminate for requests above 0.98, raises below the energy of radius 1 (C42); a variable-R grid with
  very high resolving power does not terminate (C64).
* A photometer's radius is used as the side of a square; an aperture without radius and energy is an UnboundLocalError (C67).
* Foregrounds: the transmission of a foreground is not applied to slitless diffuse light; observing a target again squares it; a payload without
  foreground section can observe nothing (C22, C47). A foreground's transmission leaves a column in the channel tables, so results depend on whether
  another target was observed before (C19, C21).
* `get_wl_col_name` with an explicit name raises UnboundLocalError (C61).
* The integrating rebinning is negative in a bin that reaches beyond the last sample (C117).
* Scattering more pieces than there are processes leaves all but the root waiting forever (C118).
* A NaN in the new grid of a rebinning is an error although the code means to drop it (C113); data with a time axis are refused or resampled along time (C114).
* Optical elements read the numbers of a data table as microns whatever unit it declares, so a table in nanometres makes a channel blind (C115).
* One skipped target loses all later ones when saving (C20). The old output is removed before the inputs are looked at; a payload loaded from the
  output file is lost (C23, C55). Appending with the same payload always raises (C74).
* The log level after an observation is always INFO (C56). Plotting without an output directory skips every target (C71).
* The last tick of a figure depends on the order of a Python set (C87); an efficiency plot can end a run (C71).
* A payload read back from HDF5 is useless: the wavelengths of quantum efficiency and transmission are multiplied by their unit twice (C79), and its
  source becomes a black body whatever it was (C51).
* A target whose name has a slash is stored but never listed or drawn, can end up among the results of another target, and stops a plot of all targets (C116); a payload with such a channel can be saved but not loaded (C119).
* Target lists: see C53, C76-C78 in `MANIFEST.json`.

## Trusted base

* Lean 4.33.0's kernel, which checks every proof; `vcheck` replays the compiled modules.
* Axioms: every theorem depends at most on `propext`, `Quot.sound` and `Classical.choice` (`#print axioms`, checked for all theorems by the gate). No
  axiom is declared, no proof is left open, no compiled evaluation is used: `decide` is checked by the kernel.
* Mathlib (as installed), through the same kernel.
* The model's faithfulness to the Python text: a reading, not a proof. The citations make it checkable function by function; the seeded edits show that
  the theorems depend on the details of the model.

### Modelled

| code | model |
|---|---|
| `models/noise.py`, `tasks/noiseHandler.py` | `Model/Noise`; units of the options in `Model/UnitsNoise`, units of the signal columns (a target whose noise was estimated before) in `Model/NoiseAgain` |
| `utils/util.py` (`vstack_tables`, `to_dict`, `parse_range`, `chunks`), `tasks/targetHandler.py` (`UpdateTargetTable`, `EstimateMaxSignal`) | `Model/Table`, `Model/Misc` |
| `tasks/task.py` | `Model/Task` |
| `tasks/loadOptions.py`, `utils/passVal.py` | `Model/Options` |
| every `description[...]` that the instruments, optics, foregrounds, noise and sources read from a parsed payload | `Model/Read` |
| `output/hdf5/*.py`, `output/output.py` | `Model/Hdf5`; what is inside a stored table: `Model/TableFile` |
| `utils/exolib.py` | `Model/Rebin`, `Model/Planck`, `Model/Psf` |
| `models/signal.py` | `Model/Rebin`, NaN and two axes `Model/RebinMore`; constructors with units and shapes, `CustomSed` with units: `Model/SignalUnits` |
| `utils/diffuse_light_propagation.py` | `Model/Diffuse`, `Model/Loaded` |
| `models/optics/*.py` | `Model/Optics`; tables with the units of their columns (also of quantum efficiencies and foregrounds): `Model/TableUnits` |
| `models/instruments/*.py` | `Model/Instrument`, `Model/Psf`, `Model/Build`, units of lengths in `Model/Units` |
| `models/foregrounds/*.py`, `tasks/foregroundHandler.py` | `Model/Foreground` |
| `models/source.py`, `tasks/loadSource.py` | `Model/Source` |
| `tasks/targetHandler.py`, `tasks/propagateLight.py` | `Model/Pipeline`; metadata of the tables in `Model/Meta`, start of the workers of a pool in `Model/Spawn` |
| `tasks/instrumentHandler.py` | `Model/Channels`, `Model/Run`, `Model/Loaded` |
| `exorad.py` (`standard_pipeline`) | `Model/Run`, `Model/Contrib`; with the code it calls, from the input files to the output file: `Model/Whole`; with `main` before it: `Model/Program` |
| `utils/plotter.py` (what is drawn, the plot command) | `Model/Plotter`; from the words of the command line to the figures: `Model/Program` |
| `log/__init__.py`, `log/logger.py`, the logging of `standard_pipeline` and `pipeline_to_dict` | `Model/Log`, with a pool of processes `Model/LogPool` |
| the option parsers of `exorad.py:main` and `utils/plotter.py:main` (with `argparse` as they use it) | `Model/Command` |
| `models/targetlist.py`, `models/target.py` | `Model/TargetList`, `Model/Misc` |
| `exorad/__init__.py`, `utils/version_control.py` | `Model/Import` |
| `models/target.py:write`, `hdf5.py:create_group` for names that are paths | `Model/Slash`; of channels `Model/SlashChannel` |
| `exolib.rebin_` | `Model/RebinInt` |
| `utils/mpi.py` (mpi4py's collective calls are assumed) | `Model/Mpi` |
| `models/utils.py`, `log/__init__.py` (levels) | `Model/Misc`, `Model/Pipeline` |

### Not modelled

* Floating-point arithmetic; performance and memory.
* What matplotlib does with curves, bands and ticks: colours, styles, scales, limits (`Model/Plotter` has the data that are drawn); `utils/ascii_art.py`; the texts of log messages other than the two of `pipeline_to_dict`, and the layout of log lines; network access of the version check (its answer is a parameter).
* The numerical content of scipy's cubic interpolation (a parameter with the stated hypotheses), of FFT and convolution beyond kernels of ones, of
  astropy's coordinate transformations and of unit conversion factors.
* The bytes of tables inside HDF5 and YAML (in `Model/Hdf5` a table is stored under an identity; its columns, units and metadata are in `Model/TableFile`), attributes and creation times of files, soft links, permissions,
  names with `/` of anything but targets and channels.
* Units in `exolib.rebin_`, plotting helpers of `exolib`.
