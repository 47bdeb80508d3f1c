{
"C01": "`frame_time` on a channel's rows; minimum over a list by induction",
"C02": "`multiaccum` over ℝ; field algebra and monotonicity of the number of reads",
"C03": "`multiaccum` with and without `multiaccumM`; algebra",
"C04": "`photon_noise` as a loop over column names; induction over the columns",
"C05": "photon variance as a sum over columns; permutation of sums; `full_contrib` as a split",
"C06": "`EstimateNoiseInChannel` whole; compared with the formula in `Spec/Noise`",
"C07": "the same function at two inputs; monotonicity of square roots and sums",
"C08": "`add_custom_noise` and the parser's dictionary; induction, counterexamples",
"C09": "`EstimateMaxSignal`, `UpdateTargetTable` applied twice",
"C10": "`vstack_tables` with its mutations; induction over the list of tables",
"C11": "`UpdateTargetTable`; dictionary lemmas, histories of updates",
"C12": "`EstimateMaxSignal`; sum over the `Max` columns",
"C13": "`Task.__call__` over an arbitrary body",
"C14": "the same, over all call histories",
"C15": "the parser over XML trees; structural induction",
"C16": "the same; repeated tags by induction over the children",
"C17": "the parser with its process state (`configPath`, `working_R`); histories of loads",
"C18": "string replacement in the parser",
"C19": "the whole observation (`Model/Pipeline`) with shared mutable channel tables; an invariant over the target list",
"C20": "the loop of `standard_pipeline` writing targets; induction with an invariant about the file",
"C21": "the process pool over every schedule; equality of results",
"C22": "the tasks as a list of steps; the first that raises stops",
"C23": "every disk state of a run (crash points); induction over the steps",
"C24": "`store_thing` and `load` over nested dictionaries; mutual structural induction",
"C25": "histories of writes; `Kept` relation between groups",
"C26": "`rebin`; averages between minimum and maximum",
"C27": "the same at linear combinations",
"C28": "the same on constants and lines; induction over samples",
"C29": "the same outside the data",
"C30": "`Signal` operations keep shapes and units",
"C31": "`OpticalPath.build_transmission_table`; product over a list",
"C32": "`chain`; each radiance times the later transmissions, by induction",
"C33": "`compute_signal`; sum over elements",
"C34": "solid angles by position",
"C35": "`prepend_optical_elements`; dictionary order",
"C36": "`OpticalElement` value selection; case analysis",
"C37": "`_get_transmission` windowing and its use; pointwise",
"C38": "bin edges of the three spectrometer modes and the photometer",
"C39": "fixed-R grid; real powers and logarithms",
"C40": "aperture correction; case analysis",
"C41": "`binnedPSF` kernels; sums over grids",
"C42": "`find_aperture_radius` as a bounded-free loop; termination and bracketing",
"C43": "`OmegaPix`; trigonometry",
"C44": "`interpolate_paos_psf`; convex combinations",
"C45": "`convolve_with_slit`; exchange of sums",
"C46": "`integrate_light`; trapezoid rule",
"C47": "foreground chain; induction over foregrounds",
"C48": "`ZodiacalFrg`; nearest entry, scaling",
"C49": "`planck` over ℝ; positivity, monotone in temperature",
"C50": "`Star`; linearity of the rebinned spectrum",
"C51": "`LoadSource` decision logic over all texts and files",
"C52": "nearest model; argmin lemmas",
"C53": "the readers of target lists as functions on cells; list induction",
"C54": "`BuildChannels`, `GetChannelList` on parsed payloads",
"C55": "extensions and dispatch in `PreparePayload`, `LoadTargetList`",
"C56": "levels before, during and after observations",
"C57": "version comparison on lists of numbers",
"C58": "`parse_range` on characters",
"C59": "`chunks`; list induction",
"C60": "`to_dict` over object trees",
"C61": "`get_wl_col_name`",
"C62": "`rebin` onto its own grid",
"C63": "reading data tables of a section, paths",
"C64": "variable-R grid as a loop; termination measure",
"C65": "columns TR and QE of the channel table",
"C66": "pixel grid and its wavelength solution",
"C67": "window sizes of photometer and spectrometer",
"C68": "maximum in a pixel from the PSF",
"C69": "choice of the PSF by file type",
"C70": "`BuildChannels` writing and `LoadPayload` reading one file; the HDF5 round trip",
"C71": "plots as effects that may fail",
"C72": "the whole observation: no step raises for well-formed input",
"C73": "signs through every step of the pipeline",
"C74": "`standard_pipeline` without replace on an existing output",
"C75": "two runs from disks that differ in the output",
"C76": "repeated and missing columns, wrong cells",
"C77": "readers tried in order",
"C78": "`searchTarget` on characters",
"C79": "`prepare` on dictionaries with units, fresh and loaded",
"C80": "`hstack` and the loop of `full_contrib` in front of `observe`; two runs compared column by column through `noise_split`",
"C81": "`Instrument.build` put together from builders, optical path and signals (Model/Build); an invariant per stage",
"C83": "C81 joined with the noise budget of a whole observation (Props/Budget)",
"C82": "a specification `Complete` of the description; success stage by stage, the unbounded loops modelled with fuel that may grow; the converse by inversion",
"C84": "inversion of `build`, each column of the table equated with a formula over the description",
"C85": "the loops of the plotter over column names and channels (Model/Plotter); an invariant \"placed\" over all steps of an observation shows that what was observed can be drawn",
"C86": "the command over the disk of Model/Run; induction over the selected names with the states of the disk",
"C87": "two arbitrary enumerations of the set of names compared; a counterexample for the ticks",
"C88": "the product on the rebinned grid (Model/Rebin); inversion of `build` for the grids",
"C89": "Build once more with the units of three lengths as parameters and bare numbers where the code drops a unit (Model/Units); scaling lemmas for interpolation, pixel grid, windows and light",
"C90": "The log as a state machine over messages, level changes and added files (Model/Log); exact contents by induction over the history; the run as a history",
"C91": "Same machine; what one target shows, then induction over the list",
"C92": "Same machine, with debug; the screen of a whole run, exactly",
"C93": "argparse as used here over words of characters (Model/Command); an inductive grammar of command lines, equivalence with the parser by induction on the length of the line",
"C94": "PassVal.working_R as a parameter of the process (Model/Spawn); the length of the spectrum of a star is followed through the observation, fork reduces to C22; the counterexample is a run of the whole model with two resolutions",
"C95": "workers with own level and handlers over a shared screen and shared files, any history whose projection to each worker is its list of targets (Model/LogPool); induction on the history, grouping by worker as a permutation",
"C96": "git directory and network as parameters (Model/Import); case analysis of each step, splitlines and split by induction, the message from C57",
"C97": "Scaling lemmas through density, trapz, window integrals, rebinning and pixel maxima give channelTarget of a scaled SED; before_noise and the merged table for both targets; the columns compared by name.",
"C98": "observation_budget for both targets; one frame time per channel from the longest unsaturated frame; monotone shot gain on integer reads; a bound of the read gain of the shorter ramp; counterexample evaluated exactly.",
"C99": "Model/UnitsNoise: values in seconds and counts plus the size of the unit each option was written in; np.floor rounds in the unit. Matched units: equality by unfolding. Whole product: the estimate equals the one at the rounded rate; monotonicity of the two gains.",
"C100": "Build.psfImages as modelled for C81; inductive Names is the specification; case analysis on the entry and format.",
"C101": "Relation Eqv on parsed payloads (same values under the known names, order irrelevant) and relation Tidied on documents; every reader respects Eqv, the parser maps Tidied documents to Eqv payloads (induction over Tidied, with the lemmas on the configuration path and the working resolution of C17 and C18).",
"C102": "Compose build_succeeds (C82), the success of every step of the observation (foregrounds, source, propagation, noise) and the noise budget (C81).",
"C103": "Rebinning keeps positive values positive (both branches: integration over the bin, interpolation); products and trapezoidal sums of nonnegative values with a positive one are positive.",
"C104": "The target carries the list of attributes of its star; `addStarMetadata` reads five of them. Follow the steps of the observation to the source, where the target has a table.",
"C105": "`Model/Meta` runs the tasks of `Model/Pipeline` and tracks which table object the target holds and the metadata of every object; a refinement theorem ties it to the pipeline, Hoare triples over the tasks give the metadata.",
"C106": "Model/Whole instantiates the parameters of Model/Run with Options.parser + Read.describe, Build, TargetList and Pipeline.observeTargetlistOn. Compose run_saves_all (C20), targets_independent (C19), pool_results (C21), build_sound (C81), blackbody_observation (C102); the columns of a result are storable because their names are known (Lemmas/ResultKeys).",
"C107": "Model/Read collects the reads; Props/ReadEntries states them as relations between paths of the payload and fields (entryAt, Has, Given, Section) and proves each an equivalence; Props/ReadDemo applies them to a concrete payload file.",
"C108": "Model/Program composes Model/Command with Model/Whole; the run with -c is proved by running the pipeline on the split tables and showing that every task reads and writes the same columns.",
"C109": "Compose the command-line model, the whole-run model and the plotter model; prove the run with -P equal to the run without it followed by the figures, and the plot command's outcome on the file the run leaves.",
"C110": "Model/TableFile: write_table with _encode_mixins, load_table; induction over the columns.",
"C111": "Model/SignalUnits: the constructors with units and shapes, check_quantities by cases; success iff by inverting the conversions; same result for the same physical arguments; the constructor of the rest of the model (Signal.mk?) is the case of numbers; histories by induction; CustomSed reduced to Source.customStar by scaling.",
"C112": "LoadSource converts neither end: np.logspace of the bare values in the unit of the upper end. Another unit of the upper end is refused by rebin, so every observation fails (by the order of the steps). With the lower end in smaller units the grid decreases from its bare value; rebinning onto a decreasing grid interpolates and gives 0 beyond the black body's samples.",
"C113": "grids with optional numbers; the window is computed with numpy's NaN rules before the removal",
"C114": "model of rebin for data of two axes with the flattening of np.delete and the shape checks of scipy",
"C115": "Columns of a table with their units: bare numbers, Column with a unit, Quantity; each consumer takes the numbers or converts. Scaling of the interpolation by induction over the sorted points; a zero factor in the product of the path makes the channel's TR column zero.",
"C116": "A path is split into components; groups on the way are made. Induction over the path: what was stored is kept, what is written is found by following the path. Listing and drawing are those of the plot command (C86).",
"C117": "The cumulative trapezoid sum, interpolated linearly, equals the area below steps (induction over the samples); bins of constant step telescope (induction over the grid); bounds by induction over the steps of the area.",
"C118": "The outcome of the call in each process as a function of the arguments of all processes, with waiting as an outcome.",
"C119": "Groups on the way of a path are made, as in C116; an invariant over the list of channels written: the entry of the first component has no description."
}