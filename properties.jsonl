{"id": "C01", "title": "Frame time never over-fills a pixel", "statement": "When the payload gives no explicit detector frame_time, the frameTime written for a channel is the same for every spectral bin of the channel and frameTime * MaxSignal_inPixel <= f_well_depth * well_depth in every bin, with equality in the brightest bin; when frame_time is given, frameTime is exactly that value in every bin. saturation_time is well_depth / MaxSignal_inPixel.", "quantifier": "every non-empty list of positive maximum signals, every positive well depth, every non-negative f_well_depth, every forced frame time", "why_tests_cant": "an inequality over every list of real signal values of any length; a test fixes one instrument", "anchors": ["exorad/models/noise.py:frame_time", "exorad/tasks/noiseHandler.py:EstimateNoiseInChannel.execute"]}
{"id": "C02", "title": "MULTIACCUM gains are physical", "statement": "For every positive frame time and NDR frequency, the read-noise gain and shot-noise gain returned equal the CDS values (2/m and 1) whenever fewer than three reads fit, the read gain is positive and never increases when the frame time grows, the shot gain always lies in [1, 6/5) and never decreases with the frame time.", "quantifier": "every positive frame time (a zero frame time gives an undefined shot gain), every non-negative NDR frequency, every positive multiaccumM", "why_tests_cant": "inequalities over an unbounded number of reads", "anchors": ["exorad/models/noise.py:multiaccum"]}
{"id": "C03", "title": "multiaccumM only averages read noise", "statement": "Setting detector multiaccumM = m divides the read-noise gain by m and leaves the shot-noise gain unchanged.", "quantifier": "every frame time > 0, NDR frequency, and m > 0", "why_tests_cant": "universally quantified algebra with a term multiplied by a zero time", "anchors": ["exorad/models/noise.py:multiaccum"]}
{"id": "C04", "title": "Exactly the signal columns generate photon noise", "statement": "The noise table gets one '<col>_noise' column for every column of the target table whose name contains 'signal' and the photon variance is shot_gain times the sum of exactly those columns (in counts/s, divided by 3600 for the hour reference); columns such as MaxSignal or starSignal never contribute.", "quantifier": "every target table with any number of columns and names, every channel", "why_tests_cant": "selection over arbitrary column-name sets", "anchors": ["exorad/models/noise.py:photon_noise", "exorad/models/noise.py:photon_noise_variance"]}
{"id": "C05", "title": "Photon variance is additive and order independent", "statement": "The photon-noise variance does not depend on the order of the signal columns, is additive when the table is split into two sets of columns, and splitting one signal column into several whose sum is the same leaves it unchanged (so running with full_contrib does not change the total noise).", "quantifier": "every table, every permutation of its columns, every split of a column into any number of parts", "why_tests_cant": "unbounded number of columns and permutations", "anchors": ["exorad/models/noise.py:photon_noise_variance", "exorad/exorad.py:standard_pipeline"]}
{"id": "C06", "title": "Total noise is the quadrature of its parts", "statement": "In each bin of non-zero star signal S, (total_noise * S)^2 = dark^2 + (1+NoiseX)*photon_variance + read^2 before custom noise, and each custom noise of v ppm adds (v*1e-6)^2 to total_noise^2, common section first, then channel section; bins of zero star signal have an undefined (NaN) total noise rather than an error or a finite value.", "quantifier": "every bin, every signal, every NoiseX >= 0 and every list of custom noises", "why_tests_cant": "real-valued identity for all inputs and list lengths", "anchors": ["exorad/tasks/noiseHandler.py:EstimateNoiseInChannel.execute", "exorad/models/noise.py:add_custom_noise"]}
{"id": "C07", "title": "Noise is monotone in every contribution", "statement": "At the same frame time, increasing dark current, read noise, any background signal, NoiseX or any custom noise never decreases total_noise in any bin; total_noise is at least each single normalised contribution, and custom noise order does not matter. (The frame time matters: a brighter background that fills a pixel sooner shortens the frame and can lower the total noise.)", "quantifier": "every bin with positive star signal and all non-negative inputs", "why_tests_cant": "two-run (relational) property over all inputs", "anchors": ["exorad/tasks/noiseHandler.py:EstimateNoiseInChannel.execute", "exorad/models/noise.py:add_custom_noise"]}
{"id": "C08", "title": "Every declared custom noise is added", "statement": "Every customNoise entry of the payload adds its own <name>_noise column and its own term to total_noise. (As stated it is false: an entry without a name silently drops the rest of its section, and of two entries with the same value one is lost in the parser.)", "quantifier": "every payload with any number of customNoise entries", "why_tests_cant": "ranges over all option lists; fails exactly when two entries carry equal values, which example payloads do not contain", "anchors": ["exorad/tasks/loadOptions.py:LoadOptions", "exorad/models/noise.py:add_custom_noise"]}
{"id": "C09", "title": "Re-estimating noise is idempotent", "statement": "Running the noise estimate again on an already processed target gives the same noise columns. (As stated it is false: the second estimate doubles MaxSignal_inPixel and then always raises, because the noise columns of the first are taken for signals.)", "quantifier": "every target table and every number of repetitions", "why_tests_cant": "a statement about histories (second run reads columns written by the first)", "anchors": ["exorad/tasks/noiseHandler.py:EstimateNoise", "exorad/tasks/targetHandler.py:EstimateMaxSignal"]}
{"id": "C10", "title": "Stacking channel tables loses nothing", "statement": "Merging channel tables keeps all rows in channel order, gives each input column to the result, preserves every input cell, and fills cells of columns a table did not have with zero; the result is rectangular.", "quantifier": "every list of non-empty rectangular tables with any columns", "why_tests_cant": "unbounded numbers of tables, columns and rows", "anchors": ["exorad/utils/util.py:vstack_tables", "exorad/tasks/instrumentHandler.py:MergeChannelsOutput"]}
{"id": "C11", "title": "Updating the target table is an overwriting merge", "statement": "After UpdateTargetTable the table has exactly the union of old and new columns, each once; new columns hold the new data, columns not in the update are untouched and keep their order; repeating the same update changes nothing; updates with disjoint columns commute on contents.", "quantifier": "every table, every update, every sequence of updates", "why_tests_cant": "histories of updates of any length", "anchors": ["exorad/tasks/targetHandler.py:UpdateTargetTable"]}
{"id": "C12", "title": "MaxSignal_inPixel is the sum of all contributions", "statement": "MaxSignal_inPixel written by EstimateMaxSignal is, in each bin, the sum over all columns whose name contains 'Max', and no other column is changed.", "quantifier": "every table", "why_tests_cant": "arbitrary column sets", "anchors": ["exorad/tasks/targetHandler.py:EstimateMaxSignal"]}
{"id": "C13", "title": "Unknown task parameters are rejected before any work", "statement": "Calling any Task with a keyword it has not declared raises ValueError, runs none of the task body and leaves the task's output as it was; otherwise the body sees every declared parameter, the caller's value if given and the declared default if not.", "quantifier": "every declared parameter set, every set of keyword arguments, every task body", "why_tests_cant": "ranges over all keyword sets and bodies", "anchors": ["exorad/tasks/task.py:Task"]}
{"id": "C14", "title": "A task call returns the product of that call", "statement": "Calling a task returns what the body produced during that call, independently of earlier calls of the same object. (As stated it is false: a task whose body sets no output returns the product of an earlier call.)", "quantifier": "every history of calls of one task object", "why_tests_cant": "history dependent: a body that sets no output returns the product of an earlier call", "anchors": ["exorad/tasks/task.py:Task.__call__", "exorad/tasks/task.py:Task.get_output"]}
{"id": "C15", "title": "Payload values are typed deterministically", "statement": "An option text is loaded as int if it parses as an int, else as a float if it parses as a float, else True/False as bool, else as a string, with surrounding blanks and newlines removed; a unit attribute attaches the unit ('dimensionless' meaning no unit).", "quantifier": "every option text", "why_tests_cant": "all strings", "anchors": ["exorad/tasks/loadOptions.py:LoadOptions.__parser__"]}
{"id": "C16", "title": "Repeated payload tags keep every entry", "statement": "Siblings with the same tag are all available in the parsed payload, in document order, keyed by their value; a tag occurring once is a plain dict. Siblings with pairwise distinct values are all kept; equal values overwrite each other.", "quantifier": "every XML element with any number of children", "why_tests_cant": "unbounded lists of children", "anchors": ["exorad/tasks/loadOptions.py:LoadOptions.__parser__"]}
{"id": "C17", "title": "Loading a payload is independent of earlier loads", "statement": "The working resolving power used for a payload is the one it declares, or the documented default 6000, regardless of payloads loaded earlier in the process. (As stated it is false: a payload that declares none gets the resolving power of the payload loaded before it.)", "quantifier": "every sequence of payload loads", "why_tests_cant": "history property over process-global state", "anchors": ["exorad/tasks/loadOptions.py:LoadOptions.__parser__", "exorad/utils/passVal.py:PassValInit"]}
{"id": "C18", "title": "ConfigPath substitution", "statement": "After a ConfigPath tag (or with config_path given, which wins) every later string value has all occurrences of __ConfigPath__ replaced and contains none of the placeholder unless the path itself introduces it.", "quantifier": "every document order, every path", "why_tests_cant": "order dependent over all documents", "anchors": ["exorad/tasks/loadOptions.py:LoadOptions.__parser__"]}
{"id": "C19", "title": "A failing target does not affect the others", "statement": "In ObserveTargetlist a target whose observation raises is skipped and the results of every other target are the same as if it had not been listed; the run itself never raises. (As stated it is false: a foreground with a transmission leaves a column in the tables of the channels, which later targets get too.)", "quantifier": "every target list, every subset of failing targets", "why_tests_cant": "all subsets and positions of failures", "anchors": ["exorad/tasks/targetHandler.py:ObserveTargetlist", "exorad/tasks/targetHandler.py:pipeline_to_dict"]}
{"id": "C20", "title": "Every observed target is saved", "statement": "The standard pipeline writes to the output file every successfully observed target. (As stated it is false: a skipped target loses every target that comes after it.)", "quantifier": "every target list with any set of failing targets", "why_tests_cant": "the failure needs a specific combination (a skipped target before a good one)", "anchors": ["exorad/exorad.py:standard_pipeline"]}
{"id": "C21", "title": "Results do not depend on the number of threads", "statement": "ObserveTargetlist gives for every target the same spectral table values with n_thread = 1 as with n_thread > 1. (As stated it is false: with a foreground that has a transmission the tables of later targets have one more column in one thread.)", "quantifier": "every target list, payload and thread count", "why_tests_cant": "two-run property; depends on which objects the observation mutates", "anchors": ["exorad/tasks/targetHandler.py:ObserveTargetlist", "exorad/tasks/foregroundHandler.py:PropagateForegroundLight"]}
{"id": "C22", "title": "Pipeline steps run in order and only on what they need", "statement": "ObserveTarget runs prepare, foregrounds, foreground propagation, source, target propagation and noise in this order, stops at the first failing step, and succeeds for payloads with or without a foreground section. (As stated it is false: without a foreground section every observation is an exception.)", "quantifier": "every payload and every outcome of each step", "why_tests_cant": "all failure points", "anchors": ["exorad/tasks/targetHandler.py:ObserveTarget"]}
{"id": "C23", "title": "Restarting with replace is safe for the inputs", "statement": "Running the standard pipeline with replace never destroys its inputs, and an interruption at any point leaves either the old or a valid new output. (As stated it is false: the old output is removed before the inputs are read.)", "quantifier": "every argument combination and every crash point", "why_tests_cant": "crash points", "anchors": ["exorad/exorad.py:standard_pipeline"]}
{"id": "C24", "title": "Stored payload dictionaries read back equal", "statement": "Writing an option dictionary (nested dictionaries of numbers, strings, booleans, quantities and tables) to HDF5 and loading it gives the same keys and values at every depth, with quantities as value+unit.", "quantifier": "every finite nested dictionary in the stored format", "why_tests_cant": "unbounded nesting; round trip", "anchors": ["exorad/output/hdf5/hdf5.py:HDF5OutputGroup", "exorad/output/hdf5/util.py:load", "exorad/output/output.py:OutputGroup.store_dictionary"]}
{"id": "C25", "title": "Writing never destroys stored data", "statement": "No sequence of write operations on an opened output changes or removes a dataset already stored; a colliding write raises and leaves the earlier dataset readable.", "quantifier": "every sequence of writes", "why_tests_cant": "operation histories", "anchors": ["exorad/output/hdf5/hdf5.py:HDF5OutputGroup"]}
{"id": "C26", "title": "Rebinning keeps bounds", "statement": "Rebinning a signal onto any grid gives values between min(0, minimum) and max(0, maximum) of the input; in particular non-negative spectra stay non-negative and transmissions stay within [0,1].", "quantifier": "every input grid and data, every output grid, both rebinning branches", "why_tests_cant": "all grids, all sizes", "anchors": ["exorad/utils/exolib.py:rebin", "exorad/models/signal.py:Signal.spectral_rebin"]}
{"id": "C27", "title": "Rebinning is linear", "statement": "On a fixed pair of grids, rebin(a*f + b*g) = a*rebin(f) + b*rebin(g).", "quantifier": "every pair of data arrays on every grid and all scalars", "why_tests_cant": "relational property over all data", "anchors": ["exorad/utils/exolib.py:rebin"]}
{"id": "C28", "title": "Rebinning to a covered grid reproduces constants and lines", "statement": "Where the output grid lies inside the input range, a constant signal is reproduced exactly in both branches, a straight line is reproduced exactly by interpolation, and at nodes of the input grid interpolation returns the input value. (As stated it is false: samples outside 0.9 to 1.1 times the new range do not count, so points beside them, end bins and decreasing samples come out wrong.)", "quantifier": "every grid and constants/lines", "why_tests_cant": "all grids", "anchors": ["exorad/utils/exolib.py:rebin"]}
{"id": "C29", "title": "Rebinning gives zero outside the data", "statement": "Output points for which no input data exist (outside the input range when interpolating; no samples within the bin when averaging) have value exactly zero after spectral_rebin.", "quantifier": "every grid and output point", "why_tests_cant": "all grids", "anchors": ["exorad/utils/exolib.py:rebin", "exorad/models/signal.py:Signal.spectral_rebin"]}
{"id": "C30", "title": "Signals stay well formed", "statement": "Every Signal object has data of shape (wavelength,) or (wavelength, time) matching its grids, after construction and after any sequence of spectral rebinnings; construction with mismatching sizes raises ValueError. (As stated it is false: a grid with repeated points loses them but the data do not; a time mismatch of one-dimensional data is an IndexError.)", "quantifier": "every construction and every history of spectral_rebin", "why_tests_cant": "histories and all grids; fails for output grids with duplicates", "anchors": ["exorad/models/signal.py:Signal"]}
{"id": "C31", "title": "Total transmission is the product of the elements", "statement": "The transmission of an optical path is, at every wavelength, the product of the transmissions of its elements in any order; it lies in [0,1] when each element does, and adding an element never increases it.", "quantifier": "every path with any number of elements", "why_tests_cant": "unbounded number of elements", "anchors": ["exorad/models/optics/opticalPath.py:OpticalPath"]}
{"id": "C32", "title": "Emission is attenuated by exactly the later elements", "statement": "The radiance that reaches the detector from one element is its emission times the product of the transmissions of exactly the elements after it; removing an element upstream changes nothing for those downstream.", "quantifier": "every optical path, every position", "why_tests_cant": "unbounded chains", "anchors": ["exorad/models/optics/opticalPath.py:OpticalPath.chain"]}
{"id": "C33", "title": "Instrument signal is the sum of its elements", "statement": "instrument_signal equals the sum of the '<element> signal' columns and instrument_MaxSignal_inPixel the sum of the per-element maxima, in every bin; it is independent of the order in which elements are summed.", "quantifier": "every path and channel", "why_tests_cant": "unbounded number of elements", "anchors": ["exorad/models/optics/opticalPath.py:OpticalPath.compute_signal"]}
{"id": "C34", "title": "Solid angles per position", "statement": "Radiance from the detector box is collected over pi, from the optics box over pi - Omega_pix and from the optical path over Omega_pix; a custom solid angle declared for an element replaces it. (As stated it is false: a custom solid angle of an element is never used, and in front of a slit the position is ignored.)", "quantifier": "every element, position and angle", "why_tests_cant": "decision table over all elements; the custom angle clause fails", "anchors": ["exorad/models/optics/opticalPath.py:OpticalPath.compute_signal", "exorad/models/optics/opticalElement.py:OpticalElement"]}
{"id": "C35", "title": "Common optics come first in each channel", "statement": "Each channel's optical path is the common optics in payload order followed by the channel's own elements in payload order, none lost. (As stated it is false: a channel element with the name of a common one replaces it.)", "quantifier": "every payload", "why_tests_cant": "all lists of element names; fails for repeated names", "anchors": ["exorad/models/optics/opticalPath.py:OpticalPath.prepend_optical_elements"]}
{"id": "C36", "title": "Element transmission and emissivity selection", "statement": "An element's transmission comes from its data table if present (transmission column, or reflectivity column, or the one chosen by 'use' if both), from the constant value otherwise, and is 1 if none is given; emissivity similarly (0 if none; 1 for a detector box).", "quantifier": "every combination of description keys", "why_tests_cant": "full decision table", "anchors": ["exorad/models/optics/opticalElement.py:OpticalElement"]}
{"id": "C37", "title": "Out-of-band light has no effect", "statement": "With ForceChannelWlEdge on, changing the target SED outside [wl_min, wl_max] of a channel does not change any column propagate_target returns for that channel; with it off the reported flux does change.", "quantifier": "every pair of SEDs agreeing in band", "why_tests_cant": "non-interference over all spectra", "anchors": ["exorad/models/instruments/instrument.py:Instrument"]}
{"id": "C38", "title": "Spectral bins partition the band", "statement": "Bin edges of a spectrometer are contiguous (the right edge of a bin is the left edge of the next) and increasing, so each detected wavelength falls in exactly one bin and band totals equal the sum over bins. (As stated it is false: in native mode bins overlap or leave gaps unless the wavelength solution is linear.)", "quantifier": "every spectrometer description in fixed-R or native mode, every wavelength grid", "why_tests_cant": "all grids and resolving powers", "anchors": ["exorad/models/instruments/spectrometer.py:Spectrometer", "exorad/models/instruments/instrument.py:Instrument._window_function"]}
{"id": "C39", "title": "Fixed-R grid covers the band with resolving power R", "statement": "With a constant targetR the bin edges start at wl_min, consecutive edges have the ratio 1+1/R, the last edge is the first at or above wl_max, and every bin centre over its width is the same resolving power R+1/2.", "quantifier": "every wl_min < wl_max and R > 0", "why_tests_cant": "unbounded number of bins; real arithmetic", "anchors": ["exorad/models/instruments/spectrometer.py:Spectrometer"]}
{"id": "C40", "title": "Aperture correction precedence", "statement": "The fraction of target light collected is the aperture correction if given, else the encircled energy if given, else 1.", "quantifier": "every description", "why_tests_cant": "decision table", "anchors": ["exorad/models/instruments/photometer.py:Photometer", "exorad/models/instruments/spectrometer.py:Spectrometer"]}
{"id": "C41", "title": "PSF kernel conserves pixel area", "statement": "The pixel kernel used to integrate a PSF has total weight delta_pix^2/sampling^2 (kx*ky), is symmetric, and every entry lies in [0,1].", "quantifier": "every pixel size and sampling", "why_tests_cant": "all real sizes", "anchors": ["exorad/utils/exolib.py:binnedPSF", "exorad/utils/exolib.py:paosPSF"]}
{"id": "C42", "title": "Aperture search terminates with the requested energy", "statement": "find_aperture_radius returns a radius enclosing at least the requested encircled energy for every request below 1. (As stated it is false: the search ends only for requests up to 0.98 and is a ValueError below the energy of radius 1.)", "quantifier": "every PSF and energy", "why_tests_cant": "unbounded loop termination", "anchors": ["exorad/utils/exolib.py:find_aperture_radius"]}
{"id": "C43", "title": "Pixel solid angle", "statement": "OmegaPix is symmetric in its two f-numbers, equals 2*pi*(1-cos(atan(1/(2F)))) for a circular beam, lies strictly between 0 and 2*pi, and decreases with the f-number.", "quantifier": "every positive f-number", "why_tests_cant": "real analysis", "anchors": ["exorad/utils/exolib.py:OmegaPix"]}
{"id": "C44", "title": "PSF wavelength interpolation stays between its neighbours", "statement": "interpolate_paos_psf returns a convex combination of the two stored PSFs whose wavelengths bracket the requested one, and the stored PSF exactly at stored wavelengths.", "quantifier": "every stored wavelength set and request", "why_tests_cant": "all sets", "anchors": ["exorad/utils/exolib.py:interpolate_paos_psf"]}
{"id": "C45", "title": "Slit convolution collects every photon", "statement": "For a slit the diffuse signal of a bin is the sum over wavelength samples inside the bin of the light convolved with the slit width; it is linear and monotone in the light, non-negative, and with an unresolved slit (one sample) equals the plain sum.", "quantifier": "every light curve, slit width and bin set", "why_tests_cant": "all sizes", "anchors": ["exorad/utils/diffuse_light_propagation.py:convolve_with_slit"]}
{"id": "C46", "title": "Slitless diffuse light is the band integral times the window", "statement": "Without a slit every bin gets window_size times the integral of the diffuse signal over the channel and the per-pixel maximum is that integral; linear and monotone in the light.", "quantifier": "every spectrum and window set", "why_tests_cant": "all sizes", "anchors": ["exorad/utils/diffuse_light_propagation.py:integrate_light"]}
{"id": "C47", "title": "Foreground attenuation", "statement": "The target and each foreground are attenuated by the transmission of exactly the foregrounds in front of them; observing the target again gives the same result. (As stated it is false: slitless and photometric foregrounds are not attenuated at their detector, and observing again squares the transmission.)", "quantifier": "every ordered list of foregrounds, every number of observations", "why_tests_cant": "lists and repeated observation histories", "anchors": ["exorad/tasks/foregroundHandler.py:EstimateForegrounds", "exorad/tasks/foregroundHandler.py:PropagateForegroundLight", "exorad/models/instruments/instrument.py:Instrument.propagate_diffuse_foreground"]}
{"id": "C48", "title": "Zodiacal light scales with its fit coefficient", "statement": "The zodiacal radiance is a positive, strictly increasing, linear function of the zodiacal coefficient; with coordinates given, the nearest map entry is used; if the map cannot be used the default is used. (As stated it is false: the default is used only for some of the errors, and nearest is without wrapping the right ascension.)", "quantifier": "every wavelength, coefficient, map and coordinates", "why_tests_cant": "all maps", "anchors": ["exorad/models/foregrounds/zodiacalForeground.py:ZodiacalFrg"]}
{"id": "C49", "title": "Planck spectrum is positive and increasing with temperature", "statement": "The black-body radiance used for stars and for optics emission is positive and strictly increasing in temperature at every wavelength.", "quantifier": "every wavelength, every pair of temperatures", "why_tests_cant": "real analysis", "anchors": ["exorad/utils/exolib.py:planck", "exorad/models/source.py"]}
{"id": "C50", "title": "Star SED scales with solid angle", "statement": "The SED of a star scales as (R/D)^2: doubling the distance quarters it at every wavelength.", "quantifier": "every star", "why_tests_cant": "all reals", "anchors": ["exorad/models/source.py"]}
{"id": "C51", "title": "Source type selection and fallback", "statement": "The source type is recognised case-insensitively; planck, phoenix (falls back to a black body when no stellar model covers the temperature), and custom; unrecognised names use Planck. (As stated it is false: the type read back from HDF5 is never recognised and always gives a black body.)", "quantifier": "every source description", "why_tests_cant": "decision table over all strings", "anchors": ["exorad/tasks/loadSource.py:LoadSource"]}
{"id": "C52", "title": "Nearest stellar model is chosen", "statement": "The stellar-library file loaded minimises the distance in temperature and gravity over the files available and a temperature beyond the library raises ValueError.", "quantifier": "every library listing", "why_tests_cant": "all listings", "anchors": ["exorad/models/source.py:Star"]}
{"id": "C53", "title": "Target list parsing keeps every row", "statement": "Loading a target list of N rows (csv of either format, xlsx or QTable, with or without planets) gives N targets with id 0..N-1 in row order; the star and the planet of each target have exactly the quantities of their columns, each with the value of its own row and the unit of its column; the target is named after its planet, or its star when there is no planet.", "quantifier": "every table whose columns have distinct attribute names and units the library knows: any number of rows and columns, any names, units and values, any other columns in between", "why_tests_cant": "all sizes and headers", "anchors": ["exorad/models/targetlist.py", "exorad/tasks/targetHandler.py:LoadTargetList"]}
{"id": "C54", "title": "Channel selection and construction", "statement": "For a payload of several channels GetChannelList gives exactly the channels whose class matches the requested one case-insensitively, in payload order; BuildChannels builds one instrument per channel under its own name, in payload order and with its own class, and fails if a class is unknown; photometers and spectrometers share out the built channels. For a payload of a single channel BuildChannels builds it, but GetChannelList raises.", "quantifier": "every payload and requested class", "why_tests_cant": "all lists of channels and classes", "anchors": ["exorad/tasks/instrumentHandler.py:GetChannelList", "exorad/tasks/instrumentHandler.py:BuildChannels", "exorad/tasks/instrumentHandler.py:BuildInstrument"]}
{"id": "C55", "title": "Payload dispatch by extension", "statement": "A payload or target list file is loaded by the loader of its extension and any other extension raises OSError without touching the output. (As stated it is false: with replace the old output is removed before the extension is looked at.)", "quantifier": "every path", "why_tests_cant": "all strings", "anchors": ["exorad/tasks/instrumentHandler.py:PreparePayload", "exorad/tasks/targetHandler.py:LoadTargetList"]}
{"id": "C56", "title": "Log level is preserved across observations", "statement": "Observing targets leaves the configured log level unchanged. (As stated it is false: the level after an observation is always INFO.)", "quantifier": "every sequence of observations and levels", "why_tests_cant": "history of global state", "anchors": ["exorad/log/__init__.py", "exorad/tasks/targetHandler.py:pipeline_to_dict"]}
{"id": "C57", "title": "Update message only for outdated versions", "statement": "The version check reports a new version iff the latest released version of the changelog is not the running one, and reports that version.", "quantifier": "every changelog", "why_tests_cant": "all texts", "anchors": ["exorad/utils/version_control.py"]}
{"id": "C58", "title": "Selection strings", "statement": "parse_range returns the union in order of the listed indices and inclusive ranges, all indices for 'all', none for 'none', and None for malformed text.", "quantifier": "every string", "why_tests_cant": "all strings", "anchors": ["exorad/utils/util.py:parse_range"]}
{"id": "C59", "title": "Chunking is a partition", "statement": "chunks(l, n) for n > 0 yields non-empty consecutive pieces of length n (the last possibly shorter) whose concatenation is l.", "quantifier": "every list and n", "why_tests_cant": "all lengths", "anchors": ["exorad/utils/util.py:chunks"]}
{"id": "C60", "title": "Objects are stored without internals", "statement": "to_dict keeps every public attribute except 'name' and callables, recursively, and no private attribute appears at any depth.", "quantifier": "every object tree", "why_tests_cant": "unbounded depth", "anchors": ["exorad/utils/util.py:to_dict"]}
{"id": "C61", "title": "Wavelength column discovery", "statement": "get_wl_col_name returns the wavelength column of a table, honours an explicit column name and raises when there is none. (As stated it is false: an explicit name is an UnboundLocalError, and a table without wavelength column gives None.)", "quantifier": "every table", "why_tests_cant": "all column sets", "anchors": ["exorad/models/utils.py:get_wl_col_name"]}
{"id": "C62", "title": "Rebinning onto the same grid changes nothing", "statement": "Rebinning a signal onto the (increasing, positive) grid it is already defined on returns the same signal, so propagating several sources through the same detector with the same quantum-efficiency object does not degrade it.", "quantifier": "every well-formed signal with at least two samples, any number of repetitions", "why_tests_cant": "all grids and histories", "anchors": ["exorad/models/signal.py:Signal.spectral_rebin", "exorad/models/optics/opticalPath.py:OpticalPath.compute_signal"]}
{"id": "C63", "title": "Files referenced by a payload section", "statement": "A section naming a datafile or a datadict keeps all its entries and gets the contents of that file as 'data'; a section naming a config_dict becomes the contents of that file plus the file name; sections naming no file are unchanged; a file that cannot be read fails the load with the reader's error.", "quantifier": "every section, every file system, every configuration path", "why_tests_cant": "ranges over all sections and file contents", "anchors": ["exorad/tasks/loadOptions.py:LoadOptions"]}
{"id": "C64", "title": "Variable-R grid terminates and covers the band", "statement": "With a tabulated targetR the bin edges start at wl_min, increase, follow the tabulated resolving power up to the rounding to 1e-4 micron, and reach wl_max. (As stated it is false: a very high resolving power never terminates, and a band of a single bin is an IndexError.)", "quantifier": "every resolving-power table and band", "why_tests_cant": "unbounded loop whose termination depends on rounding", "anchors": ["exorad/models/instruments/spectrometer.py:Spectrometer._wavelength_table"]}
{"id": "C65", "title": "Efficiency columns of the channel table", "statement": "The QE and TR columns of a channel hold the detector and optics curves interpolated at the bin centre, TR is zeroed outside the band when ForceChannelWlEdge is on, and a constant quantum efficiency appears unchanged inside [wl_min, cut_off].", "quantifier": "every bin grid and every curve", "why_tests_cant": "all curves and grids", "anchors": ["exorad/models/instruments/instrument.py:Instrument._get_transmission", "exorad/models/instruments/instrument.py:Instrument._get_qe"]}
{"id": "C66", "title": "Pixel grid of a spectrometer", "statement": "Pixel centres are delta_pix apart, cover the detector positions of wl_min to wl_max, and an increasing wavelength solution gives pixel wavelengths that increase with the position; the brightest pixel reported for a bin is the largest among the pixels strictly inside it, and a bin without pixels is an error.", "quantifier": "every wavelength solution, band and pixel size", "why_tests_cant": "all wavelength solutions", "anchors": ["exorad/models/instruments/spectrometer.py:Spectrometer.builder", "exorad/models/instruments/spectrometer.py:Spectrometer.propagate_target"]}
{"id": "C67", "title": "Extraction windows", "statement": "Every bin of a spectrometer has a window whose size is its spectral width times its spatial width; explicit pixel numbers win over the diffraction width, scales multiply it; sizes are not negative and the spectral widths of all bins add up to the number of pixels across the band. A photometer window is the area of its aperture, and the radius wins over the encircled energy. (As stated it is false: the radius of a photometer is used as the side of a square, and an aperture without radius and energy is an UnboundLocalError.)", "quantifier": "every window description, grid and wavelength solution", "why_tests_cant": "all descriptions and grids", "anchors": ["exorad/models/instruments/spectrometer.py:Spectrometer.builder", "exorad/models/instruments/photometer.py:Photometer._windows_size"]}
{"id": "C68", "title": "Brightest pixel of the point source", "statement": "The PRF of a pixel is never negative, no pixel gets more light than the image holds (1 for the built-in Airy image), the light on the detector is the image total times the pixel area unless the image reaches its border, and the spectral gain lies between 0 and the image total.", "quantifier": "every image, pixel size and f-number", "why_tests_cant": "all images and kernels", "anchors": ["exorad/utils/exolib.py:binnedPSF", "exorad/utils/exolib.py:paosPSF", "exorad/models/instruments/spectrometer.py:Spectrometer.builder"]}
{"id": "C69", "title": "PSF file selection", "statement": "From a directory of PSF files the file used is one whose WAVELEN is nearest to the wavelength asked for; an empty directory is a ValueError.", "quantifier": "every directory listing and wavelength", "why_tests_cant": "all listings", "anchors": ["exorad/utils/exolib.py:binnedPSF", "exorad/utils/exolib.py:pixel_based_psf"]}
{"id": "C71", "title": "Plots do not change the results", "statement": "Whether plots are drawn, and where, changes neither which targets are observed nor their tables. (As stated it is false: plotting without an output directory skips every target.)", "quantifier": "every target list, payload, plot option and output directory", "why_tests_cant": "two-run property over all options", "anchors": ["exorad/tasks/targetHandler.py:pipeline_to_dict"]}
{"id": "C72", "title": "A well-formed observation succeeds", "statement": "For a built payload with a foreground section and a source whose light reaches every channel, observing a fresh target never raises, and its table has the rows of all channels in order with the channel, foreground and target columns, one positive frame time per channel, and a non-negative total noise in every row with signal.", "quantifier": "every number of channels, bins, foregrounds and every admissible detector", "why_tests_cant": "ranges over all payloads and spectra; chains every step of the pipeline", "anchors": ["exorad/tasks/targetHandler.py:ObserveTarget", "exorad/tasks/propagateLight.py", "exorad/tasks/noiseHandler.py"]}
{"id": "C73", "title": "Light is never negative", "statement": "When the transmissions, efficiencies, emissivities, spectra and detector gains given are not negative, no signal, maximum signal in a pixel, sky radiance, sky transmission or star flux that an observation computes is negative.", "quantifier": "every channel, grid, spectrum, file content and foreground list", "why_tests_cant": "ranges over all continuous inputs and through every rebinning, interpolation and integration", "anchors": ["exorad/models/instruments/photometer.py:propagate_target", "exorad/models/instruments/spectrometer.py:propagate_target", "exorad/models/foregrounds/skyForegrounds.py", "exorad/tasks/loadSource.py", "exorad/utils/diffuse_light_propagation.py"]}
{"id": "C74", "title": "Appending keeps the old results", "statement": "Running the standard pipeline with replace=False on an existing output keeps everything stored in it, at every point of the run and whatever it raises, and adds the newly observed targets. (As stated it is false: with the same payload nothing can be added; an input with the name of the output overwrites it.)", "quantifier": "every payload, target list, content of the existing output and crash point", "why_tests_cant": "ranges over all file contents and all points at which the run can stop", "anchors": ["exorad/exorad.py:standard_pipeline", "exorad/tasks/instrumentHandler.py:PreparePayload", "exorad/output/hdf5/hdf5.py:HDF5Output"]}
{"id": "C75", "title": "Replacing forgets the old output", "statement": "With replace=True the outcome of a run and the new output depend on the input files only, not on what was in the output file before; running the same command twice gives the same output file.", "quantifier": "every content of the disk, every payload and target list, every output that is not one of the inputs", "why_tests_cant": "relates runs from any two disks that agree on the inputs", "anchors": ["exorad/exorad.py:standard_pipeline"]}
{"id": "C76", "title": "Mistakes and repetitions in a target list", "statement": "When several star columns of a csv list name the same quantity (such as a column of values and one of errors) the last one silently gives the value; one unreadable planet column (unknown unit, or a number without unit in a QTable) silently drops the planets of all the targets.", "quantifier": "every table with such columns", "why_tests_cant": "all tables", "anchors": ["exorad/models/targetlist.py:CSVTargetList", "exorad/models/targetlist.py:QTableTargetList", "exorad/models/targetlist.py:BaseTargetList.create_target_list"]}
{"id": "C77", "title": "Which reader reads a target list", "statement": "A csv file with targets of the first format is read in that format and one without any lower-case 'star' header in the second; other extensions raise OSError; a QTable is accepted only if every star cell is a text or a quantity; a KeyError or TypeError of a file never reaches the caller as such.", "quantifier": "every argument of LoadTargetList", "why_tests_cant": "all files and tables", "anchors": ["exorad/tasks/targetHandler.py:LoadTargetList"]}
{"id": "C78", "title": "Searching a target", "statement": "searchTarget ignores spaces, dashes and case, and gives in list order exactly the targets whose star or planet name matches; in a list without planets it either gives the whole list or raises AttributeError.", "quantifier": "every list of targets and every searched name", "why_tests_cant": "all lists and texts", "anchors": ["exorad/models/targetlist.py:BaseTargetList.searchTarget"]}
{"id": "C70", "title": "A saved payload is loaded completely", "statement": "A payload built and written to an HDF5 output is loaded from that file with its description and all its channels, each with its class, its table, its description and its built dictionary; the channels come in alphabetical order.", "quantifier": "every payload whose entries HDF5 can hold and whose channel classes are known, every number of channels, every earlier contents of the file without a payload", "why_tests_cant": "all nested dictionaries, all channel names; file round trip", "anchors": ["exorad/tasks/instrumentHandler.py:LoadPayload", "exorad/tasks/instrumentHandler.py:BuildChannels", "exorad/models/instruments/instrument.py:Instrument.write", "exorad/output/hdf5/hdf5.py:load"]}
{"id": "C79", "title": "A payload loaded from HDF5 observes like the one that was saved", "statement": "Observing a target with channels loaded from an HDF5 file gives the same result as observing it with the channels that were written to that file. (As stated it is false: the wavelengths of loaded data are multiplied by their unit once more, and every observation raises.)", "quantifier": "every payload, every target", "why_tests_cant": "all payloads and targets; the dictionaries go through a file format that keeps no Python types", "anchors": ["exorad/tasks/instrumentHandler.py:LoadPayload", "exorad/utils/diffuse_light_propagation.py:prepare", "exorad/models/instruments/instrument.py:Instrument._get_efficiency", "exorad/output/hdf5/util.py:recursively_read_dict_contents", "exorad/models/signal.py:Signal.check_quantities"]}
{"id": "C80", "title": "Asking for the separate contributions changes nothing else", "statement": "Observing a target list with full_contrib gives one column per emitting optical element in place of instrument_signal; these add up to instrument_signal in every row. All other columns, the total noise included, are the same as without the option, except for the noise of the exchanged columns.", "quantifier": "every payload, every target, every set of emitting elements per channel (element names without Max and _noise, no foreground called instrument)", "why_tests_cant": "all tables; the noise estimate reads the columns by name, so one more column could change any of its numbers", "anchors": ["exorad/exorad.py:standard_pipeline", "exorad/models/optics/opticalPath.py:OpticalPath.compute_signal", "exorad/models/noise.py:estimateNoise", "exorad/tasks/targetHandler.py:EstimateMaxSignal"]}
{"id": "C81", "title": "Built channels are complete and physical", "statement": "A channel built from a description without negative numbers has at least one spectral bin and exactly the columns chName, Wavelength, Bandwidth, LeftBinEdge, RightBinEdge, QE, WindowSize, TR, instrument_signal and instrument_MaxSignal_inPixel, all with one entry per bin; every row carries the name of the channel; quantum efficiency, transmission, window, bin edges and the emission of the instrument are never negative. The separate contributions are exactly those of the elements with a temperature and add up to instrument_signal. The tables of all channels have the same columns, so stacking them leaves no hole.", "quantifier": "every payload that describes a real instrument (positive bands, focal ratios of at least 1/2, monotonic wavelength solutions, gains and windows that are not negative): any number of channels of both classes, any optical elements, PSF files, wavelength solutions, resolutions", "why_tests_cant": "all descriptions of instruments and all numbers of bins, pixels and elements", "anchors": ["exorad/models/instruments/instrument.py:Instrument.build", "exorad/models/instruments/instrument.py:Instrument.build_optical_path", "exorad/models/instruments/photometer.py:Photometer.builder", "exorad/models/instruments/spectrometer.py:Spectrometer.builder", "exorad/models/optics/opticalPath.py:OpticalPath", "exorad/tasks/instrumentHandler.py:BuildChannels"]}
{"id": "C83", "title": "From the description of the instrument to the noise of a target", "statement": "Channels built from a payload observe a target with every channel in the result, in payload order; in each row the frame time is the one of the description or fills at most the allowed part of the well, and the total noise is the square root of the relative variance given by photon noise with excess, dark current, read noise and the listed custom noises, computed with the signals of that row.", "quantifier": "every payload, every foreground list, every target whose star and sky reach the detector", "why_tests_cant": "the statement runs over all payloads and targets and joins every step of the program", "anchors": ["exorad/exorad.py:standard_pipeline", "exorad/models/instruments/instrument.py:Instrument.build", "exorad/tasks/instrumentHandler.py:BuildInstrument", "exorad/tasks/noiseHandler.py:EstimateNoise", "exorad/models/noise.py:estimateNoise"]}
{"id": "C82", "title": "A complete description can be built, and each omission is refused", "statement": "If a channel description is complete (a focal ratio for both directions, readable optical elements, a quantum efficiency table that covers the band, PSF images that are not empty, an aperture that the image can contain, for spectrometers a wavelength solution, a supported resolution and windows), then building it ends and succeeds. Building a complete instrument builds every channel. Giving the search loops more time never changes a result. Conversely a successful build shows that each needed part was there, and: building over channels that were loaded, a spectrometer without a solution or with an unsupported resolution, a photometer without an aperture, a channel without optics, a telescope without the force switch, and a slit in a photometer each raise their own exception.", "quantifier": "all channel descriptions, common settings, environments of PSF images and interpolators, and search lengths", "why_tests_cant": "the search for the aperture and the loop over the bins are unbounded; whether they end depends on image, fraction and solution", "anchors": ["exorad/models/instruments/instrument.py:Instrument.build", "exorad/models/instruments/photometer.py:Photometer.builder", "exorad/models/instruments/spectrometer.py:Spectrometer.builder", "exorad/utils/exolib.py:find_aperture", "exorad/models/optics/opticalPath.py:OpticalPath"]}
{"id": "C84", "title": "The table of a built channel says what the description says", "statement": "In the table of a built channel: chName is the channel's name in every row; for a photometer there is one bin, the band from wl_min to wl_max; for a spectrometer with a fixed R the edges start at wl_min, grow by the factor 1+1/R and the last is the first to reach wl_max; with a curve of R each bin has the resolving power at its left edge; in native mode the bins are the pixels in order of wavelength. Wavelength and Bandwidth are the centres and widths, LeftBinEdge and RightBinEdge the edges. QE is the quantum efficiency of the channel at the centre (the constant within the range of the detector, or the interpolated column with the channel's name). TR is, at the centre, the product of the transmissions of all optical elements, those of the telescope and those of the channel, and 0 outside the band if the payload forces the edges; for elements given by plain numbers it is the product of these. WindowSize is width times height of the window in pixels, from the wavelength solution, the F-number, the EncE curve and the overriding keys, for a photometer from the aperture. The gain of a spectrometer is sampled at ten equally spaced wavelengths, reduced by exp(-(2 pi rms / wl)^2) if there is a wavefront error. Telescope area, aperture, pixel area, solid angle and pixels used by an observation are those of the description.", "quantifier": "all channel descriptions, payloads, environments of PSF images and interpolators", "why_tests_cant": "the numbers depend on all parts of the description; tests compare a few built instruments", "anchors": ["exorad/models/instruments/instrument.py:Instrument.build", "exorad/models/instruments/instrument.py:Instrument._get_qe", "exorad/models/instruments/instrument.py:Instrument._get_transmission", "exorad/models/instruments/photometer.py:Photometer.builder", "exorad/models/instruments/spectrometer.py:Spectrometer.builder", "exorad/models/optics/opticalPath.py:OpticalPath"]}
{"id": "C85", "title": "The figures of a target show its table", "statement": "The signal figure of a target has one curve for each column whose name contains 'signal' and not 'noise', in the order of the table, and nothing else; each shows its column over Wavelength. The noise figure has one curve for each column whose name contains 'noise' or 'custom'; total_noise and columns in hr**0.5 are shown as stored, every other one divided, row by row, by star_signal_inAperture. Behind the curves there is exactly one band per channel, from the smallest left edge to the largest right edge of its rows. A table with a name, at least one row, the columns of bins and numbers can always be drawn; so every target that was observed with built channels can be drawn. A table without rows cannot.", "quantifier": "all tables, units, orders in which the set of channel names is gone through, payloads and targets", "why_tests_cant": "which columns there are depends on the payload and its custom noises; the order of a Python set changes between processes", "anchors": ["exorad/utils/plotter.py:Plotter.plot_signal", "exorad/utils/plotter.py:Plotter.plot_noise", "exorad/utils/plotter.py:Plotter.plot_bands", "exorad/utils/plotter.py:Plotter.plot_table"]}
{"id": "C86", "title": "The plot command draws the selected targets and touches nothing else", "statement": "The plot command selects targets by number or range (positions in the alphabetical list of targets, negative ones from the end) or by name; both together are refused. It draws the selected targets one after the other from the table the run stored at targets/<name>/table/table, each into <name>.png, up to the first that cannot be drawn, where it raises: the figures before it are complete. At every moment every other file, the input in particular, is what it was. An input that is not HDF5, a file without targets, a number out of range or not a number each raise their own exception and nothing is written; a name that is not in the file gives no figure and no error. After a run that saved all its targets the command with default arguments draws every one of them.", "quantifier": "all files, arguments, orders of sets, readers of tables; every state of the disk during the command", "why_tests_cant": "files, selections and failure points are unbounded", "anchors": ["exorad/utils/plotter.py:main", "exorad/utils/util.py:parse_range", "exorad/exorad.py:standard_pipeline"]}
{"id": "C87", "title": "A figure is determined by its table", "statement": "Drawing the same table again, in any process, gives the same title, the same curves, the same bands and the same ticks. (As stated it is false: the last tick depends on the order of a set.)", "quantifier": "all tables and all pairs of orders in which Python may go through the set of channel names", "why_tests_cant": "the order of a set of strings depends on the hash seed of the process; a test sees one order", "anchors": ["exorad/utils/plotter.py:Plotter.plot_bands", "exorad/utils/plotter.py:Plotter.plot_table"]}
{"id": "C88", "title": "The efficiency figure shows transmission, quantum efficiency and their product", "statement": "For every channel the efficiency figure shows the transmission and the quantum efficiency as built and, on the grid of the transmission, their product; with both between 0 and 1 the product is between 0 and the transmission. For a built payload with channels the figure is always drawn, if each channel has an element that emits or a quantum efficiency with data where its detector works.", "quantifier": "all built channels, grids and payloads", "why_tests_cant": "grids of transmission and quantum efficiency are arbitrary", "anchors": ["exorad/utils/plotter.py:Plotter.plot_efficiency", "exorad/exorad.py:efficiency_plot", "exorad/models/signal.py:Signal.spectral_rebin"]}
{"id": "C89", "title": "A length may be written in any unit", "statement": "A channel whose description gives a length in another unit than microns (the detector's range, the size of its pixels, the coordinates of the wavelength solution) is built as if the same length were given in microns: same table, same emission of the optics, same signals. (As stated it is false: units scale the light of photometers, the bandwidths and the detector range, as the theorems say.)", "quantifier": "all descriptions, all units of length, independently for each of the three lengths", "why_tests_cant": "units and lengths are arbitrary; the values that go wrong depend on which code path drops the unit", "anchors": ["exorad/models/instruments/instrument.py:Instrument.build_optical_path", "exorad/models/instruments/spectrometer.py:Spectrometer.builder", "exorad/models/instruments/photometer.py:Photometer._windows_size", "exorad/utils/diffuse_light_propagation.py:integrate_light"]}
{"id": "C90", "title": "A log file holds every message of the run once", "statement": "A run asked for a log file leaves in it, after what the file held, every message logged during the run from level DEBUG on, once and in order, whatever level the screen is set to and however the targets end; without a log file no file is touched; if the file cannot be opened the run stops before anything is read or written. (As stated it is false: the first two lines of the run are never in the file, and if the file was asked for before in the same process every line is written once more per earlier request.)", "quantifier": "all histories of messages, level changes and added files; all runs, payload messages, target lists, targets that fail or not, log arguments, earlier runs in the same process", "why_tests_cant": "a test reads one file after one run; it cannot cover all histories of levels and handlers of a process", "anchors": ["exorad/log/__init__.py:addLogFile", "exorad/log/__init__.py:setLogLevel", "exorad/log/logger.py:Logger", "exorad/exorad.py:standard_pipeline"]}
{"id": "C91", "title": "The screen shows progress, errors and every skipped target", "statement": "After any history a message is shown exactly if its level is at least the last level set and the process is the first one or the message an ERROR; a run without debug shows for each target, in order, that it is observed, its errors and nothing else of the observation, and for every target skipped a line with its name; other processes of an MPI run show errors only", "quantifier": "all histories of messages and levels, ranks, target lists and outcomes", "why_tests_cant": "the screen depends on the whole history of levels; tests see one run with one list", "anchors": ["exorad/log/logger.py:ExoRadHandler.emit", "exorad/log/__init__.py:disableLogging", "exorad/log/__init__.py:enableLogging", "exorad/tasks/targetHandler.py:pipeline_to_dict"]}
{"id": "C92", "title": "With debug every message is shown", "statement": "A run with debug shows every message from level DEBUG on. (As stated it is false: after the first target the level is INFO, so the debugging messages of all other targets and of the saving are hidden.)", "quantifier": "all runs with debug, target lists, outcomes of the targets", "why_tests_cant": "a test with one target sees all messages; the loss appears only with a second target", "anchors": ["exorad/exorad.py:standard_pipeline", "exorad/tasks/targetHandler.py:pipeline_to_dict", "exorad/log/__init__.py:enableLogging"]}
{"id": "C93", "title": "The command line makes the call it describes", "statement": "exorad calls the pipeline exactly for command lines made of its options (short or long, unique beginnings, values in the next word, after = or glued, clusters of flags) that name a payload and a target list, with the last value of each option or its default; the order of options does not matter; old output is always replaced, the log file is always exorad.log; every other command line ends the process with a usage error before anything is done; the same for exorad-plot", "quantifier": "all command lines (lists of words), all interpretations of integers", "why_tests_cant": "there are infinitely many command lines; a test checks a few", "anchors": ["exorad/exorad.py:main", "exorad/utils/plotter.py:main"]}
{"id": "C94", "title": "The number of threads does not change the results on any platform", "statement": "Observing a target list with several worker processes gives the results of one process, however workers are started. (As stated it is false: workers that are new interpreters (spawn, forkserver) do not see the working resolution of the payload; they observe with 6000, so the results are the same exactly when the payload declares 6000.)", "quantifier": "all payloads, channels, target lists, numbers of workers, schedules, ways of starting workers, working resolutions", "why_tests_cant": "tests run on one platform with one way of starting processes and seldom with another working resolution", "anchors": ["exorad/tasks/targetHandler.py:ObserveTargetlist", "exorad/utils/passVal.py:PassVal", "exorad/tasks/loadOptions.py:LoadOptions", "exorad/tasks/loadSource.py:LoadSource"]}
{"id": "C95", "title": "The log of several processes", "statement": "The log file of a run with several workers holds the lines of the run with one process, each once, for every schedule; the lines of one target stay in order; the screen shows for each target when it starts and whether it failed. (As stated it is false: workers that are new interpreters have no file handler, so the file gets no line about the observation of any target.)", "quantifier": "all target lists, outcomes, messages, numbers of workers, assignments of targets to workers, interleavings, ways of starting workers", "why_tests_cant": "the interleaving is up to the scheduler; tests see one", "anchors": ["exorad/log/__init__.py:addLogFile", "exorad/log/logger.py:ExoRadHandler", "exorad/tasks/targetHandler.py:ObserveTargetlist"]}
{"id": "C96", "title": "Importing the package does not depend on the network or the repository", "statement": "import exorad succeeds whatever the network answers and wherever the package lies, warns exactly if the online changelog names another version first, and records branch and commit of the repository around it. (As stated it is false: it succeeds exactly when the .git next to it is absent or a directory with a readable HEAD, and either 8.8.8.8:53 is unreachable or the package URL has a slash and the request gives another status than 200 or ASCII text in base 64; a blocked request or one accented letter in the online changelog makes the import raise. It always sets the default timeout of all sockets of the process to 3 s.)", "quantifier": "all git directories, networks, package URLs, versions, changelogs", "why_tests_cant": "tests import with one network and one checkout", "anchors": ["exorad/__init__.py", "exorad/utils/version_control.py:VersionControl"]}
{"id": "C97", "title": "The signal is proportional to the light of the star", "statement": "Observing two targets with the same payload whose stars differ only in the amount of light (the spectral energy distribution of the second is c > 0 times that of the first, as for the same star at another distance, where c = 1/k\u00b2 for k times the distance) gives result tables in which starFlux, starSignal, star_signal_inAperture and star_MaxSignal_inPixel of the second are exactly c times those of the first in every row, and every other column that is not a noise column, frameTime, saturation_time or MaxSignal_inPixel is identical; the maximum signal grows by (c-1) times the star's maximum. If the first observation can be made, so can the second.", "quantifier": "every payload with any number of photometers and spectrometers, foregrounds, source models and detector options for which the first observation can be made; every c > 0 and every distance", "why_tests_cant": "the scaling must hold through rebinning, the PRF, the windows, the integration and the stacking of all channels, for every grid and spectrum; a unit test compares a few stars", "anchors": ["exorad/models/source.py:Star", "exorad/models/instruments/photometer.py:propagate_target", "exorad/models/instruments/spectrometer.py:propagate_target", "exorad/tasks/propagateLight.py:PropagateTargetLight"]}
{"id": "C98", "title": "A brighter star has a smaller relative noise", "statement": "Observing two targets with the same payload, the second star with c >= 1 times the light of the first: the frame time of every channel is not longer and not shorter than 1/c of the first, and the relative total noise of every row with signal is not greater. (As stated it is false: with read noise, a star 2.5 % nearer can lose a read of the ramp and get a greater relative noise. It holds without read noise or with a given frame time; otherwise the noise grows by at most a factor of sqrt(5/4).)", "quantifier": "every payload and pair of targets as in C97 with c >= 1, every row of every channel", "why_tests_cant": "the frame time, the number of reads and all noise contributions change together, with the integer number of reads jumping; the claim ranges over all brightnesses", "anchors": ["exorad/tasks/noiseHandler.py:EstimateNoise", "exorad/models/noise.py", "exorad/models/instruments/photometer.py:propagate_target", "exorad/models/instruments/spectrometer.py:propagate_target"]}
{"id": "C99", "title": "Times, counts and rates of a detector may be written in any unit", "statement": "The noise columns of a channel do not depend on the units in which the payload writes the detector's frame time, well depth, fraction of the well and rate of reads. (As stated it is false: the number of reads in a frame is rounded in the unit of frame time times rate, so 0.5 min at 1 Hz counts no read and falls back to two where 30 s counts 30. It holds when the two units are inverse of each other; otherwise, for units whose product is a whole number k, the reads are rounded down to a multiple of k, the total noise is at most a tenth lower, and not higher when there is no read noise.)", "quantifier": "all target tables, channel descriptions and units of the four options", "why_tests_cant": "unit tests use one set of units", "anchors": ["exorad/models/noise.py:multiaccum", "exorad/models/noise.py:frame_time", "exorad/tasks/noiseHandler.py:EstimateNoiseInChannel"]}
{"id": "C100", "title": "A channel uses the point spread function its payload names", "statement": "A built channel's pixel response, the share of light in its brightest pixel and its gains come from the PSF its payload names: the image of the FITS file, of the file of the directory whose wavelength is nearest, of the PAOS file, or the diffraction pattern if no PSF is named; a PSF that cannot be used stops the build. (As stated it is false: a PSF file that is not there, with neither of the formats pixel_based and paos, is silently replaced by the diffraction pattern.)", "quantifier": "every channel description, PSF entry, file state, wavelength and loop bound", "why_tests_cant": "Tests use one or two PSF files that exist; the property is about every kind of entry and of file, and says which image reaches every derived number.", "anchors": ["exorad/models/instruments/photometer.py", "exorad/models/instruments/spectrometer.py", "exorad/utils/exolib.py"]}
{"id": "C101", "title": "The order of settings and unknown settings do not matter", "statement": "Loading a payload file and building its channels gives the same descriptions, working grids and channels whatever the order in which the settings are written, at any level of nesting, and whatever additional settings or attributes with names the code does not know are in the file. (As stated it is false: ConfigPath must come before the settings that use it, settings that are repeated under one name keep their order, of two working_R the last one counts, and an unknown setting can still make the file unreadable. What holds is proved for all files: after any first settings, the other settings can be reordered, and unknown ones left out, without any change of what is read and built.)", "quantifier": "all XML payload documents, all reorderings and omissions at all depths, all states of the process, all data files", "why_tests_cant": "there are as many orders as permutations of nested sections; tests load a handful of files, in one order", "anchors": ["exorad/tasks/loadOptions.py:LoadOptions.__parser__", "exorad/tasks/instrumentHandler.py:BuildChannels", "exorad/models/instruments/instrument.py:Instrument", "exorad/models/optics/opticalElement.py:OpticalElement", "exorad/models/noise.py"]}
{"id": "C102", "title": "Complete descriptions of a payload and of a target lead to a result", "statement": "If every description of a payload's channels is complete and sound and lies within the payload's wavelength range, the payload is built; every target with a positive temperature whose foregrounds can be estimated, whose star can be loaded, and from which every channel gets some light, is observed without an exception, and its table has at least one row for every channel and no others, and in every row a positive frame time and a total noise whose square is the sum of the variances. For a black body at a distance the star can always be loaded, and all that is left to ask is that every channel is sensitive somewhere in its band.", "quantifier": "all sets of channel descriptions, foreground sections, source sections, targets, wavelength ranges and resolutions", "why_tests_cant": "It says that no exception can happen anywhere between the payload's description and the result; a test can only run payloads that somebody wrote, and these are the ones that work.", "anchors": ["exorad/tasks/instrumentHandler.py:BuildInstrument", "exorad/tasks/targetHandler.py:EstimateForegrounds", "exorad/tasks/loadSource.py:LoadSource", "exorad/tasks/propagateLight.py", "exorad/tasks/noiseHandler.py:EstimateNoise"]}
{"id": "C103", "title": "A channel detects a star where all its parts let light through", "statement": "A photometer whose image of a star has light, or a spectrometer with a pixel inside one of its bins and with positive gain, detects a star (the largest signal in a pixel is positive for some bin) if around some point of the working grid (for a spectrometer: around the points around the pixel) the quantum efficiency, all optical elements, the foregrounds and the star are positive and the point is in the band. A black body with positive temperature and radius at a distance is positive at all inner points of the grid.", "quantifier": "all channels, efficiency curves, optical paths, foregrounds, spectra and grids", "why_tests_cant": "It holds for every sampling of the four curves relative to each other; rebinning could lose the light for samplings nobody tests.", "anchors": ["exorad/models/instruments/photometer.py:Photometer.propagate_target", "exorad/models/instruments/spectrometer.py:Spectrometer.propagate_target", "exorad/models/instruments/instrument.py:Instrument", "exorad/models/signal.py:Signal.spectral_rebin", "exorad/utils/exolib.py:rebin"]}
{"id": "C104", "title": "What the catalogue must give of a star when the payload has its own spectrum", "statement": "With a custom source spectrum only the radius and the distance of a star are needed: a target whose catalogue gives these is observed. (As stated it is false: the metadata of the result need the name, the mass, the temperature, the radius and the distance of the star, whatever the source; a target without one of them is skipped, at every place of a list and after every history, although no number of its result depends on them.)", "quantifier": "every payload, target, set of catalogue columns, state of the channels' tables, list of targets", "why_tests_cant": "A test would need every combination of missing columns and sources; the failure is an exception that the target loop swallows, so the run ends without an error.", "anchors": ["exorad/tasks/loadSource.py: LoadSource.execute, _add_star_metadata", "exorad/tasks/targetHandler.py: ObserveTarget, pipeline_to_dict", "exorad/models/target.py: Target"]}
{"id": "C105", "title": "The metadata of every result are its own", "statement": "The metadata stored with the table of a target (its name, the version of the package, the name, mass, temperature, radius, distance, luminosity, model and K magnitude of its star) are those of this target, and there is a K magnitude only if the target has one, whatever targets were observed before it in the run and whether those succeeded.", "quantifier": "every payload (also with one channel, whose table object the targets share), every list of targets and every history of failures", "why_tests_cant": "The table of a target may be the table object of a channel for a while, so what one target writes in it could show up in the next one's; a test sees one list, one number of channels.", "anchors": ["exorad/tasks/targetHandler.py: PrepareTarget.add_metadata, UpdateTargetTable, pipeline_to_dict", "exorad/tasks/loadSource.py: _add_star_metadata", "exorad/utils/util.py: vstack_tables"]}
{"id": "C106", "title": "From the input files to the output file: every listed star's table, with its noise budget, is in the file", "statement": "standard_pipeline, run without figures on a payload XML file of channels that can be built and a csv target list with distinct names, each of whose stars can be observed alone with those channels: the run ends without an exception and the output HDF5 file contains, for every row of the list, under targets/<name>/table, exactly the columns, with exactly the contents, that observing that star alone with the channels gives (only the column sky TR may depend on earlier targets), whatever the number of processes and the order in which they finish. If the channels are complete and sound and the stars are black bodies (temperature positive, distance and radius not zero), every hypothesis about building and observing holds, and every saved table has the noise budget of every channel.", "quantifier": "all payload documents, target lists (any number of rows), file systems, schedules, process start methods and process counts satisfying the stated conditions", "why_tests_cant": "the run composes the XML parser, the builder, the list reader, a process pool, the observation and the HDF5 writer over unbounded lists of channels, foregrounds, noises and targets; a test runs a few inputs on one schedule", "anchors": ["exorad/exorad.py:standard_pipeline", "exorad/tasks/loadOptions.py:LoadOptions", "exorad/tasks/targetHandler.py:LoadTargetList", "exorad/tasks/instrumentHandler.py:BuildChannels", "exorad/tasks/targetHandler.py:ObserveTargetlist", "exorad/models/target.py:Target.write", "exorad/output/hdf5/hdf5.py:HDF5Output"]}
{"id": "C107", "title": "Which payload entry every setting comes from", "statement": "Reading a payload file, every setting of the instrument comes from the one entry documented for it and from no other: an optical element's reflectivity from its `reflectivity` entry, its wavelength edges from `wl_min` and `wl_max` in micrometres, its temperature in kelvin and solid angle in steradian, the detector's well depth, frame time, number of reads and dark current from the entries of those names, the custom noise, the quantum efficiency, the PSF, the aperture, the resolution, the foregrounds, the source and the wavelength range likewise; an absent optional entry leaves the setting unset, and several elements, foregrounds, custom noises or channels are all read, in their order, under their names.", "quantifier": "every parsed payload (any nesting, any extra entries), every setting of every section, every table the payload's files hold", "why_tests_cant": "A test reads one payload; that no setting is taken from a neighbouring entry, and that none of several repeated sections is lost or reordered, is a statement about every payload.", "anchors": ["exorad/tasks/instrumentHandler.py: BuildChannels, BuildInstrument", "exorad/models/optics/opticalElement.py: OpticalElement", "exorad/models/noise.py", "exorad/models/instruments/photometer.py", "exorad/models/instruments/spectrometer.py", "exorad/tasks/foregroundHandler.py", "exorad/tasks/loadSource.py"]}
{"id": "C108", "title": "The command `exorad`, with and without `-c`, end to end", "statement": "Any argument list that is not a spelling of the options of `exorad` with a payload and a target list ends the process with SystemExit before any file is touched. For any argument list that names a payload, a csv list of targets and an output (in any order, with repeated options, long or short names, with or without -c, -n, -d, -l, without -P), whose payload describes complete, sound channels and whose targets are stars every channel is aimed at, the process ends without an exception and the output file holds, for every target, a table with the noise budget of every channel. With -c that table has one column for the light of every element that emits and no `instrument_signal`. Of two runs that differ in -c only, the tables of a target agree in every column except those of the contributions, and `instrument_signal` of the one is, bin by bin, the sum of the contributions in the other.", "quantifier": "every argument list, every file system, every payload description with any number of channels, elements and foregrounds, every list of stars, every number of processes and every schedule", "why_tests_cant": "Parsing, loading, building, observing, splitting, collecting and writing have all to be composed for every spelling of the command line and every payload; a test runs one command on one payload.", "anchors": ["exorad/exorad.py: main (124-209)", "exorad/exorad.py: standard_pipeline (39-121)", "exorad/tasks/targetHandler.py", "exorad/tasks/foregroundHandler.py", "exorad/tasks/propagateLight.py", "exorad/models/optics/opticalPath.py"]}
{"id": "C109", "title": "`exorad -P` and `exorad-plot`, from the command line to the figures", "statement": "A call of `exorad` naming an XML payload file, a CSV target list and an output file, with `-P`, ends without an exception and leaves the same files as the same call without `-P`, and besides them `efficiency.png` and one figure per target, each in the output file's directory and named after the target (when the output's name does not end with `.png` and Matplotlib succeeds). `exorad-plot` called on the file a run wrote draws every target of the run once, in alphabetical order, from the columns in that file, and changes no file but the figures. A command line `exorad-plot` does not accept ends with SystemExit and touches no file.", "quantifier": "all command lines giving the three files and any of the other flags in any spelling the parser accepts, all number and order of targets, channels and foregrounds, all worker counts and schedules, all disks before the call", "why_tests_cant": "it joins the command line, the parsers, the pool, the file format and the plotter over unbounded lists and every schedule; no finite set of runs covers them", "anchors": ["exorad/exorad.py: main, standard_pipeline", "exorad/utils/plotter.py: main, Plotter", "exorad/tasks/loadOptions.py: LoadOptions", "exorad/models/instruments/instrument.py: Instrument"]}
{"id": "C110", "title": "Tables read back from the output file", "statement": "A table written to the output file reads back with the same columns in the same order, the same values and units, and the same metadata. (As stated it is false: a column that was a quantity comes back as a plain column with a unit, without any unit if it was dimensionless; text comes back as bytes; the metadata come back only if some column was a quantity, so that a table that was read and is stored again loses them; a table without columns cannot be written.)", "quantifier": "every table: any number of columns, rows and metadata, every mixture of plain and quantity columns", "why_tests_cant": "The loss depends on the kinds of the columns; every table, and every number of times it is stored.", "anchors": ["exorad/output/hdf5/hdf5.py:HDF5OutputGroup.write_table", "exorad/output/hdf5/hdf5.py:_encode_mixins", "exorad/output/hdf5/util.py:load_table"]}
{"id": "C111", "title": "A signal keeps the quantities it is given, in its own units", "statement": "Constructing a Signal, CustomSignal, Sed, Radiance, CountsPerSeconds or Noise from wavelengths, data and times given in any units of length, of what the class holds and of time succeeds exactly when the sizes agree, and the attributes then hold the same physical quantities in microns, the unit of the class and hours; numbers without a unit are taken in those units; arguments of another dimension are refused with a ValueError (UnitConversionError), so no class takes the data of another; writing the arguments in other units changes nothing. A signal is only rebinned onto grids in microns: every other grid is refused and after any sequence of rebinnings the arrays agree and unit and times are kept. A spectrum of a star read from a file, with a radius and a distance in any units, is the spectrum and luminosity of the same values in the standard units.", "quantifier": "every class, every array of every shape, every unit, every sequence of rebinnings", "why_tests_cant": "Tests construct a few signals in two or three units; the claim is about every unit, shape and history.", "anchors": ["exorad/models/signal.py:Signal", "exorad/models/signal.py:CustomSignal", "exorad/models/signal.py:Sed", "exorad/models/signal.py:Radiance", "exorad/models/signal.py:CountsPerSeconds", "exorad/models/noise.py:Noise", "exorad/models/source.py:CustomSed", "exorad/utils/exolib.py:rebin"]}
{"id": "C112", "title": "The wavelength range of the payload may be written in any unit", "statement": "A run whose payload gives the common wl_min and wl_max in any units of length (the two may differ) observes the stars as if the same range were given in microns. (As stated it is false: with the upper end in another unit every target is skipped; with only the lower end in another unit the targets are observed with a star whose spectrum is 0 at every point but one, without an error.)", "quantifier": "every unit of either end, every source, every star, every payload and target list", "why_tests_cant": "The test payloads give the range in microns; the claim is about every unit.", "anchors": ["exorad/tasks/loadSource.py:LoadSource", "exorad/tasks/targetHandler.py:ObserveTarget", "exorad/utils/exolib.py:rebin", "exorad/tasks/instrumentHandler.py:PreparePayload"]}
{"id": "C113", "title": "Missing wavelengths are ignored by rebinning", "statement": "Rebinning a signal gives the result it would have without the points whose wavelength is NaN, whether the NaN is in the grid of the signal or in the new grid. (As stated it is false: a NaN in the new grid is an error.)", "quantifier": "every signal and every new grid, with NaN anywhere in either of them", "why_tests_cant": "The NaN can stand at any position of either grid and changes the window, which is computed before any NaN is removed.", "anchors": ["exorad/utils/exolib.py:rebin", "exorad/models/signal.py:Signal.spectral_rebin"]}
{"id": "C114", "title": "A signal that varies in time is rebinned in wavelength at every time", "statement": "Rebinning a signal with a wavelength and a time axis gives, at every time, the rebinning of the values of that time. (As stated it is false: the call fails or works along the time axis.)", "quantifier": "every signal with two axes, any number of wavelengths and times, every new grid", "why_tests_cant": "Whether the call fails, and along which axis it works, depends on the two sizes and on which samples fall into the window.", "anchors": ["exorad/utils/exolib.py:rebin", "exorad/models/signal.py:Signal.spectral_rebin"]}
{"id": "C115", "title": "Data tables may be written in any unit", "statement": "The transmission, reflectivity, emissivity, quantum efficiency or foreground a payload's data file describes is the one used, in whatever unit the file declares for its wavelengths (and radiances). (As stated it is false: optical elements ignore the unit of the wavelength column and read the numbers as microns, so that a table in nanometres makes an element opaque and the channel blind, without an error; so does the quantum efficiency unless the column is an astropy Quantity. Foreground tables are converted.)", "quantifier": "every data table, column unit, wavelength grid, element, channel and foreground", "why_tests_cant": "the defect needs a unit other than microns, which no packaged payload uses, and its result is a valid table of zeros", "anchors": ["exorad/tasks/loadOptions.py: __read_datatable__", "exorad/models/optics/opticalElement.py: _get_transmission, _get_emissivity", "exorad/models/instruments/instrument.py: _get_qe", "exorad/models/foregrounds/skyForegrounds.py: _get_radiance", "exorad/models/signal.py: check_quantities"]}
{"id": "C116", "title": "The name of a target may be any text", "statement": "The results of every target are stored under its name, apart from those of the other targets, and the plot command finds the target by it. (As stated it is false for names with a slash: the name is taken for a path. The target is stored in nested groups, by which it can be read, but it is never listed; asked for it, the plot command draws nothing and reports no error; a plot of all targets ends with an error at the first component of the name; the entry appears among the results of a target called like the first component; a name that begins with a slash is stored outside the targets.)", "quantifier": "every target name, contents of a target, earlier contents of the output file and sequence of targets", "why_tests_cant": "names with a slash are legal in target lists (binary stars are often listed like that) but no packaged list has one, and the run itself succeeds", "anchors": ["exorad/models/target.py: write", "exorad/output/output.py: store_dictionary", "exorad/output/hdf5/hdf5.py: create_group", "exorad/utils/plotter.py: main"]}
{"id": "C117", "title": "The integrating rebinning keeps the integral", "statement": "Rebinning to a coarser grid with exolib.rebin_ keeps the area below the samples: each new value times the width of its bin is the area in the bin, so the sum over a grid of constant step is the area over the grid, values stay between the smallest and the largest sample and constants are reproduced; on a finer grid the new values are on the lines between the samples and 0 outside. (As stated it is false: a bin that reaches beyond the last sample gets minus the area of everything before it; a bin that begins between the first and the second sample gets the area from the first sample on; and on a grid without constant step the bins overlap.)", "quantifier": "every grid, every increasing list of samples, every bin", "why_tests_cant": "the defects need particular positions of the grid between the samples; sums agree on samples that are much finer than the grid", "anchors": ["exorad/utils/exolib.py: rebin_"]}
{"id": "C118", "title": "What is scattered to the processes can be gathered again", "statement": "In a group of MPI processes, scatter gives every process its piece of the list and gather returns the pieces in order to the root; a list with the wrong number of pieces is a ValueError in every process, and without MPI there is one process. (As stated it is false: with more pieces than processes the root raises and the others wait forever; processes that pass None, as they do in MPI, end with a TypeError; without mpi4py both functions are an ImportError.)", "quantifier": "every number of processes, list, root and argument of each process", "why_tests_cant": "a test runs in one process; waiting forever cannot be observed", "anchors": ["exorad/utils/mpi.py: nprocs, get_rank, scatter, gather"]}
{"id": "C119", "title": "The name of a channel may be any text", "statement": "A payload that has been built and saved can be loaded again, whatever the names of its channels. (As stated it is false for names with a slash: the group of the channel is nested in a group called like the first component, and loading the payload ends with an error there.)", "quantifier": "every list of channels, names and contents, every file with the channels of the payload in it", "why_tests_cant": "building and saving succeed; only a later run that loads the payload from the output fails", "anchors": ["exorad/models/instruments/instrument.py: write", "exorad/output/hdf5/hdf5.py: create_group", "exorad/tasks/instrumentHandler.py: BuildChannels, LoadPayload"]}
