{
 "claims": [
  {
   "property": "C01",
   "status": "proved",
   "theorems": [
    "ExoRad.Pipeline.observation_budget",
    "ExoRad.estimate_noise_target",
    "ExoRad.frame_time_safe",
    "ExoRad.frame_time_empty"
   ],
   "note": "frame time, saturation time, all channels sizes; empty channel raises"
  },
  {
   "property": "C02",
   "status": "proved",
   "theorems": [
    "ExoRad.multiaccum_gains",
    "ExoRad.multiaccum_monotone",
    "ExoRad.multiaccum_zero_time"
   ],
   "note": "over the reals"
  },
  {
   "property": "C03",
   "status": "proved",
   "theorems": [
    "ExoRad.multiaccumM_only_read"
   ],
   "note": ""
  },
  {
   "property": "C04",
   "status": "proved",
   "theorems": [
    "ExoRad.estimate_noise_target",
    "ExoRad.photon_noise_columns",
    "ExoRad.signal_names"
   ],
   "note": ""
  },
  {
   "property": "C05",
   "status": "proved",
   "theorems": [
    "ExoRad.photon_variance_split",
    "ExoRad.estimate_explicit",
    "ExoRad.noise_split"
   ],
   "note": ""
  },
  {
   "property": "C06",
   "status": "proved",
   "theorems": [
    "ExoRad.Pipeline.observation_budget",
    "ExoRad.Pipeline.Demo.demo_budget",
    "ExoRad.estimate_noise_target",
    "ExoRad.total_noise_quadrature",
    "ExoRad.custom_named_total_overwrites",
    "ExoRad.Num.add_eq_nan_iff",
    "ExoRad.Num.add_eq_posInf_iff",
    "ExoRad.Num.mul_eq_nan_iff",
    "ExoRad.Num.div_eq_nan_iff",
    "ExoRad.Num.lt_rules",
    "ExoRad.Num.min2_rules",
    "ExoRad.Num.sqrt_rules"
   ],
   "note": "custom noise named 'total' overwrites the total: shown separately"
  },
  {
   "property": "C07",
   "status": "proved",
   "theorems": [
    "ExoRad.total_noise_monotone",
    "ExoRad.total_noise_at_least",
    "ExoRad.custom_noise_order",
    "ExoRad.brighter_background_less_noise"
   ],
   "note": "at a fixed frame time; brighter_background_less_noise shows that this condition is needed"
  },
  {
   "property": "C08",
   "status": "partial",
   "theorems": [
    "ExoRad.Again.custom_columns_partial",
    "ExoRad.Again.customs_column",
    "ExoRad.Again.stored_written",
    "ExoRad.custom_missing_name_drops_rest",
    "ExoRad.Options.same_value_custom_noise_lost",
    "ExoRad.total_noise_quadrature"
   ],
   "note": "the claim is false of the code: an entry without a name silently drops the rest of its section, and two entries with the same value overwrite each other in the parser (both proved); for complete entries with distinct names custom_columns_partial proves both halves of it"
  },
  {
   "property": "C09",
   "status": "partial",
   "theorems": [
    "ExoRad.Again.estimate_again_fails",
    "ExoRad.Again.estimate_rates",
    "ExoRad.Again.units_after",
    "ExoRad.Again.demo_again",
    "ExoRad.Table.estimate_max_signal_twice_doubles",
    "ExoRad.Table.estimate_max_signal_partial"
   ],
   "note": "false of the code: a second run adds MaxSignal_inPixel to itself and then never succeeds, because the columns <signal>_noise are taken for signals and have another unit (estimate_again_fails, with units); the first estimate is that of Model/Noise when all signal columns are rates (estimate_rates)"
  },
  {
   "property": "C10",
   "status": "proved",
   "theorems": [
    "ExoRad.Table.vstack_tables_complete",
    "ExoRad.Table.vstack_empty_later"
   ],
   "note": ""
  },
  {
   "property": "C11",
   "status": "proved",
   "theorems": [
    "ExoRad.Table.update_spec",
    "ExoRad.Table.update_idempotent",
    "ExoRad.Table.update_history",
    "ExoRad.Table.update_commute"
   ],
   "note": ""
  },
  {
   "property": "C12",
   "status": "proved",
   "theorems": [
    "ExoRad.Table.estimate_max_signal",
    "ExoRad.estimate_noise_target"
   ],
   "note": ""
  },
  {
   "property": "C13",
   "status": "proved",
   "theorems": [
    "ExoRad.call_unknown_keyword",
    "ExoRad.call_declared",
    "ExoRad.call_no_params",
    "ExoRad.addTaskParam_get"
   ],
   "note": ""
  },
  {
   "property": "C14",
   "status": "partial",
   "theorems": [
    "ExoRad.call_own_product_partial",
    "ExoRad.call_stale_output"
   ],
   "note": "false of the code for bodies that do not set an output: the previous product is returned"
  },
  {
   "property": "C15",
   "status": "proved",
   "theorems": [
    "ExoRad.Options.option_typing",
    "ExoRad.Options.option_unit",
    "ExoRad.Options.option_unit_not_text",
    "ExoRad.Options.compactString_clean",
    "ExoRad.Options.option_no_text"
   ],
   "note": "an element with no text at all raises AttributeError"
  },
  {
   "property": "C16",
   "status": "proved",
   "theorems": [
    "ExoRad.Options.repeated_tags",
    "ExoRad.Options.key_eq_iff",
    "ExoRad.Options.parsed_value_key"
   ],
   "note": "for sections that include no other file"
  },
  {
   "property": "C17",
   "status": "partial",
   "theorems": [
    "ExoRad.Options.load_working_R_partial",
    "ExoRad.Options.working_R_leaks",
    "ExoRad.Options.declared_working_R_partial",
    "ExoRad.Options.working_R_leak_witness"
   ],
   "note": "false of the code: the resolution of an earlier payload leaks into one that declares none"
  },
  {
   "property": "C18",
   "status": "proved",
   "theorems": [
    "ExoRad.Options.config_path_substituted",
    "ExoRad.Options.config_path_after",
    "ExoRad.Options.config_path_first_value"
   ],
   "note": ""
  },
  {
   "property": "C24",
   "status": "proved",
   "theorems": [
    "ExoRad.Hdf5.store_load_roundtrip",
    "ExoRad.Hdf5.value_without_unit_loses_unit",
    "ExoRad.Hdf5.unknown_unit_unreadable"
   ],
   "note": "for dictionaries the format can represent (Storable); what is excluded is shown not to survive"
  },
  {
   "property": "C25",
   "status": "proved",
   "theorems": [
    "ExoRad.Hdf5.writes_keep_everything",
    "ExoRad.Hdf5.colliding_write_raises",
    "ExoRad.Hdf5.save_no_type_error",
    "ExoRad.Hdf5.save_unsupported",
    "ExoRad.Hdf5.save_empty_dict"
   ],
   "note": ""
  },
  {
   "property": "C26",
   "status": "proved",
   "theorems": [
    "ExoRad.Rebin.rebin_bounds",
    "ExoRad.Rebin.spectralRebin_bounds"
   ],
   "note": "exact arithmetic"
  },
  {
   "property": "C27",
   "status": "proved",
   "theorems": [
    "ExoRad.Rebin.rebin_linear",
    "ExoRad.Rebin.spectralRebin_linear"
   ],
   "note": ""
  },
  {
   "property": "C28",
   "status": "partial",
   "theorems": [
    "ExoRad.Rebin.rebin_constant_partial",
    "ExoRad.Rebin.rebin_interpolating",
    "ExoRad.Rebin.rebin_averaging",
    "ExoRad.Rebin.rebin_constant_iff",
    "ExoRad.Rebin.rebin_constant_lost",
    "ExoRad.Rebin.rebin_constant_raises",
    "ExoRad.Rebin.rebin_end_bin_lost",
    "ExoRad.Rebin.rebin_decreasing_lost"
   ],
   "note": "false of the code for points next to samples dropped by the 0.9/1.1 window, for the end bins and for decreasing input grids (witnesses); proved for increasing grids between samples that count"
  },
  {
   "property": "C29",
   "status": "proved",
   "theorems": [
    "ExoRad.Rebin.spectralRebin_outside",
    "ExoRad.Rebin.rebin_interpolating",
    "ExoRad.Rebin.rebin_averaging"
   ],
   "note": "increasing grids"
  },
  {
   "property": "C30",
   "status": "partial",
   "theorems": [
    "ExoRad.Rebin.checkSizes_iff",
    "ExoRad.Rebin.checkSizes_mismatch",
    "ExoRad.Rebin.checkSizes_time_indexError",
    "ExoRad.Rebin.mk?_ok",
    "ExoRad.Rebin.rebinAll_wellFormed",
    "ExoRad.Rebin.spectralRebin_repeated_point"
   ],
   "note": "false of the code for grids with repeated points (witness); a time mismatch of 1-D data raises IndexError instead of ValueError"
  },
  {
   "property": "C57",
   "status": "proved",
   "theorems": [
    "ExoRad.Misc.version_message"
   ],
   "note": ""
  },
  {
   "property": "C58",
   "status": "proved",
   "theorems": [
    "ExoRad.Misc.parse_range_spec",
    "ExoRad.Misc.parse_range_blanks",
    "ExoRad.Misc.strip_spec"
   ],
   "note": ""
  },
  {
   "property": "C59",
   "status": "proved",
   "theorems": [
    "ExoRad.Misc.chunks_partition",
    "ExoRad.Misc.chunks_bad_size"
   ],
   "note": ""
  },
  {
   "property": "C60",
   "status": "proved",
   "theorems": [
    "ExoRad.Misc.to_dict_no_internals",
    "ExoRad.Misc.to_dict_attributes",
    "ExoRad.Misc.to_dict_dict"
   ],
   "note": ""
  },
  {
   "property": "C61",
   "status": "partial",
   "theorems": [
    "ExoRad.Misc.wl_col_name_explicit_fails",
    "ExoRad.Misc.wl_col_name_missing",
    "ExoRad.Misc.wl_col_name_partial"
   ],
   "note": "false of the code: an explicit name raises UnboundLocalError and a table without wavelength column gives None"
  },
  {
   "property": "C31",
   "status": "proved",
   "theorems": [
    "ExoRad.Optics.transmission_bounds",
    "ExoRad.Optics.total_transmission",
    "ExoRad.Optics.total_transmission_perm",
    "ExoRad.Optics.total_transmission_bounds",
    "ExoRad.Optics.demo_optics"
   ],
   "note": ""
  },
  {
   "property": "C32",
   "status": "proved",
   "theorems": [
    "ExoRad.Optics.chain_radiance",
    "ExoRad.Optics.chain_names",
    "ExoRad.Optics.chain_upstream",
    "ExoRad.Optics.chain_total",
    "ExoRad.Optics.chain_slit_width",
    "ExoRad.Optics.demo_optics"
   ],
   "note": ""
  },
  {
   "property": "C33",
   "status": "proved",
   "theorems": [
    "ExoRad.Optics.compute_signal",
    "ExoRad.Optics.compute_signal_perm",
    "ExoRad.Optics.elementSignal_length",
    "ExoRad.Optics.demo_optics"
   ],
   "note": ""
  },
  {
   "property": "C34",
   "status": "partial",
   "theorems": [
    "ExoRad.Optics.solid_angle_partial",
    "ExoRad.Optics.custom_angle_ignored",
    "ExoRad.Optics.slit_position_ignored",
    "ExoRad.Optics.element_position"
   ],
   "note": "false of the code: the custom solid angle of an element is never used, and in front of a slit the position is ignored; proved for the slitless branch"
  },
  {
   "property": "C35",
   "status": "partial",
   "theorems": [
    "ExoRad.Build.emitters_mem",
    "ExoRad.Optics.prepend_disjoint",
    "ExoRad.Optics.prepend_same_name",
    "ExoRad.Optics.prepareElements_spec",
    "ExoRad.Optics.prepareElements_absent",
    "ExoRad.Optics.onGrid_of_prepare"
   ],
   "note": "false of the code when a channel element has the name of a common one: the common one is lost; proved for distinct names"
  },
  {
   "property": "C36",
   "status": "proved",
   "theorems": [
    "ExoRad.Optics.transmission_from_data",
    "ExoRad.Optics.transmission_no_column",
    "ExoRad.Optics.transmission_from_constants",
    "ExoRad.Optics.emissivity_from_constants",
    "ExoRad.Optics.emissivity_from_data"
   ],
   "note": ""
  },
  {
   "property": "C45",
   "status": "proved",
   "theorems": [
    "ExoRad.Diffuse.through_slit",
    "ExoRad.Diffuse.slitLight_linear",
    "ExoRad.Diffuse.slitLight_mono",
    "ExoRad.Diffuse.slitLight_nonneg",
    "ExoRad.Diffuse.slitLight_one",
    "ExoRad.Diffuse.slitLight_partition",
    "ExoRad.Diffuse.convSame_total",
    "ExoRad.Diffuse.convSame_one",
    "ExoRad.Diffuse.demo_slit",
    "ExoRad.Diffuse.slitPixels_spec",
    "ExoRad.Diffuse.pixel_light",
    "ExoRad.Diffuse.convolve_with_slit",
    "ExoRad.Diffuse.demo_convolve"
   ],
   "note": ""
  },
  {
   "property": "C46",
   "status": "proved",
   "theorems": [
    "ExoRad.Diffuse.integrate_light",
    "ExoRad.Diffuse.integrate_light_linear",
    "ExoRad.Diffuse.integrate_light_mono",
    "ExoRad.Diffuse.trapz_const",
    "ExoRad.Diffuse.trapz_line",
    "ExoRad.Diffuse.trapz_nonneg"
   ],
   "note": ""
  },
  {
   "property": "C62",
   "status": "proved",
   "theorems": [
    "ExoRad.Rebin.spectralRebin_self"
   ],
   "note": ""
  },
  {
   "property": "C63",
   "status": "proved",
   "theorems": [
    "ExoRad.Options.section_datafile",
    "ExoRad.Options.section_datadict",
    "ExoRad.Options.section_config_dict",
    "ExoRad.Options.section_not_text",
    "ExoRad.Options.section_no_file",
    "ExoRad.Options.readTable_contents",
    "ExoRad.Options.readDict_dictionary",
    "ExoRad.Options.baseChars_spec"
   ],
   "note": "Contents: ecsv, csv if the file is no ecsv table, OSError for another datatype; Dictionary: HDF5 or pickle by the extension. Sections naming several kinds of file at once are covered by the model, not by a theorem; a datadict without configuration path raises TypeError (proved)"
  },
  {
   "property": "C37",
   "status": "proved",
   "theorems": [
    "ExoRad.Instrument.photometer_out_of_band",
    "ExoRad.Instrument.spectrometer_out_of_band",
    "ExoRad.Instrument.unforced_flux",
    "ExoRad.Instrument.demo_out_of_band",
    "ExoRad.Instrument.forceEdge_spec"
   ],
   "note": ""
  },
  {
   "property": "C38",
   "status": "partial",
   "theorems": [
    "ExoRad.Instrument.bins_of_edges",
    "ExoRad.Instrument.bins_partition",
    "ExoRad.Instrument.bin_integrals_total",
    "ExoRad.Instrument.fixed_R_total",
    "ExoRad.Instrument.photometer_bins",
    "ExoRad.Instrument.native_bins",
    "ExoRad.Instrument.native_contiguous_iff",
    "ExoRad.Instrument.native_even",
    "ExoRad.Instrument.native_linear_partial",
    "ExoRad.Instrument.native_overlap",
    "ExoRad.Instrument.demo_native"
   ],
   "note": "Fixed-R and variable-R grids: proved. In native mode bins are contiguous exactly when neighbouring half widths add up to the distance of the centres; proved for linear wavelength solutions, refuted by native_overlap for others."
  },
  {
   "property": "C39",
   "status": "proved",
   "theorems": [
    "ExoRad.Instrument.fixed_R_edges",
    "ExoRad.Instrument.fixed_R_resolving_power"
   ],
   "note": ""
  },
  {
   "property": "C40",
   "status": "proved",
   "theorems": [
    "ExoRad.Instrument.photometer_target",
    "ExoRad.Instrument.spectrometer_target",
    "ExoRad.Instrument.force_missing",
    "ExoRad.Instrument.efficiency"
   ],
   "note": ""
  },
  {
   "property": "C41",
   "status": "proved",
   "theorems": [
    "ExoRad.Psf.pixelKernel_spec",
    "ExoRad.Psf.demo_kernel"
   ],
   "note": ""
  },
  {
   "property": "C42",
   "status": "partial",
   "theorems": [
    "ExoRad.Psf.aperture_found_partial",
    "ExoRad.Psf.aperture_too_small",
    "ExoRad.Psf.aperture_hangs",
    "ExoRad.Psf.aperture_terminates_iff",
    "ExoRad.Psf.demo_aperture"
   ],
   "note": "Fails as stated: the search ends exactly when some radius holds the request plus 0.02 (never above 0.98), and requests below the energy of radius 1 raise ValueError; in between the radius is proved to bracket the request."
  },
  {
   "property": "C43",
   "status": "proved",
   "theorems": [
    "ExoRad.Psf.omegaPix_solid_angle",
    "ExoRad.Psf.omegaPix_circular",
    "ExoRad.Psf.omegaPix_symm",
    "ExoRad.Psf.omegaPix_bounds",
    "ExoRad.Psf.omegaPix_strictAnti",
    "ExoRad.Psf.coneSolidAngle_quadrant"
   ],
   "note": ""
  },
  {
   "property": "C44",
   "status": "proved",
   "theorems": [
    "ExoRad.Psf.paos_stored",
    "ExoRad.Psf.paos_between",
    "ExoRad.Psf.mixture_between",
    "ExoRad.Psf.paos_outside",
    "ExoRad.Psf.paos_single",
    "ExoRad.Psf.demo_paos"
   ],
   "note": ""
  },
  {
   "property": "C64",
   "status": "partial",
   "theorems": [
    "ExoRad.Instrument.variable_R_partial",
    "ExoRad.Instrument.variable_R_stuck",
    "ExoRad.Instrument.variable_R_hangs",
    "ExoRad.Instrument.round4_near",
    "ExoRad.Instrument.demo_variable_R",
    "ExoRad.Instrument.demo_one_bin"
   ],
   "note": "Proved for bins wider than the rounding and bands of at least two bins; a resolving power above wl/5e-5 never terminates and a single bin raises IndexError."
  },
  {
   "property": "C65",
   "status": "proved",
   "theorems": [
    "ExoRad.Instrument.transmission_column",
    "ExoRad.Instrument.qe_column",
    "ExoRad.Instrument.constant_qe",
    "ExoRad.Instrument.binSignal_centre",
    "ExoRad.Instrument.bin_value",
    "ExoRad.Instrument.logspace_spec"
   ],
   "note": ""
  },
  {
   "property": "C66",
   "status": "proved",
   "theorems": [
    "ExoRad.Instrument.pixel_grid",
    "ExoRad.Instrument.arange_mem",
    "ExoRad.Instrument.extend_strictMono",
    "ExoRad.Instrument.extend_line",
    "ExoRad.Instrument.pixelMaxima_spec",
    "ExoRad.Instrument.pixelMaxima_ok",
    "ExoRad.Instrument.brightest_pixel",
    "ExoRad.Instrument.native_bins_have_pixels",
    "ExoRad.Instrument.Rising.inverse",
    "ExoRad.Instrument.Falling.inverse",
    "ExoRad.Instrument.pixel_band",
    "ExoRad.Instrument.demo_pixel_band"
   ],
   "note": ""
  },
  {
   "property": "C67",
   "status": "partial",
   "theorems": [
    "ExoRad.Instrument.window_spec",
    "ExoRad.Instrument.spatialWidth_spec",
    "ExoRad.Instrument.spectralWidth_total",
    "ExoRad.Instrument.window_nonneg",
    "ExoRad.Instrument.demo_window",
    "ExoRad.Psf.photometerWindow_radius",
    "ExoRad.Psf.photometerWindow_none",
    "ExoRad.Psf.photometerWindow_energy",
    "ExoRad.Psf.photometerWindow_pos",
    "ExoRad.Psf.inPixels_scales",
    "ExoRad.Psf.radius_is_not_a_circle",
    "ExoRad.Psf.demo_photometerWindow"
   ],
   "note": "The photometer part fails as stated: a given radius is used as the side of a square (no pi), an aperture with neither radius nor energy raises UnboundLocalError."
  },
  {
   "property": "C68",
   "status": "proved",
   "theorems": [
    "ExoRad.Psf.conv_nonneg",
    "ExoRad.Psf.conv_le_total",
    "ExoRad.Psf.conv_sum_le",
    "ExoRad.Psf.conv_sum_eq",
    "ExoRad.Psf.airy_brightest",
    "ExoRad.Psf.file_brightest",
    "ExoRad.Psf.file_not_normalised",
    "ExoRad.Psf.gain_bounds",
    "ExoRad.Psf.normalise_sum",
    "ExoRad.Psf.demo_gain"
   ],
   "note": ""
  },
  {
   "property": "C69",
   "status": "proved",
   "theorems": [
    "ExoRad.Psf.nearestFile_spec",
    "ExoRad.Psf.argmin_spec",
    "ExoRad.Psf.demo_nearest"
   ],
   "note": ""
  },
  {
   "property": "C47",
   "status": "partial",
   "theorems": [
    "ExoRad.Foreground.foregrounds_stored",
    "ExoRad.Foreground.foreground_columns",
    "ExoRad.Foreground.sky_transmission_partial",
    "ExoRad.Foreground.observed_columns",
    "ExoRad.Foreground.observed_again",
    "ExoRad.Foreground.diffuse_ignores_transmission",
    "ExoRad.Foreground.no_foreground",
    "ExoRad.Foreground.alone_slitless",
    "ExoRad.Foreground.interpFill_spec",
    "ExoRad.Foreground.demo_once",
    "ExoRad.Foreground.demo_twice",
    "ExoRad.Foreground.demo_opaque"
   ],
   "note": "Fails as stated: a slitless or photometric foreground is not attenuated by the ones in front of it at its detector (diffuse_ignores_transmission), and observing the same target twice squares the transmission (demo_twice)."
  },
  {
   "property": "C48",
   "status": "partial",
   "theorems": [
    "ExoRad.Foreground.zodi_linear",
    "ExoRad.Foreground.zodi_scales",
    "ExoRad.Foreground.zodi_unit",
    "ExoRad.Foreground.map_nearest",
    "ExoRad.Foreground.map_used",
    "ExoRad.Foreground.zodi_coefficient_partial",
    "ExoRad.Foreground.zodi_estimated_partial",
    "ExoRad.Foreground.zodi_no_fallback",
    "ExoRad.Foreground.zodi_no_wrap"
   ],
   "note": "The fallback holds only for the errors the code catches; a nearest entry is nearest without wrapping the right ascension."
  },
  {
   "property": "C49",
   "status": "proved",
   "theorems": [
    "ExoRad.planck_pos",
    "ExoRad.planck_strictMono",
    "ExoRad.planck_between",
    "ExoRad.Source.hotter_is_brighter"
   ],
   "note": ""
  },
  {
   "property": "C50",
   "status": "proved",
   "theorems": [
    "ExoRad.Source.sed_solid_angle",
    "ExoRad.Source.sed_twice_as_far",
    "ExoRad.Source.sed_error",
    "ExoRad.Source.luminosity",
    "ExoRad.Source.luminosity_custom",
    "ExoRad.Source.luminosity_library",
    "ExoRad.Source.planck_works",
    "ExoRad.Source.spectralRebin_mono"
   ],
   "note": ""
  },
  {
   "property": "C51",
   "status": "partial",
   "theorems": [
    "ExoRad.Source.source_case_insensitive",
    "ExoRad.Source.source_selection",
    "ExoRad.Source.source_data",
    "ExoRad.Source.phoenix_fallback",
    "ExoRad.Source.phoenix_result",
    "ExoRad.Source.model_directory",
    "ExoRad.Source.bytes_always_planck",
    "ExoRad.Source.demo_misnamed",
    "ExoRad.Source.range_order",
    "ExoRad.Source.range_micron",
    "ExoRad.Source.range_other_unit"
   ],
   "note": "Proved for payloads read from XML. For a payload read back from HDF5 the source type is bytes and always becomes a black body (bytes_always_planck); a misnamed file in the library also gives a black body (demo_misnamed)."
  },
  {
   "property": "C52",
   "status": "proved",
   "theorems": [
    "ExoRad.Source.nearest_model",
    "ExoRad.Source.temperature_beyond",
    "ExoRad.Source.library_errors",
    "ExoRad.Source.demo_nearest",
    "ExoRad.Source.keepChanges_spec",
    "ExoRad.Source.roundEven_near"
   ],
   "note": "Beyond means: after rounding to 100 K."
  },
  {
   "property": "C19",
   "status": "partial",
   "theorems": [
    "ExoRad.Pipeline.targets_independent",
    "ExoRad.Pipeline.unlisted_target",
    "ExoRad.Pipeline.skipped_iff",
    "ExoRad.Pipeline.targets_exact",
    "ExoRad.Pipeline.Demo.demo_all"
   ],
   "note": "Exact if the foregrounds are only zodiacal light (targets_exact). Otherwise results are compared up to the columns that a foreground's transmission adds to the shared channel tables (C21)."
  },
  {
   "property": "C21",
   "status": "partial",
   "theorems": [
    "ExoRad.Pipeline.pool_results",
    "ExoRad.Pipeline.threads_partial",
    "ExoRad.Pipeline.threads_differ",
    "ExoRad.Pipeline.threads_exact",
    "ExoRad.Pipeline.Demo.demo_threads_differ"
   ],
   "note": "Exact if the foregrounds are only zodiacal light (threads_exact). Fails as stated: with a foreground that has a transmission, a target observed after another one in the same process gets the extra column 'sky TR' (threads_differ); all other columns are the same for every schedule (threads_partial)."
  },
  {
   "property": "C22",
   "status": "partial",
   "theorems": [
    "ExoRad.Pipeline.observe_ok_iff",
    "ExoRad.Pipeline.observe_error_iff",
    "ExoRad.Pipeline.no_foreground_fails",
    "ExoRad.Pipeline.no_foreground_no_results"
   ],
   "note": "Order and stopping are proved. Fails as stated: without a foreground section every observation is an exception (no_foreground_fails)."
  },
  {
   "property": "C56",
   "status": "partial",
   "theorems": [
    "ExoRad.Pipeline.log_level_after_partial",
    "ExoRad.Pipeline.debug_level_lost"
   ],
   "note": "Fails as stated: the level after an observation is always INFO (debug_level_lost)."
  },
  {
   "property": "C71",
   "status": "partial",
   "theorems": [
    "ExoRad.Run.run_with_figures",
    "ExoRad.Run.run_without_efficiency",
    "ExoRad.Pipeline.plots_do_not_matter",
    "ExoRad.Pipeline.plot_without_directory",
    "ExoRad.Pipeline.plots_never_matter",
    "ExoRad.Build.built_plots_never_matter",
    "ExoRad.Build.built_efficiency_plot",
    "ExoRad.Pipeline.observe_after_efficiency",
    "ExoRad.Pipeline.results_after_efficiency",
    "ExoRad.Plotter.Demo.efficiency_can_fail",
    "ExoRad.Build.Demo.demo_plots"
   ],
   "note": "Fails as stated: plotting without an output directory skips every target (plot_without_directory), and the efficiency plot raises for a channel whose quantum efficiency data do not reach its detector's range and whose elements do not emit (efficiency_can_fail). With an output directory and a built payload the plotter never raises, so no result changes, for any number of threads and any schedule (built_plots_never_matter, built_efficiency_plot, results_after_efficiency)."
  },
  {
   "property": "C72",
   "status": "proved",
   "theorems": [
    "ExoRad.Pipeline.observation_budget",
    "ExoRad.Pipeline.observation_complete",
    "ExoRad.Pipeline.observation_succeeds",
    "ExoRad.Pipeline.before_noise",
    "ExoRad.Pipeline.Demo.demo_observed"
   ],
   "note": ""
  },
  {
   "property": "C73",
   "status": "proved",
   "theorems": [
    "ExoRad.Light.photometer_nonneg",
    "ExoRad.Light.spectrometer_nonneg",
    "ExoRad.Light.foreground_nonneg",
    "ExoRad.Light.estimate_nonneg",
    "ExoRad.Light.source_nonneg",
    "ExoRad.Light.emission_nonneg"
   ],
   "note": ""
  },
  {
   "property": "C20",
   "status": "partial",
   "theorems": [
    "ExoRad.Run.all_saved",
    "ExoRad.Run.run_saves_all",
    "ExoRad.Run.collect_spec",
    "ExoRad.Run.collect_targets",
    "ExoRad.Run.saving_ok",
    "ExoRad.Run.skipped_target_ends_saving",
    "ExoRad.Run.run_loses_targets",
    "ExoRad.Run.Demo.saved",
    "ExoRad.Run.Demo.lost"
   ],
   "note": "Fails as stated: a skipped target is None in the results, None.write raises, and every target that comes after it in the results is not saved (run_loses_targets). Proved when no target is skipped (run_saves_all). Names with '/' are in C116."
  },
  {
   "property": "C23",
   "status": "partial",
   "theorems": [
    "ExoRad.Run.only_these_files",
    "ExoRad.Run.inputs_kept",
    "ExoRad.Run.no_output_no_writes",
    "ExoRad.Run.payload_in_output_lost",
    "ExoRad.Run.output_absent_meanwhile",
    "ExoRad.Run.Demo.kept"
   ],
   "note": "The inputs survive every crash point if neither is the output file (inputs_kept). Fails as stated: a payload loaded from the output file itself is deleted before it is read (payload_in_output_lost), and after the removal there is neither the old nor a new output (output_absent_meanwhile). Symbolic links are not modelled."
  },
  {
   "property": "C55",
   "status": "partial",
   "theorems": [
    "ExoRad.Options.load_options",
    "ExoRad.Run.ext_spec",
    "ExoRad.Run.known_extension",
    "ExoRad.Run.buildOnly_ok_iff",
    "ExoRad.Run.unbuildable_channel",
    "ExoRad.Run.other_extension",
    "ExoRad.Run.unsupported_payload_removes_output",
    "ExoRad.Run.table_with_output_raises"
   ],
   "note": "Proved for the tasks themselves (known_extension, other_extension). Fails for the whole run with replace: the old output is removed before the extension is looked at."
  },
  {
   "property": "C74",
   "status": "partial",
   "theorems": [
    "ExoRad.Run.append_keeps",
    "ExoRad.Run.other_output_kept",
    "ExoRad.Run.append_same_payload_raises",
    "ExoRad.Run.copy_overwrites_output",
    "ExoRad.Run.Demo.again"
   ],
   "note": "Everything is kept if no input has the output's name (append_keeps; the copy of an input of that name overwrites it, copy_overwrites_output). Fails as stated: with the same XML payload no target is ever added, because writing the payload again raises (append_same_payload_raises)."
  },
  {
   "property": "C75",
   "status": "proved",
   "theorems": [
    "ExoRad.Run.replace_forgets_output",
    "ExoRad.Run.rerun_same"
   ],
   "note": "For outputs that are not one of the inputs."
  },
  {
   "property": "C53",
   "status": "proved",
   "theorems": [
    "ExoRad.TargetList.csv_stars",
    "ExoRad.TargetList.csv_planets",
    "ExoRad.TargetList.csv_every_row",
    "ExoRad.TargetList.mrs_stars",
    "ExoRad.TargetList.mrs_planets",
    "ExoRad.TargetList.table_stars",
    "ExoRad.TargetList.table_planets",
    "ExoRad.TargetList.xlsx_targets",
    "ExoRad.TargetList.short_sheet_refused",
    "ExoRad.TargetList.Demo.read_stars",
    "ExoRad.TargetList.Demo.read_planets",
    "ExoRad.TargetList.Demo.read_second",
    "ExoRad.TargetList.Demo.read_table",
    "ExoRad.TargetList.Demo.read_sheet"
   ],
   "note": "for all four formats, the exact list of targets; examples in Demo"
  },
  {
   "property": "C54",
   "status": "proved",
   "theorems": [
    "ExoRad.Channels.channel_list",
    "ExoRad.Channels.build_channels",
    "ExoRad.Channels.unknown_class",
    "ExoRad.Channels.unknown_class_first",
    "ExoRad.Channels.class_not_entry",
    "ExoRad.Channels.lists_cover",
    "ExoRad.Channels.build_single",
    "ExoRad.Channels.single_list_raises",
    "ExoRad.Channels.Demo.lists",
    "ExoRad.Channels.Demo.built",
    "ExoRad.Channels.Demo.single_built",
    "ExoRad.Channels.Demo.unknown"
   ],
   "note": "examples in Demo"
  },
  {
   "property": "C76",
   "status": "proved",
   "theorems": [
    "ExoRad.TargetList.csv_last_column",
    "ExoRad.TargetList.csv_error_column",
    "ExoRad.TargetList.csv_planet_mistake",
    "ExoRad.TargetList.table_planet_mistake",
    "ExoRad.TargetList.Demo.planets_lost",
    "ExoRad.TargetList.Demo.error_taken"
   ],
   "note": "these are defects of the code"
  },
  {
   "property": "C77",
   "status": "proved",
   "theorems": [
    "ExoRad.TargetList.load_first_format",
    "ExoRad.TargetList.load_second_format",
    "ExoRad.TargetList.load_other",
    "ExoRad.TargetList.load_file_errors",
    "ExoRad.TargetList.table_needs_units"
   ],
   "note": ""
  },
  {
   "property": "C78",
   "status": "proved",
   "theorems": [
    "ExoRad.TargetList.search_insensitive",
    "ExoRad.TargetList.search_spec",
    "ExoRad.TargetList.search_stars",
    "ExoRad.TargetList.Demo.search_finds",
    "ExoRad.TargetList.Demo.search_fails",
    "ExoRad.TargetList.Demo.same_search"
   ],
   "note": "re.search is a parameter; the list without planets is a defect of the code"
  },
  {
   "property": "C70",
   "status": "proved",
   "theorems": [
    "ExoRad.Loaded.payload_roundtrip",
    "ExoRad.Loaded.payload_written",
    "ExoRad.Loaded.load_channel",
    "ExoRad.Loaded.load_unknown_class",
    "ExoRad.Loaded.Demo.demo"
   ],
   "note": "For payloads whose entries HDF5 can hold (Storable) and whose classes are known."
  },
  {
   "property": "C79",
   "status": "partial",
   "theorems": [
    "ExoRad.Loaded.saved_payload_unusable",
    "ExoRad.Loaded.loaded_channels_unusable",
    "ExoRad.Loaded.loaded_prepare_fails",
    "ExoRad.Loaded.fresh_prepare",
    "ExoRad.Loaded.fresh_observation",
    "ExoRad.Loaded.plain_fnum_fails",
    "ExoRad.Loaded.signal_converted",
    "ExoRad.Loaded.signal_not_dict",
    "ExoRad.Loaded.class_name",
    "ExoRad.Loaded.class_name_fails",
    "ExoRad.Loaded.Demo.demo_fresh"
   ],
   "note": "Fails as stated: the wavelengths of quantum efficiency and transmission come back as quantities and are multiplied by their unit once more, so every observation with a loaded payload raises UnitConversionError (saved_payload_unusable). Proved for channels in memory (fresh_prepare, fresh_observation)."
  },
  {
   "property": "C80",
   "status": "proved",
   "theorems": [
    "ExoRad.Contrib.full_contrib_same",
    "ExoRad.Contrib.built_parts",
    "ExoRad.Contrib.foreground_called_instrument",
    "ExoRad.Contrib.Demo.demo_contrib"
   ],
   "note": "element names must not contain Max or _noise (they would be counted as maxima or taken for noise), and no foreground may be called instrument: its column replaces the emission of the instrument, shown separately"
  },
  {
   "property": "C81",
   "status": "proved",
   "theorems": [
    "ExoRad.Build.build_sound",
    "ExoRad.Build.build_parts",
    "ExoRad.Build.buildAll_mem",
    "ExoRad.Build.buildAll_fillable",
    "ExoRad.Build.Demo.demo_built"
   ],
   "note": "for descriptions of real instruments (SoundDescr): positive bands, focal ratios of at least 1/2, monotonic wavelength solutions, interpolated gains and windows that do not become negative; what the channel needs for an observation is Obs.Real of Props/NonNeg"
  },
  {
   "property": "C83",
   "status": "proved",
   "theorems": [
    "ExoRad.Build.built_observation",
    "ExoRad.Build.Demo.demo_built"
   ],
   "note": "for built channels reached by light of sky and star (Reached); relVariance is in Spec/Noise"
  },
  {
   "property": "C82",
   "status": "proved",
   "theorems": [
    "ExoRad.Build.build_succeeds",
    "ExoRad.Build.buildAll_succeeds",
    "ExoRad.Build.build_mono",
    "ExoRad.Build.build_needs",
    "ExoRad.Build.loaded_raises",
    "ExoRad.Build.no_solution_raises",
    "ExoRad.Build.unsupported_raises",
    "ExoRad.Build.no_aperture_raises",
    "ExoRad.Build.no_optics_raises",
    "ExoRad.Build.no_force_raises",
    "ExoRad.Build.slit_photometer_raises",
    "ExoRad.Build.native_bins_filled",
    "ExoRad.Build.Demo.demo_built"
   ],
   "note": "Complete is the small specification at the head of Props/BuildOk; demo_built builds a photometer and a spectrometer with a slit"
  },
  {
   "property": "C84",
   "status": "proved",
   "theorems": [
    "ExoRad.Build.built_table",
    "ExoRad.Build.native_table",
    "ExoRad.Build.path_transmission",
    "ExoRad.Build.plain_path",
    "ExoRad.Build.photometer_window",
    "ExoRad.Build.spectrometer_window",
    "ExoRad.Build.gain_samples",
    "ExoRad.Build.channel_reads",
    "ExoRad.Build.Demo.demo_values"
   ],
   "note": "specification (mids, gaps, EdgesFor, QeAt, trAt, widthOf, heightAt) in Props/BuildValues; distinct element names, and curve bins of at least 1e-4; an aperture given as a radius counts r^2 pixels, without pi, as the code has it; demo_values works out a photometer and a spectrometer"
  },
  {
   "property": "C85",
   "status": "proved",
   "theorems": [
    "ExoRad.Plotter.signal_curves",
    "ExoRad.Plotter.noise_curves",
    "ExoRad.Plotter.bands_spec",
    "ExoRad.Plotter.no_rows_no_bands",
    "ExoRad.Plotter.can_be_drawn",
    "ExoRad.Pipeline.observed_can_be_drawn",
    "ExoRad.Build.built_placed",
    "ExoRad.Plotter.Demo.two_bins",
    "ExoRad.Plotter.Demo.two_drawn"
   ],
   "note": "A figure is its curves, bands and ticks; what matplotlib makes of them is not modelled."
  },
  {
   "property": "C86",
   "status": "proved",
   "theorems": [
    "ExoRad.Plotter.command_spec",
    "ExoRad.Plotter.command_refuses",
    "ExoRad.Plotter.command_draws",
    "ExoRad.Plotter.unknown_name",
    "ExoRad.Plotter.selects_all",
    "ExoRad.Plotter.selects_name",
    "ExoRad.Plotter.selects_unique",
    "ExoRad.Plotter.run_then_plot",
    "ExoRad.Plotter.Demo.plotted"
   ],
   "note": "Reading a stored table back (astropy) is a parameter. Errors of savefig are not modelled."
  },
  {
   "property": "C87",
   "status": "partial",
   "theorems": [
    "ExoRad.Plotter.figure_determined_partial",
    "ExoRad.Plotter.Demo.ticks_differ"
   ],
   "note": "Fails as stated: the last tick is the end of whichever channel the set yields last (ticks_differ), and bands come in that order. Title and curves are determined, bands up to order (figure_determined_partial)."
  },
  {
   "property": "C88",
   "status": "proved",
   "theorems": [
    "ExoRad.Plotter.efficiency_curves",
    "ExoRad.Plotter.efficiency_bounds",
    "ExoRad.Build.efficiency_figure",
    "ExoRad.Build.built_efficiency",
    "ExoRad.Build.built_efficiency_plot",
    "ExoRad.Plotter.Demo.product",
    "ExoRad.Plotter.Demo.efficiency_can_fail"
   ],
   "note": ""
  },
  {
   "property": "C89",
   "status": "partial",
   "theorems": [
    "ExoRad.Build.units_partial",
    "ExoRad.Build.units_microns",
    "ExoRad.Build.photometer_pixel_unit",
    "ExoRad.Build.solution_unit",
    "ExoRad.Build.solution_unit_star",
    "ExoRad.Build.solution_unit_native",
    "ExoRad.Build.detector_unit_fails",
    "ExoRad.Build.Demo.spectrometer_mm",
    "ExoRad.Build.Demo.photometer_mm",
    "ExoRad.Build.Demo.solution_mm",
    "ExoRad.Build.Demo.detector_nm"
   ],
   "note": "Fails as stated: units_partial is what holds (pixels of a spectrometer in any unit). The other theorems say exactly what goes wrong: a photometer's pixel size scales the light of the optics by the unit squared, the unit of x scales the bandwidth of the pixels (and star_MaxSignal_inPixel, native bin widths), a detector range in nm cannot be built or transmits nothing; the Demo theorems are concrete counterexamples. wl_min and wl_max of the channel are in microns throughout."
  },
  {
   "property": "C90",
   "status": "partial",
   "theorems": [
    "ExoRad.Log.file_exact",
    "ExoRad.Log.file_complete",
    "ExoRad.Log.other_files",
    "ExoRad.Log.run_log_file_partial",
    "ExoRad.Log.run_log_repeats",
    "ExoRad.Log.run_log_unopenable",
    "ExoRad.Log.run_no_log",
    "ExoRad.Log.Demo.run_twice"
   ],
   "note": "False as stated: the first two lines precede the file, and a file asked for k times before in the process gets every line k+1 times (run_log_repeats, exact). Proved: the exact contents of every file after every history; a run with a new log file records everything else exactly once"
  },
  {
   "property": "C91",
   "status": "proved",
   "theorems": [
    "ExoRad.Log.screen_exact",
    "ExoRad.Log.quiet_screen",
    "ExoRad.Log.skipped_shown",
    "ExoRad.Log.other_ranks",
    "ExoRad.Log.target_screen",
    "ExoRad.Log.Demo.run_twice",
    "ExoRad.Log.Demo.second_rank"
   ],
   "note": ""
  },
  {
   "property": "C92",
   "status": "partial",
   "theorems": [
    "ExoRad.Log.debug_screen_partial",
    "ExoRad.Log.debug_hidden",
    "ExoRad.Log.level_after_target",
    "ExoRad.Log.Demo.debug_order"
   ],
   "note": "False as stated: exactly the first target is observed at level DEBUG (debug_screen_partial gives the whole screen); debug_hidden: such a message of a later target is not shown"
  },
  {
   "property": "C93",
   "status": "proved",
   "theorems": [
    "ExoRad.Command.exorad_call",
    "ExoRad.Command.exorad_usual",
    "ExoRad.Command.plot_call",
    "ExoRad.Command.parse_iff",
    "ExoRad.Command.consume_iff",
    "ExoRad.Command.classify_opt_iff",
    "ExoRad.Command.classify_arg_iff",
    "ExoRad.Command.order_irrelevant",
    "ExoRad.Command.exorad_types",
    "ExoRad.Command.exorad_log",
    "ExoRad.Command.parse_exit",
    "ExoRad.Command.bad_word",
    "ExoRad.Command.exorad_good",
    "ExoRad.Command.plot_good",
    "ExoRad.Command.Demo.accepted",
    "ExoRad.Command.Demo.refused",
    "ExoRad.Command.Demo.plot_accepted"
   ],
   "note": "argparse is modelled as used by these parsers; the word -- is not modelled"
  },
  {
   "property": "C94",
   "status": "partial",
   "theorems": [
    "ExoRad.Pipeline.observed_resolution",
    "ExoRad.Pipeline.platform_partial",
    "ExoRad.Pipeline.platform_exact_partial",
    "ExoRad.Pipeline.fresh_as_default",
    "ExoRad.Pipeline.fresh_same_iff",
    "ExoRad.Pipeline.SpawnDemo.table_differs",
    "ExoRad.Pipeline.SpawnDemo.not_same"
   ],
   "note": "false as stated (fresh_same_iff, table_differs): with fresh workers the results are those of working_R 6000; proved for copies of the parent and for the default resolution"
  },
  {
   "property": "C95",
   "status": "partial",
   "theorems": [
    "ExoRad.Log.pool_file_fork",
    "ExoRad.Log.pool_file_order",
    "ExoRad.Log.pool_file_fresh",
    "ExoRad.Log.pool_shows",
    "ExoRad.Log.pool_progress",
    "ExoRad.Log.pool_parent_level",
    "ExoRad.Log.PoolDemo.history_runs",
    "ExoRad.Log.PoolDemo.demo_files",
    "ExoRad.Log.PoolDemo.demo_bound"
   ],
   "note": "false as stated for workers that start afresh (pool_file_fresh); proved for copies of the parent, for all schedules; whole lines are assumed to be appended at once"
  },
  {
   "property": "C96",
   "status": "partial",
   "theorems": [
    "ExoRad.Import.import_ok_iff",
    "ExoRad.Import.import_offline_partial",
    "ExoRad.Import.import_blocked",
    "ExoRad.Import.import_not_ascii",
    "ExoRad.Import.import_worktree",
    "ExoRad.Import.import_timeout",
    "ExoRad.Import.import_warns",
    "ExoRad.Import.on_branch",
    "ExoRad.Import.no_commit",
    "ExoRad.Import.address_repo",
    "ExoRad.Import.address_slash",
    "ExoRad.Import.address_ok_iff",
    "ExoRad.Import.Demo.demo_repo",
    "ExoRad.Import.Demo.demo_warns",
    "ExoRad.Import.Demo.demo_accent"
   ],
   "note": "false as stated; import_ok_iff is the exact condition; the warning, the timeout and the recorded branch and commit are proved"
  },
  {
   "property": "C97",
   "status": "proved",
   "theorems": [
    "ExoRad.Pipeline.signal_proportional",
    "ExoRad.Pipeline.signal_distance",
    "ExoRad.Pipeline.source_moved",
    "ExoRad.Pipeline.channelTarget_scale",
    "ExoRad.Pipeline.Demo.demo_at",
    "ExoRad.Pipeline.Demo.demo_brighter"
   ],
   "note": "signal_proportional for any factor, signal_distance for a star moved to k times its distance (all source models); demo_at evaluates one photometer at every distance"
  },
  {
   "property": "C98",
   "status": "partial",
   "theorems": [
    "ExoRad.Pipeline.brighter_noise",
    "ExoRad.Pipeline.relVariance_brighter",
    "ExoRad.Pipeline.readGain_brighter",
    "ExoRad.Pipeline.Demo.nearer_star_more_noise",
    "ExoRad.Pipeline.Demo.demo_brighter"
   ],
   "note": "false as stated: nearer_star_more_noise is a star moved from distance 1 to 40/41 whose relative noise grows, because the frame gets shorter and a read of the ramp is lost. Proved: the bounds on the frame time; the noise is not greater without read noise or with a frame time given as option; and in every case it grows by at most the factor sqrt(5/4)"
  },
  {
   "property": "C99",
   "status": "partial",
   "theorems": [
    "ExoRad.noise_matched_units",
    "ExoRad.target_matched_units",
    "ExoRad.readUnit_reads",
    "ExoRad.noise_other_units",
    "ExoRad.roundedFreq_le",
    "ExoRad.noise_other_units_bound",
    "ExoRad.UnitsDemo2.minutes_differ"
   ],
   "note": "False as stated (minutes_differ). Proved: exact independence for matched units, one channel and whole table; for a whole product of units the exact effective rate of reads and bounds on the total noise."
  },
  {
   "property": "C100",
   "status": "partial",
   "theorems": [
    "ExoRad.Build.psf_named",
    "ExoRad.Build.psf_refused",
    "ExoRad.Build.absent_silent",
    "ExoRad.Build.photometer_prf",
    "ExoRad.Build.spectrometer_gain",
    "ExoRad.Build.nearestFile_nearest",
    "ExoRad.Build.PsfDemo.demo_pixel",
    "ExoRad.Build.PsfDemo.demo_gone"
   ],
   "note": "False as stated (absent_silent, demo_gone). Proved: for every other entry the images are the named ones (psf_named), the exact refusals (psf_refused), and that the brightest pixel and the gains are those of the images."
  },
  {
   "property": "C101",
   "status": "partial",
   "theorems": [
    "ExoRad.Read.describe_known",
    "ExoRad.Read.tidied_parser",
    "ExoRad.Read.tidied_file_partial",
    "ExoRad.Read.reordered_file_partial",
    "ExoRad.Read.tidied_build_partial",
    "ExoRad.Read.permuted",
    "ExoRad.Read.Demo.demo_read",
    "ExoRad.Read.Demo.demo_tidied",
    "ExoRad.Read.Demo.demo_file_built",
    "ExoRad.Read.Demo.config_path_last"
   ],
   "note": "From the XML document to the built channels: Model/Options (parser), Model/Read (every entry that the modelled code reads, 60 names in `known`), Model/Build. `Tidied` is the relation of documents. config_path_last: the same settings with ConfigPath last cannot be read. Missing from the full statement: false of the code as stated."
  },
  {
   "property": "C102",
   "status": "proved",
   "theorems": [
    "ExoRad.Build.complete_observation",
    "ExoRad.Build.blackbody_observation",
    "ExoRad.Build.light_reaches",
    "ExoRad.Build.estimate_ok",
    "ExoRad.Build.Demo.demo_blackbody"
   ],
   "note": "Total: existence of a result is proved, not assumed. The hypotheses are met by a photometer and a spectrometer that observe every black body through zodiacal light (demo_blackbody)."
  },
  {
   "property": "C103",
   "status": "proved",
   "theorems": [
    "ExoRad.Light.photometer_lit",
    "ExoRad.Light.spectrometer_lit",
    "ExoRad.Build.built_sees",
    "ExoRad.Build.aimed_lit",
    "ExoRad.Build.planck_star",
    "ExoRad.Rebin.rebin_pos"
   ],
   "note": "Conditions are on the samples within a stretch of wavelengths from L to U that reaches over the neighbours of the point; aimed_lit gives the conditions in terms of the payload's description. Demo.aimed_phot and Demo.aimed_spec meet them."
  },
  {
   "property": "C104",
   "status": "partial",
   "theorems": [
    "ExoRad.Meta.observed_catalogued",
    "ExoRad.Meta.uncatalogued_skipped",
    "ExoRad.Meta.Demo.demo_custom",
    "ExoRad.Pipeline.observation_succeeds"
   ],
   "note": "False as stated: demo_custom is a target with radius and distance whose source is built and whose observation fails; observed_catalogued and uncatalogued_skipped give the exact attributes needed, observation_succeeds the success with them (Ready)."
  },
  {
   "property": "C105",
   "status": "proved",
   "theorems": [
    "ExoRad.Meta.targets_metadata",
    "ExoRad.Meta.observe_metadata",
    "ExoRad.Meta.metadata_alone",
    "ExoRad.Meta.observeM_observe",
    "ExoRad.Meta.runListM_runList",
    "ExoRad.Meta.Demo.demo_metadata"
   ],
   "note": "The metadata of the channels' tables may hold a name and a version only (they are empty when built, and the run keeps this). astropy's merge of metadata is assumed (later wins)."
  },
  {
   "property": "C106",
   "status": "proved",
   "theorems": [
    "ExoRad.Whole.whole_file",
    "ExoRad.Whole.whole_run",
    "ExoRad.Whole.target_read",
    "ExoRad.Whole.targets_read",
    "ExoRad.Whole.Demo.demo_whole",
    "ExoRad.Whole.Demo.parsedX",
    "ExoRad.Whole.Demo.describedX_ok",
    "ExoRad.Whole.Demo.list_read"
   ],
   "note": "whole_file is the general statement (any channels that can be built, any stars that can be observed alone); whole_run discharges building and observing for black bodies; demo_whole shows a concrete payload document and lists of every length meeting all hypotheses. Conditions on names (no '.' in channel, foreground and custom noise names; Stores) are the ones of C24 and C25, without which the writer loses entries."
  },
  {
   "property": "C107",
   "status": "proved",
   "theorems": [
    "ExoRad.Read.describe_entries",
    "ExoRad.Read.common_entries",
    "ExoRad.Read.channels_entries",
    "ExoRad.Read.channel_entry",
    "ExoRad.Read.channel_entries",
    "ExoRad.Read.element_entries",
    "ExoRad.Read.elements_entries",
    "ExoRad.Read.detector_entries",
    "ExoRad.Read.customEntry_entries",
    "ExoRad.Read.customNoise_entries",
    "ExoRad.Read.noiseChannel_entries",
    "ExoRad.Read.qe_entries",
    "ExoRad.Read.psf_entries",
    "ExoRad.Read.resolution_entries",
    "ExoRad.Read.aperture_entries",
    "ExoRad.Read.specDescr_entries",
    "ExoRad.Read.kind_entries",
    "ExoRad.Read.foreground_entries",
    "ExoRad.Read.foregrounds_entries",
    "ExoRad.Read.source_entries",
    "ExoRad.Read.bare_iff",
    "ExoRad.Read.inUnit_iff",
    "ExoRad.Read.bareOr_iff",
    "ExoRad.Read.text_iff",
    "ExoRad.Read.flag_iff",
    "ExoRad.Read.columns_iff",
    "ExoRad.Read.pairs_iff",
    "ExoRad.Read.entries_iff",
    "ExoRad.Read.Demo.demo_entries"
   ],
   "note": "Each theorem is an equivalence between reading the section and a list of (path in the payload, unit, field) relations. Units other than those in the list are outside the reading model (astropy conversion is not modelled there; C89 and C99 treat units)."
  },
  {
   "property": "C108",
   "status": "proved",
   "theorems": [
    "ExoRad.Build.emitters_mem",
    "ExoRad.Program.program_refused",
    "ExoRad.Program.program_file",
    "ExoRad.Program.program_contrib",
    "ExoRad.Program.program_eq",
    "ExoRad.Whole.whole_contrib",
    "ExoRad.Build.contrib_observation",
    "ExoRad.Build.blackbody_contrib",
    "ExoRad.Build.split_tables",
    "ExoRad.Program.Demo.demo_program",
    "ExoRad.Whole.Demo.demo_contrib"
   ],
   "note": "The log file of -l and the figures of -P are not among the modelled files. Elements' names contain neither `Max`, `_noise` nor a dot, no foreground is called `instrument`; the column `sky TR` (a diagnostic of the foregrounds that keeps the last one) is excepted from the comparison. Stars are black bodies."
  },
  {
   "property": "C109",
   "status": "proved",
   "theorems": [
    "ExoRad.Program.program_figures",
    "ExoRad.Program.plot_refused",
    "ExoRad.Program.program_then_plot",
    "ExoRad.Whole.whole_figures",
    "ExoRad.Whole.whole_then_plot",
    "ExoRad.Whole.observe_plotted",
    "ExoRad.Whole.efficiency_of",
    "ExoRad.Program.Demo.demo_figures",
    "ExoRad.Program.Demo.demo_then_plot"
   ],
   "note": "Matplotlib is opaque: a figure is the data handed to it and the path it is saved at. The bytes of tables in the file are read back by astropy (`ReadsAs`), opaque. Concrete cases: demo_figures, demo_then_plot."
  },
  {
   "property": "C110",
   "status": "partial",
   "theorems": [
    "ExoRad.TableFile.columns_read_back",
    "ExoRad.TableFile.metadata_read_back_iff",
    "ExoRad.TableFile.stored_again",
    "ExoRad.TableFile.no_columns",
    "ExoRad.TableFile.groups_written",
    "ExoRad.Hdf5.loadTable_ok_iff"
   ],
   "note": "Proved: names, order, values and units of the columns, exactly when the metadata come back, what a second storing does. False of the code: quantities, dimensionless units, text and metadata of tables without quantities. Assumed about astropy: see Model/TableFile."
  },
  {
   "property": "C111",
   "status": "proved",
   "theorems": [
    "ExoRad.SignalUnits.construct_ok_iff",
    "ExoRad.SignalUnits.construct_succeeds",
    "ExoRad.SignalUnits.construct_refused",
    "ExoRad.SignalUnits.construct_same",
    "ExoRad.SignalUnits.construct_bare",
    "ExoRad.SignalUnits.classes_apart",
    "ExoRad.SignalUnits.construct_vec",
    "ExoRad.SignalUnits.timeDependent_iff",
    "ExoRad.SignalUnits.timeDependent_error",
    "ExoRad.SignalUnits.timeDependent_default",
    "ExoRad.SignalUnits.spectralRebin_unit",
    "ExoRad.SignalUnits.spectralRebin_other_unit",
    "ExoRad.SignalUnits.rebinAll_kept",
    "ExoRad.SignalUnits.customSed_units",
    "ExoRad.SignalUnits.customSed_refused",
    "ExoRad.SignalUnits.Demo.sed_nm",
    "ExoRad.SignalUnits.Demo.sed_nm_rebinned",
    "ExoRad.SignalUnits.Demo.two_times"
   ],
   "note": "Units are a dimension and a size; rebinning is that of one-dimensional signals, onto grids without repeated points for the sizes (see C30). `time_dependent` never answers True: it raises NotImplementedError when a time is not 0."
  },
  {
   "property": "C112",
   "status": "partial",
   "theorems": [
    "ExoRad.Source.range_order",
    "ExoRad.Source.range_micron",
    "ExoRad.Source.range_other_unit",
    "ExoRad.RangeUnits.upper_unit_refused",
    "ExoRad.RangeUnits.upper_unit_observe",
    "ExoRad.RangeUnits.upper_unit_skips_all",
    "ExoRad.RangeUnits.mixed_units_dark",
    "ExoRad.RangeUnits.demo_range"
   ],
   "note": "Holds for microns and bare numbers, in either order; the other theorems say what happens otherwise, for every star: skipped, or (black bodies) dark."
  },
  {
   "property": "C113",
   "status": "partial",
   "theorems": [
    "ExoRad.Rebin.nan_samples_dropped",
    "ExoRad.Rebin.rebinN_eq",
    "ExoRad.Rebin.nan_in_new_grid",
    "ExoRad.Rebin.nan_demo"
   ],
   "note": "true for the grid of the signal (nan_samples_dropped, rebinN_eq); false for the new grid: one NaN in it empties the window and the call raises ValueError whatever the rest is (nan_in_new_grid)"
  },
  {
   "property": "C114",
   "status": "partial",
   "theorems": [
    "ExoRad.Rebin.rebin2_needs",
    "ExoRad.Rebin.time_series_refused",
    "ExoRad.Rebin.more_times_refused",
    "ExoRad.Rebin.wrong_axis",
    "ExoRad.Rebin.two_axes_demo"
   ],
   "note": "false of the code: the call fails unless the number of times happens to be that of the kept samples, and then works along the time axis (wrong_axis); scipy's treatment of shapes is assumed, as stated in Model/RebinMore"
  },
  {
   "property": "C115",
   "status": "partial",
   "theorems": [
    "ExoRad.TableUnits.foreground_any_unit",
    "ExoRad.TableUnits.foreground_same",
    "ExoRad.TableUnits.element_microns_partial",
    "ExoRad.TableUnits.transmission_scaled",
    "ExoRad.TableUnits.emissivity_scaled",
    "ExoRad.TableUnits.element_blank",
    "ExoRad.TableUnits.qe_partial",
    "ExoRad.TableUnits.channel_blank",
    "ExoRad.TableUnits.mirror_nm",
    "ExoRad.TableUnits.qe_nm",
    "ExoRad.TableUnits.sky_nm",
    "ExoRad.TableUnits.Demo.demo_blank"
   ],
   "note": "Holds for foregrounds (foreground_any_unit), for elements in microns (element_microns_partial) and for Quantity columns of the quantum efficiency (qe_partial). False otherwise: in a unit of k microns an element has at w the transmission described at k w (transmission_scaled), and none if the numbers lie outside the grid (element_blank, channel_blank, demo_blank)."
  },
  {
   "property": "C116",
   "status": "partial",
   "theorems": [
    "ExoRad.Slash.write_keeps",
    "ExoRad.Slash.plain_name_partial",
    "ExoRad.Slash.slash_stored_partial",
    "ExoRad.Slash.slash_not_selected",
    "ExoRad.Slash.slash_draws_nothing",
    "ExoRad.Slash.slash_stops_plots",
    "ExoRad.Slash.absolute_lost",
    "ExoRad.Slash.inside_other",
    "ExoRad.Slash.Demo.inside",
    "ExoRad.Slash.Demo.mixed",
    "ExoRad.Slash.Demo.beside",
    "ExoRad.Slash.Demo.selects"
   ],
   "note": "Holds for names of one component (plain_name_partial). Writing never loses or changes stored data (write_keeps), and a name with slashes is readable as a path (slash_stored_partial). False for names with slashes: slash_not_selected, slash_draws_nothing, slash_stops_plots, absolute_lost, inside_other, Demo.mixed. Names without any component ('', '.', '/') are not modelled. That h5py takes a name for a path is assumed (Model/Slash)."
  },
  {
   "property": "C117",
   "status": "partial",
   "theorems": [
    "ExoRad.RebinInt.bin_area_partial",
    "ExoRad.RebinInt.integral_kept_partial",
    "ExoRad.RebinInt.bin_bounds_partial",
    "ExoRad.RebinInt.line_between",
    "ExoRad.RebinInt.last_bin_negative",
    "ExoRad.RebinInt.first_bin_whole",
    "ExoRad.RebinInt.Demo.demo_negative",
    "ExoRad.RebinInt.Demo.demo_uneven"
   ],
   "note": "Holds for bins between the second and the last of the samples that count (bin_area_partial, integral_kept_partial, bin_bounds_partial). False at the ends: last_bin_negative, first_bin_whole, demo_negative; and for grids without constant step: demo_uneven. Units are not modelled (both arguments must have the same). Nothing else in the package calls rebin_."
  },
  {
   "property": "C118",
   "status": "partial",
   "theorems": [
    "ExoRad.Mpi.scatter_pieces",
    "ExoRad.Mpi.gather_scatter",
    "ExoRad.Mpi.scatter_short",
    "ExoRad.Mpi.scatter_long",
    "ExoRad.Mpi.scatter_from_root",
    "ExoRad.Mpi.without_mpi",
    "ExoRad.Mpi.with_mpi"
   ],
   "note": "Holds if all processes pass the same list with one piece for each (scatter_pieces, gather_scatter), and for shorter lists (scatter_short). False for longer lists (scatter_long) and if only the root has the list (scatter_from_root). The behaviour of mpi4py's collective calls is assumed, as stated in Model/Mpi. The pipeline does not use this module."
  },
  {
   "property": "C119",
   "status": "partial",
   "theorems": [
    "ExoRad.SlashChannel.plain_channel_partial",
    "ExoRad.SlashChannel.slash_not_loaded",
    "ExoRad.SlashChannel.Demo.written"
   ],
   "note": "Names of one component are written as in the other properties (plain_channel_partial), for which loading is C51, C70 and C79. With a slash the payload can be written but never loaded, unless another channel is called like the first component (slash_not_loaded). Names that begin with a slash or have no component are not modelled."
  }
 ]
}