{
 "claims": [
  {
   "property": "C01",
   "status": "proved",
   "theorems": [
    "Flame.Conf.C01_lookups_refine_values",
    "Flame.Conf.C01_call_changes_no_other_lookup",
    "Flame.Conf.C01_history_changes_no_other_lookup"
   ],
   "note": "Refinement to heap-free values for all histories without swapAny; the frame form covers swapAny as well."
  },
  {
   "property": "C02",
   "status": "partial",
   "theorems": [
    "Flame.Conf.C02_enumeration_refines_values_partial",
    "Flame.Conf.C02_false"
   ],
   "note": "False for the code: flatten() writes through a shared map (C02_false). Proved for all histories in which flatten/push_scope is called on unshared maps."
  },
  {
   "property": "C03",
   "status": "proved",
   "theorems": [
    "Flame.Conf.C03_new_scope",
    "Flame.Conf.C03_child_keeps_its_view",
    "Flame.Conf.C03_set_shadows",
    "Flame.Conf.C03_flatten_push_keep_lookups"
   ],
   "note": ""
  },
  {
   "property": "C04",
   "status": "proved",
   "theorems": [
    "Flame.Conf.C04_get",
    "Flame.Conf.C04_get_default",
    "Flame.Conf.C04_tryGet"
   ],
   "note": ""
  },
  {
   "property": "C05",
   "status": "partial",
   "theorems": [
    "Flame.Conf.C05_swapAny",
    "Flame.Conf.C05_swapT_false",
    "Flame.Conf.C05_swapT_loses_old_value"
   ],
   "note": "swapAny proved; swap<T> never returns the old value (negation proved; swap<double> does not even compile)."
  },
  {
   "property": "C06",
   "status": "proved",
   "theorems": [
    "Flame.Glps.C06_roundtrip",
    "Flame.Glps.C06_roundtrip_end",
    "Flame.Glps.C06_gaps"
   ],
   "note": "Any token list printed with admissible gaps is scanned back to itself."
  },
  {
   "property": "C07",
   "status": "proved",
   "theorems": [
    "Flame.Glps.C07_scan",
    "Flame.Glps.C07_complete",
    "Flame.Glps.C07_rejected"
   ],
   "note": "The scanner is exactly the longest-match specification; a text it rejects is never accepted."
  },
  {
   "property": "C08",
   "status": "proved",
   "theorems": [
    "Flame.Glps.C08_parse_print",
    "Flame.Glps.C08_grammar",
    "Flame.Glps.C08_unambiguous",
    "Flame.Glps.C08_left",
    "Flame.Glps.C08_tight"
   ],
   "note": "Parser sound, complete and unambiguous for the grammar; minimal-parentheses print is parsed back."
  },
  {
   "property": "C09",
   "status": "proved",
   "theorems": [
    "Flame.Glps.C09_single_assignment",
    "Flame.Glps.C09_variable_means_its_value",
    "Flame.Glps.C09_redefinition",
    "Flame.Glps.C09_define_before_use"
   ],
   "note": "invariant over any statement list; redefinition leaves the old value and is an error"
  },
  {
   "property": "C10",
   "status": "proved",
   "theorems": [
    "Flame.Glps.C10_members_defined",
    "Flame.Glps.C10_defined_earlier",
    "Flame.Glps.C10_no_missing_element"
   ],
   "note": ""
  },
  {
   "property": "C100",
   "status": "partial",
   "theorems": [
    "Flame.Util.C100_scalar_partial",
    "Flame.Util.C100_refused_false"
   ],
   "note": "Stored exactly if no exception, and values of other types leave the attribute alone. Missing because false: integers that do not fit are refused but change the attribute, and deleting an attribute is undefined."
  },
  {
   "property": "C101",
   "status": "proved",
   "theorems": [
    "Flame.Cavity.C101_arrival"
   ],
   "note": "Forward propagations through a new machine; the energies have to be positive for the phases, as in C65."
  },
  {
   "property": "C102",
   "status": "proved",
   "theorems": [
    "Flame.Freq.C102_unit",
    "Flame.Freq.C102_growth_false"
   ],
   "note": "C102_unit for lattices without EmitGrowth; C102_growth_false shows that the exception is needed. A source without a list of charge states has to be given its covariance (C54)."
  },
  {
   "property": "C103",
   "status": "partial",
   "theorems": [
    "Flame.Sext.C103_slices",
    "Flame.Sext.C103_thick_partial",
    "Flame.Sext.C103_stale_false"
   ],
   "note": "C103_slices for thin lenses (whole runs). For thick lenses only C103_thick_partial (one element, no charge state at x = 0 where it is cut); C103_stale_false shows that the restriction is needed."
  },
  {
   "property": "C104",
   "status": "partial",
   "theorems": [
    "Flame.Sext.C104_centroid_partial",
    "Flame.Sext.C104_covariance_half",
    "Flame.Sext.C104_covariance_false",
    "Flame.Sext.C104_thick_false"
   ],
   "note": "The centroid follows the equations of motion (C104_centroid_partial), for thick lenses only if the bunch is displaced horizontally or not vertically (C104_thick_false). The covariance changes as in a sextupole of half the strength (C104_covariance_half), so that no strength fits both (C104_covariance_false)."
  },
  {
   "property": "C105",
   "status": "proved",
   "theorems": [
    "Flame.H5.C105_load",
    "Flame.H5.C105_readable",
    "Flame.H5.C105_column",
    "Flame.H5.C105_table",
    "Flame.H5.C105_refused",
    "Flame.H5.C105_vector",
    "Flame.H5.C105_matrix",
    "Flame.H5.C105_moment"
   ],
   "note": "For moment simulations the parameters of the whole beam; the parameters of single charge states are recorded wrongly already (C69). An empty data set is undefined behaviour in the code and in the model. Conversion to double is exact in the model."
  },
  {
   "property": "C106",
   "status": "partial",
   "theorems": [
    "Flame.Glps.C106_scanner",
    "Flame.Glps.C106_statement",
    "Flame.Glps.C106_context",
    "Flame.Glps.C106_reported_partial",
    "Flame.Glps.C106_printed",
    "Flame.Glps.C106_operation_false"
   ],
   "note": "Operations that write their message themselves are reported for line 0 or for the line of an earlier error (C106_operation_false), so the theorem on messages excludes them; gentle_of_calm shows its hypothesis from the text of the file. Not covered: the line of syntax errors, and for failing expressions the exact line between first token and semicolon."
  },
  {
   "property": "C107",
   "status": "partial",
   "theorems": [
    "Flame.Steady.C107_steady_partial",
    "Flame.Steady.C107_backward_partial",
    "Flame.Steady.C107_bend_false",
    "Flame.Steady.C107_thick_false"
   ],
   "note": "False for sector magnets whose gradient passes the value of vanishing horizontal focusing (C107_bend_false), and for sextupoles of thick lenses when a bunch that is displaced vertically passes the horizontal axis position zero (C107_thick_false). Not covered: cavities and strippers. Sextupoles are those of thin lenses. C107_backward_partial is the same for propagation backward, where a sextupole or a singular matrix gives an exception. Bends must have a length and an angle, faces that are not parallel to the beam, and electrodes with spher at most 2; an electrostatic quadrupole must not have the radius zero, and there must be no exception."
  },
  {
   "property": "C108",
   "status": "partial",
   "theorems": [
    "Flame.Glps.C108_depth",
    "Flame.Glps.C108_unique",
    "Flame.Glps.C108_meaning",
    "Flame.Glps.C108_needs",
    "Flame.Glps.C108_paths",
    "Flame.Glps.C108_unreadable",
    "Flame.Glps.C108_ends",
    "Flame.Glps.C108_circle",
    "Flame.Glps.C108_moved",
    "Flame.Glps.C108_stdin",
    "Flame.Glps.C108_dash",
    "Flame.Glps.C108_false",
    "Flame.Glps.C108_dash_false"
   ],
   "note": "Everything is proved for all file systems except where the code fails: files that use each other in a circle are parsed without end until the stack is used up (C108_circle, C108_false), and the name \"-\" is resolved as a file before it is taken for the standard input (C108_dash, C108_dash_false). Not covered: what nested files print, and files that change while they are parsed."
  },
  {
   "property": "C109",
   "status": "partial",
   "theorems": [
    "Flame.Tools.C109_result",
    "Flame.Tools.C109_group_partial",
    "Flame.Tools.C109_plain",
    "Flame.Tools.C109_missing_false",
    "Flame.Tools.C109_absolute_false",
    "Flame.Tools.C109_local_false"
   ],
   "note": "C109_result says what h5file gives for all texts and file systems. As documented it works for a file followed by a group, and for an existing file in a directory. It is false for a missing file in an existing directory (no error), for an absolute path of which no directory exists (a path below the directory of the lattice file), and for a file beside the lattice file (exception). Links are resolved in the directory only."
  },
  {
   "property": "C11",
   "status": "proved",
   "theorems": [
    "Flame.Glps.C11_line_concatenates",
    "Flame.Glps.C11_reverse",
    "Flame.Glps.C11_repeat",
    "Flame.Glps.C11_bad_factor"
   ],
   "note": ""
  },
  {
   "property": "C110",
   "status": "partial",
   "theorems": [
    "Flame.Python.C110_call_partial",
    "Flame.Python.C110_bad_index",
    "Flame.Python.C110_max_false",
    "Flame.Python.C110_backward_false",
    "Flame.Python.C110_undefined_false",
    "Flame.Python.C110_bad_max_false",
    "Flame.Python.C110_start_false"
   ],
   "note": "With start below 2^64, |max| below 2^31 and indices of elements the call from Python is the C++ function, with its list of observed states. The code is wrong for other values: max is cut to 32 bits and start to 64 without notice, 2147483648 is undefined behaviour, and a max that is no integer raises an exception only after the beam has been moved one element backward. Not covered: an iterator that raises an exception itself."
  },
  {
   "property": "C111",
   "status": "partial",
   "theorems": [
    "Flame.Tools.C111_tool_partial",
    "Flame.Tools.C111_tool_false",
    "Flame.Tools.C111_console",
    "Flame.Tools.C111_python_false",
    "Flame.Tools.C111_python_same"
   ],
   "note": "Levels are as expected when the tool is built with HDF5. Built without it, which is the default, the verbosity has no effect on messages (C111_tool_false). In Python every message loses its last character (C111_python_false). Not covered: threads, and integer overflow for verbosities beyond 200 million."
  },
  {
   "property": "C112",
   "status": "partial",
   "theorems": [
    "Flame.Vaccel.Status.C112_message_partial",
    "Flame.Vaccel.Status.C112_message_false",
    "Flame.Vaccel.Status.C112_runtime_partial",
    "Flame.Vaccel.Status.C112_runtime_false",
    "Flame.Vaccel.Status.C112_count_partial",
    "Flame.Vaccel.Status.C112_count_false",
    "Flame.Vaccel.Status.C112_connect"
   ],
   "note": "Refinement: records after any history of runs and readings are functions of the runs of the history. Partial because the code differs: LastMsg keeps the error of an earlier run after a run without error (and cuts messages that do not fit), Runtime shows -1 as a defined value before the first run, Runcount counts how often it is processed. Shown by the _false theorems."
  },
  {
   "property": "C113",
   "status": "partial",
   "theorems": [
    "Flame.Tools.C113_argument",
    "Flame.Tools.C113_argument_all",
    "Flame.Tools.C113_directory_false",
    "Flame.Tools.C113_succeeds",
    "Flame.Tools.C113_stored",
    "Flame.Tools.C113_other_files",
    "Flame.Tools.C113_no_input",
    "Flame.Tools.C113_keeps",
    "Flame.Tools.C113_force_partial",
    "Flame.Tools.C113_force_false",
    "Flame.Tools.C113_loader",
    "Flame.Tools.C113_group"
   ],
   "note": "Proved for all disks, arguments and data, except where the script fails: the file cannot be in another directory (C113_directory_false), and --force with the name of a group deletes the whole group (C113_force_false). Assumed: h5py and HDF5 treat paths, missing groups and existing names as modelled; attributes and links are left out."
  },
  {
   "property": "C114",
   "status": "partial",
   "theorems": [
    "Flame.Vaccel.Instances.C114_instances",
    "Flame.Vaccel.Instances.C114_stays",
    "Flame.Vaccel.Instances.C114_refused",
    "Flame.Vaccel.Instances.C114_apart",
    "Flame.Vaccel.Instances.C114_messages",
    "Flame.Vaccel.Instances.C114_no_lattice_false"
   ],
   "note": "Proved for all sequences of commands. It fails for flamePrepare without a lattice, which reads the standard input of the server instead of being refused (C114_no_lattice_false). What reading a lattice gives is left to C90 and C108; what flameShow prints of a machine is not modelled."
  },
  {
   "property": "C115",
   "status": "partial",
   "theorems": [
    "Flame.Plot.C115_kind",
    "Flame.Plot.C115_kind_false",
    "Flame.Plot.C115_argument",
    "Flame.Plot.C115_moment_partial",
    "Flame.Plot.C115_vector_partial",
    "Flame.Plot.C115_run_partial",
    "Flame.Plot.C115_moment_run_partial",
    "Flame.Plot.C115_python3_false",
    "Flame.Plot.C115_other_false",
    "Flame.Plot.C115_packed_data",
    "Flame.Plot.C115_packed_partial",
    "Flame.Plot.C115_packed_group_false",
    "Flame.Plot.C115_positions_false"
   ],
   "note": "The code violates it: setAttr reads 16 bytes from shorter strings, the script recognises no name with Python 3 and raises an exception for other kinds of simulation, tlm2h5 puts the name on the root group and accepts tables with different positions. The positive theorems are for Python 2 with empty memory behind the name; from the run to the plot for Vector simulations, and for moment simulations with HDF5 since 1.8."
  },
  {
   "property": "C116",
   "status": "partial",
   "theorems": [
    "Flame.Listing.C116_listing_partial",
    "Flame.Listing.C116_listing_false",
    "Flame.Listing.C116_listed",
    "Flame.Listing.C116_numbered",
    "Flame.Listing.C116_parsed",
    "Flame.Listing.C116_loaded"
   ],
   "note": "The code violates it for texts with line breaks (C116_listing_false), since quotes and line breaks are not escaped. Proved for names without blanks and texts without line breaks. C116_loaded shows that everything read from a lattice file and the files it uses is of this kind, if paths and given variables are."
  },
  {
   "property": "C117",
   "status": "proved",
   "theorems": [
    "Flame.Flip.C117_symmetric"
   ],
   "note": "Bends have to be vertical: a horizontal bend tells left from right."
  },
  {
   "property": "C118",
   "status": "proved",
   "theorems": [
    "Flame.Level.C118_mirror",
    "Flame.Level.C118_flat",
    "Flame.Level.C118_cavity_false"
   ],
   "note": "Mirror that exchanges up and down, for all element types but cavities (the property does not speak of cavities: C118_cavity_false shows that the dipole field of a cavity lifts a beam on the axis); flat beams follow as the beams that are their own images."
  },
  {
   "property": "C12",
   "status": "proved",
   "theorems": [
    "Flame.Glps.C12_unique",
    "Flame.Glps.C12_order_irrelevant",
    "Flame.Glps.C12_type_correct",
    "Flame.Glps.C12_no_type_error"
   ],
   "note": ""
  },
  {
   "property": "C13",
   "status": "partial",
   "theorems": [
    "Flame.Glps.C13_all_correct",
    "Flame.Glps.C13_any_fault",
    "Flame.Glps.C13_faulty_statement",
    "Flame.Glps.C13_no_false_error",
    "Flame.Glps.C13_first_error_partial",
    "Flame.Glps.C13_overwriting",
    "Flame.Glps.C13_first_error_calm",
    "Flame.Glps.C13_false"
   ],
   "note": "All-or-nothing proved. That the first error is the reported one is false (C13_false: a later failing operator overwrites it); it is proved for files that show by their text that this cannot happen (C13_first_error_calm, C13_overwriting), and in general up to that case (C13_first_error_partial)."
  },
  {
   "property": "C14",
   "status": "proved",
   "theorems": [
    "Flame.Glps.C14_exact",
    "Flame.Glps.C14_unique",
    "Flame.Glps.C14_errors"
   ],
   "note": "full refinement from text to the configuration"
  },
  {
   "property": "C15",
   "status": "proved",
   "theorems": [
    "Flame.Glps.C15_setVar_is_definition",
    "Flame.Glps.C15_setVar_last"
   ],
   "note": ""
  },
  {
   "property": "C16",
   "status": "proved",
   "theorems": [
    "Flame.Glps.C16_leftmost",
    "Flame.Glps.C16_order"
   ],
   "note": ""
  },
  {
   "property": "C17",
   "status": "partial",
   "theorems": [
    "Flame.Glps.C17_roundtrip_partial",
    "Flame.Glps.C17_stable",
    "Flame.Glps.C17_false"
   ],
   "note": "Proved for every parsed lattice whose line members are labelled neither USE nor like a printed variable; without that condition the claim is false (C17_false gives three lattices)."
  },
  {
   "property": "C18",
   "status": "proved",
   "theorems": [
    "Flame.Mach.C18_machine_matches_lattice",
    "Flame.Mach.C18_success_iff",
    "Flame.Mach.C18_otherwise_throws"
   ],
   "note": "For every registry, configuration reader and class behaviour; after registration histories the only other outcome is an exception."
  },
  {
   "property": "C19",
   "status": "proved",
   "theorems": [
    "Flame.Mach.C19_lookups_exact",
    "Flame.Mach.C19_python_find"
   ],
   "note": ""
  },
  {
   "property": "C20",
   "status": "partial",
   "theorems": [
    "Flame.Mach.C20_lookups_after_reconfigure_partial",
    "Flame.Mach.C20_false"
   ],
   "note": "False for the code when a reconfigure renames an element (C20_false). Type lookup exact after every history, name lookup exact for histories that keep names."
  },
  {
   "property": "C21",
   "status": "partial",
   "theorems": [
    "Flame.Mach.C21_reconfigure_one_or_nothing",
    "Flame.Mach.C21_reconfigure_fresh_partial",
    "Flame.Mach.C21_history_keeps_structure",
    "Flame.Mach.C21_shipped_classes_assign_all",
    "Flame.Mach.C21_false",
    "Flame.Linear.C21_linear_fresh",
    "Flame.Linear.C21_linear_source_false",
    "Flame.Cavity.C21_cavity",
    "Flame.Cavity.C89_reuse"
   ],
   "note": "Atomicity and structure proved for all classes; \"behaves as freshly built\" needs a complete assign(), which the Vector/TransferMatrix source lacks (C21_false). The RF cavity's assign() is incomplete too, but what it leaves out is reloaded before use, so it does behave as freshly built (C21_cavity, all histories)."
  },
  {
   "property": "C22",
   "status": "proved",
   "theorems": [
    "Flame.Mach.C22_forward"
   ],
   "note": ""
  },
  {
   "property": "C23",
   "status": "proved",
   "theorems": [
    "Flame.Mach.C23_split_anywhere",
    "Flame.Mach.C23_split_straight",
    "Flame.Mach.C23_split_past_end"
   ],
   "note": "Splitting at next_elem for arbitrary direction-keeping classes; at s+a for classes that do not redirect; past the end everything but next_elem agrees (the exception is stated in the property)."
  },
  {
   "property": "C24",
   "status": "proved",
   "theorems": [
    "Flame.Mach.C24_bounded",
    "Flame.Mach.C24_backward"
   ],
   "note": "max=INT_MIN is undefined behaviour and separate."
  },
  {
   "property": "C25",
   "status": "proved",
   "theorems": [
    "Flame.Mach.C25_one_view_per_passage",
    "Flame.Mach.C25_observers_do_not_influence",
    "Flame.Mach.C25_python_observe",
    "Flame.Mach.C25_python_bad_index"
   ],
   "note": ""
  },
  {
   "property": "C26",
   "status": "proved",
   "theorems": [
    "Flame.Mach.C26_registry_refines",
    "Flame.Mach.C26_unrelated_registrations",
    "Flame.Mach.C26_existing_machines_unaffected",
    "Flame.Mach.C26_cleanup_breaks_existing_machines"
   ],
   "note": "The last theorem records that reconfigure after registeryCleanup is undefined behaviour."
  },
  {
   "property": "C27",
   "status": "proved",
   "theorems": [
    "Flame.Linear.C27_agree",
    "Flame.Linear.C27_product",
    "Flame.Linear.C30_linear_machine"
   ],
   "note": "Machines built from the same lattice without sources; any start, range and direction. Doubles are reals."
  },
  {
   "property": "C28",
   "status": "proved",
   "theorems": [
    "Flame.Linear.C28_symplectic",
    "Flame.Linear.C28_planes"
   ],
   "note": "The full matrix is symplectic with determinant 1, decoupled planes separately. A bend of length 0 gives NaN in the code and is excluded."
  },
  {
   "property": "C29",
   "status": "proved",
   "theorems": [
    "Flame.Linear.C29_split",
    "Flame.Linear.C29_split_bend"
   ],
   "note": "Also for bends of constant radius."
  },
  {
   "property": "C30",
   "status": "proved",
   "theorems": [
    "Flame.Linear.C30_linear_machine",
    "Flame.Linear.C30_linear_position",
    "Flame.Linear.C30_linear_source",
    "Flame.Moment.C30_moment_machine",
    "Flame.Moment.C30_moment_position",
    "Flame.Moment.C30_moment_source",
    "Flame.Moment.measured_stripper",
    "Flame.Cavity.C30_moment_full"
   ],
   "note": "Linear and moment simulations, from the configured lattice, for all element types; a source sets the position (C30_linear_source, C30_moment_source). C30_moment_full is the moment simulation as registered, with cavities and strippers."
  },
  {
   "property": "C31",
   "status": "partial",
   "theorems": [
    "Flame.Linear.C31_linear_false",
    "Flame.Linear.C31_linear_partial",
    "Flame.Moment.C31_moment_partial",
    "Flame.Moment.C31_moment_machine_partial",
    "Flame.Moment.C31_moment_false",
    "Flame.Cavity.C31_cavity_partial",
    "Flame.Cavity.C31_cavity_machine_partial",
    "Flame.Cavity.C31_cavity_regular",
    "Flame.Cavity.C31_cavity_moving",
    "Flame.Cavity.C31_stripper_false",
    "Flame.Cavity.C31_tilted_false",
    "Flame.Cavity.C31_growth",
    "Flame.Cavity.C31_growth_false"
   ],
   "note": "False in the linear simulations, which ignore the direction. In the moment simulation false for sources (not undone), sextupoles and strippers (throw on the way back), yawed cavities (C31_tilted_false) and cavities in which the emittance grows (C31_growth_false; C31_growth says when the covariance comes back). Proved for every run of all other elements, RF cavities included, with caches that were not filled by an earlier backward pass; the phase recorded for the last cavity is not restored."
  },
  {
   "property": "C32",
   "status": "proved",
   "theorems": [
    "Flame.Linear.C32_initial"
   ],
   "note": ""
  },
  {
   "property": "C33",
   "status": "partial",
   "theorems": [
    "Flame.Moment.C33_cache_partial",
    "Flame.Moment.C33_both_sides_false",
    "Flame.Moment.C33_after_error_false",
    "Flame.Cavity.C33_cavity_partial",
    "Flame.Cavity.C31_tilted_false"
   ],
   "note": "Reuse of the cache proved invisible for every history of passes in one direction and reconfigurations in which no pass failed. False otherwise: the direction is not part of the key (C33_both_sides_false), and after a failed recomputation an identical pass uses a stale matrix and an uninitialised reference (C33_after_error_false). For RF cavities all forward passes of every history are covered, with backward passes in between unless the cavity is pitched or yawed (C33_cavity_partial). For a yawed cavity false: a backward pass replaces the stored misalignment, and the same forward pass after it gives another result (last part of C31_tilted_false)."
  },
  {
   "property": "C34",
   "status": "proved",
   "theorems": [
    "Flame.Moment.C34_mixture",
    "Flame.Moment.C34_psd",
    "Flame.Moment.C34_single",
    "Flame.Moment.C34_scale_order"
   ],
   "note": "calc_rms gives mean, covariance and rms of the mixture of the charge states weighted by charge."
  },
  {
   "property": "C35",
   "status": "proved",
   "theorems": [
    "Flame.Moment.C35_transport",
    "Flame.Moment.C35_shared",
    "Flame.Cavity.C35_run",
    "Flame.Cavity.C35_machine"
   ],
   "note": "C35_transport and C35_shared: every element type other than source, RF cavity and stripper, forward and backward, after any history of uses. C35_run and C35_machine: whole propagations that also contain sources and cavities, with or without growth of the emittance. A stripper: C39_psd."
  },
  {
   "property": "C36",
   "status": "proved",
   "theorems": [
    "Flame.Moment.C36_aligned",
    "Flame.Moment.C36_roll",
    "Flame.Moment.C36_frame",
    "Flame.Moment.C36_rigid"
   ],
   "note": "Without misalignment the matrix is unchanged; roll and offsets act as the change to the rolled and displaced frame; with pitch and yaw the entrance transformation is a rigid motion about the centre of the element. For moving particles; at rest the transformation divides by zero."
  },
  {
   "property": "C37",
   "status": "partial",
   "theorems": [
    "Flame.Moment.C37_elements",
    "Flame.Moment.C37_edge",
    "Flame.Moment.C37_sextupole_thin",
    "Flame.Moment.C37_sextupole_thick_partial",
    "Flame.Moment.C37_sextupole_thick_false",
    "Flame.Moment.C37_sextupole_vertical"
   ],
   "note": "Proved for drifts, markers, quadrupoles, solenoids, orbit trims and electric quadrupoles with any misalignment, for edges and for thin sextupoles. A thick sextupole preserves areas where both offsets have the same size; it is false in the horizontal plane. Dipoles are the subject of a separate property."
  },
  {
   "property": "C38",
   "status": "partial",
   "theorems": [
    "Flame.Moment.C38_energy",
    "Flame.Moment.C38_momentum_partial",
    "Flame.Moment.C38_at_rest_false",
    "Flame.Moment.C38_monotone"
   ],
   "note": "The momentum relation fails for a particle at rest, where the code sets bg to 1."
  },
  {
   "property": "C39",
   "status": "partial",
   "theorems": [
    "Flame.Moment.C39_stripper",
    "Flame.Moment.C39_weights_partial",
    "Flame.Moment.C39_weights_false",
    "Flame.Moment.C39_baron",
    "Flame.Moment.C39_psd",
    "Flame.Moment.C39_envelope",
    "Flame.Moment.C39_accepts",
    "Flame.Moment.C39_refuses_back"
   ],
   "note": "Charge states, energy, phase, centroid and covariance as stated for every beam described by clouds of particles. The weights are the configured ones only with charge_model off; with the default model NCharge is ignored (C39_weights_false)."
  },
  {
   "property": "C40",
   "status": "partial",
   "theorems": [
    "Flame.Arrays.C40_moment",
    "Flame.Arrays.C40_linear",
    "Flame.Arrays.C40_wrap",
    "Flame.Arrays.C40_read",
    "Flame.Arrays.C40_write",
    "Flame.Arrays.C40_simulation",
    "Flame.Arrays.C40_machine",
    "Flame.Arrays.C40_empty_false",
    "Flame.Cavity.C40_moment_full"
   ],
   "note": "All three state types, and the Python attributes built from the table. The moment table is fixed while there is a charge state, which simulations with all registered element types keep (C40_moment_full); a stripper configured without charge states makes the table undefined (C40_empty_false)."
  },
  {
   "property": "C41",
   "status": "proved",
   "theorems": [
    "Flame.Util.C41_enumerates",
    "Flame.Util.C41_not_early",
    "Flame.Util.C41_inbounds",
    "Flame.Util.C41_read",
    "Flame.Util.C41_write",
    "Flame.Util.C41_write_read",
    "Flame.Util.C41_empty_dim_false"
   ],
   "note": "Arrays with positive dimensions as the property says; an empty dimension is a finding."
  },
  {
   "property": "C42",
   "status": "partial",
   "theorems": [
    "Flame.Util.C42_exact",
    "Flame.Util.C42_foreign_refused",
    "Flame.Util.C42_unreadable",
    "Flame.Util.C42_readvec",
    "Flame.Util.C42_bad_entry_false",
    "Flame.Util.C42_crlf_false",
    "Flame.Util.C42_reuse_false"
   ],
   "note": "Well formed texts are read exactly, foreign characters and uneven rows are refused; some malformed entries are accepted (negated with witnesses)."
  },
  {
   "property": "C43",
   "status": "partial",
   "theorems": [
    "Flame.Util.Cache.C43_own_path",
    "Flame.Util.Cache.C43_current_partial",
    "Flame.Util.Cache.C43_entries_kept",
    "Flame.Util.Cache.C43_false"
   ],
   "note": "False when the file changes between reading and the second time stamp; proved for all other runs."
  },
  {
   "property": "C44",
   "status": "proved",
   "theorems": [
    "Flame.Cavity.C44_ipow",
    "Flame.Cavity.C44_fit",
    "Flame.Cavity.C44_series",
    "Flame.Cavity.C44_order"
   ],
   "note": ""
  },
  {
   "property": "C45",
   "status": "partial",
   "theorems": [
    "Flame.Cavity.C45_energy",
    "Flame.Cavity.C45_motion",
    "Flame.Cavity.C45_false",
    "Flame.Cavity.C45_gain"
   ],
   "note": "Energy bound and exact description of the motion proved; the phase is not defined at all steps: a particle that comes to rest before the last interval gets NaN (C45_false). A particle with more kinetic energy than the voltage of the field map times its charge always gets through, and changes its energy by at most that (C45_gain)."
  },
  {
   "property": "C46",
   "status": "proved",
   "theorems": [
    "Flame.Vaccel.C46_not_lost",
    "Flame.Vaccel.C46_answered",
    "Flame.Vaccel.C46_request",
    "Flame.Vaccel.C46_stops",
    "Flame.Vaccel.C46_stop_call",
    "Flame.Vaccel.C46_stop_only",
    "Flame.Vaccel.C46_no_superfluous"
   ],
   "note": "Any number of client threads, any schedule. Invariant for the wake-up; liveness under stated fairness of the scheduler, with the simulation itself assumed to return."
  },
  {
   "property": "C47",
   "status": "proved",
   "theorems": [
    "Flame.Vaccel.C47_roundtrip",
    "Flame.Vaccel.C47_initial",
    "Flame.Vaccel.C47_write_back",
    "Flame.Vaccel.C47_others"
   ],
   "note": "Exact arithmetic in any field; the zero special cases of ASLO and ESLO included."
  },
  {
   "property": "C48",
   "status": "partial",
   "theorems": [
    "Flame.Tools.C48_rightmost",
    "Flame.Tools.C48_whole_partial",
    "Flame.Tools.C48_false",
    "Flame.Tools.C48_no_group_false"
   ],
   "note": "Termination and the chosen split are proved whenever the specification has no leading slash or some prefix opens; otherwise the loop never ends, which is proved (C48_false). A specification without group asks for a group named like the file (C48_no_group_false)."
  },
  {
   "property": "C49",
   "status": "partial",
   "theorems": [
    "Flame.Tools.C49_split",
    "Flame.Tools.C49_nonempty_partial",
    "Flame.Tools.C49_false"
   ],
   "note": "Splitting and order proved; empty parts are ignored except an empty last part (C49_false)."
  },
  {
   "property": "C50",
   "status": "proved",
   "theorems": [
    "Flame.Python.C50_roundtrip",
    "Flame.Python.C50_stable",
    "Flame.Python.C50_values",
    "Flame.Python.C50_scope",
    "Flame.Python.C50_depth",
    "Flame.Python.C50_rejected"
   ],
   "note": "At most four levels, keys and strings without NUL. A two dimensional array comes back as its entries in one dimension."
  },
  {
   "property": "C51",
   "status": "partial",
   "theorems": [
    "Flame.Conf.C51_conf_keeps_lookups_partial",
    "Flame.Conf.C51_conf_flattens",
    "Flame.Conf.C51_false"
   ],
   "note": "No lookup changes; enumeration of the stored configuration changes (negation proved)."
  },
  {
   "property": "C52",
   "status": "partial",
   "theorems": [
    "Flame.Mach.C52_copies_complete",
    "Flame.Mach.C52_copies_propagate_alike",
    "Flame.Mach.C52_copies_independent",
    "Flame.Mach.C52_false"
   ],
   "note": "Everything but next_elem (and the internal direction flag) is copied; next_elem is observable and is not, C52_false."
  },
  {
   "property": "C53",
   "status": "partial",
   "theorems": [
    "Flame.Moment.C53_partial",
    "Flame.Moment.C53_false",
    "Flame.Cavity.C53_bend"
   ],
   "note": "A value that is neither a number nor the text of one is not refused but replaced by the default."
  },
  {
   "property": "C54",
   "status": "partial",
   "theorems": [
    "Flame.Moment.C54_accepts",
    "Flame.Moment.C54_refuses_partial",
    "Flame.Moment.C54_contents",
    "Flame.Moment.C54_selection_needs_list",
    "Flame.Moment.C54_single",
    "Flame.Moment.C54_cstate_false",
    "Flame.Moment.C54_uninitialised"
   ],
   "note": "A selected charge state outside the range of size_t is undefined behaviour instead of an error; otherwise complete."
  },
  {
   "property": "C55",
   "status": "partial",
   "theorems": [
    "Flame.Tools.C55_definition",
    "Flame.Tools.C55_refused",
    "Flame.Tools.C55_last",
    "Flame.Tools.C55_overwritten_false"
   ],
   "note": "A definition sets exactly the named variable. The sentence of the help text that the lattice file overwrites definitions is negated: a redefinition is refused."
  },
  {
   "property": "C56",
   "status": "proved",
   "theorems": [
    "Flame.Linear.C56_motion",
    "Flame.Linear.C56_units"
   ],
   "note": "A bend of length 0 gives NaN in the code and is excluded."
  },
  {
   "property": "C57",
   "status": "proved",
   "theorems": [
    "Flame.Linear.C57_generic"
   ],
   "note": ""
  },
  {
   "property": "C58",
   "status": "proved",
   "theorems": [
    "Flame.Moment.C58_orbit",
    "Flame.Moment.C58_machine",
    "Flame.Cavity.C58_run",
    "Flame.Cavity.C58_machine_full",
    "Flame.Cavity.C58_stripper"
   ],
   "note": "C58_run and C58_machine_full: all element types except strippers. C58_stripper: one pass through a stripper, for beams that carry a charge."
  },
  {
   "property": "C59",
   "status": "partial",
   "theorems": [
    "Flame.Moment.C59_sbend",
    "Flame.Moment.C59_sbend_false",
    "Flame.Moment.C59_edipole",
    "Flame.Moment.C59_edipole_false",
    "Flame.Moment.C59_fit",
    "Flame.Moment.C59_fit_false"
   ],
   "note": "Magnetic dipoles: proved for horizontally focusing ones, false for strongly defocusing ones. In fit mode 0 areas are preserved exactly with the momentum bg of the settings (C59_fit), hence not with that of the beam if they differ (C59_fit_false). Electrostatic dipoles preserve areas only with a weight of their own."
  },
  {
   "property": "C60",
   "status": "partial",
   "theorems": [
    "Flame.Moment.C60_emittance",
    "Flame.Moment.C60_machine",
    "Flame.Moment.C60_asym",
    "Flame.Moment.C60_sextupole_false"
   ],
   "note": "Proved for all elements without acceleration except three kinds. Electrostatic dipoles with asym_fac kappa multiply the emittance by (1+kappa)^6 (C60_asym); thick sextupoles can increase it (C60_sextupole_false); matrices of the user can be anything."
  },
  {
   "property": "C61",
   "status": "proved",
   "theorems": [
    "Flame.Cavity.C61_boost",
    "Flame.Cavity.C61_particle",
    "Flame.Cavity.C61_reference",
    "Flame.Cavity.C61_off"
   ],
   "note": ""
  },
  {
   "property": "C62",
   "status": "proved",
   "theorems": [
    "Flame.Cavity.C62_generic",
    "Flame.Cavity.C62_twogap",
    "Flame.Cavity.C62_jump",
    "Flame.Cavity.C62_cavity",
    "Flame.Cavity.C62_regular",
    "Flame.Cavity.C62_aperture"
   ],
   "note": "For the two gap cavities the lattice must hold one gap before and one behind the middle. C62_aperture is about builds with assertions: a failed assert is an error in the model, and the default build leaves asserts out."
  },
  {
   "property": "C63",
   "status": "proved",
   "theorems": [
    "Flame.Cavity.C63_disc",
    "Flame.Cavity.C63_centre",
    "Flame.Cavity.C63_derivative",
    "Flame.Cavity.C63_mirror",
    "Flame.Cavity.C63_gain"
   ],
   "note": ""
  },
  {
   "property": "C64",
   "status": "proved",
   "theorems": [
    "Flame.Moment.C64_phase",
    "Flame.Moment.C64_slip",
    "Flame.Moment.C64_drift",
    "Flame.Moment.C64_quadrupole",
    "Flame.Moment.C64_solenoid",
    "Flame.Moment.C64_equad",
    "Flame.Moment.C64_orbtrim"
   ],
   "note": "Displacements and roll included; pitch and yaw are assumed zero."
  },
  {
   "property": "C65",
   "status": "proved",
   "theorems": [
    "Flame.Moment.C65_flight",
    "Flame.Moment.C65_derived"
   ],
   "note": "Single pass of any element except source, stripper and cavity."
  },
  {
   "property": "C66",
   "status": "proved",
   "theorems": [
    "Flame.Cavity.C66_pass",
    "Flame.Cavity.C66_built",
    "Flame.Cavity.C66_succeeds"
   ],
   "note": "The agreement of the longitudinal centroid with the particles is for cavities without pitch and yaw; the map of the covariance is for EmitGrowth 0. The motion in the field is the discrete one of C45_motion. C66_succeeds is for EmitGrowth 0; C68_succeeds is for any."
  },
  {
   "property": "C67",
   "status": "proved",
   "theorems": [
    "Flame.Cavity.C67_time_origin",
    "Flame.Cavity.C67_fixed_phase_false"
   ],
   "note": "Forward runs. All strippers but the last must have configured charges (charge_model off, nonzero total) and the beam a nonzero total charge: otherwise the average of the particles behind a stripper divides by zero. C67_fixed_phase_false shows that the condition on cavities is needed."
  },
  {
   "property": "C68",
   "status": "partial",
   "theorems": [
    "Flame.Cavity.C68_growth_partial",
    "Flame.Cavity.C68_pass_partial",
    "Flame.Cavity.C68_rolled_partial",
    "Flame.Cavity.C68_shifted_partial",
    "Flame.Cavity.C68_succeeds",
    "Flame.Cavity.C68_energy_false",
    "Flame.Cavity.C68_roll_false"
   ],
   "note": "The angles: proved for cavities that are in place or shifted (C68_pass_partial, C68_shifted_partial). In a rolled cavity the code takes the mean squares of the coordinates of the beamline instead of those in the frame of the cavity: C68_rolled_partial says what it does, C68_roll_false that this is not the spread of the deflections. The energy spread: the claim that it does not shrink is false near a bunching phase of -90 degrees (C68_energy_false) and proved wherever 72 cos^2 + D sin of the phase is not negative. Missing: cavities with pitch or yaw as a whole; C68_growth_partial, on which the others rest, is for any covariance at the cavity."
  },
  {
   "property": "C69",
   "status": "partial",
   "theorems": [
    "Flame.H5.C69_recorded",
    "Flame.H5.C69_vector",
    "Flame.H5.C69_matrix",
    "Flame.H5.C69_moment_partial",
    "Flame.H5.C69_several",
    "Flame.H5.C69_several_false",
    "Flame.H5.C69_shrink",
    "Flame.H5.C69_shrink_false"
   ],
   "note": "Complete for sim_type Vector and TransferMatrix. For moment states: the parameters of the whole beam always, all parameters if there is one charge state. False for several charge states: append ignores the strides, so the entries of the second and later charge states are other numbers (C69_several_false), and rows lose charge states when their number falls later and the library shrinks data sets (C69_shrink_false)."
  },
  {
   "property": "C70",
   "status": "partial",
   "theorems": [
    "Flame.Tools.C70_selected",
    "Flame.Tools.C70_shown",
    "Flame.Tools.C70_formats",
    "Flame.Tools.C70_timeit",
    "Flame.Tools.C70_timeit_false",
    "Flame.Tools.C70_vector_file",
    "Flame.Tools.C70_moment_file_partial"
   ],
   "note": "Selection, order of the output, formats and the content of HDF5 files are proved. With --timeit the property is false: the tool simulates a second time from the final state and outputs twice (C70_timeit_false; C70_timeit says exactly what is shown). HDF5 output with several charge states inherits the defect of C69."
  },
  {
   "property": "C71",
   "status": "partial",
   "theorems": [
    "Flame.Tools.C71_printed",
    "Flame.Tools.C71_vector",
    "Flame.Tools.C71_moment_partial",
    "Flame.Tools.C71_instead",
    "Flame.Tools.C71_false"
   ],
   "note": "Proved for all parameters that are numbers, vectors or matrices. False for moment1 and transmat (three dimensions) and for misspelt names: the first parameter, moment1_env, is printed instead (C71_instead for all such names, C71_false)."
  },
  {
   "property": "C72",
   "status": "proved",
   "theorems": [
    "Flame.Cavity.C72_generic",
    "Flame.Cavity.C72_twogap",
    "Flame.Cavity.C72_particle_generic",
    "Flame.Cavity.C72_particle_twogap",
    "Flame.Cavity.C72_pass_generic",
    "Flame.Cavity.C72_pass_twogap"
   ],
   "note": "Rays are followed piece by piece with slopes given as derivatives of the wave number and of the energy gain. Transit time factors of the gaps and lenses of the built-in cavities are taken as functions of the wave number (their tables are the subject of C44 and C63). Remarks on the physics in DESIGN.md."
  },
  {
   "property": "C73",
   "status": "proved",
   "theorems": [
    "Flame.Cavity.C73_drive"
   ],
   "note": "For a cavity as built from its settings, with the data files as arbitrary functions from names to contents. Whether the lag leads to the nominal phase at the gap is a matter of the fits, not of the code."
  },
  {
   "property": "C74",
   "status": "partial",
   "theorems": [
    "Flame.Moment.C74_sbend_partial",
    "Flame.Moment.C74_false"
   ],
   "note": "Proved for elements without pitch and yaw and bends that focus horizontally as a whole (K plus the square of the curvature positive). No bend that defocuses solves the equations of motion (C74_false); between the two the code divides by zero. In fit mode 0 the slip is that of the design energy only if the reference particle has this energy; this is part of the theorem."
  },
  {
   "property": "C75",
   "status": "partial",
   "theorems": [
    "Flame.Moment.C75_edipole_partial",
    "Flame.Moment.C75_edipole_false",
    "Flame.Moment.C75_states_partial",
    "Flame.Moment.C75_length_false"
   ],
   "note": "The equations of motion hold with deviations that are proved to be such: the relativistic term of the horizontal focusing is inverted, the effect on the phase is scaled by gamma/(1+gamma), and a charge state whose squared velocity per charge is not that of the design particle flies another length. C75_states_partial covers every charge, energy and design velocity. Not covered: spher of at least 1 + gamma^2, where the code takes the root of a number that is not positive."
  },
  {
   "property": "C76",
   "status": "proved",
   "theorems": [
    "Flame.Vaccel.C76_unambiguous",
    "Flame.Vaccel.C76_round_trip"
   ],
   "note": "The patterns of measurement, orbit, setting and element records; the match itself is that of boost::regex and is given by what the pattern says. Digits above the range of size_t are refused."
  },
  {
   "property": "C77",
   "status": "proved",
   "theorems": [
    "Flame.Vaccel.C77_connect",
    "Flame.Vaccel.C77_reading",
    "Flame.Vaccel.C77_shows",
    "Flame.Vaccel.C77_alarm",
    "Flame.Vaccel.C77_setup",
    "Flame.Vaccel.C77_moment"
   ],
   "note": "For all histories of connections, changes of elements and simulations. Elements must not redirect the beam, which holds of all classes of the moment simulation; the last theorems show that every lattice of the moment simulation meets the hypotheses and that the states have all parameters."
  },
  {
   "property": "C78",
   "status": "proved",
   "theorems": [
    "Flame.Vaccel.C78_connect",
    "Flame.Vaccel.C78_reading",
    "Flame.Vaccel.C78_shows",
    "Flame.Vaccel.C78_alarm",
    "Flame.Vaccel.C78_indices"
   ],
   "note": "As C77. Entries without a value keep what was in the waveform before, with an alarm."
  },
  {
   "property": "C79",
   "status": "partial",
   "theorems": [
    "Flame.Cavity.C79_table",
    "Flame.Cavity.C79_few",
    "Flame.Cavity.C79_choice",
    "Flame.Cavity.C79_disc",
    "Flame.Cavity.C79_direction",
    "Flame.Cavity.C79_gap_choice",
    "Flame.Cavity.C79_gap",
    "Flame.Cavity.C79_gain",
    "Flame.Cavity.C79_mirror",
    "Flame.Cavity.C79_length",
    "Flame.Cavity.C79_one_gap_false"
   ],
   "note": "All fits the code uses, on the whole of their ranges, by Bernstein coefficients and monotone powers. Partial because the fits of both gaps together have two wrong signs (C79_one_gap_false); the code offers them but never asks for them. Tables are evenly spaced. How closely the fits follow the tables of the same cavity is not covered."
  },
  {
   "property": "C80",
   "status": "partial",
   "theorems": [
    "Flame.Moment.C80_weights",
    "Flame.Moment.C80_order",
    "Flame.Moment.C80_mean",
    "Flame.Moment.C80_accepts_partial",
    "Flame.Moment.C80_accepts_iff",
    "Flame.Moment.C80_fast_false"
   ],
   "note": "Weights against the normal density of Mathlib with mean and variance from a separate statement of the formula of Baron. C80_accepts_iff gives the exact limit of the velocity up to which a beam is accepted, for every number of protons. Partial because above this limit, reached by light or fast ions, the variance of the formula is negative and the weights are not numbers (C80_fast_false)."
  },
  {
   "property": "C81",
   "status": "partial",
   "theorems": [
    "Flame.Cavity.C81_asked",
    "Flame.Cavity.C81_accepts",
    "Flame.Lens.C81_lines",
    "Flame.Cavity.C81_pieces",
    "Flame.Lens.C81_refused",
    "Flame.Lens.C81_short_false",
    "Flame.Lens.C81_crlf_false",
    "Flame.Lens.C81_glued_false",
    "Flame.Cavity.C81_attr_false"
   ],
   "note": "Asked is a separate description of what settings and files say. Partial because lines that end too early, blank lines with a carriage return, numbers with a unit behind them and elements with fewer than twenty attributes are not refused (the _false theorems). Tables of numbers are C42, data files of generic cavities enter as parsed (C06-C15)."
  },
  {
   "property": "C82",
   "status": "partial",
   "theorems": [
    "Flame.Python.C82_reconfigure",
    "Flame.Python.C82_last",
    "Flame.Python.C82_others",
    "Flame.Python.C82_index_partial",
    "Flame.Python.C82_index_false",
    "Flame.Python.C82_alloc",
    "Flame.Python.C82_extra_partial",
    "Flame.Python.C82_extra_false",
    "Flame.Python.C82_no_crash_partial",
    "Flame.Python.C82_crash_false",
    "Flame.Python.C82_missing",
    "Flame.Python.C82_kinds",
    "Flame.Python.C82_alloc_kinds",
    "Flame.Python.C82_extra_text_partial",
    "Flame.Python.C82_parse_kinds"
   ],
   "note": "reconfigure from Python is characterised completely for all machines, registries, dictionaries and indices, and over all histories of calls; allocState for all arguments; extra definitions for all texts. False in three places, proved: indices are taken modulo 2^64, extra definitions are ignored without notice for dictionaries, and Machine dereferences a null pointer for a file opened as text or an extra that is no dictionary."
  },
  {
   "property": "C83",
   "status": "proved",
   "theorems": [
    "Flame.Vaccel.C83_distinct",
    "Flame.Vaccel.C83_refused",
    "Flame.Vaccel.C83_database",
    "Flame.Vaccel.C83_unique",
    "Flame.Vaccel.C83_links",
    "Flame.Vaccel.C83_complete",
    "Flame.Vaccel.C83_index",
    "Flame.Vaccel.C83_markers",
    "Flame.Vaccel.C83_mangler_false",
    "Flame.Vaccel.C83_common_false"
   ],
   "note": "For the default mangler. C83_distinct and C83_refused hold for every mangler; C83_mangler_false shows that links are wrong for others, C83_common_false why a type named common is excluded."
  },
  {
   "property": "C84",
   "status": "proved",
   "theorems": [
    "Flame.Cavity.C84_part",
    "Flame.Cavity.C84_shared"
   ],
   "note": "Machines built from a lattice, any range without source and stripper, forward, both cavity models, misalignments and caches of the first pass included. At a stripper all charge states are replaced by averages over the beam (C39), so the claim ends there."
  },
  {
   "property": "C85",
   "status": "proved",
   "theorems": [
    "Flame.Cavity.C85_follows"
   ],
   "note": "Machines built from a lattice with the shipped registry, forward, any range; cavities by field map or by fits. The hypotheses name the settings of the lattice, not functions of the model."
  },
  {
   "property": "C86",
   "status": "proved",
   "theorems": [
    "Flame.Cavity.C86_compose"
   ],
   "note": "Machines built from a lattice with the shipped registry, forward. Covariance under the condition that EmitGrowth is 0 in the cavities of the range, which is the default."
  },
  {
   "property": "C87",
   "status": "proved",
   "theorems": [
    "Flame.Cavity.C87_cut"
   ],
   "note": "Machines built from lattices with the shipped registry, forward. Elements in front of and behind the cut one are arbitrary."
  },
  {
   "property": "C88",
   "status": "proved",
   "theorems": [
    "Flame.Cavity.C88_marker"
   ],
   "note": "Machines built from lattices with the shipped registry, forward. All other elements are arbitrary."
  },
  {
   "property": "C89",
   "status": "proved",
   "theorems": [
    "Flame.Cavity.C89_reuse",
    "Flame.Vaccel.C89_vaccel"
   ],
   "note": "Histories include failed and backward simulations; the elements these leave with stale caches are tracked and excluded until they are reconfigured; without this the claim is false (C33_both_sides_false, C33_after_error_false). The second theorem is about the virtual accelerator."
  },
  {
   "property": "C90",
   "status": "proved",
   "theorems": [
    "Flame.Whole.C90_written",
    "Flame.Whole.C90_position",
    "Flame.Whole.C90_saved"
   ],
   "note": "C90_saved has the conditions under which C17 holds (C17_false shows that they are needed), and no nested configurations."
  },
  {
   "property": "C91",
   "status": "partial",
   "theorems": [
    "Flame.Util.Stamped.C91_key",
    "Flame.Util.Stamped.C91_curves",
    "Flame.Util.Stamped.C91_cavity_partial",
    "Flame.Util.Stamped.C91_faulty_false",
    "Flame.Util.Stamped.C91_second_false",
    "Flame.Util.Stamped.C91_restored_false"
   ],
   "note": "Complete for files of curves with honest time stamps. A faulty data file of a generic cavity crashes the program instead of being refused (C91_faulty_false), so C91_cavity_partial has a third outcome. Without honest time stamps false (C91_second_false, C91_restored_false). One thread; files included by a data file are not represented."
  },
  {
   "property": "C92",
   "status": "proved",
   "theorems": [
    "Flame.Cavity.C92_repeat",
    "Flame.Cavity.run_reach",
    "Flame.Cavity.run_forgets"
   ],
   "note": "Moment simulation with all registered element types. What elements to be distrusted do after an exception or a backward pass is the subject of C33 and C89. For the linear simulations see C30_linear_source."
  },
  {
   "property": "C93",
   "status": "proved",
   "theorems": [
    "Flame.Agree.C93_agree",
    "Flame.Agree.C93_vector",
    "Flame.Agree.C93_matrix",
    "Flame.Agree.C93_bend_false"
   ],
   "note": "C93_bend_false: finding, with the same settings a bend differs, because the linear simulations take its angle in radians and the moment simulation in degrees. Rounding is not modelled."
  },
  {
   "property": "C94",
   "status": "proved",
   "theorems": [
    "Flame.Cavity.C94_response"
   ],
   "note": "For machines with drifts, markers, monitors, correctors, quadrupoles, solenoids, bends, electrostatic elements, affine matrices and cavities. Beside it a rolled corrector, a drift and a cavity meet the hypotheses."
  },
  {
   "property": "C95",
   "status": "proved",
   "theorems": [
    "Flame.Mirror.C95_back",
    "Flame.Mirror.C95_linear",
    "Flame.Mirror.C95_vector"
   ],
   "note": "For all lattices of the listed elements with shifts and rolls (no pitch or yaw, no curves), all ranges and all moving charged beams. Mirror/Example.lean shows lattices that meet the hypotheses."
  },
  {
   "property": "C96",
   "status": "proved",
   "theorems": [
    "Flame.Scale.C96_scaling"
   ],
   "note": "For all sessions of calls in which only the last may throw, all element types including cavities (all models), curves and misalignments; strippers with charge_model \"off\" and a given Stripper_IonZ. Scale/Example.lean shows that every lattice has a rescaled twin and builds a machine with source, quadrupole, cavity and stripper."
  },
  {
   "property": "C97",
   "status": "proved",
   "theorems": [
    "Flame.Turn.C97_turn"
   ],
   "note": "For all sessions of calls in which only the last may throw, all element types except sources and strippers, cavities of all models without emittance growth; pitch and yaw zero. Turn/Example.lean shows that such elements have turned twins and builds a machine with a shifted and rolled quadrupole, a sextupole, a cavity and a solenoid."
  },
  {
   "property": "C98",
   "status": "proved",
   "theorems": [
    "Flame.Flip.C98_mirror"
   ],
   "note": "For all sessions of calls in which only the last may throw, and all element types. Flip/Example.lean shows that every element has a mirrored twin (mirrored_ok) and builds a machine with a source, a shifted, tilted and rolled quadrupole, a sextupole, a cavity, a solenoid, a corrector and a stripper."
  },
  {
   "property": "C99",
   "status": "proved",
   "theorems": [
    "Flame.Cavity.C99_division",
    "Flame.Cavity.C99_order_false"
   ],
   "note": "Forward propagations through a new machine of all element types. C99_order_false shows that the condition on the first charge state is needed for strippers that compute the weights (a finding)."
  }
 ]
}