{"id": "C01", "title": "Config copies are independent for every lookup", "statement": "For any number of Config objects and any sequence of construction, copy, assignment, destruction, set, swap<T>, whole-Config swap, new_scope, push_scope and flatten calls on them, every get/tryGet/getAny on every object returns exactly what it would return if each object were a separate value holding its own entries and its inherited entries; no call on one object, swapAny included, ever changes a lookup on another object.", "quantifier": "all finite histories of Config operations over any number of objects, all names, all values", "why_tests_cant": "Sharing bugs in copy-on-write code depend on who holds which reference at the moment of a write; there are unboundedly many aliasing patterns and histories.", "anchors": ["src/flame/config.h: Config", "src/config.cpp: Config::_cow, setAny, swapAny, new_scope, push_scope, flatten, getAny, tryGetAny"]}
{"id": "C02", "title": "Config copies are independent for iteration and printing", "statement": "Enumerating a Config (begin/end, show, GLPSPrint, the Python conf() dictionary) shows only entries that were put into that object itself; no call on another object changes what an enumeration of this object shows.", "quantifier": "all finite histories of Config operations over any number of objects", "why_tests_cant": "The violation needs a particular order: copy a Config with an inherited scope, then flatten or push_scope one of the copies; only a proof over all histories tells which operations are safe.", "anchors": ["src/config.cpp: Config::flatten, push_scope, show, GLPSPrint", "src/flame/config.h: begin, end", "python/flame/modmachine.cpp: PyMachine_conf"]}
{"id": "C03", "title": "Scopes inherit, shadow and never leak", "statement": "A Config made by new_scope() starts with no entries of its own and finds exactly what its parent found at that moment; a name set in the child shadows the inherited one in the child only; later writes to the parent are not seen by the child; push_scope and flatten change no lookup of the object they are called on.", "quantifier": "all parent histories, all later histories of parent and child, all names", "why_tests_cant": "Needs every interleaving of writes to parent and child after the split, including reference sharing between them.", "anchors": ["src/config.cpp: Config::new_scope, push_scope, flatten, getAny"]}
{"id": "C04", "title": "Typed lookup is total and its failures are exactly the documented ones", "statement": "get<T>(name) returns the stored value iff the visible entry for name exists and has type T and otherwise raises key_error; get<T>(name, def) returns the stored value in that case and def otherwise; tryGet returns true and updates its argument exactly in that case and otherwise leaves the argument unchanged.", "quantifier": "all configs, names, value types, defaults and previous argument values", "why_tests_cant": "The claim is an equivalence over all configurations; tests sample a few type mismatches.", "anchors": ["src/flame/config.h: Config::get, Config::tryGet", "src/config.cpp: getAny, tryGetAny"]}
{"id": "C05", "title": "Exchanging one parameter is a true exchange", "statement": "After X.swap<T>(name, v) the parameter holds the old v and v holds the old parameter value (the documented example asserts this); swapAny exchanges likewise, and inserts when the name was absent.", "quantifier": "all configs, names and values", "why_tests_cant": "The documented behaviour must hold for all value types and for present and absent names.", "anchors": ["src/flame/config.h: Config::swap<T>", "src/config.cpp: Config::swapAny"]}
{"id": "C06", "title": "Tokens survive printing: lexing is the inverse of writing tokens out", "statement": "Writing out any sequence of keywords, strings and punctuation with a blank between them and scanning the text gives back the same sequence; blanks, tabs, newlines and complete comments between tokens never change the result.", "quantifier": "all token sequences, all amounts of white space and comments between them", "why_tests_cant": "The scanner has longest-match rules, an exclusive quote mode and keywords that may contain ':'; there are infinitely many texts.", "anchors": ["src/glps.l"]}
{"id": "C07", "title": "Every lattice text is either scanned completely or rejected", "statement": "Scanning any byte sequence terminates and either yields a token sequence that accounts for every character or reports an error; a rejected text never yields a configuration.", "quantifier": "all byte sequences", "why_tests_cant": "All inputs, including malformed ones; also a termination claim.", "anchors": ["src/glps.l", "src/glps_parser.cpp: parse_common"]}
{"id": "C08", "title": "Arithmetic in lattice files follows the usual precedence", "statement": "Any expression tree written out with the minimal parentheses required by: unary minus binds tightest, then * and /, then + and -, binary operators group to the left, parses back to exactly that tree; so 'a-b-c' is (a-b)-c, '-a*b' is (-a)*b and 'a--b' is a-(-b).", "quantifier": "all expression trees of any depth", "why_tests_cant": "Precedence and associativity are claims over all expressions; tests check a few.", "anchors": ["src/glps.y: expr"]}
{"id": "C09", "title": "A variable means the value it was given, for the rest of the file", "statement": "Variables are single-assignment: while parsing continues, the value of an already defined variable, element or line never changes, a redefinition is an error, and a name must be defined before it is used, so no definition can depend on itself.", "quantifier": "all statement sequences and all prefixes of them", "why_tests_cant": "A claim about all histories of the parser context.", "anchors": ["src/glps_parser.cpp: glps_assign, glps_add_element, glps_add_line, glps_add_value"]}
{"id": "C10", "title": "Beamlines contain only defined elements, fully expanded", "statement": "After any sequence of statements every name in every beamline is the label of an element defined earlier in the same file, so building the final configuration never refers to a missing element.", "quantifier": "all statement sequences", "why_tests_cant": "Invariant over every parser history, including nested, reversed and repeated lines.", "anchors": ["src/glps_parser.cpp: glps_append_expr, glps_add_line, glps_add_value", "src/config.cpp: GLPSParser::Pvt::fill_context"]}
{"id": "C11", "title": "Beamline arithmetic means reversal, repetition and concatenation", "statement": "In a LINE definition sub-lines are expanded in place and in order; -L is L reversed; n*L and L*n are L repeated floor(n) times; negative or too large factors are errors; -(-L) is L and repetition distributes over the order of elements as list repetition does.", "quantifier": "all beamlines, all nesting depths, all factors", "why_tests_cant": "The parser builds lists in reverse and re-reverses them; an order error shows only for certain nestings.", "anchors": ["src/glps_ops.cpp: unary_bl_negate, binary_bl_mult", "src/glps_parser.cpp: glps_append_expr, glps_add_line"]}
{"id": "C12", "title": "Overloaded operators resolve uniquely and type-correctly", "statement": "For every operator or function name and every list of argument types at most one registered overload applies, so resolution does not depend on registration order; the value produced always has the declared result type, so no later access to an expression's value can fail with a type error.", "quantifier": "all names, all argument type lists, all argument values", "why_tests_cant": "Combination of all overloads with all argument types and values, plus an invariant of every reachable parser value.", "anchors": ["src/glps_ops.cpp: parse_context::parse_context", "src/glps_parser.cpp: glps_add_op"]}
{"id": "C13", "title": "A parse either reports an error or is entirely error free", "statement": "A Config is returned only when no statement of the file produced an error; as soon as any statement is faulty no Config is returned, whatever follows it, and the error reported is the first one.", "quantifier": "all statement sequences with faults in any position", "why_tests_cant": "Position of the fault and everything after it vary without bound.", "anchors": ["src/glps_parser.cpp: glps_verror, parse_common", "src/glps.y"]}
{"id": "C14", "title": "The parsed configuration is exactly the lattice that was written", "statement": "The result of a parse holds every variable under its name, 'name' = the label of the selected line and 'elements' = one entry per line member, in line order, where each entry has 'type' and 'name' of the element, its own properties, and inherits the variables; the selected line is the one named by 'USE: x;' if present and otherwise the last line defined; no lines, an unknown USE target and an empty line are errors.", "quantifier": "all parser contexts reachable from any file", "why_tests_cant": "Every combination of variables, properties (including properties called 'name' or 'type'), lines and USE.", "anchors": ["src/config.cpp: GLPSParser::Pvt::fill_context, assign_expr_to_Config"]}
{"id": "C15", "title": "setVar is the same as writing the definition at the top of the file", "statement": "Parsing a file after setVar(n1,v1)...(nk,vk) gives the same outcome, error or Config, as parsing the file with the definitions of the final values put in front of it.", "quantifier": "all sets of pre-defined variables (numbers, strings, vectors), all files", "why_tests_cant": "All orders of setVar calls, repeated names and all files.", "anchors": ["src/flame/config.h: GLPSParser::setVar", "src/config.cpp: store_ctxt_var, fill_vars"]}
{"id": "C16", "title": "Duplicate properties of an element resolve deterministically", "statement": "When the same property is given several times in one element definition the first (leftmost) one is used; the relative order of different properties does not matter.", "quantifier": "all property lists", "why_tests_cant": "Permutations and duplicates of arbitrary length.", "anchors": ["src/glps.y: properties", "src/glps_parser.cpp: glps_append_kv"]}
{"id": "C17", "title": "Printing a lattice and parsing it again gives the same lattice", "statement": "For every configuration produced by the parser without nested configurations, the text written by GLPSPrint is accepted by the parser and yields a configuration with the same variables, the same line name and the same elements in the same order, provided every number is printed exactly.", "quantifier": "all parser-produced configurations", "why_tests_cant": "A round trip over all configurations.", "anchors": ["src/config.cpp: GLPSPrint, glps_show, glps_show_props", "src/glps.l", "src/glps.y"]}
{"id": "C18", "title": "Machine construction preserves the lattice", "statement": "A Machine built from a Config has exactly one element per entry of 'elements', in order, with index equal to its position and the configured name and type; an unknown sim_type, a missing 'elements', an unknown type or a failing element constructor yields an error and no machine.", "quantifier": "all configurations, all registries", "why_tests_cant": "All lattices of any length and all failure positions.", "anchors": ["src/base.cpp: Machine::Machine"]}
{"id": "C19", "title": "Finding elements by name or type is exact", "statement": "find(name, n) returns the n-th (in beamline order) element with that name or nothing if there are fewer; equal_range and equal_range_type enumerate exactly the elements with that name or type in increasing index order; all_range enumerates every element exactly once.", "quantifier": "all machines, names, ordinals; machines that were not reconfigured", "why_tests_cant": "The lookup uses an ordered map with composite keys and two bound searches; correctness depends on the ordering of all names.", "anchors": ["src/flame/base.h: Machine::find, equal_range, equal_range_type, all_range, LookupKey"]}
{"id": "C20", "title": "Lookups stay exact after reconfigure", "statement": "After any sequence of reconfigure calls, find(name, n) and equal_range(name) still agree with the current names of the elements.", "quantifier": "all machines and all reconfigure histories", "why_tests_cant": "History dependent: only a reconfigure that changes 'name' exposes the difference.", "anchors": ["src/base.cpp: Machine::reconfigure", "src/flame/base.h: element_builder_impl::rebuild, Machine::find"]}
{"id": "C21", "title": "Reconfigure changes one element and nothing else, or nothing at all", "statement": "reconfigure(i, c) either throws and leaves every element unchanged, or makes element i behave as a freshly built element with configuration c at index i; all other elements, their order, their number and all observers are unchanged; the type of an element cannot be changed.", "quantifier": "all machines, indices, configurations, sequences of reconfigure calls", "why_tests_cant": "All failure points and histories.", "anchors": ["src/base.cpp: Machine::reconfigure, ElementVoid::assign", "src/flame/base.h: element_builder_impl::rebuild"]}
{"id": "C22", "title": "propagate visits exactly the requested elements in order", "statement": "With elements that do not redirect the beam, propagate(S, start, max) with max>=0 passes S through elements start, start+1, ... , min(start+max, size)-1 in this order and no others, and leaves next_elem at the following index; start beyond the end does nothing.", "quantifier": "all machines, states, start and max", "why_tests_cant": "All sizes and boundary combinations.", "anchors": ["src/base.cpp: Machine::propagate"]}
{"id": "C23", "title": "Propagation can be split anywhere", "statement": "propagate(S, s, a) followed by propagate(S, s+a, b) has the same effect on S, and on the observers, as propagate(S, s, a+b); if the first part already runs past the end, all of S but its next_elem agrees.", "quantifier": "all machines, states, start, a, b with a+b within int range", "why_tests_cant": "Every split point of every lattice.", "anchors": ["src/base.cpp: Machine::propagate"]}
{"id": "C24", "title": "Propagation always terminates, whatever the elements do", "statement": "Even if elements redirect the beam arbitrarily, including endless loops, propagate performs at most |max| element passages; a retreating propagation from index s visits s, s-1, ..., and stops after element 0.", "quantifier": "all element behaviours (arbitrary next_elem changes), all states, start, max", "why_tests_cant": "Element behaviours are unrestricted; termination of loops cannot be tested.", "anchors": ["src/base.cpp: Machine::propagate"]}
{"id": "C25", "title": "Observers see every passage exactly once", "statement": "During propagate each observed element's observer is called once per passage through that element, immediately after it, with the element's output state, and observers never influence the final state; with the Python 'observe' argument the returned list has exactly one entry per passage of a listed index, in visiting order, and afterwards no observer remains installed.", "quantifier": "all machines, observer placements, propagation ranges", "why_tests_cant": "All placements and ranges.", "anchors": ["src/base.cpp: Machine::propagate", "python/flame/modmachine.cpp: PyMachine_propagate, PyScopedObserver, PyStoreObserver"]}
{"id": "C26", "title": "Registration is exclusive and machines keep the registry they were built with", "statement": "A sim_type or element type name can be registered once; a failing registration changes nothing; later registrations do not change how an existing machine behaves; the outcome of a history of registrations does not depend on unrelated registrations.", "quantifier": "all histories of registerState, registerElement, registeryCleanup and machine construction", "why_tests_cant": "All orders of registration by any number of threads.", "anchors": ["src/base.cpp: p_registerState, p_registerElement, registeryCleanup", "src/flame/base.h: Machine::registerState, registerElement"]}
{"id": "C27", "title": "Vector and TransferMatrix simulations agree", "statement": "For every lattice of non-source linear elements, propagating the identity in the TransferMatrix simulation gives a matrix M such that propagating any vector v in the Vector simulation gives M v; more generally propagation acts on vectors as the product of the element matrices.", "quantifier": "all lattices, all vectors, all ranges", "why_tests_cant": "All lattices and states.", "anchors": ["src/linear.cpp: LinearElementBase::advance", "src/flame/state/vector.h", "src/flame/state/matrix.h"]}
{"id": "C28", "title": "Ideal linear elements are area preserving", "statement": "The transfer matrix of every drift, quadrupole, sector bend without field gradient terms and solenoid of the linear simulations has determinant 1 in each decoupled plane, for every length, strength and sign of strength.", "quantifier": "all real lengths and strengths", "why_tests_cant": "Quantifies over real parameters including the branch boundaries.", "anchors": ["src/linear.cpp: Get2by2Matrix, ElementDrift, ElementSBend, ElementQuad, ElementSolenoid"]}
{"id": "C29", "title": "Splitting an element does not change the optics", "statement": "A linear drift, quadrupole or solenoid body of length L1+L2 has the transfer matrix of the element of length L1 followed by the element of length L2.", "quantifier": "all real lengths and strengths", "why_tests_cant": "Identity over the reals in every focusing branch.", "anchors": ["src/linear.cpp: Get2by2Matrix, ElementDrift, ElementQuad, ElementSolenoid"]}
{"id": "C30", "title": "Position equals accumulated length", "statement": "After propagating forward from position p through any run of elements the state's position is p plus the sum of the lengths of the passed elements, and in moment simulations propagating backward subtracts them again.", "quantifier": "all lattices, starting positions and ranges", "why_tests_cant": "All lattices; depends on the direction in which the range is visited.", "anchors": ["src/linear.cpp: LinearElementBase::advance", "src/moment.cpp: MomentElementBase::advance"]}
{"id": "C31", "title": "Backward propagation undoes forward propagation", "statement": "Propagating a state forward through a run of elements and then backward through the same run restores its coordinates.", "quantifier": "all lattices, states and ranges", "why_tests_cant": "All lattices and states; needs invertibility of every element.", "anchors": ["src/linear.cpp: LinearElementBase::advance", "src/moment.cpp: MomentElementBase::advance"]}
{"id": "C32", "title": "Initial state is configuration over default, prefix-wise", "statement": "Allocating a linear state with 'initial' of k values overwrites exactly the first k entries (row-major) of the zero vector or identity matrix; k greater than the state size is an error; a missing or wrongly typed 'initial' gives the default.", "quantifier": "all value lists of any length", "why_tests_cant": "All lengths and values.", "anchors": ["src/linear.cpp: VectorState::VectorState, MatrixState::MatrixState"]}
{"id": "C33", "title": "The per-element cache never changes results", "statement": "Propagating any sequence of beam states through a moment element, in any order and direction and with any reconfigurations in between, gives the same outputs as an element that recomputes everything every time.", "quantifier": "all sequences of input states and directions, all reconfigurations", "why_tests_cant": "Cache transparency is a statement about all histories.", "anchors": ["src/moment.cpp: MomentElementBase::advance, check_cache, assign"]}
{"id": "C34", "title": "Charge-weighted statistics are those of the mixed beam", "statement": "The envelope mean is the charge-weighted mean of the per-charge-state centroids and the envelope covariance is the within plus between covariance of the mixture, symmetric, positive semidefinite when the parts are, with rms the square root of its diagonal; a single charge state reports its own moments; rescaling all charges changes nothing; the order of charge states does not matter.", "quantifier": "all numbers of charge states, charges with positive total, centroids and covariances", "why_tests_cant": "Over all real data and any number of charge states.", "anchors": ["src/moment.cpp: MomentState::calc_rms"]}
{"id": "C35", "title": "Transport keeps covariances physical", "statement": "Passing through any element that applies a transfer matrix T keeps each charge state's covariance symmetric and positive semidefinite, transforms centroid by T and covariance by T S T^t, and if all charge states share T the envelope moments transform by the same T. In any propagation, forward or backward, successful or not, through elements other than strippers, growth of the emittance in cavities included, all covariances stay symmetric and positive semidefinite.", "quantifier": "all matrices, centroids, covariances and mixtures; all lattices and propagations", "why_tests_cant": "Over all real data.", "anchors": ["src/moment.cpp: MomentElementBase::advance, calc_rms", "src/flame/rf_cavity.h: ElementRFCavity::advance", "src/rf_cavity.cpp: calRFcaviEmitGrowth"]}
{"id": "C36", "title": "Aligned elements are not disturbed by the misalignment machinery", "statement": "For an element with zero dx, dy, pitch, yaw and tilt the misalignment transformations are the identity; roll/tilt rotation matrices compose additively and the rotation by -a undoes the rotation by a.", "quantifier": "all real angles and element lengths", "why_tests_cant": "Over all reals.", "anchors": ["src/moment.cpp: get_misalign", "src/moment_sup.cpp: RotMat"]}
{"id": "C37", "title": "Moment-space magnets preserve phase-space area", "statement": "The quadrupole, drift, solenoid, thin lens and edge matrices used in moment simulations are symplectic in the transverse planes for all lengths and strengths of either sign.", "quantifier": "all real parameters", "why_tests_cant": "Over all reals and every focusing branch.", "anchors": ["src/moment_sup.cpp: GetQuadMatrix, GetSolMatrix, GetEdgeMatrix, GetSextMatrix"]}
{"id": "C38", "title": "Relativistic bookkeeping is consistent", "statement": "For every particle with positive rest energy and non-negative kinetic energy, recalc() gives gamma >= 1, 0 <= beta < 1, beta*gamma equal to the reported value, total energy = rest + kinetic, and recalc() is idempotent.", "quantifier": "all energies, charges and frequencies", "why_tests_cant": "Over all reals.", "anchors": ["src/flame/moment.h: Particle::recalc"]}
{"id": "C39", "title": "Charge stripping conserves what it must", "statement": "After a stripper each requested charge state exists with the configured charge and weight, all share the recombined centroid and covariance, the recombined reference energy and phase are the charge-weighted means of the incoming ones, and the covariance stays symmetric and positive semidefinite.", "quantifier": "all incoming beams, all new charge state lists", "why_tests_cant": "All numbers of charge states and all real data.", "anchors": ["src/chg_stripper.cpp: Stripper_GetMat"]}
{"id": "C40", "title": "Introspection is stable and unambiguous", "statement": "For every state type the parameters returned by getArray have pairwise different names, indices run from 0 to a fixed count without gaps, and name, type and number of dimensions of each index never change during a simulation.", "quantifier": "all states and indices", "why_tests_cant": "Needs all indices and all states.", "anchors": ["src/moment.cpp: MomentState::getArray", "src/linear.cpp: getArray", "src/base.cpp: StateBase::getArray"]}
{"id": "C41", "title": "N-d index enumeration covers the array exactly once", "statement": "ndindex_iterate visits every index tuple of an array with positive dimensions exactly once, the first dimension fastest, and then reports done; reading an array attribute in Python returns all entries at their own index, and writing then reading gives back what was written.", "quantifier": "all dimension counts up to three and all dimensions, all strides that do not overlap", "why_tests_cant": "All shapes.", "anchors": ["src/flame/util.h: ndindex_iterate", "src/flame/base.h: ArrayInfo::raw", "python/flame/modstate.cpp: PyState_getattro, PyState_setattro"]}
{"id": "C42", "title": "Numeric tables are read faithfully or rejected", "statement": "Reading a table of n rows of m numbers with optional header and blank lines yields exactly these numbers at their row and column; column names map to their 0-based position; rows of different lengths and unparsable entries are errors.", "quantifier": "all texts", "why_tests_cant": "All texts and layouts.", "anchors": ["src/util.cpp: numeric_table::read, readvec"]}
{"id": "C43", "title": "The table cache returns current data", "statement": "fetch(path) returns the content of the file as of a moment during or after the last modification visible in its time stamp, never a table of another path; a failing read leaves earlier entries intact; clear forces a re-read.", "quantifier": "all histories of file modifications, fetches and clears, by any number of threads", "why_tests_cant": "All interleavings of file updates and fetches.", "anchors": ["src/util.cpp: numeric_table_cache::fetch, clear"]}
{"id": "C44", "title": "Polynomial and power helpers compute what they say", "statement": "ipow(x, n) is x^n for every n >= 0, calFitPow evaluates the polynomial with the given coefficients in the documented order, PwrSeries is the polynomial of its arguments.", "quantifier": "all reals, exponents and coefficient lists", "why_tests_cant": "All exponents and lists.", "anchors": ["src/rf_cavity.cpp: ipow, calFitPow, PwrSeries"]}
{"id": "C45", "title": "Cavity tracking never produces sub-rest-energy particles", "statement": "Through any cavity field table and any synchronous phase, integration steps keep total energy at or above rest energy, so gamma >= 1 and the phase advance stays defined at all steps.", "quantifier": "all field tables, phases, charges and energies", "why_tests_cant": "All tables of any length.", "anchors": ["src/rf_cavity.cpp: ElementRFCavity::GetCavBoost, PropagateLongRFCav"]}
{"id": "C46", "title": "No simulation request is lost in the virtual accelerator", "statement": "Whenever a simulation has been requested and not yet started, the worker is either going to look at the request without blocking or is waiting on an event that has been signalled; a request made while a simulation runs triggers another run; after stop the worker exits.", "quantifier": "all schedules of the worker thread and any number of client threads", "why_tests_cant": "A lost wake-up needs one specific interleaving.", "anchors": ["vaccel/flame.cpp: Sim::run, queueSim, ~Sim"]}
{"id": "C47", "title": "Setting then reading back a device value returns the set value", "statement": "For any scaling parameters (ASLO, AOFF, ESLO, EOFF, LINR) the value written to a setting record and read back through the corresponding readback record is the same, and the record initial value equals what a readback would give.", "quantifier": "all scaling parameters including zeros, all values", "why_tests_cant": "All parameters, including the zero special cases.", "anchors": ["vaccel/flameset.cpp: setting_init_a, setting_change_ao, setting_readback_ai"]}
{"id": "C48", "title": "Opening an HDF5 file/group specification terminates", "statement": "For every specification string, opening either succeeds with a split of the string into file and group or reports an error after finitely many attempts; every possible split at a '/' is tried.", "quantifier": "all strings and all file systems", "why_tests_cant": "Termination for all strings.", "anchors": ["src/h5writer.cpp: H5StateWriter::open", "src/h5loader.cpp: H5Loader::open", "src/glps_ops.cpp: unary_h5file"]}
{"id": "C49", "title": "Output format strings split at commas", "statement": "The command line format argument is split into its comma separated parts, in order, and empty parts are ignored.", "quantifier": "all strings", "why_tests_cant": "All strings.", "anchors": ["tools/cli.cpp: tokenize"]}
{"id": "C50", "title": "Python dictionaries convert to configurations and back without loss", "statement": "Converting a list of (key, value) pairs with distinct keys to a Config and back gives the same entries (sorted by key); nested element dictionaries see the enclosing values defined before them; structures deeper than the limit are rejected.", "quantifier": "all nested structures within the depth limit", "why_tests_cant": "All structures.", "anchors": ["python/flame/modconfig.cpp: List2Config, conf2dict"]}
{"id": "C51", "title": "Asking for an element's configuration does not change it", "statement": "Calling Machine.conf(i) from Python is read-only: no later conf(), find, reconfigure, propagate or printing gives a different result because of it.", "quantifier": "all machines and all histories of conf calls", "why_tests_cant": "Requires a second observation after a first one on shared storage.", "anchors": ["python/flame/modmachine.cpp: PyMachine_conf", "src/config.cpp: Config::flatten"]}
{"id": "C52", "title": "State copies are complete", "statement": "clone() returns a state with the same observable content as the original and sharing nothing with it: later propagation or assignment to one never changes the other; a state that was assigned from another propagates identically to it.", "quantifier": "all states and later histories", "why_tests_cant": "All states and histories.", "anchors": ["src/base.cpp: StateBase", "src/linear.cpp", "src/moment.cpp: MomentState::assign, clone"]}
{"id": "C53", "title": "Numeric flags are validated", "statement": "A flag parameter accepts exactly a non-negative integer given as a number or as its decimal text, defaults when absent, and anything else is an error.", "quantifier": "all configurations", "why_tests_cant": "All values and texts.", "anchors": ["src/moment.cpp: get_flag"]}
{"id": "C54", "title": "Multi-charge initial states are set up consistently", "statement": "When a moment state is built from a configuration with charge states, there are as many real particles, centroids and covariances as charge states (or exactly one, the selected one, when 'cstate' is given), each with its own charge; inconsistent list lengths, an out of range 'cstate' and wrongly sized moments are errors.", "quantifier": "all configurations", "why_tests_cant": "All list lengths and combinations.", "anchors": ["src/moment.cpp: MomentState::MomentState, load_storage"]}
{"id": "C55", "title": "Command line definitions set exactly the named variable", "statement": "An argument -D NAME=TYPE:VALUE with TYPE double/D or str/S sets the variable NAME to the number or string and changes nothing else; other forms are refused; of two definitions of one name the last wins; a definition of the same name in the lattice file overwrites it (help text).", "quantifier": "all argument strings and lattice files", "why_tests_cant": "All strings, and the interplay with definitions inside the lattice file.", "anchors": ["tools/cli.cpp: main, definition handling and help text"]}
{"id": "C56", "title": "Linear transfer matrices solve the equations of motion", "statement": "The transfer matrix of a linear drift, quadrupole, solenoid or sector bend, as a function of the configured length, is the solution of the linear equations of motion with the configured strengths, starting from the identity; lengths and strengths are configured in metres and the coordinates are in millimetres.", "quantifier": "all real lengths, strengths, angles and configurations (a bend of non-zero length)", "why_tests_cant": "A differential equation over all lengths and every focusing branch.", "anchors": ["src/linear.cpp: Get2by2Matrix, ElementDrift, ElementSBend, ElementQuad, ElementSolenoid"]}
{"id": "C57", "title": "A generic element has the configured matrix", "statement": "A generic linear element with 'transfer' of k values has these as the first k entries (row-major) of its matrix and identity entries elsewhere; more than 36 values, or a missing or wrongly typed 'transfer', is an error.", "quantifier": "all value lists of any length", "why_tests_cant": "All lengths and values.", "anchors": ["src/linear.cpp: ElementGeneric"]}
{"id": "C58", "title": "The homogeneous coordinate of the moment simulation stays homogeneous", "statement": "If the seventh coordinate of every centroid is 1 and nothing is correlated with it, this is so after every propagation, forward or backward, successful or not, through any elements other than strippers, provided user matrices have the last row of the identity and sources start homogeneous beams. A stripper keeps this for beams that carry a charge. So the seventh column of a transfer matrix is exactly a shift of the orbit.", "quantifier": "all lattices, configurations, cache contents, states, propagations", "why_tests_cant": "Needs an invariant of every matrix of every element type over all parameters, including cached and inverted ones.", "anchors": ["src/moment.cpp: MomentElementBase::advance, ElementSBend::advance, ElementSext::advance", "src/moment_sup.cpp", "src/flame/rf_cavity.h: ElementRFCavity::advance", "src/chg_stripper.cpp: Stripper_GetMat"]}
{"id": "C59", "title": "Dipoles preserve phase-space area", "statement": "The transfer matrices of magnetic and electrostatic dipoles preserve phase-space areas, dispersion and longitudinal motion included, with the same weight of longitudinal areas as the other elements.", "quantifier": "all lengths, angles, edges, field indices, misalignments and particles", "why_tests_cant": "Over all reals; relates the dispersion column to the longitudinal row.", "anchors": ["src/moment_sup.cpp: GetSBendMatrix, GetEBendMatrix, GetEdgeMatrix, GetEEdgeMatrix", "src/moment.cpp: ElementSBend::recompute_matrix, ElementEDipole::recompute_matrix"]}
{"id": "C60", "title": "The emittance of each charge state is conserved", "statement": "A propagation through elements without acceleration and stripping leaves the determinant of the 6x6 covariance of every charge state unchanged, whatever the fields, misalignments, caches and the direction.", "quantifier": "all lattices, configurations, states, ranges and directions", "why_tests_cant": "An invariant over executions of any length with matrices over all reals.", "anchors": ["src/moment.cpp: MomentElementBase::advance, ElementSBend::advance, ElementSext::advance"]}
{"id": "C61", "title": "A cavity that is switched off is a drift", "statement": "With scl_fac = 0 a cavity of any type leaves the energy of the reference particle and of every charge state unchanged, advances their phases by the wave number times the length of the field map, and its matrix for a charge state is that of a drift: transversely over the drifts of the cavity's lattice, longitudinally with the slip of a drift element at the frequency of the beam.", "quantifier": "all cavities, field maps, lattices, phases, frequencies and beams of any number of moving charge states", "why_tests_cant": "Field maps and lattices of any length, all real parameters; the jump between two frequencies has to cancel exactly.", "anchors": ["src/rf_cavity.cpp: ElementRFCavity::PropagateLongRFCav, InitRFCav, GetCavBoost, GetCavMat, GenCavMat2, GetCavMatGeneric", "src/flame/rf_cavity.h: recompute_matrix"]}
{"id": "C62", "title": "A cavity damps transverse areas with the momentum and keeps longitudinal ones", "statement": "The matrix of a cavity multiplies both transverse phase space areas by the ratio of the momenta before and behind the cavity in its gap model, keeps the longitudinal area, and does not mix the three planes; the change between the frequencies of beam and cavity is a change of the unit of the phase. So the matrix of a cavity can always be inverted. A cavity described by a data file lets a beam through on its first use only if its aperture radius is positive (in builds with assertions; without them the code goes on and divides by the radius).", "quantifier": "all cavities with gaps and multipoles of any number, strengths, phases and energies", "why_tests_cant": "An algebraic identity over all reals and lattices of any length.", "anchors": ["src/rf_cavity.cpp: ElementRFCavity::GetCavMat, GenCavMat2, GetCavMatGeneric, GetCavMatParams, InitRFCav"]}
{"id": "C63", "title": "Transit time factors of a field map are what they are named", "statement": "For every equally spaced field map with a field the factors T and S lie in the unit disc, so a gap changes the energy by at most its voltage; Tp and Sp are the derivatives of T and S with respect to the wave number; the electric centre lies inside the map; the second gap is the mirror image of the first.", "quantifier": "all field maps of any length, all wave numbers and phases", "why_tests_cant": "Inequalities and derivatives over all reals and tables of any length.", "anchors": ["src/rf_cavity.cpp: calTransfac, EvalGapModel"]}
{"id": "C64", "title": "Straight elements of the moment simulation move each charge state by its own equations of motion", "statement": "The matrix of a drift, quadrupole, solenoid, electrostatic quadrupole or corrector, in the frame of the possibly displaced and rolled element, is the solution of the linear equations of motion whose strength is the configured field (constant, or piece by piece the scaled sum of the configured curves or curve files within their range) over the rigidity of that charge state; the longitudinal entry is the derivative of the phase advance with respect to the energy; a corrector kicks by its angle times the ratio of charges and nothing else.", "quantifier": "all configurations, curve tables of any length and number, particles and numbers of charge states", "why_tests_cant": "A statement about differential equations over all reals, tables and energies.", "anchors": ["src/moment.cpp: ElementDrift, ElementQuad, ElementSolenoid, ElementEQuad, ElementOrbTrim, GetCurveData, Particle::recalc"]}
{"id": "C65", "title": "Every element of the moment simulation advances position and phase by the time of flight", "statement": "Passing an element that does not change the charge states moves the position by the length of the element (back when propagating backward), keeps charge, charge to mass ratio, rest and kinetic energy of every particle with up to date derived numbers, and advances every phase by the time of flight of that particle over the length, in a bend plus the change of the longitudinal centroid; derived numbers a user left stale in the state do not influence the result.", "quantifier": "all elements except source, stripper and cavity, all configurations, all states, both directions", "why_tests_cant": "All states, including inconsistent ones set by a user, and all reals.", "anchors": ["src/moment.cpp: MomentElementBase::advance, ElementBend::advance, ElementSext::advance, Particle::recalc; src/flame/moment.h: Particle"]}
{"id": "C66", "title": "A pass through an RF cavity moves particles and moments consistently", "statement": "When a beam of moving ions crosses a cavity that has not been used since it was built or configured, the reference particle and every charge state follow the equations of motion in the configured field map, scaled by scl_fac and oscillating with the configured frequency and one common phase; charges, rest energies and frequencies are kept and the derived numbers are up to date; the position advances by the length; the reported transfer matrices are those that moved the centroids and, without emittance growth, the covariances; without pitch and yaw the longitudinal centroid of each charge state is the phase and energy of its particle relative to the reference particle. Such a pass succeeds if no particle can lose all its energy and its matrices are defined.", "quantifier": "all cavities, data files, settings, beams of any number of charge states", "why_tests_cant": "All field maps, lattices and energies; the agreement of three separate computations (tracking, matrices, statistics) cannot be sampled.", "anchors": ["src/flame/rf_cavity.h: ElementRFCavity::advance, recompute_matrix", "src/rf_cavity.cpp: LoadCavityFile, PropagateLongRFCav, InitRFCav, GetCavBoost"]}
{"id": "C67", "title": "Moment simulations do not depend on the origin of time", "statement": "If two runs start from states equal except that all phases of the second (reference and charge states) are later by the same amount, both end alike, and every state seen on the way and at the end is equal except for the same delay. This holds for every lattice without sources in which each cavity either synchronises its phase with the beam or has a fixed phase and the delay is a whole number of its periods; a cavity with a fixed phase does see any other delay.", "quantifier": "all lattices, settings, start elements, states, delays", "why_tests_cant": "A relation between two runs over all lattices and real delays; the caches and the cavity phase tables could each break it for particular inputs only.", "anchors": ["src/moment.cpp: MomentElementBase::advance, ElementBend::advance, ElementSext::advance, ElementStripper", "src/rf_cavity.cpp: PropagateLongRFCav, GetCavPhase, GetCavPhaseComplex, InitRFCav", "src/base.cpp: Machine::propagate"]}
{"id": "C68", "title": "Growth of the emittance in a cavity is the spread of the deflections over the bunch", "statement": "With EmitGrowth, a cavity passes the covariance moved by its matrix on with angles and energy stretched by factors: the mean square of each angle grows by the variance over the bunch (profile (1-x^2)^2 of half length the phase spread) of the gap's phase dependent deflection, times the mean square offset; nothing else changes, correlations scale accordingly, no angle spread and no energy spread shrinks.", "quantifier": "all cavities, phases, charge states, energies and covariances", "why_tests_cant": "An identity between closed formulas and integrals over a bunch profile, and an inequality over all reals.", "anchors": ["src/rf_cavity.cpp: ElementRFCavity::calRFcaviEmitGrowth", "src/flame/rf_cavity.h: ElementRFCavity::advance"]}
{"id": "C69", "title": "A recording contains every state it was given, value by value", "statement": "Appending states one after the other to an HDF5 group gives, for every parameter of the simulation, one data set with one row per state in order; each row holds exactly the values of that parameter at their own indices; other data sets of the group are left alone.", "quantifier": "all sequences of states of any length, all values and numbers of charge states, all memory layouts, both behaviours of the library when extending a data set", "why_tests_cant": "All sequences and layouts; wrong values appear only for combinations of strides and numbers of charge states that tests do not compare.", "anchors": ["src/h5writer.cpp: H5StateWriter::prepare, append", "src/moment.cpp: MomentState::getArray", "src/base.cpp: StateBase::getArray"]}
{"id": "C70", "title": "The command line tool outputs exactly the passages through the elements asked for", "statement": "With --select-all, --select-type, --select-name and --select-last, the elements chosen by at least one option get one observer each and no others do; the output consists of the state at the exit of each passage through a chosen element, in order; final state and exception are those of a simulation without output; the format text chooses file, level of detail and parameters as its options say. An HDF5 output holds these states row by row.", "quantifier": "all machines, options, initial states and numbers of elements to pass, all format texts", "why_tests_cant": "All combinations of options and lattices with repeated names and types; tests run the tool on one lattice, if at all.", "anchors": ["tools/cli.cpp: main", "tools/cli.cpp: StreamObserver, H5Observer, UnitTestObserver factories", "src/base.cpp: Machine::propagate"]}
{"id": "C71", "title": "Output as unit tests holds the parameters asked for with their values", "statement": "With --format utest,NAMES each view of a state prints exactly the parameters named, in that order, each under its own name and with its values at their own indices, although the positions of the parameters are looked up only for the first state.", "quantifier": "all lists of names, all sequences of states, numbers of charge states, values and memory layouts", "why_tests_cant": "The output is itself meant to become tests; a wrong parameter or index would be recorded as the expected value.", "anchors": ["tools/cli.cpp: UnitTestObserver::lookup, view", "src/moment.cpp: MomentState::getArray"]}
{"id": "C72", "title": "The matrix of an RF cavity follows particles through its gaps and lenses", "statement": "The matrix a cavity reports for a charge state takes every particle next to the centre of the charge state where it gets to when it is followed through the pieces of the cavity in order: flights, gaps, electric and magnetic monopole, dipole and quadrupole lenses up to the order asked for, each evaluated at the phase and energy the centre has there; the phase slips by the derivative of the wave number with energy, the energy changes by the derivative of the gain with phase, and phases are converted between the frequencies of beam and cavity.", "quantifier": "all lattices of cavity pieces, field strengths, phases, charge states, energies and particles; generic cavities and all built-in types", "why_tests_cant": "Lattice files, energies and phases are arbitrary; tests compare a few built-in cavities with recorded numbers.", "anchors": ["src/rf_cavity.cpp: GetCavMatGeneric, GetCavMat, GenCavMat2, GetCavMatParams", "src/rf_cavity.cpp: ElementRFCavity::InitRFCav", "src/flame/rf_cavity.h: advance"]}
{"id": "C73", "title": "A synchronised cavity meets the reference particle with the phase asked for, whenever it arrives", "statement": "With syncflag of at least 1 a cavity is driven such that the reference particle enters at the phase phi of the settings less the lag of its cavity type at the kinetic energy of the particle: the built-in curve of the type, or for generic cavities the curve at the first gap of the data file, or the series in the normalised field strength if the file has one and syncflag is 1. With syncflag below 1 the drive is phi itself. All charge states see the same drive. The state shows it as last_caviphi0 in degrees, less whole turns in the direction of its sign.", "quantifier": "all settings and data files, energies, arrival phases, charges and charge states", "why_tests_cant": "Depends on the energy, the arrival phase, the cavity type and the contents of the data file; tests fix all of them.", "anchors": ["src/rf_cavity.cpp: GetCavPhase, GetCavPhaseComplex", "src/rf_cavity.cpp: ElementRFCavity::PropagateLongRFCav, LoadCavityFile"]}
{"id": "C74", "title": "Magnetic dipoles bend each charge state by the equations of motion", "statement": "In the frame of a sector magnet that is shifted and rolled, a charge state crosses an edge inclined by phi1, follows the linear equations of motion over the length L, and crosses an edge inclined by phi2. The curvature is phi over L; a larger charge is bent more, a larger momentum less, and the phase lags with the length of the orbit and with the velocity; the changes of momentum and phase with energy are the derivatives at the design energy, which is that of the reference particle or, in fit mode 0, given by bg. Without length nothing changes.", "quantifier": "all settings, energies, charges, charge states, offsets and rolls, and all initial coordinates", "why_tests_cant": "The matrix is a closed form in a dozen parameters; tests compare a few numbers with stored ones and cannot tell whether they solve the equations of motion.", "anchors": ["src/moment_sup.cpp: GetEdgeMatrix, GetSBendMatrix", "src/moment.cpp: ElementSBend::recompute_matrix"]}
{"id": "C75", "title": "Electrostatic dipoles move particles by the equations of motion between curved electrodes", "statement": "In the frame of an electrostatic dipole, horizontal or vertical, a particle crosses a fringe field, follows the linear equations of motion between cylindrical or spherical electrodes over the length L, and crosses the other fringe field. The focusing is that of the shape of the electrodes; dispersion and phase follow from the change of momentum times velocity with energy.", "quantifier": "all settings, energies, offsets and rolls, and all initial coordinates", "why_tests_cant": "Errors that vanish at low velocity, or a factor in the longitudinal entries, do not show up in comparisons with stored results.", "anchors": ["src/moment_sup.cpp: GetEEdgeMatrix, GetEBendMatrix", "src/moment.cpp: ElementEDipole::recompute_matrix"]}
{"id": "C76", "title": "Links of records have one meaning", "statement": "A link of a measurement, orbit, setting or element record can be split into simulation, element or type, instance, parameter and indices in at most one way. A link that is written for given names and numbers is accepted, and these are read from it.", "quantifier": "all strings; all names without blanks and brackets and all numbers below 2^64", "why_tests_cant": "Optional groups next to each other can match in several ways for inputs nobody tried.", "anchors": ["vaccel/flamemeasure.cpp: measure_init_common", "vaccel/flameorbit.cpp: orbit_init_common", "vaccel/flameset.cpp", "vaccel/flameelem.cpp"]}
{"id": "C77", "title": "Measurement records show the last simulation", "statement": "A measurement record is connected if and only if its link names the simulation, the n-th element of a name, and a parameter that is a number with as many dimensions as indices are given. Whatever is connected, changed and simulated, in any order, a reading without alarm is the value of that parameter behind that element in the last simulation, which went through the whole lattice. If the record was connected before, it does show this value; if there is no such entry, or no simulation yet, or the last one failed, there is an alarm.", "quantifier": "all lattices, all histories of connections, reconfigurations and simulations, all links", "why_tests_cant": "Which state an observer holds depends on the order of connections, changes and simulations; tests use one order.", "anchors": ["vaccel/flamemeasure.cpp: measure_init_common, measure_read_ai", "vaccel/flamedev.cpp: Sim::get_measure, VIOCObserver::view", "vaccel/flame.cpp: Sim::run"]}
{"id": "C78", "title": "Orbit waveforms have one entry per element of a type, in order", "statement": "An orbit waveform without alarm has as many entries as elements of its type, in the order of the beamline, and entry j is the value of the parameter behind the j-th of them in the last simulation. There is an alarm exactly if the waveform is too short, a value is missing, or the last simulation did not go through. The waveform of positions has the indices of the same elements in the same order.", "quantifier": "all lattices, all histories, all lengths and contents of waveforms", "why_tests_cant": "Positions of entries and the role of the length of the buffer depend on lattice and record definition.", "anchors": ["vaccel/flameorbit.cpp: orbit_init_common, orbit_read_wf, orbit_read_index"]}
{"id": "C79", "title": "Transit time factors belong to the right field and never exceed its strength", "statement": "The factors of a multipole computed from a table are the normalised cosine and sine integrals of the column with the heading of that multipole, about the centre of its field; a table without that column is refused. Inside the documented ranges of wave number or velocity the fits are used and outside of them the table. In either case a multipole or a gap acts with at most its integrated strength (T^2+S^2 <= 1), so a gap gives a particle at most its voltage. Fitted factors are at least one half and have the direction of the field in the shipped tables, and the second gap is the reversed mirror image of the first.", "quantifier": "all tables with evenly spaced lines, all wave numbers and velocities, all multipoles, cavity types and gaps", "why_tests_cant": "There are over a hundred coefficients; a wrong digit shows only in part of the range of a single fit, and tests visit a few energies.", "anchors": ["src/rf_cavity.cpp: get_column, calTransfac", "src/rf_cavity.cpp: ElementRFCavity::TransFacts", "src/rf_cavity.cpp: ElementRFCavity::TransitFacMultipole"]}
{"id": "C80", "title": "Charge states behind a stripper are weighted by Baron's formula", "statement": "With the charge model \"baron\" every charge state behind a stripper gets the density of the normal distribution whose mean and variance are those of the formula of Baron, Bajard and Ricaud at the velocity of the first charge state in front of the foil. So weights are positive and fall with the distance from the mean, and the mean lies between zero and the number of protons and grows with the velocity. The stripper accepts every beam of ions.", "quantifier": "all strippers, beams, numbers of protons and velocities", "why_tests_cant": "Needs all velocities and ions; tests strip one uranium beam at one energy.", "anchors": ["src/chg_stripper.cpp: ElementStripper::StripperCharge", "src/chg_stripper.cpp: ElementStripper::Stripper_GetMat", "src/chg_stripper.cpp: ElementStripper::ChargeStripper"]}
{"id": "C81", "title": "A cavity is the one its settings and files ask for", "statement": "A cavity is built exactly if frequency and phase are numbers, the switches for multipoles and emittance growth have defined values, its type is known and its files can be read and have the parts that are needed; anything else is refused. It then has exactly the frequency, phase, switches, field map, multipoles and pieces given there: the pieces of a lens file in their order with the lengths and strengths written in it, those of a data file with their coefficients.", "quantifier": "all settings, all files, all layouts of the text", "why_tests_cant": "Needs all texts and settings; tests only read the shipped files, which are complete.", "anchors": ["src/rf_cavity.cpp: ElementRFCavity::LoadCavityFile", "src/moment.cpp: MomentElementBase::get_flag", "src/flame/rf_cavity.h: RawParams"]}
{"id": "C82", "title": "Calls from Python change what they name and nothing else", "statement": "reconfigure() from Python sets exactly the named settings of the element with that index, keeps its other settings (or drops them with replace), and leaves the rest of the machine alone; if it raises an exception nothing has changed; indices that are not those of an element are refused. So after any history of calls a setting is the one asked for last. allocState() uses the settings of the machine, or those given, or those given in front of those of the machine. Extra definitions mean the same as definitions in front of the configuration. No argument crashes the interpreter.", "quantifier": "all machines, element classes, registries, Python objects as arguments, indices and histories of calls", "why_tests_cant": "Needs all histories and all kinds of arguments, including those that fail half way; the tests call reconfigure once with one number.", "anchors": ["python/flame/modmachine.cpp: PyMachine_reconfigure", "python/flame/modmachine.cpp: PyMachine_allocState", "python/flame/modmachine.cpp: PyMachine_init", "python/flame/modconfig.cpp: PyGLPSParse2Config"]}
{"id": "C83", "title": "A generated database addresses every element once and rightly", "statement": "The database that is generated from a lattice with the default names has, for every element whose type has a template, the records of the common template and of the template of the type, and no others. No two records have the same name, nor that of a record about the whole simulation, however often elements are repeated in the lattice. The link of each record is accepted by its device support and leads the simulation to the element for which the record was made. The waveforms have room for all markers.", "quantifier": "all lattices, all element names without blanks and brackets, all types but 'common', all repetitions", "why_tests_cant": "Names are numbered as they collide and the same number is used to find the element; whether both countings agree depends on every lattice with repeated names.", "anchors": ["python/flame/ioc.py: Generator.emit_subst, default_mangler", "python/flame/data/*.template", "vaccel/flameelem.cpp: elem_init_common", "src/flame/base.h: Machine::find"]}
{"id": "C84", "title": "Charge states do not influence each other", "statement": "Between strippers the simulation of a beam of several charge states is the simulation of each of them: if a beam passes a range of a lattice without an exception, so does every beam of some of its charge states with the same reference particle, whatever their weights and their order, and everywhere on the way each of them has the energy, phase, centroid, covariance and matrix that it has in the whole beam. Two beams that share a charge state and the reference particle share it afterwards.", "quantifier": "all lattices without source and stripper in the range, all beams with any number of charge states and weights, all parts of them, all starting points and lengths of the range", "why_tests_cant": "Charge states are carried in parallel arrays and matrices are reused between them where that is thought to be possible; a test compares a few beams with recorded numbers, where an influence of one charge state on another is invisible.", "anchors": ["src/moment.cpp: MomentElementBase::advance, recompute_matrix", "src/moment.cpp: ElementSBend::advance, ElementEDipole::recompute_matrix", "src/rf_cavity.cpp: ElementRFCavity::advance, recompute_matrix, InitRFCav"]}
{"id": "C85", "title": "A charge state on the reference orbit stays on it", "statement": "A charge state with the charge, energy and phase of the reference particle and its centroid on the axis keeps all of this through every lattice whose elements leave the reference orbit alone: no source or stripper, no shifts or inclinations (rolls are allowed), steerers off, dipoles fitted to the reference particle, sextupoles without the size dependent kick, cavities without dipole fields, user matrices without constant terms. The weight, the covariance and the other charge states have no influence on it.", "quantifier": "all such lattices and starting points, any number of elements, all beams, all weights and covariances, all other charge states, every observed state on the way", "why_tests_cant": "Reference particle and charge states are advanced by different code (phases, scaling of magnets, cavity fits, shifts of the centroid in cavities); they agree only if all these pieces are consistent, and tests compare a few lattices with recorded numbers of limited precision.", "anchors": ["src/moment.cpp: MomentElementBase::advance, recompute_matrix, ElementSBend, ElementEDipole, ElementSext", "src/rf_cavity.cpp: ElementRFCavity::advance, calRFcaviEmitGrowth, PropagateLongRFCav, InitRFCav, GetCavMat"]}
{"id": "C86", "title": "The reported matrices of a range compose", "statement": "A user who reads the transfer matrix of a charge state after each element of a range and multiplies these matrices gets the map of the range: it takes the centroid at the start to the centroid after every element of the range, and the covariance S to T S T^t, unless a cavity of the range lets the emittance grow. This includes misaligned elements, bends, and cavities, in which the centroid in phase and energy is set from the tracked particles instead of by the matrix.", "quantifier": "all lattices and ranges without source and stripper, any number of elements, all beams whose centroids have seventh coordinate 1, all charge states", "why_tests_cant": "The matrix is stored separately from the moments it is meant to describe; that it is the one which was applied, with misalignment and with the corrections of the last column in cavities, must hold for every element and beam.", "anchors": ["src/moment.cpp: MomentElementBase::advance, ElementSext::advance, ElementSBend::advance", "src/rf_cavity.cpp: ElementRFCavity::advance", "src/base.cpp: Machine::propagate"]}
{"id": "C87", "title": "Cutting a straight element in two changes nothing", "statement": "If a drift, quadrupole, solenoid or electrostatic quadrupole with a uniform field is replaced in the lattice by two of the same kind whose lengths add up to its length, all other settings being kept (it may be shifted and rolled, but not inclined), then every simulation over the element and any number of elements before and after it ends in the same state: position, phases and energies of all particles, centroids, covariances, averages. It fails with an exception if and only if the original one does. Only the matrix reported for the last element may differ. So users may cut elements to look at the beam inside of them.", "quantifier": "all lattices, all lengths of the parts, all ranges around the element (with cavities, strippers, sources, bends before and after it), all beams", "why_tests_cant": "The matrices are computed from the settings with trigonometric and hyperbolic functions, separately for each sign of the strength, the phases are accumulated separately; tests compare a few lengths up to a tolerance.", "anchors": ["src/moment.cpp: ElementDrift, ElementQuad, ElementSolenoid, ElementEQuad recompute_matrix, MomentElementBase::advance, get_misalign", "src/moment_sup.cpp: GetQuadMatrix, GetSolMatrix", "src/base.cpp: Machine::propagate"]}
{"id": "C88", "title": "Markers and monitors change nothing", "statement": "Inserting a marker or a beam position monitor anywhere in a lattice does not change any simulation over that place: there is an exception if and only if there was one before, the simulation ends at the same position with the same particles, centroids and covariances, and if the inserted element is not the last one of the range, in the same state in all respects (including averages and reported matrices). So users may add places to observe the beam without changing the results.", "quantifier": "all lattices with sources, strippers, cavities and all other elements, all places, all ranges, all beams with as many moments as charge states", "why_tests_cant": "The inserted element recomputes particles, averages and matrices in the state and shifts the indices of all elements behind it; that nothing behind it notices must hold for all kinds of elements and states.", "anchors": ["src/moment.cpp: ElementMark, ElementBPM, MomentElementBase::advance, MomentState::calc_rms", "src/rf_cavity.cpp: ElementRFCavity::advance", "src/chg_stripper.cpp: ElementStripper::advance", "src/base.cpp: Machine::propagate"]}
{"id": "C89", "title": "A machine that was used and reconfigured gives the results of a new one", "statement": "After any sequence of simulations (forward or backward, through or ended by an exception), of accepted and refused reconfigurations and of changes of observers, a machine of the moment simulation reports for its elements the settings that were accepted last; a machine can be built from a lattice with these settings; and every forward simulation, of whatever beam, from whatever element on and however far, gives in the used machine the same states behind all elements, the same final state and the same exception, if any, as in the new one, if it touches no element to be distrusted. To be distrusted are elements that threw an exception or were touched by a simulation that went backward or met such an element, until new settings are accepted for them. In particular, if after each failed simulation new values are set for the element that failed, the values that records of the virtual accelerator show after a simulation are those of a machine newly built from the present settings.", "quantifier": "all lattices of the moment simulation with all kinds of elements, all histories, all beams with as many moments as charge states, all ranges", "why_tests_cant": "Every element keeps results of earlier passes and reuses them when the beam seems to be the same, and assign() of the cavities leaves out fields; that nothing of this is ever seen must hold for all histories.", "anchors": ["src/base.cpp: Machine::Machine, Machine::reconfigure, Machine::propagate", "src/moment.cpp: MomentElementBase::advance, check_cache, assign", "src/flame/rf_cavity.h: ElementRFCavity::assign", "src/rf_cavity.cpp: ElementRFCavity::advance, LoadCavityFile", "vaccel/flame.cpp: Sim::run", "vaccel/flameset.cpp: setting_change_ao"]}
{"id": "C90", "title": "What is simulated is what was written", "statement": "A machine built from the text of a lattice has one element for each member of the beamline in use, in order, with the label of the member as its name, of the class registered for the written type, made from exactly the written parameters (the property, and if there is none the variable of the same name). In the moment simulation the position moves by the written lengths of the members passed. If a lattice is printed and the printed text is loaded, then a machine can be built from it exactly if it can be built from the original (otherwise the exception is the same), and no simulation can tell the two machines apart: the same state, exception and observer calls for every beam, range and direction, and the same settings for the initial state.", "quantifier": "all lattice texts that parse, all given variables, all registries of simulation and element types, all beams, ranges and directions; for printing, lattices whose numbers print exactly, under the conditions of C17 and without nested configurations", "why_tests_cant": "It joins scanner, parser, evaluation, scopes, printing, machine construction and tracking for all texts; a test follows one text.", "anchors": ["src/glps_parser.cpp: parse_context, fill_context, GLPSParser", "src/glps_parser.cpp: GLPSPrint", "src/config.cpp: Config::getAny", "src/base.cpp: Machine::Machine, Machine::propagate", "src/moment.cpp: MomentElementBase::MomentElementBase"]}
{"id": "C91", "title": "Cavities and curves use the current data files", "statement": "When an element needs a file of curves or the data file of a generic cavity, it gets what that file says at a moment of the request, never an older version and never the data of another file, whatever was loaded before and also while files are being changed; a missing or faulty file is refused.", "quantifier": "all histories of requests and of changes, removals and replacements of files, also in the middle of a request, all paths", "why_tests_cant": "All interleavings of file changes and requests, and all paths (for collisions of keys).", "anchors": ["src/rf_cavity.cpp: ElementRFCavity::LoadCavityFile, CavConfMap", "src/moment_sup.cpp: GetCurveData, CurveMap"]}
{"id": "C92", "title": "Simulations from a source can be repeated", "statement": "In the moment simulation, whatever state is sent in and from whatever element on, the results from the first common source on are the same: the state behind every element, the final state and the exception if there is one. This also holds for a machine that was used in between, with other beams, and for two machines with the same settings and different histories. In particular the usual loop that passes the state of the last simulation again to propagate(S, 0) gives the same result every time.", "quantifier": "all machines of the moment simulation with any histories of simulations, reconfigurations and observers that lead to the same settings, all states, start elements and ranges, as long as no element is touched that has thrown or was used backward since its last reconfiguration", "why_tests_cant": "Stored matrices and reference particles of all earlier simulations, and all fields of the incoming state, would have to be varied.", "anchors": ["src/moment.cpp: ElementSource::advance, MomentState::assign", "src/moment.cpp: MomentElementBase::advance, check_cache", "src/flame/rf_cavity.h: ElementRFCavity::advance", "src/base.cpp: Machine::propagate"]}
{"id": "C93", "title": "The linear simulations and the moment simulation agree in the transverse planes", "statement": "A lattice of drifts, markers, monitors, quadrupoles, solenoids and sector bends is given once for a linear simulation, with the focusing strengths, and once for the moment simulation, with the fields that have these strengths for particles of rigidity B and with the angles of bends converted from radians to degrees. Then over every forward range both simulations succeed, end at the same element and advance by the same length. The matrix by which the linear simulation multiplies its state moves, in the moment simulation, the transverse part of the centroid and of the covariance of every charge state of that rigidity. In particular the vector of the Vector simulation stays equal to the centroid, and the TransferMatrix simulation started with the identity ends with the matrix of the range. Bends require a charge state with the charge and the energy of the reference.", "quantifier": "all pairs of lattices that match, all forward ranges, all moving beams with any number of charge states, all states of the linear simulation", "why_tests_cant": "Two simulations with different units and different descriptions of a magnet are compared for all lattices, strengths, signs of the focusing and beams.", "anchors": ["src/linear.cpp: Get2by2Matrix, ElementDrift, ElementSBend, ElementQuad, ElementSolenoid", "src/moment.cpp: ElementDrift, ElementSBend, ElementQuad, ElementSolenoid", "src/moment_sup.cpp: GetQuadMatrix, GetSBendMatrix, GetSolMatrix"]}
{"id": "C94", "title": "The orbit answers linearly to correctors", "statement": "A beam is sent forward without exception through a range of a lattice of the moment simulation: no sources, strippers or sextupoles, no cavity with growth of the emittance, no cavity behind a bend. Then there is one linear map, the orbit response, such that for every lattice that differs only in the strengths of the correctors of the range (angles, or fields times length if realpara is set; correctors may be shifted, tilted, rolled and rotated by xyrotate) and every beam that differs only in the centroids, the simulation ends without exception and with the same reference, position, covariances and particles, and the centroid of every charge state is displaced by the value of the map at the changes. Only the phases of the charge states may differ, and they do not if there is no bend in the range.", "quantifier": "all lattices of these elements, all ranges, all beams with any number of charge states, all changes of all correctors and of all centroids at once", "why_tests_cant": "A test compares a few settings; superposition over all combinations of corrector strengths and initial orbits, with one map for all, cannot be sampled.", "anchors": ["src/moment.cpp: ElementOrbTrim::recompute_matrix", "src/moment.cpp: MomentElementBase::advance", "src/flame/rf_cavity.h: ElementRFCavity::advance"]}
{"id": "C95", "title": "A beam that is turned round and sent through the mirrored lattice comes back", "statement": "Let the elements of a range of a lattice be those of a range of another lattice in the reverse order, each seen from the other end: the edges of a bend change places, the field of a solenoid changes its direction, and a matrix element is given the matrix that undoes it; everything else, including shifts and rolls, is the same. Send a beam through the first range, turn it round (same positions and energy, opposite angles and phase; covariances accordingly) and send it through the second. Both runs succeed and take the same length, and the beam arrives as it started, turned round, for every charge state. In the linear simulations the matrix of the second range undoes that of the first for particles turned round in between.", "quantifier": "all lattices of drifts, markers, monitors, correctors, magnetic and electrostatic quadrupoles, solenoids, magnetic and electrostatic dipoles and matrix elements, shifted and rolled; all ranges; all moving charged beams with any number of charge states", "why_tests_cant": "Reversibility is a relation between two runs over unbounded lattices and all settings; a test can compare a few lattices numerically.", "anchors": ["src/moment_sup.cpp: GetSBendMatrix, GetEBendMatrix, GetQuadMatrix, GetSolMatrix", "src/moment.cpp: recompute_matrix of the elements", "src/linear.cpp"]}
{"id": "C96", "title": "Only the product of charge and field matters", "statement": "Build two machines, the second from a lattice in which every charge (of sources and strippers) is q times as large and every field (of magnets, correctors, electrostatic quadrupoles, cavities and field curves) is divided by q. Use both in the same way: the same sequence of calls of propagate, forward and backward, over any ranges and with any observers, on beams of which the second carries q times the charge. Then every call ends in the same way, with the same exception or none, and the beams at the end and in all views differ in nothing but the charges: energies, phases, moments, envelopes, transfer matrices and positions are the same.", "quantifier": "all q other than 0 (also negative); all lattices of all element types of the moment simulation (strippers with given charges), all data files of cavities, all settings; all sequences of calls; all beams", "why_tests_cant": "It relates two whole sessions, with everything the elements remember between the calls, for every lattice and every real q; tests compare single numbers of single lattices.", "anchors": ["src/moment.cpp: MomentState constructor, advance, recompute_matrix of the elements", "src/flame/moment.h: Particle::Brho, check_cache, check_backward", "src/rf_cavity.cpp: PropagateLongRFCav, InitRFCav, calRFcaviEmitGrowth", "src/chg_stripper.cpp"]}
{"id": "C97", "title": "Only relative directions matter: turning the whole beam line turns the results", "statement": "Build two machines, the second from the lattice turned by an angle a about the axis of the beam line: every offset (dx, dy) is turned by a, every roll is increased by a, and every given transfer matrix is written in the turned coordinates. Use both in the same way: the same sequence of calls of propagate, forward and backward, over any ranges and with any observers, on beams of which the second is turned by a. Then every call ends in the same way, with the same exception or none; positions, energies and phases are the same at the end and in all views; and the centroids, covariances, envelopes and transfer matrices of the second machine are those of the first, turned by a.", "quantifier": "all angles; all lattices of all element types of the moment simulation except sources and strippers, without pitch and yaw, with cavities of every model and data file without emittance growth; all sequences of calls; all beams", "why_tests_cant": "It relates two whole sessions, with everything the elements remember between the calls, for every lattice, every offset and every real angle; a test sees one angle of one element.", "anchors": ["src/moment_sup.cpp: RotMat, GetMisalign", "src/moment.cpp: advance, recompute_matrix of the elements", "src/rf_cavity.cpp", "src/flame/moment.h: check_cache, check_backward"]}
{"id": "C98", "title": "Left and right are alike: mirroring the beam line mirrors the results", "statement": "Build two machines, the second from the lattice seen in a mirror that exchanges left and right: dx, roll and yaw of every element change sign, as do the field of a solenoid (also that of its field curves), the strength of a sextupole, the angles of a bend and of a horizontal electrostatic dipole, and the horizontal kick and the rotation of a corrector; given transfer matrices, centroids and covariances are written in the mirrored coordinates; everything else stays. Use both in the same way: the same sequence of calls of propagate, forward and backward, over any ranges and with any observers, on beams of which the second is the mirror image. Then every call ends in the same way, with the same exception or none; positions, energies, phases and beam sizes are the same at the end and in all views; and the centroids, covariances, envelopes and transfer matrices of the second machine are the mirror images of those of the first.", "quantifier": "all lattices of all element types of the moment simulation (sources of one or several charge states and strippers included), with any offsets, pitch, yaw and roll, cavities of every model and data file with or without emittance growth; all sequences of calls; all beams", "why_tests_cant": "It relates two whole sessions, with everything the elements remember between the calls, for every lattice, every misalignment and every beam; a wrong sign in one entry of one matrix shows only in a beam that uses this entry.", "anchors": ["src/moment_sup.cpp: all matrices, RotMat, GetMisalign", "src/moment.cpp: MomentState, advance, recompute_matrix of the elements", "src/rf_cavity.cpp", "src/flame/rf_cavity.h: advance", "src/chg_stripper.cpp: Stripper_GetMat"]}
{"id": "C99", "title": "How a beam is divided into charge states does not matter", "statement": "Describe one beam in two ways: list the charge states in another order, enter some of them in several equal parts whose weights add up, and give all weights in another unit. Sent through the same lattice, the one simulation ends without an exception if and only if the other one does, and then both describe one beam everywhere on the way and at the end: the same position and reference particle, the same charge states with the same weights in the sum, and the same mean, widths and covariance of the whole beam. If there is a stripper that computes the weights (charge_model baron), the first charge state of both lists has to be the same one, because the stripper takes its velocity.", "quantifier": "all lattices of all element types, with sources, cavities and strippers, all ranges, all beams, all divisions and orders, all units", "why_tests_cant": "It relates two simulations with lists of different lengths for every lattice and every beam; tests use one list of charge states per lattice.", "anchors": ["src/moment.cpp: MomentState::calc_rms, MomentElementBase::advance", "src/flame/rf_cavity.h: ElementRFCavity::advance", "src/chg_stripper.cpp: Stripper_GetMat"]}
{"id": "C100", "title": "A number assigned to a state from Python is stored or refused", "statement": "Assigning to a scalar attribute of a state in Python ends without an exception if and only if the value can be stored in the attribute, which then holds this value; a refused assignment leaves the attribute as it was.", "quantifier": "all attributes with a number or a counter, all values (numbers, integers of any size, other objects, deletion)", "why_tests_cant": "All values, in particular those that do not fit.", "anchors": ["python/flame/modstate.cpp: PyState_setattro"]}
{"id": "C101", "title": "Position and phases along a beam line are the accumulated lengths and times of flight", "statement": "Send a beam forward through any part of a lattice without sources, strippers and cavities. If there is no exception, then behind every element the position is the starting position plus the configured lengths of the elements passed, the reference particle and all charge states have the charge, mass and kinetic energy they started with, the phase of the reference particle has grown by its time of flight over this distance, and the phase of every charge state by its own time of flight over this distance plus, in bends only, the changes of its longitudinal centroid there.", "quantifier": "all lattices, all ranges, all beams with any number of charge states, every element on the way", "why_tests_cant": "Phases accumulate over lines of any length; a test compares the end of one line with a stored number.", "anchors": ["src/moment.cpp: MomentElementBase::advance, ElementBend::advance, ElementSext::advance", "src/base.cpp: Machine::propagate", "src/flame/moment.h: Particle"]}
{"id": "C102", "title": "The sampling frequency is only the unit of phase", "statement": "Build two machines, the second from the same lattice with the SampleFreq of the sources multiplied with a positive factor u and with centroids, covariances and given transfer matrices written in the new unit (phase times u). Use both in the same way: the same sequence of calls of propagate, forward and backward, over any ranges and with any observers, on beams of which the second is the first in the new unit. Then every call ends in the same way, with the same exception or none; positions, energies, all transverse coordinates and the cavity phases are the same at the end and in all views; phases and phase spreads of the second machine, and the entries of its matrices that belong to them, are those of the first in the new unit. This does not hold if a cavity is asked for the growth of the emittance: its amount depends on the sampling frequency.", "quantifier": "all lattices of all element types of the moment simulation (sources of one or several charge states and strippers included), with any misalignment, cavities of every model and data file at any frequency without EmitGrowth; all positive factors; all sequences of calls; all beams", "why_tests_cant": "It relates two whole sessions for every lattice and every factor; cavities run at a multiple of the sampling frequency and convert phases at both ends, and a missing conversion shows only at a frequency that no test lattice uses.", "anchors": ["src/moment.cpp: MomentState::MomentState, advance, recompute_matrix of the elements", "src/flame/moment.h: Particle", "src/rf_cavity.cpp: PropagateLongRFCav, InitRFCav, calRFcaviEmitGrowth", "src/flame/rf_cavity.h: advance"]}
{"id": "C103", "title": "A sextupole may be cut between its slices", "statement": "Replace a sextupole that is computed in m+n slices (the setting step without its fraction) by one with its first m slices and one with its last n slices, with lengths in proportion and otherwise equal settings. Every forward simulation through it ends in the same state and fails if and only if the original one does. The element may be shifted and rolled.", "quantifier": "all lattices, all beams, all ranges through the sextupole, all numbers of slices on both sides", "why_tests_cant": "The matrix of a slice is computed in place of that of the slice before, so that an entry that is not overwritten shows only for particular beams; a test with one sextupole has nothing to compare its slices with.", "anchors": ["src/moment.cpp: ElementSext::advance", "src/moment_sup.cpp: GetSextMatrix"]}
{"id": "C104", "title": "The bunch in a sextupole obeys the equations of motion of its particles", "statement": "At the entrance of a slice of a sextupole the centroid and the covariance of a bunch begin to change as the mean and the covariance of particles that each obey x'' = -k (x^2 - y^2), y'' = 2 k x y, with the same strength k for both; for the covariance the bunch is symmetric about its centroid.", "quantifier": "all finite sets of weighted particles, all strengths, thin and thick lenses", "why_tests_cant": "It compares first and second moments with the motion of every possible set of particles, in the limit of short slices.", "anchors": ["src/moment.cpp: ElementSext::advance", "src/moment_sup.cpp: GetSextMatrix"]}
{"id": "C105", "title": "Data sets are read as the matrices they hold, and recordings can be read back", "statement": "Loading a data set gives a matrix with its shape and entries: a single number is a matrix of one entry, a list a column, a table itself; entries that were never written are zero; missing data sets and those with more than two dimensions are refused. So of a recorded simulation every parameter that is a number or a list is read back with one row for each state, in order, and parameters that are matrices are refused.", "quantifier": "all data sets of any dimensions and entries; all recordings of any length of vector, matrix and moment simulations with any number of charge states, both behaviours of the library when extending a data set", "why_tests_cant": "The round trip joins two components over recordings of any length and data sets of any shape; a wrong order of the entries is invisible for square or constant examples.", "anchors": ["src/h5loader.cpp: H5Loader::load", "src/h5writer.cpp: H5StateWriter::prepare, append", "src/flame/h5loader.h: H5Loader::matrix_t"]}
{"id": "C106", "title": "Messages about a lattice file name the line they are about", "statement": "Every token is counted on the line of the text where it stands, whatever comments, strings and blank lines come before it. print(...) names the line of its semicolon. A parse error names a line between the first token and the semicolon of the first statement that is wrong, and the line of the semicolon if the statement as a whole is wrong; an error of the scanner behind complete statements names the line where the scanner gave up. It fails for operations that write their message themselves (division without result, factors of lines, files that do not exist): they are reported for line 0 or for the line of an earlier error.", "quantifier": "all texts, all arithmetics, all contexts with predefined variables; for expressions that fail, any behaviour of the parser that notices the failure between first token and semicolon", "why_tests_cant": "A counter that misses breaks inside or after comments is right for every text without them; the line after several errors depends on their order.", "anchors": ["src/glps.l: COMMENT and line break rules", "src/glps_parser.cpp: glps_verror, glps_call1, parse_common", "src/glps_ops.cpp: binary_div, binary_mul_line"]}
{"id": "C107", "title": "Small changes of settings and beam have small effects", "statement": "In a line of markers, monitors, drifts, steerers, quadrupoles, solenoids, electrostatic quadrupoles, user matrices, sector magnets that focus or defocus horizontally, electrostatic dipoles and sextupoles of thin lenses, everything the state reports behind each element (position, particles, centroids, covariances, transfer matrices, averages) depends continuously on all numeric settings of the elements (strengths, lengths, misalignments, kicks) and on the beam at the start; in particular the strength of a lens may be changed through zero. The same holds before each element on the way back, if no matrix is singular. It fails for sector magnets whose gradient passes the value where horizontal focusing vanishes: there the dependence of the phase on the energy jumps. It also fails for sextupoles of thick lenses, whose matrix jumps when a vertically displaced bunch passes the horizontal position zero.", "quantifier": "all lattices of such elements, all continuous families of settings and beams over any topological space, all moving charged beams with non-zero total weight, all ranges", "why_tests_cant": "The code chooses between formulas by comparing strengths and angles with zero; that the formulas fit together is a statement about limits.", "anchors": ["src/moment_sup.cpp: GetQuadMatrix, GetSolMatrix, GetSBendMatrix, GetEBendMatrix, RotMat", "src/moment.cpp: MomentElementBase::advance, ElementOrbTrim, ElementQuad, ElementSolenoid, ElementEQuad, calc_rms"]}
{"id": "C108", "title": "Lattice files that use other files mean the same wherever they are", "statement": "parse(\"f\") in a lattice file is the configuration that f, found from the directory of the file that names it, gives when it is parsed on its own, without the variables of the outer file; if f is missing, cannot be read or fails, the file that names it gives no configuration, and nothing is read in its place. So a parse has one result, whatever the depth of nesting, parsing ends if no files use each other in a circle, and a tree of files that use relative names gives the same after it has been moved or when it is parsed from another directory. Without a file name the standard input is read, and so it should be for the name \"-\". It fails for files in a circle, which are parsed without end, and for \"-\", which is an error unless the current directory has a file of that name.", "quantifier": "all file systems, all texts, all arithmetics, any depth of nesting", "why_tests_cant": "The meaning of a file depends on arbitrarily many other files and on the directory of each; a test sees one tree of files from one directory.", "anchors": ["src/glps_ops.cpp: unary_parse, unary_file", "src/config.cpp: GLPSParser::parse_file", "src/flame/config.h: GLPSParser::parse_file"]}
{"id": "C109", "title": "h5file names the file and keeps the group", "statement": "In a lattice file, h5file(\"f/g\") gives the resolved path of the file f followed by the group g, however many parts the group has; for the name of a file alone it gives the resolved path, like file(); if there is no such file it fails with the message that it does not exist. It fails for a missing file in an existing directory, which is not reported, for an absolute path of which no directory exists, which is taken below the directory of the lattice file, and for a file beside the lattice file, which ends in an exception.", "quantifier": "all texts and all file systems", "why_tests_cant": "The result depends on which of all parts of the text exist; the only test uses one relative name with a group.", "anchors": ["src/glps_ops.cpp: unary_h5file", "documentation/mainpage.h: h5file"]}
{"id": "C110", "title": "propagate from Python passes the elements asked for or refuses", "statement": "Machine.propagate(state, start, max, observe) passes the same elements as the C++ function with the same numbers and leaves the same state, and returns one entry for each passage through an element listed in observe, in order. An index in observe that is no element makes the call fail before anything is simulated. Numbers that cannot be represented, or anything but a number, should be refused without effect. That fails: max counts modulo 4294967296, start modulo 2^64, and a max that is no integer raises an exception after the beam has been taken one element backward.", "quantifier": "all machines and states, all classes of elements, all Python integers of any size and other objects as arguments", "why_tests_cant": "The conversions go wrong only beyond the range of machine integers or on the error path, which leaves no trace but a changed state.", "anchors": ["python/flame/modmachine.cpp: PyMachine_propagate, PyScopedObserver, PyStoreObserver", "src/base.cpp: Machine::propagate"]}
{"id": "C111", "title": "Messages of the simulation are shown in full if they are asked for", "statement": "With --verbose N the tool shows warnings and errors always, information from 4 on, debug messages from 5 on and everything from 6 on. A message is written to the console as it is, with a line break at the end, and arrives in the Python logger as it is, without line breaks at the end. It fails for the tool built without HDF5, where the verbosity has no effect on messages, and in Python, where every message loses its last character.", "quantifier": "all verbosities, levels and messages", "why_tests_cant": "No test looks at messages; the statement is about all texts and all numbers.", "anchors": ["tools/cli.cpp: main (verbose)", "src/flame/base.h: Machine::detail, FLAME_LOG", "src/base.cpp: Logcerr", "python/flame/modmain.cpp: PyLogger::log"]}
{"id": "C112", "title": "The records about a simulation tell what its last run did", "statement": "In the virtual accelerator, after any sequence of runs and record processing: the record LastMsg shows the message of the last run that failed from its beginning as far as it fits, the record Runtime shows the duration of the last run, converted as the record says, with the time of its end if device time is asked for, and the record Runcount has grown by the number of runs if it is processed once per run. Records connect only to existing simulations, and unconnected ones never change their text or time. Expected but false: LastMsg is empty after a run without error; Runtime is undefined before the first run; Runcount counts runs whatever processes it.", "quantifier": "all sequences of runs (successful or not, any times and messages) and of processing, all buffer sizes and conversions", "why_tests_cant": "The virtual accelerator has no tests, and the statement is about histories of any length.", "anchors": ["vaccel/flamedev.cpp: init_global, read_last_msg, read_global_runtime, read_count", "vaccel/flame.cpp: Sim::Sim, Sim::run"]}
{"id": "C113", "title": "Storing cavity data changes nothing else", "statement": "h5loadcav.py file.h5/group/dataset input stores the numbers of the input under that name, where H5Loader finds them again as dataset of file.h5/group. It succeeds exactly if the argument has a file and a data set, the input can be read, the file can be opened or created, no data set is in the way of the group, and the data set is not there yet or --force is given. Input that cannot be read changes nothing, other files are never touched, and no object of the file is changed or lost but the data set that --force replaces. It fails for files in other directories, whose first directory is taken for the file, and for --force with the name of a group, which is deleted with everything in it.", "quantifier": "all arguments, all contents of the disk and of the file, all data", "why_tests_cant": "What must stay as it is ranges over all objects of all files and all arguments; a test looks at a few names in one file.", "anchors": ["tools/h5loadcav.py: getargs, main", "src/h5loader.cpp: H5Loader::open"]}
{"id": "C114", "title": "The name of a simulation stands for one machine for ever", "statement": "In the virtual accelerator flamePrepare(name, lattice) makes an instance with the machine of the lattice; it is refused, and changes nothing, if the name is taken or the lattice is faulty, so that a name stands for the machine of the first command that succeeded, whatever follows, and records linked to it stay linked. The other commands are refused for names that do not exist, commands about one name do not touch another, and flameDebug(name, level) lets exactly the messages up to the level through, until it is given again. It fails for flamePrepare without a lattice, which reads the standard input.", "quantifier": "all sequences of commands, all names, all contents of files at each command", "why_tests_cant": "The meaning of a name depends on the whole history of commands; a test tries a few.", "anchors": ["vaccel/flame.cpp: flamePrepare, flameDebug, flameShowConfig, flameShow, Sim::test_debug", "vaccel/flamedev.cpp: SimDev::test_debug"]}
{"id": "C115", "title": "The plot of a data file shows the recorded states", "statement": "The HDF5 file of a run says which kind of simulation it holds, and h5plotsim.py, given file:group, plots exactly the recorded states: for a moment simulation, for each of six coordinates, the centre and one RMS size above and below it over the position; for a Vector simulation the components 0, 2, 4 and 1, 3, 5. Tables packed by tlm2h5.py are plotted the same way. The name of the kind is read back exactly if the memory behind it is empty up to byte 16. It fails if that memory is not empty (setAttr reads beyond the string), with Python 3, for TransferMatrix simulations, for tables packed into a group, and tables with different positions are accepted.", "quantifier": "all files, groups, states, tables and contents of memory", "why_tests_cant": "What is read behind the string depends on the memory layout of the build; a test sees one layout and one plot.", "anchors": ["src/h5writer.cpp: H5StateWriter::setAttr", "tools/cli.cpp:334-337 before_sim", "tools/h5plotsim.py", "tools/tlm2h5.py"]}
{"id": "C116", "title": "A listing shows one configuration only", "statement": "The listing of a configuration (Config::show) is unambiguous: two configurations, nested to any depth, have the same listing if and only if they have the same names in the same order, the same texts, the same structure, and numbers that look the same with the digits shown. Every number and text, at any depth, has its own line with its name and an indent of four blanks per level. It fails for texts with line breaks, which Python can pass but the parser never makes.", "quantifier": "all configurations with any nesting, all number formats that use digits, sign, point and exponent", "why_tests_cant": "Two configurations out of infinitely many could share a listing; tests compare a few listings with expected texts.", "anchors": ["src/config.cpp: show_value, Config::show", "src/flame/config.h: operator<<"]}
{"id": "C117", "title": "A beam on the axis stays on the axis of a symmetric beam line", "statement": "If nothing in a lattice tells left from right (no horizontal offset, roll or yaw, no solenoid or sextupole field, no horizontal bend or kick; vertical offsets, pitch, vertical bends and kicks, quadrupoles, cavities and strippers are allowed), then a beam whose charge states are all centred horizontally and have no correlation between the horizontal plane and the rest keeps this: at the end of every call of propagate and in every observer's view, for the averages and the transfer matrices as well.", "quantifier": "all lattices of any length with such elements of every type, all beams with any number of charge states, all sequences of calls forward and backward with any observers", "why_tests_cant": "A single misplaced matrix entry in any element or a wrong rotation for one misalignment couples the planes only for some settings and beams; tests use a few lattices.", "anchors": ["src/moment.cpp: StateMoment, ElementMoment", "src/moment_sup.cpp: transfer matrices", "src/rf_cavity.cpp: ElementRFCavity", "src/chg_stripper.cpp: ElementStripper"]}
{"id": "C118", "title": "Up and down are alike, and a flat beam stays flat in a horizontal beam line", "statement": "For lattices without RF cavities: if every element and the beam are mirrored vertically (vertical offsets, pitch, roll, solenoid fields, vertical bends and kicks and the rotation of correctors change sign, while horizontal bends, quadrupoles and sextupoles stay as they are), every call of propagate ends in the same way and gives the mirrored beam, in every observer's view as well. So a beam whose charge states all lie in the horizontal plane without correlation to the vertical plane stays like this in quadrupoles, sextupoles, horizontal bends, horizontal electrostatic dipoles, horizontal correctors and strippers of any strength and with any horizontal offset and yaw.", "quantifier": "all lattices of any length without cavities, all misalignments, all beams with any number of charge states, all sequences of calls forward and backward with any observers", "why_tests_cant": "The symmetry relates pairs of runs over a continuum of settings; an odd entry in one matrix of one element or a wrong sign of one misalignment breaks it only for some settings and beams.", "anchors": ["src/moment.cpp: ElementMoment, ElementSBend, ElementSext, ElementEDipole, ElementOrbTrim", "src/moment_sup.cpp: transfer matrices, RotMat, GetSextMatrix, GetEBendMatrix", "src/chg_stripper.cpp: ElementStripper"]}
