# Formal model of FLAME: design

Subject: FLAME (Fast Linear Accelerator Model Engine), C++ sources in /repo, read as text.
Nothing of the project is built or run here.  Everything below is about a Lean 4 model
written by reading the sources; the tie between model and code is the citation
(`file:lines`) in the comment of every definition.

## Layout

| directory (lean/Verif/) | models | properties |
|---|---|---|
| Config/  | src/config.cpp, src/flame/config.h (reference-counted scopes, copy on write, show) | C01-C05, C51, C116 |
| Glps/    | src/glps.l, src/glps.y, src/glps_parser.cpp, src/glps_ops.cpp, GLPSParser and GLPSPrint in src/config.cpp | C06-C17, C106, C108 |
| Machine/ | src/base.cpp, src/flame/base.h, python/flame/modmachine.cpp | C18-C26, C52 |
| Linear/  | src/linear.cpp, src/flame/linear.h | C27-C32, C56, C57 |
| Moment/  | src/moment.cpp, src/moment_sup.cpp, src/flame/moment.h, src/chg_stripper.cpp | C30, C31, C33-C39, C53, C54, C58-C60, C64, C65, C74, C75, C80 |
| Arrays/  | `getArray` in src/base.cpp, src/linear.cpp, src/moment.cpp; wrapstate, getattro, setattro in python/flame/modstate.cpp | C40 |
| Lens/    | the reader of lens files in src/rf_cavity.cpp | C81 |
| Agree/   | src/linear.cpp against src/moment.cpp | C93 |
| Mirror/  | src/moment.cpp, src/moment_sup.cpp, src/linear.cpp | C95 |
| Scale/   | src/moment.cpp, src/rf_cavity.cpp, src/chg_stripper.cpp | C96 |
| Turn/    | src/moment.cpp, src/moment_sup.cpp, src/rf_cavity.cpp | C97 |
| Flip/    | src/moment.cpp, src/moment_sup.cpp, src/rf_cavity.cpp, src/chg_stripper.cpp | C98, C117 |
| Level/   | src/moment.cpp, src/moment_sup.cpp, src/chg_stripper.cpp | C118 |
| Freq/    | src/moment.cpp, src/moment_sup.cpp, src/rf_cavity.cpp, src/chg_stripper.cpp | C102 |
| Sext/    | src/moment.cpp (1135-1211), src/moment_sup.cpp (119-190) | C103, C104 |
| Steady/  | src/moment.cpp, src/moment_sup.cpp | C107 |
| Whole/   | joins Glps/, Machine/ and the simulations | C90 |
| Cavity/  | src/rf_cavity.cpp, src/flame/rf_cavity.h | C44, C45, C61-C63, C66-C68, C72, C73, C79, C81, C84-C89, C92, C94, C99, C101; C21, C31, C33, C35 and C58 with cavities |
| Util/    | src/flame/util.h, src/util.cpp, ArrayInfo, the maps of parsed data files | C41-C43, C91 |
| Vaccel/  | vaccel/*.cpp, python/flame/ioc.py, python/flame/data/*.template | C46, C47, C76-C78, C83, C112, C114 |
| Tools/   | tools/cli.cpp, tools/h5loadcav.py, tools/h5plotsim.py, tools/tlm2h5.py, src/h5writer.cpp, src/h5loader.cpp | C48, C49, C55, C69, C70, C71, C105, C109, C111, C113, C115 |
| Python/  | python/flame/modconfig.cpp, modstate.cpp, modmachine.cpp (init, allocState, reconfigure, propagate) | C41, C50, C51, C82, C100, C110 |

Inside a directory: `Model` files hold the code, `Spec` files hold what the user relies on
(written without reference to the model's helpers), `Lemmas` files hold auxiliary facts and
`Props` files hold only the property theorems and, beside each one, an `example` showing a
non-trivial case that meets the hypotheses.

## Method per property

One paragraph per property: what is modelled, how it is proved.

* C01, C03 - heap of maps with addresses; a Config object is a pair of addresses (own, inherited).
  Whether a map is uniquely referenced is an input of the model, constrained (`UniqueSound`) to
  say "unique" only if no other live object holds the map.
  Refinement: each object is abstracted to (own map, inherited map) and every operation
  commutes with a value-semantics specification *as far as lookups go*; induction over op lists.
* C02, C51 - same model; the claim is false because flatten() writes through a shared
  reference.  Proved: the negation with a concrete history, and the claim for every history
  in which flatten/push_scope is only called on objects whose own map is unshared (`_partial`).
* C04 - decision logic over the lookup result.
* C05 - swapAny proved; swap<T> negated with a witness, what it does instead proved.
* C06, C07 - the scanner as a total function on character lists, longest match by construction;
  inverse theorem by induction on the token list.
* C08 - the grammar's expression part with its %left/%precedence declarations as a precedence
  climbing parser; specification: a minimal-parentheses printer; theorem: parse (print e) = e.
* C09, C10, C12, C13 - parser context as a state machine over statements; invariants by induction.
* C106 - reading a text piece by piece with the number of line breaks before each token; the machine of C13 with the line of the
  message, which is proved to be the machine of C13 when lines are left out.
* C108 - a file system as functions (resolve, directory, contents); the questions a text asks about files, in order; a parse depends on the
  answers only, so nested parsing is a least fixed point: `load` with a number of nested calls, and a theorem that says what its limit is;
  a question without an answer makes the whole parse fail (`C108_needs`, `C108_paths`, `C108_unreadable`).
* C109 - the loop of C48 with what `h5file` makes of its result, over any predicate that says what exists.
* C110 - the call from Python with conversions of its arguments, refined to the C++ function of C22-C25.
* C111 - decision logic of the levels, and the text of a message on its way.
* C112 - records after a history of runs and readings, refined to functions of the runs of the history.
* C113 - an HDF5 file as a function from paths to objects; decision logic of success, and a frame: which paths may change.
* C114 - a table of instances under any sequence of commands, refined to what the history says.
* C115 - a plot as lists of points; from rows of a data file (C69, C70) to curves, and the memory behind a string as a parameter.
* C116 - a tree of entries written as text; injectivity by induction over the nesting, with what may follow a block as invariant.
  `C116_parsed` and `C116_loaded` follow texts from the scanner through grammar, evaluation and nested files to the configuration: none has a line break.
* C107 - families of lattices and beams over a topological space; continuity of each matrix, of one element and of a run by induction, forward and backward.
* C11 - denotation of line expressions as lists; the reversed accumulation proved equal to it.
* C14 - fill_context against a specification of the expected configuration.
* C15 - two runs of the statement machine compared.
* C16 - left fold of a right-recursive rule; closed form.
* C17 - composition scanner o grammar o context o fill_context after the printer, text level.
* C18-C21 - machine as list of elements plus two sorted multimaps; abstract specs on lists.
* C22-C25 - the propagate loop with arbitrary element behaviours as functions on states.
* C26 - registry as association list with exclusive insertion.
* C27-C32, C56, C57 (linear simulations) - 6x6 matrices over the reals on top of the machine model.  The
  matrices are brought to one closed form in the cosine and sine like solutions; splitting, symplecticity and the
  equations of motion follow by algebra.  Determinant 1 follows from symplecticity and splitting in halves.  The
  statements about propagation start from the configured lattice (`C30_linear_machine`, `C27_agree`).
* C33 - cache as state machine over histories of inputs; finding: direction is not in the key.
* C34-C37, C39 - real matrices; algebra and positive semidefiniteness.  C39 describes each charge state by a finite cloud
  of weighted particles and compares with mean and covariance of all of them.
* C38 - real analysis on one record.
* C58, C60 - an invariant of all matrices (closed under products and inverses) carried through `advance` and `run`; for C35 and
  C58 with cavities (Cavity/Carry) an invariant of the covariances under such matrices and under stretching.
* C59 - real matrices in closed form.
* C64 - the entries of the matrices solve linear differential equations (`HasDerivAt`) whose coefficients are written with the
  configured field and the rigidity of the charge state; pieces of a curve by induction.  Pitch and yaw are assumed zero.
* C65 - case analysis over the element types; the time of flight is written from energies only.
* C40 - finite table of parameters; the addresses of a state as disjoint blocks, so that reading and writing an attribute
  refine a table from names to values.  An invariant of `run` carries the table through a simulation.
* C41 - odometer enumeration proved to be the mixed radix enumeration.
* C42, C43 - text reader and cache state machine with a file system parameter.
* C44, C45 - polynomials by induction; the integration of energy and phase refines a motion given by its equations.
* C61 - the same motion without field; matrices in closed form, by induction over the lattice of the cavity.
* C62 - the scaling of phase space areas as an invariant of the loops that build the matrices.
* C66 - the motion of C45 for all particles of a beam, with the matrices and moments of one pass; the settings and files the
  motion refers to are read back from the constructor.
* C68 - the form factors of the code are integrals over the bunch profile; the growth is a variance, hence not negative.
* C69 - data sets as functions of indices with dimensions; invariant over the loop of one append and induction over the
  sequence; `Rows` is the specification.  What is written is read from consecutive addresses, as the library does.
* C105 - the entries in the order of the file and in the storage of a row major matrix; joined with C69 through `Rows`.
* C70 - invariant over the loops that give observers to elements; the specification says which elements are chosen and filters the
  passages of the run; composed with C69 for the content of files.
* C71 - invariant of the table of positions; what is printed stands for the values of the parameter.
* C72 - refinement: the product of matrices in the code simulates a relation that follows one ray through the pieces; the slopes in
  the relation are derivatives.
* C73 - decision logic from settings and data file to the phase at the entry, tied to the motion by the drive of `Crossed`.
* C76 - links as texts; a pattern is the set of texts it describes, with its groups.
* C77, C78 - histories of an IOC (input/output controller, the process with the records): connect, change an element, simulate.
  The specification looks at the last simulation only and recomputes the states behind all elements; that observers, caches and
  kept states agree with it is an invariant.
* C74, C75 - the specification is a system of differential equations for one particle; matrices in the code are evaluated along
  the element and shown to solve it.  For C75 solutions are shown to be unique, so that coefficients can be compared.
* C67 - relation between two runs: each element commutes with the delay, then induction over the run.
* C63 - sums over a field map as vectors in the plane; derivatives of finite sums.
* C79 - tables against integrals of the column with the right heading; fits bounded on their whole range by Bernstein coefficients
  (Verif/Cavity/FitBounds.lean) or by monotone powers.
* C81 - acceptance and result of `LoadCavityFile` against a separate description of settings and files (both directions); lens files
  as text, for all layouts.
* C82 - complete description of `reconfigure` from Python (what is accepted, what the new settings are, that nothing else
  changes), the setting found after any history of calls (induction), the settings used by `allocState`, extra definitions
  against definitions in front of the text (through C15), absence of undefined behaviour for all other arguments.
* C83 - refinement: the records made by the loop with its set of names given out and its search for a free number are those of
  a specification that only counts elements of the same name; distinctness of names by unique decoding; with C76 and C19 the
  link of each record leads to its element.
* C84 - relation between two runs (a beam and a part of it), kept by every element kind and carried along the run by induction; the
  relation speaks about single charge states only.  Strippers are excluded: there all charge states become averages (C39).
* C85 - invariant of a run: charge state equal to the reference particle apart from the weight, centroid zero.  Excluded because
  they do move such a charge state: sextupoles with the default `dstkick = 1` (kick from the size of the beam), dipoles in fit
  mode 0, dipole fields of cavities.  The species must have a charge (`IonZ` not zero), otherwise the scaling of magnets divides
  by zero.
* C86 - the simulations of 0, 1, ..., n elements are related step by step; product of matrices by induction.  The matrix of a cavity
  depends on the centroid that enters (the last column is set so that phase and energy of the centroid become those of the tracked
  particle), so the product is the map of this beam, not of all beams.
* C87 - addition theorems for the matrices (both signs of the strength); rolls and shifts do not depend on the length, so the
  transformations between the parts cancel; two simulations with a different number of elements are related step by step.  The
  elements behind do not look at the matrices in the state.  Elements that are inclined (`pitch`, `yaw`) are left out: they are
  turned around their middle, so parts of an inclined element are not its pieces.  Bends are left out because of their edges.
* C88 - as C87, with a relation between states that allows for the numbers which every element computes anew; it becomes equality
  at the next element.  That the number of moments stays that of the charge states is an invariant of the run.
* C89 - an invariant of every element (what is stored in it is what would be computed, `Fit` and `Used` from C33) is kept by
  forward passes that succeed and by `assign`; two machines whose elements satisfy it for the same settings then run in step.
  `Spec.History` is the set of all histories, with the elements to be distrusted: an element that threw keeps a cache of a computation
  that did not take place (C33), one that was passed backward has other numbers stored.  A weaker invariant (class, settings, and for
  cavities that the tables are those of a file) survives everything and is enough for `assign` to restore the strong one.
  For the virtual accelerator every operation is shown to be a step of a history.
* C92 - a forward run that reaches an element is a run from there on (`run_reach`), a source makes it independent of the state
  (`run_forgets`), and machines with the same settings agree (`run_asNew` of C89).
* C93 - two machines of different simulations run side by side (`run_pair`); matching elements have the same transverse block of the
  matrix (`match_pass`), and the blocks multiply since nothing couples into the transverse planes (`same_moved`, `moved_mul`).
* C94 - two machines with different corrector strengths run side by side (`run_response`); the displacement after each element is a
  linear function of the displacement before it and of the change of the strength (`recompute_kick`, `stepMap`, `cavDisp`), and
  covariances do not see the last column (`congr_bump`).  Sextupoles are excluded since their matrix depends on the orbit, cavities
  behind bends since a bend turns the orbit into a phase, growth of the emittance since it depends on the centroid.
* C95 - with `R` the reflection of the coordinates, the matrices of an element and of its image satisfy `B R A = R` (`Mir`); this
  is shown per element (`reflect_pass`), survives shifts and rolls (`mir_frame`), and is chained along the trace of the first run
  (`run_go`, `leg_back`).  It holds although the code leaves out the phase lag of charge states in electrostatic dipoles (C75),
  since what is left out is left out in both directions.  Excluded: pitch and yaw, curves, sextupoles, cavities, strippers, the
  asymmetry factor of electrostatic dipoles, and bends that do not focus horizontally, for which the code takes the root of a
  number that is not positive.
* C96 - a simulation between two sessions.  The data of every element in the second session are those in the first with all charges
  times `q` (`DRel`, `upD`), also what it remembers for its cache; each `advance` keeps this relation (`advance_up`, `cavity_up`,
  `stripper_up`) unless it throws, and `run_up` and `session_up` carry it through the loops and calls.  After an exception in the
  first pass of an element the relation can be lost, because the element then holds an input without an output; this is why only
  the last call of a session may throw.  Strippers that compute the charges, or take the default of `Stripper_IonZ`, are excluded:
  their numbers are absolute.
* C97 - a simulation between two sessions as for C96, with the relation "turned by `a`" (`turnS`, `turnD`).  The entry matrix of a
  turned element is the old one after the inverse turn, the exit matrix the turn after the old one (`getMisalign_turn`), so the
  whole matrix is conjugated whatever the element does inside; sextupoles and cavities, which do not work by one matrix, are
  treated on their own.  A tilt (pitch, yaw) is not covered: the code multiplies the rotations in a fixed order that does not
  commute with the turn.  Strippers and the emittance growth of cavities act on x' and y' separately and are left out.
* C98 - a simulation between two sessions as for C97, with the relation "seen in the mirror" (`imageS`, `imageD`).  The map
  `M -> D M D` with the diagonal matrix `D` of signs keeps products, inverses, congruences and single assignments, so every matrix
  of an element is followed entry by entry; the matrices of a cavity are even (`recomputeCav_even`), the growth factors of cavities and
  strippers depend on even entries only.  No element type and no misalignment is excluded.  A source without a list of charge states
  must be given its covariance: otherwise its memory is not initialised (C54) and nothing relates the two machines.  Settings that no
  element reads may differ (`Read`), as the moments of a source do that are global variables of the lattice.
* C117 - C98 for a lattice and beams that are their own images.  The terms (`Upright`, `LeftRight`, Flip/SpecSym.lean) are stated with
  zeros, without the mirror; the results of a session are determined by its calls (`session_unique`).
* C118 - the same for the mirror that exchanges up and down (`Reversed` in Level/Spec.lean lists the settings that change sign).  Cavities are
  excluded: their dipole fields act on `y` only, so a cavity is not its own image (`C118_cavity_false`).  The flat beams of `C118_flat` are those that are their
  own images; here bends and sextupoles may have any strength.
* C102 - a simulation as for C98 with the relation "in the other unit" (`inUnit`, `inUnitD`): covariances go with `D S D`, transfer matrices
  with `D T D^-1`, phases with `u`.  A cavity works at its own frequency and changes units at both ends (`jump_f`); everything it computes in
  between is the same (`initRFCav_f`).
* C103 - the two-run simulation of C87; the loop over the slices is a fold, and the matrix that one slice leaves for the next is overwritten
  by it (`turn_fresh`), always for thin lenses and for thick ones off axis.
* C104 - derivatives at length zero: the matrix of a slice is the identity plus its length times a gradient (`Near`), and the moments of a
  finite weighted bunch are differentiated by the equations of motion of its particles.
* C99 - two runs related by a map from the charge states of the one to those of the other (`Div`, built on the map of C84).  Sums
  over charge states with their weights differ by the unit of the weights only (`Div.sum`), so all averages agree; a pass that treats
  the charge states separately keeps the map and the weights (`Two.step`), behind sources and strippers both states are equal.
* C101 - C65 along a run: induction over the runs of increasing length (`run_steps_at`, which keeps the number of the element), the
  times of flight add up because they are linear in the length.
* C91 - an invariant of the map over all histories (`run_inv`): every entry was made from a moment at which the file had the stamp of the
  key, or later; with honest stamps it is what the file says now.  Keys are injective for all paths (`C91_key`).
* C90 - a machine over parsed configurations and one over the lookups that elements see are built and run in step (`Both`, `run_same`), so
  theorems about machines apply to texts; together with C14 (meaning of a text), C17 (printing) and C30 (lengths).  `val` is the real
  number a double stands for.  An entry `elements` is hidden from elements; none of them asks for it.
* C80 - the weights against the normal density of Mathlib and a separate statement of the formula of Baron.
* C46 - worker and any number of clients as a state machine, any schedule; invariant, and liveness under
  stated fairness.
* C47 - field arithmetic with case split on zero parameters.
* C48, C49 - loops over strings; finding: endless loop for absolute specifications.
* C55 - string splitting, and the parser's definition map with the lattice file run after it.
* C50 - recursive conversion with depth limit.
* C52 - value semantics of state copies.
* C53, C54 - decision logic.

## Findings: where the code does not do what the property says

* C02, C51: `flatten()` (also via `push_scope`, `Machine.conf(i)`) writes through a map that another
  Config shares, so enumeration of the other one changes: `C02_false`, `C51_false`.
* C05: `swap<T>` stores the old value in neither place: `C05_swapT_false`.
* C20: `reconfigure` does not update the name index: `C20_false`.
* C21: `assign` of the linear `source` does not copy the initial state: `C21_false`.
  With the real classes: `C21_linear_source_false`; all other linear elements are updated (`C21_linear_fresh`).
* C31: in the linear simulations backward propagation applies the same matrices in the opposite order and adds
  the lengths again, so nothing is undone: `C31_linear_false`, `C31_linear_partial`.
  In the moment simulation sextupoles and strippers throw on the way back and a source is not undone: `C31_moment_false`,
  `C31_stripper_false`; the other elements are undone (`C31_moment_partial`, with cavities `C31_cavity_partial`), provided no
  earlier backward pass has filled their caches.  A cavity does not restore the recorded phase of the last cavity.  Excluded are
  cavities that are pitched or yawed: the way back computes the misalignment with the wave number of the beam behind the
  cavity, the way forward with that of the beam in front of it.  For every yaw between 0 and a right angle an accelerating
  cavity does not lead a beam on the axis back (`C31_tilted_false`).  Excluded are also cavities with growth of the
  emittance: the way back only inverts the matrix (`C31_growth`), so the covariance comes back larger (`C31_growth_false`).
* C53: a text that is no number and a value of a wrong type silently select the default mode: `C53_false`.
* C54: a negative or huge `cstate` is converted to `size_t`, undefined (`C54_cstate_false`); without `IonChargeStates`
  the covariance is left uninitialised unless configured, against the comment "default to identity"
  (`C54_uninitialised`).
* C28 (remark): a bend of length 0 divides by its radius 0 and gets NaN; the model does not represent this
  and no statement is made about it.
* C32 (remark): the error "'initial' has wrong type" of the TransferMatrix state is unreachable, because `get`
  reports a wrong type as `key_error`; the identity is used instead.
* C33: the direction of a pass is not part of the cache key (`C33_both_sides_false`); the key is noted before the
  matrices are computed, so an identical pass after an exception succeeds with an old matrix and an
  uninitialised reference particle (`C33_after_error_false`).
  The cache of an RF cavity is invisible for forward passes (`C33_cavity_partial`): the two entries of a stored matrix that a
  pass overwrites are cleared before they are used, and the members that `assign` forgets (type, file, tables) are compared
  with the configuration and loaded again before they are used (`C21_cavity`, no exception to it, not even after errors).
  Excluded is a cavity with pitch or yaw after a backward pass.  The backward pass overwrites the stored misalignment with one
  that belongs to another wave number, and a following forward pass that hits the cache uses it: the same beam leaves the
  cavity elsewhere than the first time (`C31_tilted_false`).
* C37: the strength of a thick sextupole is computed from the horizontal offset taken twice: off axis in the
  horizontal plane areas are not preserved (`C37_sextupole_thick_false`), and a beam displaced vertically only sees
  a drift (`C37_sextupole_vertical`).  Areas are preserved where both offsets have the same size (`C37_sextupole_thick_partial`).
* C59: a bend that defocuses horizontally (`K` below minus the square of the curvature) takes a sine instead of a
  hyperbolic sine for its dispersion and preserves no areas: `C59_sbend_false`.  An electrostatic dipole uses the
  kinetic energy where all other elements use `beta^2 gamma` times the rest energy, so it preserves a different
  longitudinal area: `C59_edipole`, `C59_edipole_false`.  In fit mode 0 the momentum `bg` of the settings takes the place of that
  of the beam in the dispersion, so areas measured with the momentum of the beam are not preserved if they differ: `C59_fit`,
  `C59_fit_false`.
* C75: an electrostatic dipole deviates from the equations of motion in two places (`C75_edipole_false`).  With curvature `h` a
  particle at distance `x` has the kinetic energy of the orbit less `h x p v`, and `p v` changes with energy by
  `e = 1 + 1/gamma^2`; the field is weaker by `(1+spher) h x`.  So `x'' = -h^2 (e - spher) x`, with `e - spher` equal to
  `1 - spher + 1/gamma^2`; the code has `1 - spher + gamma^2`.  The phase changes by `k (h e x)` less the slip; the code
  multiplies both by `gamma/(1+gamma)` (`CorT`), about one half at low energy, which explains the area of C59.  For other
  charge states the code scales the length with the radius and sets no constant term of the phase (`C75_states_partial`), so
  even where no force acts, along the axis of a cylinder, they fly another length than `L`: `C75_length_false`.
* C93: the linear simulations take the angle `phi` of an sbend in radians (/repo/src/linear.cpp:247), the moment simulation in degrees
  (/repo/src/moment.cpp:1015).  The same settings give different magnets: `C93_bend_false`.
* C74 is false for every magnet that defocuses horizontally, `K + (phi/L)^2 < 0`: the dispersion is computed with a sine instead of
  a hyperbolic one (/repo/src/moment_sup.cpp:243-246), `C74_false`.
* C74 (remark): in fit mode 0 the slip mixes `gamma` of the reference particle with the velocity of the design particle.
* C60: a thick sextupole can increase the emittance of a beam in its horizontal midplane (`C60_sextupole_false`; same cause as
  `C37_sextupole_thick_false`), and the edges of an electrostatic dipole with `asym_fac` kappa multiply it by `(1+kappa)^6`
  (`C60_asym`).  User matrices can be anything and are not claimed.
* C39: the default charge model "baron" of the stripper requires 'NCharge' but ignores it, so the weights are not the
  configured ones: `C39_weights_false`; with the model "off" they are (`C39_weights_partial`).  Remarks: the sizes of
  'Stripper_Para' and 'Stripper_E0Para' are not checked (undefined behaviour, error `logic` in the model); a beam without
  spread in x', y' or energy is divided by zero (the hypotheses of `C39_stripper` exclude it); an empty list of charge
  states is accepted and leaves a beam without charge.
* C40: `getArray` dereferences the first charge state, so that it is undefined for a beam without charge states, which a
  stripper with empty 'IonChargeStates' makes: `C40_empty_false`.
* C45: the energy stays at or above the rest energy (`C45_energy`), but a particle that comes to rest before the last interval
  of the field map gets an infinite wave number and then NaN: `C45_false`.  `C45_motion` says exactly when the result is defined.
* C105 (remark): `H5Loader::load` takes `&storage[0]`, which is undefined for an empty data set; a missing data set is reported as
  a missing group.
* C62 (remark): the only guard on the aperture radius of a cavity is an `assert` (rf_cavity.cpp:1315), and the default build type
  (CMakeLists.txt:15-16) leaves asserts out; `C62_aperture` is therefore about builds with assertions.
* C62 (remark): the damping of the transverse planes uses the energies of the gap model, while the energy of the charge state
  is integrated over the field map; the two agree only as well as the fits, so normalised emittances are conserved with
  respect to the gap model only.
* C68: near a bunching phase of -90 degrees the growth of the emittance reduces the energy spread: `C68_energy_false`.
  The mean square offset adds the variance before the misalignment to the centroid after it, so that in a rolled cavity the
  growth is that of the wrong plane: `C68_roll_false`.  Remarks: without phase spread the form
  factors are NaN, which a comparison turns into no growth; without spread in an angle or the energy the factor is infinite
  (the model reports an error, `cavFault`; `C68_succeeds` says when this cannot happen).
* C69: `H5StateWriter::append` hands the pointer of a parameter to the library without its strides, so with several charge states
  the entries beyond the first are whatever follows in memory: the second `IonZ` is the weight of the first charge state, the second
  `IonEk` is `IonZ` of the second (`C69_several_false`).  If the number of charge states falls later, earlier rows lose theirs when
  `extend` sets the dimensions (`C69_shrink_false`).
* C70: with `--timeit` the simulation is repeated from the final state, so the output has twice as many states and the final state
  is another one (`C70_timeit_false`).  Remarks: format `hdf5` without a file outputs nothing; option `verbose` without a level does
  nothing, as 1 is the default; the message "Empty output format" is unreachable.  `VectorState::show(std::ostream&)`
  (state/vector.h:29) does not override `show(ostream&, int)`, so the text of a vector state is that of the base class.
* C71: a name that is no parameter, or one with three dimensions, prints the first parameter instead: `C71_false`.
* C72: remarks on the physics, which the specification `SpecRay` follows as it is in the code.  Deflections divide by one atomic mass
  unit instead of the rest energy of the particle.  In cavities with two gaps an `HQuad` lens leaves the averages of speed and energy
  in use for the pieces up to the next gap; the longitudinal kick is taken at a phase reached with the mean wave number, the energy
  gain of the centre at a phase reached with the wave number before the gap.  The slope of the gain leaves out that the transit time
  factors depend on energy.
* Cavity (remarks): the length `L` of the element, the extent of the field map and the sum of the drifts of the lattice of the
  cavity are three independent numbers (`C61_off` shows which is used where); with an odd number of points the transit time
  factors of one gap leave out the interval before the middle of the map; positions of the map are assumed to be equally
  spaced except in one sum (`S`); a field that vanishes everywhere gives NaN.
* Moment (remarks): drifts ignore misalignment parameters; a bend with vanishing horizontal focusing (`K` equal to minus the
  square of the curvature) divides by zero and gets NaN; after an exception in `recompute_matrix` the cached
  lists may have different lengths.
* Cavity (remarks, code read but nothing claimed): the pitch and yaw part of the misalignment is computed with the outgoing
  instead of the incoming momentum when propagating backward, and a forward pass after a backward pass reuses the matrices
  written by the backward pass; the emittance growth option is not undone by a backward pass; a failed reload of a
  generic data file leaves an empty lattice, that is an identity; `assign` does not copy `CavType`, `DataFile`, `SynAccTab`,
  `RefNrm` and `SynComplex`.
* C38: a particle at rest reports `bg` = 1 instead of 0 (`C38_at_rest_false`).
* C36 (remark): for a particle at rest the misalignment matrix of the code contains NaN; the model reports an error.
* C26: `registeryCleanup` leaves existing machines with dangling builders; reconfigure is then
  undefined: `C26_cleanup_breaks_existing_machines`.
* C13: the last error of a file is not always reported from the first fault: a failing operator
  (division by zero, bad repeat factor, `file`, `h5file`) replaces an error recorded earlier: `C13_false`.
* C106: the same operators leave `last_line` alone, so their messages come with line 0 ("On line 0: division results in non-finite
  value") or with the line of an earlier error: `C106_operation_false`.
* C107: when the gradient of a sector magnet passes the value where its horizontal focusing vanishes, the matrix entry that takes the
  energy to the phase jumps from one sign to the other: `GetSBendMatrix` uses `sin` where `sinh` belongs (src/moment_sup.cpp:245), and at the
  value itself divides zero by zero: `C107_bend_false`.  A thick sextupole takes its strength from the horizontal offset alone
  (moment_sup.cpp:125), so that its matrix jumps where this offset is zero and the vertical one is not: `C107_thick_false`.
* C108: a file that uses itself, directly or through others, is parsed without end (`C108_circle`, `C108_false`); `parse_file("-")`, documented
  to read the standard input, resolves "-" as a file first and throws (`C108_dash_false`).  Remark: the message "does not exist" of `file` and
  `dir` is unreachable, `canonical` throws before.
* C109: `h5file` cuts before the last `/` first, so it does not notice that a file is missing if its directory exists (`C109_missing_false`);
  it takes the empty text before a leading `/` for the directory of the lattice file (`C109_absolute_false`), and fails with `out_of_range`
  for a name without `/` (`C109_local_false`).
* C110: `propagate` from Python converts `max` with `(int)` and never looks for an exception of the conversion: `C110_max_false`,
  `C110_backward_false`, `C110_undefined_false`, `C110_bad_max_false`; `start` is not checked either: `C110_start_false`.
* C111: in tools/cli.cpp:395-400 the statement of the first `if` disappears without HDF5, so that the second `if` becomes its statement
  and `log_detail` is never set (`C111_tool_false`); `PyLogger` cuts a message before its last character instead of behind it
  (`C111_python_false`).
* C112: vaccel/flame.cpp:49-65 never clears `last_msg`, so that the record shows an old error after a good run (`C112_message_false`);
  `Runtime` is −1 and defined before the first run (`C112_runtime_false`); vaccel/flamedev.cpp:143-148 counts its own calls, even
  for a record without a simulation (`C112_count_false`).
* C113: tools/h5loadcav.py:23-26 takes the first directory of a path for the file (`C113_directory_false`); `--force` with the name of a group
  deletes the group (lines 38-39, `C113_force_false`).
* C114: `flamePrepare` with a name only hands a null pointer to `parse_file`, which then reads the shell's own input (`C114_no_lattice_false`).
* C115: `H5StateWriter::setAttr` (src/h5writer.cpp:247-249) reads 16 bytes from shorter strings (`C115_kind_false`); h5plotsim.py recognises no file
  of the tool with Python 3 (`C115_python3_false`) and calls `None` for other kinds of simulation (`C115_other_false`); tlm2h5.py:19-21
  marks the root instead of the group (`C115_packed_group_false`) and accepts tables with different positions (`C115_positions_false`).
* C116: `show_value` (src/config.cpp:143-147) does not escape line breaks in texts (`C116_listing_false`).
* C12 (remark): names resolve to `pi` and variables before element labels, so `d: drift; d = 3; L: LINE = (d);`
  is an error and `pi` itself can be redefined.
* C17: GLPSPrint writes text that the parser refuses when a line member is labelled like a variable, `name`
  or `USE`: `C17_false`; proved without such labels (`C17_roundtrip_partial`).  Remarks: the default stream
  precision of 6 digits rounds numbers; a variable called `elements` is replaced by the element list and so
  lost; the message "'elements' is not a beamline element list" is unreachable (`get` throws `key_error`);
  a long line (`LINE = (10000*d)`) prints as a member list beyond the parser's stack limit.
* C11 (remark): a repeat factor that is NaN reaches a conversion to an integer that is undefined.
* Lines in messages (C106): where the scanner stands when an expression fails (the parser may have read one token ahead) and at a
  syntax error depends on the tables made by bison; both are parameters.  `C106_reported_partial` asks that failures of expressions
  are noticed between the first token and the semicolon of the statement, and says nothing about syntax errors.
* The generated parser has a stack limit (bison YYMAXDEPTH, 10000 by default) which is not modelled;
  because `file`, `line_list` and `expr_list` are right recursive, files of more than some thousand
  statements or list members stop with "memory exhausted".
* C24: `propagate(max=INT_MIN)` computes `abs(INT_MIN)`, undefined.
* C41: for an array with an empty dimension the loop body runs once with index 0,...,0, outside the array:
  `C41_empty_dim_false`.
* C42: glued numbers ("1.5.2", "1-2") are read as two entries and an incomplete number at the end of a line
  is dropped (`C42_bad_entry_false`); an empty line of a file with CR LF line ends counts as a row without
  entries (`C42_crlf_false`); reading an empty text into a used table keeps the old shape
  (`C42_reuse_false`).  `C42_exact` is complete for well formed texts.
* C43: `fetch` takes the stored time stamp after reading; a change between the two is never noticed:
  `C43_false`; proved without such a change (`C43_current_partial`).  Also a replacement with an older or
  equal time stamp is not noticed (the hypothesis `Honest`).
* C91: time stamps have a resolution of one second, so a second change within the second is never seen: `C91_second_false`.  A
  parse error in the data file of a generic cavity is printed and swallowed, the null pointer is stored and then dereferenced:
  the program crashes (`C91_faulty_false`, for all histories); files of curves are refused (`C91_curves`).  A change during a
  request followed by a return of the old version with its old time stamp serves the newer version (`C91_restored_false`).
  Neither map is protected by a lock.
* C46 (remark): the worker holds the lock during the whole simulation, so clients block that long.
* C48: a specification that starts with '/' and of which no proper prefix opens makes the loop run for ever,
  even if the whole string is a file: `C48_false`.  A specification without group asks for a group named
  like the whole string, and `h5file` then ends in `out_of_range`: `C48_no_group_false`.
* C49: an empty last part is returned: `C49_false`.
* C55: the help text says definitions are overwritten by the lattice file; a redefinition is refused:
  `C55_overwritten_false`.
* C50 (remarks): two dimensional arrays come back flat; text with a NUL is cut there; an empty `bytes` value is
  stored as an empty list of elements; `GLPSParser.parse` does not free the configuration it converts.
* C52: `clone` and `assign` do not copy `next_elem`, which `getArray` exposes: `C52_false`.
* C79: the fits of `TransFacts` for both gaps together (gap label 0) have the sign of one coefficient of `Sp` wrong, in
  cavity 41 (+9.284e6) and in cavity 53 (-1261), which makes it exceed the length of the cavity: `C79_one_gap_false`.  The code
  only asks for the gaps 1 and 2 (/repo/src/rf_cavity.cpp:1252, 1260).
* C80: when an ion has lost more than about 0.99985 of its electrons (light or fast ions, for instance helium at 0.28 times the
  velocity of light) the variance of the formula in `StripperCharge` is negative and the weights are not numbers:
  `C80_fast_false`.  The model stops there.
* C81: the reader of lens files only looks for a failure that is not at the end of the line (/repo/src/rf_cavity.cpp:795).  A line
  that ends too early is accepted, and length, aperture or strength keep the indeterminate values of `RawParams`:
  `C81_short_false`.  A blank line with a carriage return becomes a piece without a type: `C81_crlf_false`.  A unit or a second
  decimal point behind a number is taken for the next value or ignored: `C81_glued_false`.  An element of a generic data file
  with fewer than twenty attributes is read beyond the end of the vector: `C81_attr_false`.  A generic data file that cannot be
  parsed leaves a null pointer, which is then used (/repo/src/rf_cavity.cpp:811-834): see C91; the model of C81 takes the parsed file as
  given.
* C82: `Machine(open("x.lat"))` with a file opened as text, or an `extra` that is no dictionary, makes `PyGLPSParse2Config` return
  null, which `PyMachine_init` dereferences (/repo/python/flame/modmachine.cpp:25-27): `C82_crash_false`.  For a configuration
  given as dictionary or list `extra` is checked and then ignored: `C82_extra_false`.  The index of `reconfigure` is taken modulo
  2^64: `C82_index_false`.  A setting that the class requires and that is missing raises `KeyError` in `Machine` but
  `RuntimeError` in `reconfigure` (`C82_missing`, `C82_kinds`).
* C99: a stripper that computes the weights takes the velocity of the first charge state in the list (/repo/src/chg_stripper.cpp:99), not
  that of the beam, although it replaces the energies by their mean.  Listing the charge states in another order gives another beam
  behind it, in which the charge state with the larger weight can be the other one: `C99_order_false`.
* C102: the growth of the emittance in a cavity takes the width of the bunch in the unit of the sampling frequency
  (`DeltaPhi = sqrt(matIn(4, 4))`, /repo/src/rf_cavity.cpp:1586), while its other lengths and phases belong to the frequency of the cavity.  With
  `EmitGrowth` the results therefore depend on `SampleFreq`: `C102_growth_false`.
* C103: in a thick sextupole the matrix of a slice is written over that of the slice before (/repo/src/moment.cpp:1180), and where the centroid
  is exactly at `x = 0` only two entries are written (/repo/src/moment_sup.cpp:180-183): the focusing of the slice before stays in force,
  `C103_stale_false`.
* C104: `GetSextMatrix` uses one matrix for the centroid and for the covariance.  The gradient that a displaced bunch sees is `2 k x`, but the
  matrix has `k x`, which is right for the centroid (whose kick is quadratic) and half of what the covariance needs:
  `C104_covariance_half`, `C104_covariance_false`.  Thick lenses do not act on a bunch displaced only vertically, since the distance from
  the axis is computed as `sqrt(sqr(Dx)+sqr(Dx))` (/repo/src/moment_sup.cpp:125): `C104_thick_false`.
* C100: an integer that does not fit is refused, but -1 (numbers) or 2^64-1 (counters) is stored before the exception is raised;
  deleting an attribute dereferences null: `C100_refused_false`.
* C83 holds for the default names.  With another function that makes names (`mangler`) the number that resolves a collision of
  names is also written into the link, where it counts elements of the same name (/repo/python/flame/ioc.py:51-52): links to
  elements that do not exist (`C83_mangler_false`).  An element type called `common` would get its records twice
  (`C83_common_false`); no such type is registered.

## Trusted base

* Lean 4.33.0 kernel and, where imported, Mathlib's definitions (Matrix, Real, trigonometry).
* Axioms: at most propext, Classical.choice, Quot.sound for each property theorem.
* The reading of the C++ sources, statement by statement, as cited.

## Not modelled

* Floating point: doubles are reals (or an abstract type); rounding, overflow, NaN and signed
  zeros are not represented unless a definition says so.
* Memory safety, allocation failure, exceptions thrown by the allocator, thread primitives.
* GLPS: within one faulty statement the order of lexical, syntax and evaluation errors (all reported as
  one kind `malformed`); the parser's stack limit; NUL characters in names given to setVar; what files
  that are read by `parse` print.
* Util: number conversion by the standard library (a parameter, as is the text of a number it accepts as
  documented for libstdc++); opening and reading a file is one step; numpy's conversion to an array of the
  requested type.
* Vaccel, C77: what a regular expression matches is taken from its text; time stamps and messages are modelled in C112 only, log output is not.
* Tools, C113: what h5py does with paths, missing groups and existing names is taken from its documentation; attributes, links and the numbers read by
  `loadtxt` are left out.
* Vaccel, C112: times are real numbers; the lock makes runs and readings atomic; records may be processed in any order.
  A refused link may leave an observer behind, which has no effect on other records.  A parameter with three dimensions
  (`moment1`, `transmat`) is always refused, as links have at most two indices.  A class that redirects the beam could skip an
  element, whose record would then show an earlier simulation without alarm; no class in the repository does so.
* Vaccel, C83: copying of files, `st.cmd` besides the number of markers, expansion of `$(PREF)`, limits on the length of names,
  other fields of the records; the lattice is given as names and types of the elements.
* Vaccel: EPICS itself; that the scheduler is fair and that a simulation returns are hypotheses.
* Cavity: the contents of the files are parameters of the model of the element (the text of lens files is modelled in Lens/, and
  `C81_pieces` connects the two; data files of generic cavities enter as parsed); their cache; warnings.
* Tools: the HDF5 library (which prefixes open is a parameter; of writing: data sets, their dimensions and entries, both ways to
  extend them; not chunks, files, attributes and errors of the library); Boost program options.
* Python: encoding of text, sequence types other than list, tuple, text and array, reference counts.
* Error message texts, console output other than GLPSPrint and Config::show (of the tool: which states and values are output, not their text).
