{"id": "C01", "title": "Section count is consistent with the segment list for every build history", "statement": "After any sequence of add_wing calls on an Airplane (including calls that raise, and calls that re-use an existing wing name), Airplane.get_num_sections() equals the sum of get_num_sections() over Airplane.get_wingsegments(), a 'both' wing contributes exactly one left and one right segment (left first), a 'left' or 'right' wing exactly one, and re-using a name replaces the old wing instead of adding to it.", "quantifier": "all finite sequences of add_wing calls with arbitrary names, sides, grid sizes and connection targets", "why_tests_cant": "Tests build a handful of fixed planes; the claim is an invariant of every construction history.", "anchors": ["machup/geometry.py: Airplane.add_wing, Airplane.get_num_sections, Airplane.get_wingsegments, Wing.get_num_sections, Wing.get_wingsegments"]}
{"id": "C02", "title": "Attached wings move rigidly with the wing they are attached to", "statement": "If wing B is attached (directly or through any chain of 'tip' connections) to wing A, then adding a displacement d to A's position offset moves both tips of every segment of B by exactly d, and leaves wings not attached to A where they were. The root of an attached segment is the parent's tip on the same side plus the child's own offset (with yoffset pushed outboard).", "quantifier": "all connection trees of any depth, all offsets, spans, sweeps, dihedrals, and all displacements d", "why_tests_cant": "The depth of the attachment chain and the real-valued dimensions are unbounded.", "anchors": ["machup/geometry.py: Wing.connect_to, Wing.get_position, WingSegment.get_position, WingSegment._get_parent_position"]}
{"id": "C03", "title": "Tip position queries always finish", "statement": "For every plane built with add_wing, asking any segment for its left or right tip position returns a position or raises an error; it never recurses forever. (Fails when a wing is connected to its own name; holds otherwise.)", "quantifier": "all finite sequences of add_wing calls and all segments of the resulting plane", "why_tests_cant": "Absence of cycles is an inductive invariant of the build history; no finite set of planes settles it.", "anchors": ["machup/geometry.py: Airplane.add_wing, WingSegment.get_position, WingSegment._get_parent_position"]}
{"id": "C04", "title": "A two-sided wing is its own mirror image", "statement": "For a 'both' wing with zero lateral offset whose attachment point is symmetric, the left segment's left tip is the mirror image in the x-z plane of the right segment's right tip, and the left segment's right tip mirrors the right segment's left tip; this propagates through chains of such wings.", "quantifier": "all symmetric attachment chains, all dimensions including yoffset, sweep and dihedral", "why_tests_cant": "Real-valued dimensions and unbounded chain depth.", "anchors": ["machup/geometry.py: Wing.__init__, WingSegment.get_position"]}
{"id": "C05", "title": "cg_location sets exactly the coordinates that are passed", "statement": "After Airplane.cg_location(x,y,z) every coordinate that was passed has the passed value and every coordinate that was not passed is unchanged. (Fails when the value passed is 0: the old value is kept.)", "quantifier": "all sequences of cg_location calls and all coordinate values", "why_tests_cant": "The defect depends on the history (a non-zero value must have been set before).", "anchors": ["machup/geometry.py: Airplane.cg_location"]}
{"id": "C06", "title": "Control mixing is antisymmetric for aileron and rudder, symmetric for elevator and flap", "statement": "For every control surface description on a 'both' wing, the mixing reported for the left segment is (-aileron, elevator, -rudder, flap) of what is reported for the right segment, channels that are not in the mix dictionary are 0, and other dictionary entries have no effect.", "quantifier": "all mix dictionaries and both sides", "why_tests_cant": "Unbounded dictionary contents.", "anchors": ["machup/geometry.py: WingSegment.get_control_mix, ControlSurface.get_control_mix, Wing.control_surface"]}
{"id": "C07", "title": "A plane read from a file equals the plane built through the API", "statement": "Building from an input file gives the same plane (same wings in the same order, same dimensions, airfoils, control surfaces and attachments, same CG and reference lengths) as issuing the corresponding add_wing / airfoil / control_surface / cg_location calls in file order; a wing that refers to a parent ID that has not appeared earlier in the file is rejected. (Fails for a wing that names its own ID as its parent: the file is accepted and the wing becomes its own parent.)", "quantifier": "all well-formed wing lists of any length and any parent IDs", "why_tests_cant": "The number of wings and the ID graph are unbounded.", "anchors": ["machup/geometry.py: Airplane._buildfrominputfile, Airplane._map_wing_connections, Airplane._add_wing_from_inputfile"]}
{"id": "C08", "title": "A plane with a propeller built through the API can be analysed", "statement": "Constructing a MachUp model from an Airplane that was built with add_wing/add_prop succeeds whenever the same plane read from a file would succeed. (Fails: the unit system attribute only exists on planes read from a file, so every API-built plane with a propeller is rejected with AttributeError.)", "quantifier": "all API build histories with at least one add_prop call", "why_tests_cant": "Quantifies over all build histories.", "anchors": ["machup/geometry.py: Airplane.__init__, Airplane.get_units", "machup/propssolver.py: PropsSolver.__init__", "machup/MU.py: MachUp.__init__"]}
{"id": "C09", "title": "Spanwise discretisation is an ordered partition of [0,1]", "statement": "For every number of sections n >= 1 and both spacing modes, the corner stations of a segment start at 0, end at 1, are strictly increasing and contiguous (each section starts where the previous one ends), every control station lies strictly inside its section, and the whole discretisation is symmetric under s -> 1-s.", "quantifier": "all n >= 1, both spacing modes, all section indices", "why_tests_cant": "n is unbounded and the stations are transcendental functions of the index.", "anchors": ["machup/llgrid.py: LLGrid._cosine_spacing, LLGrid._linear_spacing, LLGrid._calc_control_points"]}
{"id": "C10", "title": "Vortex corner and control points lie on the segment between the tips", "statement": "For every segment with distinct tips, the first corner point is the left tip, the last is the right tip, consecutive horseshoe vortices share a corner, and every control and corner point is left + s*(right-left) with s its spanwise station.", "quantifier": "all segments (any tips), any n, both spacing modes", "why_tests_cant": "Real-valued geometry and unbounded n.", "anchors": ["machup/llgrid.py: LLGrid._calc_segment_points, LLGrid._calc_unit_s"]}
{"id": "C11", "title": "Section areas add up to the trapezoidal planform area", "statement": "For every segment with |sweep| < 90 deg the section areas sum to semispan*(root_chord+tip_chord)/2, independent of the number of sections, spacing mode, sweep, dihedral, twist and position, and the reference area is the sum of this over the main-wing segments only.", "quantifier": "all planes, all section counts, both spacing modes, all dimensions", "why_tests_cant": "An exact identity over all grid sizes and all real dimensions.", "anchors": ["machup/llgrid.py: LLGrid._calc_area, LLGrid.get_reference_area, LLGrid.get_section_areas", "machup/geometry.py: WingSegment.get_position"]}
{"id": "C12", "title": "Section frames are orthonormal and mirror correctly", "statement": "At every section the axial, normal and spanwise vectors are unit length and mutually perpendicular, spanwise = axial x normal does not depend on twist, and left and right segments of the same wing have mirrored frames.", "quantifier": "all mounting angles, washouts, dihedrals, spans, sides and section indices", "why_tests_cant": "Holds for all real angles.", "anchors": ["machup/llgrid.py: LLGrid._calc_unit_vectors, LLGrid._calc_washout"]}
{"id": "C13", "title": "Interpolated section properties are exact at the ends and bounded by them", "statement": "Chord, washout and every airfoil property at a section is the linear interpolation between the root and tip values with root and tip on the correct side, hence lies between them; with equal root and tip values it is constant.", "quantifier": "all segments, properties, n and section indices", "why_tests_cant": "Unbounded n and real-valued properties.", "anchors": ["machup/llgrid.py: LLGrid._interp_accross_segment, LLGrid._calc_chord, LLGrid._calc_coefficients"]}
{"id": "C14", "title": "The chord-squared weights are the exact spanwise integral of chord squared", "statement": "The value reported per section by get_integral_chord2() equals the integral of chord(s)^2 over that section's spanwise length, and the values of a segment sum to semispan*(cr^2+cr*ct+ct^2)/3.", "quantifier": "all segments, n, spacing modes and dimensions", "why_tests_cant": "An exact integral identity over all real dimensions.", "anchors": ["machup/llgrid.py: LLGrid._calc_integral_chord2"]}
{"id": "C15", "title": "Control surfaces act exactly on the sections they cover", "statement": "A section gets non-zero mixing, flap effectiveness or flap moment only if its control station lies strictly between the control surface's start and end measured from the root; mirrored sections of a 'both' wing have equal flap chord fraction and effectiveness; a surface without chord has zero effectiveness.", "quantifier": "all control surface spans, chords, mixes, sides, n", "why_tests_cant": "Quantifies over real spans and unbounded n.", "anchors": ["machup/llgrid.py: LLGrid._calc_control_surfaces", "machup/geometry.py: WingSegment.get_control_surface_span, WingSegment.get_control_surface_chord"]}
{"id": "C16", "title": "Section arrays are the concatenation of the segments in order", "statement": "The slices assigned to the segments are consecutive, disjoint and cover every section index exactly once, so every array entry is written by exactly one segment, and the arrays are the concatenation of the per-segment data in get_wingsegments() order.", "quantifier": "all lists of segments with arbitrary section counts", "why_tests_cant": "The number of segments and sections is unbounded.", "anchors": ["machup/llgrid.py: LLGrid._update_data"]}
{"id": "C17", "title": "Flap effectiveness is bounded and monotone in the gap seal", "statement": "For every flap chord fraction in [0,1] the theoretical flap effectiveness lies in [0,1], is 0 for no flap and 1 for an all-moving surface, grows with the chord fraction, and an unsealed gap gives exactly 0.8 times the sealed effectiveness.", "quantifier": "all chord fractions in [0,1]", "why_tests_cant": "A transcendental function over a continuum.", "anchors": ["machup/llgrid.py: LLGrid._calc_control_surfaces"]}
{"id": "C18", "title": "A solve with explicit states does not depend on earlier solves", "statement": "LLModel.solve('linear', aero_state, control_state) with non-empty aero_state and non-empty control_state returns the same results after any history of earlier solve calls (successful or failing) as on a freshly built model.", "quantifier": "all histories of solve calls, all states", "why_tests_cant": "Quantifies over unbounded call histories.", "anchors": ["machup/llmodel.py: LLModel.solve, LLModel._process_aero_state, LLModel._process_control_state"]}
{"id": "C19", "title": "Omitting aero_state means V=10, alpha=beta=0", "statement": "LLModel.solve without aero_state uses a uniform 10-per-second flow along -x with no sideslip, incidence or rotation, whatever was solved before. (Fails: the y/z velocity components, the wind direction and the density of the previous solve are kept.)", "quantifier": "all histories of earlier solve calls", "why_tests_cant": "The defect is only visible after certain call histories.", "anchors": ["machup/llmodel.py: LLModel._process_aero_state"]}
{"id": "C20", "title": "Omitting control_state means zero deflection", "statement": "Solving without control_state (or with an empty one) uses zero control deflection, whatever was solved before. (Fails: the deflections of the previous solve are kept.)", "quantifier": "all histories of earlier solve calls", "why_tests_cant": "The defect is only visible after certain call histories.", "anchors": ["machup/llmodel.py: LLModel._process_control_state", "machup/MU.py: MachUp.solve"]}
{"id": "C21", "title": "Results that were returned stay as they were", "statement": "A results object returned by solve is not changed by later solve calls. (Fails for LLModel.solve, which hands out its one internal dictionary; holds for MachUp.solve, which builds a new one.)", "quantifier": "all later call sequences", "why_tests_cant": "Quantifies over all continuations.", "anchors": ["machup/llmodel.py: LLModel.solve, LLModel._compute_forces, LLModel._compute_moments", "machup/MU.py: MachUp.solve"]}
{"id": "C22", "title": "Lift, drag and side force are the total force in wind axes", "statement": "Whenever the wind is not along the y axis, (FL, FD, FS) are the components of (FX, FY, FZ) on an orthonormal right-angled set of axes with drag along the wind and lift perpendicular to the wind and to the y axis: FL^2+FD^2+FS^2 = FX^2+FY^2+FZ^2, FD = F.u; inviscid, viscous and total contributions all satisfy this, and total = inviscid + viscous in all nine components.", "quantifier": "all grids, states with unit wind vector not parallel to y", "why_tests_cant": "Real-valued identity over all flow directions.", "anchors": ["machup/llmodel.py: LLModel._rotate_aero_forces, LLModel._compute_forces, LLModel._compute_moments"]}
{"id": "C23", "title": "The freestream has the requested magnitude and direction", "statement": "For every alpha, beta and V_mag>0 for which it is defined, the freestream velocity used has magnitude exactly V_mag, tan(alpha)=w/u and tan(beta)=v/u ratios of its components, and the wind direction is its unit vector; without rotation rates every section sees this velocity.", "quantifier": "all alpha, beta, V_mag", "why_tests_cant": "Continuum of angles.", "anchors": ["machup/llmodel.py: LLModel._process_aero_state", "machup/propmodel.py: PropModel._set_aero_state", "machup/propssolver.py: PropsSolver._initialize_velocity_field"]}
{"id": "C24", "title": "Forces and moments scale with dynamic pressure in airspeed", "statement": "Multiplying V_mag and the rotation rates by k>0 (same alpha, beta, controls, density) multiplies every force and moment of LLModel.solve by k^2 and leaves all section angles, section coefficients and L/D unchanged.", "quantifier": "all planes, states and k>0", "why_tests_cant": "Quantifies over all geometries, including the solution of an arbitrary-size linear system.", "anchors": ["machup/llmodel.py: LLModel.solve"]}
{"id": "C25", "title": "Forces and moments are proportional to density", "statement": "Multiplying rho by k multiplies every force and moment by k and leaves the circulation, section angles and section coefficients unchanged.", "quantifier": "all planes, states and k", "why_tests_cant": "Quantifies over all geometries and states.", "anchors": ["machup/llmodel.py: LLModel._compute_forces, LLModel._compute_moments"]}
{"id": "C26", "title": "Mirroring the aircraft and the flow mirrors the result", "statement": "Reflecting the whole configuration in the x-z plane (geometry, controls) together with the flow (beta, roll rate and yaw rate negated) keeps FL, FD, FX, FZ, MY and negates FS, FY, MX, MZ.", "quantifier": "all planes, states and controls", "why_tests_cant": "Quantifies over all geometries; involves the solution of an arbitrary-size linear system.", "anchors": ["machup/llmodel.py: LLModel.solve", "machup/llgrid.py: LLGrid"]}
{"id": "C27", "title": "A symmetric aircraft in symmetric flight has no lateral loads", "statement": "For every plane consisting of 'both' wings with zero lateral offsets, CG on the x-z plane, with beta = roll rate = yaw rate = 0 and no aileron or rudder, whenever solve succeeds FY = FS = 0 and MX = MZ = 0.", "quantifier": "all such planes (any number of wings, sections, chains of attachment) and all symmetric states", "why_tests_cant": "End-to-end over unbounded geometry and a linear solve.", "anchors": ["machup/geometry.py: Airplane, Wing, WingSegment", "machup/llgrid.py: LLGrid", "machup/llmodel.py: LLModel.solve"]}
{"id": "C28", "title": "Moving the CG transfers moments", "statement": "Without rotation rates, moving the CG by d changes no force component and changes the total moment by exactly -(d x F) with F the total force.", "quantifier": "all planes, states and displacements", "why_tests_cant": "Real-valued identity over all geometries.", "anchors": ["machup/llmodel.py: LLModel._compute_moments", "machup/geometry.py: Airplane.cg_location, Airplane.get_cg_location"]}
{"id": "C29", "title": "The order in which sections or wings are listed does not matter", "statement": "Permuting the sections (for instance by adding the wings in a different order) leaves every total force and moment unchanged.", "quantifier": "all permutations of all section lists", "why_tests_cant": "Quantifies over all permutations and a linear solve of any size.", "anchors": ["machup/llmodel.py: LLModel.solve", "machup/llgrid.py: LLGrid._update_data"]}
{"id": "C30", "title": "Only positions relative to the CG matter", "statement": "Translating the whole aircraft together with its CG by any vector leaves all forces and moments unchanged, also with rotation rates.", "quantifier": "all planes, states and displacement vectors", "why_tests_cant": "Real-valued invariance over all geometries.", "anchors": ["machup/llmodel.py: LLModel.solve"]}
{"id": "C31", "title": "Forces scale with length squared and moments with length cubed", "statement": "Scaling all positions and chords by k>0 (rotation rates divided by k) multiplies forces by k^2 and moments by k^3.", "quantifier": "all planes, states and k>0", "why_tests_cant": "Quantifies over all geometries and a linear solve of any size.", "anchors": ["machup/llmodel.py: LLModel.solve"]}
{"id": "C32", "title": "The circulation solves the lifting-line equation, and is the only solution", "statement": "Whenever solve succeeds the vortex strengths satisfy, at every section, 2*|V x dl|*G_i - V*CLa*dS*sum_j G_j (v_ji . n_i) = V^2*CL*dS, there is exactly one such set of strengths, and a singular system is reported as an error instead of a result.", "quantifier": "all planes and states", "why_tests_cant": "Unbounded number of sections.", "anchors": ["machup/llmodel.py: LLModel._setup_linear_matrices, LLModel._solve_linear_system"]}
{"id": "C33", "title": "At zero lift there is no circulation and no inviscid force", "statement": "If at every section the local incidence plus effective flap deflection equals the zero-lift angle, all vortex strengths and all inviscid forces are zero and the sections see the undisturbed flow.", "quantifier": "all planes and all such states", "why_tests_cant": "Unbounded number of sections.", "anchors": ["machup/llmodel.py: LLModel._setup_linear_matrices, LLModel._compute_forces"]}
{"id": "C34", "title": "Inviscid section forces are perpendicular to the local velocity; profile drag opposes motion", "statement": "The inviscid force on each section is perpendicular to the local velocity and to its bound vortex segment, so it does no work on the flow; the viscous force on each section is parallel to the local velocity, with non-negative power when the section drag coefficient is non-negative.", "quantifier": "all sections of all solutions", "why_tests_cant": "Real-valued identity over all solutions.", "anchors": ["machup/llmodel.py: LLModel._compute_forces"]}
{"id": "C35", "title": "The bound vortex influence is the Biot-Savart integral", "statement": "The velocity per unit circulation assigned to the bound segment of a horseshoe vortex equals the Biot-Savart line integral over that segment, for every evaluation point off the line segment; on its own segment it is zero.", "quantifier": "all segments and evaluation points", "why_tests_cant": "An integral identity over a continuum.", "anchors": ["machup/llmodel.py: LLModel._pre_calculations"]}
{"id": "C36", "title": "The trailing vortex influence is the Biot-Savart integral", "statement": "The velocity per unit circulation assigned to each trailing leg equals the Biot-Savart integral over the semi-infinite line from the corner point in the wind direction, for every evaluation point off that line, and the denominators vanish only on that line.", "quantifier": "all corner points, unit wind vectors and evaluation points", "why_tests_cant": "An improper integral identity over a continuum.", "anchors": ["machup/llmodel.py: LLModel._calc_induced_velocities"]}
{"id": "C37", "title": "A rejected solve has no side effects", "statement": "If solve raises because V_mag or rho is missing or because stype is not supported, later solves give the same results as if the rejected call had not been made. (Fails for an unsupported stype, whose states have already been absorbed; holds for missing keys.)", "quantifier": "all histories and continuations", "why_tests_cant": "Quantifies over call histories and failure points.", "anchors": ["machup/llmodel.py: LLModel.solve, LLModel._process_aero_state"]}
{"id": "C38", "title": "The reported stall location is the first stalled section, measured from the root", "statement": "_find_stall_location (as used by stall_onset) reports a location iff some section's lift coefficient exceeds its CL_max; it reports the first such section in segment order, with the span location measured from the root on both sides for every wing name.", "quantifier": "all section lists and wing names", "why_tests_cant": "Unbounded number of sections and arbitrary names.", "anchors": ["machup/llmodel.py: LLModel._find_stall_location", "machup/geometry.py: Wing.__init__"]}
{"id": "C39", "title": "MachUp totals are wings plus propellers", "statement": "Every component of MachUp.solve's result is the sum of the wing total and the propeller total, with a missing part counting as zero; for planes with both wings and propellers and positive airspeed, (FL,FD,FS) are the wind-axis components of (FX,FY,FZ) of the sum.", "quantifier": "all planes and states", "why_tests_cant": "Quantifies over all results.", "anchors": ["machup/MU.py: MachUp.solve"]}
{"id": "C40", "title": "solve leaves the caller's state dictionaries alone", "statement": "MachUp.solve does not change the aero_state and control_state dictionaries it is given. (Fails for planes with both wings and propellers: a 'local_state' entry is added to aero_state; all other entries are unchanged.)", "quantifier": "all planes and dictionaries", "why_tests_cant": "Quantifies over all inputs.", "anchors": ["machup/MU.py: MachUp.solve"]}
{"id": "C41", "title": "A dictionary that was used before gives the same result again", "statement": "Passing the same aero_state dictionary to solve again, on the same or another model, gives the result its alpha/beta/V_mag/rho entries describe. (Fails for a wings-only model given a dictionary that a model with propellers has touched: the stale local_state overrides V_mag and rho.)", "quantifier": "all call sequences that reuse a dictionary", "why_tests_cant": "Quantifies over call histories across objects.", "anchors": ["machup/MU.py: MachUp.solve", "machup/llmodel.py: LLModel._process_aero_state"]}
{"id": "C42", "title": "Stability derivatives restore the caller's state and are central differences", "statement": "If stability_derivatives returns, aero_state is as before except that alpha and beta are now present (0 if they were absent), control_state is unchanged, and each derivative is the central difference over +-0.5 degree divided by dynamic pressure, reference area and reference length.", "quantifier": "all states and solver responses", "why_tests_cant": "Quantifies over arbitrary force models.", "anchors": ["machup/MU.py: MachUp.stability_derivatives"]}
{"id": "C43", "title": "Damping derivatives restore the caller's state", "statement": "If damping_derivatives returns, roll_rate, pitch_rate and yaw_rate in aero_state have the values they had before. (Fails: yaw_rate is overwritten with the pitch rate.)", "quantifier": "all states", "why_tests_cant": "The wrong value only shows for some states and only in later calls.", "anchors": ["machup/MU.py: MachUp.damping_derivatives"]}
{"id": "C44", "title": "Control derivatives restore the caller's state and are central differences", "statement": "If control_derivatives returns, control_state has the deflections it had before (absent ones become 0), aero_state is unchanged, and each derivative is the central difference over +-0.25 degree.", "quantifier": "all states and solver responses", "why_tests_cant": "Quantifies over arbitrary force models.", "anchors": ["machup/MU.py: MachUp.control_derivatives"]}
{"id": "C45", "title": "Analysis functions that fail leave the caller's state alone", "statement": "If a derivative or trim function raises, the dictionaries passed in are as before the call. (Fails: an exception from the solver leaves the perturbed value behind.)", "quantifier": "all failure points", "why_tests_cant": "Quantifies over crash points inside the call.", "anchors": ["machup/MU.py: MachUp.stability_derivatives, MachUp.damping_derivatives, MachUp.control_derivatives"]}
{"id": "C46", "title": "stall_onset returns the first stalled angle of the sweep", "statement": "If stall_onset returns alpha = 0.1*k degrees then some section is stalled at alpha and no section is stalled at any 0.1*j degrees with 0 <= j < k, and the reported lift is the lift at alpha.", "quantifier": "all planes and states, all k", "why_tests_cant": "The sweep is unbounded.", "anchors": ["machup/MU.py: MachUp.stall_onset"]}
{"id": "C47", "title": "stall_onset terminates", "statement": "stall_onset always returns or raises. (Fails: if no angle of the sweep stalls a section the loop never ends; it terminates exactly when some sweep angle stalls.)", "quantifier": "all planes and states", "why_tests_cant": "Non-termination cannot be observed by a test.", "anchors": ["machup/MU.py: MachUp.stall_onset"]}
{"id": "C48", "title": "Sweeping analyses leave the caller's angle of attack alone", "statement": "stall_onset, find_aero_center and pitch_trim leave aero_state['alpha'] as it was. (Fails: alpha is left at the last value tried; target_lift and stall_airspeed work on copies and do leave it alone.)", "quantifier": "all states", "why_tests_cant": "Quantifies over all states and numbers of iterations.", "anchors": ["machup/MU.py: MachUp.stall_onset, MachUp.find_aero_center, MachUp.pitch_trim, MachUp.target_lift"]}
{"id": "C49", "title": "target_lift terminates with a converged angle or an error", "statement": "target_lift performs at most 23 solves, and either raises (or records 'unliftable') or returns an angle whose last secant step is below the tolerance, in which case the last lift evaluated differs from the target by less than tolerance times the secant slope; for a lift curve that is a straight line with non-zero slope it returns the exact angle; the caller's aero_state is unchanged.", "quantifier": "all lift curves, targets, tolerances and start angles (start angle -0.2 is degenerate)", "why_tests_cant": "Quantifies over arbitrary lift curves.", "anchors": ["machup/MU.py: MachUp.target_lift"]}
{"id": "C50", "title": "pitch_trim terminates, and a returned trim really trims", "statement": "pitch_trim evaluates at most 101 iterates; a returned state satisfies |FL-L_target|<error and |MY-m_target|<error at the returned alpha and elevator; no_elevator is reported only if both elevator slopes vanish; for lift and moment curves that are linear in alpha and elevator with non-singular slopes it returns the exact trim (or zero angle and elevator if these already meet the tolerance).", "quantifier": "all force models, targets and tolerances", "why_tests_cant": "Quantifies over arbitrary force models.", "anchors": ["machup/MU.py: MachUp.pitch_trim, MachUp._lift_slope, MachUp._moment_slope"]}
{"id": "C51", "title": "pitch_trim honours error and filename whichever arguments are given", "statement": "The tolerance and output file passed to pitch_trim are used also when aero_state or control_state is omitted. (Fails: the default branches drop both.)", "quantifier": "all argument combinations", "why_tests_cant": "Quantifies over all argument combinations and force models.", "anchors": ["machup/MU.py: MachUp.pitch_trim"]}
{"id": "C52", "title": "stall_airspeed works without aero_state", "statement": "stall_airspeed(weight) uses the documented default state. (Fails: it always raises, because self is passed twice.)", "quantifier": "all weights and planes", "why_tests_cant": "Quantifies over all models and weights.", "anchors": ["machup/MU.py: MachUp.stall_airspeed"]}
{"id": "C53", "title": "derivatives works without aero_state", "statement": "derivatives() and control_derivatives() use the documented default aero_state when none is given. (Fails: they always raise AttributeError.)", "quantifier": "all planes and control states", "why_tests_cant": "Quantifies over all models.", "anchors": ["machup/MU.py: MachUp.derivatives, MachUp.control_derivatives"]}
{"id": "C54", "title": "solve writes its output file whichever arguments are given", "statement": "solve(filename=...) without aero_state writes the results file. (Fails: it raises UnboundLocalError after computing the results and writes nothing.)", "quantifier": "all planes and control states", "why_tests_cant": "Quantifies over all models.", "anchors": ["machup/MU.py: MachUp.solve"]}
{"id": "C55", "title": "Finite differences are exact for force curves up to second order", "statement": "If a force component is a polynomial of degree at most two in the perturbed variable, the reported derivative equals the exact derivative at the given state in per-radian, non-dimensional form; static_margin = -Cm_a/CL_a does not depend on the dynamic pressure.", "quantifier": "all quadratic force curves", "why_tests_cant": "Quantifies over a function space.", "anchors": ["machup/MU.py: MachUp.stability_derivatives, MachUp.damping_derivatives, MachUp.control_derivatives, MachUp.derivatives"]}
{"id": "C56", "title": "Non-dimensional derivatives of a wings-only plane do not depend on airspeed or density", "statement": "For a wings-only plane, the stability and control derivatives (and static margin) computed at V_mag*k and rho*m equal those computed at V_mag and rho; the stall angle of attack is also independent of airspeed and density.", "quantifier": "all wings-only planes, states without rotation rates, k>0, m>0", "why_tests_cant": "End-to-end over all geometries.", "anchors": ["machup/MU.py: MachUp.stability_derivatives, MachUp.control_derivatives, MachUp.stall_onset", "machup/llmodel.py: LLModel.solve"]}
{"id": "C57", "title": "The aerodynamic-centre regressions recover exact models", "statement": "If lift, drag and moment follow exactly the model forms used (CL = A(sin a - tan(aL0) cos a), CD quadratic in CL, Cm = c1 sin 2a + c2 CN + c3 CA) the fitted coefficients are exactly those of the model, for every sample of angles that makes the normal equations non-singular.", "quantifier": "all coefficient values and all samples", "why_tests_cant": "Quantifies over all data sets.", "anchors": ["machup/MU.py: MachUp.find_aero_center"]}
{"id": "C58", "title": "Reference lengths default consistently", "statement": "When a reference length is omitted, the missing ones are inferred so that long_ref*lat_ref equals the reference area, with lat_ref twice the largest semispan if both are missing; given ones are kept unchanged.", "quantifier": "all planes and combinations of given reference lengths", "why_tests_cant": "Quantifies over all planes.", "anchors": ["machup/MU.py: MachUp.__init__"]}
{"id": "C59", "title": "Advance ratio, rotation rate and airspeed agree", "statement": "In every successful analysis whose state is given by J or rot_per_sec (or by default), the advance angle of every blade section is that of the advance ratio V_inf/(n*D). (Fails when V_mag = 0 and J != 0 are given together with rot_per_sec: the J supplied is kept.)", "quantifier": "all propellers, prop_state dictionaries and aero states", "why_tests_cant": "Quantifies over all inputs.", "anchors": ["machup/propmodel.py: PropModel._set_prop_state, PropModel._find_coefficients"]}
{"id": "C60", "title": "Propeller state keys have a fixed precedence and invalid states are rejected", "statement": "J takes precedence over rot_per_sec over brake_power over electric_throttle; a non-empty dictionary with none of them raises RuntimeError, as does J with zero advance ratio or zero airspeed and no rot_per_sec; an empty or missing dictionary means J=0.5.", "quantifier": "all prop_state dictionaries", "why_tests_cant": "Quantifies over all dictionaries.", "anchors": ["machup/propmodel.py: PropModel._set_prop_state"]}
{"id": "C61", "title": "Per-propeller states override the common state", "statement": "If prop_state contains an entry named after a propeller, that propeller uses that entry and every other propeller uses the dictionary itself; total forces and moments are the sums over propellers.", "quantifier": "all numbers of propellers and dictionaries", "why_tests_cant": "Unbounded number of propellers.", "anchors": ["machup/propssolver.py: PropsSolver._calc_forces"]}
{"id": "C62", "title": "Total thrust and torque are totals", "statement": "The Thrust and Torque reported in the propeller total are the sums over all propellers. (Fails: they are those of the last propeller.)", "quantifier": "all numbers of propellers", "why_tests_cant": "Unbounded number of propellers.", "anchors": ["machup/propssolver.py: PropsSolver._calc_forces"]}
{"id": "C63", "title": "Propeller moments are r x F plus the axial couple", "statement": "The moment each propeller contributes about the CG is (position - CG) x force plus its torque and yawing couple; thrust acts along the propeller axis, which is a unit vector for every orientation.", "quantifier": "all positions, CGs, orientations and states", "why_tests_cant": "Real-valued identity.", "anchors": ["machup/propmodel.py: PropModel._calc_forces, PropModel._calc_orientation"]}
{"id": "C64", "title": "Propeller loads obey the similarity law", "statement": "At equal advance ratio the thrust scales with rho*n^2*D^4 and the torque with rho*n^2*D^5; in particular scaling V and n together by k scales loads by k^2.", "quantifier": "all propellers, advance ratios and scale factors", "why_tests_cant": "Quantifies over all propellers and states.", "anchors": ["machup/propmodel.py: PropModel._find_coefficients, PropModel._calc_forces, PropModel._set_prop_state"]}
{"id": "C65", "title": "Blade section lift is linear before stall and odd in angle of attack", "statement": "In the pre-stall range section CL equals CL_alpha*alpha for positive and negative alpha; beyond it is a weighted mean of the linear value and the post-stall value, with a weight that vanishes exponentially below the stall angle; for a symmetric section it is odd in alpha.", "quantifier": "all blade sections and angles", "why_tests_cant": "Continuum of angles.", "anchors": ["machup/propmodel.py: PropModel._get_CL"]}
{"id": "C66", "title": "Every blade section gets a defined lift coefficient", "statement": "The lift coefficient used for a blade section is determined by its angle of attack and airfoil, for every angle of attack, and so is the result of the analysis. (Fails at alpha = 0 exactly, where the array entry is left uninitialised; the first analysis of every propeller starts with all sections at exactly that angle. Holds for every other angle.)", "quantifier": "all propellers, states and angles of attack", "why_tests_cant": "Uninitialised memory is not reproducible by tests.", "anchors": ["machup/propmodel.py: PropModel._get_CL, PropModel._find_ei, PropModel._find_coefficients"]}
{"id": "C67", "title": "The induced-angle iterate is kept in its admissible range", "statement": "After correction every induced angle iterate, and every induced angle used for the loads, has magnitude below 1 rad and the sign of (pitch - advance angle), or is zero. (Fails where pitch and advance angle are equal: there the correction only flips the sign. Holds everywhere else.)", "quantifier": "all propellers, states and iterates", "why_tests_cant": "Quantifies over all iterates.", "anchors": ["machup/propmodel.py: PropModel._correct_ei, PropModel._find_ei"]}
{"id": "C68", "title": "A propeller only affects points inside its slipstream", "statement": "A point upstream of the propeller disc or farther than D/2 from its axis receives no induced velocity from it, and the velocity field is the freestream plus the sum of the contributions, independent of propeller order.", "quantifier": "all propellers and points", "why_tests_cant": "Quantifies over all points and any number of propellers.", "anchors": ["machup/propmodel.py: PropModel._calc_immersed_wing_points, PropModel._stone_slipstream", "machup/propssolver.py: PropsSolver.solve"]}
{"id": "C69", "title": "The slipstream contracts and conserves mass flow", "statement": "For non-negative induced axial velocities the slipstream radii are strictly increasing, never exceed the blade radii, and each stream tube carries the same mass flow as at the disc.", "quantifier": "all radial distributions and downstream distances", "why_tests_cant": "Unbounded number of radial nodes and a continuum of distances.", "anchors": ["machup/propmodel.py: PropModel._stone_slipstream"]}
{"id": "C70", "title": "Aerodynamic pitch is geometric pitch minus the zero-lift angle", "statement": "The aerodynamic pitch angle computed from the chord-line pitch is the chord-line pitch angle minus the section zero-lift angle, whenever that difference is in the principal range.", "quantifier": "all blade radii, pitches and zero-lift angles", "why_tests_cant": "Trigonometric identity over a continuum.", "anchors": ["machup/propmodel.py: PropModel._calc_pitch"]}
{"id": "C71", "title": "Motor torque is unit-consistent and decreases with speed", "statement": "For equal motor data the SI torque is 1.3558179483314 times the English torque, torque decreases linearly with rotation rate at constant throttle, and a plane without units is rejected.", "quantifier": "all motors and rates", "why_tests_cant": "Continuum of parameters.", "anchors": ["machup/propmodel.py: PropModel._electric_motor_torque"]}
{"id": "C72", "title": "Every STL facet is written exactly once", "statement": "create_stl allocates exactly as many facets as it writes, and the writes hit every facet index exactly once, for any wings and propellers.", "quantifier": "all section counts, numbers of segments, propellers, blades and nodes", "why_tests_cant": "Index arithmetic over unbounded sizes.", "anchors": ["machup/outputstl.py: create_from_grid"]}
{"id": "C73", "title": "STL rotations are rotations", "statement": "The quaternions built from Euler angles are unit; rotating a point by one preserves lengths and angles; multiplying quaternions composes the rotations.", "quantifier": "all Euler angles and points", "why_tests_cant": "Continuum of angles.", "anchors": ["machup/outputstl.py: Euler2Quat, Body2Fixed, QuatMult"]}
{"id": "C74", "title": "Blades are evenly spaced copies", "statement": "Blade k in the STL is blade 0 rotated about the propeller axis by k*2*pi/B before the common installation rotation, and after B steps the rotation is the identity.", "quantifier": "all blade counts", "why_tests_cant": "Unbounded number of blades.", "anchors": ["machup/outputstl.py: create_from_grid"]}
{"id": "C75", "title": "Segments are drawn with their own airfoil", "statement": "create_stl draws every segment with the airfoil it names, or NACA 2412 if it is not a NACA name. (Fails for NACA names that are not 4-digit: the previous segment's airfoil is silently reused, or an UnboundLocalError is raised for the first.)", "quantifier": "all lists of segments and airfoil names", "why_tests_cant": "Depends on the order of segments.", "anchors": ["machup/outputstl.py: create_from_grid"]}
{"id": "C76", "title": "NACA sections follow the 4-digit definition", "statement": "The surface points are the camber line plus/minus the thickness perpendicular to the camber line. (Fails aft of the maximum camber point, where the slope used is half the slope of the camber line; holds forward of it and for symmetric sections.)", "quantifier": "all camber, camber position, thickness and chord stations", "why_tests_cant": "Continuum of parameters.", "anchors": ["machup/outputstl.py: plotNACA"]}
{"id": "C77", "title": "distributions writes a readable file", "statement": "distributions(filename='*.json') leaves a JSON document containing all distributions. (Fails for planes with propellers: the propeller block is still in an unflushed buffer when the file is re-read, and is appended after the JSON text when the buffer is flushed; holds for wings-only planes.)", "quantifier": "all buffer flush schedules and contents", "why_tests_cant": "Depends on the flush schedule of the runtime.", "anchors": ["machup/MU.py: MachUp.distributions"]}
{"id": "C78", "title": "Blades are drawn at their geometric pitch", "statement": "create_stl draws each blade section rotated by its chord-line (geometric) pitch angle. (Fails whenever the section's zero-lift angle is not zero: the drawn angle is aerodynamic pitch minus zero-lift angle, which is the geometric pitch minus twice the zero-lift angle.)", "quantifier": "all pitches, radii and zero-lift angles", "why_tests_cant": "Continuum of parameters; the visual error is a few degrees.", "anchors": ["machup/outputstl.py: create_from_grid", "machup/propmodel.py: PropModel._calc_pitch, PropModel.get_aero_pitch_angle"]}
{"id": "C79", "title": "The drawn wing sections use the same orientation as the aerodynamic model", "statement": "For every twist and dihedral, and on both sides, the rotation create_stl applies to a wing section maps the section's chord direction and thickness direction to the axial and normal unit vectors used by the lifting-line model.", "quantifier": "all twists, dihedrals and sides", "why_tests_cant": "Trigonometric identity over a continuum.", "anchors": ["machup/outputstl.py: create_from_grid, Euler2Quat, QuatMult, Body2Fixed", "machup/llgrid.py: LLGrid._calc_unit_vectors"]}
{"id": "C80", "title": "Distribution tables are in the units their headers announce", "statement": "Every column of the tables written by distributions() whose header says (deg) is in degrees. (Fails for the wing table's Alpha(deg) column, which is in radians; holds for the propeller table.)", "quantifier": "all states", "why_tests_cant": "Quantifies over all states; values look plausible in either unit.", "anchors": ["machup/MU.py: MachUp.distributions", "machup/llmodel.py: LLModel._distributions", "machup/propssolver.py: PropsSolver._distributions"]}
{"id": "C81", "title": "Turning the aircraft together with the flow turns the forces and moments", "statement": "If the geometry, the CG, the velocities given per section and the rotation rate vector are all turned by the same rotation, then whenever both solves succeed the body-axis forces and moments of all result groups are turned by that rotation.", "quantifier": "all grids, rotations, per-section flows, rotation rates and control states", "why_tests_cant": "Quantifies over the rotation group and all configurations; a unit test compares a handful of orientations within a tolerance.", "anchors": ["machup/llmodel.py: LLModel.solve, LLModel._process_aero_state"]}
{"id": "C82", "title": "Every well-formed aircraft can be discretised", "statement": "For every airplane built through the API whose wings attach only to existing tips of wings added before, with sweep not an odd multiple of 90 degrees, non-zero semispan, at least one section per segment, and control surfaces of non-zero width with chord fractions in [0,1], constructing the lifting-line grid succeeds without an exception or non-finite entries, for both spacing modes.", "quantifier": "all build histories, any number and chains of wings, both spacing modes", "why_tests_cant": "Unbounded build histories and real-valued dimensions.", "anchors": ["machup/llgrid.py: LLGrid", "machup/geometry.py: Airplane, Wing, WingSegment.get_position"]}
{"id": "C83", "title": "Section coefficients, section loads and totals", "statement": "After a successful solve every section's incidence is the angle of the local velocity in the section plane, its lift, drag and moment coefficients are those of the two airfoils of its segment (weighted by position) at that incidence, with a drag penalty of 0.002 per degree of flap deflection in either direction; the section forces and moments follow from these; the inviscid and viscous results are the sums over all sections and the total is the sum of the two; L/D is total lift over total drag.", "quantifier": "all planes, states, control states and call histories for which solve succeeds", "why_tests_cant": "Real-valued identities over all planes and states.", "anchors": ["machup/llmodel.py: LLModel._compute_forces, LLModel._local_parasitic_drag_coefficient, LLModel._compute_moments, LLModel._local_moment_coefficient"]}
{"id": "C84", "title": "A section without lift is reported with zero lift coefficient", "statement": "If no section carries any circulation, every reported section lift coefficient is zero. (Fails with deflected flaps: the reported section_cl, which also enters the drag polar and stall detection, leaves out the flap; holds when no flap has an effective deflection.)", "quantifier": "all planes and states for which solve succeeds with zero circulation", "why_tests_cant": "Quantifies over all planes, states and deflections.", "anchors": ["machup/llmodel.py: LLModel._local_parasitic_drag_coefficient, LLModel._setup_linear_matrices"]}
{"id": "C87", "title": "The first analysis of a propeller is reproducible", "statement": "Two runs of the same first analysis of the same propeller give the same thrust. (Fails: the first residual of the search uses uninitialised memory, and two memory contents give thrust of opposite signs. What holds: a first analysis that succeeds in one process gives the same outcome in every process whose memory holds the same numbers there, whatever it holds where the first one has nan or inf.)", "quantifier": "all propellers, states and memory contents", "why_tests_cant": "Depends on what the allocator returns.", "anchors": ["machup/propmodel.py: PropModel._get_CL, PropModel._find_ei, PropModel._find_coefficients"]}
{"id": "C88", "title": "The slipstream velocity is defined at every wing point", "statement": "Every wing control point gets a finite slipstream velocity. (Fails for points on the propeller axis behind the disc: the tangent direction is a zero vector divided by its length, so such a point gets nan. The condition for points off the axis is part of C68 and C69.)", "quantifier": "all propellers and points", "why_tests_cant": "Continuum of points; the failing set has measure zero but contains every wing with a section on the propeller axis.", "anchors": ["machup/propmodel.py: PropModel._stone_slipstream"]}
{"id": "C85", "title": "stall_airspeed returns the stall speed", "statement": "For a wings-only plane and a flight condition without rotation rates whose stall_onset reports positive lift, stall_airspeed(weight) returns for every positive weight, tolerance and initial guess; the reported airspeed differs from the speed at which the lift at stall equals the weight by at most a fixed multiple of the tolerance, and the reported wing, location and angle are those of stall_onset.", "quantifier": "all wings-only planes, histories, flight conditions without rotation rates, positive weights, guesses and tolerances", "why_tests_cant": "Convergence of an unbounded iteration from every starting guess cannot be tested.", "anchors": ["machup/MU.py: MachUp.stall_airspeed, MachUp.stall_onset"]}
{"id": "C89", "title": "distributions(filename) leaves this call's tables only", "statement": "After distributions(filename=...) the file contains the tables of this call and nothing else, whatever it contained before. (Fails for planes without wings: their table is appended to what was in the file; holds for planes with wings.)", "quantifier": "all planes, states, file names and previous file contents", "why_tests_cant": "Depends on the previous content of the file, i.e. on the history of calls and runs.", "anchors": ["machup/MU.py: MachUp.distributions"]}
{"id": "C90", "title": "The name column tells wings apart", "statement": "Lines of the distribution file that belong to different wing segments or propellers carry different names. (Fails: names are cut to 18 characters, including the left_/right_ prefix; holds for names of at most 18 characters that do not end with a space.)", "quantifier": "all pairs of names", "why_tests_cant": "Quantifies over all names; the usual short ones look fine.", "anchors": ["machup/MU.py: MachUp.distributions"]}
{"id": "C86", "title": "A power setting determines the operating point, whatever was analysed before", "statement": "The result of a propeller analysis depends only on the states passed to it. In particular the rotation rate found for a given braking power or throttle does not depend on earlier analyses of the same object, nor on earlier requests that were rejected.", "quantifier": "every propeller, every pair of histories of earlier analyses (accepted or rejected) and every requested state", "why_tests_cant": "the rotation rate of the previous analysis is the starting point of the secant iteration; a test sees a handful of histories, while the claim is about all of them", "anchors": ["machup/propmodel.py:PropModel._set_prop_state", "machup/propmodel.py:PropModel._find_rot_rate_power", "machup/propmodel.py:PropModel._prop_state_from_power"]}
{"id": "C91", "title": "A propeller driven by power or throttle absorbs what it is given", "statement": "If an analysis with a given braking power (or throttle of an electric motor) succeeds, the returned rotation rate is not zero and together with the returned coefficients it balances the shaft: the power absorbed equals the power given (the aerodynamic torque equals the motor torque) up to the tolerance of the secant iteration.", "quantifier": "every propeller, flow, power or throttle setting and earlier history for which the analysis returns", "why_tests_cant": "the balance must hold at the end of an iteration of unknown length started at an unknown rate", "anchors": ["machup/propmodel.py:PropModel._find_rot_rate_power", "machup/propmodel.py:PropModel._find_rot_rate_motor", "machup/propmodel.py:PropModel._prop_state_from_power"]}
{"id": "C92", "title": "A wing is what the calls made on it say", "statement": "The wing object returned by add_wing consists of the segments its side asks for, with the dimensions given in that call (documented defaults where a keyword is missing), whatever is called before or afterwards. Its root and tip airfoils are those of the last successful airfoil call on it for that end (or for both ends), its control surface that of the last successful control_surface call; rejected calls and calls on other wings do not count.", "quantifier": "all build histories before and after the calls in question, all keywords", "why_tests_cant": "last-write-wins over histories of any length, with rejected calls, other wings and replaced names in between", "anchors": ["machup/geometry.py:Airplane.add_wing", "machup/geometry.py:WingSegment._unpack", "machup/geometry.py:Wing.airfoil", "machup/geometry.py:Wing.control_surface", "machup/geometry.py:Airfoil.__init__", "machup/geometry.py:ControlSurface.__init__"]}
{"id": "C93", "title": "A control surface declared unsealed through the API loses a fifth of its effectiveness", "statement": "After wing.control_surface(..., is_sealed=False), as documented, every section the surface covers has 0.8 times the effectiveness it has with is_sealed=True.", "quantifier": "all wings, control surfaces and build histories", "why_tests_cant": "the claim is about every section of every wing after every history; the shipped tests only use sealed surfaces", "anchors": ["machup/geometry.py:Wing.control_surface", "machup/geometry.py:ControlSurface.__init__", "machup/llgrid.py:LLGrid._calc_control_surfaces"]}
{"id": "C94", "title": "A rejected call leaves the aircraft as it was", "statement": "If add_wing, airfoil or control_surface raises an exception, the aircraft (its wings, their positions and sections) is the same as before the call.", "quantifier": "all build histories and all calls that raise an exception", "why_tests_cant": "all-or-nothing behaviour has to hold at every point where a call can fail", "anchors": ["machup/geometry.py:Airplane.add_wing", "machup/geometry.py:Wing.airfoil", "machup/geometry.py:Wing.control_surface"]}
{"id": "C95", "title": "A wing has the span, sweep and dihedral it was given", "statement": "For every wing segment, the tip lies relative to the root at -b tan(sweep) in x, b cos(dihedral) outboard (to the left or right according to its side) and b sin(dihedral) upwards, where b is the given semispan; so its length in the yz-plane is b. The root of a wing attached to the aircraft is at the aircraft's position plus the given position, moved outboard by yoffset.", "quantifier": "all aircraft built through the API, all wing segments", "why_tests_cant": "must hold for every semispan, sweep, dihedral and chain of connections", "anchors": ["machup/geometry.py:WingSegment.get_position", "machup/geometry.py:Airplane.add_wing"]}
{"id": "C96", "title": "Placing the aircraft elsewhere does not change its forces and moments", "statement": "Two aircraft built by the same calls, one of them with Airplane(position=...) displaced, have the same forces and moments in every flight condition.", "quantifier": "all build histories, displacements, flight conditions and control deflections", "why_tests_cant": "an invariance over all aircraft and displacements", "anchors": ["machup/geometry.py:Airplane.__init__", "machup/geometry.py:Airplane.get_position", "machup/geometry.py:Airplane.get_cg_location", "machup/llgrid.py:LLGrid.get_cg_location"]}
{"id": "C97", "title": "A propeller is what the calls made for it say", "statement": "The propeller stored under a name has the dimensions given in the last add_prop call for that name; under each airfoil name it has the data of the last successful prop.airfoil call for that name since then, and no airfoil of a name for which there was none. The aircraft's propellers are the distinct names passed to add_prop, in the order of first use.", "quantifier": "all build histories", "why_tests_cant": "last-write-wins over histories of any length, with rejected calls and replaced names in between", "anchors": ["machup/geometry.py:Airplane.add_prop", "machup/geometry.py:Prop._unpack", "machup/geometry.py:Prop.airfoil"]}
{"id": "C98", "title": "A propeller turns the way the documented rot_dir value says", "statement": "add_prop documents rot_dir as \"CCW\" or \"CW\", or the numbers 1 or 0; a propeller added with \"CCW\" or 1 turns counter-clockwise in the analysis, one added with \"CW\" or 0 clockwise.", "quantifier": "all values of rot_dir and all propellers", "why_tests_cant": "ranges over every value passed and every propeller definition", "anchors": ["machup/geometry.py:Airplane.add_prop", "machup/geometry.py:Prop.get_rot_dir"]}
{"id": "C99", "title": "Analysing an aircraft does not change it", "statement": "Constructing a MachUp object for an aircraft leaves the aircraft as it was: later calls on it are accepted and have the same effect as if it had not been analysed before, and a second MachUp object gives the same results.", "quantifier": "all aircraft and all later calls", "why_tests_cant": "the claim is about all histories after the analysis", "anchors": ["machup/MU.py:MachUp.__init__", "machup/propmodel.py:PropModel._calc_coefficients", "machup/geometry.py:Prop.airfoil"]}
{"id": "C100", "title": "A MachUp object keeps describing the aircraft as it was when it was constructed", "statement": "Calls on the Airplane after a MachUp object has been constructed for it do not change the results of that object.", "quantifier": "all aircraft, all later calls, all analyses", "why_tests_cant": "ranges over all interleavings of later build calls and analyses", "anchors": ["machup/MU.py:MachUp.__init__", "machup/MU.py:MachUp.solve", "machup/llgrid.py:LLGrid.get_cg_location", "machup/propssolver.py:PropsSolver.__init__", "machup/geometry.py:Airplane.cg_location"]}
{"id": "C101", "title": "Rows of the distribution tables", "statement": "Whenever distributions() returns, its wing table has one row per section in grid order, with the section's name, control point, chord and area, the coefficients of its airfoils at its incidence and flap deflection, and section forces that add up to the inviscid wing force; its propeller table lists every propeller's blade stations in order, with the radius, chord, coefficients at the listed incidence, and axial and tangential parts of the induced velocity.", "quantifier": "all aircraft built through the API, states, control states, propeller states and call histories for which distributions() returns", "why_tests_cant": "A row or column swap gives plausible numbers; has to hold for every aircraft and state.", "anchors": ["machup/MU.py: MachUp.distributions", "machup/llmodel.py: LLModel._distributions", "machup/propssolver.py: PropsSolver._distributions"]}
{"id": "C102", "title": "Giving a filename adds the file and changes nothing else", "statement": "For solve, derivatives, stall_onset, stall_airspeed, target_lift, pitch_trim and find_aero_center: without a filename no file is written; with one, the call returns the same value and leaves everything else as it would without, and exactly one file has been written, with the returned result (or the message that there is none) in it. A call that raises without a filename writes no results with one.", "quantifier": "all aircraft, solvers, states, arguments, call histories and file names", "why_tests_cant": "ranges over all states and outcomes of every analysis", "anchors": ["machup/MU.py: MachUp.solve", "machup/MU.py: MachUp.derivatives", "machup/MU.py: MachUp.stall_onset", "machup/MU.py: MachUp.stall_airspeed", "machup/MU.py: MachUp.target_lift", "machup/MU.py: MachUp.pitch_trim", "machup/MU.py: MachUp.find_aero_center"]}
{"id": "C103", "title": "A blade is what its description says", "statement": "The stations of a propeller blade run evenly from the hub radius to 99.9 % of the tip radius. At every station the chord is the one asked for (default, elliptical, linear between root and tip, or from the table of the file), and zero-lift angle, lift slope, maximum lift and drag coefficients are those of the airfoils: of the only airfoil, or interpolated linearly between the airfoils at their positions (root, tip or a fraction of the radius) and constant beyond the first and last. The order in which the airfoils are listed does not matter.", "quantifier": "all propellers the constructor accepts, numbers of stations, airfoil lists and positions, all chord descriptions and tables", "why_tests_cant": "ranges over all descriptions and any number of airfoils and stations", "anchors": ["machup/propmodel.py: PropModel._calc_spacing", "machup/propmodel.py: PropModel._calc_chord", "machup/propmodel.py: PropModel._calc_coefficients", "machup/geometry.py: Prop.airfoil"]}
{"id": "C104", "title": "A solve uses the flight condition and the controls it is given", "statement": "In every successful wing solve with explicit states, whatever was solved before: the air at each section moves with the requested airspeed, incidence and sideslip (or the velocity given for that section) less the velocity of the section due to the roll, pitch and yaw rates about the centre of gravity, and has the requested density; each section is deflected by the sum of the control inputs times the mixing of its control surface, with full effect up to 11 degrees and a linear loss beyond; and the circulation and all section loads are those for this flow and these deflections. On an aircraft built through the API a section deflects as its segment's control surface declares (ailerons and rudders opposite on the left) if the surface covers it, otherwise not at all.", "quantifier": "all aircraft, sections, aero and control dictionaries, and histories of earlier solves", "why_tests_cant": "ranges over all dictionaries, numbers of sections and histories", "anchors": ["machup/llmodel.py: LLModel._process_aero_state", "machup/llmodel.py: LLModel._superimpose_rotation", "machup/llmodel.py: LLModel._process_control_state", "machup/llmodel.py: LLModel._compute_deflection_efficiency"]}
{"id": "C105", "title": "Thrust, torque and moments of a propeller are the loads of its blade elements", "statement": "Every successful propeller analysis, whatever the propeller was asked before and whether its rotation rate was given, followed from the advance ratio, or was found from brake power or motor throttle, returns the loads of blade elements in the air of the aero state (its density, airspeed and direction, or the defaults without one): with n revolutions per second, an element at radius r meets air at speed 2 pi n r cos(induced angle)/cos(advance angle) and an angle to the disc that is the sum of the two; thrust and torque are the number of blades times the integrals over the radius of its lift and drag resolved along and across the axis; torque acts against the declared sense of rotation; off-axis wind adds a force along the component of the wind across the axis and a couple, both proportional to the angle; and the moment is taken about the centre of gravity. Radii and chords are those described.", "quantifier": "all propellers, aero states, propeller states, histories, and quadrature rules that scale", "why_tests_cant": "ranges over all propellers, numbers of nodes, states and histories", "anchors": ["machup/propmodel.py: PropModel._find_coefficients", "machup/propmodel.py: PropModel._calc_forces", "machup/propmodel.py: PropModel._set_aero_state"]}
{"id": "C106", "title": "Lift and drag of a blade section do not jump at stall", "statement": "get_coefficients_alpha: on either side the post-stall lift curve starts where the straight line CL_alpha*alpha ends, at the stall angle increased by the stall delay; lift and drag close to the stall angle, before or after it, are close to the value of the line and of the drag polar there. The stall angle is CL_max/CL_alpha times a factor that depends on chord over radius alone.", "quantifier": "all blade sections, angles of attack and histories", "why_tests_cant": "ranges over all airfoils, chords, radii and angles", "anchors": ["machup/propmodel.py: PropModel.get_coefficients_alpha", "machup/propmodel.py: PropModel._get_CL", "machup/propmodel.py: PropModel._CD_Viterna", "machup/propmodel.py: PropModel._calc_stall_delay"]}
{"id": "C107", "title": "A blade section without camber has the same drag at opposite angles of attack", "statement": "get_coefficients_alpha: for an airfoil with zero lift at zero angle of attack and a drag polar that is even in the lift coefficient, the drag coefficients at alpha and -alpha are equal, through stall.", "quantifier": "all such airfoils, blade stations and angles of attack", "why_tests_cant": "ranges over all airfoils, stations and angles", "anchors": ["machup/propmodel.py: PropModel._CD_Viterna", "machup/propmodel.py: PropModel._calc_stall_delay"]}
{"id": "C108", "title": "The induced angles balance blade-element lift and wake", "statement": "After a successful propeller analysis the induced angle at every blade station makes the lift of the blade element equal to the circulation of the wake with Prandtl tip loss: B*c/(16 r)*CL = arccos(exp(-B(1-r/R)/(2 sin beta_tip)))*tan(ei)*sin(einf+ei), to the tolerance of the iteration. (Fails: the iteration tests whether the imbalance still changes, not whether it is small, and after 50 passes accepts two stations that still change.)", "quantifier": "all propellers, states, histories and numbers of passes", "why_tests_cant": "an iteration of unbounded length over all propellers and states", "anchors": ["machup/propmodel.py: PropModel._find_ei", "machup/propmodel.py: PropModel._ei_function", "machup/propmodel.py: PropModel._correct_ei"]}
{"id": "C109", "title": "The velocity in a slipstream is that of stream tubes which keep mass flow and angular momentum", "statement": "At a point behind a propeller (hub smaller than tip, positive airspeed, non-negative induced axial velocities) the velocity the propeller adds is interpolated between the stream tubes leaving the blade stations: axial induced velocity grows from its value at the disc towards twice that value, each tube keeps its mass flow and (outside the innermost tenth, which turns as a solid body) its angular momentum; the swirl turns in the sense of the propeller; inside the nacelle and outside the last tube nothing is added.", "quantifier": "all propellers, operating points and points behind the disc", "why_tests_cant": "real-valued, ranges over all propellers, numbers of stations and points", "anchors": ["machup/propmodel.py: PropModel._stone_slipstream", "machup/propmodel.py: PropModel._calc_prop_wing_vel", "machup/propmodel.py: PropModel._find_Vi"]}
{"id": "C110", "title": "The grid's getters report the airfoil at each section", "statement": "Each array returned by an LLGrid getter has, in the row of a section, the value interpolated between the root and the tip airfoil at that section (lift slope, zero-lift angle, maximum lift, moment slopes, drag coefficients, chord, twist); the left/right getters return the values at the left/right end of the segment. (Fails for get_drag_coefficients, which returns the left end's coefficients at every section.)", "quantifier": "all build histories, spacings, segments and sections", "why_tests_cant": "every aircraft and every number of sections; tests only use aircraft whose root and tip airfoils agree", "anchors": ["machup/llgrid.py: LLGrid.get_drag_coefficients", "machup/llgrid.py: LLGrid.get_lift_slopes", "machup/llgrid.py: LLGrid.get_moment_slopes"]}
{"id": "C111", "title": "create_stl draws the aircraft whatever was analysed before", "statement": "If MachUp.create_stl returns, the file it was given contains exactly the triangles of the aircraft's wing segments and propeller blades, each once and in order, whatever analyses were run on the object before; the caller's dictionaries and other files are unchanged, whether it returns or raises. (Fails for an aircraft without wings and propellers: create_stl prints that the geometry was output, and writes nothing.)", "quantifier": "all aircraft built through the API or read from a file, all histories of calls of the analysis methods with any arguments, successful or not", "why_tests_cant": "create_stl runs an analysis itself and draws from objects all analyses share; tests call it once on a fresh object", "anchors": ["machup/MU.py: MachUp.create_stl", "machup/propssolver.py: PropsSolver.get_prop_models", "machup/outputstl.py: create_from_grid"]}
{"id": "C112", "title": "Analyses of an aircraft without propellers do not depend on earlier analyses", "statement": "For an aircraft without propellers, every analysis of a MachUp object that is given a non-empty control_state (and control_derivatives and pitch_trim always) has the same outcome, returned values or exception, changes the caller's dictionaries in the same way and writes the same files as on a freshly constructed object, whatever was analysed on the object before; so has distributions when both dictionaries are given.", "quantifier": "all aircraft without propellers, all histories of calls of all analysis methods with any arguments, successful or not, all later calls", "why_tests_cant": "the solvers keep flight condition, control deflections and results between calls, and every analysis makes many internal solves; tests analyse fresh objects or one fixed sequence", "anchors": ["machup/MU.py: MachUp", "machup/llmodel.py: LLModel.solve", "machup/llmodel.py: LLModel._process_aero_state"]}
{"id": "C113", "title": "Inviscid forces are quadratic in the control positions", "statement": "For a given flight condition, while no control surface of the aircraft is deflected by more than 11 degrees, moving any controls together in fixed proportion changes each inviscid force in the results of solve as a polynomial of degree two in the amount of movement (control deflections superpose in the circulation), and each inviscid moment likewise if no section moment coefficient depends on the angle of attack; so central differences of these forces with respect to controls do not depend on the step.", "quantifier": "all aircraft, flight conditions (with or without local_state and rotation), control positions and directions of movement, whatever was solved before", "why_tests_cant": "a polynomial law over all deflections cannot be settled by samples, and the reduced effectiveness beyond 11 degrees must not set in earlier", "anchors": ["machup/llmodel.py: LLModel.solve", "machup/llmodel.py: LLModel._process_control_state", "machup/llmodel.py: LLModel._setup_linear_matrices", "machup/llmodel.py: LLModel._compute_forces"]}
{"id": "C114", "title": "Wings are drawn from root to tip", "statement": "The file written by create_stl shows every wing segment over its whole span: from the plane of its left end to the plane of its right end.", "quantifier": "all aircraft built through the API, with any dihedral, sweep, taper and number of sections, with or without propellers", "why_tests_cant": "the extent must be right for every geometry and grid; tests look at a file or at its size", "anchors": ["machup/outputstl.py: create_from_grid", "machup/MU.py: MachUp.create_stl", "machup/llgrid.py: LLGrid.get_control_point_pos"]}
{"id": "C115", "title": "The drawing is a closed surface, seen from outside", "statement": "The file written by create_stl describes a closed surface, consistently oriented: every edge of a triangle is shared with a triangle that runs through it in the other direction, and the triangles of wings face outwards (down on the lower side, forward at the nose, up on the upper side).", "quantifier": "all aircraft built through the API with any sweep, dihedral, twist and taper, and all four-digit airfoils", "why_tests_cant": "orientation and closedness are statements about all edges of a mesh of any size, for every geometry", "anchors": ["machup/outputstl.py: create_from_grid", "machup/outputstl.py: plotNACA"]}
{"id": "C116", "title": "A propeller does not deliver more power than its shaft takes", "statement": "After every successful propeller analysis, thrust times airspeed is at most the power that goes into the shaft (rotation rate times torque against the rotation): the efficiency is at most 1, and a windmill delivers no more than its drag takes from the flow. (Fails when the induced angles do not balance lift and wake, see C108. Holds up to the integral of the imbalance left, for sections with non-negative drag.)", "quantifier": "all propellers, aerodynamic states and propeller states given by J or rot_per_sec or by default, whatever was analysed before", "why_tests_cant": "an energy bound for every blade geometry, airfoil and advance ratio; a test sees single operating points", "anchors": ["machup/propmodel.py: PropModel._find_coefficients", "machup/propmodel.py: PropModel._calc_forces"]}
{"id": "C117", "title": "The mirror image of an aircraft with propellers has the mirrored loads", "statement": "Build an aircraft with the mirrored calls (left and right wings exchanged, lateral positions of wings, propellers and CG negated, propeller headings negated, rotation directions reversed). A MachUp object can be constructed for it if and only if one can be constructed for the original, and every solve of a sequence, with mirrored sideslip, rates and lateral controls and the same propeller state, gives the mirrored loads: the same lift, drag, axial and normal force and pitching moment, the opposite side force, rolling and yawing moment. For each propeller the thrust, rotation rate and coefficients are the same, the torque is opposite and the slipstream velocities are mirrored.", "quantifier": "all aircraft that can be built with the API, all sequences of solves with any flow and control dictionaries and propeller states", "why_tests_cant": "a symmetry of all aircraft with propellers and wings in their slipstreams; a test compares single pairs", "anchors": ["machup/propmodel.py: PropModel", "machup/propssolver.py: PropsSolver", "machup/MU.py: MachUp.solve", "machup/geometry.py: Airplane.add_prop"]}
{"id": "C118", "title": "The order in which propellers are added does not matter", "statement": "Build the same aircraft with two programs that differ only in how the calls for the different propellers, and the other building calls, are interleaved (the calls about each propeller stay in order). A MachUp object can be constructed for both or for neither, and every sequence of solve, stability/damping/control derivatives, derivatives and find_aero_center calls, with the same state dictionaries, succeeds on one object exactly if it succeeds on the other, with the same returned values.", "quantifier": "all sequences of building calls, all their re-interleavings, all sequences of analysis calls with any states", "why_tests_cant": "quantifies over permutations of propellers and over histories of analyses; a test compares single orders", "anchors": ["machup/geometry.py: Airplane.add_prop", "machup/geometry.py: Prop.airfoil", "machup/propssolver.py: PropsSolver", "machup/MU.py: MachUp.solve", "machup/MU.py: MachUp.derivatives", "machup/MU.py: MachUp.find_aero_center"]}
{"id": "C119", "title": "A symmetric aircraft with counter-rotating propeller pairs has no lateral loads", "statement": "Take an aircraft whose wings are two-sided and laterally centred, whose position and CG lie on the plane of symmetry, and whose propellers come in pairs of mirror images turning in opposite directions. Every solve of a sequence, with flow and controls without lateral part and the same propeller state for both propellers of each pair, returns zero side force, zero rolling moment and zero yawing moment.", "quantifier": "all aircraft built from symmetric calls with paired propellers, all sequences of symmetric solves", "why_tests_cant": "quantifies over all symmetric aircraft with propellers and over histories of solves; a test checks single aircraft", "anchors": ["machup/propmodel.py: PropModel", "machup/propssolver.py: PropsSolver", "machup/MU.py: MachUp.solve", "machup/geometry.py: Airplane.add_prop"]}
{"id": "C120", "title": "Moving the CG of an aircraft only transfers its moments", "statement": "Take two aircraft with wings and propellers that differ in the location of the CG only, by a vector d. An analysis object can be made for the second one if and only if it can be made for the first one. Every solve of a sequence without rotation rates fails on both with the same exception, or returns on the second one the same forces F and the moments M - d x F.", "quantifier": "all aircraft, all CG offsets, all sequences of solves without rotation rates", "why_tests_cant": "quantifies over all aircraft with wings and propellers, all offsets and all histories of solves", "anchors": ["machup/geometry.py: Airplane.set_cg_location", "machup/MU.py: MachUp.solve", "machup/propmodel.py: PropModel", "machup/llmodel.py: LLModel.solve"]}
{"id": "C121", "title": "Different ways to ask for the same propeller operating state are interchangeable", "statement": "At a speed V that is not zero, two prop_state dictionaries that give every propeller the same advance ratio J - by number, through the default 0.5 when nothing is given, or as the rotation rate V/(J D) - give the same result or the same exception, and leave the analysis object in the same state, after any history.", "quantifier": "all aircraft, all histories, all flows with speed not zero, all pairs of equivalent prop_states", "why_tests_cant": "quantifies over all aircraft, histories and equivalent states", "anchors": ["machup/propmodel.py: PropModel._set_prop_state", "machup/propssolver.py: PropsSolver._calc_forces", "machup/MU.py: MachUp.solve"]}
{"id": "C122", "title": "Similarity law for aircraft with wings and propellers", "statement": "Build an aircraft twice through the API, the second time with all lengths in all calls multiplied by L. An analysis object can be made for the second one if and only if it can be made for the first one. Make the same sequence of solves on both, on the second one at k times the speed in air m times as dense, with the rotation rates of aircraft and propellers multiplied by k/L and the same advance ratios. Each solve fails on both with the same exception, or the forces of the second are m k^2 L^2 and the moments m k^2 L^3 times those of the first.", "quantifier": "all sequences of building calls, all positive L and k, all m, all sequences of solves with propellers driven at given advance ratios or rotation rates", "why_tests_cant": "quantifies over all aircraft, scale factors and histories of solves, including the slipstream coupling between propellers and wings", "anchors": ["machup/geometry.py: Airplane", "machup/propmodel.py: PropModel", "machup/propssolver.py: PropsSolver", "machup/llmodel.py: LLModel.solve", "machup/MU.py: MachUp.solve"]}
{"id": "C123", "title": "Derivatives do not depend on scale, speed or density", "statement": "Build an aircraft with wings, propellers or both twice through the API, the second time with all lengths in all calls multiplied by L. Ask both analysis objects for the derivatives at a given airspeed and density, on the second one at k times the speed in air m times as dense, with the rotation rates of aircraft and propellers multiplied by k/L and the same advance ratios. Both raise the same exception, or all stability, control and damping derivatives, and the static margin, are equal.", "quantifier": "all sequences of building calls, all positive L and k, all non-zero m, all flow, control and propeller states with propellers driven at given advance ratios or rotation rates", "why_tests_cant": "quantifies over all aircraft and scale factors; every derivative call is a chain of perturbed solves that goes through the slipstream coupling", "anchors": ["machup/MU.py: MachUp.derivatives, MachUp.stability_derivatives, MachUp.control_derivatives, MachUp.damping_derivatives", "machup/propssolver.py: PropsSolver", "machup/llmodel.py: LLModel.solve"]}
{"id": "C124", "title": "The propeller wash at a point does not depend on who asks", "statement": "The velocity a propeller induces at a point behind it is the same whether the point is a control point of a wing or an arbitrary point for which the wash is asked: that of stream tubes which keep mass flow and angular momentum, around the nacelle, and zero outside the cylinder behind the disc.", "quantifier": "all propellers, operating states, airspeeds and points", "why_tests_cant": "quantifies over all points and operating states; a test compares the two routes at a few points at most", "anchors": ["machup/propmodel.py: PropModel._find_propwash_velocities, PropModel._calc_prop_wing_vel, PropModel._stone_slipstream"]}
{"id": "C125", "title": "The viscous slipstream keeps thrust and torque", "statement": "In the viscous slipstream model, the jet at every station carries the axial momentum (less the suction of the swirl) and the angular momentum of the slipstream it starts from, in both descriptions the code uses: constant velocities up to a radius, and bell-shaped axial with tent-shaped tangential velocity; the two have the same volume flow. The equivalent jets near the disc and the mixing region around the potential core obey the same balance.", "quantifier": "all propellers, flows and operating states for which the root finder succeeds, all stations", "why_tests_cant": "quantifies over all states; the closed-form integrals in the equations are only checked by comparing with the integrals themselves", "anchors": ["machup/propmodel.py: PropModel._find_propwash_velocities_Goates, PropModel._integrate_ZEF, PropModel._self_similar_velocities, PropModel._tophat_velocities, PropModel._equivalent_swirl_jet, PropModel._calc_swirl_momentum_zfe"]}
{"id": "C126", "title": "The viscous slipstream is defined at every point", "statement": "The viscous slipstream model answers for any set of points: points outside the cone behind the disc get no velocity, points inside get axial velocity and swirl in the sense of rotation of the propeller, and nothing towards the axis.", "quantifier": "all propellers, operating states and sets of points", "why_tests_cant": "quantifies over all sets of points, among them the empty one and those without a point in the stream", "anchors": ["machup/propmodel.py: PropModel._find_propwash_velocities_Goates"]}
{"id": "C127", "title": "Only positions relative to the CG matter", "statement": "Displacing an aircraft as a whole (its wings, its propellers and its CG) changes neither forces and moments nor derivatives: a MachUp object can be constructed for the displaced aircraft iff it can for the original one, and every solve and every derivative call on it gives the same result or raises the same exception. The same holds for any sequence of calls of all methods with airspeed and density given: stalls, angles of attack and trim states are the same, and the aerodynamic centre is displaced in x and z with the aircraft.", "quantifier": "all aircraft with wings, propellers or both, all displacements, all sequences of solves with any flow, rotation rates, controls and propeller states", "why_tests_cant": "quantifies over all aircraft and displacements; the position enters in the connection of segments, the influence of sections on each other, lever arms, rotation velocities and slipstreams", "anchors": ["machup/geometry.py: Airplane, Prop.get_position, Airplane.get_cg_location", "machup/MU.py: MachUp.solve, MachUp.derivatives", "machup/llmodel.py: LLModel.solve", "machup/propmodel.py: PropModel._calc_forces, PropModel._find_propwash_velocities_Stone"]}
{"id": "C128", "title": "Straight wings: always solvable, and monotone", "statement": "For an aircraft whose wings lie side by side on one straight line across the fuselage (no sweep, no dihedral, no overlap), with the wind from the front, a solve always succeeds; with rotation rates it succeeds as long as the air, as seen from every section, still comes from the front and not at right angles to the chord. Without rotation: if no section would have negative lift in two-dimensional flow, none has in the solution. The lift of a section per unit of span stays within any bounds (containing zero) that hold for the two-dimensional lifts of all the sections. Deflecting control surfaces further down anywhere never takes lift away from any section of the wing.", "quantifier": "all such aircraft built through the API, all numbers of sections, both spacings, all plain flight conditions (airspeed, density, incidence, sideslip) with less than 90 degrees between wind and chords, all controls, all earlier solves", "why_tests_cant": "the linear system has a different matrix for every planform, grid size and sideslip; no finite set of runs shows that it is never singular and that its inverse has no negative entry", "anchors": ["machup/llmodel.py: LLModel.solve, LLModel._calc_induced_velocities, LLModel._setup_linear_matrices", "machup/llgrid.py: LLGrid", "machup/geometry.py: Airplane.add_wing"]}
{"id": "C129", "title": "Induced drag of straight wings is not negative", "statement": "In flight without sideslip the induced drag of a straight wing is never negative if the sections are laid out evenly (a wing in one piece with either spacing, or several pieces with linear spacing and sections of the same width), whatever planform, twist, airfoils and controls are. With sections of non-negative drag coefficients the total drag is not negative either.", "quantifier": "all such aircraft built through the API, all numbers of sections, all flight conditions without sideslip and with the wind from the front, all controls, all earlier solves", "why_tests_cant": "induced drag is a quadratic form in the circulations whose sign must be settled for every number of sections and every circulation", "anchors": ["machup/llmodel.py: LLModel.solve, LLModel._forces_and_moments", "machup/llgrid.py: LLGrid"]}
{"id": "C130", "title": "A wing may be described in one piece or in several", "statement": "A straight tapered, twisted wing with one airfoil can be added by one add_wing call, or by two: an inner piece, and an outer piece connected to its tip that continues it, meeting at a section boundary, with the control surface shared out between the pieces and whatever was connected to the wing's tip connected to the outer piece. With evenly spaced sections (cosine_spacing=False) the two aircraft have the same panels, the same reference area and, in every flight condition and for every control setting, the same loads and section results; if one cannot be solved, neither can the other. Cutting again gives any number of pieces.", "quantifier": "all aircraft built through the API, all wings (either side or both, connected or not), all section counts and cuts, all later calls, all flight conditions and controls", "why_tests_cant": "positions, chords, twist, flap geometry and connections are each computed per piece by different code paths (root and tip of each segment, chains of connected segments); that they agree has to hold for every geometry and every chain of connections", "anchors": ["machup/geometry.py: Airplane.add_wing, Wing.control_surface, Wing.airfoil, WingSegment.get_position, WingSegment._get_parent_position", "machup/llgrid.py: LLGrid", "machup/llmodel.py: LLModel.solve"]}
{"id": "C131", "title": "Small changes of the flight condition or the controls change the results a little", "statement": "If a wing analysis succeeds and at no section the disturbed air arrives from straight behind, then it also succeeds for all sufficiently close airspeeds, densities, angles and rotation rates, and for sufficiently close control settings if no control surface is deflected by exactly 11 degrees, and all totals (inviscid, viscous, sum) and all section results (circulation, velocity, angle of attack, coefficients, forces, moments) are as close to the original ones as desired. For straight wings with the air from the front no further condition is needed.", "quantifier": "all wing geometries, all flight conditions and control settings, all tolerances", "why_tests_cant": "a jump or an isolated failure can hide between any two tested conditions; continuity and local solvability quantify over all neighbourhoods", "anchors": ["machup/llmodel.py: LLModel.solve, LLModel._process_aero_state, LLModel._process_control_state, LLModel._solve_linear"]}
{"id": "C132", "title": "Reported stability and damping derivatives are true slopes near the given state", "statement": "Each derivative returned by stability_derivatives is exactly the derivative, per radian, of that coefficient at some angle of attack (or sideslip) strictly within half a degree of the given one, and each derivative returned by damping_derivatives is exactly the derivative with respect to the non-dimensional rate at some rate strictly within 0.005 of the given one, provided the wings can be solved throughout that range with the air arriving neither from straight behind nor along a bound vortex. For straight wings with the air from the front stability_derivatives always returns, and the statement holds without further conditions.", "quantifier": "all wings-only aircraft, all flight conditions with airspeed and density, all non-empty control states", "why_tests_cant": "tests can compare a finite difference with another finite difference only; that a true slope with exactly that value exists needs differentiability of the whole solver on the range", "anchors": ["machup/MU.py: MachUp.stability_derivatives, MachUp.damping_derivatives", "machup/llmodel.py: LLModel.solve"]}
{"id": "C133", "title": "An angle, rate or deflection that is left out means zero", "statement": "Leaving out alpha, beta, a rotation rate or a control deflection gives, in every method, the same outcome, the same written files and the same values in the dictionaries as entering it with the value 0, whatever was called before with or without such entries.", "quantifier": "all aircraft with or without propellers, all methods with all arguments, all call histories, all combinations of left-out entries", "why_tests_cant": "the default is written at some forty places of the code; a test fixes one method and one combination of entries", "anchors": ["machup/MU.py: MachUp.solve, stability_derivatives, damping_derivatives, control_derivatives, stall_onset, stall_airspeed, target_lift, pitch_trim, find_aero_center", "machup/llmodel.py: LLModel._process_aero_state, LLModel._process_control_state", "machup/propmodel.py: PropModel._set_aero_state"]}
{"id": "C134", "title": "No method answers for a flight condition without airspeed or density", "statement": "For an aircraft with wings, with or without propellers, every method called with an aero_state that is not empty, has no local_state and lacks V_mag or rho raises an exception and writes no file, whatever was called before. It never answers with a default airspeed or density or with results of an earlier call.", "quantifier": "all aircraft with wings, all methods with all arguments, all incomplete aero_states, all call histories", "why_tests_cant": "several methods fall back on default values for the dynamic pressure before they solve; that no path answers must hold for all methods, arguments and earlier states", "anchors": ["machup/MU.py: all methods of MachUp", "machup/llmodel.py: LLModel._process_aero_state", "machup/propmodel.py: PropModel._set_aero_state"]}
{"id": "C135", "title": "An aero_state with the documented keys is accepted", "statement": "An aero_state with the keys that the documentation of the methods names (alpha, beta, v_mag, rho) is accepted by every method.", "quantifier": "all aircraft with wings, all methods, all values, all call histories", "why_tests_cant": "the claim is about all methods and all values of the documented form", "anchors": ["machup/MU.py: docstrings of all methods of MachUp", "machup/llmodel.py: LLModel._process_aero_state"]}
{"id": "C136", "title": "Only moments depend on where the CG is", "statement": "Two aircraft, with or without propellers, that differ only in the location of the CG, flown without rotation: stall_onset, stall_airspeed and target_lift have the same outcome, find_aero_center gives the same point, stability_derivatives and control_derivatives give the same force derivatives and moment derivatives that differ as the moments of the forces about the two points do, solve gives the same forces; the same exceptions are raised and the same files written. This holds after any history of such calls.", "quantifier": "all aircraft, all displacements of the CG, all call histories without rotation rates, all flight conditions, deflections and propeller states", "why_tests_cant": "the CG enters the solver, the propeller model, the derivatives and the aerodynamic-centre fit in separate places; that it cancels or transfers must hold for all geometries and all methods", "anchors": ["machup/MU.py: MachUp.solve, stability_derivatives, control_derivatives, stall_onset, stall_airspeed, target_lift, find_aero_center", "machup/llmodel.py: LLModel._forces_and_moments", "machup/propmodel.py: PropModel.solve"]}
{"id": "C137", "title": "Derivatives of symmetric aircraft decouple", "statement": "For an aircraft without propellers, built from two-sided, laterally centred wings with the CG in the plane of symmetry, in symmetric flow (no sideslip, roll rate, yaw rate) with aileron and rudder at zero: stability_derivatives, damping_derivatives, control_derivatives and derivatives report exactly zero for every cross-coupling. Angle of attack, pitch rate, elevator and flap have no effect on side force, rolling and yawing moment; sideslip, roll rate, yaw rate, aileron and rudder have none on lift, drag, axial force, normal force and pitching moment. This does not depend on what was analysed before.", "quantifier": "all such aircraft, all grid sizes, all angles of attack, pitch rates, elevator and flap deflections, all earlier calls on the object", "why_tests_cant": "the cancellation is between the two halves of the aircraft, for every planform and grid; a run shows rounding noise for one of them", "anchors": ["machup/MU.py: MachUp.stability_derivatives, damping_derivatives, control_derivatives, derivatives", "machup/llmodel.py: LLModel.solve"]}
{"id": "C138", "title": "A two-sided wing may be added as two one-sided wings", "statement": "Add a wing once with side='both', or add its two halves by two add_wing calls with side='left' and side='right', the same connection and dimensions, and give the airfoils and the control surface to both halves (anything connected to the wing is connected to the half on its side). A MachUp object can be constructed in the one case iff it can in the other. The sections, their order and the reference area are the same; so are every sequence of solve calls, with or without propellers, and the results of stability_derivatives, control_derivatives, damping_derivatives and derivatives, including the exceptions. Any sequence of calls of all methods with airspeed and density given also gives the same answers (same stall angles, stall speeds, trim states and aerodynamic centre), apart from the name and location reported for a stall.", "quantifier": "all aircraft with such a wing, whatever was added before and after it, all flight conditions, controls and propeller states, all sequences of solves", "why_tests_cant": "two different descriptions are compared for every aircraft around them; mixes of ailerons, connections and object numbers all depend on the side", "anchors": ["machup/geometry.py: Airplane.add_wing, Wing.__init__, Wing.connect_to, WingSegment.get_position, WingSegment.get_control_mix", "machup/llgrid.py: LLGrid", "machup/MU.py: MachUp"]}
{"id": "C139", "title": "Names of wings are only labels", "statement": "Build an aircraft with every name of a wing replaced by another one (different names by different names), both in add_wing and in connect_to, and with any name for the aircraft. A MachUp object can be constructed for it iff it can for the original. The sections, their order and the reference area are the same; so are every sequence of solve calls, with or without propellers, and the results of the derivative methods, including the exceptions. Any sequence of calls of all methods with airspeed and density given also gives the same answers (same stall angles, stall speeds, trim states and aerodynamic centre), apart from the name and location reported for a stall.", "quantifier": "all sequences of calls that build an aircraft (also rejected ones and ones that reuse a name), all injective renamings that keep the empty name, all flight conditions, controls and propeller states", "why_tests_cant": "the claim is about all names; a test tries a few, and names such as 'left_tip' or ones that collide after a prefix is added are easily missed", "anchors": ["machup/geometry.py: Airplane.add_wing, Wing.connect_to, WingSegment.__init__, WingSegment.get_position", "machup/llgrid.py: LLGrid", "machup/MU.py: MachUp"]}
{"id": "C140", "title": "Aircraft whose wings do not touch each other can be analysed in ordinary flight", "statement": "For an aircraft with wings of positive size and lift slope, none of which touch each other, solve returns finite loads in every flight condition without rotation in which the wind meets all sections from their front.", "quantifier": "all aircraft, spacings and numbers of sections, airspeeds, densities, angles, control positions and earlier solves", "why_tests_cant": "whether a control point happens to lie on a vortex depends on the number of sections, the shape and the wind together; the failures are isolated points that tests of a few aircraft miss", "anchors": ["machup/llmodel.py: _pre_calculations, _calc_induced_velocities, _setup_linear_matrices, _solve_linear_system, LLModel.solve", "machup/llgrid.py: LLGrid"]}
{"id": "C141", "title": "Answers of all methods scale with size, speed and density", "statement": "Build an aircraft and one with all lengths multiplied by l, and make the same calls on both objects, in any order, on the second one at k times the airspeed in air m times as dense (rotation rates and propeller speeds scaled by k/l). The last call raises the same exception on both, or: forces are m k^2 l^2 and moments m k^2 l^3 times as large; all derivatives are equal; stall_onset names the same wing, location and angle of attack, with m k^2 l^2 times the lift; target_lift finds the same angle for m k^2 l^2 times the lift; pitch_trim finds the same angle of attack and elevator deflection if only speed and density differ (lift, moment and allowed error scaled, controls given); find_aero_center returns l times the position. The callers' dictionaries end up related in the same way.", "quantifier": "all aircraft with wings, propellers or both, all positive l and k, all m (not zero for derivatives and searches), all sequences of calls with airspeed and density given and propellers at given advance ratios or rotation rates", "why_tests_cant": "the searches are loops whose number of steps depends on the loads; a starting value, tolerance or step that is not scaled shows up only in some aircraft or after some history", "anchors": ["machup/MU.py: MachUp.solve, MachUp.stability_derivatives, MachUp.damping_derivatives, MachUp.control_derivatives, MachUp.derivatives, MachUp.stall_onset, MachUp.stall_airspeed, MachUp.target_lift, MachUp.pitch_trim, MachUp.find_aero_center", "machup/llmodel.py: LLModel.solve", "machup/propmodel.py: PropModel"]}
{"id": "C142", "title": "All methods give mirrored answers for the mirror image of an aircraft", "statement": "Build an aircraft and its mirror image (every call mirrored, any centre of gravity) and make the same calls on both objects, in any order, on the second one with mirrored flow, aileron and rudder and the same propeller states. The last call raises the same exception on both, or: the loads are mirrored; stalls happen at the same angle of attack, lift and airspeed; target_lift and pitch_trim find the same angles of attack and elevator deflections; the aerodynamic centre is the same; the callers' dictionaries are left as mirror images. For aircraft without propellers, whenever a method that reports derivatives succeeds on one, it succeeds on the other, the derivatives are mirrored and the static margin is the same.", "quantifier": "all aircraft, all sequences of calls with airspeed and density given (derivatives: all states of both objects, conditions and controls given)", "why_tests_cant": "the searches are loops whose number of steps depends on the loads, and for the mirror image the steps of the lateral derivatives are made in the opposite order; a stray sign shows up only in asymmetric aircraft, flow or controls", "anchors": ["machup/MU.py: MachUp.solve, MachUp.stability_derivatives, MachUp.damping_derivatives, MachUp.control_derivatives, MachUp.derivatives, MachUp.stall_onset, MachUp.stall_airspeed, MachUp.target_lift, MachUp.pitch_trim, MachUp.find_aero_center", "machup/llmodel.py: LLModel.solve", "machup/propmodel.py: PropModel"]}
{"id": "C143", "title": "Reported control derivatives are means of true slopes near the given setting", "statement": "Each derivative returned by control_derivatives for a control is the mean of two true derivatives of that coefficient, per radian of the control: one at a setting strictly within a quarter of a degree below the given one and one strictly within a quarter of a degree above it, provided the wings can be solved throughout that range with the air arriving neither from straight behind nor along a bound vortex, and no surface moved by the control is deflected by exactly 11 degrees or passes its neutral position within the range (the given setting itself may be neutral). For straight wings with the air from the front control_derivatives always returns, and the condition on the surfaces is the only one.", "quantifier": "all wings-only aircraft, all flight conditions with airspeed and density, all non-empty control states, all four controls", "why_tests_cant": "a central difference tells nothing about the slope unless the loads are differentiable in between; they are not at neutral (the drag of a surface grows with the absolute deflection), so the exact statement needs an analysis of the whole solver on both sides", "anchors": ["machup/MU.py: MachUp.control_derivatives", "machup/llmodel.py: LLModel.solve, LLModel._process_control_state, LLModel._compute_deflection_efficiency"]}
{"id": "C144", "title": "A propeller analysis comes to an end", "statement": "Every analysis of a propeller ends with a result or an exception. (Fails: with three or more nodes the search for the induced angles can go on for ever, because the lift at zero angle of attack is uninitialised memory. Holds with at most two nodes, at an advance ratio or rotation rate. An analysis that ends has one outcome.)", "quantifier": "all propellers, flight conditions, propeller states, earlier analyses and memory contents", "why_tests_cant": "a run that does not end is never seen by a test; the loop has no bound on its passes, so the claim needs an invariant for all passes", "anchors": ["machup/propmodel.py: PropModel._find_ei, PropModel._get_CL, PropModel._find_coefficients", "machup/propssolver.py: PropsSolver.solve"]}
{"id": "C145", "title": "A surface without lift slope only adds its own drag and pitching couple", "statement": "If an aircraft is given one more surface whose airfoils have no lift slope (a plate or strut, in any shape, connected anywhere), every other section keeps its circulation, its coefficients and its loads, the surface itself has no lift, and the totals change by the drag and the pitching moments of its own sections only.", "quantifier": "all aircraft, all additional surfaces without lift slope, all flight conditions and control settings, both section spacings", "why_tests_cant": "a test covers one aircraft with one plate; that no other number changes needs the structure of the linear system for any number of sections", "anchors": ["machup/geometry.py: Airplane.add_wing, Wing.airfoil", "machup/llmodel.py: LLModel.solve, LLModel._setup_linear_matrices, LLModel._f_parasite", "machup/llgrid.py: LLGrid"]}
{"id": "C146", "title": "A control that moves no surface has no effect", "statement": "If no control surface of the aircraft has a share of a control (aileron, elevator, rudder or flap) in its mix, the deflection given for that control in control_state has no influence: every method has the same outcome, writes the same files and leaves the caller's flight condition the same whatever it is, in the present call and in all earlier ones, and the control derivatives with respect to it are 0.", "quantifier": "all aircraft with any wings and propellers, all sets of such controls, all sequences of calls (for the derivatives: all aircraft without propellers)", "why_tests_cant": "a test covers a few deflections of one control in one call; the effect could come through the state of the object, an iteration or another control", "anchors": ["machup/MU.py: MachUp.solve, MachUp.control_derivatives, MachUp.pitch_trim", "machup/llmodel.py: LLModel._process_control_state", "machup/geometry.py: ControlSurface.get_control_mix"]}
{"id": "C147", "title": "Propellers whose slipstreams miss the wings add only their own loads", "statement": "If no control point of a wing lies in the slipstream of a propeller (behind its disc and within half a diameter of its axis), the analysis of an aircraft with wings and propellers is that of the wings alone plus that of the propellers alone: calls of solve, one after the other, succeed if and only if they succeed for both of these aircraft, and each of the nine totals is the sum.", "quantifier": "all aircraft with wings and such propellers, all sequences of calls of solve with a flight condition that is not empty, with any control_state and prop_state", "why_tests_cant": "a test covers one arrangement and one call; the propeller could reach the wings through a fringe of its slipstream, the swirl, the state of the object or the way totals are added", "anchors": ["machup/MU.py: MachUp.solve", "machup/propmodel.py: PropModel._calc_immersed_wing_points, PropModel._find_propwash_velocities, PropModel._calc_prop_wing_vel", "machup/llmodel.py: LLModel.solve"]}
{"id": "C148", "title": "Names of propellers are only labels", "statement": "Building an aircraft with other names for its propellers (different ones for different propellers), and using these names as keys of prop_state, changes nothing: a MachUp object can be constructed under the same conditions, and in every sequence of calls each call has the same outcome, writes the same files and leaves the caller's dictionaries the same.", "quantifier": "all aircraft with any wings and propellers, all replacements of names, all sequences of calls of all methods", "why_tests_cant": "a test covers one name; the name is a key of the dictionary of models and of prop_state, where it stands beside other keys", "anchors": ["machup/propssolver.py: PropsSolver.__init__, PropsSolver._calc_forces", "machup/propmodel.py: PropModel._set_prop_state", "machup/geometry.py: Airplane.add_prop", "machup/MU.py: MachUp"]}
{"id": "C149", "title": "The getters of a propeller model report its blades and the velocities of the last analysis", "statement": "After an analysis of a propeller, the getters of its model return: the name, numbers of nodes and blades and position it was given, its orientation in radians, and 1 for counter-clockwise and 0 for clockwise rotation; at every node the radius, chord and zero-lift angle that were described, a pitch that is the sum of advance angle, induced angle and angle of attack, the section's lift and drag coefficient at that angle of attack, and induced velocities that form a triangle with airspeed and blade speed: the undisturbed velocity has the advance angle to the disc, the disturbed one the advance angle plus the induced angle, and the induced velocity, of magnitude get_Vi, is perpendicular to the latter.", "quantifier": "all propellers, aerodynamic states, propeller states and earlier histories (the triangle: states given by J, rot_per_sec or by default)", "why_tests_cant": "the values of a test's getters agree at a few nodes of one propeller; that angles and velocities belong together must hold for every solution of the iteration", "anchors": ["machup/propmodel.py: PropModel.get_name, PropModel.get_num_nodes, PropModel.get_num_blades, PropModel.get_position, PropModel.get_orientation, PropModel.get_rotation_direction, PropModel.get_radial_position, PropModel.get_chord, PropModel.get_aero_pitch_angle, PropModel.get_advance_angle, PropModel.get_induced_angle, PropModel.get_alpha, PropModel.get_section_CL, PropModel.get_section_CD, PropModel.get_zero_lift_alpha, PropModel.get_Vi, PropModel.get_axial_Vi, PropModel.get_tangential_Vi"]}
{"id": "C150", "title": "A control surface of zero chord has no effect when it is deflected", "statement": "If a control (aileron, elevator, rudder or flap) moves only control surfaces whose percent_chord is 0, its deflection does not change the outcome of a solve: neither the exception nor any force, moment or section coefficient.", "quantifier": "all aircraft, aerodynamic states, histories and pairs of control states that differ only in such controls", "why_tests_cant": "a test compares two deflections of one wing; that the vanishing chord removes the surface from every term must hold for all wings, mixes and deflections", "anchors": ["machup/llgrid.py: LLGrid._calc_control_surfaces", "machup/llmodel.py: LLModel._process_control_state, LLModel._effective_flap_deflection, LLModel._local_parasitic_drag_coefficient, LLModel._local_moment_coefficient, LLModel.solve", "machup/geometry.py: Wing.control_surface, ControlSurface"]}
{"id": "C151", "title": "Where a wing is counts, not how it was put there", "statement": "Build an aircraft twice by the same calls, except that one wing is connected to another parent or location, or is given another position and yoffset. If the ends of the wing are in the same places, the two aircraft are the same to MachUp, whatever is added later: the constructor has the same outcome and every sequence of calls of any methods gives the same answers. In particular a wing connected to the tips of another wing may instead be connected to the aircraft with the position and yoffset of these tips.", "quantifier": "all aircraft (calls before and after), wings, parents, positions, offsets, and all sequences of method calls", "why_tests_cant": "a test compares two descriptions of one aircraft; that no part of the analysis looks at the parent, the position or the yoffset of a wing except through its ends must hold for all aircraft and all methods", "anchors": ["machup/geometry.py: Airplane.add_wing, Wing.connect_to, WingSegment.get_position, WingSegment._get_parent_position", "machup/llgrid.py: LLGrid._update_data", "machup/MU.py: MachUp"]}
{"id": "C152", "title": "A program has one sequence of outcomes", "statement": "Construct a MachUp object and call any of its methods in any order with any arguments. If all calls come to an end, the outcomes (answers or exceptions) and the files written are determined by the aircraft, the calls and the contents of the memory: there are no two different sequences of outcomes for the same calls, and a call that has an outcome after some number of passes of its loops does not get another one by being given more.", "quantifier": "all aircraft with wings and propellers, all sequences of calls with all arguments, all numbers of passes of the loops", "why_tests_cant": "the search loops of the propeller analysis have no bound of their own; a test sees one run and cannot rule out that the outcome depends on how long the loops were allowed to run", "anchors": ["machup/propmodel.py: PropModel._find_ei, PropModel._find_rot_rate_power, PropModel._find_rot_rate_motor", "machup/propssolver.py: PropsSolver.solve", "machup/MU.py: MachUp"]}
{"id": "C153", "title": "Entries of a prop_state that mean nothing have no effect", "statement": "Only the entries J, rot_per_sec, brake_power and electric_throttle of a prop_state, and the entries under the names of propellers of the aircraft, are ever read, and in the latter only the four keys again. Two programs that make the same calls on a MachUp object with prop_states that agree in these entries (and are empty together) get the same outcomes, files and dictionaries: misspelt keys, names of propellers that do not exist, and the order of the entries do not matter.", "quantifier": "all aircraft, all sequences of calls of all methods with all arguments, all prop_state dictionaries", "why_tests_cant": "a test tries some extra entries in some calls; that no method reads another entry, whatever was called before, concerns all dictionaries and histories", "anchors": ["machup/propmodel.py: PropModel._set_prop_state", "machup/propssolver.py: PropsSolver._calc_forces", "machup/MU.py: MachUp"]}
