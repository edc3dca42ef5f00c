{
 "claims": [
  {
   "property": "C01",
   "status": "proved",
   "theorems": [
    "Verif.C01_section_count"
   ],
   "note": ""
  },
  {
   "property": "C02",
   "status": "proved",
   "theorems": [
    "Verif.C02_rigid",
    "Verif.C02_root"
   ],
   "note": "Every build history; wings moved through the position argument of add_wing."
  },
  {
   "property": "C03",
   "status": "partial",
   "theorems": [
    "Verif.C03_finishes_or_self",
    "Verif.C03_finishes_partial",
    "Verif.C03_refuted"
   ],
   "note": "False for a wing connected to its own name (C03_refuted: endless recursion); proved for every history without a self-connection, and in general a query can only fail to finish through a self-connected wing."
  },
  {
   "property": "C04",
   "status": "proved",
   "theorems": [
    "Verif.C04_mirror"
   ],
   "note": ""
  },
  {
   "property": "C05",
   "status": "partial",
   "theorems": [
    "Verif.C05_cg_partial",
    "Verif.C05_first_call",
    "Verif.C05_refuted"
   ],
   "note": "False for components given as 0 (C05_refuted); proved for non-zero components and for the first call."
  },
  {
   "property": "C06",
   "status": "proved",
   "theorems": [
    "Verif.C06_mixing"
   ],
   "note": ""
  },
  {
   "property": "C07",
   "status": "partial",
   "theorems": [
    "Verif.C07_file_is_api",
    "Verif.C07_file_is_built",
    "Verif.C07_unknown_parent_partial",
    "Verif.C07_refuted"
   ],
   "note": "Proved for every well-formed file (schema relation FileIn) whose parents are 0 or earlier IDs; unknown parents are rejected unless the wing names its own ID, which the code accepts (C07_refuted)."
  },
  {
   "property": "C08",
   "status": "partial",
   "theorems": [
    "Verif.C08_refuted",
    "Verif.C08_file_partial"
   ],
   "note": "Violated by the code: every plane built through the API with a propeller is rejected (C08_refuted). The same plane read from a file is accepted, and planes without propellers agree (C08_file_partial)."
  },
  {
   "property": "C09",
   "status": "proved",
   "theorems": [
    "Verif.C09_partition"
   ],
   "note": ""
  },
  {
   "property": "C10",
   "status": "proved",
   "theorems": [
    "Verif.C10_points"
   ],
   "note": ""
  },
  {
   "property": "C100",
   "status": "partial",
   "theorems": [
    "Verif.C100_refuted",
    "Verif.C100_added_prop",
    "Verif.C100_added_wing",
    "Verif.C100_cg_live",
    "Verif.C100_kept_partial"
   ],
   "note": "Refuted: later cg_location calls change the moments (exactly as if the object had been constructed afterwards, C100_cg_live), the first propeller or wing added later makes every solve fail. Proved for all other later calls."
  },
  {
   "property": "C101",
   "status": "proved",
   "theorems": [
    "Verif.C101_wing_rows",
    "Verif.C101_prop_rows",
    "Verif.C101_wing_aligned",
    "Verif.C101_prop_aligned"
   ],
   "note": "Wing table: aircraft built through the API. Alpha(deg) is covered by C80."
  },
  {
   "property": "C102",
   "status": "partial",
   "theorems": [
    "Verif.C102_derivatives",
    "Verif.C102_stall_onset",
    "Verif.C102_stall_airspeed",
    "Verif.C102_target_lift",
    "Verif.C102_aero_center",
    "Verif.C102_pitch_trim_partial",
    "Verif.C102_solve_partial",
    "Verif.C54_refuted",
    "Verif.C51_dropped"
   ],
   "note": "solve without aero_state never returns when given a filename (C54_refuted) and pitch_trim drops the filename if a state is omitted (C51_dropped); proved for all other calls."
  },
  {
   "property": "C103",
   "status": "proved",
   "theorems": [
    "Verif.C103_blade",
    "Verif.C103_ends",
    "Verif.C103_order"
   ],
   "note": ""
  },
  {
   "property": "C104",
   "status": "proved",
   "theorems": [
    "Verif.C104_inputs",
    "Verif.C104_rejected",
    "Verif.C104_aircraft"
   ],
   "note": ""
  },
  {
   "property": "C105",
   "status": "proved",
   "theorems": [
    "Verif.C105_loads"
   ],
   "note": ""
  },
  {
   "property": "C106",
   "status": "proved",
   "theorems": [
    "Verif.C106_lift",
    "Verif.C106_drag",
    "Verif.C106_smooth",
    "Verif.C106_sections"
   ],
   "note": ""
  },
  {
   "property": "C107",
   "status": "partial",
   "theorems": [
    "Verif.C107_even_partial",
    "Verif.C107_refuted"
   ],
   "note": "Fails beyond stall: the stall delay is added to the negative stall angle instead of subtracted, so drag stalls earlier on the negative side. Proved where neither side has stalled."
  },
  {
   "property": "C108",
   "status": "partial",
   "theorems": [
    "Verif.C108_stop_partial",
    "Verif.C108_refuted"
   ],
   "note": "Fails: the stop rule tests the change of the imbalance, not its size, and the first analysis of a propeller reads uninitialised lift coefficients. Proved: what the iteration ends with - two evaluations of the balance that agree to 1e-11 at all but at most two stations, and the angle reported is one of them or the secant step."
  },
  {
   "property": "C109",
   "status": "proved",
   "theorems": [
    "Verif.C109_velocity"
   ],
   "note": "Assumes the conditions under which C69 orders the tubes."
  },
  {
   "property": "C11",
   "status": "proved",
   "theorems": [
    "Verif.C11_segment_area",
    "Verif.C11_reference_area"
   ],
   "note": ""
  },
  {
   "property": "C110",
   "status": "partial",
   "theorems": [
    "Verif.C110_getters_partial",
    "Verif.C110_drag_partial",
    "Verif.C110_refuted"
   ],
   "note": "get_drag_coefficients returns the left end at every section; right only when root and tip have the same drag coefficients."
  },
  {
   "property": "C111",
   "status": "partial",
   "theorems": [
    "Verif.C111_drawing_partial",
    "Verif.C111_again",
    "Verif.C111_frame",
    "Verif.C111_returns_partial",
    "Verif.C111_refuted"
   ],
   "note": "Aircraft with wings or propellers, histories of calls of all analysis methods. An aircraft with neither gets no file."
  },
  {
   "property": "C112",
   "status": "proved",
   "theorems": [
    "Verif.C112_history",
    "Verif.C112_solved",
    "Verif.C112_distributions"
   ],
   "note": "All histories of all analysis methods with any arguments. The analyses an empty control_state lets depend on the past are the subject of C20, propellers of C66 and C40."
  },
  {
   "property": "C113",
   "status": "proved",
   "theorems": [
    "Verif.C113_quadratic",
    "Verif.C113_step"
   ],
   "note": "Successful solves of any LLModel, in any state of the object."
  },
  {
   "property": "C114",
   "status": "partial",
   "theorems": [
    "Verif.C114_stations_partial",
    "Verif.C114_refuted",
    "Verif.C114_span_refuted",
    "Verif.C114_straight_refuted"
   ],
   "note": "The code draws outlines at the control points only, so no segment is drawn up to its ends; proved for all aircraft, and for a straight wing of 40 sections per side. What holds: one outline per section, inside it, in order from left to right."
  },
  {
   "property": "C115",
   "status": "partial",
   "theorems": [
    "Verif.C115_consistent_partial",
    "Verif.C115_facing",
    "Verif.C115_outward_partial",
    "Verif.C115_segment_refuted",
    "Verif.C115_refuted"
   ],
   "note": "Closedness fails for every segment: the ends are not covered and the trailing edge is open. Consistent orientation off the rims holds for all wings and blades. Facing is proved for all airfoils in terms of the direction in which the outline runs, which is settled for uncambered ones."
  },
  {
   "property": "C116",
   "status": "partial",
   "theorems": [
    "Verif.C116_power_partial",
    "Verif.C116_efficiency_partial",
    "Verif.C116_refuted"
   ],
   "note": "The excess of thrust power over shaft power is bounded by the integral of the imbalance left by the induced-angle iteration; with no imbalance the efficiency is at most 1. The code does not guarantee a small imbalance (C108), and a first analysis can report an efficiency above 1."
  },
  {
   "property": "C117",
   "status": "proved",
   "theorems": [
    "Verif.C117_mirror",
    "Verif.C117_propeller"
   ],
   "note": "For every sequence of mirrored solve calls on new objects (propellers start from the same remembered state); the single-propeller theorem holds for any earlier history. Assumes that the flow dictionaries are not empty."
  },
  {
   "property": "C118",
   "status": "proved",
   "theorems": [
    "Verif.C118_order"
   ],
   "note": "Both objects start with the same uninitialised memory for propellers of the same name. The thrust and torque written to a file with the loads are those of the last propeller (C62) and do depend on the order; returned values do not. The searches (stall, target lift, pitch trim) catch exceptions, whose kind may depend on the order, and are left out."
  },
  {
   "property": "C119",
   "status": "partial",
   "theorems": [
    "Verif.C119_no_lateral_partial",
    "Verif.C119_refuted"
   ],
   "note": "Proved for propellers that find the same contents in the memory that their analysis does not initialise (C108). With different contents the first solve of a wingless aircraft with two mirrored propellers gives a rolling moment."
  },
  {
   "property": "C12",
   "status": "proved",
   "theorems": [
    "Verif.C12_frames",
    "Verif.C12_mirror"
   ],
   "note": ""
  },
  {
   "property": "C120",
   "status": "proved",
   "theorems": [
    "Verif.C120_cg"
   ],
   "note": "For sequences of solve calls on new objects with non-empty flow dictionaries and without rotation rates (with rates the local flow changes with the CG, by design)."
  },
  {
   "property": "C121",
   "status": "proved",
   "theorems": [
    "Verif.C121_propeller",
    "Verif.C121_solve"
   ],
   "note": "Object state, results and exceptions are equal in the strict sense. Propeller diameters must not be zero."
  },
  {
   "property": "C122",
   "status": "proved",
   "theorems": [
    "Verif.C122_similar"
   ],
   "note": "Operating states by brake power or throttle are left out: the motor constants have dimensions, and the absolute stopping tolerance of the rate search is not scaled. Flow dictionaries must not be empty."
  },
  {
   "property": "C123",
   "status": "proved",
   "theorems": [
    "Verif.C123_derivatives"
   ],
   "note": "On new objects, with V_mag and rho given. Operating states by brake power or throttle are left out as in C122."
  },
  {
   "property": "C124",
   "status": "partial",
   "theorems": [
    "Verif.C124_refuted",
    "Verif.C124_wash_partial",
    "Verif.C124_outside"
   ],
   "note": "Refuted: _find_propwash_velocities starts its stream tubes at one hundredth of the hub radius, the wing version at the hub radius, so the two differ at the same point. Proved: the stream-tube law with that core, and zero outside the cylinder."
  },
  {
   "property": "C125",
   "status": "proved",
   "theorems": [
    "Verif.C125_stations",
    "Verif.C125_equivalent",
    "Verif.C125_mixing"
   ],
   "note": "For root finders whose answers are exact roots. The torque of the self-similar profile is the trapezoidal sum the code uses; thrust and volume flow are exact integrals. The routine is not called by the rest of the program."
  },
  {
   "property": "C126",
   "status": "partial",
   "theorems": [
    "Verif.C126_refuted",
    "Verif.C126_partial",
    "Verif.C126_rotation"
   ],
   "note": "Refuted: a set of points without one in the stream raises ValueError, and the sense of rotation of the propeller is not used, so both senses give the same swirl. Proved: no velocity outside the cone, and no radial velocity."
  },
  {
   "property": "C127",
   "status": "proved",
   "theorems": [
    "Verif.C127_displaced",
    "Verif.C127_derivatives",
    "Verif.C127_calls"
   ],
   "note": "Every wing named as a parent must have been added (the segments of a wing whose parent is unknown hang at the origin). The derivatives with V_mag and rho given."
  },
  {
   "property": "C128",
   "status": "proved",
   "theorems": [
    "Verif.C128_solvable",
    "Verif.C128_sign",
    "Verif.C128_bounded",
    "Verif.C128_surfaces",
    "Verif.C128_turning",
    "Verif.C128_api"
   ],
   "note": "Surface deflections up to 60 degrees either way (beyond about 63 degrees the effectiveness the code assigns to a surface falls faster than its deflection grows)."
  },
  {
   "property": "C129",
   "status": "proved",
   "theorems": [
    "Verif.C129_induced_drag",
    "Verif.C129_parasitic_drag",
    "Verif.C129_drag"
   ],
   "note": "Two pieces with cosine spacing (the default for side=\"both\") are outside the claim: there the influence matrix is not symmetric."
  },
  {
   "property": "C13",
   "status": "proved",
   "theorems": [
    "Verif.C13_interpolation",
    "Verif.C13_bounded"
   ],
   "note": ""
  },
  {
   "property": "C130",
   "status": "proved",
   "theorems": [
    "Verif.C130_cut"
   ],
   "note": "Even spacing (the default cosine spacing clusters sections at the ends of each piece, so the panels differ) and one airfoil along the wing (the code interpolates coefficients between root and tip of each piece). Several pieces by cutting repeatedly."
  },
  {
   "property": "C131",
   "status": "proved",
   "theorems": [
    "Verif.C131_conditions",
    "Verif.C131_controls",
    "Verif.C131_straight"
   ],
   "note": "Both exceptions are real: the angle of attack of a section comes from arctan2, which jumps by 360 degrees for air from straight behind, and the effectiveness of a surface jumps by about 4e-15 at 11 degrees because the coefficients of the straight line in the code are rounded."
  },
  {
   "property": "C132",
   "status": "proved",
   "theorems": [
    "Verif.C132_stability",
    "Verif.C132_damping",
    "Verif.C132_straight"
   ],
   "note": "Control derivatives: C143."
  },
  {
   "property": "C133",
   "status": "partial",
   "theorems": [
    "Verif.C133_sessions_partial",
    "Verif.C133_target_key",
    "Verif.C133_airspeed_key",
    "Verif.C133_target_given",
    "Verif.C133_target_iff",
    "Verif.C133_refuted"
   ],
   "note": "Violated by target_lift, which reads aero_state[\"alpha\"] and raises KeyError if it is left out (MU.py:1126). Everything else is proved for all sessions; what the unmodelled part of solve (nan) does is a parameter that must not depend on the stored rates."
  },
  {
   "property": "C134",
   "status": "proved",
   "theorems": [
    "Verif.C134_rejected"
   ],
   "note": "The unbounded loops of stall_onset and stall_airspeed are run for at least one pass. The unmodelled part of solve (nan) must not remove propellers."
  },
  {
   "property": "C135",
   "status": "partial",
   "theorems": [
    "Verif.C135_documented",
    "Verif.C135_spelled_partial",
    "Verif.C135_refuted"
   ],
   "note": "Violated: the documentation names v_mag, the code reads V_mag; with the documented key every method of every aircraft with wings raises. With V_mag, solve of a straight wing with the wind from the front always returns loads."
  },
  {
   "property": "C136",
   "status": "proved",
   "theorems": [
    "Verif.C136_cg"
   ],
   "note": "damping_derivatives and pitch_trim rotate the aircraft or look for a moment and are excluded. Solves at an angle of attack that is nan/inf are a parameter, assumed alike for target_lift."
  },
  {
   "property": "C137",
   "status": "proved",
   "theorems": [
    "Verif.C137_stability",
    "Verif.C137_control",
    "Verif.C137_damping",
    "Verif.C137_derivatives"
   ],
   "note": "For stability_derivatives and damping_derivatives a non-empty control_state is passed."
  },
  {
   "property": "C138",
   "status": "proved",
   "theorems": [
    "Verif.C138_halves",
    "Verif.C138_calls"
   ],
   "note": "A two-sided wing connected to the wing is to be split first; the name of the wing is used once. Several wings by splitting repeatedly."
  },
  {
   "property": "C139",
   "status": "proved",
   "theorems": [
    "Verif.C139_renamed",
    "Verif.C139_calls"
   ],
   "note": "Names of propellers: C148."
  },
  {
   "property": "C14",
   "status": "proved",
   "theorems": [
    "Verif.C14_integral",
    "Verif.C14_total"
   ],
   "note": ""
  },
  {
   "property": "C140",
   "status": "partial",
   "theorems": [
    "Verif.C140_touched",
    "Verif.C140_clear_partial",
    "Verif.C140_side_by_side_partial",
    "Verif.C140_canard",
    "Verif.C140_refuted"
   ],
   "note": "Violated: a vortex that leaves a corner of one wing may pass through a control point of another (a canard of half the span ahead of a wing with an odd number of sections, level flight), and all results are nan without an exception. Proved: exactly when this happens; it never happens to wings side by side without sideslip, whatever sweep and dihedral; and if it does not happen, solve returns loads with the unique solution of the lifting-line equation unless there is no unique one (LinAlgError) or the air stands still at a control point. C128 shows that neither can happen to straight wings."
  },
  {
   "property": "C141",
   "status": "proved",
   "theorems": [
    "Verif.C141_calls"
   ],
   "note": "stall_airspeed is covered by C127/C138/C139 and C56 only: its starting values do not scale. Solves with a nan angle of attack inside target_lift, whose behaviour is a parameter of the model, are assumed to scale too."
  },
  {
   "property": "C142",
   "status": "proved",
   "theorems": [
    "Verif.C142_calls",
    "Verif.C142_derivatives"
   ],
   "note": "Which of two wings stalls first is not compared: mirrored sections may stall at once. Solves with a nan angle of attack inside target_lift, whose behaviour is a parameter of the model, are assumed to be mirrored too."
  },
  {
   "property": "C143",
   "status": "proved",
   "theorems": [
    "Verif.C143_controls",
    "Verif.C143_straight"
   ],
   "note": "Both exceptions are real: the drag of a surface depends on the absolute value of its deflection, and its effectiveness jumps by about 4e-15 at 11 degrees."
  },
  {
   "property": "C144",
   "status": "partial",
   "theorems": [
    "Verif.C144_refuted",
    "Verif.C144_two_nodes_partial",
    "Verif.C144_outcome",
    "Verif.C144_solve"
   ],
   "note": "Violated by the code: for a concrete propeller with three nodes there are memory contents with which the first analysis is still running after any number of passes. Proved for at most two nodes at an advance ratio or rotation rate (51 passes at most). C144_outcome and C144_solve: more fuel does not change the outcome of an analysis that has ended."
  },
  {
   "property": "C145",
   "status": "proved",
   "theorems": [
    "Verif.C145_no_lift"
   ],
   "note": "For the linear solver, starting from a new solver object; wind given per section must come with V_mag, because otherwise the mean over all sections sets the wind direction."
  },
  {
   "property": "C146",
   "status": "proved",
   "theorems": [
    "Verif.C146_no_effect",
    "Verif.C146_derivatives",
    "Verif.C146_all_derivatives",
    "Verif.C146_distributions"
   ],
   "note": "The derivatives are for aircraft without propellers, because a propeller analysis can depend on the one before it (C86)."
  },
  {
   "property": "C147",
   "status": "proved",
   "theorems": [
    "Verif.C147_sum"
   ],
   "note": "A flight condition that is empty apart from local_state is left out: without the wings it would be replaced by the default flight condition."
  },
  {
   "property": "C148",
   "status": "partial",
   "theorems": [
    "Verif.C148_renamed_partial",
    "Verif.C148_refuted"
   ],
   "note": "Proved for names other than J, rot_per_sec, brake_power and electric_throttle. Refuted for these: with a propeller called J, prop_state={\"J\": 0.5} raises TypeError."
  },
  {
   "property": "C149",
   "status": "partial",
   "theorems": [
    "Verif.C149_report_partial",
    "Verif.C149_refuted"
   ],
   "note": "Refuted for get_rotation_direction, which returns -1 and not the documented 0 for clockwise rotation. The triangle is for states given by J or rot_per_sec or by default; with brake_power or electric_throttle the rate is that of the coefficients only up to the tolerance of the iteration."
  },
  {
   "property": "C15",
   "status": "proved",
   "theorems": [
    "Verif.C15_covered",
    "Verif.C15_mirror",
    "Verif.C15_no_chord"
   ],
   "note": ""
  },
  {
   "property": "C150",
   "status": "partial",
   "theorems": [
    "Verif.C150_same_lift_partial",
    "Verif.C150_refuted"
   ],
   "note": "Refuted: the drag coefficient of a section rises by 0.002 per degree of deflection whatever the chord of the surface, so a surface of zero chord still has drag. Proved for everything else: exceptions, circulations, section lift and moment coefficients, inviscid forces and moments; with the exact change of the drag coefficients."
  },
  {
   "property": "C151",
   "status": "proved",
   "theorems": [
    "Verif.C151_placed",
    "Verif.C151_attached"
   ],
   "note": "C151_placed: equal ends right after the call give equal outcomes of the constructor and of all calls. C151_attached: how position and yoffset have to be chosen for a wing connected to the tips of another one."
  },
  {
   "property": "C152",
   "status": "proved",
   "theorems": [
    "Verif.C152_one_outcome",
    "Verif.C152_longer",
    "Verif.C152_distributions"
   ],
   "note": "The model bounds the passes of the propeller loops; the theorems say that the bound is immaterial. stall_onset and stall_airspeed have a bound of their own, which is an argument of the call here (their ends are C47 and C85)."
  },
  {
   "property": "C153",
   "status": "proved",
   "theorems": [
    "Verif.C153_entries",
    "Verif.C153_distributions",
    "Verif.C153_distributions_after"
   ],
   "note": "All methods and sequences of calls. What an analysis with values that are not numbers does is not modelled; assumed of it is only that it does not exchange the propellers."
  },
  {
   "property": "C16",
   "status": "proved",
   "theorems": [
    "Verif.C16_concatenation"
   ],
   "note": ""
  },
  {
   "property": "C17",
   "status": "proved",
   "theorems": [
    "Verif.C17_section",
    "Verif.C17_compare",
    "Verif.C17_theoretical",
    "Verif.C15_covered"
   ],
   "note": "About the sections of aircraft built through the API. The theoretical effectiveness and the flap moment are the integrals of thin airfoil theory (Spec/Flap), not the closed formulas of the code."
  },
  {
   "property": "C18",
   "status": "proved",
   "theorems": [
    "Verif.C18_history_independent"
   ],
   "note": "All histories, all explicit states, any stype."
  },
  {
   "property": "C19",
   "status": "partial",
   "theorems": [
    "Verif.C19_machup_partial",
    "Verif.C19_trim_partial",
    "Verif.C19_default_aero_partial",
    "Verif.C19_x_component_partial",
    "Verif.C19_refuted"
   ],
   "note": "The full statement is false of the code (C19_refuted: density of an earlier solve is kept). C19_machup_partial: the methods of MachUp, always. LLModel: proved for histories without aero states; x components always."
  },
  {
   "property": "C20",
   "status": "partial",
   "theorems": [
    "Verif.C20_default_control_partial",
    "Verif.C20_machup_partial",
    "Verif.C20_refuted"
   ],
   "note": "The full statement is false of the code (C20_refuted). Proved for histories in which no control state was passed, and for control_derivatives and pitch_trim after any history."
  },
  {
   "property": "C21",
   "status": "partial",
   "theorems": [
    "Verif.C21_machup_partial",
    "Verif.C21_analyses_partial",
    "Verif.C21_llmodel_refuted"
   ],
   "note": "Holds for MachUp.solve over all later calls of all analysis methods; false for LLModel.solve (witness)."
  },
  {
   "property": "C22",
   "status": "proved",
   "theorems": [
    "Verif.C22_wind_axes"
   ],
   "note": "For explicit aero states (the wind vector is then always a unit vector)."
  },
  {
   "property": "C23",
   "status": "proved",
   "theorems": [
    "Verif.C23_freestream",
    "Verif.C23_flow_used"
   ],
   "note": ""
  },
  {
   "property": "C24",
   "status": "proved",
   "theorems": [
    "Verif.C24_speed_scaling"
   ],
   "note": ""
  },
  {
   "property": "C25",
   "status": "proved",
   "theorems": [
    "Verif.C25_density_scaling"
   ],
   "note": ""
  },
  {
   "property": "C26",
   "status": "proved",
   "theorems": [
    "Verif.C26_mirror",
    "Verif.C26_plane"
   ],
   "note": ""
  },
  {
   "property": "C27",
   "status": "proved",
   "theorems": [
    "Verif.C27_no_lateral"
   ],
   "note": "End to end: any API-built plane of two-sided centred wings, its grid, any earlier solve calls."
  },
  {
   "property": "C28",
   "status": "proved",
   "theorems": [
    "Verif.C28_cg_transfer"
   ],
   "note": ""
  },
  {
   "property": "C29",
   "status": "proved",
   "theorems": [
    "Verif.C29_order",
    "Verif.C29_plane"
   ],
   "note": ""
  },
  {
   "property": "C30",
   "status": "proved",
   "theorems": [
    "Verif.C30_translation",
    "Verif.C30_plane"
   ],
   "note": ""
  },
  {
   "property": "C31",
   "status": "proved",
   "theorems": [
    "Verif.C31_length_scaling",
    "Verif.C31_plane"
   ],
   "note": ""
  },
  {
   "property": "C32",
   "status": "proved",
   "theorems": [
    "Verif.C32_lifting_line",
    "Verif.C32_singular"
   ],
   "note": ""
  },
  {
   "property": "C33",
   "status": "proved",
   "theorems": [
    "Verif.C33_zero_lift"
   ],
   "note": ""
  },
  {
   "property": "C34",
   "status": "proved",
   "theorems": [
    "Verif.C34_section_forces"
   ],
   "note": ""
  },
  {
   "property": "C35",
   "status": "proved",
   "theorems": [
    "Verif.C35_bound_biotSavart",
    "Verif.C35_denominator",
    "Verif.C36_influence_biotSavart"
   ],
   "note": ""
  },
  {
   "property": "C36",
   "status": "proved",
   "theorems": [
    "Verif.C36_trailing_biotSavart",
    "Verif.C36_denominator",
    "Verif.C36_influence_defined",
    "Verif.C36_influence_biotSavart"
   ],
   "note": ""
  },
  {
   "property": "C37",
   "status": "partial",
   "theorems": [
    "Verif.C37_missing_key",
    "Verif.C37_missing_key_history",
    "Verif.C37_bad_type_partial",
    "Verif.C37_refuted"
   ],
   "note": "False for an unsupported stype (C37_refuted); proved for missing keys and, for unsupported types, for continuations with explicit states."
  },
  {
   "property": "C38",
   "status": "proved",
   "theorems": [
    "Verif.C38_stall_location"
   ],
   "note": ""
  },
  {
   "property": "C39",
   "status": "proved",
   "theorems": [
    "Verif.C39_sum",
    "Verif.C39_wind"
   ],
   "note": "The nine entries are sums with a missing part counting as zero, for arbitrary solvers; lift, drag and side force are components along wind axes for the modelled wing and propeller solvers. For planes with both parts V_mag must be positive (with a negative V_mag the two solvers use opposite wind directions)."
  },
  {
   "property": "C40",
   "status": "partial",
   "theorems": [
    "Verif.C40_solve_frame_partial",
    "Verif.C40_field_stored",
    "Verif.C40_refuted"
   ],
   "note": "False in general: a plane with wings and propellers stores its velocity field in the caller's aero_state (witness C40_refuted). Proved: nothing else is changed, and nothing at all if the plane does not have both parts."
  },
  {
   "property": "C41",
   "status": "partial",
   "theorems": [
    "Verif.C41_overwritten_partial",
    "Verif.C41_untouched_partial",
    "Verif.C41_stale",
    "Verif.C41_refuted"
   ],
   "note": "False in general (witness C41_refuted: a dictionary used by a plane with a propeller makes a glider ignore a later change of V_mag). Proved for planes with wings and propellers, and dictionaries are left alone by all other planes."
  },
  {
   "property": "C42",
   "status": "proved",
   "theorems": [
    "Verif.C42_stability_derivatives",
    "Verif.C42_default"
   ],
   "note": "For every backend (arbitrary wing and propeller solvers) and every state: frame, restored entries, central differences. local_state of planes with wings and propellers is the subject of C40. For aircraft without propellers C112_solved makes every solve mentioned the one on a fresh object."
  },
  {
   "property": "C43",
   "status": "partial",
   "theorems": [
    "Verif.C43_damping_partial",
    "Verif.C43_refuted"
   ],
   "note": "The code overwrites yaw_rate with the pitch rate: refuted on a concrete wing with the modelled lifting-line solver; everything else (roll, pitch, other entries, central differences) is proved for every backend."
  },
  {
   "property": "C44",
   "status": "proved",
   "theorems": [
    "Verif.C44_control_derivatives"
   ],
   "note": "For every backend, state and control state. For aircraft without propellers C112_solved makes every solve mentioned the one on a fresh object."
  },
  {
   "property": "C45",
   "status": "partial",
   "theorems": [
    "Verif.C45_frame_partial",
    "Verif.C45_refuted"
   ],
   "note": "Refuted: an exception leaves perturbed entries behind. Proved for every backend, outcome and failure point: nothing but the perturbed entries changes, and target_lift/stall_airspeed change nothing."
  },
  {
   "property": "C46",
   "status": "proved",
   "theorems": [
    "Verif.C46_stall_onset",
    "Verif.C46_sweep",
    "Verif.C46_call"
   ],
   "note": "for wings-only planes in terms of independent solves; C46_sweep for arbitrary solvers, along the sweep"
  },
  {
   "property": "C47",
   "status": "partial",
   "theorems": [
    "Verif.C47_wings_partial",
    "Verif.C47_terminates_iff",
    "Verif.C47_refuted"
   ],
   "note": "the claim is false: C47_refuted exhibits a wing for which the sweep never ends; the _partial theorem says exactly when it ends"
  },
  {
   "property": "C48",
   "status": "partial",
   "theorems": [
    "Verif.C48_copies_partial",
    "Verif.C48_stall_alpha",
    "Verif.C48_aero_center",
    "Verif.C48_refuted"
   ],
   "note": "the claim is false for stall_onset (C48_refuted); holds for target_lift and stall_airspeed"
  },
  {
   "property": "C49",
   "status": "proved",
   "theorems": [
    "Verif.C49_effort",
    "Verif.C49_answer",
    "Verif.C49_straight",
    "Verif.C49_degenerate",
    "Verif.C48_copies_partial"
   ],
   "note": "Any solver: at most 23 solves (C49_effort); every number returned is the converged secant iterate through two evaluated points, within tolerance (C49_answer); exact for straight lift curves (C49_straight); for a start angle of -0.2 the two starting points coincide and the answer is nan, not a wrong number (C49_degenerate); the caller's state is untouched (C48_copies_partial). For aircraft without propellers C112_solved makes every solve mentioned the one on a fresh object."
  },
  {
   "property": "C50",
   "status": "proved",
   "theorems": [
    "Verif.C50_effort",
    "Verif.C50_answer",
    "Verif.C50_straight"
   ],
   "note": "Any solver. C50_answer: the returned pair is the converged Newton iterate and meets the reported residual test; C50_straight: exact for linear lift and moment, or zero when zero already meets the tolerance. For aircraft without propellers C112_solved makes every solve mentioned the one on a fresh object."
  },
  {
   "property": "C51",
   "status": "partial",
   "theorems": [
    "Verif.C51_given_partial",
    "Verif.C51_dropped",
    "Verif.C51_refuted"
   ],
   "note": "Violated by the code. C51_dropped: if either state is omitted, error and filename make no difference and nothing is written, for every plane; C51_refuted: a concrete case. C51_given_partial: with both states given, both are honoured."
  },
  {
   "property": "C52",
   "status": "partial",
   "theorems": [
    "Verif.C52_refuted",
    "Verif.C85_stall_airspeed"
   ],
   "note": "Violated by the code for every plane with wings, every weight: stall_airspeed without aero_state always raises. With the state given explicitly it works (C85_stall_airspeed)."
  },
  {
   "property": "C53",
   "status": "partial",
   "theorems": [
    "Verif.C53_default_partial",
    "Verif.C53_refuted"
   ],
   "note": "Violated by the code: control_derivatives() and derivatives() without aero_state never return (C53_refuted). stability_derivatives and damping_derivatives do use the defaults (C53_default_partial)."
  },
  {
   "property": "C54",
   "status": "partial",
   "theorems": [
    "Verif.C54_given_partial",
    "Verif.C54_refuted"
   ],
   "note": "Violated by the code: without aero_state, solve(filename=...) never returns and writes nothing. With aero_state the file holds the totals returned (C54_given_partial)."
  },
  {
   "property": "C55",
   "status": "proved",
   "theorems": [
    "Verif.C55_stability",
    "Verif.C55_damping",
    "Verif.C55_control",
    "Verif.C55_static_margin"
   ],
   "note": "Any solver whose loads are quadratic in the perturbed variable; IsExact is stated with HasDerivAt. The static margin is a ratio of load changes, free of the dynamic pressure."
  },
  {
   "property": "C56",
   "status": "proved",
   "theorems": [
    "Verif.C56_derivatives",
    "Verif.C56_stall",
    "Verif.C56_lift"
   ],
   "note": "Also for damping derivatives and for states with rotation rates (scaled with the airspeed)."
  },
  {
   "property": "C57",
   "status": "proved",
   "theorems": [
    "Verif.C57_fit_lift",
    "Verif.C57_fit_drag",
    "Verif.C57_fit_moment",
    "Verif.C57_recovers",
    "Verif.C57_point_of_action"
   ],
   "note": "The three fits for arbitrary samples; C57_recovers end to end for any solver; C57_point_of_action: if the force acts at a fixed point, that point is returned, whatever lift and drag are."
  },
  {
   "property": "C58",
   "status": "proved",
   "theorems": [
    "Verif.C58_reference_lengths"
   ],
   "note": "For every plane with wings on which the constructor succeeds."
  },
  {
   "property": "C59",
   "status": "partial",
   "theorems": [
    "Verif.C59_advance_partial",
    "Verif.C59_refuted"
   ],
   "note": "Violated by the code at zero airspeed with J and rot_per_sec given together (C59_refuted). C59_advance_partial: every other successful analysis by J, by rot_per_sec or by default."
  },
  {
   "property": "C60",
   "status": "proved",
   "theorems": [
    "Verif.C60_precedence"
   ],
   "note": "All dictionaries; every case with the state it sets or the error it raises."
  },
  {
   "property": "C61",
   "status": "proved",
   "theorems": [
    "Verif.C61_override"
   ],
   "note": "Any number of propellers, any dictionaries."
  },
  {
   "property": "C62",
   "status": "partial",
   "theorems": [
    "Verif.C62_refuted",
    "Verif.C62_single_partial"
   ],
   "note": "Violated by the code for every aircraft with two or more propellers whose other thrusts do not cancel (C62_refuted); holds for one propeller."
  },
  {
   "property": "C63",
   "status": "proved",
   "theorems": [
    "Verif.C63_moment"
   ],
   "note": "All positions, orientations and states, both when the flow is aligned with the axis and when it is not."
  },
  {
   "property": "C64",
   "status": "proved",
   "theorems": [
    "Verif.C64_similarity",
    "Verif.C64_speed"
   ],
   "note": "C64_similarity: geometrically similar propellers at equal advance ratio and similar history; C64_speed: scaling airspeed and rotation rate together. Complete analyses, errors included."
  },
  {
   "property": "C65",
   "status": "proved",
   "theorems": [
    "Verif.C65_linear",
    "Verif.C65_blend",
    "Verif.C65_odd"
   ],
   "note": "All sections, all angles except exactly 0, which is C66."
  },
  {
   "property": "C66",
   "status": "partial",
   "theorems": [
    "Verif.C66_defined_partial",
    "Verif.C66_section_refuted",
    "Verif.C66_refuted"
   ],
   "note": "Violated by the code at zero angle of attack; C66_refuted: complete analyses reach it and can report any lift coefficients. C66_defined_partial: all other angles."
  },
  {
   "property": "C67",
   "status": "partial",
   "theorems": [
    "Verif.C67_range_partial",
    "Verif.C67_solution_partial",
    "Verif.C67_refuted"
   ],
   "note": "Violated by the code where pitch and advance angle are equal; holds everywhere else, for the iterates and for the angles of every successful analysis."
  },
  {
   "property": "C68",
   "status": "proved",
   "theorems": [
    "Verif.C68_outside",
    "Verif.C68_order",
    "Verif.C68_field"
   ],
   "note": "Stone slipstream model (the default). C68_field: the field handed to the wings, for any number of propellers."
  },
  {
   "property": "C69",
   "status": "proved",
   "theorems": [
    "Verif.C69_contraction",
    "Verif.C69_disc",
    "Verif.C109_velocity"
   ],
   "note": "Every propeller the constructor accepts with hub radius below 0.999 of the blade radius, every airspeed and distance."
  },
  {
   "property": "C70",
   "status": "proved",
   "theorems": [
    "Verif.C70_aero_pitch"
   ],
   "note": "All four ways of giving the pitch."
  },
  {
   "property": "C71",
   "status": "proved",
   "theorems": [
    "Verif.C71_motor"
   ],
   "note": "All motors, throttles and rates."
  },
  {
   "property": "C72",
   "status": "proved",
   "theorems": [
    "Verif.C72_aircraft",
    "Verif.C72_props",
    "Verif.C72_total",
    "Verif.C72_props_total"
   ],
   "note": "The saved array is exactly the concatenation of one surface per segment and per blade, none missing, none written twice, and its length is the number allocated; for all section counts, segments, propellers, blades and nodes. Each surface is the explicit list of triangles between neighbouring outlines (Spec/Stl). C72_total, C72_props_total: the run succeeds."
  },
  {
   "property": "C73",
   "status": "proved",
   "theorems": [
    "Verif.C73_unit",
    "Verif.C73_rotation",
    "Verif.C73_composition",
    "Verif.C73_euler"
   ],
   "note": ""
  },
  {
   "property": "C74",
   "status": "proved",
   "theorems": [
    "Verif.C74_spaced",
    "Verif.C74_blades",
    "Verif.C74_axis",
    "Verif.C72_props",
    "Verif.C72_aircraft"
   ],
   "note": "All blade counts; also the drawn propeller axis is the thrust axis."
  },
  {
   "property": "C75",
   "status": "partial",
   "theorems": [
    "Verif.C75_refuted",
    "Verif.C75_first_refuted",
    "Verif.C75_named_partial"
   ],
   "note": "Violated by the code for NACA names that are not four-digit ones; proved for all other names."
  },
  {
   "property": "C76",
   "status": "partial",
   "theorems": [
    "Verif.C76_fore_partial",
    "Verif.C76_refuted"
   ],
   "note": "Violated by the code aft of the maximum camber point; proved forward of it and for symmetric sections."
  },
  {
   "property": "C77",
   "status": "partial",
   "theorems": [
    "Verif.C77_text",
    "Verif.C77_json_partial",
    "Verif.C77_planes_partial",
    "Verif.C77_refuted",
    "Verif.C77_refuted_planes"
   ],
   "note": "Violated by the code for JSON files of every plane with propellers: every successful call leaves a file that is no JSON text (C77_refuted_planes), because the last line of the propeller table is still in the buffer when the file is rewritten. Text files, and JSON files of planes without propellers, contain all lines (escape round trip proved)."
  },
  {
   "property": "C78",
   "status": "partial",
   "theorems": [
    "Verif.C78_refuted",
    "Verif.C78_drawn_angle",
    "Verif.C78_symmetric_partial"
   ],
   "note": "Violated by the code when the zero-lift angle is not 0; proved when it is."
  },
  {
   "property": "C79",
   "status": "proved",
   "theorems": [
    "Verif.C79_orientation",
    "Verif.C72_aircraft"
   ],
   "note": "All sections of all aircraft built through the API whose grid can be made."
  },
  {
   "property": "C80",
   "status": "partial",
   "theorems": [
    "Verif.C80_wing_partial",
    "Verif.C80_props_partial",
    "Verif.C80_alpha",
    "Verif.C80_refuted"
   ],
   "note": "Violated by the code: Alpha(deg) of the wing table is in radians in every row (C80_alpha). All other (deg) columns are in degrees."
  },
  {
   "property": "C81",
   "status": "proved",
   "theorems": [
    "Verif.C81_rotation"
   ],
   "note": ""
  },
  {
   "property": "C82",
   "status": "proved",
   "theorems": [
    "Verif.C82_grid_exists"
   ],
   "note": ""
  },
  {
   "property": "C83",
   "status": "proved",
   "theorems": [
    "Verif.C83_sections"
   ],
   "note": "Any call history; the section quantities are those held by the LLModel object after the solve."
  },
  {
   "property": "C84",
   "status": "partial",
   "theorems": [
    "Verif.C84_no_lift_no_cl_partial",
    "Verif.C84_refuted"
   ],
   "note": "Refuted with a cambered wing whose flap cancels its lift; proved when the effective flap deflections are zero."
  },
  {
   "property": "C85",
   "status": "proved",
   "theorems": [
    "Verif.C85_stall_airspeed"
   ],
   "note": "Convergence for every positive guess; the error factor depends on the guess only and tends to 0 as the guess approaches the stall speed. Exact arithmetic."
  },
  {
   "property": "C86",
   "status": "partial",
   "theorems": [
    "Verif.C86_rate_partial",
    "Verif.C86_rejected_refuted",
    "Verif.C86_refuted"
   ],
   "note": "Refuted for power and throttle settings: the iteration starts from the stored rate. Proved for the other settings, whose outcome does not depend on the stored rate (it does depend on uninitialised memory: C66, C87)."
  },
  {
   "property": "C87",
   "status": "partial",
   "theorems": [
    "Verif.C87_reproducible_partial",
    "Verif.C87_solve_partial",
    "Verif.C87_program_partial",
    "Verif.C87_refuted"
   ],
   "note": "Violated by the code: for a concrete propeller two runs with different memory contents give thrust of opposite signs, for every integration rule that is positive on positive data. Proved: an analysis that succeeds has the same result, and leaves the same state, with all memory contents that agree with the given ones wherever those hold numbers (whatever replaces nan and inf), for one propeller for all propellers of an aircraft with the velocities at the wing, and for a MachUp object from its construction through any sequence of successful analyses except the searches for a stall or a lift."
  },
  {
   "property": "C88",
   "status": "partial",
   "theorems": [
    "Verif.C88_refuted",
    "Verif.C88_defined_partial"
   ],
   "note": "Violated by the code: every point of the axis behind every propeller gets nan. Proved: every other point gets a finite velocity (positive airspeed, non-negative axial induced velocities)."
  },
  {
   "property": "C89",
   "status": "partial",
   "theorems": [
    "Verif.C77_text",
    "Verif.C89_refuted"
   ],
   "note": "Violated by the code for every plane without wings; proved for planes with wings (C77_text holds for every previous content)."
  },
  {
   "property": "C90",
   "status": "partial",
   "theorems": [
    "Verif.C90_partial",
    "Verif.C90_refuted"
   ],
   "note": "Violated by the code for names that agree in their first 18 characters; proved for names that fit."
  },
  {
   "property": "C91",
   "status": "proved",
   "theorems": [
    "Verif.C91_balance"
   ],
   "note": "The tolerance is the stopping rule of the secant iteration."
  },
  {
   "property": "C92",
   "status": "proved",
   "theorems": [
    "Verif.C92_dimensions",
    "Verif.C92_airfoil",
    "Verif.C92_airfoil_default",
    "Verif.C92_control",
    "Verif.C92_control_default"
   ],
   "note": ""
  },
  {
   "property": "C93",
   "status": "partial",
   "theorems": [
    "Verif.C93_refuted",
    "Verif.C93_ignored",
    "Verif.C93_sealed_partial"
   ],
   "note": "Refuted: the documented keyword is_sealed is never read. Proved for the keyword sealed, which the code reads (and which the input file reader passes)."
  },
  {
   "property": "C94",
   "status": "partial",
   "theorems": [
    "Verif.C94_refuted",
    "Verif.C94_unknown_parent",
    "Verif.C94_rejected_partial"
   ],
   "note": "Refuted: add_wing with an unknown parent name raises KeyError after the wing has been stored; it stays in the aircraft, unconnected. Proved for invalid sides and for incomplete airfoil and control_surface keywords."
  },
  {
   "property": "C95",
   "status": "proved",
   "theorems": [
    "Verif.C95_tip",
    "Verif.C95_root",
    "Verif.C95_span"
   ],
   "note": ""
  },
  {
   "property": "C96",
   "status": "partial",
   "theorems": [
    "Verif.C96_refuted",
    "Verif.C96_placed_partial"
   ],
   "note": "Refuted: the position displaces the wings but not the CG (nor the propellers), so the moments change by position x force. Proved: forces, section angles and coefficients do not change, and what the moments change by (wings only, without rotation rates)."
  },
  {
   "property": "C97",
   "status": "proved",
   "theorems": [
    "Verif.C97_dimensions",
    "Verif.C97_airfoil",
    "Verif.C97_airfoil_none",
    "Verif.C97_names",
    "Verif.C97_order"
   ],
   "note": ""
  },
  {
   "property": "C98",
   "status": "partial",
   "theorems": [
    "Verif.C98_refuted",
    "Verif.C98_rot_partial"
   ],
   "note": "Refuted: the documented value 0 gives counter-clockwise rotation. Proved for the strings and for 1."
  },
  {
   "property": "C99",
   "status": "partial",
   "theorems": [
    "Verif.C99_refuted",
    "Verif.C99_unchanged_partial",
    "Verif.C99_again"
   ],
   "note": "Refuted: a propeller without airfoil gets the default airfoil added to the aircraft; airfoil calls made afterwards make the aircraft be rejected. Proved: nothing else changes, and a second object behaves like the first."
  }
 ]
}