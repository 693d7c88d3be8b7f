{
 "claims": [
  {
   "property": "C01",
   "status": "proved",
   "theorems": [
    "MPC.C01_position_prediction"
   ],
   "note": "All S,T>0, all horizons, all states and jerks."
  },
  {
   "property": "C02",
   "status": "proved",
   "theorems": [
    "MPC.C02_velocity_prediction"
   ],
   "note": "All S,T>0, all horizons, all states and jerks."
  },
  {
   "property": "C03",
   "status": "proved",
   "theorems": [
    "MPC.C03_acceleration_prediction"
   ],
   "note": "All S,T>0, all horizons, all states and jerks."
  },
  {
   "property": "C04",
   "status": "proved",
   "theorems": [
    "MPC.C04_cop_prediction"
   ],
   "note": "All parameters accepted by the asserts."
  },
  {
   "property": "C05",
   "status": "proved",
   "theorems": [
    "MPC.C05_order2_prediction"
   ],
   "note": "Angle and angular velocity."
  },
  {
   "property": "C06",
   "status": "proved",
   "theorems": [
    "MPC.C06_updateState_exact",
    "MPC.C06_updateState_split",
    "MPC.C06_updateState_subdivide",
    "MPC.C06_updateState_derivatives"
   ],
   "note": "Exact cubic, semigroup law, n-fold subdivision, derivatives over the reals."
  },
  {
   "property": "C07",
   "status": "partial",
   "theorems": [
    "MPC.C07_acc_inverse_wrong",
    "MPC.C07_acc_inverse_partial"
   ],
   "note": "False for every S different from T and N>=2 (proved); true when S = T."
  },
  {
   "property": "C08",
   "status": "proved",
   "theorems": [
    "MPC.C08_causal_transpose"
   ],
   "note": "All seven dynamics."
  },
  {
   "property": "C09",
   "status": "partial",
   "theorems": [
    "MPC.C09_position_inverse_erased",
    "MPC.C09_cop_inverse_singular",
    "MPC.C09_stored_inverse_partial",
    "MPC.C09_roundtrip_partial",
    "MPC.C09_exact_partial"
   ],
   "note": "Exactness is false (entries below EPSILON erased, singular CoP matrix); existence, error bound and exact case proved."
  },
  {
   "property": "C10",
   "status": "proved",
   "theorems": [
    "MPC.C10_endpoints"
   ],
   "note": "All states, targets, T>0."
  },
  {
   "property": "C100",
   "status": "proved",
   "theorems": [
    "MPC.C100_solve",
    "MPC.C100_frames"
   ],
   "note": "Without motion constraints, which limit the absolute velocity. C100_frames is over the real numbers, where the QPs have solutions; C100_solve over any ordered field. No condition on the size of the jerks is needed, because both generators start with the same planned jerks and so have the same bounds of the QP variables."
  },
  {
   "property": "C101",
   "status": "proved",
   "theorems": [
    "MPC.C101_frame",
    "MPC.C101_frames",
    "MPC.C101_free"
   ],
   "note": "The base motion constraint, which limits the absolute velocity, is off; with the heading constraint the velocity of the frame is along the heading; CoM and CoP polygons may be on. The sampling period exceeds EPS, because otherwise CoM and base are not predicted for the same times, and a base mass that is positive but does not exceed EPS is excluded as in C67. C101_frame compares the QPs of one call over any ordered field; C101_frames assumes that the problems of one generator have solutions, which C101_free proves over the real numbers without constraints."
  },
  {
   "property": "C102",
   "status": "proved",
   "theorems": [
    "MPC.C102_solve",
    "MPC.C102_motion",
    "MPC.C102_real",
    "MPC.C102_jerks_bounded"
   ],
   "note": "Constraints are off. The coefficients sum to one, so that gravity, tilt, contact point and the references of CoM and CoP, which all three generators share, combine to themselves; C91 is the result of TrajectoryWalkgen for any coefficients. The jerks of the two generators combined stay away from the bounds of 10^11 that the code sets; C102_jerks_bounded shows how large they can be, without the tilt objectives. C102_motion assumes that the problems of the first two generators have solutions, which C102_real proves over the real numbers; that the problem of the third one has a solution is proved."
  },
  {
   "property": "C103",
   "status": "proved",
   "theorems": [
    "MPC.C103_convex", "MPC.C103_real"
   ],
   "note": "One call of solve, with any of the constraints on. Settings other than the references of the base agree, and so do the height used for the tilt and the shift used for the CoP reference, which depend on the history. The example has both polygons and all objectives on. The mean of the plans of two generators need not be the plan of the third one, only feasible and no cheaper than its plan. C103_real proves over the real numbers that the third problem has a solution, which solve uses, if the first two are feasible."
  },
  {
   "property": "C104",
   "status": "proved",
   "theorems": [
    "MPC.C104_convex",
    "MPC.C104_real",
    "MPC.C104_weights"
   ],
   "note": "One call of solve with motion constraints on; without them C91 is stronger. The jerks planned before may be any. C104_convex assumes that the third solver returned a solution, which C104_real proves over the real numbers for solvers that find solutions. C104_weights shows that the weights of the mean must not be negative."
  },
  {
   "property": "C11",
   "status": "proved",
   "theorems": [
    "MPC.C11_smooth"
   ],
   "note": "C2 curve over the reals at every time, knots included."
  },
  {
   "property": "C12",
   "status": "proved",
   "theorems": [
    "MPC.C12_lands",
    "MPC.C12_zero_remaining_unspecified"
   ],
   "note": "Induction over update histories; zero remaining time shown unspecified."
  },
  {
   "property": "C13",
   "status": "proved",
   "theorems": [
    "MPC.C13_same_solutions",
    "MPC.C13_negative_eps_unspecified"
   ],
   "note": "All QPs, eps>=0; negative eps with a zero coefficient shown unspecified."
  },
  {
   "property": "C14",
   "status": "proved",
   "theorems": [
    "MPC.C14_bounds"
   ],
   "note": "All matrices, 0<eps<1."
  },
  {
   "property": "C15",
   "status": "partial",
   "theorems": [
    "MPC.C15_wrapper_hides_failure",
    "MPC.C15_trajectory_hides_failure",
    "MPC.C15_zebulon_hides_failure",
    "MPC.C15_reports_failure_partial"
   ],
   "note": "False without an output stream, which is how all walkgens call it; true when an output stream is given."
  },
  {
   "property": "C16",
   "status": "partial",
   "theorems": [
    "MPC.C16_stale_reference_fault",
    "MPC.C16_solve_fails_iff",
    "MPC.C16_no_fault_partial"
   ],
   "note": "False: setNbSamples leaves references of the old size (proved, and solve fails exactly then); no fault for all other legal histories."
  },
  {
   "property": "C17",
   "status": "proved",
   "theorems": [
    "MPC.C17_cost",
    "MPC.C17_optimal"
   ],
   "note": "All reachable states, exact identity of cost differences."
  },
  {
   "property": "C18",
   "status": "proved",
   "theorems": [
    "MPC.C18_constraints",
    "MPC.C18_unconstrained"
   ],
   "note": "All reachable states."
  },
  {
   "property": "C19",
   "status": "proved",
   "theorems": [
    "MPC.C19_limits_after_solve"
   ],
   "note": "All reachable states, all feasible answers."
  },
  {
   "property": "C20",
   "status": "proved",
   "theorems": [
    "MPC.C20_matrices_fresh"
   ],
   "note": "Invariant over all histories; compared with a fresh generator."
  },
  {
   "property": "C21",
   "status": "proved",
   "theorems": [
    "MPC.C21_convex"
   ],
   "note": "Symmetric PSD, PD and unique solution when the jerk weight is positive."
  },
  {
   "property": "C22",
   "status": "proved",
   "theorems": [
    "MPC.C22_constraints_mean_membership",
    "MPC.C22_unclean_edge_wrong"
   ],
   "note": "All convex vertex lists with clean edges; the second theorem shows the clean edge hypothesis is needed."
  },
  {
   "property": "C23",
   "status": "partial",
   "theorems": [
    "MPC.C23_hull_partial",
    "MPC.C23_is_convex_hull_partial",
    "MPC.C23_constraints_are_hull_partial",
    "MPC.C23_repeated_point_wrong"
   ],
   "note": "False for a repeated first point (witness); for points separated w.r.t. the tolerances the polygon is exactly the convex hull, any number of points."
  },
  {
   "property": "C24",
   "status": "partial",
   "theorems": [
    "MPC.C24_single_point_out_of_range",
    "MPC.C24_far_triangle_assertion",
    "MPC.C24_no_out_of_range_partial",
    "MPC.C24_separated_partial"
   ],
   "note": "False: one point reads out of range, a triangle far from the origin fails the assertion; otherwise no out of range access, and success for separated points."
  },
  {
   "property": "C25",
   "status": "proved",
   "theorems": [
    "MPC.C25_rows_at_most_vertices"
   ],
   "note": "All vertex lists."
  },
  {
   "property": "C26",
   "status": "proved",
   "theorems": [
    "MPC.C26_alternate",
    "MPC.C26_executed"
   ],
   "note": "Previewed timelines from any state; executed phases over all histories."
  },
  {
   "property": "C27",
   "status": "proved",
   "theorems": [
    "MPC.C27_terminates",
    "MPC.C27_covers"
   ],
   "note": "All states, N, T, durations."
  },
  {
   "property": "C28",
   "status": "partial",
   "theorems": [
    "MPC.C28_violated",
    "MPC.C28_tie",
    "MPC.C28_selection_partial",
    "MPC.C28_selection_grid"
   ],
   "note": "False when a phase ends exactly EPSILON after a sampling instant (reachable witness); true otherwise, in particular in all histories whose durations are multiples of the feedback period."
  },
  {
   "property": "C29",
   "status": "partial",
   "theorems": [
    "MPC.C29_violated",
    "MPC.C29_stop_in_double_support",
    "MPC.C29_size_partial",
    "MPC.C29_size_general"
   ],
   "note": "False when the stop is requested in the initial double support while footsteps are previewed (reachable witness); true in all other histories of cycles and setMove."
  },
  {
   "property": "C30",
   "status": "partial",
   "theorems": [
    "MPC.C30_violated",
    "MPC.C30_new_steps_partial",
    "MPC.box_center_inside"
   ],
   "note": "False for the first footstep when it is added in a single support (reachable witness); true for all other footsteps in all histories."
  },
  {
   "property": "C31",
   "status": "proved",
   "theorems": [
    "MPC.C31_contact"
   ],
   "note": "Every cycle from any state."
  },
  {
   "property": "C32",
   "status": "partial",
   "theorems": [
    "MPC.C32_violated",
    "MPC.C32_lands_partial",
    "MPC.C32_lands_grid_partial"
   ],
   "note": "False when the last control period exceeds half of the flight (reachable witness: the foot ends 5.5 times above its maximum height); true otherwise, in all histories."
  },
  {
   "property": "C33",
   "status": "proved",
   "theorems": [
    "MPC.C33_cycle",
    "MPC.C33_phase"
   ],
   "note": "All histories and periods."
  },
  {
   "property": "C34",
   "status": "partial",
   "theorems": [
    "MPC.C34_violated",
    "MPC.C34_calls_partial"
   ],
   "note": "False when the feedback period does not divide the durations (reachable witness: zero calls); true on a grid, in all histories."
  },
  {
   "property": "C35",
   "status": "proved",
   "theorems": [
    "MPC.C35_shorten",
    "MPC.C35_enlarge",
    "MPC.C35_update"
   ],
   "note": "All sizes; whole update over all histories."
  },
  {
   "property": "C36",
   "status": "proved",
   "theorems": [
    "MPC.C36_no_new_step",
    "MPC.C36_ends",
    "MPC.C36_eventually",
    "MPC.C36_stops_on_grid"
   ],
   "note": "Safety from any state, liveness with periods bounded below; on a grid no fault either."
  },
  {
   "property": "C37",
   "status": "partial",
   "theorems": [
    "MPC.C37_violated",
    "MPC.C37_violated_longer_step",
    "MPC.C37_step_elapsed",
    "MPC.C37_ds_elapsed",
    "MPC.C37_safe_partial"
   ],
   "note": "Elapsed time kept. False for the next update: a zero initial double support is accepted and faults, a longer step leaves too many footsteps; safe when at least EPSILON remains."
  },
  {
   "property": "C38",
   "status": "proved",
   "theorems": [
    "MPC.C38_inside",
    "MPC.C38_feasible_iff",
    "MPC.C38_feasible_iff_with_feet"
   ],
   "note": "Numbers are bounded by the constant that stands for infinity, as in the QP."
  },
  {
   "property": "C39",
   "status": "partial",
   "theorems": [
    "MPC.C39_violated",
    "MPC.C39_violated_rectangles",
    "MPC.C39_reachable_partial"
   ],
   "note": "False: bounds of the second footstep are relative to the old first one (reachable witness, and a theorem for all rectangles); true for the first footstep, unmoved predecessors, and oblique edges."
  },
  {
   "property": "C40",
   "status": "proved",
   "theorems": [
    "MPC.C40_cost",
    "MPC.C40_solution"
   ],
   "note": "Cost of the QP = positive factor times documented cost of the new plan minus that of the old one, in every reachable state; jerks are those of convertCopInLFtoComJerk."
  },
  {
   "property": "C41",
   "status": "partial",
   "theorems": [
    "MPC.C41_violated",
    "MPC.C41_jerks_partial",
    "MPC.C41_follows"
   ],
   "note": "False: small entries of the stored inverse are erased (reachable witness: the CoP does not move at all). Exact when nothing was erased; otherwise an explicit error bound."
  },
  {
   "property": "C42",
   "status": "partial",
   "theorems": [
    "MPC.C42_violated_samples",
    "MPC.C42_violated_polygons",
    "MPC.C42_matrices_partial",
    "MPC.C42_solver_partial"
   ],
   "note": "False: solvers are appended, not replaced, so no solve succeeds after setNbSamples(n), n>=2 (all histories with one such call); polygons set after setConfig overrun the table. Matrices right when the constraints fit the table; solver right without setNbSamples/setConfig."
  },
  {
   "property": "C43",
   "status": "partial",
   "theorems": [
    "MPC.C43_humanoid_accepts_negative",
    "MPC.C43_humanoid_partial",
    "MPC.C43_lip_accepts_zero",
    "MPC.C43_lip_partial",
    "MPC.C43_trajectory_accepts_negative",
    "MPC.C43_trajectory_partial",
    "MPC.C43_zebulon_accepts_negative",
    "MPC.C43_zebulon_partial",
    "MPC.C43_base_accepts_zero",
    "MPC.C43_base_partial"
   ],
   "note": "False for every generator; exact acceptance condition for each generator; true for LIPModel when a feedback period fits in a sample."
  },
  {
   "property": "C44",
   "status": "partial",
   "theorems": [
    "MPC.C44_violated",
    "MPC.C44_violated_one_sample",
    "MPC.C44_violated_short_period",
    "MPC.C44_weights_partial"
   ],
   "note": "False for N=1 (reachable witness) and T<20 EPSILON; true for N>=2 and T>20 EPSILON."
  },
  {
   "property": "C45",
   "status": "proved",
   "theorems": [
    "MPC.C45_base_limits"
   ],
   "note": "All reachable states, all increments."
  },
  {
   "property": "C46",
   "status": "partial",
   "theorems": [
    "MPC.C46_violated",
    "MPC.C46_reflected",
    "MPC.C46_symmetric_partial"
   ],
   "note": "False: the polygon rows have the wrong sign, so that the reflections of CoM and CoP are kept inside. True for polygons symmetric about the origin."
  },
  {
   "property": "C47",
   "status": "partial",
   "theorems": [
    "MPC.C47_code_equation",
    "MPC.C47_negated_partial",
    "MPC.C47_partial",
    "MPC.C47_violated"
   ],
   "note": "Violated: the predicted tilt is not the one of the documented equation of motion, not even up to sign (C47_violated). C47_code_equation gives the equation the code does solve, for every reachable state; C47_partial: when m h = M L and the contact point is 0 the prediction is the negation of the documented one."
  },
  {
   "property": "C48",
   "status": "proved",
   "theorems": [
    "MPC.C48_heading"
   ],
   "note": "All reachable states, arbitrary sin and cos."
  },
  {
   "property": "C49",
   "status": "partial",
   "theorems": [
    "MPC.C49_others_partial",
    "MPC.C49_tilt_partial",
    "MPC.C49_violated"
   ],
   "note": "All cached matrices except those of the tilt objectives equal the recomputed ones in every reachable state; the tilt objectives are stale after setBaseHeight (violated with a witness), and equal to the recomputed ones when the base height did not change since their last refresh."
  },
  {
   "property": "C50",
   "status": "proved",
   "theorems": [
    "MPC.C50_base_velocity",
    "MPC.C50_base_position",
    "MPC.C50_com_centering",
    "MPC.C50_cop_centering",
    "MPC.C50_jerk",
    "MPC.C50_tilt"
   ],
   "note": "Gradient and Hessian of every objective are those of the documented cost, characterised by its exact second order expansion."
  },
  {
   "property": "C51",
   "status": "partial",
   "theorems": [
    "MPC.C51_difference",
    "MPC.C51_vertical_partial",
    "MPC.C51_violated"
   ],
   "note": "True for vertical gravity; the exact error for horizontal gravity is proved and is not zero (violated with a witness)."
  },
  {
   "property": "C52",
   "status": "partial",
   "theorems": [
    "MPC.C52_used_shift",
    "MPC.C52_partial",
    "MPC.C52_violated"
   ],
   "note": "The shift in use is the documented one unless setNbSamples was called since it was computed, which resets it to zero (violated with a witness)."
  },
  {
   "property": "C53",
   "status": "partial",
   "theorems": [
    "MPC.C53_violated",
    "MPC.C53_partial"
   ],
   "note": "False: the default constructor of BaseModel leaves the tilt contact point uninitialised and the constructor of ZebulonWalkgen reads it."
  },
  {
   "property": "C54",
   "status": "partial",
   "theorems": [
    "MPC.C54_stale_reference_fault",
    "MPC.C54_solve_fails_iff",
    "MPC.C54_no_fault_partial",
    "MPC.C54_rows"
   ],
   "note": "False after setNbSamples without new references; exact condition proved."
  },
  {
   "property": "C55",
   "status": "proved",
   "theorems": [
    "MPC.C55_no_fault"
   ],
   "note": "All histories on a grid."
  },
  {
   "property": "C56",
   "status": "proved",
   "theorems": [
    "MPC.C56_served_dynamics"
   ],
   "note": "All histories of calls of a LIPModel with automatic computation."
  },
  {
   "property": "C57",
   "status": "proved",
   "theorems": [
    "MPC.C57_cost",
    "MPC.C57_constraints",
    "MPC.C57_optimal",
    "MPC.C57_convex",
    "MPC.C57_limits_after_solve"
   ],
   "note": "All reachable states. Tilt predictions as in C47, polygon rows as in C46."
  },
  {
   "property": "C58",
   "status": "partial",
   "theorems": [
    "MPC.C58_optimum_then_infeasible",
    "MPC.C58_feasible_iff",
    "MPC.C58_recursive_partial"
   ],
   "note": "Violated: an optimal first jerk can lead to a state without feasible jerks. Holds when the jerk limit can reverse the greatest acceleration in one sampling period, which is also necessary."
  },
  {
   "property": "C59",
   "status": "proved",
   "theorems": [
    "MPC.C59_steady",
    "MPC.C59_rest"
   ],
   "note": ""
  },
  {
   "property": "C60",
   "status": "proved",
   "theorems": [
    "MPC.C60_tail"
   ],
   "note": ""
  },
  {
   "property": "C61",
   "status": "proved",
   "theorems": [
    "MPC.C61_translation"
   ],
   "note": "With the motion constraints on."
  },
  {
   "property": "C62",
   "status": "partial",
   "theorems": [
    "MPC.C62_convex_partial",
    "MPC.C62_violated"
   ],
   "note": "Holds for sampling periods of at least 20 EPS; violated below, where a sample weight is negative."
  },
  {
   "property": "C63",
   "status": "partial",
   "theorems": [
    "MPC.C63_feasible_partial",
    "MPC.C63_violated"
   ],
   "note": "Feasible if the kinematic polygons have only edges along the axes, or only oblique edges, or if at most one footstep is planned; with a polygon that mixes both kinds a QP without feasible point is exhibited."
  },
  {
   "property": "C64",
   "status": "proved",
   "theorems": [
    "MPC.C64_cycle",
    "MPC.C64_reach"
   ],
   "note": "All histories, all solvers; transfers the supervisor theorems to the generator."
  },
  {
   "property": "C65",
   "status": "proved",
   "theorems": [
    "MPC.C65_standing",
    "MPC.C65_forever"
   ],
   "note": "Positive CoP centring weighting and sampling period of at least 20 EPS; solver that returns solutions."
  },
  {
   "property": "C66",
   "status": "proved",
   "theorems": [
    "MPC.C66_advance",
    "MPC.C66_steady",
    "MPC.C66_rest"
   ],
   "note": "C66_advance for every solver; steady motion and rest for solvers that return solutions and a positive jerk weighting."
  },
  {
   "property": "C67",
   "status": "proved",
   "theorems": [
    "MPC.C67_translation"
   ],
   "note": "Base mass zero or above EPSILON (a mass in (0, EPSILON] is dropped by the CoP dynamics only)."
  },
  {
   "property": "C68",
   "status": "partial",
   "theorems": [
    "MPC.C68_prepare",
    "MPC.C68_solve_partial",
    "MPC.C68_walk_partial",
    "MPC.C68_plain_solvers",
    "MPC.C68_vertices",
    "MPC.C68_points",
    "MPC.C68_violated_period"
   ],
   "note": "The QP is built without a fault for every configuration; solve needs solvers of the right dimensions, which setNbSamples and setConfig break (C42); violated when the feedback period changes by at most EPSILON."
  },
  {
   "property": "C69",
   "status": "partial",
   "theorems": [
    "MPC.C69_setters",
    "MPC.C69_solve_partial",
    "MPC.C69_walk_partial",
    "MPC.C69_placed",
    "MPC.C69_violated_tie",
    "MPC.C69_violated_first",
    "MPC.C69_violated_samples"
   ],
   "note": "Holds for walks on a grid of times when a step and a sampling period fit in the horizon; violated for samples that no foot supports, for a first footstep added during a single support, and by setNbSamples while footsteps are planned."
  },
  {
   "property": "C70",
   "status": "partial",
   "theorems": [
    "MPC.C70_plan_partial",
    "MPC.C70_run_partial",
    "MPC.C70_violated",
    "MPC.C70_base_plan_partial",
    "MPC.C70_base_run_partial"
   ],
   "note": "The acceleration limit holds at all times; the velocity limit holds up to J T^2/8 between the samples of a plan, and up to J T (T-f)/2 after and J (2T-f)^2/8 between calls with feedback periods of at least f. The exact limit is violated."
  },
  {
   "property": "C71",
   "status": "partial",
   "theorems": [
    "MPC.C71_sample_partial",
    "MPC.C71_violated",
    "MPC.C71_between_partial",
    "MPC.C71_violated_between"
   ],
   "note": "At the samples the CoP of the robot is supported by the feet on the ground, unless the last footstep is moved during the last cycle of the walk (witness) or coefficients of the inverse were erased; between the samples it leaves the support by at most T^2 A/8, which is attained."
  },
  {
   "property": "C72",
   "status": "partial",
   "theorems": [
    "MPC.C72_settings",
    "MPC.C72_accepts",
    "MPC.C72_runs",
    "MPC.C72_order",
    "MPC.C72_ready",
    "MPC.C72_tables",
    "MPC.C72_walk_partial",
    "MPC.C72_violated_creep",
    "MPC.C72_violated_period",
    "MPC.C72_violated_grows"
   ],
   "note": "Configuration refines a record of last values, with exact acceptance of every call; the tables depend on more than the last values, and durations can be made inconsistent or negative (witnesses). C72_walk_partial assumes solvers of the right size (C42)."
  },
  {
   "property": "C73",
   "status": "partial",
   "theorems": [
    "MPC.C73_hold",
    "MPC.C73_jerks_partial",
    "MPC.C73_next",
    "MPC.C73_tail_partial",
    "MPC.C73_feasible_partial",
    "MPC.C73_violated",
    "MPC.C73_violated_stop"
   ],
   "note": "The preview of a cycle is that of the cycle before, held or shifted by a sample; the kept plan has the same motion when no inverse coefficient was erased; feasibility of the kept plan is characterised exactly and fails when footsteps move apart or the last footstep is moved at the end of a walk (witnesses)."
  },
  {
   "property": "C74",
   "status": "partial",
   "theorems": [
    "MPC.C74_weights",
    "MPC.C74_toward_partial",
    "MPC.C74_path",
    "MPC.C74_height_partial",
    "MPC.C74_violated",
    "MPC.C74_violated_height"
   ],
   "note": "Position of a replanned axis = start plus a part in [0,53/50] of each move of the target, for every history; heights within 3/50 of [0, max height] when a flight lasts an even number of control periods. The strict claim is violated (witnesses): a foot replanned seven times passes its target, and a flight of three periods rises to 7/6 of the maximal height."
  },
  {
   "property": "C75",
   "status": "partial",
   "theorems": [
    "MPC.C75_rest_partial",
    "MPC.C75_allowed_partial",
    "MPC.C75_violated"
   ],
   "note": "For sampling periods above EPSILON the robot is at the first sample after solve(period) and the rest of the plan goes through the other samples and meets the constraints in use. Violated for a sampling period of EPSILON, whatever the solver answers."
  },
  {
   "property": "C76",
   "status": "partial",
   "theorems": [
    "MPC.C76_safe_partial",
    "MPC.C76_violated"
   ],
   "note": "Proved for centrally symmetric polygons, sampling periods above EPSILON and a base mass that is zero or above EPSILON; violated for a convex polygon without symmetry (the optimum puts the CoM of the robot out of its polygon)."
  },
  {
   "property": "C77",
   "status": "partial",
   "theorems": [
    "MPC.C77_recursive_partial",
    "MPC.C77_feasible_iff",
    "MPC.C77_violated"
   ],
   "note": "Proved with the base constraint alone when the jerk limit can reverse the greatest acceleration in a sampling period, which is also necessary; violated otherwise (the optimum leads to a state without feasible plan)."
  },
  {
   "property": "C78",
   "status": "proved",
   "theorems": [
    "MPC.C78_solution_exists",
    "MPC.C78_finds_feasible",
    "MPC.C78_trajectory",
    "MPC.C78_zebulon",
    "MPC.C78_trajectory_free",
    "MPC.C78_trajectory_tracking",
    "MPC.C78_zebulon_free",
    "MPC.C78_zebulon_tracking",
    "MPC.C78_weighting_needed"
   ],
   "note": "Over the reals a feasible QP has a solution, and any two solvers that find solutions lead to the same generator after any calls while the weighting of the jerks is positive and the QPs are feasible. Without constraints in use the QPs are feasible. C78_weighting_needed: without the jerk weighting two such solvers give different motions."
  },
  {
   "property": "C79",
   "status": "proved",
   "theorems": [
    "MPC.C79_steps",
    "MPC.C79_unique",
    "MPC.C79_independent",
    "MPC.C79_walk",
    "MPC.C79_walk_free",
    "MPC.C79_centering_needed",
    "MPC.C79_motion_needed"
   ],
   "note": "Sampling period between 20 EPSILON and 10 s, CoM height at most 1 km (these exclude weights and inverses spoiled by EPSILON). C79_steps: on a grid of times every previewed footstep supports a sample. C79_unique: then at most one solution. C79_independent, C79_walk, C79_walk_free: the motion does not depend on the solver. C79_centering_needed and C79_motion_needed: without these objectives footsteps can be moved at no cost."
  },
  {
   "property": "C80",
   "status": "partial",
   "theorems": [
    "MPC.C80_feedback",
    "MPC.C80_velocity_partial",
    "MPC.C80_position_violated",
    "MPC.C80_position_far"
   ],
   "note": "Velocity tracking: for every horizon, period, positive weightings and feedback period up to the sampling period, by a Riccati recursion whose gains satisfy the Jury conditions; the state must start within a distance of the reference that depends only on the settings, because increments are bounded by MAXBOUND. Position tracking: violated, with one sample the error doubles at each call."
  },
  {
   "property": "C81",
   "status": "partial",
   "theorems": [
    "MPC.C81_trajectory_partial",
    "MPC.C81_no_argument",
    "MPC.C81_hull_partial",
    "MPC.C81_hull_single_point",
    "MPC.C81_zebulon_partial",
    "MPC.C81_zebulon_uninitialised"
   ],
   "note": "The programs trajectory-walkgen-bin and zebulon-walkgen-bin for every solver and every rounding of their times, and the setters setBaseCopHull and setBaseComHull. Violated: trajectory-walkgen-bin without argument, hull of a single point, uninitialised contact point."
  },
  {
   "property": "C82",
   "status": "proved",
   "theorems": [
    "MPC.C82_support",
    "MPC.C82_standing",
    "MPC.C82_order",
    "MPC.C82_shared",
    "MPC.C82_stop_aborts"
   ],
   "note": "C82_shared and C82_stop_aborts record what a caller of the public classes can observe: the two getters return the same reference, and stopping between updateTimeline and the constraint aborts."
  },
  {
   "property": "C83",
   "status": "proved",
   "theorems": [
    "MPC.C83_exact",
    "MPC.C83_same",
    "MPC.C83_progress",
    "MPC.C83_update",
    "MPC.C83_flight",
    "MPC.C83_rounding",
    "MPC.C83_float",
    "MPC.C83_timer",
    "MPC.C83_drift",
    "MPC.C83_stuck"
   ],
   "note": "Clocks of the feet supervisor only; the coordinates of the feet remain exact. C83_drift and C83_stuck show that the condition on the length of a phase cannot be dropped."
  },
  {
   "property": "C84",
   "status": "partial",
   "theorems": [
    "MPC.C84_exact",
    "MPC.C84_index_partial",
    "MPC.C84_violated"
   ],
   "note": "Holds while the rounding errors of one phase stay below EPSILON (the condition of C83); violated for a float robot at rest with phases of 5 s and control periods of 1 ms."
  },
  {
   "property": "C85",
   "status": "proved",
   "theorems": [
    "MPC.C85_landing",
    "MPC.C85_bound",
    "MPC.C85_exact",
    "MPC.C85_float"
   ],
   "note": "Rounding of the timers; the coordinates of the feet are computed exactly. The coefficient of the cube depends on the state of the foot at the start of the last cycle."
  },
  {
   "property": "C86",
   "status": "proved",
   "theorems": [
    "MPC.C86_solve",
    "MPC.C86_units",
    "MPC.C86_tracking"
   ],
   "note": "With the motion constraints on at each solve; without them the bounds of the QP are numbers (MAXIMUM_BOUND_VALUE) that do not scale with the units."
  },
  {
   "property": "C87",
   "status": "partial",
   "theorems": [
    "MPC.C87_velocity_partial",
    "MPC.C87_centering_violated"
   ],
   "note": "Velocity of the base converges, CoM without jerk, for all settings that weight only base velocity and jerks; the distance between CoM and base diverges when only CoM centering is weighted with the default horizon of one sample. Missing: combinations of objectives, constraints."
  },
  {
   "property": "C88",
   "status": "proved",
   "theorems": [
    "MPC.C88_exact",
    "MPC.C88_step",
    "MPC.C88_run",
    "MPC.C88_float",
    "MPC.C88_stuck"
   ],
   "note": "Relative error model for every rounding; instantiated by round-to-nearest-even with 24 and 53 bits without overflow and underflow. C88_stuck shows a motion that rounding suppresses entirely."
  },
  {
   "property": "C89",
   "status": "proved",
   "theorems": [
    "MPC.C89_solve",
    "MPC.C89_turn"
   ],
   "note": "Quarter turns and reflections (the eight symmetries of the square). The settings of both robots are related by the symmetry; the values that earlier solves left in the tilt objective and in the base constraint are hypotheses. Solvable QPs and positive jerk weighting are assumed at each solve."
  },
  {
   "property": "C90",
   "status": "partial",
   "theorems": [
    "MPC.C90_falls",
    "MPC.C90_falls_centring",
    "MPC.C90_violated",
    "MPC.C90_violated_centring",
    "MPC.C90_returns_partial"
   ],
   "note": "Violated: with one sample, the only horizon for which the solvers of the generator fit (C42), the CoM leaves for every weighting if T^2 g < 6 h, and for longer sampling periods if the jerk weight is below an explicit bound; when only the CoP is centred this is so for every number of samples, with the CoP constraint too. Proved: convergence for T = 1 s, h = 1 m and weights 10, 1, 1 without CoP constraint. Missing: other settings with T^2 g > 6 h."
  },
  {
   "property": "C91",
   "status": "proved",
   "theorems": [
    "MPC.C91_superposition",
    "MPC.C91_real",
    "MPC.C91_solve",
    "MPC.C91_jerks_bounded"
   ],
   "note": "For jerks that stay below half of the bounds +-1e11 that the code always sets to the QP; the jerks must be weighted, else several plans are optimal. Over the real numbers the QPs are shown to have solutions; over other ordered fields this is assumed."
  },
  {
   "property": "C92",
   "status": "proved",
   "theorems": [
    "MPC.C92_settles_iff",
    "MPC.C92_settles",
    "MPC.C92_unbalanced",
    "MPC.C92_feedback",
    "MPC.C92_position_only"
   ],
   "note": "Exact characterisation for the default horizon of one sample with solve called once per sampling period and no limits. Longer horizons are not covered. When only the position is tracked the robot never settles, whatever the weights and the period."
  },
  {
   "property": "C93",
   "status": "proved",
   "theorems": [
    "MPC.C93_returns_iff",
    "MPC.C93_returns",
    "MPC.C93_unbalanced",
    "MPC.C93_needs",
    "MPC.C93_rule",
    "MPC.C93_light_witness"
   ],
   "note": "Exact characterisation for a horizon of one sample without CoP constraint, with solve called once per sampling period. Generalises C90_returns_partial, which has fixed weights but pushes of any reasonable size. Longer horizons are not covered."
  },
  {
   "property": "C94",
   "status": "proved",
   "theorems": [
    "MPC.C94_settles_iff",
    "MPC.C94_settles",
    "MPC.C94_unbalanced",
    "MPC.C94_faster",
    "MPC.C94_fast",
    "MPC.C94_rare",
    "MPC.C94_position_only"
   ],
   "note": "Exact characterisation for the default horizon of one sample, no limits, and calls of solve every fb seconds for every fb > 0; fb = T is C92. The lemma on linear feedback of the jerk (TripleStable) holds for all gains. Longer horizons are not covered."
  },
  {
   "property": "C95",
   "status": "proved",
   "theorems": [
    "MPC.C95_base_iff",
    "MPC.C95_base_velocity",
    "MPC.C95_centre_iff",
    "MPC.C95_centre_violated",
    "MPC.C95_centre_fast",
    "MPC.C95_cases"
   ],
   "note": "Exact characterisation for the default horizon of one sample, no constraints, two sets of weights: base velocity, base position and jerks; CoM centering and jerks. Includes and generalises the instability of C87_centering_violated (one weight, one period, n <= 30 calls). CoM and base weighted together and longer horizons are not covered. T > EPS in the CoM part is where the code samples the CoM at T."
  },
  {
   "property": "C96",
   "status": "proved",
   "theorems": [
    "MPC.C96_iff",
    "MPC.C96_critical",
    "MPC.C96_one_sample",
    "MPC.C96_case",
    "MPC.C96_base_iff",
    "MPC.C96_base_critical"
   ],
   "note": "Exact characterisation for every horizon, without constraints, velocity and jerks weighted (and nothing else). C80 and C87 show convergence for fb <= T; here the longest admissible period is shown to exist and to exceed T, with a closed form for one sample. The gains in C96_iff are those of the Riccati recursion of C80; C96_critical does not mention them."
  },
  {
   "property": "C97",
   "status": "proved",
   "theorems": [
    "MPC.C97_rest",
    "MPC.C97_speed",
    "MPC.C97_critical",
    "MPC.C97_balanced",
    "MPC.C97_beyond"
   ],
   "note": "Carries C94 and C96 over to robots with velocity, acceleration and jerk limits. The equivalences hold for every horizon and, in C97_rest, all weights with a positive jerk weight; existence of the best jerks is proved (coercivity), not assumed. A reference exactly at the velocity limit is not covered. C97_beyond uses that the solver may answer anything when its problem has no solution (C15)."
  },
  {
   "property": "C98",
   "status": "partial",
   "theorems": [
    "MPC.C98_symmetric_partial",
    "MPC.C98_outside",
    "MPC.C98_violated"
   ],
   "note": "Violated by the code, as a consequence of C46: the constraint keeps the reflection of the CoM in the polygon. C98_violated gives a triangle and a reference inside it, where the CoM settles without the constraint, and does not settle with it, whatever the period of the calls. C98_outside is the general reason, for every horizon, weights and further constraints; it uses that the solver may answer anything when its problem has no solution (C15). C98_symmetric_partial is the claim for polygons with central symmetry, one sample, CoM centering and jerks weighted."
  },
  {
   "property": "C99",
   "status": "proved",
   "theorems": [
    "MPC.C99_step",
    "MPC.C99_line",
    "MPC.C99_never"
   ],
   "note": "C99_line is for the heading constraint alone and includes that its problems always have feasible points, for any sequence of periods of the calls; C99_step covers any further constraints, for feasible answers. C99_never covers any further constraints, weights and horizon; its witness uses that the solver may answer anything when its problem has no solution (C15). The heading is the one of the last setBaseStateYaw, as in C48."
  }
 ]
}