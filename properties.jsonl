{"id": "C01", "title": "Predicted positions are the real positions", "statement": "For ConstantJerkDynamic::computePosDynamic(S,T,N), row i of U*X + S*x + K is exactly the position obtained by starting from state x and applying updateState with jerk X(0) for S seconds, then X(1),...,X(i) for T seconds each.", "quantifier": "every horizon length N>0, every S>0 and T>0, every initial state, every jerk sequence, every row i<N", "why_tests_cant": "tests compare a handful of (S,T,N) with hand-computed matrices; the identity has to hold for all horizon lengths and times", "anchors": ["src/tools.cpp::computePosDynamic", "src/tools.cpp::updateState"]}
{"id": "C02", "title": "Predicted velocities are the real velocities", "statement": "For computeVelDynamic(S,T,N), row i of U*X + S*x + K is the velocity reached by updateState under the same piecewise constant jerk.", "quantifier": "every N>0, S>0, T>0, initial state, jerk sequence, row", "why_tests_cant": "a test fixes N and T; the claim is about every horizon", "anchors": ["src/tools.cpp::computeVelDynamic", "src/tools.cpp::updateState"]}
{"id": "C03", "title": "Predicted accelerations are the real accelerations", "statement": "For computeAccDynamic(S,T,N), row i of U*X + S*x + K is the acceleration reached by updateState under the same piecewise constant jerk.", "quantifier": "every N>0, S!=0, T>0, initial state, jerk sequence, row", "why_tests_cant": "a test fixes N and T; the claim is about every horizon", "anchors": ["src/tools.cpp::computeAccDynamic", "src/tools.cpp::updateState"]}
{"id": "C04", "title": "Predicted CoP obeys the linear inverted pendulum law", "statement": "For computeCopDynamic, row i of U*X + S*x + K equals (m/M)*(c - (h/gz)*c'') - (m/M)*h*gx/gz evaluated on the CoM position and acceleration that updateState reaches at sample i.", "quantifier": "every N, S, T, height h, gravity with |gz|>EPSILON, mass 0<=m<=M, state, jerk sequence, row", "why_tests_cant": "pendulum law must hold for all parameters, tests use one robot", "anchors": ["src/tools.cpp::computeCopDynamic", "src/model/lip_model.cpp::computeCopXDynamicVec", "src/model/zebulon_base_model.cpp"]}
{"id": "C05", "title": "Second order (angular) predictions are exact", "statement": "computeOrder2PosDynamic and computeOrder2VelDynamic predict exactly the angle and angular velocity of a system driven by piecewise constant angular acceleration (first interval S, then T).", "quantifier": "every N, S>0, T>0, initial angle and angular velocity, acceleration sequence, row", "why_tests_cant": "no unit test iterates the second order system over arbitrary horizons", "anchors": ["src/tools.cpp::computeOrder2PosDynamic", "src/tools.cpp::computeOrder2VelDynamic"]}
{"id": "C06", "title": "State update does not depend on how time is cut", "statement": "Applying updateState with the same jerk for a then b seconds gives the same state as applying it once for a+b seconds, hence n updates of period T/n give the state of one update of period T; and the updated state is the value, first and second derivative of one cubic polynomial of time.", "quantifier": "every state, jerk, positive durations a and b, number of pieces n", "why_tests_cant": "quantifies over all partitions of the control period", "anchors": ["src/tools.cpp::updateState"]}
{"id": "C07", "title": "The acceleration (and angular velocity) inverse is a true inverse", "statement": "The bidiagonal Uinv filled by computeAccDynamic/computeOrder2VelDynamic satisfies U*Uinv = Uinv*U = I, and UTinv is its transpose.", "quantifier": "every N>0, S!=0, T>0", "why_tests_cant": "tests check small N only", "anchors": ["src/tools.cpp::computeAccDynamic", "src/tools.cpp::computeOrder2VelDynamic"]}
{"id": "C08", "title": "Predictions are causal and the transposes are transposes", "statement": "For every dynamic built by ConstantJerkDynamic, a jerk applied during sample j has no effect on the predicted quantity at samples i<j, and the stored UT is the transpose of the stored U.", "quantifier": "every N, S, T, every pair of indices", "why_tests_cant": "entrywise claim for matrices of all sizes", "anchors": ["src/tools.cpp"]}
{"id": "C09", "title": "The stored inverse used to go back from CoP to jerk is an inverse", "statement": "For the CoP, position and velocity dynamics, the matrix Uinv stored next to U is the inverse of U, so solving for the jerk and predicting again gives the requested trajectory.", "quantifier": "every N, S, T, height, gravity and mass accepted by the asserts", "why_tests_cant": "the inverse is computed numerically and then small entries are set to zero; only a proof covers all parameter ranges", "anchors": ["mpc-walkgen/tools.h::inverseLU", "src/tools.cpp::computeCopDynamic"]}
{"id": "C10", "title": "Foot trajectory starts at the current state and ends on the target", "statement": "The 3-piece cubic computed by Interpolator starts with the given position, velocity and acceleration at t=0 and has the requested position, velocity and acceleration at t=T.", "quantifier": "every initial and final state and every duration T>0", "why_tests_cant": "the unit test checks a single duration T=10 and one pair of states", "anchors": ["src/interpolator.cpp", "src/model/humanoid_foot_model.cpp::interpolateTrajectory"]}
{"id": "C11", "title": "Foot trajectory has continuous position, velocity and acceleration", "statement": "The position, velocity and acceleration returned by the foot update as a function of the elapsed time t in [0,T] have no jump at the piece boundaries T/3 and 2T/3: on both sides the pieces agree to second order.", "quantifier": "every initial and final state and every T>0", "why_tests_cant": "continuity at the knots for all boundary conditions", "anchors": ["src/interpolator.cpp::selectFactors", "src/model/humanoid_foot_model.cpp::interpolateTrajectory"]}
{"id": "C12", "title": "A replanned foot still lands on time and on target", "statement": "Whatever the way the remaining flight time is cut into control periods, and whatever the targets given on the way, if the last update covers exactly the remaining time then the foot ends exactly at the last target with the last target's velocity and acceleration.", "quantifier": "every history of (target, remaining time, control period) updates", "why_tests_cant": "quantifies over update histories of any length", "anchors": ["src/model/humanoid_foot_model.cpp::interpolateTrajectory"]}
{"id": "C13", "title": "Normalising a QP does not change its solutions", "statement": "Multiplying (Q,p) and (A,bl,bu) by the factors chosen by normalizeMatrices leaves the set of feasible points and the set of minimisers unchanged.", "quantifier": "every QP of any size with any coefficients, every epsilon >= 0", "why_tests_cant": "an equality of solution sets cannot be observed by running a solver on samples", "anchors": ["qpsolver/mpc-walkgen/qpsolver.h::normalizeMatrices", "qpsolver/mpc-walkgen/qpsolver.h::getNormalizationFactor"]}
{"id": "C14", "title": "After normalisation no significant coefficient is smaller than one", "statement": "After normalizeMatrices(eps), every coefficient of Q (resp. A) whose magnitude was above eps has magnitude at least 1, and no coefficient was amplified by more than 1/eps.", "quantifier": "every matrix, every eps in (0,1)", "why_tests_cant": "bound on all entries of all matrices", "anchors": ["qpsolver/mpc-walkgen/qpsolver.h::getNormalizationFactor"]}
{"id": "C15", "title": "solve reports failure when the solver fails", "statement": "If the underlying QP solver does not return success, solve() of the QP solver wrapper, and the solve() of the walking generators that call it, return false.", "quantifier": "every QP, every solver outcome, every API history", "why_tests_cant": "all tests use feasible problems, so the failure branch is never taken", "anchors": ["qpsolver/src/qpsolver_qpoases.hxx::solve", "src/trajectory_walkgen.cpp::solve", "src/humanoid_walkgen.cpp::solve", "src/zebulon_walkgen.cpp::solve"]}
{"id": "C16", "title": "TrajectoryWalkgen never hits a size mismatch", "statement": "After any sequence of API calls whose own preconditions hold, solve() performs no operation on vectors or matrices of incompatible sizes.", "quantifier": "every finite sequence of setter and solve calls", "why_tests_cant": "infinitely many call histories", "anchors": ["src/trajectory_walkgen.cpp", "src/function/trajectory_velocity_tracking_objective.cpp", "src/function/trajectory_position_tracking_objective.cpp"]}
{"id": "C17", "title": "TrajectoryWalkgen minimises the documented cost", "statement": "The quadratic form (Q,p) passed to the solver at x0 is, up to a constant, the weighted sum of squared velocity error, squared position error and squared jerk of the predicted trajectory for jerks x0+dX.", "quantifier": "every horizon, period, state, reference, weighting, x0 and dX", "why_tests_cant": "needs the identity for all variables, not at sampled points", "anchors": ["src/trajectory_walkgen.cpp::solve", "src/function/trajectory_velocity_tracking_objective.cpp", "src/function/trajectory_position_tracking_objective.cpp", "src/function/trajectory_jerk_minimization_objective.cpp"]}
{"id": "C18", "title": "TrajectoryWalkgen constraints mean the motion limits", "statement": "dX satisfies bl<=A*dX<=bu and xl<=dX<=xu as passed to the solver iff the jerks x0+dX keep the predicted velocity, acceleration and the jerk within their limits at every sample.", "quantifier": "every horizon, period, state, limits, x0 and dX", "why_tests_cant": "an equivalence over all decision vectors", "anchors": ["src/trajectory_walkgen.cpp::solve", "src/function/trajectory_motion_constraint.cpp"]}
{"id": "C19", "title": "TrajectoryWalkgen respects the limits after solve", "statement": "If the solver returns a feasible point, then after solve(T) with the feedback period equal to the sampling period the stored velocity and acceleration are within the limits; with a shorter feedback period the acceleration stays within its limit whenever it was before the call.", "quantifier": "every history, every feasible solver answer, every feedback period in (0,T]", "why_tests_cant": "for all feasible solver answers and all states", "anchors": ["src/trajectory_walkgen.cpp::solve"]}
{"id": "C20", "title": "TrajectoryWalkgen never solves with outdated matrices", "statement": "At every solve() call the cached Hessian and constraint matrices equal the ones that would be computed from scratch from the current number of samples, period, weighting and configuration, so warm-starting with them is sound.", "quantifier": "every finite sequence of setter and solve calls", "why_tests_cant": "stale caches only show for particular setter orders", "anchors": ["src/trajectory_walkgen.cpp"]}
{"id": "C21", "title": "The TrajectoryWalkgen problem is convex, strictly if jerk is weighted", "statement": "For non negative weightings the Hessian is symmetric positive semidefinite, and positive definite (unique solution) when the jerk weighting is positive.", "quantifier": "every horizon, period and non negative weighting", "why_tests_cant": "positivity for all vectors", "anchors": ["src/trajectory_walkgen.cpp::computeConstantPart"]}
{"id": "C22", "title": "Polygon constraints mean membership in the polygon", "statement": "For a convex polygon (vertices counterclockwise) whose edges are exactly axis aligned or farther than EPSILON from it, a point with coordinates below the bound value 1e11 satisfies the x/y bounds and the general rows A*X+b<=0 iff it lies on the inner side of every edge, as the header defines it.", "quantifier": "every convex vertex list of any length, every point", "why_tests_cant": "an equivalence over all points and polygons", "anchors": ["src/convexpolygon.cpp::computeBoundsAndGeneralConstraintValues", "mpc-walkgen/convexpolygon.h"]}
{"id": "C23", "title": "ConvexPolygon computes the convex hull", "statement": "For any non degenerate set of points, the stored vertices are input points, listed counterclockwise, and every input point lies in the polygon.", "quantifier": "every finite list of points", "why_tests_cant": "hull correctness for all inputs; several hull tests are disabled in the repository", "anchors": ["src/convexpolygon.cpp::extractVertices", "src/convexpolygon.cpp::getIndexOfSmallestAngleVertice", "src/convexpolygon.cpp::getIndexOfLowestAndLeftmostVertice"]}
{"id": "C24", "title": "ConvexPolygon accepts every list of points", "statement": "Constructing a ConvexPolygon from any list of finite points, including empty, one point or repeated points, terminates without reading outside the list.", "quantifier": "every finite list of points", "why_tests_cant": "the faulty inputs are degenerate lists no test builds", "anchors": ["src/convexpolygon.cpp::getIndexOfSmallestAngleVertice", "src/convexpolygon.cpp::extractVertices"]}
{"id": "C25", "title": "No polygon needs more rows than it has vertices", "statement": "The number of general constraints of a polygon is at most its number of vertices and equals the number of rows of its coefficient vectors.", "quantifier": "every vertex list", "why_tests_cant": "used to size solver tables for all polygons", "anchors": ["src/convexpolygon.cpp::computeBoundsAndGeneralConstraintValues", "src/humanoid_feet_supervisor.cpp::getMaximumNbOfCopConstraints"]}
{"id": "C26", "title": "Steps alternate left and right", "statement": "In every previewed timeline two consecutive single supports are on opposite feet, a single support follows a double support only while walking is requested, and it is then on the left foot; when walking is not requested every phase after the current one is a double support.", "quantifier": "every history of setters, setMove and updates", "why_tests_cant": "all interleavings of setMove and phase changes", "anchors": ["src/humanoid_feet_supervisor.cpp::processFSM", "src/humanoid_feet_supervisor.cpp::updateTimeline"]}
{"id": "C27", "title": "The timeline update terminates and covers the horizon", "statement": "For T>=EPSILON, updateTimeline terminates after N+1 sampling instants, the previewed phases cover the whole horizon, and the number of previewed steps is the number of single supports that end inside the horizon, hence at most N.", "quantifier": "every reachable timeline state, every N, T, step and double support durations above EPSILON", "why_tests_cant": "loop termination and coverage for all durations", "anchors": ["src/humanoid_feet_supervisor.cpp::updateTimeline"]}
{"id": "C28", "title": "Each previewed sample is attached to exactly one footstep", "statement": "After updateTimeline, each row of [V0 V] contains exactly one 1 and zeros elsewhere, VT is the transpose of V, sample indices are attached to existing phases, and the attached footstep is the one supporting the robot in the phase that contains the sample.", "quantifier": "every timeline, N, T, phase durations, remaining time", "why_tests_cant": "two different loops must agree for every phase layout", "anchors": ["src/humanoid_feet_supervisor.cpp::computeSelectionMatrix", "src/humanoid_feet_supervisor.cpp::updateTimeline"]}
{"id": "C29", "title": "The decision vector always matches the previewed steps", "statement": "After updateTimeline the decision vector has exactly 2N + 2*(number of previewed steps) entries, so the QP is well formed, also when walking is started or stopped at any time.", "quantifier": "every history of setMove and solve calls", "why_tests_cant": "depends on when exactly the user stops walking", "anchors": ["src/humanoid_feet_supervisor.cpp::updateTimeline", "src/humanoid_feet_supervisor.cpp::enlargeStepVec", "src/humanoid_feet_supervisor.cpp::shortenStepVec", "src/humanoid_walkgen.cpp::solve"]}
{"id": "C30", "title": "New previewed footsteps respect the kinematic limits", "statement": "When the horizon reveals a new footstep, the footstep inserted in the decision vector lies, relative to the previous footstep (or to the support foot for the first one), inside the kinematic convex polygon that constrains it.", "quantifier": "every polygon, every decision vector, every phase situation", "why_tests_cant": "the code comment claims it for all convex polygons", "anchors": ["src/humanoid_feet_supervisor.cpp::enlargeStepVec"]}
{"id": "C31", "title": "Feet in contact never move", "statement": "updateFeetStates never changes the state of the support foot, changes no foot in double support or in the transitional double support, and never changes the flying foot's counterpart.", "quantifier": "every supervisor state, step vector and feedback period", "why_tests_cant": "frame condition over all states", "anchors": ["src/humanoid_feet_supervisor.cpp::updateFeetStates"]}
{"id": "C32", "title": "The flying foot lands on the planned footstep", "statement": "During a single support, if control periods cut the phase so that the last one ends with the phase, the flying foot is at the first planned footstep with zero height, velocity and acceleration when the phase ends.", "quantifier": "every number and size of control periods, every sequence of planned footsteps", "why_tests_cant": "for all update histories inside a phase", "anchors": ["src/humanoid_feet_supervisor.cpp::updateFeetStates", "src/model/humanoid_foot_model.cpp::interpolateTrajectory"]}
{"id": "C33", "title": "Each phase lasts its configured duration", "statement": "Time to the next phase decreases by exactly the feedback period at each solve, a phase change happens exactly at the first solve where it is below EPSILON, and it is then reset to the duration of the next phase; so n control periods spent in a phase satisfy |n*fb - duration| < fb + EPSILON.", "quantifier": "every sequence of updates without period changes", "why_tests_cant": "for all feedback periods and histories", "anchors": ["src/humanoid_feet_supervisor.cpp::updateTimeline", "src/humanoid_feet_supervisor.cpp::updateFeetStates"]}
{"id": "C34", "title": "Every feedback period not larger than the sampling period is usable", "statement": "For 0<feedbackPeriod<=T, the number of control calls before the next sample is between 1 and T/feedbackPeriod, so that the prediction matrices for it exist.", "quantifier": "every feedback period, remaining phase time", "why_tests_cant": "tests use feedback periods dividing T", "anchors": ["src/humanoid_feet_supervisor.cpp::getNbOfCallsBeforeNextSample", "src/model/lip_model.cpp::computeDynamics", "src/humanoid_walkgen.cpp::convertCopInLFtoComJerk"]}
{"id": "C35", "title": "A completed step is removed from the plan without disturbing the others", "statement": "When a single support ends, the decision vector loses exactly the x and y of its first footstep; CoP variables and the x,y pairs of the other footsteps keep their values and order. Adding a footstep keeps all the existing CoP values and footstep pairs.", "quantifier": "every decision vector and number of steps", "why_tests_cant": "index arithmetic for all sizes", "anchors": ["src/humanoid_feet_supervisor.cpp::shortenStepVec", "src/humanoid_feet_supervisor.cpp::enlargeStepVec"]}
{"id": "C36", "title": "Asking to stop ends in double support after at most one more step", "statement": "After setMove(false), no single support starts any more except the one already planned if the current phase is over at that very moment; the single support that runs is completed, then the supervisor stays in double support as long as walking is not requested.", "quantifier": "every state and every number of subsequent updates", "why_tests_cant": "unbounded future", "anchors": ["src/humanoid_feet_supervisor.cpp::processFSM", "src/humanoid_feet_supervisor.cpp::updateTimeline"]}
{"id": "C37", "title": "Changing phase durations at run time is safe", "statement": "Accepted calls to setStepPeriod and setInitialDoubleSupportLength keep the elapsed time of the current phase and leave a state from which the next update is well defined.", "quantifier": "every state and every accepted duration", "why_tests_cant": "depends on the phase in which the setter is called and on the value", "anchors": ["src/humanoid_feet_supervisor.cpp::setStepPeriod", "src/humanoid_feet_supervisor.cpp::setInitialDoubleSupportLength", "src/humanoid_feet_supervisor.cpp::updateTimeline"]}
{"id": "C38", "title": "Humanoid CoP constraints keep the CoP inside the support polygon", "statement": "With CoP constraints on, dX is feasible for the rows and bounds passed to the solver iff the new CoP of every sample, in the support foot frame, satisfies the constraints of the support polygon of its phase.", "quantifier": "every timeline, polygons, x0 and dX", "why_tests_cant": "equivalence over all decision vectors and timelines", "anchors": ["src/function/humanoid_cop_constraint.cpp", "src/humanoid_walkgen.cpp::solve"]}
{"id": "C39", "title": "Humanoid foot constraints keep footsteps reachable", "statement": "With feet constraints on, if dX is feasible for the rows and bounds passed to the solver then each new footstep lies inside the kinematic polygon placed at the new position of the previous footstep.", "quantifier": "every number of steps, polygons, x0 and dX", "why_tests_cant": "needs a pair of steps moving together with axis aligned polygons; the value test is a TODO", "anchors": ["src/function/humanoid_foot_constraint.cpp", "src/humanoid_walkgen.cpp::solve"]}
{"id": "C40", "title": "HumanoidWalkgen minimises the documented cost", "statement": "Gradient and Hessian of the humanoid velocity tracking, jerk minimisation and CoP centering objectives are those of the weighted sums of squared velocity error, squared jerk and squared local CoP as functions of the decision vector.", "quantifier": "every N, number of steps, dynamics, selection matrices, weights, x0", "why_tests_cant": "derivative identity for all matrices", "anchors": ["src/function/humanoid_lip_com_velocity_tracking_objective.cpp", "src/function/humanoid_lip_com_jerk_minimization_objective.cpp", "src/function/humanoid_cop_centering_objective.cpp"]}
{"id": "C41", "title": "The CoM follows the planned CoP", "statement": "The jerks obtained from the decision vector after solve, when applied to the current CoM state, produce exactly the planned CoP (local CoP plus position of the supporting footstep) at every sample.", "quantifier": "every state, timeline, decision vector", "why_tests_cant": "round trip through an inverse for all inputs", "anchors": ["src/humanoid_walkgen.cpp::convertCopInLFtoComJerk"]}
{"id": "C42", "title": "HumanoidWalkgen uses a solver of the right size", "statement": "After any sequence of configuration calls, the QP matrices and the QP solver selected by solve have the dimensions of the current problem.", "quantifier": "every finite sequence of setNbSamples, setConfig, polygon setters and solve", "why_tests_cant": "tests configure once in a fixed order", "anchors": ["src/humanoid_walkgen.cpp::computeConstantPart", "src/humanoid_walkgen.cpp::solve"]}
{"id": "C43", "title": "Invalid parameters are rejected", "statement": "Weightings accepted by setWeightings are all non negative, and gravity vectors accepted by setGravity have a non zero vertical component, for all three generators and models.", "quantifier": "every argument value", "why_tests_cant": "tests only pass valid values", "anchors": ["src/humanoid_walkgen.cpp::setWeightings", "src/zebulon_walkgen.cpp::setWeightings", "src/trajectory_walkgen.cpp::setWeightings", "src/model/lip_model.cpp::setGravity", "src/model/zebulon_base_model.cpp::setGravity"]}
{"id": "C44", "title": "Sample weights are positive and balance first and last samples", "statement": "The sample weight matrix is diagonal with positive entries, first weight equal to the fraction of the sampling period left before the next sample and last weight 1.05 minus the first one.", "quantifier": "every N>0, T, remaining time", "why_tests_cant": "edge cases in N and in the remaining time", "anchors": ["src/humanoid_feet_supervisor.cpp::computeSampleWeightMatrix"]}
{"id": "C45", "title": "Zebulon base limits are what the constraints mean", "statement": "With base motion constraints on, dX is feasible for the base motion rows and variable bounds passed to the solver iff predicted base velocity and acceleration at every sample and base jerks are within their limits.", "quantifier": "every horizon, state, limits, x0 and dX", "why_tests_cant": "equivalence over all decision vectors", "anchors": ["src/function/zebulon_base_motion_constraint.cpp", "src/zebulon_walkgen.cpp::solve"]}
{"id": "C46", "title": "Zebulon keeps CoM and CoP inside the support polygon", "statement": "With CoM (resp. CoP) constraints on, a feasible dX gives a predicted CoM (resp. CoP) relative to the base inside the configured convex polygon at every sample.", "quantifier": "every convex polygon, state, x0 and dX", "why_tests_cant": "all repository tests use centrally symmetric polygons, which hide the sign", "anchors": ["src/function/zebulon_com_constraint.cpp", "src/function/zebulon_cop_constraint.cpp", "src/zebulon_walkgen.cpp::solve"]}
{"id": "C47", "title": "Zebulon tilt prediction follows the documented tilt equation", "statement": "The tilt predicted by the tilt minimisation objective is, for every sample, the solution of the documented equation g(mh+ML)psi + mg(c-d) = ML d'' + mh c'' + (mh^2+ML^2) psi''.", "quantifier": "every mass, height, state and jerk sequence", "why_tests_cant": "tests check one parameter set against the implementation's own numbers", "anchors": ["src/function/zebulon_tilt_minimization_objective.cpp", "mpc-walkgen/function/zebulon_tilt_minimization_objective.h"]}
{"id": "C48", "title": "Zebulon tilt motion constraint keeps the motion along the heading", "statement": "With tilt motion constraints on, a feasible dX gives predicted CoM and base velocities with zero component orthogonal to the heading configured at the last setBaseStateYaw, at every sample.", "quantifier": "every heading, state, x0 and dX", "why_tests_cant": "equality for all decision vectors", "anchors": ["src/function/zebulon_tilt_motion_constraint.cpp"]}
{"id": "C49", "title": "Zebulon never solves with outdated matrices", "statement": "At every solve the cached objective and constraint matrices equal the ones recomputed from the current model parameters.", "quantifier": "every finite sequence of setter and solve calls", "why_tests_cant": "depends on the setter order", "anchors": ["src/zebulon_walkgen.cpp"]}
{"id": "C50", "title": "Zebulon objectives have the gradient of the documented cost", "statement": "Gradient and Hessian of base velocity tracking, base position tracking, CoM centering, CoP centering and jerk minimisation are those of the corresponding sums of squared errors.", "quantifier": "every horizon, model parameters, state, references and x0", "why_tests_cant": "derivative identity for all inputs", "anchors": ["src/function/zebulon_base_velocity_tracking_objective.cpp", "src/function/zebulon_base_position_tracking_objective.cpp", "src/function/zebulon_com_centering_objective.cpp", "src/function/zebulon_cop_centering_objective.cpp", "src/function/zebulon_jerk_minimization_objective.cpp"]}
{"id": "C51", "title": "The CoP reference is the CoP of the reference motion", "statement": "If CoM and base follow exactly the trajectories passed to setCopRefInWorldFrame, the predicted CoP relative to the base equals the reference stored by the objective.", "quantifier": "every gravity, masses, heights and trajectories", "why_tests_cant": "tests use vertical gravity only", "anchors": ["src/function/zebulon_cop_centering_objective.cpp::setCopRefInWorldFrame", "src/tools.cpp::computeCopDynamic"]}
{"id": "C52", "title": "Gravity compensation of the CoM reference survives reconfiguration", "statement": "After any sequence of setters, the offset subtracted by CoM centering is the reference plus the shift due to horizontal gravity for the current masses, heights and gravity.", "quantifier": "every finite sequence of setters", "why_tests_cant": "depends on the setter order", "anchors": ["src/function/zebulon_com_centering_objective.cpp::updateGravityShift", "src/zebulon_walkgen.cpp::setNbSamples"]}
{"id": "C53", "title": "No uninitialised parameter is used", "statement": "Constructing a walking generator reads only initialised model parameters.", "quantifier": "every memory content at construction", "why_tests_cant": "uninitialised memory is often zero in tests", "anchors": ["src/model/zebulon_base_model.cpp::BaseModel", "src/function/zebulon_tilt_minimization_objective.cpp"]}
{"id": "C54", "title": "ZebulonWalkgen never hits a size mismatch", "statement": "After any sequence of API calls whose own preconditions hold, solve() performs no operation on vectors or matrices of incompatible sizes and the rows of the different constraints do not overlap.", "quantifier": "every finite sequence of setter and solve calls", "why_tests_cant": "infinitely many call histories", "anchors": ["src/zebulon_walkgen.cpp::solve", "src/zebulon_walkgen.cpp::computeConstantPart"]}
{"id": "C55", "title": "No control cycle of the feet supervisor faults on a regular time grid", "statement": "When the sampling period and the phase durations are multiples of a feedback period above EPSILON and a step fits in the horizon, updateTimeline followed by updateFeetStates never fails an assertion, reads out of range or loops forever, whatever the solver answers and whenever walking is requested or stopped (except in the initial double support with previewed steps).", "quantifier": "every history of control cycles and setMove calls, every solver answer", "why_tests_cant": "all histories and all solver answers", "anchors": ["src/humanoid_feet_supervisor.cpp::updateTimeline", "src/humanoid_feet_supervisor.cpp::updateFeetStates", "src/humanoid_feet_supervisor.cpp::computeSelectionMatrix"]}
{"id": "C56", "title": "LIPModel never serves outdated dynamics", "statement": "After any sequence of calls on a LIPModel that computes its dynamics automatically, every dynamics it serves predicts exactly the position, velocity, acceleration or CoP of the piecewise constant jerk motion for the current number of samples, periods, height, gravity and masses, and every first interval that fits in a sample is served.", "quantifier": "every finite sequence of setter and update calls, every jerk vector and state", "why_tests_cant": "infinitely many call histories", "anchors": ["src/model/lip_model.cpp::computeDynamics", "src/model/lip_model.cpp::setGravity", "src/model/lip_model.cpp::setFeedbackPeriod"]}
{"id": "C57", "title": "The Zebulon QP is the documented optimisation problem", "statement": "In every reachable state, the QP that ZebulonWalkgen gives to the solver has, up to a positive factor, the cost of the weighted sum of squared errors of the predicted motion, and its feasible set is the set of jerks whose predicted motion meets the enabled constraints; it is convex, and a solution of it minimises the documented cost.", "quantifier": "every finite sequence of setter and solve calls, every solver answer", "why_tests_cant": "Cost and feasible set are compared at all increments, for all horizons, parameters and histories of calls; tests only see single solutions.", "anchors": ["src/zebulon_walkgen.cpp::solve", "src/zebulon_walkgen.cpp::computeConstantPart"]}
{"id": "C58", "title": "Recursive feasibility of TrajectoryWalkgen", "statement": "If the state is within the velocity and acceleration limits, the QP is feasible, and it stays feasible as long as the solver returns feasible points and solve is called with the sampling period.", "quantifier": "every history of calls, every reference, every solver that finds feasible points, any number of later calls", "why_tests_cant": "an invariant of infinitely long runs, over all solvers; the known violation needs the optimum of a particular sequence", "anchors": ["src/trajectory_walkgen.cpp::solve", "src/function/trajectory_motion_constraint.cpp::computeFunction"]}
{"id": "C59", "title": "A steady motion that meets its references is left alone", "statement": "If the state moves at a constant velocity that meets the references and the limits, and the jerk weighting is positive, solve publishes a zero jerk and the motion goes on at this velocity; at rest, forever.", "quantifier": "every history of calls, every such state and reference, every solver that returns solutions", "why_tests_cant": "all horizons, periods, weightings and previous solutions", "anchors": ["src/trajectory_walkgen.cpp::solve"]}
{"id": "C60", "title": "Consistency of successive horizons", "statement": "After solve with the sampling period the new state is the first sample of the plan and the tail of the plan, from the new state, goes through the remaining samples and respects the limits if the plan did.", "quantifier": "every history of calls, every solver answer", "why_tests_cant": "all plans and all states", "anchors": ["src/trajectory_walkgen.cpp::solve", "src/model/no_dynamic_model.cpp::updateState"]}
{"id": "C61", "title": "Translation invariance of TrajectoryWalkgen", "statement": "Moving the state and the position references by the same distance moves the computed motion by this distance and leaves the jerks unchanged.", "quantifier": "every pair of histories that lead to settings and states equal up to the move, every solver that returns solutions", "why_tests_cant": "a relation between two arbitrary histories", "anchors": ["src/trajectory_walkgen.cpp::solve", "src/function/trajectory_position_tracking_objective.cpp::computeConstantPart"]}
{"id": "C62", "title": "The humanoid QP is convex", "statement": "The matrix of the QP that HumanoidWalkgen gives to the solver is symmetric and positive semidefinite, and with a positive CoP centring weighting all solutions have the same CoP.", "quantifier": "every history of calls, every solver answer", "why_tests_cant": "a quantifier over all directions of all QPs of all reachable states", "anchors": ["src/humanoid_walkgen.cpp::solve", "src/humanoid_feet_supervisor.cpp::computeSampleWeightMatrix"]}
{"id": "C63", "title": "The humanoid QP is feasible", "statement": "When every CoP polygon and every kinematic polygon in use contains a point, the QP that HumanoidWalkgen gives to the solver has a feasible point.", "quantifier": "every generator state, every plan, every number of planned footsteps, all polygons", "why_tests_cant": "existence of a solution of every QP of every size", "anchors": ["src/function/humanoid_cop_constraint.cpp::computeBoundsVectors", "src/function/humanoid_foot_constraint.cpp::computeBoundsVectors", "src/humanoid_walkgen.cpp::solve"]}
{"id": "C64", "title": "The humanoid generator drives its supervisor by control cycles", "statement": "Every successful solve is one control cycle of the feet supervisor, in which only the solver's plan is free; so everything proved for all histories of control cycles of the supervisor holds for the supervisor inside the generator.", "quantifier": "every history of calls, every solver answer", "why_tests_cant": "refinement between two transition systems, for histories of any length", "anchors": ["src/humanoid_walkgen.cpp::solve", "src/humanoid_feet_supervisor.cpp::updateTimeline", "src/humanoid_feet_supervisor.cpp::updateFeetStates"]}
{"id": "C65", "title": "A standing humanoid stays at rest", "statement": "With zero velocity reference, both feet on the ground, CoM at rest above the midpoint of the feet and no plan, every solution of the QP keeps the CoP where it is; the CoM then stays at rest over any number of control cycles.", "quantifier": "every history that leads to such a state, every horizon, every number of further solves", "why_tests_cant": "equilibrium of an optimisation in closed loop for an unbounded number of cycles", "anchors": ["src/humanoid_walkgen.cpp::solve", "src/humanoid_walkgen.cpp::convertCopInLFtoComJerk", "src/function/humanoid_cop_centering_objective.cpp::getGradient"]}
{"id": "C66", "title": "ZebulonWalkgen advances by its plan and keeps a steady motion", "statement": "solve(fb) adds the solver's answer to the jerks and moves CoM and base exactly by the first new jerks during fb. If the motion without jerk attains all references in use, is allowed and is in balance, every solution of the QP is that motion; a robot at rest on its references stays there over any number of solves.", "quantifier": "every reachable state, every horizon, all solver answers; all solvers that return solutions for the steady part; any number of solves", "why_tests_cant": "closed-loop equilibrium for all settings and unboundedly many solves", "anchors": ["src/zebulon_walkgen.cpp::solve", "src/model/zebulon_base_model.cpp::updateStateX", "src/model/lip_model.cpp::updateStateX"]}
{"id": "C67", "title": "Translation invariance of ZebulonWalkgen", "statement": "Moving the CoM, the base and the position references together by (a,b) changes neither the feasible jerks nor the solutions of the QP built by solve; with the same solver answer the new jerks are the same and the new states are moved by (a,b).", "quantifier": "every pair of reachable generators that agree up to the move, all moves, every horizon and feedback period", "why_tests_cant": "equality of two optimisation problems for all settings, states and moves", "anchors": ["src/zebulon_walkgen.cpp::solve", "src/function/zebulon_cop_centering_objective.cpp::getGradient", "src/function/zebulon_base_position_tracking_objective.cpp::getGradient"]}
{"id": "C68", "title": "HumanoidWalkgen::solve does not fault", "statement": "When the sampling period and the durations of the phases are multiples of the feedback period, the LIP dynamics are regular and the tables were built for the polygons in use, solve accesses no element out of range and fails no assertion, in every state reached by solve, setMove, new references and new CoM states, whatever the QP solver returns.", "quantifier": "every reachable generator, every number of samples and configuration, every solver, every sequence of calls of a walk", "why_tests_cant": "absence of faults in all runs, for all states, polygons, horizons and answers of the solver", "anchors": ["src/humanoid_walkgen.cpp::solve", "src/humanoid_walkgen.cpp::computeConstantPart", "src/humanoid_feet_supervisor.cpp::updateTimeline", "src/function/humanoid_cop_constraint.cpp::getFunction", "src/function/humanoid_foot_constraint.cpp::getFunction", "src/model/lip_model.cpp::setFeedbackPeriod"]}
{"id": "C69", "title": "Translation invariance of HumanoidWalkgen", "statement": "Two humanoid generators that agree except that the CoM, the feet and the planned footsteps of the second are those of the first moved by (a,b), and that are given the same calls (positions moved), return the same values, give the solver the same QP and remain equal up to the move.", "quantifier": "every pair of reachable generators that agree up to the move, all moves, every solver, every sequence of calls of a walk", "why_tests_cant": "equality of two runs for all settings, states, moves, solvers and sequences of calls", "anchors": ["src/humanoid_walkgen.cpp::solve", "src/humanoid_walkgen.cpp::setNbSamples", "src/humanoid_feet_supervisor.cpp::updateTimeline", "src/humanoid_feet_supervisor.cpp::updateFeetStates", "src/function/humanoid_cop_constraint.cpp::getFunction", "src/function/humanoid_foot_constraint.cpp::getFunction", "src/function/humanoid_lip_com_velocity_tracking_objective.cpp::getGradient"]}
{"id": "C70", "title": "Limits between the samples", "statement": "The velocity, acceleration and jerk limits of TrajectoryWalkgen and of the base of ZebulonWalkgen are respected not only at the samples of the plan but at every time of the motion, also of the motion executed with a feedback period shorter than the sampling period.", "quantifier": "every reachable generator, every feasible answer of the solver, every sequence of feedback periods, every time between two samples or calls", "why_tests_cant": "continuum of times and of states, all sequences of feedback periods", "anchors": ["src/trajectory_walkgen.cpp::solve", "src/function/trajectory_motion_constraint.cpp::getFunctionInf", "src/function/trajectory_motion_constraint.cpp::getFunctionSup", "src/zebulon_walkgen.cpp::solve", "src/function/zebulon_base_motion_constraint.cpp::getFunctionInf", "src/function/zebulon_base_motion_constraint.cpp::getFunctionSup"]}
{"id": "C71", "title": "CoP of the robot supported by the feet", "statement": "When HumanoidWalkgen runs with the CoP constraint and feasible answers of the solver, the CoP of the robot (computed from the state of the CoM after solve) is in the CoP polygon of the support foot, placed where this foot is, or in the hull of both polygons in double support: at the sampling instants and at all times in between.", "quantifier": "every history of a generator on a grid of times, every feasible answer of the solver, every time between two samples", "why_tests_cant": "all histories and solver answers, continuum of times; the tests check neither the CoP nor the feet after solve", "anchors": ["src/humanoid_walkgen.cpp::solve", "src/humanoid_walkgen.cpp::convertCopInLFtoComJerk", "src/humanoid_feet_supervisor.cpp::updateTimeline", "src/humanoid_feet_supervisor.cpp::updateFeetStates", "src/function/humanoid_cop_constraint.cpp::getFunction", "src/function/humanoid_cop_constraint.cpp::getSupBounds"]}
{"id": "C72", "title": "Configuration of HumanoidWalkgen", "statement": "Configuration calls made before walking, in any order and any number, leave HumanoidWalkgen with the last value given for every parameter, the same in its LIP model and in its feet supervisor, with consistent sizes, standing still in its initial double support with an empty plan; a call is accepted exactly when its value is valid for the current settings; the durations stay consistent (step period not below the sampling period, no negative double support); only the last values matter.", "quantifier": "every sequence of configuration calls on a new generator", "why_tests_cant": "all sequences, orders and values of the setters; the tests use one order", "anchors": ["src/humanoid_walkgen.cpp::setNbSamples", "src/humanoid_walkgen.cpp::setSamplingPeriod", "src/humanoid_walkgen.cpp::setStepPeriod", "src/humanoid_walkgen.cpp::setInitialDoubleSupportLength", "src/humanoid_walkgen.cpp::setVelRefInWorldFrame", "src/humanoid_walkgen.cpp::setWeightings", "src/humanoid_walkgen.cpp::setConfig", "src/humanoid_walkgen.cpp::computeConstantPart", "src/humanoid_feet_supervisor.cpp::setInitialDoubleSupportLength", "src/model/lip_model.cpp::setSamplingPeriod"]}
{"id": "C73", "title": "The humanoid plan is consistent between successive control cycles", "statement": "Between two successive control cycles of HumanoidWalkgen, the previewed phases, footsteps and samples are the same inside of a sampling interval and are shifted by one sample at its end; keeping the plan is keeping the motion (same jerks, same CoM states at the samples); a plan that is feasible in a cycle is feasible in the next one inside of a sampling interval.", "quantifier": "every reachable walking state, every answer of the solver, every feedback period of the grid", "why_tests_cant": "relates two successive QPs for all states, plans and solver answers; no test compares successive QPs", "anchors": ["src/humanoid_walkgen.cpp::solve", "src/humanoid_walkgen.cpp::convertCopInLFtoComJerk", "src/humanoid_feet_supervisor.cpp::updateTimeline", "src/humanoid_feet_supervisor.cpp::updateFeetStates", "src/humanoid_feet_supervisor.cpp::getNbOfCallsBeforeNextSample"]}
{"id": "C74", "title": "The flying foot stays between its start, its targets and its maximal height", "statement": "While a foot flies, replanned in every control cycle, its horizontal position stays between its start and the footsteps given by the solver, and its height stays between the ground and its maximal height; a foot that does not fly is on the ground.", "quantifier": "every history of control cycles, every sequence of footsteps given by the solver, every cutting of the flight into control periods", "why_tests_cant": "the interpolation is replanned in every cycle, so the bound is an invariant over unbounded histories of targets and periods; tests check single interpolations", "anchors": ["src/humanoid_feet_supervisor.cpp::updateFeetStates", "src/model/humanoid_foot_model.cpp::interpolateTrajectory", "src/interpolator.cpp::computePolynomialNormalisedFactors", "src/interpolator.cpp::selectFactors"]}
{"id": "C75", "title": "Consistency of successive horizons of ZebulonWalkgen", "statement": "After solve with the sampling period CoM and base are at the first sample of the plan, and the rest of the plan (the four blocks of jerks moved up by one sample) goes through the remaining samples from there and meets the constraints if the plan did.", "quantifier": "every history of calls, every solver answer, every sample", "why_tests_cant": "all plans and states; the tests compare single solves with stored values", "anchors": ["src/zebulon_walkgen.cpp::solve", "src/model/lip_model.cpp::updateStateX", "src/model/zebulon_base_model.cpp::updateStateX"]}
{"id": "C76", "title": "The Zebulon robot itself respects the enabled constraints", "statement": "After solve with the sampling period and a feasible answer of the solver, in the actual state of the robot the CoM and the CoP relative to the base are in their polygons, the base is within its velocity and acceleration limits, and CoM and base move along the heading, for every constraint in use.", "quantifier": "every history of calls, every feasible answer, every combination of constraints", "why_tests_cant": "the tests do not compute the CoP of the robot after solve; all states and answers", "anchors": ["src/zebulon_walkgen.cpp::solve", "src/function/zebulon_cop_constraint.cpp::computeConstantPart", "src/function/zebulon_com_constraint.cpp::computeConstantPart", "src/function/zebulon_base_motion_constraint.cpp::computeConstantPart"]}
{"id": "C77", "title": "Recursive feasibility of the base motion of ZebulonWalkgen", "statement": "If the base is within its limits, the QP with the base constraint is feasible, and stays feasible while the references and weightings change, as long as the solver returns feasible points and solve is called with the sampling period.", "quantifier": "every history of calls, every solver that finds feasible points, any number of later calls", "why_tests_cant": "an invariant of infinitely long runs; the violation needs the optimum of a particular sequence", "anchors": ["src/zebulon_walkgen.cpp::solve", "src/function/zebulon_base_motion_constraint.cpp::computeConstantPart"]}
{"id": "C78", "title": "The motion does not depend on which QP solver is used", "statement": "A feasible QP of a generator has a solution. For any two solvers that return a solution whenever there is one, any sequence of calls leads TrajectoryWalkgen and ZebulonWalkgen to the same state, as long as the weighting of the jerks is positive and the QPs met are feasible.", "quantifier": "every history of calls, every pair of solvers that find solutions, any sequence of later calls", "why_tests_cant": "quantifies over all solvers and all histories; the tests run one solver on a few problems", "anchors": ["src/trajectory_walkgen.cpp::solve", "src/zebulon_walkgen.cpp::solve", "qpsolver/src/qpsolver_qpoases.hxx::solve"]}
{"id": "C79", "title": "The whole plan of HumanoidWalkgen is determined by its QP", "statement": "With usual sampling periods and CoM heights, CoP centering and one of velocity tracking and jerk minimization in use, and every previewed footstep supporting a sample, the humanoid QP has at most one solution, footsteps included; so any two solvers that find solutions lead to the same walk. On a grid of times every previewed footstep supports a sample.", "quantifier": "every history of calls, every pair of solvers that find solutions, any sequence of later calls", "why_tests_cant": "quantifies over all directions of all QPs, all solvers and all histories", "anchors": ["src/humanoid_walkgen.cpp::solve", "src/humanoid_feet_supervisor.cpp::computeSelectionMatrix", "src/function/humanoid_lip_com_velocity_tracking_objective.cpp::getHessian"]}
{"id": "C80", "title": "The motion of TrajectoryWalkgen converges to its references", "statement": "When solve is called again and again with constant references and without limits, with a solver that finds solutions, the state converges to the references. (True when only the velocity is tracked, for every horizon, sampling period, positive weightings and feedback period up to the sampling period; false when only the position is tracked: with one sample, period 1 s and jerk weighting 1/162 the error doubles at each call.)", "quantifier": "every horizon, sampling period, weightings, feedback period, history of calls, solver; infinitely many calls", "why_tests_cant": "a limit of infinitely many calls, for all settings", "anchors": ["src/trajectory_walkgen.cpp::solve", "src/tools.cpp::updateState"]}
{"id": "C81", "title": "The example programs run to their end", "statement": "trajectory-walkgen-bin and zebulon-walkgen-bin end without fault and write one row for each turn of their loop, whatever the QP solver answers; the states of each row follow from those of the row before; the simulated tilt is zero before the push, zero or at most -0.01 rad after it, and stays zero once the base has touched the ground. setBaseCopHull and setBaseComHull set the convex hull of their points. (False for trajectory-walkgen-bin without argument, for a single point, and if the uninitialised contact point must not be read.)", "quantifier": "every answer of the solver, every rounding of the times and literals, every list of points", "why_tests_cant": "the programs are run by hand and nothing checks their output; all answers of the solver are covered", "anchors": ["test/trajectory-walkgen-bin.cpp::main", "test/zebulon-walkgen-bin.cpp::updatePsi", "src/zebulon_walkgen.cpp::setBaseCopHull", "src/zebulon_walkgen.cpp::setBaseComHull"]}
{"id": "C82", "title": "The support state is that of the foot on which the robot stands", "statement": "getSupportFootStateX and getSupportFootStateY give position, velocity and acceleration of the support foot in single support, of the left foot in double support while walking, and of the middle of the feet while standing. After updateTimeline a robot that stands previews no footstep. The foot constraint, which reads both references in one expression although they may be the same one, does not depend on the order in which C++ evaluates that expression.", "quantifier": "every state of the supervisor, LIP model and vector, both orders of evaluation", "why_tests_cant": "a compiler uses one order of evaluation, and no test reads velocity or acceleration of the support", "anchors": ["src/humanoid_feet_supervisor.cpp::getSupportFootStateX", "src/humanoid_feet_supervisor.cpp::getSupportFootStateY", "src/humanoid_feet_supervisor.cpp::updateTimeline", "src/function/humanoid_foot_constraint.cpp::computeGeneralConstraintsMatrices"]}
{"id": "C83", "title": "In float and double the supervisor walks as with exact times", "statement": "When the timers of the feet supervisor are rounded after each operation and all periods are multiples of the control period, phases, number of footsteps, assignment of samples to footsteps, number of calls before the next sample and the cycles in which a foot is lifted, moved and lowered are those of exact arithmetic during the whole history, and no cycle faults, provided that the rounding errors of one phase add up to less than EPSILON. For float and double this is an inequality on the number of control periods per phase. A phase of 5 s with control periods of 1 ms and float violates it and lasts one cycle too long.", "quantifier": "every rounding with small absolute error, number of samples, periods, history of walking requests, answers of both solvers; every precision p", "why_tests_cant": "a test runs a few seconds with one precision and compares with a tolerance; that comparisons with EPSILON never change needs all accumulated errors", "anchors": ["src/humanoid_feet_supervisor.cpp::updateTimeline", "src/humanoid_feet_supervisor.cpp::updateFeetStates", "src/humanoid_feet_supervisor.cpp::getNbOfCallsBeforeNextSample", "src/humanoid_feet_supervisor.cpp::computeSelectionMatrix", "mpc-walkgen/constant.h::EPSILON"]}
{"id": "C84", "title": "In float and double the predictions are those of the right instant", "statement": "In every control cycle the number of calls before the next sample, computed with rounded times, is the number of control periods that are left until the next sample, it is between one and the number of dynamics in the tables of the LIP model, and the table entry used by the objectives of HumanoidWalkgen and by the conversion to jerks is the one of that instant. When the timer of a phase drifts by EPSILON the number is zero and the entry -1 is read.", "quantifier": "every rounding with small absolute error, number of samples, periods, history of walking requests, answers of both solvers; the violation is a run of 5000 cycles in IEEE single precision", "why_tests_cant": "the tests run for short phases; the wrong index appears after thousands of cycles of one phase in single precision only", "anchors": ["src/humanoid_feet_supervisor.cpp::getNbOfCallsBeforeNextSample", "src/model/lip_model.cpp::computeDynamics", "src/function/humanoid_lip_com_velocity_tracking_objective.cpp::getGradient", "src/humanoid_walkgen.cpp::convertCopInLFtoComJerk"]}
{"id": "C85", "title": "With rounded timers a foot still lands on its footstep", "statement": "In the last control cycle of a single support the supervisor whose timers are rounded moves the flying foot to the footstep given by the solver and to height zero up to an error that is cubic in the relative error of the clock, which is at most three times the rounding errors of one phase over the control period; the velocity is quadratic and the acceleration linear in it. Without rounding the foot lands on its footstep at rest.", "quantifier": "every rounding with small absolute error (float and double with explicit bounds), number of samples, periods, history of walking requests, answers of both solvers", "why_tests_cant": "tests compare positions with a tolerance for one set of periods; the order of the error needs the algebra of the third polynomial and an invariant on the timers", "anchors": ["src/humanoid_feet_supervisor.cpp::updateFeetStates", "src/model/humanoid_foot_model.cpp::interpolateTrajectory", "src/interpolator.cpp::computePolynomialNormalisedFactors"]}
{"id": "C86", "title": "The motion of TrajectoryWalkgen does not depend on the units", "statement": "Let the same calls be given to two generators, to the second one in other units of length, time and cost, from another origin and possibly with the axis reversed: references, limits, state, periods and weightings are converted according to their dimensions. If the motion constraints are on, the weighting of the jerks is positive and both solvers return solutions, then after every call the state and the jerks of the second generator are those of the first one, converted.", "quantifier": "every unit of length (also negative), time and cost, every origin, number of samples, periods, weightings, limits, references, history of calls, solvers", "why_tests_cant": "the tests use one set of numbers; independence from units for every history needs the transformation of the whole optimisation problem and uniqueness of its solution", "anchors": ["src/trajectory_walkgen.cpp::solve", "src/function/trajectory_motion_constraint.cpp::computeFunction", "src/function/trajectory_position_tracking_objective.cpp::getGradient", "src/function/trajectory_velocity_tracking_objective.cpp::getGradient", "src/tools.cpp::updateState"]}
{"id": "C87", "title": "The motion of ZebulonWalkgen converges to its references", "statement": "When solve is called again and again with constant references and without constraints, with a solver that finds solutions, the quantities that are tracked converge to their references. (True when only base velocity and jerks are weighted, for every horizon, sampling period, positive weightings and feedback period up to the sampling period: both base velocities tend to their references. False when only CoM centering and jerks are weighted: with one sample, period 1 s and jerk weighting 1/81 the distance between CoM and base doubles at each call.)", "quantifier": "every horizon, sampling period, weightings, feedback period, history of calls, solver; infinitely many calls", "why_tests_cant": "a limit of infinitely many calls, for all settings", "anchors": ["src/zebulon_walkgen.cpp::solve", "src/function/zebulon_base_velocity_tracking_objective.cpp::getGradient", "src/function/zebulon_com_centering_objective.cpp::getGradient", "src/tools.cpp::updateState"]}
{"id": "C88", "title": "In float and double, the state update is the exact motion up to explicit rounding errors", "statement": "If every operation of updateState is rounded with relative error at most u (2^-24 for float, 2^-53 for double), each component of the new state is within 8u times the sum of the absolute values of its terms from the exact motion under constant jerk; after n updates with the same jerks the errors are at most 8u n A (acceleration), 8u(n V + n^2/2 T A) (velocity) and 8u(n P + n^2/2 T V + n^3/6 T^2 A) (position), with P, V, A bounds on these sums. In float, a body whose way in one period is at most 0.49 of the last bit of its position never moves.", "quantifier": "every rounding with relative error u, state, period, sequence of jerks, number of updates; every float position and velocity (stuck)", "why_tests_cant": "a bound for all states and any number of updates; tests compare a few values with a tolerance", "anchors": ["src/tools.cpp::updateState", "src/model/lip_model.cpp::updateStateX", "src/model/zebulon_base_model.cpp::updateStateX"]}
{"id": "C89", "title": "ZebulonWalkgen treats its x and y axes alike", "statement": "If states, polygons, references, gravity and contact offsets of one robot are those of another after a quarter turn or a reflection (including the exchange of x and y), then after any list of calls turned alike, with solvers that find solutions, its state and jerks are still those of the other robot after the same turn; and a QP is solvable if the other one is.", "quantifier": "every symmetry of the square, settings, history of calls, further list of calls, state, horizon, solver", "why_tests_cant": "relates two executions, for all settings and lists of calls; a copy-and-paste error between the x and y formulas shows only for particular settings", "anchors": ["src/zebulon_walkgen.cpp::solve", "src/function/zebulon_cop_constraint.cpp::getFunction", "src/function/zebulon_tilt_minimization_objective.cpp::getGradient", "src/function/zebulon_base_motion_constraint.cpp::getFunctionInf", "src/model/zebulon_base_model.cpp::updateStateY"]}
{"id": "C90", "title": "The CoM of a standing robot returns above its feet", "statement": "While HumanoidWalkgen is called once per sampling period and both feet stay on the ground, a CoM that was pushed away from the point midway between the feet returns to it, and its velocity and acceleration to zero.", "quantifier": "every weighting, sampling period, height and initial state of the CoM, any number of calls of solve, every solver that finds solutions", "why_tests_cant": "asymptotic behaviour of the loop generator-robot; a test sees a finite number of cycles for particular weights, and a slow divergence looks like a correct motion", "anchors": ["src/humanoid_walkgen.cpp::solve", "src/function/humanoid_cop_centering_objective.cpp::getGradient", "src/function/humanoid_lip_com_velocity_tracking_objective.cpp::getGradient"]}
{"id": "C91", "title": "Without motion constraints the motion of TrajectoryWalkgen is linear in the states and references", "statement": "When the same calls are made to three TrajectoryWalkgen objects without motion constraints, except that the states and references given to the third one are a times those given to the first plus b times those given to the second, the state and the planned jerks of the third one are always a times those of the first plus b times those of the second.", "quantifier": "every a and b, every sequence of calls, any horizon, period and weighting of the jerks above zero, every solver that finds solutions", "why_tests_cant": "relates three runs for all factors and all sequences of calls; hidden state (warm start, stale references) or a missing term of a gradient breaks it only for particular histories", "anchors": ["src/trajectory_walkgen.cpp::solve", "src/function/trajectory_velocity_tracking_objective.cpp::getGradient", "src/function/trajectory_position_tracking_objective.cpp::getGradient"]}
{"id": "C92", "title": "With one sample, TrajectoryWalkgen settles at a position reference exactly when its weights are balanced", "statement": "TrajectoryWalkgen with one sample of T seconds, a constant position reference and a velocity reference of zero, called once per sampling period: the reference is an asymptotically stable rest position if and only if wp T^6/36 < 4 wj and 3 (wp T^6/36) wj < (wv T^4/4) (wp T^6/36 + wv T^4/4). In particular it never is when only the position is tracked (wv = 0).", "quantifier": "every sampling period T > 0, position reference, weights wp > 0, wv >= 0, wj > 0, any calls before, any number of calls of solve, every solver that finds solutions", "why_tests_cant": "an equivalence over all weights about the limit of an unbounded loop; a slowly growing oscillation looks like convergence in a test of finite length", "anchors": ["src/trajectory_walkgen.cpp::solve", "src/function/trajectory_position_tracking_objective.cpp::getGradient", "src/function/trajectory_velocity_tracking_objective.cpp::getGradient"]}
{"id": "C93", "title": "With one sample, a standing robot returns above its feet after small pushes exactly when its weights are balanced", "statement": "HumanoidWalkgen with one sample of T seconds, standing on both feet, without CoP constraint or with room around the middle of the feet inside it, with l = height/g and U = T^3/6 - T l: the middle of the feet is an asymptotically stable rest position of the CoM if and only if U > 0, wc U (T^3 - 4 U) < 8 C and wc U C T^3 < 2 A (wc U^2 + A), where A = (wv/20) T^4/4 and C = wj/20. In particular the sampling period must satisfy 6 height < g T^2 and the velocity must have a weight.", "quantifier": "every sampling period between 20 EPSILON and 10 s, height up to 1000 m, weights wc > 0, wv >= 0, wj > 0, any calls before, any position of the feet, any CoP polygon with room around the middle of the feet or no CoP constraint, any number of calls of solve, every solver that finds solutions", "why_tests_cant": "an equivalence over all weights about the limit of an unbounded loop; a slow divergence looks like standing still in a test of finite length", "anchors": ["src/humanoid_walkgen.cpp::solve", "src/function/humanoid_cop_centering_objective.cpp::getGradient", "src/function/humanoid_lip_com_velocity_tracking_objective.cpp::getGradient"]}
{"id": "C94", "title": "How often solve must be called for TrajectoryWalkgen with one sample to settle at a position reference", "statement": "TrajectoryWalkgen with one sample of T seconds, a constant position reference and a velocity reference of zero, called every fb seconds: with X = wp T^6/36, Y = wv T^4/4, D = X + Y + wj and s = fb/T, the reference is an asymptotically stable rest position if and only if 3 X s < 6 X + 2 Y, 2 (3 X + 2 Y) s < 4 D + X s^3 and 3 X D < (3 X + Y) (3 X + 2 Y - (3 X + Y) s + X s^2). Below the sampling period, calling solve more often never destroys stability; calls rarer than 2 T + 6 wv/(wp T) always do.", "quantifier": "every sampling period T > 0 and period of the calls fb > 0, position reference, weights wp > 0, wv >= 0, wj > 0, any calls before, any number of calls of solve, every solver that finds solutions", "why_tests_cant": "an equivalence over all weights and both periods about the limit of an unbounded loop; monotony in the period cannot be sampled", "anchors": ["src/trajectory_walkgen.cpp::solve", "src/function/trajectory_position_tracking_objective.cpp::getGradient", "src/function/trajectory_velocity_tracking_objective.cpp::getGradient"]}
{"id": "C95", "title": "When ZebulonWalkgen with one sample settles at a base position or with the CoM above the base", "statement": "ZebulonWalkgen with one sample of T seconds, called every fb seconds. Without constraints or with positive limits of the base, and with base velocity (reference 0), base position and jerks weighted by wv, wp, wj, the base has its position reference as asymptotically stable rest position if and only if the weights (wv, wp, wj) are balanced for fb and T in the sense of C94. Without constraints or with a CoM constraint that leaves room around the reference, and with CoM centering and jerks weighted by wc, wj, the CoM has its reference above the base as asymptotically stable rest position if and only if (0, wc, wj/2) are balanced. With one call per sampling period CoM centering is therefore unstable for every wc, wj and T; it is stable for all fast enough calls if and only if wj/2 < 2 wc T^6/36.", "quantifier": "every sampling period, period of the calls fb > 0, reference, positive weights, settings reached by any legal calls, gravity shift, limits, CoM polygon, contents of memory, any calls before, any number of calls of solve, every solver that finds solutions", "why_tests_cant": "an equivalence over all weights and both periods about the limit of an unbounded loop", "anchors": ["src/zebulon_walkgen.cpp::solve", "src/function/zebulon_com_centering_objective.cpp::getGradient", "src/function/zebulon_base_position_tracking_objective.cpp::getGradient", "src/function/zebulon_base_velocity_tracking_objective.cpp::getGradient"]}
{"id": "C96", "title": "How rarely solve may be called for a robot to settle at a velocity reference", "statement": "TrajectoryWalkgen without limits and the base of ZebulonWalkgen without constraints or with limits of the base beyond the reference, velocity and jerks weighted by wv, wj > 0. For every number of samples, sampling period T and weights there is a period F > T such that the constant velocity reference is asymptotically stable under solve(fb), called again and again, if and only if fb < F. With one sample F is the smaller one of 2 T and T + 4 wj / (wv T^3) (TrajectoryWalkgen).", "quantifier": "every horizon, sampling period, period of the calls fb > 0, velocity reference, positive weights, settings reached by any legal calls, any calls before, any number of calls of solve, every solver that finds solutions", "why_tests_cant": "an equivalence over all horizons, weights and both periods about the limit of an unbounded loop", "anchors": ["src/trajectory_walkgen.cpp::solve", "src/function/trajectory_velocity_tracking_objective.cpp::getGradient", "src/zebulon_walkgen.cpp::solve", "src/function/zebulon_base_velocity_tracking_objective.cpp::getGradient"]}
{"id": "C97", "title": "Limits that leave room do not change where TrajectoryWalkgen settles", "statement": "TrajectoryWalkgen with a positive jerk weight and positive limits, any horizon and period of the calls. It settles (is asymptotically stable) at a position reference with the limits enabled if and only if it does without them. The same holds for a velocity reference below the velocity limit. It never settles at a velocity reference beyond the velocity limit. Both hold for the velocity of the base of ZebulonWalkgen, the first when it tracks only this velocity. In particular the longest period of the calls of C96 and the balance of the weights of C94 do not depend on the limits.", "quantifier": "every horizon, sampling period, weights, limits, period of the calls fb > 0, reference, settings reached by any calls, any calls before, any number of calls of solve, every solver that finds solutions", "why_tests_cant": "an equivalence of two limits of unbounded loops over all horizons, weights and limits", "anchors": ["src/trajectory_walkgen.cpp::solve", "src/function/trajectory_motion_constraint.cpp::computeFunction", "src/function/trajectory_velocity_tracking_objective.cpp::getGradient"]}
{"id": "C98", "title": "A CoM constraint that leaves room does not change where the CoM of ZebulonWalkgen settles", "statement": "ZebulonWalkgen with CoM centering. If the CoM polygon leaves room around the CoM reference, the CoM has this reference above the base as asymptotically stable rest position with the CoM constraint enabled if and only if it has without the constraint.", "quantifier": "every polygon, reference with room around it, weights, sampling period, period of the calls fb > 0, settings reached by any legal calls, any calls before, any number of calls of solve, every solver that finds solutions", "why_tests_cant": "an equivalence of two limits of unbounded loops over all polygons, weights and periods", "anchors": ["src/zebulon_walkgen.cpp::solve", "src/function/zebulon_com_constraint.cpp::computeConstantPart", "src/function/zebulon_com_centering_objective.cpp::getGradient"]}
{"id": "C99", "title": "With the heading constraint ZebulonWalkgen keeps the robot on the line of its heading", "statement": "ZebulonWalkgen with the tilt motion constraint, which keeps velocities along the heading. A robot whose CoM and base have no velocity and acceleration across the heading, and no planned jerks across it, keeps this and its position across the heading forever, for any sequence of positive feedback periods. With this constraint no position is therefore an asymptotically stable rest position of the base, whatever the weights, the horizon and the other constraints.", "quantifier": "every horizon, weights, references, heading, state, settings reached by any legal calls, any number of calls of solve with any positive periods, every solver that finds feasible points (C99_line) or solutions (C99_never)", "why_tests_cant": "an invariant of unbounded loops over all weights, horizons, headings and sequences of periods", "anchors": ["src/zebulon_walkgen.cpp::solve", "src/function/zebulon_tilt_motion_constraint.cpp::computeConstantPart", "src/function/zebulon_tilt_motion_constraint.cpp::getFunction"]}
{"id": "C100", "title": "TrajectoryWalkgen does the same in a frame that moves at a constant velocity", "statement": "TrajectoryWalkgen without motion constraints. Two generators with the same settings and planned jerks, whose states differ by a distance and a constant velocity u, are given before each solve references that differ by the same velocity and by the distance that grows with it (at sample i by u times the time of that sample). Then all calls succeed, and forever the planned jerks are the same and the states differ by u and by the distance u times the elapsed time plus the initial one.", "quantifier": "every horizon, period, weights with a positive jerk weight, velocity u, distance, any histories before, any number of calls of solve with any positive feedback periods and any references, any two solvers that find solutions", "why_tests_cant": "an equivalence of unbounded executions for all velocities, references, horizons and solvers", "anchors": ["src/trajectory_walkgen.cpp::solve", "src/function/trajectory_velocity_tracking_objective.cpp::getGradient", "src/function/trajectory_position_tracking_objective.cpp::getGradient"]}
{"id": "C101", "title": "ZebulonWalkgen does the same in a frame that moves at a constant velocity", "statement": "ZebulonWalkgen without the base motion constraint. Two generators with the same settings and planned jerks, whose CoM and base differ by a distance and a constant velocity u (along the heading if the tilt motion constraint is on), are given before each solve base references that differ by the same velocity and by the distance that grows with it. Then their QPs have the same feasible points and solutions, all calls succeed, and forever the planned jerks are the same and the states differ by u and by the distance u times the elapsed time plus the initial one.", "quantifier": "every horizon, period above EPS, masses, heights, gravity, polygons, weights with a positive jerk weight, velocity u, distance, any histories before, any number of calls of solve with any positive feedback periods and any references, any two solvers that find solutions", "why_tests_cant": "an equivalence of unbounded executions for all velocities, references, settings, horizons and solvers", "anchors": ["src/zebulon_walkgen.cpp::solve", "src/function/zebulon_cop_constraint.cpp::getFunction", "src/function/zebulon_com_constraint.cpp::getFunction", "src/function/zebulon_tilt_motion_constraint.cpp::getFunction"]}
{"id": "C102", "title": "Without constraints, the motion of ZebulonWalkgen is affine in the states and in the references of the base", "statement": "ZebulonWalkgen without constraints and with a positive jerk weight. Three generators have the same settings, and the CoM, base and planned jerks of the third one are a times those of the first one plus b times those of the second one, where a + b = 1. Before each solve they are given base references combined in the same way. If the jerks of the first two generators stay away from the bounds that the code sets, then all calls succeed, and forever the planned jerks, CoM and base of the third generator are a times those of the first one plus b times those of the second one.", "quantifier": "every horizon, period, masses, heights, gravity, all seven weights with a positive jerk weight, coefficients a and b with sum one (also negative), states, any histories before, any number of calls of solve with any positive feedback periods and any references, any three solvers that find solutions", "why_tests_cant": "a relation between three unbounded executions for all states, references, coefficients, settings, horizons and solvers", "anchors": ["src/zebulon_walkgen.cpp::solve", "src/function/zebulon_tilt_minimization_objective.cpp::getGradient", "src/function/zebulon_cop_centering_objective.cpp::getGradient", "src/function/zebulon_base_velocity_tracking_objective.cpp::getGradient"]}
{"id": "C103", "title": "The plans that ZebulonWalkgen allows, and their least cost, are convex in the states and in the references of the base", "statement": "Three generators of ZebulonWalkgen with the same settings and any constraints, where the states, planned jerks and base references of the third one are a mean, with weights a and b, of those of the first two. The same mean of feasible points of the first two QPs is feasible for the third QP, and a solution of the third QP does not cost more, in the documented cost, than the mean of the costs of any feasible plans of the first two.", "quantifier": "every history, horizon, period, masses, heights, gravity, weights, polygons, motion limits and constraint switches, all weights a and b that are not negative with sum one, states, references, feasible points", "why_tests_cant": "an inequality between the optima of three problems for all states, references, settings, horizons and constraints; a test compares single plans", "anchors": ["src/zebulon_walkgen.cpp::solve", "src/function/zebulon_cop_constraint.cpp::getFunction", "src/function/zebulon_com_constraint.cpp::getFunction", "src/function/zebulon_base_motion_constraint.cpp::getFunctionInf"]}
{"id": "C104", "title": "The plans that TrajectoryWalkgen allows, and their least cost, are convex in states, references and limits", "statement": "Three generators of TrajectoryWalkgen with motion constraints, the same horizon, period and weights, where state and references of the third one are a mean of those of the first two and its limits are at least the mean of theirs. The same mean of plans that the first two QPs allow is allowed by the third QP. If the first two generators can stay within their limits, then solve of the third one succeeds, keeps it within its limits, and its plan does not cost more than the mean of the costs of any allowed plans of the first two.", "quantifier": "every history, horizon, period, weighting, limits, references, states, all weights of the mean that are not negative with sum one, every solver that finds solutions", "why_tests_cant": "an inequality between the optima of three problems for all states, references, limits and horizons; a test compares single plans", "anchors": ["src/trajectory_walkgen.cpp::solve", "src/function/trajectory_motion_constraint.cpp::getFunctionInf", "src/function/trajectory_velocity_tracking_objective.cpp::getGradient"]}
