# Formal model of mpc-walkgen: design

Source: `/repo` (aldebaran/mpc-walkgen, C++ templates over `Scalar`), read as text only.
Model and proofs: `/verif/lean` (Lean 4.33 + Mathlib modules). Properties: `properties.jsonl`;
theorem names per property: `MANIFEST.json`; seeded-bug experiments: `seeded/LOG.jsonl`.

## Modelling conventions

* **Scalars.** The C++ code is a template over `float`/`double`. The model is generic over a
  linearly ordered field `K` (exact arithmetic); `ℝ` is used where square roots, `acos`,
  `sin`, `cos` are needed and `ℚ` for concrete, computed examples. Floating-point rounding is
  modelled for the timers of the feet supervisor only (C83); elsewhere rounding, and overflow,
  infinities and NaN, are **not** modelled (the `x==x` NaN asserts are vacuous in the model). `EPSILON = 1/10000`, `MAXIMUM_BOUND_VALUE = 10e10`, as in `constant.h`.
* **Eigen objects.** `Vec`/`Mat` (module `Verif.Eigen`) carry a runtime size and an entry
  function. Checked operations live in `Except Fault`: a size mismatch, an index out of
  range, a failed `assert`, a read of uninitialised memory, `abort()` or a non terminating
  loop are distinct `Fault` outcomes. Thus the model has debug (assert enabled) semantics;
  a fault is "undefined or aborting" in C++.
* **External solver.** qpOASES is an oracle: an arbitrary function from the data it is given
  to (return code, primal point). Theorems about "after solve" assume only what is said in
  the theorem (e.g. the point is feasible).
* **LU inverse.** `FullPivLU::inverse()` is modelled as the exact matrix inverse followed by
  the thresholding loop of `Tools::inverseLU`.

## Trusted base

* Lean's kernel and the standard axioms `propext`, `Classical.choice`, `Quot.sound`
  (checked with `#print axioms`, see the end of this file). No own axioms, no `sorry`, no
  `native_decide`/`bv_decide`.
* The hand translation from C++ to Lean. Every definition cites file and lines.
* Not modelled: floating point, memory allocation, `display`/stream output, the numeric
  content of qpOASES, boost::circular_buffer internals (modelled as a list), the yaw limits of
  the feet (stored but unused by the code), rotation matrices other than the identity
  actually produced by `computeRotationMatrix`.

## Layout of the Lean project

| directory | content |
|-----------|---------|
| `Verif/Eigen.lean`, `Verif/Loop.lean` | faults, runtime-sized vectors and matrices, checked operations, bounded `while` |
| `Verif/Model/*` | the translation of the C++ functions; every definition cites its file and lines |
| `Verif/Spec/*` | what the properties mean, written without the helpers of the model (motion by iterating the exact cubic, membership in polygons, cost of a plan, feasible set, walking rules) |
| `Verif/Lemmas/*` | helper lemmas |
| `Verif/Props/*` | only the property theorems, their witnesses and the `example`s that show that the hypotheses can be met |
| `Verif/Tests/*` | the unit tests of `/repo/test`, replayed in the model (tests, not proofs) |

A C++ `while` loop means its result for the smallest sufficient number of iterations, or the fault
`nonTermination` when no number is sufficient (`whileSpec`, `Verif/Loop.lean`). `whileLoop` is equal to it
(`whileLoop_eq`) and tries 1000 iterations first, only so that concrete examples can be evaluated. There is no
bound on the number of iterations.

Assertions are enabled. A theorem of the form "if the call returns `ok` then …" therefore says nothing
about a release build in which a failed assertion is ignored; theorems named `no_fault` say that no
assertion fails.

## Per property

"Histories" are arbitrary finite sequences of calls of the public interface starting from the constructor;
the solver is an arbitrary function. Histories of the humanoid (`HumHistory`) may also use another solver in each
call, and replace the table of QP solvers by an arbitrary one at any time: with the library's own table no call of
the solver succeeds for two or more samples (C42), so theorems about that table alone would say little.

| id | model and method | result |
|----|------------------|--------|
| C01-C05 | `Model/Dynamics` against `Spec/Motion` (iterated exact integration); closed form of the iterated state by induction on the sample | proved for all periods, horizons, states, inputs |
| C06 | `updateState`; algebra, induction on the number of pieces, derivatives over the reals | proved |
| C07 | bidiagonal inverse; entrywise sums | **violated** for every S different from T and N>=2 (`C07_acc_inverse_wrong`); true for S = T |
| C08 | all seven dynamics | proved |
| C09 | exact inverse then threshold | **violated**: entries below EPSILON are erased, and a CoP matrix can be singular; existence and error bound proved |
| C10-C12 | `Model/Interpolator`; algebra over the 9x9 table, calculus, induction over update histories | proved; zero remaining time is shown to divide by zero |
| C13, C14 | `Model/QP`; fold invariant | proved |
| C15 | wrapper and the three generators | **violated**: without output stream failure is reported as success, and all generators pass none |
| C16 | `Model/Trajectory`; invariant over histories | **violated** after `setNbSamples` without new references (exact condition: `C16_solve_fails_iff`) |
| C17-C21 | same; least squares identity, linearisation, PSD | proved for all reachable states |
| C22, C25 | `Model/Polygon`; fold invariant | proved |
| C23, C24 | `Model/Hull` over the reals (`acos`, norms); Jarvis march invariant | **violated** (repeated first point; one point; far triangle); exact convex hull for separated points |
| C26, C27 | `Model/Supervisor`; loop invariant of `updateTimeline` | proved |
| C28 | same | **violated** when a phase ends exactly EPSILON after a sampling instant; true otherwise |
| C29 | same | **violated** when stopping in the initial double support with previewed steps; true otherwise |
| C30 | same | **violated** for a first footstep added in single support (reference foot); true otherwise |
| C31, C33, C35, C36 | same; per cycle and over histories; liveness for C36 | proved |
| C32 | same with the interpolator | **violated** when the last period exceeds half of the flight; true otherwise |
| C34 | same | **violated** when the feedback period does not divide the durations; true on a grid |
| C37 | same | elapsed time kept; **violated** for the next update (zero double support, longer step) |
| C38 | `Model/Humanoid`; rows and bounds against `Spec/Humanoid` | proved (iff) |
| C39 | same | **violated**: bounds of the second footstep use the old first one; what does hold is proved |
| C40 | same | proved in every reachable state |
| C41 | same | **violated** because of C09 (reachable witness: the CoP does not move); exact when nothing is erased, error bound otherwise |
| C42 | same | **violated**: solvers are appended and not replaced (no solve succeeds after `setNbSamples(n)`, n>=2), polygons set after `setConfig` overrun the table |
| C43 | all generators and models | **violated** for every generator; the exact acceptance conditions are proved |
| C44 | same | **violated** for N=1 and for T<20 EPSILON; true otherwise |
| C45, C48 | `Model/Zebulon` against `Spec/ZebulonQP` | proved in every reachable state |
| C46 | same | **violated**: rows of the polygon have the wrong sign (`C46_reflected`: the reflected CoM/CoP is what is kept inside) |
| C47 | same; equation of motion | **violated**, the equation solved by the code is proved (`C47_code_equation`) |
| C49 | same; invariant over histories | **violated** for the tilt objectives after `setComBaseHeight`; true for all other matrices |
| C50 | gradient and Hessian characterised by the exact second order expansion (`Spec/Expansion`) | proved |
| C51 | `setCopRefInWorldFrame` | **violated** for horizontal gravity (sign); exact error proved |
| C52 | history invariant | **violated** after `setNbSamples`; true otherwise |
| C53 | default constructor of `BaseModel` | **violated**: reads the uninitialised tilt contact point |
| C54 | history invariant | **violated** after `setNbSamples` without new references; exact condition proved |
| C55 | whole control cycle of the supervisor | proved on a grid |
| C56 | `Model/Lip`; history invariant | proved |
| C57 | whole QP of `ZebulonWalkgen` | proved in every reachable state, relative to the tilt prediction of C47 and the rows of C46 |
| C58 | recursive feasibility of `TrajectoryWalkgen` | violated; proved iff the jerk limit can reverse the greatest acceleration in one period |
| C59 | steady motions are left alone | proved for every history and every solver that returns solutions |
| C60 | consistency of successive horizons | proved |
| C61 | translation invariance of `TrajectoryWalkgen` | proved for pairs of histories |
| C62 | convexity of the humanoid QP | proved for sampling periods of at least 20 EPSILON, violated below |
| C63 | feasibility of the humanoid QP | violated for kinematic polygons with edges of both kinds; proved otherwise |
| C64 | refinement: generator to supervisor | proved for every history |
| C65 | rest of the humanoid | proved for a positive CoP centring weighting and periods of at least 20 EPSILON |
| C66 | advance, steady motion and rest of Zebulon | proved; rest and steady motion need a positive jerk weighting |
| C67 | translation invariance of Zebulon | proved, base mass zero or above EPSILON |
| C68 | absence of faults in the humanoid `solve` | building the QP proved for every configuration; calling the solver for every table with solvers of the right size (C42); violated for changes of the period up to EPSILON |
| C69 | translation invariance of the humanoid | proved for setters and for walks on a grid when a step and a sampling period fit in the horizon (any table of solvers, see C42); violated for unsupported samples, for a first footstep added in a single support and by `setNbSamples` with planned footsteps |
| C70 | limits between the samples (Trajectory, Zebulon base) | acceleration: proved at all times; velocity: proved up to `J T²/8` in a plan and up to `J T (T − f)/2` (after calls) or `J (2T − f)²/8` (at all times) in closed loop; the exact velocity limit is violated, the first bound is attained |
| C71 | CoP of the robot supported by the feet | at the samples: proved unless the footstep is moved during the last cycle of the walk (violated then) or coefficients were erased (C41); between the samples: proved up to `T² A/8`, which is attained |
| C72 | configuration of the humanoid refines a record of last values | proved with exact acceptance of every call; yields the start state `Ready` of the walk theorems; violated for the size of the tables and for the consistency of the durations |
| C73 | consistency of the humanoid plan between successive cycles | preview and motion proved; feasibility of the kept plan characterised exactly and violated (footsteps moving apart, end of a walk) |
| C74 | way of the flying foot under replanning | proved up to 3/50 of the way (invariant polytope of the normalised error); exact bounds violated (replanning passes the target, odd flights pass the maximal height) |
| C75 | successive horizons of Zebulon | proved for sampling periods above EPSILON, violated at EPSILON |
| C76 | constraints on the Zebulon robot after `solve` | proved for symmetric polygons, violated for others (optimal solver) |
| C77 | recursive feasibility of the Zebulon base | proved for strong jerk limits (iff), violated for weak ones |
| C78 | existence of solutions of the QPs, independence of the motion from the solver | proved for positive jerk weightings (needed) |
| C79 | the humanoid QP determines CoP and footsteps; independence of the walk from the solver | proved; the two objectives are needed |
| C80 | convergence of the closed loop of `TrajectoryWalkgen`: velocity for all settings; position violated | partial (violated by position tracking with one sample) |
| C81 | the programs `trajectory-walkgen-bin` and `zebulon-walkgen-bin` for every solver; hull setters of `ZebulonWalkgen` | partial (violated without argument, by a single point, by the uninitialised contact point) |
| C82 | state of the support (position, velocity, acceleration); order of evaluation of the shared reference `middleState_` | proved |
| C83 | timers of the supervisor with rounding (`Clock`, `fl p`): same walk as with exact times while the errors of one phase stay below `EPSILON`; conditions for `float` and `double`; drift of a long phase, endless loop for an absurdly long one | proved |
| C84 | index into the tables of the LIP model with rounded times: the entry of the right instant while the errors of one phase stay below `EPSILON`; a `float` robot at rest with phases of 5 s and control periods of 1 ms reads entry -1 after 5000 cycles | partial (violated) |
| C85 | last cycle of a flight with rounded times: distance to the footstep cubic, velocity quadratic, acceleration linear in the relative error of the clock; bounds for `float` and `double` | proved |
| C86 | independence of units of length, time and cost, and of the direction of the axis: the documented problem is transformed into itself, its solution is unique; induction on the calls | proved |
| C87 | convergence of the closed loop of `ZebulonWalkgen`: base velocity for all settings; CoM centering violated | partial (violated by CoM centering with one sample) |
| C88 | rounding errors of `updateState` in `float` and `double`, one and many updates; slow motions that `float` suppresses | proved |
| C89 | quarter turns and reflections of the whole setting of `ZebulonWalkgen` turn its motion alike | proved |
| C90 | the CoM of a standing robot pushed aside returns above its feet | partial, violated for short sampling periods |
| C91 | superposition: the unconstrained motion is linear in states and references | proved |
| C92 | with one sample, a position reference is a stable rest position exactly for balanced weights | proved |
| C93 | with one sample, a standing robot returns above its feet after small pushes exactly for balanced weights, also with a CoP constraint that leaves room | proved |
| C94 | with one sample, exact condition on weights and period of the calls for a position reference to be stable; calling more often does not harm | proved |
| C95 | with one sample, exact condition on weights and period of the calls for the base to settle at its position, or the CoM above the base, also with constraints that leave room | proved |
| C96 | for every horizon there is a longest period of the calls, beyond the sampling period, below which exactly the robot settles at its velocity reference; for the base also with limits beyond the reference | proved |
| C97 | limits that leave room do not change whether the robot settles at a position or velocity; beyond the velocity limit it never settles, nor does the base of a wheeled robot | proved |
| C98 | a CoM constraint that leaves room does not change whether the CoM settles | **violated** for polygons without central symmetry; holds for symmetric ones (partial) |
| C99 | with the heading constraint CoM and base stay on the line of the heading forever; no base position is asymptotically stable | proved |
| C100 | without limits, states and references seen from a frame of constant velocity give the same jerks and the states seen from this frame, forever | proved |
| C101 | without base limits, states and references seen from a frame of constant velocity (along the heading if it is constrained) give the same QP solutions and jerks and the states seen from this frame, forever | proved |
| C102 | without constraints, combined states and base references (coefficients with sum one) give combined jerks and states, forever | proved |
| C103 | with any constraints, means of feasible plans are feasible for mean states and references, and the least cost is convex | proved |
| C104 | with limits, means of allowed plans are allowed for mean states, references and limits, and the least cost is convex | proved |

A property that the code violates is recorded as `partial` in `MANIFEST.json`: the negation is proved with a
concrete (in general reachable) witness, and the strongest true weakening found is proved as `..._partial`.

## Disagreements between the code and its documentation

1. `computeAccDynamic`, `computeOrder2VelDynamic` (`src/tools.cpp:175-237`): `-1/S` below the first diagonal entry
   should be `-1/T` (C07).
2. `Tools::inverseLU` (`tools.h:67-79`) erases entries of an inverse that are legitimately small: for long
   periods the whole inverse is erased (C09, C41).
3. `QPOasesSolver::solve` returns true when no output stream is given, whatever qpOASES returns (C15).
4. `TrajectoryWalkgen::setNbSamples`, `ZebulonWalkgen::setNbSamples` keep references of the old size (C16, C54).
5. `ConvexPolygon`: a list of one point reads out of range; absolute tolerances make it fail far from the
   origin or with repeated points (C23, C24).
6. `HumanoidFeetSupervisor`: EPSILON tie of phase end and sample (C28); decision vector not shortened when stopping
   in the initial double support (C29); reference foot of the first new footstep (C30); flight shorter than
   two periods (C32); `getNbOfCallsBeforeNextSample` can be 0 (C34); zero durations accepted (C37); weight of the
   last sample with N=1 (C44).
7. `HumanoidFootConstraint`: bounds of the second and following footsteps are relative to the old predecessor (C39),
   which can contradict the rows, relative to the new one (C63).
8. `HumanoidWalkgen::setNbSamples`/`setConfig`: new solvers are appended behind the old ones, so the old ones are used (C42).
9. `setWeightings` checks old values (humanoid) or checks `velocityTracking` twice and never `positionTracking`
   nor `tiltVelMinimization` (trajectory, Zebulon); `LIPModel::setGravity` and `BaseModel::setGravity` check the old gravity (C43).
10. Zebulon: sign of polygon rows (C46), tilt equation (C47), stale tilt objectives (C49), sign of horizontal gravity in the
    CoP reference (C51), lost gravity shift (C52), uninitialised contact point (C53).
11. Zebulon `setBodyMass(m)`: the total mass is set first, with the assertion "mass <= total mass" on the old mass, so
    that a decrease of the body mass by more than the base mass fails an assertion although the new masses are valid.
12. Zebulon uses the last of the `floor((T+EPSILON)/T)` dynamics of `LIPModel` for the CoM (`Spec.comFirst`): for sampling
    periods of at most EPSILON the first interval of the CoM prediction is longer than a sample, unlike that of the base.
13. `TrajectoryWalkgen` has no terminal constraint: the optimum of a feasible QP can lead to a state within the limits from
    which the next QP is infeasible (C58).
14. `computeSampleWeightMatrix`: for sampling periods below 20 EPSILON the last weight can be negative, so that the humanoid QP
    is not convex (C62).
15. `HumanoidWalkgen::solve` gives every new feedback period to the supervisor, but to the LIP model only when it differs by
    more than EPSILON: the supervisor can then ask for a dynamic that the LIP model does not have (C68).
16. The humanoid generator depends on where the robot is (C69): a sample that no foot supports has its support at the
    origin of the world; the first guess of a footstep added during a single support is computed from a local CoP when no
    footstep was planned; `setNbSamples` moves the planned footsteps to the origin of the world.
17. The velocity limits of `TrajectoryWalkgen` and of the base of `ZebulonWalkgen` are imposed at the samples only: between
    two samples the velocity exceeds its limit by up to `J T²/8`, and a feedback period shorter than the sampling period
    makes the generator publish such a velocity (C70).
18. The double support that ends a walk is planned with the footstep of the plan of the previous cycle: when the solver
    moves the footstep during the last cycle, the CoP at the end of this cycle is outside of the hull of the feet. The CoP
    is constrained at the samples only: between two samples it leaves the support by up to `T² A/8` (C71).
19. The setters of the humanoid (C72): `setInitialDoubleSupportLength` may always lower the duration by EPSILON, so that
    repeated calls make it negative; `setSamplingPeriod` does not compare with the step period, as `setStepPeriod` does;
    `computeConstantPart` adds the kinematic rows to the old size of the tables when the CoP constraint is off, so that every
    call of `setConfig(false, true)` makes the tables larger.
20. As the bounds of the second and following footsteps are relative to the old predecessors (see 7), a plan that is feasible
    in a cycle need not be feasible in the next one, a moment later: two successive footsteps may have moved apart. At the end
    of a walk, the double support polygon follows the last footstep, with the same effect on the CoP (C73).
21. The height of the flying foot is interpolated towards the maximal height until the middle of the flight. When the flight
    is an odd number of control periods, the last of these updates asks for a time beyond the end of its polynomial: the foot
    rises above its maximal height, to 7/6 of it for three periods (C74), 11/2 for one (C32). Also, an axis that is
    replanned often may pass slightly beyond a target that does not move (C74).
22. As in item 13, the optimum of a feasible QP of `ZebulonWalkgen` can lead the base to a state within its limits from
    which the next QP is infeasible (C77). As a consequence of item 10, the CoM of the robot leaves a polygon in which it was
    (C76).
23. Tracking a position with a horizon of one sample is unstable: with period 1 s, position weighting 1 and jerk
    weighting 1/162, from rest one metre away, the distance to the reference doubles at each `solve(1)` although every
    QP is solved exactly. The horizon of one sample is the default of the constructor (C80).
24. `trajectory-walkgen-bin` started without argument prints how to use it and then makes a string of the null pointer
    `argv[1]`. Its columns `refpos` and `refvel` are always zero, although the velocity reference is 0.2. The `break` of
    `zebulon-walkgen-bin` is never reached, since `solve` returns true whatever the solver reports (C81).
25. While the robot stands, `getSupportFootStateX` and `getSupportFootStateY` return a reference to the same member, so a
    caller who holds the first while calling the second reads the wrong coordinate. Inside of the library this has no
    effect. `setMove(false)` after `updateTimeline`, in a double support with previewed footsteps, makes the evaluation
    of the foot constraint abort; `HumanoidWalkgen` always updates the timeline first (C82).
26. In `float` the repeated subtraction of the control period drifts. With control periods of 1 ms more than `EPSILON` is left
    of a phase of 5 s after its 5000 cycles, so that it lasts a cycle more (C83_drift). When a sampling period is below half
    a unit in the last place of the remaining time, the loops that subtract it never end (C83_stuck, 2^25 s with a sampling
    period of 1 s).
27. In `float` the drift of item 26 ends in an access out of range. After the 5000 cycles of a phase of 5 s with control
    periods of 1 ms the supervisor reports zero calls before the next sample, so that `HumanoidWalkgen` asks for entry -1 of
    the tables of the LIP model; the assertions of the getters only check the upper bound (C84_violated).
28. With only CoM centering and jerks weighted and the default horizon of one sample, repeated `solve` of `ZebulonWalkgen` makes the distance between CoM and base double at each call, up to more than 300 000 km after 30 calls, though each QP is solved exactly (`C87_centering_violated`): nothing weights the velocity (C87).
29. In `float`, `updateState` adds the way of one period to the position, so that a body with small velocity far from the origin does not move at all: 16 m from the origin, with 1 kHz, at 0.85 mm/s the position never changes (`C88_stuck` and its example; C88).
30. C90: with one sample a standing robot that is pushed aside falls. For a sampling period below sqrt(6 h / g) (0.78 s for a CoM one metre high) this is so for every choice of weights, since the centring of the CoP lets the CoM go away exponentially (`C90_falls`, `C90_violated`). For longer periods it falls if the jerk is weighted too little, whatever the weight of the velocity. With only the CoP centring weighted, the plan satisfies the CoP constraint perfectly while the CoM leaves (`C90_violated_centring`). With the CoP constraint, whatever is weighted, a CoM beyond the polygon of the feet leaves while every QP is feasible and solved (`C90_beyond`). With a sampling period of one second and the weights 10, 1, 1 the CoM returns (`C90_returns_partial`).
31. C92: with one sample, tracking a position without weighting the velocity is unstable for every weight and every sampling period (`C92_position_only`); with a weight on the velocity, the exact condition on the three weights is `Spec.Balanced`. The code does not check it.
32. C93: with one sample, a standing robot whose sampling period satisfies `g T² ≤ 6 h`, or whose velocity is not weighted, does not return above its feet after small pushes, whatever the other weights (`C93_needs`); a robot with a period of one second, a height of one metre and all weights 1 does not return either (`C93_light_witness`). The exact condition is `Spec.StandBalanced`; the code does not check it.
33. C94: tracking only the position with one sample, which is unstable for every weight with one call per sampling period (C92), becomes stable when `solve` is called more often (`C94_position_only`: ten calls per period). The period of the calls is thus part of the tuning; the code accepts every positive one, including those for which no weight on the jerk gives stability (`C94_rare`).
34. C95: centering the CoM above the base (with the jerks, one sample) is unstable for all weights and sampling periods when `solve` is called once per sampling period (`C95_centre_violated`); the same holds for a base position without a velocity weight (`C95_base_velocity`).
35. C98: with a CoM polygon without central symmetry, the CoM does not settle at references well inside of the polygon if their reflection is outside, whatever the weights and the period of the calls (`C98_outside`, `C98_violated`); a consequence of the sign in C46.

## Simplifications of the model

* Exact arithmetic (see above) except in C83, C84 and C85, where the timers are rounded and the coordinates of feet are still exact, and in C88, where `updateState` is rounded, without overflow and underflow (`std::pow` correctly rounded); `sin`, `cos` are arbitrary functions in the Zebulon model, so that the theorems hold
  for any approximation of them.
* Entries left uninitialised by `resize` are zero when the code assigns all of them before reading.
* Scratch buffers that are entirely overwritten before each use are local variables.
* `std::vector` indices out of range are a fault.
* `int` overflow is not modelled; integers are unbounded, and numbers of samples are natural numbers.

## Validation of the model

The code cannot be run here, so the numeric expectations of its own unit tests are the only independent evidence about
its behaviour. `Verif/Tests/Upstream.lean` evaluates the model on the inputs of `/repo/test/test-*.cpp` and checks the expected
values with the tolerances of the tests: LIP and base models, interpolation, all constraints and objectives of
the two robots, angles and the starting vertex of the hull, the two QPs of the solver test (the expected results are solutions in the
sense of `Spec/QP.lean`), and the programs `humanoid-walkgen-bin` and `trajectory-walkgen-bin` run without a fault. Not replayed:
the hull tests that upstream has disabled and the tilt constraint (only sizes). `zebulon-walkgen-bin` and `trajectory-walkgen-bin`
are proved to run without fault for every solver (C81).

## Seeded bugs

`seeded/LOG.jsonl` has one line per wrong program tried in a scratch copy: the definition, the edit, the claims it
breaks, the theorems whose proof failed (`direct`: the property theorem itself, `via lemmas`: a lemma it rests on) and what was tightened.

## Axioms

`#print axioms` on every theorem named in `MANIFEST.json` lists a subset of `propext`, `Classical.choice`,
`Quot.sound`.
