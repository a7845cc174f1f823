# Formal model of openspace in Lean 4: design

## What is here

* `properties.jsonl` – the semantic properties (C01, C02, …), in terms of the public API.
* `lean/Verif/Model/*.lean` – the model, one file per Python module, one definition per function.
  Each definition cites the file and lines of `/repo/src/openspace` it models.
* `lean/Verif/Spec/*.lean` – small specifications (calendar, geodesy, Legendre functions,
  geopotential, Clohessy–Wiltshire equations, positive semidefinite matrices, …) that do not
  mention the model.
* `lean/Verif/Lemmas/*.lean` – helper lemmas.
* `lean/Verif/Props/*.lean` – the property theorems, and beside each one an `example` that shows
  a concrete non-trivial case meeting its hypotheses.
* `fidelity/` – not part of the verified development: `run.sh` turns the real-number model into
  an IEEE-double program by textual substitution and compares it with the expected values of
  `/repo/tests` (84 comparisons, all within the tolerances of the tests).
* `seeded/LOG.jsonl` – the record of mutation tests of the theorems.
* `MANIFEST.json` – property → theorem names and status.

## Trusted base

1. **Lean's kernel** (Lean 4.33.0) and Mathlib's definitions of `ℝ`, `Real.sin`, `Real.sqrt`,
   `Complex.arg`, … .
2. **Axioms**: every theorem depends on at most `propext`, `Classical.choice`, `Quot.sound`.
   No axiom is added; no `sorry`, `admit`, `native_decide` or `bv_decide`.
3. **The reading of the Python code.** The code is not run here. The correspondence is by
   reading, with a citation on each definition, and cross-checked by the fidelity script: the
   same text, read over IEEE doubles, reproduces the numbers asserted in `/repo/tests`.
4. **Floating point is idealised.** `float` is modelled by the real numbers: rounding, overflow,
   `nan`, `inf`, signed zero and the finite accuracy of `math.sin` etc. are not modelled. A theorem
   "for all inputs" is therefore a theorem about the algorithm in exact arithmetic. Where the
   idealisation could change the qualitative behaviour (exact comparison of epochs in
   `update_attitude`, exact cancellation in `coes_from_positions`), the note of the property says so.
   `math.e` is idealised to e and `math.pi` to π. The exception is `Model/Double.lean`: the
   arithmetic of epochs in `step_to_epoch` and the comparison in `update_attitude`, with every
   operation rounded to the nearest double, ties to even (C97–C99, simulation loops in C118 and C119, the solver of Kepler's equation in C101, `from_ijk` in C103 and C104, `to_ijk` in C135, calendar dates and the
   Greenwich hour angle in C109 and C110, the angle between vectors in C111, spherical coordinates in C112, Hill coordinates and impulsive manoeuvres in C113–C115, the Hill propagator in C129, visual magnitudes and detection in C138, the orientation of the Earth and the GCRF and ITRF conversions in C139, the positions of the Sun and the Moon in C140, the attraction of Earth, Moon and Sun and the radiation pressure in C141, thrust and burn times in C142, the geopotential in C143, the acceleration of a state in C144, a step of the inertial propagator in C145, many steps in C146 and C175, the angles of the classical elements in C148, Hohmann transfers in C149, the orbit formulas in C150, the iteration of Gauss's method in C151, its elements in C152, ground sites in C153, geodetic coordinates in C154, the way from a state to elements and back in C155, the navigation filter in C156 to C158, the positions of observations in C159, attitude in C160, rotations, noise and simulated observations in C161, and the conversion of a position to geodetic coordinates in C106, whose `pow` is assumed to return doubles correct to one unit in the last place and not below 1 for a base above 1; exponent range unbounded;
   `F64.rnd_spec` proves that the rounding function gives a nearest 53-bit number).
5. **Exceptions are values.** `Py α = Except PyErr α`. A division checks its divisor
   (`ZeroDivisionError`), `sqrt/asin/acos/log` check their domain (`ValueError`), a fractional
   power of a negative number is the marker `complexValue` (Python silently returns a `complex`),
   list indexing checks its range, reading a declared-but-unset attribute is `AttributeError`.
   Divisions by non-zero literals and square roots of sums of squares are unchecked.
6. **Mutation.** A mutating method is `PyM σ α = σ → Except PyErr α × σ`: the state after the call
   is returned also when the call raises (Python does not roll back). Spacecraft live in a world
   `ι → Spacecraft ι` because tracking makes one object mutate another. Immutable values are used
   for vectors, matrices, epochs and states; that this is sound (constructors copy their inputs) is
   the subject of C71, proved on a separate heap model (`Model/Heap.lean`) in which the same
   constructors act on addresses.
7. **Loops.** `while` loops take a fuel argument; `PyErr.outOfFuel` means "still running". Theorems
   about results hold for every amount of fuel; theorems about termination exhibit enough fuel.
   Python's recursion limit is the depth argument of `updateAttitude`.
8. **Randomness.** `random.gauss(mu, s)` is `mu + z*s` and `random.uniform(a, b)` is `a + (b-a)*u`
   (CPython); the draws `z`, `u` are universally quantified.

### Modelled

All of `math/linalg.py`, `math/functions.py`, `math/constants.py` (the constants in use), `time.py`,
`bodies/celestial.py`, `bodies/artificial.py`, `bodies/terrestrial.py`, `coordinates/positions.py`,
`coordinates/states.py`, `coordinates/elements.py`, `propagators/inertial.py`,
`propagators/relative.py`, `planning/maneuvers.py`, `hardware/constraints.py`,
`hardware/payloads.py`, `estimation/obs.py`, `estimation/iod.py`, `estimation/filtering.py`.

### Not modelled

* `__init__.py` re-exports, docstrings, type annotations, abstract base classes (`Observation`,
  `Propagator`-like ABCs) except for their dispatch.
* `Spacecraft.__init__` keyword defaults are modelled with the defaults; other values are reached
  by quantifying over all `Spacecraft` records.
* The random generator: the draws are universally quantified, and C133 and C163 assume a law for them.
* Concurrency (the library has none), memory and time consumption.

## Findings (code does not satisfy the property as stated)

The model reproduces these; each is proved as a negation with a witness, next to what does hold.

| Property | Finding |
|---|---|
| C29 | `Earth.nutation` is a linearised matrix, not a rotation: GCRF→ITRF→GCRF is not the identity. The exact defect and a bound are proved. |
| C38 | `GCRF.copy()` drops `thrust`, `srp_scalar` and `use_perturbations`. |
| C39 | Because `RK4.__init__` copies the state, `srp_scalar` is 0 in every propagated state. |
| C40 | `RK4.step` builds a fresh `GCRF`, so `use_perturbations = False` lasts at most one step; stages 2–4 of that very step already use perturbations. |
| C45 | `finite_maneuver` subtracts a negative amount: propellant mass *increases*. |
| C46 | `finite_maneuver` multiplies by the GCRF→RIC matrix instead of its transpose. |
| C47 | Each 300-s integration step restarts the mass at `m0`. |
| C50 | `HCW.from_state_vector` sets the epoch to 0, so `Hill` loses time. |
| C57 | In the equatorial plane `coes_from_positions` takes node and argument of latitude from `atan2(0, 0)`: the orbit misses the positions. |
| C59 | `coes_from_positions` adds 2π at most once to `u - nu`, which can be below −2π. |
| C62 | A `track_*` call that raises after `slewing = True` leaves `slew_stop` unset; later `step()` raises `AttributeError`. |
| C63 | `track_state(target)` ignores its argument when already in target mode. |
| C67 | `visual_magnitude` uses the *observer's* radius and albedo. |
| C70 | `Hohmann` "magnitudes" are negative when lowering an orbit. |
| C78 | `RelativeKalman` stores the class attributes `DEFAULT_COVARIANCE`/`DEFAULT_NOISE` and the caller's propagator without copying: editing one filter's matrices in place edits every filter. |
| C79 | `Observation.epoch()` returns the stored epoch object, not a copy. |
| C81 | Solar radiation pressure does not depend on the distance from the Sun: the vector is normalised first and then divided by its own (unit) squared length. |
| C82 | An exception inside `step_to_epoch`/`maneuver` leaves `step_size` at the temporary value and the engine on (`m_dot`, `m0`, `isp`), so a later `step()` thrusts. |
| C84 | `coes_from_positions` computes the eccentricity as `ecosva / cos(ta)`: 0/0 (in floating point: noise) when the first position is at the semi-latus rectum. |
| C97 | In double precision `step_to_epoch` misses the requested epoch: the half steps are rounded separately. Five spacings (3 µs) in an hour. |
| C99 | In double precision an epoch with last bit 0 is stepped to epochs with last bit 0 only, so a tracker whose epoch has last bit 1 is never in sync with it and steps it again in every update. |
| C100 | `EA.from_ma_e` loops for ever on a neighbourhood of M = 2π + e, e ≈ 0.8836: Newton's method alternates between 2π and 2π + 7.6. `ClassicalElements.to_ijk` inherits it. The cycle attracts, so rounding does not end it. |
| C102 | `ClassicalElements.from_ijk` takes node and argument of latitude from the x and y components of the orbit normal, which are both zero for an equatorial orbit. The position in the orbit is lost: `to_ijk` returns the position on the x axis at the same distance. A geostationary satellite above the y axis comes back more than 50 000 km away. (With signed zeros the node may come out as pi and the position on the negative x axis; it is equally lost.) |
| C103 | `ClassicalElements.from_ijk` computes the eccentricity as sqrt(1 - p/a). For nearly circular orbits p/a can round to 1 + 2^-52, and the call raises `ValueError`: position (7000, 0, 0) km, velocity (0, 63300883/2^23, 0) km/s. |
| C104 | `if x < 0: x += 2 * pi` returns `2 * pi` for -2^-51 < x < 0, outside the documented half-open interval: `W.from_u_nu(0, 2**-60)`, and the node of the normal (-2^-60, -1, 0). |
| C105 | A burn longer than 300 s delivers less velocity than commanded although it uses the propellant of the full amount: each of its n steps thrusts with the mass at ignition. With isp 350 s, 1 km/s yields about 0.87 km/s. |
| C106 | Near the poles `to_lla` raises ValueError for about two positions in five: the argument of `asin` is rounded above 1 and not clamped. (0, 0, 6358) is such a position. |
| C107 | An observer whose orbit crosses the x axis at slightly over 45 degrees, looking straight up, gets a cross-track variance of exactly zero from an observation with any angular error; the filter then treats the noisy cross-track coordinate as exact. |
| C109 | In double precision an epoch resolves 0.6 µs: calendar instants closer than that can become the same epoch (2022-12-19 00:00:00 and 0.24 µs later). |
| C117 | `acquire` builds the filter before `track_state` brings the target to the observer's epoch, so the filter of a target at another epoch starts from a stale state under the observer's time (artificial.py 169-179). |
| C119 | A loop over `step()` until an end epoch a whole number of days away always makes one step too many: in double precision a default step is 0.28 µs short of 300 s, so after 288 steps the clock is before the end epoch (all example scripts; inertial.py 50-61). |
| C121 | `Moon.get_position` closes a parenthesis too late: equation 3.49 has `sin(F + λ − L0 + 412″ sin 2F + 541″ sin l′)`, the code `sin(F + λ − L0 + 412″ sin(2F + 541″ sin l′))`, so the Moon is up to 98 km from the cited theory (celestial.py 316). |
| C131 | `detect` keeps 20 degrees from the direction of the Earth's centre whatever the distance. Below 18649 km the Earth is larger than that, and targets behind it are detected (artificial.py 335, constraints.py 16). Targets in the Earth's shadow are detected too: no eclipse is modelled. |
| C142 | `thrust_vector` divides by `log(1 - m_dot*dt/m0)`. If less than 2^-55 of the mass is spent, the argument is rounded to 1 and the call raises ZeroDivisionError (inertial.py 142-146), e.g. 5e-8 kg/s, 1000 kg, dt = 0.3 microseconds, half of the shortest step an epoch can resolve. The division is unnecessary: the logarithm cancels. |
| C154 | `ITRF.to_lla` loses up to half of the digits of the latitude near the equator: `u*u - 1 + 2*t` and `sqrt(t*t+v) - u*w - t/2 - 1/4` cancel (positions.py 241-247). At (6380, 0, 3/65536) km the latitude is out by 3.4 or 10 metres, although the site is 4.6 cm from the plane of the equator; with correctly rounded powers it comes out south instead of north. The height is not affected (4 cm at worst), as it is stationary. |
| C181 | `RelativeKalman.process` adds the process noise once per call, not in proportion to the time since the last observation (filtering.py, `predict_covariance`): several observations at one instant make the filter less certain of the velocity, by 1e-16 km2/s2 for each. |
| C183 | The order in which simultaneous observations are processed matters, as process noise is added between them although no time has passed (filtering.py, `predict_covariance`): with one exact and one inexact sighting the along-track variance is zero or not depending on which comes last. |
| C184 | The relative filter turns range error and both angular errors into a single displaced sighting (filtering.py, `process`), whose components can cancel: with an angular error of 10 mrad and a range error of 1 m at 10 km it takes the along-track position for exactly known. |
| C185 | The measurement covariance of the relative filter depends on the inertial axes, as the angular error is added to right ascension and declination (filtering.py, `process`), so near the poles it hardly counts in right ascension. |

## Plan per property

Notation: `f x = .ok y` means the call returns `y`; `.error e` that it raises `e`.

| Id | What is modelled | How it is proved |
|---|---|---|
| C01 | `Model/Linalg` methods; spec: Mathlib `Matrix (Fin m) (Fin n) ℝ`, `Fin n → ℝ` via coercions | each method commutes with the coercion; entrywise `ring` |
| C02 | `inverse`, `determinant` | coercion to Mathlib `Matrix.det`; `M * inv = 1` both sides; error iff det = 0 |
| C03 | `normalized` | unit norm, positive multiple, error iff zero |
| C04 | `angle` | Cauchy–Schwarz gives arg ∈ [-1,1]; equality with `InnerProductGeometry.angle` on `EuclideanSpace` |
| C05 | `rotation_about_axis` | Rodrigues form; dot/cross preservation by `ring` + `sin²+cos²=1` |
| C06 | noise methods with draws | from C03/C04/C05 |
| C07, C08 | `from_gregorian`; spec: recursive calendar (`isLeap`, `daysInMonth`, `next`) | integer case analysis on month, `omega` for year boundaries; order by induction on days |
| C09, C10 | `Epoch` methods | `ring`, floor arithmetic; midnight jump as explicit polynomial bounded on the range |
| C11, C12 | `LegendrePolynomial`, coefficient tables; spec: Rodrigues derivative of `(X²-1)^n` in `Polynomial ℝ`, factorial normalisation | finite table, each entry computed symbolically for all φ |
| C13–C15 | `EquationsOfMotion` conversions | real powers and square roots |
| C16–C18 | Kepler solver with fuel | second-order Taylor bound with remainder; monotone convergence of Newton's method on a convex function, iteration count from quadratic decrease; range |
| C19, C20 | anomaly conversions | `Complex.arg` polar form |
| C21, C22 | `ClassicalElements` | perifocal frame algebra, C19, injectivity of the `arg`-based recoveries |
| C23–C25 | spherical, ENZ, LLA→ITRF | polar form; orthonormality; ellipsoid equation |
| C26, C27 | closed-form ITRF→LLA | quartic of the foot point; Ferrari resolvent solved by the code's cubic; uniqueness of the positive root; then back-substitution (`Lemmas/Ferrari.lean`, `Lemmas/Geodetic.lean`) |
| C28, C29 | precession, nutation, rotation | Euler-angle matrices orthogonal; nutation = I + skew, `NᵀN = I + KᵀK` |
| C30 | Sun, Moon | interval bounds from |cos| ≤ 1 |
| C31–C33 | HCW conversions | frame orthonormality; spherical chart round trip |
| C34, C45–C47 | manoeuvres | C31-style algebra; rocket equation; negations with witnesses |
| C35, C36 | gravity; spec (`Spec/Geopotential`): the geopotential as a function on ℝ³, `HasGradientAt`; `geopotential_spherical` shows it is the textbook series | derivative of each harmonic in Cartesian form, rewritten in spherical components; loops as sums with C11 and C12 |
| C37–C42 | derivative, RK4 | unfolding against an independent RK4 specification; induction over steps |
| C43, C44 | thrust, burn duration | logarithm/exponential identities; invariants of the step loop |
| C48–C50 | Hill | trigonometric identities, derivatives, induction over step lists |
| C51–C54 | Kalman filter | Mathlib `Matrix.PosSemidef`; Joseph form; invariant over observation histories |
| C55, C56, C73 | observations | C23, C24, C26 |
| C57–C59 | Gauss | conic equation from p, e, ν; secant invariant; witnesses with a transfer angle so small that the first secant step ends the loop |
| C60–C65 | attitude/tracking state machine | invariants over histories (inductive `Reachable` relation over API calls), recursion bounded by the number of unsynchronised spacecraft |
| C66–C68 | detection, camera | decision logic; monotonicity of log |
| C69, C70 | Hohmann | vis-viva algebra; witness |
| C71 | heap model of constructors | separation: addresses reachable from the constructed object are fresh |
| C72 | state vectors | invariant over constructors |
| C74 | sign, unit conversions | case analysis, `ring` |
| C75 | GCRF→ITRF→GCRF error (replaces the false C29) | exact defect is a double cross product with the nutation axis; bound on its length |
| C76 | SRP of propagated states (consequence of C39) | invariant over histories of calls |
| C77 | GCRF→ITRF, GCRF→IJK bijective | explicit inverse of `1 + K`; stretch between 1 and `√(1+|k|²)` |
| C78, C79 | heap model: filters, `Observation.epoch()` | witness for every pair of filters / every observation |
| C80, C81 | Moon, Sun and radiation accelerations; spec (`Spec/ThirdBody`): disturbing function | `HasGradientAt` of the disturbing function; witness pair of states for C81 |
| C82 | RK4 loop with the state at the moment of the exception (`PyM`) | induction over completed steps; witness on the polar axis via C35 and C77 |
| C83 | Gauss method; spec: `Spec/Orbit`, `Spec/Gauss` (auxiliary numbers m, l) | Gauss's two equations from the geometry of the ellipse; `w_of_omega` at sin²(G/2) |
| C84 | Gauss iteration in the regime m ≤ 1/10, 25 l < 16 m | Taylor bounds for the slope of every chord of `f_of_nu` (between -8/5 and -1), contraction by 3/5 per secant step, induction on the passes; ellipse iff 0 < m/n² - l < 1 |
| C85 | ellipse and angular-momentum formulas | algebra; Lagrange's identity; C22 for the state of a set of elements |
| C86 | `geo_radius`, sidereal day, hour angle | cube root bounds from bounds of π; C10 on both sides of midnight |
| C87 | `observe_wfov`, `observe_nfov`; spec: structure `Observed` | C06 for length and angle of the noise; zero angle and equal length give equality |
| C88 | `hill_position` | C32, C33; Taylor bounds of arctan and arcsin |
| C89 | force model (`GCRF.derivative` and all its accelerations) | bounds of every Legendre and Stokes term of the 4×4 field (`Lemmas/GravityBound`); triangle inequality for third bodies; margin between the inertial and Earth-fixed polar axes |
| C90 | `RK4.step`, `step_to_epoch`, `maneuver` | C89 at the four stages; induction over the steps with a shrinking ball as invariant. `Props/Witnesses` uses it for concrete runs in which C40, C45, C46, C47 fail |
| C91 | `Earth.rotation`, `to_tod`, `to_ijk` | angle addition; C10 for the rate. Added because a mutant that reversed the sense of rotation survived C28 |
| C92 | `Earth.precession`; spec (`Spec/EarthOrientation`): product of frame rotations, IAU 1976 polynomials | matrix product entry by entry |
| C93 | `to_itrf` of GCRF positions; spec: `Spec/EarthOrientation` | Taylor bounds of sine and cosine for each entry of the linearised nutation; C92 |
| C94 | `Hill`; spec (`Spec/TwoBody`): two-body motion in Euclidean space, turning frame of a circular orbit | equations in the turning frame; bound of the attraction less its linear part; variation of constants with the transition matrix of C48 and the mean-value inequality |
| C95 | `RK4.step` with the complete force model of `GCRF.derivative`; `RK4.Trajectory` states the equations of motion | the force model is smooth (Sun, Moon, Earth rotation, geopotential) off the axis and off midnight; order conditions of the classical method proved for a general smooth field by Taylor expansion of the stages; existence of solutions by Picard-Lindelöf |
| C96 | calls of `RK4.step` one after the other, same equations of motion | the local error of C95 is uniform in the starting time; Lipschitz dependence of a step on its state; compactness of the span; discrete Grönwall inequality; success of every step because the numerical states stay in a tube around the solution |
| C97 | `Model/Double`: rounded arithmetic of epochs; spec (`Spec/Double`): 53-bit numbers | relative error of the four roundings of the increment; induction over the half steps; the violation computes one hour in twelve steps |
| C98 | `F64.updateAttitude` on the clocks of finitely many spacecraft | three phases: first visits (drift bounded by C97), then a closed set of clocks within one step of one another, where an odd epoch is hit or replaced by an even one and even epochs are hit exactly; the number of differing clocks decreases |
| C99 | same | parity: adding the same rounded increment twice to an even number of ticks gives an even number |
| C100 | `eaFromMaE` beyond one turn | residuals shrink geometrically below e = 1/2; periodicity reduces second half turns to C17; the violation is a cycle of length two (intermediate value theorem) that attracts because Newton's map has derivative 0 at a multiple of 2π, with a neighbourhood from differentiability |
| C101 | `Model/DoubleKepler`: the solver with rounded operations; spec (`Spec/Libm`): accuracy of sine and cosine | error analysis of one step: at most 100 u plus a relative error of the step; perturbed Newton iterates decrease on the convex side, contract around apogee, and end in a quadratic phase down to the level of the rounding errors, which is below the tolerance for e ≤ 0.9 |
| C102 | no extra model: `from_ijk` then `to_ijk`; distances of positions and velocities | e cos E and e sin E from the energy and Lagrange's identity; normal, node and latitude from the quadrant of the arctangents; the velocity from its radial part and the angular momentum; the tolerance of the solver carried over to the state. Circular orbits included; false for equatorial ones |
| C103 | `Model/DoubleElements`: `from_ijk` with rounded operations and arbitrary sine, cosine, arctangent | forward error analysis: 4.2 u for lengths, 40 u / r for 1/a, 37 u r for the parameter, 157 u for p/a; the violation evaluates every rounding of one state exactly |
| C104 | `Model/DoubleElements`: `if x < 0: x += 2 * pi` with rounded addition | `pi` and `2 * pi` evaluated as doubles; rounding is to a nearest double, so it does not pass `2 * pi`; the violation is a negative angle below half a unit in the last place of `2 * pi` |
| C105 | `Model/Inertial` | every stage is split into acceleration without thrust plus thrust; the thrust of one step is Simpson's rule for `1/(1-t)`; its error has derivative `t^4/(24(1-t)^2(1-t/2)^2)`; Bernoulli's inequality for several steps |
| C106 | `Model/DoublePositions`: `to_lla` with every operation rounded | the failing position is evaluated operation by operation; before the arcsine all radicands are shown non-negative by monotonicity of rounding and a tie to even at 3; running error bounds through the closed form, with two regimes for the last square root, keep the argument of the arcsine below 1 up to 89.9 degrees |
| C107 | `Model/Filtering` | the Joseph form as a quadratic form: it vanishes in a direction exactly when that direction is measured with zero variance; then the displacement is computed for an orbit whose plane contains it |
| C108 | `Model/Filtering` | `Spec.Within`: the error along each direction against the quadratic form of the covariance; prediction and Joseph update preserve it, Cauchy-Schwarz for the measurement error; induction over the observations |
| C109 | `Model/DoubleTime`: `from_gregorian` with every operation rounded; spec: `Spec/Calendar` | a rounded quotient of integers has the floor of the exact one, the products with 30.6001 stay 0.0005 away from integers; error bound of the sum of three rounded quotients; doubles from 4 on lie on a grid of 2^-50, so the excess of a rounded 23:59:59.99… is dropped; the violation is half a unit in the last place of the day number |
| C110 | `Model/DoubleTime`: `greenwich_hour_angle` with rounded operations, `%` as exact `fmod`, `radians` as a product with a rounded constant | running error bounds through the polynomial; the fraction of the rounded clock belongs either to the same day or to a neighbouring one, and the jump of the formula at midnight is bounded by 1.8e-7 degrees; `radians(360)` is evaluated as a double |
| C111 | `Model/DoubleVectors`: `angle` with rounded operations, the arccosine of the C library as an arbitrary function | the rounded cosine is within 15 half units of the exact one (Cauchy-Schwarz on the absolute components); clamping only reduces the error; angles with near cosines are near by the half-angle identities; the case of (1, 1, 0) is evaluated |
| C112 | `Model/DoubleVectors`: `from_cartesian` and `to_cartesian` with rounded operations, library functions as arbitrary functions of stated accuracy | relative errors of radius and axis distance; the declination moves by less than the relative error of the axis distance (addition theorem of the arctangent); sine and cosine are Lipschitz; C23 gives the exact round trip |
| C113 | `Model/DoubleStates`: `to_hcw` and `frame_matrix` with rounded operations, library functions as arbitrary functions of stated accuracy | errors relative to a scale are propagated step by step (`Lemmas/DoubleFrames`); the rows of the frame are within 80 half units because the cross product is not small; arcsine and arctangent are Lipschitz in the domain (mean value theorem) |
| C114 | `Model/DoubleStates`: `to_gcrf` of Hill coordinates with rounded operations | the backward conversion is bounded for arguments with errors, so that the result of C113 can be put in; C32 gives the exact round trip |
| C115 | `Model/DoubleStates`: `impulsive_maneuver` as the rounded conversion of zero relative position | C114 with the exact value of the conversion at the origin (C34) |
| C116 | `Model/Artificial`: `acquire`, `processWfov`, `processNfov` | unpacking of the monadic calls; the tracking part keeps filters and synchronised propagators (`updateAttitude_effect`); Hill positions depend only on positions; prediction over no time is the identity and the innovation vanishes (C48, C54); `Props/AcquireCases` has a run |
| C117 | as C116 | `C117_stale_violated` says what the filter holds; `C117_violated` is a run of two new spacecraft (ten seconds apart, target climbing at 1 km/s) with an error of more than 9 km, from the bound on the deviation from straight flight in C90 |
| C118 | `Model/DoubleLoop`: the loop on clocks | the increment of a step is an even number of ticks, so one step of the other spacecraft hits the epoch (C97's analysis of a single step); induction over the iterations |
| C119 | `Model/Examples` (exact), `Model/DoubleLoop` (rounded) | exact: unpacking of the calls of an iteration, induction over the fuel; rounded: C118 with 288·477218588 = 2³⁷ − 128 |
| C120 | `Spec/SunMoon`: the series and the rotation from the ecliptic, written out independently | unfolding, double angle; the sine is 1-Lipschitz; periodicity |
| C121 | `Spec/SunMoon`: the series | the code's latitude is isolated; the distance of two points on a meridian is 2r sin(Δ/2); interval estimates with bounds on π; the witness is the epoch at which l' is 23 turns and a quarter |
| C122 | `Spec/SunMoon` | sum of the amplitudes; sum of amplitude times frequency with the Lipschitz bound of the sine |
| C123 | `Spec/TwoBody` | the inverse of Kepler's equation is differentiable with derivative 1/(1 - e cos E); derivatives of the four coefficients of the state; closeness of states with close eccentric anomalies |
| C124 | `Spec/TwoBody` | angular momentum, energy and eccentricity vector have zero derivative; the plane vector (e cos E, e sin E) turns at the rate of n t + e sin E, so turned back by that angle it is constant, which is Kepler's equation; for circular orbits the same with the argument of latitude |
| C125 | C124, C102 and C16 | the states at both times written in one perigee frame; for circular orbits the growing argument of perigee is absorbed into the eccentric anomaly |
| C126 | `Spec/Kalman`, `Spec/TwoBody` and C94 | one step of the filter with a model error, the triangle inequality of the covariance norm in parallel-sum form; induction over the list; C94 moved to start at any time gives the model error of two-body motion |
| C127 | `Lemmas/Interference` | two runs side by side: a relation between worlds kept by every statement of every method, with equal outcomes; the sensing calls keep the relation with the world before; induction over the programs |
| C128 | `Lemmas/Interference` | the same relation, restricted to a group closed under tracking; what is outside stays; induction over the history |
| C129 | `Model/DoubleRelative`: mean motion, system matrix and matrix product with rounded operations | errors relative to a scale of 1 km in position and n in velocity; the error of an early step is transported by the exact transition matrix of the remaining time, of norm 21 (1 + n t), so it grows polynomially and not exponentially with the number of steps |
| C130 | spec (`Spec/Visibility`): inside of the ellipsoid, points of a ray | the zenith is the normal of the ellipsoid below the site (C25), the ellipsoid is on one side of its tangent plane; the quadratic form of the ellipsoid along the ray |
| C131 | spec (`Spec/Visibility`) | what holds: a ray at an angle of at least L from the direction of a point keeps the distance times sin L from it; the violations are placed in the plane of the Sun and a direction at right angles to Sun and Moon |
| C132 | rotations are matrices M with M Mᵀ = 1 and determinant 1; spec: the state in turned axes | rotations commute with cross products and normalisation, so the orbit frame turns with the axes and components in it do not change; addition theorems for the node |
| C133 | spec: square-integrable uncorrelated errors on a probability space, the motion and measurements they drive; a linear estimate is a constant plus weights on all measurements | induction on the number of observations: the errors of a step are uncorrelated with everything before it, so mean squares add, and the gain minimises the sum along every direction |
| C134 | spec: the two-body equations of motion; the velocity of the moving object itself | the true sector-to-triangle ratio is a root of Gauss's equation (C123-C125 put the motion on an ellipse), the equation has one positive root, and the velocity at the first position is a function of the positions, the time and the ratio alone |
| C135 | spec: the two-body equations of motion; accuracy of the C library | rounded eccentric anomaly from C101, then the error calculus of Lemmas/DoubleFrames for the two directions, the radius, the rate and the combinations |
| C136 | spec: the two-body equations of motion | every motion through a bound state runs on a Kepler orbit (existence, and uniqueness by the local Lipschitz bound of the attraction), half a turn after an apse; the in-track direction at an apse is that of the velocity; vis-viva laws of C69 |
| C137 | spec: meaning of a decimal numeral (Spec/Decimal) | the digits of the nearest integer to 1e6 x denote it; numerals contain no blanks and have one value |
| C138 | spec: exact angles, the Lambert phase function, one-ulp library functions (Spec/Photometry) | the gap between pi and math.pi exceeds the rounding errors near the Sun; pi times the cosine bounds the phase function's error; relative errors through the logarithm |
| C139 | spec: exact conversions (C29), classical reduction (C93) | error calculus through the polynomials, the trigonometric functions and the three matrix products; hour angle by C110; the sidereal angle stays symbolic, so that it cancels in the round trip |
| C140 | spec: exact positions (C30, C120) and the published series | absolute error bounds through the mean angles, the fourteen, nine and eight periodic terms and the rotation about the x axis |
| C141 | spec: exact accelerations (C89) | Lipschitz constant of v/|v|³ away from the body, error of the body position (C140), rounding of each vector operation |
| C142 | spec (`Spec/Exponential`): accuracy of `log` and `pow`; exact thrust (C43) and burn time (C44) | the rounded logarithm cancels itself; numbers within 2^-54 of one are rounded to one; exp of a rounded exponent |
| C143 | spec (`Spec/Libm`, `Spec/Exponential`, `Spec/Tangent`): accuracy of the C library; exact acceleration (C35), conversions (C139) | errors in units of a common scale through the Legendre table, the multiple angles and the sums of the degree-4 field; quotient of rounded coordinates for the declination; equivariance of the last rotation |
| C144 | spec (`Spec/Libm`, `Spec/Exponential`, `Spec/Tangent`); exact derivative (C37) | error of each force (C141, C143) and magnitude of each partial sum through five rounded additions |
| C145 | spec (`Spec/RungeKutta`, `Spec/Propagation`): classical step and the points it visits; C library as in C144 | the force is Lipschitz in the position (central, third-body and geopotential part); recursion over the four stages; linear arithmetic for the constants |
| C146 | spec (`Spec/Propagation`: `runBound`, `growthRate`, `Midlatitude`) | the error of a step from a displaced state in the norm w abs(dx) + abs(dv), in which the step amplifies by at most exp(1.001 w h); induction over the steps |
| C147 | spec (`Props/Frame`): six groups of attributes and, for each call, the groups it may change | each assignment of each call keeps the other groups; induction over the recursion of update_attitude and over histories |
| C148 | spec (`Spec/Angle`: equality of angles up to whole turns) | the direction of a point at distance ρ moves by at most 1.02 d/ρ when the point moves by d; errors of the points that from_ijk passes to atan2: the normal of the plane, position in the node frame, (e cos E, e sin E), and the point on the orbit |
| C149 | model (`Model/DoubleFunctions`) | rounding is monotone, so the rounded half sum of the radii is at least half of each radius and 2/r ≥ 1/a holds after rounding; relative errors multiplied by the cancellation of 2/r - 1/a |
| C150 | model (`Model/DoubleFunctions`) | relative errors compose by products, quotients, sums of the same sign and roots; the cube root is a power with the rounded exponent 1/3, so its error grows with the logarithm; monotone rounding keeps radicands from being negative |
| C151 | model (`Model/DoubleIod`) | the rounded function errs by 53 units of roundoff; while the iterates are 1e-12 apart the rounded slope is within 1.3% of the exact slope of the chord, so a pass contracts the error by 0.621 plus 56 units; induction on the number of passes; the auxiliary numbers err by 45 and 10.5 units and the root moves by at most 15 |
| C152 | model (`Model/DoubleIod`) | the ratio from C151; the part of the second position across the first errs by 18.2 units; the semi-latus rectum by 36200 units, dominated by the tolerance of the solver; error propagation through the two components of the eccentricity, the division by the cosine of the anomaly and the two-argument arctangents |
| C153 | model (`Model/DoubleGround`) | the radius of curvature to 10 units; the rows of the frame to 11 units; the frame of exact rows keeps lengths; the angles by the shift of a two-argument arctangent; the line of sight from C130; the rotation of the Earth from C139 |
| C154 | spec: exact conversion (C26), accuracy of the C library (`Spec/Libm`), `AngleNear` | both closed forms side by side; condition of the quartic; arcsine near its foot; the height is stationary at the latitude |
| C155 | models of C103 and C135 | the computed mean anomaly stays within the turn (half a unit to spare); point and velocity of an orbit as three rotations of a plane vector, so that a change of each angle costs no more than itself; two close Kepler equations; errors of the elements from C148, of `to_ijk` from C135, exact round trip from C102 |
| C156 | `Model/DoubleFiltering`: the filter and the matrix operations with every operation rounded | errors of matrices relative to a matrix of scales, multiplied and added entry by entry; products with the observation matrix are exact; one call of `process` from the two bounds, any number of calls by induction with weights of the components |
| C157 | `Model/DoubleFiltering` | determinant and cofactors relative to the scales of rows and columns, reciprocal of the computed determinant, sums of three products; entries of a covariance by the minors of two rows; the loss of a gain is quadratic in its error (C53) |
| C158 | `Model/DoubleFiltering`: the observation and its processing with every operation rounded | Hill coordinates of a point off by delta differ by at most 6 delta; the displaced point by the scaled calculus; C113 for the conversion, C129 for the prediction |
| C159 | `Model/DoubleObs`: the positions of observations with every operation rounded | the frame of a site is a rotation by the longitude after one by the latitude, so errors of the two angles add; C154 for them, C139 and C110 for the rotation of the Earth; for IJK of GCRF the two rotations compose to the equation of the equinoxes |
| C160 | `Model/DoubleAttitude`: the axes and slew times with every operation rounded; `Spec.NearTriad` says what an almost orthogonal right-handed triad is | a cross product is within 3u of the product of the lengths of the exact one, and the exact one has that product times the sine; C140 for the Sun and C111 for the angle |
| C161 | `Model/DoubleNoise`: rotation, noise and observation with every operation rounded | each component of the vector and of the cross product with the z axis keeps its relative accuracy, so the axes of both rotations do; the exact rotation depends only on the direction of the axis and is an isometry |
| C162 | `Props/HohmannBest`: the model of `Hohmann` as it is | energy and momentum of the motion fix its radial speed at both radii from its transverse speed; faster than planned costs more at the second burn as well as the first, slower than planned costs more at the first as well as the second; falling transfers by exchanging the ends |
| C163 | `Spec/Draws`: the product of two standard normal laws and the uniform law on [0, 1] as the law of the draws | the noisy vector in closed form is a sum of products of functions of one draw each; characteristic function of the normal law, integrals over a turn, Parseval for the three directions; a draw that raises has probability zero |
| C164 | the filter as it is, after any list of calls | the gain of the filter is at least as good as any other, in particular as the one that uses only the measurements; the transition matrix solved for the final velocity, with bounds of sine and cosine up to one radian |
| C165 | `OnEllipsoid` of `Spec/Geodesy` | along the normal, the squared distance to another point of the ellipsoid exceeds the squared height by a quadratic form which is positive above the centre of curvature; the closed form finds the height above it |
| C166 | `HarmonicOnNhd` of Mathlib | the derivatives of the Legendre polynomials satisfy their differential equation (Rodrigues' formula, induction), so every spherical harmonic of any degree and order has zero Laplacian; combined with C35, C36 and C80 |
| C167 | `RK4.stepToEpoch` and `RK4.step` called by clients that work through a list; `Spec.Route` describes the schedule | one step from near the motion (C96's uniform local error and stability), `step_to_epoch` over a short hop is one step or nothing, induction along the route with the error seen from its end |
| C168 | `RK4.stepToEpoch` and `RK4.step` as in C167; `RK4.Flight` is a motion that need not have a derivative at midnight, `Spec.midnights` counts the midnights of a schedule | on either side of a midnight the force law is a smooth function (the hour angle with the day held fixed), a motion continues beyond the midnight as a solution of each of them, a step over the midnight is off by a multiple of its length, compactness gives one constant, induction along the route; existence by gluing two solutions |
| C169 | `GCRF.derivative` and its parts as in C40-C43; `Spec.perturbation` is the explicit bound | the difference of the attraction at two points outside a sphere of radius rho is at most 2/rho³ times their distance (tides), the geopotential terms are bounded one by one with the field's coefficients, rotations preserve lengths |
| C170 | `RK4.Flight` as in C168, `ClassicalElements.fromIjk`/`toIjk` as in C125 | the perturbed motion has the derivative of the force law from the right also at midnights; its difference from the two-body motion through the same state has a second derivative of at most w² times its length plus eps, and Gronwall's inequality in the larger of w times its length and its velocity gives the velocity, a second integration the position; C125 for the two-body motion and C168 for the propagator |
| C171 | `RK4.Flight` as in C168, `Spec.perturbation` as in C169 | around every point where the force law can be evaluated there are solutions for a uniform time, from the right also at midnights; on a compact tube around the two-body orbit these times have a common positive bound, and the drift of C170 keeps the motion inside the tube, so that it can be continued past T; points of the orbit are at distance at least r cos i from the axis; C170 then applies |
| C172 | `RK4.Flight` as in C168, `Spec.perturbation` as in C169, `Spec.energy` | the power is the product of the velocity and the perturbing acceleration, and the speed is bounded by the energy itself, which is compared with the solution of the limiting differential equation; the torque is at most hi times the perturbation; `fromIjk_bound` links energy and angular momentum to the elements; C168 and continuity for the propagator |
| C173 | `Hill.new`, `Hill.stepBySeconds` as in C48 | amplitude and phase form of the transition matrix; the determinant of the in-plane velocity block is 4 sin h (4 sin h - 3 h cos h)/n² with h half the angle travelled, positive before one revolution because tan h exceeds h |
| C174 | `RK4.step`, `RK4.stepToEpoch`, `Spec.perturbation` as in C169 | the four stages are compared with the two-body motion, whose acceleration has a second derivative of at most 52 mu^2 / lo^5 (energy and Cauchy-Schwarz); Taylor's formula and the Lipschitz constant 2 mu / lo^3 bound the defect of a step, the stages stay in the tube of C171, and induction on the steps adds the defects up |
| C175 | `F64.rk4Steps`, `F64.rk4StepToEpoch` as in C146 | C174's comparison of the four stages with the two-body motion, made again for a force law evaluated at the epochs that the program computes; the inclination keeps the stages at declinations up to 56 degrees and the energy keeps the speed below 12 km/s, which are the conditions under which C146 bounds the rounding errors; triangle inequality |
| C176 | `RK4.step`, `RK4.stepToEpoch` with negative step sizes | a step of -h seconds is a step of h seconds along the reversed motion with the reversed velocity, so that the comparison of C174 applies; for the way back the reversed motion starts with the errors of the way there, and they grow on as if the time had gone on to 2T |
| C177 | `Spacecraft.detect`, `visualMagnitude`, the angles and `Vec3.angle` | a ball of radius d at distance rho is seen under arcsin(d/rho), and angles obey the triangle inequality on the sphere; brightness falls with the range and rises with the Sun angle; the case shown is a fresh pair of spacecraft after one tracking call, with a target detected anywhere within ten metres of its predicted place |
| C178 | `GroundSite.anglesAndRange`, `GroundObservation.new`, `PositionConvert.gcrfToItrf` | the frame conversion is linear and stretches by at most 5.5e-9, and the local frame is orthonormal; elevation is a right angle less the angle from the zenith, so C177 applies, and azimuth is the angle between the horizontal parts; visibility by C130 |
| C179 | `Spacecraft.detect` and the vectors to Sun, Moon, Earth and target | the vectors to Sun, Moon and Earth move with the observer, so C177_angle applies to either side of each angle in turn; the case shown is a fresh pair after one tracking call, with 100 m for the observer and 5 m for the relative position |
| C180 | `Spacecraft.stepToEpoch`, `updateAttitude`, `RK4.stepToEpoch`, `ClassicalElements.toIjk`, `GroundSite.anglesAndRange` | a new spacecraft has no thrust and no radiation pressure in its propagator and its attitude update cannot fail, so C174 gives the distance of the two positions and C178 what a site makes of it |
| C181 | two filters side by side; quadratic forms of their covariances | induction over both histories: the gain is the best one (C53), so the gain of the less certain filter is no better, and prediction and update are monotone for a fixed gain; for repeated observations the transition matrix is the identity and position and velocity stay uncorrelated, so that only the noise is added |
| C182 | two filters side by side; `Spec.Within` (C108) | the covariances bound each other by C181, and symmetric matrices with the same quadratic form are equal; filters with the same covariance have the same gain, so the difference of the estimates is updated like an error without measurement noise |
| C183 | `Spec.combined`, the variance of the best combination of two independent estimates | the covariance stays diagonal, so each position variance is a fold of `Spec.combined` with the noise added before each step; without the noise the fold is invariant under permutations, and with it at most the sum of the noise larger, as combining is monotone and never magnifies a difference; the counterexample from C107 |
| C184 | the order of symmetric matrices, the observation as constructed by its user | the errors in the frame of the observer are computed in closed form, shown to grow in each component with the range error, and compared by the monotonicity behind C181; the counterexample by C107, as the displacement has no along-track component |
| C185 | `Spec.Sighting` and its turned copy, made into observations by the constructor | Hill coordinates are invariant (C132), so the filter sees the same as soon as the displaced sighting turns along; without angular error it is a multiple of the direction, and about the polar axis the right ascension shifts by the angle; induction over the list; the counterexample from C184 and C107 |
