{
 "claims": [
  {
   "property": "C01",
   "status": "proved",
   "theorems": [
    "Openspace.C01_vec3",
    "Openspace.C01_vec6",
    "Openspace.C01_mat3",
    "Openspace.C01_mat36",
    "Openspace.C01_mat63",
    "Openspace.C01_mat6",
    "Openspace.C01_cross"
   ],
   "note": "Matrix and vector classes compute the textbook linear algebra"
  },
  {
   "property": "C02",
   "status": "proved",
   "theorems": [
    "Openspace.C02_inverse"
   ],
   "note": "Matrix3D.inverse is the inverse or raises"
  },
  {
   "property": "C03",
   "status": "proved",
   "theorems": [
    "Openspace.C03_normalized"
   ],
   "note": "normalized() yields a unit vector in the same direction"
  },
  {
   "property": "C04",
   "status": "proved",
   "theorems": [
    "Openspace.C04_angle",
    "Openspace.C04_angle_laws"
   ],
   "note": "angle() is the geometric angle and never leaves [0, pi]"
  },
  {
   "property": "C05",
   "status": "proved",
   "theorems": [
    "Openspace.C05_rodrigues",
    "Openspace.C05_decomposition",
    "Openspace.C05_isometry",
    "Openspace.C05_compose"
   ],
   "note": "Rotation about an axis is a proper rotation"
  },
  {
   "property": "C06",
   "status": "proved",
   "theorems": [
    "Openspace.C06_magnitude_noise",
    "Openspace.C06_angular_noise",
    "Openspace.C06_noise",
    "Openspace.C06_magnitude_direction",
    "Openspace.C06_noise_direction",
    "Openspace.C06_azimuth"
   ],
   "note": "Observation noise has the advertised effect for every random draw"
  },
  {
   "property": "C07",
   "status": "proved",
   "theorems": [
    "Openspace.C07_gregorian",
    "Openspace.C07_day_count"
   ],
   "note": "from_gregorian counts calendar days exactly"
  },
  {
   "property": "C08",
   "status": "proved",
   "theorems": [
    "Openspace.C08_order",
    "Openspace.C08_injective",
    "Openspace.C08_midnight"
   ],
   "note": "Distinct calendar instants give correctly ordered epochs"
  },
  {
   "property": "C09",
   "status": "proved",
   "theorems": [
    "Openspace.C09_translation"
   ],
   "note": "Epoch arithmetic is a translation"
  },
  {
   "property": "C10",
   "status": "proved",
   "theorems": [
    "Openspace.C10_range",
    "Openspace.C10_rate",
    "Openspace.C10_midnight"
   ],
   "note": "Greenwich hour angle is normalised and advances at the sidereal rate"
  },
  {
   "property": "C11",
   "status": "proved",
   "theorems": [
    "Openspace.C11_legendre"
   ],
   "note": "LegendrePolynomial is the table of associated Legendre functions"
  },
  {
   "property": "C12",
   "status": "proved",
   "theorems": [
    "Openspace.C12_coefficients"
   ],
   "note": "The geopotential coefficients are correctly de-normalised"
  },
  {
   "property": "C13",
   "status": "proved",
   "theorems": [
    "Openspace.C13_mean_motion",
    "Openspace.C13_period",
    "Openspace.C13_vis_viva"
   ],
   "note": "Orbit-size conversions invert each other"
  },
  {
   "property": "C14",
   "status": "proved",
   "theorems": [
    "Openspace.C14_semi_minor",
    "Openspace.C14_semi_parameter",
    "Openspace.C14_areal_velocity",
    "Openspace.C14_domains"
   ],
   "note": "Orbit-shape conversions invert each other"
  },
  {
   "property": "C15",
   "status": "proved",
   "theorems": [
    "Openspace.C15_speed"
   ],
   "note": "All three speed formulas and both energy formulas agree"
  },
  {
   "property": "C16",
   "status": "proved",
   "theorems": [
    "Openspace.C16_solution"
   ],
   "note": "Whatever Kepler's-equation solver returns solves Kepler's equation"
  },
  {
   "property": "C17",
   "status": "proved",
   "theorems": [
    "Openspace.C17_terminates",
    "Openspace.C17_no_exception"
   ],
   "note": "Kepler's-equation solver terminates"
  },
  {
   "property": "C18",
   "status": "proved",
   "theorems": [
    "Openspace.C18_range",
    "Openspace.C18_inverse"
   ],
   "note": "Kepler's-equation solver returns a normalised angle that inverts the mean anomaly"
  },
  {
   "property": "C19",
   "status": "proved",
   "theorems": [
    "Openspace.C19_true_anomaly"
   ],
   "note": "True anomaly and eccentric anomaly describe the same point"
  },
  {
   "property": "C20",
   "status": "proved",
   "theorems": [
    "Openspace.C20_ranges",
    "Openspace.C20_recover"
   ],
   "note": "Angle-valued element functions return normalised angles"
  },
  {
   "property": "C21",
   "status": "proved",
   "theorems": [
    "Openspace.C21_round_trip"
   ],
   "note": "Elements survive conversion to Cartesian and back"
  },
  {
   "property": "C22",
   "status": "proved",
   "theorems": [
    "Openspace.C22_frame",
    "Openspace.C22_orbit",
    "Openspace.C22_returns"
   ],
   "note": "to_ijk produces a state on the orbit described by the elements"
  },
  {
   "property": "C23",
   "status": "proved",
   "theorems": [
    "Openspace.C23_cartesian",
    "Openspace.C23_ranges",
    "Openspace.C23_spherical"
   ],
   "note": "Spherical coordinates round-trip"
  },
  {
   "property": "C24",
   "status": "proved",
   "theorems": [
    "Openspace.C24_frame",
    "Openspace.C24_inverse"
   ],
   "note": "ENZ frame is an orthonormal right-handed frame"
  },
  {
   "property": "C25",
   "status": "proved",
   "theorems": [
    "Openspace.C25_lla_to_itrf"
   ],
   "note": "Geodetic to ITRF places the site at the stated height above the ellipsoid"
  },
  {
   "property": "C26",
   "status": "proved",
   "theorems": [
    "Openspace.C26_round_trip",
    "Openspace.C26_poles"
   ],
   "note": "Geodetic coordinates survive conversion to ITRF and back"
  },
  {
   "property": "C27",
   "status": "proved",
   "theorems": [
    "Openspace.C27_site",
    "Openspace.C27_or_raises"
   ],
   "note": "Ground site built from an ITRF position stands at that position"
  },
  {
   "property": "C28",
   "status": "proved",
   "theorems": [
    "Openspace.C28_rotations",
    "Openspace.C28_itrf_tod",
    "Openspace.C28_gcrf_mod"
   ],
   "note": "Precession and Earth rotation are proper rotations at every epoch"
  },
  {
   "property": "C29",
   "status": "partial",
   "theorems": [
    "Openspace.C29_exact",
    "Openspace.C29_bound_partial",
    "Openspace.C29_violated"
   ],
   "note": "The property is false of the code: the nutation matrix is linearised, so its transpose is not its inverse. C29_violated exhibits an epoch and position that are not recovered, C29_exact gives the exact result and C29_bound_partial the error bound that does hold (C75)."
  },
  {
   "property": "C30",
   "status": "proved",
   "theorems": [
    "Openspace.C30_sun",
    "Openspace.C30_moon",
    "Openspace.C30_no_division"
   ],
   "note": "Sun and Moon stay at physical distances"
  },
  {
   "property": "C31",
   "status": "proved",
   "theorems": [
    "Openspace.C31_round_trip"
   ],
   "note": "HCW to GCRF to HCW round-trips"
  },
  {
   "property": "C32",
   "status": "proved",
   "theorems": [
    "Openspace.C32_round_trip"
   ],
   "note": "GCRF to HCW to GCRF round-trips"
  },
  {
   "property": "C33",
   "status": "proved",
   "theorems": [
    "Openspace.C33_frame",
    "Openspace.C33_raises"
   ],
   "note": "RIC frame is orthonormal and aligned with the orbit"
  },
  {
   "property": "C34",
   "status": "proved",
   "theorems": [
    "Openspace.C34_impulse"
   ],
   "note": "Impulsive manoeuvre changes only the velocity, by the commanded RIC vector"
  },
  {
   "property": "C35",
   "status": "proved",
   "theorems": [
    "Openspace.C35_gravity",
    "Openspace.C35_raises"
   ],
   "note": "Non-spherical gravity is the gradient of the geopotential"
  },
  {
   "property": "C36",
   "status": "proved",
   "theorems": [
    "Openspace.C36_inverse_square",
    "Openspace.C36_raises"
   ],
   "note": "Central gravity is inverse-square and attractive"
  },
  {
   "property": "C37",
   "status": "proved",
   "theorems": [
    "Openspace.C37_unperturbed",
    "Openspace.C37_perturbed"
   ],
   "note": "State derivative is velocity and the sum of the enabled accelerations"
  },
  {
   "property": "C38",
   "status": "partial",
   "theorems": [
    "Openspace.C38_kinematic_partial",
    "Openspace.C38_violated"
   ],
   "note": "The property is false of the code: copy() goes through the constructor and resets thrust, srp_scalar and use_perturbations (C38_violated). C38_kinematic_partial proves what is kept: epoch, position, velocity, vector."
  },
  {
   "property": "C39",
   "status": "partial",
   "theorems": [
    "Openspace.C39_initial_partial",
    "Openspace.C39_violated"
   ],
   "note": "The property is false of the code: RK4 copies the state it is given and copy() drops srp_scalar. C39_violated proves, for every history of calls on freshly constructed spacecraft, that the propagated state has srp_scalar 0 while the spacecraft's own scalar is positive; C39_initial_partial shows that the stored initial_state does carry it. C76 states the consequence."
  },
  {
   "property": "C40",
   "status": "partial",
   "theorems": [
    "Openspace.C40_violated",
    "Openspace.C40_constructor_violated",
    "Openspace.C40_zero_span_partial",
    "Openspace.C40_violated_witness"
   ],
   "note": "The property is false of the code: every successful step builds a new GCRF whose use_perturbations is True (C40_violated), and so does the RK4 constructor (C40_constructor_violated). C40_zero_span_partial: only requests that take no step keep the switch. C40_violated_witness is a concrete successful run in which it fails."
  },
  {
   "property": "C41",
   "status": "proved",
   "theorems": [
    "Openspace.C41_lands",
    "Openspace.C41_zero_span"
   ],
   "note": "step_to_epoch lands exactly on the requested epoch with bounded steps"
  },
  {
   "property": "C42",
   "status": "proved",
   "theorems": [
    "Openspace.C42_classical",
    "Openspace.C42_quadrature",
    "Openspace.C42_linear"
   ],
   "note": "RK4.step is the classical fourth-order Runge-Kutta step"
  },
  {
   "property": "C43",
   "status": "proved",
   "theorems": [
    "Openspace.C43_thrust",
    "Openspace.C43_off",
    "Openspace.C43_limit"
   ],
   "note": "Thrust acceleration is thrust over current mass"
  },
  {
   "property": "C44",
   "status": "proved",
   "theorems": [
    "Openspace.C44_duration",
    "Openspace.C44_rocket",
    "Openspace.C44_zero_burn"
   ],
   "note": "Burn duration obeys the rocket equation and thrust is off afterwards"
  },
  {
   "property": "C45",
   "status": "partial",
   "theorems": [
    "Openspace.C45_violated",
    "Openspace.C45_amount_partial",
    "Openspace.C45_violated_witness"
   ],
   "note": "The property is false of the code: propellant_mass is decreased by a negative number, so it grows by the amount that should have been consumed (C45_violated). C45_amount_partial: the absolute amount is right. C45_violated_witness is a concrete successful run in which it fails."
  },
  {
   "property": "C46",
   "status": "partial",
   "theorems": [
    "Openspace.C46_direction_partial",
    "Openspace.C46_violated",
    "Openspace.C46_violated_witness"
   ],
   "note": "The property is false of the code: the RIC vector is multiplied by the frame matrix instead of its transpose. C46_direction_partial gives the direction actually flown, C46_violated an orbit position where a radial-out burn is flown straight down. C46_violated_witness is a concrete successful run in which it fails."
  },
  {
   "property": "C47",
   "status": "partial",
   "theorems": [
    "Openspace.C47_within_step_partial",
    "Openspace.C47_violated",
    "Openspace.C47_violated_witness"
   ],
   "note": "The property is false of the code: thrust_vector(0) at the start of each step uses m0, the mass at ignition (C47_violated). C47_within_step_partial proves the depletion law inside one step. C47_violated_witness is a concrete successful run in which it fails."
  },
  {
   "property": "C48",
   "status": "proved",
   "theorems": [
    "Openspace.C48_mean_motion",
    "Openspace.C48_identity",
    "Openspace.C48_group",
    "Openspace.C48_solves",
    "Openspace.C48_unique",
    "Openspace.C48_inverse",
    "Openspace.C48_raises"
   ],
   "note": "Hill transition matrix solves the Clohessy-Wiltshire equations"
  },
  {
   "property": "C49",
   "status": "proved",
   "theorems": [
    "Openspace.C49_compose",
    "Openspace.C49_step",
    "Openspace.C49_invariants",
    "Openspace.C49_periodic",
    "Openspace.C49_drift"
   ],
   "note": "Hill propagation composes and keeps the relative-motion invariants"
  },
  {
   "property": "C50",
   "status": "partial",
   "theorems": [
    "Openspace.C50_violated"
   ],
   "note": "The property is false of the code: HCW.from_state_vector resets the epoch, so after every step the relative state has epoch 0 (C50_violated holds for every epoch but 0). C49 covers what a step does to the relative state itself."
  },
  {
   "property": "C51",
   "status": "proved",
   "theorems": [
    "Openspace.C51_covariance",
    "Openspace.C51_variances"
   ],
   "note": "Filter covariance stays symmetric positive semidefinite"
  },
  {
   "property": "C52",
   "status": "proved",
   "theorems": [
    "Openspace.C52_determinant",
    "Openspace.C52_never_singular",
    "Openspace.C52_gain",
    "Openspace.C52_succeeds"
   ],
   "note": "The filter's update never meets a singular innovation matrix"
  },
  {
   "property": "C53",
   "status": "proved",
   "theorems": [
    "Openspace.C53_optimal"
   ],
   "note": "Each measurement update is the optimal (minimum-variance) update and never increases uncertainty"
  },
  {
   "property": "C54",
   "status": "proved",
   "theorems": [
    "Openspace.C54_exact_measurement",
    "Openspace.C54_no_innovation",
    "Openspace.C54_bookkeeping",
    "Openspace.C54_initial"
   ],
   "note": "Filter state update is consistent with the measurement"
  },
  {
   "property": "C55",
   "status": "proved",
   "theorems": [
    "Openspace.C55_round_trip",
    "Openspace.C55_north_through_east"
   ],
   "note": "Ground observations keep azimuth, elevation and range"
  },
  {
   "property": "C56",
   "status": "proved",
   "theorems": [
    "Openspace.C56_site",
    "Openspace.C56_from_itrf"
   ],
   "note": "A simulated ground observation reproduces the target"
  },
  {
   "property": "C57",
   "status": "partial",
   "theorems": [
    "Openspace.C57_ratio_partial",
    "Openspace.C57_partial",
    "Openspace.C57_equatorial_violated"
   ],
   "note": "Proved for every pair of positions that do not both lie in the equatorial plane, and false there: node and argument of latitude are both atan2(0, 0), so the returned ellipse is turned about the pole and misses the first position (C57_equatorial_violated)."
  },
  {
   "property": "C58",
   "status": "proved",
   "theorems": [
    "Openspace.C58_domain",
    "Openspace.C58_loop",
    "Openspace.C58_errors",
    "Openspace.C58_fuel",
    "Openspace.C58_root"
   ],
   "note": "Gauss secant iteration only stops near a root and fails only by domain"
  },
  {
   "property": "C59",
   "status": "partial",
   "theorems": [
    "Openspace.C59_partial",
    "Openspace.C59_violated"
   ],
   "note": "The property is false of the code: 2 pi is added at most once to a difference that can be as low as -3 pi. C59_violated gives two observations for which the result is negative, C59_partial proves the range (-pi, 2 pi) that does hold."
  },
  {
   "property": "C60",
   "status": "proved",
   "theorems": [
    "Openspace.C60_attitude",
    "Openspace.C60_modes"
   ],
   "note": "Attitude axes form a right-handed orthogonal triad pointing where the mode says"
  },
  {
   "property": "C61",
   "status": "proved",
   "theorems": [
    "Openspace.C61_invariant",
    "Openspace.C61_no_attribute_error"
   ],
   "note": "No API history reaches an unset attribute"
  },
  {
   "property": "C62",
   "status": "partial",
   "theorems": [
    "Openspace.C62_partial",
    "Openspace.C62_once_partial",
    "Openspace.C62_violated"
   ],
   "note": "The property is false of the code: a first mode change whose old or new pointing direction is the zero vector raises ZeroDivisionError after slewing was set and before slew_stop was, so every later update raises AttributeError (C62_violated). C62_partial: any other failure, at any point, leaves the spacecraft usable; C62_once_partial: after one completed mode change it cannot happen."
  },
  {
   "property": "C63",
   "status": "partial",
   "theorems": [
    "Openspace.C63_partial",
    "Openspace.C63_ignored_violated",
    "Openspace.C63_violated"
   ],
   "note": "The property is false of the code: when the mode is already 'target', track_state ignores its argument (C63_ignored_violated, and C63_violated with a reachable history). C63_partial proves it from every other mode, for track_state and acquire."
  },
  {
   "property": "C64",
   "status": "proved",
   "theorems": [
    "Openspace.C64_starts",
    "Openspace.C64_bounded",
    "Openspace.C64_not_before",
    "Openspace.C64_ends"
   ],
   "note": "Slews have bounded duration and end"
  },
  {
   "property": "C65",
   "status": "proved",
   "theorems": [
    "Openspace.C65_synchronised",
    "Openspace.C65_terminates"
   ],
   "note": "In exact arithmetic. C97, C98 and C99 treat the same calls with rounding to doubles: termination holds, equality of the clocks does not."
  },
  {
   "property": "C66",
   "status": "proved",
   "theorems": [
    "Openspace.C66_reachable",
    "Openspace.C66_true",
    "Openspace.C66_no_domain_error"
   ],
   "note": "detect() is true exactly when every constraint holds, and never raises a domain error"
  },
  {
   "property": "C67",
   "status": "partial",
   "theorems": [
    "Openspace.C67_violated",
    "Openspace.C67_observer_violated",
    "Openspace.C67_distance_partial",
    "Openspace.C67_phase_partial"
   ],
   "note": "The property is false of the code: visual_magnitude uses the body radius and albedo of the observer (C67_violated: those of the target do not matter; C67_observer_violated: those of the observer do). C67_distance_partial and C67_phase_partial prove the dependence on range and illumination."
  },
  {
   "property": "C68",
   "status": "proved",
   "theorems": [
    "Openspace.C68_characterization",
    "Openspace.C68_resolution",
    "Openspace.C68_range_error",
    "Openspace.C68_tracking_minimum"
   ],
   "note": "Camera limits are consistent"
  },
  {
   "property": "C69",
   "status": "proved",
   "theorems": [
    "Openspace.C69_defined",
    "Openspace.C69_laws",
    "Openspace.C69_signs",
    "Openspace.C69_reverse"
   ],
   "note": "Hohmann transfer obeys vis-viva and angular momentum"
  },
  {
   "property": "C70",
   "status": "partial",
   "theorems": [
    "Openspace.C70_violated",
    "Openspace.C70_raising_partial"
   ],
   "note": "The property is false of the code: both burns are negative whenever the orbit is lowered (C70_violated). C70_raising_partial proves it for transfers that do not lower the orbit."
  },
  {
   "property": "C71",
   "status": "proved",
   "theorems": [
    "Openspace.C71_parts",
    "Openspace.C71_isolated",
    "Openspace.C71_copies",
    "Openspace.C71_values",
    "Openspace.C71_copy_values"
   ],
   "note": "Constructors isolate their inputs"
  },
  {
   "property": "C72",
   "status": "proved",
   "theorems": [
    "Openspace.C72_constructors",
    "Openspace.C72_conversions",
    "Openspace.C72_spacecraft",
    "Openspace.C72_hill"
   ],
   "note": "State vector mirrors position and velocity"
  },
  {
   "property": "C73",
   "status": "proved",
   "theorems": [
    "Openspace.C73_space",
    "Openspace.C73_ijk_defined"
   ],
   "note": "Space observations report the observed vector"
  },
  {
   "property": "C74",
   "status": "proved",
   "theorems": [
    "Openspace.C74_sign",
    "Openspace.C74_conversions"
   ],
   "note": "sign and unit conversions"
  },
  {
   "property": "C75",
   "status": "proved",
   "theorems": [
    "Openspace.C75_bound",
    "Openspace.C75_not_exact"
   ],
   "note": "GCRF to ITRF and back is accurate to 1.1e-8 of the distance"
  },
  {
   "property": "C76",
   "status": "proved",
   "theorems": [
    "Openspace.C76_no_srp"
   ],
   "note": "Solar radiation pressure never accelerates a propagated spacecraft"
  },
  {
   "property": "C77",
   "status": "proved",
   "theorems": [
    "Openspace.C77_distance",
    "Openspace.C77_bijective",
    "Openspace.C77_ijk_bijective"
   ],
   "note": "Inertial and Earth-fixed positions correspond one to one"
  },
  {
   "property": "C78",
   "status": "partial",
   "theorems": [
    "Openspace.C78_violated_shared",
    "Openspace.C78_violated",
    "Openspace.C78_own_partial"
   ],
   "note": "The property is false of the code: p00 and q of every new filter are the class attributes DEFAULT_COVARIANCE and DEFAULT_NOISE themselves, and the propagator is the caller's (C78_violated_shared); C78_violated shows, for any two filters, that writing first.q.row1.x changes the second. C78_own_partial proves what holds: making a filter changes no existing object."
  },
  {
   "property": "C79",
   "status": "partial",
   "theorems": [
    "Openspace.C79_violated"
   ],
   "note": "The property is false of the code: epoch() returns the stored object (C79_violated)."
  },
  {
   "property": "C80",
   "status": "proved",
   "theorems": [
    "Openspace.C80_moon",
    "Openspace.C80_sun",
    "Openspace.C80_centre",
    "Openspace.C80_raises"
   ],
   "note": "Moon and Sun perturbations are tidal accelerations"
  },
  {
   "property": "C81",
   "status": "partial",
   "theorems": [
    "Openspace.C81_violated",
    "Openspace.C81_direction_partial"
   ],
   "note": "The property is false of the code: the Sun vector is normalised before it is divided by the squared magnitude, which is then 1, so the distance has no effect (C81_violated). C81_direction_partial proves that the acceleration points away from the Sun (for a positive scale factor), its magnitude, and that it raises exactly at the Sun."
  },
  {
   "property": "C82",
   "status": "partial",
   "theorems": [
    "Openspace.C82_state_partial",
    "Openspace.C82_step_size_violated",
    "Openspace.C82_engine_violated",
    "Openspace.C82_violated"
   ],
   "note": "The property is false of the code: nothing resets step_size and m_dot when a step raises. C82_violated gives a propagator above the pole for which a failing step_to_epoch leaves the step at 60 s and a failing manoeuvre leaves the engine burning; C82_step_size_violated and C82_engine_violated describe every failing call. C82_state_partial proves the rest: the state is that after the completed steps (up to the thrust stored for the interrupted one)."
  },
  {
   "property": "C83",
   "status": "proved",
   "theorems": [
    "Openspace.C83_time_of_flight"
   ],
   "note": "The Gauss orbit takes the time between the observations"
  },
  {
   "property": "C84",
   "status": "proved",
   "theorems": [
    "Openspace.C84_solves",
    "Openspace.C84_accuracy"
   ],
   "note": "The Gauss method solves moderate transfers"
  },
  {
   "property": "C85",
   "status": "proved",
   "theorems": [
    "Openspace.C85_foci",
    "Openspace.C85_momentum",
    "Openspace.C85_orbit_momentum"
   ],
   "note": "Ellipse shape and angular momentum formulas agree"
  },
  {
   "property": "C86",
   "status": "proved",
   "theorems": [
    "Openspace.C86_period",
    "Openspace.C86_stationary"
   ],
   "note": "The geostationary radius is geostationary"
  },
  {
   "property": "C87",
   "status": "proved",
   "theorems": [
    "Openspace.C87_observe",
    "Openspace.C87_noiseless"
   ],
   "note": "Simulated observations are of the target, with the errors of the camera used"
  },
  {
   "property": "C88",
   "status": "proved",
   "theorems": [
    "Openspace.C88_coordinates",
    "Openspace.C88_linear"
   ],
   "note": "Hill position locates the target"
  },
  {
   "property": "C89",
   "status": "proved",
   "theorems": [
    "Openspace.C89_perturbation"
   ],
   "note": "The acceleration is the Earth's central attraction up to small perturbations"
  },
  {
   "property": "C90",
   "status": "proved",
   "theorems": [
    "Openspace.C90_step",
    "Openspace.C90_propagation",
    "Openspace.C90_coast",
    "Openspace.C90_burn"
   ],
   "note": "Propagation and burns succeed and stay within a computable envelope"
  },
  {
   "property": "C91",
   "status": "proved",
   "theorems": [
    "Openspace.C91_longitude",
    "Openspace.C91_eastward"
   ],
   "note": "Earth-fixed points turn eastward with the hour angle"
  },
  {
   "property": "C92",
   "status": "proved",
   "theorems": [
    "Openspace.C92_precession"
   ],
   "note": "Precession is IAU 1976 precession"
  },
  {
   "property": "C93",
   "status": "proved",
   "theorems": [
    "Openspace.C93_reduction"
   ],
   "note": "GCRF to ITRF is the classical reduction to 4e-8 of the distance"
  },
  {
   "property": "C94",
   "status": "proved",
   "theorems": [
    "Openspace.C94_prediction"
   ],
   "note": "Relative propagation is two-body motion up to second order in the separation"
  },
  {
   "property": "C95",
   "status": "proved",
   "theorems": [
    "Openspace.C95_order"
   ],
   "note": "The propagator is of fourth order"
  },
  {
   "property": "C96",
   "status": "proved",
   "theorems": [
    "Openspace.C96_convergence"
   ],
   "note": "Propagation converges to the motion at the fourth order of the step size"
  },
  {
   "property": "C97",
   "status": "partial",
   "theorems": [
    "Openspace.C97_lands_partial",
    "Openspace.C97_steps",
    "Openspace.C97_short_partial",
    "Openspace.C97_violated"
   ],
   "note": "The property is false of the code: C97_violated steps from 59932.0 to an hour later and ends five double spacings early. C97_lands_partial bounds the error by one spacing per integration step and two more, C97_steps bounds the number of steps, C97_short_partial describes single steps."
  },
  {
   "property": "C98",
   "status": "proved",
   "theorems": [
    "Openspace.C98_update_terminates",
    "Openspace.C98_step_terminates"
   ],
   "note": "Mutual tracking terminates in double precision"
  },
  {
   "property": "C99",
   "status": "partial",
   "theorems": [
    "Openspace.C99_synchronised_partial",
    "Openspace.C99_violated"
   ],
   "note": "The property is false of the code: C99_violated shows that a clock whose last bit is 0 is never set to an epoch whose last bit is 1. C99_synchronised_partial bounds the difference."
  },
  {
   "property": "C100",
   "status": "partial",
   "theorems": [
    "Openspace.C100_round_partial",
    "Openspace.C100_half_partial",
    "Openspace.C100_violated"
   ],
   "note": "The property is false of the code: C100_violated gives a neighbourhood of mean anomalies above 2 pi + 0.86 and eccentricities between 0.86 and 0.89 where the loop never ends, even with perturbed iterates. C100_round_partial and C100_half_partial (with C17) say where it ends."
  },
  {
   "property": "C101",
   "status": "proved",
   "theorems": [
    "Openspace.C101_rounded"
   ],
   "note": "Kepler's equation is solved in double precision"
  },
  {
   "property": "C102",
   "status": "partial",
   "theorems": [
    "Openspace.C102_round_trip_partial",
    "Openspace.C102_equatorial_partial",
    "Openspace.C102_violated"
   ],
   "note": "The property is false of the code: for states in the equatorial plane the position along the orbit is lost and to_ijk returns a position on the x axis (C102_equatorial_partial, C102_violated). Proved for every bound state whose angular momentum is not along the polar axis, circular ones included (C102_round_trip_partial)."
  },
  {
   "property": "C103",
   "status": "partial",
   "theorems": [
    "Openspace.C103_violated",
    "Openspace.C103_returns_partial"
   ],
   "note": "The property is false of the code: C103_violated gives a nearly circular state with double coordinates for which from_ijk raises ValueError in double precision although its elements exist. C103_returns_partial: it returns for eccentricities from 2e-7 to 1 - 1e-12, with error bounds."
  },
  {
   "property": "C104",
   "status": "partial",
   "theorems": [
    "Openspace.C104_range_partial",
    "Openspace.C104_strict_partial",
    "Openspace.C104_violated"
   ],
   "note": "The property is false of the code: C104_violated gives angles and a normal for which exactly 2*pi is returned. C104_range_partial: never more than 2*pi and never negative; C104_strict_partial: below 2*pi unless the raw angle is negative and above -2^-50."
  },
  {
   "property": "C105",
   "status": "partial",
   "theorems": [
    "Openspace.C105_delivered_partial",
    "Openspace.C105_violated"
   ],
   "note": "The property is false of the code: C105_violated shows that no burn delivers exactly what was commanded. C105_delivered_partial: the direction is the commanded one, single-step burns deliver slightly more with an explicit bound, longer burns deliver less with explicit bounds."
  },
  {
   "property": "C106",
   "status": "partial",
   "theorems": [
    "Openspace.C106_far_partial",
    "Openspace.C106_moon_partial",
    "Openspace.C106_refusal_partial",
    "Openspace.C106_returns_partial",
    "Openspace.C106_sites_partial",
    "Openspace.C106_violated"
   ],
   "note": "The property is false of the code: C106_violated gives a position on the polar axis. C106_sites_partial and C106_returns_partial: it holds for latitudes within 89.9 degrees and heights between -300 km and 43000 km. C106_far_partial: at any distance, if the squared cosine of the latitude is at least 3.1e-6 plus 1e-15 times the squared distance in km; C106_moon_partial: up to 500000 km within 89 degrees. C106_refusal_partial: from 6000 km outwards nothing but the arcsine can raise. Missing: the exact extent of the caps at the poles, and positions farther than 31 million km."
  },
  {
   "property": "C107",
   "status": "partial",
   "theorems": [
    "Openspace.C107_certainty_partial",
    "Openspace.C107_violated"
   ],
   "note": "The property is false of the code: C107_violated gives, for every orbit radius, distance and pair of errors, an observation after which the cross-track variance is zero, whatever the filter processed before. C107_certainty_partial says exactly when this happens: a position variance is zero if and only if the displacement computed from the errors has no component along that axis, and otherwise the covariance is positive definite."
  },
  {
   "property": "C108",
   "status": "proved",
   "theorems": [
    "Openspace.C108_bound",
    "Openspace.C108_exact",
    "Openspace.C108_perfect"
   ],
   "note": "The error of the navigation filter stays within its covariance"
  },
  {
   "property": "C109",
   "status": "partial",
   "theorems": [
    "Openspace.C109_midnight_partial",
    "Openspace.C109_accuracy_partial",
    "Openspace.C109_microsecond_partial",
    "Openspace.C109_order_partial",
    "Openspace.C109_days_partial",
    "Openspace.C109_violated"
   ],
   "note": "The property is false of the code: C109_violated gives two instants with the same epoch. The other theorems state what holds: exact midnights, an error below 1.3 microseconds from 1859 to 2216, strict order from three microseconds on, and no inversion of dates."
  },
  {
   "property": "C110",
   "status": "proved",
   "theorems": [
    "Openspace.C110_accuracy",
    "Openspace.C110_daytime",
    "Openspace.C110_range"
   ],
   "note": "The Greenwich hour angle is accurate in double precision"
  },
  {
   "property": "C111",
   "status": "proved",
   "theorems": [
    "Openspace.C111_raises",
    "Openspace.C111_accuracy",
    "Openspace.C111_transverse",
    "Openspace.C111_parallel"
   ],
   "note": "The angle between two vectors in double precision"
  },
  {
   "property": "C112",
   "status": "proved",
   "theorems": [
    "Openspace.C112_angles",
    "Openspace.C112_round_trip"
   ],
   "note": "Spherical coordinates in double precision"
  },
  {
   "property": "C113",
   "status": "proved",
   "theorems": [
    "Openspace.C113_to_hcw"
   ],
   "note": "Hill coordinates in double precision"
  },
  {
   "property": "C114",
   "status": "proved",
   "theorems": [
    "Openspace.C114_to_gcrf",
    "Openspace.C114_round_trip"
   ],
   "note": "Hill coordinates and back in double precision"
  },
  {
   "property": "C115",
   "status": "proved",
   "theorems": [
    "Openspace.C115_impulse"
   ],
   "note": "Impulsive manoeuvres in double precision"
  },
  {
   "property": "C116",
   "status": "proved",
   "theorems": [
    "Openspace.C116_acquire",
    "Openspace.C116_process",
    "Openspace.C116_truth"
   ],
   "note": "acquire builds the filter from the truth, and process_wfov / process_nfov feed it what they observe"
  },
  {
   "property": "C117",
   "status": "partial",
   "theorems": [
    "Openspace.C117_partial",
    "Openspace.C117_stale_violated",
    "Openspace.C117_violated"
   ],
   "note": "The property is false of the code: C117_stale_violated states what the filter holds when the epochs differ and C117_violated is a run with an error of more than 9 km. C117_partial states that it holds when the epochs agree."
  },
  {
   "property": "C118",
   "status": "proved",
   "theorems": [
    "Openspace.C118_pace",
    "Openspace.C118_synchronised"
   ],
   "note": "The loop of the examples keeps two spacecraft exactly synchronised in double precision"
  },
  {
   "property": "C119",
   "status": "partial",
   "theorems": [
    "Openspace.C119_violated",
    "Openspace.C119_exact_partial"
   ],
   "note": "The property is false of the code in double precision: C119_violated states, for every start epoch and whole number of days, that the loop makes one step too many. C119_exact_partial states that it holds in exact arithmetic."
  },
  {
   "property": "C120",
   "status": "proved",
   "theorems": [
    "Openspace.C120_sun",
    "Openspace.C120_advances",
    "Openspace.C120_year"
   ],
   "note": "The Sun is where the published series puts it, and goes round once a year"
  },
  {
   "property": "C121",
   "status": "partial",
   "theorems": [
    "Openspace.C121_partial",
    "Openspace.C121_violated"
   ],
   "note": "The property is false of the code: C121_violated gives an epoch at which the position is 80 km off. C121_partial states that longitude and distance agree with the series at every epoch, the latitude to 48.7 arcsec and the position to 98 km."
  },
  {
   "property": "C122",
   "status": "proved",
   "theorems": [
    "Openspace.C122_advances",
    "Openspace.C122_latitude"
   ],
   "note": "The Moon keeps going round near the ecliptic"
  },
  {
   "property": "C123",
   "status": "proved",
   "theorems": [
    "Openspace.C123_two_body"
   ],
   "note": "Elements with advancing mean anomaly describe two-body motion"
  },
  {
   "property": "C124",
   "status": "proved",
   "theorems": [
    "Openspace.C124_mean_anomaly",
    "Openspace.C124_perigee"
   ],
   "note": "Elements are constant along two-body motion and the mean anomaly is a clock"
  },
  {
   "property": "C125",
   "status": "proved",
   "theorems": [
    "Openspace.C125_prediction"
   ],
   "note": "Elements predict the motion"
  },
  {
   "property": "C126",
   "status": "proved",
   "theorems": [
    "Openspace.C126_bound",
    "Openspace.C126_two_body"
   ],
   "note": "The relative filter's error stays within its covariance for a target that does not follow the Hill model"
  },
  {
   "property": "C127",
   "status": "proved",
   "theorems": [
    "Openspace.C127_sensing"
   ],
   "note": "Sensing never influences the truth"
  },
  {
   "property": "C128",
   "status": "proved",
   "theorems": [
    "Openspace.C128_local",
    "Openspace.C128_independent",
    "Openspace.C128_order"
   ],
   "note": "Spacecraft that do not track each other do not influence each other"
  },
  {
   "property": "C129",
   "status": "proved",
   "theorems": [
    "Openspace.C129_step",
    "Openspace.C129_steps"
   ],
   "note": "Relative propagation in double precision"
  },
  {
   "property": "C130",
   "status": "proved",
   "theorems": [
    "Openspace.C130_in_view",
    "Openspace.C130_out_of_view"
   ],
   "note": "Elevation tells whether a target is in view of a ground site"
  },
  {
   "property": "C131",
   "status": "partial",
   "theorems": [
    "Openspace.C131_partial",
    "Openspace.C131_violated",
    "Openspace.C131_shadow_violated"
   ],
   "note": "The property is false of the code: from 7000 km a target on the other side of the Earth is detected (C131_violated), and so is a target in the Earth's shadow (C131_shadow_violated). Proved instead: after every history the line of sight to a detected target keeps sin 20 degrees of the observer's distance from the centre of the Earth and sin 10 degrees of its distance from the Moon, so observers beyond 18649 km have a free line of sight (C131_partial)."
  },
  {
   "property": "C132",
   "status": "proved",
   "theorems": [
    "Openspace.C132_hill",
    "Openspace.C132_back",
    "Openspace.C132_impulse",
    "Openspace.C132_elements"
   ],
   "note": "Nothing depends on the choice of the inertial axes"
  },
  {
   "property": "C133",
   "status": "proved",
   "theorems": [
    "Openspace.C133_best"
   ],
   "note": "The navigation filter gives the best linear estimate from all its observations"
  },
  {
   "property": "C134",
   "status": "proved",
   "theorems": [
    "Openspace.C134_recovers"
   ],
   "note": "The Gauss method recovers the orbit of the observed object"
  },
  {
   "property": "C135",
   "status": "proved",
   "theorems": [
    "Openspace.C135_rounded"
   ],
   "note": "The state of classical elements is accurate in double precision"
  },
  {
   "property": "C136",
   "status": "proved",
   "theorems": [
    "Openspace.C136_transfer"
   ],
   "note": "A flown Hohmann plan reaches the target orbit"
  },
  {
   "property": "C137",
   "status": "proved",
   "theorems": [
    "Openspace.C137_vector",
    "Openspace.C137_state",
    "Openspace.C137_alike"
   ],
   "note": "A printed vector can be read back"
  },
  {
   "property": "C138",
   "status": "proved",
   "theorems": [
    "Openspace.C138_defined",
    "Openspace.C138_exact",
    "Openspace.C138_magnitude",
    "Openspace.C138_detect"
   ],
   "note": "Rounding errors do not change what is detected"
  },
  {
   "property": "C139",
   "status": "proved",
   "theorems": [
    "Openspace.C139_to_itrf",
    "Openspace.C139_to_itrf_daytime",
    "Openspace.C139_to_gcrf",
    "Openspace.C139_to_gcrf_daytime",
    "Openspace.C139_round_trip",
    "Openspace.C139_reduction"
   ],
   "note": "Earth-fixed positions in double precision"
  },
  {
   "property": "C140",
   "status": "proved",
   "theorems": [
    "Openspace.C140_sun",
    "Openspace.C140_sun_series",
    "Openspace.C140_moon",
    "Openspace.C140_moon_distance"
   ],
   "note": "The Sun and the Moon in double precision"
  },
  {
   "property": "C141",
   "status": "proved",
   "theorems": [
    "Openspace.C141_earth",
    "Openspace.C141_moon",
    "Openspace.C141_sun",
    "Openspace.C141_srp"
   ],
   "note": "The accelerations in double precision"
  },
  {
   "property": "C142",
   "status": "partial",
   "theorems": [
    "Openspace.C142_raises",
    "Openspace.C142_violated",
    "Openspace.C142_thrust_partial",
    "Openspace.C142_duration"
   ],
   "note": "The property is false of the code: with a positive mass flow thrust_vector raises ZeroDivisionError whenever less than 2^-55 of the mass is spent (C142_raises, C142_violated). Proved instead: at the start of a step, and once 2^-52 of the mass is spent until nine tenths are, the thrust has a relative error below 4e-15 (C142_thrust_partial); the burn time has the stated accuracy (C142_duration)."
  },
  {
   "property": "C143",
   "status": "proved",
   "theorems": [
    "Openspace.C143_gravity",
    "Openspace.C143_gravity_daytime",
    "Openspace.C143_gravity_inertial"
   ],
   "note": "Geopotential acceleration in double precision"
  },
  {
   "property": "C144",
   "status": "proved",
   "theorems": [
    "Openspace.C144_two_body",
    "Openspace.C144_derivative",
    "Openspace.C144_derivative_daytime"
   ],
   "note": "Acceleration of a state in double precision"
  },
  {
   "property": "C145",
   "status": "proved",
   "theorems": [
    "Openspace.C145_step",
    "Openspace.C145_step_daytime",
    "Openspace.C145_step_reach"
   ],
   "note": "A step of the inertial propagator in double precision"
  },
  {
   "property": "C146",
   "status": "proved",
   "theorems": [
    "Openspace.C146_steps",
    "Openspace.C146_steps_daytime",
    "Openspace.C146_steps_reach",
    "Openspace.C146_step_to_epoch"
   ],
   "note": "Propagation over many steps in double precision"
  },
  {
   "property": "C147",
   "status": "proved",
   "theorems": [
    "Openspace.C147_frame",
    "Openspace.C147_design",
    "Openspace.C147_untouched"
   ],
   "note": "What a call can change"
  },
  {
   "property": "C148",
   "status": "proved",
   "theorems": [
    "Openspace.C148_angles"
   ],
   "note": "Angles of the classical elements in double precision"
  },
  {
   "property": "C149",
   "status": "proved",
   "theorems": [
    "Openspace.C149_returns",
    "Openspace.C149_accurate"
   ],
   "note": "Hohmann transfers in double precision"
  },
  {
   "property": "C150",
   "status": "proved",
   "theorems": [
    "Openspace.C150_units",
    "Openspace.C150_relative",
    "Openspace.C150_size",
    "Openspace.C150_absolute",
    "Openspace.C150_eccentricity",
    "Openspace.C150_minor_axis",
    "Openspace.C150_cancellation",
    "Openspace.C150_conic"
   ],
   "note": "Orbit formulas in double precision"
  },
  {
   "property": "C151",
   "status": "proved",
   "theorems": [
    "Openspace.C151_solve",
    "Openspace.C151_ratio"
   ],
   "note": "The iteration of Gauss's method in double precision"
  },
  {
   "property": "C152",
   "status": "proved",
   "theorems": [
    "Openspace.C152_elements"
   ],
   "note": "Elements found by Gauss's method in double precision"
  },
  {
   "property": "C153",
   "status": "proved",
   "theorems": [
    "Openspace.C153_site",
    "Openspace.C153_look_angles",
    "Openspace.C153_look_angles_daytime",
    "Openspace.C153_in_view",
    "Openspace.C153_from_angles"
   ],
   "note": "Ground sites and look angles in double precision"
  },
  {
   "property": "C154",
   "status": "partial",
   "theorems": [
    "Openspace.C154_coordinates_partial",
    "Openspace.C154_sites_partial",
    "Openspace.C154_off_equator_partial",
    "Openspace.C154_violated",
    "Openspace.C154_wrong_hemisphere"
   ],
   "note": "The property is false of the code: near the plane of the equator the latitude loses about half of its digits (C154_violated, C154_wrong_hemisphere). Proved instead: for every position the error of the latitude is bounded, with the distance from the plane of the equator in the denominator, the longitude is within 2e-15 and the height is hardly affected (C154_coordinates_partial); for sites up to 100 km the latitude is within 1.5 cm over sine and cosine of the latitude and the height within 4 cm (C154_sites_partial), and from one to 89 degrees within a metre and 0.02 mm (C154_off_equator_partial)."
  },
  {
   "property": "C155",
   "status": "proved",
   "theorems": [
    "Openspace.C155_round_trip"
   ],
   "note": "States come back from classical elements in double precision"
  },
  {
   "property": "C156",
   "status": "proved",
   "theorems": [
    "Openspace.C156_prediction",
    "Openspace.C156_update",
    "Openspace.C156_process",
    "Openspace.C156_history"
   ],
   "note": "The covariance of the navigation filter in double precision"
  },
  {
   "property": "C157",
   "status": "proved",
   "theorems": [
    "Openspace.C157_gain",
    "Openspace.C157_optimal",
    "Openspace.C157_estimate"
   ],
   "note": "The gain of the navigation filter in double precision"
  },
  {
   "property": "C158",
   "status": "proved",
   "theorems": [
    "Openspace.C158_measurement",
    "Openspace.C158_process",
    "Openspace.C158_prediction"
   ],
   "note": "What the navigation filter makes of an observation in double precision"
  },
  {
   "property": "C159",
   "status": "proved",
   "theorems": [
    "Openspace.C159_to_ijk",
    "Openspace.C159_space",
    "Openspace.C159_ground",
    "Openspace.C159_site",
    "Openspace.C159_site_daytime"
   ],
   "note": "Inertial positions of observations in double precision"
  },
  {
   "property": "C160",
   "status": "proved",
   "theorems": [
    "Openspace.C160_lvlh",
    "Openspace.C160_solar",
    "Openspace.C160_target",
    "Openspace.C160_slew"
   ],
   "note": "Attitude in double precision"
  },
  {
   "property": "C161",
   "status": "proved",
   "theorems": [
    "Openspace.C161_rotation",
    "Openspace.C161_noise",
    "Openspace.C161_observe"
   ],
   "note": "Rotations, noise and simulated observations in double precision"
  },
  {
   "property": "C162",
   "status": "proved",
   "theorems": [
    "Openspace.C162_cheapest",
    "Openspace.C162_attained"
   ],
   "note": "No transfer with two burns is cheaper than the planned one"
  },
  {
   "property": "C163",
   "status": "proved",
   "theorems": [
    "Openspace.C163_noise",
    "Openspace.C163_bounds",
    "Openspace.C163_observe"
   ],
   "note": "Mean and spread of simulated observations"
  },
  {
   "property": "C164",
   "status": "proved",
   "theorems": [
    "Openspace.C164_position",
    "Openspace.C164_two",
    "Openspace.C164_velocity"
   ],
   "note": "The filter's uncertainty does not depend on its distant past"
  },
  {
   "property": "C165",
   "status": "proved",
   "theorems": [
    "Openspace.C165_height",
    "Openspace.C165_defined",
    "Openspace.C165_site"
   ],
   "note": "Geodetic height is the distance to the nearest point of the ellipsoid"
  },
  {
   "property": "C166",
   "status": "proved",
   "theorems": [
    "Openspace.C166_earth",
    "Openspace.C166_gravity",
    "Openspace.C166_moon",
    "Openspace.C166_sun"
   ],
   "note": "Gravitational accelerations are source-free outside the attracting bodies"
  },
  {
   "property": "C167",
   "status": "proved",
   "theorems": [
    "Openspace.C167_routes",
    "Openspace.C167_agree"
   ],
   "note": "Propagation does not depend on the route through time"
  },
  {
   "property": "C168",
   "status": "proved",
   "theorems": [
    "Openspace.C168_days",
    "Openspace.C168_convergence",
    "Openspace.C168_exists"
   ],
   "note": "Propagation over any number of days converges to the motion"
  },
  {
   "property": "C169",
   "status": "proved",
   "theorems": [
    "Openspace.C169_perturbation"
   ],
   "note": "The perturbations are as small as they should be"
  },
  {
   "property": "C170",
   "status": "proved",
   "theorems": [
    "Openspace.C170_prediction",
    "Openspace.C170_propagation"
   ],
   "note": "Elements predict the perturbed motion within explicit bounds"
  },
  {
   "property": "C171",
   "status": "proved",
   "theorems": [
    "Openspace.C171_existence",
    "Openspace.C171_propagation"
   ],
   "note": "The perturbed motion exists for an explicit time, and propagation reaches its end"
  },
  {
   "property": "C172",
   "status": "proved",
   "theorems": [
    "Openspace.C172_drift",
    "Openspace.C172_elements",
    "Openspace.C172_propagation"
   ],
   "note": "Energy, angular momentum and elements drift slowly under the perturbations"
  },
  {
   "property": "C173",
   "status": "proved",
   "theorems": [
    "Openspace.C173_ellipse",
    "Openspace.C173_bounded",
    "Openspace.C173_safe",
    "Openspace.C173_targeting",
    "Openspace.C173_half"
   ],
   "note": "The shape of relative motion, passive safety and targeting"
  },
  {
   "property": "C174",
   "status": "proved",
   "theorems": [
    "Openspace.C174_steps",
    "Openspace.C174_epoch"
   ],
   "note": "Error of propagation in a given number of steps, and of step_to_epoch"
  },
  {
   "property": "C175",
   "status": "proved",
   "theorems": [
    "Openspace.C175_steps",
    "Openspace.C175_epoch"
   ],
   "note": "Error of propagation in double precision against the elements, end to end"
  },
  {
   "property": "C176",
   "status": "proved",
   "theorems": [
    "Openspace.C176_steps",
    "Openspace.C176_earlier",
    "Openspace.C176_return"
   ],
   "note": "Propagation to earlier epochs, and there and back again"
  },
  {
   "property": "C177",
   "status": "proved",
   "theorems": [
    "Openspace.C177_angle",
    "Openspace.C177_detected",
    "Openspace.C177_missed",
    "Openspace.C177_reachable"
   ],
   "note": "Detection of a target whose position is uncertain"
  },
  {
   "property": "C178",
   "status": "proved",
   "theorems": [
    "Openspace.C178_angles",
    "Openspace.C178_in_view",
    "Openspace.C178_out_of_view"
   ],
   "note": "Look angles and passes of a target whose position is uncertain"
  },
  {
   "property": "C179",
   "status": "proved",
   "theorems": [
    "Openspace.C179_angle",
    "Openspace.C179_detected",
    "Openspace.C179_missed",
    "Openspace.C179_reachable"
   ],
   "note": "Detection when both observer and target are uncertain"
  },
  {
   "property": "C180",
   "status": "proved",
   "theorems": [
    "Openspace.C180_passes"
   ],
   "note": "Passes of a new spacecraft forecast from its elements"
  },
  {
   "property": "C181",
   "status": "partial",
   "theorems": [
    "Openspace.C181_accuracy_partial",
    "Openspace.C181_repeated_violated",
    "Openspace.C181_violated"
   ],
   "note": "The second half of the property is false of the code: every observation at the epoch of a new filter adds 1e-16 to the variances of the velocity (C181_repeated_violated), as in a concrete run (C181_violated). C181_accuracy_partial proves the first half in full."
  },
  {
   "property": "C182",
   "status": "proved",
   "theorems": [
    "Openspace.C182_blind",
    "Openspace.C182_agree"
   ],
   "note": "What the filter sees does not influence how certain it is, and filters that see the same agree"
  },
  {
   "property": "C183",
   "status": "partial",
   "theorems": [
    "Openspace.C183_order_partial",
    "Openspace.C183_order_violated",
    "Openspace.C183_violated"
   ],
   "note": "The property is false of the code: two observations processed in different orders leave the along-track variance zero or not, after every history (C183_order_violated) and in a concrete run (C183_violated). C183_order_partial states what holds: velocity estimate and variances are independent of the order, and position variances up to 1e-16 km2 for each observation."
  },
  {
   "property": "C184",
   "status": "partial",
   "theorems": [
    "Openspace.C184_range_partial",
    "Openspace.C184_violated",
    "Openspace.C184_range_violated"
   ],
   "note": "The property is false of the code: with a positive angular error a suitable positive range error leaves the along-track variance zero and a range error of zero does not, after every history (C184_violated), and for a target at the height of the observer a range error as large as the range does the same to the radial variance (C184_range_violated). C184_range_partial states what holds: without angular error and for targets not below the local horizontal plane a larger range error never reduces a variance."
  },
  {
   "property": "C185",
   "status": "partial",
   "theorems": [
    "Openspace.C185_range_partial",
    "Openspace.C185_polar_partial",
    "Openspace.C185_violated"
   ],
   "note": "The property is false of the code with angular errors: a quarter turn of all inputs makes a zero along-track variance positive (C185_violated). C185_range_partial (no angular errors, all rotations) and C185_polar_partial (all errors, rotations about the polar axis) state what holds."
  }
 ]
}