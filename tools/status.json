{
 "C29": {
  "status": "partial",
  "note": "The property is false of the code: the nutation matrix is linearised, so its transpose is not its inverse. C29_violated exhibits an epoch and position that are not recovered, C29_exact gives the exact result and C29_bound_partial the error bound that does hold (C75)."
 },
 "C38": {
  "status": "partial",
  "note": "The property is false of the code: copy() goes through the constructor and resets thrust, srp_scalar and use_perturbations (C38_violated). C38_kinematic_partial proves what is kept: epoch, position, velocity, vector."
 },
 "C39": {
  "status": "partial",
  "note": "The property is false of the code: RK4 copies the state it is given and copy() drops srp_scalar. C39_violated proves, for every history of calls on freshly constructed spacecraft, that the propagated state has srp_scalar 0 while the spacecraft's own scalar is positive; C39_initial_partial shows that the stored initial_state does carry it. C76 states the consequence."
 },
 "C40": {
  "status": "partial",
  "note": "The property is false of the code: every successful step builds a new GCRF whose use_perturbations is True (C40_violated), and so does the RK4 constructor (C40_constructor_violated). C40_zero_span_partial: only requests that take no step keep the switch. C40_violated_witness is a concrete successful run in which it fails."
 },
 "C45": {
  "status": "partial",
  "note": "The property is false of the code: propellant_mass is decreased by a negative number, so it grows by the amount that should have been consumed (C45_violated). C45_amount_partial: the absolute amount is right. C45_violated_witness is a concrete successful run in which it fails."
 },
 "C46": {
  "status": "partial",
  "note": "The property is false of the code: the RIC vector is multiplied by the frame matrix instead of its transpose. C46_direction_partial gives the direction actually flown, C46_violated an orbit position where a radial-out burn is flown straight down. C46_violated_witness is a concrete successful run in which it fails."
 },
 "C47": {
  "status": "partial",
  "note": "The property is false of the code: thrust_vector(0) at the start of each step uses m0, the mass at ignition (C47_violated). C47_within_step_partial proves the depletion law inside one step. C47_violated_witness is a concrete successful run in which it fails."
 },
 "C50": {
  "status": "partial",
  "note": "The property is false of the code: HCW.from_state_vector resets the epoch, so after every step the relative state has epoch 0 (C50_violated holds for every epoch but 0). C49 covers what a step does to the relative state itself."
 },
 "C70": {
  "status": "partial",
  "note": "The property is false of the code: both burns are negative whenever the orbit is lowered (C70_violated). C70_raising_partial proves it for transfers that do not lower the orbit."
 },
 "C62": {
  "status": "partial",
  "note": "The property is false of the code: a first mode change whose old or new pointing direction is the zero vector raises ZeroDivisionError after slewing was set and before slew_stop was, so every later update raises AttributeError (C62_violated). C62_partial: any other failure, at any point, leaves the spacecraft usable; C62_once_partial: after one completed mode change it cannot happen."
 },
 "C63": {
  "status": "partial",
  "note": "The property is false of the code: when the mode is already 'target', track_state ignores its argument (C63_ignored_violated, and C63_violated with a reachable history). C63_partial proves it from every other mode, for track_state and acquire."
 },
 "C67": {
  "status": "partial",
  "note": "The property is false of the code: visual_magnitude uses the body radius and albedo of the observer (C67_violated: those of the target do not matter; C67_observer_violated: those of the observer do). C67_distance_partial and C67_phase_partial prove the dependence on range and illumination."
 },
 "C57": {
  "status": "partial",
  "note": "Proved for every pair of positions that do not both lie in the equatorial plane, and false there: node and argument of latitude are both atan2(0, 0), so the returned ellipse is turned about the pole and misses the first position (C57_equatorial_violated)."
 },
 "C59": {
  "status": "partial",
  "note": "The property is false of the code: 2 pi is added at most once to a difference that can be as low as -3 pi. C59_violated gives two observations for which the result is negative, C59_partial proves the range (-pi, 2 pi) that does hold."
 },
 "C78": {
  "status": "partial",
  "note": "The property is false of the code: p00 and q of every new filter are the class attributes DEFAULT_COVARIANCE and DEFAULT_NOISE themselves, and the propagator is the caller's (C78_violated_shared); C78_violated shows, for any two filters, that writing first.q.row1.x changes the second. C78_own_partial proves what holds: making a filter changes no existing object."
 },
 "C79": {
  "status": "partial",
  "note": "The property is false of the code: epoch() returns the stored object (C79_violated)."
 },
 "C81": {
  "status": "partial",
  "note": "The property is false of the code: the Sun vector is normalised before it is divided by the squared magnitude, which is then 1, so the distance has no effect (C81_violated). C81_direction_partial proves that the acceleration points away from the Sun (for a positive scale factor), its magnitude, and that it raises exactly at the Sun."
 },
 "C82": {
  "status": "partial",
  "note": "The property is false of the code: nothing resets step_size and m_dot when a step raises. C82_violated gives a propagator above the pole for which a failing step_to_epoch leaves the step at 60 s and a failing manoeuvre leaves the engine burning; C82_step_size_violated and C82_engine_violated describe every failing call. C82_state_partial proves the rest: the state is that after the completed steps (up to the thrust stored for the interrupted one)."
 },
 "C65": {
  "status": "proved",
  "note": "In exact arithmetic. C97, C98 and C99 treat the same calls with rounding to doubles: termination holds, equality of the clocks does not."
 },
 "C97": {
  "status": "partial",
  "note": "The property is false of the code: C97_violated steps from 59932.0 to an hour later and ends five double spacings early. C97_lands_partial bounds the error by one spacing per integration step and two more, C97_steps bounds the number of steps, C97_short_partial describes single steps."
 },
 "C99": {
  "status": "partial",
  "note": "The property is false of the code: C99_violated shows that a clock whose last bit is 0 is never set to an epoch whose last bit is 1. C99_synchronised_partial bounds the difference."
 },
 "C100": {
  "status": "partial",
  "note": "The property is false of the code: C100_violated gives a neighbourhood of mean anomalies above 2 pi + 0.86 and eccentricities between 0.86 and 0.89 where the loop never ends, even with perturbed iterates. C100_round_partial and C100_half_partial (with C17) say where it ends."
 },
 "C102": {
  "status": "partial",
  "note": "The property is false of the code: for states in the equatorial plane the position along the orbit is lost and to_ijk returns a position on the x axis (C102_equatorial_partial, C102_violated). Proved for every bound state whose angular momentum is not along the polar axis, circular ones included (C102_round_trip_partial)."
 },
 "C103": {
  "status": "partial",
  "note": "The property is false of the code: C103_violated gives a nearly circular state with double coordinates for which from_ijk raises ValueError in double precision although its elements exist. C103_returns_partial: it returns for eccentricities from 2e-7 to 1 - 1e-12, with error bounds."
 },
 "C104": {
  "status": "partial",
  "note": "The property is false of the code: C104_violated gives angles and a normal for which exactly 2*pi is returned. C104_range_partial: never more than 2*pi and never negative; C104_strict_partial: below 2*pi unless the raw angle is negative and above -2^-50."
 },
 "C105": {
  "status": "partial",
  "note": "The property is false of the code: C105_violated shows that no burn delivers exactly what was commanded. C105_delivered_partial: the direction is the commanded one, single-step burns deliver slightly more with an explicit bound, longer burns deliver less with explicit bounds."
 },
 "C106": {
  "status": "partial",
  "note": "The property is false of the code: C106_violated gives a position on the polar axis. C106_sites_partial and C106_returns_partial: it holds for latitudes within 89.9 degrees and heights between -300 km and 43000 km. C106_far_partial: at any distance, if the squared cosine of the latitude is at least 3.1e-6 plus 1e-15 times the squared distance in km; C106_moon_partial: up to 500000 km within 89 degrees. C106_refusal_partial: from 6000 km outwards nothing but the arcsine can raise. Missing: the exact extent of the caps at the poles, and positions farther than 31 million km."
 },
 "C107": {
  "status": "partial",
  "note": "The property is false of the code: C107_violated gives, for every orbit radius, distance and pair of errors, an observation after which the cross-track variance is zero, whatever the filter processed before. C107_certainty_partial says exactly when this happens: a position variance is zero if and only if the displacement computed from the errors has no component along that axis, and otherwise the covariance is positive definite."
 },
 "C109": {
  "status": "partial",
  "note": "The property is false of the code: C109_violated gives two instants with the same epoch. The other theorems state what holds: exact midnights, an error below 1.3 microseconds from 1859 to 2216, strict order from three microseconds on, and no inversion of dates."
 },
 "C117": {
  "status": "partial",
  "note": "The property is false of the code: C117_stale_violated states what the filter holds when the epochs differ and C117_violated is a run with an error of more than 9 km. C117_partial states that it holds when the epochs agree."
 },
 "C119": {
  "status": "partial",
  "note": "The property is false of the code in double precision: C119_violated states, for every start epoch and whole number of days, that the loop makes one step too many. C119_exact_partial states that it holds in exact arithmetic."
 },
 "C121": {
  "status": "partial",
  "note": "The property is false of the code: C121_violated gives an epoch at which the position is 80 km off. C121_partial states that longitude and distance agree with the series at every epoch, the latitude to 48.7 arcsec and the position to 98 km."
 },
 "C131": {
  "status": "partial",
  "note": "The property is false of the code: from 7000 km a target on the other side of the Earth is detected (C131_violated), and so is a target in the Earth's shadow (C131_shadow_violated). Proved instead: after every history the line of sight to a detected target keeps sin 20 degrees of the observer's distance from the centre of the Earth and sin 10 degrees of its distance from the Moon, so observers beyond 18649 km have a free line of sight (C131_partial)."
 },
 "C142": {
  "status": "partial",
  "note": "The property is false of the code: with a positive mass flow thrust_vector raises ZeroDivisionError whenever less than 2^-55 of the mass is spent (C142_raises, C142_violated). Proved instead: at the start of a step, and once 2^-52 of the mass is spent until nine tenths are, the thrust has a relative error below 4e-15 (C142_thrust_partial); the burn time has the stated accuracy (C142_duration)."
 },
 "C154": {
  "status": "partial",
  "note": "The property is false of the code: near the plane of the equator the latitude loses about half of its digits (C154_violated, C154_wrong_hemisphere). Proved instead: for every position the error of the latitude is bounded, with the distance from the plane of the equator in the denominator, the longitude is within 2e-15 and the height is hardly affected (C154_coordinates_partial); for sites up to 100 km the latitude is within 1.5 cm over sine and cosine of the latitude and the height within 4 cm (C154_sites_partial), and from one to 89 degrees within a metre and 0.02 mm (C154_off_equator_partial)."
 },
 "C181": {
  "status": "partial",
  "note": "The second half of the property is false of the code: every observation at the epoch of a new filter adds 1e-16 to the variances of the velocity (C181_repeated_violated), as in a concrete run (C181_violated). C181_accuracy_partial proves the first half in full."
 },
 "C183": {
  "status": "partial",
  "note": "The property is false of the code: two observations processed in different orders leave the along-track variance zero or not, after every history (C183_order_violated) and in a concrete run (C183_violated). C183_order_partial states what holds: velocity estimate and variances are independent of the order, and position variances up to 1e-16 km2 for each observation."
 },
 "C184": {
  "status": "partial",
  "note": "The property is false of the code: with a positive angular error a suitable positive range error leaves the along-track variance zero and a range error of zero does not, after every history (C184_violated), and for a target at the height of the observer a range error as large as the range does the same to the radial variance (C184_range_violated). C184_range_partial states what holds: without angular error and for targets not below the local horizontal plane a larger range error never reduces a variance."
 },
 "C185": {
  "status": "partial",
  "note": "The property is false of the code with angular errors: a quarter turn of all inputs makes a zero along-track variance positive (C185_violated). C185_range_partial (no angular errors, all rotations) and C185_polar_partial (all errors, rotations about the polar axis) state what holds."
 }
}