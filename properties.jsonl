{"id": "C01", "title": "Matrix and vector classes compute the textbook linear algebra", "statement": "Every product, sum, difference, transpose, column and diagonal method of Vector3D/Vector6D/Matrix3D/Matrix3by6/Matrix6by3/Matrix6D returns exactly the corresponding real vector or matrix operation (entry by entry), for all operands.", "quantifier": "all vectors and matrices with arbitrary real entries", "why_tests_cant": "the methods are hand-unrolled over up to 36 entries; a transposed index or repeated column shows only on inputs that separate those entries", "anchors": ["src/openspace/math/linalg.py:Matrix3D", "src/openspace/math/linalg.py:Matrix3by6", "src/openspace/math/linalg.py:Matrix6by3", "src/openspace/math/linalg.py:Matrix6D", "src/openspace/math/linalg.py:Vector6D", "src/openspace/math/linalg.py:Vector3D"]}
{"id": "C02", "title": "Matrix3D.inverse is the inverse or raises", "statement": "Matrix3D.inverse() returns the two-sided inverse of the matrix whenever determinant() is not zero, and raises ZeroDivisionError exactly when the determinant is zero; determinant() is the mathematical determinant.", "quantifier": "all 3x3 real matrices, singular and regular", "why_tests_cant": "tests sample a few matrices; a sign error in one cofactor can hide behind symmetric or sparse samples", "anchors": ["src/openspace/math/linalg.py:Matrix3D.inverse", "src/openspace/math/linalg.py:Matrix3D.cofactor", "src/openspace/math/linalg.py:Matrix3D.adjugate", "src/openspace/math/linalg.py:Matrix3D.determinant"]}
{"id": "C03", "title": "normalized() yields a unit vector in the same direction", "statement": "Vector3D.normalized() returns a vector of length one that is a positive multiple of the input for every non-zero vector, and raises ZeroDivisionError exactly for the zero vector.", "quantifier": "all 3-vectors", "why_tests_cant": "the property is about every direction and magnitude including the degenerate one", "anchors": ["src/openspace/math/linalg.py:Vector3D.normalized", "src/openspace/math/linalg.py:Vector3D.magnitude", "src/openspace/math/linalg.py:Vector3D.scaled"]}
{"id": "C04", "title": "angle() is the geometric angle and never leaves [0, pi]", "statement": "Vector3D.angle(b) returns the geometric angle between two non-zero vectors: in [0, pi], symmetric, unchanged by positive scaling of either argument; it raises ZeroDivisionError exactly when one of the vectors is zero and never a math domain error.", "quantifier": "all pairs of 3-vectors", "why_tests_cant": "the clamp around acos is only exercised by (anti)parallel pairs; the claim ranges over all pairs", "anchors": ["src/openspace/math/linalg.py:Vector3D.angle"]}
{"id": "C05", "title": "Rotation about an axis is a proper rotation", "statement": "v.rotation_about_axis(axis, theta) preserves all lengths, dot products and cross products, leaves the axis fixed, is undone by rotating through -theta, composes additively (theta1 then theta2 equals theta1+theta2), turns a vector perpendicular to the axis by exactly theta in the right-handed sense, and raises ZeroDivisionError exactly when the axis is the zero vector.", "quantifier": "all vectors, all axes (not only unit ones), all angles", "why_tests_cant": "unit tests check one vector/axis/angle; orthogonality and the group law range over all of them", "anchors": ["src/openspace/math/linalg.py:Vector3D.rotation_matrix", "src/openspace/math/linalg.py:Vector3D.rotation_about_axis"]}
{"id": "C06", "title": "Observation noise has the advertised effect for every random draw", "statement": "with_magnitude_noise(s) scales the vector by (m + s*z)/m, so that its length becomes |m + s*z|, where m is the true length and z the standard normal draw; with_angular_noise(s) keeps the length exactly and tilts the direction by exactly |s*z| (when at most pi) for every draw, towards an azimuth that turns a full circle with the uniform draw; with_noise does one after the other; with_angular_noise raises ZeroDivisionError exactly when the vector lies on the z axis.", "quantifier": "all vectors, all error sizes and all outcomes of the random generator", "why_tests_cant": "tests cannot enumerate random draws", "anchors": ["src/openspace/math/linalg.py:Vector3D.with_noise", "src/openspace/math/linalg.py:Vector3D.with_magnitude_noise", "src/openspace/math/linalg.py:Vector3D.with_angular_noise"]}
{"id": "C07", "title": "from_gregorian counts calendar days exactly", "statement": "Epoch.from_gregorian(y,m,d,0,0,0) is the number of days from 1858-11-17 in the Gregorian calendar: it is 0 on that date and grows by exactly one from each calendar date to the next, across month ends, leap and century years, for all years past and future.", "quantifier": "all valid Gregorian dates (all integer years)", "why_tests_cant": "the calendar is infinite; leap-century rules and the 30.6001 month formula can be wrong on dates nobody tested", "anchors": ["src/openspace/time.py:Epoch.from_gregorian"]}
{"id": "C08", "title": "Distinct calendar instants give correctly ordered epochs", "statement": "For valid dates and times of day (0<=h<24, 0<=min<60, 0<=s<60) the epoch value is strictly increasing in the lexicographic order of (year, month, day, hour, minute, second), so different instants never collide; 24:00 of a date equals 00:00 of the next date.", "quantifier": "all pairs of valid calendar instants", "why_tests_cant": "ordering is a statement about pairs over an infinite domain", "anchors": ["src/openspace/time.py:Epoch.from_gregorian", "src/openspace/math/functions.py:Conversions.hms_to_decimal_day"]}
{"id": "C09", "title": "Epoch arithmetic is a translation", "statement": "plus_days is additive (plus_days(s) then plus_days(t) equals plus_days(s+t)), plus_days(0) and copy() preserve the value, julian_value is value+2400000.5, and julian_centuries_past_j2000 is zero exactly at J2000 and grows by one every 36525 days.", "quantifier": "all epochs and all offsets", "why_tests_cant": "algebraic laws over all reals", "anchors": ["src/openspace/time.py:Epoch.plus_days", "src/openspace/time.py:Epoch.copy", "src/openspace/time.py:Epoch.julian_value", "src/openspace/time.py:Epoch.julian_centuries_past_j2000"]}
{"id": "C10", "title": "Greenwich hour angle is normalised and advances at the sidereal rate", "statement": "greenwich_hour_angle() always lies in [0, 2*pi); within one UTC day it advances by exactly 360.98564724 degrees per day modulo a full turn; crossing midnight it is discontinuous by less than 2e-6 degrees for every epoch within 50 centuries of J2000.", "quantifier": "all epochs (past and future)", "why_tests_cant": "wrap-around and midnight boundaries occur at isolated instants a test does not hit", "anchors": ["src/openspace/time.py:Epoch.greenwich_hour_angle"]}
{"id": "C11", "title": "LegendrePolynomial is the table of associated Legendre functions", "statement": "LegendrePolynomial(phi).p[n][m] equals cos(phi)^m times the m-th derivative of the Legendre polynomial P_n (Rodrigues) at sin(phi) for every degree n<=4 and every order m<=n, and the padding entry p[n][n+1] is 0.", "quantifier": "all latitudes phi and all table entries", "why_tests_cant": "the identity must hold at every latitude, not at sampled ones", "anchors": ["src/openspace/math/functions.py:LegendrePolynomial"]}
{"id": "C12", "title": "The geopotential coefficients are correctly de-normalised", "statement": "Each stored coefficient Earth.C[n][m], Earth.S[n][m] (n=2..4) is the published normalised value times sqrt((2-delta_0m)(2n+1)(n-m)!/(n+m)!).", "quantifier": "all entries of the two coefficient tables", "why_tests_cant": "the scale factors are typed by hand as literals such as sqrt(24/216)", "anchors": ["src/openspace/bodies/celestial.py:Earth.C", "src/openspace/bodies/celestial.py:Earth.S", "src/openspace/bodies/celestial.py:Earth.DEGREE_AND_ORDER"]}
{"id": "C13", "title": "Orbit-size conversions invert each other", "statement": "A.from_mu_n(mu, N.from_a_mu(a, mu)) = a, A.from_mu_tau(mu, TAU.from_a_mu(a, mu)) = a, N.from_tau(TAU.from_a_mu(a,mu)) = N.from_a_mu(a,mu) and A.from_mu_r_v(mu, r, V.from_a_mu_r(a, mu, r)) = a on the whole physical domain (a>0, mu>0, 0<r<2a).", "quantifier": "all physical values of a, mu, r", "why_tests_cant": "round trips over a continuum of inputs", "anchors": ["src/openspace/math/functions.py:SemiMajorAxis", "src/openspace/math/functions.py:MeanMotion", "src/openspace/math/functions.py:Period", "src/openspace/math/functions.py:VisVivaVelocity"]}
{"id": "C14", "title": "Orbit-shape conversions invert each other", "statement": "E.from_a_b(a, B.from_a_e(a,e)) = e, E.from_a_p(a, P.from_a_e(a,e)) = e, P.from_a_b(a, B.from_a_e(a,e)) = P.from_a_e(a,e), P.from_mu_h(mu, H.from_mu_p(mu,p)) = p, and each raises a math domain error exactly outside its domain (for example E.from_a_p for p>a>0).", "quantifier": "all a>0, 0<=e<=1, p>=0, mu>0", "why_tests_cant": "round trips over a continuum, including the boundary e=1", "anchors": ["src/openspace/math/functions.py:Eccentricity", "src/openspace/math/functions.py:SemiMinorAxis", "src/openspace/math/functions.py:SemiParameter", "src/openspace/math/functions.py:ArealVelocity"]}
{"id": "C15", "title": "All three speed formulas and both energy formulas agree", "statement": "For every point of an elliptic orbit, V.from_a_mu_r, V.from_mu_r_xi (with XI.from_mu_a) and V.from_mu_r_e_nu (with r = p/(1+e cos nu)) give the same speed, and XI.from_mu_r_v at that speed equals XI.from_mu_a.", "quantifier": "all a>0, 0<=e<1, mu>0 and all true anomalies", "why_tests_cant": "agreement of independent formulas over a continuum", "anchors": ["src/openspace/math/functions.py:VisVivaVelocity", "src/openspace/math/functions.py:SpecificMechanicalEnergy", "src/openspace/math/functions.py:Radius", "src/openspace/planning/maneuvers.py:VisViva.eccentric_velocity"]}
{"id": "C16", "title": "Whatever Kepler's-equation solver returns solves Kepler's equation", "statement": "If EA.from_ma_e(M, e) returns E for 0<=e<1, then E - e*sin(E) differs from M (modulo 2*pi) by at most 5e-25, and E differs from the exact solution by at most 5e-25/(1-e).", "quantifier": "all mean anomalies and all eccentricities in [0,1)", "why_tests_cant": "the stop test looks at the step, not at the residual; the bound must hold wherever the iteration stops", "anchors": ["src/openspace/math/functions.py:EccentricAnomaly.from_ma_e"]}
{"id": "C17", "title": "Kepler's-equation solver terminates", "statement": "EA.from_ma_e(M, e) returns a value (no infinite loop, no exception) for every 0<=e<1 and every M in [-2*pi, 2*pi].", "quantifier": "all M in [-2*pi, 2*pi] and all e in [0,1)", "why_tests_cant": "an unbounded while loop: non-termination on some input cannot be found by running", "anchors": ["src/openspace/math/functions.py:EccentricAnomaly.from_ma_e"]}
{"id": "C18", "title": "Kepler's-equation solver returns a normalised angle that inverts the mean anomaly", "statement": "For M in (-2*pi, 2*pi) the returned E lies in [0, 2*pi); EA.from_ma_e applied to MA.from_ea_e(E0, e) returns E0 up to 5e-25/(1-e) modulo 2*pi.", "quantifier": "all M in (-2*pi, 2*pi), all E0 in [-2*pi, 2*pi), all e in [0,1)", "why_tests_cant": "range and inverse properties over a continuum with a wrap-around branch", "anchors": ["src/openspace/math/functions.py:EccentricAnomaly.from_ma_e", "src/openspace/math/functions.py:MeanAnomaly.from_ea_e"]}
{"id": "C19", "title": "True anomaly and eccentric anomaly describe the same point", "statement": "For 0<=e<1, with nu = NU.from_e_ea(e, E): p/(1+e cos nu) = a(1-e cos E) and r cos nu = a(cos E - e), r sin nu = a sqrt(1-e^2) sin E, for all E; nu lies in [0, 2*pi).", "quantifier": "all E and all e in [0,1)", "why_tests_cant": "quadrant errors in atan2 appear only in some quadrants", "anchors": ["src/openspace/math/functions.py:TrueAnomaly.from_e_ea", "src/openspace/math/functions.py:Radius.from_p_e_nu"]}
{"id": "C20", "title": "Angle-valued element functions return normalised angles", "statement": "RAAN.from_w, U.from_r_w, NU.from_e_ea, EA.from_rdv_r_a_n return values in [0, 2*pi); W.from_u_nu and MA.from_ea_e do so for arguments in that range; I.from_w returns a value in [0, pi].", "quantifier": "all arguments for which the functions are defined", "why_tests_cant": "branch cuts are measure-zero sets a test does not hit", "anchors": ["src/openspace/math/functions.py:RightAscensionNode", "src/openspace/math/functions.py:ArgumentOfLatitude", "src/openspace/math/functions.py:TrueAnomaly", "src/openspace/math/functions.py:ArgumentOfPerigee", "src/openspace/math/functions.py:MeanAnomaly", "src/openspace/math/functions.py:Inclination", "src/openspace/math/functions.py:EccentricAnomaly.from_rdv_r_a_n"]}
{"id": "C21", "title": "Elements survive conversion to Cartesian and back", "statement": "For elements with a>0, 0<e<1, 0<i<pi, raan, arg_per and M in [0,2*pi), ClassicalElements.from_ijk(el.to_ijk()) returns the same a, e, i, raan and argument of perigee, and the same mean anomaly up to the Kepler solver's 5e-25 tolerance modulo 2*pi.", "quantifier": "all non-degenerate element sets", "why_tests_cant": "a six-dimensional continuum with many quadrant branches; tests check one orbit in one direction", "anchors": ["src/openspace/coordinates/elements.py:ClassicalElements.from_ijk", "src/openspace/coordinates/elements.py:ClassicalElements.to_ijk"]}
{"id": "C22", "title": "to_ijk produces a state on the orbit described by the elements", "statement": "The state returned by to_ijk() has radius a(1-e cos E), energy -mu/(2a), angular momentum of magnitude sqrt(mu a (1-e^2)) along (sin i sin raan, -sin i cos raan, cos i), and the perigee and semi-latus directions are orthonormal.", "quantifier": "all element sets with a>0 and 0<=e<1", "why_tests_cant": "conservation laws at every point of every orbit", "anchors": ["src/openspace/coordinates/elements.py:ClassicalElements.to_ijk", "src/openspace/coordinates/elements.py:ClassicalElements.perigee_vector", "src/openspace/coordinates/elements.py:ClassicalElements.semilatus_rectum_vector"]}
{"id": "C23", "title": "Spherical coordinates round-trip", "statement": "SphericalPosition.from_cartesian(v).to_cartesian() = v for every v, and from_cartesian(SphericalPosition(r, ra, dec).to_cartesian()) returns (r, ra, dec) for r>0, 0<=ra<2*pi, |dec|<pi/2; right ascension is always in [0,2*pi) and declination in [-pi/2,pi/2].", "quantifier": "all vectors and all spherical triples in range", "why_tests_cant": "quadrants, poles and branch cuts", "anchors": ["src/openspace/coordinates/positions.py:SphericalPosition"]}
{"id": "C24", "title": "ENZ frame is an orthonormal right-handed frame", "statement": "ENZ.matrix(lon, lat) is a proper rotation for all angles, its third row is the ellipsoid normal, PositionConvert.enz.to_itrf undoes GroundSite.enz_position up to the site offset, and ranges are preserved.", "quantifier": "all sites and all target positions", "why_tests_cant": "orthogonality for all angles", "anchors": ["src/openspace/coordinates/positions.py:ENZ.matrix", "src/openspace/coordinates/positions.py:_PositionConvertENZ.to_itrf", "src/openspace/bodies/terrestrial.py:GroundSite.enz_position"]}
{"id": "C25", "title": "Geodetic to ITRF places the site at the stated height above the ellipsoid", "statement": "PositionConvert.lla.to_itrf(lat, lon, 0) lies on the ellipsoid with semi-axes RADIUS and RADIUS*(1-FLATTENING) for all lat/lon, and to_itrf(lat,lon,h) is that point moved by h along the outward unit normal; the conversion never raises.", "quantifier": "all latitudes, longitudes and heights", "why_tests_cant": "continuum of inputs", "anchors": ["src/openspace/coordinates/positions.py:_PositionConvertLLA.to_itrf"]}
{"id": "C26", "title": "Geodetic coordinates survive conversion to ITRF and back", "statement": "itrf.to_lla(lla.to_itrf(x)) returns exactly x (in real arithmetic) for every latitude strictly between -pi/2 and pi/2, longitude in [0,2*pi) and height >= -6200 km, without raising; at the poles latitude and height come back and the longitude is 0.", "quantifier": "all geodetic positions above -6200 km", "why_tests_cant": "a closed-form quartic solution: wrong branch choices show only on parts of the domain", "anchors": ["src/openspace/coordinates/positions.py:_PositionConvertITRF.to_lla", "src/openspace/coordinates/positions.py:_PositionConvertLLA.to_itrf"]}
{"id": "C27", "title": "Ground site built from an ITRF position stands at that position", "statement": "GroundSite.from_itrf_position(p).itrf_position = p for every p at least 0.02 Earth radii from the centre; closer to the centre the constructor either raises or still returns a site standing at p.", "quantifier": "all ITRF positions at least 6378 km*0.02 from the centre", "why_tests_cant": "tests check one site", "anchors": ["src/openspace/bodies/terrestrial.py:GroundSite.from_itrf_position", "src/openspace/coordinates/positions.py:_PositionConvertITRF.to_lla"]}
{"id": "C28", "title": "Precession and Earth rotation are proper rotations at every epoch", "statement": "Earth.precession(epoch) and Earth.rotation(epoch) are orthogonal with determinant 1 for every epoch, so TOD<->ITRF and GCRF<->MOD conversions are exact inverses and preserve distances; no epoch makes them raise.", "quantifier": "all epochs", "why_tests_cant": "continuum of epochs; nine hand-typed trigonometric entries", "anchors": ["src/openspace/bodies/celestial.py:Earth.precession", "src/openspace/bodies/celestial.py:Earth.rotation", "src/openspace/coordinates/positions.py:_PositionConvertITRF.to_tod"]}
{"id": "C29", "title": "GCRF to ITRF and back recovers the position", "statement": "itrf.to_gcrf(gcrf.to_itrf(p, t), t) = p for every position and epoch.", "quantifier": "all positions and epochs", "why_tests_cant": "holds only up to the linearised nutation matrix; the size of the defect must be bounded for all epochs", "anchors": ["src/openspace/coordinates/positions.py:_PositionConvertGCRF.to_itrf", "src/openspace/coordinates/positions.py:_PositionConvertITRF.to_gcrf", "src/openspace/bodies/celestial.py:Earth.nutation"]}
{"id": "C30", "title": "Sun and Moon stay at physical distances", "statement": "For every epoch Sun.get_position has length between 1.470e8 and 1.522e8 km and lies in the fixed ecliptic plane, and Moon.get_position has length between 356096 and 413904 km; hence third-body and SRP accelerations of a spacecraft within 350000 km of Earth never divide by zero.", "quantifier": "all epochs", "why_tests_cant": "periodic series over an unbounded time range", "anchors": ["src/openspace/bodies/celestial.py:Sun.get_position", "src/openspace/bodies/celestial.py:Moon.get_position", "src/openspace/coordinates/states.py:GCRF.acceleration_from_moon", "src/openspace/coordinates/states.py:GCRF.acceleration_from_sun"]}
{"id": "C31", "title": "HCW to GCRF to HCW round-trips", "statement": "StateConvert.gcrf.to_hcw(origin, StateConvert.hcw.to_gcrf(s, origin)) has the same relative position and velocity as s, for every non-degenerate origin and every s with magnitude(origin)+x>0, |y| < pi*|origin|, |z| < pi/2*|origin|.", "quantifier": "all origin states and all relative states in the chart", "why_tests_cant": "curvilinear transformation over twelve real inputs", "anchors": ["src/openspace/coordinates/states.py:_StateConvertGCRF.to_hcw", "src/openspace/coordinates/states.py:_StateConvertHCW.to_gcrf", "src/openspace/coordinates/states.py:HCW.frame_matrix"]}
{"id": "C32", "title": "GCRF to HCW to GCRF round-trips", "statement": "StateConvert.hcw.to_gcrf(StateConvert.gcrf.to_hcw(origin, s), origin) has the same inertial position and velocity as s whenever s is not on the orbit-normal axis of the origin.", "quantifier": "all origin states and all inertial states off the normal axis", "why_tests_cant": "twelve-dimensional continuum with an atan2 branch", "anchors": ["src/openspace/coordinates/states.py:_StateConvertGCRF.to_hcw", "src/openspace/coordinates/states.py:_StateConvertHCW.to_gcrf"]}
{"id": "C33", "title": "RIC frame is orthonormal and aligned with the orbit", "statement": "HCW.frame_matrix(origin) is a proper rotation whose rows are the radial, in-track and orbit-normal unit vectors, and raises ZeroDivisionError exactly when position and velocity are parallel (or zero).", "quantifier": "all origin states", "why_tests_cant": "all orbits including rectilinear ones", "anchors": ["src/openspace/coordinates/states.py:HCW.frame_matrix"]}
{"id": "C34", "title": "Impulsive manoeuvre changes only the velocity, by the commanded RIC vector", "statement": "After impulsive_maneuver(dv) the position and epoch are unchanged, the velocity has changed by exactly dv expressed in radial/in-track/cross-track axes, and the change has magnitude |dv|.", "quantifier": "all spacecraft states and all burns", "why_tests_cant": "the implementation goes through the curvilinear HCW conversion", "anchors": ["src/openspace/bodies/artificial.py:Spacecraft.impulsive_maneuver", "src/openspace/coordinates/states.py:_StateConvertHCW.to_gcrf"]}
{"id": "C35", "title": "Non-spherical gravity is the gradient of the geopotential", "statement": "Off the polar axis, acceleration_from_gravity() is the GCRF image (by the library's ITRF-to-GCRF conversion) of the gradient of the degree 2..4 spherical-harmonic potential of the Earth, taken in the direction of the ITRF position at the distance of the GCRF position. The two agree to a relative 5.5e-9, the most by which the linearised nutation can stretch a vector, and exactly when it does not stretch. It raises exactly on the polar axis, then ZeroDivisionError, and never an IndexError.", "quantifier": "all positions and epochs", "why_tests_cant": "tests compare one magnitude at one point", "anchors": ["src/openspace/coordinates/states.py:GCRF.acceleration_from_gravity", "src/openspace/math/functions.py:LegendrePolynomial", "src/openspace/bodies/celestial.py:Earth.C"]}
{"id": "C36", "title": "Central gravity is inverse-square and attractive", "statement": "acceleration_from_earth() points to the Earth's centre with magnitude mu/r^2, is the gradient of mu/r, and raises ZeroDivisionError exactly at the centre.", "quantifier": "all positions", "why_tests_cant": "continuum of inputs", "anchors": ["src/openspace/coordinates/states.py:GCRF.acceleration_from_earth"]}
{"id": "C37", "title": "State derivative is velocity and the sum of the enabled accelerations", "statement": "derivative() returns the velocity and thrust + Earth when use_perturbations is False, and thrust + Earth + Moon + Sun + SRP + gravity when it is True.", "quantifier": "all states and both switch positions", "why_tests_cant": "decision logic over all states", "anchors": ["src/openspace/coordinates/states.py:GCRF.derivative"]}
{"id": "C38", "title": "copy() of a GCRF state is a duplicate", "statement": "GCRF.copy() returns a state equal to the calling state in every attribute (epoch, position, velocity, vector, thrust, srp_scalar, use_perturbations).", "quantifier": "all GCRF states", "why_tests_cant": "the lost attributes matter only in runs that set them", "anchors": ["src/openspace/coordinates/states.py:State.copy", "src/openspace/coordinates/states.py:GCRF.__init__"]}
{"id": "C39", "title": "A spacecraft's propagation includes its solar radiation pressure", "statement": "The state propagated by Spacecraft carries the srp_scalar computed from the spacecraft's albedo, area and mass, at construction and after any sequence of steps and manoeuvres.", "quantifier": "all initial states and all histories of step / step_to_epoch / impulsive_maneuver / finite_maneuver", "why_tests_cant": "a property of every reachable state", "anchors": ["src/openspace/bodies/artificial.py:Spacecraft.__init__", "src/openspace/bodies/artificial.py:Spacecraft.srp_scalar", "src/openspace/propagators/inertial.py:RK4.step", "src/openspace/coordinates/states.py:GCRF.acceleration_from_srp"]}
{"id": "C40", "title": "use_perturbations set on a propagator's state stays set", "statement": "If the user sets propagator.state.use_perturbations = False the propagator keeps propagating without perturbations for every later step.", "quantifier": "all propagators and all numbers of steps", "why_tests_cant": "a property of histories", "anchors": ["src/openspace/propagators/inertial.py:RK4.step", "src/openspace/coordinates/states.py:GCRF.use_perturbations"]}
{"id": "C41", "title": "step_to_epoch lands exactly on the requested epoch with bounded steps", "statement": "RK4.step_to_epoch(t), when it returns, leaves the state epoch equal to t (forward, backward or zero span), uses the least number of equal steps not exceeding MAX_STEP = 300 s in size, and restores the previous step size.", "quantifier": "all states, target epochs and stored step sizes", "why_tests_cant": "ceil/rounding boundaries; all spans", "anchors": ["src/openspace/propagators/inertial.py:RK4.step_to_epoch"]}
{"id": "C42", "title": "RK4.step is the classical fourth-order Runge-Kutta step", "statement": "RK4.step advances epoch by step_size seconds and (position, velocity) by the classical RK4 formula for the system y' = derivative(t, y) with the stored thrust law; it is exact for accelerations that are cubic polynomials in time (velocity) and agrees with the Taylor series through h^4 for linear dynamics.", "quantifier": "all states, step sizes and force laws", "why_tests_cant": "order of accuracy is a statement about all step sizes", "anchors": ["src/openspace/propagators/inertial.py:RK4.step"]}
{"id": "C43", "title": "Thrust acceleration is thrust over current mass", "statement": "thrust_vector(dt) is m_dot*isp*g / (m0 - m_dot*dt) along the commanded direction for every dt at which mass remains, both branches agree in the limit dt -> 0, and it is the zero vector when m_dot = 0.", "quantifier": "all engine parameters and times", "why_tests_cant": "the formula goes through logarithms that cancel; all dt", "anchors": ["src/openspace/propagators/inertial.py:RK4.thrust_vector"]}
{"id": "C44", "title": "Burn duration obeys the rocket equation and thrust is off afterwards", "statement": "RK4.maneuver(dv, m_dot, m0, isp) advances the epoch by exactly (m0/m_dot)(1-exp(-|dv|/(isp g))) seconds, which is the time after which the ideal velocity gain equals |dv|; afterwards thrust_vector is zero for all times; a zero burn is a no-op on the state.", "quantifier": "all burns and engine parameters", "why_tests_cant": "continuum of parameters; history property (thrust off after)", "anchors": ["src/openspace/propagators/inertial.py:RK4.maneuver"]}
{"id": "C45", "title": "Finite manoeuvres consume propellant", "statement": "After finite_maneuver(dv) the propellant mass has decreased by total_mass*(1-exp(-|dv|/(isp g))).", "quantifier": "all spacecraft and all burns", "why_tests_cant": "sign errors in bookkeeping over histories", "anchors": ["src/openspace/bodies/artificial.py:Spacecraft.finite_maneuver"]}
{"id": "C46", "title": "Finite manoeuvres thrust along the commanded RIC direction", "statement": "finite_maneuver(ric_dv) applies thrust whose direction in the radial/in-track/cross-track frame is that of ric_dv.", "quantifier": "all orbits and burns", "why_tests_cant": "in a special orientation (the one in the example) frame and transpose partly agree", "anchors": ["src/openspace/bodies/artificial.py:Spacecraft.finite_maneuver", "src/openspace/coordinates/states.py:HCW.frame_matrix"]}
{"id": "C47", "title": "Thrust mass depletion is continuous across integration steps of a burn", "statement": "During a burn the acceleration used at the start of an integration step equals the one reached at the end of the previous step.", "quantifier": "all burns longer than one integration step", "why_tests_cant": "a property of every step boundary in a burn", "anchors": ["src/openspace/propagators/inertial.py:RK4.step", "src/openspace/propagators/inertial.py:RK4.thrust_vector", "src/openspace/propagators/inertial.py:RK4.maneuver"]}
{"id": "C48", "title": "Hill transition matrix solves the Clohessy-Wiltshire equations", "statement": "Constructing with a positive semi-major axis gives the mean motion n of Kepler's third law, system_matrix(0) is the identity, system_matrix(s+t) = system_matrix(s) system_matrix(t), and t -> system_matrix(t) x0 satisfies x'' = 3n^2 x + 2n y', y'' = -2n x', z'' = -n^2 z for every initial state.", "quantifier": "all times, mean motions and initial states", "why_tests_cant": "differential equation and group law over all times", "anchors": ["src/openspace/propagators/relative.py:Hill.system_matrix"]}
{"id": "C49", "title": "Hill propagation composes and keeps the relative-motion invariants", "statement": "Any sequence of step_by_seconds calls equals a single call with the total time; y' + 2 n x and z'^2 + n^2 z^2 are conserved; a state with y' = -2 n x returns to itself after 2*pi/n seconds.", "quantifier": "all initial states and all finite sequences of steps", "why_tests_cant": "histories of arbitrary length", "anchors": ["src/openspace/propagators/relative.py:Hill.step_by_seconds", "src/openspace/propagators/relative.py:Hill.step"]}
{"id": "C50", "title": "Relative propagator keeps time", "statement": "After step_by_seconds(t) the epoch of the propagator's state has advanced by t seconds.", "quantifier": "all states and step sizes", "why_tests_cant": "no test looks at the epoch", "anchors": ["src/openspace/propagators/relative.py:Hill.step_by_seconds", "src/openspace/coordinates/states.py:HCW.from_state_vector"]}
{"id": "C51", "title": "Filter covariance stays symmetric positive semidefinite", "statement": "After any sequence of process(ob) calls on a RelativeKalman the covariance p00 is symmetric positive semidefinite, and the predicted covariance used inside each call is symmetric positive definite.", "quantifier": "all observation histories", "why_tests_cant": "histories of arbitrary length and content", "anchors": ["src/openspace/estimation/filtering.py:RelativeKalman.process", "src/openspace/estimation/filtering.py:RelativeKalman.update_covariance", "src/openspace/estimation/filtering.py:RelativeKalman.predict_covariance"]}
{"id": "C52", "title": "The filter's update never meets a singular innovation matrix", "statement": "In every process(ob) call, after any history, the 3x3 matrix inverted by the gain computation has positive determinant, so the update never raises ZeroDivisionError, even for error-free observations.", "quantifier": "all observation histories", "why_tests_cant": "a singular matrix on some history cannot be excluded by sampling", "anchors": ["src/openspace/estimation/filtering.py:RelativeKalman.gain", "src/openspace/math/linalg.py:Matrix3D.inverse"]}
{"id": "C53", "title": "Each measurement update is the optimal (minimum-variance) update and never increases uncertainty", "statement": "The covariance after update equals (I-KH)P, is never larger (in the semidefinite order) than the predicted covariance, and no other gain gives a smaller one.", "quantifier": "all predicted covariances, measurement covariances and gains", "why_tests_cant": "optimality is a statement about all gains", "anchors": ["src/openspace/estimation/filtering.py:RelativeKalman.gain", "src/openspace/estimation/filtering.py:RelativeKalman.update_covariance"]}
{"id": "C54", "title": "Filter state update is consistent with the measurement", "statement": "With an error-free observation the updated position equals the measured relative position; if the prediction already equals the measurement the state is unchanged; the filter epoch becomes the observation epoch and its Hill propagator holds the updated state.", "quantifier": "all filter states and observations", "why_tests_cant": "holds for every state, not sampled", "anchors": ["src/openspace/estimation/filtering.py:RelativeKalman.update_state", "src/openspace/estimation/filtering.py:RelativeKalman.process"]}
{"id": "C55", "title": "Ground observations keep azimuth, elevation and range", "statement": "GroundObservation.from_angles_and_range(site, az, el, r) has azimuth az, elevation el and range r for az in [0,2*pi), |el|<pi/2, r>0; azimuth is measured from north through east.", "quantifier": "all sites and all angle/range triples in range", "why_tests_cant": "quadrants and wrap-around", "anchors": ["src/openspace/estimation/obs.py:GroundObservation.from_angles_and_range", "src/openspace/estimation/obs.py:GroundObservation.__init__"]}
{"id": "C56", "title": "A simulated ground observation reproduces the target", "statement": "For a site and a spacecraft, angles_and_range(target) never raises, its ijk_position() equals the IJK position of the target, its range equals the distance between site and target in ITRF, and its gcrf_position() is within 1.1e-8 of the target's distance from the Earth's centre.", "quantifier": "all sites above -6200 km off the exact poles, all sites made by from_itrf_position (poles included), and all targets", "why_tests_cant": "composition of several frame conversions over a continuum", "anchors": ["src/openspace/bodies/terrestrial.py:GroundSite.angles_and_range", "src/openspace/estimation/obs.py:GroundObservation.ijk_position", "src/openspace/estimation/obs.py:GroundObservation.gcrf_position"]}
{"id": "C57", "title": "Gauss orbit passes through both observed positions", "statement": "Whatever value the sector-to-triangle iteration returns, the conic with the returned semi-latus rectum, eccentricity and anomalies passes through both observed positions, and lies in their common plane.", "quantifier": "all pairs of non-collinear positions and all times of flight for which the method returns", "why_tests_cant": "geometric property over twelve real inputs, independent of convergence", "anchors": ["src/openspace/estimation/iod.py:Gauss.coes_from_positions"]}
{"id": "C58", "title": "Gauss secant iteration only stops near a root and fails only by domain", "statement": "If solve_nu returns, the last secant step was smaller than 1e-12; f_of_nu raises a math domain error exactly when m/nu^2 - l is outside [0,1], and ZeroDivisionError exactly when it is 0 or 1 (or nu = 0).", "quantifier": "all m, l and starting values", "why_tests_cant": "an unbounded loop; all exits must be covered", "anchors": ["src/openspace/estimation/iod.py:Gauss.solve_nu", "src/openspace/estimation/iod.py:Gauss.f_of_nu", "src/openspace/estimation/iod.py:Gauss.w_of_omega"]}
{"id": "C59", "title": "Gauss returns a normalised argument of perigee", "statement": "The argument of perigee returned by coes_from_positions lies in [0, 2*pi).", "quantifier": "all pairs of observations", "why_tests_cant": "only some quadrant combinations violate it", "anchors": ["src/openspace/estimation/iod.py:Gauss.coes_from_positions"]}
{"id": "C60", "title": "Attitude axes form a right-handed orthogonal triad pointing where the mode says", "statement": "After update_attitude (hence after every step, track_lvlh, track_sun, track_state) the body axes are mutually orthogonal and right-handed, with body_z toward Earth (lvlh), away from the Sun (solar) or toward the tracked target (target).", "quantifier": "all spacecraft states, modes and histories", "why_tests_cant": "every reachable state in every mode", "anchors": ["src/openspace/bodies/artificial.py:Spacecraft.update_attitude", "src/openspace/bodies/artificial.py:Spacecraft.track_lvlh", "src/openspace/bodies/artificial.py:Spacecraft.track_sun", "src/openspace/bodies/artificial.py:Spacecraft.track_state"]}
{"id": "C61", "title": "No API history reaches an unset attribute", "statement": "In any sequence of successful public calls on a set of spacecraft (step, step_to_epoch, track_lvlh, track_sun, track_state, acquire, impulsive_maneuver, ...), slewing implies a stored stop epoch and target mode implies a stored target, so no call raises AttributeError (other than processing observations before acquire).", "quantifier": "all histories of API calls on any number of spacecraft", "why_tests_cant": "attributes are declared but not initialised; only an invariant over histories shows they are set before use", "anchors": ["src/openspace/bodies/artificial.py:Spacecraft.__init__", "src/openspace/bodies/artificial.py:Spacecraft.update_attitude"]}
{"id": "C62", "title": "A failed mode change leaves the spacecraft usable", "statement": "If track_lvlh/track_sun/track_state raises, the spacecraft is left in a state on which later step() calls do not raise AttributeError.", "quantifier": "all states and all points at which the call can raise", "why_tests_cant": "needs an exception at a particular point inside the call", "anchors": ["src/openspace/bodies/artificial.py:Spacecraft.track_state", "src/openspace/bodies/artificial.py:Spacecraft.update_attitude"]}
{"id": "C63", "title": "track_state points the payload at its argument", "statement": "After track_state(target) the tracked target is the argument and body_z points at it.", "quantifier": "all spacecraft, targets and prior modes", "why_tests_cant": "depends on the history (prior mode)", "anchors": ["src/openspace/bodies/artificial.py:Spacecraft.track_state", "src/openspace/bodies/artificial.py:Spacecraft.acquire"]}
{"id": "C64", "title": "Slews have bounded duration and end", "statement": "A mode change starts a slew lasting (angle between old and new pointing) * slew_scalar days, at most 360 s by default (a target at another epoch is taken where it is at its own epoch); the slewing flag is cleared by the first update at an epoch later than the stop epoch and not before.", "quantifier": "all mode changes and all later histories", "why_tests_cant": "a property of histories", "anchors": ["src/openspace/bodies/artificial.py:Spacecraft.track_lvlh", "src/openspace/bodies/artificial.py:Spacecraft.track_sun", "src/openspace/bodies/artificial.py:Spacecraft.track_state", "src/openspace/bodies/artificial.py:Spacecraft.update_attitude"]}
{"id": "C65", "title": "Tracking keeps the target synchronised and always terminates", "statement": "After a successful step() or step_to_epoch() in target mode the tracked spacecraft has the same epoch as the tracker; for any tracking relation among n spacecraft, including mutual and cyclic tracking, the nested updates terminate within n levels of recursion.", "quantifier": "all worlds of n spacecraft, all tracking graphs", "why_tests_cant": "cycles of references; recursion depth", "anchors": ["src/openspace/bodies/artificial.py:Spacecraft.update_attitude", "src/openspace/bodies/artificial.py:Spacecraft.step", "src/openspace/bodies/artificial.py:Spacecraft.step_to_epoch"]}
{"id": "C66", "title": "detect() is true exactly when every constraint holds, and never raises a domain error", "statement": "detect(target) returns True iff sun angle >= soft limit, earth angle >= limit, moon angle >= limit, visual magnitude <= limit and off-boresight angle <= limit; with default limits it never raises a math domain error for targets at non-zero range.", "quantifier": "all pairs of spacecraft", "why_tests_cant": "chain of elifs whose order protects a logarithm", "anchors": ["src/openspace/bodies/artificial.py:Spacecraft.detect", "src/openspace/bodies/artificial.py:Spacecraft.visual_magnitude"]}
{"id": "C67", "title": "Visual magnitude depends on the target's size and albedo and dims with distance", "statement": "visual_magnitude(target) is computed from the body radius and albedo of the target, is strictly increasing in range, and strictly decreasing in the phase-illumination.", "quantifier": "all observers and targets", "why_tests_cant": "functional dependence is a statement about all pairs of inputs", "anchors": ["src/openspace/bodies/artificial.py:Spacecraft.visual_magnitude"]}
{"id": "C68", "title": "Camera limits are consistent", "statement": "resolution(r) <= DEFAULT_RESOLUTION_LIMIT exactly for ranges up to limits.characterization; resolution is linear in range, range_error quadratic, and an object of radius R at tracking_minimum(R) subtends a half-angle of exactly fov, and a smaller one at every greater range.", "quantifier": "all cameras with positive pixel count and 0<fov<pi/2, all ranges", "why_tests_cant": "consistency of two independently coded formulas", "anchors": ["src/openspace/hardware/payloads.py:Camera", "src/openspace/hardware/constraints.py:OpticalConstraints"]}
{"id": "C69", "title": "Hohmann transfer obeys vis-viva and angular momentum", "statement": "For radii r1, r2 > 0 the transfer velocities satisfy r1*v1 = r2*v2 and equal orbital energy, delta_v_1 and delta_v_2 are positive for r1<r2, zero for r1=r2, and reversing the transfer negates and swaps the burns.", "quantifier": "all pairs of positive radii", "why_tests_cant": "continuum of inputs", "anchors": ["src/openspace/planning/maneuvers.py:Hohmann", "src/openspace/planning/maneuvers.py:VisViva"]}
{"id": "C70", "title": "Hohmann burn magnitudes are non-negative", "statement": "delta_v_1 and delta_v_2, documented as magnitudes of the burns, are >= 0 for every transfer.", "quantifier": "all pairs of positive radii", "why_tests_cant": "tests only raise the orbit", "anchors": ["src/openspace/planning/maneuvers.py:Hohmann"]}
{"id": "C71", "title": "Constructors isolate their inputs", "statement": "Mutating, after construction, the Vector3D/Epoch objects passed to Vector6D/Matrix*/State/HCW/GCRF/Observation/RK4/Hill constructors, or the objects returned by copy()/position()/velocity()/current_state()/current_epoch(), never changes the constructed object's observable values.", "quantifier": "all interleavings of constructions, reads and field mutations on a heap of objects", "why_tests_cant": "aliasing bugs need a particular sequence of mutations", "anchors": ["src/openspace/coordinates/states.py:State.__init__", "src/openspace/math/linalg.py:Matrix3D.__init__", "src/openspace/estimation/obs.py:SpaceObservation.__init__", "src/openspace/bodies/artificial.py:Spacecraft.current_state"]}
{"id": "C72", "title": "State vector mirrors position and velocity", "statement": "For every state produced by the API, state.vector equals the six components of state.position and state.velocity.", "quantifier": "all states reachable through constructors, conversions and propagators", "why_tests_cant": "a cached duplicate can go stale on some path", "anchors": ["src/openspace/coordinates/states.py:State.__init__", "src/openspace/coordinates/states.py:HCW.from_state_vector", "src/openspace/propagators/relative.py:Hill.step_by_seconds"]}
{"id": "C73", "title": "Space observations report the observed vector", "statement": "SpaceObservation(state, d, ...).range/right_ascension/declination are the spherical coordinates of d, ijk_position() is the IJK position of observer+d, and epoch() is the observer's epoch.", "quantifier": "all observers and directions", "why_tests_cant": "continuum of inputs", "anchors": ["src/openspace/estimation/obs.py:SpaceObservation"]}
{"id": "C74", "title": "sign and unit conversions", "statement": "sign(x)*|x| = x and sign(x) in {-1,0,1} for all x; dms_to_radians and hms_to_decimal_day are additive and agree on carries (60 s = 1 min, 60 min = 1 h or degree, 24 h = 1 day).", "quantifier": "all reals", "why_tests_cant": "algebraic laws", "anchors": ["src/openspace/math/functions.py:sign", "src/openspace/math/functions.py:Conversions"]}
{"id": "C75", "title": "GCRF to ITRF and back is accurate to 1.1e-8 of the distance", "statement": "itrf.to_gcrf(gcrf.to_itrf(p, t), t) never raises and differs from p by at most 1.1e-8 * |p| (under half a metre in geosynchronous orbit), although not by zero, because the nutation matrix is linearised.", "quantifier": "all positions and all epochs", "why_tests_cant": "A test checks one epoch and one position; the bound on the linearisation error must hold at every epoch.", "anchors": ["src/openspace/coordinates/positions.py:_PositionConvertGCRF.to_itrf", "src/openspace/coordinates/positions.py:_PositionConvertITRF.to_gcrf", "src/openspace/bodies/celestial.py:Earth.nutation"]}
{"id": "C76", "title": "Solar radiation pressure never accelerates a propagated spacecraft", "statement": "For every freshly constructed spacecraft and after every history of public calls, the solar radiation pressure acceleration of the propagated state is the zero vector whenever it is defined (so radiation pressure has no influence on its trajectory).", "quantifier": "all initial states, all numbers of spacecraft, all histories of public calls, successful or raising", "why_tests_cant": "a property of every reachable state", "anchors": ["src/openspace/bodies/artificial.py:Spacecraft.__init__", "src/openspace/propagators/inertial.py:RK4.__init__", "src/openspace/coordinates/states.py:GCRF.acceleration_from_srp"]}
{"id": "C77", "title": "Inertial and Earth-fixed positions correspond one to one", "statement": "At every epoch, gcrf.to_itrf and gcrf.to_ijk are total, every Earth-fixed or IJK position is the image of exactly one inertial position, and distances between positions change by a factor between 1 and 1 + 5.5e-9.", "quantifier": "all epochs and positions", "why_tests_cant": "Injectivity and surjectivity over all of space, at every epoch.", "anchors": ["src/openspace/coordinates/positions.py:_PositionConvertGCRF.to_itrf", "src/openspace/coordinates/positions.py:_PositionConvertGCRF.to_ijk", "src/openspace/bodies/celestial.py:Earth.nutation"]}
{"id": "C78", "title": "Navigation filters are independent of each other", "statement": "Changing an entry of one RelativeKalman filter's covariance or process noise never changes another filter (or filters created later).", "quantifier": "all pairs of filters, all epochs and propagators, all assignments to the matrices of one of them", "why_tests_cant": "needs two filters and an in-place edit of a matrix between their uses; a single-filter test never sees the sharing", "anchors": ["src/openspace/estimation/filtering.py:RelativeKalman.__init__", "src/openspace/estimation/filtering.py:RelativeKalman.DEFAULT_NOISE"]}
{"id": "C79", "title": "The epoch read from an observation is the caller's own", "statement": "Changing the Epoch returned by SpaceObservation.epoch() or GroundObservation.epoch() never changes the observation.", "quantifier": "all observations and all assignments to the returned epoch", "why_tests_cant": "aliasing shows only after a later mutation of the returned object", "anchors": ["src/openspace/estimation/obs.py:SpaceObservation.epoch", "src/openspace/estimation/obs.py:GroundObservation.epoch"]}
{"id": "C80", "title": "Moon and Sun perturbations are tidal accelerations", "statement": "The acceleration due to the Moon (Sun) on a GCRF state is the gradient, at the position, of that body's disturbing function: the body's attraction of the satellite less its attraction of the Earth. It is zero at the centre of the Earth, and the calculation raises (ZeroDivisionError) exactly when the position is that of the body.", "quantifier": "all epochs and all positions", "why_tests_cant": "A sign slip or a missing indirect term changes the result by parts in 10^6 of the total acceleration; a derivative is a statement about all neighbouring positions.", "anchors": ["src/openspace/coordinates/states.py:GCRF.acceleration_from_moon", "src/openspace/coordinates/states.py:GCRF.acceleration_from_sun"]}
{"id": "C81", "title": "Radiation pressure follows the inverse square of the distance from the Sun", "statement": "The acceleration due to solar radiation pressure points away from the Sun, and of two states with the same epoch and radiation scale factor, the one twice as far from the Sun feels a quarter of it.", "quantifier": "all epochs, positions other than the Sun's, and scale factors", "why_tests_cant": "For Earth satellites the distance varies by a few per cent; a dropped power is not seen in a test at one epoch.", "anchors": ["src/openspace/coordinates/states.py:GCRF.acceleration_from_srp"]}
{"id": "C82", "title": "A failing propagation leaves the propagator usable", "statement": "If step_to_epoch or maneuver raises, the propagator holds a state reached by some completed steps, and its step size and engine settings are those it had before the call.", "quantifier": "all propagators, target epochs, manoeuvres and all points at which a step may raise", "why_tests_cant": "Needs every crash point of a loop of force evaluations.", "anchors": ["src/openspace/propagators/inertial.py:RK4.step_to_epoch", "src/openspace/propagators/inertial.py:RK4.maneuver"]}
{"id": "C83", "title": "The Gauss orbit takes the time between the observations", "statement": "The elements returned for two observations dt seconds apart describe an orbit that goes from the first position (at the returned mean anomaly) to the second within one revolution in dt*(n + f(n))/|n| seconds, n being the ratio the iteration returned and f the function whose root it seeks: the time of flight is exact when n is a root, and off by the relative residual otherwise.", "quantifier": "all pairs of positions not both in the equatorial plane and all later second epochs for which the method returns", "why_tests_cant": "an identity between a transcendental equation, a secant iteration and orbit geometry over seven real inputs", "anchors": ["src/openspace/estimation/iod.py:Gauss.coes_from_positions", "src/openspace/estimation/iod.py:Gauss.f_of_nu", "src/openspace/estimation/iod.py:Gauss.w_of_omega"]}
{"id": "C84", "title": "The Gauss method solves moderate transfers", "statement": "For positions not collinear with the Earth's centre whose auxiliary numbers satisfy m <= 1/10 and 25 l < 16 m (near-circular transfers up to about 45 degrees), solve_nu ends within sixty passes, within 1.5e-12 of a root; elements are returned unless the first position is exactly at the semi-latus rectum of the orbit and the second is not (there the eccentricity is computed as 0/0); the returned orbit takes the time between the observations to 2.5 parts in 10^12.", "quantifier": "all pairs of positions and time differences in that regime", "why_tests_cant": "convergence of an unbounded loop over a continuum of inputs", "anchors": ["src/openspace/estimation/iod.py:Gauss.coes_from_positions", "src/openspace/estimation/iod.py:Gauss.solve_nu"]}
{"id": "C85", "title": "Ellipse shape and angular momentum formulas agree", "statement": "For an ellipse with semi-axes a >= b and focal distance c (b^2 + c^2 = a^2), Eccentricity.from_a_c and from_a_b return the same e in [0,1], SemiMinorAxis.from_a_e returns b, the flattening f satisfies b = a(1-f) and e^2 = 2f - f^2; ArealVelocity.from_r_v_phi with the complement of the angle between position and velocity returns the length of the vector returned by from_r_v, which is perpendicular to both; and for the state made from a set of elements it equals ArealVelocity.from_mu_p of SemiParameter.from_a_e.", "quantifier": "all ellipses, all non-zero position and velocity vectors, all elliptic element sets", "why_tests_cant": "identities between formulas over continuous inputs", "anchors": ["src/openspace/math/functions.py:Eccentricity", "src/openspace/math/functions.py:Flattening", "src/openspace/math/functions.py:ArealVelocity", "src/openspace/math/functions.py:SemiParameter"]}
{"id": "C86", "title": "The geostationary radius is geostationary", "statement": "Earth.geo_radius() is between 42164 and 42165 km and the period of a circular orbit of that radius is one sidereal day; in that time the Greenwich hour angle of the library advances by a whole turn to 3e-6 degrees, at every epoch within 50 centuries of J2000.", "quantifier": "all epochs within 50 centuries of J2000", "why_tests_cant": "compares two independent constants and the hour-angle function at every epoch", "anchors": ["src/openspace/bodies/celestial.py:Earth.geo_radius", "src/openspace/time.py:Epoch.greenwich_hour_angle", "src/openspace/math/constants.py:SECONDS_IN_SIDEREAL_DAY"]}
{"id": "C87", "title": "Simulated observations are of the target, with the errors of the camera used", "statement": "observe_wfov and observe_nfov return an observation made at the observer's position and epoch whose range differs from the true range by the advertised range error of that camera times the normal draw, whose direction differs from the true direction by exactly the pointing accuracy times the normal draw, and which is exactly the target's position for zero draws; they raise only a division error, exactly for a target of zero size, a target exactly along the z axis from the observer, or a draw that makes the measured range zero.", "quantifier": "all pairs of spacecraft, both cameras, all random draws", "why_tests_cant": "must hold for every random draw", "anchors": ["src/openspace/bodies/artificial.py:Spacecraft.observe_wfov", "src/openspace/bodies/artificial.py:Spacecraft.observe_nfov", "src/openspace/math/linalg.py:Vector3D.with_noise"]}
{"id": "C88", "title": "Hill position locates the target", "statement": "The vector returned by hill_position locates the target in spherical coordinates aligned with the observer's orbit (radius R + x, in-plane angle y/R in the direction of motion, out-of-plane angle z/R), and for separations D up to a quarter of the orbit radius R it is the relative position in radial, in-track and cross-track axes to within 4 D^2/R in every component.", "quantifier": "all observers with a well-defined orbital plane and all targets not on the orbit-normal axis", "why_tests_cant": "geometric identity and error bound over continuous inputs", "anchors": ["src/openspace/bodies/artificial.py:Spacecraft.hill_position", "src/openspace/coordinates/states.py:StateConvert"]}
{"id": "C89", "title": "The acceleration is the Earth's central attraction up to small perturbations", "statement": "For every state 5000 to 125000 km from the Earth's centre, within 5 centuries of J2000 and clear of the polar axis, evaluating the derivative succeeds, its position part is the velocity, and the acceleration differs from thrust plus -mu r/|r|^3 by at most 1% of mu/|r|^2 (non-spherical gravity) + 1.3e-5 km/s^2 (Sun and Moon) + 4.56e-9 |srp_scalar| (radiation pressure), with perturbations on or off.", "quantifier": "all states in that region, all epochs within 5 centuries of J2000, all thrust vectors and radiation scalars", "why_tests_cant": "a uniform bound over a continuum of positions and epochs; tests compare single states", "anchors": ["src/openspace/coordinates/states.py:GCRF.derivative", "src/openspace/coordinates/states.py:GCRF.acceleration_from_gravity", "src/openspace/coordinates/states.py:GCRF.acceleration_from_moon", "src/openspace/coordinates/states.py:GCRF.acceleration_from_sun", "src/openspace/coordinates/states.py:GCRF.acceleration_from_srp"]}
{"id": "C90", "title": "Propagation and burns succeed and stay within a computable envelope", "statement": "For every propagator whose state is 6378 to 90000 km from the Earth's centre within 4.9 centuries of J2000, step_to_epoch and maneuver do not raise, provided the distance d = S|v| + S^2 (mu/r^2 + T) (S the duration in seconds, T the largest thrust and radiation acceleration) is at most r/5 and the state keeps clear of the polar axis by 9d; the position then changes by at most d and the velocity by at most S (2 mu/r^2 + T), and the position ends within S^2 (mu/r^2 + T) of a straight flight at the initial velocity.", "quantifier": "all propagator states, target epochs (either direction) and burns in that envelope, any number of steps", "why_tests_cant": "every stage of every step must avoid the singular positions; no finite set of runs shows it", "anchors": ["src/openspace/propagators/inertial.py:RK4.step", "src/openspace/propagators/inertial.py:RK4.step_to_epoch", "src/openspace/propagators/inertial.py:RK4.maneuver"]}
{"id": "C91", "title": "Earth-fixed points turn eastward with the hour angle", "statement": "A point of the Earth-fixed frame at longitude L and any distance has, at every epoch, right ascension L + greenwich_hour_angle in the IJK frame exactly, and in the true-of-date frame up to one angle common to all points and at most 1.05e-4 rad; within a UTC day it turns eastward by 360.98564724 degrees per day.", "quantifier": "all Earth-fixed positions and all epochs", "why_tests_cant": "a reversed sense of rotation preserves every length and every round trip; agreement with the hour angle must hold at every epoch", "anchors": ["src/openspace/bodies/celestial.py:Earth.rotation", "src/openspace/coordinates/positions.py:_PositionConvertITRF.to_tod", "src/openspace/coordinates/positions.py:_PositionConvertITRF.to_ijk"]}
{"id": "C92", "title": "Precession is IAU 1976 precession", "statement": "Earth.precession(epoch) is, entry by entry and at every epoch, the product of the three frame rotations R3(-z) R2(theta) R3(-zeta) by the IAU 1976 angles.", "quantifier": "all epochs", "why_tests_cant": "nine hand-typed entries and eight coefficients; a wrong higher-order coefficient is invisible at present-day epochs", "anchors": ["src/openspace/bodies/celestial.py:Earth.precession"]}
{"id": "C93", "title": "GCRF to ITRF is the classical reduction to 4e-8 of the distance", "statement": "_PositionConvertGCRF.to_itrf never raises, and each component of its result is within 4e-8 |p| of the reduction by exact rotations: IAU 1976 precession, then the exact nutation rotation R1(-(eps+deps)) R3(-dpsi) R1(eps) with the mean obliquity and the two-term nutation series, then the rotation by apparent sidereal time.", "quantifier": "all positions and epochs", "why_tests_cant": "an error bound over all epochs and directions", "anchors": ["src/openspace/coordinates/positions.py:_PositionConvertGCRF.to_itrf", "src/openspace/bodies/celestial.py:Earth.nutation", "src/openspace/bodies/celestial.py:Earth.obliquity_of_ecliptic_at_epoch"]}
{"id": "C94", "title": "Relative propagation is two-body motion up to second order in the separation", "statement": "For a chief in a circular orbit of radius a and a deputy in any two-body motion that stays within D <= a/10 of it, Hill(state, a).step_by_seconds(T) started from the deputy's true relative state (components and rates in the frame turning with the chief) does not raise and predicts the true relative position to 25 (nT)^2 D^2/a in each component and the relative velocity to 50 n |nT| D^2/a, for every T, forwards or backwards.", "quantifier": "all orbit planes, radii, deputy motions and durations", "why_tests_cant": "compares against the exact nonlinear dynamics over all motions; a test has only one reference trajectory", "anchors": ["src/openspace/propagators/relative.py:Hill.__init__", "src/openspace/propagators/relative.py:Hill.system_matrix", "src/openspace/propagators/relative.py:Hill.step_by_seconds"]}
{"id": "C95", "title": "The propagator is of fourth order", "statement": "For a propagator as the library builds it (coasting, or burning with positive mass and a thrust direction) whose state is off the polar axis of the Earth, at most 350 000 km away and not exactly at midnight UTC: the equations of motion whose right-hand side is what derivative() returns have a solution through that state, and for every such solution there are C and d > 0 such that step() with any step size h of |h| < d does not raise and ends within C |h|^5 of the solution in every coordinate.", "quantifier": "all states, epochs, engine settings, solutions and small step sizes, forwards and backwards", "why_tests_cant": "an order of accuracy is a statement about every step size as it tends to zero, against an exact solution that no test can evaluate; it depends on the smoothness of the complete force model", "anchors": ["src/openspace/propagators/inertial.py:RK4.step", "src/openspace/propagators/inertial.py:RK4.thrust_vector", "src/openspace/coordinates/states.py:GCRF.derivative"]}
{"id": "C96", "title": "Propagation converges to the motion at the fourth order of the step size", "statement": "For a coasting propagator as the library builds it and any solution y of its equations of motion (right-hand side: derivative()) that from its epoch to T seconds later or earlier does not meet the polar axis of the Earth, leave the sphere of 350 000 km or cross midnight UTC, there are C and N0 such that for every N >= N0, with step_size = T/N, each of N calls of step() succeeds, and after n calls the epoch is exactly n T/N seconds after the first and the state is within C (T/N)^4 of y(n T/N) in every coordinate.", "quantifier": "all states, epochs, solutions, spans forwards and backwards, numbers of steps and intermediate states", "why_tests_cant": "a limit over all step counts against an exact solution of the full force model, with the success of every intermediate step", "anchors": ["src/openspace/propagators/inertial.py:RK4.step", "src/openspace/coordinates/states.py:GCRF.derivative"]}
{"id": "C97", "title": "step_to_epoch lands on the requested epoch in double precision", "statement": "With every operation on epochs rounded to the nearest double, a propagator stepped to an epoch has exactly that epoch afterwards. (False; what holds: it is off by at most one double spacing, 2^-37 day, per integration step, and two more; steps up to 299.9999 s hit every epoch whose last bit is 0.)", "quantifier": "all pairs of doubles between MJD 32769 and 65535 (1948 to 2038), forwards and backwards", "why_tests_cant": "rounding of every addition over up to millions of steps; tests compare with a tolerance and use round epochs", "anchors": ["src/openspace/propagators/inertial.py:RK4.step_to_epoch", "src/openspace/propagators/inertial.py:RK4.step", "src/openspace/time.py:Epoch.plus_days"]}
{"id": "C98", "title": "Mutual tracking terminates in double precision", "statement": "Although stepping to an epoch does not set a clock exactly, the nested updates of k spacecraft that track one another in any way, with clocks at most D days apart, end within 3k+1 levels of recursion if k (288 (D+1) + 5) < 475 000 000 (fifty spacecraft with any epochs from 1948 to 2038; a thousand spread over four years). The same holds for step_to_epoch.", "quantifier": "all tracking graphs, including cycles, and all epochs that are doubles", "why_tests_cant": "an exact comparison of rounded clocks guards an unbounded recursion", "anchors": ["src/openspace/bodies/artificial.py:Spacecraft.update_attitude", "src/openspace/bodies/artificial.py:Spacecraft.step_to_epoch", "src/openspace/propagators/inertial.py:RK4.step_to_epoch"]}
{"id": "C99", "title": "Tracking synchronises the clock of the target in double precision", "statement": "After a successful update in target mode the tracked spacecraft has the epoch of the tracker, with operations rounded to doubles. (False; what holds: the clocks differ by at most one double spacing per integration step, and two more.)", "quantifier": "all trackers and targets that track nothing, all epochs that are doubles between MJD 32769 and 65535", "why_tests_cant": "depends on the last bit of the epochs", "anchors": ["src/openspace/bodies/artificial.py:Spacecraft.update_attitude", "src/openspace/bodies/artificial.py:Spacecraft.step_to_epoch", "src/openspace/propagators/inertial.py:RK4.step_to_epoch"]}
{"id": "C100", "title": "Kepler's equation is solved for every mean anomaly", "statement": "EA.from_ma_e ends for every mean anomaly and every elliptic eccentricity, also for mean anomalies beyond a full turn. (False; what holds: it ends for every mean anomaly below an eccentricity of 1/2, for every elliptic eccentricity in the second half of every turn counted away from zero, and by C17 within a turn of zero.)", "quantifier": "all real mean anomalies, all eccentricities in [0, 1)", "why_tests_cant": "a while loop without an iteration limit over a continuum of inputs", "anchors": ["src/openspace/math/functions.py:EccentricAnomaly.from_ma_e", "src/openspace/coordinates/elements.py:ClassicalElements.to_ijk"]}
{"id": "C101", "title": "Kepler's equation is solved in double precision", "statement": "With every operation rounded to the nearest double and sine and cosine accurate to 2^-52, EA.from_ma_e ends without an exception for every mean anomaly within a turn of zero and every eccentricity up to 0.9. The result solves Kepler's equation modulo full turns up to 4e-14 and is within 4e-13 of the exact solution.", "quantifier": "all mean anomalies in [-2 pi, 2 pi], all eccentricities in [0, 0.9], all sine and cosine functions within the accuracy", "why_tests_cant": "the loop only ends when two rounded iterates come within 1e-12 of each other, which rounding errors may prevent for some inputs", "anchors": ["src/openspace/math/functions.py:EccentricAnomaly.from_ma_e"]}
{"id": "C102", "title": "Cartesian states survive conversion to elements and back", "statement": "For every bound Cartesian state with non-zero angular momentum, ClassicalElements.from_ijk returns, and to_ijk of the result returns the original epoch, position and velocity, up to the tolerance of the solver of Kepler's equation.", "quantifier": "all bound states with non-zero angular momentum, circular and equatorial ones included", "why_tests_cant": "the elements are angles chosen by quadrant, and each is degenerate on its own family of states (circular, equatorial, at the node); sampled states miss the families", "anchors": ["src/openspace/coordinates/elements.py:ClassicalElements.from_ijk", "src/openspace/coordinates/elements.py:ClassicalElements.to_ijk", "src/openspace/math/functions.py:ArgumentOfLatitude.from_r_w", "src/openspace/math/functions.py:RightAscensionNode.from_w"]}
{"id": "C103", "title": "Classical elements of a bound state can be computed in double precision", "statement": "With every operation rounded to the nearest double, ClassicalElements.from_ijk returns for every bound state with non-zero angular momentum, and semi-major axis and eccentricity are accurate up to rounding errors. (False for nearly circular orbits; what holds: it returns for eccentricities from 2e-7 to 1 - 1e-12, with the square of the eccentricity accurate to 2e-14.)", "quantifier": "all bound states, all sine, cosine and arctangent functions; values whose intermediate results neither overflow nor underflow", "why_tests_cant": "whether the radicand of a square root rounds below zero depends on the last bits of every intermediate result", "anchors": ["src/openspace/coordinates/elements.py:ClassicalElements.from_ijk", "src/openspace/math/functions.py:Eccentricity.from_a_p", "src/openspace/math/functions.py:SemiMajorAxis.from_mu_r_v", "src/openspace/math/functions.py:SemiParameter.from_mu_h"]}
{"id": "C104", "title": "Normalised angles are below 2*pi in double precision", "statement": "In double precision the node, argument of latitude, eccentric and true anomaly and argument of perigee returned by EquationsOfMotion are at least 0 and less than 2*pi. (False: 2*pi itself is returned for tiny negative angles; what holds: they are in the closed interval.)", "quantifier": "all inputs, all arctangents with values between -pi and pi; values whose intermediate results neither overflow nor underflow", "why_tests_cant": "adding 2*pi to a negative angle rounds to 2*pi only for angles closer to zero than 2^-51", "anchors": ["src/openspace/math/functions.py:RightAscensionNode.from_w", "src/openspace/math/functions.py:ArgumentOfPerigee.from_u_nu", "src/openspace/math/functions.py:ArgumentOfLatitude.from_r_w", "src/openspace/math/functions.py:TrueAnomaly.from_e_ea", "src/openspace/math/functions.py:EccentricAnomaly.from_rdv_r_a_n"]}
{"id": "C105", "title": "A finite burn delivers the commanded velocity change", "statement": "After maneuver(dv, m_dot, m0, isp) the velocity has changed by dv plus what gravity and the other forces contribute on the way (the integrator's own weighted sum of the accelerations without thrust). (False: the engine's share is along dv but is never |dv|. A burn of one step of at most 300 s delivers more than |dv|, by at most isp*g*X^5/(120(1-X)^4) with X the propellant fraction; a burn of more steps delivers less than |dv|, because every step starts from the initial mass, and tends to isp*g*X for long burns.)", "quantifier": "all propagators, all commanded velocity changes other than zero, all positive flow rates, masses and specific impulses, all burns that return", "why_tests_cant": "the shortfall depends on the number of integration steps and stays below 0.1% for burns of a few metres per second; it is 13% for 1 km/s with the default engine", "anchors": ["src/openspace/propagators/inertial.py:RK4.maneuver", "src/openspace/propagators/inertial.py:RK4.step", "src/openspace/propagators/inertial.py:RK4.thrust_vector"]}
{"id": "C106", "title": "Positions outside the Earth convert to geodetic coordinates in double precision", "statement": "Converting the ITRF position of a site or a satellite to latitude, longitude and height returns in double precision wherever it does in exact arithmetic. (False near the poles: the argument of the last arcsine is not clamped and is rounded above 1, for example 6358 km up the polar axis. It does return for every latitude within 89.9 degrees and every height between -300 km and 43000 km, and at any distance where the squared cosine of the latitude is at least 3.1e-6 plus 1e-15 of the squared distance in km; from 6000 km outwards it either returns or raises ValueError.)", "quantifier": "all positions with components in double precision at least 6000 km from the centre, all C libraries with an accurate pow; values whose intermediate results neither overflow nor underflow", "why_tests_cant": "the failing positions lie within a few kilometres of the polar axis and only part of them fail, depending on rounding", "anchors": ["src/openspace/coordinates/positions.py:_PositionConvertITRF.to_lla", "src/openspace/bodies/terrestrial.py:GroundSite.from_itrf_position"]}
{"id": "C107", "title": "A noisy observation never makes the filter certain of a position", "statement": "After the relative navigation filter processes an observation that declares a non-zero angular error, no coordinate of the estimated position is reported as exactly known: the position variances are positive. (False: the measurement covariance is built from a single displacement, with both angles off by one sigma in the same sense, and a coordinate that this displacement happens not to touch gets variance zero.)", "quantifier": "all filters, all histories of calls, all observations", "why_tests_cant": "the outcome depends on the direction of the target relative to the orbit, and the variance vanishes only along particular directions", "anchors": ["src/openspace/estimation/filtering.py:RelativeKalman.process", "src/openspace/estimation/filtering.py:RelativeKalman.update_covariance"]}
{"id": "C108", "title": "The error of the navigation filter stays within its covariance", "statement": "If the target moves by the Clohessy-Wiltshire equations, then after any number of observations the error of the filter's estimate is, along every direction, at most sqrt(c + sum of d_i) of the standard deviations the filter reports, where sqrt(c) bounds the initial error and sqrt(d_i) the error of observation i in units of the standard deviations assigned to them. In particular the filter never diverges from a target seen where it is, and a filter that starts on the true state stays on it exactly.", "quantifier": "all initial estimates, all Clohessy-Wiltshire motions of the target, all sequences of observations in any time order", "why_tests_cant": "it is a statement about histories of unbounded length and about every direction of the state space", "anchors": ["src/openspace/estimation/filtering.py:RelativeKalman", "src/openspace/propagators/relative.py:Hill.system_matrix"]}
{"id": "C109", "title": "Calendar instants keep their order in double precision", "statement": "An epoch built from a later calendar instant has the larger value when it is computed in double precision. (False below a microsecond: 2022-12-19 00:00:00 and 0.24 microseconds later give the same epoch. What does hold: midnights are exact, the error of any instant from 1859 to 2216 is below 1.3 microseconds, instants three microseconds apart are strictly ordered, and a date never gets an epoch before one of an earlier date.)", "quantifier": "all valid calendar instants", "why_tests_cant": "the divisions and the factor 30.6001 are rounded differently for every year, month and time of day, and the collisions depend on the magnitude of the day number", "anchors": ["src/openspace/time.py:Epoch.from_gregorian", "src/openspace/math/functions.py:Conversions.hms_to_decimal_day"]}
{"id": "C110", "title": "The Greenwich hour angle is accurate in double precision", "statement": "From 1858 to 2217 the Greenwich hour angle computed in double precision differs from the exact value of the formula by less than 3.3e-9 rad, up to a whole turn (two centimetres on the equator), and by less than 1.3e-10 rad unless the epoch is within two microseconds of midnight UTC; the angle is never negative and never exceeds the double 2 * pi.", "quantifier": "all epochs from MJD 1 to MJD 131072 (the range: all epochs)", "why_tests_cant": "the day number is split from a Julian date of seven digits, and the rounding of the clock can move an epoch to the other side of midnight, where the formula jumps", "anchors": ["src/openspace/time.py:Epoch.greenwich_hour_angle", "src/openspace/time.py:Epoch.julian_value"]}
{"id": "C111", "title": "The angle between two vectors in double precision", "statement": "Computed in double precision, the angle between any two non-zero vectors is returned, never a domain error of the arccosine, and differs from the geometric angle by at most 1e-7 rad; if the vectors are at least a hundredth of a radian from parallel and antiparallel the error is at most 1e-12 rad. Only a zero vector raises (ZeroDivisionError). The first bound cannot be improved much: the angle between (1, 1, 0) and itself comes out as more than 1e-8 rad.", "quantifier": "all pairs of vectors of doubles, every arccosine accurate to one unit in the last place of pi; values whose intermediate results neither overflow nor underflow", "why_tests_cant": "the rounded cosine can exceed one for some parallel vectors and not for others, and the arccosine amplifies an error of one rounding by eight orders of magnitude only near parallel vectors", "anchors": ["src/openspace/math/linalg.py:Vector3D.angle", "src/openspace/math/linalg.py:Vector3D.dot", "src/openspace/math/linalg.py:Vector3D.magnitude"]}
{"id": "C112", "title": "Spherical coordinates in double precision", "statement": "Spherical coordinates computed from a vector in double precision have a radius within 5e-16 of the vector's length (relative), a declination within 1e-15 rad and, up to whole turns, a right ascension within 2e-15 rad of the exact ones; converting them back reproduces every component of the vector to 4e-15 of its length.", "quantifier": "all vectors of doubles (also on the axis and the origin), every sine, cosine and arctangent of the C library accurate to about one unit in the last place; values whose intermediate results neither overflow nor underflow", "why_tests_cant": "the error of the angles depends on quadrant, on the distance to the polar axis and on the rounding of the added turn", "anchors": ["src/openspace/coordinates/positions.py:SphericalPosition.from_cartesian", "src/openspace/coordinates/positions.py:SphericalPosition.to_cartesian"]}
{"id": "C113", "title": "Hill coordinates in double precision", "statement": "Computed in double precision, the Hill (HCW) coordinates of a state relative to an origin are returned without an exception and differ from the exact ones by at most 6e-14 of the origin's distance in every component of position and 1e-12 of the sum of both speeds in every component of velocity.", "quantifier": "every origin whose velocity is at least 6 degrees off the radial direction, every state within 60 degrees of the origin's direction at between half and twice its distance, at any velocities; every sine, cosine, arcsine and arctangent of the C library accurate to about one unit in the last place; values whose intermediate results neither overflow nor underflow", "why_tests_cant": "rounding errors pass through a normalised cross product, an arcsine, an arctangent and two divisions, and each can amplify them at some geometry that no finite set of states visits", "anchors": ["src/openspace/coordinates/states.py:_StateConvertGCRF.to_hcw", "src/openspace/coordinates/states.py:HCW.frame_matrix"]}
{"id": "C114", "title": "Hill coordinates and back in double precision", "statement": "Computed in double precision, the GCRF state of Hill coordinates is returned without an exception and differs from the exact one by at most 9e-14 of the origin's distance in position and 5e-13 of the sum of the speeds in velocity. Converting a GCRF state to Hill coordinates and back, all in double precision, returns it to 1.6e-12 of the origin's distance and 6e-11 of the speeds.", "quantifier": "every origin whose velocity is at least 6 degrees off the radial direction; all Hill coordinates with a radial offset of at most the distance and arcs of at most 1.6 times the distance, at any velocity; for the round trip every state in the domain of C113; values whose intermediate results neither overflow nor underflow", "why_tests_cant": "the errors of the first conversion are inputs of the second, and depend on the whole geometry", "anchors": ["src/openspace/coordinates/states.py:_StateConvertHCW.to_gcrf", "src/openspace/coordinates/states.py:_StateConvertGCRF.to_hcw"]}
{"id": "C115", "title": "Impulsive manoeuvres in double precision", "statement": "Computed in double precision, an impulsive manoeuvre never fails, leaves the position unchanged to 9e-14 of its length in every component, and gives a velocity that differs by at most 5e-13 of the speeds (old speed plus size of the burn) from the old velocity plus the commanded radial, in-track and cross-track components along the exact axes.", "quantifier": "every state whose velocity is at least 6 degrees off the radial direction and every burn vector; every sine and cosine of the C library accurate to about one unit in the last place; values whose intermediate results neither overflow nor underflow", "why_tests_cant": "the position goes through a frame change and back and only stays in place up to rounding, by an amount that depends on the state", "anchors": ["src/openspace/bodies/artificial.py:Spacecraft.impulsive_maneuver", "src/openspace/coordinates/states.py:_StateConvertHCW.to_gcrf"]}
{"id": "C116", "title": "acquire builds the filter from the truth, and process_wfov / process_nfov feed it what they observe", "statement": "A successful acquire gives the observer a new filter at the observer's epoch, started from the Hill coordinates of the target relative to the observer, with the mean motion of the observer's vis-viva semi-major axis and the default covariance; it changes no other spacecraft's filter and moves neither the observer nor a target at the observer's epoch. process_wfov and process_nfov succeed exactly when there is a filter, the observation with their own camera succeeds and the filter processes it; then only the observer's filter changes. Without a filter they raise and change nothing. Acquiring a target at the same epoch and processing a noiseless observation of it leaves the estimate exactly at the true relative state.", "quantifier": "all sets of spacecraft in any state, all pairs, all draws", "why_tests_cant": "the relation between filter, observer and target has to hold for every pair of states and steering modes", "anchors": ["src/openspace/bodies/artificial.py:Spacecraft.acquire", "src/openspace/bodies/artificial.py:Spacecraft.process_wfov", "src/openspace/bodies/artificial.py:Spacecraft.process_nfov", "src/openspace/estimation/filtering.py:RelativeKalman"]}
{"id": "C117", "title": "A new filter is right for its own epoch", "statement": "After a successful acquire, the filter of the observer holds the true relative state of the target for the epoch it is labelled with, which is the epoch both spacecraft are at. (False of the code when the target's state is at another epoch: the filter then holds the relative state of where the target was at its own epoch, labelled with the observer's epoch, while the target is moved on. What does hold: it is right if the epochs agree.)", "quantifier": "all pairs of spacecraft states", "why_tests_cant": "the examples and tests only acquire targets at the observer's epoch", "anchors": ["src/openspace/bodies/artificial.py:Spacecraft.acquire", "src/openspace/bodies/artificial.py:Spacecraft.track_state", "src/openspace/bodies/artificial.py:Spacecraft.update_attitude"]}
{"id": "C118", "title": "The loop of the examples keeps two spacecraft exactly synchronised in double precision", "statement": "With every operation on epochs rounded to the nearest double, a loop that steps one spacecraft while its clock is before an end epoch and moves the other to the clock of the first ends after the least number of steps that reaches the end epoch, and the two clocks are then exactly equal (as they are after every iteration), whether the spacecraft track each other or not; no other clock moves. Every default step adds the same amount, between 0.27 and 0.3 microseconds less than five minutes.", "quantifier": "all start and end epochs that are doubles between MJD 32769 and 65535, all tracking modes of the two spacecraft", "why_tests_cant": "in general step_to_epoch misses epochs by rounding (C97, C99); that the documented pattern never does depends on the parity of the step in units of the last place, for every epoch", "anchors": ["docs/source/examples/example_propagation.py", "docs/source/examples/example_kalman.py", "docs/source/examples/example_sensing.py", "src/openspace/bodies/artificial.py:Spacecraft.step", "src/openspace/bodies/artificial.py:Spacecraft.step_to_epoch"]}
{"id": "C119", "title": "A simulation of a whole number of days makes 288 steps a day and ends at the end epoch", "statement": "The loop of the examples, run until an end epoch a whole number of default steps away, makes that number of steps and ends with both spacecraft at the end epoch. (True in exact arithmetic, with any loop body that leaves the clocks alone. False in double precision: for every start epoch and every whole number of days the loop makes one step more than 288 a day and ends nearly five minutes late.)", "quantifier": "all start epochs and spans", "why_tests_cant": "it fails for every whole number of days by an accumulation of rounding errors below a microsecond, which a comparison with a tolerance does not see", "anchors": ["docs/source/examples/example_propagation.py", "docs/source/examples/example_kalman.py", "src/openspace/propagators/inertial.py:RK4.step", "src/openspace/time.py:Epoch.plus_days"]}
{"id": "C120", "title": "The Sun is where the published series puts it, and goes round once a year", "statement": "For every epoch Sun.get_position is the position of the low-precision solar series of Satellite Orbits (equations 3.43 to 3.45), referred to the equator with the obliquity of J2000. Its ecliptic longitude always advances, by 0.951 to 1.020 degrees a day, and the position repeats exactly after 360/35999.049 Julian centuries (365.2596 days).", "quantifier": "all epochs", "why_tests_cant": "a wrong coefficient or sign shows up only at some times of the year; agreement has to hold at every epoch", "anchors": ["src/openspace/bodies/celestial.py:Sun.get_position", "src/openspace/bodies/celestial.py:Sun.COS_OBLIQUITY", "src/openspace/bodies/celestial.py:Sun.SIN_OBLIQUITY"]}
{"id": "C121", "title": "The Moon is where the series cited in the code puts it", "statement": "For every epoch Moon.get_position is the position of equations 3.47 to 3.51 of Satellite Orbits, which its comments cite. (False: a misplaced parenthesis moves the term 541 arcsec sin(l') of the latitude argument into the argument of another sine. The longitude and distance are those of the series; the latitude is up to 48.7 arcsec and the position up to 98 km off, and 80 km off on 5 April 2022.)", "quantifier": "all epochs", "why_tests_cant": "the error is a quarter of a per mille of the distance and varies with the season and the Moon's node; a test with a tolerance, or at an epoch where the term vanishes, passes", "anchors": ["src/openspace/bodies/celestial.py:Moon.get_position"]}
{"id": "C122", "title": "The Moon keeps going round near the ecliptic", "statement": "For every epoch the position of Moon.get_position has an ecliptic latitude within 5.34 degrees, and the ecliptic longitude it is computed from always advances, by 10.9 to 15.4 degrees a day.", "quantifier": "all epochs and pairs of epochs", "why_tests_cant": "a sign error in one of the fourteen periodic terms, or a confusion of units, is invisible at a few epochs", "anchors": ["src/openspace/bodies/celestial.py:Moon.get_position"]}
{"id": "C123", "title": "Elements with advancing mean anomaly describe two-body motion", "statement": "For every elliptic element set there is a motion under the attraction -mu r/|r|^3 of the Earth's centre, defined for all times, such that to_ijk, applied at any time t to the same elements with mean anomaly M + sqrt(mu/a^3) t reduced by any number of full turns, can only return the position and velocity of that motion at t, to within a 5e-25/(1-e) and sqrt(mu/a) 5e-25/(1-e)^3; and it does return when the mean anomaly is within a turn of zero.", "quantifier": "all element sets with a > 0 and 0 <= e < 1, all times, all reductions by full turns", "why_tests_cant": "that the states follow the differential equation is a statement about derivatives at every time", "anchors": ["src/openspace/coordinates/elements.py:ClassicalElements.to_ijk", "src/openspace/math/functions.py:Equations.EA.from_ma_e"]}
{"id": "C124", "title": "Elements are constant along two-body motion and the mean anomaly is a clock", "statement": "Let a state move under the attraction of the Earth's centre on some interval of times, bound and not radial. Then from_ijk succeeds at every time and always returns the same semi-major axis, eccentricity, inclination and node. If the orbit is not circular the mean anomaly grows at the rate sqrt(mu/a^3), modulo full turns; outside the equatorial plane the argument of perigee is constant. For circular orbits outside the equatorial plane the mean anomaly is zero at all times and the argument of perigee grows at that rate.", "quantifier": "all two-body motions, bound and not radial, all times", "why_tests_cant": "a conservation law and a growth law for every orbit and every time; samples do not exclude drift or a jump at a quadrant", "anchors": ["src/openspace/coordinates/elements.py:ClassicalElements.from_ijk", "src/openspace/math/functions.py:Equations.EA.from_rdv_r_a_n", "src/openspace/math/functions.py:Equations.MA.from_ea_e"]}
{"id": "C125", "title": "Elements predict the motion", "statement": "Let a state move under the attraction of the Earth's centre on some interval of times, bound, with angular momentum not along the polar axis. The elements from_ijk returns at one time, with the mean anomaly advanced by sqrt(mu/a^3) times the elapsed time and reduced by full turns into [-2 pi, 2 pi], are converted by to_ijk into the state the motion has at the other time, to within a 5e-25/(1-e) and sqrt(mu/a) 5e-25/(1-e)^3.", "quantifier": "all such motions, all pairs of times, forward and backward, all reductions by full turns", "why_tests_cant": "ranges over all solutions of a differential equation and all times", "anchors": ["src/openspace/coordinates/elements.py:ClassicalElements.from_ijk", "src/openspace/coordinates/elements.py:ClassicalElements.to_ijk"]}
{"id": "C126", "title": "The relative filter's error stays within its covariance for a target that does not follow the Hill model", "statement": "Let the relative state of a target be any function of time. Suppose the initial estimate is within sqrt(c) standard deviations of the initial covariance, between consecutive observations the Hill transition matrix misses the true relative state by at most sqrt(m) standard deviations of the process noise (1e-16), and each measurement misses the true relative position by at most sqrt(d_i) of the observation's reported errors. Then processing any list of N such observations succeeds, and the estimate ends within sqrt(c + sum d_i + N m) standard deviations of its own covariance from the truth. For a target under the attraction of the Earth's centre that stays within D <= a/10 of a reference point on a circular orbit of radius a, with gaps of at most T, m = 3(e^2 + e'^2)/1e-16 will do, where e = 25 (nT)^2 D^2/a and e' = 50 (nT) n D^2/a.", "quantifier": "all target motions, all observation lists of any length and order, all error sizes; all two-body motions on an interval of times", "why_tests_cant": "the true motion, the errors and the number of observations are unbounded; a test fixes one scenario", "anchors": ["src/openspace/estimation/filtering.py:RelativeKalman.process", "src/openspace/estimation/filtering.py:RelativeKalman.predict_covariance", "src/openspace/propagators/relative.py:Hill.system_matrix"]}
{"id": "C127", "title": "Sensing never influences the truth", "statement": "Take two programs on the same spacecraft that make the same calls of step, step_to_epoch, update_attitude, track_*, *_maneuver and acquire in the same order, but process any observations (process_wfov, process_nfov, with any random draws, successful or raising) and assign albedo, body_radius, pointing_accuracy and cameras as they like, starting from spacecraft that may differ in those attributes, in filter and in stored initial state. Then each of the common calls returns or raises alike, and all spacecraft end with the same propagator, masses, engine, mode, target, slew and body axes.", "quantifier": "all pairs of programs of any length, all random draws, all values of the sensing attributes, any number of spacecraft and tracking graphs", "why_tests_cant": "it compares all pairs of runs; a test compares one pair", "anchors": ["src/openspace/bodies/artificial.py:Spacecraft.process_wfov", "src/openspace/bodies/artificial.py:Spacecraft.process_nfov", "src/openspace/bodies/artificial.py:Spacecraft.update_attitude", "src/openspace/bodies/artificial.py:Spacecraft.acquire"]}
{"id": "C128", "title": "Spacecraft that do not track each other do not influence each other", "statement": "A call that names spacecraft of a group whose tracked targets are in the group changes no spacecraft outside it, and its outcome and its effect on the group do not depend on spacecraft outside it. For two groups that do not track each other, in every history of calls on the one or the other, however interleaved, each group ends as if only the calls about it had been made, and those calls return or raise alike; calls on the two groups can be made in either order.", "quantifier": "all groups, all histories of any length and interleaving, failing calls included", "why_tests_cant": "ranges over all interleavings of unbounded histories", "anchors": ["src/openspace/bodies/artificial.py:Spacecraft.step", "src/openspace/bodies/artificial.py:Spacecraft.step_to_epoch", "src/openspace/bodies/artificial.py:Spacecraft.update_attitude"]}
{"id": "C129", "title": "Relative propagation in double precision", "statement": "In double precision, for a relative state whose coordinates are at most L and whose velocities are at most n L, Hill.step_by_seconds(t) does not raise and is within 6e-14 (1 + n|t|) L of the exact solution in position and n times that in velocity; N calls of step() with step size h end within 6e-11 N (1 + n|h|) (1 + n N|h|)^2 L of it, for N (1 + n|h|) (1 + n N|h|) up to 1e11: ten kilometres from a geosynchronous spacecraft, a day in steps of ten minutes, to a centimetre.", "quantifier": "all positive semi-major axes, all relative states, all times and step sizes of either sign, any number of steps within the bound, all mathematical libraries whose sine and cosine are accurate to one unit in the last place", "why_tests_cant": "the roundings of each state, time and number of steps differ; a test sees one", "anchors": ["src/openspace/propagators/relative.py:Hill.step", "src/openspace/propagators/relative.py:Hill.step_by_seconds", "src/openspace/propagators/relative.py:Hill.system_matrix", "src/openspace/math/linalg.py:Matrix6D.multiply_vector"]}
{"id": "C130", "title": "Elevation tells whether a target is in view of a ground site", "statement": "For every site on or above the reference ellipsoid, angles_and_range never raises, and if the elevation is not negative, the line of sight to the target and beyond is nowhere inside the ellipsoid. For a site on the ellipsoid and a negative elevation, the line of sight passes through the ellipsoid before it reaches the target.", "quantifier": "all latitudes, longitudes and heights, all targets and epochs", "why_tests_cant": "a statement about every point of every line of sight", "anchors": ["src/openspace/bodies/terrestrial.py:GroundSite.angles_and_range", "src/openspace/bodies/terrestrial.py:GroundSite.enz_position", "src/openspace/coordinates/positions.py:ENZ.matrix", "src/openspace/estimation/obs.py:GroundObservation.__init__"]}
{"id": "C131", "title": "A detected target is in view", "statement": "If detect(target) is True, the line of sight is not blocked by the Earth, keeps clear of the Moon, and the target is in sunlight.", "quantifier": "all pairs of spacecraft after all histories of calls", "why_tests_cant": "ranges over all geometries and histories", "anchors": ["src/openspace/bodies/artificial.py:Spacecraft.detect", "src/openspace/bodies/artificial.py:Spacecraft.earth_angle", "src/openspace/hardware/constraints.py:OpticalConstraints.DEFAULT_EARTH_LIMIT"]}
{"id": "C132", "title": "Nothing depends on the choice of the inertial axes", "statement": "If all inertial states are turned by the same rotation, the Hill coordinates of one with respect to another stay the same, and the conversion back and impulsive manoeuvres give the turned states; they raise for the turned states exactly when they raise for the original ones. Turning a state about the polar axis leaves its classical elements as they are, except that the right ascension of the ascending node is turned by the same angle (modulo a full turn, in [0, 2 pi)).", "quantifier": "all rotations, all states, all relative states and commanded manoeuvres, failing cases included", "why_tests_cant": "relates all pairs of runs whose inputs differ by a rotation", "anchors": ["src/openspace/coordinates/states.py:_StateConvertGCRF.to_hcw", "src/openspace/coordinates/states.py:_StateConvertHCW.to_gcrf", "src/openspace/bodies/artificial.py:Spacecraft.impulsive_maneuver", "src/openspace/coordinates/elements.py:ClassicalElements.from_ijk"]}
{"id": "C133", "title": "The navigation filter gives the best linear estimate from all its observations", "statement": "Fix the times of any number of observations and the errors the filter assigns to them. The filter's estimate is then a fixed affine combination of the measured positions. If the initial error, the disturbances of the motion and the measurement errors are uncorrelated random variables with the covariances the filter assigns to them, then the mean square error of every linear form of the estimated state is exactly what the reported covariance says, and no other combination of a constant and all the measurements has a smaller mean square error.", "quantifier": "all times in any order, all numbers of observations, all measured positions, all probability spaces and noise distributions with finite variance, all competing linear estimates", "why_tests_cant": "optimality over all estimators and all distributions of the errors, by induction over the history of observations", "anchors": ["src/openspace/estimation/filtering.py:RelativeKalman.process", "src/openspace/estimation/filtering.py:RelativeKalman.predict", "src/openspace/estimation/filtering.py:RelativeKalman.update"]}
{"id": "C134", "title": "The Gauss method recovers the orbit of the observed object", "statement": "Observe an object in two-body motion, on a bound orbit outside the equatorial plane, at two times dt apart and less than half a turn further, with auxiliary numbers m <= 1/10 and 25 l < 16 m. If the observations give its true positions, the elements coes_from_positions returns are those of the object's own orbit: to_ijk returns the first position, and a velocity within 1.5e-12 (|r2 - r1| + (|r1| + |r2|)/4)/dt of the object's velocity, apart from the tolerance of Kepler's equation.", "quantifier": "all two-body motions, all pairs of times in that regime, all observations of the two positions", "why_tests_cant": "ranges over a continuum of orbits and needs that Gauss's equation has no second root", "anchors": ["src/openspace/estimation/iod.py:Gauss.coes_from_positions", "src/openspace/estimation/iod.py:Gauss.solve_nu", "src/openspace/coordinates/elements.py:ClassicalElements.to_ijk"]}
{"id": "C135", "title": "The state of classical elements is accurate in double precision", "statement": "For elements with a > 0 and 0 <= e <= 0.9 there is a two-body motion such that to_ijk, with every operation rounded to the nearest double and the mean anomaly advanced by sqrt(mu/a^3) times the time and reduced into [-2 pi, 2 pi], ends without an exception and returns the state of the motion at that time: the position within 2.5e-12 a, the velocity within 1.5e-10 sqrt(mu/a).", "quantifier": "all elements in that range, all times, all C libraries whose sine and cosine are accurate to 2^-52", "why_tests_cant": "ranges over a continuum of orbits and over platforms; rounding errors of the Kepler solver differ from input to input", "anchors": ["src/openspace/coordinates/elements.py:ClassicalElements.to_ijk", "src/openspace/coordinates/elements.py:ClassicalElements.perigee_vector", "src/openspace/coordinates/elements.py:ClassicalElements.semilatus_rectum_vector"]}
{"id": "C136", "title": "A flown Hohmann plan reaches the target orbit", "statement": "A spacecraft on a circular orbit of radius r1 that performs delta_v_1 of Hohmann(r1, r2) in track with impulsive_maneuver, coasts half a revolution of the transfer ellipse, pi*sqrt(((r1+r2)/2)^3/mu), under the attraction of the Earth, and performs delta_v_2 in track with impulsive_maneuver ends on the circular orbit of radius r2: after the coast it is opposite to the start at distance r2 with the speed transfer_velocity_2, after the second burn its velocity is perpendicular to its position with speed sqrt(mu/r2), its plane and sense of motion are those of the first orbit, and from then on its distance stays r2.", "quantifier": "all spacecraft and worlds, all positive radii r1 and r2 in either order, all circular starting states in any plane, all two-body motions through the states", "why_tests_cant": "ranges over a continuum of orbits and over exact motions, which numerical propagation only approximates", "anchors": ["src/openspace/planning/maneuvers.py:Hohmann", "src/openspace/bodies/artificial.py:Spacecraft.impulsive_maneuver"]}
{"id": "C137", "title": "A printed vector can be read back", "statement": "str() of a Vector3D or Vector6D is its components as decimal numerals with six digits after the point, separated by single blanks. However the text is read as numerals separated by blanks, the values are those of the components to half a unit in the sixth decimal place; vectors that print alike agree to one unit in the sixth decimal place.", "quantifier": "all vectors, all ways to read the text", "why_tests_cant": "ranges over all real components: carries into the integer part, ties, negative numbers that round to zero and numbers of any length", "anchors": ["src/openspace/math/linalg.py:Vector3D.__str__", "src/openspace/math/linalg.py:Vector6D.__str__"]}
{"id": "C138", "title": "Rounding errors do not change what is detected", "statement": "In double precision visual_magnitude() raises for no target: the rounded phase function is positive even for a target exactly in the direction of the Sun, where exact arithmetic would take the logarithm of zero. For a target at least a quarter of a radian from the Sun the magnitude is correct to 1e-11 plus 1e-15 of its size. detect() gives the answer of the five exact constraints unless an angle lies within 1e-7 rad, or the magnitude within that error, of its limit.", "quantifier": "all vectors to the Sun, Earth, Moon and target, all camera directions, limits, albedos and radii, all C libraries with errors of one unit in the last place", "why_tests_cant": "the phase function is a difference of nearly equal rounded numbers; its sign for every double cannot be tried", "anchors": ["src/openspace/bodies/artificial.py:Spacecraft.detect", "src/openspace/bodies/artificial.py:Spacecraft.visual_magnitude"]}
{"id": "C139", "title": "Earth-fixed positions in double precision", "statement": "From November 1858 to 2217 converting a position between GCRF and ITRF in double precision succeeds and differs from the exact conversion by at most 3.4e-9 of the distance, and by at most 1.4e-10 of it unless the time is within two microseconds of midnight UTC. The rounded position agrees with the classical reduction to 4.4e-8 of the distance, and converting to ITRF and back returns the position to 1.11e-8 of the distance: the rounding error of the hour angle cancels, the linearised nutation remains.", "quantifier": "all positions, all epochs with values from 1 to 131072, all C libraries whose sine and cosine are correct to one unit in the last place", "why_tests_cant": "the error of the hour angle depends on the time of day through two remainders; no set of epochs bounds it, and the cancellation in the round trip must hold for each", "anchors": ["src/openspace/coordinates/positions.py:_PositionConvertGCRF.to_itrf", "src/openspace/coordinates/positions.py:_PositionConvertITRF.to_gcrf", "src/openspace/bodies/celestial.py:Earth.precession", "src/openspace/bodies/celestial.py:Earth.nutation", "src/openspace/bodies/celestial.py:Earth.rotation"]}
{"id": "C140", "title": "The Sun and the Moon in double precision", "statement": "From November 1858 to 2217 Sun.get_position() in double precision is within four metres of the exact value of the published series. Moon.get_position() succeeds and is within thirty centimetres of the exact value of the formula in the code, so that the Moon is always between 356095 and 413905 km away.", "quantifier": "all epochs with values from 1 to 131072, all C libraries whose sine and cosine are correct to one unit in the last place", "why_tests_cant": "the mean angles reach twenty thousand radians before they enter the sines; the worst rounding over all doubles in the range cannot be sampled", "anchors": ["src/openspace/bodies/celestial.py:Sun.get_position", "src/openspace/bodies/celestial.py:Moon.get_position"]}
{"id": "C141", "title": "The accelerations in double precision", "statement": "In double precision acceleration_from_earth() succeeds at every position but the centre of the Earth with a relative error below 2.2e-15. Between November 1858 and 2217, within 125000 km of the Earth, acceleration_from_moon() and acceleration_from_sun() succeed and are within 2e-15 km/s^2 of their exact values, and acceleration_from_srp() succeeds with a relative error below 2e-10.", "quantifier": "all positions other than the centre, for Moon, Sun and radiation pressure all positions within 125000 km, all epochs with values from 1 to 131072, all radiation coefficients, all C libraries whose sine and cosine are correct to one unit in the last place", "why_tests_cant": "the third-body terms are differences of nearly equal vectors, so the worst cancellation has to be found over all positions and epochs; a test compares with another double computation", "anchors": ["src/openspace/coordinates/states.py:GCRF.acceleration_from_earth", "src/openspace/coordinates/states.py:GCRF.acceleration_from_moon", "src/openspace/coordinates/states.py:GCRF.acceleration_from_sun", "src/openspace/coordinates/states.py:GCRF.acceleration_from_srp"]}
{"id": "C142", "title": "Finite burns in double precision", "statement": "In double precision thrust_vector(dt) succeeds for every dt >= 0 at which at least a tenth of the mass remains, with a relative error below 4e-15, and the burn time of maneuver() is wrong by at most 2.5e-15 of m0/m_dot. (False: shortly after the start of a step, when less than 2^-55 of the mass is spent, thrust_vector raises ZeroDivisionError.)", "quantifier": "all engines (mass flow, mass, specific impulse, direction), all times, all velocity changes, all C libraries whose logarithm and power are correct to one unit in the last place", "why_tests_cant": "the failing engines and steps are tiny, and the logarithm that cancels in exact arithmetic is wrong by any factor in doubles; its harmlessness is a statement about all values", "anchors": ["src/openspace/propagators/inertial.py:RK4.thrust_vector", "src/openspace/propagators/inertial.py:RK4.maneuver"]}
{"id": "C143", "title": "Geopotential acceleration in double precision", "statement": "In double precision acceleration_from_gravity() succeeds for every state at least 5000 km from the centre of the Earth and off its polar axis, and is wrong by at most 1.7e-9/c of the central attraction, where c (at least a thousandth) is the share of the distance from the axis in the distance from the centre in ITRF; by at most 7e-11/c of it if UTC is not within two microseconds of midnight; and by at most 3.4e-8 of it at all declinations up to 82 degrees.", "quantifier": "all positions, all epochs from 1858 to 2217, all C libraries whose trigonometric functions, tangent and power are correct to one unit in the last place", "why_tests_cant": "the sum of spherical harmonics divides by the distance from the axis and multiplies angles by the order, so errors grow without bound towards the poles; how fast is a statement about all positions", "anchors": ["src/openspace/coordinates/states.py:GCRF.acceleration_from_gravity"]}
{"id": "C144", "title": "Acceleration of a state in double precision", "statement": "In double precision the derivative of a state succeeds wherever the exact one does off the polar axis, 5000 to 125000 km from the centre of the Earth, returns the velocity unchanged, and an acceleration that is wrong by at most 1.8e-9/c of the central attraction (7.1e-11/c if UTC is not within two microseconds of midnight), plus 5e-15 km/s^2, 1e-18 of the radiation pressure coefficient and 1e-15 of the thrust, where c is the share of the distance from the axis in the distance from the centre in ITRF. With perturbations off the error is at most 4e-15 of the thrust and of the attraction, at every position but the centre.", "quantifier": "all states, all epochs from 1858 to 2217, all C libraries whose functions are correct to one unit in the last place", "why_tests_cant": "a bound on the rounding error of a sum of six forces holds for all positions, thrusts and epochs or not at all", "anchors": ["src/openspace/coordinates/states.py:GCRF.derivative"]}
{"id": "C145", "title": "A step of the inertial propagator in double precision", "statement": "In double precision a step of up to 300 s, coasting or thrusting, from a state with the default settings succeeds if the four positions at which the Runge-Kutta formula evaluates the force are R (at least 6378) to 120000 km from the centre of the Earth and at declinations up to 82 degrees; its epoch is the one of C97, and position and velocity differ from the classical Runge-Kutta step of the force law (at the epochs the program computes) by at most 2e-8 h^2 mu/R^2 + 4e-10 km and 4.5e-8 h mu/R^2 + 2.4e-12 km/s, or 8.2e-10 and 1.9e-9 instead if the step does not touch the two microseconds around midnight UTC.", "quantifier": "all states, epochs from 1858 to 2217, step sizes that are doubles up to 300, engines off or within the limits of C142, all C libraries whose functions are correct to one unit in the last place", "why_tests_cant": "the error of one stage displaces the position at which the next evaluates the force; how far this grows over the stages is a statement about all states", "anchors": ["src/openspace/propagators/inertial.py:RK4.step"]}
{"id": "C146", "title": "Propagation over many steps in double precision", "statement": "In double precision N steps of up to 301 s, or a propagation to a later epoch, coasting or thrusting, with the default settings succeed and end with the settings unchanged at the epoch that the rounded additions of C97 give, and at a position and velocity that differ from those of the same N exact Runge-Kutta steps of the force law (at the epochs the program computes) by at most B/w and B, where w = sqrt(3.02 mu/R^3) and B = exp(1.001 w N h) 2 N (h (3.28e-9 mu/R^2 + 5e-15) + 4e-11 w + 8e-15), with 1.35e-10 instead of 3.28e-9 if no step touches the two microseconds around midnight UTC. This holds as long as B/w is below ten metres, the speed is below 12 km/s, and the positions at which the force is evaluated are R (at least 6378) to 120000 km from the centre of the Earth and at declinations up to 56 degrees. It is enough that this is true of all positions the satellite could reach in that time at an acceleration of 11 m/s^2.", "quantifier": "all states, all numbers of steps, epochs from 1858 to 2217, step sizes that are doubles up to 301, engines off or within the limits of C142, all C libraries whose functions are correct to one unit in the last place", "why_tests_cant": "rounding errors of every step are carried on and amplified by all later ones; a bound on their growth is an induction over the steps", "anchors": ["src/openspace/propagators/inertial.py:RK4.step", "src/openspace/propagators/inertial.py:RK4.step_to_epoch"]}
{"id": "C147", "title": "What a call can change", "statement": "No history of public calls changes initial state, albedo, radius, cameras, slew rate, pointing accuracy, mass flow, specific impulse or dry mass of any spacecraft. Only acquire, process_wfov and process_nfov change a filter, only track_lvlh, track_sun, track_state and acquire a steering mode and tracked target, only finite_maneuver a propellant mass, and each of them only that of the spacecraft it is called on; manoeuvres and observations change no attitude, observations no propagator, and manoeuvres no propagator but that of the spacecraft they are called on. This holds for calls that raise, too.", "quantifier": "all histories of any length, any number of spacecraft and tracking graphs, returning and raising calls, all random draws", "why_tests_cant": "that nothing else changes is a statement about all other attributes, objects and outcomes of every call", "anchors": ["src/openspace/bodies/artificial.py:Spacecraft"]}
{"id": "C148", "title": "Angles of the classical elements in double precision", "statement": "For a bound state with eccentricity e from 2e-7 to 0.9, ClassicalElements.from_ijk in double precision gives the eccentricity up to 2e-14/e, the inclination up to 4e-15 rad and the mean anomaly up to 5e-14/e rad. If the sine of the inclination i is at least 1e-12, it gives the right ascension of the node up to 4.1e-15/sin i and the argument of perigee up to 4.5e-15/sin i + 7.1e-13/e rad. All but the inclination are angles up to whole turns, so 0 and nearly 2 pi are close.", "quantifier": "all bound states with non-zero angular momentum and an eccentricity from 2e-7 to 0.9, all C libraries whose functions are correct to one unit in the last place; values whose intermediate results neither overflow nor underflow", "why_tests_cant": "how ill-conditioned the angles are depends on the orbit, and the rounding errors of every intermediate result matter", "anchors": ["src/openspace/coordinates/elements.py:ClassicalElements.from_ijk", "src/openspace/math/functions.py:Inclination.from_w", "src/openspace/math/functions.py:RightAscensionNode.from_w", "src/openspace/math/functions.py:ArgumentOfPerigee.from_u_nu", "src/openspace/math/functions.py:MeanAnomaly.from_ea_e"]}
{"id": "C149", "title": "Hohmann transfers in double precision", "statement": "For any two positive radii a Hohmann transfer computed in double precision never raises and its four speeds are not negative. If neither radius is more than 10000 times the other, the speeds on the two circles have relative errors of at most 4e-16, the speeds on the transfer ellipse at the radius r of at most 9e-16 (1 + 2 r / r'), where r' is the other radius, and each velocity change errs by at most 1.1e-15 (1 + 2 r / r') times the transfer speed plus 6e-16 times the circular speed.", "quantifier": "all pairs of positive radii, with a ratio of at most 10000 for the errors; values whose intermediate results neither overflow nor underflow", "why_tests_cant": "the difference 2/r - 1/a could round to a negative number and make the square root raise for some radii only", "anchors": ["src/openspace/planning/maneuvers.py:Hohmann", "src/openspace/planning/maneuvers.py:VisViva", "src/openspace/math/functions.py:VisVivaVelocity.from_a_mu_r"]}
{"id": "C150", "title": "Orbit formulas in double precision", "statement": "In double precision, for every positive argument the formulas for sizes, periods, mean motions, energies, areal velocities and angular units differ from their exact values by a few units in the last place: relative errors are at most 9e-16, and at most 4e-15 for cube roots of numbers from 1e-20 to 1e20. Eccentricities from a and b <= a or from a and p <= a never raise and their squares err by at most 1e-15. Semi-minor axes for e < 1 never raise and err by at most 6e-16 a / sqrt(1 - e^2). The areal velocity r v cos(phi) errs by at most 5e-16 r v, the energy by at most 4e-16 (v^2/2 + mu/r), and the semi-parameter for e <= 1 by at most 4e-16 a. Where a formula for a speed or a semi-major axis takes a difference of two terms, its relative error is at most 9e-16 times the ratio of the sum to the difference of the terms, if that is at most 10000. The radius and the speed at a true anomaly err by at most 8e-16/(1 - e) and 5e-15/(1 - e)^2 of themselves for e <= 0.95.", "quantifier": "all positive arguments, with the stated restrictions, all C libraries whose functions are correct to one unit in the last place; values whose intermediate results neither overflow nor underflow", "why_tests_cant": "rounding errors and the risk of a negative radicand depend on every bit of the arguments", "anchors": ["src/openspace/math/functions.py:Eccentricity", "src/openspace/math/functions.py:SemiMajorAxis", "src/openspace/math/functions.py:SemiMinorAxis", "src/openspace/math/functions.py:SemiParameter", "src/openspace/math/functions.py:ArealVelocity", "src/openspace/math/functions.py:Radius", "src/openspace/math/functions.py:SpecificMechanicalEnergy", "src/openspace/math/functions.py:VisVivaVelocity", "src/openspace/math/functions.py:Period", "src/openspace/math/functions.py:MeanMotion", "src/openspace/math/functions.py:Conversions"]}
{"id": "C151", "title": "The iteration of Gauss's method in double precision", "statement": "Let m and l be Gauss's auxiliary numbers of two positions seen dt seconds apart. If m <= 0.0999 and 1e-13 <= l <= 0.58 m, the iteration of initial orbit determination from two positions ends in double precision: no exception is raised, it stops within sixty passes, and the ratio of sector to triangle is within 1.75e-12 of the one root of the exact equation for the exact positions, although the stopping test compares with 1e-12 and close iterates make the secant inexact. For given m <= 0.1 and 0 <= l <= 0.6 m the solver stops within sixty passes from any two start values at least 1e-12 apart, the first from 0.91 to 1.25 and the second from 1 to 1.13.", "quantifier": "all pairs of positions and epochs whose auxiliary numbers are in the stated range, all C libraries whose sine, arcsine and power are correct to one unit in the last place", "why_tests_cant": "a rounded secant iteration could cycle above its tolerance or divide by a rounded difference of zero for particular positions only", "anchors": ["src/openspace/estimation/iod.py:Gauss.solve_nu", "src/openspace/estimation/iod.py:Gauss.f_of_nu", "src/openspace/estimation/iod.py:Gauss.w_of_omega", "src/openspace/estimation/iod.py:Gauss.coes_from_positions"]}
{"id": "C152", "title": "Elements found by Gauss's method in double precision", "statement": "An object on a Kepler orbit of eccentricity e <= 0.9 is seen at true anomaly nu and again at nu + d, dt seconds later as Kepler's equation demands. If sin d >= 0.01, e |cos nu| >= 1e-4 and Gauss's auxiliary numbers satisfy m <= 0.0999 and 1e-13 <= l <= 0.58 m, initial orbit determination from the two positions returns in double precision, without exception, the elements of that orbit at the first epoch: the eccentricity up to zeta = 1.72e-11 / sin d + 1.5e-15 / (e |cos nu|), the semi-major axis up to 10 zeta times itself, the mean anomaly up to whole turns and 1.7e-9 / (e sin d) + 1e-13 / (e |cos nu|), the inclination up to 8e-15 / sin d and, if sin i >= 1e-10, the node up to 7.5e-15 / (sin d sin i) and the argument of perigee up to 6.5e-15 / (sin d sin i) + 1.76e-11 / (e sin d).", "quantifier": "all orbits, pairs of positions and epochs in the stated range, all C libraries of the stated accuracy", "why_tests_cant": "rounding errors are amplified without limit for short arcs, round orbits and first positions near the semi-latus rectum, so no sample of orbits bounds them", "anchors": ["src/openspace/estimation/iod.py:Gauss.coes_from_positions", "src/openspace/estimation/iod.py:Gauss.solve_nu"]}
{"id": "C153", "title": "Ground sites and look angles in double precision", "statement": "In double precision a ground site never raises when it is made, and its Earth-fixed position is within 2.4e-15 (6400 km + |h|) of the exact one. For a target at distance P from the centre of the Earth and a modified Julian date from 1 to 131072, let d be 3.5e-9 P + 3e-15 (6400 km + |h|) + 2.1e-14 r, where r is the exact range (1.5e-10 P in place of 3.5e-9 P unless it is within two microseconds of midnight UTC). The range that the site reports is within d of the exact one; if 100 d <= r the elevation is within 1.02 d / r + 1e-15; if 100 d <= r cos(el) the azimuth is, up to whole turns, within 1.02 d / (r cos(el)) + 2e-15. So a target whose computed elevation is at least the bound is in view: the exact line of sight from a site on or above the ellipsoid is nowhere inside the Earth. An observation made from an azimuth, an elevation el with cos(el) >= 1e-12 and a range keeps them: the range to 2e-15 of itself, the elevation to 2.3e-15 and the azimuth, up to whole turns, to 3.1e-15 / cos(el).", "quantifier": "all sites, targets and epochs in the stated range, all C libraries of the stated accuracy", "why_tests_cant": "rounding errors depend on every latitude, longitude, height, direction and epoch, and grow without limit near the zenith and for close targets", "anchors": ["src/openspace/bodies/terrestrial.py:GroundSite", "src/openspace/coordinates/positions.py:ENZ", "src/openspace/estimation/obs.py:GroundObservation"]}
{"id": "C154", "title": "Accuracy of geodetic coordinates in double precision", "statement": "In double precision the geodetic latitude returned for a terrestrial position between 6000 and 50000 km from the centre is within a micrometre-sized angle of the exact one (1.5e-14 over the cosine of the latitude), and so are longitude and height. (False near the plane of the equator: (6380, 0, 3/65536) km is 4.6 cm north of that plane, but the latitude returned is wrong by more than three metres on the ground, and with a correctly rounded power it is on the wrong hemisphere.)", "quantifier": "all terrestrial positions between 6000 and 50000 km from the centre with a latitude within 89 degrees, all C libraries with accurate sine, cosine, arctangent, arcsine and power", "why_tests_cant": "the closed form cancels by an amount that depends on the position; a test of a few sites, or of sites on the equator, sees nothing, and a bound on the error must hold for every position", "anchors": ["src/openspace/coordinates/positions.py:_PositionConvertITRF.to_lla"]}
{"id": "C155", "title": "States come back from classical elements in double precision", "statement": "For a bound inertial state that is not in the equatorial plane and has an eccentricity e from 2e-7 to 0.89, converting to classical elements and back in double precision terminates and gives back the position within a (2.2e-12 / e + 2.7e-12 + 1.7e-14 / sin i) and the velocity within sqrt(mu / a) (8.5e-11 / e + 1.6e-10 + 9e-14 / sin i), and keeps the epoch.", "quantifier": "all states with the stated eccentricity and an inclination i with sin i >= 1e-12, all C libraries with accurate sine, cosine and arctangent", "why_tests_cant": "rounding errors are amplified by 1/e and 1/sin i and through the solution of Kepler's equation, differently at every state", "anchors": ["src/openspace/coordinates/elements.py:ClassicalElements.from_ijk", "src/openspace/coordinates/elements.py:ClassicalElements.to_ijk", "src/openspace/math/functions.py:EccentricAnomaly.from_ma_e"]}
{"id": "C156", "title": "The covariance of the navigation filter in double precision", "statement": "In double precision every entry of the predicted covariance is F P F' + Q up to 13.1 units of rounding of |F||P||F|'+|Q|, and every entry of the updated covariance is (1-KH)P(1-KH)' + KRK' for the gain K actually stored up to 15.1 units of rounding of |1-KH||P||1-KH|'+|K||R||K|'. After any number of observations the stored covariance differs from an exact positive semidefinite covariance, that of the error of the estimate formed with the gains the filter has used, by at most a bound that grows by the square of the growth of |1-KH||F| in each call.", "quantifier": "all filter states, all numbers and sequences of observations, all gains, all C libraries", "why_tests_cant": "the errors accumulate over every history of observations, and cancellation in the update depends on all entries of the covariance and of the gain", "anchors": ["src/openspace/estimation/filtering.py:RelativeKalman.predict_covariance", "src/openspace/estimation/filtering.py:RelativeKalman.update_covariance", "src/openspace/estimation/filtering.py:RelativeKalman.process", "src/openspace/math/linalg.py:Matrix6D"]}
{"id": "C157", "title": "The gain of the navigation filter in double precision", "statement": "If the determinant of S = HPH'+R is at least rho times the product of its diagonal, with rho >= 1e-12, computing the gain in double precision never divides by zero, each entry agrees with that of the optimal gain to 451/rho^2 units of rounding of the ratio of the standard deviations of state and innovation, and the variances left exceed the least possible ones by at most (1353 u / rho^2)^2 of the predicted ones. The estimate is corrected to 5.1 units of rounding of |x| + |K||z-Hx|.", "quantifier": "all predicted covariances and measurement covariances with the stated determinant, all predicted states, gains and measurements", "why_tests_cant": "the inverse of the innovation covariance is computed by cofactors, and how many digits cancel in the determinant depends on all its entries", "anchors": ["src/openspace/estimation/filtering.py:RelativeKalman.gain", "src/openspace/estimation/filtering.py:RelativeKalman.update_state", "src/openspace/math/linalg.py:Matrix3D.inverse", "src/openspace/math/linalg.py:Matrix3D.determinant"]}
{"id": "C158", "title": "What the navigation filter makes of an observation in double precision", "statement": "For an observer whose velocity is at least 6 degrees off the radial direction, and a target and an error vector within 0.4 of the observer's distance from the centre, the relative position the filter takes from an observation in double precision is within 6e-14 of that distance of the exact Hill position of the observed point, and the standard deviations it assigns to its components are within 1.2e-13 of it of the exact Hill position of the displaced point; the measurement covariance is diagonal with their squares. After a call of process the filter's time is that of the observation and the prediction is the Hill motion of the last estimate over the elapsed time, up to two roundings of that time and 6e-14 of the size of the state.", "quantifier": "all filter states, all observers and observed directions in the range, all one-sigma errors with a nonnegative range error and an angular error of at most one radian, all accurate C libraries", "why_tests_cant": "the measurement passes through spherical coordinates, a rotating frame and inverse trigonometric functions; how much its errors are amplified depends on the whole geometry", "anchors": ["src/openspace/estimation/filtering.py:RelativeKalman.process", "src/openspace/estimation/filtering.py:RelativeKalman.predict_state", "src/openspace/estimation/obs.py:SpaceObservation"]}
{"id": "C159", "title": "Inertial positions of observations in double precision", "statement": "From November 1858 to 2217 the IJK position of a GCRF position in double precision is within 1.2e-12 of the distance of the exact one, because the error of the hour angle cancels, and the IJK position of what a spacecraft observes is within 1.3e-12 of its distance from the centre. The GCRF and IJK positions of what a ground site observes at a range r are within 3.5e-9 (|s| + r) + r (1.001 delta + 2.6e-14 / cos(latitude)) of the exact ones, where s is the position of the site and delta the error of its latitude of C154. For a site from 1 to 89 degrees from the equator and between 10 km below and 100 km above the ellipsoid this is at most 2.3 cm and 0.15 mm per kilometre of range, and 1 mm and 0.15 mm per kilometre unless it is within two microseconds of midnight UTC.", "quantifier": "all observations, all epochs with values from 1 to 131072, all sites between 6000 and 50000 km from the centre with a latitude within 89 degrees, all C libraries with accurate sine, cosine, arctangent, arcsine and power", "why_tests_cant": "the position of the site is converted to geodetic coordinates with a loss of digits that depends on the latitude, and the rotation of the Earth loses digits near midnight; a test sees one site at one time", "anchors": ["src/openspace/estimation/obs.py:GroundObservation.gcrf_position", "src/openspace/estimation/obs.py:GroundObservation.ijk_position", "src/openspace/estimation/obs.py:SpaceObservation.ijk_position", "src/openspace/coordinates/positions.py:_PositionConvertENZ"]}
{"id": "C160", "title": "Attitude in double precision", "statement": "In double precision the body axes of a spacecraft stay a right-handed orthogonal triad up to rounding: in Earth-pointing mode the cosines between the axes are at most 8e-16 / sin(gamma) and the triple product of their directions is within that of one, where gamma is the angle between position and velocity, body z is exactly opposite to the position and body y within 3.4e-16 of the product of their lengths of the cross product of position and velocity; in Sun-pointing mode the bound is 1e-15, and body z is within 4.1 m (of more than 145 million km) of the exact vector from the Sun and body x as close to its cross product with the z axis; in target mode it is 8.1e-16 / sin(gamma) with gamma the angle between target and Sun, and body z is within 1.2e-16 of the range of the exact vector to the target and body y within 3.1e-11 of the cross product of the vectors to the target and the Sun, relative to their lengths. A slew ends within 1.1e-7 of the slew scalar plus 1.6e-11 days of the exact time.", "quantifier": "all positions and velocities with sin(gamma) at least 1e-12, all positions within a million km of the centre with epochs from 1 to 131072, all targets whose direction is at least 1e-7 in sine from the Sun, all C libraries with accurate sine, cosine and arccosine", "why_tests_cant": "the rounding of a cross product is relative to the lengths of its factors and not to its own, so the axes lose orthogonality as their defining directions become parallel; a test sees one geometry", "anchors": ["src/openspace/bodies/artificial.py:Spacecraft.update_attitude", "src/openspace/bodies/artificial.py:Spacecraft.track_lvlh", "src/openspace/bodies/artificial.py:Spacecraft.track_sun", "src/openspace/bodies/artificial.py:Spacecraft.track_state"]}
{"id": "C161", "title": "Rotations, noise and simulated observations in double precision", "statement": "In double precision a rotation about any non-zero axis by any angle is within 4.1e-14 of the length of the vector of the exact rotation. The vector with noise is, for the same random draws, within 1.9e-13 of the length of the vector plus that of the range noise of the exact one, and the vector that a spacecraft observes with either camera within 2.1e-13 of the range plus the range noise of the exact one, with a range error correct to a relative error of 2.2e-15. This holds for every direction that is not exactly along the z axis, however close to it.", "quantifier": "all vectors, axes, angles and cameras, all draws for which the angular noise is at most half a turn and the range noise does not cancel the range to fourteen digits, all spacecraft and targets that are not exactly on a line parallel to the z axis, all C libraries with accurate sine, cosine and tangent", "why_tests_cant": "the draws are random, and the axis of the noise vanishes as the direction approaches the z axis; that no digits are lost there holds for every direction or none", "anchors": ["src/openspace/math/linalg.py:Vector3D.rotation_about_axis", "src/openspace/math/linalg.py:Vector3D.with_noise", "src/openspace/bodies/artificial.py:Spacecraft.observe_wfov", "src/openspace/bodies/artificial.py:Spacecraft.observe_nfov", "src/openspace/hardware/payloads.py:Camera.range_error"]}
{"id": "C162", "title": "No transfer with two burns is cheaper than the planned one", "statement": "For any two radii, the two planned Hohmann burns add up to no more than the two burns of any other way to go from a circular orbit of the first radius to one of the second: leaving the first orbit at any point in any direction, following any two-body motion, and joining a circular orbit of the second radius, in any plane and any sense, at any point where the motion crosses that radius. Only a transfer whose first burn is along the first orbit and reaches the first planned transfer velocity costs as little, and from each point of the first orbit there is one.", "quantifier": "all pairs of positive radii, all two-body motions (elliptic, parabolic or hyperbolic) away from the centre, all times, all circular velocities at both ends", "why_tests_cant": "the competitors form a continuum of motions, planes and arrival points; a search over some of them leaves the rest", "anchors": ["src/openspace/planning/maneuvers.py:Hohmann"]}
{"id": "C163", "title": "Mean and spread of simulated observations", "statement": "Let the random generator return two standard normal numbers and one uniform number, independent of each other. Then with_noise succeeds with probability one for every vector that is not on the z axis, and so do observe_wfov and observe_nfov for every target with a size that is not along the z axis. The mean of the noisy vector is the true vector times exp(-a^2/2), with a the angular error; its mean square length is m^2 + s^2, with m the true length and s the range error (of the camera used); its second moments along and across the line of sight are as given, and the same in all directions across it; and its mean square distance from the true vector is s^2 + 2 (1 - exp(-a^2/2)) m^2, at most s^2 + a^2 m^2.", "quantifier": "all vectors, range errors and angular errors (of any size), all pairs of spacecraft, both cameras", "why_tests_cant": "a test sees some draws; means over all of them, for every vector and error, are integrals", "anchors": ["src/openspace/math/linalg.py:Vector3D.with_noise", "src/openspace/math/linalg.py:Vector3D.with_magnitude_noise", "src/openspace/math/linalg.py:Vector3D.with_angular_noise", "src/openspace/bodies/artificial.py:Spacecraft.observe_wfov", "src/openspace/bodies/artificial.py:Spacecraft.observe_nfov"]}
{"id": "C164", "title": "The filter's uncertainty does not depend on its distant past", "statement": "Whatever calls a RelativeKalman received before, after a successful call of process its position covariance is at most the covariance of the observation just processed, in every direction. After two consecutive successful calls of process, the variance it reports for any combination of the state is at most the variance of any linear rule that would find that combination from two exact positions, computed from the errors of the two observations and the process noise alone. In particular, if the observations are T seconds apart, over at most a radian of the observer's orbit, and their errors along the axes are at most r1 and r2 kilometres, every velocity variance is at most (2 r1^2 + 7 (r2^2 + 1e-16)) / T^2 + 1e-16.", "quantifier": "all filters, all histories of public calls (returning or raising), all pairs of observations and times", "why_tests_cant": "a test tries some histories; a bound that forgets all of them must hold for every one", "anchors": ["src/openspace/estimation/filtering.py:RelativeKalman.process", "src/openspace/estimation/filtering.py:RelativeKalman.gain", "src/openspace/estimation/filtering.py:RelativeKalman.update_covariance", "src/openspace/propagators/relative.py:Hill.system_matrix"]}
{"id": "C165", "title": "Geodetic height is the distance to the nearest point of the ellipsoid", "statement": "Whenever PositionConvert.itrf.to_lla(p) returns, the point of the ellipsoid with the latitude and longitude found is the only nearest point of the ellipsoid to p, the height found is the distance to it with a sign, positive exactly outside the ellipsoid and zero exactly on it; and it does return for every p at least 0.02 Earth radii from the centre. The same holds of the height given to lla.to_itrf, and so of a GroundSite, down to -6200 km.", "quantifier": "all Earth-fixed positions for which the conversion returns, all points of the ellipsoid; all latitudes and longitudes and all heights above -6200 km", "why_tests_cant": "nearest means compared with every point of the ellipsoid, for every position", "anchors": ["src/openspace/coordinates/positions.py:_PositionConvertITRF.to_lla", "src/openspace/coordinates/positions.py:_PositionConvertLLA.to_itrf", "src/openspace/bodies/terrestrial.py:GroundSite.from_itrf_position"]}
{"id": "C166", "title": "Gravitational accelerations are source-free outside the attracting bodies", "statement": "Each gravitational acceleration of a GCRF state is the gradient of one potential, the same for all states of an epoch, that solves Laplace's equation everywhere except at the centre of the attracting body: acceleration_from_earth and acceleration_from_gravity off the Earth's centre, acceleration_from_moon off the Moon and acceleration_from_sun off the Sun. The potential of acceleration_from_gravity (in Earth-fixed axes, up to the inexact rotation as in C35) also falls off like the third power of the distance, so it repeats neither the attraction of the centre nor a shift of the centre of mass.", "quantifier": "all states not at the centre of the body concerned (for acceleration_from_gravity: not above a pole, where it raises), all epochs", "why_tests_cant": "Laplace's equation is a statement about the second derivatives at every point of space", "anchors": ["src/openspace/coordinates/states.py:GCRF.acceleration_from_gravity", "src/openspace/coordinates/states.py:GCRF.acceleration_from_earth", "src/openspace/coordinates/states.py:GCRF.acceleration_from_moon", "src/openspace/coordinates/states.py:GCRF.acceleration_from_sun"]}
{"id": "C167", "title": "Propagation does not depend on the route through time", "statement": "For a coasting propagator as the library builds it and any solution of its equations of motion that on an interval of time does not meet the polar axis of the Earth, leave the sphere of 350 000 km or cross midnight UTC: a propagator that is sent by step_to_epoch through any list of epochs of the interval, in any order, forwards and backwards, with hops of at most eta seconds and a bounded total length, never raises if eta is small, is then exactly at the last epoch of the list with its step size restored, and its state is within C eta^4 of the solution at that epoch (plus C times the distance from the solution at the start). So two clients that start together and are sent to the same epoch on different routes end within C eta^4 of each other, and one that is sent back to its first epoch returns to its first state to within C eta^4. The same holds for calls of step() with any sequence of step sizes of both signs.", "quantifier": "all states, epochs, solutions, routes through time (any number of stops, any order, any hop sizes below eta), all starting errors", "why_tests_cant": "it ranges over all schedules of calls, and the bound concerns the exact motion, which no test knows", "anchors": ["src/openspace/propagators/inertial.py:RK4.step_to_epoch", "src/openspace/propagators/inertial.py:RK4.step"]}
{"id": "C168", "title": "Propagation over any number of days converges to the motion", "statement": "The Greenwich hour angle of the library, and with it the acceleration, jumps a little at every midnight UTC. Every coasting propagator off the polar axis and within 350 000 km has a continuous motion whose rate of change is what derivative() returns at all times except midnights UTC, also when it starts exactly at midnight. For any such motion over any interval of time on which it does not meet the polar axis or leave the sphere of 350 000 km, a propagator that starts within eps of it and is sent through epochs of the interval by step_to_epoch, in any order, or makes steps of any sizes and signs by step(), with hops of at most eta seconds, never raises if eps and eta are small, is then exactly at the last epoch, and is within C (eps + eta^4 + m eta) of the motion, where m is the number of midnights passed. In particular N steps of T/N seconds converge to the motion as N grows, however many days T spans, and within a day with the fourth order.", "quantifier": "all states, epochs (midnights included), motions, lengths of the interval, routes through time, starting errors", "why_tests_cant": "it ranges over all motions and schedules, and the bound concerns the exact motion, which no test knows", "anchors": ["src/openspace/propagators/inertial.py:RK4.step_to_epoch", "src/openspace/propagators/inertial.py:RK4.step", "src/openspace/time.py:Epoch.greenwich_hour_angle"]}
{"id": "C169", "title": "The perturbations are as small as they should be", "statement": "For every state between 5000 and 300 000 km from the centre of the Earth and off its axis, derivative() does not raise, its first part is the velocity, and its second part, less the thrust, differs from the attraction -mu r/|r|^3 of a point mass by at most 5.7e-3 (R/r)^2 mu/r^2 for the shape of the Earth, plus 2 mu_Moon r/(356000 km - r)^3 for the Moon, plus 8.5e-14 r for the Sun, plus 4.56e-9 times the absolute value of the radiation pressure coefficient. In particular the Moon and the Sun act by tides that vanish with the distance from the Earth, and the shape of the Earth falls off with the fourth power of the distance.", "quantifier": "all epochs, positions between 5000 and 300 000 km off the polar axis, velocities, thrusts and radiation pressure coefficients", "why_tests_cant": "the bound must hold at every epoch, for every place of the Moon and the Sun, and for every position", "anchors": ["src/openspace/coordinates/states.py:GCRF.derivative", "src/openspace/coordinates/states.py:GCRF.acceleration_from_gravity", "src/openspace/coordinates/states.py:GCRF.acceleration_from_moon", "src/openspace/coordinates/states.py:GCRF.acceleration_from_sun", "src/openspace/coordinates/states.py:GCRF.acceleration_from_srp"]}
{"id": "C170", "title": "Elements predict the perturbed motion within explicit bounds", "statement": "Let a propagator without thrust have a motion under the library's full force law (Earth's shape, Moon, Sun) that for T seconds stays between lo >= 5000 km and hi <= 300 000 km from the Earth's centre and off its axis, from a bound state whose orbit is not in the equator. Take the elements from_ijk returns for its state, with perigee not below lo, advance the mean anomaly by sqrt(mu/a^3) times the time, reduced by full turns, and call to_ijk. For every time s up to T the result differs from the perturbed motion by at most eps/w^2 (exp(ws) - 1 - ws) in position and eps/w (exp(ws) - 1) in velocity, besides the tolerance of the solver of Kepler's equation, where w^2 = 2 mu/lo^3 and eps is the bound of C169 for distances from lo to hi. Also, for every tolerance, all large enough numbers N of steps of T/N seconds bring the propagator to the epoch T seconds later and to a state within these bounds, up to the tolerance, of what to_ijk returns.", "quantifier": "all coasting propagators, motions over any number of days, times, tolerances", "why_tests_cant": "the analytic and the numerical prediction must agree for every orbit and duration, and the exact perturbed motion is not known to any test", "anchors": ["src/openspace/propagators/inertial.py:RK4.step", "src/openspace/coordinates/states.py:GCRF.derivative", "src/openspace/coordinates/elements.py:ClassicalElements.from_ijk", "src/openspace/coordinates/elements.py:ClassicalElements.to_ijk"]}
{"id": "C171", "title": "The perturbed motion exists for an explicit time, and propagation reaches its end", "statement": "Let a propagator without thrust, within five centuries of the year 2000, start on an ellipse (by from_ijk) whose plane is not the equator, with perigee at least lo + m, lo >= 5000 km, and apogee at most hi - m, hi <= 300 000 km from the Earth's centre, and with 9 m <= (8 |cos i| - 1) lo, which keeps it off the polar axis. If m exceeds the drift eps/w^2 (exp(wT) - 1 - wT) of C170 after T seconds, then the motion under the library's full force law exists for these T seconds, stays between lo and hi and off the axis, and, with perturbations on and no radiation pressure, for every tolerance all large enough numbers N of steps of T/N seconds complete without raising, at the epoch T seconds later and in a state within the drift, up to the tolerance, of what to_ijk returns for the advanced mean anomaly. No assumption is made on the motion itself, only on the start.", "quantifier": "all coasting propagators, durations of any number of days, margins and tolerances", "why_tests_cant": "that no later state of the motion makes the force law fail must hold for every start, and the exact motion is not known to any test", "anchors": ["src/openspace/propagators/inertial.py:RK4.step", "src/openspace/coordinates/states.py:GCRF.derivative", "src/openspace/coordinates/elements.py:ClassicalElements.from_ijk", "src/openspace/coordinates/elements.py:ClassicalElements.to_ijk"]}
{"id": "C172", "title": "Energy, angular momentum and elements drift slowly under the perturbations", "statement": "Along a motion under the library's full force law without thrust that stays between lo >= 5000 km and hi <= 300 000 km from the Earth's centre and off its axis, the specific energy v^2/2 - mu/r changes in s seconds by at most eps s (W + eps s/2), where eps is the bound of C169 and W the speed on the first orbit at the distance lo, and the angular momentum r x v changes by at most eps hi s. As long as these do not exhaust the energy and angular momentum of the start, from_ijk succeeds for the state after s seconds, mu/(2a) and sqrt(mu a (1-e^2)) of its elements are within these bounds of those at the start, and the cosine of the inclination within 2 eps hi s / sqrt(mu a (1-e^2)). For every tolerance, all large enough numbers N of steps of T/N seconds end in a state whose energy and angular momentum obey the same bounds up to the tolerance.", "quantifier": "all coasting propagators, motions over any number of days, times, tolerances", "why_tests_cant": "a spurious gain or loss of energy must be excluded for every orbit, duration and number of steps", "anchors": ["src/openspace/propagators/inertial.py:RK4.step", "src/openspace/coordinates/states.py:GCRF.derivative", "src/openspace/coordinates/elements.py:ClassicalElements.from_ijk"]}
{"id": "C173", "title": "The shape of relative motion, passive safety and targeting", "statement": "For a relative propagator built from any position r and velocity v and a positive semi-major axis (mean motion n): (1) after step_by_seconds(t), for every t, the in-plane position lies on an ellipse twice as long along the track as it is high, of constant size, whose centre is at constant height 4 r_x + 2 v_y/n and drifts along the track at -3/2 n times this height; the cross-track motion keeps its amplitude. (2) The distance stays bounded for all times exactly when v_y = -2 n r_x. (3) Without drift, and with A the half height and y_c the along-track centre of the ellipse, the origin is never approached closer than |y_c| - 2A. (4) For every start and goal position and every flight time of less than one revolution other than a half, there is exactly one velocity with which the propagator arrives at the goal; after half a revolution the cross-track position is the negative of the start whatever the velocity.", "quantifier": "all relative positions, velocities, semi-major axes, flight times and goals", "why_tests_cant": "safety must hold at all times, and a unique solution must exist for every goal and time", "anchors": ["src/openspace/propagators/relative.py:Hill.step_by_seconds", "src/openspace/propagators/relative.py:Hill.system_matrix", "src/openspace/coordinates/states.py:HCW.from_state_vector"]}
{"id": "C174", "title": "Error of propagation in a given number of steps, and of step_to_epoch", "statement": "Let a propagator without thrust and without radiation pressure start as in C171: within five centuries of the year 2000, on an ellipse not in the equator, with perigee at least lo + m, lo >= 5000 km, apogee at most hi - m, hi <= 300 000 km, and 9 m <= (8 |cos i| - 1) lo. Let w = sqrt(2 mu / lo^3), let eps be the bound of the perturbations of C169, and for a step of h seconds let delta = (1 + (wh)^2/6) eps + 18 mu^2 h^2 / lo^5. If m is at least delta/w^2 (exp(wT) - 1 - wT) + h^2 mu / lo^2, then N >= 1 steps of h = T/N seconds, for this N and not only for large ones, all return, and end T seconds later in a state within delta/w^2 (exp(wT) - 1 - wT) km in position and delta/w (exp(wT) - 1) km/s in velocity of what to_ijk returns for the mean anomaly advanced by sqrt(mu/a^3) T, up to the tolerance of the solver of Kepler's equation. The same holds, with h = 300, of step_to_epoch for every epoch T > 0 seconds later: it returns at that epoch, with the step size it had.", "quantifier": "all coasting propagators, epochs, numbers of steps and margins", "why_tests_cant": "the bound must hold for every orbit, duration and number of steps; a test compares single runs with other software", "anchors": ["src/openspace/propagators/inertial.py:RK4.step", "src/openspace/propagators/inertial.py:RK4.step_to_epoch", "src/openspace/coordinates/states.py:GCRF.derivative", "src/openspace/coordinates/elements.py:ClassicalElements.to_ijk"]}
{"id": "C175", "title": "Error of propagation in double precision against the elements, end to end", "statement": "In double precision, with a maths library as accurate as in C146, let a propagator without thrust and without radiation pressure start at an MJD from 1 + 0.004 N to 131072 - 0.004 N on an ellipse not in the equator, with perigee at least lo + m, lo >= 6378 km, apogee at most hi - m, hi <= 120 000 km, and 5 m <= (3 |cos i| - 2 |sin i|) lo, so that the inclination is below 56 degrees. Let w, eps and delta be as in C174 for steps of h <= 301 s, h a double, and T = N h. If m is at least delta/w^2 (exp(wT) - 1 - wT) + h^2 mu / lo^2, if sqrt(2 mu / lo) + delta/w (exp(wT) - 1) <= 12 km/s, and if C146's bound of the rounding errors is at most ten metres, then N steps all return and the computed state is within delta/w^2 (exp(wT) - 1 - wT) plus C146's bound in position, and delta/w (exp(wT) - 1) plus C146's bound in velocity, of what to_ijk (in exact arithmetic) returns for the mean anomaly advanced by sqrt(mu/a^3) T, up to the tolerance of the solver of Kepler's equation. The same holds of step_to_epoch to every later epoch t, for the number and the length of the steps that it computes; N h is then the time to t with a relative error of at most 4e-16, and the step size is restored.", "quantifier": "all coasting propagators, accurate maths libraries, epochs, step sizes and numbers of steps", "why_tests_cant": "truncation, perturbations and every rounding error of the whole run have to be bounded together, for every orbit and every number of steps", "anchors": ["src/openspace/propagators/inertial.py:RK4.step", "src/openspace/propagators/inertial.py:RK4.step_to_epoch", "src/openspace/coordinates/states.py:GCRF.derivative", "src/openspace/coordinates/elements.py:ClassicalElements.to_ijk"]}
{"id": "C176", "title": "Propagation to earlier epochs, and there and back again", "statement": "Under the conditions of C174 (a coasting propagator without radiation pressure, on an ellipse not too steep for its size, with a margin m of at least delta/w^2 (exp(wT) - 1 - wT) + h^2 mu / lo^2), N >= 1 steps of -h seconds, h = T/N, all return, and end T seconds earlier in a state within delta/w^2 (exp(wT) - 1 - wT) km and delta/w (exp(wT) - 1) km/s of what to_ijk returns for the mean anomaly taken back by sqrt(mu/a^3) T, up to the tolerance of the solver of Kepler's equation. The same holds, with h = 300, of step_to_epoch to an epoch T > 0 seconds earlier: it returns at that epoch, with the step size it had. And step_to_epoch to an epoch T seconds later followed by step_to_epoch to the first epoch, with a margin for 2T instead of T, returns exactly to that epoch and within delta/w^2 (exp(2wT) - 1 - 2wT) km and delta/w (exp(2wT) - 1) km/s of the state it started from.", "quantifier": "all coasting propagators, earlier and later epochs, numbers of steps and margins", "why_tests_cant": "the bounds must hold for every orbit, duration and number of steps; a test goes back and forth along single orbits", "anchors": ["src/openspace/propagators/inertial.py:RK4.step", "src/openspace/propagators/inertial.py:RK4.step_to_epoch", "src/openspace/coordinates/states.py:GCRF.derivative", "src/openspace/coordinates/elements.py:ClassicalElements.to_ijk"]}
{"id": "C177", "title": "Detection of a target whose position is uncertain", "statement": "Let the true position of a target be within d km of a predicted one that the observer sees at a range rho > d. Then every angle the observer measures to the true target (from the Sun, the Earth, the Moon or the boresight) differs from that to the predicted one by at most alpha = arcsin(d / rho). Hence, for an observer with positive albedo, non-zero body radius and a positive Sun limit: if the predicted target clears the Sun, Earth, Moon and boresight limits by alpha, and a sphere at range rho + d with a Sun angle smaller by alpha is still no fainter than the magnitude limit, then detect of the true target returns True. Conversely, if detect of the true target returns True, then the predicted target meets each of the four limits up to alpha, and a sphere at range rho - d with a Sun angle larger by alpha (at most pi) is no fainter than the magnitude limit.", "quantifier": "all observers, predicted and true targets, and uncertainties smaller than the range", "why_tests_cant": "the true target may be anywhere in a ball around the predicted one; a test evaluates detect at single positions", "anchors": ["src/openspace/bodies/artificial.py:Spacecraft.detect", "src/openspace/bodies/artificial.py:Spacecraft.visual_magnitude", "src/openspace/bodies/artificial.py:Spacecraft.sun_angle", "src/openspace/bodies/artificial.py:Spacecraft.earth_angle", "src/openspace/bodies/artificial.py:Spacecraft.moon_angle"]}
{"id": "C178", "title": "Look angles and passes of a target whose position is uncertain", "statement": "Let two targets at the same epoch be within d km of each other, one predicted and one true, and D = (1 + 5.5e-9) d. For every ground site, angles_and_range of both return, and the ranges differ by at most D. If D is less than the predicted range, the elevations differ by at most arcsin(D / range). If D is less than range * cos(elevation), the horizontal distance, the azimuths differ by at most arcsin(D / (range * cos(elevation))), up to whole turns. Hence for a site on or above the ellipsoid, a predicted elevation of at least arcsin(D / range) means that the true target is in view, and for a site on the ellipsoid a predicted elevation below -arcsin(D / range) means that the Earth hides it.", "quantifier": "all sites, pairs of targets at the same epoch, and uncertainties", "why_tests_cant": "the true target may be anywhere in a ball around the predicted one, at every epoch and from every site; a test compares single positions", "anchors": ["src/openspace/bodies/terrestrial.py:GroundSite.angles_and_range", "src/openspace/bodies/terrestrial.py:GroundSite.enz_position"]}
{"id": "C179", "title": "Detection when both observer and target are uncertain", "statement": "Let a true observer have the epoch, boresight, camera, albedo and body radius of a predicted one and be within d0 km of it, and let the true position of the target relative to the true observer be within d km of the predicted relative position, d less than the predicted range rho. Let d0 be less than the distances of the predicted observer from the Sun, the Earth's centre and the Moon. With alpha = arcsin(d / rho) and beta_X = arcsin(d0 / distance of X), the angle from body X to the target changes by at most alpha + beta_X and the angle from the boresight by at most alpha. Hence, for positive albedo and Sun limit and non-zero radius: if the predicted pair clears the limits of Sun, Earth, Moon and boresight by these amounts, and a sphere at range rho + d with the Sun angle reduced by its amount is still no fainter than the magnitude limit, then detect returns True for the true pair. Conversely, if detect returns True for the true pair, the predicted pair meets the limits up to these amounts.", "quantifier": "all predicted and true pairs of observer and target, and uncertainties of the observer and of the relative position", "why_tests_cant": "the true pair may be anywhere in a six-dimensional neighbourhood of the predicted pair; a test evaluates detect for single pairs", "anchors": ["src/openspace/bodies/artificial.py:Spacecraft.detect", "src/openspace/bodies/artificial.py:Spacecraft.sun_vector", "src/openspace/bodies/artificial.py:Spacecraft.moon_vector", "src/openspace/bodies/artificial.py:Spacecraft.earth_vector", "src/openspace/bodies/artificial.py:Spacecraft.target_vector"]}
{"id": "C180", "title": "Passes of a new spacecraft forecast from its elements", "statement": "Let a new spacecraft start on an ellipse as in C174 (within five centuries of the year 2000, not in the equator, perigee and apogee with a margin m), and let e be the bound of C174 on the position for steps of at most 300 seconds, with the tolerance of the solver of Kepler's equation, and D = (1 + 5.5e-9) e. Then step_to_epoch of the spacecraft to an epoch T > 0 seconds later returns at that epoch, and for every ground site at or above the ellipsoid, what angles_and_range returns for a spacecraft at the place that to_ijk predicts for the advanced mean anomaly tells what it returns for the propagated one: the ranges differ by at most D, the elevations by at most arcsin(D / range) and the azimuths by at most arcsin(D / (range cos(elevation))), up to whole turns, as far as these are defined. A forecast elevation of at least arcsin(D / range) means that the propagated spacecraft is in view, and for a site on the ellipsoid one below -arcsin(D / range) that the Earth hides it.", "quantifier": "all new spacecraft on such orbits, later epochs, sites and margins", "why_tests_cant": "the bounds must hold for every orbit, time of flight and site; a test compares the forecast and the propagated state for single cases", "anchors": ["src/openspace/bodies/artificial.py:Spacecraft.step_to_epoch", "src/openspace/propagators/inertial.py:RK4.step_to_epoch", "src/openspace/coordinates/elements.py:ClassicalElements.to_ijk", "src/openspace/bodies/terrestrial.py:GroundSite.angles_and_range"]}
{"id": "C181", "title": "Better and additional observations do not make the filter less certain", "statement": "Give the relative filter a sequence of observations. If each of them is replaced by one made at the same time to which the filter assigns errors at most as large, the filter reports at most the same variance afterwards, in every direction of its state; and processing a further observation at the same time never increases a reported variance. (The second half is false: the process noise is added at every call of process, whatever time has passed since the last one. A new filter that processes k observations at its own epoch reports velocity variances of 5e-5 + k * 1e-16, more with each of them, however accurate they are.)", "quantifier": "all epochs and orbits, all pairs of filters for the same orbit with whatever initial estimates, all sequences of observations of any length and in any order in time that process without raising; for the counterexample all sequences of observations at the epoch of the filter", "why_tests_cant": "the comparison is between two whole histories of a recursion through matrix inverses, and in all directions of a six-dimensional state; a loss of 1e-16 per call does not show in a test with tolerances", "anchors": ["src/openspace/estimation/filtering.py:RelativeKalman.process", "src/openspace/estimation/filtering.py:RelativeKalman.predict_covariance", "src/openspace/estimation/filtering.py:RelativeKalman.update_covariance"]}
{"id": "C182", "title": "What the filter sees does not influence how certain it is, and filters that see the same agree", "statement": "Two relative filters for the same orbit created at the same epoch report the same covariance after any two sequences of observations made at the same times and assigned errors of the same sizes, whatever positions were seen and whatever the initial estimates. If they process the same observations, their estimates differ in each coordinate, and along every direction, by at most as many reported standard deviations as the initial estimates differed initial standard deviations (0.5 km2 and 5e-5 km2/s2).", "quantifier": "all epochs, orbits and initial estimates, all sequences of observations of any length and in any order in time that process without raising", "why_tests_cant": "a test compares a few runs; that no observation, however far off, changes the covariance, and that no sequence of observations drives two filters apart, are statements about all sequences", "anchors": ["src/openspace/estimation/filtering.py:RelativeKalman.process", "src/openspace/estimation/filtering.py:RelativeKalman.gain", "src/openspace/estimation/filtering.py:RelativeKalman.update_state"]}
{"id": "C183", "title": "The order of simultaneous observations does not matter", "statement": "Observations made at the same instant can be given to the relative filter in any order: the estimate and its covariance come out the same. (False of the position: process noise is added between observations even if no time passes, so what is processed last counts more. Whatever the filter went through before, with one observation to which the filter assigns an along-track error and one to which it assigns none, the filter claims to know the along-track position exactly if the latter comes last, and not if it comes first. What holds: for a new filter and any number of observations at its epoch the estimate and the variances of the velocity do not depend on the order, and each variance of the position changes by at most 1e-16 km2 for each observation.)", "quantifier": "all epochs, orbits, initial estimates, all lists of observations at the epoch of the filter and all their permutations; for the counterexample all histories of the filter and all pairs of such observations, at whatever times", "why_tests_cant": "there are factorially many orders, and the difference is below the tolerances of tests unless one of the observations is declared without error", "anchors": ["src/openspace/estimation/filtering.py:RelativeKalman.process", "src/openspace/estimation/filtering.py:RelativeKalman.predict_covariance", "src/openspace/estimation/filtering.py:RelativeKalman.update_covariance"]}
{"id": "C184", "title": "Declaring larger errors does not make the filter more certain", "statement": "Of two observations that differ only in the errors declared with them, the one with the larger errors leaves the relative filter at most as certain. (False: an observer on a geosynchronous orbit looks along its velocity at a target ten kilometres away and declares a positive angular error a of at most 45 degrees. If it declares a range error of 10 tan(a)^2 km with it, one metre for ten milliradians, the filter takes the along-track position for exactly known afterwards, and if it declares a range error of zero it does not, whatever the filter went through before. What holds: without angular error and with the target not below the plane perpendicular to the position of the observer, a larger range error never reduces the variance in any direction. For a target as far from the Earth as the observer, which is always below that plane, this fails too: a range error as large as the range makes the radial position exactly known, and no smaller positive one does.)", "quantifier": "all epochs, orbits, initial estimates and histories of the filter; all observers, observed directions not below the local horizontal plane and pairs of range errors, for the counterexample all angular errors up to 45 degrees", "why_tests_cant": "the errors cancel only for particular combinations, so tests that vary one declared error at a time, or compare a few values, do not notice", "anchors": ["src/openspace/estimation/filtering.py:RelativeKalman.process", "src/openspace/estimation/obs.py:SpaceObservation"]}
{"id": "C185", "title": "The relative filter does not depend on the choice of the inertial axes", "statement": "If observer states and observed directions are all turned by the same rotation, the relative filter ends with the same estimate and covariance, or fails in the same way. (False with angular errors, which are added to right ascension and declination: an observer on a geosynchronous orbit looks along its velocity at a target ten kilometres away and declares an angular error a of at most 45 degrees and a range error of 10 tan(a)^2 km. The filter then takes the along-track position for exactly known, and with everything turned by a right angle about the direction of the observer it does not, whatever it went through before. What holds: without angular errors the filter behaves identically in all axes, and with them in all axes turned about the polar axis, if no target is seen exactly along it.)", "quantifier": "all rotations, all lists of observations, all states of the filter, failing cases included; for the counterexample all histories and all angular errors up to 45 degrees", "why_tests_cant": "relates all pairs of runs whose inputs differ by a rotation", "anchors": ["src/openspace/estimation/filtering.py:RelativeKalman.process", "src/openspace/estimation/obs.py:SpaceObservation"]}
