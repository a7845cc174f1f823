def near (name : String) (got want tol : Float) : IO Unit :=
  IO.println s!"{if Float.abs (got - want) <= tol then "ok  " else "FAIL"} {name}: got {got} want {want}"

def nearP (name : String) (got : Py Float) (want tol : Float) : IO Unit :=
  match got with
  | .ok g => near name g want tol
  | .error _ => IO.println s!"FAIL {name}: raised"

def getP {α : Type} [Inhabited α] (x : Py α) : α := match x with | .ok a => a | .error _ => default

instance : Inhabited Vec3 := ⟨⟨0,0,0⟩⟩
instance : Inhabited Vec6 := ⟨⟨0,0,0,0,0,0⟩⟩
instance : Inhabited State := ⟨⟨⟨0⟩,default,default,default⟩⟩
instance : Inhabited GCRF := ⟨GCRF.new ⟨0⟩ default default⟩
instance : Inhabited ClassicalElements := ⟨⟨⟨0⟩,0,0,0,0,0,0⟩⟩
instance : Inhabited GroundSite := ⟨⟨default,0,0,⟨default,default,default⟩⟩⟩
instance : Inhabited GroundObservation := ⟨GroundObservation.new default default 0 0⟩
instance : Inhabited Camera := ⟨⟨0,0,⟨0,0,0,0,0,0,0⟩,0⟩⟩
instance : Inhabited (Spacecraft (Fin 2)) := ⟨⟨default,0,0,default,default,none,"",none,false,none,0,0,0,0,0,0,RK4.new default,default,default,default⟩⟩

def MU : Float := 398600.4418
def GEO_RADIUS : Float := 42164.16962995827
def GEO_NU : Float := 7.292115856392646e-05
def site : GroundSite := getP (GroundSite.fromItrfPosition ⟨1344.143, 6068.601, 1429.311⟩)
def ep1 : Epoch := Epoch.fromGregorian 1999 4 2 0 31 9.184
def ep2 : Epoch := Epoch.fromGregorian 1999 4 2 3 1 9.184
def ob1 : GroundObservation :=
  GroundObservation.fromAnglesAndRange (State.fromFixed ep1 site.itrf_position) (pyRadians 132.67) (pyRadians 32.44) 16945.45 0 0
def ob2 : GroundObservation :=
  GroundObservation.fromAnglesAndRange (State.fromFixed ep2 site.itrf_position) (pyRadians 123.08) (pyRadians 50.06) 37350.34 0 0

def main : IO Unit := do
  -- tests/math/test_linalg.py
  let rv := getP (Vec3.rotationAboutAxis ⟨4,2,4⟩ ⟨6,8,2⟩ (pyRadians 25))
  near "rotation_about_axis.x" rv.x 5.045038149 1e-7
  near "rotation_about_axis.y" rv.y 1.4954979717 1e-7
  near "rotation_about_axis.z" rv.z 2.8828936665 1e-7
  let cr := Vec3.cross ⟨4,2,42⟩ ⟨4,42,2⟩
  near "cross.x" cr.x (-1760) 1e-7
  near "cross.y" cr.y 160 1e-7
  near "cross.z" cr.z 160 1e-7
  near "dot" (Vec3.dot ⟨4,2,42⟩ ⟨4,42,2⟩) 184 1e-7
  near "magnitude" (Vec3.magnitude ⟨4,2,42⟩) 42.23742416388575 1e-7
  let nv := getP (Vec3.normalized ⟨4,2,42⟩)
  near "normalized.x" nv.x 0.0947027447620757 1e-7
  near "normalized.z" nv.z 0.9943788200017946 1e-7
  -- tests/math/test_functions.py
  nearP "A.from_mu_n" (aFromMuN MU GEO_NU) GEO_RADIUS 1e-7
  nearP "A.from_mu_tau" (aFromMuTau MU SECONDS_IN_SIDEREAL_DAY) GEO_RADIUS 1e-7
  nearP "A.from_mu_r_v" (aFromMuRV MU GEO_RADIUS 3.07375) 42139.22690208438 1e-7
  nearP "N.from_a_mu" (nFromAMu GEO_RADIUS MU) GEO_NU 1e-7
  nearP "N.from_tau" (nFromTau SECONDS_IN_SIDEREAL_DAY) GEO_NU 1e-7
  nearP "B.from_a_e" (bFromAE 2 0.5) 1.7320508075688772 1e-7
  nearP "E.from_a_b" (eFromAB 2 1.7320508075688772) 0.5 1e-7
  nearP "E.from_a_c" (eFromAC 2 1) 0.5 1e-7
  nearP "E.from_a_p" (eFromAP GEO_RADIUS 42139.21213813413) 0.024329248415869805 1e-7
  nearP "F.from_a_b" (fFromAB 2 1.7320508075688772) 0.1339745962155614 1e-7
  nearP "P.from_mu_h" (pFromMuH MU 129602.11640001943) 42139.21213813413 1e-7
  nearP "P.from_a_b" (pFromAB 2 1.7320508075688772) 1.5 1e-7
  near "P.from_a_e" (pFromAE GEO_RADIUS 0.024329248415869805) 42139.21213813413 1e-7
  nearP "H.from_mu_p" (hFromMuP MU 42139.21213813413) 129602.11640001943 1e-7
  near "H.from_r_v_phi" (hFromRVPhi GEO_RADIUS 3.07375 1e-6) 129602.11640001943 1e-7
  nearP "TAU.from_a_mu" (tauFromAMu GEO_RADIUS MU) SECONDS_IN_SIDEREAL_DAY 1e-7
  nearP "V.from_a_mu_r" (vFromAMuR GEO_RADIUS MU GEO_RADIUS) 3.07466009930248 1e-7
  nearP "V.from_mu_r_e_nu" (vFromMuRENu MU GEO_RADIUS 0 0) 3.07466009930248 1e-7
  nearP "V.from_mu_r_xi" (vFromMuRXi MU GEO_RADIUS (-4.72956519499274)) 3.07375 1e-7
  nearP "XI.from_mu_r_v" (xiFromMuRV MU GEO_RADIUS 3.07375) (-4.72956519499274) 1e-7
  nearP "XI.from_mu_a" (xiFromMuA MU 2) (-99650.11045) 1e-7
  nearP "NU.from_e_ea" (nuFromEEa 0.025 0.1) 0.10252766708805071 1e-7
  nearP "EA.from_ma_e" (eaFromMaE 100 1 0.2) 1.1853242038613385 1e-7
  nearP "EA.from_rdv_r_a_n" (eaFromRdvRAN 0 GEO_RADIUS GEO_RADIUS GEO_NU) 0 1e-7
  near "I.from_w" (incFromW ⟨1,1,1⟩) 0.9553166181245093 1e-7
  near "MA.from_ea_e" (maFromEaE 1 0.2) 0.8317058030384207 1e-7
  near "W.from_u_nu" (wFromUNu 1 2) 5.283185307179586 1e-7
  near "U.from_r_w" (uFromRW ⟨1,2,3⟩ ⟨4,2,42⟩) 0.4636476090008061 1e-7
  near "RAAN.from_w" (raanFromW ⟨1,1,1⟩) 2.356194490192345 1e-7
  -- tests/test_time.py
  let te := Epoch.fromGregorian 2022 12 19 12 1 9.184
  near "julian_value" te.julianValue 2459933.00080074 1e-7
  near "gha(deg)" (pyDegrees te.gha) 268.0707472726 1e-5
  -- tests/planning
  nearP "circular_velocity" (circularVelocity 42164) 3.074666284127684 1e-7
  nearP "eccentric_velocity" (eccentricVelocity 42164 42244) 3.077576247190643 1e-7
  match Hohmann.new 42164 42324 with
  | .ok h =>
    near "Hohmann.dv1" h.delta_v_1 0.0029099630629589868 1e-7
    near "Hohmann.dv2" h.delta_v_2 0.0029072089766200016 1e-7
  | .error _ => IO.println "FAIL Hohmann raised"
  -- tests/coordinates
  let coes := getP (ClassicalElements.fromIjk (State.new ⟨0⟩ ⟨10000, 40000, -5000⟩ ⟨-1.5, 1, -0.1⟩))
  near "coes.a" coes.semimajor_axis 25015.18101846454 1e-7
  near "coes.e" coes.eccentricity 0.707977170873199 1e-7
  near "coes.i" coes.inclination 0.12166217595729033 1e-7
  near "coes.raan" coes.raan 3.024483909022929 1e-7
  near "coes.aop" coes.argument_of_perigee 1.597899323919623 1e-7
  near "coes.ma" coes.mean_anomaly 2.5172009599614285 1e-7
  let e25 := Epoch.fromGregorian 2021 12 25 4 43 51.608
  let it := getP (PositionConvert.gcrfToItrf ⟨10000, 40000, -5000⟩ e25)
  near "itrf.x" it.x 1173.544602365 0.5
  near "itrf.y" it.y (-41216.97127606) 0.5
  near "itrf.z" it.z (-4978.360362079) 0.5
  let surf := GCRF.new e25 ⟨6378, 0, 0⟩ ⟨0,0,0⟩
  near "gravity" (getP surf.accelerationFromGravity).magnitude 1.5990836818112354e-05 1e-12
  near "earth" (getP surf.accelerationFromEarth).magnitude 0.00979870641977297 1e-7
  near "gravity+earth" ((getP surf.accelerationFromGravity).plus (getP surf.accelerationFromEarth)).magnitude 0.009814696076649412 1e-9
  -- tests/propagators/test_inertial.py
  let p0 := RK4.new (GCRF.new (Epoch.fromGregorian 2022 12 20 0 1 9.184) ⟨42164,0,0⟩ ⟨0,3.07375,0⟩)
  let (r1, p1) := RK4.stepToEpoch (Epoch.fromGregorian 2022 12 20 19 1 9.184) p0
  match r1 with
  | .ok _ => pure ()
  | .error _ => IO.println "FAIL step_to_epoch raised"
  near "rk4.x" p1.state.position.x 11701.163084 5
  near "rk4.y" p1.state.position.y (-40487.016256) 5
  near "rk4.z" p1.state.position.z (-2.099302) 5
  near "rk4.vx" p1.state.velocity.x 2.954853 5e-5
  near "rk4.vy" p1.state.velocity.y 0.851923 5e-5
  near "rk4.vz" p1.state.velocity.z (-0.000141) 5e-5
  -- tests/estimation
  let ijk := getP ob1.ijkPosition
  near "ijk.x" ijk.x 11959.977742417275 1e-7
  near "ijk.y" ijk.y (-16289.477980186362) 1e-7
  near "ijk.z" ijk.z (-5963.827409736864) 1e-7
  near "site.x" site.itrf_position.x 1344.143 1e-7
  near "site.y" site.itrf_position.y 6068.601 1e-7
  near "site.z" site.itrf_position.z 1429.311 1e-7
  let sijk := getP (site.itrf_position.rotationAboutAxis ⟨0,0,1⟩ ep1.gha)
  near "site ijk.x" sijk.x 534.388240046999 1e-7
  near "site ijk.y" sijk.y (-6192.662408903832) 1e-7
  let g := getP (Gauss.coesFromPositions 100 (.ground ob1) (.ground ob2))
  near "gauss.a" g.semimajor_axis 28196.77578363615 1e-7
  near "gauss.e" g.eccentricity 0.7679436 5e-8
  near "gauss.i" g.inclination 0.3545688111634284 1e-7
  near "gauss.raan" g.raan 6.268254918583486 1e-7
  near "gauss.aop" g.argument_of_perigee 3.1315625245621277 1e-7
  near "gauss.ma" g.mean_anomaly 0.5102678870735644 1e-7
  -- tests/bodies/test_celestial.py
  let ef := Epoch.fromGregorian 2022 2 25 0 1 9.184
  let struth : Vec3 := ⟨1.353158384133262e8, -5.514968448042840e7, -2.390803633125914e7⟩
  let sun := Sun.getPosition ef
  near "sun ratio" (sun.magnitude / struth.magnitude) 1 5e-5
  nearP "sun angle" (sun.angle struth) 0 5e-3
  let mtruth : Vec3 := ⟨-6.454159844478600e4, -3.280761448809440e5, -1.566863311585961e5⟩
  let moon := getP (Moon.getPosition ef)
  near "moon ratio" (moon.magnitude / mtruth.magnitude) 1 5e-5
  nearP "moon angle" (moon.angle mtruth) 0 5e-4
  -- tests/bodies/test_terrestrial.py (end to end)
  let sph : SphericalPosition := ⟨Earth.RADIUS, pyRadians 11, pyRadians 48⟩
  let gs := getP (GroundSite.fromItrfPosition sph.toCartesian)
  let el : ClassicalElements := ⟨⟨50449⟩, Earth.RADIUS + 960, 0, pyRadians 97, pyRadians 130.7, 0, 0⟩
  let st := getP (el.toIjk 100)
  let sat : Spacecraft (Fin 2) := getP (Spacecraft.new (GCRF.new st.epoch st.position st.velocity))
  let w0 : World (Fin 2) := fun _ => sat
  let (r2, w1) := Spacecraft.stepToEpoch 10 0 (sat.currentEpoch.plusDays (600 / SECONDS_IN_DAY)) w0
  match r2 with
  | .ok _ => pure ()
  | .error _ => IO.println "FAIL Spacecraft.step_to_epoch raised"
  let azel := getP (gs.anglesAndRange (w1 0))
  near "azimuth" azel.azimuth 2.4905857059239622 1e-7
  near "elevation" azel.elevation 0.3057319222804495 1e-7
  near "range" azel.range 2174.186500131194 1e-7
