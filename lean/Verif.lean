import Verif.Lemmas.Angles
import Verif.Lemmas.Attitude
import Verif.Lemmas.Burn
import Verif.Lemmas.Calendar
import Verif.Lemmas.Continuation
import Verif.Lemmas.Double
import Verif.Lemmas.DoubleAngles
import Verif.Lemmas.DoubleAnomalies
import Verif.Lemmas.DoubleBurn
import Verif.Lemmas.DoubleDerivative
import Verif.Lemmas.DoubleEarth
import Verif.Lemmas.DoubleElementAngles
import Verif.Lemmas.DoubleElements
import Verif.Lemmas.DoubleEquator
import Verif.Lemmas.DoubleForces
import Verif.Lemmas.DoubleFormulas
import Verif.Lemmas.DoubleFrames
import Verif.Lemmas.DoubleGauss
import Verif.Lemmas.DoubleGaussAngles
import Verif.Lemmas.DoubleGeodetic
import Verif.Lemmas.DoubleGravity
import Verif.Lemmas.DoubleGravityField
import Verif.Lemmas.DoubleGravityFrame
import Verif.Lemmas.DoubleGround
import Verif.Lemmas.DoubleHeight
import Verif.Lemmas.DoubleInverse
import Verif.Lemmas.DoubleIod
import Verif.Lemmas.DoubleKepler
import Verif.Lemmas.DoubleLatitude
import Verif.Lemmas.DoubleMatrix
import Verif.Lemmas.DoubleNoise
import Verif.Lemmas.DoublePositions
import Verif.Lemmas.DoubleRatio
import Verif.Lemmas.DoubleRun
import Verif.Lemmas.DoubleSensing
import Verif.Lemmas.DoubleStep
import Verif.Lemmas.DoubleSunMoon
import Verif.Lemmas.Draws
import Verif.Lemmas.Drift
import Verif.Lemmas.ElementsState
import Verif.Lemmas.EnergyDrift
import Verif.Lemmas.Errors
import Verif.Lemmas.Ferrari
import Verif.Lemmas.Geodetic
import Verif.Lemmas.Geopotential
import Verif.Lemmas.GravityBound
import Verif.Lemmas.GravitySum
import Verif.Lemmas.Heap
import Verif.Lemmas.HeapValues
import Verif.Lemmas.Inertial
import Verif.Lemmas.Interference
import Verif.Lemmas.Jerk
import Verif.Lemmas.Kalman
import Verif.Lemmas.Kepler
import Verif.Lemmas.KeplerCycle
import Verif.Lemmas.KeplerMotion
import Verif.Lemmas.KeplerRounded
import Verif.Lemmas.Laplace
import Verif.Lemmas.Legendre
import Verif.Lemmas.Linalg
import Verif.Lemmas.LinearEstimate
import Verif.Lemmas.Linearised
import Verif.Lemmas.Matrix
import Verif.Lemmas.OrbitShift
import Verif.Lemmas.PerturbationBound
import Verif.Lemmas.Py
import Verif.Lemmas.RKJump
import Verif.Lemmas.RKOrder
import Verif.Lemmas.Rotation
import Verif.Lemmas.ScaledError
import Verif.Lemmas.Secant
import Verif.Lemmas.SmoothDay
import Verif.Lemmas.SmoothForces
import Verif.Lemmas.Spacecraft
import Verif.Lemmas.StepError
import Verif.Lemmas.Taylor
import Verif.Model.Artificial
import Verif.Model.Celestial
import Verif.Model.Double
import Verif.Model.DoubleAttitude
import Verif.Model.DoubleBurn
import Verif.Model.DoubleEarth
import Verif.Model.DoubleElements
import Verif.Model.DoubleFiltering
import Verif.Model.DoubleForces
import Verif.Model.DoubleFunctions
import Verif.Model.DoubleGravity
import Verif.Model.DoubleGround
import Verif.Model.DoubleInertial
import Verif.Model.DoubleIod
import Verif.Model.DoubleKepler
import Verif.Model.DoubleLoop
import Verif.Model.DoubleNoise
import Verif.Model.DoubleObs
import Verif.Model.DoublePositions
import Verif.Model.DoubleRelative
import Verif.Model.DoubleSensing
import Verif.Model.DoubleStates
import Verif.Model.DoubleSunMoon
import Verif.Model.DoubleTime
import Verif.Model.DoubleToIjk
import Verif.Model.DoubleVectors
import Verif.Model.Elements
import Verif.Model.Examples
import Verif.Model.Filtering
import Verif.Model.Functions
import Verif.Model.Hardware
import Verif.Model.Heap
import Verif.Model.Inertial
import Verif.Model.Iod
import Verif.Model.Linalg
import Verif.Model.Maneuvers
import Verif.Model.Obs
import Verif.Model.Positions
import Verif.Model.Py
import Verif.Model.Relative
import Verif.Model.States
import Verif.Model.Strings
import Verif.Model.Terrestrial
import Verif.Model.Time
import Verif.Props.Acquire
import Verif.Props.AcquireCases
import Verif.Props.Attitude
import Verif.Props.Burn
import Verif.Props.Cases
import Verif.Props.CasesMotion
import Verif.Props.Celestial
import Verif.Props.Conserved
import Verif.Props.Days
import Verif.Props.DeclaredErrors
import Verif.Props.DetectMargin
import Verif.Props.DetectPair
import Verif.Props.Double
import Verif.Props.DoubleAngles
import Verif.Props.DoubleAttitude
import Verif.Props.DoubleBurn
import Verif.Props.DoubleDerivative
import Verif.Props.DoubleEarth
import Verif.Props.DoubleElementAngles
import Verif.Props.DoubleElements
import Verif.Props.DoubleFar
import Verif.Props.DoubleFiltering
import Verif.Props.DoubleFinite
import Verif.Props.DoubleForces
import Verif.Props.DoubleFormulas
import Verif.Props.DoubleGain
import Verif.Props.DoubleGauss
import Verif.Props.DoubleGravity
import Verif.Props.DoubleGround
import Verif.Props.DoubleHill
import Verif.Props.DoubleHillBack
import Verif.Props.DoubleHohmann
import Verif.Props.DoubleHourAngle
import Verif.Props.DoubleIod
import Verif.Props.DoubleKepler
import Verif.Props.DoubleLatitude
import Verif.Props.DoubleLoop
import Verif.Props.DoubleNoise
import Verif.Props.DoubleObs
import Verif.Props.DoublePositions
import Verif.Props.DoubleProcess
import Verif.Props.DoubleRelative
import Verif.Props.DoubleRoundTrip
import Verif.Props.DoubleRun
import Verif.Props.DoubleSensing
import Verif.Props.DoubleSpherical
import Verif.Props.DoubleStep
import Verif.Props.DoubleSunMoon
import Verif.Props.DoubleTime
import Verif.Props.DoubleToIjk
import Verif.Props.DoubleVectors
import Verif.Props.EarthOrientation
import Verif.Props.Elements
import Verif.Props.ElementsState
import Verif.Props.Existence
import Verif.Props.FilterAxes
import Verif.Props.FilterBlind
import Verif.Props.FilterCertainty
import Verif.Props.FilterError
import Verif.Props.FilterForgets
import Verif.Props.FilterModelError
import Verif.Props.FilterMonotone
import Verif.Props.FilterOptimal
import Verif.Props.FilterOrder
import Verif.Props.FiniteSteps
import Verif.Props.Forces
import Verif.Props.Frame
import Verif.Props.Frames
import Verif.Props.Functions
import Verif.Props.Gauss
import Verif.Props.GaussConvergence
import Verif.Props.GaussIteration
import Verif.Props.GaussRecovers
import Verif.Props.GaussTime
import Verif.Props.GaussWitness
import Verif.Props.Geodetic
import Verif.Props.GeodeticHeight
import Verif.Props.Gravity
import Verif.Props.GravityHarmonic
import Verif.Props.GroundSites
import Verif.Props.Heap
import Verif.Props.Hill
import Verif.Props.HillGeometry
import Verif.Props.HillPosition
import Verif.Props.HillTruth
import Verif.Props.HohmannBest
import Verif.Props.HohmannFlight
import Verif.Props.Horizon
import Verif.Props.Interference
import Verif.Props.Interrupted
import Verif.Props.Kalman
import Verif.Props.Kepler
import Verif.Props.KeplerCycle
import Verif.Props.KeplerMotion
import Verif.Props.Linalg
import Verif.Props.LookMargin
import Verif.Props.Loop
import Verif.Props.Maneuvers
import Verif.Props.NoiseMoments
import Verif.Props.Observations
import Verif.Props.Occlusion
import Verif.Props.OrbitThrough
import Verif.Props.Order
import Verif.Props.Passes
import Verif.Props.Perturbed
import Verif.Props.Planning
import Verif.Props.Positions
import Verif.Props.Propagation
import Verif.Props.Routes
import Verif.Props.Sensors
import Verif.Props.Shape
import Verif.Props.SimulatedObs
import Verif.Props.States
import Verif.Props.StepSucceeds
import Verif.Props.Strings
import Verif.Props.SunMoon
import Verif.Props.Symmetry
import Verif.Props.ThereAndBack
import Verif.Props.ThirdBody
import Verif.Props.Time
import Verif.Props.Tracking
import Verif.Props.Witnesses
import Verif.Spec.Angle
import Verif.Spec.Calendar
import Verif.Spec.Decimal
import Verif.Spec.Double
import Verif.Spec.Draws
import Verif.Spec.EarthOrientation
import Verif.Spec.Exponential
import Verif.Spec.Gauss
import Verif.Spec.Geodesy
import Verif.Spec.Geopotential
import Verif.Spec.Heap
import Verif.Spec.Hill
import Verif.Spec.Kalman
import Verif.Spec.Legendre
import Verif.Spec.Libm
import Verif.Spec.Linalg
import Verif.Spec.LinearEstimate
import Verif.Spec.NearTriad
import Verif.Spec.Orbit
import Verif.Spec.Photometry
import Verif.Spec.Propagation
import Verif.Spec.RungeKutta
import Verif.Spec.Sight
import Verif.Spec.SunMoon
import Verif.Spec.Tangent
import Verif.Spec.ThirdBody
import Verif.Spec.TwoBody
import Verif.Spec.Ulp
import Verif.Spec.Visibility
