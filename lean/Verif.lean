import Verif.Props.Parse
import Verif.Props.ParseFlt
import Verif.Props.Obs
import Verif.Props.Calendar
import Verif.Props.Dmat
import Verif.Props.Fit
import Verif.Props.Sphere
import Verif.Props.Altaz
import Verif.Props.Dcmpf
import Verif.Props.Coord
import Verif.Props.Coord2
import Verif.Props.Rot
import Verif.Props.Prec
import Verif.Props.Map
import Verif.Props.MapInv
import Verif.Props.MapMisc
import Verif.Props.Fk
import Verif.Props.Refr
import Verif.Props.Refr2
import Verif.Props.Refz
import Verif.Props.Aop
import Verif.Props.Aoppa
import Verif.Props.Orbit
import Verif.Props.OrbitEl
import Verif.Props.OrbitPv
import Verif.Props.OrbitPlan
import Verif.Props.Pertue
import Verif.Props.PertueEx
import Verif.Props.Moon
import Verif.Props.Sexa
import Verif.Props.Nutc
import Verif.Props.Gmst
import Verif.Model.Eqeqx
import Verif.Spec.Eqeqx
import Verif.Lemmas.Eqeqx
import Verif.Lemmas.EqeqxNum
import Verif.Props.Eqeqx
import Verif.Props.Hip
import Verif.Props.Refcoq
import Verif.Props.Pm
import Verif.Props.FkEpoch
import Verif.Model.Prec06
import Verif.Lemmas.Taylor
import Verif.Lemmas.Prec06
import Verif.Lemmas.Prec06Num
import Verif.Props.Prec06
import Verif.Lemmas.Prenut06
import Verif.Props.Prenut06
import Verif.Model.Flt
import Verif.Lemmas.Flt
import Verif.Model.FlSexa
import Verif.Lemmas.FlSexa
import Verif.Props.FlSexa
import Verif.Model.FlAngle
import Verif.Lemmas.FlAngle
import Verif.Props.FlAngle
import Verif.Model.FlEpoch
import Verif.Props.FlEpoch
import Verif.Model.FlSphere
import Verif.Lemmas.FlSphere
import Verif.Props.FlSphere
import Verif.Model.FlRot
import Verif.Lemmas.FlRot
import Verif.Props.FlRot
import Verif.Model.Dat
import Verif.Spec.Dat
import Verif.Lemmas.DatSearch
import Verif.Lemmas.DatTable
import Verif.Props.Dat
import Verif.Lemmas.TrigNum
import Verif.Spec.Frame
import Verif.Props.Galactic
import Verif.Props.Prebn
import Verif.Props.Aberr
import Verif.Spec.Kepler
import Verif.Lemmas.Stumpff
import Verif.Lemmas.Kepler
import Verif.Lemmas.KeplerUnique
import Verif.Lemmas.Ellipse
import Verif.Lemmas.KeplerLoop
import Verif.Props.Kepler
import Verif.Lemmas.KeplerMotion
import Verif.Lemmas.KeplerPlane
import Verif.Props.KeplerEl
import Verif.Props.Hydro
import Verif.Lemmas.Hyperbola
import Verif.Props.KeplerHyp
import Verif.Lemmas.ConicMotion
import Verif.Props.FitPredict
import Verif.Model.Memory
import Verif.Props.Memory
import Verif.Props.Parallactic
import Verif.Model.FlBear
import Verif.Props.FlBear
import Verif.Model.FlTan
import Verif.Props.FlTan
import Verif.Props.MoonSpeed
import Verif.Model.DmatMem
import Verif.Lemmas.DmatMem
import Verif.Props.DmatMem
import Verif.Model.Blocks
import Verif.Props.Blocks
import Verif.Props.Rdplan
import Verif.Model.FlPcd
import Verif.Lemmas.FlRel
import Verif.Lemmas.FlPcd
import Verif.Lemmas.FlPcd2
import Verif.Lemmas.FlPcd3
import Verif.Lemmas.FlPcd4
import Verif.Lemmas.FlPcd5
import Verif.Props.FlPcd
import Verif.Model.FlMap
import Verif.Lemmas.FlMap
import Verif.Lemmas.FlAmp
import Verif.Props.FlMap
import Verif.Model.FlSmall
import Verif.Lemmas.FlSmall
import Verif.Props.FlSmall
import Verif.Model.FlRefr
import Verif.Lemmas.FlRefr
import Verif.Lemmas.FlRefz
import Verif.Props.FlRefr
import Verif.Model.FlObs
import Verif.Lemmas.FlObs
import Verif.Props.FlObs
import Verif.Model.FlFit
import Verif.Lemmas.FlFit
import Verif.Props.FlFit
import Verif.Lemmas.FlPxy
import Verif.Props.FlPxy
import Verif.Model.FlGmst
import Verif.Lemmas.FlGmst
import Verif.Props.FlGmst
import Verif.Model.FlAop
import Verif.Lemmas.FlAop
import Verif.Lemmas.FlAopTopo
import Verif.Lemmas.FlAopRef
import Verif.Lemmas.FlOap
import Verif.Props.FlAop
import Verif.Props.FlAopTrip
import Verif.Model.FlAoppa
import Verif.Lemmas.FlAoppa
import Verif.Props.FlAoppa
import Verif.Model.FlFk4
import Verif.Lemmas.FlFk4
import Verif.Props.FlFk4
import Verif.Model.FlFk524
import Verif.Lemmas.FlFk524
import Verif.Lemmas.FlFkRates
import Verif.Props.FlFk524
import Verif.Props.FlFk54z
import Verif.Model.FlPrec
import Verif.Lemmas.FlPrec
import Verif.Lemmas.FlPrec2
import Verif.Props.FlPrec
import Verif.Model.FlNut
import Verif.Lemmas.FlNut
import Verif.Lemmas.FlMappa
import Verif.Props.FlNut
import Verif.Lemmas.MapSens
import Verif.Lemmas.MapSens2
import Verif.Lemmas.MapSens3
import Verif.Model.FlMapAll
import Verif.Props.FlMapAll
import Verif.Model.FlPolmo
import Verif.Props.FlPolmo
import Verif.Model.FlHip
import Verif.Lemmas.FlHip
import Verif.Lemmas.FlHip2
import Verif.Props.FlHip
import Verif.Model.FlAltaz
import Verif.Lemmas.FlAltaz
import Verif.Props.FlAltaz
import Verif.Model.FlUniv
import Verif.Lemmas.FlUniv
import Verif.Props.FlUniv
import Verif.Model.FlRm2v
import Verif.Lemmas.FlRm2v
import Verif.Props.FlRm2v
import Verif.Model.FlAtmdsp
import Verif.Lemmas.FlAtmdsp
import Verif.Props.FlAtmdsp
import Verif.Model.FlMoon
import Verif.Lemmas.FlRr
import Verif.Lemmas.FlMoon
import Verif.Lemmas.FlMoon2
import Verif.Lemmas.FlMoon3
import Verif.Props.FlMoon
import Verif.Model.FlTps
import Verif.Props.FlTps
import Verif.Model.FlDcmpf
import Verif.Lemmas.FlDcmpf
import Verif.Lemmas.FlDcmpf2
import Verif.Props.FlDcmpf
import Verif.Model.FlRdplan
import Verif.Lemmas.FlRdplan
import Verif.Props.FlRdplan
import Verif.Model.FlEqeqx
import Verif.Lemmas.FlEqeqx
import Verif.Props.FlEqeqx
import Verif.Model.FlAtm
import Verif.Lemmas.FlAtm
import Verif.Props.FlAtm
import Verif.Model.FlRefco
import Verif.Props.FlRefco
import Verif.Model.FlDafin
import Verif.Props.FlDafin
import Verif.Model.FlJd2cal
import Verif.Props.FlJd2cal
import Verif.Model.FlObsTable
import Verif.Props.FlObsTable
