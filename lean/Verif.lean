import Verif.Props.Storage
import Verif.Props.Vec
import Verif.Props.Rock4
import Verif.Props.Rock4Error
import Verif.Props.Omp
import Verif.Props.Hessenberg
import Verif.Props.Rodas
import Verif.Props.RodasBackward
import Verif.Props.RodasBackTerm
import Verif.Props.RodasIO
import Verif.Props.RodasModes
import Verif.Props.RodasLin
import Verif.Props.Radau
import Verif.Props.RadauSettings
import Verif.Props.NumJac
import Verif.Props.Logger
import Verif.Props.RadauMat
import Verif.Props.RadauStart
import Verif.Props.Rock4LLoop
import Verif.Props.Rock4LTest
import Verif.Props.Rock4LRho
import Verif.Props.Rock4Tables
import Verif.Props.Rock4Stab
import Verif.Props.Sdirkl
import Verif.Props.SdirklStable
import Verif.Props.SdirklConv
import Verif.Props.SdirklTest
import Verif.Props.Lapl1d
import Verif.Props.Symplectic
import Verif.Props.SympReal
import Verif.Props.SympFloat
import Verif.Props.SympMap
import Verif.Props.SympRev
import Verif.Props.SympStop
import Verif.Props.SympTest
import Verif.Props.SympTestH
import Verif.Props.StiffTest
import Verif.Props.StiffOre
import Verif.Props.StiffBZ
import Verif.Props.StiffFisher
import Verif.Props.RodasInv
import Verif.Props.RadauRun
import Verif.Props.RadauFirst
import Verif.Props.Avc
import Verif.Props.RodasFlag
import Verif.Props.RodasStab
import Verif.Props.RodasErr
import Verif.Lemmas.RadauErr
import Verif.Lemmas.RadauDecay
import Verif.Props.RadauErr
import Verif.Props.RadauB
import Verif.Props.Csr
import Verif.Props.Rock4LMain
import Verif.Lemmas.RockRough
import Verif.Props.Rock4Rough
import Verif.Spec.RkErr
import Verif.Lemmas.RkErr
import Verif.Lemmas.SympFlt
import Verif.Lemmas.SympErr
import Verif.Props.SympErr
import Verif.Model.TimeLoop
import Verif.Lemmas.TimeLoop
import Verif.Props.TimeLoop
import Verif.Lemmas.HessFlt
import Verif.Props.HessFloat
import Verif.Model.EndLoop
import Verif.Lemmas.EndLoop
import Verif.Props.EndLoop
import Verif.Props.EndLoopSim
import Verif.Props.RadauStartRun
import Verif.Props.LogOthers
import Verif.Props.RadauHess
import Verif.Props.Alloc
import Verif.Lemmas.Sim
import Verif.Props.CallsAgree
import Verif.Model.Mains
import Verif.Props.Mains
import Verif.Spec.PolyField
import Verif.Lemmas.Germ
import Verif.Lemmas.GermFlow
import Verif.Lemmas.GermErr
import Verif.Spec.Elem
import Verif.Props.Rock4Nonlin
import Verif.Lemmas.RosSer
import Verif.Lemmas.RosReal
import Verif.Lemmas.RosErr
import Verif.Props.RodasNonlin
import Verif.Lemmas.Colloc
import Verif.Lemmas.SmoothTaylor
import Verif.Spec.SmoothOde
import Verif.Lemmas.CollocReal
import Verif.Props.RadauNonlin
import Verif.Spec.GaussMethod
import Verif.Tables.GaussCert
import Verif.Lemmas.GaussExact
import Verif.Props.SympOrder
import Verif.Props.SympKepler
import Verif.Model.Planets
import Verif.Props.SympPlanets
import Verif.Model.PlanetsFl
import Verif.Props.SympPlanetsFl
import Verif.Model.SympFlat
import Verif.Props.SympFlat
import Verif.Model.PlanetsLoop
import Verif.Props.SympPlanetsLoop
import Verif.Model.MainsRadau
import Verif.Props.MainsRadau
import Verif.Props.MainsFlat
import Verif.Props.PlanetsEnergy
import Verif.Props.KeplerMain
import Verif.Props.PlanetsArr
import Verif.Props.PlanetsHam
import Verif.Props.MainsOut
import Verif.Tables.Extrap
import Verif.Props.Extrap
import Verif.Spec.ElemSmooth
import Verif.Lemmas.SmoothField
import Verif.Lemmas.SmoothFlow
import Verif.Lemmas.RockSmooth
import Verif.Props.Rock4Smooth
import Verif.Props.FisherExist
