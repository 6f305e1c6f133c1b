import Verif.Core.CInt
import Verif.Core.Checked
import Verif.Core.ExactAdd
import Verif.Core.Flow
import Verif.Core.Kernel
import Verif.Core.Prog
import Verif.Core.RealOps
import Verif.Core.Reduce
import Verif.Core.Spmd
import Verif.Lemmas.Arrays
import Verif.Lemmas.Boundaries
import Verif.Lemmas.CheckedEmf
import Verif.Lemmas.CheckedHydro
import Verif.Lemmas.CheckedMhd
import Verif.Lemmas.CheckedMhdRun
import Verif.Lemmas.CheckedMhdStep
import Verif.Lemmas.CheckedMhdStep3
import Verif.Lemmas.CheckedMhdV2
import Verif.Lemmas.CheckedRun
import Verif.Lemmas.CheckedStep
import Verif.Lemmas.DistMhd
import Verif.Lemmas.DistOnce
import Verif.Lemmas.DistOnceOps
import Verif.Lemmas.DistRun
import Verif.Lemmas.DistShadow
import Verif.Lemmas.DistShadowMhd
import Verif.Lemmas.DistShadowOps
import Verif.Lemmas.DistStep
import Verif.Lemmas.Driver
import Verif.Lemmas.DriverUnique
import Verif.Lemmas.EulerPDE
import Verif.Lemmas.FixedPoint
import Verif.Lemmas.FloatDiv
import Verif.Lemmas.FloatMax
import Verif.Lemmas.Flow
import Verif.Lemmas.GhostFill
import Verif.Lemmas.Halo
import Verif.Lemmas.Halo2
import Verif.Lemmas.Hdf5
import Verif.Lemmas.Hydro2D
import Verif.Lemmas.Hydro3D
import Verif.Lemmas.HydroStep2D
import Verif.Lemmas.HydroStep3D
import Verif.Lemmas.Ieee
import Verif.Lemmas.IeeeBinary
import Verif.Lemmas.IeeeCalc
import Verif.Lemmas.IeeeClip
import Verif.Lemmas.IeeeGrav
import Verif.Lemmas.IeeeRate
import Verif.Lemmas.IeeeRest
import Verif.Lemmas.IeeeTwin
import Verif.Lemmas.IeeeZero
import Verif.Lemmas.Ini
import Verif.Lemmas.Init
import Verif.Lemmas.InitMhd
import Verif.Lemmas.Int32
import Verif.Lemmas.Int32Fill
import Verif.Lemmas.Mhd
import Verif.Lemmas.Mhd2D
import Verif.Lemmas.Mhd3D
import Verif.Lemmas.MhdAtomic2D
import Verif.Lemmas.MhdAtomic3D
import Verif.Lemmas.MhdDiscontinuity
import Verif.Lemmas.MhdDriver
import Verif.Lemmas.MhdEmf
import Verif.Lemmas.MhdExchange
import Verif.Lemmas.MhdFast
import Verif.Lemmas.MhdFull2D
import Verif.Lemmas.MhdFull3D
import Verif.Lemmas.MhdHlld
import Verif.Lemmas.MhdMirror
import Verif.Lemmas.MhdPDE
import Verif.Lemmas.MhdPlanar
import Verif.Lemmas.MhdPlanar2
import Verif.Lemmas.MhdRest
import Verif.Lemmas.MhdRest2D
import Verif.Lemmas.MhdRest3D
import Verif.Lemmas.MhdReverse
import Verif.Lemmas.MhdReverse2D
import Verif.Lemmas.MhdReverse3D
import Verif.Lemmas.MhdStep2D
import Verif.Lemmas.MhdStep3D
import Verif.Lemmas.MhdTextbook
import Verif.Lemmas.MhdTranspose
import Verif.Lemmas.MhdUnits
import Verif.Lemmas.MhdUnits2D
import Verif.Lemmas.MhdUnits3D
import Verif.Lemmas.MhdUnitsRun
import Verif.Lemmas.MhdV2_2D
import Verif.Lemmas.MhdV2_3D
import Verif.Lemmas.Mirror
import Verif.Lemmas.Mirror3
import Verif.Lemmas.Mpi
import Verif.Lemmas.NoField
import Verif.Lemmas.NoField2D
import Verif.Lemmas.NoField3D
import Verif.Lemmas.NoJunk
import Verif.Lemmas.Positivity
import Verif.Lemmas.Refine
import Verif.Lemmas.Restart
import Verif.Lemmas.Rotate
import Verif.Lemmas.RunSymmetry
import Verif.Lemmas.Scheme2D
import Verif.Lemmas.Scheme3D
import Verif.Lemmas.Spmd
import Verif.Lemmas.Step2D
import Verif.Lemmas.Step3D
import Verif.Lemmas.Symmetry3
import Verif.Lemmas.Telescope
import Verif.Lemmas.Units
import Verif.Lemmas.UnitsRun
import Verif.Lemmas.Vtk
import Verif.Lemmas.Wedge
import Verif.Lemmas.WholeDomain
import Verif.Model.Arrays
import Verif.Model.Boundaries
import Verif.Model.ComputeDt
import Verif.Model.Config
import Verif.Model.Driver
import Verif.Model.DriverMhd
import Verif.Model.EulerEquations
import Verif.Model.Hdf5
import Verif.Model.Hydro2D
import Verif.Model.Hydro3D
import Verif.Model.HydroStep
import Verif.Model.HydroStep3
import Verif.Model.Index
import Verif.Model.Ini
import Verif.Model.Init
import Verif.Model.InitMhd
import Verif.Model.InitParams
import Verif.Model.Int32
import Verif.Model.Memory
import Verif.Model.Mhd2D
import Verif.Model.Mhd3D
import Verif.Model.MhdState
import Verif.Model.MhdUtils
import Verif.Model.Mpi
import Verif.Model.MpiMhd
import Verif.Model.MpiRun
import Verif.Model.Params
import Verif.Model.Program
import Verif.Model.ProgramMpi
import Verif.Model.Riemann
import Verif.Model.RiemannConfigs
import Verif.Model.RiemannMhd
import Verif.Model.Timers
import Verif.Model.Vtk
import Verif.Model.Wedge
import Verif.Model.Xdmf
import Verif.Props.C01
import Verif.Props.C02
import Verif.Props.C05
import Verif.Props.C07
import Verif.Props.C10
import Verif.Props.C100
import Verif.Props.C101
import Verif.Props.C102
import Verif.Props.C102Sample
import Verif.Props.C103
import Verif.Props.C103Sample
import Verif.Props.C104
import Verif.Props.C104Sample
import Verif.Props.C105
import Verif.Props.C105Alive
import Verif.Props.C105Grav
import Verif.Props.C105Sample
import Verif.Props.C106
import Verif.Props.C107
import Verif.Props.C107Blast
import Verif.Props.C107BlastMpi
import Verif.Props.C107Main
import Verif.Props.C107Mpi
import Verif.Props.C107Runs
import Verif.Props.C107Solid
import Verif.Props.C11
import Verif.Props.C13
import Verif.Props.C15
import Verif.Props.C18
import Verif.Props.C20
import Verif.Props.C21
import Verif.Props.C22
import Verif.Props.C23
import Verif.Props.C24
import Verif.Props.C26
import Verif.Props.C27
import Verif.Props.C28
import Verif.Props.C29
import Verif.Props.C30
import Verif.Props.C31
import Verif.Props.C33
import Verif.Props.C33Int
import Verif.Props.C34
import Verif.Props.C36
import Verif.Props.C37
import Verif.Props.C39
import Verif.Props.C42
import Verif.Props.C44
import Verif.Props.C47
import Verif.Props.C49
import Verif.Props.C50
import Verif.Props.C51
import Verif.Props.C52
import Verif.Props.C53
import Verif.Props.C53Waves
import Verif.Props.C55
import Verif.Props.C56
import Verif.Props.C57
import Verif.Props.C58
import Verif.Props.C59
import Verif.Props.C60
import Verif.Props.C61
import Verif.Props.C62
import Verif.Props.C63
import Verif.Props.C64
import Verif.Props.C65
import Verif.Props.C66
import Verif.Props.C67
import Verif.Props.C67b
import Verif.Props.C68
import Verif.Props.C69
import Verif.Props.C70
import Verif.Props.C71
import Verif.Props.C72
import Verif.Props.C73
import Verif.Props.C74
import Verif.Props.C75
import Verif.Props.C76
import Verif.Props.C77
import Verif.Props.C78
import Verif.Props.C79
import Verif.Props.C79Sample
import Verif.Props.C80
import Verif.Props.C81
import Verif.Props.C82
import Verif.Props.C83
import Verif.Props.C84
import Verif.Props.C85
import Verif.Props.C86
import Verif.Props.C87
import Verif.Props.C88
import Verif.Props.C88Sample
import Verif.Props.C89
import Verif.Props.C90
import Verif.Props.C90Steady
import Verif.Props.C91
import Verif.Props.C92
import Verif.Props.C93
import Verif.Props.C94
import Verif.Props.C94Sample
import Verif.Props.C95
import Verif.Props.C96
import Verif.Props.C97
import Verif.Props.C98
import Verif.Props.C99
import Verif.Props.C99Cube
import Verif.Props.C99Mhd
import Verif.Props.Sample
import Verif.Spec.Boundary
import Verif.Spec.Decomposition
import Verif.Spec.Dependence
import Verif.Spec.Discontinuity
import Verif.Spec.DtRate
import Verif.Spec.Euler
import Verif.Spec.EulerPDE
import Verif.Spec.EulerSystem
import Verif.Spec.FieldReversal
import Verif.Spec.FloatDiv
import Verif.Spec.FloatMax
import Verif.Spec.Hdf5
import Verif.Spec.Ieee
import Verif.Spec.IeeeRest
import Verif.Spec.IeeeRun
import Verif.Spec.Ini
import Verif.Spec.Integers
import Verif.Spec.MhdEmf
import Verif.Spec.MhdFluxes
import Verif.Spec.MhdPDE
import Verif.Spec.MhdPrimitives
import Verif.Spec.MhdProblems
import Verif.Spec.MhdRiemann
import Verif.Spec.MhdScheme2D
import Verif.Spec.MhdScheme3D
import Verif.Spec.MhdSimulation
import Verif.Spec.MhdUnits
import Verif.Spec.NoField
import Verif.Spec.PlanarMhd
import Verif.Spec.Problems
import Verif.Spec.Program
import Verif.Spec.ProgramMpi
import Verif.Spec.ProgramRestart
import Verif.Spec.Restart
import Verif.Spec.RiemannProblem
import Verif.Spec.Scheme2D
import Verif.Spec.Scheme3D
import Verif.Spec.Simulation
import Verif.Spec.Symmetry
import Verif.Spec.Units
import Verif.Spec.Upscale
import Verif.Spec.Vtk
import Verif.Spec.Wedge
import Verif.Spec.Xdmf
