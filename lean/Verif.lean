import Verif.Amd.Absorb
import Verif.Amd.Base
import Verif.Amd.Build
import Verif.Amd.Collect
import Verif.Amd.Core
import Verif.Amd.Deg
import Verif.Amd.Detect
import Verif.Amd.Dfs
import Verif.Amd.Finish
import Verif.Amd.Forest
import Verif.Amd.Ghost
import Verif.Amd.Hash
import Verif.Amd.Lay
import Verif.Amd.Link
import Verif.Amd.Main
import Verif.Amd.Model
import Verif.Amd.Mono
import Verif.Amd.Order
import Verif.Amd.Pairs
import Verif.Amd.Perm
import Verif.Amd.Restore
import Verif.Amd.Round
import Verif.Amd.Scan1
import Verif.Amd.Scan2
import Verif.Amd.Scan2b
import Verif.Amd.Scan2c
import Verif.Amd.Space
import Verif.Amd.Spec
import Verif.Amd.Step2
import Verif.Amd.Tree
import Verif.Amd.Valid
import Verif.Cex.Data
import Verif.Cex.Deriv
import Verif.Cex.Group
import Verif.Cex.Indep
import Verif.Cex.Ldl
import Verif.Cex.Rho
import Verif.Cex.Stale
import Verif.Cex.Time
import Verif.Conv.Admm
import Verif.Conv.Detect
import Verif.Conv.Drift
import Verif.Conv.Limit
import Verif.Conv.Link
import Verif.Csc.AdjFill
import Verif.Csc.AdjForm
import Verif.Csc.AdjSolve
import Verif.Csc.Bucket
import Verif.Csc.Compare
import Verif.Csc.Constr
import Verif.Csc.Conv
import Verif.Csc.Conv2
import Verif.Csc.Demo
import Verif.Csc.Deriv
import Verif.Csc.DerivAdj
import Verif.Csc.DerivClass
import Verif.Csc.DerivDemo
import Verif.Csc.DerivErr
import Verif.Csc.DerivGet
import Verif.Csc.DerivPair
import Verif.Csc.DerivRun
import Verif.Csc.DerivSpec
import Verif.Csc.DerivSys
import Verif.Csc.DerivVec
import Verif.Csc.Fill
import Verif.Csc.Kkt
import Verif.Csc.KktCsr
import Verif.Csc.KktDenote
import Verif.Csc.KktEnts
import Verif.Csc.KktFill
import Verif.Csc.KktForm
import Verif.Csc.KktMain
import Verif.Csc.KktRowDenote
import Verif.Csc.KktRowUpd
import Verif.Csc.KktRows
import Verif.Csc.KktRun
import Verif.Csc.KktSpec
import Verif.Csc.KktUpd
import Verif.Csc.Lemmas
import Verif.Csc.LinLemmas
import Verif.Csc.LinStep
import Verif.Csc.Mem
import Verif.Csc.Model
import Verif.Csc.Norms
import Verif.Csc.Prod
import Verif.Csc.Rows
import Verif.Csc.Spec
import Verif.Csc.Utils
import Verif.Csc.Validate
import Verif.Cuda.EqKernel
import Verif.Cuda.Gpu
import Verif.Cuda.GpuLemmas
import Verif.Cuda.KernelLemmas
import Verif.Cuda.MapKernels
import Verif.Cuda.MapLemmas
import Verif.Cuda.Mats
import Verif.Cuda.MatsLemmas
import Verif.Cuda.NormLemmas
import Verif.Cuda.Pcg
import Verif.Cuda.PcgLemmas
import Verif.Cuda.RedKernels
import Verif.Cuda.Rows
import Verif.Cuda.RowsLemmas
import Verif.Cuda.SelectLemmas
import Verif.Cuda.SumKernels
import Verif.Demo.Basic
import Verif.Demo.Runs
import Verif.Gen.Accept
import Verif.Gen.CLang
import Verif.Gen.Compile
import Verif.Gen.Decide
import Verif.Gen.Demo
import Verif.Gen.File
import Verif.Gen.Load
import Verif.Gen.Model
import Verif.Gen.Names
import Verif.Gen.Objects
import Verif.Gen.Round
import Verif.Gen.Spec
import Verif.Lemmas.Adapt
import Verif.Lemmas.Cert
import Verif.Lemmas.Duality
import Verif.Lemmas.Embed
import Verif.Lemmas.EmbedOne
import Verif.Lemmas.EmbedTwo
import Verif.Lemmas.Final
import Verif.Lemmas.Frame
import Verif.Lemmas.Fresh
import Verif.Lemmas.Gap
import Verif.Lemmas.Hist
import Verif.Lemmas.HistOps
import Verif.Lemmas.HistSolve
import Verif.Lemmas.Idle
import Verif.Lemmas.Indep
import Verif.Lemmas.Ldl
import Verif.Lemmas.Loop
import Verif.Lemmas.LoopInv
import Verif.Lemmas.Num
import Verif.Lemmas.Order
import Verif.Lemmas.Outcome
import Verif.Lemmas.Overwrite
import Verif.Lemmas.Point
import Verif.Lemmas.Printing
import Verif.Lemmas.Reduced
import Verif.Lemmas.Result
import Verif.Lemmas.RunEnd
import Verif.Lemmas.Scaling
import Verif.Lemmas.Seen
import Verif.Lemmas.Setup
import Verif.Lemmas.Solve
import Verif.Lemmas.Step
import Verif.Lemmas.Store
import Verif.Lemmas.Sync
import Verif.Lemmas.Term
import Verif.Lemmas.Time
import Verif.Lemmas.Twin
import Verif.Lemmas.User
import Verif.Lemmas.Valid
import Verif.Lemmas.Verbose
import Verif.Mem.Analysis
import Verif.Mem.Calls
import Verif.Mem.Heap
import Verif.Mem.Prog
import Verif.Mem.Refused
import Verif.Mem.Setup
import Verif.Mem.SetupLemmas
import Verif.Mkl.Cg
import Verif.Mkl.CgLemmas
import Verif.Mkl.Mat
import Verif.Mkl.Pardiso
import Verif.Mkl.PardisoDemo
import Verif.Mkl.PardisoLemmas
import Verif.Mkl.Ref
import Verif.Mkl.Vec
import Verif.Mkl.VecLemmas
import Verif.Mkl.VecSpec
import Verif.Model.Api
import Verif.Model.Auxil
import Verif.Model.Cg
import Verif.Model.Embed
import Verif.Model.Entry
import Verif.Model.Ieee
import Verif.Model.Mat
import Verif.Model.Num
import Verif.Model.Polish
import Verif.Model.Scaling
import Verif.Model.Types
import Verif.Model.Validate
import Verif.Props.Amd
import Verif.Props.AmdLink
import Verif.Props.ApiMem
import Verif.Props.Backends
import Verif.Props.Calls
import Verif.Props.Cg
import Verif.Props.Compare
import Verif.Props.Constr
import Verif.Props.Continue
import Verif.Props.Converge
import Verif.Props.Csc
import Verif.Props.CscConv
import Verif.Props.Data
import Verif.Props.Deriv
import Verif.Props.Detect
import Verif.Props.Duality
import Verif.Props.Embed
import Verif.Props.Entry
import Verif.Props.Gen
import Verif.Props.GenNames
import Verif.Props.Gpu
import Verif.Props.Group
import Verif.Props.Idle
import Verif.Props.Ieee
import Verif.Props.Indep
import Verif.Props.Infeasible
import Verif.Props.Integral
import Verif.Props.Kkt
import Verif.Props.KktError
import Verif.Props.Ldl
import Verif.Props.Limits
import Verif.Props.LinStep
import Verif.Props.LinSys
import Verif.Props.Mats
import Verif.Props.Memory
import Verif.Props.Mkl
import Verif.Props.MklMat
import Verif.Props.MklVec
import Verif.Props.Observe
import Verif.Props.Order
import Verif.Props.Pardiso
import Verif.Props.Pcg
import Verif.Props.Point
import Verif.Props.Polish
import Verif.Props.PolishMem
import Verif.Props.Printing
import Verif.Props.Refine
import Verif.Props.Rho
import Verif.Props.RhoSeq
import Verif.Props.Rows
import Verif.Props.SolveMem
import Verif.Props.Solved
import Verif.Props.Start
import Verif.Props.Status
import Verif.Props.Time
import Verif.Props.Validate
import Verif.Props.Vec
import Verif.Props.Verbose
import Verif.Props.WarmSeq
import Verif.Spec.Basic
import Verif.Spec.Calls
import Verif.Spec.Cert
import Verif.Spec.Detect
import Verif.Spec.Embed
import Verif.Spec.Gpu
import Verif.Spec.History
import Verif.Spec.Indep
import Verif.Spec.Ldl
import Verif.Spec.Mats
import Verif.Spec.Mkl
import Verif.Spec.Pardiso
import Verif.Spec.Pcg
import Verif.Spec.Polish
import Verif.Spec.Rho
import Verif.Spec.Rows
import Verif.Spec.Run
import Verif.Spec.Scaling
import Verif.Spec.Settings
import Verif.Spec.Status
import Verif.Spec.Termination
import Verif.Spec.Time
import Verif.Vm.Admm
import Verif.Vm.AdmmLemmas
import Verif.Vm.AdmmSpec
import Verif.Vm.Api
import Verif.Vm.ApiLemmas
import Verif.Vm.ApiMat
import Verif.Vm.ApiRun
import Verif.Vm.ApiSetup
import Verif.Vm.ApiSpec
import Verif.Vm.Kernels
import Verif.Vm.Lemmas
import Verif.Vm.Model
import Verif.Vm.Polish
import Verif.Vm.PolishArr
import Verif.Vm.PolishLemmas
import Verif.Vm.PolishQ
import Verif.Vm.PolishRun
import Verif.Vm.PolishSpec
import Verif.Vm.Qdldl
import Verif.Vm.QdldlAmd
import Verif.Vm.QdldlLemmas
import Verif.Vm.QdldlSpec
import Verif.Vm.ScaleLemmas
import Verif.Vm.Solve
import Verif.Vm.SolveLemmas
import Verif.Vm.SolveRun
import Verif.Vm.SolveSpec
import Verif.Vm.Spec
