import Verif.Model.Aligned
import Verif.Model.Api
import Verif.Model.Arith
import Verif.Model.Bench
import Verif.Model.Client
import Verif.Model.Collect
import Verif.Model.Docs
import Verif.Model.Exec
import Verif.Model.Heap
import Verif.Model.Hints
import Verif.Model.Interact
import Verif.Model.Meter
import Verif.Model.Owned
import Verif.Model.Protocol
import Verif.Model.Repairs
import Verif.Model.RepairsAll
import Verif.Model.RepairsShrink
import Verif.Model.Select
import Verif.Model.Several
import Verif.Model.Sinks
import Verif.Model.Sized
import Verif.Model.Sources
import Verif.Model.Stress
import Verif.Model.Tests
import Verif.Model.Threads
import Verif.Model.Traits
import Verif.Model.Unaligned
import Verif.Model.Unsize
import Verif.Proofs.AImpl
import Verif.Proofs.AOps
import Verif.Proofs.Access
import Verif.Proofs.Arith
import Verif.Proofs.Bench
import Verif.Proofs.Builds
import Verif.Proofs.BuildsApi
import Verif.Proofs.BuildsAttr
import Verif.Proofs.BuildsHolds
import Verif.Proofs.BuildsOps
import Verif.Proofs.Collect
import Verif.Proofs.Combine
import Verif.Proofs.CostA
import Verif.Proofs.CostApi
import Verif.Proofs.CostCalls
import Verif.Proofs.CostRules
import Verif.Proofs.CostS
import Verif.Proofs.CostSSeq
import Verif.Proofs.CostSeq
import Verif.Proofs.CostU
import Verif.Proofs.CostUOps
import Verif.Proofs.CostWith
import Verif.Proofs.Docs
import Verif.Proofs.Drop
import Verif.Proofs.Exec
import Verif.Proofs.Frame
import Verif.Proofs.FromSized
import Verif.Proofs.Giving
import Verif.Proofs.GrowthExact
import Verif.Proofs.GrowthStep
import Verif.Proofs.History
import Verif.Proofs.HistoryInst
import Verif.Proofs.Impl
import Verif.Proofs.ImplReserve
import Verif.Proofs.Interact
import Verif.Proofs.Inversion
import Verif.Proofs.Iter
import Verif.Proofs.IterExact
import Verif.Proofs.Layout
import Verif.Proofs.Layouts
import Verif.Proofs.Meter
import Verif.Proofs.MeterInst
import Verif.Proofs.Misplaced
import Verif.Proofs.NoLoss
import Verif.Proofs.Observe
import Verif.Proofs.Owned
import Verif.Proofs.Plain
import Verif.Proofs.PlainShrink
import Verif.Proofs.Protocol
import Verif.Proofs.RaiseStep
import Verif.Proofs.Realign
import Verif.Proofs.RemoveExact
import Verif.Proofs.Repairs
import Verif.Proofs.RepairsAll
import Verif.Proofs.RepairsHistory
import Verif.Proofs.RepairsReserve
import Verif.Proofs.RepairsShrink
import Verif.Proofs.ReserveInst
import Verif.Proofs.Run
import Verif.Proofs.SApi
import Verif.Proofs.SOps
import Verif.Proofs.Same
import Verif.Proofs.Select
import Verif.Proofs.Several
import Verif.Proofs.SeveralInst
import Verif.Proofs.Shape
import Verif.Proofs.ShapeInst
import Verif.Proofs.Shrink
import Verif.Proofs.ShrinkExact
import Verif.Proofs.ShrinkWrong
import Verif.Proofs.Sources
import Verif.Proofs.Storage
import Verif.Proofs.Stress
import Verif.Proofs.Tests
import Verif.Proofs.Traits
import Verif.Proofs.TraitsPure
import Verif.Proofs.UEmplace
import Verif.Proofs.UImpl
import Verif.Proofs.UOps
import Verif.Proofs.UReserve
import Verif.Proofs.Unsize
import Verif.Proofs.ZstExact
import Verif.Props.Access
import Verif.Props.Args
import Verif.Props.Arith
import Verif.Props.Asserts
import Verif.Props.Bench
import Verif.Props.Builds
import Verif.Props.CStr
import Verif.Props.Collect
import Verif.Props.Combine
import Verif.Props.Contract
import Verif.Props.ContractVec
import Verif.Props.Copying
import Verif.Props.Cost
import Verif.Props.CostFill
import Verif.Props.CostInsertWith
import Verif.Props.CostSized
import Verif.Props.Counter
import Verif.Props.Docs
import Verif.Props.Drop
import Verif.Props.Emplacable
import Verif.Props.EndToEnd
import Verif.Props.Fill
import Verif.Props.FromSized
import Verif.Props.Growth
import Verif.Props.GrowthExact
import Verif.Props.History
import Verif.Props.Init
import Verif.Props.Insert
import Verif.Props.Interact
import Verif.Props.Iter
import Verif.Props.IterExact
import Verif.Props.Layouts
import Verif.Props.Life
import Verif.Props.Misplaced
import Verif.Props.Move
import Verif.Props.NoLoss
import Verif.Props.Observers
import Verif.Props.Owned
import Verif.Props.Plain
import Verif.Props.PlainShrink
import Verif.Props.Protocol
import Verif.Props.Push
import Verif.Props.Remove
import Verif.Props.RemoveExact
import Verif.Props.Repairs
import Verif.Props.RepairsAll
import Verif.Props.RepairsProgram
import Verif.Props.RepairsReserve
import Verif.Props.RepairsShrink
import Verif.Props.RepoTests
import Verif.Props.Reserve
import Verif.Props.Same
import Verif.Props.Select
import Verif.Props.Several
import Verif.Props.Shape
import Verif.Props.Shrink
import Verif.Props.ShrinkExact
import Verif.Props.ShrinkWrong
import Verif.Props.Sized
import Verif.Props.SizedExact
import Verif.Props.Stored
import Verif.Props.Stress
import Verif.Props.StressSized
import Verif.Props.Tests
import Verif.Props.Threads
import Verif.Props.Traits
import Verif.Props.Unsize
import Verif.Props.ZstExact
import Verif.Spec.Basic
import Verif.Spec.Builds
import Verif.Spec.Collect
import Verif.Spec.Cost
import Verif.Spec.Counter
import Verif.Spec.Docs
import Verif.Spec.Drop
import Verif.Spec.Emplace
import Verif.Spec.FromSized
import Verif.Spec.Guards
import Verif.Spec.History
import Verif.Spec.Holds
import Verif.Spec.Interact
import Verif.Spec.Iter
import Verif.Spec.Misplaced
import Verif.Spec.NoLoss
import Verif.Spec.Owned
import Verif.Spec.Plain
import Verif.Spec.PlainShrink
import Verif.Spec.Protocol
import Verif.Spec.Raises
import Verif.Spec.Repairs
import Verif.Spec.RepairsAll
import Verif.Spec.Reserve
import Verif.Spec.Same
import Verif.Spec.Samples
import Verif.Spec.Select
import Verif.Spec.Several
import Verif.Spec.Shape
import Verif.Spec.Shrink
import Verif.Spec.Sized
import Verif.Spec.Source
import Verif.Spec.Tests
import Verif.Spec.Threads
import Verif.Spec.Traits
