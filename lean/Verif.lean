import Verif.Model.Base
import Verif.Model.Static
import Verif.Model.Core
import Verif.Model.Api
import Verif.Proof.Logic
import Verif.Proof.Ghost
import Verif.Proof.Prim
import Verif.Proof.Segs
import Verif.Proof.Find
import Verif.Proof.Move
import Verif.Proof.Alloc
import Verif.Proof.Ins
import Verif.Proof.InsSeg
import Verif.Proof.EraSeg
import Verif.Proof.State
import Verif.Proof.State2
import Verif.Proof.Loops
import Verif.Proof.Whole
import Verif.Proof.Algo
import Verif.Proof.Iters
import Verif.Props.Spec
import Verif.Proof.Ops
import Verif.Proof.Ops2
import Verif.Proof.Bank
import Verif.Proof.Fresh
import Verif.Proof.Supply
import Verif.Props.Witness
import Verif.Proof.Use
import Verif.Props.Single
import Verif.Proof.Blocks
import Verif.Props.History
import Verif.Props.Iterators
import Verif.Props.Structure
import Verif.Props.Bulk
import Verif.Proof.Footprint
import Verif.Props.Multi
import Verif.Props.Algorithms
import Verif.Proof.Eval
import Verif.Proof.Wide
import Verif.Props.Defects
import Verif.Cost.Base
import Verif.Cost.Model
import Verif.Cost.Sim
import Verif.Cost.Bound
import Verif.Cost.Climb
import Verif.Cost.Ins
import Verif.Cost.Era
import Verif.Cost.EraSeg
import Verif.Cost.Cont
import Verif.Cost.Step
import Verif.Cost.Purge
import Verif.Cost.Bulk
import Verif.Cost.Whole
import Verif.Cost.Algo
import Verif.Cost.Lower
import Verif.Props.Complexity
import Verif.Cost.Quiet
import Verif.Cost.ReadOnly
import Verif.Cost.Elem
import Verif.Cost.Moves
import Verif.Props.Const
import Verif.Props.Local
import Verif.Model.Bench
import Verif.Proof.Client
import Verif.Props.Random
import Verif.Props.Bench
import Verif.Props.Generic
import Verif.Props.Throwing
import Verif.Model.Alias
import Verif.Props.Alias
import Verif.Proof.Throws
import Verif.Proof.Raises
import Verif.Props.Noexcept
import Verif.Model.Ranges
import Verif.Props.Ranges
import Verif.Props.Rough
import Verif.Props.Moments
import Verif.Proof.Traced
import Verif.Proof.TracedAll
import Verif.Proof.CopyCount
import Verif.Props.Copies
import Verif.Proof.Exact
import Verif.Props.Exact
import Verif.Props.Tuning
import Verif.Proof.Objects
import Verif.Props.Objects
import Verif.Props.GenericCost
import Verif.Props.Dangling
import Verif.Cost.LowEra
import Verif.Cost.LowIns
import Verif.Cost.LowOps
import Verif.Props.LowerBounds
import Verif.Props.Threads
import Verif.Model.Retry
import Verif.Proof.Last
import Verif.Props.Retry
import Verif.Model.RandomTest
import Verif.Props.RandomTest
import Verif.Proof.Grown
import Verif.Props.Growth
import Verif.Model.Checksum
import Verif.Props.Checksum
import Verif.Model.Haystack
import Verif.Props.Haystack
import Verif.Props.Room
import Verif.Props.Shrink
import Verif.Model.Construct
import Verif.Props.Construct
import Verif.Props.Interrupted
import Verif.Rough.Mute
import Verif.Props.Harmless
import Verif.Props.Churn
import Verif.Model.UnitTests
import Verif.Props.UnitTests
import Verif.Props.Programs
import Verif.Model.Sorting
import Verif.Props.Sorting
import Verif.Model.Buffered
import Verif.Props.Buffered
