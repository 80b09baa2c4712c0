import Verif.Proofs.Compare
import Verif.Proofs.IntArith
import Verif.Proofs.Sort
import Verif.Proofs.FloatCmp
import Verif.Proofs.Invariant
import Verif.Proofs.Replies
import Verif.Model.Server
import Verif.Props.Grammar
import Verif.Props.Strings
import Verif.Props.Scalars
import Verif.Props.Floats
import Verif.Props.Variables
import Verif.Props.Requests
import Verif.Props.Undefined
import Verif.Props.Containers
import Verif.Props.Lines
import Verif.Props.Server
import Verif.Props.Isolation
import Verif.Props.Numbers
import Verif.Validation.StrUtils
import Verif.Props.Characters
import Verif.Props.Cost
import Verif.Props.Storage
import Verif.Props.Rebuild
import Verif.Props.Log
import Verif.Props.Main
import Verif.Props.Reference
import Verif.Props.Liveness
import Verif.Props.Concurrency
import Verif.Props.Retry
import Verif.Props.Sizes
import Verif.Props.Observe
import Verif.Props.Settings
import Verif.Props.Crash
import Verif.Props.Rename
import Verif.Props.Undo
import Verif.Props.Apart
import Verif.Props.Stable
import Verif.Props.Reads
import Verif.Props.Machine
import Verif.Props.Anonymous
import Verif.Props.Heap
import Verif.Props.Sessions
import Verif.Props.FloatContainers
import Verif.Props.Tolerance
import Verif.Props.AnySort
import Verif.Props.Guess
import Verif.Props.Single
import Verif.Props.Arrival
import Verif.Props.Process
import Verif.Props.Scarce
import Verif.Props.ScarceServer
import Verif.Props.LogFile
import Verif.Props.Work
import Verif.Props.Doubt
import Verif.Props.Schedules
import Verif.Props.Disjoint
import Verif.Props.Orders
import Verif.Props.Template
import Verif.Props.Agree
import Verif.Props.Client
import Verif.Props.Agreement
import Verif.Props.Pool
import Verif.Props.LongReplies
import Verif.Props.Sums
import Verif.Props.Console
import Verif.Props.Indexed
import Verif.Props.LongStrings
import Verif.Props.LongVectors
import Verif.Props.Whole
import Verif.Props.LongSets
import Verif.Props.Barrier
import Verif.Props.Topic
import Verif.Props.Listen
import Verif.Props.Unchecked
import Verif.Props.Queue
import Verif.Props.Learn
import Verif.Props.Stack
import Verif.Props.Grow
import Verif.Props.Cells
import Verif.Props.Swap
import Verif.Props.Still
import Verif.Props.Halfway
import Verif.Props.Ask
import Verif.Props.Cases
import Verif.Props.MoreCases
import Verif.Props.YetMoreCases
import Verif.Validation.Readme
import Verif.Validation.Grammar
import Verif.Validation.Parser
import Verif.Validation.Context
import Verif.Validation.Instance
