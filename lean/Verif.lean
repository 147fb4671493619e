import Verif.Basic
import Verif.Model.Api
import Verif.Model.Borrows
import Verif.Model.Catch
import Verif.Model.CatchDrops
import Verif.Model.CatchReads
import Verif.Model.CatchSetOps
import Verif.Model.Cells
import Verif.Model.Clone
import Verif.Model.Construct
import Verif.Model.Consume
import Verif.Model.Cost
import Verif.Model.Debug
import Verif.Model.Drops
import Verif.Model.Float
import Verif.Model.FrozenMap
import Verif.Model.FrozenSet
import Verif.Model.HashCode
import Verif.Model.HashTable
import Verif.Model.IntKey
import Verif.Model.IntSets
import Verif.Model.IntTraits
import Verif.Model.Iter
import Verif.Model.Len
import Verif.Model.Machine
import Verif.Model.Macro
import Verif.Model.MacroTokens
import Verif.Model.Maps
import Verif.Model.Provided
import Verif.Model.SetCode
import Verif.Model.SetCost
import Verif.Model.SetLookups
import Verif.Model.SetThreads
import Verif.Model.Sets
import Verif.Model.SizingCost
import Verif.Model.SliceKey
import Verif.Model.StringCode
import Verif.Model.Threads
import Verif.Model.TypeName
import Verif.Model.UserCode
import Verif.Model.UserThreads
import Verif.Spec
import Verif.Spec.Average
import Verif.Spec.Borrows
import Verif.Spec.Calls
import Verif.Spec.Catch
import Verif.Spec.CatchSetOps
import Verif.Spec.Cells
import Verif.Spec.Clone
import Verif.Spec.Construct
import Verif.Spec.Consume
import Verif.Spec.Debug
import Verif.Spec.Divisions
import Verif.Spec.Drops
import Verif.Spec.EqCalls
import Verif.Spec.FirstMatch
import Verif.Spec.Footprint
import Verif.Spec.Frame
import Verif.Spec.History
import Verif.Spec.HonestCode
import Verif.Spec.HonestInts
import Verif.Spec.HonestSets
import Verif.Spec.IntSets
import Verif.Spec.IntTraits
import Verif.Spec.Integers
import Verif.Spec.Interchange
import Verif.Spec.IterPool
import Verif.Spec.Len
import Verif.Spec.Limit
import Verif.Spec.Macro
import Verif.Spec.MacroHistory
import Verif.Spec.MacroTokens
import Verif.Spec.Operations
import Verif.Spec.Programs
import Verif.Spec.Provided
import Verif.Spec.PureCode
import Verif.Spec.PureSets
import Verif.Spec.Rebuild
import Verif.Spec.RightSlices
import Verif.Spec.Row
import Verif.Spec.SameRuns
import Verif.Spec.SelfEq
import Verif.Spec.SetAlgebra
import Verif.Spec.SetCalls
import Verif.Spec.SetCode
import Verif.Spec.SetLookups
import Verif.Spec.SetRepeats
import Verif.Spec.SetThreads
import Verif.Spec.Sets
import Verif.Spec.Sizing
import Verif.Spec.StringCalls
import Verif.Spec.StringCode
import Verif.Spec.StringVerdict
import Verif.Spec.Threads
import Verif.Spec.TotalCost
import Verif.Spec.TypeName
import Verif.Spec.UserCode
import Verif.Spec.UserThreads
import Verif.Examples
import Verif.Lemmas.Average
import Verif.Lemmas.Borrows
import Verif.Lemmas.Built
import Verif.Lemmas.Calls
import Verif.Lemmas.Catch
import Verif.Lemmas.CatchDrops
import Verif.Lemmas.CatchSetOps
import Verif.Lemmas.Cells
import Verif.Lemmas.Clone
import Verif.Lemmas.Consume
import Verif.Lemmas.Cost
import Verif.Lemmas.Debug
import Verif.Lemmas.Divisions
import Verif.Lemmas.Drops
import Verif.Lemmas.EqCalls
import Verif.Lemmas.Equality
import Verif.Lemmas.FacadeCost
import Verif.Lemmas.FirstMatch
import Verif.Lemmas.Float
import Verif.Lemmas.Footprint
import Verif.Lemmas.Frame
import Verif.Lemmas.FrozenMap
import Verif.Lemmas.HardStrings
import Verif.Lemmas.HashCode
import Verif.Lemmas.History
import Verif.Lemmas.HonestCode
import Verif.Lemmas.HonestInts
import Verif.Lemmas.HonestSets
import Verif.Lemmas.Int
import Verif.Lemmas.IntSets
import Verif.Lemmas.IntTraits
import Verif.Lemmas.IntTraitsAgree
import Verif.Lemmas.IterPool
import Verif.Lemmas.Len
import Verif.Lemmas.Lookup
import Verif.Lemmas.Machine
import Verif.Lemmas.MacroTokens
import Verif.Lemmas.Maps
import Verif.Lemmas.Primes
import Verif.Lemmas.Programs
import Verif.Lemmas.Provided
import Verif.Lemmas.PureSets
import Verif.Lemmas.Reach
import Verif.Lemmas.Rebuild
import Verif.Lemmas.RightSlices
import Verif.Lemmas.Row
import Verif.Lemmas.SameRuns
import Verif.Lemmas.Scan
import Verif.Lemmas.SelfEq
import Verif.Lemmas.SessionAgree
import Verif.Lemmas.SetCalls
import Verif.Lemmas.SetCode
import Verif.Lemmas.SetConsistent
import Verif.Lemmas.SetCost
import Verif.Lemmas.SetLookups
import Verif.Lemmas.SetOps
import Verif.Lemmas.SetRepeats
import Verif.Lemmas.SetThreads
import Verif.Lemmas.Sets
import Verif.Lemmas.Sizing
import Verif.Lemmas.SizingCost
import Verif.Lemmas.Slice
import Verif.Lemmas.StringCalls
import Verif.Lemmas.StringCode
import Verif.Lemmas.StringCodeAgree
import Verif.Lemmas.StringVerdict
import Verif.Lemmas.Table
import Verif.Lemmas.TableLimit
import Verif.Lemmas.Threads
import Verif.Lemmas.TotalCost
import Verif.Lemmas.TypeName
import Verif.Lemmas.UserCode
import Verif.Lemmas.UserCodeAgree
import Verif.Lemmas.UserThreads
import Verif.Lemmas.UserThreadsAlone
import Verif.Props.Average
import Verif.Props.Borrows
import Verif.Props.Calls
import Verif.Props.Catch
import Verif.Props.CatchDrops
import Verif.Props.CatchSetOps
import Verif.Props.Cells
import Verif.Props.Clone
import Verif.Props.Construct
import Verif.Props.Consume
import Verif.Props.Cost
import Verif.Props.Debug
import Verif.Props.Drops
import Verif.Props.EqCalls
import Verif.Props.FacadeCost
import Verif.Props.FirstMatch
import Verif.Props.Float
import Verif.Props.Footprint
import Verif.Props.Frame
import Verif.Props.HashAnalysis
import Verif.Props.History
import Verif.Props.HonestCode
import Verif.Props.HonestInts
import Verif.Props.HonestSets
import Verif.Props.IntSets
import Verif.Props.IntTraits
import Verif.Props.Integers
import Verif.Props.Interchange
import Verif.Props.IterPool
import Verif.Props.Len
import Verif.Props.Limit
import Verif.Props.LimitSets
import Verif.Props.LimitStrings
import Verif.Props.LimitU32
import Verif.Props.Machine
import Verif.Props.Macro
import Verif.Props.MacroHistory
import Verif.Props.MacroKeyType
import Verif.Props.MacroTokens
import Verif.Props.MapConstruct
import Verif.Props.MapEq
import Verif.Props.MapIter
import Verif.Props.MapLookup
import Verif.Props.MapMutate
import Verif.Props.Programs
import Verif.Props.Provided
import Verif.Props.PureCode
import Verif.Props.PureSets
import Verif.Props.Rebuild
import Verif.Props.RightSlices
import Verif.Props.Row
import Verif.Props.SameRuns
import Verif.Props.SelfEq
import Verif.Props.SetAlgebra
import Verif.Props.SetCalls
import Verif.Props.SetCode
import Verif.Props.SetConstruct
import Verif.Props.SetCost
import Verif.Props.SetGet
import Verif.Props.SetIter
import Verif.Props.SetLookups
import Verif.Props.SetOps
import Verif.Props.SetRepeats
import Verif.Props.SetThreads
import Verif.Props.Sets
import Verif.Props.Sizing
import Verif.Props.SizingCost
import Verif.Props.SpecializedMaps
import Verif.Props.StringCalls
import Verif.Props.StringCode
import Verif.Props.StringVerdict
import Verif.Props.Threads
import Verif.Props.TotalCost
import Verif.Props.TypeName
import Verif.Props.UserCode
import Verif.Props.UserThreads
import Verif.RepoTests
