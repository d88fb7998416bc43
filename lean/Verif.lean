import Verif.Model.Rust
import Verif.Model.Number
import Verif.Model.Align
import Verif.Model.Dimensions
import Verif.Model.Storage
import Verif.Model.Index2D
import Verif.Model.Index3D
import Verif.Model.Helper
import Verif.Lemmas.Basic
import Verif.Lemmas.Bytes
import Verif.Lemmas.Container
import Verif.Spec
import Verif.Lemmas.Store
import Verif.Lemmas.Ops2D
import Verif.Lemmas.Wide2D
import Verif.Lemmas.Ops3D
import Verif.Lemmas.Wide3D
import Verif.Lemmas.Index2D
import Verif.Lemmas.Index3D
import Verif.Lemmas.Order
import Verif.Lemmas.Cmp2D
import Verif.Lemmas.Cmp3D
import Verif.Lemmas.Conv2D
import Verif.Lemmas.Conv3D
import Verif.Lemmas.Spread
import Verif.Lemmas.Grid2D
import Verif.Lemmas.Grid3D
import Verif.Lemmas.FromBytes
import Verif.History
import Verif.Lemmas.Nav
import Verif.Lemmas.Reach2D
import Verif.Lemmas.Reach3D
import Verif.Lemmas.GridNarrow
import Verif.Props.Defs
import Verif.Lemmas.ListLike
import Verif.Lemmas.Kinds2D
import Verif.Lemmas.Kinds3D
import Verif.Lemmas.Restore2D
import Verif.Lemmas.Restore3D
import Verif.Lemmas.Binary
import Verif.Lemmas.GridRead2D
import Verif.Lemmas.GridRead3D
import Verif.Props.Examples
import Verif.Props.Access2D
import Verif.Props.Access3D
import Verif.Props.Nav2D
import Verif.Props.Nav3D
import Verif.Props.Order2D
import Verif.Props.Order3D
import Verif.Props.Grid2D
import Verif.Props.Grid3D
import Verif.Props.Window
import Verif.Props.Counting
import Verif.Props.MortonCode
import Verif.Props.Stackless
import Verif.Props.Encode
import Verif.Props.Points
import Verif.Props.Overlaps
import Verif.Props.Adapt
import Verif.Props.Subdivide
import Verif.Props.Rebuild
import Verif.Props.ZOrder
import Verif.Lemmas.Strings
import Verif.Props.Strings
import Verif.Props.Cells
import Verif.Props.Conv2D
import Verif.Props.Conv3D
import Verif.Props.Numbers
import Verif.Props.Findings
import Verif.Props.Deep2D
import Verif.Props.Deep3D
import Verif.Props.Slices
import Verif.Props.Machine
import Verif.Props.Programs
import Verif.Props.Programs2D
import Verif.Props.Programs3D
import Verif.Props.Foreign2D
import Verif.Props.Foreign3D
import Verif.Lemmas.NoUB
import Verif.Lemmas.SafeStorage
import Verif.Lemmas.Safe2D
import Verif.Lemmas.Safe3D
import Verif.Props.Safety
import Verif.Props.Endian
import Verif.Props.Raw
import Verif.Props.Laws
import Verif.Props.Laws2D
import Verif.Props.Laws3D
import Verif.Props.Bytes
import Verif.Lemmas.Refines
import Verif.Lemmas.RefinesStorage
import Verif.Lemmas.Refines2D
import Verif.Lemmas.Refines3D
import Verif.Props.Refinement
import Verif.Props.Interchange
import Verif.Conformance
import Verif.Props.Stray
import Verif.Props.GridNarrow
import Verif.Props.Traverse
import Verif.Props.Space
import Verif.Props.Rename
import Verif.Props.Sorted
import Verif.Props.GridEdits2D
import Verif.Props.GridEdits3D
import Verif.Props.Messages
import Verif.Props.Ranges
import Verif.Props.OutOfRange
import Verif.Props.LongReads
import Verif.Props.StrayConv
import Verif.Props.BigEndianConv
import Verif.Props.Common
import Verif.Props.DebugText
import Verif.Props.Beyond
import Verif.Props.BeyondRelease
import Verif.Props.StorageBits
import Verif.Props.StorageTypes
import Verif.Model.Containers2D
import Verif.Model.Containers3D
import Verif.Model.CrateTests
import Verif.Lemmas.Containers
import Verif.Lemmas.Containers2D
import Verif.Lemmas.Containers3D
import Verif.Lemmas.ContainersConv2D
import Verif.Lemmas.ContainersConv3D
import Verif.Lemmas.ContainersGrid2D
import Verif.Lemmas.ContainersGrid3D
import Verif.Lemmas.ContainersNative
import Verif.Lemmas.ContainersNarrow
import Verif.Lemmas.LargeContainers2D
import Verif.Lemmas.LargeContainers3D
import Verif.Props.Containers2D
import Verif.Props.Containers3D
import Verif.Props.ContainersNarrow
import Verif.Props.LargeContainers2D
import Verif.Props.LargeContainers3D
import Verif.Props.LargeGrid
import Verif.Props.OtherDimensions
import Verif.Props.OtherDimensionsBytes
import Verif.Props.OtherIndices
import Verif.Props.OtherStorageTypes
import Verif.Props.HashInput
import Verif.Props.Corners
import Verif.Props.Tiles
import Verif.Props.StringOrder
import Verif.Props.Neighbours
import Verif.Props.BottomUp
import Verif.Props.Leaves
import Verif.Props.Regions
import Verif.Props.CrateTests
import Verif.Lemmas.Hidden
import Verif.Props.StrayExact
import Verif.Props.ConvExact
import Verif.Props.FixedStray
import Verif.Props.StrayCount
import Verif.Props.StraySteps
import Verif.Props.Maps
import Verif.Props.NumbersExact
import Verif.Props.GridAgree
import Verif.Props.SlicesExact
import Verif.Props.SaveText
import Verif.Props.WalkUp
import Verif.Props.MoveSubtree
import Verif.Props.Symmetries
import Verif.Props.Gaps
import Verif.Props.RadixSort
import Verif.Props.Nearest
import Verif.Props.SharedLevels
import Verif.Props.FrontToBack
import Verif.Props.LocationCodes
import Verif.Props.Touching
import Verif.Props.Differences
import Verif.Props.Nesting
import Verif.Props.Jump
import Verif.Props.LocateAll
import Verif.Props.Merge
import Verif.Props.GridXor
import Verif.Props.Carry
import Verif.Props.Balance
import Verif.Props.BoxSteps
import Verif.Props.Balancing
import Verif.Props.BalanceUnique
import Verif.Props.BesideBalanced
import Verif.Props.BesideCount
import Verif.Props.BalanceAnyOrder
