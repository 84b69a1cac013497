import Verif.Lemmas.Alias
import Verif.Lemmas.Base
import Verif.Lemmas.BlockSize
import Verif.Lemmas.BlockSizeLoop
import Verif.Lemmas.Blocked
import Verif.Lemmas.BlockedMul
import Verif.Lemmas.Converter
import Verif.Lemmas.Dense
import Verif.Lemmas.DenseFill
import Verif.Lemmas.DenseMul
import Verif.Lemmas.DenseOps
import Verif.Lemmas.Detect
import Verif.Lemmas.FixedSim
import Verif.Lemmas.FixedStorage
import Verif.Lemmas.Float
import Verif.Lemmas.FpOps
import Verif.Lemmas.Ieee
import Verif.Lemmas.Layout
import Verif.Lemmas.Mat
import Verif.Lemmas.Norm
import Verif.Lemmas.NormFp
import Verif.Lemmas.ProgSim
import Verif.Lemmas.Sparse
import Verif.Lemmas.SparseConv
import Verif.Lemmas.SparseCopy
import Verif.Lemmas.SparseMul
import Verif.Lemmas.SparseOps
import Verif.Lemmas.SparseProgSim
import Verif.Lemmas.SparseTrans
import Verif.Lemmas.Storage
import Verif.Lemmas.StorageLeak
import Verif.Lemmas.StorageLost
import Verif.Lemmas.StorageRep
import Verif.Lemmas.Threads
import Verif.Lemmas.Typed
import Verif.Lemmas.TypedFp
import Verif.Model.Alias
import Verif.Model.Base
import Verif.Model.Bench
import Verif.Model.BenchConsole
import Verif.Model.BenchMain
import Verif.Model.Blas
import Verif.Model.BlockProg
import Verif.Model.BlockSize
import Verif.Model.Blocked
import Verif.Model.BlockedList
import Verif.Model.Cache
import Verif.Model.CacheSum
import Verif.Model.Checker
import Verif.Model.CodeGen
import Verif.Model.Compare
import Verif.Model.Converter
import Verif.Model.CursorMove
import Verif.Model.Dense
import Verif.Model.DimHist
import Verif.Model.Dispatch
import Verif.Model.Dyn
import Verif.Model.DynQuery
import Verif.Model.Expr
import Verif.Model.External
import Verif.Model.FileIO
import Verif.Model.Files
import Verif.Model.FixedStorage
import Verif.Model.FullDisk
import Verif.Model.Generator
import Verif.Model.InPlace
import Verif.Model.Info
import Verif.Model.Interrupted
import Verif.Model.InterruptedBench
import Verif.Model.Iterator
import Verif.Model.Layout
import Verif.Model.Machine
import Verif.Model.Mat
import Verif.Model.Mix
import Verif.Model.MixProg
import Verif.Model.Norm
import Verif.Model.NormFp
import Verif.Model.Occupation
import Verif.Model.OutOfMemory
import Verif.Model.Pattern
import Verif.Model.Print
import Verif.Model.PrintDyn
import Verif.Model.Prog
import Verif.Model.Provider
import Verif.Model.Python
import Verif.Model.Saved
import Verif.Model.Serialize
import Verif.Model.Shared
import Verif.Model.Show
import Verif.Model.ShowConsole
import Verif.Model.Sparse
import Verif.Model.SparseFill
import Verif.Model.SparseProg
import Verif.Model.Storage
import Verif.Model.StorageEq
import Verif.Model.Table
import Verif.Model.Templates
import Verif.Model.Text
import Verif.Model.Threads
import Verif.Model.Together
import Verif.Model.Tracker
import Verif.Model.Typed
import Verif.Model.ViewProg
import Verif.Model.Wrapper
import Verif.Model.WrapperTable
import Verif.Props.Alias
import Verif.Props.Bench
import Verif.Props.BenchConsole
import Verif.Props.BenchMain
import Verif.Props.Blas
import Verif.Props.BlockProg
import Verif.Props.BlockSize
import Verif.Props.Blocked
import Verif.Props.BlockedList
import Verif.Props.Cache
import Verif.Props.CacheSum
import Verif.Props.CacheSwap
import Verif.Props.Checker
import Verif.Props.CodeGen
import Verif.Props.CodeGenIndent
import Verif.Props.Compare
import Verif.Props.Converter
import Verif.Props.ConverterDefault
import Verif.Props.Cross
import Verif.Props.CursorMove
import Verif.Props.Degenerate
import Verif.Props.Dense
import Verif.Props.DimHist
import Verif.Props.Dispatch
import Verif.Props.Dyn
import Verif.Props.DynQuery
import Verif.Props.EqualExact
import Verif.Props.Exact
import Verif.Props.Expr
import Verif.Props.External
import Verif.Props.FileExact
import Verif.Props.FileIO
import Verif.Props.Files
import Verif.Props.FixedStorage
import Verif.Props.Float
import Verif.Props.FullDisk
import Verif.Props.Generator
import Verif.Props.InPlace
import Verif.Props.Info
import Verif.Props.Interrupted
import Verif.Props.InterruptedBench
import Verif.Props.Iterator
import Verif.Props.Layout
import Verif.Props.Limits
import Verif.Props.Machine
import Verif.Props.Mat
import Verif.Props.MatrixSets
import Verif.Props.Mismatch
import Verif.Props.MismatchLib
import Verif.Props.Mix
import Verif.Props.MixProg
import Verif.Props.NonFinite
import Verif.Props.Norm
import Verif.Props.NormFp
import Verif.Props.NormSum
import Verif.Props.Occupation
import Verif.Props.Orient
import Verif.Props.OrientSparse
import Verif.Props.OutOfMemory
import Verif.Props.Pattern
import Verif.Props.Picture
import Verif.Props.Print
import Verif.Props.PrintDyn
import Verif.Props.Prog
import Verif.Props.Provider
import Verif.Props.Python
import Verif.Props.Saved
import Verif.Props.Serialize
import Verif.Props.Shared
import Verif.Props.SharedMove
import Verif.Props.Show
import Verif.Props.ShowConsole
import Verif.Props.Spare
import Verif.Props.Sparse
import Verif.Props.SparseFill
import Verif.Props.SparseProg
import Verif.Props.SparseSize
import Verif.Props.Square
import Verif.Props.Storage
import Verif.Props.StorageEq
import Verif.Props.StorageLost
import Verif.Props.StoredProduct
import Verif.Props.Table
import Verif.Props.ThreadCounts
import Verif.Props.Threads
import Verif.Props.Together
import Verif.Props.Tracker
import Verif.Props.TransRow
import Verif.Props.Typed
import Verif.Props.Universal
import Verif.Props.ViewProg
import Verif.Props.Wrapper
import Verif.Props.Xpm
import Verif.Spec
import Verif.SpecBlas
import Verif.SpecBlockProg
import Verif.SpecBlockSize
import Verif.SpecBlocked
import Verif.SpecCache
import Verif.SpecCacheSum
import Verif.SpecCodeGen
import Verif.SpecConv
import Verif.SpecDyn
import Verif.SpecDynQuery
import Verif.SpecExpr
import Verif.SpecFixed
import Verif.SpecFloat
import Verif.SpecIeee
import Verif.SpecMat
import Verif.SpecMix
import Verif.SpecMixProg
import Verif.SpecNorm
import Verif.SpecNormFp
import Verif.SpecOrient
import Verif.SpecProg
import Verif.SpecSaved
import Verif.SpecSparseProg
import Verif.SpecStored
import Verif.SpecThreads
import Verif.SpecTyped
import Verif.SpecViewProg
