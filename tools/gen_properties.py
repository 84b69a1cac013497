import json
P=[]
def p(title,statement,quantifier,why,anchors):
    P.append(dict(id="C%02d"%(len(P)+1),title=title,statement=statement,quantifier=quantifier,why_tests_cant=why,anchors=anchors))
I="include/BlasBooster/Core/"
U="include/BlasBooster/Utilities/"
p("Element addressing is a bijection",
 "For a dense matrix of any size and either orientation, operator()(i,j) of an in-range pair never touches memory outside the matrix' own storage, two different pairs never share a storage cell, and every storage cell belongs to some pair.",
 "all numbers of rows and columns, both orientations, all index pairs",
 "Tests fix a handful of sizes; the claim is a bijection for every shape.",
 [I+"DenseMatrix.h: getPosition, operator()",I+"Dimension.h: Dimension"])
p("Element write is exact and local",
 "After M(i,j)=v, M(i,j) reads v and every other element M(k,l) reads what it read before.",
 "all shapes, both orientations, plain matrices and submatrix views, all index pairs, all values, all write histories",
 "Quantifies over every write history and every shape.",
 [I+"DenseMatrix.h: operator(), getPosition"])
p("Submatrix view aliases exactly its window",
 "A column-major submatrix view (nbRows x nbColumns at (beginRow, beginColumn)) reads and writes exactly the parent elements (beginRow+i, beginColumn+j) and no other parent element, for every parent whose columns are contiguous (every plain column-major matrix; views of views in general are C59).",
 "all parents with contiguous columns, all windows inside the parent, all elements",
 "Every window of every shape.",
 [I+"DenseMatrix.h: submatrix constructor ColumnMajor (421-436), getPosition"])
p("Storage iteration of a view visits every window element once",
 "Iterating begin()..end() of a submatrix view with at least one row and one column terminates, dereferences only window cells and yields every element of the window exactly once in column order; reverse iteration yields the same in reverse.",
 "all block lengths >= 1, block counts >= 1 and separators (empty windows are C63)",
 "Iterator arithmetic must be right for every (length, count, gap).",
 [I+"StripedIterator.h: increment, decrement",I+"Storage.h: strided Storage begin/end/rbegin/rend"])
p("Cursor traversal equals index traversal",
 "Row and column cursors of a dense matrix or view visit, for a fixed row (column), exactly the elements (i,0..c-1) ((0..r-1,j)) in order, whatever the orientation.",
 "all shapes, orientations, leading dimensions and cursor directions",
 "Eight cursor/orientation combinations over unbounded shapes.",
 [I+"Cursor.h",I+"StridedCursorBase.h",I+"CursorBase.h"])
p("Storage ownership is memory safe",
 "For any sequence of constructions, copies, moves, assignments, swaps, resizes and destructions of variable-size storages, no memory is freed twice, none is accessed after it was freed, memory of the caller is never freed, and no two objects own the same memory. (Leaks: C60.)",
 "all operation histories over any number of storages",
 "Histories are unbounded; double frees depend on the interleaving of moves and copies.",
 [I+"Storage.h: Storage<T,false,false,0> (294-500)"])
p("Copies are independent values",
 "Copying (copy constructing or copy assigning) an owning storage yields equal elements, and later writes through either object never change what the other one reads.",
 "all owning storages, all later write histories",
 "Independence is a statement about all later writes.",
 [I+"Storage.h: copy constructor 330, copy assignment 374"])
p("Move transfers contents",
 "After moving a storage into another, the target reads exactly what the source read before, the source is empty, and the source can be destroyed and assigned again. (Resizing it: C61.)",
 "all storages and continuations",
 "Continuations after a move are unbounded.",
 [I+"Storage.h: move constructor 338, move assignment 391"])
p("Dense conversion preserves every element",
 "Constructing a dense matrix from a dense matrix of the same or of the other orientation yields the same dimensions and, at every index pair, the converted element.",
 "all shapes, orientations and contents",
 "Needs every shape incl. non-square and empty ones.",
 [I+"DenseMatrix.h: 455-477",I+"Transposition.h: transpose (dense)"])
p("Dense transposition",
 "transpose(M) has swapped dimensions, its (j,i) element is M(i,j), it reads only initialised elements of M, and transposing twice gives back every element.",
 "all shapes, orientations and contents",
 "All shapes.",
 [I+"Transposition.h: 8-32"])
p("Sparse to dense preserves every element",
 "Converting a valid sparse matrix to dense (same or different orientation) terminates without out-of-bounds access and yields, at every (i,j), the stored value or 0.",
 "all valid compressed matrices of any shape and fill, both orientations",
 "All sparsity patterns.",
 [I+"DenseMatrix.h: 591-641"])
p("Dense to sparse keeps exactly the significant elements",
 "Converting a column-major dense matrix or submatrix view to sparse (of either orientation) with a value checker yields a structurally valid compressed matrix that stores exactly the elements accepted by the checker, each at its own (row, column), and nothing else.",
 "all shapes, contents and checkers, column-major sources, both target orientations (row-major sources: C62)",
 "Depends on shape, content and orientation of the target.",
 [I+"SparseMatrix.h: 183-224",I+"OccupationPolicy.h: getNbOfSignificantElements"])
p("Sparse transposition",
 "transpose of a valid column-major (or square) sparse matrix with at least one row is a valid sparse matrix with swapped dimensions whose (j,i) element equals the (i,j) element of the argument.",
 "all valid column-major or square sparse matrices with a row, any number of stored elements (row-major: C62, no rows: C63, reported count: C64)",
 "All sparsity patterns.",
 [I+"Transposition.h: 34-87"])
p("Thresholded dense-sparse-dense round trip",
 "dense (column-major) -> sparse (checker, either orientation) -> dense (either orientation) returns the original element where the checker accepts it and 0 elsewhere; with a checker that accepts all non-zero values the round trip is the identity.",
 "all shapes, contents and checkers",
 "All contents.",
 [I+"SparseMatrix.h: 183-224",I+"DenseMatrix.h: 591-615"])
p("Blocked round trip",
 "Splitting a dense matrix into blocks along any row and column partition and converting the blocked matrix back to dense returns every element unchanged (when every block is kept dense).",
 "all shapes, all partitions of rows and columns",
 "Partitions are unbounded.",
 [I+"BlockedMatrixGenerator.h",I+"DenseMatrix.h: 524-561",I+"Copy.h"])
p("Dense addition and subtraction",
 "A+B, A-B, A+=B, A-=B of dense matrices with equal dimensions and orientation are element-wise, read only A and B, and leave the right operand unchanged.",
 "all shapes, contents and orientations",
 "All shapes/contents.",
 [I+"BinaryFunctors.h: 141-171, 325-344"])
p("Sparse addition and subtraction",
 "A+B and A-B of valid sparse matrices of equal dimensions and orientation (column-major, or square) are valid sparse matrices whose (i,j) element is A(i,j) (+/-) B(i,j).",
 "all sparsity patterns (reported number of stored elements: C64; other row-major operands: C62)",
 "Merge of arbitrary sorted key lists.",
 [I+"BinaryFunctors.h: 173-248"])
p("Mixed dense/sparse addition and subtraction",
 "Dense+Sparse, Dense-Sparse, Sparse+Dense and Dense+=Sparse, Dense-=Sparse (column-major) produce A(i,j) (+/-) B(i,j) at every (i,j). (Sparse-Dense and in-place operators on sparse matrices: C65.)",
 "all shapes and sparsity patterns",
 "All patterns; operand order matters for subtraction.",
 [I+"BinaryFunctors.h: 250-293, 356-377"])
p("Zero matrix is the additive identity",
 "M+Zero, Zero+M and M-Zero return M element-wise, and adding or subtracting a zero matrix in place changes nothing. (Zero-M: C65.)",
 "all matrices of all kinds",
 "Ranges over all matrices.",
 [I+"BinaryFunctors.h: 295-323, 389-421"])
p("Unevaluated sums (multiple matrices) behave like their sum",
 "For a two-part matrix X that denotes X1+X2: X+B, B+X and X+Y denote the sums of the denoted matrices, D-X (D dense) and X-B (one part of X dense, or B sparse or zero and a part of X sparse) denote the differences, D+=X and D-=X act on the denoted sum, and converting X to dense yields X1+X2. (The remaining operators, X-Y, X+=B, X-=B: C65.)",
 "all operands, all contents",
 "Algebraic identity over all contents.",
 [I+"BinaryFunctors.h: 487-588",I+"MultipleMatrix.h"])
p("Native dense product",
 "The native product of dense A (m x k) and B (k x n) terminates, reads no uninitialised or out-of-range element and yields the m x n matrix with C(i,j) = sum over l of A(i,l)*B(l,j), accumulated in increasing l, for column-major operands and result; it holds for k=0 (all zero).",
 "all m, k, n including 0, all contents (row-major operands: C62)",
 "All shapes; loop nests with three running iterators.",
 [I+"Multiplication_Native.h: 19-53",I+"Multiplication.h: 23-26"])
p("Cursor-based dense product",
 "The cursor-based dense product yields C(i,j) = sum over l of A(i,l)*B(l,j) for every mix of orientations of A, B and C and for submatrix operands.",
 "all shapes, contents, orientations",
 "All shapes.",
 [I+"Multiplication_Native.h: 55-97"])
p("Sparse-sparse product",
 "The product of two valid column-major sparse matrices is a valid sparse matrix whose elements are the exact row-by-column sums; no element is stored twice, no zero is stored and no write leaves the result storage.",
 "all sparsity patterns (reported number of stored elements: C64)",
 "All patterns, including cancellation to zero.",
 [I+"Multiplication_Native.h: 154-205"])
p("Sparse-dense and dense-sparse products",
 "Sparse*Dense and Dense*Sparse (column-major) yield the dense matrix of exact row-by-column sums without out-of-range accesses.",
 "all shapes, sparsity patterns and contents",
 "All patterns.",
 [I+"Multiplication_Native.h: 207-280"])
p("Zero matrix annihilates",
 "M*Zero, Zero*M and Zero*Zero are zero matrices with rows(left) rows and columns(right) columns, which convert to an all-zero dense matrix; non-conforming operands are rejected. (getSize() of the result: C47.)",
 "all operands of every kind",
 "All dimensions.",
 [I+"Multiplication_Native.h: 282-316",I+"ZeroMatrix.h"])
p("Products of unevaluated sums",
 "A*(X1+X2), (X1+X2)*B and (X1+X2)*(Y1+Y2) computed part by part equal the product of the denoted sums.",
 "all operands",
 "Distributivity over all contents.",
 [I+"MatrixMultExp.h: 78-147"])
p("Blocked product",
 "Multiplying two blocked matrices with matching inner partitions (at least one inner block) and converting the result to dense equals multiplying the two unblocked matrices, whatever the runtime type of each block.",
 "all shapes, partitions, block kinds and contents",
 "Unbounded partitions and block kinds.",
 [I+"Multiplication_Native.h: 107-152",I+"DenseMatrix.h: 524-561"])
p("End-to-end block pipeline",
 "Computing block sizes for A and B, converting both to blocked matrices, multiplying and converting back yields rows(A) x columns(B) and differs from A*B only by the contribution of elements dropped under the significance thresholds; with all thresholds zero it equals A*B.",
 "all matrices, all block-size settings, all thresholds",
 "Composition over all inputs.",
 ["src/Benchmark/Action_blasbooster_block.h",I+"BlockedMatrixGenerator.h",I+"BlockSizeGenerator.h",I+"MatrixConverter.h"])
p("Value-range checkers implement their intervals",
 "Each checker accepts exactly the values whose absolute value lies in its interval, and its constructor rejects negative and empty ranges.",
 "all thresholds and values",
 "Real-valued thresholds.",
 [I+"AbsoluteValueRangeChecker.h"])
p("Splitting by significance loses and duplicates nothing",
 "For 0 <= sigD < sigF every value with |v|>sigD is accepted by exactly one of the two checkers (>sigF) and (sigD,sigF], and no value with |v|<=sigD by either; hence the two parts of a split matrix sum to the thresholded matrix.",
 "all thresholds, values and matrices",
 "Real-valued thresholds, boundaries included.",
 [I+"AbsoluteValueRangeChecker.h",I+"MatrixConverter.h"])
p("Checker ordering is a strict weak order",
 "For the checkers with registered (double) threshold types, the order used to key cached occupations is irreflexive, transitive and treats two checkers as equivalent only if they accept the same values.",
 "all triples of checkers",
 "An order axiom over all triples of real thresholds.",
 [I+"AbsoluteValueRangeChecker.h: operator<",I+"OccupationPolicy.h: ValueCheckerLess"])
p("Occupation counts and ratio",
 "The number of significant elements equals the number of accepted elements, the occupation of a non-empty matrix is defined, lies in [0,1] and is antitone in the threshold.",
 "all non-empty dense matrices, all sparse matrices without spare cells, all checkers (empty matrices: C63, spare cells: C64)",
 "All contents.",
 [I+"Occupation.h",I+"OccupationPolicy.h"])
p("Occupation queries reflect the current contents",
 "Whatever sequence of writes, assignments and queries precedes it, getOccupation returns the occupation of the matrix as it is now.",
 "all histories of writes, assignments and queries",
 "Cache staleness only shows on particular histories.",
 [I+"OccupationPolicy.h",I+"DenseMatrix.h: 214-221"])
p("Norm queries reflect the current contents",
 "Whatever sequence of writes, assignments and queries precedes it, getNorm returns the norm of the matrix as it is now.",
 "all histories of writes, assignments and queries",
 "Cache staleness only shows on particular histories.",
 [I+"NormPolicy.h",I+"DenseMatrix.h: 214-221"])
p("Norm values",
 "NormOne, NormTwo and NormMax of a dense, sparse or two-part matrix are the entry-wise 1-, 2- and max-norm of the denoted matrix: non-negative, zero exactly for the zero matrix, and bounding every |element|.",
 "all matrices of every kind",
 "All contents.",
 [I+"Norm.h"])
p("Conversion by significance bounds the error",
 "Whatever representation the converter selects for a matrix, each element of the result differs from the original by at most the significance threshold that governs that representation (plus storage rounding); no element above the threshold is lost.",
 "all matrices, thresholds and occupation limits",
 "All contents; the selected representation depends on data.",
 [I+"MatrixConverter.h",I+"Threshold.h"])
p("Representation selection is the first match",
 "The runtime representation chosen for a non-empty matrix is the first in the priority order whose occupation conditions hold, exactly one conversion is executed, and the last (dense double) is a safe default.",
 "all non-empty matrices and threshold settings (empty ones: C63)",
 "Data-dependent choice.",
 [U+"exec_if.h",I+"MatrixConverter.h",I+"DynamicMatrixTypeList.h"])
p("Dynamic dispatch reaches the operands' types",
 "For every pair of runtime matrix types, a dynamic operation invokes the implementation for exactly that pair, and type indices identify types uniquely.",
 "all type lists, all pairs of types",
 "The dispatch table is type-list generic.",
 [U+"exec_dyn.h",U+"exec_dyn_2dim.h",U+"exec_if_2dim.h",U+"TypeList.h"])
p("Block sizes partition the dimension",
 "Block size generation terminates and returns row (column) block sizes that sum to the number of rows (columns).",
 "all detection arrays / matrices and block-size limits accepted by the constructor",
 "Termination and sum over all inputs.",
 [I+"BlockSizeGenerator.h: 140-205"])
p("Block sizes respect the limits",
 "Every generated block size is at least the minimum (unless the whole dimension is one block) and at most the maximum.",
 "all detection arrays and limits accepted by the constructor with a maximum >= 1",
 "All inputs.",
 [I+"BlockSizeGenerator.h: 140-205, 60"])
p("Block borders follow the steepest changes",
 "Row borders are chosen from row-wise differences and column borders from column-wise differences of the matrix, preferring the largest detection value.",
 "all matrices",
 "All shapes, in particular non-square.",
 [I+"BlockSizeGenerator.h: 95-138"])
p("Reading a window from a matrix file",
 "Reading an r x c window at offsets (ro,co) of a column-major file with given leading dimensions yields element (i,j) = file element (ro+i, co+j) in a column-major target, and windows that do not fit are rejected without reading.",
 "all window sizes and offsets whose sums fit size_t, all complete files (overflow and short files: C70)",
 "All offsets; byte-level seeks.",
 [I+"MatrixFileIO.h: 24-54"])
p("Serialisation round trip",
 "Saving a dense matrix and loading it back into an object of the same orientation yields a matrix with equal dimensions and elements, whatever the object held and whatever follows in the archive; a truncated archive is reported.",
 "all matrices, sequences of matrices, targets and truncation points",
 "All contents.",
 [I+"Storage.h: save 479, load 486",I+"DenseMatrix.h: 311",I+"Dimension.h: serialize"])
p("Fillers initialise every element",
 "AllFiller, ContinuousNumberFiller, HilbertFiller and DiagonalFiller set every element of a matrix of any shape to the documented value (and DiagonalFiller rejects non-square matrices); a matrix constructed or resized with them has no uninitialised element.",
 "all shapes and orientations",
 "All shapes.",
 [I+"MatrixFiller.h",I+"DenseMatrix.h: 341-349, 689-697"])
p("Error statistics",
 "Comparing two equal-size matrices reports the maximal absolute deviation (an upper bound that is attained) and the root mean square deviation; both are zero exactly if the matrices agree.",
 "all pairs of matrices of equal size and orientation; non-empty for the root mean square (otherwise: C62, C63)",
 "All contents.",
 [I+"StatisticalErrorInformation.h"])
p("BLAS calls compute the product",
 "For column-major dense operands with at least one inner column the arguments passed to gemm (dimensions, leading dimensions, alpha, beta) make a conforming gemm compute exactly A*B into the freshly sized result, reading and writing in bounds.",
 "all shapes with inner dimension >= 1 representable in the BLAS integer type, all conforming BLAS implementations",
 "All shapes; narrowing of sizes.",
 [I+"Multiplication_OpenBLAS.h",I+"Multiplication_IntelMKL.h"])
p("Dimension bookkeeping",
 "At any time the reported size of a matrix equals rows*columns, whatever sequence of constructions, resizes, assignments and swaps led there.",
 "all histories",
 "Cached field; histories are unbounded.",
 [I+"Dimension.h",I+"DenseMatrix.h: swap 287, resize 699",I+"ZeroMatrix.h: resize",I+"SparseMatrix.h: swap 126"])
p("Approximate equality",
 "equal() of dense matrices of the same orientation is reflexive and symmetric, implies equal dimensions, and holds exactly if all corresponding elements differ by at most the numerical accuracy of the less accurate element type.",
 "all pairs of matrices",
 "All contents.",
 [I+"Storage.h: equal 422",I+"DenseMatrix.h: equal",U+"EqualWithinNumericalAccuracy.h"])
p("Initializer-list construction",
 "Constructing a dense matrix from nested lists whose rows are at least as long as the first one puts the j-th value of the i-th list at (i,j). (Shorter rows: C68.)",
 "all such nested lists, both orientations",
 "All shapes.",
 [I+"DenseMatrix.h: 368-389"])
p("Two-part matrix dimensions agree",
 "A two-part matrix can only be observed with both parts of equal dimensions; mismatches are rejected.",
 "all constructions and resets",
 "All histories.",
 [I+"MultipleMatrix.h"])
p("Call tracker accumulates",
 "After any sequence of tracked calls the tracker reports, per tracked operation, exactly the number of finished calls and the sum of their durations.",
 "all histories of tracked scopes, nested ones included",
 "Histories are unbounded.",
 [U+"Tracker.h"])
p("Enum parser round trip",
 "Registering names for enum values so that the mapping is one-to-one makes name->value and value->name inverse to each other; with assertions or exceptions enabled unknown names are rejected. (Release builds: C69.)",
 "all registration sequences",
 "All registration orders.",
 [U+"EnumParser.h"])
p("Pattern colouring",
 "The pattern generator maps each norm to the first palette entry whose threshold does not exceed it, and to the background otherwise; every cell of the matrix is coloured exactly once.",
 "all palettes and matrices",
 "All palettes.",
 [I+"PatternGenerator.h"])
p("Band matrix provider",
 "The benchmark matrix provider's band matrices hold the generated value exactly inside the band |i-j| < band width and 0 outside, for every dimension and band width up to dimension+1. (Wider bands: C56.)",
 "all dimensions and band widths <= dimension+1",
 "Boundary band widths.",
 ["src/Benchmark/MatrixProvider.cpp: 19-36"])
p("Sparse to sparse conversion",
 "Converting a valid sparse matrix without spare cells to another element type or to the other orientation yields a valid sparse matrix that denotes the same (converted) elements, without reading uninitialised memory.",
 "all valid sparse matrices without spare cells, to the same orientation, or from column-major to row-major if there is a row and something is stored (otherwise: C62, C63, C64)",
 "All patterns.",
 [I+"SparseMatrix.h: 176-181", I+"Transposition.h: 34-87"])
p("Band matrices of every shape and width",
 "The band matrices of the generator and of the provider hold the given value exactly where |i-j| < band width and 0 elsewhere, for every number of rows and columns and every band width.",
 "all rows, columns and band widths",
 "Shapes are unbounded; wide and tall shapes take different paths.",
 ["src/Benchmark/generate_matrix.cpp: 45-53"])
p("Configured matrix sets",
 "After construction every configured set holds exactly the matrices its entries describe, in order: one per dimension and band width, the file's matrix, or a copy of another set; unknown sources are reported. (Other configuration errors: C70.)",
 "all configurations of understood entries",
 "Configurations are unbounded lists of entries that refer to each other.",
 ["src/Benchmark/MatrixProvider.cpp: 16-48", "src/Benchmark/MatrixProvider.h: get"])
p("Multiplication interface independence",
 "Whichever multiplication interface the build selects (native code, OpenBLAS, Intel MKL), the product of two column-major dense matrices of the same element type is the same matrix up to rounding.",
 "all configurations, operands with inner dimension >= 1 and dimensions < 2^31, conforming BLAS implementations (mixed element types: C71)",
 "Needs every conforming BLAS implementation, none of which is available to a unit test of the selection.",
 [I+"Multiplication_TheBestPolicy.h", I+"Multiplication_OpenBLAS.h", I+"Multiplication_IntelMKL.h"])
p("Views of views",
 "A submatrix view taken from a submatrix view reads and writes exactly the elements of the original matrix at the summed offsets.",
 "all parents, outer windows and inner windows",
 "Nested windows are never exercised by the tests.",
 [I+"DenseMatrix.h: submatrix constructor ColumnMajor (421-436)"])
p("No memory is leaked",
 "For any sequence of constructions, copies, moves, assignments, swaps, resizes, loads and destructions of variable- and fixed-size storages, once all objects are destroyed no memory allocated by the library is left allocated, and all of it was freed exactly once.",
 "all operation histories over any number of storages, including proxies for the caller's memory",
 "Histories are unbounded; leaks depend on the interleaving of moves, copies and loads.",
 [I+"Storage.h: variable-size 294-500, fixed-size 124-290"])
p("Moved-from storages stay usable",
 "A storage that was moved from, or moved into itself, can be used like any other afterwards: it can be destroyed, assigned and resized, and a self-move keeps the contents.",
 "all histories",
 "Continuations after a move are unbounded.",
 [I+"Storage.h: resize 365, move assignment 391"])
p("Storage orientation never changes results",
 "Every operation gives the same mathematical result for row-major and column-major operands, for equal and for mixed orientations: conversions, transposition, sums, products, comparison, error statistics, loading and file reading.",
 "all operations, shapes, contents and combinations of orientations",
 "Combinations of orientations are not instantiated by the tests; the library accepts them all.",
 [I+"SparseMatrix.h: 183-224",I+"Transposition.h: 34-87",I+"BinaryFunctors.h: 141-248",I+"Multiplication_Native.h: 19-53",I+"StatisticalErrorInformation.h",I+"Storage.h: equal, load",I+"MatrixFileIO.h"])
p("Degenerate shapes",
 "Every operation is defined for matrices without rows, without columns, or with an empty inner dimension, and gives the mathematically expected (empty or zero) result.",
 "all operations and all shapes with a zero dimension",
 "The tests contain no empty matrix.",
 [I+"StripedIterator.h",I+"Transposition.h",I+"Multiplication_Native.h",I+"Multiplication_OpenBLAS.h",I+"OccupationPolicy.h",I+"MatrixConverter.h",I+"StatisticalErrorInformation.h"])
p("Reported number of stored elements",
 "nnz() of every sparse matrix the library produces is the number of elements it stores, every reported element is initialised, and hence every later conversion, count and norm of it is defined.",
 "all sparse matrices produced by any sequence of conversions, sums, products and transpositions",
 "Depends on every sparsity pattern; uninitialised cells often happen to hold harmless values.",
 [I+"SparseStorage.h: nnz",I+"SparseMatrix.h: resize 262",I+"BinaryFunctors.h: 173-248",I+"Multiplication_Native.h: 154-205"])
p("Subtraction and in-place operators on every kind",
 "A-B denotes the difference, and A+=B, A-=B change A to the sum or difference, for every combination of dense, sparse, zero and two-part operands.",
 "all kinds of operands, all contents",
 "The result depends on the combination of kinds; sign errors are invisible for symmetric test data.",
 [I+"BinaryFunctors.h: 284-293, 304-312, 346-407, 516-590"])
p("Failed operations leave consistent objects",
 "When an operation reports a failure by an exception, every object involved can still be used: it holds its old or new value, never a mixture.",
 "all operations that can fail, all crash points",
 "Every point at which the operation can fail has to be considered.",
 [I+"Storage.h: load 486",I+"MatrixFileIO.h: 24-54",I+"MultipleMatrix.h: reset 49-56"])
p("Equality of sparse matrices",
 "equal() of two sparse matrices holds exactly if they have equal dimensions and the same stored elements within the numerical accuracy.",
 "all pairs of valid sparse matrices",
 "All patterns and dimensions.",
 [I+"SparseStorage.h: equal 129-132"])
p("Malformed construction input is reported",
 "Constructing a matrix from nested lists that do not form a rectangle is reported by a failure and never reads outside the lists, for element lists and for lists of blocks.",
 "all nested lists",
 "All ragged shapes.",
 [I+"DenseMatrix.h: 368-389, 391-418"])
p("Invalid calls are reported in every build",
 "Invalid arguments that are reported with assertions or exceptions enabled are reported in release builds too.",
 "all build configurations and invalid arguments",
 "Tests run in one configuration.",
 [I+"CoreException.h",I+"MultipleMatrix.h",U+"EnumParser.h"])
p("File and configuration errors are reported",
 "Every matrix file that is missing, too short or too small for the requested window, and every configuration entry that is not understood, is reported; no call returns silently with indeterminate data.",
 "all files, windows and configurations",
 "All combinations of sizes, including overflowing ones.",
 [I+"MatrixFileIO.h: 24-54","src/Benchmark/MatrixProvider.cpp: 16-48","src/Benchmark/MatrixProvider.h: get"])
p("Mixed precision products",
 "The product of a float and a double matrix is computed in double precision whichever interface the build selects.",
 "all operands and interfaces",
 "Loss of precision only shows for particular values.",
 [I+"Multiplication_TheBestPolicy.h",I+"Multiplication_IntelMKL.h"])
p("In-place operations on operands that share memory",
 "sub1 += sub2, sub1 -= sub2 and copy(sub2, sub1), for two submatrices of the same matrix, combine the values the matrix had before the call and change no cell outside the destination window; A += A doubles every element.",
 "all matrices, window sizes and origins, overlapping or not",
 "Whether an overlap is harmful depends on the relative position of the windows and on the traversal order.",
 [I+"BinaryFunctors.h: 325-344",I+"Copy.h: copy 10-29",I+"Storage.h: striped 503-662"])
p("Blocked matrices behave as values",
 "In a program over variables of blocked matrix type (generate, copy, multiply, add in place), changing one variable never changes another, and no cell of a matrix changes because another cell does.",
 "all programs of any length over any number of variables",
 "All histories of statements.",
 [I+"DynamicMatrix.h",I+"BinaryFunctors.h: 638-655",I+"DenseMatrix.h: 194, 209"])
p("Moving a blocked matrix preserves it",
 "A blocked matrix that was move-constructed or move-assigned from another denotes the same matrix: same blocks, same unblocked dimensions, same conversion to a dense matrix.",
 "all blocked matrices",
 "All block structures.",
 [I+"DenseMatrix.h: 197-219",I+"Dimension.h: 151-177"])
p("Type, dimension and norm matrices",
 "For a blocked matrix, the type matrix, dimension matrix and norm matrix have the shape of the grid of blocks; entry (i,j) is the position in the type list of block (i,j)'s type, its number of rows and columns, and its norm; for a generated matrix the type is the first one whose occupation conditions the window fulfils. Counting the types returns how many blocks have each type.",
 "all blocked matrices and type lists",
 "All grids, block types and contents.",
 [I+"GenerateTypeMatrix.h: 12-68",I+"DynamicMatrixFunctions.h: 10-88",I+"MultipleMatrix.h: 85-90"])
p("Picture of the block types",
 "The picture of the block types has the dimensions of the matrix; every element of the area of a block has the value of the block's type, except the border of the requested width, which is 0; nothing outside the picture is written.",
 "all block structures, types and border widths",
 "All block sizes relative to the border.",
 ["src/Benchmark/show_pattern.cpp: 81-120",I+"MatrixFiller.h: 20-28"])
p("Printed dense matrices",
 "A printed dense matrix of at most 100 rows and columns shows every element once, in its row and column, in aligned columns separated by at least one blank, so that the elements can be read back and matrices that print alike have elements that print alike; larger matrices print a notice and touch nothing.",
 "all matrices, submatrices and element formats",
 "All contents and widths.",
 [I+"MatrixIO.h: 38-91",I+"GenerateTypeMatrix.h: 70-73"])
p("Printed sparse matrices and the stream's state",
 "A printed sparse matrix shows the dimensions and all stored elements with their positions, and printing a matrix does not change how the stream formats later output.",
 "all sparse matrices and stream states",
 "All histories of output operations and all matrices, including results of sums and products.",
 [I+"MatrixIO.h: 93-134"])
p("Random matrices",
 "The random matrix generator returns a dense matrix of the requested dimensions whose elements have magnitude between 10^-max and 10^-min (by default 1e-9 to 1), the fraction of non-zero elements being the requested occupation; the same settings give the same matrix with every compiler.",
 "all settings, dimensions and random engines",
 "All seeds and all values a distribution may return.",
 ["include/BlasBooster/MatrixFactory/MatrixGenerator.h","src/MatrixFactory/MatrixGenerator.cpp: 6-21"])
p("Products computed by Eigen and Blaze",
 "With the Eigen or the Blaze interface selected, the product of dense matrices of any sizes is the product matrix, equal to what the other interfaces compute.",
 "all conforming dimensions and contents, all states of the result object, all addresses of the arrays",
 "All sizes and alignments.",
 [I+"Multiplication_Eigen.h",I+"Multiplication_Blaze.h"])
p("Sparse products computed by MKL",
 "With the MKL interface selected, the product of two sparse matrices is the product matrix, in the orientation of the operands.",
 "all conforming dimensions and sparsity patterns and every implementation of mkl_?csrmultcsr that meets its contract",
 "All dimensions; symmetric or square test matrices hide an exchange of arguments.",
 [I+"Multiplication_IntelMKL.h: 113-204"])
p("Benchmark actions",
 "Every action of the benchmark that the build provides is found under its name, computes the product of the two matrices in the precision its name promises, and its result does not depend on how often the measurement repeats the call.",
 "all action names, builds, operands, repetition counts and all linked routines that meet their contracts",
 "All sizes, contents and repetition counts.",
 ["src/Benchmark/Action_*.h","src/Benchmark/ActionProvider.cpp: 33-107"])
p("Benchmark table",
 "The benchmark prints one line per pair of matrices and configured action, in order, with the maximum norm and the 2-norm of the difference between the action's result and the first action's; a shown 0 means equal results; with --diff every difference is written to a file; invalid configurations are reported; lines printed before a failure remain valid.",
 "all configurations, matrix lists, actions and failure points",
 "All lists, results and crash points.",
 ["src/Benchmark/benchmark.cpp: 76-116","src/Benchmark/ActionProvider.cpp: 104"])
p("Multiplication by name",
 "matrix_matrix_mult(name, A, B) returns the product computed by the named method, dense or via sparse copies of the operands, and reports unknown names.",
 "all names, builds and operands",
 "All operands, including empty ones and non-commuting ones.",
 ["src/Benchmark/matrix_matrix_mult.cpp: 44-206"])
p("BLAS calls reach the library unchanged",
 "Calling a BLAS routine through the OpenBLAS or MKL interface has exactly the effect of calling the library's routine of that name with the same pointers in the same order, and returns what that routine returns.",
 "all 158 routines (162 for MKL), all argument pointers, all memory contents and every behaviour of the linked library",
 "Every routine, argument and library behaviour; a swapped pair of equal-typed arguments compiles.",
 ["src/Interfaces/OpenBLAS/BlasInterface_OpenBLAS.cpp: 13-930","src/Interfaces/IntelMKL/BlasInterface_IntelMKL.cpp: 20-966","include/BlasBooster/BlasInterface/FunctionList.yml"])
p("BLAS signatures",
 "Every routine of the BLAS (levels 1 to 3) is available through the interfaces exactly once, with the result type and the number, order, types and constness of parameters of the BLAS reference; declarations, definitions and the prototypes they call agree; a routine's tag reports its own name.",
 "all routines of the reference and all entries of the interfaces",
 "A prototype that disagrees with the library links and fails only at run time on some platforms.",
 ["include/BlasBooster/BlasInterface/Blas.h","include/BlasBooster/BlasInterface/IntelMKL_SpBlas.h","include/BlasBooster/BlasInterface/FunctionTypes.h","include/BlasBooster/BlasInterface/BlasInterface_OpenBLAS.h","include/BlasBooster/BlasInterface/BlasInterface_IntelMKL.h"])
p("Complex dot products",
 "cdotc, cdotu, zdotc and zdotu through the interfaces return the dot product of the given vectors and change nothing, whichever convention the linked library uses for complex results.",
 "all vectors, lengths, increments, both interfaces and both calling conventions",
 "Depends on the ABI of the linked library, which tests on one platform fix.",
 ["src/Interfaces/OpenBLAS/BlasInterface_OpenBLAS.cpp: 937-967","src/Interfaces/IntelMKL/BlasInterface_IntelMKL.cpp: 968-998"])
p("Number of BLAS threads",
 "After any history of thread settings, each library uses the number last asked of it, MKL no longer changes it dynamically, and setting one library leaves the other alone.",
 "all numbers and all histories of calls",
 "All histories.",
 ["src/Interfaces/OpenBLAS/BlasInterface_OpenBLAS.cpp: 8-11","src/Interfaces/IntelMKL/BlasInterface_IntelMKL.cpp: 14-18"])
p("Programs over matrix variables mean what they say",
 "Any program that declares, copies, moves, assigns, resizes, fills, adds, subtracts, multiplies, transposes, exchanges and destroys dense matrices computes for every variable the matrix its mathematical reading gives, without crash, exception or leak, whichever variables occur on both sides of a statement; sums and products that do not fit and elements outside a matrix are reported by an assertion.",
 "all programs of any length over any number of variables, all dimensions and element types",
 "The interplay of statements (aliasing, temporaries, stale members after swap or move) is a property of all histories.",
 [I+"DenseMatrix.h: 198-221, 287-295, 336-349, 663-697, 712-722",I+"BinaryFunctors.h: 141-171, 325-344, 450-467",I+"MatrixMultExp.h: 29-50",I+"Transposition.h: 8-32",I+"Storage.h: 294-500",I+"Multiplication_Native.h: 19-53"])
p("Product expressions are evaluated when they are used",
 "auto p = y * z; ...; x = p; has exactly the effect of x = y * z; in the second place: it uses what y and z contain then, not when the expression was written; the expression does not keep its operands alive.",
 "all programs between the two statements, all states before",
 "Quantifies over everything that can happen between writing and using the expression.",
 [I+"MatrixMultExp.h: 29-50, 191-194",I+"DenseMatrix.h: 663-668"])
p("Moved-from matrices",
 "A matrix that was moved from can be used like an empty one: it reports no elements and can be resized, added to, assigned, exchanged and destroyed.",
 "all programs that move a matrix and then use it",
 "Continuations after a move are unbounded.",
 [I+"DenseMatrix.h: 200-221, 689-697",I+"Dimension.h: 42-129",I+"Storage.h: 365-371, 390-405"])
p("Storage kinds do not influence the rounding",
 "Adding or multiplying the same matrices gives bit for bit the same elements (up to the sign of zero), whether each operand is stored dense, sparse or as zero matrix, and for blocked matrices whatever the kinds of the blocks: zeros that a sparse format skips never change a rounded result, and every element is accumulated in increasing order of the inner index.",
 "all matrices, all combinations of storage kinds, every arithmetic with x + 0 = x and x * 0 = 0 (nothing else: no associativity, no distributivity)",
 "Quantifies over all matrices and all roundings; the summation order decides bits that tests compare with tolerances.",
 [I+"Multiplication_Native.h: 19-53, 107-318",I+"BinaryFunctors.h: 141-322"])
p("Rounding error of sums and products",
 "With rounding arithmetic of unit roundoff u (2^-53 for double, 2^-24 for float, without overflow and underflow) a sum of two matrices of any kinds is rounded once, and a product with inner dimension k differs from the exact product by at most ((1+u)^k - 1) times the product of the absolute values, or ((1+u)^(k+3) - 1) if two-part matrices are involved.",
 "all matrices of all kinds and sizes, all rounding rules to nearest",
 "A bound on the worst case over all matrices.",
 [I+"Multiplication_Native.h: 19-53, 154-318",I+"BinaryFunctors.h: 141-322",I+"MatrixMultExp.h: 28-148"])
p("Rounding error of the blocked product",
 "The product of two blocked matrices with b inner blocks of at most K rows differs from the exact product of what the operands stand for by at most ((1+u)^(K+b+2) - 1) times the product of the absolute values, whatever the runtime types of the blocks.",
 "all partitions, all runtime types of blocks, all elements, all rounding rules to nearest",
 "A bound on the worst case over all matrices, partitions and block types.",
 [I+"Multiplication_Native.h: 107-152",I+"MatrixMultExp.h: 28-148",I+"DenseMatrix.h: 524-561"])
p("Blocking does not change the result",
 "Multiplying blocked matrices gives bit for bit the matrix that multiplying the unblocked matrices gives.",
 "all matrices, all partitions, all rounding arithmetic",
 "Holds or fails depending on elements and partition.",
 [I+"Multiplication_Native.h: 19-53, 107-152"])
p("Element types and storage of results",
 "The element type and the storage of a product, sum or difference are determined by the runtime types of the operands alone: double as soon as an operand that is not a zero matrix is double, float otherwise; a product with a zero matrix is a zero matrix and a sum with a zero matrix keeps the other operand's type; dense as soon as one operand is dense. Results of blocks stay in the list of block types.",
 "all operands of all runtime types, sizes and elements",
 "Quantifies over all operands; the type of a result is computed by a chain of overloads that tests only sample.",
 [I+"MatrixMultExp.h: 28-148",I+"BinaryFunctors.h: 443-590",I+"DynamicMatrixTypeList.h: 27-35",I+"Multiplication.h: 19-21"])
p("Precision in which elements of results are computed",
 "If both operands are float, every element of their product or sum is the one float arithmetic gives, accumulated in increasing order of the inner index. If an operand is double, every element is the one double arithmetic gives on the operands widened to double: float elements are never multiplied, added or subtracted in float first. Differences are computed in the same precisions (operand combinations whose difference is wrong: C65).",
 "all operands of all mixtures of float, double, dense, sparse and zero, all rounding arithmetic",
 "Quantifies over all elements and roundings; a premature rounding changes only low bits.",
 [I+"Multiplication_Native.h: 19-53, 154-318",I+"BinaryFunctors.h: 141-322, 443-590"])
p("Error of the mixed precision product",
 "In the product of blocked matrices whose blocks are float, double or two-part, an element differs from the exact product by at most ((1+ud)^N - 1) times the product of the absolute values plus ((1+uf)^N - 1) times the product of the absolute values of the float parts, with N = inner block size + number of inner blocks + 2: the large error of float is charged only to products of two float parts.",
 "all partitions, all runtime types of blocks, all elements, all rounding rules to nearest",
 "A bound on the worst case over all matrices, partitions and block types.",
 [I+"Multiplication_Native.h: 107-152",I+"MatrixMultExp.h: 28-148",I+"BinaryFunctors.h: 443-590"])
p("Conversion to mixed precision keeps large elements exactly",
 "A block is converted to the first type of the type list whose occupation limits are met, and the double and float parts of the new block hold what the thresholds prescribe for that type. With the default occupation policy, cutting a double matrix into blocks and assembling it again returns every element exactly, rounded to float, or as 0; the latter two happen only to elements not larger than the single precision threshold in absolute value.",
 "all matrices, all partitions, all thresholds with 0 <= double threshold < single threshold, all occupation limits of the kind of the default ones",
 "Quantifies over all elements and all settings.",
 [I+"MatrixConverter.h: 40-330",I+"DynamicMatrixTypeList.h: 27-35",I+"Threshold.h: 16-36"])
p("Error of the whole pipeline in float and double",
 "Cutting two double matrices into blocks, converting every block to the best type, multiplying and assembling gives a result whose error is at most sigma * sum(|a| + (1+uf)|b|) + ((1+ud)^N - 1)(1+uf) * sum |a||b| + ((1+uf)^N - 1)(1+uf)^2 k sigma^2, with sigma the single precision threshold, N = inner block size + number of inner blocks + 2, k the inner dimension, uf = 2^-24 and ud = 2^-53.",
 "all matrices, all partitions, all thresholds with 0 <= double threshold < single threshold, occupation limits of the kind of the default ones",
 "A bound on the worst case over all matrices, partitions and settings.",
 [I+"BlockedMatrixGenerator.h: 24-120",I+"MatrixConverter.h: 40-330",I+"Multiplication_Native.h: 107-152",I+"DenseMatrix.h: 524-561"])
p("Expressions over dynamic matrices",
 "An expression of sums and products over matrices of any runtime types, with matching dimensions, evaluates without fault to a matrix of the type the operand types determine; each element differs from its value in exact arithmetic by at most ((1+u)^N - 1) times the value of the expression on absolute values, where N counts the roundings and u is 2^-24, or 2^-53 if every sum has a double term and every product a factor with double elements only. Without rounding it is exact; two expressions equal in exact arithmetic differ by at most the sum of their bounds.",
 "all expression trees of any depth over dense, sparse, zero and two-part matrices of float and double elements of any sizes",
 "Quantifies over all expressions, sizes, element values and mixtures of runtime types.",
 [I+"BinaryFunctors.h: 141-322, 443-613",I+"MatrixMultExp.h: 28-183",I+"Multiplication_Native.h: 19-53, 154-318"])
p("Operands with mismatched dimensions are rejected",
 "A product, sum, difference or in-place sum of matrices whose dimensions do not match never yields a result: an assertion stops the program.",
 "all operands of all kinds (dense, sparse, zero, two-part, blocked), all sizes and elements",
 "A claim about every pair of mismatched operands of every pair of kinds.",
 [I+"BinaryFunctors.h: 141-344",I+"Multiplication_Native.h: 19-53, 107-152, 154-318"])
p("Use from several threads",
 "Any number of threads may call const member functions (element access, norm and occupation queries) of shared matrices, and compute products into separate targets, without data races; every call returns what it returns when the thread runs alone.",
 "all numbers of threads, all programs of these calls, all interleavings, all matrices",
 "Quantifies over all schedules; a data race is undefined behaviour even when tests happen to see correct results.",
 [I+"NormPolicy.h: 20-52",I+"OccupationPolicy.h: 17-58",I+"Tracker.h: 76-117",I+"Multiplication_Native.h: 19-53"])
p("Rounding error of norms and deviations",
 "Computed in double arithmetic, the 1-norm of a matrix with n elements is the true value up to n roundings, the square of the 2-norm the sum of squares up to n+3 roundings (n+5 for a two-part matrix, K+b+8 for b blocks of at most K elements), the maximum norm is exact (one rounding for a two-part matrix), the maximal deviation of two dense matrices has one rounding, the square of the root mean square deviation n+6. N roundings are a relative error of at most N u/(1-N u) with u = 2^-53. A computed norm is never negative and is 0 exactly for the zero matrix.",
 "all matrices of all kinds and element types, all sizes, all element values without overflow or underflow",
 "A bound on the worst case over all matrices and summation lengths.",
 [I+"Norm.h: 19-182",I+"StatisticalErrorInformation.h: 5-29"])
p("Running out of memory",
 "When an allocation fails, the exception leaves everything usable: the failed operation has had no effect, no memory is lost or freed twice, and the program can go on with, or destroy, all its objects.",
 "all histories of constructions, copies, moves, assignments, swaps, resizes, loads and destructions of storages, dense and sparse matrices; every allocation may fail or succeed",
 "Quantifies over all crash points (failing allocations) in all histories.",
 [I+"Storage.h: resize 365-371, copy assignment 373-388, load 485-491, constructors 304-359",I+"Memory.h: 7-22",I+"SparseStorage.h: 100-119",I+"DenseMatrix.h: 211-221, 341-349, 689-697"])
p("Sizes at the limits of the integer types",
 "For all dimensions that are values of the index type, a matrix is constructed or resized with as many elements as its dimensions say, or an exception is thrown; every element with indices in range has its own cell. Negative or too large indices are rejected.",
 "all dimensions and indices of the index types size_t and int, all histories of resizes, writes, reads and fills",
 "Quantifies over all dimensions up to 2^64; the failing ones are too large to be tested.",
 [I+"DenseMatrix.h: 341-366, 689-763",I+"Dimension.h: 42-129",I+"SparseMatrix.h: 165-173, 262-270",I+"Parameter.h: 18-40"])

p("Moving iterators forwards and backwards",
  "An iterator over the elements of a submatrix view can be moved with ++ and -- in any order: after every sequence of steps that stays between begin() and end() it refers to the element whose index is the number of ++ minus the number of --, and it equals end() exactly after the last element; in particular --(++it) and ++(--it) are it again, at end() as well.",
  "every window (number and length of columns, gap between them), every sequence of ++ and -- of any length, starting at begin(), rbegin() or end()",
  "The tests walk once forwards and once backwards over one window; turning round, and turning round at the end, is not tried.",
  ["include/BlasBooster/Core/StripedIterator.h:increment", "include/BlasBooster/Core/StripedIterator.h:decrement", I+"Storage.h:begin/end/rbegin/rend (striped)"])
p("Storages that hold their elements in place are values",
  "Storages on the stack and fixed-size sparse storages behave as values: a new one holds zeros (or the listed numbers, a list that is too long being reported), a copy holds the numbers of its source, an assignment makes the target hold the numbers of the source, a write changes one number of one storage; == compares the numbers. A matrix declared to live on the stack has room for its elements.",
  "every size, every program of constructions, copies, assignments (self-assignment included), writes and destructions over any number of variables",
  "The test file exercises heap storages only; that an assignment is ignored shows only in a history with a later read.",
  [I+"Storage.h:Storage (OnStack)", I+"SparseStorage.h:SparseStorage (fixed size)", I+"Parameter.h:OnStack"])
p("Regenerating the BLAS interface",
  "Running the code generator on any function list yields, for every function of the lists and in their order, its tag type, the prototype of the library routine, and declaration and definition of the call operator, which has one parameter per argument under pairwise different names and passes all of them in order to the routine of the same name; nothing else in the files depends on the lists, and regenerating from the templates reproduces the committed sources.",
  "every function list: any number of functions, any names, return types and argument lists",
  "The generator is run by hand on one list; what it does with another list (no arguments, new complex dot products, extra lists) is not tested.",
  ["python/jinja_code_generator.py", "include/BlasBooster/BlasInterface/*.pre", "src/Interfaces/*/*.cpp.pre", "include/BlasBooster/BlasInterface/FunctionList.yml"])

p("Programs over dynamic matrices",
"A program over variables of type DynamicMatrix (creation, copies, sums, differences, executed products, += and -=, products stored in a variable and executed later, reset) means what it says, with reference semantics: a copied variable refers to the same matrix, += and -= change the matrix for all variables that refer to it and for no other, results of +, - and * are matrices of their own, a stored product uses its variables as they are when it is executed.",
"all programs of any length over any number of variables, all matrices of all kinds and sizes, all patterns of sharing between variables",
"Quantifies over all programs and all aliasing between variables.",
[I+"DynamicMatrix.h: 11",I+"BinaryFunctors.h: operators on DynamicMatrix 592-668, two-part operands 488-590",I+"MatrixMultExp.h: 142-183"])
p("Printed dynamic matrices",
"Printing a sequence of dynamic matrices to one stream writes their texts one after the other: for a null pointer a message, for a dense matrix its lines, for a sparse matrix its dimensions and its arrays, for a zero matrix its number of elements and dimensions, for a two-part matrix the texts of both parts; the text of each does not depend on what was printed before.",
"all sequences of matrices of any length, all kinds, element types, sizes and values, all states of the stream",
"Quantifies over all print histories of a stream and all matrices.",
[I+"MatrixIO.h: operator << for Matrix, MultipleMatrix, DynamicMatrix 38-200",I+"ZeroMatrix.h: resize 97-104, name 76"])
p("Queries in programs over dynamic matrices",
"In any program over shared dynamic matrices, the number of rows, of columns, of elements and the norm of a variable, asked for at any moment and through any variable that refers to the matrix, are those of the contents the matrix has at that moment; whether the norm is larger than a bound is answered accordingly.",
"all programs of constructions, copies of pointers, sums, differences, products, stored products, in-place operations and queries, of any length and order, all matrices of all kinds",
"Quantifies over all histories of statements and queries; the norm is remembered inside the matrix, which several variables share.",
[I+"DynamicMatrixFunctions.h: getNbRows, getNbColumns, getSize, getNorm, isNormLargerThan 10-116",I+"NormPolicy.h: getNorm, isNormLargerThan 20-52",I+"BinaryFunctors.h: dynamic operators 592-668",I+"MatrixMultExp.h: dynamic product 142-183"])
p("Norms and occupations of computed matrices",
"The norm and the number of significant elements that a matrix computed as a sum, difference or product answers are those of its own contents, whatever had been asked of its operands before.",
"all programs of constructions, copies, moves, assignments, changes, queries, sums, differences and products of dense, sparse and zero matrices, of any length and order; all value checkers",
"Quantifies over all histories of queries before a computation: the operands carry hidden caches which some computations copy into the result.",
[I+"BinaryFunctors.h: BinaryOperationFunctor 142-322, operator +, - 457-484",I+"NormPolicy.h: getNorm 20-46",I+"OccupationPolicy.h: getNbOfSignificantElements 17-28",I+"DenseMatrix.h: copy and move 197-221"])
p("Comparing matrices with ==",
"operator == says whether two matrices are equal: matrices with the same dimension and the same elements compare equal, in particular a matrix and its copy; matrices that compare equal have the same dimension and elements; == is an equivalence relation and != is its negation.",
"all histories of constructions, copies, moves, assignments, resizes, writes and destructions of any number of dense or sparse matrices, owning their memory or not",
"Quantifies over all histories: the answer depends on who owns the memory, not on the values a test would choose.",
[I+"Storage.h: operator == 213-215, 414-419",I+"DenseMatrix.h: operator ==, != 239-245",I+"SparseStorage.h: operator == 121-127",I+"SparseMatrix.h: operator == 118-120"])
p("Text of the benchmark tables",
"The benchmark program writes a heading and then, in order, one line for every pair of matrices and every action: number of the pair, name, time with the requested number of digits, the two norms, the parts of the time; the fields of a line can be read off by splitting it at blanks; the option for the digits of times affects nothing but times; when an action fails the lines before it are complete; the table of the tracker has one row per operation used, with name, count and time.",
"all numbers of matrices and actions, all names, times, norms and details, all numbers of digits, all failures at any action, all states of the output stream",
"Quantifies over all results, names and options and over the hidden state of the output stream, which one output leaves to the next.",
["src/Benchmark/benchmark.cpp: main 64-137","src/Benchmark/time.cpp: operator << 5-19","src/Benchmark/time.h: duration_accuracy","src/Benchmark/ActionBase.h: operator << 26-30","include/BlasBooster/Utilities/Tracker.h: TrackerRegister::print 82-100"])
p("Infinities and NaN",
"Infinities and NaN in a matrix are not lost or hidden: conversions between kinds keep them, norms and deviations of a matrix that contains NaN are NaN, a matrix is equal to its copy, sums and products follow the IEEE rules whatever the kinds of the operands.",
"all matrices of all sizes with any mixture of finite numbers, infinities and NaN, any rounding and overflow of the finite arithmetic, all value checkers and thresholds",
"Quantifies over all placements of special values and all roundings; a test chooses a few matrices, usually finite ones.",
[I+"AbsoluteValueRangeChecker.h: operator() 60-64, 103-108, 149-154, 195-200",I+"DenseMatrix.h: conversion of windows 479-497, equal 247-258",I+"EqualWithinNumericalAccuracy.h: 17-21",I+"StatisticalErrorInformation.h: 5-29",I+"Norm.h: NormOne, NormTwo, NormMax 36-138",I+"Multiplication_Native.h: 107-280",I+"MatrixConverter.h: convert"])
p("Operations use exactly the stored elements",
"Whatever the arithmetic of the element type, even if no law at all holds for + and *, every element of a product is the sum, accumulated from left to right from 0, of the products of those pairs of elements that both operands store: a dense matrix stores all elements, a sparse one those that the value checker accepted, a zero matrix none. In the same way a sum (for a commutative +), a difference (except Sparse - Dense and Zero - M, see C65) and an in-place operation combine two elements only where both operands store one, and where only one operand stores an element take it over unchanged (negated for the subtrahend of a difference), so that for example -0 survives the addition of a zero matrix but not of a dense matrix of zeros.",
"all element types with any +, - and *, all sizes, all combinations of dense, sparse and zero operands, all sets of stored elements",
"Quantifies over all arithmetics and all sparsity patterns; a test fixes the element type and a few patterns, and with finite numbers cannot see whether an element that is not stored takes part.",
[I+"Multiplication_Native.h: operator() 65-105, 154-280",I+"BinaryFunctors.h: 141-344",I+"ZeroMatrix.h: 11-104",I+"SparseMatrix.h: constructors from dense matrices"])
p("Programs over matrices of all kinds",
"Any program that creates dense, sparse and zero matrices, changes elements, converts between the kinds, copies, adds, subtracts, adds and subtracts in place, multiplies, transposes and destroys them in any combination of kinds runs without failure; every variable then has the type that the combination of operand types promises, its dimension, and exactly the stored elements that the operations give; over a ring its elements are those of the mathematical reading of the program, whatever types the variables have. Outside the claim: what the library refuses or gets wrong (in-place operations on sparse and zero matrices, Sparse - Dense and Zero - M, transposing sparse matrices without rows).",
"all programs of any length, all sizes, all value checkers, all element types with a commutative + (no other law for the first part), all combinations of kinds and of coinciding variables",
"Quantifies over all programs and arithmetics; a test runs a few statements on chosen matrices.",
[I+"BinaryFunctors.h: 141-486",I+"Multiplication_Native.h: operator() 19-318",I+"Transposition.h: transpose",I+"SparseMatrix.h: constructors 184-225",I+"DenseMatrix.h: constructors 341-349, 591-650, operator() 712-722",I+"ZeroMatrix.h: 85-104"])
p("Programs over sparse matrix variables",
"Any program that creates, resizes, copies, moves, assigns, adds, subtracts, multiplies, transposes, exchanges and destroys sparse matrices in any order, with operands and targets that may coincide, runs without undefined behaviour, exception or failed assertion as long as it only uses matrices that are alive, have contents and fit; every variable then has the dimension and exactly the stored elements of the mathematical reading of the program; operands that do not fit are stopped by an assertion; when all variables are destroyed no array of values, keys or offsets is left.",
"all programs of any length over any number of variables, all sizes, all value checkers and sets of stored elements, any arithmetic",
"Quantifies over all programs: memory is shared, moved and released by three storages per matrix and by temporaries that no test sees.",
[I+"SparseMatrix.h: 62-133, 158-270",I+"SparseStorage.h: 85-176",I+"Storage.h: variable size 240-420",I+"BinaryFunctors.h: 173-250, 450-477",I+"Multiplication_Native.h: Sparse * Sparse 154-205",I+"Transposition.h: 34-92"])
p("Sizes and moved-from sparse matrices",
"After any program a sparse matrix reports rows times columns as its size and converts to a dense matrix with its elements; a matrix that was moved from can be used again.",
"all programs over sparse matrices of any length, all sizes, all sets of stored elements",
"Quantifies over all histories of exchanges and moves; a test converts or reuses matrices after a few of them.",
[I+"SparseMatrix.h: swap 126-133, move 84-105, resize 262-270",I+"DenseMatrix.h: conversion 591-615",I+"Dimension.h: 40-75"])
p("Storages of fixed size keep their elements and their memory",
  "For any program over storages of fixed size (on the heap): every storage reads exactly the elements it was given, copies are independent of their sources, moves and swaps carry the elements over, constructors and loads with too few or too many elements are reported, no memory is freed twice or used after it was freed, memory of the caller is never freed, and once all storages are destroyed nothing is left allocated.",
  "all programs of constructions, copies, moves, assignments, swaps, writes, loads and destructions over any number of storages, all sizes",
  "a property of every history; memory errors show only for particular interleavings of moves, assignments and destructions",
  [I+"Storage.h: Storage<T,false,true,Size,false>"])

p("Programs that mix dense and sparse matrix variables",
"Any program over dense and sparse variables (all statements of the two languages, conversions in both directions, dense ± sparse, sparse + dense, in-place operations of a dense with a sparse matrix, products of all combinations, and product expressions of all combinations that are written down and used later) runs without undefined behaviour, exception or failed assertion as long as it only uses matrices that are alive, have contents and fit; every variable then has the dimension and the elements (stored elements) of the mathematical reading; a stored product expression is evaluated with the values its operands have when it is used, and using it after an operand is gone is undefined behaviour; operands that do not fit are stopped by an assertion; when all variables are destroyed no memory is left.",
"all programs of any length over any number of variables of both kinds, all sizes, all value checkers and sets of stored elements, any arithmetic with a commutative +",
"Quantifies over all programs: aliasing of operands and targets, temporaries and deferred evaluation across kinds; a test runs a few statements.",
[I+"DenseMatrix.h: 198-221, 591-615, 663-668",I+"SparseMatrix.h: 62-133, 184-270",I+"BinaryFunctors.h: 253-292, 356-377, 450-486",I+"Multiplication_Native.h: 207-280",I+"MatrixMultExp.h: 28-52, 191-194",I+"Storage.h: variable size"])

p("Sparse matrices constructed with a filler",
  "A sparse matrix constructed with a filler holds the filler's value in every element: with ContinuousNumberFiller it stores every element, numbered in storage order like the dense matrix of the same orientation; with AllFiller(x) every element is x; whatever capacity was requested.",
  "all dimensions, orientations, capacities and values",
  "Tests construct one small column-major matrix; capacities below rows*columns, row-major non-square shapes and reading back an all-filled matrix are not exercised, and a write past the key array can go unnoticed.",
  [I+"MatrixFiller.h ContinuousNumberFiller, AllFiller", I+"SparseMatrix.h Matrix(nbRows,nbColumns,nbSignificantElements,filler)"])

p("Variables that are submatrix views",
"In any program over matrices and submatrix views, a view that is constructed, copied, moved or assigned is bound to a window: reading v(i,j) and iterating over v give the elements of the window, writing through a view or filling it with a number changes exactly those elements of the matrix and is seen by every other view, assigning a view to a view rebinds it and changes no element, and two views are equal exactly when they are bound to the same window of the same matrix.",
"all programs of any length over any number of matrices and views, all windows with at least one element",
"Quantifies over all histories of bindings; a test binds a view once and reads it, and a view whose addressing was lost still has the right dimensions and iterates correctly.",
[I+"DenseMatrix.h: 197-221, 239-241, 421-436, 679-687, 712-741",I+"Dimension.h: LeadingDimension 133-147",I+"Storage.h: striped 503-650"])

p("Programs over blocked matrix variables",
"In any program that copies, moves, assigns, exchanges and multiplies blocked matrices, every variable that holds a value reports the rows and columns of the whole matrix and converts to the dense matrix of its elements.",
"all programs of any length over any number of variables, all partitions into blocks, all block types",
"Quantifies over all histories; whether the unblocked size survives depends on which constructor runs, which a compiler may elide.",
[I+"DenseMatrix.h: 197-221, 287-295, 524-561, 663-668",I+"Dimension.h: UnblockedDimension 151-177",I+"MatrixMultExp.h: 53-80",I+"Multiplication_Native.h: 107-152"])

p("Objects saved to files",
"writeXML and writeBinary either replace the file by the object or leave it as it was, also when the program is stopped during the call; with overwrite = false they never change a file that exists and report it; a load returns exactly the object that was saved last or reports a file that is absent or incomplete; programs that save at the same time leave one of the objects.",
"all histories of saves and loads, stopped at any point, and all schedules of any number of programs",
"Crash points and schedules: a test saves and loads once, in one program, without being stopped.",
["include/BlasBooster/Utilities/FileIO.h: readXML, writeXML, readBinary, writeBinary 13-52"])

p("Matrix files written by the generator program",
"generate_matrix exits with 0 exactly if it wrote the file, and then the file holds the matrix that was asked for (rows, columns, band width, value, type) column by column, no other file changed, and a matrix constructed from any description of the file holds the elements of the window described; a type it does not know, a file it cannot write and a description that does not fit are reported.",
"all options, all contents of the disk, all windows",
"Quantifies over all options and files: the program has no tests, and shapes that are not square take other paths.",
["src/Benchmark/generate_matrix.cpp: main 10-82",I+"DenseMatrix.h: construction by file 671-677",I+"MatrixFileIO.h: operator >> 24-54"])

p("The program that shows the pattern of a matrix",
"show_pattern exits with 0 exactly if it wrote the pattern file, and then the file holds the image of the matrix (type elements) or of the types of the blocks into which the block size generator splits it, each with a border of the width asked for (type type-blocks): every pixel has the colour of the first entry of the palette whose threshold does not exceed the absolute value shown, no other file changed; matrices that cannot be read, unknown types of pattern and contradictory block sizes are reported.",
"all options, settings, files and matrices",
"Quantifies over all options, matrices, palettes and settings: the program has no tests, and the block size generator fails for shapes nobody tried.",
["src/Benchmark/show_pattern.cpp: main 30-150",I+"PatternGenerator.h: 43-106",I+"BlockSizeGenerator.h: 55-93",I+"BlockedMatrixGenerator.h: 14-50",I+"GenerateTypeMatrix.h: 12-48"])

p("The whole benchmark program",
  "Given a settings file that describes as many matrices for set A as for set B (bands, copies of other sets, windows of data files) and names known actions, the program exits with 0 and prints one line per pair of matrices and action: pairs in the order of the sets, actions in the order of the settings. The line of action k for pair i shows i, the name, and the maximum norm and 2-norm of the difference between what action k and action 0 promise for the described matrices; with actions that compute in double precision both are 0. With --diff the differences are in files diff_0.dat, diff_1.dat, ... which can be read back as matrix files; no other file is touched, and without --diff none. Matrices written by the generator program can be used. Settings that are not valid, files that cannot be read or written are reported.",
  "all configurations, all contents of the disk, all matrices, all conforming BLAS routines, all numbers of repetitions",
  "tests run a few configurations; the claim connects every configuration with every file content and with the whole output",
  ["src/Benchmark/benchmark.cpp:29-138 main", "src/Benchmark/MatrixProvider.cpp:16-48", "src/Benchmark/ActionProvider.cpp:33-107", "src/Benchmark/Action_*.h", I+"DenseMatrix.h:671-677"])
p("The terminal of the benchmark program",
  "For every configuration and every outcome the text on standard output and standard error and the exit status are exactly determined: the greeting comes first; arguments that cannot be parsed give usage and the reason on standard error and status 1, a request for help gives usage on standard error and status 0, and neither reads or writes a file; with invalid settings the greeting is followed by the message and 'Program was aborted.', status 1, without a table; otherwise the header, one line per executed pair and action in order with duration, norms and details, and the farewell (status 0) or the message of the failure (status 1), where a line begun by a failing action stays unfinished. The words of the output can be read back as the rows of the table. Every problem leaves a trace on the screen or in the exit status.",
  "all arguments, configurations, contents of the disk, matrices, BLAS routines, clocks and formats of numbers",
  "the program has no tests; the claim ranges over every configuration and every point at which an action can fail",
  ["src/Benchmark/benchmark.cpp:29-138 main", I+"Tracker.h", "src/Benchmark/Action_*.h"])
p("Every limit in the settings governs its own type",
  "A block becomes the first type of the list for which the share of elements above the double-precision significance is at most the double-precision limit that the settings name for this type, and the share of those above the single-precision significance at most its single-precision limit. Changing the limits of one type moves blocks only to or from this type and leaves the contents of all others unchanged.",
  "all settings with dense double allowed, all blocks",
  "sixteen limits with the same type, copied by hand into sixteen specialisations: a test with the defaults cannot see an exchanged name, and the suite does not call the getters",
  [I+"Threshold.h: ThresholdSettings 16-36, OccupationThresholdDistributor 98-181", I+"MatrixConverter.h: IsConvertible 13-25"])
p("The terminals of the pattern program and the generator",
  "For every run of show_pattern and generate_matrix that ends, the text on standard output and standard error and the exit status are exactly determined: the greeting; for show_pattern the name of the matrix file, for type blocks the matrix of the types and the matrix of the dimensions of the blocks, readable as words, and always the elapsed time; then the farewell (status 0) or the message of the failure and 'Program was aborted.' (status 1). Arguments that cannot be parsed and requests for help write only the usage on standard error and touch no file. Every problem leaves a trace on the screen or in the exit status.",
  "all arguments, options, settings, files, matrices and outcomes",
  "the programs have no tests; the claim ranges over every point at which a run can fail and every matrix of blocks",
  ["src/Benchmark/show_pattern.cpp:30-150 main", "src/Benchmark/generate_matrix.cpp:10-82 main", "include/BlasBooster/Utilities/ScopedTimer.h:23-28", I+"MatrixIO.h:38-91"])
p("Cursors moved forwards and backwards",
  "Row and column cursors that are moved with ++ and -- any number of times stand at the row or column counted; an inner cursor obtained from begin() or end() and moved likewise reads and writes exactly the element of the matrix or submatrix at the counted place; two cursors on a line are equal exactly if they stand at the same place, and equal end() exactly after as many steps as there are elements; going along rows or along columns reaches the same element. Major and Minor name the directions across and along the storage order.",
  "all matrices and submatrices of both orientations, all sequences of steps",
  "the library's loops only step forwards and the suite has no test of the cursors; overloads are selected by orientation and direction, sixteen combinations",
  [I+"Cursor.h", I+"CursorBase.h", I+"StridedCursorBase.h", I+"Direction.h"])
p("Subscripts of cursors",
  "c[n] reads and writes the element n places further along the line of the cursor.",
  "all matrices and submatrices of both orientations, all cursors and places",
  "no test uses the operator; it is right for one orientation of each direction",
  [I+"Cursor.h: operator [] 202"])
p("Pattern images can be read back",
  "A program that reads XPM files gets from every pattern file the width, the height and for every pixel the colour of the first entry of the palette whose threshold does not exceed the absolute value of the element, else the background colour.",
  "all palettes, all matrices and submatrices of any size, all images written by show_pattern",
  "The generator has no tests; whether the text is a well-formed image depends on quotes, commas and counts at every border case (no rows, one row, no palette), and on every palette.",
  [I+"PatternGenerator.h: 43-106","src/Benchmark/show_pattern.cpp: main 30-150"])
p("Programs that are stopped while they write a file",
  "generate_matrix and show_pattern that are stopped at any point change no other file; their own file is as it was or holds a beginning of what they would have written, and all of it if they are not stopped. After any number of stopped runs, a run that is not stopped leaves the files as if nothing had happened before. Whatever reads such a file afterwards gets the complete matrix or image, or reports that the file is incomplete.",
  "all points at which the programs can be stopped, all options, settings, matrices and contents of the disk",
  "crash points: a test lets the programs run to the end",
  ["src/Benchmark/generate_matrix.cpp:43-64", "src/Benchmark/show_pattern.cpp:65-132", I+"PatternGenerator.h: 43-106", I+"MatrixFileIO.h:24-54", "src/MatrixFactory/MatrixFileImporter.cpp:18-30"])

p("The Python module",
  "A Python Matrix made from an array holds the elements of the array; + and * of two such matrices give matrices that hold the sum and the product; names that are bound to the same matrix, rebound or deleted do not change this, and objects of other types are rejected with an exception.",
  "all Python programs that make, bind, delete, add, multiply and print matrices in any order",
  "histories of a program; the binding has no tests",
  ["src/PythonBinding/matrix.cpp:9-34", I+"DynamicMatrix.h:10", I+"BinaryFunctors.h:592-612", I+"MatrixMultExp.h:150-183", "include/BlasBooster/Utilities/exec_dyn_2dim.h:35-39"])

p("Comparing occupation and norm with a limit",
  "isOccupationLargerThan(v, checker) is true exactly if more than v*rows*columns elements of the matrix are accepted, isOccupationSmallerThan exactly if fewer are; isNormLargerThan and isNormSmallerThan compare the norm; never are both true; a dense, sparse, zero or two-part matrix with the same elements gives the same answers.",
  "all matrices of all formats, all limits and checkers",
  "the suite asks a few matrices with one threshold; the formats are implemented separately",
  [I+"OccupationPolicy.h: 30-49", I+"NormPolicy.h: 20-46", I+"ZeroMatrix.h: 107-150", I+"MultipleMatrix.h: 68-99", I+"Occupation.h: 9-25"])

p("A benchmark program that is stopped",
  "A benchmark program with --diff that is stopped at any point changes no file but diff_0.dat, diff_1.dat, …. There is one number t: the files of the factors before t are as a run that is not stopped leaves them, those after t are untouched, and that of the factors t is untouched or holds a beginning, column by column, of the difference of the results of some action and the first action. A difference that is complete may be that of any action, not only the last, so a reader cannot tell. After any number of stopped runs, a run that is not stopped prints the same table, exits with the same status and leaves the same files as if nothing had happened before, if the configuration reads none of these files.",
  "all points at which the program can be stopped, all configurations, actions, matrices, contents of the disk, and numbers of stopped runs before",
  "Crash points and histories: a test runs the program to its end, on an empty directory.",
  ["src/Benchmark/benchmark.cpp: main", "src/Benchmark/ActionProvider.cpp", "src/Benchmark/MatrixProvider.cpp"])

p("Programs that write files at the same time",
  "Any number of programs that write files at the same time, in any schedule in which all of them end, leave every file as if they had run one after the other in some order; a file that none of them writes is as before; every program ends when it has got one step per element, one for opening and one for closing its file, whatever the others do.",
  "all schedules, any number of programs, all options of generate_matrix, all contents of the disk",
  "Schedules: a test runs one program at a time, in its own directory.",
  ["src/Benchmark/generate_matrix.cpp: main 43-64", "src/Benchmark/benchmark.cpp: 111-114"])

p("Programs on a disk that is full",
  "generate_matrix, show_pattern and benchmark --diff either write every file completely or report that they could not, whatever room there is on the disk: success on the terminal and exit status 0 mean that the files are complete. Whoever reads an incomplete file afterwards is told.",
  "all amounts of room, all options, settings, configurations, matrices and contents of the disk",
  "Failures of the environment: a test runs on a disk with enough room.",
  ["src/Benchmark/generate_matrix.cpp: main 63-64", "src/Benchmark/benchmark.cpp: 111-114", "include/BlasBooster/Core/PatternGenerator.h: operator () 47-106"])

with open('/verif/properties.jsonl','w') as f:
    for x in P: f.write(json.dumps(x)+"\n")
print(len(P))
