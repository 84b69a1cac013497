{"id": "C01", "title": "Element addressing is a bijection", "statement": "For a dense matrix of any size and either orientation, operator()(i,j) of an in-range pair never touches memory outside the matrix' own storage, two different pairs never share a storage cell, and every storage cell belongs to some pair.", "quantifier": "all numbers of rows and columns, both orientations, all index pairs", "why_tests_cant": "Tests fix a handful of sizes; the claim is a bijection for every shape.", "anchors": ["include/BlasBooster/Core/DenseMatrix.h: getPosition, operator()", "include/BlasBooster/Core/Dimension.h: Dimension"]}
{"id": "C02", "title": "Element write is exact and local", "statement": "After M(i,j)=v, M(i,j) reads v and every other element M(k,l) reads what it read before.", "quantifier": "all shapes, both orientations, plain matrices and submatrix views, all index pairs, all values, all write histories", "why_tests_cant": "Quantifies over every write history and every shape.", "anchors": ["include/BlasBooster/Core/DenseMatrix.h: operator(), getPosition"]}
{"id": "C03", "title": "Submatrix view aliases exactly its window", "statement": "A column-major submatrix view (nbRows x nbColumns at (beginRow, beginColumn)) reads and writes exactly the parent elements (beginRow+i, beginColumn+j) and no other parent element, for every parent whose columns are contiguous (every plain column-major matrix; views of views in general are C59).", "quantifier": "all parents with contiguous columns, all windows inside the parent, all elements", "why_tests_cant": "Every window of every shape.", "anchors": ["include/BlasBooster/Core/DenseMatrix.h: submatrix constructor ColumnMajor (421-436), getPosition"]}
{"id": "C04", "title": "Storage iteration of a view visits every window element once", "statement": "Iterating begin()..end() of a submatrix view with at least one row and one column terminates, dereferences only window cells and yields every element of the window exactly once in column order; reverse iteration yields the same in reverse.", "quantifier": "all block lengths >= 1, block counts >= 1 and separators (empty windows are C63)", "why_tests_cant": "Iterator arithmetic must be right for every (length, count, gap).", "anchors": ["include/BlasBooster/Core/StripedIterator.h: increment, decrement", "include/BlasBooster/Core/Storage.h: strided Storage begin/end/rbegin/rend"]}
{"id": "C05", "title": "Cursor traversal equals index traversal", "statement": "Row and column cursors of a dense matrix or view visit, for a fixed row (column), exactly the elements (i,0..c-1) ((0..r-1,j)) in order, whatever the orientation.", "quantifier": "all shapes, orientations, leading dimensions and cursor directions", "why_tests_cant": "Eight cursor/orientation combinations over unbounded shapes.", "anchors": ["include/BlasBooster/Core/Cursor.h", "include/BlasBooster/Core/StridedCursorBase.h", "include/BlasBooster/Core/CursorBase.h"]}
{"id": "C06", "title": "Storage ownership is memory safe", "statement": "For any sequence of constructions, copies, moves, assignments, swaps, resizes and destructions of variable-size storages, no memory is freed twice, none is accessed after it was freed, memory of the caller is never freed, and no two objects own the same memory. (Leaks: C60.)", "quantifier": "all operation histories over any number of storages", "why_tests_cant": "Histories are unbounded; double frees depend on the interleaving of moves and copies.", "anchors": ["include/BlasBooster/Core/Storage.h: Storage<T,false,false,0> (294-500)"]}
{"id": "C07", "title": "Copies are independent values", "statement": "Copying (copy constructing or copy assigning) an owning storage yields equal elements, and later writes through either object never change what the other one reads.", "quantifier": "all owning storages, all later write histories", "why_tests_cant": "Independence is a statement about all later writes.", "anchors": ["include/BlasBooster/Core/Storage.h: copy constructor 330, copy assignment 374"]}
{"id": "C08", "title": "Move transfers contents", "statement": "After moving a storage into another, the target reads exactly what the source read before, the source is empty, and the source can be destroyed and assigned again. (Resizing it: C61.)", "quantifier": "all storages and continuations", "why_tests_cant": "Continuations after a move are unbounded.", "anchors": ["include/BlasBooster/Core/Storage.h: move constructor 338, move assignment 391"]}
{"id": "C09", "title": "Dense conversion preserves every element", "statement": "Constructing a dense matrix from a dense matrix of the same or of the other orientation yields the same dimensions and, at every index pair, the converted element.", "quantifier": "all shapes, orientations and contents", "why_tests_cant": "Needs every shape incl. non-square and empty ones.", "anchors": ["include/BlasBooster/Core/DenseMatrix.h: 455-477", "include/BlasBooster/Core/Transposition.h: transpose (dense)"]}
{"id": "C10", "title": "Dense transposition", "statement": "transpose(M) has swapped dimensions, its (j,i) element is M(i,j), it reads only initialised elements of M, and transposing twice gives back every element.", "quantifier": "all shapes, orientations and contents", "why_tests_cant": "All shapes.", "anchors": ["include/BlasBooster/Core/Transposition.h: 8-32"]}
{"id": "C11", "title": "Sparse to dense preserves every element", "statement": "Converting a valid sparse matrix to dense (same or different orientation) terminates without out-of-bounds access and yields, at every (i,j), the stored value or 0.", "quantifier": "all valid compressed matrices of any shape and fill, both orientations", "why_tests_cant": "All sparsity patterns.", "anchors": ["include/BlasBooster/Core/DenseMatrix.h: 591-641"]}
{"id": "C12", "title": "Dense to sparse keeps exactly the significant elements", "statement": "Converting a column-major dense matrix or submatrix view to sparse (of either orientation) with a value checker yields a structurally valid compressed matrix that stores exactly the elements accepted by the checker, each at its own (row, column), and nothing else.", "quantifier": "all shapes, contents and checkers, column-major sources, both target orientations (row-major sources: C62)", "why_tests_cant": "Depends on shape, content and orientation of the target.", "anchors": ["include/BlasBooster/Core/SparseMatrix.h: 183-224", "include/BlasBooster/Core/OccupationPolicy.h: getNbOfSignificantElements"]}
{"id": "C13", "title": "Sparse transposition", "statement": "transpose of a valid column-major (or square) sparse matrix with at least one row is a valid sparse matrix with swapped dimensions whose (j,i) element equals the (i,j) element of the argument.", "quantifier": "all valid column-major or square sparse matrices with a row, any number of stored elements (row-major: C62, no rows: C63, reported count: C64)", "why_tests_cant": "All sparsity patterns.", "anchors": ["include/BlasBooster/Core/Transposition.h: 34-87"]}
{"id": "C14", "title": "Thresholded dense-sparse-dense round trip", "statement": "dense (column-major) -> sparse (checker, either orientation) -> dense (either orientation) returns the original element where the checker accepts it and 0 elsewhere; with a checker that accepts all non-zero values the round trip is the identity.", "quantifier": "all shapes, contents and checkers", "why_tests_cant": "All contents.", "anchors": ["include/BlasBooster/Core/SparseMatrix.h: 183-224", "include/BlasBooster/Core/DenseMatrix.h: 591-615"]}
{"id": "C15", "title": "Blocked round trip", "statement": "Splitting a dense matrix into blocks along any row and column partition and converting the blocked matrix back to dense returns every element unchanged (when every block is kept dense).", "quantifier": "all shapes, all partitions of rows and columns", "why_tests_cant": "Partitions are unbounded.", "anchors": ["include/BlasBooster/Core/BlockedMatrixGenerator.h", "include/BlasBooster/Core/DenseMatrix.h: 524-561", "include/BlasBooster/Core/Copy.h"]}
{"id": "C16", "title": "Dense addition and subtraction", "statement": "A+B, A-B, A+=B, A-=B of dense matrices with equal dimensions and orientation are element-wise, read only A and B, and leave the right operand unchanged.", "quantifier": "all shapes, contents and orientations", "why_tests_cant": "All shapes/contents.", "anchors": ["include/BlasBooster/Core/BinaryFunctors.h: 141-171, 325-344"]}
{"id": "C17", "title": "Sparse addition and subtraction", "statement": "A+B and A-B of valid sparse matrices of equal dimensions and orientation (column-major, or square) are valid sparse matrices whose (i,j) element is A(i,j) (+/-) B(i,j).", "quantifier": "all sparsity patterns (reported number of stored elements: C64; other row-major operands: C62)", "why_tests_cant": "Merge of arbitrary sorted key lists.", "anchors": ["include/BlasBooster/Core/BinaryFunctors.h: 173-248"]}
{"id": "C18", "title": "Mixed dense/sparse addition and subtraction", "statement": "Dense+Sparse, Dense-Sparse, Sparse+Dense and Dense+=Sparse, Dense-=Sparse (column-major) produce A(i,j) (+/-) B(i,j) at every (i,j). (Sparse-Dense and in-place operators on sparse matrices: C65.)", "quantifier": "all shapes and sparsity patterns", "why_tests_cant": "All patterns; operand order matters for subtraction.", "anchors": ["include/BlasBooster/Core/BinaryFunctors.h: 250-293, 356-377"]}
{"id": "C19", "title": "Zero matrix is the additive identity", "statement": "M+Zero, Zero+M and M-Zero return M element-wise, and adding or subtracting a zero matrix in place changes nothing. (Zero-M: C65.)", "quantifier": "all matrices of all kinds", "why_tests_cant": "Ranges over all matrices.", "anchors": ["include/BlasBooster/Core/BinaryFunctors.h: 295-323, 389-421"]}
{"id": "C20", "title": "Unevaluated sums (multiple matrices) behave like their sum", "statement": "For a two-part matrix X that denotes X1+X2: X+B, B+X and X+Y denote the sums of the denoted matrices, D-X (D dense) and X-B (one part of X dense, or B sparse or zero and a part of X sparse) denote the differences, D+=X and D-=X act on the denoted sum, and converting X to dense yields X1+X2. (The remaining operators, X-Y, X+=B, X-=B: C65.)", "quantifier": "all operands, all contents", "why_tests_cant": "Algebraic identity over all contents.", "anchors": ["include/BlasBooster/Core/BinaryFunctors.h: 487-588", "include/BlasBooster/Core/MultipleMatrix.h"]}
{"id": "C21", "title": "Native dense product", "statement": "The native product of dense A (m x k) and B (k x n) terminates, reads no uninitialised or out-of-range element and yields the m x n matrix with C(i,j) = sum over l of A(i,l)*B(l,j), accumulated in increasing l, for column-major operands and result; it holds for k=0 (all zero).", "quantifier": "all m, k, n including 0, all contents (row-major operands: C62)", "why_tests_cant": "All shapes; loop nests with three running iterators.", "anchors": ["include/BlasBooster/Core/Multiplication_Native.h: 19-53", "include/BlasBooster/Core/Multiplication.h: 23-26"]}
{"id": "C22", "title": "Cursor-based dense product", "statement": "The cursor-based dense product yields C(i,j) = sum over l of A(i,l)*B(l,j) for every mix of orientations of A, B and C and for submatrix operands.", "quantifier": "all shapes, contents, orientations", "why_tests_cant": "All shapes.", "anchors": ["include/BlasBooster/Core/Multiplication_Native.h: 55-97"]}
{"id": "C23", "title": "Sparse-sparse product", "statement": "The product of two valid column-major sparse matrices is a valid sparse matrix whose elements are the exact row-by-column sums; no element is stored twice, no zero is stored and no write leaves the result storage.", "quantifier": "all sparsity patterns (reported number of stored elements: C64)", "why_tests_cant": "All patterns, including cancellation to zero.", "anchors": ["include/BlasBooster/Core/Multiplication_Native.h: 154-205"]}
{"id": "C24", "title": "Sparse-dense and dense-sparse products", "statement": "Sparse*Dense and Dense*Sparse (column-major) yield the dense matrix of exact row-by-column sums without out-of-range accesses.", "quantifier": "all shapes, sparsity patterns and contents", "why_tests_cant": "All patterns.", "anchors": ["include/BlasBooster/Core/Multiplication_Native.h: 207-280"]}
{"id": "C25", "title": "Zero matrix annihilates", "statement": "M*Zero, Zero*M and Zero*Zero are zero matrices with rows(left) rows and columns(right) columns, which convert to an all-zero dense matrix; non-conforming operands are rejected. (getSize() of the result: C47.)", "quantifier": "all operands of every kind", "why_tests_cant": "All dimensions.", "anchors": ["include/BlasBooster/Core/Multiplication_Native.h: 282-316", "include/BlasBooster/Core/ZeroMatrix.h"]}
{"id": "C26", "title": "Products of unevaluated sums", "statement": "A*(X1+X2), (X1+X2)*B and (X1+X2)*(Y1+Y2) computed part by part equal the product of the denoted sums.", "quantifier": "all operands", "why_tests_cant": "Distributivity over all contents.", "anchors": ["include/BlasBooster/Core/MatrixMultExp.h: 78-147"]}
{"id": "C27", "title": "Blocked product", "statement": "Multiplying two blocked matrices with matching inner partitions (at least one inner block) and converting the result to dense equals multiplying the two unblocked matrices, whatever the runtime type of each block.", "quantifier": "all shapes, partitions, block kinds and contents", "why_tests_cant": "Unbounded partitions and block kinds.", "anchors": ["include/BlasBooster/Core/Multiplication_Native.h: 107-152", "include/BlasBooster/Core/DenseMatrix.h: 524-561"]}
{"id": "C28", "title": "End-to-end block pipeline", "statement": "Computing block sizes for A and B, converting both to blocked matrices, multiplying and converting back yields rows(A) x columns(B) and differs from A*B only by the contribution of elements dropped under the significance thresholds; with all thresholds zero it equals A*B.", "quantifier": "all matrices, all block-size settings, all thresholds", "why_tests_cant": "Composition over all inputs.", "anchors": ["src/Benchmark/Action_blasbooster_block.h", "include/BlasBooster/Core/BlockedMatrixGenerator.h", "include/BlasBooster/Core/BlockSizeGenerator.h", "include/BlasBooster/Core/MatrixConverter.h"]}
{"id": "C29", "title": "Value-range checkers implement their intervals", "statement": "Each checker accepts exactly the values whose absolute value lies in its interval, and its constructor rejects negative and empty ranges.", "quantifier": "all thresholds and values", "why_tests_cant": "Real-valued thresholds.", "anchors": ["include/BlasBooster/Core/AbsoluteValueRangeChecker.h"]}
{"id": "C30", "title": "Splitting by significance loses and duplicates nothing", "statement": "For 0 <= sigD < sigF every value with |v|>sigD is accepted by exactly one of the two checkers (>sigF) and (sigD,sigF], and no value with |v|<=sigD by either; hence the two parts of a split matrix sum to the thresholded matrix.", "quantifier": "all thresholds, values and matrices", "why_tests_cant": "Real-valued thresholds, boundaries included.", "anchors": ["include/BlasBooster/Core/AbsoluteValueRangeChecker.h", "include/BlasBooster/Core/MatrixConverter.h"]}
{"id": "C31", "title": "Checker ordering is a strict weak order", "statement": "For the checkers with registered (double) threshold types, the order used to key cached occupations is irreflexive, transitive and treats two checkers as equivalent only if they accept the same values.", "quantifier": "all triples of checkers", "why_tests_cant": "An order axiom over all triples of real thresholds.", "anchors": ["include/BlasBooster/Core/AbsoluteValueRangeChecker.h: operator<", "include/BlasBooster/Core/OccupationPolicy.h: ValueCheckerLess"]}
{"id": "C32", "title": "Occupation counts and ratio", "statement": "The number of significant elements equals the number of accepted elements, the occupation of a non-empty matrix is defined, lies in [0,1] and is antitone in the threshold.", "quantifier": "all non-empty dense matrices, all sparse matrices without spare cells, all checkers (empty matrices: C63, spare cells: C64)", "why_tests_cant": "All contents.", "anchors": ["include/BlasBooster/Core/Occupation.h", "include/BlasBooster/Core/OccupationPolicy.h"]}
{"id": "C33", "title": "Occupation queries reflect the current contents", "statement": "Whatever sequence of writes, assignments and queries precedes it, getOccupation returns the occupation of the matrix as it is now.", "quantifier": "all histories of writes, assignments and queries", "why_tests_cant": "Cache staleness only shows on particular histories.", "anchors": ["include/BlasBooster/Core/OccupationPolicy.h", "include/BlasBooster/Core/DenseMatrix.h: 214-221"]}
{"id": "C34", "title": "Norm queries reflect the current contents", "statement": "Whatever sequence of writes, assignments and queries precedes it, getNorm returns the norm of the matrix as it is now.", "quantifier": "all histories of writes, assignments and queries", "why_tests_cant": "Cache staleness only shows on particular histories.", "anchors": ["include/BlasBooster/Core/NormPolicy.h", "include/BlasBooster/Core/DenseMatrix.h: 214-221"]}
{"id": "C35", "title": "Norm values", "statement": "NormOne, NormTwo and NormMax of a dense, sparse or two-part matrix are the entry-wise 1-, 2- and max-norm of the denoted matrix: non-negative, zero exactly for the zero matrix, and bounding every |element|.", "quantifier": "all matrices of every kind", "why_tests_cant": "All contents.", "anchors": ["include/BlasBooster/Core/Norm.h"]}
{"id": "C36", "title": "Conversion by significance bounds the error", "statement": "Whatever representation the converter selects for a matrix, each element of the result differs from the original by at most the significance threshold that governs that representation (plus storage rounding); no element above the threshold is lost.", "quantifier": "all matrices, thresholds and occupation limits", "why_tests_cant": "All contents; the selected representation depends on data.", "anchors": ["include/BlasBooster/Core/MatrixConverter.h", "include/BlasBooster/Core/Threshold.h"]}
{"id": "C37", "title": "Representation selection is the first match", "statement": "The runtime representation chosen for a non-empty matrix is the first in the priority order whose occupation conditions hold, exactly one conversion is executed, and the last (dense double) is a safe default.", "quantifier": "all non-empty matrices and threshold settings (empty ones: C63)", "why_tests_cant": "Data-dependent choice.", "anchors": ["include/BlasBooster/Utilities/exec_if.h", "include/BlasBooster/Core/MatrixConverter.h", "include/BlasBooster/Core/DynamicMatrixTypeList.h"]}
{"id": "C38", "title": "Dynamic dispatch reaches the operands' types", "statement": "For every pair of runtime matrix types, a dynamic operation invokes the implementation for exactly that pair, and type indices identify types uniquely.", "quantifier": "all type lists, all pairs of types", "why_tests_cant": "The dispatch table is type-list generic.", "anchors": ["include/BlasBooster/Utilities/exec_dyn.h", "include/BlasBooster/Utilities/exec_dyn_2dim.h", "include/BlasBooster/Utilities/exec_if_2dim.h", "include/BlasBooster/Utilities/TypeList.h"]}
{"id": "C39", "title": "Block sizes partition the dimension", "statement": "Block size generation terminates and returns row (column) block sizes that sum to the number of rows (columns).", "quantifier": "all detection arrays / matrices and block-size limits accepted by the constructor", "why_tests_cant": "Termination and sum over all inputs.", "anchors": ["include/BlasBooster/Core/BlockSizeGenerator.h: 140-205"]}
{"id": "C40", "title": "Block sizes respect the limits", "statement": "Every generated block size is at least the minimum (unless the whole dimension is one block) and at most the maximum.", "quantifier": "all detection arrays and limits accepted by the constructor with a maximum >= 1", "why_tests_cant": "All inputs.", "anchors": ["include/BlasBooster/Core/BlockSizeGenerator.h: 140-205, 60"]}
{"id": "C41", "title": "Block borders follow the steepest changes", "statement": "Row borders are chosen from row-wise differences and column borders from column-wise differences of the matrix, preferring the largest detection value.", "quantifier": "all matrices", "why_tests_cant": "All shapes, in particular non-square.", "anchors": ["include/BlasBooster/Core/BlockSizeGenerator.h: 95-138"]}
{"id": "C42", "title": "Reading a window from a matrix file", "statement": "Reading an r x c window at offsets (ro,co) of a column-major file with given leading dimensions yields element (i,j) = file element (ro+i, co+j) in a column-major target, and windows that do not fit are rejected without reading.", "quantifier": "all window sizes and offsets whose sums fit size_t, all complete files (overflow and short files: C70)", "why_tests_cant": "All offsets; byte-level seeks.", "anchors": ["include/BlasBooster/Core/MatrixFileIO.h: 24-54"]}
{"id": "C43", "title": "Serialisation round trip", "statement": "Saving a dense matrix and loading it back into an object of the same orientation yields a matrix with equal dimensions and elements, whatever the object held and whatever follows in the archive; a truncated archive is reported.", "quantifier": "all matrices, sequences of matrices, targets and truncation points", "why_tests_cant": "All contents.", "anchors": ["include/BlasBooster/Core/Storage.h: save 479, load 486", "include/BlasBooster/Core/DenseMatrix.h: 311", "include/BlasBooster/Core/Dimension.h: serialize"]}
{"id": "C44", "title": "Fillers initialise every element", "statement": "AllFiller, ContinuousNumberFiller, HilbertFiller and DiagonalFiller set every element of a matrix of any shape to the documented value (and DiagonalFiller rejects non-square matrices); a matrix constructed or resized with them has no uninitialised element.", "quantifier": "all shapes and orientations", "why_tests_cant": "All shapes.", "anchors": ["include/BlasBooster/Core/MatrixFiller.h", "include/BlasBooster/Core/DenseMatrix.h: 341-349, 689-697"]}
{"id": "C45", "title": "Error statistics", "statement": "Comparing two equal-size matrices reports the maximal absolute deviation (an upper bound that is attained) and the root mean square deviation; both are zero exactly if the matrices agree.", "quantifier": "all pairs of matrices of equal size and orientation; non-empty for the root mean square (otherwise: C62, C63)", "why_tests_cant": "All contents.", "anchors": ["include/BlasBooster/Core/StatisticalErrorInformation.h"]}
{"id": "C46", "title": "BLAS calls compute the product", "statement": "For column-major dense operands with at least one inner column the arguments passed to gemm (dimensions, leading dimensions, alpha, beta) make a conforming gemm compute exactly A*B into the freshly sized result, reading and writing in bounds.", "quantifier": "all shapes with inner dimension >= 1 representable in the BLAS integer type, all conforming BLAS implementations", "why_tests_cant": "All shapes; narrowing of sizes.", "anchors": ["include/BlasBooster/Core/Multiplication_OpenBLAS.h", "include/BlasBooster/Core/Multiplication_IntelMKL.h"]}
{"id": "C47", "title": "Dimension bookkeeping", "statement": "At any time the reported size of a matrix equals rows*columns, whatever sequence of constructions, resizes, assignments and swaps led there.", "quantifier": "all histories", "why_tests_cant": "Cached field; histories are unbounded.", "anchors": ["include/BlasBooster/Core/Dimension.h", "include/BlasBooster/Core/DenseMatrix.h: swap 287, resize 699", "include/BlasBooster/Core/ZeroMatrix.h: resize", "include/BlasBooster/Core/SparseMatrix.h: swap 126"]}
{"id": "C48", "title": "Approximate equality", "statement": "equal() of dense matrices of the same orientation is reflexive and symmetric, implies equal dimensions, and holds exactly if all corresponding elements differ by at most the numerical accuracy of the less accurate element type.", "quantifier": "all pairs of matrices", "why_tests_cant": "All contents.", "anchors": ["include/BlasBooster/Core/Storage.h: equal 422", "include/BlasBooster/Core/DenseMatrix.h: equal", "include/BlasBooster/Utilities/EqualWithinNumericalAccuracy.h"]}
{"id": "C49", "title": "Initializer-list construction", "statement": "Constructing a dense matrix from nested lists whose rows are at least as long as the first one puts the j-th value of the i-th list at (i,j). (Shorter rows: C68.)", "quantifier": "all such nested lists, both orientations", "why_tests_cant": "All shapes.", "anchors": ["include/BlasBooster/Core/DenseMatrix.h: 368-389"]}
{"id": "C50", "title": "Two-part matrix dimensions agree", "statement": "A two-part matrix can only be observed with both parts of equal dimensions; mismatches are rejected.", "quantifier": "all constructions and resets", "why_tests_cant": "All histories.", "anchors": ["include/BlasBooster/Core/MultipleMatrix.h"]}
{"id": "C51", "title": "Call tracker accumulates", "statement": "After any sequence of tracked calls the tracker reports, per tracked operation, exactly the number of finished calls and the sum of their durations.", "quantifier": "all histories of tracked scopes, nested ones included", "why_tests_cant": "Histories are unbounded.", "anchors": ["include/BlasBooster/Utilities/Tracker.h"]}
{"id": "C52", "title": "Enum parser round trip", "statement": "Registering names for enum values so that the mapping is one-to-one makes name->value and value->name inverse to each other; with assertions or exceptions enabled unknown names are rejected. (Release builds: C69.)", "quantifier": "all registration sequences", "why_tests_cant": "All registration orders.", "anchors": ["include/BlasBooster/Utilities/EnumParser.h"]}
{"id": "C53", "title": "Pattern colouring", "statement": "The pattern generator maps each norm to the first palette entry whose threshold does not exceed it, and to the background otherwise; every cell of the matrix is coloured exactly once.", "quantifier": "all palettes and matrices", "why_tests_cant": "All palettes.", "anchors": ["include/BlasBooster/Core/PatternGenerator.h"]}
{"id": "C54", "title": "Band matrix provider", "statement": "The benchmark matrix provider's band matrices hold the generated value exactly inside the band |i-j| < band width and 0 outside, for every dimension and band width up to dimension+1. (Wider bands: C56.)", "quantifier": "all dimensions and band widths <= dimension+1", "why_tests_cant": "Boundary band widths.", "anchors": ["src/Benchmark/MatrixProvider.cpp: 19-36"]}
{"id": "C55", "title": "Sparse to sparse conversion", "statement": "Converting a valid sparse matrix without spare cells to another element type or to the other orientation yields a valid sparse matrix that denotes the same (converted) elements, without reading uninitialised memory.", "quantifier": "all valid sparse matrices without spare cells, to the same orientation, or from column-major to row-major if there is a row and something is stored (otherwise: C62, C63, C64)", "why_tests_cant": "All patterns.", "anchors": ["include/BlasBooster/Core/SparseMatrix.h: 176-181", "include/BlasBooster/Core/Transposition.h: 34-87"]}
{"id": "C56", "title": "Band matrices of every shape and width", "statement": "The band matrices of the generator and of the provider hold the given value exactly where |i-j| < band width and 0 elsewhere, for every number of rows and columns and every band width.", "quantifier": "all rows, columns and band widths", "why_tests_cant": "Shapes are unbounded; wide and tall shapes take different paths.", "anchors": ["src/Benchmark/generate_matrix.cpp: 45-53"]}
{"id": "C57", "title": "Configured matrix sets", "statement": "After construction every configured set holds exactly the matrices its entries describe, in order: one per dimension and band width, the file's matrix, or a copy of another set; unknown sources are reported. (Other configuration errors: C70.)", "quantifier": "all configurations of understood entries", "why_tests_cant": "Configurations are unbounded lists of entries that refer to each other.", "anchors": ["src/Benchmark/MatrixProvider.cpp: 16-48", "src/Benchmark/MatrixProvider.h: get"]}
{"id": "C58", "title": "Multiplication interface independence", "statement": "Whichever multiplication interface the build selects (native code, OpenBLAS, Intel MKL), the product of two column-major dense matrices of the same element type is the same matrix up to rounding.", "quantifier": "all configurations, operands with inner dimension >= 1 and dimensions < 2^31, conforming BLAS implementations (mixed element types: C71)", "why_tests_cant": "Needs every conforming BLAS implementation, none of which is available to a unit test of the selection.", "anchors": ["include/BlasBooster/Core/Multiplication_TheBestPolicy.h", "include/BlasBooster/Core/Multiplication_OpenBLAS.h", "include/BlasBooster/Core/Multiplication_IntelMKL.h"]}
{"id": "C59", "title": "Views of views", "statement": "A submatrix view taken from a submatrix view reads and writes exactly the elements of the original matrix at the summed offsets.", "quantifier": "all parents, outer windows and inner windows", "why_tests_cant": "Nested windows are never exercised by the tests.", "anchors": ["include/BlasBooster/Core/DenseMatrix.h: submatrix constructor ColumnMajor (421-436)"]}
{"id": "C60", "title": "No memory is leaked", "statement": "For any sequence of constructions, copies, moves, assignments, swaps, resizes, loads and destructions of variable- and fixed-size storages, once all objects are destroyed no memory allocated by the library is left allocated, and all of it was freed exactly once.", "quantifier": "all operation histories over any number of storages, including proxies for the caller's memory", "why_tests_cant": "Histories are unbounded; leaks depend on the interleaving of moves, copies and loads.", "anchors": ["include/BlasBooster/Core/Storage.h: variable-size 294-500, fixed-size 124-290"]}
{"id": "C61", "title": "Moved-from storages stay usable", "statement": "A storage that was moved from, or moved into itself, can be used like any other afterwards: it can be destroyed, assigned and resized, and a self-move keeps the contents.", "quantifier": "all histories", "why_tests_cant": "Continuations after a move are unbounded.", "anchors": ["include/BlasBooster/Core/Storage.h: resize 365, move assignment 391"]}
{"id": "C62", "title": "Storage orientation never changes results", "statement": "Every operation gives the same mathematical result for row-major and column-major operands, for equal and for mixed orientations: conversions, transposition, sums, products, comparison, error statistics, loading and file reading.", "quantifier": "all operations, shapes, contents and combinations of orientations", "why_tests_cant": "Combinations of orientations are not instantiated by the tests; the library accepts them all.", "anchors": ["include/BlasBooster/Core/SparseMatrix.h: 183-224", "include/BlasBooster/Core/Transposition.h: 34-87", "include/BlasBooster/Core/BinaryFunctors.h: 141-248", "include/BlasBooster/Core/Multiplication_Native.h: 19-53", "include/BlasBooster/Core/StatisticalErrorInformation.h", "include/BlasBooster/Core/Storage.h: equal, load", "include/BlasBooster/Core/MatrixFileIO.h"]}
{"id": "C63", "title": "Degenerate shapes", "statement": "Every operation is defined for matrices without rows, without columns, or with an empty inner dimension, and gives the mathematically expected (empty or zero) result.", "quantifier": "all operations and all shapes with a zero dimension", "why_tests_cant": "The tests contain no empty matrix.", "anchors": ["include/BlasBooster/Core/StripedIterator.h", "include/BlasBooster/Core/Transposition.h", "include/BlasBooster/Core/Multiplication_Native.h", "include/BlasBooster/Core/Multiplication_OpenBLAS.h", "include/BlasBooster/Core/OccupationPolicy.h", "include/BlasBooster/Core/MatrixConverter.h", "include/BlasBooster/Core/StatisticalErrorInformation.h"]}
{"id": "C64", "title": "Reported number of stored elements", "statement": "nnz() of every sparse matrix the library produces is the number of elements it stores, every reported element is initialised, and hence every later conversion, count and norm of it is defined.", "quantifier": "all sparse matrices produced by any sequence of conversions, sums, products and transpositions", "why_tests_cant": "Depends on every sparsity pattern; uninitialised cells often happen to hold harmless values.", "anchors": ["include/BlasBooster/Core/SparseStorage.h: nnz", "include/BlasBooster/Core/SparseMatrix.h: resize 262", "include/BlasBooster/Core/BinaryFunctors.h: 173-248", "include/BlasBooster/Core/Multiplication_Native.h: 154-205"]}
{"id": "C65", "title": "Subtraction and in-place operators on every kind", "statement": "A-B denotes the difference, and A+=B, A-=B change A to the sum or difference, for every combination of dense, sparse, zero and two-part operands.", "quantifier": "all kinds of operands, all contents", "why_tests_cant": "The result depends on the combination of kinds; sign errors are invisible for symmetric test data.", "anchors": ["include/BlasBooster/Core/BinaryFunctors.h: 284-293, 304-312, 346-407, 516-590"]}
{"id": "C66", "title": "Failed operations leave consistent objects", "statement": "When an operation reports a failure by an exception, every object involved can still be used: it holds its old or new value, never a mixture.", "quantifier": "all operations that can fail, all crash points", "why_tests_cant": "Every point at which the operation can fail has to be considered.", "anchors": ["include/BlasBooster/Core/Storage.h: load 486", "include/BlasBooster/Core/MatrixFileIO.h: 24-54", "include/BlasBooster/Core/MultipleMatrix.h: reset 49-56"]}
{"id": "C67", "title": "Equality of sparse matrices", "statement": "equal() of two sparse matrices holds exactly if they have equal dimensions and the same stored elements within the numerical accuracy.", "quantifier": "all pairs of valid sparse matrices", "why_tests_cant": "All patterns and dimensions.", "anchors": ["include/BlasBooster/Core/SparseStorage.h: equal 129-132"]}
{"id": "C68", "title": "Malformed construction input is reported", "statement": "Constructing a matrix from nested lists that do not form a rectangle is reported by a failure and never reads outside the lists, for element lists and for lists of blocks.", "quantifier": "all nested lists", "why_tests_cant": "All ragged shapes.", "anchors": ["include/BlasBooster/Core/DenseMatrix.h: 368-389, 391-418"]}
{"id": "C69", "title": "Invalid calls are reported in every build", "statement": "Invalid arguments that are reported with assertions or exceptions enabled are reported in release builds too.", "quantifier": "all build configurations and invalid arguments", "why_tests_cant": "Tests run in one configuration.", "anchors": ["include/BlasBooster/Core/CoreException.h", "include/BlasBooster/Core/MultipleMatrix.h", "include/BlasBooster/Utilities/EnumParser.h"]}
{"id": "C70", "title": "File and configuration errors are reported", "statement": "Every matrix file that is missing, too short or too small for the requested window, and every configuration entry that is not understood, is reported; no call returns silently with indeterminate data.", "quantifier": "all files, windows and configurations", "why_tests_cant": "All combinations of sizes, including overflowing ones.", "anchors": ["include/BlasBooster/Core/MatrixFileIO.h: 24-54", "src/Benchmark/MatrixProvider.cpp: 16-48", "src/Benchmark/MatrixProvider.h: get"]}
{"id": "C71", "title": "Mixed precision products", "statement": "The product of a float and a double matrix is computed in double precision whichever interface the build selects.", "quantifier": "all operands and interfaces", "why_tests_cant": "Loss of precision only shows for particular values.", "anchors": ["include/BlasBooster/Core/Multiplication_TheBestPolicy.h", "include/BlasBooster/Core/Multiplication_IntelMKL.h"]}
{"id": "C72", "title": "In-place operations on operands that share memory", "statement": "sub1 += sub2, sub1 -= sub2 and copy(sub2, sub1), for two submatrices of the same matrix, combine the values the matrix had before the call and change no cell outside the destination window; A += A doubles every element.", "quantifier": "all matrices, window sizes and origins, overlapping or not", "why_tests_cant": "Whether an overlap is harmful depends on the relative position of the windows and on the traversal order.", "anchors": ["include/BlasBooster/Core/BinaryFunctors.h: 325-344", "include/BlasBooster/Core/Copy.h: copy 10-29", "include/BlasBooster/Core/Storage.h: striped 503-662"]}
{"id": "C73", "title": "Blocked matrices behave as values", "statement": "In a program over variables of blocked matrix type (generate, copy, multiply, add in place), changing one variable never changes another, and no cell of a matrix changes because another cell does.", "quantifier": "all programs of any length over any number of variables", "why_tests_cant": "All histories of statements.", "anchors": ["include/BlasBooster/Core/DynamicMatrix.h", "include/BlasBooster/Core/BinaryFunctors.h: 638-655", "include/BlasBooster/Core/DenseMatrix.h: 194, 209"]}
{"id": "C74", "title": "Moving a blocked matrix preserves it", "statement": "A blocked matrix that was move-constructed or move-assigned from another denotes the same matrix: same blocks, same unblocked dimensions, same conversion to a dense matrix.", "quantifier": "all blocked matrices", "why_tests_cant": "All block structures.", "anchors": ["include/BlasBooster/Core/DenseMatrix.h: 197-219", "include/BlasBooster/Core/Dimension.h: 151-177"]}
{"id": "C75", "title": "Type, dimension and norm matrices", "statement": "For a blocked matrix, the type matrix, dimension matrix and norm matrix have the shape of the grid of blocks; entry (i,j) is the position in the type list of block (i,j)'s type, its number of rows and columns, and its norm; for a generated matrix the type is the first one whose occupation conditions the window fulfils. Counting the types returns how many blocks have each type.", "quantifier": "all blocked matrices and type lists", "why_tests_cant": "All grids, block types and contents.", "anchors": ["include/BlasBooster/Core/GenerateTypeMatrix.h: 12-68", "include/BlasBooster/Core/DynamicMatrixFunctions.h: 10-88", "include/BlasBooster/Core/MultipleMatrix.h: 85-90"]}
{"id": "C76", "title": "Picture of the block types", "statement": "The picture of the block types has the dimensions of the matrix; every element of the area of a block has the value of the block's type, except the border of the requested width, which is 0; nothing outside the picture is written.", "quantifier": "all block structures, types and border widths", "why_tests_cant": "All block sizes relative to the border.", "anchors": ["src/Benchmark/show_pattern.cpp: 81-120", "include/BlasBooster/Core/MatrixFiller.h: 20-28"]}
{"id": "C77", "title": "Printed dense matrices", "statement": "A printed dense matrix of at most 100 rows and columns shows every element once, in its row and column, in aligned columns separated by at least one blank, so that the elements can be read back and matrices that print alike have elements that print alike; larger matrices print a notice and touch nothing.", "quantifier": "all matrices, submatrices and element formats", "why_tests_cant": "All contents and widths.", "anchors": ["include/BlasBooster/Core/MatrixIO.h: 38-91", "include/BlasBooster/Core/GenerateTypeMatrix.h: 70-73"]}
{"id": "C78", "title": "Printed sparse matrices and the stream's state", "statement": "A printed sparse matrix shows the dimensions and all stored elements with their positions, and printing a matrix does not change how the stream formats later output.", "quantifier": "all sparse matrices and stream states", "why_tests_cant": "All histories of output operations and all matrices, including results of sums and products.", "anchors": ["include/BlasBooster/Core/MatrixIO.h: 93-134"]}
{"id": "C79", "title": "Random matrices", "statement": "The random matrix generator returns a dense matrix of the requested dimensions whose elements have magnitude between 10^-max and 10^-min (by default 1e-9 to 1), the fraction of non-zero elements being the requested occupation; the same settings give the same matrix with every compiler.", "quantifier": "all settings, dimensions and random engines", "why_tests_cant": "All seeds and all values a distribution may return.", "anchors": ["include/BlasBooster/MatrixFactory/MatrixGenerator.h", "src/MatrixFactory/MatrixGenerator.cpp: 6-21"]}
{"id": "C80", "title": "Products computed by Eigen and Blaze", "statement": "With the Eigen or the Blaze interface selected, the product of dense matrices of any sizes is the product matrix, equal to what the other interfaces compute.", "quantifier": "all conforming dimensions and contents, all states of the result object, all addresses of the arrays", "why_tests_cant": "All sizes and alignments.", "anchors": ["include/BlasBooster/Core/Multiplication_Eigen.h", "include/BlasBooster/Core/Multiplication_Blaze.h"]}
{"id": "C81", "title": "Sparse products computed by MKL", "statement": "With the MKL interface selected, the product of two sparse matrices is the product matrix, in the orientation of the operands.", "quantifier": "all conforming dimensions and sparsity patterns and every implementation of mkl_?csrmultcsr that meets its contract", "why_tests_cant": "All dimensions; symmetric or square test matrices hide an exchange of arguments.", "anchors": ["include/BlasBooster/Core/Multiplication_IntelMKL.h: 113-204"]}
{"id": "C82", "title": "Benchmark actions", "statement": "Every action of the benchmark that the build provides is found under its name, computes the product of the two matrices in the precision its name promises, and its result does not depend on how often the measurement repeats the call.", "quantifier": "all action names, builds, operands, repetition counts and all linked routines that meet their contracts", "why_tests_cant": "All sizes, contents and repetition counts.", "anchors": ["src/Benchmark/Action_*.h", "src/Benchmark/ActionProvider.cpp: 33-107"]}
{"id": "C83", "title": "Benchmark table", "statement": "The benchmark prints one line per pair of matrices and configured action, in order, with the maximum norm and the 2-norm of the difference between the action's result and the first action's; a shown 0 means equal results; with --diff every difference is written to a file; invalid configurations are reported; lines printed before a failure remain valid.", "quantifier": "all configurations, matrix lists, actions and failure points", "why_tests_cant": "All lists, results and crash points.", "anchors": ["src/Benchmark/benchmark.cpp: 76-116", "src/Benchmark/ActionProvider.cpp: 104"]}
{"id": "C84", "title": "Multiplication by name", "statement": "matrix_matrix_mult(name, A, B) returns the product computed by the named method, dense or via sparse copies of the operands, and reports unknown names.", "quantifier": "all names, builds and operands", "why_tests_cant": "All operands, including empty ones and non-commuting ones.", "anchors": ["src/Benchmark/matrix_matrix_mult.cpp: 44-206"]}
{"id": "C85", "title": "BLAS calls reach the library unchanged", "statement": "Calling a BLAS routine through the OpenBLAS or MKL interface has exactly the effect of calling the library's routine of that name with the same pointers in the same order, and returns what that routine returns.", "quantifier": "all 158 routines (162 for MKL), all argument pointers, all memory contents and every behaviour of the linked library", "why_tests_cant": "Every routine, argument and library behaviour; a swapped pair of equal-typed arguments compiles.", "anchors": ["src/Interfaces/OpenBLAS/BlasInterface_OpenBLAS.cpp: 13-930", "src/Interfaces/IntelMKL/BlasInterface_IntelMKL.cpp: 20-966", "include/BlasBooster/BlasInterface/FunctionList.yml"]}
{"id": "C86", "title": "BLAS signatures", "statement": "Every routine of the BLAS (levels 1 to 3) is available through the interfaces exactly once, with the result type and the number, order, types and constness of parameters of the BLAS reference; declarations, definitions and the prototypes they call agree; a routine's tag reports its own name.", "quantifier": "all routines of the reference and all entries of the interfaces", "why_tests_cant": "A prototype that disagrees with the library links and fails only at run time on some platforms.", "anchors": ["include/BlasBooster/BlasInterface/Blas.h", "include/BlasBooster/BlasInterface/IntelMKL_SpBlas.h", "include/BlasBooster/BlasInterface/FunctionTypes.h", "include/BlasBooster/BlasInterface/BlasInterface_OpenBLAS.h", "include/BlasBooster/BlasInterface/BlasInterface_IntelMKL.h"]}
{"id": "C87", "title": "Complex dot products", "statement": "cdotc, cdotu, zdotc and zdotu through the interfaces return the dot product of the given vectors and change nothing, whichever convention the linked library uses for complex results.", "quantifier": "all vectors, lengths, increments, both interfaces and both calling conventions", "why_tests_cant": "Depends on the ABI of the linked library, which tests on one platform fix.", "anchors": ["src/Interfaces/OpenBLAS/BlasInterface_OpenBLAS.cpp: 937-967", "src/Interfaces/IntelMKL/BlasInterface_IntelMKL.cpp: 968-998"]}
{"id": "C88", "title": "Number of BLAS threads", "statement": "After any history of thread settings, each library uses the number last asked of it, MKL no longer changes it dynamically, and setting one library leaves the other alone.", "quantifier": "all numbers and all histories of calls", "why_tests_cant": "All histories.", "anchors": ["src/Interfaces/OpenBLAS/BlasInterface_OpenBLAS.cpp: 8-11", "src/Interfaces/IntelMKL/BlasInterface_IntelMKL.cpp: 14-18"]}
{"id": "C89", "title": "Programs over matrix variables mean what they say", "statement": "Any program that declares, copies, moves, assigns, resizes, fills, adds, subtracts, multiplies, transposes, exchanges and destroys dense matrices computes for every variable the matrix its mathematical reading gives, without crash, exception or leak, whichever variables occur on both sides of a statement; sums and products that do not fit and elements outside a matrix are reported by an assertion.", "quantifier": "all programs of any length over any number of variables, all dimensions and element types", "why_tests_cant": "The interplay of statements (aliasing, temporaries, stale members after swap or move) is a property of all histories.", "anchors": ["include/BlasBooster/Core/DenseMatrix.h: 198-221, 287-295, 336-349, 663-697, 712-722", "include/BlasBooster/Core/BinaryFunctors.h: 141-171, 325-344, 450-467", "include/BlasBooster/Core/MatrixMultExp.h: 29-50", "include/BlasBooster/Core/Transposition.h: 8-32", "include/BlasBooster/Core/Storage.h: 294-500", "include/BlasBooster/Core/Multiplication_Native.h: 19-53"]}
{"id": "C90", "title": "Product expressions are evaluated when they are used", "statement": "auto p = y * z; ...; x = p; has exactly the effect of x = y * z; in the second place: it uses what y and z contain then, not when the expression was written; the expression does not keep its operands alive.", "quantifier": "all programs between the two statements, all states before", "why_tests_cant": "Quantifies over everything that can happen between writing and using the expression.", "anchors": ["include/BlasBooster/Core/MatrixMultExp.h: 29-50, 191-194", "include/BlasBooster/Core/DenseMatrix.h: 663-668"]}
{"id": "C91", "title": "Moved-from matrices", "statement": "A matrix that was moved from can be used like an empty one: it reports no elements and can be resized, added to, assigned, exchanged and destroyed.", "quantifier": "all programs that move a matrix and then use it", "why_tests_cant": "Continuations after a move are unbounded.", "anchors": ["include/BlasBooster/Core/DenseMatrix.h: 200-221, 689-697", "include/BlasBooster/Core/Dimension.h: 42-129", "include/BlasBooster/Core/Storage.h: 365-371, 390-405"]}
{"id": "C92", "title": "Storage kinds do not influence the rounding", "statement": "Adding or multiplying the same matrices gives bit for bit the same elements (up to the sign of zero), whether each operand is stored dense, sparse or as zero matrix, and for blocked matrices whatever the kinds of the blocks: zeros that a sparse format skips never change a rounded result, and every element is accumulated in increasing order of the inner index.", "quantifier": "all matrices, all combinations of storage kinds, every arithmetic with x + 0 = x and x * 0 = 0 (nothing else: no associativity, no distributivity)", "why_tests_cant": "Quantifies over all matrices and all roundings; the summation order decides bits that tests compare with tolerances.", "anchors": ["include/BlasBooster/Core/Multiplication_Native.h: 19-53, 107-318", "include/BlasBooster/Core/BinaryFunctors.h: 141-322"]}
{"id": "C93", "title": "Rounding error of sums and products", "statement": "With rounding arithmetic of unit roundoff u (2^-53 for double, 2^-24 for float, without overflow and underflow) a sum of two matrices of any kinds is rounded once, and a product with inner dimension k differs from the exact product by at most ((1+u)^k - 1) times the product of the absolute values, or ((1+u)^(k+3) - 1) if two-part matrices are involved.", "quantifier": "all matrices of all kinds and sizes, all rounding rules to nearest", "why_tests_cant": "A bound on the worst case over all matrices.", "anchors": ["include/BlasBooster/Core/Multiplication_Native.h: 19-53, 154-318", "include/BlasBooster/Core/BinaryFunctors.h: 141-322", "include/BlasBooster/Core/MatrixMultExp.h: 28-148"]}
{"id": "C94", "title": "Rounding error of the blocked product", "statement": "The product of two blocked matrices with b inner blocks of at most K rows differs from the exact product of what the operands stand for by at most ((1+u)^(K+b+2) - 1) times the product of the absolute values, whatever the runtime types of the blocks.", "quantifier": "all partitions, all runtime types of blocks, all elements, all rounding rules to nearest", "why_tests_cant": "A bound on the worst case over all matrices, partitions and block types.", "anchors": ["include/BlasBooster/Core/Multiplication_Native.h: 107-152", "include/BlasBooster/Core/MatrixMultExp.h: 28-148", "include/BlasBooster/Core/DenseMatrix.h: 524-561"]}
{"id": "C95", "title": "Blocking does not change the result", "statement": "Multiplying blocked matrices gives bit for bit the matrix that multiplying the unblocked matrices gives.", "quantifier": "all matrices, all partitions, all rounding arithmetic", "why_tests_cant": "Holds or fails depending on elements and partition.", "anchors": ["include/BlasBooster/Core/Multiplication_Native.h: 19-53, 107-152"]}
{"id": "C96", "title": "Element types and storage of results", "statement": "The element type and the storage of a product, sum or difference are determined by the runtime types of the operands alone: double as soon as an operand that is not a zero matrix is double, float otherwise; a product with a zero matrix is a zero matrix and a sum with a zero matrix keeps the other operand's type; dense as soon as one operand is dense. Results of blocks stay in the list of block types.", "quantifier": "all operands of all runtime types, sizes and elements", "why_tests_cant": "Quantifies over all operands; the type of a result is computed by a chain of overloads that tests only sample.", "anchors": ["include/BlasBooster/Core/MatrixMultExp.h: 28-148", "include/BlasBooster/Core/BinaryFunctors.h: 443-590", "include/BlasBooster/Core/DynamicMatrixTypeList.h: 27-35", "include/BlasBooster/Core/Multiplication.h: 19-21"]}
{"id": "C97", "title": "Precision in which elements of results are computed", "statement": "If both operands are float, every element of their product or sum is the one float arithmetic gives, accumulated in increasing order of the inner index. If an operand is double, every element is the one double arithmetic gives on the operands widened to double: float elements are never multiplied, added or subtracted in float first. Differences are computed in the same precisions (operand combinations whose difference is wrong: C65).", "quantifier": "all operands of all mixtures of float, double, dense, sparse and zero, all rounding arithmetic", "why_tests_cant": "Quantifies over all elements and roundings; a premature rounding changes only low bits.", "anchors": ["include/BlasBooster/Core/Multiplication_Native.h: 19-53, 154-318", "include/BlasBooster/Core/BinaryFunctors.h: 141-322, 443-590"]}
{"id": "C98", "title": "Error of the mixed precision product", "statement": "In the product of blocked matrices whose blocks are float, double or two-part, an element differs from the exact product by at most ((1+ud)^N - 1) times the product of the absolute values plus ((1+uf)^N - 1) times the product of the absolute values of the float parts, with N = inner block size + number of inner blocks + 2: the large error of float is charged only to products of two float parts.", "quantifier": "all partitions, all runtime types of blocks, all elements, all rounding rules to nearest", "why_tests_cant": "A bound on the worst case over all matrices, partitions and block types.", "anchors": ["include/BlasBooster/Core/Multiplication_Native.h: 107-152", "include/BlasBooster/Core/MatrixMultExp.h: 28-148", "include/BlasBooster/Core/BinaryFunctors.h: 443-590"]}
{"id": "C99", "title": "Conversion to mixed precision keeps large elements exactly", "statement": "A block is converted to the first type of the type list whose occupation limits are met, and the double and float parts of the new block hold what the thresholds prescribe for that type. With the default occupation policy, cutting a double matrix into blocks and assembling it again returns every element exactly, rounded to float, or as 0; the latter two happen only to elements not larger than the single precision threshold in absolute value.", "quantifier": "all matrices, all partitions, all thresholds with 0 <= double threshold < single threshold, all occupation limits of the kind of the default ones", "why_tests_cant": "Quantifies over all elements and all settings.", "anchors": ["include/BlasBooster/Core/MatrixConverter.h: 40-330", "include/BlasBooster/Core/DynamicMatrixTypeList.h: 27-35", "include/BlasBooster/Core/Threshold.h: 16-36"]}
{"id": "C100", "title": "Error of the whole pipeline in float and double", "statement": "Cutting two double matrices into blocks, converting every block to the best type, multiplying and assembling gives a result whose error is at most sigma * sum(|a| + (1+uf)|b|) + ((1+ud)^N - 1)(1+uf) * sum |a||b| + ((1+uf)^N - 1)(1+uf)^2 k sigma^2, with sigma the single precision threshold, N = inner block size + number of inner blocks + 2, k the inner dimension, uf = 2^-24 and ud = 2^-53.", "quantifier": "all matrices, all partitions, all thresholds with 0 <= double threshold < single threshold, occupation limits of the kind of the default ones", "why_tests_cant": "A bound on the worst case over all matrices, partitions and settings.", "anchors": ["include/BlasBooster/Core/BlockedMatrixGenerator.h: 24-120", "include/BlasBooster/Core/MatrixConverter.h: 40-330", "include/BlasBooster/Core/Multiplication_Native.h: 107-152", "include/BlasBooster/Core/DenseMatrix.h: 524-561"]}
{"id": "C101", "title": "Expressions over dynamic matrices", "statement": "An expression of sums and products over matrices of any runtime types, with matching dimensions, evaluates without fault to a matrix of the type the operand types determine; each element differs from its value in exact arithmetic by at most ((1+u)^N - 1) times the value of the expression on absolute values, where N counts the roundings and u is 2^-24, or 2^-53 if every sum has a double term and every product a factor with double elements only. Without rounding it is exact; two expressions equal in exact arithmetic differ by at most the sum of their bounds.", "quantifier": "all expression trees of any depth over dense, sparse, zero and two-part matrices of float and double elements of any sizes", "why_tests_cant": "Quantifies over all expressions, sizes, element values and mixtures of runtime types.", "anchors": ["include/BlasBooster/Core/BinaryFunctors.h: 141-322, 443-613", "include/BlasBooster/Core/MatrixMultExp.h: 28-183", "include/BlasBooster/Core/Multiplication_Native.h: 19-53, 154-318"]}
{"id": "C102", "title": "Operands with mismatched dimensions are rejected", "statement": "A product, sum, difference or in-place sum of matrices whose dimensions do not match never yields a result: an assertion stops the program.", "quantifier": "all operands of all kinds (dense, sparse, zero, two-part, blocked), all sizes and elements", "why_tests_cant": "A claim about every pair of mismatched operands of every pair of kinds.", "anchors": ["include/BlasBooster/Core/BinaryFunctors.h: 141-344", "include/BlasBooster/Core/Multiplication_Native.h: 19-53, 107-152, 154-318"]}
{"id": "C103", "title": "Use from several threads", "statement": "Any number of threads may call const member functions (element access, norm and occupation queries) of shared matrices, and compute products into separate targets, without data races; every call returns what it returns when the thread runs alone.", "quantifier": "all numbers of threads, all programs of these calls, all interleavings, all matrices", "why_tests_cant": "Quantifies over all schedules; a data race is undefined behaviour even when tests happen to see correct results.", "anchors": ["include/BlasBooster/Core/NormPolicy.h: 20-52", "include/BlasBooster/Core/OccupationPolicy.h: 17-58", "include/BlasBooster/Core/Tracker.h: 76-117", "include/BlasBooster/Core/Multiplication_Native.h: 19-53"]}
{"id": "C104", "title": "Rounding error of norms and deviations", "statement": "Computed in double arithmetic, the 1-norm of a matrix with n elements is the true value up to n roundings, the square of the 2-norm the sum of squares up to n+3 roundings (n+5 for a two-part matrix, K+b+8 for b blocks of at most K elements), the maximum norm is exact (one rounding for a two-part matrix), the maximal deviation of two dense matrices has one rounding, the square of the root mean square deviation n+6. N roundings are a relative error of at most N u/(1-N u) with u = 2^-53. A computed norm is never negative and is 0 exactly for the zero matrix.", "quantifier": "all matrices of all kinds and element types, all sizes, all element values without overflow or underflow", "why_tests_cant": "A bound on the worst case over all matrices and summation lengths.", "anchors": ["include/BlasBooster/Core/Norm.h: 19-182", "include/BlasBooster/Core/StatisticalErrorInformation.h: 5-29"]}
{"id": "C105", "title": "Running out of memory", "statement": "When an allocation fails, the exception leaves everything usable: the failed operation has had no effect, no memory is lost or freed twice, and the program can go on with, or destroy, all its objects.", "quantifier": "all histories of constructions, copies, moves, assignments, swaps, resizes, loads and destructions of storages, dense and sparse matrices; every allocation may fail or succeed", "why_tests_cant": "Quantifies over all crash points (failing allocations) in all histories.", "anchors": ["include/BlasBooster/Core/Storage.h: resize 365-371, copy assignment 373-388, load 485-491, constructors 304-359", "include/BlasBooster/Core/Memory.h: 7-22", "include/BlasBooster/Core/SparseStorage.h: 100-119", "include/BlasBooster/Core/DenseMatrix.h: 211-221, 341-349, 689-697"]}
{"id": "C106", "title": "Sizes at the limits of the integer types", "statement": "For all dimensions that are values of the index type, a matrix is constructed or resized with as many elements as its dimensions say, or an exception is thrown; every element with indices in range has its own cell. Negative or too large indices are rejected.", "quantifier": "all dimensions and indices of the index types size_t and int, all histories of resizes, writes, reads and fills", "why_tests_cant": "Quantifies over all dimensions up to 2^64; the failing ones are too large to be tested.", "anchors": ["include/BlasBooster/Core/DenseMatrix.h: 341-366, 689-763", "include/BlasBooster/Core/Dimension.h: 42-129", "include/BlasBooster/Core/SparseMatrix.h: 165-173, 262-270", "include/BlasBooster/Core/Parameter.h: 18-40"]}
{"id": "C107", "title": "Moving iterators forwards and backwards", "statement": "An iterator over the elements of a submatrix view can be moved with ++ and -- in any order: after every sequence of steps that stays between begin() and end() it refers to the element whose index is the number of ++ minus the number of --, and it equals end() exactly after the last element; in particular --(++it) and ++(--it) are it again, at end() as well.", "quantifier": "every window (number and length of columns, gap between them), every sequence of ++ and -- of any length, starting at begin(), rbegin() or end()", "why_tests_cant": "The tests walk once forwards and once backwards over one window; turning round, and turning round at the end, is not tried.", "anchors": ["include/BlasBooster/Core/StripedIterator.h:increment", "include/BlasBooster/Core/StripedIterator.h:decrement", "include/BlasBooster/Core/Storage.h:begin/end/rbegin/rend (striped)"]}
{"id": "C108", "title": "Storages that hold their elements in place are values", "statement": "Storages on the stack and fixed-size sparse storages behave as values: a new one holds zeros (or the listed numbers, a list that is too long being reported), a copy holds the numbers of its source, an assignment makes the target hold the numbers of the source, a write changes one number of one storage; == compares the numbers. A matrix declared to live on the stack has room for its elements.", "quantifier": "every size, every program of constructions, copies, assignments (self-assignment included), writes and destructions over any number of variables", "why_tests_cant": "The test file exercises heap storages only; that an assignment is ignored shows only in a history with a later read.", "anchors": ["include/BlasBooster/Core/Storage.h:Storage (OnStack)", "include/BlasBooster/Core/SparseStorage.h:SparseStorage (fixed size)", "include/BlasBooster/Core/Parameter.h:OnStack"]}
{"id": "C109", "title": "Regenerating the BLAS interface", "statement": "Running the code generator on any function list yields, for every function of the lists and in their order, its tag type, the prototype of the library routine, and declaration and definition of the call operator, which has one parameter per argument under pairwise different names and passes all of them in order to the routine of the same name; nothing else in the files depends on the lists, and regenerating from the templates reproduces the committed sources.", "quantifier": "every function list: any number of functions, any names, return types and argument lists", "why_tests_cant": "The generator is run by hand on one list; what it does with another list (no arguments, new complex dot products, extra lists) is not tested.", "anchors": ["python/jinja_code_generator.py", "include/BlasBooster/BlasInterface/*.pre", "src/Interfaces/*/*.cpp.pre", "include/BlasBooster/BlasInterface/FunctionList.yml"]}
{"id": "C110", "title": "Programs over dynamic matrices", "statement": "A program over variables of type DynamicMatrix (creation, copies, sums, differences, executed products, += and -=, products stored in a variable and executed later, reset) means what it says, with reference semantics: a copied variable refers to the same matrix, += and -= change the matrix for all variables that refer to it and for no other, results of +, - and * are matrices of their own, a stored product uses its variables as they are when it is executed.", "quantifier": "all programs of any length over any number of variables, all matrices of all kinds and sizes, all patterns of sharing between variables", "why_tests_cant": "Quantifies over all programs and all aliasing between variables.", "anchors": ["include/BlasBooster/Core/DynamicMatrix.h: 11", "include/BlasBooster/Core/BinaryFunctors.h: operators on DynamicMatrix 592-668, two-part operands 488-590", "include/BlasBooster/Core/MatrixMultExp.h: 142-183"]}
{"id": "C111", "title": "Printed dynamic matrices", "statement": "Printing a sequence of dynamic matrices to one stream writes their texts one after the other: for a null pointer a message, for a dense matrix its lines, for a sparse matrix its dimensions and its arrays, for a zero matrix its number of elements and dimensions, for a two-part matrix the texts of both parts; the text of each does not depend on what was printed before.", "quantifier": "all sequences of matrices of any length, all kinds, element types, sizes and values, all states of the stream", "why_tests_cant": "Quantifies over all print histories of a stream and all matrices.", "anchors": ["include/BlasBooster/Core/MatrixIO.h: operator << for Matrix, MultipleMatrix, DynamicMatrix 38-200", "include/BlasBooster/Core/ZeroMatrix.h: resize 97-104, name 76"]}
{"id": "C112", "title": "Queries in programs over dynamic matrices", "statement": "In any program over shared dynamic matrices, the number of rows, of columns, of elements and the norm of a variable, asked for at any moment and through any variable that refers to the matrix, are those of the contents the matrix has at that moment; whether the norm is larger than a bound is answered accordingly.", "quantifier": "all programs of constructions, copies of pointers, sums, differences, products, stored products, in-place operations and queries, of any length and order, all matrices of all kinds", "why_tests_cant": "Quantifies over all histories of statements and queries; the norm is remembered inside the matrix, which several variables share.", "anchors": ["include/BlasBooster/Core/DynamicMatrixFunctions.h: getNbRows, getNbColumns, getSize, getNorm, isNormLargerThan 10-116", "include/BlasBooster/Core/NormPolicy.h: getNorm, isNormLargerThan 20-52", "include/BlasBooster/Core/BinaryFunctors.h: dynamic operators 592-668", "include/BlasBooster/Core/MatrixMultExp.h: dynamic product 142-183"]}
{"id": "C113", "title": "Norms and occupations of computed matrices", "statement": "The norm and the number of significant elements that a matrix computed as a sum, difference or product answers are those of its own contents, whatever had been asked of its operands before.", "quantifier": "all programs of constructions, copies, moves, assignments, changes, queries, sums, differences and products of dense, sparse and zero matrices, of any length and order; all value checkers", "why_tests_cant": "Quantifies over all histories of queries before a computation: the operands carry hidden caches which some computations copy into the result.", "anchors": ["include/BlasBooster/Core/BinaryFunctors.h: BinaryOperationFunctor 142-322, operator +, - 457-484", "include/BlasBooster/Core/NormPolicy.h: getNorm 20-46", "include/BlasBooster/Core/OccupationPolicy.h: getNbOfSignificantElements 17-28", "include/BlasBooster/Core/DenseMatrix.h: copy and move 197-221"]}
{"id": "C114", "title": "Comparing matrices with ==", "statement": "operator == says whether two matrices are equal: matrices with the same dimension and the same elements compare equal, in particular a matrix and its copy; matrices that compare equal have the same dimension and elements; == is an equivalence relation and != is its negation.", "quantifier": "all histories of constructions, copies, moves, assignments, resizes, writes and destructions of any number of dense or sparse matrices, owning their memory or not", "why_tests_cant": "Quantifies over all histories: the answer depends on who owns the memory, not on the values a test would choose.", "anchors": ["include/BlasBooster/Core/Storage.h: operator == 213-215, 414-419", "include/BlasBooster/Core/DenseMatrix.h: operator ==, != 239-245", "include/BlasBooster/Core/SparseStorage.h: operator == 121-127", "include/BlasBooster/Core/SparseMatrix.h: operator == 118-120"]}
{"id": "C115", "title": "Text of the benchmark tables", "statement": "The benchmark program writes a heading and then, in order, one line for every pair of matrices and every action: number of the pair, name, time with the requested number of digits, the two norms, the parts of the time; the fields of a line can be read off by splitting it at blanks; the option for the digits of times affects nothing but times; when an action fails the lines before it are complete; the table of the tracker has one row per operation used, with name, count and time.", "quantifier": "all numbers of matrices and actions, all names, times, norms and details, all numbers of digits, all failures at any action, all states of the output stream", "why_tests_cant": "Quantifies over all results, names and options and over the hidden state of the output stream, which one output leaves to the next.", "anchors": ["src/Benchmark/benchmark.cpp: main 64-137", "src/Benchmark/time.cpp: operator << 5-19", "src/Benchmark/time.h: duration_accuracy", "src/Benchmark/ActionBase.h: operator << 26-30", "include/BlasBooster/Utilities/Tracker.h: TrackerRegister::print 82-100"]}
{"id": "C116", "title": "Infinities and NaN", "statement": "Infinities and NaN in a matrix are not lost or hidden: conversions between kinds keep them, norms and deviations of a matrix that contains NaN are NaN, a matrix is equal to its copy, sums and products follow the IEEE rules whatever the kinds of the operands.", "quantifier": "all matrices of all sizes with any mixture of finite numbers, infinities and NaN, any rounding and overflow of the finite arithmetic, all value checkers and thresholds", "why_tests_cant": "Quantifies over all placements of special values and all roundings; a test chooses a few matrices, usually finite ones.", "anchors": ["include/BlasBooster/Core/AbsoluteValueRangeChecker.h: operator() 60-64, 103-108, 149-154, 195-200", "include/BlasBooster/Core/DenseMatrix.h: conversion of windows 479-497, equal 247-258", "include/BlasBooster/Core/EqualWithinNumericalAccuracy.h: 17-21", "include/BlasBooster/Core/StatisticalErrorInformation.h: 5-29", "include/BlasBooster/Core/Norm.h: NormOne, NormTwo, NormMax 36-138", "include/BlasBooster/Core/Multiplication_Native.h: 107-280", "include/BlasBooster/Core/MatrixConverter.h: convert"]}
{"id": "C117", "title": "Operations use exactly the stored elements", "statement": "Whatever the arithmetic of the element type, even if no law at all holds for + and *, every element of a product is the sum, accumulated from left to right from 0, of the products of those pairs of elements that both operands store: a dense matrix stores all elements, a sparse one those that the value checker accepted, a zero matrix none. In the same way a sum (for a commutative +), a difference (except Sparse - Dense and Zero - M, see C65) and an in-place operation combine two elements only where both operands store one, and where only one operand stores an element take it over unchanged (negated for the subtrahend of a difference), so that for example -0 survives the addition of a zero matrix but not of a dense matrix of zeros.", "quantifier": "all element types with any +, - and *, all sizes, all combinations of dense, sparse and zero operands, all sets of stored elements", "why_tests_cant": "Quantifies over all arithmetics and all sparsity patterns; a test fixes the element type and a few patterns, and with finite numbers cannot see whether an element that is not stored takes part.", "anchors": ["include/BlasBooster/Core/Multiplication_Native.h: operator() 65-105, 154-280", "include/BlasBooster/Core/BinaryFunctors.h: 141-344", "include/BlasBooster/Core/ZeroMatrix.h: 11-104", "include/BlasBooster/Core/SparseMatrix.h: constructors from dense matrices"]}
{"id": "C118", "title": "Programs over matrices of all kinds", "statement": "Any program that creates dense, sparse and zero matrices, changes elements, converts between the kinds, copies, adds, subtracts, adds and subtracts in place, multiplies, transposes and destroys them in any combination of kinds runs without failure; every variable then has the type that the combination of operand types promises, its dimension, and exactly the stored elements that the operations give; over a ring its elements are those of the mathematical reading of the program, whatever types the variables have. Outside the claim: what the library refuses or gets wrong (in-place operations on sparse and zero matrices, Sparse - Dense and Zero - M, transposing sparse matrices without rows).", "quantifier": "all programs of any length, all sizes, all value checkers, all element types with a commutative + (no other law for the first part), all combinations of kinds and of coinciding variables", "why_tests_cant": "Quantifies over all programs and arithmetics; a test runs a few statements on chosen matrices.", "anchors": ["include/BlasBooster/Core/BinaryFunctors.h: 141-486", "include/BlasBooster/Core/Multiplication_Native.h: operator() 19-318", "include/BlasBooster/Core/Transposition.h: transpose", "include/BlasBooster/Core/SparseMatrix.h: constructors 184-225", "include/BlasBooster/Core/DenseMatrix.h: constructors 341-349, 591-650, operator() 712-722", "include/BlasBooster/Core/ZeroMatrix.h: 85-104"]}
{"id": "C119", "title": "Programs over sparse matrix variables", "statement": "Any program that creates, resizes, copies, moves, assigns, adds, subtracts, multiplies, transposes, exchanges and destroys sparse matrices in any order, with operands and targets that may coincide, runs without undefined behaviour, exception or failed assertion as long as it only uses matrices that are alive, have contents and fit; every variable then has the dimension and exactly the stored elements of the mathematical reading of the program; operands that do not fit are stopped by an assertion; when all variables are destroyed no array of values, keys or offsets is left.", "quantifier": "all programs of any length over any number of variables, all sizes, all value checkers and sets of stored elements, any arithmetic", "why_tests_cant": "Quantifies over all programs: memory is shared, moved and released by three storages per matrix and by temporaries that no test sees.", "anchors": ["include/BlasBooster/Core/SparseMatrix.h: 62-133, 158-270", "include/BlasBooster/Core/SparseStorage.h: 85-176", "include/BlasBooster/Core/Storage.h: variable size 240-420", "include/BlasBooster/Core/BinaryFunctors.h: 173-250, 450-477", "include/BlasBooster/Core/Multiplication_Native.h: Sparse * Sparse 154-205", "include/BlasBooster/Core/Transposition.h: 34-92"]}
{"id": "C120", "title": "Sizes and moved-from sparse matrices", "statement": "After any program a sparse matrix reports rows times columns as its size and converts to a dense matrix with its elements; a matrix that was moved from can be used again.", "quantifier": "all programs over sparse matrices of any length, all sizes, all sets of stored elements", "why_tests_cant": "Quantifies over all histories of exchanges and moves; a test converts or reuses matrices after a few of them.", "anchors": ["include/BlasBooster/Core/SparseMatrix.h: swap 126-133, move 84-105, resize 262-270", "include/BlasBooster/Core/DenseMatrix.h: conversion 591-615", "include/BlasBooster/Core/Dimension.h: 40-75"]}
{"id": "C121", "title": "Storages of fixed size keep their elements and their memory", "statement": "For any program over storages of fixed size (on the heap): every storage reads exactly the elements it was given, copies are independent of their sources, moves and swaps carry the elements over, constructors and loads with too few or too many elements are reported, no memory is freed twice or used after it was freed, memory of the caller is never freed, and once all storages are destroyed nothing is left allocated.", "quantifier": "all programs of constructions, copies, moves, assignments, swaps, writes, loads and destructions over any number of storages, all sizes", "why_tests_cant": "a property of every history; memory errors show only for particular interleavings of moves, assignments and destructions", "anchors": ["include/BlasBooster/Core/Storage.h: Storage<T,false,true,Size,false>"]}
{"id": "C122", "title": "Programs that mix dense and sparse matrix variables", "statement": "Any program over dense and sparse variables (all statements of the two languages, conversions in both directions, dense \u00b1 sparse, sparse + dense, in-place operations of a dense with a sparse matrix, products of all combinations, and product expressions of all combinations that are written down and used later) runs without undefined behaviour, exception or failed assertion as long as it only uses matrices that are alive, have contents and fit; every variable then has the dimension and the elements (stored elements) of the mathematical reading; a stored product expression is evaluated with the values its operands have when it is used, and using it after an operand is gone is undefined behaviour; operands that do not fit are stopped by an assertion; when all variables are destroyed no memory is left.", "quantifier": "all programs of any length over any number of variables of both kinds, all sizes, all value checkers and sets of stored elements, any arithmetic with a commutative +", "why_tests_cant": "Quantifies over all programs: aliasing of operands and targets, temporaries and deferred evaluation across kinds; a test runs a few statements.", "anchors": ["include/BlasBooster/Core/DenseMatrix.h: 198-221, 591-615, 663-668", "include/BlasBooster/Core/SparseMatrix.h: 62-133, 184-270", "include/BlasBooster/Core/BinaryFunctors.h: 253-292, 356-377, 450-486", "include/BlasBooster/Core/Multiplication_Native.h: 207-280", "include/BlasBooster/Core/MatrixMultExp.h: 28-52, 191-194", "include/BlasBooster/Core/Storage.h: variable size"]}
{"id": "C123", "title": "Sparse matrices constructed with a filler", "statement": "A sparse matrix constructed with a filler holds the filler's value in every element: with ContinuousNumberFiller it stores every element, numbered in storage order like the dense matrix of the same orientation; with AllFiller(x) every element is x; whatever capacity was requested.", "quantifier": "all dimensions, orientations, capacities and values", "why_tests_cant": "Tests construct one small column-major matrix; capacities below rows*columns, row-major non-square shapes and reading back an all-filled matrix are not exercised, and a write past the key array can go unnoticed.", "anchors": ["include/BlasBooster/Core/MatrixFiller.h ContinuousNumberFiller, AllFiller", "include/BlasBooster/Core/SparseMatrix.h Matrix(nbRows,nbColumns,nbSignificantElements,filler)"]}
{"id": "C124", "title": "Variables that are submatrix views", "statement": "In any program over matrices and submatrix views, a view that is constructed, copied, moved or assigned is bound to a window: reading v(i,j) and iterating over v give the elements of the window, writing through a view or filling it with a number changes exactly those elements of the matrix and is seen by every other view, assigning a view to a view rebinds it and changes no element, and two views are equal exactly when they are bound to the same window of the same matrix.", "quantifier": "all programs of any length over any number of matrices and views, all windows with at least one element", "why_tests_cant": "Quantifies over all histories of bindings; a test binds a view once and reads it, and a view whose addressing was lost still has the right dimensions and iterates correctly.", "anchors": ["include/BlasBooster/Core/DenseMatrix.h: 197-221, 239-241, 421-436, 679-687, 712-741", "include/BlasBooster/Core/Dimension.h: LeadingDimension 133-147", "include/BlasBooster/Core/Storage.h: striped 503-650"]}
{"id": "C125", "title": "Programs over blocked matrix variables", "statement": "In any program that copies, moves, assigns, exchanges and multiplies blocked matrices, every variable that holds a value reports the rows and columns of the whole matrix and converts to the dense matrix of its elements.", "quantifier": "all programs of any length over any number of variables, all partitions into blocks, all block types", "why_tests_cant": "Quantifies over all histories; whether the unblocked size survives depends on which constructor runs, which a compiler may elide.", "anchors": ["include/BlasBooster/Core/DenseMatrix.h: 197-221, 287-295, 524-561, 663-668", "include/BlasBooster/Core/Dimension.h: UnblockedDimension 151-177", "include/BlasBooster/Core/MatrixMultExp.h: 53-80", "include/BlasBooster/Core/Multiplication_Native.h: 107-152"]}
{"id": "C126", "title": "Objects saved to files", "statement": "writeXML and writeBinary either replace the file by the object or leave it as it was, also when the program is stopped during the call; with overwrite = false they never change a file that exists and report it; a load returns exactly the object that was saved last or reports a file that is absent or incomplete; programs that save at the same time leave one of the objects.", "quantifier": "all histories of saves and loads, stopped at any point, and all schedules of any number of programs", "why_tests_cant": "Crash points and schedules: a test saves and loads once, in one program, without being stopped.", "anchors": ["include/BlasBooster/Utilities/FileIO.h: readXML, writeXML, readBinary, writeBinary 13-52"]}
{"id": "C127", "title": "Matrix files written by the generator program", "statement": "generate_matrix exits with 0 exactly if it wrote the file, and then the file holds the matrix that was asked for (rows, columns, band width, value, type) column by column, no other file changed, and a matrix constructed from any description of the file holds the elements of the window described; a type it does not know, a file it cannot write and a description that does not fit are reported.", "quantifier": "all options, all contents of the disk, all windows", "why_tests_cant": "Quantifies over all options and files: the program has no tests, and shapes that are not square take other paths.", "anchors": ["src/Benchmark/generate_matrix.cpp: main 10-82", "include/BlasBooster/Core/DenseMatrix.h: construction by file 671-677", "include/BlasBooster/Core/MatrixFileIO.h: operator >> 24-54"]}
{"id": "C128", "title": "The program that shows the pattern of a matrix", "statement": "show_pattern exits with 0 exactly if it wrote the pattern file, and then the file holds the image of the matrix (type elements) or of the types of the blocks into which the block size generator splits it, each with a border of the width asked for (type type-blocks): every pixel has the colour of the first entry of the palette whose threshold does not exceed the absolute value shown, no other file changed; matrices that cannot be read, unknown types of pattern and contradictory block sizes are reported.", "quantifier": "all options, settings, files and matrices", "why_tests_cant": "Quantifies over all options, matrices, palettes and settings: the program has no tests, and the block size generator fails for shapes nobody tried.", "anchors": ["src/Benchmark/show_pattern.cpp: main 30-150", "include/BlasBooster/Core/PatternGenerator.h: 43-106", "include/BlasBooster/Core/BlockSizeGenerator.h: 55-93", "include/BlasBooster/Core/BlockedMatrixGenerator.h: 14-50", "include/BlasBooster/Core/GenerateTypeMatrix.h: 12-48"]}
{"id": "C129", "title": "The whole benchmark program", "statement": "Given a settings file that describes as many matrices for set A as for set B (bands, copies of other sets, windows of data files) and names known actions, the program exits with 0 and prints one line per pair of matrices and action: pairs in the order of the sets, actions in the order of the settings. The line of action k for pair i shows i, the name, and the maximum norm and 2-norm of the difference between what action k and action 0 promise for the described matrices; with actions that compute in double precision both are 0. With --diff the differences are in files diff_0.dat, diff_1.dat, ... which can be read back as matrix files; no other file is touched, and without --diff none. Matrices written by the generator program can be used. Settings that are not valid, files that cannot be read or written are reported.", "quantifier": "all configurations, all contents of the disk, all matrices, all conforming BLAS routines, all numbers of repetitions", "why_tests_cant": "tests run a few configurations; the claim connects every configuration with every file content and with the whole output", "anchors": ["src/Benchmark/benchmark.cpp:29-138 main", "src/Benchmark/MatrixProvider.cpp:16-48", "src/Benchmark/ActionProvider.cpp:33-107", "src/Benchmark/Action_*.h", "include/BlasBooster/Core/DenseMatrix.h:671-677"]}
{"id": "C130", "title": "The terminal of the benchmark program", "statement": "For every configuration and every outcome the text on standard output and standard error and the exit status are exactly determined: the greeting comes first; arguments that cannot be parsed give usage and the reason on standard error and status 1, a request for help gives usage on standard error and status 0, and neither reads or writes a file; with invalid settings the greeting is followed by the message and 'Program was aborted.', status 1, without a table; otherwise the header, one line per executed pair and action in order with duration, norms and details, and the farewell (status 0) or the message of the failure (status 1), where a line begun by a failing action stays unfinished. The words of the output can be read back as the rows of the table. Every problem leaves a trace on the screen or in the exit status.", "quantifier": "all arguments, configurations, contents of the disk, matrices, BLAS routines, clocks and formats of numbers", "why_tests_cant": "the program has no tests; the claim ranges over every configuration and every point at which an action can fail", "anchors": ["src/Benchmark/benchmark.cpp:29-138 main", "include/BlasBooster/Core/Tracker.h", "src/Benchmark/Action_*.h"]}
{"id": "C131", "title": "Every limit in the settings governs its own type", "statement": "A block becomes the first type of the list for which the share of elements above the double-precision significance is at most the double-precision limit that the settings name for this type, and the share of those above the single-precision significance at most its single-precision limit. Changing the limits of one type moves blocks only to or from this type and leaves the contents of all others unchanged.", "quantifier": "all settings with dense double allowed, all blocks", "why_tests_cant": "sixteen limits with the same type, copied by hand into sixteen specialisations: a test with the defaults cannot see an exchanged name, and the suite does not call the getters", "anchors": ["include/BlasBooster/Core/Threshold.h: ThresholdSettings 16-36, OccupationThresholdDistributor 98-181", "include/BlasBooster/Core/MatrixConverter.h: IsConvertible 13-25"]}
{"id": "C132", "title": "The terminals of the pattern program and the generator", "statement": "For every run of show_pattern and generate_matrix that ends, the text on standard output and standard error and the exit status are exactly determined: the greeting; for show_pattern the name of the matrix file, for type blocks the matrix of the types and the matrix of the dimensions of the blocks, readable as words, and always the elapsed time; then the farewell (status 0) or the message of the failure and 'Program was aborted.' (status 1). Arguments that cannot be parsed and requests for help write only the usage on standard error and touch no file. Every problem leaves a trace on the screen or in the exit status.", "quantifier": "all arguments, options, settings, files, matrices and outcomes", "why_tests_cant": "the programs have no tests; the claim ranges over every point at which a run can fail and every matrix of blocks", "anchors": ["src/Benchmark/show_pattern.cpp:30-150 main", "src/Benchmark/generate_matrix.cpp:10-82 main", "include/BlasBooster/Utilities/ScopedTimer.h:23-28", "include/BlasBooster/Core/MatrixIO.h:38-91"]}
{"id": "C133", "title": "Cursors moved forwards and backwards", "statement": "Row and column cursors that are moved with ++ and -- any number of times stand at the row or column counted; an inner cursor obtained from begin() or end() and moved likewise reads and writes exactly the element of the matrix or submatrix at the counted place; two cursors on a line are equal exactly if they stand at the same place, and equal end() exactly after as many steps as there are elements; going along rows or along columns reaches the same element. Major and Minor name the directions across and along the storage order.", "quantifier": "all matrices and submatrices of both orientations, all sequences of steps", "why_tests_cant": "the library's loops only step forwards and the suite has no test of the cursors; overloads are selected by orientation and direction, sixteen combinations", "anchors": ["include/BlasBooster/Core/Cursor.h", "include/BlasBooster/Core/CursorBase.h", "include/BlasBooster/Core/StridedCursorBase.h", "include/BlasBooster/Core/Direction.h"]}
{"id": "C134", "title": "Subscripts of cursors", "statement": "c[n] reads and writes the element n places further along the line of the cursor.", "quantifier": "all matrices and submatrices of both orientations, all cursors and places", "why_tests_cant": "no test uses the operator; it is right for one orientation of each direction", "anchors": ["include/BlasBooster/Core/Cursor.h: operator [] 202"]}
{"id": "C135", "title": "Pattern images can be read back", "statement": "A program that reads XPM files gets from every pattern file the width, the height and for every pixel the colour of the first entry of the palette whose threshold does not exceed the absolute value of the element, else the background colour.", "quantifier": "all palettes, all matrices and submatrices of any size, all images written by show_pattern", "why_tests_cant": "The generator has no tests; whether the text is a well-formed image depends on quotes, commas and counts at every border case (no rows, one row, no palette), and on every palette.", "anchors": ["include/BlasBooster/Core/PatternGenerator.h: 43-106", "src/Benchmark/show_pattern.cpp: main 30-150"]}
{"id": "C136", "title": "Programs that are stopped while they write a file", "statement": "generate_matrix and show_pattern that are stopped at any point change no other file; their own file is as it was or holds a beginning of what they would have written, and all of it if they are not stopped. After any number of stopped runs, a run that is not stopped leaves the files as if nothing had happened before. Whatever reads such a file afterwards gets the complete matrix or image, or reports that the file is incomplete.", "quantifier": "all points at which the programs can be stopped, all options, settings, matrices and contents of the disk", "why_tests_cant": "crash points: a test lets the programs run to the end", "anchors": ["src/Benchmark/generate_matrix.cpp:43-64", "src/Benchmark/show_pattern.cpp:65-132", "include/BlasBooster/Core/PatternGenerator.h: 43-106", "include/BlasBooster/Core/MatrixFileIO.h:24-54", "src/MatrixFactory/MatrixFileImporter.cpp:18-30"]}
{"id": "C137", "title": "The Python module", "statement": "A Python Matrix made from an array holds the elements of the array; + and * of two such matrices give matrices that hold the sum and the product; names that are bound to the same matrix, rebound or deleted do not change this, and objects of other types are rejected with an exception.", "quantifier": "all Python programs that make, bind, delete, add, multiply and print matrices in any order", "why_tests_cant": "histories of a program; the binding has no tests", "anchors": ["src/PythonBinding/matrix.cpp:9-34", "include/BlasBooster/Core/DynamicMatrix.h:10", "include/BlasBooster/Core/BinaryFunctors.h:592-612", "include/BlasBooster/Core/MatrixMultExp.h:150-183", "include/BlasBooster/Utilities/exec_dyn_2dim.h:35-39"]}
{"id": "C138", "title": "Comparing occupation and norm with a limit", "statement": "isOccupationLargerThan(v, checker) is true exactly if more than v*rows*columns elements of the matrix are accepted, isOccupationSmallerThan exactly if fewer are; isNormLargerThan and isNormSmallerThan compare the norm; never are both true; a dense, sparse, zero or two-part matrix with the same elements gives the same answers.", "quantifier": "all matrices of all formats, all limits and checkers", "why_tests_cant": "the suite asks a few matrices with one threshold; the formats are implemented separately", "anchors": ["include/BlasBooster/Core/OccupationPolicy.h: 30-49", "include/BlasBooster/Core/NormPolicy.h: 20-46", "include/BlasBooster/Core/ZeroMatrix.h: 107-150", "include/BlasBooster/Core/MultipleMatrix.h: 68-99", "include/BlasBooster/Core/Occupation.h: 9-25"]}
{"id": "C139", "title": "A benchmark program that is stopped", "statement": "A benchmark program with --diff that is stopped at any point changes no file but diff_0.dat, diff_1.dat, \u2026. There is one number t: the files of the factors before t are as a run that is not stopped leaves them, those after t are untouched, and that of the factors t is untouched or holds a beginning, column by column, of the difference of the results of some action and the first action. A difference that is complete may be that of any action, not only the last, so a reader cannot tell. After any number of stopped runs, a run that is not stopped prints the same table, exits with the same status and leaves the same files as if nothing had happened before, if the configuration reads none of these files.", "quantifier": "all points at which the program can be stopped, all configurations, actions, matrices, contents of the disk, and numbers of stopped runs before", "why_tests_cant": "Crash points and histories: a test runs the program to its end, on an empty directory.", "anchors": ["src/Benchmark/benchmark.cpp: main", "src/Benchmark/ActionProvider.cpp", "src/Benchmark/MatrixProvider.cpp"]}
{"id": "C140", "title": "Programs that write files at the same time", "statement": "Any number of programs that write files at the same time, in any schedule in which all of them end, leave every file as if they had run one after the other in some order; a file that none of them writes is as before; every program ends when it has got one step per element, one for opening and one for closing its file, whatever the others do.", "quantifier": "all schedules, any number of programs, all options of generate_matrix, all contents of the disk", "why_tests_cant": "Schedules: a test runs one program at a time, in its own directory.", "anchors": ["src/Benchmark/generate_matrix.cpp: main 43-64", "src/Benchmark/benchmark.cpp: 111-114"]}
{"id": "C141", "title": "Programs on a disk that is full", "statement": "generate_matrix, show_pattern and benchmark --diff either write every file completely or report that they could not, whatever room there is on the disk: success on the terminal and exit status 0 mean that the files are complete. Whoever reads an incomplete file afterwards is told.", "quantifier": "all amounts of room, all options, settings, configurations, matrices and contents of the disk", "why_tests_cant": "Failures of the environment: a test runs on a disk with enough room.", "anchors": ["src/Benchmark/generate_matrix.cpp: main 63-64", "src/Benchmark/benchmark.cpp: 111-114", "include/BlasBooster/Core/PatternGenerator.h: operator () 47-106"]}
