# Formal model of BlasBooster: design and trusted base

Everything lives in `lean/Verif`:

* `Model/*.lean` – the definitions. Each one cites the file and lines of /repo it models and says where it simplifies.
* `Spec*.lean` – the small specification vocabulary of the theorem statements: which mathematical matrix an object
  denotes (`Dense.Is`, `Sparse.Is`, `SMat.Is`, `Mat.Is`, `Blocked.Is`), what a norm is, what a valid compressed matrix is.
* `Lemmas/*.lean` – auxiliary lemmas.
* `Props/*.lean` – the property theorems, named after the property (`C12_…`), with non-vacuity examples beside them.
* `properties.jsonl` – the properties; `MANIFEST.json` – status and theorem names; `AXIOMS.md` – axioms per theorem;
  `seeded/LOG.jsonl` – seeded bugs and the theorems that caught them.

## Approach

* **Outcomes.** A C++ call is a function into `Res α = Except Fault α` with `Fault = ub | throw msg | assertFail`.
  Undefined behaviour (out-of-range or uninitialised read, out-of-range write, run-away pointer loop, use after free,
  double free, null dereference, read of an uninitialised local) is a distinct outcome, never totalised away. Unless a
  theorem says otherwise it proves that the call returns `ok`, i.e. that there is no undefined behaviour.
* **Memory.** A heap array is `List (Option R)`: `none` is a cell that was allocated but never written. Reads of `none`
  and accesses beyond the length are `ub`. Iterators and pointers are offsets (`Nat`) in one array; a
  `for (cur = b; cur != e; cur += stride)` loop is `ptrLoop`, whose run-away case is `ub`; counting loops are `loopN`.
  Ownership (who frees what) is modelled separately in `Model/Storage.lean` with an explicit heap.
* **Scalars.** The element type `R` is abstract. Where no algebraic law is needed (element movement, dense products with
  explicit summation order) only `[Zero R] [Add R] [Mul R]` is assumed, so those theorems also hold for IEEE floats.
  Where a law is needed (sums of parts, norms) `R` is a semiring, ring, ordered field or ℝ,
  and the theorem speaks about exact arithmetic. C92 – C95 treat sums and products in rounding arithmetic: they assume
  only x + 0 = x, x * 0 = 0 (and for error bounds the standard model of floating point errors), and p-bit binary numbers
  with round to nearest (`Fp`, SpecFloat.lean) are proved to satisfy the assumptions. In most models conversion between element types is an abstract function `cvt`; C96 – C100 use a
  model with both element types (`Typed`), abstract in `Formats`/`Numbers` (SpecTyped.lean), whose assumptions are proved for
  24 and 53 bit binary numbers (Lemmas/TypedFp.lean). C104 treats norms in rounding arithmetic (`NormRounding`,
  SpecNormFp.lean; proved for binary numbers in Lemmas/FpOps.lean).
* **Sizes.** `size_t` is `Nat`, except where wrap-around or narrowing is the point: striped iterators, block size guard,
  band matrices, file window checks, BLAS integers.
* **Build configurations.** `assert` and `BLASBOOSTER_CORE_FAILURE` are modelled as `assertFail` (debug), an exception or
  nothing (`Build`). Theorems that prove the outcome `ok` show that no assertion fires, so they hold in every build.
* **Claims that are false of the code.** They are not dropped: the negation is proved, with a concrete witness or for all
  inputs of a class (theorems named `…_is_wrong`, `…_is_ub`, …), and the part of the claim that does hold is proved
  beside it. If only part of a claim is proved the theorem name ends in `_partial`. Claims that hold on a natural domain
  (e.g. column-major operands, the library's default) are stated for that domain; what happens outside is the subject of
  C59 – C91, C95.

## Trusted base

* Lean 4.33.0's kernel. No axioms were added; every theorem depends on at most `propext`, `Classical.choice` and
  `Quot.sound` (AXIOMS.md lists them theorem by theorem; regenerate with `tools/axioms.py`). No compiled evaluation is
  trusted: concrete cases are checked by kernel reduction (`decide +kernel`, `rfl`).
* The reading of the C++ source. Apart from the table of BLAS wrappers (`tools/gen_wrappers.py`, a text extraction) there is no translation tool and the code was not executed; the model was written by
  hand from the text, function by function, with file and line citations.
* The semantics given to C++ constructs in `Model/Base.lean` and the simplifications stated in the comments of each
  definition; the meaning of the standard library containers (`std::set`, `std::map`, `std::vector`, iostreams) as stated
  where they are used; the published contract of `?gemm` and `mkl_?csrmm` (`Gemm.Conforms`, `Csrmm.Conforms`), of Eigen's
  and Blaze's product, of `mkl_?csrmultcsr` and of `std::uniform_real_distribution` (`Prod.Conforms`, `Csrmultcsr.Conforms`,
  `Engine.Conforms`). For each contract a reference implementation is proved to meet it.
* The specification files `Spec*.lean` and the definitions used in theorem statements.

## What is modelled

| code | model |
|------|-------|
| Core/Dimension.h, DenseMatrix.h (addressing, submatrix constructors), Cursor.h, StripedIterator.h | `Layout`, `DimHist` |
| Core/Storage.h (variable-size and fixed-size heap storage, life cycle) | `Storage` |
| Core/DenseMatrix.h (constructors, conversions, fill, resize, init lists), Filler, Transposition.h, Copy.h | `Dense`, `BlockedList` |
| whole programs over `Matrix<Dense,T>` variables, with temporaries and product expressions (MatrixMultExp.h) | `Prog` (specification `SpecProg`) |
| Core/SparseMatrix.h, SparseStorage.h, Transposition.h (sparse) | `Sparse` |
| Core/BinaryFunctors.h, ZeroMatrix.h, MultipleMatrix.h, MatrixMultExp.h | `Dense`, `Sparse`, `Mat` |
| Core/Multiplication_Native.h, Multiplication_OpenBLAS.h, Multiplication_IntelMKL.h (gemm, csrmm), TheBestPolicy | `Dense`, `Sparse`, `Mat`, `Blocked`, `Blas` |
| Core/AbsoluteValueRangeChecker.h, Occupation.h, OccupationPolicy.h, Norm.h, NormPolicy.h | `Checker`, `Norm`, `Cache` |
| Core/MatrixConverter.h, Threshold.h, DynamicMatrixTypeList.h | `Converter` |
| Core/BlockedMatrix.h, BlockedMatrixGenerator.h, BlockSizeGenerator.h, src/Benchmark/Action_blasbooster_block.h | `Blocked`, `BlockSize` |
| element types of results and mixed `float`/`double` arithmetic (MatrixMultExp.h, BinaryFunctors.h, MatrixConverter.h) | `Typed` |
| operands sharing memory (BinaryFunctors.h op=, Copy.h), shared pointers to blocks (DynamicMatrix.h) | `Alias`, `Shared` |
| Utilities/TypeList.h, exec_if*.h, exec_dyn*.h | `Dispatch` |
| Core/MatrixFileIO.h, src/MatrixFactory/MatrixFileImporter.cpp, serialisation | `FileIO`, `Serialize` |
| Core/StatisticalErrorInformation.h, EqualWithinNumericalAccuracy.h | `Compare` |
| Utilities/EnumParser.h, Tracker.h, Core/PatternGenerator.h | `Tracker`, `Pattern` |
| src/Benchmark/MatrixProvider.*, generate_matrix.cpp | `Provider` |
| Core/GenerateTypeMatrix.h, DynamicMatrixFunctions.h, src/Benchmark/show_pattern.cpp (type-block picture) | `Info` |
| Core/MatrixIO.h (text output) | `Print` |
| MatrixFactory/MatrixGenerator.h, .cpp | `Generator` |
| src/Benchmark/Action_*.h, ActionProvider.cpp, benchmark.cpp, matrix_matrix_mult.cpp | `Bench` |
| src/Interfaces/*/BlasInterface_*.cpp, include/BlasBooster/BlasInterface/*.h | `Wrapper`, `WrapperTable` (rows extracted by tools/gen_wrappers.py) |
| Core/Multiplication_Eigen.h, Multiplication_Blaze.h, Multiplication_IntelMKL.h (csrmultcsr) | `External` |

## What is not modelled

* Underflow of floating-point numbers. Overflow, infinities and NaN are treated in C116 and C117 only, signed zeros in C117 (its
  theorems assume no law of the element type, or commutativity of + alone); rounding in
  C92 – C100 and C104; the other theorems over `R` with laws are about exact arithmetic. Performance. The library starts no threads; use
  from several threads is the subject of C103.
* Environment failures except missing or short files and allocation failure (C105, C106).
* Template overload resolution and type deduction: the model contains the overload that the text selects. pybind11 is assumed to
  behave as documented (C137).
* The command line front ends, option and XML/JSON parsing, the
  plotting scripts, Boost's archive framing, serialisation of submatrices (it writes a raw pointer).

## Findings

Defects of the code that the proofs exposed, each with a theorem: views of views use the wrong leading dimension (C59);
copies of proxies and `load` leak, fixed-size storages double free (C60); a moved-from storage cannot be resized and a
self-move loses the contents (C61); many operations ignore the orientation (C62); empty shapes run away or report NaN
(C63); `nnz()` counts uninitialised cells after sums, products and some transpositions (C64); Sparse−Dense, Zero−M, X−Y and
in-place operators on two-part matrices are wrong (C65); failures leave inconsistent objects (C66); sparse equality
ignores dimensions (C67); cached counts and norms go stale and a stale count makes a conversion write out of bounds (C33,
C34); the block size generator reads uninitialised variables for most small dimensions (C39) and swaps row and column
detection for column-major matrices (C41); converting a plain matrix loses elements that the selected type should keep
(C36); the 1-norm of a two-part matrix is twice that of its first part (C35); `getSize()` goes stale (C47); file windows overflow
and short files are silent (C70); with MKL mixed float/double products lose precision (C71);
overlapping submatrices are combined with already changed values (C72); copies of blocked matrices share their blocks (C73) and
move construction loses the unblocked dimensions (C74); the type counters are never initialised and two-part blocks have
norm 0 (C75); a border wider than a block makes the picture loop run away (C76); printed dimension matrices are not aligned
(C77); printing a sparse sum or product reads uninitialised cells, printing changes the stream's number format (C78);
the random generator ignores `occupation` (C79); the Blaze interface throws for most sizes (C80); MKL's sparse product is
B*A for square and reads out of bounds for tall column-major matrices (C81);
unknown benchmark actions are dropped silently and difference files overwrite each other (C83); `matrix_matrix_mult` with an
unknown name does not throw (C84); with a BLAS that returns complex numbers by value the complex dot products are always 0 (C87);
a moved-from matrix keeps its dimensions, cannot be resized and ignores `+=` (C91);
conversions replace NaN by 0, the maximal deviation ignores NaN, `equal` is false for a matrix with an infinity and its copy (C116);
the zero type's single-precision limit is the double-precision one (C131); the subscript of a cursor ignores its stride (C134);
palettes with long or equal keys give files that are not images of the matrix (C135); matrices constructed from the file of a stopped
program are accepted although elements were never written (C136); the Python class ignores the array it is made from, sums are null
pointer accesses (C137); the difference in a file need not be that of the last action when the benchmark was stopped (C139); two generators
with one file leave a mixture of their matrices (C140); on a full disk the programs report success and leave cut files (C141).
