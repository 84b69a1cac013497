# Formal model of BlasBooster: design and trusted base

Everything lives in `lean/Verif`:

* `Model/*.lean` – the definitions. Each one cites the file and lines of /repo it models and says where it simplifies.
* `Spec*.lean` – the small specification vocabulary of the theorem statements: which mathematical matrix an object
  denotes (`Dense.Is`, `Sparse.Is`, `SMat.Is`, `Mat.Is`, `Blocked.Is`), what a norm is, what a valid compressed matrix is.
* `Lemmas/*.lean` – auxiliary lemmas.
* `Props/*.lean` – the property theorems, named after the property (`C12_…`), with non-vacuity examples beside them.
* `properties.jsonl` – the properties; `MANIFEST.json` – status and theorem names; `AXIOMS.md` – axioms per theorem;
  `seeded/LOG.jsonl` – seeded bugs and the theorems that caught them.

## Approach

* **Outcomes.** A C++ call is a function into `Res α = Except Fault α` with `Fault = ub | throw msg | assertFail`.
  Undefined behaviour (out-of-range or uninitialised read, out-of-range write, run-away pointer loop, use after free,
  double free, null dereference, read of an uninitialised local) is a distinct outcome, never totalised away. Unless a
  theorem says otherwise it proves that the call returns `ok`, i.e. that there is no undefined behaviour.
* **Memory.** A heap array is `List (Option R)`: `none` is a cell that was allocated but never written. Reads of `none`
  and accesses beyond the length are `ub`. Iterators and pointers are offsets (`Nat`) in one array; a
  `for (cur = b; cur != e; cur += stride)` loop is `ptrLoop`, whose run-away case is `ub`; counting loops are `loopN`.
  Ownership (who frees what) is modelled separately in `Model/Storage.lean` with an explicit heap.
* **Scalars.** The element type `R` is abstract. Where no algebraic law is needed (element movement, dense products with
  explicit summation order) only `[Zero R] [Add R] [Mul R]` is assumed, so those theorems also hold for IEEE floats.
  Where a law is needed (sums of parts, norms) `R` is a semiring, ring, ordered field or ℝ,
  and the theorem speaks about exact arithmetic. C92 – C95 treat sums and products in rounding arithmetic: they assume
  only x + 0 = x, x * 0 = 0 (and for error bounds the standard model of floating point errors), and p-bit binary numbers
  with round to nearest (`Fp`, SpecFloat.lean) are proved to satisfy the assumptions. In most models conversion between element types is an abstract function `cvt`; C96 – C100 use a
  model with both element types (`Typed`), abstract in `Formats`/`Numbers` (SpecTyped.lean), whose assumptions are proved for
  24 and 53 bit binary numbers (Lemmas/TypedFp.lean). C104 treats norms in rounding arithmetic (`NormRounding`,
  SpecNormFp.lean; proved for binary numbers in Lemmas/FpOps.lean).
* **Sizes.** `size_t` is `Nat`, except where wrap-around or narrowing is the point: striped iterators, block size guard,
  band matrices, file window checks, BLAS integers.
* **Build configurations.** `assert` and `BLASBOOSTER_CORE_FAILURE` are modelled as `assertFail` (debug), an exception or
  nothing (`Build`). Theorems that prove the outcome `ok` show that no assertion fires, so they hold in every build.
* **Claims that are false of the code.** They are not dropped: the negation is proved, with a concrete witness or for all
  inputs of a class (theorems named `…_is_wrong`, `…_is_ub`, …), and the part of the claim that does hold is proved
  beside it. If only part of a claim is proved the theorem name ends in `_partial`. Claims that hold on a natural domain
  (e.g. column-major operands, the library's default) are stated for that domain; what happens outside is the subject of
  C59 – C91, C95.

## Trusted base

* Lean 4.33.0's kernel. No axioms were added; every theorem depends on at most `propext`, `Classical.choice` and
  `Quot.sound` (AXIOMS.md lists them theorem by theorem; regenerate with `tools/axioms.py`). No compiled evaluation is
  trusted: concrete cases are checked by kernel reduction (`decide +kernel`, `rfl`).
* The reading of the C++ source. Apart from the table of BLAS wrappers (`tools/gen_wrappers.py`, a text extraction) there is no translation tool and the code was not executed; the model was written by
  hand from the text, function by function, with file and line citations.
* The semantics given to C++ constructs in `Model/Base.lean` and the simplifications stated in the comments of each
  definition; the meaning of the standard library containers (`std::set`, `std::map`, `std::vector`, iostreams) as stated
  where they are used; the published contract of `?gemm` and `mkl_?csrmm` (`Gemm.Conforms`, `Csrmm.Conforms`), of Eigen's
  and Blaze's product, of `mkl_?csrmultcsr` and of `std::uniform_real_distribution` (`Prod.Conforms`, `Csrmultcsr.Conforms`,
  `Engine.Conforms`). For each contract a reference implementation is proved to meet it.
* The specification files `Spec*.lean` and the definitions used in theorem statements.

## What is modelled

| code | model |
|------|-------|
| Core/Dimension.h, DenseMatrix.h (addressing, submatrix constructors), Cursor.h, StripedIterator.h | `Layout`, `DimHist` |
| Core/Storage.h (variable-size and fixed-size heap storage, life cycle) | `Storage` |
| Core/DenseMatrix.h (constructors, conversions, fill, resize, init lists), Filler, Transposition.h, Copy.h | `Dense`, `BlockedList` |
| whole programs over `Matrix<Dense,T>` variables, with temporaries and product expressions (MatrixMultExp.h) | `Prog` (specification `SpecProg`) |
| Core/SparseMatrix.h, SparseStorage.h, Transposition.h (sparse) | `Sparse` |
| Core/BinaryFunctors.h, ZeroMatrix.h, MultipleMatrix.h, MatrixMultExp.h | `Dense`, `Sparse`, `Mat` |
| Core/Multiplication_Native.h, Multiplication_OpenBLAS.h, Multiplication_IntelMKL.h (gemm, csrmm), TheBestPolicy | `Dense`, `Sparse`, `Mat`, `Blocked`, `Blas` |
| Core/AbsoluteValueRangeChecker.h, Occupation.h, OccupationPolicy.h, Norm.h, NormPolicy.h | `Checker`, `Norm`, `Cache` |
| Core/MatrixConverter.h, Threshold.h, DynamicMatrixTypeList.h | `Converter` |
| Core/BlockedMatrix.h, BlockedMatrixGenerator.h, BlockSizeGenerator.h, src/Benchmark/Action_blasbooster_block.h | `Blocked`, `BlockSize` |
| element types of results and mixed `float`/`double` arithmetic (MatrixMultExp.h, BinaryFunctors.h, MatrixConverter.h) | `Typed` |
| operands sharing memory (BinaryFunctors.h op=, Copy.h), shared pointers to blocks (DynamicMatrix.h) | `Alias`, `Shared` |
| Utilities/TypeList.h, exec_if*.h, exec_dyn*.h | `Dispatch` |
| Core/MatrixFileIO.h, src/MatrixFactory/MatrixFileImporter.cpp, serialisation | `FileIO`, `Serialize` |
| Core/StatisticalErrorInformation.h, EqualWithinNumericalAccuracy.h | `Compare` |
| Utilities/EnumParser.h, Tracker.h, Core/PatternGenerator.h | `Tracker`, `Pattern` |
| src/Benchmark/MatrixProvider.*, generate_matrix.cpp | `Provider` |
| Core/GenerateTypeMatrix.h, DynamicMatrixFunctions.h, src/Benchmark/show_pattern.cpp (type-block picture) | `Info` |
| Core/MatrixIO.h (text output) | `Print` |
| MatrixFactory/MatrixGenerator.h, .cpp | `Generator` |
| src/Benchmark/Action_*.h, ActionProvider.cpp, benchmark.cpp, matrix_matrix_mult.cpp | `Bench` |
| src/Interfaces/*/BlasInterface_*.cpp, include/BlasBooster/BlasInterface/*.h | `Wrapper`, `WrapperTable` (rows extracted by tools/gen_wrappers.py) |
| Core/Multiplication_Eigen.h, Multiplication_Blaze.h, Multiplication_IntelMKL.h (csrmultcsr) | `External` |

## What is not modelled

* Underflow of floating-point numbers. Overflow, infinities and NaN are treated in C116 and C117 only, signed zeros in C117 (its
  theorems assume no law of the element type, or commutativity of + alone); rounding in
  C92 – C100 and C104; the other theorems over `R` with laws are about exact arithmetic. Performance. The library starts no threads; use
  from several threads is the subject of C103.
* Environment failures except missing or short files and allocation failure (C105, C106).
* Template overload resolution and type deduction: the model contains the overload that the text selects. pybind11 is assumed to
  behave as documented (C137).
* The command line front ends, option and XML/JSON parsing, the
  plotting scripts, Boost's archive framing, serialisation of submatrices (it writes a raw pointer).

## Findings

Defects of the code that the proofs exposed, each with a theorem: views of views use the wrong leading dimension (C59);
copies of proxies and `load` leak, fixed-size storages double free (C60); a moved-from storage cannot be resized and a
self-move loses the contents (C61); many operations ignore the orientation (C62); empty shapes run away or report NaN
(C63); `nnz()` counts uninitialised cells after sums, products and some transpositions (C64); Sparse−Dense, Zero−M, X−Y and
in-place operators on two-part matrices are wrong (C65); failures leave inconsistent objects (C66); sparse equality
ignores dimensions (C67); cached counts and norms go stale and a stale count makes a conversion write out of bounds (C33,
C34); the block size generator reads uninitialised variables for most small dimensions (C39) and swaps row and column
detection for column-major matrices (C41); converting a plain matrix loses elements that the selected type should keep
(C36); the 1-norm of a two-part matrix is twice that of its first part (C35); `getSize()` goes stale (C47); file windows overflow
and short files are silent (C70); with MKL mixed float/double products lose precision (C71);
overlapping submatrices are combined with already changed values (C72); copies of blocked matrices share their blocks (C73) and
move construction loses the unblocked dimensions (C74); the type counters are never initialised and two-part blocks have
norm 0 (C75); a border wider than a block makes the picture loop run away (C76); printed dimension matrices are not aligned
(C77); printing a sparse sum or product reads uninitialised cells, printing changes the stream's number format (C78);
the random generator ignores `occupation` (C79); the Blaze interface throws for most sizes (C80); MKL's sparse product is
B*A for square and reads out of bounds for tall column-major matrices (C81);
unknown benchmark actions are dropped silently and difference files overwrite each other (C83); `matrix_matrix_mult` with an
unknown name does not throw (C84); with a BLAS that returns complex numbers by value the complex dot products are always 0 (C87);
a moved-from matrix keeps its dimensions, cannot be resized and ignores `+=` (C91);
conversions replace NaN by 0, the maximal deviation ignores NaN, `equal` is false for a matrix with an infinity and its copy (C116);
the zero type's single-precision limit is the double-precision one (C131); the subscript of a cursor ignores its stride (C134);
palettes with long or equal keys give files that are not images of the matrix (C135); matrices constructed from the file of a stopped
program are accepted although elements were never written (C136); the Python class ignores the array it is made from, sums are null
pointer accesses (C137); the difference in a file need not be that of the last action when the benchmark was stopped (C139); two generators
with one file leave a mixture of their matrices (C140); on a full disk the programs report success and leave cut files (C141).

## Per property: model, proof, result

"Result" is the status in MANIFEST.json; the note there says what is missing or false.

| id | property | modelled in | proved by | result |
|----|----------|-------------|-----------|--------|
| C01 | Element addressing is a bijection | Layout: `View`, `pos`, `get`, `set` | div/mod bijection | proved |
| C02 | Element write is exact and local | Layout | injectivity of positions; induction over the list of writes | proved |
| C03 | Submatrix view aliases exactly its window | Layout: `View.sub` | arithmetic on offsets | proved |
| C04 | Storage iteration of a view visits every window element once | Layout: striped iterator state machine | invariant over increments, wrap-around `size_t` included | proved |
| C05 | Cursor traversal equals index traversal | Layout: cursor begin/end/stride | closed form of pointer loops | proved |
| C06 | Storage ownership is memory safe | Storage: heap with allocate/free, objects, `Op`, `step` | invariant by induction over histories | proved |
| C07 | Copies are independent values | Storage | frame invariant over histories | proved |
| C08 | Move transfers contents | Storage | history invariant | proved |
| C09 | Dense conversion preserves every element | Dense: `convert` | loop invariant over cells | proved |
| C10 | Dense transposition | Dense: `transpose` | loop invariant over cells | proved |
| C11 | Sparse to dense preserves every element | Sparse: `toDense` | loop invariant over runs | proved |
| C12 | Dense to sparse keeps exactly the significant elements | Sparse: `ofView`, `ofDense` | emission invariant | proved |
| C13 | Sparse transposition | Sparse: `transpose` (counting sort) | three loop invariants, conservation of counts | proved |
| C14 | Thresholded dense-sparse-dense round trip | Sparse | composition of C11, C12 | proved |
| C15 | Blocked round trip | Blocked: `generate`, `toDense` | partition lemma, loop invariants | proved |
| C16 | Dense addition and subtraction | Dense: `binop`, `binassign` | loop invariant | proved |
| C17 | Sparse addition and subtraction | Sparse: `binop` (three merge loops) | merge invariant with measure | proved |
| C18 | Mixed dense/sparse addition and subtraction | Sparse: `binopDS`, `binassignDS`, `binopSD` | loop invariants | proved |
| C19 | Zero matrix is the additive identity | Mat: `SMat.binop`, `Mat.add/sub` | case analysis over kinds | proved |
| C20 | Unevaluated sums (multiple matrices) behave like their sum | Mat | composition, case analysis over kinds | proved |
| C21 | Native dense product | Dense: `mulGeneral` | loop invariant with explicit summation order | proved |
| C22 | Cursor-based dense product | Dense: `mulCursor` | loop invariant with explicit summation order | proved |
| C23 | Sparse-sparse product | Sparse: `mulSS` | emission invariant, sum over runs | proved |
| C24 | Sparse-dense and dense-sparse products | Sparse: `mulSD`, `mulDS` | loop invariants, sum over runs | proved |
| C25 | Zero matrix annihilates | Mat: `mulZero` | case analysis | proved |
| C26 | Products of unevaluated sums | Mat: `mul` | distributivity, case analysis | proved |
| C27 | Blocked product | Blocked: `mul` | loop invariant over the grid, sum over a partition | proved |
| C28 | End-to-end block pipeline | Blocked, BlockSize: `blockPipeline` | composition of C15/C27/C36/C39, for any limits via C39_outcomes | partial |
| C29 | Value-range checkers implement their intervals | Checker | order reasoning | proved |
| C30 | Splitting by significance loses and duplicates nothing | Checker | order reasoning | proved |
| C31 | Checker ordering is a strict weak order | Checker | order reasoning over the sum of checker kinds | proved |
| C32 | Occupation counts and ratio | Checker: `countSig`, occupation | counting, monotonicity | proved |
| C33 | Occupation queries reflect the current contents | Cache: objects with caches, `Op`, `step` | ghost flag invariant over histories | partial |
| C34 | Norm queries reflect the current contents | Cache | ghost flag invariant over histories | partial |
| C35 | Norm values | Norm | fold over buffers, real analysis of max/sum | partial |
| C36 | Conversion by significance bounds the error | Converter: `convertMatrix` | case analysis over the type list | partial |
| C37 | Representation selection is the first match | Converter | search over the list of conditions | proved |
| C38 | Dynamic dispatch reaches the operands' types | Dispatch: type lists, tables | induction over type lists | partial |
| C39 | Block sizes partition the dimension | BlockSize; specification SpecBlockSize | refinement of the nested border loops to the greedy relation of SpecBlockSize; outcome = Finished or Stuck | partial |
| C40 | Block sizes respect the limits | BlockSize | invariants of the same loops | proved |
| C41 | Block borders follow the steepest changes | BlockSize: detection arrays; specification SpecBlockSize (steepest open place) | greedy refinement and argmax invariant | partial |
| C42 | Reading a window from a matrix file | FileIO | loop invariant over columns of the window | proved |
| C43 | Serialisation round trip | Serialize | induction over the archive | proved |
| C44 | Fillers initialise every element | Dense: fillers | loop invariant | proved |
| C45 | Error statistics | Compare: deviations | folds, real analysis | proved |
| C46 | BLAS calls compute the product | Blas: `gemm`/`csrmm` calls against a contract | contract instantiation; a reference implementation shows the contract satisfiable | proved |
| C47 | Dimension bookkeeping | DimHist | induction over histories, exact characterisation of harmful steps | partial |
| C48 | Approximate equality | Compare: `equal` | induction over buffers | proved |
| C49 | Initializer-list construction | Dense: `ofLists`; BlockedList | loop invariants | proved |
| C50 | Two-part matrix dimensions agree | Mat: `Multi` | induction over histories | partial |
| C51 | Call tracker accumulates | Tracker | induction over nested scopes | proved |
| C52 | Enum parser round trip | Tracker: `EnumParser` | induction over registrations | proved |
| C53 | Pattern colouring | Pattern | induction over palette, loop invariant | proved |
| C54 | Band matrix provider | Provider: `bandMatrix` | loop invariant, `size_t` arithmetic | proved |
| C55 | Sparse to sparse conversion | Sparse: `convert` | array conversion lemma, C13 | proved |
| C56 | Band matrices of every shape and width | Provider | loop invariant; negations by wrap-around | partial |
| C57 | Configured matrix sets | Provider | induction over the configuration | proved |
| C58 | Multiplication interface independence | Blas | uniqueness of the denoted object | proved |
| C59 | Views of views | Layout: `View.sub` twice | arithmetic | partial |
| C60 | No memory is leaked | Storage | counting invariant over frugal histories | partial |
| C61 | Moved-from storages stay usable | Storage | history invariant | partial |
| C62 | Storage orientation never changes results | Dense, Sparse, Norm, Compare, Serialize, FileIO | uniqueness of the denoted object | partial |
| C63 | Degenerate shapes | Dense, Sparse, Layout, Blas, Blocked, Checker | instances of the general theorems | partial |
| C64 | Reported number of stored elements | Sparse | induction over production histories | partial |
| C65 | Subtraction and in-place operators on every kind | Mat | case analysis over kinds | partial |
| C66 | Failed operations leave consistent objects | Serialize, FileIO, Mat | length invariants of partial executions | partial |
| C67 | Equality of sparse matrices | Compare | induction over buffers | partial |
| C68 | Malformed construction input is reported | Dense: `ofLists`; BlockedList | loop with failing steps | partial |
| C69 | Invalid calls are reported in every build | Mat, Tracker, Provider | case analysis over build configurations | partial |
| C70 | File and configuration errors are reported | FileIO, Provider | case analysis | partial |
| C71 | Mixed precision products | Blas | contract instantiation | partial |
| C72 | In-place operations on operands that share memory | Alias: one array for both operands | closed form of the run over any visiting order; hazard lemma for the negation | partial |
| C73 | Blocked matrices behave as values | Shared: heap of blocks, handles with pointers | simulation by a machine without pointers; counterexamples | partial |
| C74 | Moving a blocked matrix preserves it | Shared: `moveConstruct`, `moveAssign` | C08-style conversion lemma; first-step failure for the negation | partial |
| C75 | Type, dimension and norm matrices | Info: `mapGrid` and its three instances, `blockNorm`, `typeCounting` | loop invariant over both storages; C38 for the dispatch; C31 for the types; first-step failure for the counters | partial |
| C76 | Picture of the block types | Info: `picture`, `fillStriped`, `border` | nested loop invariants over rows and columns of blocks with the striped iterator lemmas; run-away or assertion for wide borders | partial |
| C77 | Printed dense matrices | Print: `dense`, streams as character lists | loop invariants for widths and text; a word splitter as the independent reader | partial |
| C78 | Printed sparse matrices and the stream's state | Print: `sparse` | loop invariant for the arrays; negations by the first failing step and by composition with C77 | partial |
| C79 | Random matrices | Generator: `value`, `step`, `generate`, any engine that meets the contract of `std::uniform_real_distribution` | loop invariant over the engine states; negations for `occupation`, order of evaluation, inverted range | partial |
| C80 | Products computed by Eigen and Blaze | External: `mulEigen`, `mulBlaze`, any routine that meets the contract of `cC = cA * cB` | contract + layout lemmas; exact characterisation of when Blaze throws | partial |
| C81 | Sparse products computed by MKL | External: `mulCsrCsr`, any `mkl_?csrmultcsr` that meets its contract | contract applied to the arrays read as compressed rows; the result is the product of the transposes, i.e. B*A; tall matrices are read out of bounds | partial |
| C82 | Benchmark actions | Bench: one definition per action, `make` | contracts of the routines, C80, C21, C28; induction over the repetitions | partial |
| C83 | Benchmark table | Bench: `provide`, `compare`, `others`, `matrices`, `runOn`, `run` | induction over the lists of actions and matrices; independent reading of line (i,k) with `IsNorm`; C82 + C83 composed in C83_exact_actions_agree | partial |
| C84 | Multiplication by name | Bench: `byName`, `sparseNative`, `csrmm`, `csrmultcsr` | composition of C12, C23, C11, C46, C81 | partial |
| C85 | BLAS calls reach the library unchanged | Wrapper: `Wrapper.call`, `select`; WrapperTable (extracted row by row from the sources by tools/gen_wrappers.py) | for an arbitrary library and memory; the whole table is checked by kernel evaluation against the reference list SpecBlas, the semantics of a forwarding call by induction on the argument list | proved |
| C86 | BLAS signatures | WrapperTable: definitions, declarations, prototypes, tags; reference signatures in SpecBlas | complete case analysis over both finite tables (kernel evaluation), both inclusions and uniqueness | proved |
| C87 | Complex dot products | Wrapper.call (`result` form); two library conventions in Props/Wrapper | for every dot routine and memory; negation: by-value libraries give 0 | partial |
| C88 | Number of BLAS threads | Wrapper: `setOpenBLAS`, `setIntelMKL` | induction over the history | proved |
| C89 | Programs over matrix variables mean what they say | Prog: `step`, `run` (heap, storages, dimension members, temporaries); SpecProg: variables as mathematical matrices | simulation relation (every variable's storage is owned and disjoint, dimension members except `full_size_` agree), one lemma per statement, induction over the program; leak freedom from the storage model | proved |
| C90 | Product expressions are evaluated when they are used | Prog: `lazy`, `eval` (two references) | statements other than `lazy`/`eval` commute with changing the stored expressions; induction over the statements in between | proved |
| C91 | Moved-from matrices | Prog, SpecProg (`hollow`) | negations for every legal program that leaves a moved-from variable; partial: assignment, exchange, destruction via the simulation | partial |
| C92 | Storage kinds do not influence the rounding | Dense, Sparse, Mat, Blocked; SpecFloat: `Arith` | loop invariants with left-to-right accumulation; skipped terms add 0; block loop generic in what is known of the accumulated block | proved |
| C93 | Rounding error of sums and products | as C92; SpecFloat: `Rounding`, `Fp` (p-bit binary numbers, unbounded exponent) | error calculus `Near` over the order of evaluation given by C92; `Fp` proved to satisfy the error model | proved |
| C94 | Rounding error of the blocked product | Blocked, Mat; SpecFloat | `Near` through the block loop, induction over the inner blocks | proved |
| C95 | Blocking does not change the result | Blocked, Dense; SpecFloat: `Fp 2` | negation by a concrete product evaluated in the kernel; partial: distance bound from C93 and C94, equality for one inner block | partial |
| C96 | Element types and storage of results | `Typed` (`TSMat`, `TMat`), SpecTyped (`productPrec`, `Kind.product`, …) | case analysis over the runtime types; the result is `ok` with the predicted type | proved |
| C97 | Precision in which elements of results are computed | `Typed`; values in SpecTyped (`TSMat.Is`) | the untyped theorems of C92 instantiated at float and at double, with widening a homomorphism for 0 only | proved |
| C98 | Error of the mixed precision product | `Typed` (`TBlocked.mul`) | block-wise error accounting (`Near2`: separate weights for double and float), induction over inner blocks | proved |
| C99 | Conversion to mixed precision keeps large elements exactly | `Typed` (`TMat.convertTo`, `convertMatrix`) | element-wise from the checker and filler theorems of C36/C37; `Numbers` discharged for 24 and 53 bit numbers | proved |
| C100 | Error of the whole pipeline in float and double | `Typed` (`TBlocked.generate/mul/toDense`), `Fp 24`, `Fp 53` | C98 + C99 + triangle inequality; `C100_float_double` has no assumption on arithmetic left | proved |
| C101 | Expressions over dynamic matrices | `Expr` (`TExpr.eval`), `Typed` | `SpecExpr` (`TExpr.Denotes`: exact value, value on absolute values, count of roundings); induction over the expression with relative error bounds that multiply | proved |
| C102 | Operands with mismatched dimensions are rejected | `Mat`, `Sparse`, `Dense`, `Blocked`, `Blas`, `External` | Every pair of kinds reaches an assertion before any access, except sums with a zero matrix, dense op= dense and blocked products: theorems on what these do, witnesses | partial |
| C103 | Use from several threads | `Threads` (`Act`, `Step`, `Call.act`): calls as sequences of single memory accesses, any interleaving | `SpecThreads`; ownership invariant (`Sep`) for race freedom and determinism, rely-guarantee (`Gives`) for norm queries, explicit schedules for the races | partial |
| C104 | Rounding error of norms and deviations | `NormFp`: the norm and deviation functions with the operations on `double` as parameters, over the typed matrices of `Typed` | `SpecNormFp`; calculus of relative errors (`RelErr`) for sums, squares, roots and maxima; `Lemmas/FpOps` proves the assumptions for binary floating point numbers | partial |
| C105 | Running out of memory | `OutOfMemory`: every operation of `Storage` with a flag for a failing allocation and the state the exception leaves; stack unwinding of constructors with several arrays; dense matrices (dimensions and storage) | failed harmless operations leave the world unchanged (so all worlds stay reachable ones of C06); a dangling owner survives every continuation (invariant over histories); constructors by induction over the members | partial |
| C106 | Sizes at the limits of the integer types | `Machine`: constructor, `resize`, element access and sizes of sparse matrices with 64 bit `size_t` and 32 bit `int` arithmetic | refinement of the natural number model of `Dense` for all histories within the limits; explicit elements beyond the array, sharing a cell, outside the limits | partial |
| C107 | Moving iterators forwards and backwards | Model/Iterator.lean (increment, decrement, begin, end, rbegin, rend with the wrap-around of size_t and the int block counter) | invariant relating pointer, position and block counter to the index, by induction over the steps; explicit computation at the end | partial |
| C108 | Storages that hold their elements in place are values | Model/InPlace.lean (both class templates, statement by statement) | simulation: every statement of the code agrees with a value semantics (`specStep`), by induction over the program | partial |
| C109 | Regenerating the BLAS interface | Model/Templates.lean (the .pre files verbatim), Model/CodeGen.lean (lexer with Jinja's whitespace rules, parser, renderer) | the templates are parsed by the kernel; the loops are evaluated for every list by induction; reading back the parameter lists by induction over the text | partial |
| C110 | Programs over dynamic matrices | `Dyn` (state: list of matrices, pointer variables, stored products; statements) over `Mat`, `Alias`; specification `SpecDyn` (`Means`, `Runs`, `Agrees`) | Simulation by induction on the program; each statement by the theorems on sums, differences, products and in-place operations of all kinds; effects of a statement on the other variables read off the heap; witnesses by computation | partial |
| C111 | Printed dynamic matrices | `PrintDyn` over `Print` and `Typed` (names by element type, state of the stream) | induction over the sequence, each text by the theorems of C77 and C78; spare cells, sizes of zero products and the stream's notation by computation | partial |
| C112 | Queries in programs over dynamic matrices | Model/DynQuery.lean (the language of C110 with queries, and the norms remembered per matrix in memory) | simulation by induction over the program: remembered norms are norms of the current contents as long as no matrix is changed after being asked; conversely a remembered norm survives every statement (C112_first_norm_stays) | partial |
| C113 | Norms and occupations of computed matrices | Model/CacheSum.lean (sums, differences and products of objects with caches, on top of Model/Cache.lean) | invariant per object (clean, asked, stale) by induction over the program; direct computation for the results | partial |
| C114 | Comparing matrices with == | Model/StorageEq.lean (== on the storage objects of Model/Storage.lean; dense and sparse matrices) | the ownership invariant of C06 over all reachable worlds | partial |
| C115 | Text of the benchmark tables | Model/Table.lean (the output statements with the state of the stream; the text of a floating-point number is a parameter) | induction over actions and matrices with an invariant of the stream state; splitting at blanks by induction | partial |
| C116 | Infinities and NaN | SpecIeee (Ieee, FinArith), Checker, Converter, Compare, NormFp, Dense, Sparse | case analysis over finite/infinite/NaN for the operations; loop invariants for max (never NaN, skips NaN) and + (NaN iff a summand is); FpB (bounded binary numbers) is proved to be a FinArith | partial |
| C117 | Operations use exactly the stored elements | SpecStored (storedAt, dotStored, joinStored, Stores), Sparse, Dense, Mat | the loop invariants of products, sums and in-place operations restated with dotStored and joinStored, no algebraic law used; C14–C25, C92 follow from it | proved |
| C118 | Programs over matrices of all kinds | SpecMix (language, meaning by stored elements, mathematical reading), Mix | simulation: one step lemma per statement from C117 and the lemmas on conversion and transposition, induction over the program; the mathematical reading by a second simulation | proved |
| C119 | Programs over sparse matrix variables | SpecSparseProg (language and meaning), SparseProg (two heaps, three storages per matrix, temporaries) | simulation: representation of the heaps by slots, one lemma per statement, induction over the program; leak freedom from C60 | proved |
| C120 | Sizes and moved-from sparse matrices | SparseProg, SpecSparseProg (`n`, `hollow`) | negations: witnesses for exchange, for every legal program that leaves a moved-from variable; partial: programs without exchange keep sizes right (induction over the program), assignment and destruction via the simulation | partial |
| C121 | Storages of fixed size keep their elements and their memory | `Model/FixedStorage`: every operation of the fixed-size heap storage on the heap of `Model/Storage`, with the exception it throws; meaning of programs in `SpecFixed` | ownership invariant over histories; exact accounting of unowned blocks; simulation of `SpecFixed`; negative theorems for every reachable world | partial |
| C122 | Programs that mix dense and sparse matrix variables | SpecMixProg (language and meaning), MixProg (the machines of Prog and SparseProg side by side, mixed statements with their temporaries) | the two simulations side by side, one lemma per mixed statement, induction over the program; deferred products: execution commutes with a change of the stored expressions | proved |
| C123 | Sparse matrices constructed with a filler | Model/SparseFill.lean (constructor with filler, AllFiller and ContinuousNumberFiller on the three arrays) | loop invariants over the value, key and offset arrays give the exact contents; validity and agreement with the dense filler follow; negative results for capacities that are too small, row-major shapes and AllFiller by the same loops | partial |
| C124 | Variables that are submatrix views | Model/ViewProg.lean (view objects: dimension, leading dimension, striped storage; constructors, assignments, element access, filling), meaning in SpecViewProg.lean | simulation of the meaning by the machine, statement by statement, for all programs; a view constructed by moving is tracked as addressing only its first column | partial |
| C125 | Programs over blocked matrix variables | Model/BlockProg.lean (blocked matrix objects with unblocked dimension; copy, move, assignment, swap, product), meaning in SpecBlockProg.lean | simulation of the meaning by the machine with the block lemmas of C27; negative results by following the conversion to its first write | partial |
| C126 | Objects saved to files | Model/Saved.lean (small steps of the calls: check, open, one byte each, close; programs and stops interleaved), SpecSaved.lean (files that are absent, hold an object or are torn) | simulation of each call, stopped after any number of steps, by the specification; induction over histories; an invariant of all schedules for files that must not be replaced; negative results by witness schedules | partial |
| C127 | Matrix files written by the generator program | Model/Files.lean (the program from its options to the exit status and the files; construction by a file), Model/Provider.lean, Model/FileIO.lean, Model/BlockedList.lean | composition of C54/C56 (band), C49 and C15 (lists of blocks, conversion) with the bytes of a column-major matrix and C42 (windows) | partial |
| C128 | The program that shows the pattern of a matrix | Model/Show.lean (the program from its options to the exit status and the files), Model/Files.lean, Model/Pattern.lean, Model/BlockSize.lean, Model/Blocked.lean, Model/Info.lean | composition of C53 (image), C39 (block sizes), C37 and C75 (types of the blocks) and C76 (picture) through the whole program; negative cases by C39_small_dimension_is_ub and C76_wide_border_fails | partial |
| C129 | The whole benchmark program | Model/BenchMain (on Model/Bench, Provider, Files) | composition of the theorems about configured sets (C57), files (C42, C127), actions (C82) and tables (C83); invariants of the provider (all matrices are column-major) and of the loop that stores the files; refuted for missing sets, unwritable files and the differences of all but the last action | partial |
| C130 | The terminal of the benchmark program | Model/BenchConsole.lean (main with command line, standard output and standard error), Model/BenchMain.lean, Model/Table.lean | the loops of main with output are simulated by the loops of BenchMain without it, by induction over actions and pairs; the exact text is then a function of the rows (C130_text); composition with C129 (valid configurations) and C73/C83 (fields); refuted by an unknown action and an unwritable file | partial |
| C131 | Every limit in the settings governs its own type | Model/Converter.lean (Settings, occ, isConvertible, convertMatrix) | the limits are named in the statement as in the settings, without the model's table; from the first-match theorem (C37) by cases on the type and monotony of the counts; uniqueness of the first match; refuted for the zero type, whose single-precision limit is never read | partial |
| C132 | The terminals of the pattern program and the generator | Model/ShowConsole.lean (both mains with command line, standard output, standard error and the destructor of the timer), Model/Show.lean, Model/Files.lean, Model/Print.lean | printing either succeeds and only appends or reads uninitialised memory (OrUb with the growth of the output as invariant of the loops); therefore files and exit status are those of C127 and C128; the tables by C77 and C75; refuted by files that cannot be written | partial |
| C133 | Cursors moved forwards and backwards | Model/CursorMove.lean (outer and inner cursors with ++, --, ==, *, the overloads of begin, end and of the constructors) | the key after a walk is begin + count * stride (induction over the steps; size_t keys modulo 2^64), and the address of element (i,j) is begin + j * stride for each of the four shapes of a line | proved |
| C134 | Subscripts of cursors | Model/CursorMove.lean (operator []) | from C133 where the stride is 1; refuted where it is not | partial |
| C135 | Pattern images can be read back | Model/Pattern.lean, Model/Show.lean; the reader (literals of a C text, numbers, palette, pixels) is part of the specification, Props/Xpm.lean | literals of a concatenation are those of its parts (induction over the text), decimal numbers are read back, the palette is searched by distinct keys; refuted for keys that are not one character or not distinct | partial |
| C136 | Programs that are stopped while they write a file | Model/Interrupted.lean (opening and one step per element or character), Model/FileIO.lean, the reader of Props/Xpm.lean | the files after k steps of saving in closed form (induction over the steps); prefixes against C42 and C70; the literals of a prefix are a prefix of the literals, and the heading fixes their number | partial |
| C137 | The Python module | Model/Python.lean (names, objects, exceptions) over Model/Dyn.lean (pointer variables and matrices) | invariant of all programs: no object holds a matrix; induction over the program shows what is printed and which programs are defined | partial |
| C138 | Comparing occupation and norm with a limit | Model/Occupation.lean (the comparisons of dense, sparse, zero and two-part matrices), Model/Checker.lean, Model/Norm.lean | count of C32 and division by the size; counting the kept elements of a sparse matrix is counting all of the dense one if the checker implies the filter; negative results by witnesses | partial |
| C139 | A benchmark program that is stopped | Model/InterruptedBench.lean (the differences in the order in which they are written, opening and one step per element), Model/BenchMain.lean | induction over a list of saves to numbered files in order that is stopped; the trace of differences is tied to the files of Bench.run by induction over actions and factors, and to the promised results by C82 | proved |
| C140 | Programs that write files at the same time | Model/Together.lean (generators as programs among others), Model/Saved.lean (small steps with a position per program) | invariant over schedules: behind the position of the program that opened the file last every element comes from one of its writers; work left decreases | partial |
| C141 | Programs on a disk that is full | Model/FullDisk.lean (writes that do not fit are dropped), Model/Interrupted.lean, Model/BenchMain.lean | reduction to programs that are stopped (C136) after as many elements as fit; induction over the files of the benchmark | partial |

### Notes per property

* **C03** (proved): Every parent that is contiguous by column (all plain column-major matrices and full-height views). Views of other views are C59.
* **C04** (proved): Non-empty windows. Windows without rows or columns are C63 (C63_view_without_rows_is_wrong, C63_view_without_columns_is_wrong).
* **C06** (proved): Memory safety (no use after free, no double free, exclusive ownership) for all histories of variable-size storages. Leaks and fixed-size storages are C60.
* **C08** (proved): Transfer of the contents by move. What can be done with the moved-from object is C61.
* **C12** (proved): Column-major sources (plain and views), both target orientations. Row-major sources are C62 (C62_dense_to_sparse_is_wrong); stale counts are C33.
* **C13** (proved): Column-major (or square) matrices with a row. The remaining shapes are C62, C63 and C64.
* **C14** (proved): Column-major sources. Row-major sources are C62 (C62_round_trip_is_wrong).
* **C16** (proved): Operands of equal orientation; different orientations are C62 (C62_mixed_sum_is_wrong).
* **C17** (proved): Element values and validity for column-major (or square) operands. What nnz() reports is C64; row-major is C62.
* **C18** (proved): Dense+-Sparse, Dense+=/-=Sparse, Sparse+Dense. Sparse-Dense and Sparse op= are C65.
* **C19** (proved): M+Zero, Zero+M, M-Zero and the in-place forms for all kinds. Zero-M is C65.
* **C20** (proved): Sums of all kinds, Dense-X, X-B (with a dense part or sparse B), Dense+=X, Dense-=X, conversion. X-Y and X+=B are C65.
* **C21** (proved): Column-major operands, summation order made explicit (dotSeq), and in a semiring the mathematical sum. Row-major operands are C62 (C62_native_product_is_wrong).
* **C23** (proved): Values and validity (column-major). What nnz() reports is C64.
* **C25** (proved): Rows, columns and values for all kinds. getSize() of the result is C47.
* **C26** (proved): All combinations of dense, sparse, zero and two-part operands (column-major), exact arithmetic.
* **C27** (proved): At least one inner block; without inner blocks see C63_blocked_no_inner_block_is_ub.
* **C28** (partial): Pipeline proved for every partition with non-empty blocks and composed with the block size generator for min block size <= 1, for every threshold setting of the default policy, with an error bound and an exact case. False in general: all thresholds 0 abort (C28_all_zero_thresholds_fail); default block limits 200/1000 are undefined for all matrices with 2..399 rows (C28_default_limits_are_ub). For every block limit: the pipeline is correct whenever the block size generator returns, and the only other outcome is its stuck state (C28_any_limits_partial).
* **C31** (proved): The order of checkers with a registered (double) threshold type is a strict weak order whose equivalence means the same acceptance. C31_unregistered_is_ub records what happens for other threshold types.
* **C32** (proved): Non-empty matrices; an empty matrix has a NaN occupation (C63_occupation_of_empty_is_nan). Sparse counts range over the whole value array.
* **C33** (partial): Proved for every history (construct, copy, move, assign, move-assign, swap, edit, reset, query) in which the object was not changed after a query without a reset. False otherwise: the first answer sticks (C33_count_is_sticky, C33_stale_answer), and the stale count makes a conversion write out of bounds (C33_stale_count_writes_past_end). For every claimed count: too small writes out of bounds, at least the true one is right (C33_count_exact).
* **C34** (partial): Proved for every history in which the object was not changed after its norm was asked for. False otherwise: nothing resets a cached norm (C34_norm_is_sticky, C34_stale_answers).
* **C35** (partial): Exact real arithmetic. Proved for dense, tight sparse, zero (2-norm), two-part with dense first part (2- and max-norm) and blocked matrices of these, plus the norm laws. False: 1-norm of a two-part matrix is twice that of the first part (C35_two_part_one_is_wrong); two sparse parts is undefined (C35_two_sparse_is_ub). For all pairs of sparse matrices: the norm of the sum is right if every position is stored in one of them and undefined otherwise (C35_sparse_sum_exact, C35_two_sparse_exact).
* **C36** (partial): Contents and error bound proved for window sources and plain sources separately; full claim fails: a plain (not window) source loses the small elements of the selected type list (C36_positive_threshold_loses).
* **C37** (proved): First-match semantics for non-empty matrices; empty ones are C63 (C63_convert_empty_is_not_found).
* **C38** (partial): Indices, search dispatch (exec_if, exec_if_2dim) and one-dimensional tables proved for every type list and listed type; the result types of dynamic sums/products are proved to stay in the list for expressions of any depth. The two-dimensional tables are correct exactly if their rows are initialised before the square that copies them, which C++ leaves open (C38_init_order_is_ub). Unlisted types: C38_unlisted_type.
* **C39** (partial): Whenever it returns, sizes are positive and sum to the dimension; it returns for min<=1 and for uniform matrices. False in general: reads uninitialised variables for every dimension in [2, 2*min) (C39_small_dimension_is_ub) and for unlucky borders (C39_unlucky_border_is_ub). Exact outcome for every input: the greedy search of SpecBlockSize either finishes or is stuck (C39_outcomes); for distinct detection values this is an iff (C39_returns_iff).
* **C40** (proved): Both limits for every returned result with max >= 1; C40_max_zero_is_exceeded records the accepted limits (0,0).
* **C41** (partial): Preference for the largest detection values proved; detection arrays proved for row-major matrices. False for column-major matrices (the default): C41_column_major_is_swapped, C41_column_major_is_wrong. The borders are proved to be the result of the greedy search (steepest open place first, none once every block fits: C41_greedy). For either orientation the arrays are those of the storage read row by row (C41_detection_exact).
* **C42** (proved): Every fitting window, complete file and column-major target; rejection when the sums do not overflow; the importer. Overflow and short files are C70, row-major targets C62.
* **C43** (proved): Round trip for any contents, shape, target state and rest of archive, and for sequences of matrices; every truncated archive throws. Targets of the other orientation are C62, state after an exception C66. Boost's own framing is not modelled; submatrix serialisation writes a raw pointer and is not modelled.
* **C45** (proved): Dense matrices of equal size and orientation over exact reals: max deviation is the attained bound, RMS is exact, zero iff equal, RMS<=max. Different orientations are C62, empty matrices C63. Rounding not modelled. A second matrix with fewer elements is read beyond its end (C45_smaller_second_is_ub).
* **C46** (proved): The routines are external: an arbitrary function that meets the published contract (Gemm.Conforms, Csrmm.Conforms; both shown satisfiable) stands for them. Exact semiring arithmetic, inner dimension >= 1 (else C63_gemm_no_inner_is_wrong) and dimensions < 2^31 (C46_large_is_wrong). mkl_?csrmultcsr (not selected by any policy) is not modelled.
* **C47** (partial): Exact characterisation (C47_step_iff) of the operations that keep getSize()=rows*columns; histories of harmless operations proved by induction. False of the code for swap of dense/sparse/blocked matrices, resize of zero/blocked matrices and dense construction from a DynamicMatrix (C47_swap_is_wrong, C47_resize_is_wrong, C47_fromDynamic_is_wrong); C47_swap_breaks_conversion shows an out-of-bounds consequence. size_t overflow of rows*columns not modelled. For all operands: C47_swapped_conversion_is_ub, C47_swapped_conversion_exact.
* **C48** (proved): Dense, same orientation, exactly; reflexive and symmetric. Different orientations are C62, sparse matrices C67. operator == compares addresses and is not modelled. NaN not modelled.
* **C49** (proved): Element lists with rows at least as long as the first, and lists of blocks that fit together. Malformed lists are C68.
* **C50** (partial): Constructor check and reset histories (debug build) proved. False with edits through getMatrix1(), exceptions on reset, release builds, default construction: negation theorems.
* **C51** (proved): Histories of nested and sequential scopes, any number. Durations are exact (no clock overflow), one thread.
* **C52** (proved): Round trip and rejection with assertions or exceptions; release builds are C69.
* **C53** (proved): Exact arithmetic for the thresholds; the output stream is assumed to accept everything.
* **C54** (proved): Exact for every dimension and band width <= dimension+1; wider bands are C56/C69.
* **C55** (proved): Matrices that store exactly what they report. Spare cells are C64.
* **C56** (partial): Exact for square matrices. False of the code for rectangular ones: with more columns the band stops at the square part (C56_wide_is_wrong), with more rows an assertion fails (C56_tall_is_wrong). C56_wide_partial says what is written.
* **C57** (proved): Every configuration of understood entries. Unknown types, missing sets and self copies are C70. Parsing of the configuration file is not modelled.
* **C58** (proved): Equal results for native, OpenBLAS and MKL in exact arithmetic for inner dimension >= 1 and dimensions < 2^31. Mixed precision is C71. Eigen and Blaze interfaces are not modelled.
* **C59** (partial): Proved for outer views of full height (a range of columns), all inner windows, reads and writes. False for other outer views: C59_nested_view_is_wrong. What a nested window of any view reads, exactly: C59_elements, and when it is right: C59_iff.
* **C60** (partial): Proved for all histories without proxies, moved-from sources and loads. False otherwise: C60_proxy_copy_leaks, C60_moved_from_copy_leaks, C60_load_leaks; fixed-size storages double free (C60_fixed_double_free, C60_fixed_proxy_frees_user_memory). For every history of variable-size storages the number of leaked blocks is exactly the number of copies of non-owners plus loads into owners (C60_leaks_exact, C60_no_leak_iff), and they are lost for good (C60_lost_for_good).
* **C61** (partial): Proved: a moved-from storage that was assigned can be resized to any size. False: resizing it directly (C61_moved_from_cannot_resize); self-move (C61_self_move_loses_contents). C61_self_move_empties: for every storage.
* **C62** (partial): Proved for dense conversion, transposition, cursor product, counts, norms, and sparse to dense. False for dense to sparse, sparse transposition and sums, mixed dense sums, the native product, equal(), error statistics, load, file windows (negation theorems). What each mixed operation computes, exactly, for every size: C62_*_exact (the second operand is reread in the order of the first; dense to sparse from a row-major source yields the leading square of the transposed matrix or is undefined; row-major sparse transposition is right iff every stored column index is below the number of rows; square sparse operands are used as if they were column-major, so a row-major product is B*A). Rectangular row-major sparse sums and products can never be computed and read back (C62_row_major_sparse_*_is_unusable).
* **C63** (partial): Proved for products with empty inner dimension, conversion, transposition, sums, dense to sparse and back. False for empty windows (C63_view_without_rows_exact, C63_view_without_columns_exact: exactly what they visit), sparse transposition without rows (C63_sparse_transpose_no_rows: always undefined), BLAS products without inner dimension, blocked products without inner blocks (C63_blocked_no_inner_exact), occupation, RMS.
* **C64** (partial): Proved for all histories of dense-to-sparse conversions, conversions and transpositions. False for sums, products and transposes of matrices storing nothing: C64_sum_exact, C64_product_exact and C64_transpose_of_nothing say for all operands which reported cells are uninitialised, C64_convert_iff and C64_convert_of_sum_iff when a later conversion is defined. Counting is defined exactly if every cell was written (C64_count_iff).
* **C65** (partial): Proved for seven of nine pairs of one-part kinds and the in-place operations on dense matrices or with a zero matrix on the right. False otherwise (negation theorems).
* **C66** (partial): Proved: truncated load before the first or after the fourth number; file reads always leave matching dimensions and array size. False: C66_truncated_load_is_inconsistent, C66_rejected_window_destroys_target, C66_reset_keeps_mismatch. C66_truncated_load_exact and C66_consistent_iff say what a truncated load leaves, for every cut. For all parts: C66_reset_keeps_any_mismatch.
* **C67** (partial): Proved for equal dimensions and orientation and matrices that store exactly what they report. False otherwise: C67_equal_exact says for any dimensions and orientations what equal answers (C67_equal_is_wrong: dimensions are ignored), C67_spare_is_never_equal what it does with spare cells.
* **C68** (partial): Proved: block lists with blocks of different heights in a row are reported. False: shorter rows, empty lists, block widths (C68_ragged_is_ub, C68_block_lists_is_wrong). C68_lists_exact: for every list of lists, what is built or that it is undefined.
* **C69** (partial): Proved for builds with assertions or exceptions. False in release builds: C69_multiple_mismatch_is_accepted, C69_enum_parser_is_ub, C69_too_wide_band_is_ub.
* **C70** (partial): Proved for non-overflowing windows, missing files, the importer and unknown copy sources. False: C70_window_accepted_iff (which windows are accepted, exactly), C70_window_exact (what a file of any length puts in the target), C70_short_file_is_silent, C70_unknown_type_is_ignored, C70_self_copy_is_ub, C70_get_unknown_is_ub.
* **C71** (partial): C71_float_double_partial and C71_double_float_partial say exactly what is computed; C71_mixed_is_wrong: with MKL the double operand is rounded to float.
* **C72** (partial): C72_views_partial/C72_copy_partial: proved for disjoint windows and for overlaps in the safe direction; C72_self for A op= A. C72_overlap_is_wrong and C72_copy_overlap_is_wrong: false for every other overlap.
* **C73** (partial): C73_history_partial: programs that do not copy (or add to themselves) behave as values. False with copies (C73_copy_is_shared, C73_copy_counterexample) and with shared cells (C73_shared_cells_is_wrong).
* **C74** (partial): Move assignment preserves the matrix. C74_move_construct_is_wrong: move construction loses the unblocked dimensions and the conversion to dense writes out of bounds.
* **C75** (partial): Types and dimensions proved in full, norms for all blocks that are not two-part. C75_two_part_norm_is_wrong: the norm of a two-part block is 0 or a failure. C75_type_counting_is_ub: get_type_counting reads uninitialised counters for every non-empty matrix.
* **C76** (partial): Proved for borders that fit all blocks (BorderFits). C76_wide_border_fails: otherwise the program never finishes normally.
* **C77** (partial): Proved for numbers. Dimension matrices can be read back (C77_dimensions_partial) but are not aligned (C77_dimensions_not_aligned).
* **C78** (partial): Proved for sparse matrices without spare cells and with at most 100 elements. Larger ones are not shown however few elements they store; spare cells (as left by sums and products) are read uninitialised; printing a dense matrix leaves scientific notation and precision 10 behind.
* **C79** (partial): Dimensions, initialisation and magnitudes proved for all settings with min ≤ max; reproducible for one order of evaluation. The occupation setting is ignored, the order of evaluation of the two draws is unspecified, an inverted range is undefined behaviour (negations proved).
* **C80** (partial): Eigen: proved in full. Blaze: proved exactly when the arrays are aligned and both row counts are multiples of the SIMD width; in all other cases the call throws (C80_blaze_throws).
* **C81** (partial): False: for square column-major operands the result is B*A (C81_square_is_swapped), tall ones are undefined behaviour. Proved for commuting square operands.
* **C82** (partial): Proved for all actions; Blaze actions only for sizes Blaze accepts (C80), blasbooster_block only for thresholds 0 and minimal block size ≤ 1 (C28).
* **C83** (partial): Table proved for all lists. False: unknown action names are dropped silently, the difference files are overwritten by the next action, a missing matrix set is undefined behaviour (negations proved).
* **C84** (partial): Proved for dgemm, sgemm, csrmm (A not zero) and the native sparse actions. csrmultcsr returns B*A; unknown names are undefined behaviour (negations proved).
* **C87** (partial): Proved for libraries that return complex results through a hidden first argument. False for libraries that return them by value (gfortran ABI, the default of OpenBLAS on Linux): the wrappers then return 0 for all vectors (C87_by_value_zero, C87_by_value_wrong).
* **C91** (partial): False: a moved-from matrix still reports its old dimensions while any element access is undefined behaviour (C91_stale_dimensions), resizing it throws (C91_resize_throws), += on it is silently ignored (C91_inplace_ignored) and sums with it contain uninitialised elements (C91_sum_uninitialised). Proved: it can be assigned, exchanged and destroyed after any program (C91_assignable_partial).
* **C95** (partial): False: with rounding arithmetic the partition of the inner dimension changes the result (C95_blocking_changes_rounding). Proved: the difference is at most the sum of the two rounding error bounds (C95_distance_partial), and there is none for one inner block (C95_one_inner_block_partial).
* **C102** (partial): False of the code in debug builds already (release builds check nothing): sums with a zero matrix are not checked (C102_zero_is_not_checked, C102_sum_counterexample), dense += dense is not checked (C102_dense_assign_is_not_checked, C102_assign_counterexample: result or out-of-range read), blocked products ignore surplus block rows and read past the end for surplus block columns (C102_blocked_ignores_rows, C102_blocked_counterexample). the cursor-based product has no check (C102_cursor_product_is_not_checked, C102_cursor_product_counterexample). Proved: all products of non-blocked matrices are checked (C102_product, C102_product_iff) and the products computed by OpenBLAS, MKL, Eigen and Blaze (C102_library_product), sums without zero matrices (C102_sum_partial, C102_two_part_sum_partial), += with sparse or zero right operand (C102_assign_partial), blocked products whose inner partitions differ at a common position (C102_blocked_partial).
* **C103** (partial): False of the code: two const norm queries race unless the norm is cached already (C103_norm_races), two occupation queries always race (C103_occupation_races), with the tracker compiled in any two dense products race (C103_tracker_races) and counts are lost even without reordering (C103_tracker_loses_counts): the counter grows by between one and the number of products, and every such number occurs (C103_tracker_count_bounds, C103_tracker_counts_any_number). Proved: if accesses are sequentially consistent, all readers get the right answers in every interleaving (C103_readers_partial; not so if the two stores are reordered, C103_reordered_stores); threads that change only matrices of their own are free of races and deterministic (C103_independent_partial); concurrent products into separate targets are race free and correct without the tracker (C103_products_partial); no thread blocks another (C103_finishes). Not modelled: memory allocation, resizing of shared matrices, sparse and dynamic matrices in threads.
* **C104** (partial): Proved for all matrices whose norm can be computed at all (C35's exceptions: 1-norm of two-part matrices, sparse matrices with spare cells, two sparse parts; 1- and maximum norm of blocked matrices do not compile). Overflow and underflow are excluded by assumption; if the squares of all elements underflow, the 2-norm of a matrix other than 0 is 0 (C104_underflow_is_zero). std::pow(x,2) and std::sqrt are assumed to have a relative error of at most u.
* **C105** (partial): Proved for constructors (any number of arrays, any failing allocation), moves, swaps, and for resize/assignment of objects that hold no array. False of the code for resize and copy assignment of objects that hold an array (they free it before they allocate; C105_failed_resize_is_fatal, C105_failed_assignment_is_fatal), for load (C105_failed_load) and for the dimensions of dense matrices (C105_failed_matrix_resize_lies, C105_failed_matrix_assignment_lies).
* **C106** (partial): Proved for dimensions whose product is a value of the index type. False of the code beyond: for size_t the product wraps silently (C106_product_wraps, C106_elements_share_a_cell), for int it overflows (C106_int_product_overflows, C106_sparse_resize_overflows), negative int dimensions are accepted (C106_negative_dimensions_accepted).
* **C107** (partial): False of the code for windows whose columns are not adjacent: after reaching the end by ++, -- does not lead to the last element (C107_back_from_reached_end_is_wrong); --end() followed by ++ is not end() (C107_forward_after_back_from_end_is_wrong): end() carries a block counter one larger than the last block's; steps forwards from rend() leave the window after the first column (C107_forward_from_rend_is_wrong); with more than 2^31 columns the block counter, an int, overflows (C107_too_many_columns). Proved: every sequence from begin() or rbegin() that stays on the elements before its last step; all -- sequences from end(); every sequence for adjacent columns. Pointer arithmetic beyond the array is integer arithmetic in the model.
* **C108** (partial): False of the code: assignment between fixed-size sparse storages is ignored (C108_sparse_assignment_is_ignored/_is_wrong), lists that are too long are written beyond the array (C108_long_list_writes_beyond), == compares addresses (C108_copy_is_not_equal), a matrix declared OnStack has no room (C108_on_stack_matrix_has_no_room). Proved: programs over stack storages with lists that fit; programs over sparse storages without assignment; equal().
* **C109** (partial): False of the code: entries of the list of complex dot products are declared but defined only for the four written by hand in the template (C109_complex_dots_are_not_defined, C109_declared_but_not_defined); the list functions_blas_extra is never read (C109_extra_functions_are_never_generated); regenerating the MKL source loses MKL_Set_Dynamic(0) (C109_regenerating_mkl_loses_set_dynamic). Proved for all other lists. The model of the template engine reproduces the six other committed files byte for byte (checked by evaluation outside the proofs). YAML and the file system are not modelled.
* **C110** (partial): False of the code for some differences and in-place operations (C110_difference_is_wrong, C110_in_place_is_wrong; see C65). Proved for all programs whose differences and in-place operations avoid those kinds, with unrestricted sums, products, copies, resets and stored products (C110_programs_partial); for all programs: pointers never dangle (C110_pointers_valid), in-place operations are seen through exactly the variables that refer to the same matrix (C110_in_place_is_shared), results are matrices of their own (C110_results_are_new). Zero - M is M for every M (C110_zero_minus_is_wrong).
* **C111** (partial): False of the code: a zero matrix that is a product is printed with Size = 0 (C111_zero_product_has_size_0), matrices with spare cells, as products and sums leave them, are read out of initialised storage (C111_spare_is_ub), larger matrices are replaced by a message (C111_large_is_not_shown), printing a dense matrix changes the notation of the matrices printed after it (C111_order_matters). Proved for all sequences of the other matrices, with the notation in which each is written (C111_history_partial).
* **C112** (partial): False of the code: the norm is remembered when first asked for, and in-place operations do not reset it (C112_norm_is_stale; for all programs: C112_first_norm_stays); a zero product answers 0 elements (C112_size_of_a_zero_product); the norm of a two-part matrix is 0 or a failure (C112_norm_of_two_parts), that of a sparse sum reads uninitialised cells (C112_norm_of_a_sparse_sum_is_ub). Proved for all programs that avoid these (C112_queries_partial). For all operands of the sum: C112_norm_of_any_sparse_sum.
* **C113** (partial): False of the code: Dense + Sparse (and -, and exchanged operands) begin with C = A, whose defaulted copy assignment copies the remembered norm and counts of the dense operand, and then change C: for all matrices the result answers with the values of the operand (C113_sum_inherits, C113_sum_inherits_count; a wrong answer: C113_sum_is_wrong, which depends on an earlier query: C113_query_changes_sums). Proved for all programs for all objects not in such a state (C113_norm_partial, C113_count_partial) and, whatever happened before, for all other computed matrices (C113_new_results).
* **C114** (partial): False of the code: == compares the addresses of the arrays, so a copy is reported to be different from its original, for every history and every matrix (C114_copy_differs, C114_same_elements_differ), and a matrix that owns memory equals only itself (C114_owner_equals_only_itself). Proved: matrices that compare equal read the same (C114_equal_means_equal_partial, C114_sparse_equal_means_equal_partial); equivalence relation (C114_equivalence); matrices on the same memory of the caller are equal and stay so (C114_proxies_equal).
* **C115** (partial): The exact text is proved for all inputs (C115_text, C115_failure_text, C115_tracker_text). False of the code: writing a duration restores the flags but not the precision, so the norms are written with the digits of the times (C115_norms_use_the_digits_of_times) and from nine digits on the columns merge (C115_columns_merge); three names fill the column of the tracker table, so that the count becomes part of the name, and with the usual right adjustment count and time are one number (C115_tracker_columns_merge, C115_tracker_names). Proved for all texts shorter than their columns: the fields are recovered (C115_fields_partial, for a whole run C115_run_fields_partial, C115_tracker_fields_partial; the names of the actions are: C115_action_names).
* **C116** (partial): False of the code: no checker accepts NaN, so conversion to sparse and conversion of windows to any type replace NaN by 0 (C116_sparse_conversion_loses_nan, C116_window_conversion_loses_nan) and a matrix of NaN becomes a zero matrix (C116_nan_matrix_becomes_zero); the maximal deviation and the maximum norm ignore NaN (C116_max_deviation, C116_nan_has_no_deviation, C116_max_norm); a matrix with an infinity or NaN is not equal to itself (C116_not_equal_to_itself); products depend on the kind of the operands (C116_zero_hides_nan, C117_depends_on_kind). Proved: sums, the 1- and 2-norm, the root mean square deviation, dense products and conversion of infinities follow the IEEE rules; products of finite operands of any kinds (C116_product_partial). Underflow is not modelled; signed zeros: C117.
* **C120** (partial): False: swap does not exchange the sizes, after which a conversion to a dense matrix writes out of bounds (C120_swap_keeps_size) or gives a matrix with too few elements (C120_swap_too_small); a moved-from matrix keeps its dimensions while traversal, conversion, sums and products are undefined behaviour (C120_moved_from) and resizing always throws (C120_resize_throws). Proved: programs without swap convert correctly (C120_conversion_partial); for every program, what such a conversion does, exactly (C120_conversion_exact, C120_swap_keeps_any_size); moved-from matrices can be assigned, exchanged and destroyed (C120_assignable_partial).
* **C121** (partial): Proved for all programs that do not assign to or load into moved-from objects and proxies; what leaks is exactly the memory of constructors that throw (C121_leaks_exact). False otherwise: C121_assign_moved_from_is_double_free, C121_assign_proxy_frees_user_memory, C121_bad_constructor_leaks.
* **C123** (partial): False of the code in full: a capacity below rows*columns writes past the key array, non-square row-major matrices get the wrong number of runs, AllFiller leaves keys and offsets uninitialised (all proved). Proved in full for ContinuousNumberFiller on column-major or square matrices without a requested capacity or with one of at least rows*columns.
* **C124** (partial): False of the code in full: the move constructor does not take over the leading dimension, so v(i,j) of a move-constructed view (and of one exchanged with std::swap) is element (i,0) of the window (proved for every program and view). Proved in full for programs that construct no view by moving; iteration, filling, dimensions and equality are proved for all programs. Windows without elements are excluded (C63).
* **C125** (partial): False of the code in full: the move constructor and swap do not carry over the unblocked dimensions; converting a move-constructed blocked matrix is undefined (proved after every program), also for every product if the compiler does not elide the returned copy; after swap both report their old sizes. Proved in full for programs without move construction and with exchanges of equally sized matrices only.
* **C126** (partial): False in full: a save that is stopped after it opened the file loses the old and the new object (C126_stopped_save_loses_both), and the check for an existing file and the opening are separate steps, so two programs that ask not to replace a file can both succeed (C126_race_replaces_file) or leave a mixture (C126_race_mixes_objects). Proved: every history of one program that is stopped anywhere behaves as specified up to torn files, which are reported on loading (C126_histories_partial); what was saved is what is loaded (C126_load_after_save); under every schedule a file that exists is kept when nobody may replace it (C126_existing_file_is_kept). The archive is a parameter; C126_dense_archive shows that the one of dense matrices is as assumed.
* **C127** (partial): False in full: matrices with more rows than columns are never written (C127_tall_fails: assertion or undefined behaviour), wide ones lack part of the band (C56_wide_is_wrong), any type other than band gives the 4000 x 4000 block matrix whatever was asked for (C127_other_types), and a file that cannot be opened for writing is not reported (C127_unwritable_is_silent). Proved: square band matrices (C127_band_partial), reading back any window (C127_read_back), errors of descriptions (C127_read_reports), only the named file changes and only if the program exits with 0 (C127_other_files).
* **C128** (partial): False in full: with a matrix larger than the maximal block size and a dimension of 2 to 2*min-1 elements the block size generator reads uninitialised variables (C128_small_is_ub; with the default limits every matrix with more than 1000 rows and 2 to 399 columns), a border that does not fit a block is never written (C128_wide_border_fails), and a file that cannot be opened is not reported (C128_unwritable_is_silent). Proved: type elements for every matrix (C128_elements); type-blocks whenever the block sizes are found and the border fits (C128_type_blocks_partial), in particular for minimal block size and border at most 1 (C128_min_one_partial) and for matrices of one block (C128_one_block_partial); errors (C128_reports); no other file changes, and none unless the program exits with 0 (C128_other_files).
* **C129** (partial): Proved for every valid configuration (C129_table_partial, C129_exact_actions_agree) and for reading differences back. False of the code in full: without a matrix in set A or B an end iterator is dereferenced and the message "No matrices defined" can never be printed (C129_no_set_is_ub, C129_sets_are_not_empty); of several actions only the last difference is kept (C83_diff_is_overwritten); files that cannot be written are not reported (C129_unwritable_is_silent); unknown names are ignored (C83_unknown_action_is_ignored).
* **C130** (partial): False of the code in full: unknown action names and unwritable difference files leave no trace on the screen or in the exit status (C130_unknown_action_leaves_no_trace, C130_unwritable_leaves_no_trace). Proved: the exact text for every configuration and outcome (C130_text), the screen of valid configurations (C130_screen_partial), no run without settings (C130_no_run), Blaze failures are reported (C130_blaze_is_reported), the fields can be read (C130_fields_partial).
* **C131** (partial): False of the code for the zero type: Threshold.h:170-174 returns its double-precision limit also for single precision, so zeroSingle is never read (C131_zero_single_is_ignored) and large elements can be lost (C131_large_elements_are_lost). Proved: the exact rule for all settings (C131_exact), the rule as named if the single-precision limit of the zero type is not below the double-precision one, as by default (C131_settings_partial), and that changed limits move only blocks of their own type (C131_only_own_blocks).
* **C132** (partial): False of the code in full: pattern and matrix files that cannot be written leave no trace on the screen or in the exit status (C132_unwritable_leaves_no_trace, C132_generate_unwritable_leaves_no_trace). Proved: the exact text for every run that ends (C132_show_text, C132_generate_text, C132_no_run), the tables for partitions with fitting borders (C132_tables_partial), and that they can be read (C132_tables_readable).
* **C134** (partial): False of the code: operator [] adds the subscript to the pointer without the stride (Cursor.h:202), so across the storage order it reaches another line (C134_subscript_ignores_stride, C134_counterexample). Proved for lines that are contiguous in memory (C134_contiguous_partial).
* **C135** (partial): False of the code for palettes that the settings accept: keys longer than one character contradict the announced one character per pixel (C135_long_key_counterexample), equal keys merge colours (C135_equal_keys_counterexample). Proved for all palettes with distinct keys of one character and without quotes and backslashes (C135_read_back_partial, C135_elements_partial).
* **C136** (partial): False of the code for matrices constructed from a description of the file (C136_window_silent_counterexample): they are complete exactly if the last element of the window was written (C136_window_complete_iff). The importer of whole matrices reports every incomplete file (C136_importer_partial); a torn image cannot be read or is the image (C136_torn_image, C136_torn_pattern_partial); what the file held before is lost as soon as it is opened (C136_old_content_lost).
* **C137** (partial): False of the code: the constructor does not use the array, so every matrix is a null pointer (C137_matrices_hold_nothing), every sum is undefined behaviour and every product raises TypeError because the type of the product expression is not registered (C137_first_use_counterexample). Proved: which programs are defined and what they show (C137_programs_partial).
* **C138** (partial): False of the code in full: sparse matrices do not count zeros that are not stored (C138_sparse_zero_counterexample), empty zero matrices differ from empty dense ones (C138_empty_counterexample), two-part matrices do not answer (C138_two_part_counterexample). Proved: dense matrices exactly (C138_dense, C138_exclusive), norms that can be computed (C138_norm), sparse matrices made from dense ones for checkers that accept only kept elements (C138_sparse_partial), non-empty zero matrices (C138_zero_partial).
* **C140** (partial): False of the code for programs with different contents for one file (C140_mixture_counterexample): then every element comes from one of the writers at the same position (C140_elements_partial). Files with one writer, or whose writers write the same content, hold that content (C140_same_content); Programs that take turns on a file leave the content of the last (C140_turns); generate_matrix programs that do not share a file with different options leave the files of any sequential run (C140_generators, C140_order); C140_ends: they end. A program that is stopped beside another one with the same options can leave a gap that no program wrote (C140_stopped_beside_counterexample).
* **C141** (partial): False of the code: no program asks for the state of its streams, so all of them report success and exit with 0 while files are cut (C141_silent_counterexample). Proved: what is left is the beginning that fits, and nothing else differs (C141_generator_partial, C141_pattern_partial, C141_benchmark_partial); the importer of whole matrices reports every file that was cut (C141_importer); a picture that was cut cannot be read or is complete (C141_torn_pattern_partial).
