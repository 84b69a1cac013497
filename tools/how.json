{
"C72": [
"Alias: one array for both operands",
"closed form of the run over any visiting order; hazard lemma for the negation"
],
"C73": [
"Shared: heap of blocks, handles with pointers",
"simulation by a machine without pointers; counterexamples"
],
"C74": [
"Shared: `moveConstruct`, `moveAssign`",
"C08-style conversion lemma; first-step failure for the negation"
],
"C75": [
"Info: `mapGrid` and its three instances, `blockNorm`, `typeCounting`",
"loop invariant over both storages; C38 for the dispatch; C31 for the types; first-step failure for the counters"
],
"C76": [
"Info: `picture`, `fillStriped`, `border`",
"nested loop invariants over rows and columns of blocks with the striped iterator lemmas; run-away or assertion for wide borders"
],
"C77": [
"Print: `dense`, streams as character lists",
"loop invariants for widths and text; a word splitter as the independent reader"
],
"C78": [
"Print: `sparse`",
"loop invariant for the arrays; negations by the first failing step and by composition with C77"
],
"C79": [
"Generator: `value`, `step`, `generate`, any engine that meets the contract of `std::uniform_real_distribution`",
"loop invariant over the engine states; negations for `occupation`, order of evaluation, inverted range"
],
"C80": [
"External: `mulEigen`, `mulBlaze`, any routine that meets the contract of `cC = cA * cB`",
"contract + layout lemmas; exact characterisation of when Blaze throws"
],
"C81": [
"External: `mulCsrCsr`, any `mkl_?csrmultcsr` that meets its contract",
"contract applied to the arrays read as compressed rows; the result is the product of the transposes, i.e. B*A; tall matrices are read out of bounds"
],
"C82": [
"Bench: one definition per action, `make`",
"contracts of the routines, C80, C21, C28; induction over the repetitions"
],
"C83": [
"Bench: `provide`, `compare`, `others`, `matrices`, `runOn`, `run`",
"induction over the lists of actions and matrices; independent reading of line (i,k) with `IsNorm`; C82 + C83 composed in C83_exact_actions_agree"
],
"C84": [
"Bench: `byName`, `sparseNative`, `csrmm`, `csrmultcsr`",
"composition of C12, C23, C11, C46, C81"
],
"C85": [
"Wrapper: `Wrapper.call`, `select`; WrapperTable (extracted row by row from the sources by tools/gen_wrappers.py)",
"for an arbitrary library and memory; the whole table is checked by kernel evaluation against the reference list SpecBlas, the semantics of a forwarding call by induction on the argument list"
],
"C86": [
"WrapperTable: definitions, declarations, prototypes, tags; reference signatures in SpecBlas",
"complete case analysis over both finite tables (kernel evaluation), both inclusions and uniqueness"
],
"C87": [
"Wrapper.call (`result` form); two library conventions in Props/Wrapper",
"for every dot routine and memory; negation: by-value libraries give 0"
],
"C88": [
"Wrapper: `setOpenBLAS`, `setIntelMKL`",
"induction over the history"
],
"C89": [
"Prog: `step`, `run` (heap, storages, dimension members, temporaries); SpecProg: variables as mathematical matrices",
"simulation relation (every variable's storage is owned and disjoint, dimension members except `full_size_` agree), one lemma per statement, induction over the program; leak freedom from the storage model"
],
"C90": [
"Prog: `lazy`, `eval` (two references)",
"statements other than `lazy`/`eval` commute with changing the stored expressions; induction over the statements in between"
],
"C91": [
"Prog, SpecProg (`hollow`)",
"negations for every legal program that leaves a moved-from variable; partial: assignment, exchange, destruction via the simulation"
],
"C92": [
"Dense, Sparse, Mat, Blocked; SpecFloat: `Arith`",
"loop invariants with left-to-right accumulation; skipped terms add 0; block loop generic in what is known of the accumulated block"
],
"C93": [
"as C92; SpecFloat: `Rounding`, `Fp` (p-bit binary numbers, unbounded exponent)",
"error calculus `Near` over the order of evaluation given by C92; `Fp` proved to satisfy the error model"
],
"C94": [
"Blocked, Mat; SpecFloat",
"`Near` through the block loop, induction over the inner blocks"
],
"C95": [
"Blocked, Dense; SpecFloat: `Fp 2`",
"negation by a concrete product evaluated in the kernel; partial: distance bound from C93 and C94, equality for one inner block"
],
"C96": [
"`Typed` (`TSMat`, `TMat`), SpecTyped (`productPrec`, `Kind.product`, …)",
"case analysis over the runtime types; the result is `ok` with the predicted type"
],
"C97": [
"`Typed`; values in SpecTyped (`TSMat.Is`)",
"the untyped theorems of C92 instantiated at float and at double, with widening a homomorphism for 0 only"
],
"C98": [
"`Typed` (`TBlocked.mul`)",
"block-wise error accounting (`Near2`: separate weights for double and float), induction over inner blocks"
],
"C99": [
"`Typed` (`TMat.convertTo`, `convertMatrix`)",
"element-wise from the checker and filler theorems of C36/C37; `Numbers` discharged for 24 and 53 bit numbers"
],
"C100": [
"`Typed` (`TBlocked.generate/mul/toDense`), `Fp 24`, `Fp 53`",
"C98 + C99 + triangle inequality; `C100_float_double` has no assumption on arithmetic left"
],
"C101": [
"`Expr` (`TExpr.eval`), `Typed`",
"`SpecExpr` (`TExpr.Denotes`: exact value, value on absolute values, count of roundings); induction over the expression with relative error bounds that multiply"
],
"C102": [
"`Mat`, `Sparse`, `Dense`, `Blocked`, `Blas`, `External`",
"Every pair of kinds reaches an assertion before any access, except sums with a zero matrix, dense op= dense and blocked products: theorems on what these do, witnesses"
],
"C103": [
"`Threads` (`Act`, `Step`, `Call.act`): calls as sequences of single memory accesses, any interleaving",
"`SpecThreads`; ownership invariant (`Sep`) for race freedom and determinism, rely-guarantee (`Gives`) for norm queries, explicit schedules for the races"
],
"C104": [
"`NormFp`: the norm and deviation functions with the operations on `double` as parameters, over the typed matrices of `Typed`",
"`SpecNormFp`; calculus of relative errors (`RelErr`) for sums, squares, roots and maxima; `Lemmas/FpOps` proves the assumptions for binary floating point numbers"
],
"C105": [
"`OutOfMemory`: every operation of `Storage` with a flag for a failing allocation and the state the exception leaves; stack unwinding of constructors with several arrays; dense matrices (dimensions and storage)",
"failed harmless operations leave the world unchanged (so all worlds stay reachable ones of C06); a dangling owner survives every continuation (invariant over histories); constructors by induction over the members"
],
"C106": [
"`Machine`: constructor, `resize`, element access and sizes of sparse matrices with 64 bit `size_t` and 32 bit `int` arithmetic",
"refinement of the natural number model of `Dense` for all histories within the limits; explicit elements beyond the array, sharing a cell, outside the limits"
],
"C107": [
"Model/Iterator.lean (increment, decrement, begin, end, rbegin, rend with the wrap-around of size_t and the int block counter)",
"invariant relating pointer, position and block counter to the index, by induction over the steps; explicit computation at the end"
],
"C108": [
"Model/InPlace.lean (both class templates, statement by statement)",
"simulation: every statement of the code agrees with a value semantics (`specStep`), by induction over the program"
],
"C109": [
"Model/Templates.lean (the .pre files verbatim), Model/CodeGen.lean (lexer with Jinja's whitespace rules, parser, renderer)",
"the templates are parsed by the kernel; the loops are evaluated for every list by induction; reading back the parameter lists by induction over the text"
],
"C110": [
"`Dyn` (state: list of matrices, pointer variables, stored products; statements) over `Mat`, `Alias`; specification `SpecDyn` (`Means`, `Runs`, `Agrees`)",
"Simulation by induction on the program; each statement by the theorems on sums, differences, products and in-place operations of all kinds; effects of a statement on the other variables read off the heap; witnesses by computation"
],
"C111": [
"`PrintDyn` over `Print` and `Typed` (names by element type, state of the stream)",
"induction over the sequence, each text by the theorems of C77 and C78; spare cells, sizes of zero products and the stream's notation by computation"
],
"C112": [
"Model/DynQuery.lean (the language of C110 with queries, and the norms remembered per matrix in memory)",
"simulation by induction over the program: remembered norms are norms of the current contents as long as no matrix is changed after being asked; conversely a remembered norm survives every statement (C112_first_norm_stays)"
],
"C113": [
"Model/CacheSum.lean (sums, differences and products of objects with caches, on top of Model/Cache.lean)",
"invariant per object (clean, asked, stale) by induction over the program; direct computation for the results"
],
"C114": [
"Model/StorageEq.lean (== on the storage objects of Model/Storage.lean; dense and sparse matrices)",
"the ownership invariant of C06 over all reachable worlds"
],
"C115": [
"Model/Table.lean (the output statements with the state of the stream; the text of a floating-point number is a parameter)",
"induction over actions and matrices with an invariant of the stream state; splitting at blanks by induction"
],
"C116": [
"SpecIeee (Ieee, FinArith), Checker, Converter, Compare, NormFp, Dense, Sparse",
"case analysis over finite/infinite/NaN for the operations; loop invariants for max (never NaN, skips NaN) and + (NaN iff a summand is); FpB (bounded binary numbers) is proved to be a FinArith"
],
"C117": [
"SpecStored (storedAt, dotStored, joinStored, Stores), Sparse, Dense, Mat",
"the loop invariants of products, sums and in-place operations restated with dotStored and joinStored, no algebraic law used; C14–C25, C92 follow from it"
],
"C118": [
"SpecMix (language, meaning by stored elements, mathematical reading), Mix",
"simulation: one step lemma per statement from C117 and the lemmas on conversion and transposition, induction over the program; the mathematical reading by a second simulation"
],
"C119": [
"SpecSparseProg (language and meaning), SparseProg (two heaps, three storages per matrix, temporaries)",
"simulation: representation of the heaps by slots, one lemma per statement, induction over the program; leak freedom from C60"
],
"C120": [
"SparseProg, SpecSparseProg (`n`, `hollow`)",
"negations: witnesses for exchange, for every legal program that leaves a moved-from variable; partial: programs without exchange keep sizes right (induction over the program), assignment and destruction via the simulation"
],
"C121": [
"`Model/FixedStorage`: every operation of the fixed-size heap storage on the heap of `Model/Storage`, with the exception it throws; meaning of programs in `SpecFixed`",
"ownership invariant over histories; exact accounting of unowned blocks; simulation of `SpecFixed`; negative theorems for every reachable world"
],
"C122": [
"SpecMixProg (language and meaning), MixProg (the machines of Prog and SparseProg side by side, mixed statements with their temporaries)",
"the two simulations side by side, one lemma per mixed statement, induction over the program; deferred products: execution commutes with a change of the stored expressions"
],
"C123": [
"Model/SparseFill.lean (constructor with filler, AllFiller and ContinuousNumberFiller on the three arrays)",
"loop invariants over the value, key and offset arrays give the exact contents; validity and agreement with the dense filler follow; negative results for capacities that are too small, row-major shapes and AllFiller by the same loops"
],
"C124": [
"Model/ViewProg.lean (view objects: dimension, leading dimension, striped storage; constructors, assignments, element access, filling), meaning in SpecViewProg.lean",
"simulation of the meaning by the machine, statement by statement, for all programs; a view constructed by moving is tracked as addressing only its first column"
],
"C125": [
"Model/BlockProg.lean (blocked matrix objects with unblocked dimension; copy, move, assignment, swap, product), meaning in SpecBlockProg.lean",
"simulation of the meaning by the machine with the block lemmas of C27; negative results by following the conversion to its first write"
],
"C126": [
"Model/Saved.lean (small steps of the calls: check, open, one byte each, close; programs and stops interleaved), SpecSaved.lean (files that are absent, hold an object or are torn)",
"simulation of each call, stopped after any number of steps, by the specification; induction over histories; an invariant of all schedules for files that must not be replaced; negative results by witness schedules"
],
"C127": [
"Model/Files.lean (the program from its options to the exit status and the files; construction by a file), Model/Provider.lean, Model/FileIO.lean, Model/BlockedList.lean",
"composition of C54/C56 (band), C49 and C15 (lists of blocks, conversion) with the bytes of a column-major matrix and C42 (windows)"
],
"C128": [
"Model/Show.lean (the program from its options to the exit status and the files), Model/Files.lean, Model/Pattern.lean, Model/BlockSize.lean, Model/Blocked.lean, Model/Info.lean",
"composition of C53 (image), C39 (block sizes), C37 and C75 (types of the blocks) and C76 (picture) through the whole program; negative cases by C39_small_dimension_is_ub and C76_wide_border_fails"
],
"C129": [
"Model/BenchMain (on Model/Bench, Provider, Files)",
"composition of the theorems about configured sets (C57), files (C42, C127), actions (C82) and tables (C83); invariants of the provider (all matrices are column-major) and of the loop that stores the files; refuted for missing sets, unwritable files and the differences of all but the last action"
],
"C130": [
"Model/BenchConsole.lean (main with command line, standard output and standard error), Model/BenchMain.lean, Model/Table.lean",
"the loops of main with output are simulated by the loops of BenchMain without it, by induction over actions and pairs; the exact text is then a function of the rows (C130_text); composition with C129 (valid configurations) and C73/C83 (fields); refuted by an unknown action and an unwritable file"
],
"C131": [
"Model/Converter.lean (Settings, occ, isConvertible, convertMatrix)",
"the limits are named in the statement as in the settings, without the model's table; from the first-match theorem (C37) by cases on the type and monotony of the counts; uniqueness of the first match; refuted for the zero type, whose single-precision limit is never read"
],
"C132": [
"Model/ShowConsole.lean (both mains with command line, standard output, standard error and the destructor of the timer), Model/Show.lean, Model/Files.lean, Model/Print.lean",
"printing either succeeds and only appends or reads uninitialised memory (OrUb with the growth of the output as invariant of the loops); therefore files and exit status are those of C127 and C128; the tables by C77 and C75; refuted by files that cannot be written"
],
"C133": [
"Model/CursorMove.lean (outer and inner cursors with ++, --, ==, *, the overloads of begin, end and of the constructors)",
"the key after a walk is begin + count * stride (induction over the steps; size_t keys modulo 2^64), and the address of element (i,j) is begin + j * stride for each of the four shapes of a line"
],
"C134": [
"Model/CursorMove.lean (operator [])",
"from C133 where the stride is 1; refuted where it is not"
],
"C135": [
"Model/Pattern.lean, Model/Show.lean; the reader (literals of a C text, numbers, palette, pixels) is part of the specification, Props/Xpm.lean",
"literals of a concatenation are those of its parts (induction over the text), decimal numbers are read back, the palette is searched by distinct keys; refuted for keys that are not one character or not distinct"
],
"C136": [
"Model/Interrupted.lean (opening and one step per element or character), Model/FileIO.lean, the reader of Props/Xpm.lean",
"the files after k steps of saving in closed form (induction over the steps); prefixes against C42 and C70; the literals of a prefix are a prefix of the literals, and the heading fixes their number"
],
"C137": [
"Model/Python.lean (names, objects, exceptions) over Model/Dyn.lean (pointer variables and matrices)",
"invariant of all programs: no object holds a matrix; induction over the program shows what is printed and which programs are defined"
],
"C138": [
"Model/Occupation.lean (the comparisons of dense, sparse, zero and two-part matrices), Model/Checker.lean, Model/Norm.lean",
"count of C32 and division by the size; counting the kept elements of a sparse matrix is counting all of the dense one if the checker implies the filter; negative results by witnesses"
],
"C139": [
"Model/InterruptedBench.lean (the differences in the order in which they are written, opening and one step per element), Model/BenchMain.lean",
"induction over a list of saves to numbered files in order that is stopped; the trace of differences is tied to the files of Bench.run by induction over actions and factors, and to the promised results by C82"
],
"C140": [
"Model/Together.lean (generators as programs among others), Model/Saved.lean (small steps with a position per program)",
"invariant over schedules: behind the position of the program that opened the file last every element comes from one of its writers; work left decreases"
],
"C141": [
"Model/FullDisk.lean (writes that do not fit are dropped), Model/Interrupted.lean, Model/BenchMain.lean",
"reduction to programs that are stopped (C136) after as many elements as fit; induction over the files of the benchmark"
]
}