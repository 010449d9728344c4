# Formal model of fern: design

## Layout

* `properties.jsonl`: the properties, in terms of the public API.
* `lean/Verif/Model/*.lean`: the model. Every definition cites file and lines in `/repo`
  (paths relative to `source/fern`).
* `lean/Verif/Spec/*.lean`: small specifications, written without the model's helpers.
* `lean/Verif/Lemmas/*.lean`: helper lemmas.
* `lean/Verif/Props/*.lean`: the property theorems, named after the property (`C01_...`), each with an
  `example` that shows a concrete non-trivial case meeting its hypotheses.
* `MANIFEST.json`: property -> theorems. `seeded/LOG.jsonl`: log of wrong programs tried.

## Trusted base

* Lean 4.33.0's kernel; axioms used by the theorems: at most `propext`, `Classical.choice`, `Quot.sound`
  (checked with `#print axioms`). No own axioms, no `sorry`, no `native_decide`/`bv_decide`.
* The reading of the C++ code. The code is neither built nor run.
* C++ semantics as encoded in the model: integers are two's complement (int is 32 bit, `size_t` 64 bit,
  `long` 64 bit), narrowing conversion wraps, signed overflow and out-of-range access are undefined
  behaviour. Undefined behaviour and violated `assert`s are a *distinct outcome* (`none` of an
  `Option`-valued model function), so theorems of the form `f x = some ..` also claim their absence.
* Container sizes are unbounded `Nat` (no exhaustion of memory or of `size_t`), except where a property is
  about wrapping.
* Standard library / Boost functions used by the code (`std::map`, `std::vector`, `std::sort`, `boost::any`,
  `boost::multi_array` storage order, mutexes) behave as documented.

## What is modelled and how

Common modelling decisions:

* **Element stores.** A result with its no-data mask is a list of cells `(value, masked)`. A read or write
  outside the list is `none`.
* **No-data policies.** Input policies (`SkipNoData`, `DetectNoData`, `DetectNoDataByValue`, ..) are an
  inductive type with a Boolean detection function; output policies (`DontMarkNoData`, `MarkNoData`,
  `MarkNoDataByValue`) an inductive type with a marking action.
* **Value types.** Element-wise operations are modelled polymorphically over the value types, with the
  algorithm, the domain and the range check as arbitrary functions: theorems hold for each instantiation,
  also for floating point (nothing about floating point arithmetic itself is assumed or proved).
* **Integers.** Arithmetic properties use mathematical integers with explicit bounds per C++ type and
  explicit promotion/conversion functions.
* **Loops.** A C++ `for` over `[b, e)` is a monadic fold over `List.range'`; loops with irregular control flow
  are recursive functions over an explicit state.
* **Sequences of operations.** The Laplacian, the Lax average and the slope call several array operations. Each call is
  a set of possible outcomes (one if sequential, one per schedule if parallel, failures included), the whole is their
  composition. The size checks of operations between rasters made with `clone` are left out, and the type in which the
  convolution accumulates is the value type.
* **Concurrency.** A parallel operation is a list of tasks, a task is a list of atomic element steps; an
  execution is any interleaving of the tasks' steps. The thread pool and its queue are a labelled transition
  system. Memory model effects below the level of element accesses are out of scope; data race freedom is
  stated as disjointness of the written elements.

## Per property

| id | model | proof |
|----|-------|-------|
| C01 C02 C03 C70 | `index_ranges` 1D/2D incl. block loop, `IndexRange` | arithmetic on `n / t`; list lemmas on concatenated ranges; negation witness for the documented count |
| C04 C05 | tasks = element steps per block, arbitrary interleaving | steps on different elements commute; an interleaving of a partition is a permutation of the sequential steps |
| C06 C07 C08 | thread pool/queue transition system | invariants over reachable states, refinement to FIFO queue |
| C09 C10 C11 C12 C13 | `operation_0d/1d/2d` of the local and disaggregate operations, n-ary recursion | fold invariant; pointwise characterisation; witnesses for conversion and policy reuse bugs |
| C14 C15 C16 C17 | cover, if, no-data set operations, Boolean operators | per-element loops reduced to pointwise functions; compared with one common specification |
| C18 C19 C20 | compress, regional copy, decompress | loop invariant relating the prefix to `filter`; round trip |
| C21 C22 C23 | offset with `range_to_copy`/`range_to_initialize` | arithmetic; pointwise result; disjoint footprints; wrap witness |
| C24 C25 | copy, clamp | as above |
| C26-C34 | integer types with promotion, conversion, UB; `within_range` functions; `ResultValue` | integer arithmetic (`omega`, nonlinear for multiply); finite case analysis over types with all values quantified |
| C35 C36 C37 C66 C67 | unary/binary aggregate loops, block merge | loop invariants; monoid homomorphism; witnesses |
| C38 C39 | accumulators | algebra; sorting lemmas |
| C40-C43 | flag sets, value types, expression types, type calculation | Boolean/bit reasoning, `decide` over complete finite tables where the quantifier is finite |
| C44 C45 C55 | scope, symbol table, stack | refinement to functions, induction over histories |
| C46 C47 C48 C68 | strings as character lists | induction |
| C49 C50 C51 C69 | indexing, masks, reserved no-data values, arrays from nested lists | arithmetic, pointwise |
| C52 C53 | convolve's nine regions with the loop-carried kernel/source offsets | invariants of the offsets; comparison with one neighbourhood rule |
| C54 | guard histories | induction |
| C56 C57 C58 C59 C62 C63 | syntax trees, visitors as functions on trees with explicit symbol table and stack | structural induction |
| C60 C65 | threading as a function producing the successor relation | structural induction; both directions of when threading succeeds; witness for the second call |
| C61 | inlining, any number of rounds on modules | environment semantics; witnesses and conditional theorem |
| C64 | printer to strings | injectivity by induction, for whole modules |
| C71 | the eight boxes of the focal-average policies | arithmetic on the boxes; composition with C53; witnesses |
| C72 | three passes per block with carried indices | the passes visit a permutation of the block's cells; pointwise rule; exact arithmetic for linear fields |
| C73 | element-wise operations that read what they write | each element is read and written by one step only; comparison with operating on a copy |
| C74 C75 C76 | Laplacian, Lax average, slope: sequences of array operations, each with all its possible outcomes (`Outcomes`) | per cell composition of C04, C09, C10, C17, C53, C71, C73; exact arithmetic for constant, linear and quadratic fields |
| C77 | interpreter calls: the state that remains between them (types, values, two stacks) | type soundness: annotation, validation and execution compared by induction over expressions and statements; invariant over sequences of calls; witnesses |
| C78 | list of values, sum and count, over any arithmetic | induction over the values; algebra in a field |
| C79 C80 C81 | contents of an HDF5 file as a function from paths to objects; drivers as functions on a world; a disk of files | invariant (tree), induction over paths, drivers and sequences of writes |
| C82 | steps on a world, with exceptions; conversions and drivers any functions | induction over the words |
| C83 | the generated text, character by character; a bracket scanner, declarations and a small semantics of its lines as specification | induction over expressions and statements |
| C84 | Python's syntax tree as input, the XML text written for it, a lexer and reader of XML, the syntax tree read; issues and expected tree without XML as specification | induction over expressions and statements, the lexer and reader run on what is written |
| C85 | floating point values as rationals, infinities and NaN; the policies; real functions of Mathlib as specification | case analysis; irrationality of pi; parity of denominators |
| C86 | a heap of features with ordered maps; paths by their elements; assertions on or off; following names as a relation | induction over names; ordered insertion |
| C87 | files as images or something else; formats as records of abilities; functions return the disk and an outcome; exact coordinates | windows of rasters by row and column; composition of writing and reading |
| C88 | rasters as records with a list of values; the loops of C10, C15 and C73; undefined behaviour where an element of C26–C30 has it | cells as optional values; each operation is related to one function of two cells, then C26–C33 give that function |
| C89 | templates and format strings as lists of characters; the classes of exceptions and the places that make them; failing assertions and exceptions of boost::format as outcomes | the parser of format strings inverts writing them; digits and separators |
| C90 | Command: words, world with standard output, standard error and the rest; parser, interpreter, compiler and datasets as any functions | case analysis on the words, induction over options; invariant on standard error; refutations by witness |
| C91 | Casts: rationals with infinities and NaN, IEEE rounding to nearest even, wrapping, truncation | exact rational arithmetic (exponents by integer logarithm); uniqueness of nearest values; refutations by witness |
| C92 | Casts: `sign`, `std::min`, `std::max` over any comparison | case analysis; C10 for rasters; refutation by witness |
| C93 | Interpreter (C77) with a type system over the source text | annotated vertices agree with the typing function; equivalence by mutual induction over expressions and induction over statements |
| C94 | Shell: lines, any parser, the interpreter of C77, two outputs, history | invariant between lines (ready, empty stacks, names have the types and values of the specification); induction over lines; refutations by witness |
| C95 | FloatArith: values are rationals, infinities or NaN; exact result rounded to nearest even | uniqueness of rounding; error bounds by cases on the last bit; refutations by witness |
| C96 | FloatSum: accumulators of C36 with the arithmetic of C95 | invariant preserved by adding and merging blocks, whatever the order: error bound, exactness; refutations by witness |
| C97 | Whole: floor, ceil, trunc and round on rationals, infinities and NaN | order properties of the four functions; values of the type are closed under them, by cases on the exponent |
| C98 | Programs: sequences of calls of the local operations of C09 and C10 on numbered rasters | induction over calls: the content of every cell is that of a program on optional values; refutations by witness |
| C99 | Dot: the visits of the syntax tree as lists of vertices, edges and boxes | mutual induction over syntax trees; counting of vertices; refutations by witness |
| C100 | Dot: the visits of the flow of data as lists of vertices, edges and boxes | definitions reached by names; order of evaluation; induction over straight-line prefixes; refutations by witness |
| C101 | Dot: texts of items; a reader for the part of Graphviz' language that is used | reader is left inverse of writer, by induction; refutations by witness |
| C102 | Clients: kinds of clients, counts, what each library has loaded | invariant over histories of creations and destructions; refutations by witness; count of overlaps by induction |
| C103 | Parsing: counts of references, values of errors, open files | invariant over histories of operations; exact characterisation of the errors reported; induction over files |
| C104 | Trees: expressions over constants and rasters, evaluation with faults, texts | structural induction; cell by cell semantics as specification; reader by prefix argument; refutations by witness |
| C105 | Handles: objects that close what they opened, moves of two kinds, reuse of identifiers | invariant over all programs of constructions, moves, assignments and destructions; refutations for all states and by witness |
| C106 | Netcdf: global attributes, conventions, reading a scalar of a COARDS dataset | parts of a text as specification, membership by uniqueness of runs; equivalences for each outcome |
| C107 | StdOps: domains, values, attributes in space; executing abs, add, int32 | induction over additions and over the loops; refinement to magnitudes of cells |
| C108 | StdOps: print of constants, ranges, rasters | commas between texts as specification; splitting at commas |
| C109 | Kernel: constructors of `Kernel` and `Square` as loops with positions, access, indices | induction over the rounds of the loops; both constructors refined to concatenation of rows |
| C110 | Convolve with exact numbers and what is missing skipped | consequences of C53: permutations of neighbourhoods, sums of lists of rationals; one refutation by witness |
| C111 | FileTypes: types, spaces and values of datasets of HDF5 files | case analysis over types; induction over histories of writes; one refutation by witness |
| C112 | Compiler: texts of paths, disks with links, checks and writes of the compiler | induction over links, names and lists of writes; refutations by witness |
| C113 | PySession: objects, names and arrays of Python programs with rasters | invariant and simulation by induction over programs; refutations by witness |
| C114 | PoolRun: threads that call operations, their tasks action by action, and the workers | invariant over executions (what remains of each task, interleavings done); decreasing measure per worker; refutation by witness |
| C115 | handlers of elements with what they store, called for the documents of the schema; documents of uncertainty up to their first problem | folds over names and elements; case analysis on names |
| C116 | threads that call operations, the tasks these submit with their outcomes and their reads through references, the workers, futures, destruction of the pool; all interleavings | invariants; simulation by the machine of C114; construction of executions by induction over the tasks |
| C117 | arithmetic on integers of all shapes of arguments: conversions, no-data, domain and range policies, loops, tasks | element loops with a value for undefined behaviour; composition of the scalar facts of C10-C13 with the loops |
| C118 | arithmetic on floating point numbers, also mixed with integers, of all shapes of arguments: conversions, no-data, domain and range policies, loops, tasks | generic element loops over pairs with a value for undefined behaviour; composition of the scalar facts of C91 and C95 with the loops |
| C119 | raster operations of the Python extension on rasters of floating point numbers and on floating point numbers: construction, `add`, `multiply`, `iadd`, `imultiply`, `less`, `greater`, `if_` | composition of C118, C10 and C15 with the reserved value policies; refinement of C88 for integers by an embedding |
| C120 | `slope` of the Python extension, on rasters of `float` and `double` whose masked cells contain a reserved value, in the temporary rasters too; `std::pow` and `std::sqrt` are arguments | composition of C71, C73 and C04 for value marking policies; induction over the sums for the exactness of differences |
| C121 | `laplacian` and `lax` on rasters of `double`, all operations rounded | composition of C74/C75 with the bound of a rounding (C95); induction over the weighted sum for its accumulated error |
| C122 | `convolve` on rasters of `float` and `double`, with kernels of `float`, `double`, `int32_t` and `bool`, all operations rounded | composition of C53 with the bound of a rounding (C95); induction over the weighted neighbours for the accumulated error of the two sums; error of a quotient of approximations |
| C123 | `accumulator::Variance` and `accumulator::StandardDeviation` of `float` and `double`, all operations rounded | induction over the ways in which accumulators can get their values, with the invariants of C96; error of the squares about a mean that is off; the sum of squares is never negative |
| C124 | `gradient_x` and `gradient_y` on rasters of `float` and `double`, all operations rounded | composition of C72 with the bound of a rounding (C95); doubling a number is exact; monotonicity of rounding for the sign |
| C125 | `accumulator::Max`, `Min`, `Range`, `Median` of `float` and `double`; `unary_max` and `unary_min` of arrays of them | an invariant of all ways of adding and merging, for an abstract order; uniqueness of sorted lists; monotonicity of rounding for the median |
| C126 | `ReplaceNoDataByFocalAverage` and `ReplaceOutOfImageByFocalAverage` on rasters of `float` and `double`, and `convolve` with both | composition of C71 with the bounds of roundings (C95) and of sums (C122); terms of the convolution related one by one to those of the exact convolution |
| C127 | Accuracy of `slope` on rasters of `float` and `double` | C120 composed with the bounds of C126; the nine terms summed explicitly; square roots over the real numbers |
| C128 | `accumulator::Mode` and `detail::FrequencyTable` of `float` and `double` | an invariant of all ways of constructing, adding and merging: the values in the table are a permutation of those added; all orders of iteration |
| C129 | `algebra::absolute` and `factorial` on whole arrays of integers through `unary_local_operation`, with and without their policies | undefined behaviour of one element is that of the operation; `std::tgamma` of integers accurate (C85), NaN below zero |
| C130 | `DetectOutOfRangeByErrno` as the range policy of local operations: `errno` per thread, pools that take blocks from a queue | induction over the order in which elements are done; all orders of all pools; what the library reports is a parameter |
| C131 | the five operations of the language's library: what they declare, their type rules, and scripts made of them | a type system over the source text, proved equivalent to annotation and validation for all scripts, and sound for execution of scripts without sums and conversions; the rules for all sets of flags |
| C132 | the assertions on sizes of clamp, cover, if, unite, intersect and merge no-data, compress, decompress, copy, gradient, slope, laplacian, lax and parallel convolve | whatever the execution policy, schedule, values and policies: an outcome implies that the sizes fit |

## Modelled code

Paths relative to `source/fern`.

* `algorithm/core`: `index_range`, `index_ranges`, `nullary_`/`unary_`/`binary_`/`n_ary_local_operation`,
  `unary_disaggregate_operation`, `unary_`/`binary_aggregate_operation`, `detail/{cover, if, intersect_no_data,
  unite_no_data, merge_no_data, compress, decompress, copy, offset, clamp, result_value, fill, cast}`.
* `algorithm/policy`: the input and output no-data policies, domain and range policies as predicates; `detect_out_of_range_by_errno.h` with `errno` per thread (`Model/Errno.lean`).
* `algorithm/algebra/elementary/detail`: the integer parts of add, subtract, multiply, divide, absolute, the
  comparisons, factorial's domain; `algebra/boole/detail`: all; `algebra/vector/detail/{gradient, laplacian, lax}`;
  `algorithm/space/focal/detail/slope`.
* `algorithm/statistic`: sum, count, mean, min, max; `algorithm/accumulator`: all (variance and standard deviation
  in exact arithmetic).
* `algorithm/convolution`: `detail/convolve.h` and all policies.
* `language/io/drivers.cc`, `language/io/fern` (tree of features and attributes), `language/operation/std/{read, write}`.
* Futures of the thread pool (`core/thread_pool.h:104-122`, `core/detail/function_wrapper.h`, `core/join_threads.cc`) with values, exceptions and broken promises, and the operations that ask them (`Model/Futures.lean`). Trusted: `std::packaged_task` stores what the function returns or throws; the destructor of such a future doesn't wait.
* `language/operation/xml/operation_xml_parser.cc`, `language/operation/core/{parameter,result}.cc`, `language/io/uncertml2/uncertml2_parser.cc` (`Model/Descriptions.lean`): the handlers. Trusted: the code generated from the schemas calls them as described there, for conforming documents; the reading of numbers from text.
* `algorithm/core/unary_local_operation.h` and its like with a parallel execution policy, `core/thread_pool.{h,cc}` (`Model/PoolRun.lean`): tasks are submitted one by one, executed action by action, and waited for. Trusted: that a future is ready when its task has returned and not before; that what a task wrote is seen by the thread that waited for it. Not modelled: exceptions in tasks, results of tasks (futures of values).
* `python/algorithm/__init__.py.in`, `python/algorithm/algebra/elementary/{__init__.py.in,python_extension.cc}`, `python/feature/numpy.cc` (`Model/PySession.lean`): the operators, functions in place and copies to arrays, for rasters and numbers of integers. Trusted: which methods Python calls for operators, that objects without a name are deleted, that `reference_existing_object` keeps nothing from being deleted. Not modelled: numbers that are floats, arrays as operands, `raster_as_numpy_array` and properties of the result of `+=`.
* `language/io/core/file.cc`, `language/compiler/compiler.cc`, `core/path.cc` (POSIX), `can_open_for_overwrite` of `language/io/gdal/gdal_driver.cc` (`Model/Compiler.lean`): disks as maps from places to files, directories and links (in last position only).
* `language/io/fern/{fern_dataset.cc, hdf5_type_traits.*, hdf5_dataset.h}` (`Model/FileTypes.lean`): types of files, `value_type`, `expression_type`, reading and writing of the one value; conversions by the library are trusted to clip.
* `algorithm/convolution/neighborhood/{kernel,kernel_traits,square,square_traits}.h` (`Model/Kernel.lean`).
* `language/feature/core/{spatial_domain,geometry_values,spatial_attribute}.h`, `language/operation/std/{abs,add,int32}.cc`, `language/operation/std/print.h` (`Model/StdOps.lean`).
* `io/netcdf/core/{attribute,variable,dataset}.cc`, `io/netcdf/coards/dataset.cc`, `io/netcdf/coards/detail/read.h` (`Model/Netcdf.lean`). The library is described by what it finds under a name.
* `language/io/fern/hdf5_group.cc`, `hdf5_dataset.cc`, `io/netcdf/core/dataset_handle.*`, `io/gdal/dataset_handle.*` (`Model/Handles.lean`): constructors, moves, destructors; identifiers of types and spaces.
* `expression_tree/*.h` (`Model/Trees.lean`): evaluation and texts of trees; the class `Array` and the categories of operations, which trees do not use, are left out.
* `language/python/{owned_reference,exception,string}.cc`, and `parse_string` and `parse_file` of `language/script/algebra_parser.cc` (`Model/Parsing.lean`): the counts of references, the values of errors and the files; the parser of Python itself is an argument.
* `language/io/{gdal,fern,ogr}/*_client.cc`, `io/gdal/gdal_client.cc`, `language/python/client.cc`, `language/io/io_client.{h,cc}` (`Model/Clients.lean`): counts of clients and what is registered; the libraries themselves are abstract.
* `language/ast/visitor/{dot_visitor,ast_dot_visitor,flowgraph_dot_visitor}.cc`, and from `language/command/compile_command.cc` the functions that write these graphs.
* `algorithm/algebra/elementary/{floor,ceil,trunc,round}.h` (the functions of the standard library are trusted).
* `algorithm/algebra/elementary/{add,subtract,multiply,divide,absolute}.h` on floating point numbers, alone and with integers: the exact result rounded to nearest even (trusted; no signed zeros).
* `language/command/interpreter.cc` (readline left out).
* `algorithm/core/{cast,sign}.h`, `algorithm/core/detail/cast.h`, `algorithm/statistic/binary_{min,max}.h` with IEEE 754 `binary32` and `binary64` as rationals, rounding to nearest even (no signed zeros).
* `language/command/{fern,command,compile_command,describe_command,execute_command,import_command}.cc` (help texts are parameters).
* `core`: `thread_pool`, `thread_safe_queue`, `scope`, `scope_exit`, `stack`, `flag_collection`, `value_types`,
  `data_types`, `type_traits`, `expression_type`, `string`, `data_name`, `typelist`.
* `feature/core`: `array`, `masked_array`, `raster`/`masked_raster` indexing and construction.
* `language/core/symbol_table`, `language/ast/visitor`: ast, identify, io, annotate, validate, thread, optimize and
  module visitors; `language/interpreter/{execute_visitor, interpreter}`; `language/operation/core`: operations, expression types and
  their calculation.

* `io/gdal`, `language/io/gdal` (datasets and rasters), `python`: raster operations and GDAL; `language/script` and
  `language/ast/xml`: from Python's syntax tree to XML to Fern's; `language/compiler`; `core/messages` and exceptions.

Not modelled: the libraries (HDF5 and GDAL are described by what they are trusted to do, in the models of their users), I/O
by OGR and GPX, Python's parser, rounding of floating point arithmetic other than in C91, C92, C95, C96 and C118 to C128
(elsewhere operations on floating point values are arbitrary functions, or exact arithmetic where a theorem says so), the values of trigonometry, `pow`, `log`,
`sqrt` and `tgamma` (library calls), memory exhaustion.

## Index of model files

The files of /repo/source/fern that the comments in a model file cite; the lines are given with the definitions.
About a quarter of the definitions have no lines of their own. Some of these are parts of functions whose lines are given
with a definition nearby or at the head of the file. Most are not functions of Fern: they are operators and conversions of C++ or Python, functions of
libraries as they are documented (the comment names them), the rules of XML, the initial states and steps of the machines
that execute programs, or plumbing between steps that can fail.

| Model | Source |
| --- | --- |
| `Accumulators` | `algorithm/accumulator/{count.h,max.h,mean.h,median.h,min.h,mode.h,range.h}`, `algorithm/accumulator/detail/frequency_table.h` |
| `Aggregate` | `algorithm/accumulator/sum.h`, `algorithm/core/{binary_aggregate_operation.h,unary_aggregate_operation.h}`, `algorithm/statistic/{count.h,sum.h}`, `algorithm/statistic/detail/count.h` |
| `Annotate` | `core/type_traits.h`, `language/ast/visitor/{annotate_visitor.cc,annotate_visitor.h,ast_visitor.cc}`, `language/operation/core/{operation.cc,operation.h,operations.cc}` |
| `Arith` | `algorithm/algebra/elementary/detail/{absolute.h,add.h,divide.h,equal.h,greater.h,greater_equal.h,less.h,less_equal.h,multiply.h,subtract.h}`, `algorithm/core/binary_local_operation.h`, `core/math.h` |
| `Arrays` | `algorithm/policy/{detect_no_data.h,mark_no_data.h}`, `core/type_traits.h`, `feature/core/{array.h,masked_array.h,masked_scalar.h}`, `feature/core/data_customization_point/{array.h,masked_array.h}` |
| `Boole` | `algorithm/algebra/boole/detail/{and.h,defined.h,nor.h,not.h,or.h,xnor.h,xor.h}`, `algorithm/core/detail/fill.h`, `algorithm/core/{fill.h,unary_disaggregate_operation.h}` |
| `CInt` | `core/type_traits.h` |
| `Cast` | `algorithm/core/{cast.h,sign.h}`, `algorithm/core/detail/cast.h`, `algorithm/statistic/{binary_max.h,binary_min.h}`, `algorithm/statistic/detail/{binary_max.h,binary_min.h}` |
| `Clamp` | `algorithm/core/detail/clamp.h` |
| `Clients` | `io/gdal/gdal_client.cc`, `language/io/fern/{fern_client.cc,hdf5_client.cc}`, `language/io/gdal/gdal_client.cc`, `language/io/{io_client.cc,io_client.h}`, `language/io/ogr/ogr_client.cc`, `language/python/client.cc` |
| `Command` | `core/exception.h`, `language/ast/visitor/ast_dot_visitor.h`, `language/command/fern.cc`, `language/compiler/compiler.h` |
| `CommandLine` | `language/compiler/{compiler.cc,module.cc,parse_command_line.cc}`, `language/interpreter/{dataset_source.cc,dataset_sync.cc}` |
| `Compile` | `language/ast/visitor/ast_visitor.cc`, `language/compiler/{compile_visitor.cc,compile_visitor.h}`, `language/operation/core/operations.cc` |
| `Compiler` | `language/compiler/{compile_visitor.cc,compiler.cc}`, `language/io/core/file.cc`, `language/io/gdal/gdal_driver.cc` |
| `Compress` | `algorithm/core/{compress.h,decompress.h}`, `algorithm/core/detail/{compress.h,copy.h,decompress.h}` |
| `Convolve` | `algorithm/convolution/detail/convolve.h`, `algorithm/convolution/neighborhood/{kernel.h,kernel_traits.h,square.h,square_traits.h}` |
| `Copy` | `algorithm/core/detail/copy.h` |
| `DataName` | `core/{data_name.cc,path.cc}` |
| `Descriptions` | `language/io/uncertml2/uncertml2_parser.cc`, `language/operation/core/{operations.h,parameter.cc,parameter.h,result.cc,result.h}`, `language/operation/xml/operation_xml_parser.cc`, `language/uncertainty/normal_distribution.cc` |
| `Domains` | `algorithm/algebra/elementary/detail/{factorial.h,log.h,pow.h,sqrt.h,tgamma.h}`, `algorithm/algebra/elementary/{log.h,pow.h,sqrt.h,tgamma.h}`, `algorithm/core/unary_local_operation.h`, `algorithm/trigonometry/{acos.h,asin.h,sin.h,tan.h}`, `algorithm/trigonometry/detail/{acos.h,sin.h}`, `core/math.h` |
| `Dot` | `language/ast/visitor/{ast_dot_visitor.cc,ast_dot_visitor.h,ast_visitor.cc,dot_visitor.cc,flowgraph_dot_visitor.cc}`, `language/command/compile_command.cc`, `language/interpreter/interpreter.cc` |
| `Drivers` | `language/io/core/{dataset.h,driver.h,open_mode.h}`, `language/io/drivers.cc`, `language/io/fern/{fern_dataset.cc,fern_driver.cc,utils.cc}`, `language/operation/std/{read.cc,write.cc}` |
| `ElemLoop` | common form of the loops cited in `Loop` and `PairLoop` |
| `Errno` | `algorithm/algebra/elementary/detail/{factorial.h,log.h,log10.h,log2.h,pow.h,sqrt.h,tgamma.h}`, `algorithm/core/{binary_local_operation.h,unary_local_operation.h}`, `algorithm/policy/detect_out_of_range_by_errno.h`, `core/thread_pool.cc` |
| `Execute` | `language/ast/visitor/ast_visitor.cc`, `language/interpreter/{execute_visitor.cc,execute_visitor.h}` |
| `Features` | `core/path.cc`, `language/feature/core/{feature.cc,feature.h}` |
| `FernDataset` | `core/{data_name.cc,path.cc}`, `language/io/fern/{fern_dataset.cc,hdf5_file.cc}` |
| `FileTypes` | `language/io/fern/{fern_dataset.cc,hdf5_dataset.h,hdf5_group.h,hdf5_type_traits.cc,hdf5_type_traits.h}` |
| `FloatArith` | `algorithm/accumulator/{mean.h,sum.h}`, `algorithm/algebra/elementary/detail/{absolute.h,add.h,divide.h,multiply.h,subtract.h}`, `algorithm/core/detail/result_value.h` |
| `FloatConvolve` | `algorithm/convolution/detail/convolve.h`, `algorithm/convolution/divide_by_weights.h`, `algorithm/core/accumulation_traits.h` |
| `FloatCount` | `algorithm/core/binary_aggregate_operation.h`, `algorithm/statistic/detail/count.h`, `core/math.h` |
| `FloatFocal` | `algorithm/convolution/{replace_no_data_by_focal_average.h,replace_out_of_image_by_focal_average.h,skip_no_data.h}`, `algorithm/core/accumulation_traits.h` |
| `FloatGradient` | `algorithm/algebra/vector/detail/gradient.h`, `algorithm/algebra/vector/gradient.h`, `feature/core/data_customization_point/masked_raster.h` |
| `FloatMode` | `algorithm/accumulator/detail/frequency_table.h`, `algorithm/accumulator/mode.h` |
| `FloatOrder` | `algorithm/accumulator/{max.h,median.h,min.h,range.h}` |
| `FloatRaster` | `algorithm/algebra/elementary/{add.h,divide.h,multiply.h,subtract.h}`, `algorithm/core/binary_local_operation.h` |
| `FloatSpread` | `algorithm/accumulator/{mean.h,sum.h,variance.h}` |
| `FloatVector` | `algorithm/algebra/vector/detail/{laplacian.h,lax.h}`, `feature/core/data_customization_point/masked_raster.h` |
| `FocalAverage` | `algorithm/convolution/{replace_no_data_by_focal_average.h,replace_out_of_image_by_focal_average.h}`, `algorithm/space/focal/detail/slope.h` |
| `Futures` | `algorithm/core/{unary_aggregate_operation.h,unary_local_operation.h}`, `core/detail/function_wrapper.h`, `core/{join_threads.cc,thread_pool.cc,thread_pool.h}` |
| `Gdal` | `core/path.cc`, `io/gdal/dataset.cc`, `io/gdal/detail/read.h`, `language/feature/core/spatial_attribute.h`, `language/io/gdal/{gdal_data_type_traits.h,gdal_dataset.cc,gdal_dataset.h,gdal_type_traits.h}`, `python/feature/detail/masked_raster.h`, `python/io/gdal.cc` |
| `Gradient` | `algorithm/algebra/vector/detail/gradient.h` |
| `Handles` | `io/gdal/{dataset_handle.cc,dataset_handle.h}`, `io/netcdf/core/{dataset_handle.cc,dataset_handle.h}`, `language/io/fern/{hdf5_dataset.cc,hdf5_group.cc}` |
| `Identify` | `language/ast/core/{name_vertex.cc,name_vertex.h}`, `language/ast/visitor/{ast_visitor.cc,identify_visitor.cc}` |
| `InOut` | `language/ast/visitor/{ast_visitor.cc,io_visitor.cc,io_visitor.h}` |
| `InPlace` | `algorithm/algebra/vector/detail/laplacian.h`, `algorithm/core/{binary_local_operation.h,unary_local_operation.h}`, `algorithm/space/focal/detail/slope.h` |
| `IndexRanges` | `algorithm/core/{index_range.cc,index_range.h,index_ranges.cc,index_ranges.h}` |
| `IntRaster` | `algorithm/algebra/elementary/{add.h,divide.h,multiply.h,subtract.h}`, `algorithm/core/binary_local_operation.h`, `algorithm/policy/{discard_domain_errors.h,discard_range_errors.h}` |
| `IntUnary` | `algorithm/algebra/elementary/{absolute.h,factorial.h}`, `algorithm/algebra/elementary/detail/{absolute.h,factorial.h}`, `algorithm/core/unary_local_operation.h` |
| `Interpreter` | `language/interpreter/{data_source.h,execute_visitor.cc,interpreter.cc,interpreter.h}` |
| `Kernel` | `algorithm/convolution/detail/convolve.h`, `algorithm/convolution/neighborhood/kernel.h` |
| `Library` | `language/operation/core/{operation.cc,operations.cc}`, `language/operation/std/{abs.cc,add.cc,int32.cc,operations.cc,read.cc,write.cc}` |
| `LocalOps` | `algorithm/core/{binary_local_operation.h,n_ary_local_operation.h,nullary_local_operation.h,unary_disaggregate_operation.h,unary_local_operation.h}`, `feature/core/data_type_traits/array.h` |
| `Loop` | `algorithm/core/unary_local_operation.h`, `core/thread_pool.h`, `feature/core/data_customization_point/array.h` |
| `Messages` | `core/{exception.cc,io_error.cc,io_error.h,message_id.h,messages.cc,messages.h,parse_error.cc,parse_error.h,script_error.cc,script_error.h,validate_error.cc,validate_error.h}`, `io/gdal/dataset.cc`, `io/netcdf/coards/detail/read.h`, `io/netcdf/core/dataset.cc`, `io/xml/parse.h`, `language/ast/visitor/validate_visitor.cc`, `language/ast/xml/xml_parser.cc`, `language/interpreter/interpreter.cc`, `language/io/drivers.cc`, `language/io/fern/{fern_dataset.cc,utils.cc}`, `language/io/gdal/gdal_dataset.cc`, `language/operation/std/read.cc`, `language/python/exception.cc`, `language/script/algebra_parser.cc` |
| `Netcdf` | `io/netcdf/coards/dataset.cc`, `io/netcdf/coards/detail/read.h`, `io/netcdf/core/{attribute.cc,dataset.cc,variable.cc}`, `io/netcdf/core/detail/variable.h` |
| `Offset` | `algorithm/core/detail/offset.h` |
| `Optimize` | `language/ast/core/assignment_vertex.cc`, `language/ast/visitor/{ast_visitor.cc,optimize_visitor.cc,optimize_visitor.h}` |
| `Outcomes` | `algorithm/algebra/elementary/detail/{add.h,multiply.h,subtract.h}`, `algorithm/algebra/elementary/divide.h`, `algorithm/convolution/detail/convolve.h`, `algorithm/core/accumulation_traits.h`, `algorithm/core/argument_traits/masked_raster.h`, `algorithm/policy/execution_policy.h`, `feature/core/data_customization_point/masked_raster.h` |
| `PairLoop` | `algorithm/core/binary_local_operation.h` |
| `Parsing` | `language/python/{exception.cc,owned_reference.cc,string.cc}`, `language/script/algebra_parser.cc` |
| `Policy` | `algorithm/policy/{detect_no_data.h,detect_no_data_by_value.h,dont_mark_no_data.h,mark_no_data.h,mark_no_data_by_value.h,skip_no_data.h}` |
| `PoolRun` | `algorithm/core/unary_local_operation.h`, `algorithm/policy/parallel_execution_policy.h`, `core/{thread_pool.cc,thread_pool.h}` |
| `Print` | `language/ast/core/operator_vertex.cc`, `language/ast/visitor/{ast_visitor.cc,module_visitor.cc}` |
| `PyFloat` | `algorithm/algebra/elementary/detail/less.h`, `core/type_traits.h`, `python/algorithm/algebra/elementary/{add_number_raster.cc,add_raster_number.cc,add_raster_raster.cc,less.cc}`, `python/algorithm/core/{if_number_raster.cc,if_raster_number.cc,if_raster_raster.cc,python_extension.cc}`, `python/core/switch_on_value_type.h`, `python/feature/detail/masked_raster.h`, `python/feature/masked_raster.cc` |
| `PyOps` | `core/type_traits.h`, `python/algorithm/algebra/elementary/{add_number_raster.cc,add_raster_number.cc,add_raster_raster.cc,less.cc}`, `python/algorithm/core/{if_number_raster.cc,if_raster_number.cc,if_raster_raster.cc}`, `python/core/switch_on_value_type.h`, `python/feature/detail/masked_raster.h`, `python/feature/masked_raster.cc` |
| `PySession` | `python/algorithm/__init__.py.in`, `python/algorithm/algebra/elementary/{__init__.py.in,python_extension.cc}`, `python/feature/numpy.cc` |
| `PySlope` | `algorithm/core/accumulation_traits.h`, `algorithm/space/focal/detail/slope.h`, `python/algorithm/space/focal/slope.cc`, `python/core/switch_on_value_type.h`, `python/feature/detail/argument_customization_point/masked_raster.h`, `python/feature/detail/argument_traits/masked_raster.h`, `python/feature/detail/data_customization_point/masked_raster.h` |
| `ResultValue` | `algorithm/core/detail/result_value.h`, `algorithm/core/result_type.h`, `core/typelist.h` |
| `Scope` | `core/{scope.h,scope_exit.h,stack.cc,stack.h}`, `language/core/symbol_table.h` |
| `Script` | `language/ast/core/{ast_vertex.cc,module_vertex.cc,operator_vertex.cc}`, `language/ast/xml/{syntax_tree.xsd,xml_parser.cc}`, `language/interpreter/interpreter.cc`, `language/script/algebra_parser.cc` |
| `Select` | `algorithm/core/detail/{cover.h,if.h,intersect_no_data.h,merge_no_data.h,unite_no_data.h}`, `core/data_customization_point/scalar.h` |
| `Shell` | `core/value_type_traits.h`, `language/command/interpreter.cc` |
| `Slope` | `algorithm/algebra/elementary/pow.h`, `algorithm/space/focal/detail/slope.h` |
| `StdOps` | `language/feature/core/{geometry_values.h,spatial_attribute.h,spatial_domain.h}`, `language/operation/std/{abs.cc,add.cc,int32.cc,print.h}` |
| `Strings` | `core/string.cc` |
| `Syntax` | `language/ast/core/{assignment_vertex.cc,attribute_vertex.cc,function_call_vertex.cc,function_definition_vertex.cc,if_vertex.cc,module_vertex.cc,name_vertex.h,number_vertex.h,operator_vertex.cc,return_vertex.cc,scope_vertex.cc,subscript_vertex.cc,while_vertex.cc}`, `language/ast/visitor/annotate_visitor.cc` |
| `Thread` | `language/ast/core/ast_vertex.cc`, `language/ast/visitor/{ast_visitor.cc,thread_visitor.cc,thread_visitor.h}` |
| `ThreadPool` | `core/{thread_pool.cc,thread_pool.h}` |
| `ThreadSafeQueue` | `core/thread_safe_queue.h` |
| `Trees` | `expression_tree/{ast.h,data.h,evaluate_visitor.h,implementation.h,plus.h,raster.h,stream_visitor.h}` |
| `Types` | `core/{data_type.h,data_types.cc,data_types.h,expression_type.cc,expression_type.h,flag_collection.h,type_traits.cc,value_type.h,value_types.cc,value_types.h}`, `language/operation/core/{expression_type_calculation.cc,expression_types.cc,expression_types.h,operation.h}` |
| `Validate` | `language/ast/visitor/{ast_visitor.cc,validate_visitor.cc}` |
| `Variance` | `algorithm/accumulator/{mean.h,standard_deviation.h,variance.h}` |
| `Vector` | `algorithm/algebra/vector/detail/{laplacian.h,lax.h}` |
| `Whole` | `algorithm/algebra/elementary/{ceil.h,floor.h,round.h,trunc.h}`, `algorithm/algebra/elementary/detail/{ceil.h,floor.h,round.h,trunc.h}` |

## Findings

Where the code departs from its documentation or from what a user would expect. Each is either a theorem or witness
(named), or follows from reading the model (not named).

Ranges and local operations
* C02, C03: the documented result for empty sizes (`C02_doc_empty_false`) and the documented number of ranges
  (`C03_doc_count_false`) are wrong.
* C10, C17: for two arguments of different types the second value is converted to the type of the first one before
  the operation, in the 1D/1D and 0D/1D versions only. (`C17_and_1d1d_narrowed_false`)
* C10: the parallel version of a local operation on a scalar and a 1D array is the only one that does not
  assert that the sizes of argument and result agree: a result that is too long is partly left as it
  was. (`C10_extents_0d1d_false`, `C10_extents_*`)
* C13: an n-ary operation ignores the no-data of the third and further arguments. (`C13_nAry_noData_false`)
* C13, C73: the loops hold *references* to the elements of the arguments (`const_reference`), so that the range policy,
  which is asked after the result is stored, sees the new value if an argument is the result. In place, sums of unsigned
  numbers that overflow are accepted (200 + 100 gives 44 in 8 bits) and products that fit are refused (100 * 2), see
  `C73_checked_after_false`; an n-ary sum notices overflow of its first two arguments only (`C13_nAry_add`,
  `C13_nAry_overflow_false`). An earlier version of this model passed the old value to the policy; this was found when
  the in-place operators of the Python extension were modelled.
* C15: sequential `if(1D, 0D, 0D)` asserts unless the array has one element. (`C15_ifThenElse1d0d0dSeq_asserts`)
* C23: offsets whose extent is not representable in the signed type wrap.
* C24: a parallel copy of an empty range accesses an element of an empty vector. (`C24_copy_parallel_empty_false`)
* C25: clamp's parallel versions with one scalar bound name the bounds' types in the wrong order, so can't be used.

Arithmetic and statistics
* C28, C33: mixed signedness: comparisons and range checks convert negative values to large unsigned ones.
* C31: the smallest value divided by -1 is not detected, and `uint64_t` combined with a signed type gives wrong
  quotients. (`C31_divide_false`)
* C35, C36: overflow of signed sums is undefined behaviour before the range policy is asked; a parallel and a sequential
  sum may differ when one of them overflows halfway. (`C36_sum_signed_false`)
* C37: the 2D count is wrong if the first rows are no-data, the parallel one if a block is.
  (`C37_count_2d_false`, `C37_count_par_1d_false`) What is not a number cannot be counted, although an array of such
  values is not empty (`C37_float_1d`).
* C38, C39: merging counts with a range policy adds 1; a default constructed mode accumulator is wrong; range and even
  median may overflow. (`C38_count_policy_false`, `C38_mode_default_false`, `C39_range_false`, `C39_median_false`)
* C43: `int16` is missing from the chain of types: with `int8` the result is `int8`. (`C43_int16_witness`)
* C51: the value reserved for no-data can also be the result of an operation.
* `raster.h:149,162`: a comma operator in the 3D clone drops an extent.

Convolution
* C52: the sequential version doesn't check that the image is at least twice the radius: size_t underflow leads to
  accesses out of range or to a failing assertion. (`C52_small`)
* With alternatives for no-data cells, a cell with weight 0 counts as a value, so the sum of weights may be 0.
* C53: for Boolean kernels the inner part skips cells outside of the kernel where the border doesn't, which makes a
  difference if no-data cells are replaced. (`C53_boolean_alternative_differs`)
* C71: replacing by focal averages needs extents of at least 2r+1 (`C71_two_rows`, `C71_two_columns`); isolated no-data
  cells assert (`C71_isolated`).
* C72: rasters of one column (row) assert. (`C72_x_one_column`, `C72_y_one_row`)
* C74: `InputNoDataPolicyTemporary` compares the tuple of policies `InputNoDataPolicies<SkipNoData>` with `SkipNoData`,
  which are never the same, so that no-data is always detected in the temporary and in the mask of the result. A cell whose
  mask was set beforehand is left with the weighted sum of its neighbours (`C74_masked_before`). If no-data is detected
  but not marked, no-data cells get the old value of the result divided by the cell area (`C74_unmarked`). A valid cell
  without valid neighbours becomes no-data.
* C74, C75: neither the Laplacian nor the Lax average can be used with 32-bit floats: they combine values with a `double`
  and the static assertions on the result type of the elementary operations fail.
* C75: the no-data that the convolution generates is not detected by the following steps; the mask is right nevertheless.
* C76: a cell whose mask was set beforehand is left with the square of the slope (`C76_masked_before`); two rows or
  columns aren't sufficient although they pass the assertions of the parallel convolution (`C76_two_rows`); at borders
  the slope of a plane is halved (`C76_plane_border`).

Language
* C47: separators with special meaning in a character class.
* C56: function bodies have no scope of their own in the identify visitor, and parameters count as uses.
* C57: if and while are ignored on execution, function bodies are executed where they are defined.
* C58: argument types of operations are passed in reversed order. Subscripts push two types and no value; attributes
  get no type, so assigning one asserts; the type of an if's condition stays on the stack.
* C60, C65: the second call of a user function asserts, as do a return inside an if, a function definition directly after
  a return, and each while; a return outside of a function is undefined; an if without else has a single successor;
  recursion isn't resolved.
* C61: reassignment changes the meaning (`C61_reassigned`), a chain loses its last name (`C61_chain`), nested single
  uses assert (`C61_nested`), a definition is moved into a loop in which its names are assigned (`C61_loop_false`).
* C62: reassigning several names (a, b, a, b) loses an output (`C62_outputs_false`); contrary to the documentation names
  that are defined before being used are inputs too.
* C63: assigning the result of an operation whose type is undefined is reported as an undefined identifier.
* C64: 8-bit integers are printed as characters, quotes in strings aren't escaped, definitions and returns assert,
  `Not` is printed as `!`, and the sizes of integers aren't distinguished.
* C77: what a refused module assigned is known to later validations but has no value (`C77_after_refusal`), which
  concerns the interactive interpreter; the same holds for data sources that a module doesn't mention
  (`C77_unused_source`, `C77_value_lost`) and for names assigned inside an if (`C77_if_not_sound`). Functions that a
  module defines can't be called (`C77_unknown`), those with parameters can't be defined (`C77_parameter_refused`).
* C78: the variance of integers is computed with the rounded mean (`C78_integers`), it changes if a constant is added to
  all values (`C78_integers_shift`).
* C79: looking for a feature continues after a component that doesn't exist; `H5Lexists` then returns a negative number,
  which counts as true, and the assertion on the next call fails. Therefore attributes of nested features can't be
  written to a new dataset (`C79_new_dataset`, `C79_two_levels`), and data in a feature that doesn't exist ends with an
  assertion instead of an error (`C81_missing_data`).
* C81: Fern's driver finds out whether it can overwrite a file by truncating it (`C81_asking_to_overwrite`,
  `C81_exists_destroys`), so results of compiled models always overwrite, in Fern format, whatever the name
  (`C81_overwrite_without_format`). `write` destroys files in another format (`C81_write_new`).
* C82: names of existing data on the command line are used as text: the result of the first test in
  `data_source` is overwritten by the second (`C82_no_datasets`, `C82_dataset_ignored`). Datasets for results
  are truncated before superfluous words are noticed (`C82_results_lost`).
* C83: code for anything but one assignment of one operation is not valid C++ (`C83_accepted`, `C83_module`);
  arguments are not separated (`C83_names_glued`) and constants are dropped (`C83_arguments`,
  `C83_number_lost`); attributes clear the statement (`C83_attribute`).
* C84: string constants are written to XML without escaping: `a<b` is a parse error (`C84_less`), references are
  replaced (`C84_reference`), line ends changed (`C84_line_end`), null characters truncate (`C84_null`) and markup
  in a string adds statements to the program (`C84_markup`). Integers are written as 64 bits but the schema only
  allows 32 (`C84_integer`); larger ones become -1 (`C84_long`). `and`/`or` with three operands (`C84_operands`),
  `a.b.c` (`C84_attributes`) and `a[b[c]]` (`C84_subscripts`) fail assertions; default values, decorators and rest
  parameters are dropped (`C84_dropped`). Python's parser, and the conversion of floating point numbers to text
  and back, are not modelled (the latter are parameters).
* C85: `log` accepts zero, and as its range is not checked the result, minus infinity, is not marked. `tgamma.h:25`
  documents zero as outside of the domain, the policy accepts it (`0 <= value`); the range policy catches the infinite
  result. `tan.h:42-62` refuses odd multiples of the floating point number nearest to half of pi, although the tangent
  of each such number is defined and finite (`C85_tan_defined`), and converts the quotient to `int64_t` without a check,
  which is undefined for large multiples. `factorial` of integers converts the result of `std::tgamma` to the integer
  type before the range policy is asked: undefined behaviour whenever the factorial does not fit. Not modelled: the
  accuracy of the mathematical library (a hypothesis, `Accurate`, for factorials), the sign of zero.
* C86: `Feature::contains_attribute` (`feature.cc:165-172`) of a nested path uses `std::map::at`, which throws if there is
  no such attribute, so it never returns false; `add_feature` asserts `!contains_attribute(path)` and hence always fails
  for nested paths in builds with assertions. `nr_attributes(path)` counts the attributes of the parent feature (the
  unit test has one attribute at both levels). `parent_feature` of `/name` is looked up at `/`, which has no names, so it
  is a null pointer. Not modelled: null pointers as features or attributes, `stem`, `replace_extension` and `operator/`
  of paths.
* C87: `GDALDataset::write_attribute` (`gdal_dataset.cc:610-613`) stores a positive vertical cell size, which GDAL takes
  for south up; `read_attribute` (413-420) takes the absolute value and assumes north up. Each undoes the other, but other
  programs see the raster mirrored and displaced. `UPDATE` mode compares neither shape nor box nor type of the field
  with those of the raster and never resets a mask. `detail/read.h:80` converts the result of `GetNoDataValue` before
  looking at whether there is one (undefined for integers with the default of -1e10), and ignores masks: the code for
  them is commented out, there and in `python/io/gdal.cc:159-186`. `expression_type` reports a missing feature where
  `read_attribute` reports a missing attribute. Trusted: the description of GDAL in the first part of `Model/Gdal.lean`
  (windows of `RasterIO`, masks from no-data values, failing calls). Not modelled: rounding of coordinates, arrays
  without cells, options, several bands, errors of the disk, caching until a dataset is closed.
* C88: `iadd` and `imultiply` hand the raster on the left hand side to the algorithm as argument and result, so that range
  checks see overwritten values (see C13, C73): sums of unsigned integers wrap silently, and `100 * 2` is masked for
  `uint8_t`. Numbers are cast to the type of the raster for arithmetic (`add_raster_number.cc`), not for comparisons. The
  coordinates of the second raster are not looked at. A row of a list may be longer than the first one. Rasters
  of floating point numbers and numbers passed as `double` are the subject of C119, `slope` of C120, NumPy arrays of C113.
  Not modelled: reference counts.
* C89: `ParseError` with a statement asserts that the statement isn't empty; without assertions its `message()` throws
  `boost::io::too_few_args`, since it then feeds four arguments to a template with five (`core/parse_error.cc:45-68`,
  `C89_statement_empty`). `throw_syntax_error` strips line ends from the statement, so an error about an empty line ends
  there (`C89_syntax_undescribed`). Errors of the XML parser name `<string>` as source, also for files. Trusted: the
  description of `boost::format` in the model.
* C90: a first word that is no command makes `fern` stop by a failing assertion after the help is shown (`language/command/fern.cc:111-116`). `fern execute` and `fern describe` show the same line for each of Fern's own errors, since `main` shows `what()`, which `Exception` does not override (`fern.cc:121-123`). `fern compile dot ast i a b` is accepted and uses neither `a` nor `b` (`compile_command.cc:255-266`, `309-320`). `fern describe` never lists the features of a dataset, since the path of a data name is never empty (`describe_command.cc:77`, `core/data_name.cc:61-66`), and ends with success if there is no dataset. `fern import` and some languages of `fern compile` succeed without doing anything. Refused arguments of a flow graph show the help of the other graph.
* C91: `cast::OutOfRangePolicy` says that a value which the target type does not have is out of range (`algorithm/core/cast.h:25-26`). For the combinations of types for which it compiles no value is ever out of range, and for all combinations in which that could happen it does not compile; neither does it for some lossless ones (unsigned to wider signed integers, integers to floating point numbers, `float` to `double`). The overload of `cast` without policies wraps integers, rounds, and has undefined behaviour for floating point numbers whose integer part does not fit, for infinities and for NaN.
* C92: with floating point numbers the results of `binary_min` and `binary_max` depend on the order of the arguments if one of them is NaN: the first argument is the result (`algorithm/statistic/detail/binary_min.h:34`, `binary_max.h:34`). `sign` says that NaN is negative and zero positive.
* C93: the type system that the interpreter implements differs from what the documentation of operations suggests in two places: the rules are given the types of the arguments in reverse order (C58), and an attribute of an expression can never be an argument.
* C94: in an interactive session a line that is refused can make a later line end the program: names assigned in the refused line have got a type and no value (`language/command/interpreter.cc:206-214` catches the problem and goes on with the same interpreter). The values of a line are shown in reverse order (`show_stack_values`, `158-165`). Constants of 8 bit integer types are shown as characters (`47-55`). Attributes that are neither constants nor static fields make an assertion fail (`99-102`). Without the environment variable `HOME` the program has undefined behaviour (`188`).
* C95: `add` of an integer and a floating point number never checks its result (`detail/add.h:189-234`), so that infinity and NaN are accepted, whereas `add` of two floating point numbers refuses them; `subtract` of an integer and a floating point number asserts that the result is finite (`detail/subtract.h:195-252`). For finite arguments neither can happen. Dividing by infinity gives 0 and results that are too small give 0: both are accepted. Integer arguments are rounded before the operation is performed (rounding twice). Addition is not associative (`C95_associative_false`).
* C96: sums of floating point numbers depend on the number of threads (`C96_threads_false`), and whether a sum is marked depends on the order of the cells (`C96_order_false`). Numbers in single precision are added up in single precision: adding 1 to 16777216 gives 16777216, however often.
* C97: rounding differs from adding a half and taking the floor (`C97_half_false`), also for users who do the latter with Fern's operations.
* C98: operations set marks in the mask of the result and never remove them, so that a mask must be cleared before a raster is used for another result (`C98_stale_false`). A result that happens to be the no-data value is lost (`C98_collision_false`). NaN cannot be used as no-data value with `DetectNoDataByValue`: marked cells are not recognised by the next operation (`C98_nan_false`, `algorithm/policy/detect_no_data_by_value.h:107-130`).
* C99: in the graph of the syntax tree attributes have no vertex, but an edge leads to them (`C99_attribute_false`); the flow of control ends at `if`, `while`, `return` and functions, from which no edge is drawn (`C99_control_false`); branches and bodies of functions are not connected to their statement (`C99_scope_false`). A vertex with two types ends the program (`C99_two_types`); annotation never leaves one (`C99_annotated`).
* C100: the graph of the flow of data says nothing about conditions (`C100_condition_false`, `C100_if_isolated`), leaves out the flow from branches to the statements behind them (`C100_branch_false`), leaves out loops altogether (`C100_loop_false`), and draws an edge from attributes, which have no vertex (`C100_attribute_false`).
* C101: labels are written as they are. A string with a quote or with a backslash at its end, an 8 bit number that is the code of a quote, or a file name with a quote makes the text of a graph unreadable (`C101_quote_false`, `C101_backslash_false`, `C101_byte_false`, `C101_source_false`); a string can even add attributes to a vertex (`C101_injected_false`).
* C102: the two classes of clients of GDAL share the drivers but not the count, so one can pull the drivers from under the other (`C102_shared_false`, `C102_dangling_false`, `C102_unloaded_false`, `C102_buggy_false`). Clients of Python are not counted: the first one that goes finalises Python for all others (`C102_python_false`), and each overlap leaks one from a count of 16 bits (`C102_python_count`).
* C103: assigning to an owned reference the object that it has already leaks a reference (`C103_leak`). Errors of the Python parser that are no syntax errors, or have no column or statement (`None`), are not reported but make an assertion fail (`C103_unreported`). `parse_file` never closes its file: after as many scripts as there can be open files all further ones are reported not to be readable (`C103_exhausted`).
* C104: an operation of an expression tree can declare any result and have arguments of any types: the declared result is not looked at (`C104_declared_false`), wrong arguments make `boost::get` throw at evaluation. A sum that is `double` in the end is undefined if its integers overflow before (`C104_order_false`). `StreamVisitor` has no overload for rasters, and a raster is converted to `Data` and visited again without end (`C104_ends`, `expression_tree/stream_visitor.h:76-81`).
* C105: the handles of netCDF and GDAL datasets have defaulted moves, which copy the identifier: the destructor of the moved handle closes the dataset of the new one (`C105_moved_false`), which is then closed again (`C105_twice_false`); if netCDF has given the identifier to another dataset in the meantime, that one is closed (`C105_reused_false`). Assigning loses a dataset (`C105_assigned_false`). Fern itself only ever returns handles from functions, which moves nothing as of C++17 (`C105_still`). `HDF5Dataset::type_class` and the callers of `type` never close the identifier of the type: reading an attribute leaves two of them open (`C105_types_false`, `language/io/fern/hdf5_dataset.cc:80-84`, `fern_dataset.cc:84-85`). An `HDF5Group` or `HDF5Dataset` that is assigned to itself is closed (`C105_self`).
* C106: `conventions` takes a single name with white space for several names (`C106_single_false`), as documented, and white space between commas for a name that is empty (`C106_empty_false`). An attribute `Conventions` of type string, or one that ends with a null character, makes an assertion fail (`C106_unusable`, `io/netcdf/core/attribute.cc:36-37`). `read_coards` documents an `IOError` for other types than `double` and asserts instead (`C106_fails`, `io/netcdf/coards/detail/read.h:92-93`), as it does for names without a variable (`C106_path_false`). The policy for no-data is never used: a variable that was never written is read as netCDF's fill value.
* C107: the absolute value of the least `int8` and `int16` is that negative number; of the least `int32` and `int64` it is undefined (`C107_least`, `C107_negative_false`). `Add::execute` and `Int32::execute` give no result although `expression_type` promises one (`C107_add_false`, `language/operation/std/add.cc:64`, `int32.cc:59`): `add(1, 2)` leaves nothing on the interpreter's stack, and `add` of anything but an `int64` constant fails. `abs` of a field with an array without rows fails (`abs.cc:43`). `std::abs` of `uint32_t` and `uint64_t` is ambiguous according to the standard, so that `abs.cc` depends on a library with further overloads.
* C108: of ranges with seven or more elements neither the elements in the middle nor their number show (`C108_hidden`, `C108_same_false`); an empty text looks as no element at all; rasters are always printed as `[]` (`language/operation/std/print.h:66-76`).
* C109: no disagreement. The default assignment operators of `Kernel` can't be used (its members are constant), nor can its copy constructor (`_weights` is unique): kernels can't be passed around by value except by moving.
* C110: weighted means stay in the range of the values only if no weight is negative (`C110_negative_false`). In exact arithmetic; with floating point numbers the sums are rounded and depend on the order (C96), so only `C110_local` holds for them as it is.
* C111: a number that is written in an existing attribute is converted to the type the attribute happens to have, silently: 300 over an attribute of bytes leaves 255 (`C111_last_false`). The order of bytes never matters. What HDF5 does on conversion (clipping) is trusted.
* C112: the compiler asks whether the directory *above* the destination may be written instead of the destination itself (`C112_parent_false`, `language/compiler/compiler.cc:75-88`). The owner's bit is asked for, whoever the owner is, so the checks may succeed while writing fails half way (`C112_half_false`). A module called `main` that is compiled with `--dump_driver` is overwritten by the main program (`C112_main`). A raster that can't be updated is said to be one that can be overwritten (`C112_overwrite_false`). `fs::status` follows links, so the second questions about canonical paths are superfluous.
* C113: the method for `*=` is registered as `__imult__` (`python/algorithm/__init__.py.in:24`), which Python does not know of (`__imul__`): `a *= b` makes a new raster, unlike `a += b`, and with two names for a raster the other one is not changed (`C113_times_false`). `iadd` returns its argument by `reference_existing_object`, so after `a += b` name `a` refers to the handle within an object that is deleted if `a` was its only name: the next use of `a` is undefined (`C113_plus_lost`, `C113_plus_twice`; this depends on what is documented of Boost.Python). `a += 5` is an exception, although `a + 5` and `a *= 5` are not (`C113_plus_number`). No test uses `+=` or `*=`. The documentation of `MaskedRaster` passes `sizes` with values and a mask, which no constructor takes.
* C114: an operation called from within a task of the same pool waits for tasks that are queued behind it. With as many such tasks as workers nothing happens any more (`C114_occupied`; `C114_nested`, for every number of workers): the pool has no means for a worker to execute other tasks while it waits. Nothing in the documentation of `ThreadPool` or `ParallelExecutionPolicy` says so.
* C115: `OperationXmlParser` can't read any description of an operation: after everything has been collected an assertion on false fails (`C115_parse`, `C115_print`). A parameter without value types, which schema and documentation of `Parameter` allow ("not relevant"), fails an assertion in `ExpressionType` (`C115_not_relevant`). Eight of the eighteen names of value types that the schema lists (`UInt8`, `Integer`, ...) aren't known to `ValueTypes::from_string` (`C115_schema_names`). `UncertML2Parser` fails an assertion for documents of the schema with several means or variances, and for variances that aren't positive, instead of reporting an error (`C115_asserts`).
* C116: when a task of a parallel operation throws, the operation leaves with the exception without waiting for the tasks of the later blocks. These go on to read the block ranges, the algorithm and the arguments through references (`std::cref`), although the former are local to the operation and the latter may be gone: undefined behaviour. It is possible for any number of workers as soon as a task other than the last one throws (`C116_dangling`, `C116_safe_iff`). The algorithms of the library don't throw by themselves, but arguments, policies and algorithms of the user may. Destroying a pool while an operation waits makes that operation throw `std::future_error` instead of blocking for ever (`C116_get`).
* C117: for arrays of `int32_t` and `int64_t`, a sum, difference, product or quotient that does not fit is undefined behaviour of the whole operation, since the result is computed before the range is checked; no element is ever marked because a sum or difference overflows (`C117_wide_signed`). Only for narrower and unsigned types are such elements marked (`C117_narrow`). Also undefined: products of `uint16_t` that don't fit an `int`, and division by zero when domain errors are discarded. In 1D, operands whose second type is wider than the first give wrong values without a mark: 1 + 300 is 45 (`C117_through_false`).
* C118: the 1D versions with an array as second argument convert its values to the first argument's value type. So an integer array plus an array of floating point numbers loses all fractions (1 + 0.5 is 1, `C118_fraction_lost`), an integer array divided by halves is marked everywhere (`C118_divisor_lost`), and infinite, NaN or too large values are undefined behaviour (`C118_conversion_undefined`), also a `float` array plus the `int32_t` 2147483647. The 2D versions don't do this. A difference of an integer and an infinite or NaN value fails an assertion of the range policy, while a sum is stored unmarked (`C118_mixed_difference`, `C118_mixed_sum`), although for two floating point types an infinite sum is marked.
* C119: masked cells of `float` and `double` rasters in Python are marked by `numeric_limits<T>::min()`, which is the smallest positive normal number, not the lowest one: a product that underflows to it is masked (`C119_reserved_false`). A real number combined with a raster of integers loses its fraction, multiplying by 0.5 gives zeros, and is undefined behaviour if it does not fit (`C119_fraction`). An integer compared with a raster of `float` is rounded: 16777217 is not greater than 16777216 (`C119_compare_false`). Sums of an integer and infinity are not masked, sums of two floating point numbers are. Numbers passed to `if_` arrive as `double`, also integers, because the `double` overloads are registered last and Boost.Python tries these first (an assumption on Boost.Python, which is not part of the repository): large 64 bit integers are rounded, and -1 for a `uint8` raster is undefined behaviour (`C119_if_integer_false`), other than C88_if_number says for an integer argument of the C++ function.
* C120: in Python, the slope of a flat raster is not always zero: three times the value is rounded, and the sum of the four products south of a cell isn't the opposite of the sum north of it; a flat raster of doubles 0.1 has slope 2^-58 at its inner cell (`C120_flat_false`). It is zero if nine times the value is not rounded (`C120_flat`), and for `float` values below 2^127, the sums of which are formed in double precision (`C120_flat_float`). A flat raster of values near the maximum is masked altogether (`C120_large_false`). The slope of a valid cell is lost if one of the intermediate values happens to be the smallest positive normal number: a slope of 2^-63 in a `float` raster, for example (`C120_reserved_false`). Rasters of integers, and rasters of less than three rows or columns, end in a failing assertion.
* C121: the Laplacian of a flat raster of doubles need not be zero: weights times values are rounded, and the sum of the products isn't the product of the value by the sum of the weights. On a flat raster of 1+2^-52 some cells have Laplacian 2^-49 (`C121_flat_false`). On a flat raster of 2^1023 all are masked, as the weighted sum is infinite (`C121_large_false`). Lax averages of a flat raster of 3 with fraction 0.2 are larger than 3 (`C121_lax_bounds_false`). If the area of a cell underflows all cells are masked; if it overflows all Laplacians are zero (`C121_area`).
* C122: averages of floats: the range check of `convolve` looks at the weighted sum, as value of the destination, before it is divided. A raster of floats 2^126 averaged by a kernel of ones is masked altogether, though all averages are in range (`C122_large`). What is divided isn't checked: weights with sum zero store infinite values and NaN in cells that aren't masked (`C122_zero_weights`), and a quotient that is too large for the destination is stored as infinity (`C122_quotient_unchecked`). The average of a raster of doubles that are all 0.1 is not 0.1 in cells with six or nine neighbours (`C122_tenth`). Products of floats are rounded to float, and overflow, before they are added to a sum of type double (`C122_products`). Assumed: no fused multiplications and additions, no excess precision.
* C123: variances of floats: the variance of equal values need not be zero: of nine times 0.1 it is 2^-112 (`C123_equal_false`). Sums overflow before they are divided: two floats 2^127 have an infinite variance (`C123_large`), and accumulators that are merged after that can give NaN where adding the values one by one gives infinity (`C123_merged_nan`). Order, division over accumulators and a constant added to all values matter (`C123_order_false`, `C123_shift_false`). A variance is never negative, so that the square root of the standard deviation is always defined. Assumed: no fused multiplications and additions, no excess precision.
* C124: gradients of floats are not checked: a difference of the neighbours that is too large is stored as infinity though the gradient is in range (`C124_overflow`), infinite values and cell sizes of zero give infinite values and NaN, in cells that are not masked (`C124_not_a_number`). Twice the cell size can be too large: gradients of inner cells are then zero (`C124_large_cells`). Linear fields of numbers such as 0.1 do not have the same gradient everywhere (`C124_linear_false`). Distances are of type double, so that gradients of floats are rounded twice, and are not always the nearest float (`C124_rounded_twice`). The sign of zero is left out: a cell size of zero is taken to be a positive zero.
* C125: `Max` starts with `lowest()` and `Min` with `max()`, not with infinities: the maximum of an array whose valid values are all minus infinity or NaN is the smallest finite number, which is in none of the cells and isn't marked (`C125_infinite_false`). NaN among other values is ignored. The range of values that are all NaN, or of no values, is minus infinity (`C125_range_none`). The range of finite values, and the median of an even number of finite values, can be infinite although nothing is marked (`C125_range_overflow`, `C125_median_overflow`). Sorting values of which some are NaN is undefined behaviour (`C125_median_nan`).
* C126: the average of a flat neighbourhood of doubles need not be its value: three cells 0.1 give 0.1 + 2^-56 (`C126_tenth`); floats are fine, because sums are of type double (`C126_flat`). Averages of large doubles are infinite (`C126_large`). Weights that are zero keep valid cells out of a convolution, but not averages that replace missing values: a kernel of zeros marks cells without missing neighbours, and stores 0 / 0 in cells with missing neighbours (`C126_zero_weights`). The same holds for kernels of booleans that are switched off (`C126_switched_off`). For kernels of booleans only averages outside of the raster are covered, not those that replace no-data cells.
* C127: the error of a slope depends on the largest height, not on the differences of heights: the products with the weights are rounded and added before anything cancels. Heights of 4000 m in cells of 1 m, as floats, allow for an error of a few times 0.007 (`C127_slope`). `std::pow` and `std::sqrt` aren't modelled: it is assumed that their errors are less than the distance of two numbers; `square_accurate` and `exists_root` show that there are such functions.
* C128: the mode of floats: every NaN gets an entry of its own, so NaN is not the mode however often it was added, unless all numbers differ (`C128_nan`, `C128_nan_false`), and a table grows with each NaN (`C128_size`). Every default constructed accumulator counts as a zero (`C128_default_false`). Merging an accumulator with itself, which for NaN inserts into the map that is iterated over, is not modelled.
* C129: one value whose factorial does not fit makes `factorial` of a whole array undefined, whatever the policies: its range policy never has an effect (`C129_range_policy`). `absolute` without policies returns negative values for the least `int8` and `int16` (`C129_negative_false`), and is undefined for an array with a valid least `int32` or `int64`.
* C130: `DetectOutOfRangeByErrno`, which the documentation of `pow`, `tgamma` and `factorial` refers to, is right for `pow` only, which resets `errno`. For all others an element is marked iff the last error that its thread has seen, in this call or before, is a range error: valid elements after one that is out of range are marked (`C130_inherited`), what is marked depends on which thread does which block (`C130_schedule_false`), and on errors of other functions before the call (`C130_before_false`).
* C131: a sum has a type but no result: `Add::execute` returns nothing. Any script that starts with `x = 1 + 2` is accepted and then fails (`C131_sum_fails`), and after an expression statement, as in `5; x = 1 + 2`, `x` silently gets the value of that expression (`C131_sum_stale`). The type of a sum with something that is read is a field of 64 bit floating point numbers whatever is read, and that of an unsigned and a signed integer of the same size is unsigned; the sum of 16 bit and 8 bit signed integers is of 8 bits. `abs` of a string has type string; only the validation of the argument refuses it.
* C132: only for a scalar and a 1D array on several threads (`C10_extents_0d1d_false`), and in sequential convolution (`convolve.h:1876-1955`), sizes are not looked at. For decompression the result may be larger, which is needed. The sequential choice between two scalars by a 1D condition asserts that the condition has one element, whatever the size of the result.
* Thread pool: a notification between the test and the wait is missed; the time-out of the wait hides this
  (`C07_time_out_needed`). Tasks still queued at destruction are dropped (`C07_dropped`).
