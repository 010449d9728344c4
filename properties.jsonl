{"id": "C01", "title": "1D work division is an exact partition", "statement": "Dividing n elements over t threads yields consecutive, pairwise disjoint, non-empty half-open ranges that start at 0, end at n and together contain every element index exactly once; for n = 0 no range at all is returned.", "quantifier": "every number of elements n and every number of threads t >= 1", "why_tests_cant": "Tests try a handful of (t, n) pairs; the division depends on n / t and n mod t and every algorithm relies on it for all sizes.", "anchors": ["source/fern/algorithm/core/index_ranges.cc:index_ranges(size_t,size_t)", "source/fern/algorithm/core/index_range.h:IndexRange"]}
{"id": "C02", "title": "2D work division covers every cell exactly once", "statement": "Dividing an n1 x n2 array over t threads yields row bands whose row ranges partition [0,n1) and whose column range is always all of [0,n2); the linear (row-major) cell indices visited by the bands, taken together, are each of 0 .. n1*n2-1 exactly once.", "quantifier": "every array shape (also empty ones) and every number of threads t >= 1", "why_tests_cant": "Shapes and thread counts are unbounded; a missed or doubly visited cell shows up only for particular remainders.", "anchors": ["source/fern/algorithm/core/index_ranges.cc:index_ranges(size_t,size_t,size_t)", "source/fern/algorithm/core/index_ranges.h:IndexRanges"]}
{"id": "C03", "title": "Number of blocks of a work division", "statement": "Documented claim: for a non-empty array the number of ranges is nr_threads or at most one more. This is false (5 elements over 3 threads gives 5 ranges). What does hold: the number of ranges never exceeds 2*t-1, it is t or t+1 whenever n mod t < n / t (in particular when n >= t*t), and it is 1 when 0 < n < t.", "quantifier": "every number of elements and threads t >= 1", "why_tests_cant": "The documented bound holds for all sizes the unit tests use; only the quantified statement exposes the failing remainders.", "anchors": ["source/fern/algorithm/core/index_ranges.cc:index_ranges", "source/fern/algorithm/core/index_ranges.h"]}
{"id": "C04", "title": "Parallel element-wise execution equals sequential execution under every schedule", "statement": "When an element-wise operation is split in blocks that are run by concurrent tasks, the final result values and no-data marks are the same as those of the sequential run, for every interleaving of the element steps of the tasks.", "quantifier": "every element-wise operation, input, no-data pattern, number of threads and every interleaving of the tasks' steps", "why_tests_cant": "The number of interleavings is exponential and not controllable from a test.", "anchors": ["source/fern/algorithm/core/unary_local_operation.h", "source/fern/algorithm/core/binary_local_operation.h", "source/fern/algorithm/core/index_ranges.cc", "source/fern/core/thread_pool.h:ThreadPool::submit"]}
{"id": "C05", "title": "Tasks of a parallel operation never touch the same result element", "statement": "The sets of result elements written by the different tasks of one parallel local operation are pairwise disjoint, so no two tasks can race on an element, and no task writes outside the result.", "quantifier": "every size, shape, thread count and pair of tasks", "why_tests_cant": "Races manifest only under rare schedules, and absence of a crash does not show absence of a race.", "anchors": ["source/fern/algorithm/core/index_ranges.cc", "source/fern/algorithm/core/unary_local_operation.h", "source/fern/algorithm/core/unary_disaggregate_operation.h"]}
{"id": "C06", "title": "Thread pool runs a submitted task at most once, in FIFO order of starting", "statement": "For every interleaving of submitting and worker threads, no submitted task is started twice, and tasks are taken from the queue in the order in which they were submitted.", "quantifier": "every sequence of submissions, number of workers, and every interleaving of their steps", "why_tests_cant": "Requires reasoning about all interleavings of producers and consumers.", "anchors": ["source/fern/core/thread_pool.h:ThreadPool", "source/fern/core/thread_pool.cc:ThreadPool::execute_task_or_wait", "source/fern/core/thread_safe_queue.h:ThreadSafeQueue"]}
{"id": "C07", "title": "Thread pool progress and shutdown", "statement": "While the pool is not being destroyed and a task is queued, some worker step is enabled that leads to it being taken (workers never wait for ever: a missed notification delays a task, it does not lose it). Once destruction has begun and all workers have seen it, no task is started any more; tasks still queued are dropped (their futures become broken promises), so a task is guaranteed to run only if it is taken before destruction begins.", "quantifier": "every reachable state of the pool under every interleaving", "why_tests_cant": "Lost wake-ups and shutdown races depend on schedules a test cannot force.", "anchors": ["source/fern/core/thread_pool.cc:ThreadPool::~ThreadPool", "source/fern/core/thread_pool.cc:ThreadPool::execute_task_or_wait", "source/fern/core/thread_pool.h:ThreadPool::submit"]}
{"id": "C08", "title": "Thread-safe queue is linearizable to a FIFO queue", "statement": "Every interleaving of push, try_pop and empty calls on the queue behaves as the same calls performed one after the other on a FIFO queue: values come out in push order, each at most once, none invented, and try_pop fails only when the queue is empty.", "quantifier": "every history of operations by any number of threads", "why_tests_cant": "All interleavings and histories.", "anchors": ["source/fern/core/thread_safe_queue.h:ThreadSafeQueue"]}
{"id": "C09", "title": "Unary local operation: element-wise semantics", "statement": "After a unary local operation every result element is determined by the input element at the same position only: no-data in gives marked no-data out with the result value untouched; out-of-domain gives marked no-data with the value untouched; otherwise the computed value is stored, and the element is additionally marked no-data iff the result is out of range. All elements are visited, none outside the array.", "quantifier": "every input array (0D, 1D, 2D), no-data pattern, algorithm, domain and range policy", "why_tests_cant": "Quantifies over arrays of all sizes and arbitrary value/no-data patterns and policies.", "anchors": ["source/fern/algorithm/core/unary_local_operation.h:operation_1d,operation_2d"]}
{"id": "C10", "title": "Binary local operation: element-wise semantics", "statement": "After a binary local operation on 0D/0D, 1D/0D, 0D/1D, 1D/1D, 2D/0D, 0D/2D or 2D/2D arguments every result element depends only on the two argument elements for its position: no-data if either is no-data or the pair is out of domain, otherwise the algorithm's value, marked if out of range. In the 0D/1D and 1D/1D variants the second argument is first converted to the first argument's value type, so there the property holds only if that conversion preserves the values; a counterexample with a negative second argument is given. Arguments of different extents are refused by an assertion in all variants but one: the parallel 0D/1D variant does not look at the sizes, and leaves elements of a longer result as they were.", "quantifier": "every pair of arguments and combination of shapes, no-data patterns and policies", "why_tests_cant": "All arrays, patterns and argument shapes; the conversion bug only shows for argument values that do not fit the first type.", "anchors": ["source/fern/algorithm/core/binary_local_operation.h:operation_0d_1d,operation_1d_1d,operation_2d_2d"]}
{"id": "C11", "title": "Nullary local operation: element-wise semantics", "statement": "A nullary local operation writes the algorithm's value in exactly the elements that are not no-data on input and marks exactly the elements that are, leaving other state untouched.", "quantifier": "every result size, shape, no-data pattern", "why_tests_cant": "All sizes and patterns.", "anchors": ["source/fern/algorithm/core/nullary_local_operation.h"]}
{"id": "C12", "title": "Disaggregation of a scalar to an array", "statement": "A unary disaggregate operation (e.g. fill) assigns the value computed from the scalar to every element; if the scalar is no-data all elements are marked and no value is written; an out-of-domain or out-of-range scalar marks all elements.", "quantifier": "every scalar, result size, shape, thread count, schedule", "why_tests_cant": "All sizes, thread counts and schedules.", "anchors": ["source/fern/algorithm/core/unary_disaggregate_operation.h", "source/fern/algorithm/core/detail/fill.h"]}
{"id": "C13", "title": "N-ary local operation is a left fold", "statement": "Evaluating f over v1..vn as an n-ary local operation gives, per element, f(..f(f(v1,v2),v3)..,vn), and the element is no-data iff any vk is no-data at that position. The code reuses the first two no-data policies for all later steps, so this holds only when inputs v3.. carry no no-data beyond that of v2; a counterexample is given. Later steps write into one of their own arguments, so a range policy that looks at the arguments sees the new value instead of the old one: overflow of the sum of the first two arguments is noticed, that of later sums of unsigned numbers is not and wraps silently.", "quantifier": "every number of arguments n >= 2, every array and no-data pattern", "why_tests_cant": "Unbounded number of arguments and all no-data patterns.", "anchors": ["source/fern/algorithm/core/n_ary_local_operation.h"]}
{"id": "C14", "title": "cover takes the first valid value", "statement": "Each result element of cover(v1, v2) equals v1's value if v1 is valid there, otherwise v2's value if valid, otherwise it is marked no-data; no valid element of v1 is ever replaced.", "quantifier": "every pair of arguments (0D/0D, 2D/0D, 2D/2D) and no-data pattern", "why_tests_cant": "All arrays and patterns.", "anchors": ["source/fern/algorithm/core/detail/cover.h"]}
{"id": "C15", "title": "if-then / if-then-else selection", "statement": "if(condition, a, b) yields at each element: no-data if the condition is no-data; a's value (or no-data if a is no-data) where the condition is true; b's value (or no-data) where it is false; the other branch's no-data has no influence. if(condition, a) marks no-data where the condition is false. This holds in all supported combinations of scalar and array arguments, and all combinations agree with the fully expanded array version.", "quantifier": "every combination of argument shapes, values and no-data patterns", "why_tests_cant": "Twelve shape variants times all arrays and patterns.", "anchors": ["source/fern/algorithm/core/detail/if.h"]}
{"id": "C16", "title": "No-data set algebra: unite, intersect, merge", "statement": "unite_no_data marks exactly the elements that are no-data in either argument, intersect_no_data exactly those in both, merge_no_data exactly those in its argument; already marked result elements stay marked; values are never changed. Union and intersection are commutative, associative, idempotent and dual under complement of the patterns.", "quantifier": "every pair of no-data patterns, every shape", "why_tests_cant": "All patterns of all sizes.", "anchors": ["source/fern/algorithm/core/detail/unite_no_data.h", "source/fern/algorithm/core/detail/intersect_no_data.h", "source/fern/algorithm/core/detail/merge_no_data.h"]}
{"id": "C17", "title": "Boolean operators form a Boolean algebra on valid elements and propagate no-data", "statement": "and/or/xor/nor/xnor/not and defined compute, for every non-no-data element, the Boolean function of the truth values (non-zero = true) of the arguments; De Morgan, nor = not or, xnor = not xor hold element-wise on arrays; no-data in any argument gives no-data.", "quantifier": "every argument values of any integer type, every array and pattern", "why_tests_cant": "All values of the argument types and all arrays.", "anchors": ["source/fern/algorithm/algebra/boole/detail/and.h", "source/fern/algorithm/algebra/boole/detail/xor.h", "source/fern/algorithm/algebra/boole/detail/nor.h", "source/fern/algorithm/algebra/boole/detail/xnor.h", "source/fern/algorithm/algebra/boole/detail/defined.h"]}
{"id": "C18", "title": "compress keeps exactly the valid values in order", "statement": "compress(values) writes the valid (not no-data) values, in their original order, to the front of the result and returns their number.", "quantifier": "every 1D or 2D array and no-data pattern", "why_tests_cant": "All arrays and patterns.", "anchors": ["source/fern/algorithm/core/detail/compress.h:compress_1d,compress_2d"]}
{"id": "C19", "title": "Parallel compress equals sequential compress", "statement": "Compressing per block and moving the regional results to the front gives the same count and the same leading values as the sequential compress, for every block division, and moving a block never overwrites values of a later block that still has to be moved.", "quantifier": "every array, pattern, number of threads", "why_tests_cant": "All sizes, patterns and thread counts; overlap of moved regions depends on them.", "anchors": ["source/fern/algorithm/core/detail/compress.h:copy_regional_results_to_front"]}
{"id": "C20", "title": "decompress inverts compress", "statement": "Decompressing the values produced by compress, with the original no-data pattern, restores the original values at every valid element and marks every other element; conversely compressing the decompressed array gives back the compressed values.", "quantifier": "every array and no-data pattern", "why_tests_cant": "Round trip over all arrays and patterns.", "anchors": ["source/fern/algorithm/core/detail/decompress.h", "source/fern/algorithm/core/detail/compress.h"]}
{"id": "C21", "title": "offset shifts an array", "statement": "offset(values, o) puts in each result element i the value at i - o when that position exists (no-data is carried along), and otherwise marks the element no-data, or writes the fill value in the fill variant; offsets larger than the array (either sign) give an all no-data / all fill result; in 2D rows and columns are shifted independently.", "quantifier": "every array size and shape, every (mathematical) offset, every pattern", "why_tests_cant": "Sign and magnitude cases combine with sizes and 2D block boundaries.", "anchors": ["source/fern/algorithm/core/detail/offset.h:range_to_copy,range_to_initialize,copy_1d,copy_2d"]}
{"id": "C22", "title": "Parallel offset: tasks write disjoint elements and equal the sequential result", "statement": "For every division in blocks, the elements written by the block copies and by the initialisation task are pairwise disjoint and together all result elements, so the parallel result equals the sequential one in every schedule.", "quantifier": "every array shape, offset, number of threads and schedule", "why_tests_cant": "Disjointness must hold for every combination of block boundary and offset.", "anchors": ["source/fern/algorithm/core/detail/offset.h"]}
{"id": "C23", "title": "offset whose type cannot represent the extent", "statement": "The shift (C21, C22) holds if the array's extents are representable in the offset's type. If they are not, it does not: with an offset of type int and an array of more than 2^31 and fewer than 2^32 elements, every positive offset makes the algorithm write before the begin of the result.", "quantifier": "every offset type width, extent and offset value", "why_tests_cant": "Tests use small arrays.", "anchors": ["source/fern/algorithm/core/detail/offset.h:range_to_copy,range_to_initialize"]}
{"id": "C24", "title": "copy copies exactly a range to a position", "statement": "copy(source, range, position) makes destination[position + k] equal source[begin + k] for every k within the range (marking no-data instead where the source is no-data) and leaves every other destination element unchanged; the parallel version gives the same result for every non-empty range; for an empty range the parallel version accesses an element of an empty vector.", "quantifier": "every source, range inside it, position, pattern and thread count", "why_tests_cant": "All ranges and positions.", "anchors": ["source/fern/algorithm/core/detail/copy.h"]}
{"id": "C25", "title": "clamp bounds and is idempotent", "statement": "For lower <= upper every valid result element lies within [lower, upper] of its position, equals the input if that already lay within, and clamping twice equals clamping once; no-data in the value propagates and needs no valid bounds. This holds sequentially for all combinations of scalar and array bounds that exist and, in every schedule, in parallel for array bounds (the parallel versions with one scalar bound name the bounds' types in the wrong order, so no program can use them).", "quantifier": "every array of ordered values, bounds and pattern", "why_tests_cant": "All values and bounds.", "anchors": ["source/fern/algorithm/core/detail/clamp.h"]}
{"id": "C26", "title": "Unsigned addition: overflow detection is exact", "statement": "Adding two unsigned values: unless out of range is reported the stored result is the mathematical sum, and out of range is reported only if the sum does not fit the result type.", "quantifier": "all pairs of unsigned values of all widths (8..64 bit)", "why_tests_cant": "2^128 value pairs.", "anchors": ["source/fern/algorithm/algebra/elementary/detail/add.h:within_range", "source/fern/algorithm/core/detail/result_value.h"]}
{"id": "C27", "title": "Signed addition: overflow detection", "statement": "Adding two signed values: for 8 and 16 bit results overflow is detected exactly. For 32 and 64 bit results the addition itself is undefined behaviour precisely when the mathematical sum overflows, before the check is made; whenever the addition is defined the sum is right and accepted. Hence the claim that overflow is reported as out of range holds for the narrow types only.", "quantifier": "all pairs of signed values of all widths", "why_tests_cant": "2^128 value pairs; undefined behaviour can pass a test by accident.", "anchors": ["source/fern/algorithm/algebra/elementary/detail/add.h:within_range"]}
{"id": "C28", "title": "Mixed sign addition", "statement": "Claim: adding a signed and an unsigned value reports out of range iff the sum does not fit the result type. False in the code: -1 + 5u is reported as out of range, and with uint64_t a wrong sum is accepted (0 + 2^63). Proved, for the other unsigned types: an accepted result is the sum; accepted are exactly the sums that fit and whose signed operand is positive or whose unsigned operand is zero; 32 and 64 bit results are undefined behaviour precisely when the sum does not fit.", "quantifier": "all pairs of a signed and an unsigned value", "why_tests_cant": "All value pairs.", "anchors": ["source/fern/algorithm/algebra/elementary/detail/add.h:within_range"]}
{"id": "C29", "title": "Subtraction overflow detection", "statement": "Unsigned minus unsigned, (8/16 bit) signed minus signed and mixed signedness without uint64_t: accepted results equal the mathematical difference and rejection happens only if it does not fit. Signed 32/64 bit subtraction is undefined behaviour precisely when the difference does not fit. With uint64_t and a signed type wrong differences are accepted.", "quantifier": "all value pairs of all widths and signedness", "why_tests_cant": "2^128 value pairs.", "anchors": ["source/fern/algorithm/algebra/elementary/detail/subtract.h:within_range"]}
{"id": "C30", "title": "Multiplication overflow detection", "statement": "Unsigned multiplication: the result is accepted iff the mathematical product fits the result type, provided the multiplication is defined; for 16 bit unsigned operands the promoted multiplication is undefined behaviour for large values. Signed multiplication: an accepted result equals the product; the check additionally rejects products equal to the type's minimum. The same holds for mixed signedness.", "quantifier": "all value pairs of all widths", "why_tests_cant": "2^128 value pairs.", "anchors": ["source/fern/algorithm/algebra/elementary/detail/multiply.h:within_range"]}
{"id": "C31", "title": "Division: domain and range", "statement": "Integer division by zero is always rejected (marked no-data, no division performed), every other pair gives the truncated quotient, except minimum / -1, which is not detected although the quotient does not fit, and except uint64_t combined with a signed type, where wrong quotients are accepted.", "quantifier": "all value pairs of all widths", "why_tests_cant": "All value pairs.", "anchors": ["source/fern/algorithm/algebra/elementary/detail/divide.h"]}
{"id": "C32", "title": "Absolute value", "statement": "abs of a signed value is rejected iff the value is the type's minimum; otherwise the result is the mathematical absolute value. (For 32 and 64 bit types the absolute value of the minimum is undefined behaviour before it can be rejected.)", "quantifier": "all signed values of all widths", "why_tests_cant": "2^64 values.", "anchors": ["source/fern/algorithm/algebra/elementary/detail/absolute.h"]}
{"id": "C33", "title": "Comparison operators are consistent", "statement": "On values of the same type less, less_equal, greater, greater_equal and equal agree with the mathematical order and with each other (trichotomy, complement, symmetry). For mixed signedness they do not: less(-1, 1u) is false.", "quantifier": "all pairs of integer values of all type combinations", "why_tests_cant": "All value pairs and type combinations.", "anchors": ["source/fern/algorithm/algebra/elementary/detail/less.h", "source/fern/algorithm/algebra/elementary/detail/equal.h", "source/fern/core/math.h:is_equal"]}
{"id": "C34", "title": "Result value type", "statement": "The value type of the result of a binary operation on two number types does not depend on argument order and can represent every value of both argument types, except for 64 bit unsigned combined with a signed type, and 64/32 bit integers combined with a floating point type that has fewer mantissa bits.", "quantifier": "all pairs of value types", "why_tests_cant": "Template instantiation per pair; a statement about all pairs and all their values.", "anchors": ["source/fern/algorithm/core/detail/result_value.h", "source/fern/core/typelist.h"]}
{"id": "C35", "title": "Sum aggregate equals the sum of valid elements", "statement": "The unary sum aggregate of an array is the sum of the valid elements; the result is no-data iff there is no valid element or a running sum is out of range; the position of the no-data elements does not matter otherwise. For int32_t and int64_t a running sum that is out of range is undefined behaviour instead, before the range policy is asked.", "quantifier": "every array (1D, 2D), no-data pattern and range policy", "why_tests_cant": "All arrays and patterns, including leading no-data rows.", "anchors": ["source/fern/algorithm/core/unary_aggregate_operation.h:operation_1d,operation_2d", "source/fern/algorithm/statistic/detail/sum.h"]}
{"id": "C36", "title": "Parallel aggregate equals sequential aggregate", "statement": "For an associative, always in range accumulator the parallel aggregate (merge of block results in block order, skipping blocks without valid elements) gives the same value and no-data state as the sequential one. With range detection they may differ: an intermediate overflow in only one of the two.", "quantifier": "every array, pattern, thread count", "why_tests_cant": "All arrays and divisions.", "anchors": ["source/fern/algorithm/core/unary_aggregate_operation.h"]}
{"id": "C37", "title": "count aggregate", "statement": "count(values, v) is the number of valid elements equal to v, and no-data iff no element is valid. The 2D version violates this when the first row(s) contain only no-data; the parallel version violates it when one block contains only no-data. It holds of 1D arrays, of 2D arrays whose first row has a valid element, and of the parallel version if each block (in 2D: the first row of each block) has a valid element. Counting in a single value gives 1 or 0, or no-data. Of floating point numbers, what is not a number is never counted, not even when it is looked for.", "quantifier": "every array, pattern, value", "why_tests_cant": "All arrays and patterns.", "anchors": ["source/fern/algorithm/core/binary_aggregate_operation.h:operation_2d", "source/fern/algorithm/statistic/detail/count.h"]}
{"id": "C38", "title": "Accumulator merging is a homomorphism", "statement": "For sum, mean, min, max, range, variance-free accumulators (median, mode tables): accumulating a list split in two parts and merging gives the same result as accumulating the whole list. Fails for count with a range policy, which adds 1 instead of the other's count, and for the default constructed mode accumulator.", "quantifier": "every list of values and every split", "why_tests_cant": "All lists and all splits.", "anchors": ["source/fern/algorithm/accumulator/count.h", "source/fern/algorithm/accumulator/sum.h", "source/fern/algorithm/accumulator/mean.h", "source/fern/algorithm/accumulator/min.h", "source/fern/algorithm/accumulator/max.h", "source/fern/algorithm/accumulator/range.h", "source/fern/algorithm/accumulator/median.h", "source/fern/algorithm/accumulator/mode.h"]}
{"id": "C39", "title": "Order statistics accumulators", "statement": "min, max and range return the least, greatest element and their difference; median returns the middle element of the sorted values (mean of the middle two for even counts); mode returns a value of maximal frequency; none depends on the order in which values were added, except mode's choice among ties.", "quantifier": "every non-empty list of values", "why_tests_cant": "All lists.", "anchors": ["source/fern/algorithm/accumulator/median.h", "source/fern/algorithm/accumulator/mode.h", "source/fern/algorithm/accumulator/detail/frequency_table.h", "source/fern/algorithm/accumulator/min.h"]}
{"id": "C40", "title": "Flag collections: subset test", "statement": "is_subset_of(a, b) is true iff a is non-empty and every flag of a is in b; so it is transitive, antisymmetric, monotone in b, and the empty set is a subset of nothing, not even itself.", "quantifier": "all pairs of flag sets of any width", "why_tests_cant": "All 2^n x 2^n sets.", "anchors": ["source/fern/core/flag_collection.h:FlagCollection::is_subset_of"]}
{"id": "C41", "title": "Value type names round trip", "statement": "The textual name of every single value type maps back to that type, names of different types differ, and the printed name of a set of types lists exactly its members in a fixed order separated by |, '?' for the empty set; different sets are printed differently, and a printed name can be read again exactly if it is that of a single type.", "quantifier": "all value type sets", "why_tests_cant": "All 2^13 sets; a law relating two functions.", "anchors": ["source/fern/core/value_types.cc:ValueTypes::from_string,operator<<"]}
{"id": "C42", "title": "Expression type satisfaction", "statement": "An expression type is satisfied by another iff both the other's data types and value types are non-empty subsets of its own; satisfaction is transitive, any defined type satisfies itself; the satisfying index of a list of types with respect to a list of alternatives is that of the first type that satisfies one of the alternatives, and the size of the list iff there is none.", "quantifier": "all expression types and lists", "why_tests_cant": "All sets and lists.", "anchors": ["source/fern/core/expression_type.cc:ExpressionType::is_satisfied_by", "source/fern/language/operation/core/expression_types.cc"]}
{"id": "C43", "title": "Standard result type calculation", "statement": "The calculated result value type of an operation with non-fixed result type is a fixed type that can represent the values of all argument types whenever one of the listed types dominates. False for 16 bit signed integers, which are missing from the dominance chain (int16 with int8 gives int8).", "quantifier": "all combinations of argument types", "why_tests_cant": "All combinations and argument counts.", "anchors": ["source/fern/language/operation/core/expression_type_calculation.cc"]}
{"id": "C44", "title": "Scope is a finite map", "statement": "After any sequence of set, erase and clear operations a scope's lookup, membership and size equal those of the mathematical map obtained by replaying the operations; setting overwrites.", "quantifier": "every operation history", "why_tests_cant": "All histories.", "anchors": ["source/fern/core/scope.h:Scope"]}
{"id": "C45", "title": "Symbol table: lexical scoping", "statement": "Looking up a name returns the value most recently added for it in the innermost open scope that has one; popping a scope restores exactly the bindings visible before it was pushed, whatever happened inside; scope level counts open scopes.", "quantifier": "every history of push/pop/add/erase", "why_tests_cant": "All histories of arbitrary nesting.", "anchors": ["source/fern/language/core/symbol_table.h:SymbolTable"]}
{"id": "C46", "title": "Data name canonicalisation", "statement": "The data path of a data name starts with '/', contains no '//' and does not end in '/' unless it is '/'; canonicalisation is idempotent and keeps the sequence of path components; a name without ':' or with nothing behind it denotes '/'.", "quantifier": "every name string", "why_tests_cant": "All strings.", "anchors": ["source/fern/core/data_name.cc:DataName"]}
{"id": "C47", "title": "String split and join", "statement": "split returns the maximal non-empty runs of non-separator characters in order: no token is empty or contains a separator; joining tokens free of separators with a separator and splitting again gives the tokens back.", "quantifier": "every string, set of separators, list of tokens", "why_tests_cant": "All strings.", "anchors": ["source/fern/core/string.cc:split,join"]}
{"id": "C48", "title": "String strip", "statement": "strip_begin/strip_end/strip remove exactly the maximal run of the given characters at the begin/end/both; the result does not start/end with such a character; strip is idempotent and equals strip_begin after strip_end in either order.", "quantifier": "every string and set of characters", "why_tests_cant": "All strings.", "anchors": ["source/fern/core/string.cc:strip,strip_begin,strip_end"]}
{"id": "C49", "title": "Row-major indexing is a bijection", "statement": "index(i, j) maps the cells of an n1 x n2 array one-to-one onto 0 .. n1*n2-1; consecutive columns are consecutive indices and so the increment-based loops visit exactly the cells of the requested sub-ranges.", "quantifier": "all shapes and all sub-ranges", "why_tests_cant": "All shapes.", "anchors": ["source/fern/feature/core/array_customization_point", "source/fern/algorithm/core/unary_local_operation.h:operation_2d"]}
{"id": "C50", "title": "Mask conversion round trip", "statement": "Writing an array's mask to a mask image and setting it back masks exactly the same elements; set_mask(mask, v) masks an element iff it was masked or the mask image holds v there; set_mask(v) masks exactly the elements equal to v in addition.", "quantifier": "every array, mask and mask value", "why_tests_cant": "All arrays.", "anchors": ["source/fern/feature/core/masked_array.h:MaskedArray"]}
{"id": "C51", "title": "No-data values in the value range itself", "statement": "Marking no-data by writing the type's reserved value: afterwards detecting no-data by that value finds exactly the marked elements plus those whose computed value coincides with the reserved value; so detection is exact iff no computed value equals it.", "quantifier": "every array, pattern and type", "why_tests_cant": "All arrays and values.", "anchors": ["source/fern/algorithm/policy/mark_no_data.h", "source/fern/algorithm/policy/detect_no_data.h", "source/fern/core/type_traits.h"]}
{"id": "C52", "title": "Convolution regions partition the image", "statement": "For every image at least twice the kernel radius in both directions the four corners, four sides and inner part visited by convolve are pairwise disjoint and together all cells, and no cell outside the image, the mask or the kernel is ever read. Smaller images are rejected by the parallel version; the sequential version does not check and fails (an assertion or a write outside the image).", "quantifier": "every image shape with both extents >= 2*radius, every radius", "why_tests_cant": "All shapes and radii.", "anchors": ["source/fern/algorithm/convolution/detail/convolve.h"]}
{"id": "C53", "title": "Convolution computes the kernel-weighted neighbourhood of every cell", "statement": "With out-of-image cells skipped, each destination cell is the normalised sum over the kernel positions whose image cell exists, is valid and has non-zero weight; it is marked no-data when there is no such cell, when the sum is not a finite number, and when the focal cell is no-data and must be kept; corners, sides and inner part all follow this one rule; parallel equals sequential in every schedule.", "quantifier": "every image, kernel, radius, no-data pattern, thread count and schedule", "why_tests_cant": "All images, kernels and patterns.", "anchors": ["source/fern/algorithm/convolution/detail/convolve.h", "source/fern/algorithm/convolution/skip_out_of_image.h"]}
{"id": "C54", "title": "Scope exit guard runs its action exactly once", "statement": "A guard that is neither released nor moved from runs its action exactly once when destroyed; a released guard never does. A moved-from guard still runs it, so moving makes the action run twice.", "quantifier": "every sequence of release/move/destroy", "why_tests_cant": "All histories.", "anchors": ["source/fern/core/scope_exit.h:ScopeExit"]}
{"id": "C55", "title": "Stack is LIFO", "statement": "After any sequence of pushes and pops the top is the most recently pushed value not yet popped, and reading it as a wrong type is reported and leaves the stack unchanged.", "quantifier": "every operation history", "why_tests_cant": "All histories.", "anchors": ["source/fern/core/stack.h:Stack"]}
{"id": "C56", "title": "Names are connected to their innermost most recent definition", "statement": "After identification every use of a name is linked to exactly the assignment that lexically precedes it, in the innermost enclosing block in which there is one, and to none if there is no such assignment; each definition's list of uses is exactly the set of uses linked to it; uses on the right hand side of an assignment never link to that assignment itself.", "quantifier": "every module: any nesting of assignments, if and while statements", "why_tests_cant": "All programs.", "anchors": ["source/fern/language/ast/visitor/identify_visitor.cc", "source/fern/language/core/symbol_table.h"]}
{"id": "C57", "title": "Executing a module computes the value of every assignment", "statement": "Executing a straight-line module leaves each assigned name bound to the value of its expression evaluated with the bindings of the preceding statements; operations receive their arguments in source order; the value stack is left as it was apart from the values of expression statements; each external data source is read at most once per name.", "quantifier": "every module, environment and set of operations", "why_tests_cant": "All programs and environments.", "anchors": ["source/fern/language/interpreter/execute_visitor.cc"]}
{"id": "C58", "title": "Annotation passes argument types in source order", "statement": "Claim: the result type of an operation is calculated from the types of its arguments in source order. False: the types are handed over in reverse order. It is harmless exactly when the type calculation is symmetric in its arguments (or there is at most one argument).", "quantifier": "every expression and operation", "why_tests_cant": "All expressions; needs an operation with an asymmetric type rule.", "anchors": ["source/fern/language/ast/visitor/annotate_visitor.cc:Visit(OperationVertex&)"]}
{"id": "C59", "title": "Annotation and execution keep their stacks balanced", "statement": "For expressions without subscripts, visiting an expression pushes exactly one type (or, for operations with one result, one value) and leaves everything below untouched; visiting an assignment leaves the stack as it was; so no stack underflow can occur. With subscripts it is false: annotation of a subscript pushes two types and execution of it pushes no value, so that the operation around it takes a wrong argument or finds the stack empty.", "quantifier": "every expression tree and initial stack", "why_tests_cant": "All trees.", "anchors": ["source/fern/language/ast/visitor/annotate_visitor.cc", "source/fern/language/interpreter/execute_visitor.cc"]}
{"id": "C60", "title": "Threading orders vertices by evaluation order", "statement": "For a module without user-defined functions, starting at the module and following the successors visits every expression and statement vertex exactly once, operands before operations, statements in source order, and ends at the module again; an if statement branches to its scopes and joins behind it.", "quantifier": "every module of assignments, expressions and if statements", "why_tests_cant": "All programs.", "anchors": ["source/fern/language/ast/visitor/thread_visitor.cc"]}
{"id": "C61", "title": "Inlining temporaries preserves meaning", "statement": "Claim: replacing a name that is used once by its defining expression and removing the definition does not change the values of the remaining names. False when a name occurring in the defining expression is assigned in between, and false for chains (the defining expression of a name is itself a name that is used once): then the wrong definition is removed and the last name is lost. It is false too if the only use is in a loop that assigns a name in the defining expression: that is moved into the loop. When the only use is a part of a larger expression, or is an expression statement, optimising fails an assertion. Proved when each single use is the whole right-hand side of an assignment, there are no chains and no intermediate assignments: the result is the module with exactly those uses replaced and those definitions removed, and it has the same values. Optimising always terminates, whatever the module.", "quantifier": "every module", "why_tests_cant": "All programs.", "anchors": ["source/fern/language/ast/visitor/optimize_visitor.cc"]}
{"id": "C62", "title": "Module inputs and outputs", "statement": "Claim: the outputs of a module are, for each assigned name once, its last assignment. False when several names are reassigned (a, b, a, b): the stored positions get stale and an output is lost while an overwritten definition is reported. Proved for modules in which no name is reassigned, and for modules reassigning a single name; and for every module: no out-of-bounds access happens and the number of outputs equals the number of distinct assigned names. Inputs are the distinct used names in order of first use. In particular a name that is defined before it is used is reported as an input too, contrary to the documentation of the visitor, which says inputs are the undefined identifiers.", "quantifier": "every module", "why_tests_cant": "All programs; the failure needs two reassigned names.", "anchors": ["source/fern/language/ast/visitor/io_visitor.cc"]}
{"id": "C63", "title": "Validation accepts exactly well-typed expressions", "statement": "Validation of an expression reports an error iff the expression contains an undefined name, an unknown operation, a call with the wrong number of arguments or an argument whose type satisfies none of the parameter's types; the error reported is the first in depth-first order.", "quantifier": "every annotated expression", "why_tests_cant": "All expression trees.", "anchors": ["source/fern/language/ast/visitor/validate_visitor.cc"]}
{"id": "C64", "title": "Printing a module is unambiguous", "statement": "Printed modules and expressions determine the tree they were printed from, up to the sizes of integers: two modules of expressions (names, integers, strings, function calls, operators, subscripts, attributes), assignments, if and while statements have the same text if and only if they are equal. Excluded, with examples of different trees having the same text: 8-bit integers (printed as characters), strings that contain quotes, a tab size of zero; and floating point numbers, whose format is not modelled. Modules with function definitions are not printed but fail an assertion.", "quantifier": "every pair of modules whose names are identifiers, and every positive tab size", "why_tests_cant": "All pairs of trees.", "anchors": ["source/fern/language/ast/visitor/module_visitor.cc"]}
{"id": "C65", "title": "Threading user-defined functions", "statement": "Claim: a user-defined function may be called any number of times. False: the second call violates the single-successor precondition of the function's sentinel. A module can be threaded if and only if no function has more than one call in the source, there are no loops, and return statements are only directly in function bodies and not directly followed by function definitions; then control passes the vertices in the order that the syntax prescribes.", "quantifier": "every module with function definitions and calls", "why_tests_cant": "All programs.", "anchors": ["source/fern/language/ast/visitor/thread_visitor.cc:Visit(FunctionCallVertex&)", "source/fern/language/ast/core/ast_vertex.cc:AstVertex::set_successor"]}
{"id": "C66", "title": "Minimum and maximum aggregates", "statement": "statistic::unary_max (unary_min) of an array is the largest (smallest) of the valid elements, and no-data iff there is none; dimension and execution policy do not matter.", "quantifier": "every array of integers (1D, 2D), no-data pattern and thread count", "why_tests_cant": "All arrays, patterns and divisions in blocks, including blocks and rows without valid elements.", "anchors": ["source/fern/algorithm/statistic/unary_max.h", "source/fern/algorithm/statistic/unary_min.h", "source/fern/algorithm/accumulator/max.h"]}
{"id": "C67", "title": "Mean aggregate of integers", "statement": "statistic::mean of integers is the sum of the valid elements divided by their number (towards zero), provided that the sums and this number are values of the element type. The number of elements is converted to the element type before dividing: when it is a multiple of 2^bits there is a division by zero, and for signed types the result can have the wrong sign.", "quantifier": "every array of integers and no-data pattern", "why_tests_cant": "Needs arrays of specific sizes (e.g. 256 valid uint8 elements); all values.", "anchors": ["source/fern/algorithm/statistic/mean.h", "source/fern/algorithm/accumulator/mean.h:operator()() const"]}
{"id": "C68", "title": "Substring tests and replacement", "statement": "starts_with, ends_with and contains hold exactly for prefixes, suffixes and substrings; replace replaces the leftmost non-overlapping occurrences of a non-empty string in a single pass, so that an occurrence may be left (a///b).", "quantifier": "every string, substring and replacement", "why_tests_cant": "All strings; overlapping occurrences.", "anchors": ["source/fern/core/string.cc:starts_with,ends_with,contains,replace"]}
{"id": "C69", "title": "Arrays made of nested lists", "statement": "Element (i, j) of a 2D array made of rows of equal size is element j of row i. The sizes of the rows are not checked: values are written outside of the array iff there are more values than the number of rows times the size of the first row, and with a row that is too short later values shift.", "quantifier": "every list of rows", "why_tests_cant": "All lists of rows.", "anchors": ["source/fern/feature/core/array.h:Array(std::initializer_list<std::initializer_list<T>>)"]}
{"id": "C70", "title": "Empty ranges and sizes of ranges", "statement": "A range of indices, or a block of ranges, reports to be empty iff a loop over it visits nothing, and its size is the number of elements such a loop visits; the constructor refuses exactly those bounds for which the end lies before the begin. The sizes of the blocks that an array is divided in add up to the size of the array.", "quantifier": "every range, every block, every array size and number of threads", "why_tests_cant": "Tests check a few ranges; the claim is about all of them, including blocks with one empty dimension.", "anchors": ["source/fern/algorithm/core/index_range.cc", "source/fern/algorithm/core/index_ranges.h:IndexRanges::empty", "source/fern/algorithm/core/index_ranges.h:IndexRanges::size"]}
{"id": "C71", "title": "Averages for missing values in a convolution", "statement": "If a convolution is asked to replace missing values by the focal average, then a no-data cell below the kernel, or a position below the kernel that lies outside of the image, is replaced by the average of the valid cells whose row and column differ by at most one from those of the position. This holds if both extents of the image are larger than twice the radius. With extents of exactly twice the radius wrong or non-existing cells are read. A no-data cell without valid cells around it makes an assertion fail, unless the radius is at most one and no-data focal cells are kept.", "quantifier": "every image, kernel radius, set of no-data cells and position below the kernel, every averaging arithmetic", "why_tests_cant": "Tests convolve a few rasters; the boxes of cells around positions outside of the image are calculated by eight different pieces of code, and depend on the extents of the image and the radius.", "anchors": ["source/fern/algorithm/convolution/replace_no_data_by_focal_average.h", "source/fern/algorithm/convolution/replace_out_of_image_by_focal_average.h"]}
{"id": "C72", "title": "Gradients of a raster", "statement": "The gradient along the rows of a valid cell with two valid neighbours is the difference of the neighbours divided by twice the cell size; with one valid neighbour it is the difference of the cell and that neighbour, in the direction of the axis, divided by the cell size; without valid neighbours it is zero. No-data cells are no-data in the result, and cells outside of the raster count as no-data. The same holds along the columns. The result does not depend on the number of threads. A linear field has the same gradient everywhere. Rasters with a single column (row) make an assertion fail.", "quantifier": "every raster of at least two columns (rows), set of no-data cells, number of threads and schedule", "why_tests_cant": "Tests use a few rasters and thread counts; the claim is about the borders of the blocks of every partition and every combination of missing neighbours.", "anchors": ["source/fern/algorithm/algebra/vector/detail/gradient.h:gradient_x_2d", "source/fern/algorithm/algebra/vector/detail/gradient.h:gradient_y_2d"]}
{"id": "C73", "title": "Writing the result into an argument", "statement": "An element-wise operation may write its result into one of its own arguments, or into both: each element of the result is what the operation makes of the elements, and of the no-data marks, that the arguments had before the operation. This also holds if no-data is detected in the mask or in the values of the array that is being written, and for every number of threads and every schedule. It is the same as operating on a copy, except that the range policy is asked after the new value is stored: a policy that looks at the argument that is written sees the new value. Policies that look at the result only are not affected; the one of addition then accepts sums of unsigned numbers that wrapped (200 + 100 gives 44), and the one of multiplication refuses products that fit.", "quantifier": "every operation with its domain and range policy, every array (1D, 2D), input and output no-data policy, argument that is the result, number of threads and schedule", "why_tests_cant": "Tests operate on a few small arrays, mostly with distinct arguments; the claim is about all arrays and schedules.", "anchors": ["source/fern/algorithm/core/unary_local_operation.h", "source/fern/algorithm/core/binary_local_operation.h", "source/fern/algorithm/algebra/vector/detail/laplacian.h", "source/fern/algorithm/space/focal/detail/slope.h"]}
{"id": "C74", "title": "Laplacian of a raster", "statement": "If no-data is marked in the mask of the result, a cell of the Laplacian is valid exactly if it was not masked before, its value is valid, at least one of its (up to eight) neighbours is valid, the cell area is not zero and no intermediate value is infinite. It is then (weighted sum of the valid neighbours - sum of their weights * value) / cell area, where neighbours that share a side weigh 3 and those that share a corner 2. The sum of weights never exceeds 20. A valid cell without valid neighbours becomes no-data. The result does not depend on the number of threads. In exact arithmetic a constant field and the inner part of a plane have a Laplacian of 0, and that of a local maximum is not positive. Without marking no-data, valid cells get the same value, but no-data cells get the old value of the result divided by the cell area. A cell of the result that is masked beforehand is left with the weighted sum of its neighbours. Rasters of a single row or column, or of different shapes, are refused.", "quantifier": "every raster, set of no-data cells, mask of the result, number of threads and schedule, every arithmetic in which integers up to 20 are exact", "why_tests_cant": "Tests calculate the Laplacian of a few rasters; the claim is about six array operations in a row that exchange masks, for all rasters and schedules.", "anchors": ["source/fern/algorithm/algebra/vector/detail/laplacian.h"]}
{"id": "C75", "title": "Lax average of a raster", "statement": "If no-data is marked in the mask of the result, a cell of the Lax average is valid exactly if it was not masked before, its value is valid, at least one of its neighbours is valid and no intermediate value is infinite. It is then (1 - fraction) * value + fraction * weighted mean of the valid neighbours. Without marking no-data, valid cells with valid neighbours get the same value and no-data cells are left as they are. The result does not depend on the number of threads. In exact arithmetic and for fractions between 0 and 1, the average lies within the bounds of the cell and its neighbours; fraction 0 gives the value, fraction 1 the mean. Rasters of a single row or column, or of different shapes, are refused.", "quantifier": "every raster, set of no-data cells, fraction, mask of the result, number of threads and schedule", "why_tests_cant": "Tests use a few rasters; no-data that is generated by the first step is not detected by the later ones, so that it is not obvious that the mask is right in the end.", "anchors": ["source/fern/algorithm/algebra/vector/detail/lax.h"]}
{"id": "C76", "title": "Slope of a raster", "statement": "If no-data is marked in the mask of the result, a cell of the slope is valid exactly if it was not masked before, its value is valid, the cell sizes are not zero and no intermediate value is infinite. It is then sqrt((gx / (8 width))^2 + (gy / (8 height))^2), where gx and gy are Horn's weighted differences between west and east and between south and north of the cell, in which no-data cells and positions outside of the raster are replaced by the average of the valid cells around them. The result does not depend on the number of threads. In exact arithmetic the slope is 0 if all valid cells have the same value, whatever cells are no-data; at cells of a plane with eight valid neighbours the differences are exactly eight times the rise per row and column, but at a border of the raster only half of that. Without marking no-data, valid cells get the same value and no-data cells get the slope of differences of 0. A cell of the result that was masked beforehand is left with the square of the slope. Rasters of one or two rows or columns are not supported: one row or column is refused, with two rows non-existing cells are read.", "quantifier": "every raster of at least three rows and columns, set of no-data cells, mask of the result, number of threads and schedule, every arithmetic in which 1 and -1 are not zero", "why_tests_cant": "Tests calculate the slope of a few rasters; the claim is about eight array operations in a row, several of which write into their argument, for all rasters and schedules.", "anchors": ["source/fern/algorithm/space/focal/detail/slope.h"]}
{"id": "C77", "title": "Calls of the interpreter", "statement": "If a module of assignments and expressions passes validation, it is executed without a failure: each name has a value of the type that validation assumed, data sources going before values computed by earlier calls. A problem found by validation is reported and nothing is computed or written. This holds for every sequence of executed modules and clearings of the stack, as long as each data source passed is used in its module; the stack of types then describes the stack of values. It fails after a refused module (names that it assigns have a type but no value), after a data source was passed to a module that does not mention it (later modules that use it pass validation but fail; an earlier value of that name is lost), for names that are assigned in an if, and after subscripts. Functions that are not operations, also those that the module defines, are always refused, and a tree can be passed once only.", "quantifier": "every straight-line module, data sources, sequence of calls and set of operations whose results have the type that their rules give", "why_tests_cant": "Tests execute single modules in a new interpreter; the claim is about what remains between calls, for all modules and sequences.", "anchors": ["source/fern/language/interpreter/interpreter.cc", "source/fern/language/interpreter/execute_visitor.cc:set_data_source_symbols", "source/fern/language/ast/visitor/annotate_visitor.cc"]}
{"id": "C78", "title": "Variance and standard deviation", "statement": "The variance accumulator gives the mean of the squared distances of the values to their mean, and the standard deviation accumulator its square root; without values there is no result. Merging accumulators is the same as adding all values to one, and the order of the values does not matter. In exact arithmetic the variance is not negative, it is zero exactly if all values are equal, it is the mean of the squares minus the square of the mean, it is not changed by adding a constant to all values, scales with the square of a factor and is at most a quarter of the square of the range of the values. The variance of a merged accumulator follows from the sizes, means and variances of its parts. For integer types the mean is rounded before the distances are calculated, so that none of this holds: the variance of 0, 0, 0, 3 becomes 2 instead of 1.6875, that of -3, -3, -3, 0 becomes 1.", "quantifier": "every list of values, and every way to divide it over accumulators", "why_tests_cant": "Tests calculate the variance of one or two small sets of values; the claim is about all lists.", "anchors": ["source/fern/algorithm/accumulator/variance.h", "source/fern/algorithm/accumulator/standard_deviation.h"]}
{"id": "C79", "title": "Features and attributes in a Fern dataset", "statement": "Writing a number to an attribute of a feature succeeds exactly if the feature exists or only its last component does not (it is then created), and there is no attribute yet or one whose type is of the same class (integers, floating point); otherwise an assertion fails. Afterwards the number can be read, all other attributes are as before, and the dataset is still a tree. After any sequence of writes to a new dataset in which those to the same path write the same type, each attribute has the number that was written last. Attributes keep their type if a number of another type is written. A path of which more than the last component does not exist makes an assertion fail, also when asking whether it exists; so attributes of nested features can't be written to a new dataset. The root can't be written.", "quantifier": "every dataset, path, number and sequence of writes", "why_tests_cant": "The unit test writes and reads a single attribute of a feature at the top; the claim is about all trees, paths and histories.", "anchors": ["source/fern/language/io/fern/fern_dataset.cc", "source/fern/language/io/fern/hdf5_file.cc"]}
{"id": "C80", "title": "Choosing a driver", "statement": "Given a format, a dataset is opened by the driver of that name; an unknown format is an error. Without format all drivers are asked, Fern's first and the others in the order of their names, and the first that can open the dataset does; if none can, the error says that the dataset can't be read, or written, depending on the mode. A dataset exists exactly if one of these drivers can open it. This holds if drivers are registered by their name: otherwise a driver named Fern may be left out, or asked twice.", "quantifier": "every set of drivers, name, mode and format, and every state of the world that asking the drivers doesn't change", "why_tests_cant": "Tests use the drivers that are installed; the claim is about any set of drivers.", "anchors": ["source/fern/language/io/drivers.cc"]}
{"id": "C81", "title": "Writing and reading data in Fern format", "statement": "What the write operation writes in Fern format, the read operation reads, whatever other drivers are registered. Writing to an existing Fern dataset changes only that attribute; other files are never changed. If the file doesn't exist it is created; if it is in another format, its contents are lost. If it can't be written, this is an error and nothing changes. Data of which only the last component of the path doesn't exist is an error; reading a feature makes an assertion fail. Asking Fern's driver whether a dataset can be read or updated changes nothing, but asking whether it can be overwritten makes it empty. Without format, Fern's driver is the one to overwrite a file, whatever its name or format.", "quantifier": "every disk, data name, number and set of registered drivers", "why_tests_cant": "Tests write a single attribute to a new file; the claim is about all files, paths and drivers, and about what happens to the rest.", "anchors": ["source/fern/language/operation/std/read.cc", "source/fern/language/operation/std/write.cc", "source/fern/language/io/fern/fern_driver.cc", "source/fern/language/io/fern/utils.cc"]}
{"id": "C82", "title": "The command line of a compiled module", "statement": "If the command line of a compiled module is accepted, the first words are the arguments of the module, in order: each is an integer if it can be converted to one, otherwise a floating point number if it can be converted to one, and otherwise text. The remaining words name the data that the results are written to, in order. More words than the module has arguments and results are never accepted; the module runs exactly if there are at least as many words as arguments, and otherwise nothing is opened for writing. Contrary to the documentation, a word that is the name of existing data is used as text, not as the data; but if the dataset exists and the data doesn't, that is an error. When there are too many words the datasets of the results have been made empty before that is found out.", "quantifier": "every list of words, number of arguments and results, set of drivers, state of the world and conversion of strings to numbers", "why_tests_cant": "The unit test uses a few command lines with numbers; the claim is about all of them and about what remains on disk when they are refused.", "anchors": ["source/fern/language/compiler/parse_command_line.cc", "source/fern/language/compiler/module.cc:check_sources_and_syncs", "source/fern/language/interpreter/dataset_source.cc", "source/fern/language/interpreter/dataset_sync.cc"]}
{"id": "C83", "title": "The C++ code of a compiled module", "statement": "For the module y = f(x) the compiler writes a function that reads x from the first data source, executes f with it and writes its first result to the first data sync, if there is one. For other modules it does not: the brackets of the code match exactly if the right hand side of each assignment is a single operation whose arguments are no operations, and no name is declared twice exactly if there is at most one assignment, to a name that is not used in the module. So y = x, y = f(g(x)), x = f(x) and every module of two assignments give code that is not valid C++. The arguments of an operation are the names, one directly after the other: the arguments of f(a, b) become ab, which does not exist, and numbers, strings and subscripts are left out, so that f(x, 1) executes f with x only. Assignments in if and while statements are left out, an attribute makes everything before it in the statement disappear.", "quantifier": "every module whose names contain no brackets, set of operations, and behaviour of the operations", "why_tests_cant": "The unit test compiles two or three small modules and does not run a C++ compiler on most of them; the claim is about all modules.", "anchors": ["source/fern/language/compiler/compile_visitor.cc"]}
{"id": "C84", "title": "From a script to a syntax tree", "statement": "Parsing a script gives the syntax tree of the script, with all operators, names, constants, statements and their line and column numbers, and the name of the source whatever characters it contains, provided that names and string constants can stand in an XML document as they are. A script with a construct Fern doesn't have is refused with the name and the position of the first such construct. Exceptions: integer constants outside of 32 bits make parsing fail, and those outside of 64 bits become -1; floating point constants become what their text is read as; and/or with more than two operands, attributes of attributes and subscriptions in subscriptions make an assertion fail; default values, decorators and */** parameters of functions are dropped without a message; a string constant with a < makes parsing fail, one that contains a reference or a line end is changed, one with a null character ends there, and one with markup in it can add statements to the program. In a document given as XML, integers are reduced to the number of bits given with them, and sizes other than 8, 16, 32 and 64 make an assertion fail.", "quantifier": "every script, source name, and textual form of floating point numbers", "why_tests_cant": "The unit tests parse some scripts; the claim is about all scripts and about the characters in their strings.", "anchors": ["source/fern/language/script/algebra_parser.cc", "source/fern/language/ast/xml/xml_parser.cc", "source/fern/language/ast/xml/syntax_tree.xsd", "source/fern/language/interpreter/interpreter.cc:parse_string"]}
{"id": "C85", "title": "Which values elementary functions accept", "statement": "With the domain policies of the library, the square root accepts exactly the squares, arcsine and arccosine exactly the numbers that are a sine or cosine, sine and cosine exactly the finite numbers, logarithms exactly the numbers that have one and zero, a power is accepted exactly if base and exponent have a real power, and the gamma function accepts exactly the numbers where it is defined and zero, although zero is documented as outside of the domain. Positive infinity is accepted by square root, logarithms and factorial. The tangent is defined for every number a floating point type can represent, yet odd multiples of the number used for half of pi are refused, and for multiples of 2^63 or more the test has undefined behaviour. The factorial of an integer is written if the type can represent it, negative integers give no-data; if the type can't represent it, the behaviour is undefined, because the result is converted before the range policy is asked, which by itself decides correctly except for the largest value of 32 and 64 bit signed integers, where it overflows. Square roots, logarithms, arcsines, arccosines, sines, cosines, powers, factorials of floating point numbers and the gamma function of rasters write the result in the cells accepted, and mark all others; of powers, factorials and the gamma function results that aren't finite are marked as well.", "quantifier": "every floating point value, integer type and value, mathematical library that is accurate for factorials, raster", "why_tests_cant": "Unit tests try a few values; the claim is about all values, and relates the policies to the real functions.", "anchors": ["source/fern/algorithm/algebra/elementary/sqrt.h", "source/fern/algorithm/algebra/elementary/log.h", "source/fern/algorithm/algebra/elementary/pow.h", "source/fern/algorithm/algebra/elementary/tgamma.h", "source/fern/algorithm/algebra/elementary/factorial.h", "source/fern/algorithm/algebra/elementary/detail/factorial.h", "source/fern/algorithm/trigonometry/acos.h", "source/fern/algorithm/trigonometry/asin.h", "source/fern/algorithm/trigonometry/sin.h", "source/fern/algorithm/trigonometry/cos.h", "source/fern/algorithm/trigonometry/tan.h"]}
{"id": "C86", "title": "Features, child features and attributes", "statement": "A path leads to the feature found by following its names, and an attribute is found by following all names but the last; adding one makes it be found, leaves everything found before as it was, and what can be found in addition is found by way of what was added, also if features are shared. Names are listed in order, each once. Exceptions: asking whether there is an attribute with a path of several names never answers no but throws an exception, or worse if the feature it would belong to doesn't exist; for that reason adding a feature with such a path never succeeds if assertions are enabled, the exception being thrown exactly if adding should succeed. The number of attributes of a path is the number of attributes of the feature above it. With a path made of a slash and one name, as data names have, an attribute can't be found or added and a feature not added. A path that ends with a slash adds a feature without a name. Adding an attribute again keeps the first one if assertions are disabled.", "quantifier": "every set of features, however they share child features, every path, with and without assertions", "why_tests_cant": "The unit test has one feature with one child and asks for counts which happen to be equal; the claim is about all features and paths.", "anchors": ["source/fern/language/feature/core/feature.cc", "source/fern/core/path.cc"]}
{"id": "C87", "title": "Rasters in GDAL datasets", "statement": "A field with square cells, written by the language to a new raster with a format that can store it, is read back with the same type, box, shape, values and mask; nothing but that file changes, and the only paths accepted are those made of the name of the file. A raster written by the Python extension is read back by it, and is read by the language with exactly its no-data cells masked. Exceptions: opening for overwriting deletes the raster before it is known whether the new one will be accepted; a constant, a field with other value types, several boxes, or cells that are not square then make an assertion fail, in the last case leaving a raster of zeros; a second field can't be written to the same dataset. Updating a raster replaces the upper left part, whatever the boxes are, always moves the raster to the box of the new field, also if the field is then refused because it is too large, and keeps masked cells masked if the field has no masked cells. The vertical cell size is stored with the sign that GDAL uses for rasters with south up, and rasters that have south up are read as if they had north up, so by GDAL's convention the raster lies outside of the field's box. The Python extension treats the masked cells of rasters written by the language as values, never marks cells if the no-data value of the file is not a number, loses origin and cell size without a message if the format can't store them, and has undefined behaviour for rasters of integers without a no-data value if the driver returns GDAL's default.", "quantifier": "every state of the disk, file format, raster, field, path and mode", "why_tests_cant": "Unit tests read and write a few rasters; the claim is about all rasters, about the formats, and about what remains after a failure.", "anchors": ["source/fern/language/io/gdal/gdal_dataset.cc", "source/fern/python/io/gdal.cc", "source/fern/io/gdal/detail/read.h", "source/fern/io/gdal/dataset.cc", "source/fern/feature/core/masked_array.h"]}
{"id": "C88", "title": "Raster operations of the Python extension", "statement": "Adding or multiplying two rasters of integers, or a raster and a number, gives a raster that lies where the (first) raster lies, whatever the coordinates of the second one, whose cells are masked where one of both is, and otherwise contain the sum or product if the type of the result can represent it. The order of the operands doesn't matter, nor what memory contained before. Comparisons give 0 or 1, and if_ gives the value chosen, masked where the condition is. Rasters of different sizes are refused. Rasters made from lists contain the values of the lists, in the first row's number of columns, and are masked where the mask says so; too few elements or values that the type can't represent are an exception. Exceptions: results equal to the value that marks no-data are masked without a message; numbers are first converted to the type of the raster, so adding 300 to a raster of 8 bits adds 44; a sum or product of signed integers that can't be represented is undefined behaviour; the sum of a raster of signed and one of unsigned integers is masked unless the signed value is positive or the unsigned one zero, and with 64 bit unsigned integers it can be wrong; negative values are greater than those of an unsigned type that is not narrower. In place, sums of unsigned integers wrap without a message, and products are masked depending on whether the new value can be multiplied once more. There are no rasters of 16 bit integers or 8 bit signed integers.", "quantifier": "all rasters, numbers of 64 bits, and contents of the memory of a new raster", "why_tests_cant": "Unit tests of the extension apply the operations to a handful of small rasters; the claim is about all values, including those at the end of the range of a type, and all combinations of types.", "anchors": ["source/fern/python/algorithm/algebra/elementary/add_raster_raster.cc", "source/fern/python/algorithm/algebra/elementary/add_raster_number.cc", "source/fern/python/algorithm/algebra/elementary/multiply.cc", "source/fern/python/algorithm/algebra/elementary/less.cc", "source/fern/python/algorithm/core/if_raster_raster.cc", "source/fern/python/feature/masked_raster.cc", "source/fern/python/core/switch_on_value_type.h"]}
{"id": "C89", "title": "Texts of errors", "statement": "Every message exists, and wherever one is formatted the number of arguments is the one that its template asks for, so the user gets a text; messages used without arguments have no placeholders. The arguments, such as names of files and statements, are copied into the text character by character, also if they contain per cent signs or look like placeholders. The text of an error in a script has the name of the source, the line, the column and what is wrong; for sources with the same name, or names without colon, the text determines all of these if the error has no statement. Exceptions: a syntax error about a statement that consists of line ends makes an assertion fail, or without assertions throws an exception of the formatting library instead of giving the text; with colons in names or statements, different errors can have the same text.", "quantifier": "every message, list of arguments, source, place, statement and template", "why_tests_cant": "The unit tests format a few messages; the claim is about all arguments, in particular those that contain characters the formatting treats specially.", "anchors": ["source/fern/core/messages.cc", "source/fern/core/messages.h", "source/fern/core/io_error.cc", "source/fern/core/parse_error.cc", "source/fern/core/validate_error.cc", "source/fern/language/interpreter/interpreter.cc", "source/fern/language/python/exception.cc"]}
{"id": "C90", "title": "What the fern command does with its words", "statement": "Whatever words the fern command is given: an error or refused arguments give a failing status together with a text on standard error, and refused arguments leave everything else as it was; options of 'compile c++' and 'compile dot ast' may be given in any order and repeatedly in front of the names and each sets one bit; '-' means standard input; the graph goes to the one file named after the input and otherwise to standard output (also if two names follow, which are then both ignored); errors of compile show the text of the error while those of execute and describe show one fixed text; an unknown first word makes an assertion fail; a dataset as a whole is never described and describing a missing dataset succeeds; import and compile to xml, fern and python succeed without doing anything.", "quantifier": "all lists of words, all worlds, all behaviours of parser, interpreter, compiler and datasets", "why_tests_cant": "A test runs the command with a few lists of words; the property is about all lists, numbers and orders of options, and all outcomes of the parts used.", "anchors": ["source/fern/language/command/fern.cc:59-128", "source/fern/language/command/compile_command.cc:153-446", "source/fern/language/command/describe_command.cc:65-127", "source/fern/language/command/execute_command.cc:48-71", "source/fern/language/command/import_command.cc:43-70", "source/fern/language/command/command.cc:83-94"]}
{"id": "C91", "title": "Casting keeps the number, or its nearest one", "statement": "Casting values with the policy that refuses values out of range is possible from bool to all types, from integers to at least as wide integers of the same signedness, and between equal floating point types, and then each cell with a value gets exactly that number and nothing is refused. Other casts: integers wrap; bool tells whether the value is other than zero; floating point numbers lose their fraction, and it is undefined behaviour if the rest does not fit, or for infinities and NaN; numbers become the nearest float or double (of two, the even one; infinity from half a last bit above the largest value on), rounding keeps the order and is symmetric about zero, and values of the type are not changed, so that integers up to 2^24 (2^53) survive going to float (double) and back, and larger ones need not.", "quantifier": "all types, all values, all raster sizes, masks and policies", "why_tests_cant": "A test casts a few values between a few types; the property is about all numbers, including ties, subnormal numbers, overflow and every pair of types.", "anchors": ["algorithm/core/cast.h:20-110", "algorithm/core/detail/cast.h:22-229", "algorithm/core/result_value.h:1-60"]}
{"id": "C92", "title": "Signs and elementwise extremes", "statement": "The sign of a number is 1 if it is not negative and -1 if it is (NaN counts as negative); the elementwise minimum (maximum) of two rasters of integers has in each cell the smaller (larger) one of both values, and is marked where one of the arguments has no value; for floating point numbers the same is true including infinities, except that if one of the values is NaN the result is the first one, so that the operations are not commutative.", "quantifier": "all values, all raster sizes, masks and policies", "why_tests_cant": "A test compares a few numbers; the property is about all numbers, with infinities and NaN in both positions, and all rasters.", "anchors": ["algorithm/core/sign.h:16-45", "algorithm/statistic/detail/binary_min.h:21-59", "algorithm/statistic/detail/binary_max.h:21-59"]}
{"id": "C93", "title": "The scripts that are accepted are the well-typed ones", "statement": "A script of assignments and expressions, given with any data sources after any earlier scripts, is accepted exactly if it is well-typed in terms of its text: every name used has a defined type there (that of the last assignment above, an earlier script or a data source), every operation is known and gets as many arguments as it has parameters, each of a type its parameter takes and none being an attribute of an expression, and every assigned expression has a defined type. Accepted scripts are executed without failure; other ones are refused, and nothing is computed or written. Afterwards names have the types assigned in the text.", "quantifier": "all scripts of assignments and expressions, all operations, all data sources, all histories", "why_tests_cant": "A test tries a few right and wrong scripts; the property says for all scripts which side they are on.", "anchors": ["language/interpreter/interpreter.cc:252-445", "language/ast/visitor/annotate_visitor.cc:1-245", "language/ast/visitor/validate_visitor.cc:20-92"]}
{"id": "C94", "title": "What an interactive session shows", "statement": "In an interactive session with any lines, as long as lines that are refused assign nothing: the program goes on until the end of the input; it shows the values that the lines mean, given the names assigned in earlier lines, within one line the last value first; it complains once about every line that cannot be parsed or is not well-typed, and these change nothing for later lines; all lines end up in the history. If a refused line assigns names, these get the types and keep the values they have, if any: the program then ends at the first well-typed line whose values cannot be computed or shown, and until then shows what the lines mean. Nothing is left on the stacks between lines. A feature is shown by its number of attributes and the name and value of each, constants by their value (8 bit integers as characters), fields by a fixed text, and other attributes end the program.", "quantifier": "all lists of lines, all parsers, all operations", "why_tests_cant": "A test enters a few lines; the property is about sessions of any length, with errors between any lines.", "anchors": ["language/command/interpreter.cc:45-228", "language/interpreter/interpreter.cc:395-471"]}
{"id": "C95", "title": "What arithmetic on floating point numbers returns", "statement": "Adding, subtracting, multiplying or dividing two finite floating point numbers, or one and an integer, returns the number nearest to the exact result, ties to even, in the larger of the two types (the integer having been rounded first), and marks the cell exactly when this number is too large for the type. The relative error is at most 2^-24 (single) or 2^-53 (double), for products and quotients unless the result is very small. Sums of small integers are exact. Division by zero is out of domain. x - y is zero only if x = y. Infinite arguments and NaN are refused, except that: a mixed sum accepts them, dividing by infinity gives zero, and a mixed difference fails an assertion.", "quantifier": "All values of the types, all rasters and no-data policies.", "why_tests_cant": "The number of pairs of doubles is 2^128, and rounding errors show up for few of them.", "anchors": ["algorithm/algebra/elementary/detail/add.h:161-258", "algorithm/algebra/elementary/detail/subtract.h:167-276", "algorithm/algebra/elementary/detail/multiply.h:198-294", "algorithm/algebra/elementary/detail/divide.h:160-257", "algorithm/algebra/elementary/detail/absolute.h:88-162"]}
{"id": "C96", "title": "How far sums and means of floating point numbers are off", "statement": "The sum of the valid cells of an array of n finite floating point numbers, computed sequentially or by any number of threads, differs from the exact sum by at most ((1+u)^(n-1) - 1) times the sum of the magnitudes, with u = 2^-24 (single) or 2^-53 (double); the mean by at most ((1+u)^n - 1) times the mean magnitude plus the smallest number. If the magnitudes sum up to less than the largest number divided by (1+u)^(n-1) the result is not marked. If the values are multiples of a power of two and small compared to it, the sum is exact, for every number of threads. Without threads, the values are added from the first to the last and the result is marked exactly when one of these sums is too large. In general the sum depends on the number of threads.", "quantifier": "All arrays, masks, numbers of threads, both range policies; for means, at most 2^24 (2^53) values.", "why_tests_cant": "Errors grow with the size of the array; tests compare with few small sums.", "anchors": ["algorithm/statistic/sum.h:1-90", "algorithm/accumulator/sum.h:1-219", "algorithm/accumulator/mean.h:84-216", "algorithm/core/unary_aggregate_operation.h:344-841"]}
{"id": "C97", "title": "Rounding to whole numbers", "statement": "floor, ceil, trunc and round return, for every finite value, the largest whole number that is not larger, the smallest that is not smaller, the one without the fraction, and the nearest one (of two: the one with the larger magnitude), in the same type, however large: the result is always representable and no cell is marked. Infinities and NaN stay as they are. The operations are monotone and repeating them changes nothing. Values from 2^23 (2^52) in magnitude are whole numbers and stay. Converting to an integer type gives the result of trunc. Rounding is not the same as adding one half and taking the floor.", "quantifier": "All values of both floating point types, all rasters and no-data policies.", "why_tests_cant": "Values next to ties and to the largest integers are rare.", "anchors": ["algorithm/algebra/elementary/detail/floor.h:22-62", "algorithm/algebra/elementary/detail/ceil.h:22-62", "algorithm/algebra/elementary/detail/trunc.h:22-62", "algorithm/algebra/elementary/detail/round.h:22-62"]}
{"id": "C98", "title": "Missing values in a sequence of operations", "statement": "Any sequence of unary and binary local operations on rasters of the same size, by any number of threads, treats each cell by itself, as the same sequence of operations on values that may be missing: the result of an operation is missing if an argument is, or if the operation is out of domain or range; otherwise it is the value computed. This holds for rasters with masks, if the masks of results are clear before, and for rasters with a no-data value, if no result happens to be this value and it is not NaN. Otherwise: marks in masks stay, results that are the no-data value count as missing, and if the no-data value is NaN missing values are not recognised.", "quantifier": "All sequences of calls, rasters, operations and numbers of threads.", "why_tests_cant": "Tests look at one operation at a time, and missing values have to survive all of them.", "anchors": ["algorithm/core/unary_local_operation.h:29-502", "algorithm/core/binary_local_operation.h:29-1150", "algorithm/policy/detect_no_data_by_value.h:100-146", "algorithm/policy/mark_no_data_by_value.h:90-140"]}
{"id": "C99", "title": "The graph of the syntax tree", "statement": "The graph of the syntax tree that is written for a script has every vertex of the module exactly once, except attributes, the module itself, the sentinels of if and while and the parameters of functions; every edge of the tree exactly once, in the box of the scope it belongs to, and all boxes are closed. Without attributes it is a forest: every vertex except scopes and sentinels has one edge to it, and no edge leads back. On request there is exactly one edge from each definition to each name that refers to it, and an edge from each expression, assignment and target to each of its successors in the flow of control. Expressions show their name, value or symbol and their type if known, and the colour tells whether it is. After annotation drawing cannot fail, if all operators exist. Not drawn: vertices of attributes (an edge leads to them), edges from statements to their branches and bodies, and the flow of control behind if, while and return.", "quantifier": "All modules, types and options.", "why_tests_cant": "Tests look at no graph; they only run the visitor.", "anchors": ["language/ast/visitor/ast_dot_visitor.cc:18-685", "language/command/compile_command.cc:209-219"]}
{"id": "C100", "title": "The graph of the flow of data", "statement": "The graph of the flow of data that is written for a script has one vertex for each target of an assignment, each if statement and each expression that is not a name of something defined before. There is an edge from a to b exactly if the value of a is an operand of b or is assigned to b, names standing for the target that was assigned to last. Every edge goes forward in the order of evaluation, so there is no cycle; without attributes it connects vertices that are drawn. Expressions show their name, value or symbol. Before the first control statement the graph is complete: the value of a target depends only on the inputs from which a way leads to it. Not shown: loops, the influence of conditions, the flow from inside a branch to behind it, and attributes.", "quantifier": "All modules and links of identification.", "why_tests_cant": "Tests look at no graph; they only run the visitor.", "anchors": ["language/ast/visitor/flowgraph_dot_visitor.cc:18-435", "language/command/compile_command.cc:278-287"]}
{"id": "C101", "title": "The text of a graph can be read back", "statement": "From the text of the graph of the syntax tree or of the flow of data one reads exactly the vertices, edges, labels, attributes and boxes that were drawn, and two graphs with the same text are equal, if all names, numbers and strings of the module and the name of the file can stand between quotes: every quote in them is behind a backslash and no backslash at the end is alone. Otherwise this fails: a string with a quote, an 8 bit number 34 or a file name with a quote yields a text that is no graph, and a string can be chosen so that its vertex gets other attributes.", "quantifier": "All modules, links, options and ways to write addresses.", "why_tests_cant": "Tests look at no graph; they only run the visitor.", "anchors": ["language/ast/visitor/ast_dot_visitor.cc:18-685", "language/ast/visitor/flowgraph_dot_visitor.cc:18-435"]}
{"id": "C102", "title": "A library stays initialised while it is used", "statement": "While clients of GDAL, of HDF5 and of the formats of fern come and go in any order and any number, drivers and the library are there from the creation of the first client until the destruction of the last, are set up only once, and nothing is left afterwards. This holds as long as only one of the two classes of clients of GDAL is in use and there is at most one client of Python and of OGR at a time. Otherwise it fails: a second class of GDAL clients dangles, loses drivers, gets a driver back that is known to be buggy, or makes an assertion fail; the first of two Python clients that is destroyed finalises Python under the other.", "quantifier": "All histories of creations and destructions of clients.", "why_tests_cant": "A test creates one client, or a few in one order.", "anchors": ["language/io/gdal/gdal_client.cc:23-146", "io/gdal/gdal_client.cc:31-80", "language/io/fern/fern_client.cc:19-55", "language/io/fern/hdf5_client.cc:20-47", "language/io/ogr/ogr_client.cc:16-26", "language/python/client.cc:26-45", "language/io/io_client.cc:15-27", "language/io/io_client.h:24-47"]}
{"id": "C103", "title": "References, errors and files of the parser", "statement": "While scripts are parsed each object of Python has as many references as the program and others hold, so none is deleted while it is used or kept afterwards, unless a reference is assigned the object that it has, which leaks. A script with a syntax error for which Python gives a message, a line, a column and the statement is reported with exactly these; any other error of Python makes an assertion fail. Parsing a text leaves no file open; parsing a file leaves it open, so once the limit of open files is reached every further script is reported not to be readable.", "quantifier": "All histories of references, all values of errors, all sequences of files and limits.", "why_tests_cant": "Tests parse a handful of scripts, and count neither references nor open files.", "anchors": ["language/python/owned_reference.cc:19-149", "language/python/exception.cc:36-118", "language/script/algebra_parser.cc:993-1037"]}
{"id": "C104", "title": "Trees of expressions", "statement": "A tree of operations on constants or on rasters of one shape whose types fit evaluates to a value of the type that its operations declare. Each cell of the result has the value that the expression has for the values of the rasters at that cell, computed in the usual arithmetic of the types, and no value where a raster has none; for integers it is the exact sum. Nothing is thrown and no assertion fails; evaluation is undefined exactly if integers overflow somewhere. A tree whose types do not fit, or with rasters of different shapes, has no value: evaluating it throws or makes an assertion fail. Writing a tree to a stream does not end if there is a raster in it; otherwise the text of a tree of integers determines the tree, but not what the operations do.", "quantifier": "All trees, values, shapes and masks.", "why_tests_cant": "Tests evaluate two sums and one square root, of constants and of small rasters, and write no rasters.", "anchors": ["expression_tree/ast.h:24-60", "expression_tree/data.h:19-29", "expression_tree/evaluate_visitor.h:17-104", "expression_tree/implementation.h:20-105", "expression_tree/plus.h:20-205", "expression_tree/times.h:19-44", "expression_tree/sqrt.h:19-40", "expression_tree/slope.h:19-40", "expression_tree/stream_visitor.h:17-125"]}
{"id": "C105", "title": "Handles of open data", "statement": "However a program constructs, moves, assigns and destroys handles of groups and datasets of HDF5, and whichever identifiers the library gives, including ones used before: each thing that has been opened is either open and accessible by exactly one handle, or has been closed once; nothing is closed while a handle gives access to it, and once all handles are gone everything has been closed. A move hands over what the handle has; an operation does not touch what other handles have. For handles of netCDF and GDAL datasets this holds for programs that do not move them, and is false otherwise: after a move the destructor of the old handle closes the dataset of the new one, or one that got its identifier. Queries of HDF5 datasets close the spaces that they open, but not the types.", "quantifier": "All programs, all orders of constructions and destructions, all answers of the libraries.", "why_tests_cant": "Tests open one dataset and never move a handle; a leaked or doubly closed identifier has no visible effect there.", "anchors": ["language/io/fern/hdf5_group.cc:15-62", "language/io/fern/hdf5_dataset.cc:15-129", "language/io/fern/fern_dataset.cc:80-86", "language/io/fern/fern_dataset.cc:640-695", "io/netcdf/core/dataset_handle.h:15-48", "io/netcdf/core/dataset_handle.cc:17-45", "io/gdal/dataset_handle.h:19-51", "io/gdal/dataset_handle.cc:18-46"]}
{"id": "C106", "title": "Reading netCDF datasets", "statement": "The conventions of a dataset are exactly the names in its attribute Conventions: the parts between commas without surrounding white space if there is a comma, otherwise the parts between white space; in their order; none if there is no such attribute. Reading file:/variable into a double gives a value exactly if the file is a readable dataset that names COARDS among its conventions and has a variable of that name without dimensions of type double, and then it is the value of the variable. Otherwise an error tells the first thing that is wrong: no file, not readable, not conforming, no such variable, no scalar; or an assertion fails, exactly if the attribute is no text or ends with a null character, or if the scalar has another type.", "quantifier": "All datasets, values of attributes, names.", "why_tests_cant": "The tests have two datasets, one convention and one variable; they cannot tell how other texts are split or which of several problems is reported.", "anchors": ["io/netcdf/core/attribute.cc:19-109", "io/netcdf/core/variable.cc:20-146", "io/netcdf/core/dataset.cc:18-36", "io/netcdf/coards/dataset.cc:18-32", "io/netcdf/coards/detail/read.h:39-98", "io/netcdf/core/detail/variable.h:20-60"]}
{"id": "C107", "title": "Attributes in space and absolute values", "statement": "Whatever is added to a spatial attribute is found again under its identifier; identifiers are 0, 1, 2, ... in the order of adding, nothing added later changes what was there, and no assertion fails. The operation abs gives for a constant its magnitude, with the same type, and for a field a field with the same boxes in the same order, arrays of the same shapes, the same masks, and the magnitudes of all cells that have a value; except for the least value of a signed type, where the result is that negative value (8 and 16 bits) or undefined (32 and 64 bits), and for arrays without rows. Taking it twice is taking it once. The operations add and int32 never leave a result.", "quantifier": "All sequences of additions; all types and values; fields of any number of boxes and any shapes and masks.", "why_tests_cant": "The tests have one value for each operation, one field, and never the least value of a type.", "anchors": ["language/feature/core/spatial_attribute.h:70-136", "language/feature/core/spatial_domain.h:116-134", "language/feature/core/geometry_values.h:64-102", "language/operation/std/abs.cc:18-195", "language/operation/std/add.cc:52-65", "language/operation/std/int32.cc:48-62"]}
{"id": "C108", "title": "What printing shows", "statement": "Printing a range of less than seven elements shows all elements in order with commas between them, so that the range can be told from the text (provided that the texts of elements are not empty and have no commas); of a longer range exactly the first three and the last three elements are shown. The text has at most 6 n + 20 characters if those of the elements have at most n. Of a raster nothing is shown, and a constant is shown on a line of its own.", "quantifier": "All ranges, all texts of elements.", "why_tests_cant": "The tests print one constant, one short and one long range.", "anchors": ["language/operation/std/print.h:20-76"]}
{"id": "C109", "title": "Kernels are the tables they are made of", "statement": "A kernel can be made of a table of weights exactly if it has 2 r + 1 rows of 2 r + 1 weights, where r is the radius; otherwise an assertion fails. The kernel then has this radius, this odd size, and in each row and column the weight of the table; a kernel made of one weight is that of the table which has it everywhere; weights can be changed one by one, and there are none outside of the square. A square whose radius is part of its type has the same weights, whatever its memory contained, and gives the same convolution. Row p and column q of the table are laid upon the cell p - r rows below and q - r columns right of the focus.", "quantifier": "All radii, tables (also ragged ones), types of weights, positions, images.", "why_tests_cant": "The tests make kernels of radius one and two with given weights.", "anchors": ["algorithm/convolution/neighborhood/kernel.h:68-148", "algorithm/convolution/neighborhood/kernel_traits.h:34-110", "algorithm/convolution/neighborhood/square.h:25-123", "algorithm/convolution/neighborhood/square_traits.h:35-119"]}
{"id": "C110", "title": "Laws of weighted means of neighbourhoods", "statement": "The result of a convolution in a cell depends on nothing but what is below the kernel: if two images of any sizes look alike around two cells, these get the same result. In exact arithmetic, with division by the sum of the weights: without negative weights the result is between the smallest and the largest valid value; where all valid values are the same it is this value; a kernel with a weight in the middle only changes no valid cell; changing the units of the values (a factor and an offset) changes the units of the result; multiplying all weights changes nothing; mirroring image and kernel, left and right or up and down, or exchanging rows and columns, does the same to the result. With negative weights the result may be out of range.", "quantifier": "All images, kernels, radii, patterns of no-data, factors and offsets.", "why_tests_cant": "Tests compare the results of a few small images with numbers worked out by hand.", "anchors": ["algorithm/convolution/detail/convolve.h:105-2049", "algorithm/convolution/divide_by_weights.h:37-42", "algorithm/convolution/skip_no_data.h:42-57", "algorithm/convolution/skip_out_of_image.h:150-325"]}
{"id": "C111", "title": "Numbers keep their type in files", "statement": "The value type with which a number is written to a file in Fern format is recognised when it is read, also by a computer with the other order of bytes, and the number is read as it was written. Exactly the eight integer types and two floating point types can be written; a type in a file is taken for one of them exactly if class, sign and size are those of it. The expression type that is reported for an attribute is that of a constant of the type with which it is read. Writing to an existing attribute never changes its type: an integer becomes the nearest one of the type of the attribute, and a floating point number can't be written over an integer, nor the other way around. So after a history of writes of integers an attribute has the type of the first, and the value nearest to the last; the last number itself is read only if it fits.", "quantifier": "All types of numbers, numbers, types in files, orders of bytes and histories of writes.", "why_tests_cant": "Tests write a few numbers to new files and read them back on one computer.", "anchors": ["language/io/fern/fern_dataset.cc:80-158", "language/io/fern/fern_dataset.cc:271-404", "language/io/fern/fern_dataset.cc:518-699", "language/io/fern/hdf5_type_traits.cc:15-24", "language/io/fern/hdf5_dataset.h:64-86"]}
{"id": "C112", "title": "The files that are written by the compiler", "statement": "Compiling a module to C++ writes a header and a C++ module in the destination directory, named after the last name of the path of the source up to its last dot, and on request a CMake script and a main program, each with its text: the header declares a class with a constructor without parameters, a destructor and a function to run it, the C++ module includes the header and defines these with the same parameters, and the main program includes the header and uses them so; these files can be read afterwards and every other file and directory is left as it is. This holds if the files have different names, which is the case unless the module is called main and a main program is asked for: then the main program replaces the module. If a check fails, or the module can't be compiled, nothing is written. Compiling succeeds if the destination is a directory in which owner and process may write, the directory above may be written by its owner and the files are new or may be written. The checks are not exact: they ask for the directory above the destination, and for the owner's permission instead of that of the process, so files that could be written are refused and a failure may leave a new header with an old module. A file exists, or is writable, if following at most 40 links leads to a regular file, which its owner may write.", "quantifier": "All disks, sources, destinations, extensions, options and modules.", "why_tests_cant": "The only test of the compiler constructs it.", "anchors": ["language/compiler/compiler.cc:24-224", "language/io/core/file.cc:21-112", "language/compiler/compile_visitor.cc:176-209", "language/io/gdal/gdal_driver.cc:95-102", "core/path.cc:14-133"]}
{"id": "C113", "title": "Names and rasters in Python programs", "statement": "In Python, +, *, < and > of rasters and integers give what the operation gives for both sides in the order in which they are written, also with the number at the left hand side. A program that does not use +=, iadd and imultiply changes no raster: its names have the values that they would have if rasters were copied. iadd and imultiply change the raster of their first argument, for all names that stand for it, and nothing else. x += y does so too provided that another name refers to the object; otherwise the object is deleted and the next use of x is undefined. x *= y, however, is x = x * y: it makes a new raster and other names for the old one keep it. += with a number is an exception. Numpy arrays made from rasters are copies: they have the type, rows, columns and values of the raster, with the reserved value in masked cells, and never change afterwards.", "quantifier": "All programs of assignments, +=, *=, calls of iadd and imultiply, deletions and conversions to arrays; all expressions.", "why_tests_cant": "Tests apply one operator to one or two rasters; none uses +=, *= or two names for a raster.", "anchors": ["python/algorithm/__init__.py.in:10-27", "python/algorithm/algebra/elementary/__init__.py.in:11-132", "python/algorithm/algebra/elementary/python_extension.cc:110-141", "python/algorithm/algebra/elementary/add_raster_raster.cc:46-101", "python/algorithm/algebra/elementary/multiply.cc:89-178", "python/feature/numpy.cc:29-78"]}
{"id": "C114", "title": "Operations executed by a shared thread pool", "statement": "Any number of threads may call operations with the same parallel execution policy at the same time, each into results of its own. Whatever the number of workers and the order in which workers, threads, notifications and time-outs make steps, when a thread returns from an operation its result is the one obtained by executing that thread's operations one after the other, sequentially; no action of another operation ends up in it. Every operation returns: the futures of its tasks are ready after a bounded number of steps of each worker, whatever the other threads do, unless the pool is destroyed; and no worker or thread ever gets stuck. This holds if operations are not called from tasks of the same pool: when each worker executes a task that waits in an operation, nothing happens any more and these operations never return.", "quantifier": "All numbers of workers and threads, programs of threads, data, and interleavings of steps.", "why_tests_cant": "Tests run one operation at a time from one thread, with the interleavings that happen to occur.", "anchors": ["algorithm/core/unary_local_operation.h:288-326", "core/thread_pool.h:89-122", "core/thread_pool.cc:51-162", "algorithm/policy/parallel_execution_policy.h:22-56"]}
{"id": "C115", "title": "Descriptions of operations and of uncertainty in XML", "statement": "Reading the description of a parameter or result of an operation gives its name and description, and exactly the set of data types and value types named in it (the union of the names' sets), independently of what was read before; it is read if and only if name and description aren't empty, and one or more types are named, all of them known. Parameters and results keep their order. However: as soon as a document describes an operation, an assertion fails, so only empty documents can be read; a parameter without value types can't be read although schema and documentation allow it; and eight of the names listed by the schema aren't known. A document of a normal distribution gives its mean, and the square root of its variance as standard deviation, if and only if it has one mean and one positive variance; a document that doesn't conform to the schema gives a parse error with the place and message of its first problem; other documents make an assertion fail.", "quantifier": "All documents, and all states of the parser's handlers between elements.", "why_tests_cant": "Tests read one document of each kind; the one with an operation is commented out.", "anchors": ["language/operation/xml/operation_xml_parser.cc:25-119", "language/operation/xml/operation_xml_parser.cc:154-217", "language/operation/xml/operation_xml_parser.cc:454-491", "language/operation/core/parameter.cc:31-54", "language/io/uncertml2/uncertml2_parser.cc:22-221"]}
{"id": "C116", "title": "Values and exceptions of tasks", "statement": "What comes out of a parallel operation doesn't depend on how its tasks are scheduled: the values of all tasks in the order of the blocks, so that parallel aggregations give the results of sequential ones, or, if tasks throw, the exception of the first block whose task throws, whichever task threw first; except that, if the pool is destroyed meanwhile, it may be an exception that tells so. A task that throws doesn't stop a worker: every task submitted ends. A thread that asks a future goes on when the task has ended or the pool has been destroyed. No task reads anything of an operation that has ended, provided that no task throws other than the operation's last one. If one does, then, for any number of workers, there is an execution in which the operation has thrown its exception and a later task reads what belonged to it.", "quantifier": "All numbers of workers and threads, all operations (lists of tasks with any outcomes), all interleavings of the steps of threads and workers, including destruction of the pool.", "why_tests_cant": "Tests don't contain operations that throw; schedules in which tasks outlive their operation, or finish in another order, are seldom met.", "anchors": ["core/thread_pool.h:104-122", "core/thread_pool.cc:80-84", "core/thread_pool.cc:130-162", "core/detail/function_wrapper.h:18-90", "core/join_threads.cc:23-30", "algorithm/core/unary_aggregate_operation.h:441-510", "algorithm/core/unary_local_operation.h:288-326"]}
{"id": "C117", "title": "Integer arithmetic on whole arrays", "statement": "Adding, subtracting, multiplying and dividing integers, for scalars, arrays and mixed arguments, sequentially and in parallel: an element is marked if one of its arguments is no-data; else, if the divisor is zero; else, if range errors are detected and the exact result is reported; otherwise it is the exact result, and is not marked. Reported are sums, differences and products that don't fit the type of the result, and in addition sums of a signed value that isn't positive and an unsigned one that isn't zero, and products, not of two unsigned types, whose negation doesn't fit; quotients never are, so that of types narrower than 32 bits the only quotient that doesn't fit comes out wrapped. If range errors are discarded it is the exact result modulo the number of values of the type, unmarked. The operation is undefined, in every execution, precisely if for some valid pair the result is signed and of 32 or 64 bits and the exact result doesn't fit, or is a product of uint16_t values that doesn't fit an int, or the divisor is zero and domain errors are discarded. So for int32_t and int64_t no element is marked because of overflow of a sum or difference, while for narrower signed and for unsigned types sums and differences are always defined, and marked precisely if they don't fit. In the 1D versions the second value first passes through the type of the first, which changes nothing if that one has at least as many bits, but otherwise gives wrong unmarked results (uint8_t 1 plus uint16_t 300 gives 45).", "quantifier": "All operations, pairs of integer types (no uint64_t with a signed type), policies, shapes, values, sizes, numbers of tasks and interleavings.", "why_tests_cant": "Tests add a few values per type and never let signed 32 or 64 bits overflow; undefined behaviour isn't observable in a test that happens to pass.", "anchors": ["algorithm/algebra/elementary/detail/add.h:24-288", "algorithm/algebra/elementary/detail/subtract.h:24-305", "algorithm/algebra/elementary/detail/multiply.h:24-324", "algorithm/algebra/elementary/detail/divide.h:24-288", "algorithm/core/binary_local_operation.h:31-476", "algorithm/core/binary_local_operation.h:551-1729", "algorithm/policy/discard_range_errors.h:15-35", "algorithm/policy/discard_domain_errors.h:15-35"]}
{"id": "C118", "title": "Floating point arithmetic on whole arrays", "statement": "Adding, subtracting, multiplying and dividing floating point numbers, or floating point numbers and integers, for scalars, arrays and mixed arguments, sequentially and in parallel: an element is marked if one of its arguments is no-data; else, if the divisor is zero. Else its value is the exact result of the operands, each rounded to the result type, rounded to nearest, or infinite or NaN by the usual rules. For two floating point types it is marked precisely if the result isn't a number: for numbers precisely if the exact result is too large. For an integer and a floating point type differences, products and quotients are marked in the same way but sums of an integer and infinity or NaN are not, and a difference with an infinite or NaN value fails an assertion. Two floating point types with domain errors detected never fail. In the 1D versions with an array as second argument, its values first pass through the type of the first argument: this changes nothing for the same or a wider floating point type, rounds doubles to float if the first is float, drops the fraction if the first is an integer type, and is undefined if the value doesn't fit.", "quantifier": "All operations, pairs of types with at least one floating point type, policies, shapes, values, sizes, numbers of tasks and interleavings.", "why_tests_cant": "Tests add a few small values that are exact in all types, in 2D; rounding, overflow and mixed types in 1D are not tried.", "anchors": ["algorithm/algebra/elementary/detail/add.h:24-288", "algorithm/algebra/elementary/detail/subtract.h:24-305", "algorithm/algebra/elementary/detail/multiply.h:24-324", "algorithm/algebra/elementary/detail/divide.h:24-288", "algorithm/core/binary_local_operation.h:31-476", "algorithm/core/binary_local_operation.h:551-1729", "algorithm/policy/discard_range_errors.h:15-35", "algorithm/policy/discard_domain_errors.h:15-35"]}
{"id": "C119", "title": "Python raster operations with floating point numbers", "statement": "In Python, adding and multiplying two rasters of which one contains floating point numbers gives a raster, lying where the first one lies, whose cell is masked if one of the two cells is, and otherwise is the sum or product of the values, converted to the type of the result, rounded; it is masked if this is infinite or NaN, except for sums with an integer, and if it happens to be the number reserved for masked cells. With numbers and in place it is the same, a number being converted to the type of the raster first: if that contains integers, the integer part is used, and the behaviour is undefined if it doesn't fit. Both operations commute and are independent of the memory of the result. Comparisons give 1 or 0 for the values converted to the larger floating point type, 0 if one is NaN, and are masked only where one of the rasters is; exchanging the rasters exchanges less and greater. A choice takes the cell of the first raster where the condition is neither masked nor zero, and of the second where it is zero; a number in place of a raster passes through double precision. For rasters of integers all this is what C88 says. Rasters made from lists have the numbers, converted, or are masked; wrong types and sizes are refused.", "quantifier": "All rasters, of all types, sizes and values, infinite and NaN ones included, all numbers, masks, and contents of the uninitialised result.", "why_tests_cant": "Tests use small rasters of small numbers; rounding, overflow, NaN, the reserved number and mixed types are not tried.", "anchors": ["python/feature/masked_raster.cc:25-121", "python/algorithm/algebra/elementary/add_raster_raster.cc:23-138", "python/algorithm/algebra/elementary/multiply.cc:24-286", "python/algorithm/algebra/elementary/less.cc:24-243", "python/algorithm/core/if_raster_raster.cc:24-112", "python/algorithm/core/if_raster_number.cc:24-115", "python/algorithm/core/python_extension.cc:50-54", "core/type_traits.h:345-391"]}
{"id": "C120", "title": "Slope of a raster in Python", "statement": "In Python, the slope of a raster of floating point numbers with at least three rows and columns is a raster of the same type, lying at the same place, and the same for all execution policies and contents of uninitialised memory. A cell is masked if the one of the raster is, if eight times a cell size is zero in the type of the raster, or if the sum of differences, its quotient by eight times the cell size, the square of this, or the sum of the squares is infinite, NaN, or the number reserved for masked cells. Otherwise it is the square root of the sum of the squares, all results being rounded to the type, except that sums of weighted values and averages are formed in double precision and rounded to the type in the end. Masked cells and cells outside the raster count as the average of the valid cells around them. If the values are multiples of a power of two with few enough digits, the sums of differences are exact where all neighbours are valid, and rounded only once if the digits are at most 50 bits; a raster of doubles all of whose valid cells have the same value with few enough digits, and a raster of floats all of whose valid cells have the same value below 2^127, has slope zero everywhere. This is not so for all values: a flat raster of doubles 0.1 has a slope. Rasters of integers and of one row or column are refused.", "quantifier": "All rasters of both floating point types, sizes, values, infinite and NaN ones included, cell sizes, execution policies, contents of uninitialised memory; pow and sqrt arbitrary.", "why_tests_cant": "Tests compute the slope of one small raster; rounding, the reserved number in temporary results, other cell sizes and execution policies are not tried.", "anchors": ["python/algorithm/space/focal/slope.cc:22-73", "algorithm/space/focal/detail/slope.h:60-208", "algorithm/core/accumulation_traits.h:36-54", "python/core/switch_on_value_type.h:120-129", "python/feature/detail/argument_traits/masked_raster.h:19-32", "python/feature/detail/data_customization_point/masked_raster.h:133-142"]}
{"id": "C121", "title": "Rounding in Laplacians and Lax averages", "statement": "On rasters of doubles with at least two rows and columns, for all execution policies, the Laplacian of a valid cell differs from the exact one by at most 12 units of 2^-53 of the sum of the weighted absolute values divided by the area of a cell, plus half the smallest number; the Lax average differs by at most 13 units of 2^-53 of the largest absolute value among the cell and its neighbours, plus twice the smallest number, so it lies that near to the range of these values; with fraction 0 it is the value of the cell itself. If all values are multiples of a power of two with few enough digits, the Laplacian is the exact difference, rounded only when divided by the area; if these are all the same, it is zero everywhere. In general a flat raster can have a Laplacian other than zero, Lax averages can lie outside the range of the values, and a flat raster of large values is masked altogether. If the area of a cell is rounded to zero all cells are masked; if it is too large for a double, all Laplacians are zero.", "quantifier": "All rasters, sizes, no-data policies, execution policies, cell sizes and fractions representable in double.", "why_tests_cant": "Tests use one raster of small integers and cell size one, for which nothing is rounded except the final quotient.", "anchors": ["algorithm/algebra/vector/detail/laplacian.h:66-198", "algorithm/algebra/vector/detail/lax.h:54-148", "feature/core/data_customization_point/masked_raster.h:135-140"]}
{"id": "C122", "title": "Rounding in convolutions", "statement": "On rasters of floats or doubles, with kernels of floats, doubles, 32 bit integers or booleans, skipping no-data and cells outside the raster, for all execution policies: no-data cells that are kept and cells without valid neighbours below a weight that is not zero are marked; in all other cells what is stored is obtained from a sum that differs from the exact weighted sum by at most the error of rounding n products to the product type (the larger type of value and weight) plus ((1+2^-53)^n - 1) times the sum of their magnitudes, and, when normalizing, from a divisor that differs from the exact sum of the weights by at most ((1+2^-53)^n - 1) times the sum of their magnitudes, and not at all for kernels of integers and booleans, unless sums or products exceed the range. With the range check a cell is marked exactly if this sum, not the quotient, is too large for the destination type; otherwise the sum, or its quotient rounded to double, is converted to the destination type. For weights that are not negative this bounds the distance to the weighted average. If products and sums have few enough digits nothing is rounded before the division, and the average of equal values is the value. In general the average of equal values can differ from it; averages that are in range are marked if the sums are not; weights with sum zero give infinite values and NaN, and too large quotients infinite values, in cells that are not marked.", "quantifier": "All rasters, sizes, kernels with radius at most half the raster, no-data policies, normalization, range and keep-no-data policies, execution policies.", "why_tests_cant": "Tests convolve small integers, for which nothing is rounded or too large, with kernels of ones.", "anchors": ["algorithm/convolution/detail/convolve.h:32-98", "algorithm/convolution/detail/convolve.h:241-271", "algorithm/convolution/divide_by_weights.h:41-49", "algorithm/core/accumulation_traits.h:19-54"]}
{"id": "C123", "title": "Rounding in variances and standard deviations", "statement": "Of n > 0 floats or doubles, added one by one or divided over accumulators that are merged in whatever way: the variance is never negative, so the square root taken for the standard deviation is never that of a negative number; if n values are added one by one it isn't NaN either. Unless sums exceed the range, and with n at most 2^24 or 2^53, it differs from the exact variance v by at most ((1+u)^(n+3) - 1)(v + d^2) + d^2 plus a negligible amount, with u = 2^-24 or 2^-53 and d the error of the mean, at most (1+u)^n - 1 times the mean magnitude. The standard deviation differs from the exact one by the error of the root function plus the root of that error, or that error divided by the standard deviation if this is less. If sum, mean, distances and squares have few enough digits only the last division is rounded. The variance of one value is zero, and so is that of equal values whose sum isn't rounded. In general the variance of equal values need not be zero; sums that exceed the range give an infinite variance, and after merging possibly NaN; the order of the values, the way they are divided over accumulators, and adding a constant to them can matter.", "quantifier": "All lists of values, all ways of dividing these over accumulators, both types.", "why_tests_cant": "Tests use a few small integers, for which nothing is rounded, and compare nothing with the exact variance.", "anchors": ["algorithm/accumulator/variance.h:53-60", "algorithm/accumulator/variance.h:129-150", "algorithm/accumulator/mean.h:150-180", "algorithm/accumulator/sum.h:126-140", "algorithm/accumulator/standard_deviation.h:98-130"]}
{"id": "C124", "title": "Rounding in gradients", "statement": "On rasters of floats or doubles with at least two cells along the axis, for all execution policies and no-data policies, and cell sizes other than zero of which the double is in range: no-data cells are marked; in other cells the difference between the valid neighbours (or the cell and its one valid neighbour), rounded to the type of the values, is divided by the distance, rounded to double, and rounded to the type of the values. The result differs from the exact gradient by at most 3 units of 2^-24 or 2^-53 of it plus the smallest number; if the difference is too large for the type of the values an infinite value with the right sign is stored, in a cell that isn't marked. The sign is never wrong. A flat raster has gradient zero everywhere; a linear field whose increase per cell has few enough digits has the same gradient everywhere, also along borders and next to no-data. In general linear fields need not have the same gradient everywhere, gradients of floats need not be the float nearest to the exact gradient, and a cell size of zero or infinite values give infinite values and NaN that aren't marked.", "quantifier": "All rasters, sizes, no-data policies, execution policies, cell sizes, both types and axes.", "why_tests_cant": "Tests use one raster of small integers and cell sizes for which almost nothing is rounded.", "anchors": ["algorithm/algebra/vector/detail/gradient.h:22-31", "algorithm/algebra/vector/detail/gradient.h:34-335", "algorithm/algebra/vector/gradient.h:31-109", "feature/core/data_customization_point/masked_raster.h:124-131"]}
{"id": "C125", "title": "Order statistics of floating point numbers", "statement": "Whatever the order in which floats or doubles are added to accumulators and in which these are merged: the maximum (minimum) is the largest (smallest) of the values that aren't NaN, if one of these isn't minus infinity (infinity); otherwise it is the smallest (largest) finite number, although that isn't one of the values. The maximum and minimum of 1D and 2D arrays are those of the valid values, the same for all execution policies and numbers of threads, whatever the values; no-data is marked only if no value is valid. The range of finite values is the rounded difference of the largest and the smallest, not negative, and zero only if all are equal; it is infinite if the difference is too large, and minus infinity if all values are NaN. There is no median of no values. The median of an odd number of values without NaN is the middle one; of an even number it is between the two middle values, and half of their sum but for one rounding, unless the sum is too large: then it is infinite. If some but not all of the values are NaN the median is undefined.", "quantifier": "All lists of values of both types, including infinities and NaN; all ways of adding and merging; all no-data policies; all numbers of threads.", "why_tests_cant": "Tests use a few small integers as values, no infinities, NaN or large numbers.", "anchors": ["algorithm/accumulator/max.h:62-150", "algorithm/accumulator/min.h:62-150", "algorithm/accumulator/range.h:61-156", "algorithm/accumulator/median.h:65-173", "algorithm/statistic/detail/unary_max.h:20-36", "algorithm/statistic/detail/unary_min.h:20-36", "algorithm/core/unary_aggregate_operation.h:118-303"]}
{"id": "C126", "title": "Rounding in averages that replace missing values", "statement": "On rasters of floats or doubles whose valid values have magnitude at most b, with b well inside the range of the type: the value that replaces a no-data cell, or a position outside of the raster, is a finite number of the type of the raster that differs from the mean of the valid cells around it by at most the errors of adding at most nine doubles, of one division and of one conversion; there is none if no cell around it is valid. If the values are multiples of a power of two with few enough digits only the mean is rounded, and a flat neighbourhood of floats is replaced by its value. Convolving with these values, by kernels of floats, doubles or 32 bit integers, gives for all execution policies the same raster, in which each cell that is not kept or without anything that counts is obtained from a sum that differs from the exact sum, over valid cells with a weight that is not zero and the exact means for all missing cells, by at most the rounding error of the convolution plus the error of an average times the sum of the magnitudes of the weights. With kernels of booleans, where only positions outside of the raster are replaced, there are no products and the divisor is the exact number of weights that are switched on. In general a flat neighbourhood of doubles may be replaced by another value, averages of large doubles are infinite, and averages count even where the weight is zero: a kernel of zeros gives NaN in cells that are not marked next to the border.", "quantifier": "All rasters larger than twice the radius, kernels, no-data policies, values of magnitude at most b, normalization, range and keep-no-data policies, execution policies.", "why_tests_cant": "Tests use small integers and kernels of ones, for which nothing is rounded.", "anchors": ["algorithm/convolution/replace_no_data_by_focal_average.h:48-96", "algorithm/convolution/replace_out_of_image_by_focal_average.h:147-277", "algorithm/core/accumulation_traits.h:19-54"]}
{"id": "C127", "title": "The accuracy of slopes", "statement": "For a raster of floats or doubles of at least 3 x 3 cells whose valid heights are numbers of magnitude at most b, with 64 b within the range of the type: the two weighted differences that slope computes are numbers that differ from Horn's exact differences (with the exact mean of the valid cells around it for every missing cell and every position outside of the raster) by at most 224 u b plus 40 times the smallest error, where u is the unit roundoff of the type. Each cell of the result of slope is masked or is a number, not negative, that differs from the exact slope, the root of the sum of the squares of both differences divided by eight times the cell size, by at most twice the errors of both gradients plus 5 u times the slope plus 2^-73 for floats and 2^-535 for doubles, given a square and a square root whose errors are less than the distance of two numbers. Valid cells with gradients between 2^-60 and 2^60, and differences of at least 2^-60, beyond the errors have a value. For a plane the exact slope is the length of its gradient.", "quantifier": "All rasters of this kind, cell sizes for which eight times the size is finite, execution policies, leftovers of memory, square and square root functions of this accuracy.", "why_tests_cant": "Tests compare a few slopes with values that were computed by hand, by exact comparison or a chosen tolerance.", "anchors": ["algorithm/space/focal/detail/slope.h:60-215", "python/algorithm/space/focal/slope.cc:20-75", "algorithm/convolution/replace_no_data_by_focal_average.h:48-96"]}
{"id": "C128", "title": "Modes of floating point numbers", "statement": "However floats or doubles are added to mode accumulators and these are merged, and in whatever order hash tables are iterated over: the mode is one of the values that occur most, where no two NaNs are equal, and each accumulator that was default constructed counts as a zero that was added. Each of the values that occur most can be returned, and which values can doesn't depend on the order of adding and merging. A number that occurs at least twice, and more often than any other number, is the mode. NaN is returned only if no two numbers are equal, however often it was added. A table has an entry for each different number and for each NaN that was added.", "quantifier": "All lists of values of both types, including infinities and NaN; all ways of constructing, adding and merging; all orders of iteration.", "why_tests_cant": "Tests use a few values, no NaN, and see only one order of iteration.", "anchors": ["algorithm/accumulator/mode.h:63-148", "algorithm/accumulator/detail/frequency_table.h:22-170"]}
{"id": "C129", "title": "Absolute values and factorials of arrays of integers", "statement": "Absolute values and factorials of scalars, 1D and 2D arrays of integers of all types, with and without the policies of the operations, in one thread and in every execution with any number of threads: a no-data value is marked and nothing else happens to its element. The absolute value is stored if the type can represent it; if a type of 8 or 16 bits cannot, the value itself is stored and it is reported unless range errors are discarded; if a valid value has an absolute value that a type of 32 or 64 bits cannot represent, the whole operation is undefined. The factorial is stored if the type can represent it; if that of one valid value cannot be represented the whole operation is undefined; a negative value is marked, and if domain errors are discarded it makes the operation undefined. The range policy of factorials never has an effect.", "quantifier": "All arrays of all integer types, all no-data policies, all choices of policies, all numbers of threads and schedules.", "why_tests_cant": "Tests call the operations on a few scalars with a single policy; undefined behaviour may look like a result.", "anchors": ["algorithm/algebra/elementary/detail/absolute.h:30-205", "algorithm/algebra/elementary/detail/factorial.h:20-170", "algorithm/core/unary_local_operation.h:29-502"]}
{"id": "C130", "title": "Range errors detected by errno", "statement": "Local operations whose range policy is the detection by errno, in one thread and by pools of any number of threads: powers are marked as out of range exactly if the library reports a range error for that element, so that the result depends neither on the threads nor on what happened before. For the other functions, an element that is evaluated is marked exactly if the last error that its thread has seen, in this operation or before it, is a range error: if only range errors are reported, exactly if there is one for this element or for one that the same thread did before. So elements without an error are marked because of others, the same call can have different results, and an error of some other function before the call marks all elements up to the next error. In all cases no-data and values outside of the domain are marked, the computed values are stored, and nothing is undefined.", "quantifier": "All functions and libraries, arrays of one and two dimensions, no-data and domain policies, numbers of threads, orders in which a pool does the blocks, and values of errno before.", "why_tests_cant": "The policy is not tested at all; one element at a time always looks right.", "anchors": ["algorithm/policy/detect_out_of_range_by_errno.h:17-38", "algorithm/algebra/elementary/detail/pow.h:30-40", "algorithm/algebra/elementary/detail/tgamma.h:28-37", "algorithm/core/unary_local_operation.h:73-324"]}
{"id": "C131", "title": "Types of expressions made of the library's own operations", "statement": "A script of assignments and expressions that uses the operations of the language itself is accepted exactly if it is well-typed in a type system over its text, and otherwise it is refused without failure: names and constants have their types, absolute values keep the type of a number, conversion to int32 gives that type, sums have the type of the argument that is highest on a fixed ladder of number types and are fields if one of the arguments is, reading gives a field of numbers whatever is read, and writing takes numbers and two constant strings and has no type, so that it can be neither assigned nor passed on. The order in which types of arguments are handed to the rules has no influence, for any types. Afterwards names have the types that the type system gives them. A script that uses any other operation, in particular any operator but the binary plus, is refused. A script without sums and conversions that is accepted is executed up to its end, if reading, writing and absolute values succeed with results as declared, and leaves one value of the right type for each expression that is neither assigned nor a writing. But a sum has no result when it is executed: an accepted script that starts with the assignment of a sum of numbers fails, and after an expression the name is given the value of that expression instead of the sum.", "quantifier": "All scripts, states of the interpreter, data sources and expressions of any depth; for the rules all sets of data types and value types.", "why_tests_cant": "Tests check the type of single operations for some types of arguments, not of nested expressions and not whether what is accepted can be executed.", "anchors": ["language/operation/std/operations.cc:33-47", "language/operation/std/abs.cc:78-104", "language/operation/std/add.cc:18-65", "language/operation/std/int32.cc:18-45", "language/operation/std/read.cc:64-96", "language/operation/std/write.cc:60-79", "language/operation/core/operation.cc:99-111", "language/operation/core/expression_type_calculation.cc:17-216"]}
{"id": "C132", "title": "Arrays of different sizes are never combined", "statement": "With assertions enabled, an operation on arrays only does anything if their sizes fit, so that no element outside of an array is ever read or written because a smaller array was passed: clamping by arrays, covering, uniting, intersecting and merging no-data, choosing by conditions, gradients, slopes, Laplacians, Lax's scheme, and convolution on several threads only have an outcome if all extents of the rasters are the same; compressing and copying if the result is as large as the values, and decompressing if it is at least as large. This holds for all execution policies. The one exception is the sequential choice between two scalars by a 1D array of conditions: it demands one condition, whatever the size of the result.", "quantifier": "All arrays, extents, no-data policies, numbers of threads and schedules.", "why_tests_cant": "Failing assertions end a test program, so tests only pass arrays that fit, and a missing assertion shows in none of them.", "anchors": [["source/fern/algorithm/core/detail/clamp.h", "source/fern/algorithm/core/detail/cover.h", "source/fern/algorithm/core/detail/if.h", "source/fern/algorithm/core/compress.h", "source/fern/algorithm/core/decompress.h", "source/fern/algorithm/core/detail/copy.h", "source/fern/algorithm/algebra/vector/detail/gradient.h:364-533", "source/fern/algorithm/convolution/detail/convolve.h:2045-2049"]]}
