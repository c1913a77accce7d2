{"id": "C01", "title": "UTF-8 decoder yields every scalar value from its standard encoding", "statement": "Starting from a utf8_decoder that holds a code point (or is fresh), feeding the standard UTF-8 encoding of any Unicode scalar value c makes has_code_point() true exactly after the last byte, needs_more_input() true after every earlier byte, error() false throughout, and code_point() equal to c at the end.", "quantifier": "every Unicode scalar value, every prior decoder history that ended on a complete code point", "why_tests_cant": "1,112,064 scalar values times unbounded prior histories; the decoder is table driven so one wrong table entry only shows up on a few of them", "anchors": ["include/muu/utf8_decoder.h: utf8_decoder::operator()"]}
{"id": "C02", "title": "UTF-8 decoder accepts only well-formed sequences", "statement": "If a fresh utf8_decoder is fed any byte sequence and ends with no error and no more input needed, then that byte sequence is a concatenation of standard UTF-8 encodings of scalar values (no overlong forms, no surrogates, nothing above U+10FFFF) and code_point() is the last of them. Once an error is reported it stays reported until clear_error().", "quantifier": "every finite byte sequence", "why_tests_cant": "the set of ill-formed sequences is infinite; tests only sample overlongs and surrogates", "anchors": ["include/muu/utf8_decoder.h: utf8_decoder"]}
{"id": "C03", "title": "UTF-16 decoder yields every scalar value from its standard encoding", "statement": "Feeding the standard UTF-16 encoding of a scalar value to a fresh utf16_decoder yields that scalar value, with needs_more_input() true after a leading surrogate; and a lone trailing surrogate is an error.", "quantifier": "every Unicode scalar value", "why_tests_cant": "1,112,064 values; all supplementary planes take a different path from the BMP", "anchors": ["include/muu/utf16_decoder.h: utf16_decoder::operator()"]}
{"id": "C04", "title": "utf_decode of well-formed UTF-8 visits exactly its code points", "statement": "For a string that is the UTF-8 encoding of a list of scalar values, optionally preceded by a byte order mark, utf_decode calls the callback once per scalar value, in order, with the value, the index of its first code unit and its number of code units; the mark itself is not reported.", "quantifier": "every list of scalar values", "why_tests_cant": "unbounded strings; index bookkeeping depends on all previous code points", "anchors": ["include/muu/utf_decode.h: utf_decode", "include/muu/utf8_decoder.h"]}
{"id": "C05", "title": "utf_decode of arbitrary bytes stays in bounds and never repeats or reorders code units", "statement": "For every byte string, well-formed or not, the code unit ranges reported by a forward utf_decode are non-empty, lie within the string, are in increasing order and do not overlap; consecutive ranges are adjacent; and the only code units that are not reported are a leading byte order mark and at most three bytes of a truncated sequence at the very end.", "quantifier": "every byte string", "why_tests_cant": "error recovery paths depend on where in a sequence the error appears; there are infinitely many malformed strings", "anchors": ["include/muu/utf_decode.h: utf_decode"]}
{"id": "C06", "title": "Reverse utf_decode of well-formed UTF-8 is the exact reverse of the forward one", "statement": "On a string that is the UTF-8 encoding of a list of scalar values, decoding in reverse reports the same (code point, first unit, unit count) triples as forward decoding, in the opposite order.", "quantifier": "every list of scalar values", "why_tests_cant": "unbounded strings; the reverse scan re-groups units by looking for boundaries", "anchors": ["include/muu/utf_decode.h: utf_decode(reverse)"]}
{"id": "C07", "title": "A utf_decode callback can stop the traversal", "statement": "With a callback that returns something convertible to bool, the callback is invoked on a prefix of the sequence of reports the traversal would otherwise make: up to and including the first one for which it returns false, and never again after that; on malformed input too.", "quantifier": "every byte string, every callback, both directions", "why_tests_cant": "a missed stop check on an error path would only be seen with a malformed string and a callback stopping in the middle of it", "anchors": ["include/muu/utf_decode.h: utf_decode (stop)"]}
{"id": "C08", "title": "BOM-less native-endian UTF-16/UTF-32 text is decoded as native-endian", "statement": "Any string of char16_t or char32_t in native byte order without a byte order mark is decoded without swapping bytes.", "quantifier": "every native-endian string of 16- or 32-bit code units that does not start with a byte order mark", "why_tests_cant": "the decision depends on a statistical count over the first 16 units; whole scripts fall on the wrong side of it", "anchors": ["include/muu/utf_decode.h: utf_decode, detect_platform_endian"]}
{"id": "C09", "title": "UTF-8 encoder is the standard encoding and inverse to the decoder", "statement": "For every scalar value the code units produced when transcoding to UTF-8 are the standard UTF-8 encoding, decoding them gives the value back, and different scalar values give different encodings, none a prefix of another.", "quantifier": "every Unicode scalar value", "why_tests_cant": "over a million values, four ranges with off-by-one prone borders", "anchors": ["include/muu/strings.h: utf8_code_point", "include/muu/utf8_decoder.h"]}
{"id": "C10", "title": "UTF-16 encoder is the standard encoding", "statement": "For every scalar value the code units produced when transcoding to UTF-16 are the standard UTF-16 encoding (one unit below U+10000, a surrogate pair above) and the value can be computed back from them.", "quantifier": "every Unicode scalar value", "why_tests_cant": "over a million values; surrogate arithmetic", "anchors": ["include/muu/strings.h: utf16_code_point"]}
{"id": "C11", "title": "Transcoding UTF-8 to UTF-32 and back is the identity", "statement": "Converting a well-formed UTF-8 string (not starting with a byte order mark) to UTF-32 yields exactly its scalar values, and converting these back to UTF-8 yields the original string.", "quantifier": "every well-formed UTF-8 string not starting with a byte order mark", "why_tests_cant": "unbounded strings over all scalar values including U+0000", "anchors": ["include/muu/strings.h: utf_transcode, utf8_code_point::view", "include/muu/utf_decode.h"]}
{"id": "C12", "title": "Trimming removes exactly the leading and trailing whitespace", "statement": "trim(s) of a well-formed UTF-8 string is the substring between the first and the last non-whitespace code point, trim_left and trim_right remove only one side, an all-whitespace string gives an empty view, the result never splits a code point, and trim is idempotent.", "quantifier": "every well-formed UTF-8 string", "why_tests_cant": "unbounded strings mixing ASCII and multi-byte whitespace", "anchors": ["include/muu/strings.h: trim, trim_left, trim_right, predicated_trim"]}
{"id": "C13", "title": "is_whitespace is total and is exactly the Unicode White_Space set", "statement": "For every char32_t value is_whitespace terminates without reaching code marked unreachable or violating an assumption given to the optimiser, and is true exactly on the code points with the Unicode White_Space property.", "quantifier": "all 2^32 char32_t values", "why_tests_cant": "implemented by bit tables under MUU_UNREACHABLE/MUU_ASSUME hints; one mis-bucketed value is undefined behaviour", "anchors": ["include/muu/impl/unicode_char32_t.h: is_ascii_whitespace, is_non_ascii_whitespace", "include/muu/chars.h"]}
{"id": "C14", "title": "is_hyphen is total and equals its explicit set", "statement": "For every char32_t value is_hyphen terminates without reaching code marked unreachable and is true exactly on the listed hyphen code points.", "quantifier": "all 2^32 char32_t values", "why_tests_cant": "bucketed decision tree with unreachable default branches", "anchors": ["include/muu/impl/unicode_char32_t.h: is_non_ascii_hyphen"]}
{"id": "C15", "title": "Digit predicates and hex conversion agree", "statement": "is_hexadecimal_digit(c) is true exactly for 0-9, A-F, a-f; is_decimal_digit and is_octal_digit exactly for their ranges; for every hexadecimal digit hex_to_dec gives its value below 16, and dec_to_hex followed by hex_to_dec is the identity on 0..15; byte_to_hex followed by hex_to_dec of both digits restores the byte.", "quantifier": "all code unit values and all bytes", "why_tests_cant": "covers all inputs of a bit-trick implementation, including ones far outside ASCII", "anchors": ["include/muu/impl/unicode_char32_t.h: is_hexadecimal_digit", "include/muu/chars.h: hex_to_dec, dec_to_hex, byte_to_hex"]}
{"id": "C16", "title": "Leading/trailing zero/one counts are exact", "statement": "countl_zero, countl_one, countr_zero and countr_one return the length of the maximal run of equal bits at the respective end, and the full bit width when all bits are equal.", "quantifier": "every value of every unsigned width (8, 16, 32, 64, 128)", "why_tests_cant": "2^128 inputs; binary-search implementations", "anchors": ["include/muu/countl.h", "include/muu/countr.h"]}
{"id": "C17", "title": "popcount is exact", "statement": "popcount(x) is the number of set bits of x.", "quantifier": "every value of every unsigned width (8, 16, 32, 64, 128)", "why_tests_cant": "SWAR magic constants; 2^64 inputs per width", "anchors": ["include/muu/popcount.h"]}
{"id": "C18", "title": "bit_floor, bit_ceil, bit_width and has_single_bit are exact powers of two", "statement": "bit_floor(x) is the largest power of two not above x (0 for 0); bit_ceil(x) is the smallest power of two not below x (1 for 0) whenever one is representable; bit_width(x) is 1+floor(log2 x) (0 for 0); has_single_bit(x) iff x is a power of two.", "quantifier": "every value of every unsigned width", "why_tests_cant": "2^64 inputs per width; overflow only at the top of the range", "anchors": ["include/muu/bit_floor.h", "include/muu/bit_ceil.h", "include/muu/bit.h: bit_width", "include/muu/has_single_bit.h"]}
{"id": "C19", "title": "byte_reverse mirrors the byte order", "statement": "byte i of byte_reverse(x) is byte n-1-i of x, hence byte_reverse(byte_reverse(x)) == x.", "quantifier": "every value of 16, 32, 64 and 128 bit integers", "why_tests_cant": "2^64 inputs per width; naive shift/mask fallback", "anchors": ["include/muu/byte_reverse.h"]}
{"id": "C20", "title": "bit_pack, byte_select and swizzle are mutually consistent", "statement": "Packing values left to right with bit_pack and extracting them again returns the same values; byte_select<i> extracts byte i of the memory representation; swizzle packs the selected bytes in order; signed inputs are not sign-extended into their neighbours.", "quantifier": "every number and width of packed integers, every value", "why_tests_cant": "unbounded parameter packs and 2^64 values", "anchors": ["include/muu/bit_pack.h", "include/muu/bit.h: byte_select, swizzle"]}
{"id": "C21", "title": "byte_select with a run-time index returns 0 when the index is out of range", "statement": "byte_select(x, i) is byte i of x when i < sizeof(x) and 0 for every other index, with no undefined behaviour.", "quantifier": "every value and every size_t index", "why_tests_cant": "the failing index is exactly one past the end", "anchors": ["include/muu/bit.h: byte_select(T, size_t)"]}
{"id": "C22", "title": "bit_fill_left/right set exactly the requested bits", "statement": "bit_fill_right<T>(n) has exactly its min(n, width) low bits set and bit_fill_left<T>(n) exactly its min(n, width) high bits, for every n including values far above the width, without an out-of-range shift.", "quantifier": "every count and every integer width", "why_tests_cant": "shift-by-width undefined behaviour only at specific counts", "anchors": ["include/muu/bit_fill.h"]}
{"id": "C23", "title": "apply_alignment rounds up to the next multiple", "statement": "For a power of two A, apply_alignment<A>(x) is the smallest multiple of A not below x whenever that is representable; it is idempotent and monotone there.", "quantifier": "every value and every power-of-two alignment", "why_tests_cant": "2^64 values per alignment; wrap at the top of the range", "anchors": ["include/muu/apply_alignment.h", "include/muu/aligned_alloc.h"]}
{"id": "C24", "title": "SHA-1 equals FIPS 180-4", "statement": "sha1 fed any byte sequence and finished produces the FIPS 180-4 SHA-1 digest of that sequence.", "quantifier": "every byte sequence shorter than 2^38 bytes", "why_tests_cant": "unbounded messages; padding boundaries at 55/56/63/64 bytes of the last block", "anchors": ["include/muu/hashing.h: sha1", "src/hashing.cpp"]}
{"id": "C25", "title": "SHA-1 digest is independent of how the input is chunked", "statement": "Feeding a message to sha1 as any sequence of chunks, single bytes and empty views gives the same digest as feeding it in one call.", "quantifier": "every message and every way of cutting it into pieces", "why_tests_cant": "exponentially many partitions of unbounded messages", "anchors": ["include/muu/hashing.h: sha1", "src/hashing.cpp"]}
{"id": "C26", "title": "A finished SHA-1 is immutable", "statement": "After finish(), further input and further finish() calls change nothing observable: finished() stays true and value() keeps returning the same digest.", "quantifier": "every sequence of operations after finish()", "why_tests_cant": "unbounded call sequences", "anchors": ["include/muu/hashing.h: sha1", "src/hashing.cpp"]}
{"id": "C27", "title": "FNV-1a is a fold over the bytes", "statement": "fnv1a fed any sequence of chunks yields the standard FNV-1a fold (offset basis, xor, multiply by the FNV prime modulo 2^bits) over the concatenated bytes, for 32, 64 and 128 bits; hence it is independent of chunking.", "quantifier": "every byte sequence and every chunking", "why_tests_cant": "unbounded inputs; 128-bit multiplication by two 64-bit halves on some platforms", "anchors": ["include/muu/hashing.h: fnv1a", "include/muu/impl/hash_combiner.h"]}
{"id": "C28", "title": "FNV-1a separates strings that differ in one byte", "statement": "Two byte strings of equal length which differ in exactly one position have different FNV-1a hashes.", "quantifier": "every pair of equal-length strings at Hamming distance one", "why_tests_cant": "injectivity over unbounded inputs cannot be sampled", "anchors": ["include/muu/hashing.h: fnv1a"]}
{"id": "C29", "title": "Combining hashes never discards the newest hash", "statement": "For any previous state of hash_combiner, combining two different hash values leads to two different states, and for any state there is a hash value leading to any wanted state.", "quantifier": "every state and every pair of hash values, at 16, 32, 64 and 128 bits", "why_tests_cant": "a bijectivity statement over 2^64 x 2^64 pairs", "anchors": ["include/muu/impl/hash_combiner.h", "include/muu/hashing.h"]}
{"id": "C30", "title": "uuid text round-trips", "statement": "Printing a uuid yields 36 characters in 8-4-4-4-12 form with upper-case hex digits, and uuid::parse of that text (also with braces, with lower-case digits, without hyphens, or surrounded by whitespace) returns the same uuid.", "quantifier": "all 2^128 uuids", "why_tests_cant": "2^128 values", "anchors": ["src/uuid.cpp", "include/muu/uuid.h"]}
{"id": "C31", "title": "uuid::parse accepts exactly its grammar and never a wrong value", "statement": "If uuid::parse accepts a string then the string contains exactly 32 hex digits, every other character in it is whitespace, a hyphen between octets or one matching pair of braces around them, and the result's bytes are those digits in order; everything else is rejected.", "quantifier": "every string", "why_tests_cant": "unbounded strings; a hand-written state machine", "anchors": ["src/uuid.cpp: uuid_parser", "include/muu/uuid.h: parse"]}
{"id": "C32", "title": "uuid field constructor and getters are inverse", "statement": "A uuid built from (time_low, time_mid, time_high_and_version, clock_seq..., node) returns the same fields from its getters (with node truncated to its low 48 bits), and two uuids with equal fields are equal.", "quantifier": "all field values", "why_tests_cant": "2^128 values; mixed-endian byte shuffles", "anchors": ["include/muu/uuid.h"]}
{"id": "C33", "title": "uuid comparison is a total order consistent with equality and 128-bit integers", "statement": "==, !=, <, <=, >, >= on uuids agree with each other, form a total order that is the lexicographic order of the bytes, and constructing from and converting to a 128-bit integer are inverse.", "quantifier": "all pairs and triples of uuids", "why_tests_cant": "2^256 pairs", "anchors": ["include/muu/uuid.h", "src/uuid.cpp"]}
{"id": "C34", "title": "Generated uuids carry the right version and variant", "statement": "uuid::generate() always reports version 4 (random) and the standard variant; uuid(namespace, name) always reports version 5 (named, SHA-1) and the standard variant, and depends only on the namespace bytes and the name bytes.", "quantifier": "every output of the random source, every namespace and name", "why_tests_cant": "universal over random source outputs and unbounded names", "anchors": ["src/uuid.cpp: generate, generate_named", "include/muu/uuid.h: version, variant"]}
{"id": "C35", "title": "Every task runs at most once and is destroyed exactly once", "statement": "In every interleaving of callers and workers, a task given to thread_pool::enqueue is executed at most once, never after it was destroyed, and is destroyed exactly once by the time the pool is destroyed; a task is never lost or duplicated by the queues.", "quantifier": "every interleaving of enqueues, workers and destruction, any number of tasks, workers and queues", "why_tests_cant": "unbounded schedules", "anchors": ["src/thread_pool.cpp", "include/muu/thread_pool.h"]}
{"id": "C36", "title": "thread_pool::wait returns only when the work is done", "statement": "When wait() returns, there was a moment during the call at which every task enqueued so far had finished executing (or been discarded by pool destruction).", "quantifier": "every interleaving, any number of tasks and workers", "why_tests_cant": "unbounded schedules; depends on publishing the count before a task is visible", "anchors": ["src/thread_pool.cpp: thread_pool_monitor, wait"]}
{"id": "C37", "title": "Each worker queue is a bounded FIFO", "statement": "A worker queue never holds more tasks than its capacity, hands out tasks in the order they were put in, and blocks or refuses instead of overwriting an unconsumed task; this continues to hold when the internal indices wrap around the ring any number of times.", "quantifier": "every sequence of pushes and pops, every capacity", "why_tests_cant": "unbounded histories", "anchors": ["src/thread_pool.cpp: thread_pool_queue"]}
{"id": "C38", "title": "for_each over an index range calls the task exactly once per index", "statement": "thread_pool::for_each(start, end, task) calls task exactly once for every index in the half-open range (in the documented direction for end < start) and for no other index, for any number of workers.", "quantifier": "every start and end value of every integer type, every worker count", "why_tests_cant": "the failing inputs are only at the extremes of the integer type", "anchors": ["include/muu/thread_pool.h: for_each", "src/thread_pool.cpp"]}
{"id": "C39", "title": "for_each over a container covers each element exactly once", "statement": "thread_pool::for_each(begin, end, task) splits the elements into consecutive disjoint batches which cover the range in order, one per worker at most, whose sizes differ by at most one.", "quantifier": "every element count and every worker count", "why_tests_cant": "unbounded counts", "anchors": ["include/muu/thread_pool.h: for_each, batch_size_generator"]}
{"id": "C40", "title": "Pool sizing is within its limits", "statement": "For every requested worker count, hardware concurrency and task queue size, the pool has between 1 and 1024 workers, each queue holds at least one task whenever the request allows, and total queue memory stays within 256 MB.", "quantifier": "all size_t arguments", "why_tests_cant": "all 2^192 combinations of arguments", "anchors": ["src/thread_pool.cpp: calc_thread_pool_workers, calc_thread_pool_worker_queue_size"]}
{"id": "C41", "title": "Destroying a pool runs no new task after its workers stop and discards the rest", "statement": "When a thread_pool is destroyed, every task still queued after the workers exit is destroyed without being run, the tasks being executed complete first, and waiters are released.", "quantifier": "every state of the queues at destruction", "why_tests_cant": "unbounded schedules", "anchors": ["src/thread_pool.cpp: ~thread_pool"]}
{"id": "C42", "title": "spin_mutex guarantees mutual exclusion", "statement": "In every interleaving of lock, try_lock and unlock calls by any number of threads which unlock only what they hold, at most one thread holds a spin_mutex at a time, try_lock succeeds only if nobody holds it, and a free mutex can always be acquired.", "quantifier": "every interleaving, any number of threads", "why_tests_cant": "unbounded schedules", "anchors": ["include/muu/spin_mutex.h"]}
{"id": "C43", "title": "blob keeps its bytes across every operation", "statement": "After any sequence of construct, copy, move, assign, resize and swap on blobs, each blob's size and first min(size, old size) bytes are what a plain byte vector would hold; data() is aligned as requested; and no operation reads or frees released memory.", "quantifier": "every history of operations, all sizes and alignments, including self-assignment", "why_tests_cant": "unbounded histories; the memory error needs a specific size/alignment growth history before self-assignment", "anchors": ["include/muu/blob.h"]}
{"id": "C44", "title": "emplacement_array constructs and destroys each element exactly once", "statement": "In every history of emplace_back, pop_back, clear, move and destruction, each element is constructed before use and destroyed exactly once, size never exceeds capacity, and elements are destroyed in reverse order of construction.", "quantifier": "every history of operations", "why_tests_cant": "unbounded histories", "anchors": ["include/muu/emplacement_array.h"]}
{"id": "C45", "title": "accumulator tracks min, max and sum of all samples", "statement": "After adding any sequence of samples the accumulator reports their number, sum, minimum and maximum (0 values when empty); adding one accumulator to another is equivalent to adding all of its samples.", "quantifier": "every sequence of samples, every split into accumulators", "why_tests_cant": "unbounded histories", "anchors": ["include/muu/accumulator.h"]}
{"id": "C46", "title": "integral_range implements half-open interval arithmetic", "statement": "contains, intersects, union and size of integral_range agree with the set of integers {x | start <= x < end}.", "quantifier": "all pairs of ranges over every integer type", "why_tests_cant": "2^256 pairs; empty ranges are special", "anchors": ["include/muu/integral_range.h"]}
{"id": "C47", "title": "span views never leave their underlying array", "statement": "Every subspan, first and last taken within the documented preconditions refers to exactly the expected elements of the original array and nothing else, for any nesting.", "quantifier": "every chain of subviews", "why_tests_cant": "unbounded nesting", "anchors": ["include/muu/span.h"]}
{"id": "C48", "title": "static_array reports emptiness and ordering consistently", "statement": "empty() is true exactly when size() is zero, and == and < agree with element-wise equality and lexicographic order.", "quantifier": "all arrays of all sizes", "why_tests_cant": "universal over element values and sizes", "anchors": ["include/muu/static_array.h"]}
{"id": "C49", "title": "static_string/fixed_string substrings and concatenation are exact", "statement": "Concatenating strings then taking the substring at the seam returns the operands; negative and out-of-range indices are clamped as documented; every result is null-terminated.", "quantifier": "all strings, all index pairs including extremes of the index type", "why_tests_cant": "unbounded strings and all 2^64 indices", "anchors": ["include/muu/fixed_string.h"]}
{"id": "C50", "title": "fixed_string comparison is the lexicographic total order", "statement": "compare(a,b) is negative, zero or positive as a is lexicographically before, equal to or after b; == agrees with compare; in particular every string equals itself.", "quantifier": "all pairs of strings, including an object compared with itself", "why_tests_cant": "the violation needs both operands to be the same object", "anchors": ["include/muu/fixed_string.h: compare"]}
{"id": "C51", "title": "tagged_ptr stores pointer and tag independently", "statement": "For every suitably aligned pointer and every tag accepted by can_store_tag, setting the one and then the other in any order leaves both readable unchanged; setting or clearing one never changes the other; a null pointer tests false whatever the tag.", "quantifier": "every aligned pointer, every storable tag of every integral type (signed included), every history of operations", "why_tests_cant": "2^64 bit patterns times tag types", "anchors": ["include/muu/tagged_ptr.h"]}
{"id": "C52", "title": "half converts to float exactly and back", "statement": "Converting a half to float yields the exact binary16 value and converting it back yields the same bits (NaN stays NaN); converting a float to half yields a nearest half or infinity.", "quantifier": "all 65536 halves, all 2^32 floats", "why_tests_cant": "conversions by bit manipulation with many boundary cases", "anchors": ["include/muu/half.h"]}
{"id": "C53", "title": "half sign operations are bitwise exact", "statement": "Negation flips only the sign, abs clears it (leaving NaN), negation is an involution, and the classification functions (is NaN, infinite, zero) agree with binary16.", "quantifier": "all 65536 halves", "why_tests_cant": "complete domain", "anchors": ["include/muu/half.h"]}
{"id": "C54", "title": "scope_guard runs its callable exactly once under exactly its condition", "statement": "A scope_guard runs its callable exactly once when its scope ends unless dismissed; scope_fail only when the scope is left by a new exception, scope_success only when it is not, at any exception nesting depth; a dismissed guard never runs it.", "quantifier": "every nesting of uncaught exceptions, every dismissal sequence", "why_tests_cant": "unbounded nesting of exceptions", "anchors": ["include/muu/scope_guard.h"]}
{"id": "C55", "title": "between, clamp, min and max compare mathematically", "statement": "min/max of any number of arguments return the least/greatest one, clamp returns the nearest value in [lo, hi], and between(v, lo, hi) is true exactly when lo <= v <= hi as mathematical integers.", "quantifier": "all argument values and counts, mixed signedness", "why_tests_cant": "unbounded argument packs, mixed integer types", "anchors": ["include/muu/impl/core_utils.h: min, max, clamp, between"]}
{"id": "C56", "title": "evenly_distribute splits a total fairly and completely", "statement": "The shares of all buckets sum to the total, differ by at most one, and never increase with the bucket index.", "quantifier": "every total and every positive bucket count", "why_tests_cant": "unbounded totals and bucket counts", "anchors": ["include/muu/math.h: evenly_distribute"]}
{"id": "C57", "title": "gcd and lcm of any number of arguments are correct", "statement": "gcd(args...) divides every argument and is divisible by every common divisor; lcm(args...) is a multiple of every argument and divides every common multiple (while representable).", "quantifier": "all argument lists", "why_tests_cant": "unbounded argument packs", "anchors": ["include/muu/math.h: gcd, lcm"]}
{"id": "C58", "title": "string_param keeps its text through conversion, copy and move", "statement": "A string_param holding a non-empty well-formed text reports the same text after any sequence of moves, view requests in different encodings and trims; moving from or trimming an empty one is harmless.", "quantifier": "every history of operations and every text, including empty ones", "why_tests_cant": "unbounded histories; the empty state violates an optimiser assumption", "anchors": ["include/muu/string_param.h", "src/string_param.cpp"]}
{"id": "C59", "title": "packed unit vector integer codes round-trip", "statement": "The integer coordinate pair stored by packing a unit vector is recovered exactly by unpacking for every reachable pair, and the sign bits are independent of it.", "quantifier": "every reachable coordinate pair, every supported bit width", "why_tests_cant": "2^26 pairs per width, edge on the folding diagonal", "anchors": ["include/muu/packed_unit_vector.h"]}
{"id": "C60", "title": "is_letter is total and is exactly the Unicode letter categories", "statement": "For every char32_t and char16_t value is_letter is defined and true exactly on the code points of general category Lu, Ll, Lt, Lm or Lo (Unicode 15.0).", "quantifier": "all 2^32 char32_t and all 2^16 char16_t values", "why_tests_cant": "657 ranges packed into bit tables behind MUU_ASSUME/MUU_UNREACHABLE hints; any wrong bit or bucket is one wrong input in 2^32", "anchors": ["include/muu/impl/unicode_char32_t.h: is_ascii_letter, is_non_ascii_letter, is_letter", "include/muu/impl/unicode_char16_t.h"]}
{"id": "C61", "title": "is_number is total and is exactly the Unicode number categories Nd and Nl", "statement": "For every char32_t and char16_t value is_number is defined and true exactly on the code points of general category Nd or Nl (Unicode 15.0).", "quantifier": "all 2^32 char32_t and all 2^16 char16_t values", "why_tests_cant": "bit tables behind MUU_ASSUME/MUU_UNREACHABLE hints over 2^32 inputs", "anchors": ["include/muu/impl/unicode_char32_t.h: is_ascii_number, is_non_ascii_number, is_number", "include/muu/impl/unicode_char16_t.h"]}
{"id": "C62", "title": "is_combining_mark is total and is exactly the Unicode mark categories Mn and Mc", "statement": "For every char32_t and char16_t value is_combining_mark is defined and true exactly on the code points of general category Mn or Mc (Unicode 15.0).", "quantifier": "all 2^32 char32_t and all 2^16 char16_t values", "why_tests_cant": "nested bit tables behind MUU_ASSUME/MUU_UNREACHABLE hints over 2^32 inputs", "anchors": ["include/muu/impl/unicode_char32_t.h: is_combining_mark", "include/muu/impl/unicode_char16_t.h: is_combining_mark"]}
{"id": "C63", "title": "is_lowercase is total and is exactly the Unicode Lowercase property", "statement": "For every char32_t value is_lowercase is defined and true exactly on the code points with the Unicode 15.0 Lowercase property.", "quantifier": "all 2^32 char32_t values (and all char16_t values)", "why_tests_cant": "hundreds of ranges in bit tables; whole planes may be missing without any test noticing", "anchors": ["include/muu/impl/unicode_char32_t.h: is_ascii_lowercase, is_non_ascii_lowercase, is_lowercase"]}
{"id": "C64", "title": "is_uppercase is total and is exactly the Unicode Uppercase property", "statement": "For every char32_t value is_uppercase is defined and true exactly on the code points with the Unicode 15.0 Uppercase property.", "quantifier": "all 2^32 char32_t values (and all char16_t values)", "why_tests_cant": "hundreds of ranges in bit tables behind unreachable default branches", "anchors": ["include/muu/impl/unicode_char32_t.h: is_ascii_uppercase, is_non_ascii_uppercase, is_uppercase"]}
{"id": "C65", "title": "8-bit code unit predicates agree with the code point predicates on ASCII and reject everything else", "statement": "For every char/char8_t/unsigned char value the predicates is_whitespace, is_hyphen, is_letter, is_number, is_lowercase, is_uppercase are defined, true exactly when the value is below 0x80 and the code point has the property, and the is_not_ variants are their negations.", "quantifier": "all 2^8 code unit values, six predicates and their negations", "why_tests_cant": "quantifies over all inputs of twelve functions and relates three separately generated headers", "anchors": ["include/muu/impl/unicode_unsigned_char.h", "include/muu/impl/unicode_char8_t.h", "include/muu/impl/unicode_char.h"]}
{"id": "C66", "title": "aligned_alloc asks the C library for a valid alignment and a size that covers the request", "statement": "For every non-zero size and power-of-two alignment, aligned_alloc forwards a power-of-two alignment no smaller than the one asked for (and at least 16) and a size that is the smallest multiple of that alignment not below the requested size; a request that cannot be rounded up is refused rather than shrunk.", "quantifier": "all 2^64 sizes and all 64 power-of-two alignments", "why_tests_cant": "the wrap-around happens only for sizes within one alignment of the end of the address space, which no test can allocate", "anchors": ["include/muu/aligned_alloc.h: aligned_alloc"]}
{"id": "C67", "title": "SHA-1 is right for every message length FIPS 180-4 allows", "statement": "sha1 produces the FIPS 180-4 digest (in particular pads with the true message length) for messages of up to 2^61 - 1 bytes.", "quantifier": "every message shorter than 2^61 bytes, beyond the 2^38 bytes of C24", "why_tests_cant": "the smallest failing input is 256 GiB long", "anchors": ["src/hashing.cpp: sha1::finish, sha1::add", "include/muu/hashing.h: sha1::processed_blocks"]}
{"id": "C68", "title": "Hashing a wide string is hashing its UTF-8 encoding; hashes print as hex digits", "statement": "Feeding a UTF-16, UTF-32 or wide string of scalar values to fnv1a or sha1 has the same effect as feeding the bytes of its UTF-8 encoding, including U+0000 and at any point of a longer input, so the hash of a text does not depend on the string type; writing a hash to a stream writes its bytes, most significant first, as two lower-case hex digits each.", "quantifier": "every string of scalar values, every previous input", "why_tests_cant": "infinitely many strings; failures depend on the byte patterns of the first 16 characters", "anchors": ["include/muu/hashing.h: add_to_hasher_as_utf8, fnv1a::operator(), sha1::operator(), operator<<"]}
{"id": "C69", "title": "No lost wake-up in thread_pool::wait()", "statement": "A thread blocked in wait() while no enqueued task is outstanding is always about to be woken: some worker has the notification as its next step, and after that step the waiting thread re-examines the count instead of sleeping on.", "quantifier": "every schedule of any number of workers and calling threads", "why_tests_cant": "a lost wake-up needs one particular interleaving of the last decrement with the test-and-sleep of the waiter", "anchors": ["src/thread_pool.cpp: thread_pool_monitor::wait, increment, decrement"]}
{"id": "C70", "title": "A thread pool can always finish its work", "statement": "From every state a live thread pool can reach there is a continuation in which no new call is made, every pending call returns, every queued task is run and every wait() returns: no reachable state is a deadlock.", "quantifier": "every schedule up to the state, any number of workers, callers and queued tasks", "why_tests_cant": "deadlock freedom is a statement about all reachable states; tests only see the ones their schedules visit", "anchors": ["src/thread_pool.cpp: thread_pool_impl::lock, lock_multiple, unlock, thread_pool_worker, thread_pool_monitor"]}
{"id": "C71", "title": "Destruction of a thread pool can always complete", "statement": "Once the destructor of a thread pool has started, from every state reached there is a continuation in which it completes: workers notice termination and exit, the joins return, the queues are emptied.", "quantifier": "every schedule up to and during destruction, any number of workers and queued tasks", "why_tests_cant": "a hang in the destructor depends on where each worker was when it started", "anchors": ["src/thread_pool.cpp: thread_pool_impl::~thread_pool_impl, thread_pool_queue::terminate, ~thread_pool_queue, thread_pool_worker::terminate, join"]}
{"id": "C72", "title": "Iterating over an integral_range visits exactly its elements", "statement": "A loop over an integral_range visits each of its values once, in increasing order, without overflow; moving an iterator by an offset reaches the value that far away, and the difference of two iterators is the difference of their values, whenever these are representable.", "quantifier": "every range, iterator and offset over every integer type of at most 64 bits", "why_tests_cant": "failures are at the ends of the 64-bit types, where a loop cannot go", "anchors": ["include/muu/integral_range.h: integral_range_iterator, integral_range::begin, end"]}
{"id": "C73", "title": "Constructing or converting a span never drops const or volatile", "statement": "A span over elements of type To can be built from a source of elements of type From only if To has at least the const and volatile qualifiers of From.", "quantifier": "every pair of const/volatile qualifications and every way of building a span", "why_tests_cant": "a missing rejection is a program that compiles although it must not; a test suite cannot contain programs that do not compile", "anchors": ["include/muu/span.h: is_qualifier_compatible, span constructors"]}
{"id": "C74", "title": "Comparing halves orders them by value", "statement": "The comparison operators of half agree with the mathematical order of the numbers represented, including subnormals, infinities and signed zeros (equal); a NaN compares unordered with everything.", "quantifier": "all pairs of 2^16 bit patterns", "why_tests_cant": "2^32 pairs; the failures would be at subnormals, where the conversion to float loops", "anchors": ["include/muu/half.h: comparison operators, u16_to_f32_naive"]}
{"id": "C75", "title": "Matrix products are the products of linear algebra", "statement": "The product of an R x C matrix and a C x C2 matrix is the R x C2 matrix of row-by-column sums; multiplying by a column or row vector is the product with the one-column or one-row matrix. The product is associative, applying a product to a vector is applying the factors in turn, and the identity matrix is neutral.", "quantifier": "all matrix sizes and all entries, in exact arithmetic", "why_tests_cant": "the matrices have any size and the entries are arbitrary; swapped indices agree on symmetric or diagonal samples", "anchors": ["include/muu/matrix.h: operator *, raw_multiply_mat, raw_multiply_vec, make_identity"]}
{"id": "C76", "title": "Scalars given to a matrix constructor fill it row by row; transposition swaps rows and columns", "statement": "A matrix built from R*C scalars has the scalar number r*C+c in row r and column c, whichever constructor is selected; transposing it exchanges the two indices and doing so twice gives the matrix back.", "quantifier": "all sizes and all scalars", "why_tests_cant": "the constructors for common sizes are written out by hand; one transposed pair goes unnoticed in a symmetric sample", "anchors": ["include/muu/matrix.h: matrix constructors, transpose"]}
{"id": "C77", "title": "determinant is the determinant", "statement": "For square matrices of up to four rows, determinant returns the determinant (Leibniz formula), and so is multiplicative.", "quantifier": "all matrices of 1x1 to 4x4, in exact arithmetic", "why_tests_cant": "the 4x4 expansion has twenty-four products; a wrong sign can cancel in samples with zeros", "anchors": ["include/muu/matrix.h: determinant, raw_determinant"]}
{"id": "C78", "title": "invert inverts every invertible matrix", "statement": "If the determinant of a square matrix of up to four rows is not zero, invert returns the matrix whose product with it on either side is the identity; so it solves linear equations.", "quantifier": "all invertible matrices of 1x1 to 4x4, in exact arithmetic", "why_tests_cant": "the 4x4 inverse has sixteen hand-expanded cofactors of six products; samples with zeros miss wrong ones", "anchors": ["include/muu/matrix.h: invert"]}
{"id": "C79", "title": "dot, length and distance are those of Euclidean space", "statement": "dot is the sum of component products; distance is a metric whose square is the sum of squared differences; length is the distance from the origin.", "quantifier": "all dimensions, all vectors, in exact arithmetic", "why_tests_cant": "metric laws quantify over all triples of points of any dimension; special cases for one dimension are separate code", "anchors": ["include/muu/vector.h: dot, length, length_squared, distance, distance_squared"]}
{"id": "C80", "title": "normalize gives the unit vector in the same direction; normalized recognises it", "statement": "Normalizing a non-zero vector gives a vector of length one of which the original is a positive multiple; the variant with an output parameter reports the original length; direction is the normalized difference; normalized accepts exactly the vectors of length one (within the tolerance).", "quantifier": "all dimensions, all non-zero vectors, in exact arithmetic", "why_tests_cant": "quantifies over all vectors of all dimensions; integral and one-dimensional overloads are separate code", "anchors": ["include/muu/vector.h: normalize, normalized, direction, raw_normalize"]}
{"id": "C81", "title": "cross and orthogonal give perpendicular vectors, right-handed", "statement": "The inner product of any u with cross(v,w) is the determinant of (u,v,w), so the product is perpendicular to both factors, antisymmetric and right-handed; the overloads for principal axes agree with it; orthogonal of a non-zero vector is non-zero and perpendicular to it.", "quantifier": "all vectors in three dimensions, in exact arithmetic", "why_tests_cant": "quantifies over all vectors; orthogonal branches on the largest component, with ties", "anchors": ["include/muu/vector.h: cross, orthogonal"]}
{"id": "C82", "title": "min, max, clamp, lerp and angle of vectors", "statement": "min and max of a non-empty collection are component-wise the smallest and largest; clamp gives the nearest point of the box; lerp moves along the segment from start to finish; angle lies in [0, pi], is symmetric, and its cosine times the lengths is the inner product.", "quantifier": "all dimensions, vectors, collections and parameters, in exact arithmetic", "why_tests_cant": "collections of any length in any dimension; the angle involves inverse trigonometric functions at the ends of their domain", "anchors": ["include/muu/vector.h: min, max, clamp, lerp, angle"]}
{"id": "C83", "title": "Scale and translation matrices and the transform functions act as affine maps", "statement": "transform_position applies the 3x3 part and adds the translation column (dividing by the homogeneous coordinate for 4x4 matrices), transform_without_translating applies the 3x3 part only, transform_direction does so keeping the vector's length. Transforming by a product is transforming by its right factor and then by its left one. Scale matrices multiply the components, translation matrices add to them, and the scale extracted from a rotation times a scale is that scale's absolute value.", "quantifier": "all matrices, vectors, scales and offsets, in exact arithmetic", "why_tests_cant": "quantifies over all matrices and points; errors in one entry vanish in samples with zeros, and the homogeneous divisor is 1 for affine samples", "anchors": ["include/muu/matrix.h: transform_position, transform_direction, transform_without_translating, from_3d_scale, from_3d_translation, from_2d_scale, from_2d_translation, extract_3d_scale"]}
{"id": "C84", "title": "orthonormalize makes the rotation part orthonormal and keeps its orientation", "statement": "If the 3x3 part of a matrix is invertible, orthonormalize replaces it by the orthogonal factor of its QR decomposition: the columns become orthonormal, each spans with its predecessors what it spanned before and keeps its side, so the sign of the determinant is kept; the remaining entries are untouched. A matrix that is already orthonormal is unchanged, and orthonormalized accepts exactly the matrices whose columns are orthonormal within the tolerances. Constructors taking a rotation matrix of another size copy its rotation part and complete it as the identity.", "quantifier": "all matrices of supported sizes with invertible 3x3 part, in exact arithmetic", "why_tests_cant": "a Gram-Schmidt step using the wrong column is invisible on nearly orthogonal samples", "anchors": ["include/muu/matrix.h: orthonormalize, orthonormalized, from_3d_rotation, from_2d_rotation, column_normalize, subtract_dot_mult"]}
{"id": "C85", "title": "from_3d_direction is a rotation taking forward to the given direction", "statement": "For every unit vector d, from_3d_direction(d) is a proper rotation that takes the forward axis (0,0,-1) to d, also for directions straight up and down; so are the rotation constants, with their named directions.", "quantifier": "all unit vectors, in exact arithmetic", "why_tests_cant": "quantifies over the sphere; there are separate branches near the poles", "anchors": ["include/muu/matrix.h: from_3d_direction, constants right/up/backward/left/down"]}
{"id": "C86", "title": "perspective_projection maps the view frustum onto the clip volume", "statement": "For each API convention and handedness, a point in front of the viewer lies in the view frustum exactly when its projection lies in the clip volume; the near plane goes to the smallest depth, the far plane to the largest and depth grows with distance. The overload taking a screen size agrees with the one taking an aspect ratio.", "quantifier": "all fields of view in (0, pi), aspect ratios, clipping planes and points, in exact arithmetic", "why_tests_cant": "the equivalence ranges over all points and parameters; the conventions differ in single signs", "anchors": ["include/muu/matrix.h: perspective_projection, projection_flags"]}
{"id": "C87", "title": "Quaternion products are Hamilton's and rotate vectors", "statement": "Quaternion multiplication, conjugation, inner product and the identity are those of Hamilton's quaternions; normalize divides a non-zero quaternion by its length. Multiplying a vector by a unit quaternion conjugates it, so it rotates; rotating by a product is rotating by the right factor and then by the left one, the conjugate undoes a rotation, and the matrix made from a unit quaternion is the proper rotation that acts the same way.", "quantifier": "all quaternions (unit ones for rotations) and all vectors, in exact arithmetic", "why_tests_cant": "quantifies over all quaternions; a sign error in the cross term is invisible when the factors share an axis", "anchors": ["include/muu/quaternion.h: operator *, multiply, rotate_vector, conjugate, dot, normalize, normalized", "include/muu/matrix.h: from_quaternion"]}
{"id": "C88", "title": "Axis-angle conversion: Rodrigues' rotation, and back", "statement": "from_axis_angle of a unit axis gives a unit quaternion (and a matrix) that turns every vector about the axis by the angle, counter-clockwise. to_axis_angle of a unit quaternion gives a unit axis and an angle in [0, 2 pi] that convert back to exactly that quaternion; with shortest_path the angle is in [0, pi] and they convert back to it or its opposite, the same rotation.", "quantifier": "all unit axes and angles, all unit quaternions, all vectors, in exact arithmetic", "why_tests_cant": "quantifies over the sphere and all angles, including the half-turns and full turns where the formulas branch", "anchors": ["include/muu/quaternion.h: from_axis_angle, to_axis_angle", "include/muu/matrix.h: from_axis_angle"]}
{"id": "C89", "title": "Euler angles: yaw, then pitch and roll about the local axes", "statement": "from_euler turns by the yaw about the up axis (positive to the right), then by the pitch about the local right axis (positive raises the nose), then by the roll about the local forward axis (positive lowers the right wing); the matrix constructor does the same.", "quantifier": "all angles and all vectors, in exact arithmetic", "why_tests_cant": "the order of composition only shows when several angles are non-zero", "anchors": ["include/muu/euler_angles.h: euler_angles", "include/muu/quaternion.h: from_euler", "include/muu/matrix.h: from_euler"]}
{"id": "C90", "title": "Euler angles extracted from a rotation reproduce it", "statement": "Converting a unit quaternion with to_euler and back with from_euler gives the same rotation (the quaternion or its opposite), with a pitch between -90° and 90°.", "quantifier": "all unit quaternions, in exact arithmetic", "why_tests_cant": "quantifies over the three-sphere; the gimbal-lock branches are a thin set samples miss", "anchors": ["include/muu/quaternion.h: to_euler, from_euler"]}
{"id": "C91", "title": "Quaternions made from rotation matrices", "statement": "The quaternion made from a proper rotation matrix (of 3x3, or the upper-left part of 3x4 and 4x4) is a unit quaternion rotating every vector as the matrix does; converting a unit quaternion to a matrix and back gives the same rotation.", "quantifier": "all rotation matrices, unit quaternions and vectors, in exact arithmetic", "why_tests_cant": "four branches selected by comparisons of diagonal entries, each valid only on part of the rotations", "anchors": ["include/muu/impl/quaternion_x_matrix.h: quat_from_rotation_matrix", "include/muu/quaternion.h: from_rotation"]}
{"id": "C92", "title": "from_rotation(from, to) rotates one direction onto the other", "statement": "For any two non-zero vectors, the result is a unit quaternion rotating the first vector's direction onto the second's, also for opposite directions.", "quantifier": "all pairs of non-zero vectors, in exact arithmetic", "why_tests_cant": "quantifies over all pairs of vectors; unit vectors and parallel vectors hide a wrong normalization", "anchors": ["include/muu/quaternion.h: from_rotation"]}
{"id": "C93", "title": "Multiples of rotations and spherical interpolation", "statement": "Multiplying a unit quaternion by a scalar multiplies the angle of its shortest rotation, so exponents add. slerp starts at the first quaternion and ends at the second (up to sign), takes the shorter arc, moves at constant angular speed, always gives unit quaternions, and interpolating backwards gives the same rotations.", "quantifier": "all unit quaternions, factors and blend factors, in exact arithmetic", "why_tests_cant": "quantifies over all pairs and blend factors, with a separate branch for close rotations", "anchors": ["include/muu/quaternion.h: slerp, operator *(quaternion, scalar)"]}
{"id": "C94", "title": "Planes: construction, nearest points, sides, transformation", "statement": "A plane made of a position and a direction is the set of points perpendicular to the direction at the position; made of three points not on one line it has a unit normal and contains them. For a unit normal, project gives the nearest point of the plane (also for both ends of a segment), distance the distance to it, signed_distance how far to walk along the normal from there, origin the point nearest to zero, contains whether some point of the plane is nearer than epsilon. normalize keeps the plane and makes the normal a unit vector. same_side of any number of points tells whether they are all on the positive side or all on the other. transform gives the image of the plane under the matrix.", "quantifier": "all planes, points, point lists and affine transforms, in exact arithmetic", "why_tests_cant": "quantifies over all planes and all competitors for the nearest point", "anchors": ["include/muu/plane.h: plane, from_triangle, normalize, signed_distance, distance, project, origin, same_side, contains, transform", "include/muu/impl/geometry_common.h: planes_common", "include/muu/impl/plane_x_line_segment.h: project", "include/muu/impl/plane_x_triangle.h"]}
{"id": "C95", "title": "Plane and line segment intersect exactly when they share a point", "statement": "intersects(plane, segment) is true exactly when the segment has a point on the plane.", "quantifier": "all planes and segments, in exact arithmetic", "why_tests_cant": "an inverted comparison passes every test whose segment has an end on the plane", "anchors": ["include/muu/plane.h: intersects", "include/muu/line_segment.h: intersects", "include/muu/impl/geometry_common.h: planes_common::intersects_line_segment", "include/muu/impl/plane_x_line_segment.h"]}
{"id": "C96", "title": "Line segments: closest point, containment, collinearity, coplanarity, extension", "statement": "closest_point is the nearest point of the segment; contains of a point, of a range and of a segment hold exactly when every one of the points has a point of the segment within squared distance epsilon (never for an empty range); colinear the same for the infinite line; coplanar of two segments holds exactly when the fourth end is within epsilon of the plane of the other three; extend keeps the start and moves the end by the given amount along the direction; midpoint and length are what they say.", "quantifier": "all segments, points and ranges, in exact arithmetic", "why_tests_cant": "quantifies over all points of the segment as competitors for the nearest one", "anchors": ["include/muu/line_segment.h: closest_point, contains, colinear, coplanar, extend, midpoint, length", "include/muu/impl/geometry_common.h: lines_common, line_segments_common"]}
{"id": "C97", "title": "Triangles: normal, area, barycentric weights, containment", "statement": "For corners not on one line: normal is the unit vector perpendicular to the triangle from whose side the corners are counter-clockwise; area and perimeter are the geometric ones; barycentric gives weights that sum to one and combine the corners to the point of the plane nearest to the argument, none of them negative exactly inside the triangle; contains is true for exactly the points in the triangle, up to epsilon from its plane. degenerate tells whether the corners are on one line.", "quantifier": "all triangles and points, in exact arithmetic", "why_tests_cant": "quantifies over all triangles; the wrong answers for contains lie on a line of measure zero", "anchors": ["include/muu/triangle.h: normal, area, perimeter, centroid, degenerate, barycentric, contains", "include/muu/impl/geometry_common.h: triangles_common, barycentric_generator"]}
{"id": "C98", "title": "Bounding boxes: construction, transformation, containment, nearest point", "statement": "A box from two corners is the set of points between them; from points (two or more, or a range), from a sphere, by appending points, segments, triangles or boxes, and by transforming with an affine matrix, it is the smallest axis-aligned box around the given set. Corners, sides, diagonal, shortest and longest side and volume are the geometric ones, degenerate tells whether a side vanishes. translate and scale move and stretch the set of points. closest_point is the nearest point of the box; contains of a point, a range, a segment or a triangle is true exactly when all of its points are in the box (never for an empty range).", "quantifier": "all boxes with non-negative extents, points, lists of points and affine transforms, in exact arithmetic", "why_tests_cant": "smallest means smaller than every other box around the set", "anchors": ["include/muu/bounding_box.h: from_min_max, from_points, corner, min_corner, max_corner, translate, scale, transform, append, closest_point, contains", "include/muu/impl/geometry_common.h: aabbs_common, boxes_common, corner_offset", "include/muu/impl/bounding_box_x_bounding_sphere.h: from_sphere", "include/muu/impl/bounding_box_x_line_segment.h", "include/muu/impl/bounding_box_x_triangle.h: append"]}
{"id": "C99", "title": "Boxes against boxes, planes and spheres", "statement": "intersects of a box with a box, a plane or a sphere is true exactly when the two share a point. contains of a box by a box, of a sphere by a box, and of a box by a sphere is true exactly when every point of the one is a point of the other.", "quantifier": "all boxes with non-negative extents, planes, and spheres with non-negative radius, in exact arithmetic", "why_tests_cant": "quantifies over all pairs of shapes and all their points", "anchors": ["include/muu/bounding_box.h: intersects, contains", "include/muu/impl/bounding_box_x_plane.h", "include/muu/impl/bounding_box_x_bounding_sphere.h", "include/muu/impl/geometry_common.h: intersects_aabb_min_max, contains_aabb_min_max, intersects_sphere_min_max_radsq, furthest_center_min_max"]}
{"id": "C100", "title": "Boxes against line segments", "statement": "intersects of a box with a line segment is true exactly when they share a point, including segments parallel to faces, touching, inside the box, or of zero length.", "quantifier": "all boxes with non-negative extents and all segments, in exact arithmetic", "why_tests_cant": "the six separating axes must suffice for every position", "anchors": ["include/muu/bounding_box.h: intersects(start, end)", "include/muu/impl/bounding_box_x_line_segment.h"]}
{"id": "C101", "title": "Boxes against triangles", "statement": "intersects of a box with a triangle is true exactly when they share a point.", "quantifier": "all boxes with non-negative extents and all triangles, in exact arithmetic", "why_tests_cant": "the thirteen separating axes must suffice for every position", "anchors": ["include/muu/bounding_box.h: intersects(p0, p1, p2)", "include/muu/impl/geometry_common.h: intersects_tri_akenine_moller_1, intersects_tri_akenine_moller_2, intersects_tri_akenine_moller_3, intersects_tri_min_max", "include/muu/sat_tester.h", "include/muu/impl/bounding_box_x_triangle.h"]}
{"id": "C102", "title": "Bounding spheres: measures, movement, nearest point, containment", "statement": "A sphere is the set of points at most its radius from its centre. diameter is the largest distance between two of its points and volume is its Lebesgue measure. translate and scale move and stretch that set. contains of a point, a range, a segment or a triangle is true exactly when all of its points are in the sphere (never for an empty range). closest_point is the nearest point of the sphere. contains and intersects of two spheres are true exactly when one set includes the other or the two share a point.", "quantifier": "all spheres with non-negative radius, all points and lists of points, in exact arithmetic", "why_tests_cant": "quantifies over all spheres and all their points", "anchors": ["include/muu/bounding_sphere.h: diameter, volume, translate, scale, closest_point, contains, intersects", "include/muu/impl/bounding_sphere_x_line_segment.h", "include/muu/impl/bounding_sphere_x_triangle.h: contains"]}
{"id": "C103", "title": "Bounding spheres against triangles", "statement": "intersects of a sphere with a triangle is true exactly when they share a point.", "quantifier": "all spheres with non-negative radius and all triangles, in exact arithmetic", "why_tests_cant": "the seven separation tests must suffice for every position", "anchors": ["include/muu/bounding_sphere.h: intersects(p0, p1, p2)", "include/muu/impl/bounding_sphere_x_triangle.h"]}
{"id": "C104", "title": "Oriented bounding boxes: corners, volume, movement", "statement": "An oriented box is the set of points centre + sum t_i axis_i with |t_i| at most the half-side along axis i. The named corners are the eight sign choices and the box is their convex hull; volume is its Lebesgue measure; translate and scale move and stretch that set; transform by an affine matrix gives the image of the box, and the result is again a box that answers queries about that image.", "quantifier": "all oriented boxes with non-negative half-sides and orthonormal axes, all offsets, scales and affine matrices, in exact arithmetic", "why_tests_cant": "quantifies over all boxes and all their points", "anchors": ["include/muu/oriented_bounding_box.h: corner, min_corner, max_corner, volume, translate, scale, transform"]}
{"id": "C105", "title": "Oriented bounding boxes: queries against points, segments, triangles, spheres and axis-aligned boxes", "statement": "contains of a point, a range, a segment or a triangle is true exactly when all of its points are in the box (never for an empty range); closest_point is the nearest point of the box; intersects of a box with a sphere or a triangle is true exactly when they share a point; an axis-aligned box contains an oriented one exactly when the set is included, and the axis-aligned box built from an oriented box is the smallest one around it.", "quantifier": "all oriented boxes with non-negative half-sides and orthonormal axes, all points, lists of points, triangles, spheres with non-negative radius and axis-aligned boxes, in exact arithmetic", "why_tests_cant": "quantifies over all boxes and all points of continuous shapes", "anchors": ["include/muu/oriented_bounding_box.h: contains, closest_point, intersects", "include/muu/impl/oriented_bounding_box_x_line_segment.h", "include/muu/impl/oriented_bounding_box_x_triangle.h", "include/muu/impl/oriented_bounding_box_x_bounding_sphere.h", "include/muu/impl/bounding_box_x_oriented_bounding_box.h"]}
{"id": "C106", "title": "Oriented bounding boxes against boxes: intersection tests", "statement": "intersects of two oriented boxes, or of an axis-aligned box with an oriented box, is true exactly when they share a point.", "quantifier": "all pairs of boxes with non-negative half-sides and orthonormal axes, in exact arithmetic", "why_tests_cant": "the tested directions must suffice for every pair of positions", "anchors": ["include/muu/oriented_bounding_box.h: intersects", "include/muu/impl/bounding_box_x_oriented_bounding_box.h: intersects", "include/muu/impl/geometry_common.h: sat_tester"]}
{"id": "C107", "title": "Rays: positions, classification, hits of planes and triangles", "statement": "at(t) is origin + t * direction and bounce starts there. infinity_or_nan is true exactly when some scalar of the ray is infinite or NaN. hits of a plane or a triangle gives no distance exactly when the ray has no point in it, and otherwise the distance of such a point, never negative.", "quantifier": "all rays, planes and triangles, in exact arithmetic, for every value of epsilon", "why_tests_cant": "quantifies over all positions of continuous shapes", "anchors": ["include/muu/ray.h: at, bounce, infinity_or_nan, hits", "include/muu/impl/geometry_common.h: rays_common::hits_plane, hits_triangle", "include/muu/impl/ray_x_plane.h", "include/muu/impl/ray_x_triangle.h"]}
{"id": "C108", "title": "Rays: hits of spheres and boxes", "statement": "hits of a sphere (with a unit direction) or an axis-aligned box gives no distance exactly when the ray has no point in it; otherwise the distance at which the line enters it, or at which it leaves it when it entered before the origin.", "quantifier": "all rays with a non-zero direction (unit direction for spheres), all spheres with non-negative radius, all boxes with non-negative half-sides, in exact arithmetic with infinities and NaN for divisions by zero, for every epsilon and every sign of the zeros in the direction", "why_tests_cant": "quantifies over all positions of continuous shapes, including divisions by zero", "anchors": ["include/muu/ray.h: hits", "include/muu/impl/geometry_common.h: rays_common::hits_sphere, hits_aabb_min_max, hits_aabb", "include/muu/impl/ray_x_bounding_sphere.h", "include/muu/impl/ray_x_bounding_box.h"]}
{"id": "C109", "title": "Type lists: slices and selection at any length", "statement": "slice<Start, Length> of a type list is the Length types from Start on, compiles when there are that many, and is empty from past the end; slice<Start> is the rest; select<Index> is the type at that position and compiles exactly when there is one.", "quantifier": "all lists of any length below 2^64, all starts and lengths, every page size the header accepts, with or without jumbo pages and the compiler builtin", "why_tests_cant": "the paging has many branches that depend on the length modulo the page sizes; tests use short lists only", "anchors": ["include/muu/type_list.h: select, slice, MUU_TYPE_LIST_PAGE_SIZE"]}
{"id": "C110", "title": "Type lists: flatten, remove, index_of, contains, append, prepend", "statement": "flatten removes the inner brackets and nothing else; remove keeps exactly the other types in order; index_of is the first position and compiles only when there is one (on lists that are not empty); contains is membership; append and prepend put the new types after and before.", "quantifier": "all type lists of any length and nesting", "why_tests_cant": "quantifies over nested lists of any depth", "anchors": ["include/muu/type_list.h: flatten, remove, index_of, contains, append, prepend"]}
{"id": "C111", "title": "Largest, smallest, most and least aligned type", "statement": "largest, smallest, most_aligned and least_aligned name the first type of the pack with the extreme size or alignment; total_size, any_same, all_same and type_at_index are the sum, the comparisons with the first type and the selection.", "quantifier": "all packs of types and all sizes and alignments", "why_tests_cant": "quantifies over packs of any length", "anchors": ["include/muu/meta.h: largest, smallest, most_aligned, least_aligned, total_size, any_same, all_same, type_at_index"]}
{"id": "C112", "title": "A function view calls what it was made from", "statement": "A view made from a callable that is still there calls it, with the same result and effects as a direct call; operator bool is false exactly for null views, and a view that is true can be called.", "quantifier": "all function objects, functions and lambdas, and all programs that create, copy, assign, rebind, call and destroy views and function objects in between", "why_tests_cant": "quantifies over all histories of the view, the callable and other objects", "anchors": ["include/muu/function_view.h: function_view, operator(), operator bool"]}
{"id": "C113", "title": "Copies of function views are independent", "statement": "However a view is copied, moved or assigned, the copy calls what the original called at that time, whatever becomes of the original.", "quantifier": "all programs that create, copy, assign, rebind, call and destroy views and function objects", "why_tests_cant": "quantifies over all histories of the original after the copy", "anchors": ["include/muu/function_view.h: function_view copy constructor, assignment, forwarding constructor"]}
{"id": "C114", "title": "for_sequence and for_product", "statement": "for_sequence<N> calls the function for 0, ..., N - 1 in order, once each, until a call throws; for_product<N1, N2> does the same for all pairs in row-major order; negative counts do not compile.", "quantifier": "all counts, all functions with any effects, including those that throw", "why_tests_cant": "quantifies over all counts and all functions", "anchors": ["include/muu/for_sequence.h: for_sequence, for_product"]}
{"id": "C115", "title": "Compressed pairs exist for every two types", "statement": "compressed_pair compiles for every two types and holds each of its elements exactly once, without storage exactly when the element is empty and not final.", "quantifier": "all pairs of types", "why_tests_cant": "quantifies over all types", "anchors": ["include/muu/compressed_pair.h: compressed_pair"]}
{"id": "C116", "title": "floor and ceil in constant expressions", "statement": "In constant expressions, muu::floor gives the greatest integer that is not above its argument and muu::ceil the least that is not below.", "quantifier": "all finite arguments", "why_tests_cant": "a continuum of values; tests use a handful", "anchors": ["include/muu/math.h: floor, ceil"]}
{"id": "C117", "title": "Square roots in constant expressions", "statement": "In constant expressions, muu::sqrt gives the square root up to a small relative error, zero and one exactly, and does not compile for negative arguments.", "quantifier": "all arguments, for float and double", "why_tests_cant": "Newton's iteration is cut off after a fixed number of steps; whether that suffices depends on the size of the argument", "anchors": ["include/muu/math.h: sqrt"]}
{"id": "C118", "title": "cos and sin in constant expressions", "statement": "In constant expressions, muu::cos and muu::sin differ from the cosine and sine by at most 10^-200, for every angle whose number of turns fits the widest integer type, and are exact at zero.", "quantifier": "all angles up to 2^63 turns", "why_tests_cant": "the Taylor series and the reduction of the angle have to be right for every angle", "anchors": ["include/muu/math.h: cos, sin"]}
{"id": "C119", "title": "tan in constant expressions", "statement": "In constant expressions, muu::tan has a relative error of at most 10^-368 wherever the tangent is defined, and does not compile where the tangent is undefined.", "quantifier": "all angles up to 2^63 half turns", "why_tests_cant": "the tangent has poles, near which errors grow", "anchors": ["include/muu/math.h: tan"]}
{"id": "C120", "title": "asin and acos in constant expressions", "statement": "In constant expressions, muu::asin and muu::acos differ from the inverse functions by at most 2^-98 and do not compile outside [-1, 1].", "quantifier": "all arguments, all doubles", "why_tests_cant": "the series converges slowly in the middle; the complement formula must take over at the right point", "anchors": ["include/muu/math.h: asin, acos"]}
{"id": "C121", "title": "atan and atan2 in constant expressions", "statement": "In constant expressions, muu::atan and muu::atan2 differ from the arc tangent and from the angle of the point (x, y) by at most 10^-113.", "quantifier": "all arguments and all points", "why_tests_cant": "four quadrants and both axes, and Euler's series for every ratio", "anchors": ["include/muu/math.h: atan, atan2"]}
{"id": "C122", "title": "Normalizing angles", "statement": "muu::normalize_angle gives the equal angle in [0, 2 pi) and muu::normalize_angle_signed the one in [-pi, pi).", "quantifier": "all angles", "why_tests_cant": "the range has to be kept at every multiple of the turn, also with rounding", "anchors": ["include/muu/math.h: normalize_angle, normalize_angle_signed"]}
{"id": "C123", "title": "infinity_or_nan decides by the exponent", "statement": "muu::infinity_or_nan is true of exactly those values whose encoding is an infinity or a NaN of the type's format.", "quantifier": "all bit patterns of _Float16, float, double, x87 long double and float128_t", "why_tests_cant": "2^128 bit patterns", "anchors": ["include/muu/math.h: infinity_or_nan"]}
{"id": "C124", "title": "Absolute values of integers", "statement": "muu::abs of an integer is its absolute value.", "quantifier": "all integers of all integer types", "why_tests_cant": "2^64 values, and the one that fails is at the end of the range", "anchors": ["include/muu/math.h: abs"]}
{"id": "C125", "title": "Approximate equality", "statement": "muu::approx_equal(a, b, epsilon) is true only if a and b are less than epsilon apart, is true if they are closer by one part in 2^p, is symmetric and, for positive epsilon, reflexive.", "quantifier": "all values and all epsilons, for any precision p", "why_tests_cant": "all pairs of floats", "anchors": ["include/muu/math.h: approx_equal"]}
{"id": "C126", "title": "Linear interpolation", "statement": "muu::lerp gives exactly start at zero and finish at one, and in between differs from the exact point by at most 4 parts in 2^p of the two terms, however operations are fused.", "quantifier": "all starts, ends and alphas, all precisions, all choices of fused operations", "why_tests_cant": "all triples of floats and all compilers", "anchors": ["include/muu/math.h: lerp"]}
{"id": "C127", "title": "Named constants of the standard floating-point types", "statement": "Every constant of muu::constants<T> for _Float16, float, double and long double is the number with the type's precision that is nearest to the real number it is named after.", "quantifier": "all 119 constants, all formats of T and of long double, compared with every number of the format", "why_tests_cant": "a test compares with a literal that somebody computed; nearest means closer than every other number of the type to a real number such as pi", "anchors": ["include/muu/impl/core_constants.h: floating_point_named_constants"]}
{"id": "C128", "title": "Named constants of float128_t", "statement": "Every constant of muu::constants<float128_t> is the nearest number with 113 significant bits.", "quantifier": "all 119 constants, compared with every number of the format", "why_tests_cant": "see C127", "anchors": ["include/muu/impl/core_constants.h: floating_point_named_constants<float128_t>"]}
{"id": "C129", "title": "Named constants of half", "statement": "Every constant of muu::constants<half> is the nearest half.", "quantifier": "all 119 constants, compared with every number of the format", "why_tests_cant": "see C127", "anchors": ["include/muu/half.h: floating_point_named_constants<half>"]}
{"id": "C130", "title": "Arithmetic of half rounds once", "statement": "On a native 16-bit type, +, -, * and / of muu::half give the exact result rounded once to half, as IEEE 754 demands, although they are computed in float; results that a half can hold are exact, and comparison with an integer is exact.", "quantifier": "all pairs of finite halves, including subnormal ones, underflow and overflow; all integers up to 2^127", "why_tests_cant": "double rounding goes wrong only for rare operands, if at all; 2^32 pairs for each operation", "anchors": ["include/muu/half.h: operator+, operator-, operator*, operator/, HALF_CONVERTING_BINARY_OP"]}
{"id": "C131", "title": "Functions of half", "statement": "muu::lerp for half gives exactly its ends, and muu::atan2(y, x) for half the angle of the point (x, y).", "quantifier": "all finite halves, any error of the float functions", "why_tests_cant": "all pairs of values", "anchors": ["include/muu/half.h: lerp, atan2"]}
{"id": "C132", "title": "Intersection of two triangles", "statement": "triangle::intersects(tri1, tri2) returns true exactly when the two triangles share a point, whether they cross, touch or lie in one plane.", "quantifier": "all pairs of proper triangles", "why_tests_cant": "a continuum of pairs with many cases: sides, touching corners and edges, coplanar, contained", "anchors": ["include/muu/triangle.h: intersects(tri1, tri2)", "include/muu/impl/tri_tri_intersection.h: triangle::intersects"]}
{"id": "C133", "title": "Segment of intersection of two triangles", "statement": "triangle::intersects(tri1, tri2, seg) returns whether the triangles share a point; if they do and are not coplanar, seg is exactly the set of common points.", "quantifier": "all pairs of proper triangles", "why_tests_cant": "a continuum of pairs with many cases", "anchors": ["include/muu/triangle.h: intersects(tri1, tri2, seg)", "include/muu/impl/tri_tri_intersection.h: triangle::intersects"]}
{"id": "C134", "title": "Collision testers", "statement": "A collision_tester built from a box or a sphere gives, for each query, exactly the answer the shape defines: box testers for points, boxes, spheres, triangles and other testers; sphere testers for boxes, spheres and other testers; true exactly when they share a point.", "quantifier": "all valid boxes, spheres with non-negative radius, proper triangles and all forms of the query", "why_tests_cant": "a continuum of shapes; the tester caches corners, squared radii and normals and a stale or mixed-up cache only shows on some inputs", "anchors": ["include/muu/bounding_box.h: bounding_box::collision_tester", "include/muu/bounding_sphere.h: bounding_sphere::collision_tester", "include/muu/triangle.h: triangle::collision_tester"]}
{"id": "C135", "title": "pointer_cast", "statement": "pointer_cast compiles for every promised pair of types using only casts C++ allows, rejects all others, keeps the address between unrelated types, adjusts it between bases and derived classes (null stays null, failed dynamic casts give null), and round-trips pointers through integers and enumerations.", "quantifier": "all source and target types (any nesting of pointers, qualifiers, functions, integers), all class hierarchies, all addresses and integers", "why_tests_cant": "infinitely many pairs of types; a compile-time recursion that might not end or might choose an illegal cast for a pair nobody instantiated", "anchors": ["include/muu/pointer_cast.h: pointer_cast", "include/muu/meta.h: inherits_from"]}
{"id": "C136", "title": "Printing vectors, matrices and shapes", "statement": "Writing a vector, matrix, quaternion, Euler angles, box, sphere, plane, line segment, ray or triangle to a text stream gives '{ a, b }' (matrices row by row, shapes with inner braces), each number decimal and right-aligned to the stream's width; integers can be read back exactly; the stream's flags, precision and fill are left as they were and its width is reset.", "quantifier": "all element types, sizes, values and states of the stream (width, fill, flags, precision)", "why_tests_cant": "the state of the stream, sizes and values are unbounded", "anchors": ["src/vector_types_common.cpp: print_vector, print_matrix, print_compound_vector", "src/stream_printer.h: stream_printer, stream_saver", "include/muu/vector.h: operator<<", "include/muu/matrix.h: operator<<"]}
{"id": "C137", "title": "Constructing vectors and reaching their components", "statement": "A vector of any number of dimensions built from scalars, one repeated scalar, an array, a pointer and a count, a span, another vector of any size, two concatenated vectors or a vector and further scalars has exactly the components given, in order, cut off or filled up with zeros; every way of reaching a component (by name, by index at run time or compile time, in memory order) reaches the same one, and writing through it changes that one alone.", "quantifier": "all numbers of dimensions, scalar types (conversions as arbitrary functions), components, counts and indices", "why_tests_cant": "dimensions, counts and values are unbounded", "anchors": ["include/muu/impl/vector_base.h: storage_base", "include/muu/vector.h: vector constructors, get, operator[], data, begin, end, COMPONENTWISE_CONSTRUCT, COMPONENTWISE_ASSIGN, COMPONENTWISE_ACCUMULATE"]}
{"id": "C138", "title": "Exact equality of vectors", "statement": "Two vectors or quaternions of any two scalar types are equal with == if and only if all components are the same number; no vector with a NaN equals any, != is the negation, == is symmetric, zero() tells exactly whether all components are zero and infinity_or_nan() whether one is not finite.", "quantifier": "all pairs of scalar types, numbers of dimensions and components, including infinities and NaN", "why_tests_cant": "types, dimensions and values are unbounded", "anchors": ["include/muu/vector.h: operator==, operator!=, zero, infinity_or_nan", "include/muu/quaternion.h: operator==", "include/muu/impl/vector_types_common.h: equality_check_type", "include/muu/meta.h: highest_ranked, promote_if_small_float"]}
{"id": "C139", "title": "Arithmetic of vectors of integers", "statement": "Sums, differences, products, quotients and remainders of integer vectors, negation, sum(), product(), dot(), cross() and shifts give the exact whole number where it is a value of the type and, for unsigned types, the one modulo 2^bits; compound assignment agrees with the operators also when a vector is assigned to from itself.", "quantifier": "all integer types, numbers of dimensions and components", "why_tests_cant": "types, dimensions and values are unbounded; undefined behaviour is not observable in a test", "anchors": ["include/muu/vector.h: operator+, operator-, operator*, operator/, operator%, operator<<, operator>>, sum, product, dot, cross, product_scalar_type", "include/muu/impl/vector_types_common.h: raw_modulo"]}
{"id": "C140", "title": "Names of types", "statement": "type_name<T> is the way T is written in C++ (up to blanks): qualifiers, pointers, references, arrays, functions, and instances of templates with type and integer arguments of any nesting and number, integers in decimal.", "quantifier": "all types built from any named types and templates; all texts of the compiler of the documented form; all integers of all types", "why_tests_cant": "types are unbounded in depth and number of arguments", "anchors": ["include/muu/type_name.h: type_name, type_name_list, type_name_source_string, type_name_remove_prefixes, type_name_int_to_str"]}
{"id": "C141", "title": "Arithmetic of emulated halves", "statement": "Where half is emulated, +, -, *, / and ++/-- give the half nearest to the exact result (at least one of the two nearest, and the exact result if it is a half), with infinities, NaN and signed zeros as in IEEE 754.", "quantifier": "all pairs of the 2^16 bit patterns and all four operators", "why_tests_cant": "2^34 cases, each with double rounding", "anchors": ["include/muu/half.h: operator+, operator-, operator*, operator/, operator++, operator--, f32_to_u16_naive, u16_to_f32_naive"]}
{"id": "C142", "title": "Operators of flag enumerations", "statement": "For an enumeration given the flag operators, | & ^ give the flags of either, both or exactly one operand; ~ the flags not set; the compound assignments change exactly the variable on the left and refer to it; ! tells whether no flag is set; x & ~y removes flags and (x & y) == y tests them.", "quantifier": "all enumerations (fixed integer type of any width and signedness, bool, or not fixed), all their values", "why_tests_cant": "every underlying type and value; the result depends on integer promotion and on the range of the enumeration", "anchors": ["include/muu/preprocessor.h: MUU_MAKE_FLAGS", "include/muu/scope_guard.h: scope_guard_flags"]}
{"id": "C143", "title": "Matrices: construction, access, equality, element-wise integer arithmetic", "statement": "A matrix made from a scalar, from columns or from another matrix has the converted source entries where there are any and zeros elsewhere; get and the call operator name the entry at c*rows+r in memory; assigning an entry changes no other; == holds exactly if all entries are equal, != is its negation, zero and infinity_or_nan look at every entry; + - and unary minus, and * / by a scalar, act on each entry (modulo 2^bits where types wrap), also in compound assignment of a matrix to itself.", "quantifier": "all sizes, all scalar types, all entries; for arithmetic all integer types", "why_tests_cant": "every size and content, and aliasing of the operands of compound assignment", "anchors": ["include/muu/matrix.h: matrix, get, operator(), data, operator==, operator!=, zero, infinity_or_nan, operator+, operator+=, operator-, operator-=, operator*, operator*=, operator/, operator/=", "include/muu/impl/matrix_base.h: storage_base"]}
{"id": "C144", "title": "Matrices of integers: products and determinants", "statement": "The product of integer matrices, of a matrix and a column, and of a row and a matrix has the entries of the exact product (modulo 2^bits where they are not values of the type); determinant gives the exact determinant in a signed type.", "quantifier": "all integer types, all sizes (determinants: up to 4x4) and entries", "why_tests_cant": "overflow of intermediate results depends on all entries", "anchors": ["include/muu/matrix.h: operator*, operator*=, determinant, raw_determinant_2x2, raw_determinant_3x3, raw_determinant_4x4"]}
{"id": "C145", "title": "Shear of rotation and transform matrices", "statement": "has_2d_shear and has_3d_shear are true exactly if the cosine of the angle between two of the matrix's axes is at least a thousandth; a rotation combined with a scaling has no shear.", "quantifier": "all matrices of real entries and all sizes that have the functions", "why_tests_cant": "all matrices, and a threshold", "anchors": ["include/muu/matrix.h: has_2d_shear, has_3d_shear"]}
{"id": "C146", "title": "Creation and ownership of thread pools", "statement": "Constructing a thread_pool either returns a pool with all its threads or throws and leaves nothing behind, whatever the system grants; every pool is destroyed exactly once, when its last owner goes, also under moves and move assignment.", "quantifier": "all pool sizes, all points at which memory or a thread is refused, all interleavings of the threads already started; all programs of constructions, moves, assignments and destructions", "why_tests_cant": "failures to start a thread cannot be provoked, and all schedules and programs", "anchors": ["include/muu/thread_pool.h: thread_pool, operator=, ~thread_pool, workers, capacity", "src/thread_pool.cpp: muu_impl_thread_pool_create, thread_pool_impl, muu_impl_thread_pool_destroy, ~thread_pool_worker"]}
{"id": "C147", "title": "Componentwise arithmetic of vectors of floating-point numbers", "statement": "Adding, subtracting, multiplying and dividing vectors of floating-point numbers, by vectors or by a number, with operators or compound assignments (also of a vector with itself), gives in every component the exact result rounded once, infinities, NaN and signed zeros as in IEEE 754.", "quantifier": "all floating-point formats, dimensions and components, all divisors", "why_tests_cant": "all pairs of floating-point numbers in any number of dimensions", "anchors": ["include/muu/vector.h: operator+, operator-, operator*, operator/, operator+=, operator-=, operator*=, operator/="]}
{"id": "C148", "title": "Error of sums, dot products and squared lengths", "statement": "The sum of a vector's components, the dot product of two vectors and the squared length differ from the exact numbers by no more than the sum of the magnitudes of the terms times (1+u)^k - 1 (k operations on a term, u the unit round-off), plus half the least number per product for underflow, however the compiler contracts products and additions.", "quantifier": "all formats, dimensions and components for which nothing overflows; all contractions of products with additions", "why_tests_cant": "all vectors of any dimension and all choices of a compiler", "anchors": ["include/muu/vector.h: sum, dot, length_squared, COMPONENTWISE_ACCUMULATE"]}
{"id": "C149", "title": "Accumulators of floating-point numbers", "statement": "An accumulator of floating-point numbers that has been given any finite numbers reports how many they were, the least, the greatest, and a sum that differs from the exact sum S by at most u*|S| + (1+u)*((1+u)^(n-1)-1)^2 times the sum of the magnitudes: as if summed in twice the precision and rounded once, unlike plain summation, whose error has no square. Accumulators of halves sum as floats and round the sum to a half.", "quantifier": "all sequences of finite numbers of any format, fewer than 2^64 of them, whose magnitudes add up to less than about half the greatest number", "why_tests_cant": "all sequences of samples of any length; cancellation and rounding depend on all of them", "anchors": ["include/muu/accumulator.h: kahan_accumulator, accumulator::add, sum, min, max"]}
{"id": "C150", "title": "Lengths, distances and normalization with rounding", "statement": "The length of a vector and the distance of two points have a relative error of a few units of round-off per dimension, for all vectors of finite numbers. Normalizing multiplies all components by one number, each product rounded once, whose square is the reciprocal of the squared length up to such an error. What normalize gives, normalized accepts, for vectors of two to four floats or doubles; what normalized accepts has a squared length that differs from one by less than the tolerance (a millionth, a ten-billionth) and rounding errors, and what differs by clearly less is accepted.", "quantifier": "all formats, dimensions and components; all contractions of products with additions by the compiler", "why_tests_cant": "all vectors of floating-point numbers; the tolerance of normalized is only just wide enough in four dimensions", "anchors": ["include/muu/vector.h: length, distance, distance_squared, normalize, normalized"]}
{"id": "C151", "title": "Approximate equality of vectors, matrices, quaternions and shapes", "statement": "approx_equal of vectors, matrices, quaternions and shapes is true only if every two scalars at the same place are finite and differ by less than epsilon, and is true if they do with a margin for the rounding of one subtraction, for one type or two types of different precision in either order. It is symmetric; what is equal is approximately equal. approx_zero is true exactly if all scalars are less than epsilon from zero.", "quantifier": "all dimensions, numbers (also subnormal, infinite, NaN), epsilons and pairs of scalar types, floating-point and, in one vector, integer", "why_tests_cant": "all pairs of floating-point vectors with all roundings; which combinations of types compile is a property of all programs", "anchors": ["include/muu/vector.h: approx_equal, approx_zero", "include/muu/matrix.h: approx_equal, approx_zero", "include/muu/quaternion.h: approx_equal, approx_zero", "include/muu/plane.h, bounding_sphere.h, bounding_box.h, line_segment.h, triangle.h, ray.h, oriented_bounding_box.h: approx_equal, approx_zero", "include/muu/math.h: approx_equal, approx_zero", "include/muu/meta.h: epsilon_type"]}
{"id": "C152", "title": "Swizzles", "statement": "swizzle<Indices...> of a vector is the vector of the components that the indices name, in their order and as often as named, and compiles exactly if there is an index and all are below the number of dimensions. A swizzle of a swizzle is one swizzle; the swizzle of all indices in order is the vector. xy, xz, yx, xyz, xyz1 and xyz0 are the swizzles of their letters, with a one or zero appended.", "quantifier": "all numbers of dimensions, scalars and lists of indices", "why_tests_cant": "all dimensions, also the array storage from five up, and all lists of indices of all lengths", "anchors": ["include/muu/vector.h: swizzle, xy, xz, yx, xyz, xyz1, xyz0"]}
{"id": "C153", "title": "Cross products, orthogonal vectors and interpolation in floating point", "statement": "Each component of the cross product of two vectors has an error of at most ((1+u)^2-1) times the sum of the magnitudes of its two products (and an underflow term), whichever products a compiler contracts; exchanging the vectors changes the signs; the cross product of a vector and itself is zero; with an axis it is exact. orthogonal gives a vector exactly orthogonal, at least sqrt(2/3) as long and not longer. lerp gives exactly its ends, and has an error of at most ((1+u)^3-1) times the sum of the magnitudes of its two terms between.", "quantifier": "all finite vectors without overflow (also subnormal) of any IEEE 754 format that is not promoted, all choices of contraction, all blend factors", "why_tests_cant": "all floating-point vectors and all compilers' choices of fused operations", "anchors": ["include/muu/vector.h: cross, orthogonal, lerp"]}
{"id": "C154", "title": "Products of matrices and vectors, and transformations, in floating point", "statement": "Each entry of the product of two matrices, of a matrix and a column or of a row and a matrix has an error of at most ((1+u)^K-1) times the sum of the magnitudes of its K products (and an underflow term), whichever products a compiler contracts. It is exact where all products and sums of the first products are representable: for integers with K*M*N below 2^p, and for the identity matrix. transform_without_translating and transform_position (with an affine matrix) have the error of sums of three and four products.", "quantifier": "all shapes, all finite matrices and vectors without overflow of any IEEE 754 format that is not promoted, all choices of contraction", "why_tests_cant": "all floating-point matrices of all shapes and all compilers' choices of fused operations", "anchors": ["include/muu/matrix.h: operator*, operator*=, transform_position, transform_without_translating"]}
{"id": "C155", "title": "Quaternions in floating point", "statement": "Each component of the product of two quaternions has an error of at most four roundings relative to the sum of the magnitudes of its four products (and an underflow term), and each component of a rotated vector one of at most six, whichever products a compiler contracts; the exact value is the product of quaternions, and for unit quaternions the conjugation of the vector. The conjugate is exact, and multiplication with the identity and rotation by it change nothing. The dot product has an error of at most four roundings. Normalizing multiplies all components by one number, each product rounded once, whose square is the reciprocal of the squared length up to a few units of round-off; what normalize gives, normalized accepts, and what normalized accepts has a squared length within the tolerance (a millionth or a ten-billionth) and rounding errors of one.", "quantifier": "all finite quaternions and vectors without overflow of any IEEE 754 format that is not promoted (tolerances: float and double), all choices of contraction", "why_tests_cant": "all floating-point quaternions and all compilers' choices of fused operations", "anchors": ["include/muu/quaternion.h: operator*, operator*=, dot, conjugate, normalize, normalized, rotate_vector, constants::identity"]}
{"id": "C156", "title": "Determinants and inverses in floating point", "statement": "The determinant of a square matrix of up to four rows has an error of at most 0, 2, 5 or 9 roundings relative to the sum of the magnitudes of all products of entries (the permanent of the magnitudes), and an underflow term, whichever products a compiler contracts. Where that bound is a fraction θ < 1 of the determinant, each entry of the inverse differs from the exact one by at most the factor (1 + u)^(k + 2) / (1 - θ), relative to the magnitudes in its minor over that of the determinant, where k is the number of roundings of a determinant of one row less. Matrices of integers so small that n! B^n does not exceed 2^p have exact determinants; if that is one or minus one the inverse is exact, and if it is zero no entry of the inverse is finite.", "quantifier": "all sizes from 1 to 4, all matrices of finite numbers of any IEEE 754 format that is not promoted without overflow (integers: float and double), all choices of contraction", "why_tests_cant": "all floating-point matrices and all compilers' choices of fused operations", "anchors": ["include/muu/matrix.h: determinant, invert, raw_determinant_2x2, raw_determinant_3x3, raw_determinant_4x4"]}
{"id": "C157", "title": "Unpacking packed unit vectors", "statement": "Unpacking any bits of a packed unit vector as float or double gives a vector whose components differ from those of the unit vector of the direction that the bits stand for by at most 104 units of round-off, and which is recognized as normalized. Packing a vector that is not zero and unpacking it gives the unit vector of its direction, up to 21 steps of the coordinate grid and those roundings, for the pairs of types and the directions for which packing is correct.", "quantifier": "all integer sizes (8, 16, 32, 64 bits), all bits, float and double, all vectors of floats or doubles that are not zero, all choices of contraction", "why_tests_cant": "all bit patterns and all floating-point directions, with rounding, and all compilers' choices of fused operations", "anchors": ["include/muu/packed_unit_vector.h: packed_unit_vector, unpack, packed_unit_vector_traits::pack_vector, unpack_vector"]}
{"id": "C158", "title": "Ranges of pointers into an array", "statement": "A range of pointers to elements of one array is visited by a loop in order, each element once, without undefined behaviour; contains, size, empty, first and last describe exactly those elements; two such ranges intersect, contain each other or are adjacent exactly if their elements say so, and the union of two that touch has the elements of both; moving an iterator by an offset and back returns to the same element. A range made from its end only is the range from zero, as for integers.", "quantifier": "all arrays of fewer than 2^63 elements, all ranges of their elements, all offsets", "why_tests_cant": "all arrays, all pairs of ranges, all offsets", "anchors": ["include/muu/integral_range.h: integral_range, integral_range_iterator (for pointer types)"]}
{"id": "C159", "title": "Memory visibility in the thread pool", "statement": "There is no data race in the thread pool: of two steps of different threads that touch the same memory of the pool or of a task, one happens before the other. Whatever a thread did before it enqueued a task happens before the task starts; the end of every task enqueued before happens before the return of wait(); everything that happened to tasks happens before the end of the destructor. When wait() has returned, the pool is done with the callables of the tasks it waited for.", "quantifier": "all schedules of any number of callers, workers and tasks (fewer than 2^64), up to and including destruction", "why_tests_cant": "happens-before is about all executions a compiler and processor may produce; a test sees one, on one machine", "anchors": ["src/thread_pool.cpp: thread_pool_monitor, thread_pool_queue, thread_pool_worker, thread_pool_impl", "include/muu/thread_pool.h: enqueue, wait"]}
{"id": "C160", "title": "What the thread pool calls for a task", "statement": "A task given to thread_pool::enqueue is called exactly once, with the index of the worker if it can take one, and as it was when it was enqueued, whatever the caller does with the object passed; a task given to for_each is called for each value of a batch, on an object of the batch's own, with the value and the index of the batch as far as it can take them. Callables the pool keeps are destroyed exactly once, whether they were run or not. A temporary is either kept by value or refused by the compiler.", "quantifier": "all types of callables (by their traits: size, alignment, how they can be copied, moved, destroyed and called), lvalues and rvalues, all values, workers, batches, and all that may happen to the caller's object", "why_tests_cant": "depends on the type of the callable, of which there is no finite list, and on when the caller's object ends relative to the task", "anchors": ["include/muu/thread_pool.h: thread_pool_task, thread_pool_task_store_ok, thread_pool_task_traits_selector, thread_pool_task_traits_stored_callable, thread_pool_task_traits_pointer_to_callable, thread_pool_task_traits_manifestable, batched_task, wrap_batched_task, enqueue, for_each", "src/thread_pool.cpp: pop_front_task"]}
{"id": "C161", "title": "Conversions between half and other arithmetic types", "statement": "An integer or floating-point number of any type becomes the half nearest to it, an integer from -2048 to 2048 exactly; infinities, NaN and signs are kept. A half becomes the integer towards zero if the integer type can hold it, and a wider floating-point number exactly; finite halves convert to integers of 32 bits or more without undefined behaviour.", "quantifier": "all integers and numbers of all types, all 2^16 halves, all ranges of integer types; emulated and native halves", "why_tests_cant": "the sources have up to 128 bits, and the conversion passes through float", "anchors": ["include/muu/half.h: half(type), operator type, operator\"\" _f16, f32_to_u16, u16_to_f32"]}
{"id": "C162", "title": "Literals of integers and sizes", "statement": "A literal with a suffix for an integer type has the number written as its value if the type can hold it, and does not compile otherwise; with a minus before it, it has the opposite value. Literals of kilobytes, megabytes and gigabytes are the number times 1024, 1024^2, 1024^3.", "quantifier": "all numbers below 2^64 and all suffixes", "why_tests_cant": "2^64 literals per suffix", "anchors": ["include/muu/integer_literals.h: operator\"\" _u8 to _u128", "include/muu/size_t_literals.h: operator\"\" _sz, _b, _kb, _mb, _gb"]}
{"id": "C163", "title": "Strong typedefs behave as their values", "statement": "The operators a trait adds to a strong_typedef have the result and the effect of the same operators on its value: comparisons, conversion to bool, negation and hash are those of the value; sums, differences and opposites are strong typedefs of the sum, difference and opposite; ++x and --x change the value by one and x++ and x-- also return the former value; adding to or subtracting from a pointer moves it by the value. A copy of a strong typedef of a reference refers to the same object; a copy of one of a value is independent.", "quantifier": "all integer types and references to them, all values, all states of the memory", "why_tests_cant": "depends on types (narrowing conversions, lifetime of temporaries) as well as on values", "anchors": ["include/muu/strong_typedef.h: strong_typedef, strong_typedef_traits", "include/muu/strong_typedef.h: stypedef_binary_plus, stypedef_post_increment, stypedef_inequality"]}
{"id": "C164", "title": "Elements of compressed pairs", "statement": "A compressed_pair constructed from two values holds each as the element of its place, whichever elements are empty classes; first, second, get and structured bindings agree; writing to one element leaves the other as it is; swap exchanges the elements. The first element is initialised before the second unless only the second takes no storage.", "quantifier": "all pairs of types by emptiness and finality, all values", "why_tests_cant": "quantifies over all types", "anchors": ["include/muu/compressed_pair.h: compressed_pair, compressed_pair_base, get, swap, tuple_element"]}
{"id": "C165", "title": "Iterators of iterable objects", "statement": "begin_iterator and end_iterator exist exactly for iterable types, come from the same place, and for an array span exactly its elements; iterator_distance is the number of elements a loop from one iterator to the other visits, whether or not the iterators can be subtracted.", "quantifier": "all types by what they support, all lengths of arrays, all pairs of iterators of which one is reached from the other", "why_tests_cant": "quantifies over types and lengths", "anchors": ["include/muu/iterators.h: begin_iterator, end_iterator, iterator_distance", "include/muu/meta.h: is_iterable"]}
{"id": "C166", "title": "Bounding boxes with rounding", "statement": "With float or double coordinates, contains(point), contains(box) and intersects(box) never miss: they are true whenever the exact box given by center and extents contains the point or all points of the other box, or shares a point with it. When they are true although this is not so, it is only by the rounding of one subtraction or of the corners. intersects does not depend on the order, contains is transitive, a box contains itself and meets every box that contains it; closest_point of a point of the box is that point. A box made of points or corners contains them.", "quantifier": "all floating-point formats, all boxes and points of finite numbers (order and transitivity: all boxes, with infinities and NaN)", "why_tests_cant": "rounding errors depend on all bits of all coordinates", "anchors": ["include/muu/bounding_box.h: bounding_box, from_min_max, from_points, append, contains, intersects, closest_point", "include/muu/impl/geometry_common.h: boxes_common, aabbs_common"]}
{"id": "C167", "title": "Qualifiers and references of types", "statement": "add_const, remove_const, set_const, copy_const and the same for volatile, cv, ref and cvref change exactly the qualifiers or the reference they name, of a type or of the type that a reference refers to, and keep everything else; arrays are qualified through their elements, functions not at all. is_const, is_volatile, is_cv, is_cvref and any_cv tell what a type has.", "quantifier": "all types built from named types by qualifiers, pointers, arrays, functions and references, all pairs of types", "why_tests_cant": "tests list particular types; types are nested without bound", "anchors": ["include/muu/meta.h: add_const, remove_const, set_const, copy_const, add_volatile, add_cv, copy_ref, copy_cvref, make_cref, remove_cvref, is_const, is_volatile, is_cv, is_cvref, any_cv, remove_lvalue_reference"]}
{"id": "C168", "title": "Traits of numbers and enumerations", "statement": "is_integral, is_signed, is_unsigned, is_integer, is_floating_point, is_arithmetic, is_code_unit, is_enum, is_scoped_enum and is_legacy_enum are true of exactly the types they are named for and of references to these, whatever the qualifiers; remove_enum keeps qualifiers and reference. No type is both signed and unsigned, every integral type is one of the two, floating-point types are signed and not integral.", "quantifier": "all types, all platforms (signedness of char and wchar_t)", "why_tests_cant": "tests list particular types", "anchors": ["include/muu/meta.h: is_integral, is_signed, is_unsigned, is_integer, is_floating_point, is_arithmetic, is_standard_arithmetic, is_extended_arithmetic, is_code_unit, is_enum, is_scoped_enum, is_legacy_enum, remove_enum"]}
{"id": "C169", "title": "Signed and unsigned equivalents", "statement": "make_signed and make_unsigned of an integral type give a type of the same size with the sign asked for and with the same qualifiers and reference; for integers they are inverse to each other. set_signed, copy_signed, set_unsigned and copy_unsigned give the sign asked for or that of the other type. Vectors and matrices are converted by their elements. signed_integer and unsigned_integer have the number of bits asked for.", "quantifier": "all integral types, qualifiers, references and platforms (signedness and size of wchar_t)", "why_tests_cant": "tests list particular types on one platform", "anchors": ["include/muu/meta.h: make_signed, make_unsigned, set_signed, copy_signed, set_unsigned, copy_unsigned, signed_integer, unsigned_integer"]}
{"id": "C170", "title": "Pointers, arrays and functions as types", "statement": "pointer_rank counts the stars of a type and remove_all_pointers removes exactly these. rebase_pointer keeps the qualifiers of the pointed type. add_noexcept and remove_noexcept add and remove noexcept of functions, pointers to functions and to member functions and references to these, and change nothing else. is_array, is_bounded_array, is_unbounded_array, is_function and is_function_pointer tell what a type or a reference is.", "quantifier": "all types, with any number of stars and any qualifiers between them", "why_tests_cant": "types are nested without bound", "anchors": ["include/muu/meta.h: pointer_rank, remove_all_pointers, rebase_pointer, add_noexcept, remove_noexcept, is_array, is_bounded_array, is_unbounded_array, is_function, is_function_pointer"]}
{"id": "C171", "title": "The highest-ranked of some types", "statement": "The element type that is deduced for boxes, spheres, triangles and matrices from arguments of several arithmetic types is the type of a sum of values of all of them, and does not depend on the order of the arguments; of floating-point types it is the largest.", "quantifier": "all lists of standard arithmetic types of any length, in any order, all platforms with 64-bit long", "why_tests_cant": "lists have any length", "anchors": ["include/muu/meta.h: impl::highest_ranked", "include/muu/matrix.h: deduction guides", "include/muu/bounding_box.h: deduction guides"]}
{"id": "C172", "title": "Names of threads", "statement": "set_thread_name(name) makes name the name of the calling thread, as far as the system has names for threads: no memory outside of the name is read, the whole name is used (up to the limit of 255 bytes), and no other bytes.", "quantifier": "all names of any length", "why_tests_cant": "what is read depends on memory that was never written", "anchors": ["src/thread_name.cpp: set_thread_name_os_specific, muu_impl_set_thread_name", "include/muu/thread_name.h: set_thread_name"]}
{"id": "C173", "title": "Source locations", "statement": "source_location::current keeps line, column, file and function; file_name_tail() is what follows the last slash or backslash of the file name, or all of it if there is none. Nothing outside of the string is read.", "quantifier": "all file names of any length", "why_tests_cant": "paths are any text", "anchors": ["include/muu/source_location.h: source_location::current, file_name_tail, impl::sloc_file_name_tail"]}
{"id": "C174", "title": "Bit casts", "statement": "bit_cast<To>(from) is the value of type To with the same bits as from, whether the compiler has an intrinsic for it or not; casting back gives the value that was cast.", "quantifier": "all pairs of trivially copyable types of the same size, all values", "why_tests_cant": "all values of all types", "anchors": ["include/muu/bit_cast.h: bit_cast"]}
{"id": "C175", "title": "Bounding spheres of floating-point numbers", "statement": "For float and double, with every operation rounded: contains(point) is true of every point whose distance to the centre is less than the radius by a few units of round-off (and a few of the least numbers for underflow), and true of no point whose distance is greater than the radius by as much; so are contains of a segment and of a triangle for all of their points, and intersects of an axis-aligned box and a sphere up to the rounding of the corners as well. A range is contained if it is not empty and each point is. The answer does not change if centre and point are exchanged, a larger radius contains what a smaller one contains, the centre is contained, and for integer coordinates whose squares are exact the answer is exact.", "quantifier": "all finite spheres, points, segments, triangles and boxes of any IEEE 754 binary format, and every contraction of products into sums a compiler may choose", "why_tests_cant": "the rounding of nine operations depends on every bit of ten numbers; the error near the surface cannot be sampled", "anchors": ["include/muu/bounding_sphere.h: bounding_sphere::contains", "include/muu/vector.h: distance_squared", "include/muu/impl/geometry_common.h: intersects_sphere", "include/muu/impl/bounding_box_x_bounding_sphere.h: intersects"]}
{"id": "C176", "title": "Macros over arguments, attributes of functions and versions", "statement": "MUU_FOR_EACH applies a macro once to each of up to 125 arguments, in order, once to an empty argument if there are none, and never to only part of more arguments. MUU_COUNT_VA_ARGS is the number of arguments. The lists of calling conventions, const/volatile, reference qualifiers and noexcept, from which the specialisations of add_noexcept, remove_noexcept, remove_callconv, arity and function_view are made, have each combination exactly once on each platform. MUU_MAKE_VERSION orders versions by major, minor and patch.", "quantifier": "all lists of arguments of any length; all combinations of attributes on each platform; all versions with minor and patch below 100", "why_tests_cant": "lists of arguments have any length and content; a missing or repeated combination shows only for a type nobody tested, or on another platform", "anchors": ["include/muu/impl/preprocessor_for_each.h: MUU_FOR_EACH, MUU_COUNT_VA_ARGS", "include/muu/impl/preprocessor_for_each_attributes.h: MUU_FOR_EACH_CVREF_NOEXCEPT, MUU_FOR_EACH_MEMBER_CALLCONV_CVREF_NOEXCEPT", "include/muu/preprocessor.h: MUU_MAKE_VERSION"]}
{"id": "C177", "title": "Under fair scheduling every task runs, every call returns and destruction completes", "statement": "In every execution of a thread pool, of any length and with any interleaving, in which the scheduler is fair (a thread that can go on goes on at some time, tasks return, and a mutex tried again and again while it is released again and again is obtained): every task enqueued in a pool that is not destroyed is run to completion once and then destroyed; every call of enqueue, for_each or wait returns; and the destructor, once begun, completes.", "quantifier": "all infinite executions from the construction of the pool, all numbers of workers, capacities and callers, all fair schedules, fewer than 2^64 tasks in all", "why_tests_cant": "a starved task or a call that never returns shows only in executions that never end; a test stops after some time under one scheduler", "anchors": ["src/thread_pool.cpp: thread_pool_worker, thread_pool_queue, thread_pool_monitor, thread_pool_impl", "include/muu/thread_pool.h: thread_pool::enqueue, thread_pool::for_each, thread_pool::wait, thread_pool::~thread_pool"]}
{"id": "C178", "title": "String parameters: no use after the end, no leak, and views stay readable", "statement": "In every history of sources, string parameters (owning or not), moves, conversions to views and strings, trims and destructions, in which the user frees no source a parameter still refers to: no characters or string objects are used after their end or ended twice; each buffer alive belongs to a live source or to exactly one live parameter, so nothing remains when all have ended; and a view obtained from a parameter reads the same characters for as long as the parameter is only read (and, for a non-owning parameter in its source's character type, as long as the source lives).", "quantifier": "all histories of careful users, all texts of C58, all character types, all short-string sizes", "why_tests_cant": "dangling views and leaks depend on the whole history of who owns what; a test sees freed memory with its old contents and passes", "anchors": ["src/string_param.cpp: initialize, destroy, get_view, move_into_string, string_param::operator=, string_param::~string_param, string_param::trim", "include/muu/string_param.h: string_param"]}
{"id": "C179", "title": "Blobs survive failing allocations", "statement": "In every history of operations on blobs in which any of the requests for memory may fail: no operation is undefined; data() always has size() bytes, or is null for an empty blob; a resize which fails leaves the blob's bytes as they were; and nothing leaks or is released twice.", "quantifier": "all histories, all sizes, alignments and sources, and all choices of the allocations which fail", "why_tests_cant": "allocation failures are rare and their positions in a history arbitrary; a test would have to make each single allocation fail", "anchors": ["include/muu/blob.h: blob::blob, blob::assign, blob::resize, blob::operator=", "include/muu/aligned_alloc.h: aligned_alloc"]}
{"id": "C180", "title": "Emplacement arrays have room for their capacity, or say so", "statement": "In every history of operations on emplacement arrays in which any construction may find no memory: an array which was constructed has room for capacity() elements, for every capacity and element size; adding an element to an array which is not full is defined; every element is made and destroyed once; nothing leaks.", "quantifier": "all histories, capacities, element sizes and alignments, and all choices of the allocations which fail", "why_tests_cant": "allocation failures are rare and their positions arbitrary; an overflowing number of bytes needs a capacity no test can allocate", "anchors": ["include/muu/emplacement_array.h: emplacement_array::emplacement_array, emplacement_array::emplace_back, emplacement_array::release", "include/muu/aligned_alloc.h: aligned_alloc"]}
{"id": "C181", "title": "The moment of compilation is read correctly", "statement": "Compiled at any moment of the years 2021 to 9999, build.h compiles and muu::build::year, month, day, hour, minute and second are the numbers of that moment, leap days, leap seconds and one-digit days included; at no other moment, and with no unknown date or time, are wrong numbers given: the header does not compile.", "quantifier": "all dates of the Gregorian calendar of at most four digits, all times of the day with leap seconds", "why_tests_cant": "a test is compiled at one moment; the other months, days and years are never seen", "anchors": ["include/muu/build.h: build::year, build::month, build::day, build::hour, build::minute, build::second, impl::build_date_month_hash"]}
{"id": "C182", "title": "Planes of floating-point numbers are right up to rounding", "statement": "For a plane and points of float or double, if nothing overflows: signed_distance and distance are off by no more than four roundings relative to the magnitudes of the terms; project is off by six roundings per coordinate and origin by one; contains never accepts a point further off than epsilon plus that error nor rejects one nearer than epsilon minus it; a plane made from a position and a direction contains that position, exactly; same_side tells apart the points on either side of the plane, any number of them; a box with points on both sides intersects the plane, and a box said to intersect has a point within the error; with small integers the distance and the sides are exact.", "quantifier": "all IEEE formats of enough precision, all finite planes, points, boxes and epsilons within range, all choices of contraction by the compiler, lists of points of any length", "why_tests_cant": "rounding depends on every bit of the operands and contraction on the compiler; tests sample a few round values with a wide tolerance", "anchors": ["include/muu/plane.h: plane, plane::signed_distance, plane::distance, plane::project, plane::origin, plane::same_side, plane::contains", "include/muu/impl/geometry_common.h: planes_common", "include/muu/impl/bounding_box_x_plane.h: intersects"]}
{"id": "C183", "title": "Rays of floating-point numbers hit what they reach, up to rounding", "statement": "For rays of float or double: the distance of a hit of a plane is never negative nor NaN, whatever the operands; if nothing overflows, the point at that distance is on the plane up to the error of two dot products and a division, and a ray that starts further from the plane and is more inclined to it than that error hits it exactly if it goes towards it; a hit of a box is at a finite distance in front of the origin, its point is in the box up to three roundings, a ray that reaches the box deeper than that hits it, from outside not beyond any point of the box and from inside not before any; a hit of a sphere is a number and not negative; at(distance) is off by two roundings per coordinate.", "quantifier": "all IEEE formats, all rays, planes and boxes of finite numbers within range (all numbers at all for the first part), all choices of contraction by the compiler", "why_tests_cant": "rounding depends on every bit of the operands; tests cast rays along the axes where every operation is exact", "anchors": ["include/muu/ray.h: ray::at, ray::hits", "include/muu/impl/geometry_common.h: rays_common::hits_plane, rays_common::hits_sphere, rays_common::hits_aabb, rays_common::hits_aabb_min_max", "include/muu/impl/ray_x_plane.h", "include/muu/impl/ray_x_bounding_box.h", "include/muu/impl/ray_x_bounding_sphere.h", "include/muu/impl/core_constants.h: floating_point_traits::default_epsilon"]}
{"id": "C184", "title": "Triangles of floating-point numbers are right up to rounding", "statement": "With each operation rounded, and whatever products the compiler contracts: each coordinate of the centroid is the mean of the corners' coordinates but for four roundings, and the centroid of three equal corners is that point; the perimeter has a relative error of nine roundings; the area of a triangle is a number. A ray that clearly goes through a triangle (further from its edges than a stated margin, and not nearly parallel to it) hits it, at the right distance but for a stated error; if a hit is reported, its distance is a number that is not negative, and the point there is within a stated distance of a point of the triangle.", "quantifier": "all formats of floating-point numbers such as float and double, all finite triangles and rays whose coordinates are within a bound that excludes overflow, every contraction of products with sums, every positive epsilon", "why_tests_cant": "quantifies over all floating-point inputs and all contractions a compiler may choose; the errors come from rounding, which examples show only where one looks", "anchors": ["include/muu/triangle.h: centroid, perimeter, area", "include/muu/impl/geometry_common.h: triangles_common::centroid, perimeter, area; rays_common::hits_triangle", "include/muu/impl/ray_x_triangle.h: ray::hits", "include/muu/ray.h: hits"]}
{"id": "C185", "title": "Line segments of floating-point numbers are right up to rounding", "statement": "With each operation rounded, and whatever products the compiler contracts: each coordinate of the midpoint is between those of the ends, and half of their sum but for two roundings. The closest point is on the segment but for five roundings, and no point of the segment is closer to the given one by more than a stated error; of an end of the segment it is that end. A point that is said to be contained is no farther from the segment than the square root of epsilon, and one that is closer is contained, but for a stated error; the ends are contained. Extending keeps the start and moves the end along the line, to the sum of the length and the amount but for six roundings; by zero, not at all. Reversing does not change the length.", "quantifier": "all formats of floating-point numbers such as float and double, all finite segments, points and amounts, every contraction of products with sums, every epsilon", "why_tests_cant": "quantifies over all floating-point inputs and all contractions a compiler may choose; the errors come from rounding, which examples show only where one looks", "anchors": ["include/muu/line_segment.h: midpoint, length, direction, closest_point, contains, extend, reverse", "include/muu/impl/geometry_common.h: lines_common::project_distance; line_segments_common::closest_point, distance_squared, contains_point", "include/muu/vector.h: direction, normalize", "include/muu/impl/core_utils.h: clamp"]}
{"id": "C186", "title": "Rotation matrices of floating-point numbers, from and to quaternions, are right up to rounding", "statement": "With each operation rounded, and whatever products the compiler contracts: each entry of the matrix of a quaternion is that of the linear map by which the quaternion rotates vectors, but for four roundings; its fourth row and column, if there are any, are those of the identity. If the length of the quaternion is about one, then the columns of the matrix are about orthogonal, of length about one. The quaternion of a matrix that is about that of a rotation is about the quaternion of this rotation, or its negation. So from a quaternion that is reported as normalized to a matrix and back gives the same quaternion or its negation: floats within 1/50000, doubles within 1/10^9.", "quantifier": "all formats of floating-point numbers such as float and double, all finite quaternions and matrices, all shapes of matrices, every contraction of products with sums, all four cases of the conversion from matrices", "why_tests_cant": "quantifies over all floating-point inputs and all contractions a compiler may choose; which of the four cases is taken is decided by rounded numbers", "anchors": ["include/muu/matrix.h: from_quaternion", "include/muu/impl/quaternion_x_matrix.h: quat_from_rotation_matrix, quaternion::from_rotation", "include/muu/impl/matrix_base.h: is_3d_rotation_matrix_"]}
{"id": "C187", "title": "Barycentric coordinates and containment of points of a triangle's plane, of floating-point numbers, are right up to rounding", "statement": "With each operation rounded, and whatever products the compiler contracts: barycentric coordinates that are finite are those of the point of the triangle's plane below the point, up to an error that is the larger the smaller the area, and their sum is one but for rounding; those of the first corner are exactly one, zero and zero, and those of the other corners are exact but for the rounding of a division; a generator of coordinates gives the same ones. A point of the triangle's plane that is clearly inside is contained, one that is clearly outside is not, and the corners and the middles of edges are contained.", "quantifier": "all formats of floating-point numbers such as float and double, all triangles and points, every contraction of products with sums", "why_tests_cant": "quantifies over all floating-point inputs and all contractions a compiler may choose", "anchors": ["include/muu/impl/geometry_common.h: triangles_common::barycentric, barycentric_generator, contains_coplanar_point", "include/muu/triangle.h: barycentric"]}
{"id": "C188", "title": "Normals of triangles, and whether points are in their planes, of floating-point numbers, are right up to rounding", "statement": "With each operation rounded, and whatever products the compiler contracts: each component of a triangle's normal is that of the unit normal of its plane, up to an error that is the larger the thinner the triangle; a point is not coplanar with the triangle if its distance from the plane exceeds epsilon by more than what rounding can hide, and is if the distance is below epsilon by that much; a triangle contains its corners and the points that are clearly inside, and no point that is clearly off its plane or, in its plane, clearly outside.", "quantifier": "all formats of floating-point numbers such as float and double, all triangles, points and epsilons, every contraction of products with sums", "why_tests_cant": "quantifies over all floating-point inputs and all contractions a compiler may choose", "anchors": ["include/muu/impl/geometry_common.h: triangles_common::normal, coplanar, contains_point", "include/muu/triangle.h: normal, coplanar, contains"]}
{"id": "C189", "title": "Intersection and containment of two bounding spheres of floating-point numbers are right up to rounding", "statement": "With each operation rounded, and whatever squares the compiler contracts: two spheres intersect exactly when they have a point in common, and one contains another exactly when all points of the other are in it, unless that depends on less than a few units of round-off. A sphere intersects and contains itself, and whether two spheres intersect does not depend on their order.", "quantifier": "all formats of floating-point numbers such as float and double, all pairs of spheres, every contraction of products with sums", "why_tests_cant": "quantifies over all floating-point inputs and all contractions a compiler may choose", "anchors": ["include/muu/bounding_sphere.h: bounding_sphere::intersects, contains (sphere x sphere)"]}
{"id": "C190", "title": "Containment in, closest points of and corners of oriented bounding boxes of floating-point numbers are right up to rounding", "statement": "With each operation rounded, and whatever products the compiler contracts, unless the distances along the axes overflow: an oriented box contains a point if and only if the point is within the extents along each of the axes, but for an explicit error of a few units of round-off; the same holds of all points of a segment and of a triangle, and of ranges of points; the centre is always contained. If the axes are orthonormal up to some error, this means that the point is in the box, but for an error of the extents. closest_point is the point of the box that is closest, but for an explicit error of each coordinate, and so are the corners.", "quantifier": "all formats of floating-point numbers such as float and double, all oriented boxes, with any axes, all points, segments, triangles and ranges of points, every contraction of products with sums", "why_tests_cant": "quantifies over all floating-point inputs and all contractions a compiler may choose", "anchors": ["include/muu/oriented_bounding_box.h: oriented_bounding_box::contains (point, range, segment, triangle), closest_point", "include/muu/impl/geometry_common.h: obbs_common::corner"]}
{"id": "C191", "title": "Oriented bounding boxes of floating-point numbers meet spheres and are inside other boxes up to rounding", "statement": "With each operation rounded, and whatever products the compiler contracts, unless something overflows: if an oriented box and a sphere are said to intersect, a point of the box is in the sphere but for an explicit error of its coordinates and of the squared radius, and they are said to intersect if the point of the box that is nearest to the centre is in the sphere by as much. If a box is said to contain an oriented box, every point of the oriented box is in it but for an explicit error, and it is said to contain it if every point is in it by as much. The box that is made around an oriented box, or around a range of points, has each of their points but for an explicit error, if it is finite.", "quantifier": "all formats of floating-point numbers such as float and double, all oriented boxes, with any axes, all boxes, spheres and ranges of points, every contraction of products with sums, every point of the oriented box", "why_tests_cant": "quantifies over all floating-point inputs, all points of a box and all contractions a compiler may choose", "anchors": ["include/muu/impl/oriented_bounding_box_x_bounding_sphere.h: oriented_bounding_box::intersects, bounding_sphere::intersects", "include/muu/impl/bounding_box_x_oriented_bounding_box.h: bounding_box::contains(oriented_bounding_box)", "include/muu/impl/bounding_box_x_oriented_bounding_box.h: bounding_box::from_obb", "include/muu/bounding_box.h: bounding_box::from_points(begin, end)"]}
{"id": "C192", "title": "The limits, digit counts, named integers and named characters of constants are what they are named after", "statement": "constants<T>::highest and lowest of the 128-bit integers, of float128_t and of half are the greatest and the least finite value of the type, computed without overflow. decimal_digits is the greatest number of significant decimal digits such that every number written with so many is recovered after having been stored in the type. Every named integer and every named character compiles in every integer or character type and has the value, or the code, it is named after; the infinities, NaNs, zero and epsilon of half are such. default_epsilon of the other types is less than a unit in the last place away from ten times the unit of the last decimal digit.", "quantifier": "all values of the types, all widths of integer types, all decimal numbers of a number of digits, all named constants", "why_tests_cant": "quantifies over all values of a type of up to 128 bits, and over all decimal numbers", "anchors": ["include/muu/impl/core_constants.h: integer_limits, integer_positive_constants, floating_point_traits, ascii_character_constants", "include/muu/half.h: integer_limits<half>, integer_positive_constants<half>, floating_point_traits<half>, floating_point_special_constants<half>"]}
