# Formal model of marzer/muu: design

This directory holds a Lean 4 model of the pinned muu sources in `/repo`, a small independent
specification, and machine-checked theorems linking them.

## Layout

| path | content |
| --- | --- |
| `properties.jsonl` | the English properties (C01 …) |
| `MANIFEST.json` | property → theorem names and status |
| `AXIOMS.md` | the axioms each of those theorems depends on |
| `lean/Verif/Spec/*.lean` | specifications written from the standards / the English text; they import no model |
| `lean/Verif/Model/*.lean` | the model of the C++ code, function by function, each definition citing file and lines |
| `lean/Verif/Proofs/*.lean` | helper lemmas |
| `lean/Verif/Props/*.lean` | the property theorems only, each with an `example` showing its hypotheses can be met |
| `seeded/LOG.jsonl` | the mutation log: wrong programs tried against the theorems |

## Conventions of the model

* Unsigned C++ integers of N bits are `BitVec N` where bits matter (wrap-around arithmetic is the C++ semantics); where
  a type varies (`Model/CInt`), a value is an integer and every conversion and operation goes through functions that
  wrap or detect overflow as C++ does. Where a value cannot wrap it is a `Nat`, and the comment says why.
* Undefined behaviour is a distinct outcome (`none`). Functions that can reach `MUU_UNREACHABLE`, falsify a `MUU_ASSUME`,
  shift by at least the width, overflow a signed integer, or touch freed memory return an `Option`; no theorem treats
  it as a normal result.
* Loops are structural recursion or well-founded recursion with a proved measure.
* Where the repository has compiler-specific branches (intrinsics, `is_constant_evaluated`), the portable code path in
  the repository is what is modelled; the intrinsic is outside the model.
* Floating point, where it is modelled (`Spec/Float`, `Model/PackedUnit`, `Model/PoolSizing`), is exact rational arithmetic
  followed by rounding to nearest, ties to even. Elsewhere geometry is modelled over exact arithmetic (an arbitrary
  ordered field or commutative ring), and the property is stated for that; each model says which.
* When the code violates a property the negation is proved (name `…_violated`) with a concrete witness, and the strongest
  part that does hold is proved under the name `…_partial`.

## Per property: what is modelled and how it is proved

`Model`/`Spec` name files under `lean/Verif/Model` and `lean/Verif/Spec`. Status and exact theorem names are in `MANIFEST.json`.

| property | model | spec | how it is proved | status |
| --- | --- | --- | --- | --- |
| **C01** UTF-8 decoder yields every scalar value from its standard encoding | Utf8Decoder | Unicode | the decoder's 364-entry table, checked over its whole domain (9 states × 256 bytes) by kernel computation and lifted to all sequences by induction | proved |
| **C02** UTF-8 decoder accepts only well-formed sequences | Utf8Decoder | Unicode | same table facts; Unicode table 3-7 as the grammar | proved |
| **C03** UTF-16 decoder yields every scalar value from its standard encoding | Utf16Decoder | Unicode | case analysis over the 16-bit units; negation for every supplementary scalar | partial |
| **C04** utf_decode of well-formed UTF-8 visits exactly its code points | UtfDecode, Utf8Decoder | Unicode | induction over the list of scalar values | proved |
| **C05** utf_decode of arbitrary bytes stays in bounds and never repeats or reorders code units | UtfDecode | Unicode | invariant of the forward/reverse loop, for every callback | proved |
| **C06** Reverse utf_decode of well-formed UTF-8 is the exact reverse of the forward one | UtfDecode | Unicode | induction from the right over the scalar values | proved |
| **C07** A utf_decode callback can stop the traversal | UtfDecode | Unicode | callback is an arbitrary function of its history; prefix theorem by induction | proved |
| **C08** BOM-less native-endian UTF-16/UTF-32 text is decoded as native-endian | UtfDecode | Native | byte-order mark and heuristic modelled; families of witnesses | partial |
| **C09** UTF-8 encoder is the standard encoding and inverse to the decoder | Strings | Unicode | BitVec arithmetic per length class | partial |
| **C10** UTF-16 encoder is the standard encoding | Strings | Unicode | BitVec arithmetic | partial |
| **C100** Boxes against line segments | Boxes | Geometry | Helly's theorem on the line for three slabs and the segment | proved |
| **C101** Boxes against triangles | Boxes | Geometry | Helly's theorem in the parameter plane of the triangle for three slabs and three half-planes | partial |
| **C102** Bounding spheres: measures, movement, nearest point, containment | Sphere | Geometry | convexity, Cauchy-Schwarz, and Mathlib's volume of a Euclidean ball | partial |
| **C103** Bounding spheres against triangles | Sphere | Geometry | the nearest point of the triangle to the centre exists, and its Voronoi region names the test that separates | partial |
| **C104** Oriented bounding boxes: corners, volume, movement | Obb | Geometry | explicit coordinates in the axes; an orthonormal matrix has determinant of absolute value one | partial |
| **C105** Oriented bounding boxes: queries against points, segments, triangles, spheres and axis-aligned boxes | Obb | Geometry | coordinates in the axes preserve distances; reduction to the axis-aligned box | partial |
| **C106** Oriented bounding boxes against boxes: intersection tests | Obb | Geometry | each direction test is equivalent to the two projections having a common value; counterexamples with two crossed rods | partial |
| **C107** Rays: positions, classification, hits of planes and triangles | Ray | Rays | case analysis on the signs for planes; Cramer's rule for triangles | partial |
| **C108** Rays: hits of spheres and boxes | Ray | Rays | completing the square for spheres; one interval of extended reals per coordinate for boxes | partial |
| **C109** Type lists: slices and selection at any length | TypeList | TypeList | induction on the length, page by page | proved |
| **C11** Transcoding UTF-8 to UTF-32 and back is the identity | Strings, UtfDecode | Unicode, Native | composition of C04/C09/C10 by induction | partial |
| **C110** Type lists: flatten, remove, index_of, contains, append, prepend | TypeList | TypeList | structural induction; flatten by the tokens written between the brackets | proved |
| **C111** Largest, smallest, most and least aligned type | TypeList | TypeList | induction on the pack | proved |
| **C112** A function view calls what it was made from | FunctionView | — | invariant over the steps of a program: only steps that name an object change a view or the class of an object | partial |
| **C113** Copies of function views are independent | FunctionView | — | invariant over the steps of a program | partial |
| **C114** for_sequence and for_product | Sequences | Sequences | induction on the list of indices | proved |
| **C115** Compressed pairs exist for every two types | Sequences | — | case analysis | partial |
| **C116** floor and ceil in constant expressions | ConstMath | Mathlib's floor and ceil | case analysis on the truncated value | partial |
| **C117** Square roots in constant expressions | ConstMath | Mathlib's square root | linear, then quadratic convergence of Newton's iteration by induction | partial |
| **C118** cos and sin in constant expressions | ConstMath | Mathlib's cos and sin | alternating-series bounds, and induction on the reductions of the angle | proved |
| **C119** tan in constant expressions | ConstMath | Mathlib's tan | relative error bounds for sine and cosine near the poles | proved |
| **C12** Trimming removes exactly the leading and trailing whitespace | Strings, Unicode | Unicode, Trim | `utf_find` from both ends against drop-while from both ends | partial |
| **C120** asin and acos in constant expressions | ConstMath | Mathlib's arcsin and arccos | bounds on the tail of the series; the identity arcsin x = pi/2 - arcsin sqrt(1 - x^2) | partial |
| **C121** atan and atan2 in constant expressions | ConstMath | Mathlib's arctan and Complex.arg | Euler's series by its recursion and integral bound; case analysis on the quadrant | partial |
| **C122** Normalizing angles | ConstMath, Scalar | Mathlib's floor; existence and uniqueness | the property of the floor function; concrete floats for the violations; with rounding, relative errors of each operation and of the three constants (from the digits of pi) | partial |
| **C123** infinity_or_nan decides by the exponent | Scalar | Ieee | bit by bit: the mask selects the exponent | proved |
| **C124** Absolute values of integers | Scalar | CInt | case analysis on the sign and the conversions | partial |
| **C125** Approximate equality | Scalar | Float | monotonicity and error of rounding | partial |
| **C126** Linear interpolation | Scalar | Float | relative error analysis | partial |
| **C127** Named constants of the standard floating-point types | Constants | Constants | rational enclosures of the real numbers (Machin's formula with Euler's series for pi) on which rounding is constant | partial |
| **C128** Named constants of float128_t | Constants | Constants | rational enclosures to 43 digits | partial |
| **C129** Named constants of half | Constants | Constants, Ieee | rational enclosures | partial |
| **C13** is_whitespace is total and is exactly the Unicode White_Space set | UnicodeChar8/16/32, Unicode, CodePointProg | Ucd | decision trees transcribed into a small AST; a verified interval evaluator computes the accepted ranges for all 2^32 values | partial |
| **C130** Arithmetic of half rounds once | HalfArith | SmallFloat | rounding twice differs only at midpoints; sums and quotients of 11-bit numbers keep a distance from midpoints | partial |
| **C131** Functions of half | HalfArith | SmallFloat, Mathlib's Complex.arg | the ends of the float function; triangle inequality | partial |
| **C132** Intersection of two triangles | TriTri | Triangles, Geometry | each triangle meets the line common to both planes in an interval, computed up to a common positive or negative factor; in one plane, edges cross or a corner lies inside | partial |
| **C133** Segment of intersection of two triangles | TriTri | Triangles, Geometry | the ends of the intervals on the common line, with the points they come from; their overlap | partial |
| **C134** Collision testers | Testers | Geometry | each query of the tester is shown equal to a query of the shape, whose meaning is C98-C102 | partial |
| **C135** pointer_cast | PointerCast | Pointers | the list of casts the recursion chooses is computed, shown to end within four levels, each cast legal, and its composition determined for every address | proved |
| **C136** Printing vectors, matrices and shapes | Printing | Printing | each step appends a known text and keeps the rest of the stream but its adjustment; a reader of numbers inverts the text | partial |
| **C137** Constructing vectors and reaching their components | VectorStore | Parts | each function, by cases on the named members and induction over the array, against the list of scalars in memory | partial |
| **C138** Exact equality of vectors | VectorEq | Parts | conversion to the common type is injective where that type represents both operands | partial |
| **C139** Arithmetic of vectors of integers | IntVector | Parts | the language's promotions and undefined behaviour; congruence modulo 2^bits through the promoted type; induction over the components for the folds | partial |
| **C14** is_hyphen is total and equals its explicit set | as C13 | Ucd, Unicode | as C13 | partial |
| **C140** Names of types | TypeName | TypeName | induction over types; the text is split into tokens and compared with the inside-out grammar of declarators | partial |
| **C141** Arithmetic of emulated halves | HalfEmulated | IeeeArith | bits of float arithmetic by rounding in units of the least float; monotony of rounding; C52 | partial |
| **C142** Operators of flag enumerations | Flags | Flags | two's complement bits of and, or, xor, complement; conversion back is the identity on the enumeration's values | partial |
| **C143** Matrices: construction, access, equality, element-wise integer arithmetic | MatrixStore | Parts | the loops over columns by an invariant; per column claims C137 to C139 | proved |
| **C144** Matrices of integers: products and determinants | IntMatrix | Parts | bounds on partial sums by induction; Mathlib's matrix product and determinant as specification | partial |
| **C145** Shear of rotation and transform matrices | Shear | Shear | exact arithmetic; the cosine written with sums and square roots | partial |
| **C146** Creation and ownership of thread pools | PoolLifetime | - | a transition system of the constructing thread and the workers, an invariant on what exists at each point; invariants on owners | partial |
| **C147** Componentwise arithmetic of vectors of floating-point numbers | FloatVector | FloatFormat, IeeeArith | componentwise from the storage lemmas; the error of two roundings for division by a number | partial |
| **C148** Error of sums, dot products and squared lengths | FloatVector | FloatFormat, IeeeArith | induction over the additions, with the invariant that partial sums are multiples of the least number, so that additions do not underflow | proved |
| **C149** Accumulators of floating-point numbers | Kahan | FloatFormat, IeeeArith, LeastGreatest | the error of one addition is exact (Dekker's theorem, proved here for every format), then an invariant bounding the sum of the corrections | proved |
| **C15** Digit predicates and hex conversion agree | Chars, UnicodeChar* | Ucd, Unicode | as C13 | proved |
| **C150** Lengths, distances and normalization with rounding | FloatLength | FloatFormat, FloatSqrt, IeeeArith | the correctly rounded root has a relative error of u; squares of the errors are carried through in rational arithmetic; the constants for float and double are evaluated | partial |
| **C151** Approximate equality of vectors, matrices, quaternions and shapes | Approx | Closeness, FloatFormat | rounding is monotone and leaves epsilon, so a rounded difference below epsilon was below it; differences of numbers of a format have a relative rounding error only; overload resolution of the scalar comparison is evaluated for all pairs of types | partial |
| **C152** Swizzles | Swizzle | Parts | the list of get<I>() is mapped over the indices and read back from the constructor's components | proved |
| **C153** Cross products, orthogonal vectors and interpolation in floating point | FloatProducts | FloatFormat, Representable | a component is a sum of two products with a rounding error bound (C148) or, where the products and the sum are representable, exact | partial |
| **C154** Products of matrices and vectors, and transformations, in floating point | FloatProducts | FloatFormat, Representable | each entry is a dot product (C148); exact sums by induction over the loop | proved |
| **C155** Quaternions in floating point | FloatQuat | Quaternions, FloatFormat | a calculus of error bounds for expressions (number of roundings, magnitude, underflow), composed along the code; the exact values by Mathlib's quaternions | partial |
| **C156** Determinants and inverses in floating point | FloatDet | Determinants, FloatFormat | the calculus of error bounds along the expansions; Mathlib's determinant, adjugate, inverse and permanent (whose expansion along a row is proved); the reciprocal of an approximation | proved |
| **C157** Unpacking packed unit vectors | PackedFloat | FloatFormat | the calculus of error bounds for the coordinates; normalizing is stable; the bounds of C150 for normalization | partial |
| **C158** Ranges of pointers into an array | PointerRange | ArrayPointers | induction on the elements left; linear arithmetic on indices | partial |
| **C159** Memory visibility in the thread pool | PoolActions | HappensBefore | an invariant of what each thread and each mutex knows, over all steps of the pool model; the invariants of C35 and C36 for where each task is | partial |
| **C16** Leading/trailing zero/one counts are exact | Bits | Bits | induction on the width / binary search steps | proved |
| **C160** What the thread pool calls for a task | TaskStorage | TaskCalls | cases on the traits; induction over the values of a batch and over the batches | partial |
| **C161** Conversions between half and other arithmetic types | HalfConvert | IeeeArith, Half, SmallFloat | the lemmas on conversions of C52 and C141, for any exact number | partial |
| **C162** Literals of integers and sizes | Literals |  | arithmetic modulo powers of two | partial |
| **C163** Strong typedefs behave as their values | StrongTypedef | CInt, Parts | memory as a map from addresses to integers that exist; outcomes distinguish what does not compile from what is undefined | partial |
| **C164** Elements of compressed pairs | CompressedPair |  | the four specialisations as slots for bases and members | proved |
| **C165** Iterators of iterable objects | Iterators | Traversal | induction over the loop | proved |
| **C166** Bounding boxes with rounding | FloatBox | Region, FloatFormat, IeeeArith | monotonicity of rounding, error of one rounding, rounding of halves | partial |
| **C167** Qualifiers and references of types | Meta | CppTypes | every type is in one way a plain type with qualifiers and a reference; each metafunction on that form | partial |
| **C168** Traits of numbers and enumerations | Meta | CppTypes | case analysis on the plain form of a type | proved |
| **C169** Signed and unsigned equivalents | Meta | CppTypes | case analysis on named types | partial |
| **C17** popcount is exact | Bits | Bits | SWAR steps as sums over bit fields, all widths | proved |
| **C170** Pointers, arrays and functions as types | Meta | CppTypes | induction on the stars; case analysis on the plain form of a type | partial |
| **C171** The highest-ranked of some types | Meta | CppTypes | induction on the list; the arithmetic types are a semilattice under conversion | partial |
| **C172** Names of threads | ThreadName | - | a buffer with uninitialised bytes; lists | partial |
| **C173** Source locations | SourceLocation | - | induction on the position of the loop | proved |
| **C174** Bit casts | BitCast | ObjectBits | two's complement: the bits determine the value in its range | proved |
| **C175** Bounding spheres of floating-point numbers | FloatSphere | Region, Representable, FloatFormat | bounds of sums and products from below (with overflow to infinity) and from above, by composing the error of each rounding | partial |
| **C176** Macros over arguments, attributes of functions and versions | Macros, EachAttribute | FunctionAttributes | induction on the list of arguments; the whole finite domain of attributes against each list | partial |
| **C177** Under fair scheduling every task runs, every call returns and destruction completes | ThreadPool, PoolFair | Fairness, ThreadPool | the invariants of reachable states, ranking functions of each thread, position of a task in its queue | proved |
| **C178** String parameters: no use after the end, no leak, and views stay readable | StringLifetime, StringParam | StringLifetime, StringParam | an ownership invariant (each buffer has one owner) preserved by every operation, and simulation of the model without memory | partial |
| **C179** Blobs survive failing allocations | BlobFail, Blob | BlobFail, Blob | a blob without memory is simulated by an empty blob of the model in which allocation succeeds (C43) | partial |
| **C18** bit_floor, bit_ceil, bit_width and has_single_bit are exact powers of two | Bits | Bits | from C16/C17 | proved |
| **C180** Emplacement arrays have room for their capacity, or say so | EmplaceFail, Emplace, Bits | EmplaceFail, Emplace | an array without memory is simulated by one of no capacity (C44); induction over the elements which still fit | partial |
| **C181** The moment of compilation is read correctly | BuildDate | BuildDate | the texts of the standard are split into characters; arithmetic on digits; the twelve names of the months by evaluation | proved |
| **C182** Planes of floating-point numbers are right up to rounding | FloatPlane | PlaneRounding | error calculus of roundings (each operation one factor and one underflow), comparison soundness; counterexamples evaluated in the kernel | partial |
| **C183** Rays of floating-point numbers hit what they reach, up to rounding | FloatRay | RayRounding | error calculus of roundings; entries and exits on the extended line, with quotients by zero; counterexamples evaluated in the kernel | partial |
| **C184** Triangles of floating-point numbers are right up to rounding | FloatTriangle | TriangleRounding, RayRounding, FloatSqrt | the growth of errors through differences, cross and dot products; Cramer's rule with residuals for the point that is hit; literal floats for what is violated | partial |
| **C185** Line segments of floating-point numbers are right up to rounding | FloatSegment | SegmentRounding, FloatSqrt | monotone rounding for the midpoint; for the closest point the growth of errors, the Lipschitz constant of clamp and the triangle inequality; literal floats for what is violated | partial |
| **C186** Rotation matrices of floating-point numbers, from and to quaternions, are right up to rounding | FloatRotation | RotationMatrix, Quaternions, FloatSqrt | the growth of errors for the entries; for the way back, that in each case the component that is computed first is at least about a half, because the rounded entries decide nearly as the exact ones, and bounds of the errors of the square root, reciprocal and products | proved |
| **C187** Barycentric coordinates and containment of points of a triangle's plane, of floating-point numbers, are right up to rounding | FloatWeights | Weights, TriangleRounding | the growth of errors for the Gram determinant, the numerators and the products of normals; from the finite result back to finite operands for the first corner and the sum; exact cancellation for the other corners | partial |
| **C188** Normals of triangles, and whether points are in their planes, of floating-point numbers, are right up to rounding | FloatNormal | NormalRounding, Weights, TriangleRounding | the growth of errors for the cross product; Cauchy and Schwarz for the change of its length; the error of normalization (C150); the growth of errors for the dot product; the test of epsilon as for planes (C182) | partial |
| **C189** Intersection and containment of two bounding spheres of floating-point numbers are right up to rounding | FloatSpheres | Representable, FloatFormat | lower and upper bounds of the rounded sums of squares, which may overflow; the point that divides the segment of the centres in the ratio of the radii; exact sums of integers | partial |
| **C19** byte_reverse mirrors the byte order | Bits | Bits | bytes extracted by extensionality | proved |
| **C190** Containment in, closest points of and corners of oriented bounding boxes of floating-point numbers are right up to rounding | FloatObb | ObbRounding, TriangleRounding, FloatFormat | the error calculus for the distances along the axes and the sums of multiples of the axes; nearly orthonormal axes are invertible because their Gram matrix is diagonally dominant; clamp does not increase an error; convexity of what is between the sides; the closest point along each axis | proved |
| **C191** Oriented bounding boxes of floating-point numbers meet spheres and are inside other boxes up to rounding | FloatObbs | ObbRounding, Region, FloatFormat | the errors of the nearest point and of the corners (C190) composed with those of spheres and boxes (C175, C166); along each coordinate some corner is the last of the box, so that the corners decide for all points | proved |
| **C192** The limits, digit counts, named integers and named characters of constants are what they are named after | Limits | Limits, CInt, FloatFormat | the computed limits are evaluated for every width; two decimal numbers of d digits differ by at least a 10^d-th of either, which is more than twice the rounding error if 2 * 10^d < 2^p; for one digit more two numbers are rounded to the same | proved |
| **C20** bit_pack, byte_select and swizzle are mutually consistent | Bits | Bits | bit extensionality | proved |
| **C21** byte_select with a run-time index returns 0 when the index is out of range | Bits | Bits | case analysis on the index; undefined shifts are `none` | partial |
| **C22** bit_fill_left/right set exactly the requested bits | Bits | Bits | bit extensionality | proved |
| **C23** apply_alignment rounds up to the next multiple | Bits | Bits | modular arithmetic | proved |
| **C24** SHA-1 equals FIPS 180-4 | Hashing | Sha1 | streaming object with a 16-word circular schedule against FIPS 180-4 with 80 words; buffer invariant | proved |
| **C25** SHA-1 digest is independent of how the input is chunked | Hashing | Sha1 | buffer invariant over every chunking | proved |
| **C26** A finished SHA-1 is immutable | Hashing | Sha1 | case analysis | proved |
| **C27** FNV-1a is a fold over the bytes | Hashing | Fnv | fold; modular multiplication | proved |
| **C28** FNV-1a separates strings that differ in one byte | Hashing | Fnv | the odd multiplier is invertible | proved |
| **C29** Combining hashes never discards the newest hash | Hashing | Fnv | bijectivity in the newest argument | proved |
| **C30** uuid text round-trips | Uuid | Uuid | printing then parsing, byte by byte | proved |
| **C31** uuid::parse accepts exactly its grammar and never a wrong value | Uuid | Uuid | the parser's state machine against a grammar, induction over the input | partial |
| **C32** uuid field constructor and getters are inverse | Uuid | Uuid | bit extensionality | proved |
| **C33** uuid comparison is a total order consistent with equality and 128-bit integers | Uuid | Uuid | comparison of 16 bytes against the 128-bit integer | proved |
| **C34** Generated uuids carry the right version and variant | Uuid | Uuid | bit masks | proved |
| **C35** Every task runs at most once and is destroyed exactly once | ThreadPool | ThreadPool | labelled transition system; invariants by induction over every schedule | proved |
| **C36** thread_pool::wait returns only when the work is done | ThreadPool | ThreadPool | as C35 | proved |
| **C37** Each worker queue is a bounded FIFO | ThreadPool | ThreadPool | ring buffer refines a bounded list, every history | partial |
| **C38** for_each over an index range calls the task exactly once per index | ForEach | ForEach | wrap-around integer arithmetic of the batches; partition of the range | partial |
| **C39** for_each over a container covers each element exactly once | ForEach | ForEach | as C38 | proved |
| **C40** Pool sizing is within its limits | PoolSizing | PoolSizing | IEEE double arithmetic as rounding; layout of the allocation | partial |
| **C41** Destroying a pool runs no new task after its workers stop and discards the rest | ThreadPool | ThreadPool | as C35 | proved |
| **C42** spin_mutex guarantees mutual exclusion | SpinMutex | (in Props) | modification-order model of the atomic flag; invariant over every interleaving of any number of threads | proved |
| **C43** blob keeps its bytes across every operation | Blob | Blob | explicit heap; refinement of a list of byte strings, every history | partial |
| **C44** emplacement_array constructs and destroys each element exactly once | Emplace | Emplace | explicit memory with slots; every history, including throwing constructors | proved |
| **C45** accumulator tracks min, max and sum of all samples | Accumulator | (in Props) | induction over the samples | partial |
| **C46** integral_range implements half-open interval arithmetic | IntegralRange, CInt | IntegralRange | integer arithmetic for every width and signedness | partial |
| **C47** span views never leave their underlying array | Span | Span | chains of calls by induction | partial |
| **C48** static_array reports emptiness and ordering consistently | StaticArray | (in Props) | induction over the elements | partial |
| **C49** static_string/fixed_string substrings and concatenation are exact | FixedString | FixedString | lists | partial |
| **C50** fixed_string comparison is the lexicographic total order | FixedString | FixedString | lexicographic order on lists | partial |
| **C51** tagged_ptr stores pointer and tag independently | TaggedPtr | TaggedPtr | BitVec 64, every history | partial |
| **C52** half converts to float exactly and back | Half | Half | value as a rational; per exponent class, whole finite domain where 16 bits | partial |
| **C53** half sign operations are bitwise exact | Half | Half | whole domain of 2^16 | proved |
| **C54** scope_guard runs its callable exactly once under exactly its condition | ScopeGuard | ScopeGuard | equivalence with a reference semantics by induction over programs | proved |
| **C55** between, clamp, min and max compare mathematically | CoreUtils | CInt | induction over the argument pack | partial |
| **C56** evenly_distribute splits a total fairly and completely | CoreUtils | CoreUtils | sum over the pack | proved |
| **C57** gcd and lcm of any number of arguments are correct | CoreUtils, CInt | CoreUtils | induction over the pack, with the common type of each step | partial |
| **C58** string_param keeps its text through conversion, copy and move | StringParam, Strings | Unicode, Native | state machine, every history of operations | partial |
| **C59** packed unit vector integer codes round-trip | PackedUnit | Float | rounding error analysis of every operation; bit fields | partial |
| **C60** is_letter is total and is exactly the Unicode letter categories | as C13 | Ucd | as C13 | proved |
| **C61** is_number is total and is exactly the Unicode number categories Nd and Nl | as C13 | Ucd | as C13 | proved |
| **C62** is_combining_mark is total and is exactly the Unicode mark categories Mn and Mc | as C13 | Ucd | as C13 | proved |
| **C63** is_lowercase is total and is exactly the Unicode Lowercase property | as C13 | Ucd | as C13 | partial |
| **C64** is_uppercase is total and is exactly the Unicode Uppercase property | as C13 | Ucd | as C13 | partial |
| **C65** 8-bit code unit predicates agree with the code point predicates on ASCII and reject everything else | UnicodeChar8 | Ucd, Unicode | whole domain of 2^8 | proved |
| **C66** aligned_alloc asks the C library for a valid alignment and a size that covers the request | Bits | Bits | modular arithmetic | partial |
| **C67** SHA-1 is right for every message length FIPS 180-4 allows | Hashing | Sha1 | wrap-around of the 32-bit block counter | partial |
| **C68** Hashing a wide string is hashing its UTF-8 encoding; hashes print as hex digits | Hashing | Fnv, Sha1, Unicode | composition of C11 and C27 | partial |
| **C69** No lost wake-up in thread_pool::wait() | ThreadPool | ThreadPool | invariant: a blocked waiter has a pending notification or unfinished work | proved |
| **C70** A thread pool can always finish its work | ThreadPool | ThreadPool | reachability of the quiet state from every reachable state (measure) | proved |
| **C71** Destruction of a thread pool can always complete | ThreadPool | ThreadPool | as C70 | proved |
| **C72** Iterating over an integral_range visits exactly its elements | IntegralRange | IntegralRange | induction over the loop | partial |
| **C73** Constructing or converting a span never drops const or volatile | Span | Span | case analysis over all qualifier combinations | partial |
| **C74** Comparing halves orders them by value | Half | Half | order of the values against order of the keys | proved |
| **C75** Matrix products are the products of linear algebra | Matrix | (Mathlib) | the unrolled and looped products against `Matrix.mul`, `mulVec`, `vecMul` | proved |
| **C76** Scalars given to a matrix constructor fill it row by row; transposition swaps rows and columns | Matrix | (Mathlib) | index arithmetic; each hand-written constructor against the general one | proved |
| **C77** determinant is the determinant | Matrix | (Mathlib) | the expansions against `Matrix.det` | proved |
| **C78** invert inverts every invertible matrix | Matrix | (Mathlib) | each cofactor by ring normalization, against `Matrix` multiplication | proved |
| **C79** dot, length and distance are those of Euclidean space | Vector | (Mathlib) | the loops against Mathlib's sums and Euclidean norm | partial |
| **C80** normalize gives the unit vector in the same direction; normalized recognises it | Vector | (Mathlib) | division by the Euclidean norm; loop unrolling for the integral variant | partial |
| **C81** cross and orthogonal give perpendicular vectors, right-handed | Vector | (Mathlib) | ring normalization; case analysis on the branches | proved |
| **C82** min, max, clamp, lerp and angle of vectors | Vector | (Mathlib) | induction over the collection; Cauchy-Schwarz for the angle | proved |
| **C83** Scale and translation matrices and the transform functions act as affine maps | Transform | (Mathlib) | the unrolled sums against `Matrix.mulVec` on (homogeneous) coordinates | proved |
| **C84** orthonormalize makes the rotation part orthonormal and keeps its orientation | Transform | (Mathlib) | Gram-Schmidt step by step; existence of the triangular factor; `Matrix.orthogonalGroup` | proved |
| **C85** from_3d_direction is a rotation taking forward to the given direction | Transform | (Mathlib) | case analysis on the pole test; membership in `Matrix.specialOrthogonalGroup` | proved |
| **C86** perspective_projection maps the view frustum onto the clip volume | Transform | (Mathlib) | explicit frustum and clip volume; field arithmetic on the quotient | partial |
| **C87** Quaternion products are Hamilton's and rotate vectors | Quat | Rotation | ring identities; Mathlib's `Quaternion ℝ` and `Matrix.specialOrthogonalGroup` | proved |
| **C88** Axis-angle conversion: Rodrigues' rotation, and back | Quat | Rotation | double-angle identities; atan2 as the argument of a complex number | proved |
| **C89** Euler angles: yaw, then pitch and roll about the local axes | Quat | Rotation | factorization of the quaternion into three axis rotations | partial |
| **C90** Euler angles extracted from a rotation reproduce it | Quat | Rotation | a rotation matrix is determined by a row and a column; closed form near the poles | partial |
| **C91** Quaternions made from rotation matrices | Quat | Rotation | the matrix of component products has rank one; positivity of the pivot in each branch | proved |
| **C92** from_rotation(from, to) rotates one direction onto the other | Quat | Rotation | half-angle quaternion; explicit image of the first vector | partial |
| **C93** Multiples of rotations and spherical interpolation | Quat | Rotation | addition theorems on the great circle through both quaternions | partial |
| **C94** Planes: construction, nearest points, sides, transformation | Geometry | Geometry | nearest point by Cauchy-Schwarz; similarity transforms keep inner products up to a factor | partial |
| **C95** Plane and line segment intersect exactly when they share a point | Geometry | Geometry | intermediate value along the segment | partial |
| **C96** Line segments: closest point, containment, collinearity, coplanarity, extension | Geometry | Geometry | projection on the line and clamping; convexity | partial |
| **C97** Triangles: normal, area, barycentric weights, containment | Geometry | Geometry | Lagrange's identity, Heron's formula, normal equations | partial |
| **C98** Bounding boxes: construction, transformation, containment, nearest point | Boxes | Boxes | coordinate-wise extremes; convexity for segments and triangles | proved |
| **C99** Boxes against boxes, planes and spheres | Boxes | Geometry | the values a linear functional takes on a box; nearest and furthest points coordinate by coordinate | proved |

## Where the code does not have the property

For each of these a theorem `…_violated` proves the negation on a concrete witness (or a whole family), and a theorem `…_partial` the strongest part found to hold.

* **C03** Violated by the code for every supplementary code point (proved, C03_utf16_decoder_supplementary_violated); proved for the BMP and for lone trailing surrogates.
* **C08** Violated by the code (witnesses and a general family proved); proved for the strings the byte-order heuristic gets right.
* **C09** Violated by the code for U+0000, whose encoding is empty (proved); proved for every other scalar value.
* **C10** Violated by the code for U+0000, whose encoding is empty (proved); proved for every other scalar value.
* **C101** Proved for triangles whose corners are not collinear. For collinear corners the answer is always false, even inside the box (C101_degenerate, C101_violated), because the normal is NaN.
* **C102** Violated in three places. closest_point outside the sphere forgets to add the centre (C102_closest_violated; with the centre added it is right). contains(sphere, sphere) compares squares and reports containment where there is none (C102_contains_sphere_violated; it never misses one, and is exact for concentric spheres). intersects(sphere, sphere) compares with r1^2 + r2^2 and misses overlapping spheres (C102_intersects_violated; what it reports is right).
* **C103** Proved for triangles whose corners are not collinear; for all triangles a shared point is never missed. For collinear corners a far away triangle can be reported (C103_violated).
* **C104** transform is proved to give the image as a set when the half-sides are positive and no axis vanishes, and to keep orthonormal axes under a similarity. Under a shear the axes are no longer orthogonal and contains gives wrong answers (C104_transform_violated); a box with a zero half-side gets a NaN axis even under the identity (C104_transform_flat_violated).
* **C105** The triangle test is exact for triangles whose corners are not collinear. For collinear corners it always answers false, even with all corners inside the box (C105_triangle_violated).
* **C106** The code tests only the six axis directions, not the nine cross products. Boxes that share a point are never missed, and boxes with the same axes are handled exactly, but disjoint boxes can be reported as intersecting (C106_violated, C106_aligned_violated).
* **C107** Planes: right unless the ray lies in the plane, which is not reported (C107_plane_violated). Triangles: what is reported lies in the triangle, and a triangle whose determinant is at least epsilon is found, but a triangle behind the origin is reported at a negative distance (C107_triangle_behind_violated) and small triangles are missed (C107_triangle_small_violated). infinity_or_nan combines origin and direction with 'and' instead of 'or' (C107_infinity_violated).
* **C108** Spheres: a reported hit is right; a ray that starts inside and points away from the centre is not reported (C108_sphere_inside_violated), nor one that touches the sphere (C108_sphere_touch_violated). Boxes: right unless the ray runs in the plane of a face, where 0/0 makes it miss the box or report an infinite distance (C108_box_violated).
* **C11** Violated by the code for strings with NUL, for strings whose byte order is guessed wrongly, and for supplementary characters in UTF-16 (witnesses proved). Proved for every other text: 8 to 32, 8 to 16, 32 to 8, 32 to 16, 16 to 8, 16 to 32 and the 8-32-8 round trip.
* **C112** A view of a null function pointer is true, but calling it is undefined (C112_null_function_violated).
* **C113** Proved for copies of constant views and for assignment. Copies and moves of other views choose the forwarding constructor and make a view of the view: they change when the original is rebound, dangle when it is destroyed, are not null when it is, and can make cycles that never end (C113_rebind_violated, C113_destroy_violated, C113_null_violated, C113_cycle_violated).
* **C115** The layout is as stated for all pairs; compressed_pair<E, E> of the same empty class does not compile, because a class may not be a direct base twice (C115_violated); of an empty class and an empty class derived from it, the pair compiles but the accessor of the base class does not (C115_derived_violated). All other pairs and their accessors do (C115_compiles_partial, C115_accessors_partial).
* **C116** Holds exactly for arguments that fit the widest integer type (C116_floor_partial, C116_ceil_partial); all other calls do not compile or are wrong (C116_violated).
* **C117** Proved with relative error 2^-127 between 2^-186 and 2^186 (every positive float). Beyond 2^300 the result is at least 2^50 times too large, and similarly for tiny doubles (C117_large_violated, C117_small_violated). Exact arithmetic; rounding is not modelled.
* **C12** Violated by the code: not idempotent in front of U+FEFF, undefined behaviour on the code points of C13, wrong text trimmed when the byte order of UTF-16/32 is guessed wrongly (witnesses proved). Proved for all other well-formed UTF-8, UTF-16 (basic multilingual plane) and UTF-32 strings.
* **C121** atan2(0, 0), which std::atan2 defines as zero, does not compile (C121_atan2_violated). Exact arithmetic.
* **C122** Proved in exact arithmetic. With rounding it is violated for float and double, with and without fused operations: small negative angles give 2 pi, some positive angles a negative result, and the signed version leaves its range on both sides (C122_small_violated, C122_negative_violated, C122_signed_violated). What holds with rounding is C122_rounding_partial and C122_signed_rounding_partial: the result is the angle less a number of full turns, and in its range, up to at most twelve units of round-off of the angle and 90 more; the range of exponents is not bounded there.
* **C124** Proved for all values but the smallest of a signed type, which is returned unchanged or undefined (C124_abs_violated).
* **C125** For an epsilon of zero nothing equals itself (C125_zero_violated).
* **C126** Between two equal values it can give another value (C126_constant_violated). The exponent range is not modelled.
* **C127** Proved for all constants that do not involve e, except quadruple long double. Those that involve e are the nearest for float and less than two units off for double; e itself is not the nearest double, and none is right for long double (C127_e_violated, C127_exponentials_violated). The 22 digits are too few for a quadruple long double (C127_long_violated). Exponent ranges are not modelled.
* **C128** Proved for all that do not involve e, but degrees_to_radians (less than one unit off; C128_degrees_violated); violated by all 18 that involve e (C128_exponentials_violated).
* **C129** Proved: less than one unit in the last place off. 39 constants of the emulated type are rounded up and not the nearest, pi among them (C129_half_violated).
* **C13** Violated by the code: is_whitespace reaches MUU_UNREACHABLE on three code point ranges (proved). Outside those ranges the result is proved to equal White_Space for all 32- and 16-bit values.
* **C130** All values of both operands. Products with integers are rounded twice and can be off (C130_integer_violated).
* **C131** atan2 swaps its arguments and gives the angle of (y, x) (C131_atan2_partial, C131_atan2_violated).
* **C132** Proved for triangles whose corners are in the plane of the other or at least epsilon from it, measured by six times the signed volume. The tolerance does not scale with the triangles: triangles arbitrarily far apart are reported to intersect (C132_far_violated) and crossing ones are missed (C132_missed_violated).
* **C133** Proved under the same condition as C132. Otherwise the function can read variables it has not initialised (C133_undefined_violated): the second result of compute_intervals_isectline is ignored.
* **C134** Two spheres: only one direction holds; overlapping spheres can be reported as disjoint, because the squares of the radii are added (C134_sphere_violated), as in C102.
* **C136** 128-bit integers are cut to 64 bits (C136_wide_violated). The text of a single floating-point number is the standard library's: the theorems hold for any. axis_angle's operator<< (axis_angle.h 167) calls a function with arguments no declaration accepts and does not compile.
* **C137** A vector from an empty span that has no data breaks the constructor's assumption that the pointer is not null (C137_empty_span_violated); spans with elements are right (C137_span_partial).
* **C138** Wrong where the common type does not represent both operands: signed and unsigned of the same width (C138_signs_violated) and integers beyond the precision of the floating-point type (C138_large_violated).
* **C139** Unsigned 16-bit products that exceed int are undefined (C139_short_product_violated). dot, cross and shifts of unsigned 32- and 64-bit vectors go through the signed type of the same width: wrong (C139_dot_violated, C139_shift_violated).
* **C14** Violated by the code: is_hyphen reaches MUU_UNREACHABLE on seven code point ranges (proved). Outside those ranges the result is proved for all values.
* **C140** Wrong for: the integer 0 and least values (C140_zero_violated); instances as arguments of templates, where a piece of the argument is repeated (C140_nested_violated); arrays of arrays (reversed, so another type's name), pointers to arrays, arrays of function pointers (C140_arrays_violated); pointers to functions with parameters and an ellipsis (C140_variadic_violated). C140_names_partial covers the types without these.
* **C141** Proved faithful from 2^-14 to 131071 and for zeros, infinities, NaN. Violated: the nearest half is not chosen if it is above (C141_nearest_violated), every sum that is subnormal and not zero is wrong (C141_subnormal_violated), every product of 2^17 or more is finite and negative instead of infinite (C141_large_violated).
* **C142** ~ is proved for enumerations with a fixed integer type, and for others if they have negative values or all values of the promoted type. Violated: with underlying type bool ~true is true (C142_bool_violated); for the other enumerations without a fixed type ~ is undefined for every value (C142_unfixed_violated).
* **C144** Proved when the sums of products stay below 2^31 (2^(bits-1) for wider types), so always for bytes (determinants up to 3x3). Violated: the product of unsigned matrices is computed in a signed type and undefined although it and all intermediate results are values of the scalar type (C144_unsigned_violated); the determinant of a 4x4 matrix of bytes can overflow int (C144_determinant_violated), and that of unsigned entries from 2^31 on has the wrong sign (C144_determinant_sign_violated).
* **C145** Exact real arithmetic. Violated: an axis of length zero, as after a scaling by zero, counts as sheared (C145_zero_scale_violated).
* **C146** Violated three times: if a thread other than the first cannot be started, the constructor joins threads that were not told to stop and never ends (C146_throws_violated); without memory it constructs at a null pointer (C146_memory_violated); move assignment drops the pool of its target, whose threads run for ever (C146_destroyed_violated).
* **C147** Violated for division by a number, which multiplies by the rounded reciprocal (C147_divide_violated): 5/3 is not the nearest float, x/x may not be one, and with subnormal divisors x/x is infinite and 0/x is NaN. The error bound is C147_divide_partial; powers of two are exact (C147_divide_power).
* **C150** Violated where squares overflow or underflow though lengths do not: length({2^64,0}) is infinite and length({2^-76,0}) zero for floats, such vectors normalize to infinities, NaN or zeros (C150_length_violated, C150_normalize_violated), and in one dimension. The partial theorems have the range in which the bounds hold.
* **C151** Violated: a vector with an infinite component is equal but not approximately equal to itself (C151_reflexive_violated); planes and bounding spheres of different scalar types cannot be compared, the call of muu::approx_equal(float, double, double) is ambiguous (C151_plane_sphere_violated); bounding_sphere::approx_zero passes the radius for a vector and does not compile (C151_sphere_zero_violated); integers above the precision are rounded first (C151_integers_violated). Against integers the default epsilon of vectors of float is that of double, so that approximate is exact (C151_integers_exact).
* **C153** Violated: with the contractions that MUU_FMA_BLOCK asks for, cross(v, v) is not zero but the rounding error of a product (C153_self_violated). half is promoted and not covered.
* **C155** Violated where squares overflow or underflow though lengths do not: such quaternions normalize to infinities, NaN or zeros (C155_normalize_violated). half is promoted and not covered.
* **C158** Partial because the last sentence is violated: the constructor with one argument takes the null pointer as the start, so every use of the range has an unspecified or undefined result. The difference of two iterators over pointers does not compile and is not modelled.
* **C159** Partial because the last sentence is violated: a worker counts a task as done before destroying its callable, so wait() can return first (C159_destroyed_after_wait_violated). The actions are the steps of the model of C35-C41; reads and writes are not told apart.
* **C160** Partial because of three violations. An lvalue which cannot be copied without throwing, or is larger than 56 bytes, is kept by pointer and must outlive the task (C160_lvalue_violated, C160_referred_partial). In for_each the limit is 32 bytes, so an lvalue that enqueue copies is referred to by for_each (C160_batch_lvalue_violated). A constant callable with a non-constant overload taking an index is called through that one, always with batch index 0 (C160_batch_index_violated).
* **C161** Partial because of the emulated conversion: it truncates (C161_nearest_violated), and integers from 2^17 to 2^32 become finite negative numbers (C161_large_violated); below the least normal half see C52. Proved for emulated halves: integers up to 2048 exact and back, all else up to 131071 faithful; conversions to integers and wider types for all halves.
* **C162** Partial: literals too large for the type compile, with another value (C162_range_violated); -128_i8 and -32768_i16 are positive, and the least values of the other signed types cannot be written with a minus (C162_least_violated).
* **C163** Partial: for types of less than 32 bits a + b, a - b, +a and -a do not compile, because the promoted result is narrowed in a list-initialisation (C163_narrow_violated); for references to constants they compile and the result refers to a temporary that is gone (C163_dangling_violated); x++ and x-- do not compile for references (C163_postfix_violated). Value types that are classes and the trait callable are not modelled, except for != and !.
* **C166** Partial: a box made of points does not always contain them: center and extents are rounded to nearest, not outwards (C166_violated gives float points where from_points and append fail, a box that does not contain its max_corner and a box of far points that contains nothing). What holds instead is C166_fit_partial, C166_points_partial: the points are outside by at most the unit round-off times the largest coordinate and the least subnormal number.
* **C167** Partial: any_cv says that it counts references to qualified types, and does not (C167_violated). It is right for types that are not references (C167_any_partial).
* **C169** Partial: char8_t, char16_t and char32_t are integral but make_signed of these is void (C169_violated), although make_unsigned works. All other statements hold in full.
* **C170** Partial: rebase_pointer of a pointer that is itself const or volatile loses the qualifiers of the pointed type: rebase_pointer<const int* const, float> is float* (C170_violated). noexcept is neither added to nor removed from functions with an ellipsis (C170_noexcept_violated).
* **C171** Partial: if all types are smaller than int, the order matters: a matrix from signed char, short, unsigned char has elements of type short, one from short, signed char, unsigned char of type int (C171_violated). It does not matter if one type is not smaller (C171_order_partial).
* **C172** Partial: on Windows the copy of the name has no zero byte after it unless the name has exactly 255 bytes, so debuggers are given bytes that were never initialised; a name of 256 bytes loses its last byte and a longer one is read beyond the buffer (C172_violated). The description is right up to 255 bytes (C172_name_partial). On other systems nothing is done.
* **C175** C175_violated: the square of a radius of 2^64 or more overflows in float, and contains is then true of every point; squares of small numbers underflow, and a sphere of radius 2^-77 contains a point at twice the distance. The partial theorems exclude the first.
* **C176** C176_count_violated: MUU_COUNT_VA_ARGS of no arguments is 1, and of 125 or more it is the text of the 125th argument, not a number, although MUU_FOR_EACH accepts 125.
* **C178** Violated by the code in two ways: a constant request for another character type destroys the string that earlier views of an owning parameter refer to (C178_view_violated); and the std::string in a parameter moved into a new one, or into one of another kind, is never destroyed as an object (C178_destroyed_violated; its characters are moved, so they do not leak). Partial also as C58 (texts on which the operations are undefined). Allocation failure is not modelled.
* **C179** Violated by the code: a failing resize of a non-empty blob copies to a null pointer (C179_resize_violated); a blob whose construction failed claims its size although data() is null, and resizing it copies from null even if there is memory again (C179_claimed_size_violated). Proved: these operations (and the self-assignment of C43) are exactly the undefined ones (C179_exact_partial); in all other histories everything is defined, the claimed sizes, alignments and the bytes are as predicted, and nothing leaks. The model is of a release build: in a debug build the assertions abort the program instead.
* **C180** Violated by the code: an array which found no memory claims its capacity and constructs the first element at a null pointer (C180_no_memory_violated); sizeof(T) * capacity wraps around, so that filling an array of such a capacity writes beyond its memory (C180_overflow_violated). Proved for all histories which add elements only to arrays that found memory, with numbers of bytes in range (C180_history_partial). The model is of a release build with exceptions enabled: an assertion or std::terminate() ends the program otherwise.
* **C182** Violated close to the plane: C182_same_side_violated exhibits floats strictly on either side that are said to be on the same side; C182_position_violated shows that a plane made in a context with another contraction does not contain its position exactly. The partial theorems assume that points are further off than the error, and one contraction for both.
* **C183** Violated by spheres: C183_sphere_nan_violated (a ray aimed at the centre of a sphere hits at NaN, since e2 - a2 is rounded below zero) and C183_sphere_behind_violated (a negative distance). Violated by boxes: C183_box_violated (NaN along an edge, no hit along a face). Violated by planes under different contractions: C183_plane_violated (infinite distance).
* **C184** Partial: violated by the centroid of equal corners, which can be another point (C184_centroid_violated); by the area, which Heron's formula makes NaN for thin triangles that are not degenerate (C184_area_violated); by hits of triangles whose determinants overflow, at the distance NaN (C184_hit_nan_violated); and by triangles behind the ray, which are hit at negative distances (C184_hit_behind_violated). C184_hit_partial therefore says nothing about the sign of the distance.
* **C185** Partial: violated by midpoints, whose sum can overflow though they are between the ends (C185_midpoint_violated); by the closest point of an end, and the end extended by zero, which are other points (C185_end_violated); by long segments, which do not contain their ends with the default epsilon (C185_contains_violated); and by short segments with different ends, whose closest points are NaN (C185_short_violated). The other theorems exclude overflow and underflow of the squares (Moderate) and have the errors of rounding in their statements.
* **C187** Partial: violated with contraction by the other corners' coordinates (a triangle of small integers whose second corner gets -11, 1 and 11) and by middles of edges (reported as not contained), without contraction by thin triangles (all coordinates NaN) and by points of the line of the second and third corners outside of the triangle (contained, as C97). Formats that are promoted (half) are not modelled with rounding here. Containment of points that are not known to be in the plane: see C188.
* **C188** Partial: proved if the triangle is not so thin that rounding can change a 32nd of the cross product, nor so small or large that the square of the cross product's length underflows or overflows. Violated without that: a triangle with edges of 2^-40 does not contain its own first corner whatever epsilon is (the normal is NaN), and one with edges of 2^40 contains points however far from its plane (the normal is zero), in floats without contraction. Points outside of the triangle beyond the edge opposite to the first corner: see C97 and C187. Formats that are promoted (half) are not modelled with rounding here.
* **C189** Partial: the code compares with the sum of the squared radii. So spheres that it says intersect have a point in common (C189_common) and a sphere that is inside by the test's measure is found (C189_inside), but it misses spheres that overlap (C189_apart_violated) and says that a sphere which sticks out is contained (C189_out_violated); small spheres that are far apart intersect because the squares underflow (C189_small_violated). Formats that are promoted (half) are not modelled with rounding here.
* **C21** Violated by the code for index == sizeof(T) (proved: undefined shift for 4, 8 and 16 byte types, the value itself for one byte types); every other index is proved.
* **C31** Exact characterisation of the accepted strings for UTF-8, UTF-16 and UTF-32. The full English claim is false (a truncated UTF-8 sequence behind the text is ignored; byte-swapped UTF-16/32 text is accepted); proved outright for well-formed UTF-8 and for UTF-32 code points.
* **C37** Violated after 2^64 puts unless the capacity is a power of two (proved: undefined behaviour with capacity 3); proved for every history with fewer than 2^64 puts, and for every history when the capacity is a power of two.
* **C38** Violated for descending ranges from the largest value of the type (unsigned: the last batch is dropped; signed: overflow) and for signed ranges longer than the type (overflow); proved for all other ranges of 32 and 64 bit types and every worker count. Narrower types do not compile and are not modelled.
* **C40** Violated (undefined conversion) exactly for one worker and a requested queue size of at least 2^64 - 1024; proved for all other arguments, including the IEEE double arithmetic and the memory layout.
* **C43** Every history of operations on any number of blobs over an explicit heap, except that a self copy-assignment of a blob of 2048 bytes or more with alignment below 64 is excluded: there the claim is false (C43_self_assign_violated, use of freed memory).
* **C45** Count, minimum, maximum (any value type with a strict weak order) and sum (integer types, while representable) proved for every sequence of samples. Merging is violated: add(other) on a non-empty accumulator replaces its contents, and on an empty one mixes in zeros; C45_merge_partial gives the cases that are right. Floating-point summation is C149; the merge of floating-point accumulators does not compile.
* **C46** Proved for non-empty ranges over every integer type; size is violated (signed overflow) for signed 64-bit ranges of 2^63 elements or more; intersects/contains(range) are violated for empty ranges, union_with for ranges that do not touch (it is the hull).
* **C47** Proved for every chain of first/last/subspan/as_bytes/conversion calls, dynamic and static; violated for conversions to a larger static extent, which are accepted unchecked. Array/iterator/range constructors are the (pointer, size) one.
* **C48** Equality proved; empty() is violated for every static_array, operator< never compiles for distinct arrays (pointer past the wrong array).
* **C49** Construction, truncation, concatenation and the seam (null termination) proved; substr/slice proved except for the lowest value of narrow signed index types, which is violated.
* **C50** Proved for distinct objects in C++17; violated for compare(self) (returns 1) and for the C++20 defaulted <=> on signed char (disagrees with compare; < is not transitive).
* **C51** Proved for histories of stores and reads of nonnegative tags and aligned pointers, for every alignment and number of free high bits; violated: a negative tag of a narrow signed type sign-extends into the pointer, and the alignment assertion uses bit_floor so it accepts misaligned pointers, whose low bits then appear in the tag.
* **C52** half to float proved exact for all 2^16 patterns, round trip proved except subnormals; float to half proved to truncate within the normal range and for special values. Violated: all subnormal halves fail the round trip, the nearest half is not chosen when it is above, floats from 2^17 wrap to finite halves, floats below 2^-14 give wrong values. The naive conversions are modelled, not the F16C instructions.
* **C55** min, max, clamp for any number of arguments and any total order. between is violated for some mixed signed/unsigned bounds (C55_between_violated); C55_between_partial covers the rest.
* **C57** gcd for any number of arguments of mixed types. lcm is violated when an argument 0 meets an unrepresentable intermediate result, and for mixed types; C57_lcm_partial covers the rest.
* **C58** Violated by the code: moving from or trimming an empty parameter is undefined, a text of NULs viewed in another character type dereferences null, wrongly guessed byte order and supplementary characters in UTF-16 change the text (witnesses proved). For all other texts every history is proved defined and faithful. Storage lifetimes are in C178.
* **C59** Floating-point operations of packing are modelled with their rounding (round to nearest even, unbounded exponent); unpacking here in exact arithmetic and up to the final normalisation, which C157 has with rounding. Proved for every integer/scalar pair in Supported3/Supported2. Violated: vectors with z about 0 and |y|>|x| can come back with x and y exchanged; a 2D float vector in 32 bits (the default) on the x axis comes back as the negative y axis.
* **C63** Violated by the code: no supplementary-plane lowercase letter is recognised (proved). Proved for every 16-bit value and for all 32-bit values below U+10000.
* **C64** Violated by the code: U+2182 reaches MUU_UNREACHABLE and no supplementary-plane uppercase letter is recognised (proved). Proved for everything else.
* **C66** Violated by the code: a size close to 2^64 wraps to a request for 0 bytes (proved); proved for every size whose rounding up is representable.
* **C67** Violated by the code: the block counter has 32 bits, so for 2^38 bytes and more the length field of the padding is wrong (proved for all such messages up to 2^61 bytes). C24 proves the rest.
* **C68** Violated by the code as a consequence of the byte-order heuristic and of C03 (witnesses proved for UTF-16 and UTF-32); proved for UTF-32 strings with a byte order mark and for those the heuristic gets right, for UTF-16 text of the basic multilingual plane likewise, for fnv1a and sha1.
* **C72** Loop, unsigned offsets: all integer types up to 64 bits. Signed offsets and differences are violated for the unsigned 64-bit type across 2^63 (signed overflow); proved otherwise. Pointers: C158. Enums are rejected by a static assertion although documented.
* **C73** Proved for the qualifier table as the most specialised matching specialisation; violated: spans of non-const elements from const/volatile sources are accepted.
* **C79** Violated in dimension one: length({x}) is x, negative for negative x (C79_length_violated). Proved for dot and distance in every dimension and for length in all others.
* **C80** Violated in dimension one (every vector normalizes to {1}: C80_normalize_violated) and for integral vectors (normalized is always false from two dimensions on: C80_normalized_int_violated). Proved otherwise.
* **C86** Violated in left-handed modes (C86_left_handed_violated) and by the screen-size overload, which ignores the mode (C86_screen_size_violated). Proved for right-handed modes and for the default mode.
* **C89** Violated when two or more angles are non-zero: the later rotations are about the fixed axes, so yaw 90° and pitch 90° leave the nose pointing right instead of up (C89_local_axes_violated). Proved: unit result, the exact composition it computes, the documented meaning and signs for each single angle.
* **C90** Violated within about 0.8° of the poles (C90_band_violated), where pitch is rounded to 90°; the error there is at most 1.15° (C90_band_error). Proved everywhere else and exactly at the poles.
* **C92** Violated for all non-parallel vectors of different lengths (C92_lengths_violated): the scale uses the first length twice. Proved for vectors of equal length except those within the tolerance of being opposite.
* **C93** Partial: the speed is exactly constant where the inner product is below 0.9995; closer rotations are interpolated linearly, which keeps unit length and the shorter arc, and deviates from constant speed by at most θ³/14 (C93_slerp_close_speed), where θ < 0.032 is the angle between the quaternions. That the speed there is not exactly constant is C93_slerp_speed_violated.
* **C94** Proved, except for transform: it is right for similarity transforms and wrong for a non-uniform scale (C94_transform_violated), because the normal is transformed like a direction.
* **C95** False of the code: the comparison is inverted, so for segments with both ends off the plane the answer is always the opposite (C95_inverted, C95_violated).
* **C96** Proved for segments with distinct ends. False for zero-length segments (NaN, C96_zero_length_violated) and for coplanar when the second segment starts on the line of the first, as when segments share an end (C96_coplanar_violated).
* **C97** Proved, except: contains is also true for every point of the infinite line through the second and third corner (C97_contains_violated; C97_contains_partial is exact up to that line), and degenerate only notices coinciding corners (C97_degenerate_violated).

## Trusted base

* Lean 4.33.0's kernel, and Mathlib (whose proofs the same kernel checks).
* The axioms `propext`, `Classical.choice`, `Quot.sound` at most; `AXIOMS.md` lists them theorem by theorem. No axioms of our
  own, no `sorry` or `admit`, no `native_decide`, no `bv_decide`. `decide +kernel` is used where a domain is finite and is
  checked whole.
* That the model says what the C++ says: the definitions cite the lines they model, and were written by reading the text.
  The generated Unicode predicates and the decoder table were transcribed mechanically.
* The specification: the files in `Spec` and the statements in `Props`.
* The platform assumptions: 8-bit bytes, two's complement, 32-bit `int`, 64-bit little-endian target, IEEE 754.

## What is modelled and what is not

| source | modelled |
| --- | --- |
| `accumulator.h` | all, floating-point sums with their rounding; merging of floating-point accumulators does not compile |
| `aligned_alloc.h`, `apply_alignment.h` | the arithmetic; not the C library |
| `build.h` | the moment of compilation, from `__DATE__` and `__TIME__`, with its `static_assert`s; not the constants taken from the configuration |
| `bit*.h`, `byte_reverse.h`, `countl.h`, `countr.h`, `popcount.h` | the portable implementations; not the intrinsics |
| `blob.h` | all; C43 with allocation always succeeding, C179 with allocations failing at any point |
| `chars.h`, `impl/unicode_*.h` | all |
| `function_view.h` | all, at the level of which constructor is chosen and what it stores; conversions of arguments and `noexcept` are not modelled |
| `for_sequence.h` | all; the index wrapper types and the forms with deduced arguments are the same calls |
| `compressed_pair.h` | which elements are bases and which are members, construction, accessors and swap; not the sizes |
| `strong_typedef.h` | all traits but `callable`, for integers and references to them |
| `iterators.h` | all, over what is asked of types |
| `thread_name.h`, `src/thread_name.cpp` | all; what Windows does with a name is not modelled |
| `source_location.h` | all; what the compiler says of line, column, file and function is a parameter |
| `bit_cast.h` | all |
| `type_list.h`, `meta.h` (size, alignment and pack metafunctions) | all of `type_list.h`; of `meta.h` the metafunctions named in C110, C111 and C167 to C171 |
| `pointer_cast.h` | the casts chosen for every pair of types, and their effect; not `IUnknown` (Windows), virtual inheritance |
| `type_name.h`, `impl/type_name_specializations.h` | all for GCC and Clang but pointers to members; the compiler's text of template arguments is a parameter |
| `preprocessor.h`, `impl/preprocessor_for_each.h`, `impl/preprocessor_for_each_attributes.h` | `MUU_MAKE_FLAGS`, `MUU_MAKE_VERSION`, `MUU_FOR_EACH`, `MUU_COUNT_VA_ARGS`, the lists of function attributes |
| the rest of `meta.h`, `preprocessor.h` | not modelled |
| `emplacement_array.h` | all; C44 with allocation always succeeding, C180 with failing allocations and overflowing sizes |
| `fixed_string.h`, `static_array.h`, `span.h`, `tagged_ptr.h`, `integral_range.h` | all members with behaviour (ranges of integers and of pointers); the constructors that only forward are not repeated |
| `half.h` | conversions between half and all arithmetic types, literals, sign operations, comparison, as emulated; arithmetic on a native type and emulated (the naive conversions); `lerp`, `atan2`; constants |
| `integer_literals.h`, `size_t_literals.h` | all |
| `impl/core_constants.h` | the named constants of `T`, `float128_t` and `half`, the limits that are not taken from the standard library, digits, integers and characters |
| `hashing.h`, `src/hashing.cpp` | FNV-1a, SHA-1, the combiner, printing |
| `matrix.h`, `impl/matrix_base.h` | constructors, accessors, exact equality, `zero`, `infinity_or_nan`; integer arithmetic, products and determinants with overflow; floating-point products, transformation of positions, determinant and inverse with rounding; products, transposition, determinant, inverse, scale, translation and direction matrices, transform functions, orthonormalization, perspective projection, shear tests; exact arithmetic |
| `vector.h`, `impl/vector_base.h` | constructors, accessors, the component-wise macros, exact and approximate equality, `zero`, `infinity_or_nan`; the integer operators with overflow; the floating-point operators, sum, dot, lengths, distances, normalization, cross products, `orthogonal` and `lerp` with rounding; swizzles; products, length, distance, normalization, min/max/clamp, lerp, angle in exact arithmetic; not conversions from other libraries' types |
| `math.h` | `min`, `max`, `clamp`, `between`, `gcd`, `lcm`, `evenly_distribute`, `infinity_or_nan`, `abs`, `approx_equal`, `lerp`, `normalize_angle`, the constant-expression versions of `floor`, `ceil`, `sqrt` and the trigonometric functions, and what the geometry uses |
| `quaternion.h`, `axis_angle.h`, `euler_angles.h`, `impl/quaternion_x_matrix.h` | construction, products, rotation, conversions to and from matrices, axis-angle and Euler angles, `slerp`; exact arithmetic, and dot, products, rotation, conjugate, normalization and conversions to and from matrices with rounding; not the element-wise operators, accessors |
| `plane.h`, `line_segment.h`, `triangle.h`, `impl/plane_x_*.h`, `impl/line_segment_x_*.h`, `impl/tri_tri_intersection.h`, `impl/geometry_common.h` (planes, lines, segments, triangles) | construction, projection, distances, containment, intersection, transformation; exact arithmetic over the reals, a NaN vector is a separate outcome; planes with rounding: construction, origin, distances, projection, containment, sides, intersection with boxes; triangles with rounding: centroid, perimeter, area, barycentric coordinates, normal, coplanarity and containment of points; line segments with rounding: midpoint, length, direction, closest point, containment of points, extension, reversal; not the element-wise operators, accessors |
| `bounding_box.h`, `sat_tester.h`, `impl/bounding_box_x_*.h` (without the oriented box), `impl/geometry_common.h` (boxes) | construction, corners, measures, transformation, append, nearest point, containment and intersection with points, segments, triangles, boxes, spheres, planes; exact arithmetic, and with rounding construction, append, corners, nearest point, containment and intersection with points and boxes, intersection with spheres; the `collision_tester`; not the run-time `corner_min_max` |
| `bounding_sphere.h`, `impl/bounding_sphere_x_*.h` | measures, translation, scaling, nearest point, containment and intersection with points, segments, triangles, spheres; exact arithmetic, and with rounding containment of points, segments, triangles and spheres, intersection with spheres; the `collision_tester` |
| `oriented_bounding_box.h`, `impl/oriented_bounding_box_x_*.h`, `impl/bounding_box_x_oriented_bounding_box.h` | corners, volume, translation, scaling, transform, nearest point, containment and intersection with points, segments, triangles, spheres and boxes; exact arithmetic, and with rounding containment of points, segments, triangles and ranges, nearest point, corners, intersection with spheres, being contained in a box and `from_obb`; not the approximate comparisons |
| `ray.h`, `impl/ray_x_*.h` | positions, `infinity_or_nan`, hits of planes, triangles, spheres and boxes; exact arithmetic, with infinities and NaN for the divisions in the box test; with rounding positions and hits of planes, triangles, spheres and boxes; not approximate comparison |
| `packed_unit_vector.h` | packing with floating-point rounding; unpacking in exact arithmetic (C59) and with rounding, contraction and the final normalization (C157) |
| `scope_guard.h` | all but guards created with `new` |
| `spin_mutex.h` | all, under a view-based memory model; not the pause instructions |
| `string_param.h`, `src/string_param.cpp` | all but allocation failure (texts in C58, storage lifetimes in C178) |
| `strings.h`, `utf*.h` | all for `char`, `char16_t`, `char32_t` (and what forwards to them) |
| `thread_pool.h`, `src/thread_pool.cpp` | queues, monitor, workers, callers, `for_each`, sizing, construction with failures, ownership; as interleavings of steps, as executions that never end under fair scheduling, and with the happens-before order of the mutexes, under which they are free of data races (C159); how callables are kept, moved, called and destroyed, by the traits of their type (C160); not the Windows monitor, thread names |
| `src/stream_printer.h`, `src/vector_types_common.cpp` and the `operator<<` that use them | all, for a stream without errors in the "C" locale; the text of one floating-point number is any |
| `uuid.h`, `src/uuid.cpp` | all but the operating system's random source |
| `rolling_average.h`, `semver.h`, `bitset.h`, `concatenate.h` | stubs in the repository |
