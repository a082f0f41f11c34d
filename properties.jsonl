{"id": "C01", "title": "Unflagged messages hash to FIPS 180-4 SHA-1", "statement": "For every message shorter than 2^61 bytes, if Sum / CollisionResistantSum reports no collision, the 20 bytes returned are exactly the FIPS 180-4 SHA-1 digest of the message, so sha1cd is a drop-in replacement for crypto/sha1 on unflagged input.", "quantifier": "all byte strings of length < 2^61", "why_tests_cant": "the golden tests cover 34 short strings; equality must hold for every length residue, every padding shape and every block content", "anchors": ["sha1cd.go:Sum", "sha1cd.go:(*digest).checkSum", "sha1cdblock_generic.go:blockGeneric"]}
{"id": "C02", "title": "Chunking of writes is unobservable", "statement": "For every message and every way of cutting it into successive Write calls (empty ones included), the digest and the collision flag returned afterwards equal those of a single Write / of package-level Sum on the whole message.", "quantifier": "all messages, all finite partitions into Write calls", "why_tests_cant": "the number of partitions is exponential; buffering bugs live at specific residues of nx and len(p)", "anchors": ["sha1cd.go:(*digest).Write", "sha1cd.go:Sum"]}
{"id": "C03", "title": "Summing and inspecting never disturbs the running hash", "statement": "Sum, CollisionResistantSum, MarshalBinary, Size and BlockSize leave the hash exactly as it was: inserting any number of them anywhere in any history changes no later result.", "quantifier": "all histories of API calls and all insertion points", "why_tests_cant": "needs every interleaving of observers and writers, at every buffer fill", "anchors": ["sha1cd.go:(*digest).Sum", "sha1cd.go:(*digest).CollisionResistantSum", "sha1cd.go:(*digest).MarshalBinary"]}
{"id": "C04", "title": "Reset is indistinguishable from New", "statement": "After Reset, in whatever state the hash was (mid-block, flagged, unmarshalled from anything), every later history gives exactly the results it gives on a hash fresh from New.", "quantifier": "all prior histories, all later histories", "why_tests_cant": "stale buffer bytes or a stale flag would only surface in particular later histories", "anchors": ["sha1cd.go:(*digest).Reset", "sha1cd.go:New"]}
{"id": "C05", "title": "Write always accepts everything", "statement": "Write(p) returns (len(p), nil) for every p in every state.", "quantifier": "all states, all p", "why_tests_cant": "io.Writer contract must hold for every length", "anchors": ["sha1cd.go:(*digest).Write"]}
{"id": "C06", "title": "No API history panics", "statement": "No sequence of Write, Sum, CollisionResistantSum, Reset, MarshalBinary, UnmarshalBinary (with arbitrary, attacker-chosen bytes), Size, BlockSize ever panics: not the explicit panic in checkSum, not the testT panic of the detector, no slice or index out of range.", "quantifier": "all histories, all byte strings given to UnmarshalBinary", "why_tests_cant": "panic reachability over unbounded histories with hostile input", "anchors": ["sha1cd.go:(*digest).checkSum", "sha1cd.go:(*digest).UnmarshalBinary", "sha1cdblock_generic.go:checkCollision"]}
{"id": "C07", "title": "Checkpoint/restore preserves the digest", "statement": "Marshalling a hash at any point and restoring the bytes into any hash object (fresh or used) gives a hash whose digest agrees with the original for every later history of writes.", "quantifier": "all histories before the checkpoint, all states of the receiving object, all later histories", "why_tests_cant": "resume points x continuations is unbounded; golden tests check one half-way split", "anchors": ["sha1cd.go:(*digest).MarshalBinary", "sha1cd.go:(*digest).UnmarshalBinary"]}
{"id": "C08", "title": "Checkpoint/restore preserves the collision verdict", "statement": "A hash restored from MarshalBinary output reports the same collision flag as the original would, for every continuation.", "quantifier": "all histories before the checkpoint, all receiving objects, all continuations", "why_tests_cant": "requires a flagged prefix and a checkpoint after it; no test marshals a flagged hash", "anchors": ["sha1cd.go:(*digest).MarshalBinary", "sha1cd.go:(*digest).UnmarshalBinary"]}
{"id": "C09", "title": "UnmarshalBinary accepts exactly the marshalled format", "statement": "UnmarshalBinary succeeds iff the input is 98 bytes long and starts with the magic \"shacd\\x01\"; otherwise it returns the identifier error (bad or short magic) or the size error (good magic, wrong length) and leaves the hash unchanged.", "quantifier": "all byte strings, all receiving states", "why_tests_cant": "input space is all byte strings", "anchors": ["sha1cd.go:(*digest).UnmarshalBinary", "internal/const.go:MarshaledSize"]}
{"id": "C10", "title": "The marshalled form is canonical and determines the hash", "statement": "MarshalBinary always returns 98 bytes and no error, equal to magic, chaining value, pending bytes zero-padded to 64, 64-bit length; two reachable hashes with the same marshalled bytes give the same digests for all continuations; Marshal after a successful Unmarshal returns the input with the unused buffer bytes zeroed.", "quantifier": "all reachable states, all inputs", "why_tests_cant": "injectivity and canonicity quantify over pairs of histories", "anchors": ["sha1cd.go:(*digest).MarshalBinary", "sha1cd.go:(*digest).UnmarshalBinary"]}
{"id": "C11", "title": "A raised flag exhibits a genuine sibling collision", "statement": "If the collision flag is true then some 64-byte block of the padded message, together with the chaining value reaching it, has a sibling: a different block (its XOR with a listed disturbance vector's difference) and chaining value with the same SHA-1 compression output.", "quantifier": "all messages", "why_tests_cant": "false positives have tiny probability and cannot be sampled", "anchors": ["sha1cdblock_generic.go:checkCollision", "sha1cdblock_generic.go:hasCollided", "ubc/const.go:sha1_dvs"]}
{"id": "C12", "title": "Every sibling collision on a listed disturbance vector is detected", "statement": "If some block of the padded message satisfies the unavoidable bit conditions of one of the 32 listed disturbance vectors and its sibling for that vector (meeting it in the state before the vector's test step) compresses to the same value, the collision flag is true.", "quantifier": "all messages, all 32 disturbance vectors", "why_tests_cant": "the only known witnesses use two of the 32 vectors; no test input exists for the other vectors", "anchors": ["sha1cdblock_generic.go:hasCollided", "sha1cdblock_generic.go:checkCollision", "ubc/const.go:sha1_dvs"]}
{"id": "C13", "title": "The flag is exactly the per-block verdict over the padded message", "statement": "The flag returned for a message is true iff at least one of the blocks of message-plus-padding is judged colliding at the chaining value reaching it; which block, and what comes before or after, does not matter.", "quantifier": "all messages", "why_tests_cant": "needs every block position including the padding blocks", "anchors": ["sha1cd.go:Sum", "sha1cdblock_generic.go:blockGeneric"]}
{"id": "C14", "title": "Flagged blocks are hashed three times", "statement": "The digest of every message is the Merkle-Damgard chain in which an unflagged block is compressed once and a flagged block three times (240 steps), with the same padding as SHA-1.", "quantifier": "all messages", "why_tests_cant": "safe-hash values can only be tested on the two public collision pairs", "anchors": ["sha1cdblock_generic.go:blockGeneric", "sha1cdblock_amd64.go:block"]}
{"id": "C15", "title": "A collision in a completed block stays reported", "statement": "Once a completed 64-byte block of the data written so far has been judged colliding, every CollisionResistantSum after any further Write, Sum, Size, BlockSize or MarshalBinary reports true, until Reset.", "quantifier": "all histories", "why_tests_cant": "a lost flag needs a specific continuation", "anchors": ["sha1cd.go:(*digest).Write", "sha1cd.go:(*digest).CollisionResistantSum", "sha1cd.go:(*digest).Reset"]}
{"id": "C16", "title": "amd64 SHA-NI path equals the portable path", "statement": "For every state and every input, hashing with the amd64 assembly path gives the same digest and the same flag as with the portable Go path.", "quantifier": "all chaining values, all blocks, all initial register and scratch contents", "why_tests_cant": "2^672 block inputs; the assembly reconstructs states 58 and 65 indirectly", "anchors": ["sha1cdblock_amd64.s:blockAMD64", "sha1cdblock_amd64.go:block"]}
{"id": "C17", "title": "arm64 SHA1 path equals the portable path", "statement": "For every state and every input, hashing with the arm64 assembly path gives the same digest and the same flag as with the portable Go path.", "quantifier": "all chaining values, all blocks, all initial register contents", "why_tests_cant": "2^672 block inputs plus the uninitialised register the routine reads", "anchors": ["sha1cdblock_arm64.s:blockARM64", "sha1cdblock_arm64.go:block"]}
{"id": "C18", "title": "Compression states are rectified exactly", "statement": "The states before steps 58 and 65 that the SIMD paths hand to the detector after rectification are exactly the SHA-1 working states before those steps, for every input.", "quantifier": "all chaining values and blocks", "why_tests_cant": "one numeric vector is tested", "anchors": ["sha1cdblock_generic.go:rectifyCompressionState"]}
{"id": "C19", "title": "cgo and pure Go agree", "statement": "For every input, package cgo (the C reference implementation) and package sha1cd return the same digest and the same flag, however the input is chunked.", "quantifier": "all messages, all chunkings", "why_tests_cant": "differential fuzzing never finds a block that passes the recompression test", "anchors": ["cgo/sha1.c:sha1_process", "cgo/sha1.go:(*digest).CollisionResistantSum", "sha1cd.go:(*digest).CollisionResistantSum"]}
{"id": "C20", "title": "CalculateDvMask is exactly the unavoidable bit conditions", "statement": "For every expanded message, bit i of CalculateDvMask is set iff all unavoidable bit conditions of disturbance vector i hold; the Go and C implementations return the same mask; a nil argument gives 0.", "quantifier": "all 2^2560 expanded messages", "why_tests_cant": "the mask function has 88 guarded branch-free updates; sampling almost always yields 0", "anchors": ["ubc/ubc.go:CalculateDvMask", "cgo/ubc_check.c:ubc_check"]}
{"id": "C21", "title": "The disturbance-vector table is the published one", "statement": "Each of the 32 entries of SHA1_dvs is the message difference of the disturbance vector I(K,b) or II(K,b) named by its type/K/b, lies in the SHA-1 message-expansion code, has its own mask bit, and is tested at a step where the disturbance vector leaves the state difference zero; the list ends with the terminator entry; the C table is identical.", "quantifier": "all 33 entries x 80 words", "why_tests_cant": "a single mistyped word silently disables one vector", "anchors": ["ubc/const.go:sha1_dvs", "ubc/ubc.go:SHA1_dvs", "cgo/ubc_check.c:sha1_dvs"]}
{"id": "C22", "title": "Both halves of a collision are caught", "statement": "If two messages reach the same block position with chaining values and blocks that are siblings for a listed disturbance vector (same state before the test step, same compression output) and one of them satisfies the bit conditions, then both messages are flagged.", "quantifier": "all pairs of messages, all vectors", "why_tests_cant": "requires collision pairs, of which two public ones exist", "anchors": ["sha1cdblock_generic.go:checkCollision", "ubc/ubc.go:CalculateDvMask"]}
{"id": "C23", "title": "The recompression test decides sibling collision exactly", "statement": "Given the working state before step T of a block's compression, the recompression test for a vector answers true iff the unique chaining value from which the sibling block reaches that state compresses the sibling to the block's own output.", "quantifier": "all states, messages, outputs, and each test step in use (58 and 65)", "why_tests_cant": "160-bit equality is never true on random tests", "anchors": ["sha1cdblock_generic.go:hasCollided"]}
{"id": "C24", "title": "Length accounting is exact modulo 2^64", "statement": "After any writes the hash's length counter is the number of bytes written modulo 2^64 and the buffer fill is that number modulo 64; the padding encodes 8*length modulo 2^64; crossing 2^61 or 2^64 bytes never panics and yields the digest with the wrapped length field.", "quantifier": "all histories, including totals beyond 2^61 and 2^64 bytes", "why_tests_cant": "nobody can write 2^64 bytes in a test", "anchors": ["sha1cd.go:(*digest).Write", "sha1cd.go:(*digest).checkSum"]}
{"id": "C25", "title": "Sum appends exactly 20 bytes and preserves its argument", "statement": "Sum(in) and CollisionResistantSum(in) return in followed by the 20 digest bytes; in[:len] is never altered; if cap(in)-len(in) >= 20 the digest is placed in the caller's array right after in and nowhere else, otherwise in a fresh array and no caller memory changes.", "quantifier": "all slices (length, capacity, aliasing), all states", "why_tests_cant": "aliasing depends on capacity; tests use nil", "anchors": ["sha1cd.go:(*digest).Sum", "sha1cd.go:(*digest).CollisionResistantSum"]}
{"id": "C26", "title": "One-shot Sum agrees with streaming", "statement": "Package-level Sum(data) returns the same digest and flag as New, Write(data), CollisionResistantSum.", "quantifier": "all messages, both evaluation orders the Go specification allows for `return d.checkSum(), d.col`", "why_tests_cant": "depends on unspecified evaluation order and only matters when the padding block is the flagged one", "anchors": ["sha1cd.go:Sum"]}
{"id": "C27", "title": "The no-cgo fallback is the pure Go hash", "statement": "Built without cgo, package cgo's Sum, New and CalculateDvMask return exactly what package sha1cd / ubc return.", "quantifier": "all inputs", "why_tests_cant": "all inputs", "anchors": ["cgo/fallback_no_cgo.go:Sum", "cgo/fallback_no_cgo.go:New"]}
{"id": "C28", "title": "Independent hashes do not interfere", "statement": "In any interleaving (any goroutine schedule at call granularity) of operations on any number of hash objects, each object returns exactly what it would return if its own operations ran alone.", "quantifier": "all schedules over any number of objects", "why_tests_cant": "schedules are unbounded", "anchors": ["sha1cd.go:digest", "sha1cdblock_generic.go:blockGeneric"]}
{"id": "C29", "title": "Write neither modifies nor retains its argument", "statement": "Write(p) changes no byte of the caller's memory, and changing p's bytes after Write returns affects no later result.", "quantifier": "all memories, all slices, all later mutations", "why_tests_cant": "retention shows only for particular later mutations", "anchors": ["sha1cd.go:(*digest).Write"]}
{"id": "C30", "title": "Switching implementation mid-stream is unobservable", "statement": "Changing between the assembly and the portable block function between any two calls (forceGeneric, or different CPU) never changes a digest or flag.", "quantifier": "all histories, all per-call choices of block function", "why_tests_cant": "histories x choices unbounded", "anchors": ["sha1cdblock_amd64.go:block", "sha1cdblock_generic.go:forceGeneric"]}
{"id": "C31", "title": "Collisions reduce to block-function collisions", "statement": "If two different messages (each shorter than 2^61 bytes) get the same sha1cd digest then two different (chaining value, block) inputs have the same output under sha1cd's block function (compress once, or three times if flagged), or the two inputs' padded forms coincide, which is impossible: the Merkle-Damgard guarantee survives the safe-hash change.", "quantifier": "all pairs of messages", "why_tests_cant": "quantifies over unknown collisions", "anchors": ["sha1cd.go:(*digest).checkSum", "sha1cdblock_generic.go:blockGeneric"]}
{"id": "C32", "title": "The exported table cannot be used to weaken detection", "statement": "Nothing a caller of package ubc can do changes what sha1cd detects.", "quantifier": "all caller programs", "why_tests_cant": "SHA1_dvs hands out the live table; tests never mutate it", "anchors": ["ubc/ubc.go:SHA1_dvs", "sha1cdblock_generic.go:checkCollision"]}
{"id": "C33", "title": "cgo hash: chunking, purity and reset", "statement": "The cgo hash's digest and flag depend only on the concatenation of the bytes written since Reset; Sum and CollisionResistantSum leave it unchanged; for messages under 2^61 bytes an unflagged digest is FIPS 180-4 SHA-1.", "quantifier": "all messages, partitions, histories", "why_tests_cant": "unbounded histories", "anchors": ["cgo/sha1.c:SHA1DCUpdate", "cgo/sha1.c:SHA1DCFinal", "cgo/sha1.go:(*digest).Sum"]}
{"id": "C34", "title": "cgo hash detects exactly the listed vectors", "statement": "The C implementation flags a message iff some padded block satisfies the bit conditions of, and has a sibling collision for, one of the 32 vectors.", "quantifier": "all messages", "why_tests_cant": "no test vectors for most disturbance vectors", "anchors": ["cgo/sha1.c:sha1_process", "cgo/sha1.c:sha1_recompression_step"]}
{"id": "C35", "title": "Flagged inputs get a different hash from SHA-1", "statement": "An input on which a collision is detected yields a digest different from its SHA-1 digest.", "quantifier": "all flagged messages", "why_tests_cant": "only two public collision pairs can be tested", "anchors": ["README.md", "sha1cdblock_generic.go:blockGeneric"]}
{"id": "C36", "title": "C library never aborts", "statement": "Every sequence of calls of the C library's functions on a context, whatever its contents and settings, returns normally: no abort(), no access outside the context's arrays, and SHA1DCFinal writes 20 bytes.", "quantifier": "all context contents, settings and call sequences", "why_tests_cant": "unbounded state space; tests always start from an initialised context with default settings", "anchors": ["cgo/sha1.c:SHA1DCUpdate", "cgo/sha1.c:SHA1DCFinal", "cgo/sha1.c:sha1_recompression_step"]}
{"id": "C37", "title": "C library settings mean what the header says", "statement": "After SHA1DCInit, for every sequence of setters and updates, SHA1DCFinal returns the digest and verdict prescribed by the settings in force when each block was completed: tested only if detection is on, filtered by bit conditions only if UBC is on, reduced-round collisions counted only if enabled, flagged blocks compressed three times only if the safe hash is on.", "quantifier": "all call sequences, messages and contexts", "why_tests_cant": "the repository never calls the setters", "anchors": ["cgo/sha1.h:SHA1DCSetSafeHash", "cgo/sha1.c:sha1_process", "cgo/sha1.c:SHA1DCSetUseUBC"]}
{"id": "C38", "title": "Plain SHA-1 on request", "statement": "With the safe hash switched off, or with detection switched off, the C library's digest is FIPS 180-4 SHA-1 for every input, and with detection off nothing is ever reported.", "quantifier": "all messages, partitions and other settings", "why_tests_cant": "all inputs", "anchors": ["cgo/sha1.c:SHA1DCSetSafeHash", "cgo/sha1.c:SHA1DCSetUseDetectColl", "cgo/sha1.c:sha1_process"]}
{"id": "C39", "title": "Settings and the verdict", "statement": "The safe-hash setting has no influence on whether a message is flagged; switching UBC off or the reduced-round search on never loses a detection.", "quantifier": "all messages and settings", "why_tests_cant": "relates runs with different settings on every input", "anchors": ["cgo/sha1.c:sha1_process", "cgo/sha1.h:SHA1DCSetDetectReducedRoundCollision"]}
{"id": "C40", "title": "Exactly one block function", "statement": "For every operating system, architecture, compiler and set of build tags, the files selected by the build constraints declare each package-level name of sha1cd once, declare everything they use, and include the assembly of every bodyless function; in particular exactly one file declares block.", "quantifier": "all build targets", "why_tests_cant": "a test runs in one build; the targets are infinitely many and mostly not available", "anchors": ["sha1cdblock_amd64.go:1", "sha1cdblock_arm64.go:1", "sha1cdblock_noasm.go:1", "sha1cdblock_amd64.s:1", "sha1cd.go:block"]}
{"id": "C41", "title": "Package cgo offers the same names with and without cgo", "statement": "Whether cgo is enabled or not, package cgo links and exports the same names.", "quantifier": "all build targets", "why_tests_cant": "a client that compiles in one setting says nothing about the other", "anchors": ["cgo/fallback_no_cgo.go", "cgo/sha1.go", "cgo/ubc_check.go"]}
{"id": "C42", "title": "The assembly is used only on CPUs that have its instructions", "statement": "Whenever the CPU check of a build binds the assembly block function, the CPU supports every instruction that function contains, so hashing never dies with an illegal instruction.", "quantifier": "all combinations of CPU features, all instructions of the two programs", "why_tests_cant": "needs CPUs with unusual feature sets", "anchors": ["sha1cdblock_amd64.go:hasSHANI", "sha1cdblock_arm64.go:hasSHA1", "sha1cdblock_amd64.s", "sha1cdblock_arm64.s"]}
{"id": "C43", "title": "Goroutines", "statement": "Any number of goroutines may use hash objects at the same time, each calling any methods, as long as no goroutine changes (Write, Reset, UnmarshalBinary) an object another one uses: whatever the interleaving of their accesses to memory there is no data race, no goroutine panics, and each gets the results its calls would give alone. In particular Sum, CollisionResistantSum and MarshalBinary may be called concurrently on one object. Without the discipline this is false.", "quantifier": "all sets of goroutines, call sequences, arguments, object histories and interleavings of single memory accesses", "why_tests_cant": "interleavings are chosen by the scheduler; the race detector only sees those that happen", "anchors": ["sha1cd.go:Sum", "sha1cd.go:CollisionResistantSum", "sha1cd.go:Write", "sha1cd.go:MarshalBinary"]}
{"id": "C44", "title": "The C code is compiled for the right byte order", "statement": "With a compiler that predefines __BYTE_ORDER__ and __ORDER_BIG_ENDIAN__ truthfully, and with the detection not overridden, package cgo computes the specified digests and flags on machines of either byte order, whatever other macros are defined. With any compiler whose macros mean what they are documented to mean, it does so on every little-endian machine, and on a big-endian machine exactly if one of the macros that cgo/sha1.c knows is there to tell. On any platform where the detection goes wrong, Sum of the empty message is already wrong, and not flagged.", "quantifier": "both byte orders, all sets of predefined macros, all messages and call histories", "why_tests_cant": "needs machines and compilers of each kind; the fallback branches of the detection are never compiled on the usual ones", "anchors": ["cgo/sha1.c:31-133", "cgo/sha1.c:sha1_load"]}
{"id": "C45", "title": "Package cgo and the caller's memory", "statement": "Sum and CollisionResistantSum of a cgo hash append the 20-byte digest of the bytes written to that hash to the slice given: in place when its capacity allows it, changing no other byte the caller can see, else in an array the caller did not have, changing none. Write changes no byte of the caller. The slice returned by the package's Sum is an array of 20 bytes that nobody else has.", "quantifier": "all programs, platforms, slices (any offset, length, capacity, aliasing)", "why_tests_cant": "aliasing between slices, and what C does through a pointer, cannot be enumerated by tests", "anchors": ["cgo/sha1.go:(*digest).Sum", "cgo/sha1.go:(*digest).Write", "cgo/sha1.go:Sum", "cgo/sha1.c:SHA1DCUpdate"]}
{"id": "C46", "title": "Objects of package cgo are independent and keep nothing of the caller's", "statement": "Every program that uses any number of cgo hashes, package-level sums and byte arrays, in any order, runs without abort or access outside an array; each hash returns what a new hash returns when the calls on it are run alone; overwriting a slice after it was passed or returned has no effect on any hash.", "quantifier": "all programs, numbers of objects, interleavings of calls, platforms", "why_tests_cant": "unbounded interleavings and aliasing", "anchors": ["cgo/sha1.go:New", "cgo/sha1.go:(*digest).Sum", "cgo/sha1.go:(*digest).Write", "cgo/sha1.c:SHA1DCFinal"]}
{"id": "C47", "title": "Hashing ends, after work proportional to the input", "statement": "Every call ends. No index is out of range. For every block of input the portable code makes between 83 and 3637 loop iterations, whatever the bytes are, flagged or not; a history of calls never costs more than 57 iterations per byte handed over. With assembly, counting its instructions too, a block takes 197 to 3979 steps on amd64 and 171 to 3901 on arm64; a call of the assembly itself takes the same number of instructions for every input. No input makes hashing slower than that. The number of steps is known exactly: for each block one compression and two more; if the block meets the unavoidable conditions of some vector, one step for each vector up to the first that flags it and 105 for each of those whose conditions are met; two more compressions if it is flagged. However a message is divided into Write calls, they and the sum together take the steps of Sum on the whole.", "quantifier": "all inputs, object states, call histories; 32-bit and 64-bit int", "why_tests_cant": "a slow or endless input need not be among the inputs tried; the loop over the table relies on a terminator and on early exits", "anchors": ["sha1cdblock_generic.go:blockGeneric", "sha1cdblock_generic.go:checkCollision", "sha1cdblock_generic.go:hasCollided", "sha1cdblock_amd64.s:blockAMD64", "sha1cdblock_arm64.s:blockARM64", "sha1cd.go:Write", "sha1cd.go:checkSum"]}
{"id": "C48", "title": "The assembly touches only what it is given", "statement": "Wherever in memory the chaining value, the chunk, the two scratch arrays, the stack frame and the arguments lie, aligned or not, as long as they do not overlap, and the constants of the assembly code lie in memory (on amd64 at multiples of sixteen, else the code faults), the assembly block functions run without a fault, read nothing else, change no byte outside the chaining value, the scratch arrays and (amd64) the frame, leave SP as it was, and leave the right values there, so that the hashes are those of the portable code. On arm64 the exception is R16 (see C17), and then the arrays keep their contents.", "quantifier": "all addresses, memory contents, register contents, permissions that include the areas, chunks, chaining values; all histories of calls", "why_tests_cant": "a stray store or an unaligned access shows only for particular addresses and neighbours in memory", "anchors": ["sha1cdblock_amd64.s:blockAMD64", "sha1cdblock_arm64.s:blockARM64", "sha1cdblock_amd64.go:block", "sha1cdblock_arm64.go:block"]}
{"id": "C49", "title": "A changed table has the same effect in every build", "statement": "Whatever a program writes into the table handed out by ubc.SHA1_dvs (entries changed, dropped or added, unknown test steps, no end mark), and whenever it does so between calls, every program of API calls returns the same results, leaves the same memory or panics in the same way in the portable, the amd64 and the arm64 build.", "quantifier": "all contents of the table, all programs, all states, all builds; all register and memory contents at the entry of the assembly, on arm64 with R16 below 2^64-64", "why_tests_cant": "tests never change the table, run in one build, and the states that the assembly reconstructs matter only for entries the shipped table does not have (test step 0)", "anchors": ["ubc/ubc.go:SHA1_dvs", "sha1cdblock_generic.go:checkCollision", "sha1cdblock_generic.go:rectifyCompressionState", "sha1cdblock_amd64.go:block", "sha1cdblock_arm64.go:block"]}
{"id": "C50", "title": "The C code and package cgo always finish, in linear time, without a stray access", "statement": "On a context with arbitrary contents (never initialised, copied, already finalised) and with any options, every sequence of calls of the C library ends, with `unsigned` counters of 32 bits and `size_t` of 32 or 64 bits, without reading or writing outside the buffers, the arrays of the context, the table or the bytes the caller passes, and without an undefined shift. SHA1DCUpdate uses exactly the len bytes it is given and processes exactly the blocks they complete, each with at most 2629 iterations and calls; package cgo's methods and Sum return the specified results after at most 2629 steps for each 64 bytes. The number of steps is exact: a function of the blocks, the chaining value and the settings (which vectors are to be tested, and which is the first to flag the block), plus one for each block taken from the caller's bytes in the loop.", "quantifier": "all contexts, options, sequences of calls, inputs whose length size_t can represent; size_t of 32 and 64 bits; both byte orders, with and without unaligned access", "why_tests_cant": "termination, run-time bounds and memory safety for all inputs and all context contents cannot be sampled", "anchors": ["cgo/sha1.c:sha1_process", "cgo/sha1.c:SHA1DCUpdate", "cgo/sha1.c:SHA1DCFinal", "cgo/sha1.go:Write", "cgo/sha1.go:Sum"]}
{"id": "C51", "title": "The hashes satisfy the interfaces they are asserted to", "statement": "For every target for which the module builds, the value returned by New of sha1cd and of package cgo satisfies hash.Hash and CollisionResistantHash, so a type assertion by the user, and the one inside the fallback's Sum, never panics. The hash of sha1cd also satisfies encoding.BinaryMarshaler and BinaryUnmarshaler; that of package cgo does so exactly when cgo is disabled. The whole module (sha1cd, ubc, internal, cgo) builds for every gc target unless tags named amd64, arm64 or cgo are given by hand, and the exact condition is stated for all targets: every name used across packages is exported by the package it is taken from, C symbols are defined once, and no import cycle exists.", "quantifier": "all operating systems, architectures, compilers, cgo settings and tags", "why_tests_cant": "a test compiles one target; a missing method or name shows only in the build that lacks it", "anchors": ["detection.go:5-11", "cgo/fallback_no_cgo.go:26-31", "cgo/sha1.go", "sha1cd.go:New"]}
{"id": "C52", "title": "The C code makes no misaligned access", "statement": "On processors that fault on misaligned words, for which none of the x86 macros and none of the overrides is defined, no history of calls on a hash of package cgo faults, wherever the caller's slices are: the C code reads words only from its own buffer, whose place in SHA1_CTX is aligned. Words are read from the caller's bytes exactly if the x86 macros or an override say so, and then a processor that faults would fault on every misaligned slice of 64 bytes or more.", "quantifier": "all sets of predefined macros, addresses of slices and objects, lengths, call histories", "why_tests_cant": "x86 and most ARM processors never fault, and allocators hand out aligned slices", "anchors": ["cgo/sha1.c:128-133", "cgo/sha1.c:2075-2085", "cgo/sha1.h:42-46"]}
{"id": "C53", "title": "Goroutines may share hashes, slices and the table as long as nobody changes what another one uses", "statement": "For any number of goroutines that call methods and functions of sha1cd and of package cgo, read and write bytes, and use slices of shared arrays (also overlapping ones, and ones with room behind them): if no goroutine changes an object, byte or table entry that another one uses, there is no data race, every goroutine is at every moment where it would be with nothing else running, ends after finitely many accesses of its own, and its results are those of its actions executed one after the other. Sum and CollisionResistantSum change exactly the 20 bytes behind the argument if its capacity allows and new memory only otherwise; Write never changes its argument. What nobody changes stays as it is, with or without races. Two goroutines that append digests to the same slice with room can get any mixture: the first k bytes of one digest and the rest of the other.", "quantifier": "all builds and platforms, memories, numbers of goroutines, action sequences, schedules", "why_tests_cant": "schedules and overlaps are unbounded in number; a race detector sees only the schedules that happen, and does not see the C code", "anchors": ["sha1cd.go:131-163", "sha1cd.go:207-212", "cgo/sha1.go:37-75", "cgo/sha1.c:2055-2092", "ubc/ubc.go:374-376"]}
{"id": "C54", "title": "What the time taken reveals", "statement": "Sum takes the least number of steps that the length of the message allows if and only if no block of the padded message meets the unavoidable conditions of any of the 32 disturbance vectors; which blocks these are does not depend on what was hashed before them. Hashing is not constant-time: there are two unflagged messages of 55 bytes of which one takes 83 steps and the other 220. The same holds for package cgo (2 and 115 steps). With the C library's detection off the number of steps depends on lengths only; with its unavoidable-condition check off every unflagged block takes 2625 steps and, if flagged blocks are compressed thrice, no flagged block does. (Users of HMAC-like constructions cannot rely on time being independent of secret bytes.)", "quantifier": "all messages, builds, 32-bit and 64-bit int and size_t, all contexts and settings of the C library", "why_tests_cant": "a test compares a few inputs, and cannot tell from time measured which conditions decide", "anchors": ["sha1cdblock_generic.go:checkCollision", "ubc/ubc.go:CalculateDvMask", "sha1cdblock_generic.go:blockGeneric", "sha1cdblock_amd64.go:block", "sha1cdblock_arm64.go:block", "cgo/sha1.c:sha1_process", "cgo/sha1.c:SHA1DCUpdate"]}
{"id": "C55", "title": "A digest and a length are enough to go on hashing", "statement": "The digest of a message is, together with the length of the message, a checkpoint: UnmarshalBinary accepts the magic, the digest, 64 zero bytes and the length of the padded message, and from then on every history gives what a hash holding the padded message gives, up to the flag. So whoever knows Sum(m) and the length of m can compute the digest of m, its padding and any suffix without knowing m (the digest does not authenticate keyed prefixes), and the flag of that longer message is the one so computed or that of m. Two messages of equal padded length with equal digests stay colliding when the padded messages are extended by the same bytes, and no such extension clears a flag.", "quantifier": "all messages, suffixes, receivers, later histories, builds (also different ones on the two sides); the last sentence for every set of detected blocks, so for Go, C and plain SHA-1", "why_tests_cant": "the statement is about all messages and all continuations", "anchors": ["sha1cd.go:75-92", "sha1cd.go:131-156", "sha1cd.go:166-196", "sha1cd.go:200-205"]}
{"id": "C56", "title": "Whatever starts with a flagged prefix is flagged, in particular every variant of the published collisions", "statement": "If a complete 64-byte block of p is judged colliding, every message that starts with p is flagged, by Sum (in either order of evaluation) and by every hash object holding it, however it was written and whatever was hashed before; likewise in package cgo. In particular every file that starts with the 320 bytes that begin either file of shattered.io, or with either file of sha-mbles.github.io, is flagged by both packages in every build, while plain SHA-1 gives the two files of a pair, with any common ending, the same digest.", "quantifier": "all prefixes with a judged block, all endings, all divisions into writes, all histories without restores, builds and C configurations", "why_tests_cant": "the tests hash the published files as they are; the endings and divisions are unbounded in number", "anchors": ["sha1cd.go:Write", "sha1cd.go:Sum", "sha1cd.go:CollisionResistantSum", "sha1cdblock_generic.go:checkCollision", "cgo/sha1.c:sha1_process", "cgo/sha1.c:SHA1DCUpdate"]}
{"id": "C57", "title": "A context of the C library shows the block processed last and, if it was found colliding, the other half of the collision", "statement": "After SHA1DCUpdate has completed at least one block, and after every SHA1DCFinal, the members ihv1 and m1 of the context are the chaining value from which the last block was processed and its 80 expanded words. If that block was flagged, ihv2 and m2 are the chaining value and the expanded words of the other half of the collision, for the first vector of the list that is tested under the settings in force and gives the block away: a different block, whose working variables meet those of the first after the tested step and, unless the block was flagged only because reduced-round collisions were asked for, compressed to the same result. These values are determined by the settings, the chaining value and the block. Calls that complete no block, the setters and SHA1DCInit leave the four members as they are. From the first file of shattered.io alone the context shows the colliding block of the second.", "quantifier": "all histories of calls on a context with arbitrary contents, all data and divisions into calls, all settings, all configurations", "why_tests_cant": "the members are never inspected by the tests; the statement ranges over all chaining values and blocks", "anchors": ["cgo/sha1.h:SHA1_CTX", "cgo/sha1.c:sha1_process", "cgo/sha1.c:SHA1DCUpdate", "cgo/sha1.c:SHA1DCFinal", "cgo/sha1.c:SHA1DCInit"]}
{"id": "C58", "title": "How rarely detection does any work, and how much work a block can cause", "statement": "Over all 2^512 blocks, the number of blocks for which CalculateDvMask (of the Go package and of package cgo's C code) sets the bit of a vector is exactly 2^512 divided by 2 to the number of that vector's bit conditions (7 to 15 of them): the conditions of each vector are independent. The masks of all blocks together have 1621 * 2^497 bits set; so fewer than one block in 20 and more than one in 243 cause any vector to be looked at. No argument, expanded from a block or not, gives a mask with more than twelve bits set, and a block with twelve exists. Hence the steps of Sum are at most c + 1294 for each block of the padded message if nothing is flagged, and at most 3c + 1294 otherwise, where a compression takes c steps; for package cgo 1006 and 1008, and one per complete block. The bounds for unflagged data are reached: an attacker who chooses the data can slow hashing down by that factor and by no more.", "quantifier": "all blocks, all arrays of 80 words, all messages, builds, 32-bit and 64-bit int and size_t", "why_tests_cant": "the share is a count over 2^512 blocks; that no message meets more than twelve vectors' conditions cannot be sampled", "anchors": ["ubc/ubc.go:CalculateDvMask", "cgo/ubc_check.c:ubc_check", "sha1cdblock_generic.go:checkCollision", "cgo/sha1.c:sha1_process"]}
{"id": "C59", "title": "The bit conditions lose no collision", "statement": "CalculateDvMask lets every collision through that is built the way such collisions are built. If two computations of SHA-1's compression function run on blocks that differ by the local collisions of one of the 32 vectors, and the working variables they compute in steps 30 to 65 differ by the bits of the vector, each with either sign and whatever carries that causes, then both blocks meet every bit condition of the vector, and both computations are in the same state before the vector's test step. Hence, if two messages contain such blocks and these compress to the same value, package cgo flags both messages for all 32 vectors, and package sha1cd flags both in every build for the fourteen vectors with test step 65; nothing is assumed about bit conditions. Every vector is followed by some computations, and the published collision follows II(52,0).", "quantifier": "all 32 vectors, chaining values, blocks, signs and carries; all messages containing the blocks, builds, 32-bit and 64-bit int", "why_tests_cant": "only collisions for one of the 32 vectors have ever been found, so no test can tell whether the conditions of the other 31 would discard one", "anchors": ["ubc/ubc.go:CalculateDvMask", "cgo/ubc_check.c:ubc_check", "sha1cdblock_generic.go:checkCollision", "cgo/sha1.c:sha1_process"]}
{"id": "C60", "title": "Every history of calls has exactly the specified results", "statement": "Take a hash object of package sha1cd from New and any sequence of calls of Write, Sum, CollisionResistantSum, Reset, Size, BlockSize, MarshalBinary and UnmarshalBinary, the last with any bytes at all: checkpoints of this or another object, forged, truncated or meaningless ones. No call panics, and every result, the error texts and checkpoints included, is the one of a specified object that holds a chaining value, at most 63 bytes waiting, a 64-bit count and a flag. That specification is written without the code, its digest of a message is the safe hash, and restoring the checkpoint of a message gives the object that holds the message, except for the flag, which is kept.", "quantifier": "all finite sequences of calls with all arguments, restores of arbitrary bytes included; all builds", "why_tests_cant": "histories are unbounded and a restore can put the object into any of 2^160 · 2^64 · 256^64 states; tests restore a handful of checkpoints that the code itself wrote", "anchors": ["sha1cd.go:New", "sha1cd.go:Write", "sha1cd.go:Sum", "sha1cd.go:CollisionResistantSum", "sha1cd.go:MarshalBinary", "sha1cd.go:UnmarshalBinary", "sha1cd.go:checkSum"]}
{"id": "C61", "title": "HMAC over the hash is HMAC", "statement": "Go's crypto/hmac, given New of package sha1cd or of package cgo as its hash, computes HMAC of RFC 2104 over the safe hash: for every key, shorter or longer than a block, and every sequence of Write, Sum and Reset, with or without the checkpoint of the keyed state that crypto/hmac saves and restores when the hash can be marshalled, every Sum returns the HMAC of the key and the bytes written since the start or the last Reset, and nothing panics. When none of the two (for a long key three) hashed strings is flagged, that is HMAC-SHA1.", "quantifier": "all keys, all finite sequences of Write, Sum and Reset; all builds of package sha1cd, all platforms of package cgo", "why_tests_cant": "a client mixes Reset, Sum in the middle and checkpoints of two objects in ways no test of the package does, over unbounded keys and messages", "anchors": ["sha1cd.go:New", "sha1cd.go:Sum", "sha1cd.go:Reset", "sha1cd.go:MarshalBinary", "sha1cd.go:UnmarshalBinary", "cgo/sha1.go:New", "cgo/sha1.go:Sum"]}
{"id": "C62", "title": "A collision that gets through is of a new kind", "statement": "If two different messages get the same digest from package cgo and neither is flagged, then they are a SHA-1 collision, and at some blocks of theirs SHA-1's compression function is applied to different arguments with equal results in a way that follows none of the 32 vectors. The same holds of package sha1cd in every build for the fourteen vectors with test step 65. Whatever the flags, two different messages with the same digest contain two different inputs with equal outputs of SHA-1's compression function, among the one to three compressions of two blocks; the only other possibility is that one computation reaches, before a block that is not flagged there, the chaining value that the other one has after compressing the same block, flagged there, twice. So the triple compression of flagged blocks opens no other way to collisions.", "quantifier": "all pairs of different messages shorter than 2^61 bytes, all builds, all platforms", "why_tests_cant": "it is a statement about all colliding pairs; nobody knows a pair that is not flagged, although such pairs exist (shown by counting)", "anchors": ["sha1cdblock_generic.go:checkCollision", "sha1cdblock_generic.go:blockGeneric", "ubc/ubc.go:CalculateDvMask", "cgo/sha1.c:sha1_process", "cgo/ubc_check.c:ubc_check", "sha1cd.go:Sum"]}
{"id": "C63", "title": "Compiling the safe hash out", "statement": "SHA1DC_INIT_SAFE_HASH_DEFAULT is a macro that whoever compiles package cgo may define (the C library documents the values 0 and 1). If it is 0, every history of calls on a cgo hash, and Sum, return the plain SHA-1 digest, while the flags are exactly those of the package compiled without it; so two colliding files get one digest again, and both are reported. With any other value all results are those of the package as it is.", "quantifier": "all values of the macro, all histories of calls, all messages, all platforms", "why_tests_cant": "tests run one build, and the flags of all messages would have to be compared across builds", "anchors": ["cgo/sha1.c:SHA1DC_INIT_SAFE_HASH_DEFAULT", "cgo/sha1.c:SHA1DCInit", "cgo/sha1.go:Reset", "cgo/sha1.go:New", "cgo/sha1.go:Sum"]}
{"id": "C64", "title": "Sharing a hash under a lock, or handing it over", "statement": "Goroutines may share hashes of both packages and byte slices if, whenever one changes what another uses, both do it holding the same mutex, or one waits for the other (channel, wait group, go statement). Then everything they get is what they would get if the sections between synchronisation points were executed one at a time, in an order that respects the order within each goroutine and the waiting: for objects with a known history, the results that the specification gives. Nobody panics, there is no data race, and unless sections wait for each other in a circle everybody can always get to the end. This holds although memory may show the writes of one goroutine to another late and out of order. Goroutines that share nothing anyone changes need no synchronisation.", "quantifier": "all numbers of goroutines, all sequences of calls, all memories, all schedules and all ways in which writes reach other goroutines", "why_tests_cant": "the race detector and stress tests see a few schedules, and on amd64 the hardware hides most reorderings", "anchors": ["sha1cd.go:Write", "sha1cd.go:Sum", "sha1cd.go:CollisionResistantSum", "sha1cd.go:Reset", "sha1cd.go:UnmarshalBinary", "cgo/sha1.go:Write", "cgo/sha1.go:Sum", "cgo/sha1.go:CollisionResistantSum"]}
{"id": "C65", "title": "The assembly files, read as text", "statement": "The two assembly files, read character by character - comments, macros, operands, labels, DATA lines - describe functions named blockAMD64 and blockARM64 with 96 bytes of arguments. Running what was read, statement by statement with jumps to labels, on a flat memory with the constants of the DATA lines, ends without a fault after at most 220 (amd64) or 180 (arm64) statements, changes nothing outside the frame, h, m1 and cs, and leaves there the next chaining value, the message schedule and the saved states; on arm64 under the condition of C17 on R16. Hashing with these functions gives the objects, digests and verdicts of the portable code.", "quantifier": "all addresses of the arrays, all contents of memory and registers, all chunks; for the API all objects and sequences of calls", "why_tests_cant": "tests run an assembled binary on one machine and a few inputs; that the text itself is right for every register content and layout cannot be sampled", "anchors": ["sha1cdblock_amd64.s:blockAMD64", "sha1cdblock_arm64.s:blockARM64", "sha1cdblock_amd64.go:block", "sha1cdblock_arm64.go:block"]}
{"id": "C66", "title": "The Go files, read as text", "statement": "The Go files of each build - internal/const.go, ubc/const.go, ubc/ubc.go, sha1cd.go, sha1cdblock_generic.go and one of sha1cdblock_noasm.go, sha1cdblock_amd64.go and sha1cdblock_arm64.go, with the assembly file that goes with it - read character by character, can be read as programs. Whatever a program then does with the package so described - any number of objects, slices that are parts of the same array, bytes overwritten between the calls, results passed back as arguments, any arguments to UnmarshalBinary, on a machine with the SHA instructions or without them - no call panics, gets stuck or loops forever, every method call on every object returns what the specification of its history says, and the package function Sum returns the specified digest and verdict. Everything that the program sees, and the bytes that each of its slices holds in the end, are a function of its steps: objects hold what the specification of their histories says, slices are parts of arrays of bytes, Sum and CollisionResistantSum put the digest behind the given slice in its array if there is room and else in a new one, MarshalBinary returns a new array, and no call changes any other byte that the program can reach. That no call panics says something because the runs make the checks that Go makes: an index outside an array or outside the length of a slice, bounds of a part that are out of order or beyond the capacity, and a field of a nil pointer each stop the run.", "quantifier": "all programs (sequences of New, slicing, assignments to elements, method calls and calls of Sum), all contents, all choices of the room that append leaves, all three builds and both values of hasSHANI and hasSHA1; slices shorter than 64*N bytes for the loop budget N, N any number above 33; for the assembly all contents of the registers and all placements of its arguments in memory, on arm64 those where R16 + 64 does not wrap (C17)", "why_tests_cant": "tests run a compiled binary on a few sequences of calls; that the text itself means the specification for every program cannot be sampled, and no hand-written model stands between the text and the statement", "anchors": ["sha1cd.go:New", "sha1cd.go:Write", "sha1cd.go:Sum", "sha1cd.go:CollisionResistantSum", "sha1cd.go:MarshalBinary", "sha1cd.go:UnmarshalBinary", "sha1cd.go:checkSum", "sha1cdblock_generic.go:blockGeneric", "sha1cdblock_generic.go:checkCollision", "ubc/ubc.go:CalculateDvMask", "ubc/const.go:sha1_dvs", "sha1cdblock_noasm.go:block", "sha1cdblock_amd64.go:block", "sha1cdblock_arm64.go:block", "sha1cdblock_generic.go:rectifyCompressionState"]}
{"id": "C67", "title": "The C library, read as text", "statement": "The C files behind package cgo - cgo/ubc_check.c and cgo/sha1.c with their headers - read character by character, preprocessed as a compiler for amd64, arm64, s390x, or s390x with unaligned access forced, does it, can be read as programs. Whatever sequence of calls of SHA1DCInit, the setters, SHA1DCUpdate and SHA1DCFinal a program then makes on a context with arbitrary contents, the functions so described never abort, never leave an array and never loop forever, and every SHA1DCFinal leaves the bytes and returns the number that the model of the library gives. In particular, after any calls whatever, SHA1DCInit followed by settings and bytes in any order and SHA1DCFinal give the digest and the flag of the specification, and with the settings that SHA1DCInit makes the digest is SHA-1 with the blocks of a detected collision processed twice more. A callback is never noticed: calls of SHA1DCSetCallback, with anything as the function that is passed and wherever they stand among the other calls, change nothing of what the program gets. A pointer to fewer than 64 bytes where a block is read would stop the run, so that no run reads a block that is not there. What else a compiler predefines, of whatever form, makes no difference: if it agrees with one of the four on the names that occur in the files, or are such a name followed by digits, it reads the same program. More: a compiler with any macros at all that are not names of the code outside of the detection (cgo/sha1.c:31-133) reads one of the four programs, namely the one of the byte order and of the access to memory that the conditions of these lines, as the model of C44 has them, find for its macros; so on a machine of that byte order it computes the specified digests.", "quantifier": "all sequences of calls, all contents of the context and of the output array before, all messages in pieces of fewer than 2^64 bytes (and fewer than 64*N for the loop budget N, N any number above 80), the macros of four compilers, little- and big-endian, each with and without unaligned access, and all lists of macros that define no name of the code", "why_tests_cant": "tests run a compiled binary on a few messages; that the text itself means the specification for every history of calls and on a processor of the other byte order cannot be sampled, and no hand-written model stands between the text and the statement", "anchors": ["cgo/sha1.c:SHA1DCInit", "cgo/sha1.c:SHA1DCSetSafeHash", "cgo/sha1.c:SHA1DCSetUseUBC", "cgo/sha1.c:SHA1DCSetUseDetectColl", "cgo/sha1.c:SHA1DCSetDetectReducedRoundCollision", "cgo/sha1.c:SHA1DCUpdate", "cgo/sha1.c:SHA1DCFinal", "cgo/sha1.c:sha1_process", "cgo/sha1.c:sha1_compression_states", "cgo/sha1.c:sha1_compression_W", "cgo/sha1.c:SHA1_RECOMPRESS", "cgo/sha1.c:sha1_recompression_step", "cgo/ubc_check.c:ubc_check", "cgo/ubc_check.c:sha1_dvs", "cgo/sha1.c:SHA1DCSetCallback"]}
