# Formal model of pjbgf/sha1cd in Lean 4 — design

The theorems are about a Lean model read off `/repo` by hand. The large tables and the unrolled
programs (`Model/DvTable`, `Model/CDvTable`, `Model/Ubc`, `Model/CUbc`, `Model/CSteps`, the two assembly
programs) were transcribed by script from the source text. Nothing in `/repo` was compiled or run.
Every definition of the model cites the file and lines it stands for.

## Layers

| Lean module | what it is | source |
|---|---|---|
| `Basic` | words, bytes, bounded loops, Go panics as values | – |
| `Spec/Sha1` | FIPS 180-4 SHA-1, written from the standard | – |
| `Spec/Collision` | disturbance vectors I(K,b)/II(K,b), message differences, siblings, safe hash | Stevens 2013, cgo/README.md |
| `Spec/Ubc` | declarative list of the unavoidable bit conditions | – |
| `Spec/Path` | what it means for two computations to follow a vector | – |
| `Spec/Detect` | the intended verdict on a block; the verdict the Go code computes | – |
| `Spec/Object` | what a hash object must answer, as a function of the bytes written | – |
| `Spec/Held` | the same in every history, restores of arbitrary bytes included | – |
| `Spec/Desk` | what a program with several objects and slices sees and holds | – |
| `Spec/Hmac` | HMAC, and crypto/hmac as a client of a hash | RFC 2104; Go's crypto/hmac, not in /repo |
| `Spec/System` | vocabulary for programs with several objects | – |
| `Spec/Conc`, `Par`, `Sync` | vocabulary for goroutines | – |
| `Spec/Work`, `CWork` | how many steps blocks and calls should take, in Go and in C | – |
| `Spec/Options`, `CgoDefault` | what a hash with given settings must compute and return | cgo/sha1.h |
| `Spec/Shown` | what the members of a context must show after a block | cgo/sha1.h |
| `Model/Const` | constants | internal/const.go |
| `Model/DvInfo`, `DvTable` | `DvInfo`, `sha1_dvs` | ubc/ubc.go, ubc/const.go |
| `Model/Ubc` | `CalculateDvMask` | ubc/ubc.go |
| `Model/Block` | `blockGeneric`, `checkCollision`, `hasCollided`, `rectifyCompressionState` | sha1cdblock_generic.go |
| `Model/Digest` | the digest, its methods, `Sum`, the checkpoint codec | sha1cd.go |
| `Model/Asm` | vectors, the memory an assembly function sees | – |
| `Model/Amd64`, `Arm64` | the assembly as programs for a machine, and the Go wrappers | *.s, sha1cdblock_{amd64,arm64}.go |
| `Model/Flat` | the same programs on a machine with one memory of bytes, arrays at any address, permissions, arguments in the caller's frame | *.s, sha1cdblock_{amd64,arm64}.go |
| `Model/Build` | which block function a build binds | sha1cdblock_*.go |
| `Model/CUbc`, `CDvTable`, `CSteps`, `CSha1`, `CApi` | the C implementation and its interface | cgo/*.c, *.h |
| `Model/Cpp` | conditional compilation: byte order, unaligned access | cgo/sha1.c:31-133 |
| `Model/CgoDefault` | package cgo with another default for the safe hash | cgo/sha1.c:24-26,2002-2016, cgo/sha1.go |
| `Model/Cgo` | package cgo, with cgo and its fallback | cgo/*.go |
| `Model/Target` | build constraints, package-level names, imports, methods and interfaces, C symbols, CPU features needed per instruction | *.go, *.s, *.c |
| `Model/Conc` | the methods as sequences of single memory accesses, goroutines, schedules | sha1cd.go |
| `Model/Par` | the same with objects of package cgo, shared byte arrays and the shared table | sha1cd.go, cgo/sha1.go, cgo/sha1.c:2002-2092, ubc/ubc.go:374-376 |
| `Model/Sync` | goroutines with mutexes and waiting, on a memory that does not keep the order of accesses | the same |
| `Model/Loops` | the Go code and the assembly again, with machine counters, run-time index checks and a budget | sha1cdblock_generic.go, sha1cdblock_amd64.go, .s, sha1cdblock_arm64.go, .s, sha1cd.go |
| `Model/CLoops` | the same for the C code and package cgo | cgo/sha1.c, cgo/sha1.go |
| `Model/Memory` | the digest with slices in shared memory; programs with several objects | sha1cd.go, ubc |
| `Model/CgoMemory` | the same for package cgo, down to the pointers passed to C | cgo/sha1.go, cgo/sha1.c |
| `Source/AsmText` | the assembly files, character by character, written by `tools/source_text.py` (`--check` compares with /repo) | *.s |
| `Source/AsmRead`, `AsmRun` | reading them (comments, macros, operands, instructions) and running what was read | *.s |
| `Source/GoText` | six Go files of packages `shared`, `ubc` and `sha1cd` and the two that choose the assembly, likewise | internal/const.go, ubc/*.go, sha1cd*.go |
| `Source/GoLex`, `GoSyntax`, `GoParse` | reading them: tokens, then declarations, names resolved | the same |
| `Source/GoSem`, `GoProgram`, `GoClient` | running what was read, with frames, pointers, slices and `append`; programs that use the package | the same |
| `Source/GoAsm` | the call of the assembly function from the Go code, with the arguments taken from and stored to Go memory | sha1cdblock_{amd64,arm64}.go |
| `Source/CText` | the C files and their headers, character by character, likewise | cgo/*.c, cgo/*.h |
| `Source/CLex`, `CParse` | reading them: lines, tokens, the preprocessor with its macros, declarations turned into the syntax of `GoSyntax` with C's conversions made explicit | the same |
| `Source/CProgram`, `CClient` | running what was read with `GoSem`; programs that use the library | the same |
| `Proofs/*` | lemmas | – |
| `Props/Stream`, `Codec`, `Detect`, `Arch`, `Cgo`, `Memory`, `Reduction`, `Files`, `Options`, `Target`, `Conc`, `Par`, `Cpp`, `CgoMemory`, `Loops`, `CLoops`, `Flat`, `AnyTable`, `Work`, `CWork`, `Extension`, `Published`, `Shown`, `Share`, `Path`, `Held`, `Hmac`, `Golden`, `NewKind`, `PathShambles`, `CgoDefault`, `Faults`, `Sync`, `Source`, `GoSource` | the property theorems | – |

`properties.jsonl` lists the properties, `MANIFEST.json` maps them to theorems. `seeded/LOG.jsonl` records
the wrong programs the theorems were tried on.

## Modelling choices

* `uint32`/`uint64`/`byte` are `BitVec 32/64/8` (wrap-around is real). `int` buffer indices are `Nat`.
* Fixed arrays are `Fin n → α`, or lists with a proof of their length. Slices are lists in
  `Model/Digest`; `Model/Memory` models them again with array, offset, length and capacity, so that aliasing
  with the caller's memory can be stated (C25, C28, C29, C32); `Model/CgoMemory` does the same for package cgo (C45,
  C46), where the words of `SHA1_CTX` stay outside that memory and only its buffer and the digests are inside.
* Panics, C faults (index or `memcpy` out of bounds, running off a table) and `abort()` are values of
  `Except Panic α`; “no panic” is a theorem, never built in.
  `Props/Faults` says for every such place exactly when it faults, so that a model that faults too rarely does
  not pass.
* A method with a pointer receiver returns the new object.
* Loops are bounded recursions with the same bounds, in the same order; `goto rehash` is recursion. `Model/Loops` models
  the Go code (with the portable block function or the assembly) once more with loops that may fail to end and indices that may be out of range, and C47 shows it
  equal to the first model; there `int` has 32 or 64 bits. `Model/CLoops` and C50 do the same for the C code, with
  `unsigned` of 32 and `size_t` of 32 or 64 bits, and with addresses of the blocks read.
* The Go specification does not fix whether `d.col` is read before or after `d.checkSum()` in
  `return d.checkSum(), d.col`; the model takes the order as a parameter (C26).
* The table `sha1_dvs` is a parameter of the block functions, because `ubc.SHA1_dvs()` hands out the live
  slice (C32).
* `B : Build` in a theorem means: any of the three ways to bind `block`, any CPU features, any value of
  `forceGeneric`, and, for the assembly functions, arbitrary register and stack contents at every call; the assembly
  functions either on a memory of separate arrays or on one flat memory (`amd64Flat`, `arm64Flat`),
  **subject to two conditions**: no array or stack frame wraps around the end of the address
  space or overlaps another, and on arm64 the value found in R16 is below 2^64 − 64. The second one is needed because of the
  defect described under C17, and so enters every theorem with a `B : Build`.
* Assembly: one Lean constructor per instruction and operand form used; control flow by labels with
  fuel, the fuel being shown sufficient. Loads and stores go through a memory of separate regions (the arrays passed
  in, the frame); an access outside them is a fault. `Model/Flat` runs the same programs on one memory of bytes, and
  `Proofs/Flat*` show that it follows the machine with regions, instruction by instruction.
* C: the model takes a `Plat`: byte order of the machine, `SHA1DC_BIGENDIAN` or not, and which of the two ways of
  compiling the update loop. `Cfg` is a `Plat` on which the macro matches the machine; C44 says which these are. The conversion `(uint32_t *)buf`
  is an ordinary load (in `Model/CLoops` it carries an address, and a processor may fault on a misaligned one; C52). That C leaves
  misaligned and differently typed reads undefined is not modelled: the compiler is taken to emit loads. Contexts have arbitrary contents (C36), so an uninitialised `SHA1_CTX` is covered.

## What is proved, by group

* **Stream** (C01–C06, C13–C15, C24, C26): `Digest` refines `Spec/Object` for every history
  (`object_refines`); chunking, purity, reset, absence of panics, the flag as a function of the blocks, and the
  safe-hash formula follow. C26 holds for one of the two evaluation orders and is stated exactly for the other.
* **Codec** (C07–C10): exact form of checkpoints, round trip, acceptance. C08 is false of the code.
* **Detect** (C11, C12, C20–C23): recompression against invertibility of the steps; linearity of the message
  expansion; the whole table of differences against the definition of the vectors; the mask against the
  declarative conditions. False for the 18 vectors with test step 58 (see findings); proved for the other 14.
* **Arch** (C16–C18, C30): the assembly programs, run symbolically in groups of four rounds, compute the same as
  `blockGeneric`.
* **Flat** (C48): the same with pointers, on a memory in which nothing but the arrays, the frame, the arguments and the constants is
  accessible.
* **AnyTable** (C49): all block functions are one chain of checked compressions, for every contents of the table.
* **Cgo** (C19, C27, C33, C34), **Options** (C36–C39), **Cpp** (C44): the C code refines the same specification, with the intended
  verdict, under any settings.
* **Memory** (C25, C28, C29, C32), **CgoMemory** (C45, C46): programs with any number of objects and a client that
  overwrites whatever arrays it has; each object is shown to simulate one of `Model/Digest` or `Model/Cgo`.
* **Target** (C40–C42, C51): which files a build selects, what they declare and use across packages, and which interfaces
  the hashes satisfy; which CPU features the programs need.
* **Conc** (C43): goroutines at the granularity of single accesses to fields and array elements. Code is a tree of reads and
  writes; a disciplined set of goroutines is shown equivalent, goroutine by goroutine, to running alone, and running
  alone is shown equal to `Model/Digest`, so the step-by-step model is tied to the one all other theorems are about.
* **Par** (C53): the same for goroutines that share objects of both packages, bytes of arrays (arguments of `Write`,
  appending in place behind a shared slice) and the table of package `ubc`. What an action may look at and change is said in
  `Spec/Par` per object, byte and entry; every program is shown to keep to it whatever values it reads.
* **Sync** (C64): every goroutine has its own view of memory, with the number of the newest write to every location that has
  reached it; mutexes and waiting pass views on. For synchronised programs three invariants are kept: who is in which section and whose
  writes it knows; that it knows the newest write to what it uses; that memory is as if sections were executed one after the other.
* **Loops** (C47), **CLoops** (C50, C52): a cost logic (`Costs x r k`: with any budget of at least `k`, `x` ends with `r` and `k` units less), used
  to show both the result and the number of steps.
* **Work** (C47, C54), **CWork** (C50, C54): `Spec/Work` and `Spec/CWork` count, from the specified vectors alone, how many steps a block should take; the Go code, the C code
  and the assembly are shown to take exactly that many, so how time depends on the data is known and not only bounded.
* **Extension** (C55): length extension. A forged checkpoint is shown equal to the one an object holding the padded message
  would write.
* **Published** (C56): flags are inherited by everything that starts with flagged data; the published collisions with any ending.
* **Shown** (C57): `Spec/Shown`, `Proofs/CShown`. What the members `ihv1`, `ihv2`, `m1`, `m2` of a context tell of the block processed last.
* **Share** (C58): `Proofs/UbcCount`, `Proofs/UbcData`. The message expansion is linear, so a difference that changes one condition
  of a vector and none of the later ones halves the set of blocks; one such difference per condition counts them. That
  twelve vectors are the most is a search over sets of vectors that the kernel runs; each branch it cuts off is cut off
  by a list of conditions that sum to a contradiction. The differences and lists are data found outside and checked inside.
* **Path** (C59): `Spec/Path`, `Proofs/PathWord`, `PathStep`, `PathData`, `Path`, `PathEval`, `PathSample`. That the conditions of
  `Spec/Ubc` lose no collision is not taken from the literature but proved: if the working variables of two computations differ by
  the vector's bits, with either sign and any carries, each step's sum of differences is zero modulo 2^32. Walking through that
  sum bit by bit with all choices of signs shows which parities of signs a step allows; these relations add up to the conditions.
  Where carries could run, the lowest bit of a later step shows that they stop. Which relations to add is data found outside.
  For every vector two computations that follow it were found by search and are checked by the kernel. So are the colliding blocks
  of the two published collisions (**Path**, **PathShambles**).
* **Held** (C60): `Spec/Held` says what every call returns in every history, and the digest is shown to do that. Unlike
  `Spec/Object` it does not speak of messages, because a restored object need not hold one; `C60_messages` ties the two together.
* **GoSource** (C66): what was read from the text is run by an interpreter written for these files' part of Go, and shown, function by function
  (`Proofs/GoUbc`, `GoTable`, `GoCollide`, `GoCheck`, `GoBlock`, `GoWrite`, `GoSum`, `GoSums`, `GoMarshal`, `GoUnmarshal`), to do what the model's function does.
  `Proofs/GoClient` puts them together for every program that uses the package. So the hand-written model of the main package is no longer
  part of what has to be trusted.
* **GoBuilds** (C66): the same for the builds for amd64 and arm64. A call of the function without a body runs the text of the assembly file, as **Source** (C65)
  does it (`Source/GoAsm`); `Proofs/GoSimd` does `block` of sha1cdblock_amd64.go and sha1cdblock_arm64.go, `Proofs/GoRectify` does `rectifyCompressionState`.
* **GoDesk** (C66): `Spec/Desk` computes from a program's steps alone what it sees and what its slices hold, with Go's aliasing and `append`; `Proofs/GoDesk`
  shows that the program run with the package of the text sees and holds exactly that.
* **CSource** (C67): the same for the C library. The preprocessor is in Lean too, so for each of four compilers (amd64, arm64, s390x, and s390x with unaligned access forced) the text first becomes
  tokens (`Proofs/CLexed`, `CParts`, `CAmd64`, `CArm64`, `CS390x`, `CForced`), then functions, and each function is shown to do what the model's does (`Proofs/CTextUbc`,
  `CTextW`, `CTextStates`, `CTable`, `CObject`, `CStep`, `CProc`, `CUpdate`, `CFinal`). `Proofs/CLibrary` puts them together for every sequence of calls.
  Callbacks set on the way are shown to go unnoticed (C67_callback).
* **CCompilers** (C67): other compilers. The preprocessor asks only for names that occur in the files (`Proofs/CMacros`), so whatever else a compiler
  predefines it reads the same program; riscv64 is the instance. `Proofs/CDetect` runs the detection of byte order and unaligned access
  (cgo/sha1.c:31-133) for arbitrary macros and finds the formulas of `Model/Cpp` (C44_text). With this `Proofs/CEvery` shows that every compiler reads
  one of the four programs (C67_every_compiler, C67_everywhere), as long as its macros are not names of the code.
* **GoStops** (C66, C67): what "does not stop" says: the runs make Go's checks of indices, bounds and nil pointers, and a block is read only from 64 bytes that are there.
* **Hmac** (C61): what crypto/hmac needs of a hash is `Serves`; both packages are shown to have it.
* **Reduction** (C31, C35): any two messages with equal digests yield a collision of the (single or triple)
  compression function. C35 is reduced to explicit coincidences of the compression function; that none
  occurs is a statement about SHA-1 that is out of reach.
* **CgoDefault** (C63): the settings of C37–C39 carried over to package cgo, whose code never calls a setter.
* **NewKind** (C62): the reduction of C31 and the necessity of the conditions (C59) together: what a colliding pair must look like. That
  unflagged colliding pairs exist at all follows from the count of C58 and the pigeonhole principle.
* **Files**: the model, evaluated in the kernel, reproduces the digests that the repository's own tests expect for
  its test files, in Go and in C.
* **Golden**: so do the unit tests of sha1cd_test.go: all 32 messages of `golden` with their checkpoints, the two large states,
  and the states of TestRectifyCompressionState, in every build. Only the test that counts allocations and the call with a nil pointer are left out.

## Findings about the code

1. `hasCollided` with `TestT = 58` (18 of the 32 vectors): the backward walk is unrolled from step 64 with the
   registers renamed at each step even when the step is skipped, so it starts from the state rotated by 7 mod 5 = 2
   places and reconstructs a wrong chaining value. C11, C12, C19, C22, C23 are false for these vectors. The C code is right.
2. `blockARM64` computes its end pointer from R16, which it never loads (sha1cdblock_arm64.s:40,47); if R16 ≥ 2^64 − 64
   no block is processed. C17 is false without a condition on R16.
3. `MarshalBinary` does not save the collision flag, `UnmarshalBinary` does not reset it (C08).
4. `ubc.SHA1_dvs()` returns the live table; a client can switch detection off or make hashing panic (C32).
5. `return d.checkSum(), d.col` relies on an evaluation order that the language does not promise (C26).
6. A flag raised in a padding block is reported once and not kept in the object (by design of `checkSum` on a copy).
7. `CalculateDvMask` of the cgo package and of its fallback take different argument types (C27).
8. On amd64 and arm64 a compiler other than `gc`, without the tag `noasm`, gets no definition of `block` at all.
9. `hasSHANI` asks for SSE3 although the program needs SSSE3 (`PSHUFB`) and uses no SSE3 instruction (C42).
10. Without cgo, package cgo has no `Size` and `BlockSize` (C41); with cgo, its hash has no `MarshalBinary` and
   `UnmarshalBinary`, without cgo it has (C51).
11. The copy in `Sum`, made “to avoid race conditions” (sha1cd.go:160), does not make `Sum` safe against a concurrent
   `Write`: the copy can be torn, and `Sum` then panics (C43_race_panics).
   Two goroutines that append digests of different objects to the same slice with room get a mixture of both (C53_append_race).
12. README.md shows a package-level `CollisionResistantSum` and a `Sum` with one result; the package has neither
   (C51_readme_refuted).
13. The callback of `SHA1DCSetCallback` is stored and never called (C67_callback).

## Trusted base

* Lean 4.33.0's kernel. Axioms used: `propext`, `Classical.choice`, `Quot.sound`, and no others
  (`decide +kernel` adds none). No `sorry`, `native_decide`, `bv_decide`, no axioms of our own.
* The reading of the source into the model. For the assembly files it is itself in Lean (C65): there the base is the text, the reader in `Source/AsmRead` and the
  meaning of single instructions. So it is for the Go files of the three builds (C66): there the base is the text, the reader in `Source/GoLex` and
  `GoParse`, the meaning of Go's statements and expressions in `Source/GoSem`, whose simplifications are listed at its top, and how a call hands its arguments to the
  assembly (`Source/GoAsm`). So it is for the C files (C67): there the base is the text, the preprocessor in `Source/CLex`, the reader in `Source/CParse` and, again,
  `Source/GoSem`; the preprocessor's choices are covered for all predefined macros but names of the code
  (C67_every_compiler); a macro in an `#if` counts as its number, or as 0 if it does not stand for one. For the Go file of package cgo it is done by hand.
* The semantics of the Go and C fragments used, and of the instructions in `Model/Amd64` and `Model/Arm64`, written from
  the vendor manuals. The three SHA instructions of each architecture matter most; `Proofs/Simd` derives the
  round function from them, so a wrong reading of them would most likely have made the proofs impossible.
* `decide +kernel` is used only for complete finite tables and for evaluating concrete witnesses.

## Not modelled

* Allocation; detection.go (an interface); how package cpu finds the CPU features.
* In C43 and C53, memory orders weaker than sequential consistency. C64 has a weaker one, and covers C53; what it still excludes is said
  at the top of `Model/Sync`.
* Go's scheduler, garbage collector, stack growth; timing beyond the steps counted in C47, C50 and C54.
* Linux/Windows calling conventions beyond “registers have arbitrary contents on entry”.
* In C: `sha1_compression` (not compiled), strict-aliasing optimisations. Alignment traps: only for the words of the message block (C52). In assembly: how the linker chooses the addresses of the constants in RODATA; `Flat.Consts` assumes the values of the DATA directives and, on amd64, multiples of sixteen (C48_alignment: needed).
* Preprocessing other than the choice of `SHA1DC_BIGENDIAN` and `SHA1DC_ALLOW_UNALIGNED_ACCESS` (`Model/Cpp`, C44) and
  `SHA1DC_INIT_SAFE_HASH_DEFAULT` (`Model/CgoDefault`, C63).

## Testing the theorems

A scratch copy is edited as a realistic bug would, and rebuilt. Where an English claim was false and its theorem still
held, the theorem was tightened, with these exceptions: UD017, UD080 and UD088 survived and were not followed up, and UD033,
UD048, UD049 and UD052 survived and were not rebuilt against the theorems added because of them. For GT01-GT08, CT01-CT03, KL01
and KL03 only a lemma failed that fixes the text or shape of what was edited, which says little about the claim. `seeded/LOG.jsonl` has one line for every well-typed attempt, those that nothing caught
included; edits that do not type-check are left out. Its fields:

* `method`: `rebuild` (proofs rebuilt, for many of the later edits only until soon after the first error or up to one module), `evaluation` (the statements evaluated on concrete inputs of the edited
  model, proofs not rebuilt), or both.
* `failed`: the declarations at which the rebuild reported an error. `lost`: property theorems that depend on those,
  computed from the dependency graph of the unedited proofs. They were not shown to be false: a proof can fail because
  its text follows the code, as P12 and XAsm_44 show, so `failed` and `lost` are weaker evidence than `refuted`.
* `refuted`: statements false of the edited model on a concrete input.
* `breaks` and `breaks_from`: the claim, named by the author of the edit before the run or in review afterwards
  (`author`), or only read off the theorems that failed. In the second case the line says nothing about claims that
  should have failed and did not.
* `outcome`: `caught`, or `survived` with what became of it. `failed_after`: what fails now that theorems were tightened.
