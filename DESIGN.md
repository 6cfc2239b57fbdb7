# A Lean 4 model of superwhiskers/crunch

## 1. What is modelled

| Go code | Lean model | how |
|---|---|---|
| Go runtime primitives used by the code (int64 arithmetic, indexing, slicing, `copy`, `make`, `append`, panics, `goto` loops) | `Verif/Go.lean` | a state+panic monad that keeps the state at the panic point; a heap of byte arrays; slice headers (array, offset, len, cap) |
| `v3/buffer.generated.go`, hand-written methods | `Verif/V3/Buffer.lean` | one definition per method, cited |
| `v3/buffer.generated.go`, the 64 generated typed accessors | `Verif/V3/BufferTyped.lean` | one definition per method, transcribed line by line (by `tools/transcribe.py`, which reads the Go text) |
| `v3/minibuf.generated.go` | `Verif/V3/Mini.lean`, `Verif/V3/MiniTyped.lean` | same |
| `v2/buffer.go` | `Verif/Prog.lean`, `Verif/V2/Buffer.lean`, `Verif/V2/BufferTyped.lean`, `Verif/V2/Api.lean` | each method is a program of atomic steps (field access, byte load/store, lock, unlock); `Prog.run` is its meaning alone, `Verif/Conc.lean` its meaning among goroutines |
| `v2/minibuf.go` | `Verif/V2/Mini.lean`, `Verif/V2/MiniTyped.lean`, `Verif/V2/MiniApi.lean` | same monad as v3 (no mutex) |
| `v1/buffer.go` | `Verif/V1/Buffer.lean`, `Verif/V1/Api.lean` | programs of atomic steps, like v2; incl. `ReadComplex`/`WriteComplex` |
| `v1/minibuf.go` | `Verif/V1/Mini.lean`, `Verif/V1/MiniApi.lean` | same monad as v3 |
| `v1/utils.go`, `v2/utils.go`, `v1/crunch.go` | `Verif/V1/Binary.lean`, `Verif/V1/Buffer.lean`, `Verif/V2/Buffer.lean` | `atob`, the integer sizes, the byte orders and what `encoding/binary` does with them |
| `generation/complex.go` | `Verif/Gen/{Text,Regexp,Jen,Complex}.lean` | directive recognition and validation, every accessor as the text `jennifer` renders for it |
| `generation/main.go` | `Verif/Gen/Main.lean` | choice of sources, output naming, the write without truncation; map order is any order |
| the texts of `generation/complex.go` and `generation/main.go` | `Verif/Gen/Go/{ComplexText,MainText,ComplexSyntax,MainSyntax}.lean` (written by `tools/src_embed.py`), `Verif/Gen/Go/{Syntax,Sem}.lean` | a parser and an interpreter for the part of Go they use: maps, function literals, jennifer objects by reference, files; the operating system (`World`) is a parameter and may fail at every call |
| `v3/_*.go`, `v3/*.generated.go` as texts | `Verif/Gen/Files.lean` (written by `tools/gen_embed.py`), `Verif/Gen/Lex.lean` | the committed texts and their token streams, for C59 |
| the texts of all six buffer files and `v1/utils.go`, `v2/utils.go` | `Verif/Src/Text/*` (written by `tools/src_embed.py`), `Verif/Src/{Syntax,Core,Sem}.lean` | a parser, name resolution and an interpreter for the part of Go they use |
| `v*/errors.go` | `Verif/V1/Errors.lean`, `Verif/V2/Errors.lean`, `Verif/V3/Errors.lean` | error values and their strings |
| the texts of `v*/errors.go` and `v1/crunch.go` | `Verif/Src/Text/*`, `Verif/Src/Decls.lean` | a parser for their declarations, `fmt.Sprintf` with `%s` |
| `examples/*/main.go` | `Verif/Props/Examples.lean` | the calls of each program, for any data |
| the texts of `examples/*/main.go` | `Verif/Src/Text/{HelloWorld,SignedIntegers,FloatingPoint}.lean`, `Verif/Src/Program.lean` | a parser for programs of their form, constants (rounded to the nearest `float64` where they are floating-point), `fmt.Println` (how it writes floating-point numbers is a parameter) |
| the texts of `v*/buffer_test.go` and `v*/minibuf_test.go`, the test functions | `Verif/Src/Text/{V1,V2,V3}{Buffer,Mini}Test.lean`, `Verif/Src/Tests.lean` | a parser for functions of their form and what it means that one passes. `cmp.Equal` compares slices by elements (floating-point numbers by pattern; the tests have no NaN and no zero among them) and buffers by their five fields, as `BufferComparer` and `MiniBufferComparer` do; `panicChecker` compares the error. A literal has an array of its own |
| `v*/errors_test.go` | `Verif/Src/Text/ErrorsTest.lean`, `Verif/Src/ErrTest.lean` | a parser for a test of their form |
| the buffer test files, the benchmark functions of buffers | `Verif/Src/Text/Benches.lean`, `Verif/Src/Bench.lean` | a parser for functions of their form; what is run for a given `b.N`. `b.ReportAllocs()` does nothing to the buffers |

`V*/Api.lean` and `V*/MiniApi.lean` define no behaviour of their own: one
constructor per public method, and the model method it stands for. They are
what histories (lists of calls) and goroutines are made of.

### Modules of proofs

| modules | content |
|---|---|
| `Spec`, `Ref`, `MiniRef`, `Ref2`, `Ref1` | vocabulary of the statements: list functions and the reference machines for v3 `Buffer`, v3 `MiniBuffer`, v2 `Buffer`/`MiniBuffer`, v1 `Buffer`/`MiniBuffer` |
| `Lemmas/{Basic,Heap,Encode,Store,Bits}` | machine integers, memory, base 256, bytes and bits |
| `Lemmas/{TypedWrite,TypedRead,Run,BitLoops,Resize,ByteOps,Step,New}` | the exact effect of every v3 `Buffer` method on a well-formed state, one simulation step per method |
| `Lemmas/{MiniRun,MiniStep}` | the same for the v3 `MiniBuffer` |
| `Lemmas/{ProgRun,V2Seq,V2Copy,V2Exec,V2Step,V2New}` | v2, run alone |
| `Lemmas/{Conc,Lin,V2Conc,Sched,Advance,Serial}` | v2 among goroutines: lock invariant, linearisation, lower bounds on offsets |
| `Lemmas/{V1Complex,V1Seq,V1Conc,V1Free,Shared,V1Step,V1MiniStep}` | v1 |
| `Lemmas/Room` | the reference machines with other bytes behind the content |
| `Lemmas/RoomMini` | the same for the machines of `MiniBuffer` |
| `Parts`, `Spans`, `Lemmas/{Parts,V2Parts,Local,Apart,Look,V2Look,Own,OwnLin,V2Own}` | calls with several locked sections, as sequences of calls with one; which bits a call is about, and what calls about different bits do to each other |
| `Foot`, `Footprints`, `Lemmas/{Foot,FootOps,V2Foot,V2FootOps,V1Foot,V1FootOps,Reading}` | the places a call may read and change, and goroutines whose places are separate |
| `Many`, `Lemmas/{Many,ManyOps,ManyOrder,ManySched}` | several buffers in one memory, and what each of them sees |
| `Wire` | one typed Next call of any of the six buffer types, and lists of them |
| `Happens`, `Guards`, `Lemmas/{Happens,Guards}` | happens-before, and what each call reads without the mutex |
| `Src/{Micro,MicroCalls}`, `Unlocked`, `UnlockedApart`, `UnlockedFoot`, `ExactRace`, `ExactRaceMini`, `ExactShared`, `Client`, `Lemmas/{SemRel,Micro,UnlockedOps,Unlocked,UnlockedApart,LFoot,LFoot1,UnlockedFoot,Touch,Exact,ExactMini,ExactRace,Must,MustOps,MustOps1,Client}`, `Lemmas/V3{Buffer,Mini}Foot*`, `Lemmas/V{2,1}MiniFoot*` | the texts in single steps, for the buffers without a mutex; what a call of theirs accesses, changes and copies; goroutines that use different parts, or different bytes, and that bytes in common mean a race; clients that guard them |
| `Race`, `Ranges`, `Fair`, `Lemmas/{Progress,FairRun,TidyOps,Race,HeldOps,SecInv,OpClass,CapInv,Safe,SafeOps}` | v1 and v2 among goroutines: what a data race is; progress, fair schedules, which steps are inside the section, what sections keep true, what calls can fail with |
| `Lemmas/{Gen,GenLex,GenBuffer,GenMini}` | the generator; the last two check the committed files segment by segment by kernel evaluation (a closed statement about closed texts, not a sample of a domain) |
| `Gen/Go/Valid*`, `Lemmas/{GenGo,GenMainText,GenMainWrite,GenMainRun}` | running the syntax trees of the generator: the function literal on the 72 accepted directives by kernel evaluation in a symbolic state (the domain is these 72, all of them), everything else by one lemma per statement |
| `Src/Link/*` | the parsed text is the syntax tree the proofs use (kernel evaluation of the parser) |
| `Lemmas/{Src,SrcOut,SrcProg,SrcComplex,ConcMap,ConcText}`, `Src/{Tactic,TacticProg}`, `Src/{V3Buffer,V3Mini,V2Buffer,V2Mini,V1Buffer,V1Mini}*` (written by `tools/src_proofs.py` and `tools/src_calls.py`, except the `*Complex` ones) | running the tree of each method equals the model method |
| `Props/*` | the property theorems, named `Cxx_…`, and their instances |

### Modelling decisions

* **Machine integers are machine integers.** `int64`/`int` are Lean `Int64`
  (wrapping), `byte` is `UInt8`, element types are `UInt16/32/64`,
  `Int16/32/64`. The platform is 64-bit (`int` = 64 bits). Go's `/` and `%`
  truncate, as do Lean's on `Int64`.
* **Shifts.** Go shifts by counts >= the width give 0 (unsigned); Lean's
  fixed-width shifts reduce the count modulo the width, so the model uses its
  own `shl8/shr8/shr64` with Go's semantics wherever a count is not a
  literal smaller than the width.
* **float32/float64** are their bit patterns (the code only reinterprets them
  through `unsafe.Pointer`, it never computes with them).
* **Panics** are values; the state at the panic point is kept, so partial
  effects of a failing operation are visible to the theorems. Errors raised by
  the library and Go run-time errors are distinguished; the text of run-time
  errors is not modelled.
* **Memory** is a list of byte arrays. A slice header names an array, a
  start, a length and a capacity. Aliasing between slices is thus represented.
  Typed slices (`[]uint16`, ...) are lists: nothing in the code can alias them
  with byte memory. Slice headers are never nil in the sense that a nil slice
  is any header with cap 0.
* **Allocation.** `make`/`append` panic above `maxAlloc = 2^48` bytes (the
  64-bit Go limit). Running out of memory below that limit is not modelled. The capacity
  chosen by `append` when it reallocates is an arbitrary function stored in
  the heap (`slack`), over which all theorems quantify. Fresh memory is zero.
* **Out parameters** of `MiniBuffer` are an extra state component (so that
  partial updates before a panic are visible). They do not alias buffer
  memory (a `*byte` pointing into the buffer itself is excluded).
* **Loops** are the literal do-while `goto` loops, by well-founded recursion on
  `int64` counters.
* **Concurrency (v1, v2)**: sequentially consistent interleaving of the micro
  steps of each method (unlocked reads of `cap`/`off`, lock, per-byte loads and
  stores, unlock). Any number of goroutines, each any list of calls. Go
  memory-model effects of data races are not modelled (a program without data
  races has only sequentially consistent executions by the Go memory model; C119
  says which calls are without them), and the memory of a byte
  argument is part of the shared state. A run-time panic ends the call and
  keeps the mutex as it is; a goroutine that waits for a mutex just has no step.
* **Concurrency (v3 `Buffer`, the `MiniBuffer`s)**: these have no mutex. Their texts are run in
  single steps by the interpreter of `Src/Sem.lean` in a third monad (`LProg`, `Src/Micro.lean`).
  Each read of a field or of the slice header, each load and store of a byte is a step; so is a
  whole `copy`, `append` and `make`. Operands are evaluated in the order of the text (Go leaves
  the order of memory reads within an expression open). Result variables of `MiniBuffer` calls
  belong to the calling goroutine. The copy into the new array of `Grow` counts as a change of bytes.
* **v1 `interface{}` values** are the type `Any`: the slice types the code
  switches over, and `other` for everything else. A `binary.ByteOrder` is
  `none` (nil interface) or one of the two standard orders; other
  implementations of the interface are not modelled. `PutUint16`… and `Uint16`…
  of `encoding/binary` are transcribed from the standard library.
* **Generator**: Go strings are lists of bytes (`str%` writes them out at
  elaboration). `regexp` is modelled for the syntax that occurs. `jennifer`
  statements are modelled as the tokens they render to. The operating system
  is a parameter (`World`) and may fail at every call (C102–C105).

### Not modelled

Performance, garbage collection, exhaustion of memory below `maxAlloc`, the
text of Go run-time errors, 32-bit platforms, weak memory, the layout chosen by
`go/format`, the regexp engine beyond the patterns used, package comments,
the benchmarks of the standard library's `bytes.Buffer`, and what benchmarks measure.

## 2. Statement discipline

`Verif/Spec.lean` holds the specification vocabulary, a few definitions on
plain lists that do not mention the model: patching a list, base-256 digits,
bits of a byte list, binary numbers. Property theorems live in
`Verif/Props/*.lean`, apart from the helper lemmas in `Verif/Lemmas/*.lean`.
A property's hypotheses are range conditions plus `WF s`, the invariant that
every state reachable through the API satisfies (C26 proves that); each
theorem is followed by an `example` instantiating its hypotheses.

Where a property the user would expect is **false of the code**, its negation is proved with a
witness (`..._false` theorems), the strongest true part is proved under the
suffix `_partial`, and the manifest says `partial`.

## 3. Plan per property

| id | plan |
|---|---|
| C01-C04 | run-lemma for the uniform shape of typed writes/reads (per-method equality `WriteU16LE = writeShape ...`, loop induction), then list algebra on `patch` and base-256 digits |
| C05 | per-method state-unchanged lemma |
| C06 | unfold Next; reuse run lemmas |
| C07-C10, C12 | complete case analysis over int64 incl. wrap-around; C12 is false at the overflow corner: refute + partial |
| C11 | false for typed accessors (do-while loop): refute + partial for WriteBytes/ReadBytes |
| C13, C14 | `copy` run lemma on an aliased heap |
| C15-C19 | bit lemmas on bytes, induction over the bit loop |
| C20, C21 | false: refute; prove the exact effect (prefix written / one bit touched) |
| C22 | unfold |
| C23 | both sides equal the same number; number of 8w bits = base-256 number |
| C24, C25 | loop induction; C25 false on the empty buffer |
| C26, C48, C49 | invariant by induction over operation lists |
| C27, C28 | int64 arithmetic |
| C29-C33 | slicing lemmas; C32 false after TruncateRight/Reset: refute + exact characterisation |
| C34, C35 | induction over the slices with arbitrary append policy |
| C36 | view lemmas over heaps + history induction |
| C37 | unfold |
| C38 | refinement to a reference machine, one simulation lemma per operation, induction over lists |
| C39, C40 | induction over the message list |
| C41, C42 | list algebra |
| C43-C47 | MiniBuffer run lemmas; C44, C45, C46 are false: refute + exact effect |
| C50, C51 | sequential v2 model, equalities with v3 |
| C52, C53 | small-step semantics, invariant over all schedules, lock-order serialisation |
| C54, C55 | refuted by concrete schedules; partial positive results |
| C56-C58 | v1 model; C57 refuted |
| C59, C60 | line-by-line expansion of directives, then kernel evaluation of both token streams; C60 by induction over the lines |
| C61, C62, C68 | list lemmas on names and the file map; C62 refuted + exact contents |
| C63 | injectivity of the format, case analysis over the error values |
| C64, C65 | MiniBuffer reference machine, invariant on the cached capacities |
| C66 | forward byte copy: exact value of every byte by induction |
| C67, C72 | every interleaving is matched with a sequential order that respects real time: commit points inside the locked section |
| C69-C71, C74 | v1 methods equal v2 methods as programs of steps; Complex by the encoding lemmas |
| C73, C75 | refuted by concrete runs; partial positive results |
| C76, C77, C80 | equalities between the MiniBuffers of the three versions |
| C78, C79 | refinement to a v2 reference machine (`Ref2`), which also says when the mutex stays locked |
| C81, C82 | one equation per method between the interpreted text and the model, loops by induction on the counter, then case analysis over the calls |
| C83 | C81 and C38 |
| C84, C85 | as C82, for v2/minibuf.go and v1/minibuf.go, each with the utils.go beside it; a history by induction |
| C86, C87 | as C81, as equality of programs of steps; executions are mapped step by step |
| C88 | C39 after the run lemmas of the constructor and `Grow`; the text through C81 |
| C89 | the parse of each file by kernel evaluation; the format for all error values by unfolding `fmt.Sprintf` with `%s` |
| C90 | the holder of the mutex can step unless its call ended inside; a well-founded order on the remaining programs excludes infinite runs |
| C91 | refuted by two schedules; every store is inside the section, and for most calls so is every load |
| C92 | every section keeps the bound; a section that breaks the equality is followed, in the same call, by one that restores it |
| C93 | weakest preconditions for a call among others that only lengthen the content: what a check found stays true until the section; v2 false because of `Reset` |
| C94, C95 | refinement to a v1 reference machine (`Ref1`): the v2 machine for what is common, plus `WriteComplex`/`ReadComplex` with their type, size and byte-order failures, plus the calls with nothing to do |
| C96 | induction over the history with the text theorems C82, C84 – C87 for one call, then the history theorems C64, C78, C79, C94, C95 |
| C97 | the text has the same steps as the model up to the form of the results (C86, C87), so executions, panics inside sections and races correspond (`Lemmas/ConcText`) |
| C98 | infinite runs and strong fairness (`Fair`); a call that never finishes waits for the mutex from some moment on, so the mutex is held from then on by one goroutine, which by the lock discipline is not waiting and so moves for ever or finishes - but what is left of its call gets smaller with each step; starvation by a cycle of steps that leads back to where it began |
| C99 | the tree of `GenerateComplex` statement by statement: the checks by cases, the rest of the literal by evaluation for each accepted directive, `ReplaceAllFunc` by induction over the lines, the loop over the map by induction over the order it is visited in |
| C100-C102 | the tree of `main` statement by statement in any `World`: the loop over the listing by induction with the map it builds, the loop over the outputs by induction over the order, each with the messages printed; `Main.Effect` says what a run did, the theorems are read off it |
| C103-C106 | the same; C103, C104 and C105 are false (ignored `Chdir` error, files left open after a failed read or write): refute + exact part |
| C107 | a call as a script of calls with one section each (`Verif/Parts.lean`); forward simulation that keeps, for every goroutine, the script still to make (`Lemmas/Parts`); the loops of `readbits`/`setbits` unrolled by induction; a torn read by a schedule |
| C108 | from C107: in the order of the parts each part is a function of the bits in its span that changes no others (`Lemmas/Local`); induction over the order, comparing with the run of one goroutine's parts alone (`Lemmas/Apart`); v1 by the same induction over its own spans (`Spans: span1`) |
| C109 | as C107, with looks at an offset outside the mutex allowed as parts: the point of a part is its store to an offset, else its unlock, or the look (`Lemmas/Look`, `V2Look`); the bodies of the Next methods rewritten as scripts (`Lemmas/V2Parts: next_script`) |
| C110 | as C67 with looks at an owned offset before the mutex and a second section moving it after (`Lemmas/Own: Pre/Mid/Tail`); what is left of a call after its first section touches owned offsets only, so it commutes with the others (`Lemmas/OwnLin: owned_linearizable`); the methods are of this form (`Props/Cursors: exec_pre`) |
| C111 | an execution of the text is the image of one of the model (`Lemmas/ConcText: exec_model`), so C108 and C109 carry over, with `seqRun_map` for the sequential runs; C110 from `owned_linearizable` directly, the form `Pre` being kept by `Pre.map` |
| C112 | C67/C72 or C110 give the order; without a run-time panic of a write the mutex is free after each call (C55, C73), so the sequential run is a history of C78/C94 (`Props/SharedRef: seq_history`) |
| C113 | `Lemmas/FootOps: Foot` abstracts from the memory: a program keeps to its footprint whatever it loads; one lemma per method (`Lemmas/{V2Foot,V2FootOps,V1Foot,V1FootOps}`), the positions in loops as integers below 2^50 |
| C114 | simulation: each goroutine is where it is in its run alone, whose state is the same as the shared one wherever the others change nothing (`Lemmas/Foot: foot_inv`) |
| C115 | invariant: the state is that of the start, and what is left of a call would do there what the call does (`Lemmas/Reading: read_inv`) |
| C116 | `Prog.Uses` does not depend on how results are written; the rest is C113 – C115 with C86 and C87 |
| C117 | `CalmCall` (Foot.lean): a whole call among steps of others that keep the places of `P`; the call and its run alone agree on `P` step by step (`Uses`, C113); `ReadByte` looks at the content in its last step only (`Late`), so the moment is that of the load |
| C118 | `Linear` (Linear.lean) is linearizability with real time. A section stores at increasing places (`Inc`), so each byte changes at most once in it and a load in its middle sees the byte as before or as after the section; the invariant keeps for each call in progress how far back in the order it may still be put, and a look gets its place, by insertion, when it happens |
| C119 | `HB` (Happens.lean) is happens-before of the Go memory model: program order, an unlock before every later lock. Two accesses inside sections are ordered through the mutex (`hb_inside`), changes are always inside, so only a read outside a section can race (`race_outside`); `Acc` (Lemmas/Guards) goes through each method and bounds what it reads outside its sections and what it changes by the tables in Guards.lean |
| C120 | `SemRel` (Lemmas/SemRel) relates two monads in which the interpreter runs: whatever is true of the primitives is true of every function built of the statements in `Pkg.within`; with "same outcome alone" as relation, `LProg` is the model monad of C81-C87 |
| C121 | the same induction with "makes only these kinds of steps" as relation (`Prog.Only`), and `Pkg.reach` as the functions a method calls, checked by kernel evaluation against the tables of Unlocked.lean; a race is about a part in both tables (`open_race`); readers by `reading` (C116); the races by schedules |
| C122 | `Client` is a tree of calls, each chosen by the outcomes before; `ClInv` (Lemmas/Client) relates the shared state to the clients one by one, in the order of the locks; the calls have no lock of their own (`Prog.Only.noLock`) and alone do what the model does (C120) |
| C123 | the steps of a call are of known kinds (C121), so without copies its places are those of its parts (`Prog.Only.uses`), and goroutines with separate places do not notice one another (`separate`, C114); outcomes restated with the model by C120 |
| C124 | the bytes each method of the v3 texts accesses, by the footprint calculus of C113 lifted to the interpreter (`LFoot`, `tools/foot_proofs.py` writes one lemma per method); with the kinds of C121 this gives the whole footprint (`Prog.Uses.parts`), then `separate` and `separate_hb` as in C114 and C119; outcomes restated with the model by C120 |
| C125 | as C124, from the text of v2/minibuf.go |
| C126 | as C124, from the text of v1/minibuf.go, with the reads of `ReadComplex` behind the content; `Lemmas/V1MiniFootComplex.lean` for the calls with complex values |
| C127 | the converse of C124: `Lemmas/Touch.lean` gets from what a call changes, or what its result depends on, an access in its single steps, and from two such accesses an execution with a data race; `Lemmas/Exact.lean` shows on the reference machine, call by call, that each byte of the table of C124 is changed or decides the result; `Lemmas/ExactRace.lean` joins them.  Excluded: `ReadBits` of more than 64 bits, negative bit positions of `MiniBuffer`, sources inside the buffer |
| C128 | the same for C125 and C126, on the reference machines of v2 and v1 (`Lemmas/ExactMini.lean`); the tables of v1 say that `ReadBits` and `SetBits` of no bits are about no byte |
| C129 | `Must` and `Peeks` (Lemmas/Must.lean) say of a program that no successful path misses a change of a place, or that it comes to a read of the place without the mutex before it changes anything; `Lemmas/{MustOps,MustOps1}` show them call by call for the entries of the tables of C119 and for each byte of the footprints; two such calls race (`race_at`).  The other way is C119 for the parts and C114's separation for the bytes.  On the way the table of v1 became tighter: `ReadBits` and `SetBits` of no bits do not check the bit capacity |
| C130 | C86/C87 give the model's execution with the same steps, C112 its answers; the linearization points and the sequential run carry over along the map of values (`Follows.of_model`), and what a client sees of a Go value is what it sees of the model's value (`seenRes_goRes`) |
| C131 | `Prog.In`: a program that makes no new array and keeps to given bytes takes the same steps from states that agree on them (`Alike`), so the trace of one buffer's calls (`onBuf`) is an execution of the one-buffer model, by induction on the schedule (`seen`); the points of all buffers restricted to one are its points (`ordered`), and running the calls one at a time commutes with the restriction (`seqRuns_on`), so C110 for each buffer gives one order for all (`locality`) |
| C132 | one message: the theorems that give the outcome of the typed methods of each type (v1 by C71, C74 and C80, v2 by its typed form) all lead to the same state (`write_one`, `read_one`); then induction on the list, with adjacent patches joined and the decoder undone by the encoder; from the texts by C81, C82 and C84–C87 |
| C133 | evaluating constant arguments changes nothing the buffer can see (`eval_call`), each call of the text is the model call (C81), which is a step of the reference machine (C38), and printing a value of the text is printing what the reference machine gives (`shown_ref`); induction on the statements. The three texts: parser, types and reference machine by kernel evaluation |
| C134 | the text of a test is parsed and its calls are run by kernel evaluation with the policy of `append` as a variable, one theorem for each test (`tools/tests_gen.py` writes them); only the test of the constructors appends twice, so that the steps depend on the policy: it is proved for any constructor that builds what C34 says (`newTest_passes`), and C81, C82, C84–C87 give that of the texts (`builds_v1` … `builds_v3m`); the tests of the error values through C89 |
| C135 | on the reference machines: every step but v3 `Grow` and v1 `ReadComplex` answers alike for machines that differ in `spare` only (`step_room`, `step2_alike`, `step1_alike`), `Grow` too when both have zeros there (`step_alike`, `step_zeros`); induction over the history; C38, C78, C94 and C96 carry it to the models and the texts. For the policies: the loop of the constructor keeps zeros behind the bytes (`append_zeros`), and sources from before the constructor lie outside the buffer for good (`Since.iso`) |
| C136 | as C135, on the machines of `MiniBuffer` (`miniStep_room`, `miniStep2_alike`, `miniStep1_alike`): calls that keep to the bytes answer alike, v3 `Grow` of zeros too; C64, C79, C95 and C96 carry it to the models and the texts; `miniReadBytes_sees` for the other direction |
| C137 | invariants of the loops (`Keeps.loop`, by induction over `b.N`): the buffer keeps its length and the result variable its type and length; in the loops of `Grow` and `Reset` the room stays at most two bytes. Each call is one step of a reference machine (`step_ok`, `step2_ok`, `step1_ok` and the same for `MiniBuffer`, through C81, C82 and C84–C87), which succeeds under the invariant |
| C138 | patterns are counted in units of the smallest positive number (`units`), which makes them natural numbers and strictly increasing (`units_lt`); from the exponent that `toFloat` finds on they are multiples of the last place (`units_cases`), where rounding to the nearest integer decides (`nearest_spec`, `nearest_even`), and all before are farther |
| C139 | one call: what succeeds on the model of the v3 `Buffer` does the same on the models of all types (C43, C50, C69, C76, C77) and so in the texts (C81, C82, C84–C87) (`text_same`); then induction on the list with C18 and the value of `ReadBits` |
| C140 | a step that succeeds on the reference machine of the v3 `Buffer` is the same step on the machines of the other five types (`Le`, `Ref.le_mini`, `le2`, `le2m`, `le1`, `le1m`); with the step theorems of the machines (`step_ok`, `mini_step_ok`, `step2_ok`, `mini_step2_ok`, `step1_ok`, `mini_step1_ok`) and the texts (C81, C82, C84–C87) one call (`made`), then induction on the list, where `Iso` keeps the arguments of later calls as they were |
| C141 | what is behind the bytes is not seen by calls other than `Grow` (`Ref.step_room`) and stays zero (`Ref.step_zeros`), and `Grow` adds zeros on every machine if only zeros are behind the bytes (`grows`); so each call of C140, or `Grow`, does what the machine `plain` without room does (`grown`), then induction on the list |
| C142 | the steps of C140 the other way round for the methods `Strict` names (`ge2`, `ge2m`, `ge3m`, `ge1`, `ge1m`); a panic of a reference machine is a panic in the text (`lost`), so what succeeds in the text is a step of the machine (`unmade`); induction on the list, and C140 for the way back.  For the other methods one call each at the edge of a buffer (`edgeOf`), by evaluation of the machines |
| C143 | a step of the v3 machine that does not end in a panic of the runtime is, panic included, the same step on the machines of the v2 and v1 Buffers (`eq2`, `eq1`); there the mutex is free afterwards (`sticks_iff`, `Step1`); with the texts one call (`answered`), then induction on the list |
| C144 | the machines of the v3 and v1 `MiniBuffer`s take the same step as the one of v2 for the methods `Common` names, panics included (`eq3m`, `eq1m`); with the texts one call (`mini_answered`), then induction on the list.  For the other methods the calls of C142 at the edge of a buffer |
| C145 | every call of C140 leaves the slice of its buffer as it is (`kept`, from the footprints of C113 and C124–C126), so the array after it is what the buffer shows between what was around it (`array_after`); this keeps the relation between memory and the pool of bytes (`Pool.Is.after`), then induction on the list |
| C146 | as C145, with the calls of C143 and C144 and their panics; a call leaves the slice of its buffer as it is also when it panics (`kept_answer`), so the relation to the pool goes on (`all_outcomes`); types of the same sort mean the same step (`same_means`) |

## 4. Trusted base

* The Lean 4.33.0 kernel. Axioms: at most `propext`, `Classical.choice`,
  `Quot.sound` for every theorem in the manifest; `Verif/Audit.lean` prints
  them one by one. No axiom is added, no `sorry`, no `native_decide`/`bv_decide`.
* The reading of the Go source by the model, as described above, and the
  assumptions on Go primitives in `Verif/Go.lean` and `Verif/Prog.lean`.
  For the six buffer files (C81, C82, C84-C87) the transcription is not trusted: instead the parser
  and interpreter of `Verif/Src/{Syntax,Core,Sem}.lean`, which know Go statements
  and expressions but no method of the library, the functions of `encoding/binary`
  (`Verif/V1/Binary.lean`), and that `tools/src_embed.py` copied the texts unchanged.
  The tables from error names to error values and from constant names to values are
  those of the texts of `errors.go` and `v1/crunch.go` (C89, parser in `Verif/Src/Decls.lean`).
* For the generator (C99-C106) the transcription `Verif/Gen/{Complex,Main}.lean` is not trusted: instead the
  parser and interpreter of `Verif/Gen/Go/{Syntax,Sem}.lean`, the models of the library functions it
  calls (`strings`, `filepath.Ext`, `fmt` for the verbs used, `regexp` for the pattern used,
  `jennifer` as the tokens and line breaks it renders), the effect of the calls of `os`, `ioutil` and `flag`
  in a `World` (files are byte strings by path, each call may fail as the world says, `Close` frees the
  handle and its error, which the program ignores, has no effect, a directory can be changed only by
  `Chdir`, nothing else runs meanwhile) and that `tools/src_embed.py` copied the texts unchanged.
* For C59: `tools/gen_embed.py` copied the texts of `/repo/v3` unchanged (C81 and
  C82 prove that both copies of a generated file are the same).
* The statements themselves (`Spec`, `Ref*`, `Props`).

Not trusted: everything in `Lemmas`, the tools that wrote model files (their
output is what is checked and cited; `tools/citecheck.py` compares citations
with the Go text).

## 5. Testing the theorems

`seeded/mutants.py` lists edits of the model that correspond to realistic bugs,
each with the claim it falsifies; `seeded/run.py` applies them one at a time in a
scratch copy, rebuilds what depends on the edited file with a front end that
records every theorem whose proof fails, and appends the outcome to
`seeded/LOG.jsonl`. A mutant that no property theorem notices leads to a
stronger statement (field `tightened`).

How to read the log. A theorem counts as failed when its proof, or a proof it uses,
no longer checks; that is weaker than the statement having become false. Some ids
have several lines: a run with a wrong expectation, or with an earlier checker that
took constants rejected by the kernel for proved ones, stays beside the later run.
Reruns with the same expectation and outcome have one line. Lines with a non-empty
`not_noticed` carry a `note`; where it says that no later run has noticed the edit
(k18, k19, y04, y06, y14, y15, y16), this is open, with the earlier checker as the
suspected cause. Commits of the log up to 1c855bb kept one line for each id, and
for r11 replaced the claim named at the run (C60, not noticed) by C58.

## 6. Validating the interpreter

The interpreter of `Verif/Src` is trusted, so it is compared with what the project
expects of its code. `validation/run.py` reads the test files of `/repo/v1`, `/repo/v2`
and `/repo/v3` as text, translates every test function (calls, expected values, expected
panics) to commands, and runs them on the interpreted texts of the buffer files
(`validation/Runner.lean.txt`, evaluated by `lake env lean`). All 366 test functions
are translated and all pass. With 141 expected values and 32 expected panics altered,
exactly the 173 altered tests fail. This is testing, not proof, and nothing in the
manifest depends on it. C134 has all 366 tests in the kernel, for every policy
of `append`, by another parser and another reading of what the tests say.
