# Formal model of phantomzone-org/phantom in Lean 4

`properties.jsonl` lists the properties (C01 ...), `MANIFEST.json` maps each of them to exact theorem
names, and this document says what is modelled, how each property is proved, and what is trusted.  It was
first written as a plan before the proofs (first commit) and is kept in step with them.

Contents: 1 the code, 2 the layers, 3 the homomorphic library, 4 the circuits, 5 property by property,
6 what is modelled and what is not, 7 deviations found, 8 trusted base, 9 axioms per theorem,
10 tests of the theorems, 11 tools.

## 1. What the code is

phantom is a RISC-V (RV32I) virtual machine that runs over encrypted data.
There are three machines in the repository:

* **encrypted VM**: `fhevm/src/interpreter.rs` (`Interpreter`) with `memory.rs`, `rd_update.rs`,
  `ram_update.rs`, `ram_offset.rs`, `pc_update.rs`, `prepare.rs` and the generated circuits
  `codegen/codegen_*.rs`;
* **mirror**: `fhevm/src/debug.rs` (`InterpreterDebug`) with the `eval_plain` functions of
  `fhevm/src/instructions/mod.rs`, the plaintext counterpart the encrypted VM is compared with in
  `cycle_debug`;
* **test VM**: `compiler/src/interpreter/testvm.rs` (`TestVM`), an independent plaintext RV32IM VM whose
  output the samples compare with that of the encrypted VM.

Around them: the instruction decoder and encoder (`instructions/*.rs`), the ELF loader and tapes
(`compiler/src/interpreter.rs`), start-up code and allocator of guests (`runtime`), key preparation and
parameters (`keys.rs`, `parameters.rs`), and example guests (`compiler-tests`).

## 2. Layers of the Lean development

| layer | files | content |
|---|---|---|
| specification | `Verif/Spec` | small files a reader needs besides the theorem statements: the RISC-V manual (`Isa`: formats, instruction type, decoder, encoder, one step over byte memory; `Run`, `Env`: executions and what an instruction asks of its environment), word memory (`Mem`), heap (`Heap`), ELF image (`Image`), guest results (`Guests`), gadget parameters (`Params`), start-up (`Boot`), and how states of the VMs are read as states of the manual's machine (`TestState`, `MirrorState`, `Agree`, `Cycle`). `Isa` imports nothing of the model. |
| model | `Verif/Model` | function-by-function transcription of the Rust; every definition cites file and lines. A Rust panic is `none`. |
| circuit data | `Verif/Model/Circuits` | the `codegen_*.rs` tables, rewritten mechanically by `tools/gen_circuits.py`. |
| lemmas | `Verif/Lemmas` | proof support. |
| properties | `Verif/Props` | the property theorems `Cnn_*`, with concrete non-vacuity examples beside them. |

Conventions.  `u32` is `BitVec 32`; `usize` of the host is a natural number below 2^64 with explicit
overflow, `usize` of a guest is `BitVec 32`.  Code whose behaviour depends on the build profile takes a flag
(`dbg`: debug assertions, `chk`: overflow checks), and theorems hold for both values unless they say
otherwise.  The number of threads, the environment variables (read by `Model/Host`), the randomness of encryptions and the iteration
order of hash maps are universally quantified.

## 3. The homomorphic library

The encrypted VM calls a library (poulpy) that is not in the repository.  The VM is modelled over a record
`Backend` (`Model/Backend`) with the library's types and one field per library call the VM makes.  Five uses:

1. **the plaintext instance** `plain logN L` (`Model/Plain`): a GLWE ciphertext is the polynomial it encrypts
   (coefficients modulo 4, multiplication by powers of X negacyclic), a word ciphertext is its word.  This is
   the contract assumed of each library call.  What the VM must not rely on is left arbitrary in `L : Lib`: the
   permutation network of the stateful retrieval (any network that brings the selected element to the front and
   whose reverse undoes it), results out of range, the reading of coefficients other than 0 and 1 as bits,
   stale contents of the circuit evaluator's buffers.
2. **any correct library** `F : Fhe` (`Model/Library`): a backend, a relation between its ciphertexts and
   plaintexts preserved by every operation (`Sim`), fresh encryptions related to what they encrypt, and
   decryption returning the related plaintext.  This is the exact meaning of "the library is correct and the
   noise stays within bounds".  All functional theorems about the encrypted VM (C21-C24, C28-C32, C38, C41, C42,
   C51, C52, C56, C57) are about an arbitrary `F : Fhe`.  `sampleFhe` shows the assumption is satisfiable; it is
   used in the non-vacuity examples.
3. **the free instance** `terms logN` (`Model/Terms`): a ciphertext is the expression that computed it.
   Obliviousness (C33) says that in every library the ciphertexts after n cycles are the evaluation of one fixed
   expression which depends on public sizes only.
4. **arbitrary backends**, without any assumption: protocol discipline (C25) and independence of the number of
   threads (C27).
5. **any library with noise** `N : Noisy` (`Model/Noise`): a ciphertext has a phase, the message in multiples of
   `delta` plus noise.  Linear operations add noise up, every other operation adds a constant of its own
   (`Costs`, arbitrary numbers), and only bootstrapping, packing and decryption require their input to be below a
   limit.  C63 is about an arbitrary `N`.  `drift limit` (`Lemmas/Drift`) is an instance that is wrong as soon as
   the limit is exceeded.

## 4. The circuits

`codegen_*.rs` are tables of nodes `Cmux(selector, hi, lo) | Copy | None` cut into levels.  `Model/Bdd` gives the
double-buffer evaluator of the library with arbitrary stale contents.  Correctness on all inputs is proved with a
verified checker (`Lemmas/BddCheck`): an automaton that describes the specification bit by bit (adder with carry,
comparator, ...; `Lemmas/Adder`, `Lemmas/PcAuto`) is pushed through the levels of the circuit together with the
circuit itself (a product construction).  Soundness of the checker is a Lean theorem for all inputs and all stale
contents; the check is evaluated by the kernel on the finite table (`decide +kernel` in `Lemmas/CircuitChecks`),
never over inputs.

## 5. Property by property

"Negation" means that the stated claim is false of the code: the negation is proved with a witness, and theorems
with the suffix `_partial` (or an exact characterisation) cover what is true.

### Instruction words, decoder, parser (`Props/Decode`, `Accept`, `Parser`, `TestDecode`)

* **C01-C03, C09** Immediates, setters, sign extension: equations over all 2^32 words (and all immediates),
  proved bit by bit.  C02 includes that a non-representable immediate does not round trip.
* **C04** Parser: induction over the sequence of added instructions; earlier entries are stable.
* **C05, C07** Decoder of the fhevm crate on every word that the manual's decoder accepts; the three operation ids,
  registers and immediate determine the instruction (`C05_components_determine`), and both decoders denote the same
  instruction.
* **C06, C53** Exact accepted sets of both decoders, over all words.  The strict reading of C06 ("every word outside
  RV32IM is rejected") is refuted by `C06_strict_fails`.
* **C08** Finite tables of ids: distinctness and widths.
* **C48** SYSTEM words: decoded as no-operation, executed as such by the exact cycle semantics and the mirror.

### Plaintext semantics of operations (`Props/Alu`)

* **C10, C13, C14** `eval_plain` against `Spec.Isa` for all operands; case analysis over operations and bit-vector
  reasoning.
* **C11** MUL family and REMU in full.  DIV, DIVU, REM deviate for a zero divisor: negations with witnesses, and
  partial theorems outside those inputs; the `_iff` theorems
  give the exact set.
* **C12** Loads ignore the low address bits: proved for offset 0, negation otherwise.

### Circuits (`Props/Circuits`)

* **C15-C20** See section 4.  C19 covers the nine pc operations with the exact role of bit 19 of the immediate,
  and the failure for wider jumps.

### Encrypted memory (`Props/Memory`)

* **C21-C24** For any correct library, any size, ring degree and number of threads; histories by induction against
  the word-list specification `Spec/Mem`.
* **C25** Which call sequences panic, on arbitrary backends.
* **C26** `zero(addr)`: exact set of addresses for which it clears the right word (`C26_correct_iff`); the general
  claim is refuted.
* **C27** The chunks given to threads partition the bits, every interleaving gives the same result; memory
  operations, multi-preparation and whole cycles do not depend on the thread count.
* **C62** (`Props/Scratch`) Scratch reserved per thread against scratch used, with the library's sizes as parameters:
  enough for `zero` and stateless reads; exact condition for the other two, with a witness where it fails.
* **C28, C50** Wrapping of addresses for power-of-two sizes, failure otherwise; least address width.

### Encrypted interpreter (`Props/Interp`, `Oblivious`, `Timing`, `UnitTests`)

* **C29** `Spec.cycle` is the exact plaintext meaning of one encrypted cycle; `C29_exact` proves it for any correct
  library by a simulation between the backend and the plaintext instance and an evaluation of the cycle there.
  Equality with the mirror holds outside four deviations; the unrestricted claim is refuted (`C29_lb_fails`).
* **C30, C32, C34, C51** n cycles, by induction; absence of panics; counter; program memory; zero padding.
* **C31** Invariant over any number of cycles in all three VMs.
* **C63** (`Props/Noise`) The noise budget.  A second simulation with a noise bound in every relation: one cycle
  adds `regGrowth` to all registers and `ramGrowth` to all RAM words, only values written are refreshed.
  `C63_budget` gives the result of n cycles when the last one fits, `C63_output` the end-to-end theorem C42 under
  this assumption.  `C63_tight`: in the library `drift` the words that are never addressed decrypt to their
  complement one unit beyond the budget.
* **C65** (`Props/Depends`) Data flow.  The trace of a cycle is written as equations between its values; each node of
  the graph `Spec/CostGraph` is a function of its sources (`C65_local`), and by recursion along the graph of the inputs
  that lead to it (`C65_depends`).  That the inputs matter is shown by a table of pairs of states (`C65_real`), carried
  over to any correct library by `C65_real_encrypted`.
* **C33** Parametricity through the free instance: every library operation is a homomorphism from terms.
* **C52** `cycle_debug` compares all intermediate values; it never panics on supported cycles.

* **C71** (`Props/Timing`) The cycle with its clock readings (`Model/Timing`, a second transcription of the stages) against
  an arbitrary clock: erasure of the measurements gives `Interp.trace`; the possible measurements exactly; log,
  printing, averages.
* **C72** (`Props/UnitTests`) The unit tests of the crate (`Model/UnitTests`), with all that they draw as parameters.
  Each is equivalent to a condition on the draws; instances give the tests as they are.

### The VMs against the manual and against each other (`Props/Mirror`, `Exact`, `TestVM`, `TestMem`, `Wrap`, `Agree`)

* **C35** Mirror and encrypted cycle refine the manual's step, for supported accesses; refuted without the
  restriction.  `Spec/Interpreter` writes down the instruction set that is implemented instead, and `Props/Exact`
  proves it for every RV32I instruction in every state (`C35_exact`, `C35_encrypted_exact`, `C35_library_exact`).
* **C36** Test VM refines the manual's step on every RV32IM instruction; exact panic set; any number of steps in both
  directions (`C36_runs`, `C36_complete`).
* **C37** Byte accuracy of the test VM's memory.
* **C68** (`Props/Wrap`) What the test VM does at any address (`execTest`), and that this is what the mirror does on
  supported instructions.
* **C38** Same state in both VMs after any number of supported steps, wherever the accesses go (by C68).

### Loader, tapes, end to end (`Props/Loader`, `EndToEnd`, `ExactOutput`, `Matcher`, `Boot`, `Layout`)

* **C39** ELF loading byte by byte; skipped segments refute the full claim.
* **C40, C41** Packing and tapes.
* **C42** Composition of all of the above: equal output tapes.
* **C70** (`Props/ExactOutput`, `Matcher`) End to end without the restriction to supported accesses: output tapes in terms
  of `Spec/Interpreter` (encrypted VM) and of the manual (test VM).  `Matcher` applies both to complete guests that
  compute string-match; the loop is verified once for any machine (`Follows`) and instantiated for the three VMs.
* **C56** Start-up code for all addresses, on the manual's machine and, through C36/C38, in both VMs.
* **C57** `loop {}` is a fixed point in both VMs, so that the output does not depend on surplus cycles.
* **C58** Returning from `main`: the test VM panics; the encrypted VM continues, refuting the claim.
* **C64** (`Props/Layout`) The linker script, interpreted as the linker's manual describes it, for any input sections.
  Section by section: addresses, order, symbols.  Composition with C44/C45 (heap), C56 (start-up) and C39 (loader):
  `C64_loads` discharges the assumptions of C42 about the image, `C64_output` is C42 for every guest the script
  accepts.  The relation `LinkedAs` between layout and ELF file leaves the grouping into segments open.
* **C82** (`Props/Segments`) The grouping as lld does it (`Model/Segments`): neighbours of equal flags share a segment, `.bss`
  has its own because it has no `AT> RAM`.  Induction over the sections gives order and coverage of the groups; with C64 and
  C39 every initialised byte is loaded.  Both linker models are compared with a real lld: 40 accepted and 9 refused guests in
  `Lemmas/LinkVectors` (another 3000 by `tools/gen_link_vectors.py`), and one whole file, which is parsed by `Model/ElfBytes`,
  satisfies the hypothesis of C82, and runs.
* **C83** (`Props/Println`) `println` is ECALL.  SYSTEM words and `nop` are decoded to inert instructions; two programs that
  differ only in inert instructions go through the same states (`SameBut`, a bisimulation for the exact cycle semantics, the
  mirror and both together), whence `C83_encrypted` and, with C42 for the guest without system instructions, `C83_output`.
  `C83_differ`: a guest that both VMs load, which the encrypted VM completes and the test VM does not.
* **C84** (`Props/Select`) From input sections with names and references to the lists `Model/Link` starts with
  (`Model/Select`).  Two patterns with a common name overlap as patterns, and no two of the script do (a finite check), so the
  choice by name has a closed form.  The marking phase has fuel for every reference and marks exactly what is reached
  (`mem_live_true`).  `C84_placed` puts the six output sections of C64 together.  Leaving out pieces never moves the location
  counter up (`fill_mono`, `section_mono`), hence `C84_collected`.  54 inputs linked by lld are reproduced in
  `Lemmas/SelectVectors`.
* **C85** (`Props/Symbols`) One level up again: sections with symbols (`Model/Symbols`), the three sections of the runtime, and
  the macro.  With one definition per symbol the numbered references of C84 are the named ones (`reached_numbered`), so
  `C85_refused` and `C85_reached` speak about names only.  `C85_program` combines them with C84, `C85_no_runtime` with the segment
  table of C82 and the loader.  50 inputs (20 of them refused) are reproduced in `Lemmas/SymbolVectors`.
* **C86** (`Props/DocTable`) The tables of the documentation are transcribed in `Spec/DocTable`.  The product check of C19 is run
  for the seven remaining four-bit ids as well (`Lemmas/PcChecks/Other`), so `C86_every_id` holds for every id word.
* **C87** (`Props/MulDiv`, `Lemmas/AnyRom`) `Spec/AnyRom` reduces each program memory entry to that of an RV32I instruction and
  then is `Spec.cycle`; no hypothesis on the entries is left.  RV32M words are one application; `Spec/MulDiv` says by hand what
  is written.
* **C88** (`Props/Assembled`, `Amm`, `Poly`, `GuestHosts`) `C88_both` puts the theorems of C70 on both VMs together: one run of the manual's machine
  gives both output tapes.  The rules `Ends.*` reason backwards through straight-line code, and the loops (shift-and-add
  multiplication, shift-and-subtract division, the loops of the guests) are inductions.  The results are the `Guest.*Main` of C46, C54.
  `GuestHosts` puts the hosts of C74 and the cases of C77 on top.
* **C89** (`Props/Whole`) The chain C85, C84, C64, C82 (or C73), C56, C88, C74 for one guest.  New in between: code without AUIPC
  whose calls return through x1 may be moved (`go_moved`), so that `main` of C88, proved at 0 for arbitrary registers, also runs behind the start-up
  code (`tail_runs`, `program_runs`, for any such `main`).
* **C90** (`Props/Linked`, `LinkedGuests`; `Spec/Linked`) The chain of C89 for arbitrary sections.  `Holds` says what a linker must
  have done with the bytes, `Entered` how `_start_rust` finds the machine; a run on the manual's machine from every such state is
  the only thing to be shown about a guest.  `C90_contents` and `C90_fetch`: the hypotheses can always be met.
* **C91** (`Props/Reloc`, `Objects`; `Model/Reloc`, `Spec/Reloc`) The last step of linking, and with it guests given by object files.
  Relocations about different bytes do not disturb each other (`foldl_fix`), so each is a statement about one or two words;
  `C91_branch_exact` and `C91_jal_exact` compare the linker's range check with the existence of an immediate, `C91_refused` collects all reasons
  for failure.  `C91_start` derives the start-up code C90 assumed; `C91_poly`, `C91_test1` and
  `C91_amm_host` are three guests as object files.  12 programs and 12 refused inputs are reproduced byte by byte in
  `Lemmas/ObjectVectors` (another 510 and 280 by `tools/gen_object_vectors.py`).
* **C92** (`Props/Divergent`) C90 and C91 ask for a run on which manual and interpreter agree.  Here there are two runs, one for each VM
  (`words_both`, `loaded_outputs`), and string-match with byte loads is a guest for which they end differently: `C92_match_bytes` has a
  false match under encryption, `C92_match_host` says for which strings the host's assertion on the tapes fails.
* **C93** (`Props/Limit`) The VMs count cycles and have no notion of a program being finished.  `C93_prefix` and `C93_early` say what they
  return at every limit below the length of a run (`objects_start` has the run of both VMs from the first instruction); `C93_match_bytes`
  and `C93_match_words` give the answer of string-match for every limit (`match_run`), `C93_match_host` what its host makes of it.
* **C94** (`Spec/AllInstr`, `Props/AllInstr`, `Props/AllObjects`, `Props/TinyGuests`) `execAll` is `execEnc` with `encMulDiv` for RV32M, and
  `FetchAny` reads any RV32IM instruction from the program; `C94_encrypted` and `C94_output` are C41/C92 without the restriction to
  RV32I without LB.  `C94_sign` and `C94_selfOp` are nine guests of six instructions (`tiny`), linked from object files by kernel computation.
* **C95** (`Spec/DebugOk`, `Props/DebugExact`) `debugOk` is the exact condition under which a cycle with the comparison succeeds
  (`C95_cycle`); `C95_encrypted` and `C95_output` carry it along a run.  `C95_sign` and `C95_selfOp` are the guests of C94.
* **C96** (`Spec/EveryWord`, `Props/EveryWord`, `EveryCompared`) `ReadsAs` relates each accepted word (C06) to the instruction it is
  executed as; it is a function (`C96_unique`).  Its program memory is that instruction's, except for SYSTEM, where the cycle is done by
  hand.  `C96_encrypted`, `C96_total` and `C96_compared` have no hypothesis about the run; `C96_odd` is a program of words most of which
  no compiler writes.
* **C97** (`Spec/EveryTest`, `Props/EveryTest`) `TestReads` does for the test VM what `ReadsAs` does for the encrypted one, over all words
  (`C97_accepted`); `C97_alike` compares the two.  `C97_step` is an equivalence, so `C97_testvm` says exactly when a run completes.
  `C97_odd` is the program of C96, `C97_count` one that runs past its end.
* **C98** (`Spec/PastEnd`, `Lemmas/Padded`, `Props/PastEnd`) The program memories are looked at as memories of as many words as the
  addresses go: a cycle does not depend on their declared size, and encryption fills the last ciphertext with zeros.  Then
  C96 applies to the program continued by branches to themselves.
* **C99** (`Spec/SameStep`, `Props/SameStep`) `C99_step` is an equivalence for one instruction: both accesses to the RAM are brought to the
  word of the address (`byte_here`, `byte_first`), and what remains is about the bytes of one word.  Inside the program both VMs read
  the same instruction (C97_alike), which gives `C99_first` for runs and, with C96 and C97, `C99_output`.  `C99_always` is exact too: for every
  instruction that is not listed there is a state (`accessAt`, or all registers alike) in which the VMs differ.
* **C100** (`Props/ChooseCycles`) The procedure of compiler-tests/template/README.md.  `C100_settled` continues the run of C99 in the final
  loop; `C100_countdown` is an invariant (`DownAt`) of a program that counts its input down.
* **C101** (`Spec/RunRound`, `Props/RunRound`) Relation between the VMs: equal registers and RAM, program counters equal modulo the size of
  the program (`wrap_eq_iff`).  `C101_step` is an equivalence for one instruction; far jumps lose a multiple of 1 MiB, which does not matter
  in a program of at most that size (`far_mod`).  `C101_fetch` says that both read the same word; runs and outputs as for C99.
* **C102** (`Model/Session`, `Spec/Session`, `Props/Session`) The machine `Spec.Session` has one rule per public function of the test VM;
  `session_aux` is a simulation by induction on the calls, with the parts of the VM no call changes (`frame`).  `C102_stale` follows from
  `loop {}` being a fixed point of the machine and the input section being apart from the output section.  `C102_encrypted` is proved for
  any `Backend`: a cycle does not look at the limit.
* **C103** (`Spec/Profiles`, `Props/Profiles`) `Keeps f`: whatever `f true` returns `f false` returns.  It is closed under `bind`, `map`,
  conditions and lists, so it goes through every function of the models with the parameters `chk` and `dbg`.  `C103_first` compares the two
  machines of C97; `belowGuest` is the witness, with C99 for its release build and C97 for its debug build.
* **C104** (`Spec/Moved`, `Props/Moved`) `startAt base` is the start with the RAM at `base`; `Arch.moved base` puts what is at `base + k` to
  `0x40000 + k`.  For multiples of 4096 moving commutes with `execTest` exactly (`C104_step`), so runs carry over to the machine of C97 and
  C99; `stuck` carries over without the overflow checks, which depend on the place.  The encrypted VM needs nothing new, as C96 leaves the
  place open.  `C104_page` and `C104_skew` are the same program with RAM at 0x41000 and 0x40004.
* **C105** (`Model/ReprC`, `Spec/ReprC`, `Props/ReprC`) `repr(C)` for a target with pointers of `w` bytes: `CTy.align`, `CTy.size`,
  `offsets`, `writeTy` (with the padding a function of the position) and `readTy` (`none` = undefined behaviour).  `C105_layout` says where the
  fields are without the model's way to compute it (`Next`).  `C105_written` and `C105_read` tie the declarations of the five programs to
  the tapes of C46, C54 and C59; `C105_output` goes from a structure of the host through the source of
  the guest to a structure of the host; `C105_usize` is what goes wrong with `usize`.
* **C106** (`Props/Deep`) a guest of twelve instructions.  `DeepAt m j r s`: before the test of the loop, after `j` pushes and with `r` to go,
  the byte at offset `v` of the RAM is that of the pushed word if `4096 ≤ v + 4 j` and `m v` otherwise; this stays true when the stack wraps
  around.  The run on the test machine goes to both VMs through C99, and the panic of a debug build is a stuck step of C97.
* **C107** (`Props/Static`) `Spec/Static` is a small abstract interpretation: registers before each instruction as one of a list of words, a
  multiple of four or anything; memory is not followed (a loaded word can be anything, so a return address from the stack is refused).
  `checkProgram` checks a table; `tableOf` computes one and nothing is claimed about it.  `table_step` is the soundness of a step, and
  `C107_complete`, `C107_agree` follow through C99 and C97.  `Table.text` compares the words of the ROM only where the table says that
  execution can get, so that linked files with `unimp` in the start-up code are covered.  The check is sufficient, not necessary.
* **C108** (`Props/Bound`, `Props/StaticLinked`) `Spec/Bound` adds to the table of C107 a graph: nodes at an instruction with values for the
  registers that are followed (loop counters) and a bound on the instructions up to `loop {}`.  `checkBound` checks it; `graphOf` computes
  one, unverified.  `bound_runs` is an induction on the bound.  The output of `C108_enough` is chosen before library, build and number of
  cycles.  `C108_none`: nothing passes for the countdown of C100.  `C107_linked` and `C108_linked` are about the files lld writes (C82).
  The kernel evaluates graphs up to about a thousand nodes; template and guest-test1 are beyond.
* **C73** (`Props/ElfFile`) The file as bytes.  The parser (`Model/ElfBytes`) reads in sequence; the specification
  (`Spec/ElfFile`) is a table of positions; `C73_accepts`, `C73_segments` and `C73_section` say that they agree on all
  byte lists.  `Spec/ElfWrite` is a writer; reading inverts it, and with it C64 becomes a statement about bytes.
* **C74** (`Props/Host`) The hosts of the compiler tests: environment, both VMs, comparison of the tapes, comparison with
  the expected values.  The number parser with its two loops against `Spec.decimal`; each host as an equivalence; then
  C73_output for guests that pass, and the guests of C70 for what the checks miss.
* **C67** (`Props/Sources`) The set-up with explicit sources, in the order of the code.  Key generation, encryption and
  evaluation keys are parameters.  Encryption in this order is the encryption of the other theorems with the randomness
  `Keyed.drawn`; counting draws gives freshness within a set-up; the constant seeds give everything else.
* **C76** (`Props/Privacy`, `Lemmas/Hybrid`) The set-up is a function of a family of ciphertexts (`Spec.assemble`), whose
  plaintexts are `Spec.content`; the rest is public.  The hybrid argument over this family turns a test on the set-up into
  tests on single ciphertexts, with an equation for what they gain.  Randomness is uniform over a finite type and chances are
  rational numbers, so no measure theory is needed.  The witness of `C76_perfect` is the one-time pad.

### The crate's own test programs (`Props/Template`)

* **C66** The instruction builder against the manual's encoder, mnemonic by mnemonic and setter by setter; chains by
  induction.  The programs of `tests/cycle.rs` are run in the model: the mirror by evaluation, the encrypted VM for
  any correct library by C52.
* **C77** (`Props/GenTests`) The generated file as tokens, against a reader of Rust constants and of the function at the end (`Spec/RustConst`) with a type
  check.
* **C78** (`Props/Build`) The build command with cargo as a parameter; `Spec/Cargo` states cargo's promise.
* **C79** (`Props/NoiseReport`) What `Memory::noise` measures, with the phases of the ciphertexts and the stale contents of the
  scratch buffer as parameters; `Spec/Near` says what each coefficient is compared with.
* **C80** (`Props/FormatTests`) The tests inside the instruction format files, with the operands they fix as parameters, and
  what they determine about a decoder.
* **C81** (`Props/Calls`) The functions of a cycle once more in a monad that records library calls (`Model/Calls`), against the
  list of calls written from the sizes (`Spec/Calls`).  One equation gives both the calls and the agreement with the model
  without record; C33_sequence follows.
* **C75** (`Props/Bench`) The benchmark, by induction over the iterations from C48 (system instructions), C33 and C52.

### Guests, allocator, keys, parameters (`Props/Alloc`, `Guests`, `Otc`, `Keys`)

* **C43-C45** Invariant over histories of allocator calls with arbitrary stack pointers.
* **C46, C47, C54** Guests from input tape to output tape against formulas over the natural numbers.
* **C59-C61** The `otc` guest on IEEE binary32 with rounding to nearest, defined over the rationals (`Model/F32`,
  checked against 256 results of a floating-point unit in `Lemmas/F32Vectors`, and 256 square roots): order of the prices, order between
  clients, error bound. The lemmas show that rounding is monotone, fixes representable numbers, and that every result
  has a bit pattern.
* **C69** (`Props/Volatility`) The square root used by the otc host (`Model/F32Sqrt`), defined with integer square roots,
  against the real square root of Mathlib.
* **C49** Key maps, with the library's key functions as parameters and any iteration order.
* **C55** Constants of the parameter set; a finite check, which is all the property says.

## 6. What is modelled and what is not

Modelled, function by function (line numbers are in the model files):

| /repo | model |
|---|---|
| fhevm/src/instructions/{mod,b,i,j,r,s,u}_type.rs | `Model/Instr` |
| fhevm/src/instructions/mod.rs (RV32I builder), tests/cycle.rs | `Model/Template` |
| fhevm/src/memory.rs, address widths | `Model/Memory`, `Model/Threads` |
| fhevm/src/memory.rs, prepare.rs, scratch sizes and assertions | `Model/Scratch` |
| fhevm/benches/cycle.rs | `Model/Bench` |
| fhevm/src/memory.rs, `noise` | `Model/NoiseReport` |
| order of the library calls in memory.rs, prepare.rs, interpreter.rs, rd_update.rs, ram_update.rs | `Model/Calls` |
| fhevm/src/instructions/*_type.rs, tests; `assert_size`, `assert_instruction` of mod.rs | `Model/FormatTests` |
| noise of every library call made by the VM | `Model/Noise` |
| fhevm/src/interpreter.rs, prepare.rs, rd_update.rs, ram_update.rs, ram_offset.rs, pc_update.rs | `Model/Interp`, `Model/CircuitOps` |
| fhevm/src/tests/{memory, ram_offset, pc_update, interpreters}.rs, `PCU` in pc_update.rs | `Model/UnitTests` |
| fhevm/src/measurements.rs, clock readings in interpreter.rs | `Model/Timing` |
| fhevm/src/debug.rs, `cycle_debug` | `Model/Debug` |
| fhevm/src/codegen/*.rs (all five tables, 160 circuits) | `Circuits`, `Model/Bdd` |
| fhevm/src/keys.rs (automorphism keys), parameters.rs | `Model/Keys` |
| compiler/src/interpreter.rs | `Model/Loader` |
| the calls of the `elf` crate in `from_elf` | `Model/ElfBytes` |
| compiler/src/interpreter.rs, sources of randomness and order of encryption in `encrypted_vm` | `Model/Sources` |
| compiler/src/interpreter/testvm.rs | `Model/TestVM`; several calls on one VM: `Model/Session` |
| runtime/src/alloc.rs, lib.rs | `Model/Alloc`, `Model/Boot`, `Spec/Println` (the instruction `println` executes) |
| macros/src/lib.rs | `Model/Symbols` |
| compiler/linker-script/default.x | `Model/Reloc`, `Model/Symbols`, `Model/Select`, `Model/Link`, `Model/Segments` |
| compiler-tests/{uniswap, string-match, template, gen-tests} | `Model/Guests` |
| compiler-tests/{uniswap, string-match, template, otc}/src/main.rs (hosts, environment variables) | `Model/Host` |
| structures on the tapes (`repr(C)`), `to_u8_slice`, `from_u8_slice`, `read_volatile` | `Model/ReprC` |
| compiler-tests/gen-tests/src/{lib, guest_test1}.rs (code generation, test cases) | `Model/GenTests` |
| compiler/src/lib.rs (command line, flags, paths) | `Model/Build` |
| compiler-tests/otc, `f32` | `Model/Otc`, `Model/F32`, `Model/F32Sqrt` |

Not modelled:

* the cryptography itself: the size of the noise constants for the actual parameters, security of a single ciphertext
  (C76 reduces to it; C67 refutes it for the code's seeds),
  serialisation;
* scratch-space sizes outside memory.rs and prepare.rs, alignment of scratch pieces, printing;
* cargo, rustc and rustfmt;
* the translation of guests by rustc.  Guest theorems are about the Rust source of `main`; the theorems about VMs
  are about all machine programs;
* the linker's relaxation, relocation types for thread-local and position-independent code, merging of equal constants, and the place of sections the script does not name, except those without contents.

## 7. Deviations found while proving

Each is proved with a witness in the theorem named.  Line numbers are in the model files.

| behaviour | theorem |
|---|---|
| SLLI funct7, JALR funct3 and all SYSTEM words are accepted by the fhevm decoder | C06_strict_fails |
| reserved words accepted by the test VM's decoder | C53_reserved_accepted |
| DIV/DIVU by zero give other values than the manual; REM tests the dividend and panics on a zero divisor | C11_div_fails, C11_divu_fails, C11_rem_fails |
| loads in the mirror and the encrypted VM ignore the low two address bits | C12_offset_fails, C35_fails, C38_unsupported_differ |
| consequence for a byte-wise string-match guest: under encryption it accepts wrong strings, debug comparison or not | C70_bytes, C70_false_match |
| SH at an odd byte offset writes zeros | C14_misaligned_sh |
| encrypted LB does not sign extend (the mirror does) | C29_lb_fails, C52_debug_lb_panics |
| jumps beyond 512 KiB go elsewhere under encryption | C19_wide_jump_fails |
| `Memory::zero` clears the wrong word for most addresses | C26_wrong_word |
| surplus words are dropped when a memory is encrypted | C21_excess_dropped |
| sizes that are not powers of two: encrypted access and mirror differ | C28_other_sizes_fail |
| after 2^32 cycles the counter is 0 again and the stored program counter is ignored | C30_counter_wraps |
| ELF segments with an uninitialised part are skipped, including their initialised bytes; so initialised variables in one segment with `.bss` would be lost; the linker script keeps them apart | C39_fails, C64_data_lost, C82_segments |
| a guest without a section for one of its tapes is not loaded | C82_tapes_needed |
| an uninitialised section of a name the linker script does not know lies behind `_end`, where the allocator hands out memory | C84_orphan |
| two variables in the input section are one tape for the tools | C84_two_inputs |
| a guest without the runtime is linked into a file without code, which the loader refuses | C85_no_runtime |
| the ids documented for LH, LW, LBU, LHU, JALR and BNE are those of other operations (for BNE: of its opposite, BEQ) | C86_fails, C86_bne |
| RV32M words, which the decoder and the test VM accept, are executed under encryption as other instructions, without an error | C87_mul, C87_differ |
| a guest that prints runs under encryption, printing nothing, and makes the test VM panic | C83_differ, C83_stops |
| past the end of the program the test VM starts it over, the encrypted VM stays where it is | C97_count, C98_count |
| packing drops a trailing incomplete word (the loader rejects such ROMs) | C40_remainder |
| in a test-VM memory smaller than the access, bytes overwrite each other | C37_small_memory |
| the allocator's check holds only at the time of the call | C45_later_stack |
| AMM: rounding favours the trader, the pool can be drained, wrapping mints tokens | C46_product_decreases, C46_drain, C46_mints |
| the template's sample point overflows a build with overflow checks | C54_template_sample |
| built with overflow checks, the template's host stops at its own computation of the expected value | C74_template_checked |
| the string-match host passes without running the guest, and for a guest that reads every fourth character only | C74_match_idle, C74_match_blind |
| the otc host compares no price | C74_idle |
| without overflow checks the uniswap host expects a trade where the guest panics for lack of balance | C74_swap_want |
| otc: institutions pay less per coin for 6 coins than for 5 | C60_discount |
| the GLWE key switch drops four bits | C55_keyswitch |
| a guest that returns from `main` is not stopped by the encrypted VM | C58_restarts |
| the dependency graph of doc/costs.md lacks three arrows | C65_missing |
| the cycle time is not the sum along the longest path, as doc/costs.md says | C71_costs |
| the unit test of all operations passes only for draws of a RAM word with low byte below 128 | C72_one_op |
| the unit test of one instruction fetches the first instruction whatever index it encrypts | C72_one |
| the unit test of the program counter overflows if both operands of certain cases are drawn as `u32::MAX` | C72_pc_cases |
| below a RAM whose size does not divide 2^32, the VMs access different words (without overflow checks) | C68_below_differ |
| every set-up has the same secret key, masks and errors: anyone can decrypt, and equal blocks are recognised | C67_same_key, C67_anyone_decrypts, C67_comparable |
| the benchmark's scratch does not grow with the threads: at its default of 32 it has half of what `execute` has per thread | C62_fixed |
| the comment in benches/cycle.rs says `THREADS`; the variable read is `PHANTOM_THREADS` | example in `Props/Bench` |
| template/README.md gives 32 as the default of `PHANTOM_THREADS`; it is the number of physical cores | C74_settings |
| template/README.md says `PHANTOM_DEBUG` prints information; it also stops a run at the first cycle that differs from the mirror | C95_encrypted |
| template/README.md: a number of cycles found with the test VM is right for the sample inputs, and only if the guest has come to its final loop | C100_settled, C100_countdown, C97_count |
| a test VM that has come to the final loop and is given another tape returns the output of the first | C102_stale, C102_countdown |
| a guest that reads below the RAM runs in a release build of its host and panics in a debug build | C103_below |
| with RAM at 0x40004 the test VM returns the input of a program that copies it and the encrypted VM returns zeros (the linker script puts the RAM at 0x40000, C64_loads) | C104_byte, C104_skew |
| a structure of a `u64` and a `usize` passes the length check of the tapes, and the guest reads the low word of the host's number (no structure in the repository has a `usize`) | C105_usize |
| a guest with more than 1021 words on its stack loses its variable; both VMs return the same wrong value and the comparison passes | C106_deep |
| the noise reported for a memory compares the unused end of its last polynomial with the previous one (or with stale scratch) | C79_gap, C79_false, C79_stale |
| stateful reads and writes of a small memory do not reserve scratch for the blind rotation they run | C62_stateful_false |

Further observations which are visible in the model but not stated as properties: RAM words and registers are refreshed only when they are written; nothing in the VM bounds the number of cycles
by the noise the other words collect (C63_tight shows that such words can be lost).

doc/costs.md lets
blocks of equal depth run in parallel; the code runs the stages one after the other.  A comment in tests/cycle.rs says
that the test compares x1 with `0xEF10 << 12`; SLTI compares with the sign-extended low 12 bits of 0xEF10, and
C66_cycle_test gives the outcome (0).

compiler-tests/gen-tests calls `compiler.build()` without the argument of `CompileOpts::build`, so it does not compile at
this commit; it is not a member of the workspace.  Its six cases use numbers of one byte only (C77_misses).

With `PHANTOM_THREADS=0` every memory operation panics (last part of C62_execute), so no host gets through (C74_no_threads).

## 8. Trusted base

1. The Lean 4.33.0 kernel.  No theorem uses `native_decide`, `bv_decide`, `sorry` or an axiom beyond those of
   section 9.  `decide +kernel` is used on finite tables and concrete witnesses only.
2. The transcription of the Rust source into `Verif/Model`, by reading; section 6 lists what is left out.
3. The transcription of the RISC-V manual into `Verif/Spec/Isa` (encodings compared with 200 words written by lld and 31
   known ones, `Lemmas/RelocVectors`; encodings, operands and results recalled from assembler listings and from riscv-tests, neither of
   which is available here, `Lemmas/IsaVectors`), and of the behaviour of lld into `Model/Symbols`,
   `Model/Select`, `Model/Link` and `Model/Segments` (`Lemmas/SymbolVectors`, `Lemmas/SelectVectors`, `Lemmas/LinkVectors`), and into `Model/Reloc` (`Lemmas/ObjectVectors`).
4. The contracts of library calls: the plaintext instance (`Model/Plain`), the circuit evaluator (`Model/Bdd`) and the
   assumption `Fhe`.  C33 assumes of the library only that retrieval keeps the number of ciphertexts and that the
   repository's circuits evaluate.  For C73 also what the `elf` crate does with bytes (`Model/ElfBytes`, written from the
   ELF standard and the crate's interface; its source is not in the repository).
5. `tools/gen_circuits.py`, which rewrites the tables of `codegen_*.rs` as Lean lists.
6. Semantics of Rust integer arithmetic, shifts, slices and casts, of `f32` (IEEE 754), and of `parse::<usize>` and
   `eq_ignore_ascii_case` (`Model/Host`), as written out in the models.

## 9. Axioms per theorem

Generated with `#print axioms` by `tools/axioms.py --write`.

<!-- axioms begin -->
* no axioms (10 theorems): C08_rd_id_injective, C08_ram_id_injective, C08_pc_id_injective, C08_id_widths, C10_no_destination, C55_keyswitch, C55_ranks, C62_stateful_false, C68_below_differ, C86_fails.
* `propext` (19 theorems): C08_lists_complete, C28_mirror, C28_other_sizes_fail, C37_read_half_odd, C37_read_word_misaligned, C37_write_byte, C46_product_decreases, C46_mints, C55_parameters, C65_inputs, C67_shared_start, C85_entry, C86_own, C86_ids_partial, C87_own, C87_wrong, C102_again, C105_same, C105_guests.
* `Quot.sound`, `propext` (141 theorems): C01_imm_shift, C01_imm_U, C01_imm_R, C02_roundtrip_U, C02_reject, C03_setters, C03_getters, C03_imm_setters, C03_release_total, C03_debug_formats, C05_opid_legal, C05_registers_legal, C06_slli_ignores_funct7, C06_jalr_ignores_funct3, C06_system_is_nop, C06_accept_exact, C06_components_defined, C06_parser_accepts, C06_reject_illegal_partial, C11_mul, C11_remu, C11_divu_partial, C11_div_fails, C11_divu_fails, C11_rem_fails, C11_not_correct, C11_divu_iff, C12_offset_fails, C13_next_pc, C14_store_bytes, C14_nonstore, C14_misaligned_sh, C15_lui, C15_lui_isa, C16_auipc, C16_auipc_isa, C17_link, C18_ram_offset, C18_order, C18_in_ram, C20_defined, C20_shape, C27_partition, C29_start_mirror, C29_decoded, C29_not_m, C30_counter_wraps, C31_mirror, C31_testvm, C32_program, C32_refetch, C32_mirror, C34_compose, C34_counter, C34_testvm, C34_testvm_execute, C35_fails, C36_shows, C37_read_half, C37_read_word, C37_total, C37_below, C37_small_memory, C38_unsupported_differ, C39_rom, C39_base, C39_tapes, C40_pack, C40_unpack, C40_inverse, C40_inverse', C40_remainder, C41_encrypted_output, C41_test_output, C41_test_output_total, C45_gap, C46_wrapping, C46_tape, C48_decode, C48_cycle, C48_mirror, C50_every_index, C51_padding_halts, C53_reserved_accepted, C54_template_checked, C54_template_sample, C54_test1, C54_test1_checked, C58_testvm_partial, C58_encrypted, C58_restarts, C58_testvm_witness, C62_execute, C63_enough, C65_real, C66_template, C66_setter, C66_chain, C66_build, C67_same_key, C68_same, C71_cycle, C71_log, C71_average_nested, C71_costs, C72_pc_coverage, C74_parse, C74_yes, C74_settings, C74_equal, C74_template_checked, C74_swap_want, C74_uniswap, C75_no_threads, C77_reads, C77_get, C77_length, C77_cases, C77_misses, C79_false, C79_stale, C80_tests_pass, C81_rounds, C82_tapes_needed, C83_testvm, C83_stops, C87_debug, C91_goes, C91_loads, C96_accepted, C97_window, C97_runs, C98_stays, C103_testvm, C103_parser, C103_encrypted, C103_builder, C103_guests, C103_both, C103_hosts, C104_step.
* `Classical.choice`, `Quot.sound`, `propext` (421 theorems): C01_imm_I, C01_imm_S, C01_imm_B, C01_imm_J, C01_imm_legal, C02_roundtrip_I, C02_roundtrip_shift, C02_roundtrip_S, C02_roundtrip_B, C02_roundtrip_J, C03_disjoint_fields, C04_lossless, C04_append_stable, C04_legal_program, C05_components_determine, C06_strict_fails, C07_testvm_legal, C07_decoders_agree, C09_sext, C10_rd_value, C11_mulh, C11_mulhsu, C11_mulhu, C11_div_partial, C11_rem_partial, C11_div_iff, C11_rem_iff, C12_loads_partial, C12_exact, C19_next_pc, C19_next_pc_20bit, C19_wide_jump_fails, C21_round_trip, C21_excess_dropped, C22_read, C23_write, C23_history, C24_two_phase, C24_write_back, C25_protocol, C26_zero_partial, C26_word_zero, C26_correct_iff, C26_wrong_word, C27_prepare, C27_prepare_values, C27_cycle, C27_interleaving, C27_memory, C28_wraps, C29_observe, C29_start, C29_exact, C29_total, C29_mirror_partial, C29_lb_fails, C29_supported_ordinary, C30_exact, C30_total, C30_mirror_partial, C31_encrypted, C33_sequence, C33_fixed_expression, C33_intermediate, C33_oblivious, C35_exact, C35_runs_exact, C35_encrypted_exact, C35_encrypted_runs_exact, C35_library_exact, C35_step_partial, C35_encrypted_partial, C35_runs_partial, C35_encrypted_runs_partial, C36_step, C36_illegal, C36_runs, C36_complete, C37_write_half, C37_write_word, C37_word_roundtrip, C37_half_roundtrip, C38_mirror, C38_cycles, C38_encrypted, C39_ram_partial, C39_zero, C39_reject, C39_fails, C41_encrypted_input, C41_test_input, C42_output, C42_setup, C43_aligned, C43_history, C44_disjoint, C45_exact, C45_history, C45_later_stack, C46_trade_partial, C46_drain, C47_bounded, C47_match, C47_padding, C49_prepare, C49_missing, C50_least_width, C50_tight, C52_debug_passes, C52_debug_lb_panics, C53_accept_exact, C54_template, C56_isa, C56_testvm, C56_encrypted, C57_testvm, C57_encrypted, C57_output, C59_bid_mid_ask, C59_host_is_guest, C59_tape, C59_output_exists, C59_bad_client, C60_clients, C60_volatility, C60_retail_size, C60_discount, C61_accuracy, C62_zero, C62_stateless, C62_stateful_partial, C62_write_partial, C62_prepare, C62_fixed, C63_budget, C63_shorter, C63_refreshed, C63_tight, C63_output, C64_text, C64_ram, C64_first, C64_symbols, C64_heap, C64_boot, C64_loads, C64_output, C64_data_lost, C64_data_loaded, C65_local, C65_depends, C65_pc, C65_ram, C65_registers, C65_real_encrypted, C65_missing, C66_complete, C66_test_passes, C66_cycle_test, C66_noise_test, C67_set_up, C67_ciphertexts, C67_fresh_partial, C67_anyone_decrypts, C67_comparable, C67_comparable_program, C68_testvm, C68_testvm_runs, C69_sqrt_nearest, C69_value, C69_volatility, C69_sample, C70_encrypted, C70_debug, C70_testvm, C70_bytes, C70_words, C70_false_match, C71_any, C71_average, C72_memory, C72_memory_crate, C72_ram_offset, C72_pc_cases, C72_pc_update, C72_many, C72_many_crate, C72_one, C72_one_crate, C72_one_op, C72_cycle, C72_cycle_crate, C73_accepts, C73_segments, C73_section, C73_fields, C73_written, C73_guest, C73_output, C73_truncated, C74_no_threads, C74_passes, C74_zero_cycles, C74_match, C74_template, C74_match_idle, C74_match_words, C74_match_blind, C74_idle, C75_idle, C75_bench, C75_representative, C75_debug, C75_sizes, C76_assembled, C76_reduction, C76_same, C76_bound, C76_perfect, C76_keys, C76_code, C78_flags, C78_build, C78_missing, C78_apart, C79_exact, C79_sound, C79_full_partial, C79_gap, C79_small, C79_fresh, C80_check, C80_B, C80_S, C80_load, C80_jalr, C80_opImm, C80_shift, C80_J, C80_U, C80_R, C80_every_instruction, C80_encoding_complete, C80_encoding_blind, C81_load, C81_calls, C81_bootstraps, C81_circuits, C81_threads, C82_segments, C82_linked, C82_loads, C82_output, C83_encrypted, C83_output, C83_differ, C84_names, C84_live, C84_kept, C84_refused, C84_placed, C84_complete, C84_tapes, C84_two_inputs, C84_start, C84_collected, C84_orphan, C85_resolved, C85_reached, C85_refused, C85_main, C85_no_main, C85_twice, C85_once, C85_program, C85_marked, C85_no_runtime, C86_every_id, C86_bne, C87_any, C87_total, C87_mul, C87_mirror, C87_replaced, C87_output, C87_differ, C87_differ_debug, C88_amm, C88_words, C88_both, C88_template_host, C88_uniswap_host, C88_generated, C88_poly, C88_test1, C89_both, C89_lld, C89_bytes, C89_host, C89_file, C90_loaded, C90_output, C90_bytes, C90_contents, C90_fetch, C90_poly, C90_template_host, C90_test1, C90_generated, C91_start, C91_output, C91_bytes, C91_poly_linked, C91_poly, C91_sums_linked, C91_test1, C91_amm_linked, C91_amm_host, C91_branch_exact, C91_jal_exact, C91_rest, C91_word, C91_branch, C91_jal, C91_call, C91_absolute, C91_relative, C91_possible, C91_symbols, C91_linked, C91_refused, C91_sizes, C91_contents, C92_output, C92_bytes, C92_match_linked, C92_match_bytes, C92_match_words, C92_match_host, C93_prefix, C93_early, C93_match_bytes, C93_match_words, C93_match_host, C94_library, C94_encrypted, C94_output, C94_sign, C94_selfOp, C95_output, C95_cycle, C95_encrypted, C95_sign, C95_selfOp, C96_compared, C96_odd_compared, C96_unique, C96_fetch, C96_library, C96_encrypted, C96_total, C96_odd, C97_accepted, C97_unique, C97_alike, C97_fetch, C97_step, C97_steps, C97_testvm, C97_odd, C97_count, C98_fetch, C98_encrypted, C98_single, C98_left, C98_count, C99_step, C99_first, C99_runs, C99_always, C99_static, C99_output, C99_count, C100_settled, C100_countdown, C100_none, C101_step, C101_fetch, C101_first, C101_runs, C101_always, C101_output, C101_static, C101_count, C102_tape, C102_session, C102_encrypted, C102_stale, C102_countdown, C103_first, C103_below, C104_byte, C104_testvm, C104_output, C104_page, C104_skew, C105_layout, C105_roundtrip, C105_written, C105_read, C105_output, C105_usize, C106_deep, C107_complete, C107_agree, C107_assembled, C107_linked, C108_enough, C108_assembled, C108_none, C108_linked.
<!-- axioms end -->

## 10. Tests of the theorems

`seeded/LOG.jsonl` records edits to the model of the kind a realistic bug would make, each applied in a scratch copy
which is then rebuilt (`tools/mutate.py`).  A line gives the definition edited, the edit, the claim it breaks, the
theorems and lemmas that failed (a failing lemma stops the theorems built on it), and what was tightened in
consequence.  The evaluator of circuits has its own samples (`Lemmas/BddSample`), since the repository's tables do not
show which buffer an untouched slot is read from.

## 11. Tools

* `tools/gen_circuits.py`: codegen tables to Lean.
* `tools/gen_f32_vectors.py`: sample results of binary32 operations.
* `tools/gen_reloc_vectors.py`: instruction words whose immediates lld has filled in, against `Spec.encode`
  (`Lemmas/RelocVectors`).
* `tools/gen_link_vectors.py`: guests linked by lld with the script of the repository.
* `tools/gen_object_vectors.py`: object files with relocations, linked by lld with that script.
* `tools/citations.py REPO`: checks the `file:lines` citations in the Lean comments against the source: the lines exist,
  and a cited name occurs in them or encloses them.
* `tools/manifest.py` with `tools/manifest_notes.json`: regenerates `MANIFEST.json`.
* `tools/axioms.py`: section 9.
* `tools/mutate.py`: section 10.
