{"id": "C01", "title": "Immediate extraction follows the RISC-V formats", "statement": "For every 32-bit instruction word of a given format, the immediate the VM loads into its ROM equals the sign-extended (I,S,B,J) / upper-20-bit field (U) / 5-bit shamt (shift-immediates) the RISC-V manual assigns to that word; for U-type the VM keeps the raw 20-bit field, not the shifted value.", "quantifier": "all 2^32 instruction words, per format", "why_tests_cant": "2^32 words; the immediate bits are scattered (B/J formats), tests cover a handful of hand-picked encodings", "anchors": ["fhevm/src/instructions/i_type.rs", "fhevm/src/instructions/s_type.rs", "fhevm/src/instructions/b_type.rs", "fhevm/src/instructions/u_type.rs", "fhevm/src/instructions/j_type.rs", "fhevm/src/instructions/mod.rs:Instruction::get_imm"]}
{"id": "C02", "title": "Immediate encode/decode round trip", "statement": "Building an instruction with set_imm and reading it back with get_imm returns the original immediate, exactly for the immediates representable in the format (12-bit signed I/S, even 13-bit signed B, even 21-bit signed J, 20-bit U), and returns a different value for every non-representable one.", "quantifier": "all 32-bit words and all 32-bit immediates, per format", "why_tests_cant": "2^64 (word, immediate) pairs; the round trip depends on every mask and shift being right", "anchors": ["fhevm/src/instructions/*_type.rs:set_immediate,get_immediate"]}
{"id": "C03", "title": "Setting one instruction field never disturbs another", "statement": "Setting rd, rs1, rs2, funct3, funct7, shamt, opcode or the immediate changes only the bits of that field: every field not overlapping it reads back unchanged. In a debug build an accessor is allowed exactly if the format of the word's opcode has the field.", "quantifier": "all words, all field values, all pairs of non-overlapping fields", "why_tests_cant": "quadratic number of field pairs times 2^32 words", "anchors": ["fhevm/src/instructions/mod.rs:Instruction::set_*,get_*"]}
{"id": "C04", "title": "The parsed program is stored losslessly", "statement": "After adding any sequence of instructions to the parser, reading back entry i yields exactly the immediate, the three register numbers and the three operation ids of the i-th instruction added, and the raw word; later additions never change earlier entries.", "quantifier": "all instruction sequences of any length, all indices", "why_tests_cant": "unbounded program length and packed 31-bit integer encodings; an overlap of two packed fields only shows for particular values", "anchors": ["fhevm/src/instructions/mod.rs:InstructionsParser::add,get,get_raw,imm,instructions"]}
{"id": "C05", "title": "Every legal RV32IM instruction is given the operation ids of its own mnemonic", "statement": "For every word that the RISC-V manual decodes as an RV32I/M instruction supported by the VM, the (rd-update, memory-update, pc-update) operation triple selected by the VM is the one of that mnemonic, and register operands are those of the manual (0 for formats lacking the operand).", "quantifier": "all 2^32 instruction words", "why_tests_cant": "exhaustive decode check over 2^32 words against an independent decoder", "anchors": ["fhevm/src/instructions/mod.rs:Instruction::get_opid,get_registers,get_type"]}
{"id": "C06", "title": "Exact set of words the VM decoder accepts", "statement": "The decoder rejects (panics on) exactly the words outside a stated set; in particular every word outside RV32IM is rejected rather than silently executed as something else.", "quantifier": "all 2^32 instruction words", "why_tests_cant": "needs both directions over the whole word space", "anchors": ["fhevm/src/instructions/mod.rs:Instruction::get_opid,get_type"]}
{"id": "C07", "title": "The encrypted VM's decoder and the test VM's decoder agree", "statement": "For every word accepted by both decoders, the operation, register operands and immediate denote the same RISC-V instruction.", "quantifier": "all 2^32 instruction words", "why_tests_cant": "two independently written decoders; agreement must hold on every word, examples only cover compiler-generated ones", "anchors": ["fhevm/src/instructions/mod.rs", "compiler/src/interpreter/testvm.rs:decode_inst"]}
{"id": "C08", "title": "Operation ids are unambiguous and fit the encrypted selector widths", "statement": "Within each of the three operation families two different operations never share an id, and every id (for the RV32I list) is smaller than 2^w where w is the number of selector bits the encrypted VM prepares (5 for rd, 2 for memory, 4 for pc), so blind selection can never confuse two operations; for the RV32IM list the rd ids need 6 bits.", "quantifier": "all pairs of operations", "why_tests_cant": "needs the whole table and the relation to the selector widths used elsewhere", "anchors": ["fhevm/src/instructions/mod.rs:RD_UPDATE,RAM_UPDATE,PC_UPDATE,RD_UPDATE_RV32I_OP_LIST,RD_UPDATE_RV32M_OP_LIST", "fhevm/src/interpreter.rs:read_and_prepare_instruction_components"]}
{"id": "C09", "title": "Sign extension helper is arithmetic sign extension", "statement": "sext(x,b) equals the two's-complement value of the low b+1 bits of x for every word whose higher bits are clear, for every b<=31 at which the helper is defined.", "quantifier": "all 32-bit x and all bit positions", "why_tests_cant": "2^37 inputs", "anchors": ["fhevm/src/instructions/mod.rs:sext"]}
{"id": "C10", "title": "Register results follow RV32I", "statement": "For every RV32I non-load instruction the plaintext VM's new rd value equals the value prescribed by the RISC-V manual (32-bit wrap-around arithmetic, 5-bit shift amounts, signed/unsigned comparisons, pc-relative and link values).", "quantifier": "all operations, all operand values", "why_tests_cant": "2^128 operand combinations per op", "anchors": ["fhevm/src/instructions/mod.rs:RD_UPDATE::eval_plain"]}
{"id": "C11", "title": "Multiply/divide results follow RV32M", "statement": "For every RV32M instruction the plaintext VM's result equals the value prescribed by the RISC-V manual, including division by zero and signed overflow.", "quantifier": "all operations, all operand values", "why_tests_cant": "corner cases (divisor 0, MIN/-1) and 2^64 operand pairs", "anchors": ["fhevm/src/instructions/mod.rs:RD_UPDATE::eval_plain"]}
{"id": "C12", "title": "Loads return the addressed bytes", "statement": "A load (LB,LBU,LH,LHU,LW) at a naturally aligned byte address returns the little-endian value stored at that address, extended as the manual prescribes.", "quantifier": "all memory words, all byte offsets in the word, all load kinds", "why_tests_cant": "depends on the address's two low bits and all stored words", "anchors": ["fhevm/src/instructions/mod.rs:RD_UPDATE::eval_plain", "fhevm/src/debug.rs:read_ram"]}
{"id": "C13", "title": "Next-pc follows RV32I", "statement": "For every instruction the plaintext VM's next pc is pc+4, the branch target exactly when the manual's condition holds, or the jump target (with bit 0 cleared for JALR).", "quantifier": "all operations, all operand values", "why_tests_cant": "signed/unsigned comparison corner cases over 2^128 inputs", "anchors": ["fhevm/src/instructions/mod.rs:PC_UPDATE::eval_plain"]}
{"id": "C14", "title": "Stores change exactly the addressed bytes", "statement": "A store at a naturally aligned byte address changes exactly the 1, 2 or 4 addressed bytes of the RAM word to the low bytes of rs2, leaving the other bytes as they were; a non-store leaves the word unchanged.", "quantifier": "all RAM words, register values, byte offsets, store kinds", "why_tests_cant": "2^66 inputs", "anchors": ["fhevm/src/instructions/mod.rs:RAM_UPDATE::eval_plain", "fhevm/src/debug.rs:update_ram"]}
{"id": "C15", "title": "LUI circuit is correct on every input", "statement": "Evaluating the LUI circuit on the encrypted immediate yields imm<<12 for every immediate.", "quantifier": "all 2^20 input assignments", "why_tests_cant": "exhaustive over the circuit's inputs, independent of FHE noise", "anchors": ["fhevm/src/codegen/codegen_lui.rs"]}
{"id": "C16", "title": "AUIPC circuit is correct on every input", "statement": "Evaluating the AUIPC circuit yields pc + (imm<<12) modulo 2^32.", "quantifier": "all 2^52 input assignments", "why_tests_cant": "2^52 inputs; tests sample one random pair", "anchors": ["fhevm/src/codegen/codegen_auipc.rs"]}
{"id": "C17", "title": "Link-value circuit is correct on every input", "statement": "Evaluating the JAL/JALR link circuit yields pc+4 modulo 2^32.", "quantifier": "all 2^32 input assignments", "why_tests_cant": "2^32 inputs; tests sample one random value", "anchors": ["fhevm/src/codegen/codegen_jalr.rs"]}
{"id": "C18", "title": "RAM-address circuit is correct on every input", "statement": "Evaluating the RAM address circuit yields rs1 + imm - 2^18 modulo 2^32 (byte offset into RAM), in either operand order.", "quantifier": "all 2^64 input assignments", "why_tests_cant": "2^64 inputs; the unit test uses one pair", "anchors": ["fhevm/src/codegen/codegen_ram_offset.rs", "fhevm/src/ram_offset.rs"]}
{"id": "C19", "title": "PC-update circuit is correct on every input", "statement": "For each of the nine pc operations, evaluating the pc-update circuit on (opid, rs1, rs2, pc, imm) yields the plaintext VM's next pc, provided the immediate is representable in 20 signed bits; for wider immediates (J-type beyond +-512 KiB) the circuit sign-extends from bit 19 instead.", "quantifier": "9 operations x 2^116 input assignments", "why_tests_cant": "2^119 inputs, 27k-node generated circuit; unit test samples 15 points", "anchors": ["fhevm/src/codegen/codegen_pc_update.rs", "fhevm/src/pc_update.rs"]}
{"id": "C20", "title": "Circuits never read undefined intermediate state", "statement": "Evaluation of each generated circuit is well-formed: every selector index is within the declared input size, every referenced intermediate slot is defined at the previous level, node counts are multiples of the level width, so the outcome never depends on stale scratch contents.", "quantifier": "all five circuit families, all 32 output bits, all levels, all scratch contents", "why_tests_cant": "a stale-slot read can be masked by lucky buffer contents", "anchors": ["fhevm/src/codegen/*.rs"]}
{"id": "C21", "title": "Memory encryption round trip", "statement": "Decrypting a memory that was encrypted from a word list returns that list (zero-extended to the memory size), for any memory size and any ring degree.", "quantifier": "all sizes, all ring degrees, all word lists", "why_tests_cant": "unbounded sizes; packing across several polynomials only shows for large memories", "anchors": ["fhevm/src/memory.rs:Memory::encrypt_sk,decrypt"]}
{"id": "C22", "title": "Memory read returns the addressed word", "statement": "A stateless read at an encrypted address below the memory size returns the word stored at that address and leaves the memory unchanged.", "quantifier": "all memories, sizes, ring degrees, addresses, offsets, thread counts", "why_tests_cant": "every address x multi-polynomial layouts", "anchors": ["fhevm/src/memory.rs:Memory::read_stateless,BitArray::retrieve_stateless"]}
{"id": "C23", "title": "Memory write is a functional update", "statement": "Writing a word at an encrypted address makes a later read/decrypt return the new word at that address and the old word everywhere else.", "quantifier": "all memories, sizes, ring degrees, pairs of addresses, words", "why_tests_cant": "needs frame property for all other addresses", "anchors": ["fhevm/src/memory.rs:Memory::write,BitArray::write"]}
{"id": "C24", "title": "Two-phase memory access equals read-then-write", "statement": "read_statefull followed by read_statefull_rev at the same address returns the old word and has the same effect as a write of the new word; writing back the value read restores the original memory.", "quantifier": "all memories, sizes, ring degrees, addresses, words", "why_tests_cant": "the intermediate permuted state is never observable in tests for all sizes", "anchors": ["fhevm/src/memory.rs:Memory::read_statefull,read_statefull_rev"]}
{"id": "C25", "title": "Memory access protocol discipline", "statement": "Starting from a fresh memory, any sequence of memory calls (reads, writes, two-phase accesses, in-range zeroing, with arbitrary ciphertexts) panics exactly when a phase-two call is made without a pending phase-one call, or a read, write or phase-one call is made while one is pending; no other sequence is rejected, and after every accepted sequence that leaves nothing pending the memory is again directly readable.", "quantifier": "all sequences of memory operations of any length", "why_tests_cant": "all histories", "anchors": ["fhevm/src/memory.rs:Memory.state"]}
{"id": "C26", "title": "Zeroing a memory cell", "statement": "zero(addr) sets word addr to 0 and leaves all other words unchanged.", "quantifier": "all memories, sizes, addresses", "why_tests_cant": "the VM only ever calls zero(0); other addresses are never exercised", "anchors": ["fhevm/src/memory.rs:Memory::zero"]}
{"id": "C27", "title": "Thread count never changes results", "statement": "For every thread count >= 1, memory reads/writes/zeroing and multi-value preparation process every bit exactly once and produce the same result as with one thread.", "quantifier": "all thread counts >= 1, all bit widths, all lists of prepared widths", "why_tests_cant": "unbounded thread counts; a dropped tail chunk only shows for particular counts", "anchors": ["fhevm/src/memory.rs", "fhevm/src/prepare.rs:prepare_multiple_fheuint"]}
{"id": "C28", "title": "Out-of-range addresses wrap", "statement": "For a power-of-two memory, an access at an arbitrary encrypted address behaves as an access at the address modulo the memory size, in the encrypted VM and in its plaintext mirror alike.", "quantifier": "all addresses, all power-of-two sizes", "why_tests_cant": "needs agreement of bit truncation and modulo on the whole address space", "anchors": ["fhevm/src/memory.rs", "fhevm/src/debug.rs:read_ram,update_ram", "fhevm/src/interpreter.rs:read_ram"]}
{"id": "C29", "title": "One encrypted cycle equals one plaintext cycle", "statement": "Under correct homomorphic primitives, decrypting pc, registers and RAM after one encrypted cycle gives exactly the state the plaintext mirror VM reaches from the decrypted prior state.", "quantifier": "all programs, all states satisfying the layout invariant, all instructions of RV32I", "why_tests_cant": "state space is unbounded; debug assertions only check executed states", "anchors": ["fhevm/src/interpreter.rs:cycle_internal", "fhevm/src/debug.rs"]}
{"id": "C30", "title": "Encrypted execution equals plaintext execution for any number of cycles", "statement": "For every program, initial RAM and number of cycles, the decrypted registers, RAM and pc after n encrypted cycles equal those of the plaintext mirror VM after n cycles.", "quantifier": "all programs, RAM images, cycle counts", "why_tests_cant": "unbounded number of cycles", "anchors": ["fhevm/src/interpreter.rs:cycle", "fhevm/src/debug.rs"]}
{"id": "C31", "title": "Register x0 reads as zero forever", "statement": "After any number of cycles of any program, register 0 holds zero in the encrypted VM, its plaintext mirror and the test VM.", "quantifier": "all programs, all initial states with x0=0, all cycle counts", "why_tests_cant": "unbounded executions; any instruction may name x0 as destination", "anchors": ["fhevm/src/interpreter.rs:update_registers", "fhevm/src/debug.rs:update_registers", "compiler/src/interpreter/testvm.rs:run"]}
{"id": "C32", "title": "Execution never modifies the program", "statement": "Running cycles never changes the encrypted program memory nor the plaintext one, so re-reading an instruction yields the same components at any later time.", "quantifier": "all programs, all cycle counts", "why_tests_cant": "unbounded executions", "anchors": ["fhevm/src/interpreter.rs", "fhevm/src/debug.rs"]}
{"id": "C33", "title": "Execution is oblivious", "statement": "The sequence of homomorphic operations (kind, operands, addresses in the evaluator's own memory) performed during any number of cycles depends only on public sizes, thread count and cycle count, never on the encrypted program, registers, RAM or pc, and is the same for two loaded machines of equal sizes and thread count.", "quantifier": "all pairs of secret states with equal public parameters, all cycle counts", "why_tests_cant": "a relational property over pairs of executions", "anchors": ["fhevm/src/interpreter.rs:cycle_internal", "fhevm/src/memory.rs"]}
{"id": "C34", "title": "Cycle counting composes", "statement": "Executing n cycles then m more cycles leaves the same state as executing n+m cycles, in each of the three VMs, and the cycle counter equals the number of cycles executed.", "quantifier": "all programs, all n, m", "why_tests_cant": "unbounded", "anchors": ["compiler/src/interpreter.rs:EncryptedVM::execute", "compiler/src/interpreter/testvm.rs:execute"]}
{"id": "C35", "title": "Plaintext mirror VM implements the RISC-V ISA", "statement": "One cycle of the plaintext mirror VM on a legal RV32I instruction changes pc, registers and byte-addressed memory exactly as the manual prescribes.", "quantifier": "all states, all legal instruction words", "why_tests_cant": "whole state space x instruction space", "anchors": ["fhevm/src/debug.rs", "fhevm/src/instructions/mod.rs"]}
{"id": "C36", "title": "Test VM implements the RISC-V ISA", "statement": "One step of the test VM on a legal RV32IM instruction changes pc, registers and byte-addressed memory exactly as the manual prescribes, or panics on a stated set of conditions.", "quantifier": "all states, all legal instruction words", "why_tests_cant": "whole state space x instruction space", "anchors": ["compiler/src/interpreter/testvm.rs:run,decode_inst"]}
{"id": "C37", "title": "Test VM memory is little-endian and byte-accurate", "statement": "Half-word and word accesses are the little-endian composition of byte accesses; a write changes exactly the written bytes; a read after write returns the value written.", "quantifier": "all memories, addresses, values", "why_tests_cant": "all addresses x sizes", "anchors": ["compiler/src/interpreter/testvm.rs:Memory"]}
{"id": "C38", "title": "Test VM and encrypted VM compute the same thing", "statement": "For every program, input and cycle count on which the test VM runs without panicking and only performs accesses both support, the plaintext mirror VM (hence the encrypted VM) has the same pc, registers and RAM contents after the same number of cycles.", "quantifier": "all programs, inputs, cycle counts", "why_tests_cant": "this is the comparison the examples make on one input each", "anchors": ["compiler/src/interpreter.rs", "compiler/src/interpreter/testvm.rs", "fhevm/src/debug.rs"]}
{"id": "C39", "title": "ELF loading places every initialised byte", "statement": "Loading an ELF image puts every byte of every read-only/read-write load segment at its address relative to the RAM base, the executable segment in ROM, zero elsewhere, or rejects the image.", "quantifier": "all ELF segment tables", "why_tests_cant": "all layouts of segments", "anchors": ["compiler/src/interpreter.rs:Phantom::from_elf"]}
{"id": "C40", "title": "Program and RAM bytes are packed into words losslessly", "statement": "Conversion of ROM/RAM bytes to 32-bit words for encryption and of decrypted words to output bytes are mutually inverse little-endian conversions.", "quantifier": "all byte strings whose length is a multiple of four, all word lists", "why_tests_cant": "unbounded lengths", "anchors": ["compiler/src/interpreter.rs:encrypted_vm,output_tape"]}
{"id": "C41", "title": "Input tape placement and output tape extraction", "statement": "The input tape bytes are placed at the declared input address and nowhere else, for both VMs; the output tape returned by each VM is the byte range declared as output.", "quantifier": "all tapes, all placements inside RAM", "why_tests_cant": "all offsets/lengths", "anchors": ["compiler/src/interpreter.rs:encrypted_vm,output_tape", "compiler/src/interpreter/testvm.rs:read_input_tape,output_tape"]}
{"id": "C42", "title": "End-to-end output agreement", "statement": "For every loaded program, input tape and cycle budget, if the test VM completes within supported behaviours, the encrypted VM's output tape equals the test VM's output tape.", "quantifier": "all programs, tapes, cycle budgets", "why_tests_cant": "the assertion at the end of every example, which is checked on one input", "anchors": ["compiler/src/interpreter.rs", "compiler-tests/*/src/main.rs"]}
{"id": "C43", "title": "Allocator returns aligned blocks", "statement": "Every block returned by the guest allocator is aligned to the (power-of-two) alignment requested.", "quantifier": "all allocation histories, sizes, alignments", "why_tests_cant": "unbounded histories", "anchors": ["runtime/src/alloc.rs:sys_alloc_aligned"]}
{"id": "C44", "title": "Allocator blocks are disjoint and above the static data", "statement": "Blocks returned by any history of allocations are pairwise disjoint and lie above the end of static data.", "quantifier": "all allocation histories", "why_tests_cant": "unbounded histories", "anchors": ["runtime/src/alloc.rs:sys_alloc_aligned"]}
{"id": "C45", "title": "Allocator never runs into the stack", "statement": "Every returned block ends at least the safety gap below the stack pointer at the time of the call, and a call that cannot satisfy this panics without changing allocator state.", "quantifier": "all allocation histories and stack pointers", "why_tests_cant": "unbounded histories", "anchors": ["runtime/src/alloc.rs:sys_alloc_aligned"]}
{"id": "C46", "title": "AMM example preserves balances and the invariant", "statement": "A successful trade conserves the total of each token across pool and account, and never decreases the pool product k, as long as the product fits in 32 bits.", "quantifier": "all pools, trades, accounts", "why_tests_cant": "2^161 inputs", "anchors": ["compiler-tests/uniswap/src/guest/src/main.rs"]}
{"id": "C47", "title": "String-match example decides equality", "statement": "The guest reports a match exactly when the (zero-padded) input bytes equal the hidden string.", "quantifier": "all 20-byte inputs", "why_tests_cant": "2^160 inputs", "anchors": ["compiler-tests/string-match/src/guest/src/main.rs"]}
{"id": "C48", "title": "System instructions are inert in the encrypted VM", "statement": "Any SYSTEM-opcode word (ECALL/EBREAK/CSR/unimp) leaves registers and RAM unchanged and advances pc by 4 in the encrypted VM and its mirror.", "quantifier": "all words with opcode 1110011, all states", "why_tests_cant": "2^25 words x states", "anchors": ["fhevm/src/instructions/mod.rs:get_type,get_opid", "fhevm/src/debug.rs"]}
{"id": "C49", "title": "Evaluation keys cover every memory automorphism", "statement": "Preparing generated keys never fails and yields a prepared key for exactly the automorphisms requested by the memory operations.", "quantifier": "all key sets of galois elements", "why_tests_cant": "all ring degrees", "anchors": ["fhevm/src/keys.rs"]}
{"id": "C50", "title": "Address width computation", "statement": "The number of address bits used for ROM/RAM is the least b with size <= 2^b, so every valid index is representable and no narrower width works.", "quantifier": "all sizes >= 1", "why_tests_cant": "unbounded sizes", "anchors": ["fhevm/src/interpreter.rs:new_internal", "fhevm/src/memory.rs:alloc"]}
{"id": "C51", "title": "Running off the end of the program halts", "statement": "An encrypted VM whose program counter reaches unused (zero-filled) program memory stays there: registers, RAM and pc are unchanged by any further number of cycles.", "quantifier": "all programs, states and cycle counts", "why_tests_cant": "unbounded number of cycles; relies on the all-zero entry meaning a branch to itself", "anchors": ["fhevm/src/interpreter.rs:instructions_encrypt_sk", "fhevm/src/instructions/mod.rs:PC_UPDATE"]}
{"id": "C52", "title": "Debug assertions never fail on supported cycles", "statement": "cycle_debug, which compares every intermediate value of the encrypted cycle with the plaintext mirror, never panics on a cycle whose signed byte loads read bytes below 128 and whose jump distances fit in 20 bits, and keeps both in step.", "quantifier": "all states, programs and correct libraries", "why_tests_cant": "assertions only check executed states", "anchors": ["fhevm/src/interpreter.rs:cycle_debug", "fhevm/src/debug.rs"]}
{"id": "C53", "title": "Test VM decoder accepts exactly a stated set of words", "statement": "The test VM decodes a word if and only if the word is an RV32IM instruction after resetting the funct7 bits its decoder does not look at, and then to that instruction; every other word (ECALL, EBREAK, FENCE, CSR, reserved opcodes) panics.", "quantifier": "all 2^32 words", "why_tests_cant": "2^32 words; tests run compiled programs only", "anchors": ["compiler/src/interpreter/testvm.rs:decode_inst"]}
{"id": "C54", "title": "Template and test guests compute their formulas", "statement": "The template guest writes the value of its degree-6 polynomial at the input point modulo 2^32, and guest-test1 writes 4a+100 or 100a modulo 2^32 depending on its flag; a build with overflow checks gives the same value or panics.", "quantifier": "all 2^32 points, both flags", "why_tests_cant": "2^32 inputs; the samples check one point (at which a checked build overflows)", "anchors": ["compiler-tests/template/src/guest/src/main.rs", "compiler-tests/gen-tests/src/guest-test1/src/main.rs", "compiler-tests/gen-tests/src/guest_test1.rs"]}
{"id": "C55", "title": "Parameter set is consistent", "statement": "The ring degree is a power of two, the LWE dimension is a multiple of the block size, every gadget decomposition fits in the precision of its key, and the keys cover the precision of the ciphertexts they are applied to, except the GLWE key switch, which drops exactly four bits. The ranks of the keys fit those of the ciphertexts they are applied to.", "quantifier": "the fixed parameter set", "why_tests_cant": "a violated relation shows up only as noise growth", "anchors": ["fhevm/src/parameters.rs"]}
{"id": "C56", "title": "Start-up code sets gp, sp and s0 and enters main", "statement": "For all addresses of the global pointer and the entry point that the jump can reach, the start-up code at address 0 puts the global pointer in gp, the stack top in sp and s0, and arrives at the entry point after 7 instructions with RAM and the other registers unchanged, on the manual's machine, the test VM and the encrypted VM.", "quantifier": "all global pointers, all reachable even entry addresses, all initial RAM contents, any correct FHE library", "why_tests_cant": "each guest fixes one pair of addresses; a wrong high/low split shows only for addresses with bit 11 set", "anchors": ["runtime/src/lib.rs:global_asm", "compiler/linker-script/default.x", "compiler/src/lib.rs:25-26"]}
{"id": "C57", "title": "Final loop keeps the result; extra cycles do not matter", "statement": "A guest in its final `loop {}` keeps registers, RAM and program counter, in the test VM and under encryption, and both VMs give the same output tape for every number of cycles beyond the first arrival in the loop.", "quantifier": "all states fetching the loop, all numbers of extra cycles, all guests within the supported fragment, any correct FHE library", "why_tests_cant": "max_cycles is one number per sample; an off-by-one in the loop shows only for some of them", "anchors": ["compiler-tests/template/src/guest/src/main.rs", "compiler/src/interpreter/testvm.rs:execute", "fhevm/src/interpreter.rs:cycle"]}
{"id": "C58", "title": "A guest that returns from main stops", "statement": "When a guest returns to the start-up code, the `unimp` behind the call stops it in both VMs. (False: the test VM panics there, the encrypted VM executes `unimp` as a no-operation and runs into whatever follows, which can be main again.)", "quantifier": "all states at the `unimp`; one refuting guest", "why_tests_cant": "every sample guest ends in a loop and never returns", "anchors": ["runtime/src/lib.rs:37-39", "compiler/src/interpreter/testvm.rs:run", "fhevm/src/instructions/mod.rs"]}
{"id": "C59", "title": "OTC guest: prices are numbers with the mid price between them", "statement": "For a positive finite mid price and a finite volatility that is not negative, the otc guest writes a bid and an ask that are not NaN, with bid <= mid <= ask, whatever the trade and the traded volume are. From the bytes the host writes, the guest computes exactly the host's quote, every result has a bit pattern, and a client code other than the three kinds has no defined output.", "quantifier": "all binary32 mid prices > 0 and volatilities >= 0, all trade amounts and volumes including negative, infinite and NaN ones, all client kinds; all 2^160 tapes for the tape statement", "why_tests_cant": "the sample runs one trade; overflow, subnormal numbers and NaN fractions are never reached", "anchors": ["compiler-tests/otc/src/guest/src/main.rs", "compiler-tests/otc/src/lib.rs:quote", "compiler-tests/otc/src/main.rs:Input"]}
{"id": "C60", "title": "OTC guest: who gets the better price", "statement": "Despite rounding, a prime client's quote is at least as good as an institution's and that at least as good as a retail client's; more volatility never improves a quote; a larger trade never improves a retail client's quote. (For the other two kinds a larger trade does improve the quote: 6 coins instead of 5.)", "quantifier": "all amounts and volumes (for trade sizes: finite amounts, positive finite volumes), all positive finite mid prices, all finite volatilities >= 0; two refuting inputs", "why_tests_cant": "an order between two runs is never tested; rounding could upset it for single inputs only", "anchors": ["compiler-tests/otc/src/guest/src/main.rs:base_spread", "compiler-tests/otc/src/guest/src/main.rs:size_adj", "compiler-tests/otc/src/guest/src/main.rs:volume_disc"]}
{"id": "C61", "title": "OTC guest: accuracy of the computed prices", "statement": "The bid and the ask computed in binary32 differ from the prices of the policy in exact arithmetic by at most 2^-24 of the mid price plus 9*2^-24 of half the spread, and the size factor is that of the exact fraction of the volume unless this fraction exceeds a threshold by no more than a relative 2^-23.", "quantifier": "all amounts >= 0, volumes > 0, mid prices in [2^-60, 2^60], volatilities in [2^-40, 2^40]", "why_tests_cant": "the sample only prints the two prices; an error bound over all inputs needs error analysis", "anchors": ["compiler-tests/otc/src/guest/src/main.rs:main", "compiler-tests/otc/src/lib.rs:quote"]}
{"id": "C62", "title": "A worker thread never runs out of the scratch reserved for it", "statement": "Once the scratch assertion at the start of a memory operation holds, no worker thread needs more scratch than its piece. (True of zeroing and stateless reads. False of stateful reads and writes: their reserved size leaves out the blind rotation when the memory fits in one ciphertext, although the rotation always runs; exact condition proved.) The scratch of `execute` grows with the thread count so that the assertions hold for every thread count >= 1, and with zero threads every operation panics. Preparing words panics exactly when the library's reported size does not cover two temporaries and the largest of three calls. The fixed scratch of the benchmark and of the cycle tests is enough for t threads exactly if the size per thread is at most 2^28/t; so the benchmark's default of 32 threads allows half of what `execute` allows.", "quantifier": "all library sizes, scratch sizes, thread counts, word widths, memory sizes and ring degrees", "why_tests_cant": "the tests run one parameter set on one library version, where the sizes happen to fit", "anchors": ["fhevm/src/memory.rs:zero", "fhevm/src/memory.rs:retrieve_statefull_tmp_bytes", "fhevm/src/memory.rs:retrieve_statefull_rev_tmp_bytes", "compiler/src/interpreter.rs:execute", "fhevm/src/prepare.rs:prepare_multiple_fheuint", "fhevm/benches/cycle.rs:benc_cycle"]}
{"id": "C63", "title": "Noise budget of a run", "statement": "For a library whose operations add noise, n cycles of a freshly loaded VM give the prescribed registers, RAM and program counter whenever the last cycle fits in the budget, where one cycle adds a fixed amount to every register and RAM word whatever it does; values written are refreshed, so program counter, addresses and written values have constant noise. Words that are never written collect noise in every cycle, and the bound is exact: there is a library in which an unaddressed RAM word is lost one unit beyond the budget.", "quantifier": "all libraries, noise constants, limits, programs, inputs, randomness, errors within the bounds, memory sizes, thread counts and numbers of cycles", "why_tests_cant": "noise failures appear only after many cycles, in words the program has not written, and depend on random errors", "anchors": ["fhevm/src/interpreter.rs:cycle_internal", "fhevm/src/memory.rs:retrieve_statefull", "fhevm/src/memory.rs:retrieve_statefull_rev", "fhevm/src/ram_update.rs", "fhevm/src/prepare.rs"]}
{"id": "C64", "title": "Memory layout by the linker script", "statement": "Whatever sections a guest consists of (alignments powers of two up to 4096), if the linker script accepts them then: .text is at address 0 with _start first, a whole number of words, below 256 KiB; the RAM sections are word-aligned, in order and disjoint in [0x40000, 0x41000), the first non-empty one at 0x40000; the stack starts at the end of the RAM, _end is behind every section, .data and .bss are within 12-bit reach of the global pointer; heap blocks never meet a section. The loader accepts the resulting ELF file and satisfies every assumption of the end-to-end theorem, so that the encrypted VM gives the test VM's output for every such guest. Initialised variables that share a segment with a non-empty .bss would be lost (start as zeros); C82 shows that they do not share one.", "quantifier": "all guests (any number, sizes and alignments of input sections), ELF files with that layout, heap histories, tapes, correct libraries, thread counts and numbers of cycles", "why_tests_cant": "the tests link a handful of guests with small, regular sections; none has initialised variables next to .bss, maximal alignments or an almost full RAM", "anchors": ["compiler/linker-script/default.x", "compiler/src/interpreter.rs:from_elf", "runtime/src/alloc.rs:sys_alloc_aligned", "runtime/src/lib.rs:_start"]}
{"id": "C65", "title": "Data flow of a cycle", "statement": "For any library, every value of a cycle (immediate, register and operation indices, operands, address, loaded value, the three updates) is a function of exactly the values with an arrow to it in the dependency graph of doc/costs.md, except that three arrows are missing there: old RAM and RAM address to new RAM, old registers to new registers. Hence the next program counter does not depend on the RAM or on the rd, register-operation and memory-operation columns of the program; the next RAM not on the rd, register-operation and pc-operation columns; the next registers not on the memory-operation and pc-operation columns. All remaining dependencies of these three outputs are real.", "quantifier": "all libraries, pairs of VM states of equal size and thread count that complete the cycle, all nodes of the graph", "why_tests_cant": "non-interference compares pairs of executions over all ciphertexts; a test shows at most that two runs agree", "anchors": ["doc/costs.md", "fhevm/src/interpreter.rs:cycle_internal", "fhevm/src/interpreter.rs:read_and_prepare_instruction_components"]}
{"id": "C66", "title": "Instruction builder", "statement": "For every mnemonic of the RV32I enum, new() is the manual's encoding with zero operands; each setter for an operand which the instruction has replaces that operand in the manual's encoding by the low bits of its argument and nothing else, setters for other operands are refused by debug builds; so chains in any order and with repetitions give the encoding with the last values, and every base instruction can be built with its setters in any order. Programs of the crate's cycle and noise tests, built this way, pass the comparison of all intermediate values in every cycle, for any correct library, with the RAM, registers and program counter given in the theorem.", "quantifier": "all mnemonics, operands, chains of setters, build profiles; all correct libraries and randomness for the two programs", "why_tests_cant": "the tests use nine instructions with fixed operands and one order of setters, and run one library with one set of keys", "anchors": ["fhevm/src/instructions/mod.rs:RV32I", "fhevm/src/instructions/mod.rs:Instruction::set_rd", "fhevm/src/tests/cycle.rs", "fhevm/src/interpreter.rs:cycle_debug"]}
{"id": "C67", "title": "Randomness of the set-up", "statement": "Within one set-up by encrypted_vm, every ciphertext of the program and of the RAM is encrypted at a state of the two sources that no other one uses, in the order of the code, and the result is the VM of the other theorems. Across set-ups nothing is fresh: all sources start from 32 zero bytes, so every set-up has the same secret key and the same starting point of the masks and of the errors, the key that anyone can compute from the constants decrypts the RAM and the program, and two set-ups with equal sizes have equal ciphertexts exactly where their plaintext blocks are equal. The claim that programs and inputs are hidden is thus false of this set-up.", "quantifier": "all key generators, encryptions whose draws do not depend on the message, programs, inputs, sizes, thread counts", "why_tests_cant": "tests decrypt with the key held by the VM and pass for any key, known or not; reuse of randomness is a relation between two set-ups and between all pairs of ciphertexts", "anchors": ["compiler/src/interpreter.rs:encrypted_vm", "fhevm/src/interpreter.rs:instructions_encrypt_sk", "fhevm/src/interpreter.rs:ram_encrypt_sk", "fhevm/src/memory.rs:encrypt_sk", "README.md"]}
{"id": "C68", "title": "Accesses outside the RAM", "statement": "In every state and for every RV32IM instruction, the test VM either panics on a stated set of conditions or executes the instruction with each byte of an access taken modulo the size of the RAM (addresses below the RAM after wrapping around 2^64, and only without overflow checks). On every instruction that the interpreter supports this is exactly what the mirror does, wherever the access goes, unless the access is below a RAM whose size does not divide 2^32; so the agreement of the VMs and the end-to-end theorem need no assumption that a guest stays inside its RAM.", "quantifier": "all instructions, states, RAM sizes and offsets, build profiles, numbers of steps", "why_tests_cant": "guests of the test suites stay inside their RAM, and only a proof covers every out-of-range address", "anchors": ["compiler/src/interpreter/testvm.rs:Memory", "fhevm/src/debug.rs:read_ram", "fhevm/src/memory.rs"]}
{"id": "C69", "title": "Square root of the otc host", "statement": "The f32 square root of every positive finite number is a positive finite number, and no number of the format is nearer to the real square root. The host's volatility factor, in spite of four roundings, is the f32 number nearest to the real number sqrt(0.47/0.6), within 2^-29. With it, the host's default run has one possible output tape, ask 1000.6638 and bid 999.3362.", "quantifier": "all positive finite f32 numbers and all candidates of the format; all output tapes", "why_tests_cant": "a test compares with the same hardware square root, sample by sample; nearness to the real root over all inputs is not observable with f32 arithmetic", "anchors": ["compiler-tests/otc/src/lib.rs:volatility_factor", "compiler-tests/otc/src/main.rs", "compiler-tests/otc/src/guest/src/main.rs"]}
{"id": "C70", "title": "What a guest computes, exactly", "statement": "For every ELF file that loads, every input tape and every number of cycles, as long as the words met are RV32I instructions, the encrypted VM completes under any correct library and its output tape is the declared part of the RAM that the implemented instruction set leads to from the loaded image; the test VM's, once it is set up and as long as nothing stops it and its accesses stay in the RAM, is the one that the manual's leads to. Programs without LB and long jumps also pass the comparison with the mirror. For two complete guests that compute string-match this gives the output for every input: with word loads both VMs return what the source says; with byte loads the test VM does, while the encrypted VM compares only every fourth character, so that it accepts wrong strings, and the comparison with the mirror does not notice.", "quantifier": "all libraries, ELF files, input tapes, numbers of cycles, build profiles; for the guests, all inputs of 20 bytes", "why_tests_cant": "the tests run one guest with one input through slow encryption; a false match is a statement about inputs nobody tried", "anchors": ["compiler/src/interpreter.rs:execute", "compiler/src/interpreter.rs:output_tape", "fhevm/src/interpreter.rs:cycle_debug", "compiler-tests/string-match/src/guest/src/main.rs"]}
{"id": "C71", "title": "Timing measurements", "statement": "Measuring does not change what a cycle computes or when it panics, whatever the clock shows. With a clock that never goes back, the times of consecutive parts fit into the time of the whole, for the cycle and for each of its five composite stages; no other relation holds, as every such set of times occurs. n cycles log n entries, and verbose_timings prints exactly these as long as the cycle counter does not overflow. Averages exist exactly for a log that is not empty, lie between the bounds of the entries, and the averages of the stages fit into the average of the cycle. Hence the times of doc/costs.md cannot add up along the longest path, as the document says: stages of these lengths give a cycle of at least 760 ms, not 598 ms.", "quantifier": "all interpreters, clocks, numbers of cycles, logs", "why_tests_cant": "times differ from run to run; a test cannot range over clocks, nor show that measuring never interferes", "anchors": ["fhevm/src/measurements.rs", "fhevm/src/interpreter.rs:cycle_internal", "fhevm/src/interpreter.rs:print_timings", "doc/costs.md"]}
{"id": "C72", "title": "Unit tests of the crate", "statement": "For every correct library and all randomness, each unit test of fhevm passes exactly under a condition on the words it draws. The memory test passes for every memory, index and word; the RAM offset test for all operands; the program counter test unless, with overflow checks on, both operands of one of its six cases asking for rs1 < rs2 are drawn as 0xFFFFFFFF, and its cases cover every branch taken and not taken. The instruction fetch test passes exactly for programs of accepted words that fit; the test of one instruction reads the first instruction whatever index it encrypts. The test of all operations on drawn words passes exactly if the low byte of the drawn RAM word is below 128, as the circuit of LB does not sign-extend. The cycle test passes exactly if it expects the program counter of the plaintext meaning.", "quantifier": "all correct libraries, keys, randomness of encryption, drawn words, programs, sizes, thread counts", "why_tests_cant": "these are the tests: with their fixed seeds each is one point, and whether another seed would fail cannot be seen by running them", "anchors": ["fhevm/src/tests/memory.rs", "fhevm/src/tests/ram_offset.rs", "fhevm/src/tests/pc_update.rs", "fhevm/src/tests/interpreters.rs", "fhevm/src/pc_update.rs:PCU"]}
{"id": "C73", "title": "Guest files as bytes", "statement": "A list of bytes is read as an ELF file exactly if it has the identification of a 32- or 64-bit little-endian file and its tables of program and section headers are inside it. The segments are then the program headers at their positions, and looking up a section by an ASCII name gives address and size of the first section of that name. Writing a file with any segments and sections and reading it gives these back. For every guest the linker script accepts, the file with one segment for the code and one for each RAM section that is not empty is read and loaded: the ROM is the code, each section's contents are at its address, the rest is zero; so for these bytes the encrypted VM gives the output tape of the test VM. A guest file that has lost any number of bytes at its end is rejected.", "quantifier": "all byte lists, names, segment and section lists that fit, guests, contents, tapes, correct libraries", "why_tests_cant": "there is no bound on the files; a test tries the few files a compiler made, none of them malformed", "anchors": ["compiler/src/interpreter.rs:from_elf", "compiler/src/lib.rs:build", "compiler/linker-script/default.x", "Cargo.lock:elf"]}
{"id": "C74", "title": "Host programs and their settings", "statement": "MAX_CYCLES and PHANTOM_THREADS are taken from the environment exactly if they are written in decimal (with or without a plus sign) and are below 2^64, and have their default otherwise; a flag is set by exactly seventeen texts. A host gets past its comparison exactly if both VMs run to the end and leave the same tape, and does so with the tape of the test VM for every linked guest whose run stays in the supported instructions. With PHANTOM_THREADS=0 no host gets through a cycle. The hosts of string-match, template and uniswap pass exactly if that tape also has the values of the formulas (match, polynomial modulo 2^32, constant-product swap). What these checks miss: the host of string-match passes without a cycle and with a guest that looks at every fourth character only; the host of otc checks no price; the host of template cannot pass when built with overflow checks.", "quantifier": "all environments, byte strings, guests, tapes, cycle counts, thread counts, correct libraries, both build profiles", "why_tests_cant": "the hosts are the tests; what they accept and miss over all settings and guests is a statement about all their runs, and each run takes hours under encryption", "anchors": ["compiler-tests/string-match/src/main.rs", "compiler-tests/template/src/main.rs", "compiler-tests/uniswap/src/main.rs", "compiler-tests/otc/src/main.rs", "compiler/src/interpreter.rs:encrypted_vm"]}
{"id": "C75", "title": "The benchmark of one cycle", "statement": "For every number of iterations below 2^32 and every thread count of at least one, the benchmark's closure never panics, leaves registers and RAM as they are, and its program counter goes round through all 1024 instructions; with zero threads the first iteration panics. Any other program and RAM of the same sizes makes the same library calls, so what is timed does not depend on the program. Run with cycle_debug, for which the interpreter is set up, it would panic after 1024 iterations. Each bit of its program and of its RAM is one ciphertext, as it is for the RAM of every guest and the program of a guest of at most 1024 instructions; a larger guest needs one ciphertext per 1024 instructions and blind retrieval among them in every fetch, which the benchmark leaves out.", "quantifier": "all iteration counts below 2^32, thread counts, environments, correct libraries, randomness, programs of system instructions, RAM contents", "why_tests_cant": "a benchmark checks no result; that its time stands for all programs is a statement about all programs", "anchors": ["fhevm/benches/cycle.rs:benc_cycle", "fhevm/src/interpreter.rs:cycle"]}
{"id": "C76", "title": "Privacy of a set-up reduces to that of one ciphertext", "statement": "If every ciphertext of a set-up has fresh randomness, then for any two programs and inputs set up at the same sizes and any test on the whole interpreter (hence on all that can be computed from it in any number of cycles), the difference of the test's chances is exactly the sum, over the ciphertexts of the set-up, of the differences of one-ciphertext tests derived from it; places with equal plaintexts contribute nothing. So a bound e on single ciphertexts gives 32(7a+b)e for the set-up, and 32be if only the inputs differ (a, b: ciphertexts per bit of program and RAM); perfect hiding of one gives perfect hiding of all; the same holds averaged over keys. With the code's constant seeds none of this applies: one test tells any two different RAM contents apart with certainty.", "quantifier": "all libraries, encryptions with finite randomness, programs, inputs, sizes, thread counts, tests, families of keys", "why_tests_cant": "a statement about all observers and about probabilities", "anchors": ["compiler/src/interpreter.rs:encrypted_vm", "fhevm/src/interpreter.rs:instructions_encrypt_sk", "fhevm/src/interpreter.rs:ram_encrypt_sk", "fhevm/src/memory.rs:encrypt_sk"]}
{"id": "C77", "title": "Generated test files say what they were generated from", "statement": "For every loaded guest and every list of test cases, the file generated by codegen_test_cases, read as Rust constant declarations, type-checks and gives exactly the guest's offsets, sizes, boot data and tape locations and the inputs and outputs of the test cases; get_test_cases returns the test cases in order. The six cases of guest-test1 are generated without overflow, whatever the padding of the input structure holds, and the guest passes them; a guest that reads one byte of its number passes them too.", "quantifier": "all loaded guests, lists of test cases of any lengths, paddings, overflow-check settings", "why_tests_cant": "the generator has no test; a statement about all guests and test cases", "anchors": ["compiler-tests/gen-tests/src/lib.rs:codegen_test_cases", "compiler-tests/gen-tests/src/guest_test1.rs:test_cases", "compiler-tests/gen-tests/src/guest_test1.rs:run"]}
{"id": "C78", "title": "Building a guest returns the binary of that build", "statement": "With a cargo that keeps its documented promise and a linker path without the separator 0x1f, CompileOpts::build returns the binary of the named program compiled for riscv32i with the linker script and panic=abort, or panics; it never returns a file left by an earlier build. The encoded compiler flags are read back as the four flags exactly if the path of the linker script does not contain the separator 0x1f. Builds with different destinations or different program names (which contain no slash) read different files.", "quantifier": "all programs, destinations, linker paths, file systems before the build, cargos that keep the promise", "why_tests_cant": "a statement about all file systems and paths", "anchors": ["compiler/src/lib.rs:build", "compiler/src/lib.rs:new"]}
{"id": "C79", "title": "Noise reports of the debug mode", "statement": "The value Memory::noise reports for a bit position is the largest distance of any coefficient of its ciphertexts from the message of the words given. It is so if the memory fills its polynomials, and then a freshly encrypted memory is reported with at most the noise of a fresh encryption. In general the buffer of expected bits is not cleared between polynomials: in a last polynomial that is not full, coefficients without a word are compared with the previous polynomial (in the first one, with stale scratch), so a perfect memory can be reported with the full distance between two messages. A report never flatters: every stored bit is within the reported distance of its word.", "quantifier": "all memories, sizes, words, ciphertexts, contents of the scratch, ring degrees", "why_tests_cant": "the tests use memories that fill their polynomials, and only print these reports", "anchors": ["fhevm/src/memory.rs:noise", "fhevm/src/interpreter.rs:cycle_debug"]}
{"id": "C80", "title": "Unit tests of the instruction formats", "statement": "The tests inside b_type, i_type, j_type, r_type, s_type and u_type pass. With any immediate and register numbers in place of their constants, the helper of a format passes exactly if the register numbers fit 5 bits, the immediate is even (branches and jumps) or below 2^20 (LUI and AUIPC) and the ids expected are those of the instruction with that opcode, funct3 and funct7. So for every RV32IM instruction its test accepts its own ids and no others. A decoder of immediates that treats bits independently and passes imm_encoding is right for every immediate on words whose other fields are 0, and nothing is said about the other fields: a decoder that mixes funct3 into the immediate passes too.", "quantifier": "all instructions, immediates, register numbers, ids, build profiles; all bit-independent decoders", "why_tests_cant": "the tests use one value of each operand; what they leave open is a statement about all programs passing them", "anchors": ["fhevm/src/instructions/b_type.rs:test_instruction", "fhevm/src/instructions/i_type.rs:test_instruction_shamt", "fhevm/src/instructions/r_type.rs:test_instruction", "fhevm/src/instructions/mod.rs:assert_instruction"]}
{"id": "C81", "title": "Library calls of a cycle", "statement": "A cycle makes one fixed list of library calls, in a fixed order and with a fixed distribution over threads, written down from the ring degree, the numbers of ciphertexts and address bits of ROM and RAM and the thread count; only the first cycle differs, by not preparing the program counter. So every cycle evaluates 6 generated circuits and 19 word operations and bootstraps 58 + 64 + (ram bits + 2) + 64 bits, and after the first (rom bits + 2) more. Each multi-word preparation takes ceil(bits / threads) rounds, no task is lost or repeated, and no more threads are started than allowed.", "quantifier": "all lawful libraries, all states of the given sizes, all ciphertexts, all positive thread counts, any number of cycles", "why_tests_cant": "the statement is about every state and thread count; a test sees the calls of one run, if any", "anchors": ["fhevm/src/interpreter.rs:cycle_internal", "fhevm/src/memory.rs", "fhevm/src/prepare.rs:prepare_multiple_fheuint", "fhevm/src/rd_update.rs:eval_enc", "fhevm/src/ram_update.rs:eval_enc"]}
{"id": "C82", "title": "Nothing of a linked guest is lost", "statement": "For every guest the linker script accepts, the load segments lld writes are ascending and disjoint, and each either has all its bytes in the file or is exactly .bss, which never shares a segment with initialised data. So the loader, which skips segments with an uninitialised part, loses nothing: the ROM is the code, each of .inpdata, .outdata, .rodata and .data is at its addresses, every other byte of the RAM is zero, and both VMs give the same output. A guest without input sections for one of the tapes is refused.", "quantifier": "all guests (any number, sizes, alignments and writability of input sections), contents, files with that segment table, tapes, correct libraries, thread counts and numbers of cycles", "why_tests_cant": "whether the loader's shortcut is safe depends on how the linker groups arbitrary sections; the tests link a few guests, and one missing AT> in the script would change the grouping for the others", "anchors": ["compiler/linker-script/default.x", "compiler/src/interpreter.rs:from_elf"]}
{"id": "C83", "title": "Guests that print", "statement": "A guest that calls println of the guest library executes ECALL. Under encryption it behaves, in registers, RAM, program counter and output tape, like the same guest with every system instruction replaced by nop, with and without the debug comparison. The test VM panics at the first system instruction it reaches, so the two VMs differ on every guest that prints before its result is complete.", "quantifier": "all programs, RAM contents, input tapes, numbers of cycles below 2^32, thread counts, correct libraries", "why_tests_cant": "No guest of the repository prints; the claim ranges over all programs and runs, and over both VMs.", "anchors": ["runtime/src/lib.rs:println", "fhevm/src/instructions/mod.rs:get_type,get_opid", "compiler/src/interpreter/testvm.rs:decode_inst", "fhevm/src/interpreter.rs:cycle"]}
{"id": "C84", "title": "Sections chosen by the linker script", "statement": "No section name is claimed by two descriptions of the linker script. With collection of unused sections exactly those stay that are reached from the start-up code, the entry symbol and the tapes, which always stay. Every section that stays and has a description gets exactly one address, aligned, inside its output section and overlapping no other; what it refers to is placed too, or the link is refused. The first .init section is at address 0; a single input (output) section is the tape the tools look up, with its address and size. If a guest links with all its sections it links without the unused ones, and gets no longer. Two input sections form one tape, and an uninitialised section of an unknown name lies in the memory of the allocator.", "quantifier": "all lists of input sections with any names, sizes, valid alignments and references, with and without collection", "why_tests_cant": "The names, references and sizes of the sections come from the compiler and differ for every guest; the repository links a handful of guests and looks at none of the addresses.", "anchors": ["compiler/linker-script/default.x:15-93", "runtime/src/lib.rs:24-38", "compiler/src/lib.rs:build", "runtime/src/alloc.rs:sys_alloc_aligned"]}
{"id": "C85", "title": "Symbols, the runtime and the entry macro", "statement": "References go to the section that defines the symbol; resolution fails exactly if a symbol is defined twice or a section that goes into the program mentions one that neither another section nor the linker script defines. A guest with the runtime that links has exactly one definition of main, in its own code, found by the start-up code and kept by the collector: the start-up code is at address 0 and main behind it in .text. Without main, or with two copies of the runtime, nothing links. The attribute #[entry] accepts functions only, leaves name, body and attributes, makes the name the symbol on riscv32 and nothing different elsewhere; with a compiler that mangles names a main without it does not link. A guest without the runtime links, but without code, and the loader refuses the file.", "quantifier": "all lists of sections with any names, sizes, definitions and references; all functions, all targets and all ways of mangling names", "why_tests_cant": "Every guest of the repository has the attribute and the runtime once; the failing combinations are never built, and which symbols there are depends on the compiler.", "anchors": ["macros/src/lib.rs:5-14", "runtime/src/lib.rs:19-71", "compiler/linker-script/default.x:1", "compiler/linker-script/default.x:15-93", "compiler/src/interpreter.rs:179-283"]}
{"id": "C86", "title": "Documented operation ids", "statement": "The ids in the documentation of the instruction module are those of the code. As stated this is false: exactly the rows of LH, LW, LBU, LHU and, for the next pc, JALR and BNE differ; the documented ids stand for loads of another width, for BNE instead of JALR, and with that of BNE the encrypted VM branches exactly when the operands are equal. Every id that the VM may hold, also the seven of four bits that no operation has, makes the circuit of the next pc compute one of the nine operations, given by its four low bits.", "quantifier": "all operations; all 2^32 ids, operands, program counters and immediates, and all former contents of the evaluator's buffers", "why_tests_cant": "The tests use the ids of the code on both sides, never those of the documentation nor the unused ones, and sample operands.", "anchors": ["fhevm/src/instructions/mod.rs:1-65", "fhevm/src/instructions/mod.rs:RAM_UPDATE", "fhevm/src/instructions/mod.rs:PC_UPDATE", "fhevm/src/instructions/mod.rs:RD_UPDATE", "fhevm/src/pc_update.rs:update_pc", "fhevm/src/codegen/codegen_pc_update.rs"]}
{"id": "C87", "title": "Multiplications and divisions under encryption", "statement": "The encrypted VM executes any contents of its program memories: a cycle is that of an RV32I instruction given by the low bits of the fields (five of a register number or register operation, two of a RAM operation, four of a pc operation), and with power-of-two memories it never panics. So it accepts RV32M words and executes none of them: MUL, MULH, MULHSU, MULHU and DIV write 0, DIVU the program counter, REM the first operand, REMU whether that is negative; a guest with such words puts out, silently, what the test VM puts out for the guest with each replaced by that RV32I instruction. The test VM executes them; the debug mirror panics. One concrete guest, loaded by both, shows the difference under every correct library.", "quantifier": "all program memory contents, states, RV32M words and operands, programs, numbers of cycles below 2^32, thread counts and correct libraries", "why_tests_cant": "The tests draw from the RV32I list only, and the guests are compiled for riscv32i; no test runs a word of the M extension in the encrypted VM.", "anchors": ["fhevm/src/interpreter.rs:736", "fhevm/src/interpreter.rs:588", "fhevm/src/interpreter.rs:update_registers", "fhevm/src/instructions/mod.rs:RD_UPDATE_RV32I_OP_LIST", "fhevm/src/instructions/mod.rs:get_opid", "fhevm/src/debug.rs:update_registers", "fhevm/src/prepare.rs", "fhevm/src/pc_update.rs:update_pc", "compiler/src/interpreter/testvm.rs:decode_inst"]}
{"id": "C88", "title": "The guests in machine code", "statement": "The mains of the uniswap, template and guest-test1 guests, written as RV32I machine code with multiplication and division in software (the encrypted VM has none), loaded and run: for every input tape and every sufficient number of cycles, both the test VM and the encrypted VM return exactly the output tape the Rust source defines without overflow checks, and leave the output zero where the source panics. In general a run of the manual's machine in which loads are at multiples of four, stores aligned, both in the RAM, and jumps to multiples of four decides the output tape of both VMs. With these guests and enough cycles the host programs of template and uniswap get through exactly where the source's own arithmetic does, for every point and every trade, and both VMs return what the six generated test cases of guest-test1 expect.", "quantifier": "all input tapes of the right length, numbers of cycles from 648 (uniswap), 3277 (template), 956 (guest-test1) up to 2^32, thread counts and correct libraries; in general all such ELF files and runs", "why_tests_cant": "The end-to-end tests run each guest on a few inputs, compare with a second program rather than with the meaning of the source, and take minutes of encrypted execution per input; overflow, division by zero and exhausted reserves are not among the inputs.", "anchors": ["compiler-tests/uniswap/src/guest/src/main.rs:main", "compiler-tests/template/src/guest/src/main.rs:main", "compiler-tests/gen-tests/src/guest-test1/src/main.rs:main", "compiler/src/interpreter.rs:Phantom", "compiler/src/interpreter/testvm.rs:execute", "fhevm/src/interpreter.rs:cycle", "compiler-tests/template/src/main.rs:main", "compiler-tests/uniswap/src/main.rs:main"]}
{"id": "C89", "title": "One guest from its object files to the assertions of its host", "statement": "The runtime's sections, a machine-code main of uniswap and its two tapes: the linker resolves every symbol, puts _start at 0, _start_rust at 36 and main at 44, and the tapes at the start of the RAM. The file lld writes for the result, and also the bytes of a file with one load segment for each section, are loaded with that code and an empty RAM. From address 0 both VMs execute the start-up code, _start_rust and main; with at least 657 cycles both return, for every input tape, exactly what the Rust source defines without overflow checks, and zeros where it panics. The host program run on the loaded file gets through exactly for the trades the source accepts, and then with the pool and the account after the trade.", "quantifier": "all files of that form, input tapes of 24 bytes, pools, trades and accounts, numbers of cycles from 657 up to 2^32, environments and thread counts, correct libraries, both overflow settings", "why_tests_cant": "The end-to-end tests run the chain from compiler to host on one trade. That no step loses a section, a byte of code or a register between linking, loading and the three VMs, for every trade, needs the steps' guarantees to fit together.", "anchors": ["runtime/src/lib.rs:start_rust", "compiler/linker-script/default.x:SECTIONS", "compiler/src/interpreter.rs:from_elf", "compiler/src/interpreter.rs:encrypted_vm", "compiler/src/interpreter/testvm.rs:execute", "fhevm/src/interpreter.rs:cycle", "compiler-tests/uniswap/src/guest/src/main.rs:main", "compiler-tests/uniswap/src/main.rs:main"]}
{"id": "C90", "title": "Every guest from its object files to its output", "statement": "Whatever sections a guest consists of: if they resolve and link with the runtime, the file lld writes (and the file with one load segment for each section, as bytes) is loaded so that every section that stays has its bytes at its address, code in the ROM, constants and variables in the RAM, .bss as zeros. The start-up code then enters _start_rust with return address 32, stack and frame pointer at the end of the RAM, the global pointer of the layout, all other registers zero, the input tape in its section and the rest of the memory as linked. What the manual's machine leaves in the output section from there in n steps that keep to the loads, stores and jumps both VMs share is what the test VM and the encrypted VM return after n + 7 cycles. The guests template and guest-test1, with main, the library's multiplication and the constants in sections of their own, are such guests: both VMs return what the sources define without overflow checks for every input, the template's host gets through for every point exactly where its own loop does not overflow, and the six generated cases come out as expected.", "quantifier": "all section lists with symbols and references, relocated bytes, layouts and files of that form, input tapes, runs, cycle counts below 2^32, environments, thread counts and correct libraries; for the two guests all tapes and at least 3286 and 965 cycles", "why_tests_cant": "The tests link a handful of guests and run each on a few inputs. That no arrangement of sections, alignments and sizes the linker accepts makes the loader or the start-up code lose a byte or a register needs all of them.", "anchors": ["compiler/linker-script/default.x:SECTIONS", "runtime/src/lib.rs:start_rust", "compiler/src/interpreter.rs:from_elf", "compiler/src/interpreter.rs:encrypted_vm", "compiler/src/interpreter/testvm.rs:execute", "fhevm/src/interpreter.rs:cycle", "compiler-tests/template/src/guest/src/main.rs:main", "compiler-tests/gen-tests/src/guest-test1/src/main.rs:main", "compiler-tests/template/src/main.rs:main"]}
{"id": "C91", "title": "Relocation: guests from their object files alone", "statement": "Linking object files fills in addresses and nothing else. Every section that stays has at its address the bytes of the object file, except at its relocations: a word becomes the address of its target; a branch or a jump gets the immediate that leads to its target and is refused exactly if there is none; the two halves of a call, of an absolute address and of a PC-relative address add up to the target modulo 2^32 with the lower half signed; all other fields of these instructions stay. The address of a symbol is that of its section plus its offset, or what the linker script defines. Linking fails exactly if symbol resolution (C85) or placement (C84) fails or a section that stays has an impossible relocation (no target, out of reach, odd distance, second half without the first, beyond the end of the section). So in every linked guest the start-up code is the one of the boot model, with the layout's global pointer and stack and the address of _start_rust, and C90 holds for guests given by object files: what the manual's machine leaves in the output section is what both VMs return. The template and guest-test1 as object files link to exactly one program each, and on it both VMs return what the sources define for every input and with uniswap as object files its host gets through for exactly the trades the guest accepts, with the pool and the account after the trade.", "quantifier": "all lists of object-file sections with symbols and relocations of the eleven types (pairwise disjoint), all addresses and targets; for guests additionally all files of the form lld writes, input tapes, runs, cycle counts below 2^32, thread counts and correct libraries", "why_tests_cant": "Tests link a few guests whose addresses all lie in a few kilobytes; sign carries between the halves of an address, distances at the edge of what an immediate reaches and references between arbitrary sections are not among them.", "anchors": ["runtime/src/lib.rs:start_rust", "compiler/linker-script/default.x:SECTIONS", "compiler/src/lib.rs:build", "compiler/src/interpreter.rs:from_elf", "compiler/src/interpreter/testvm.rs:execute", "fhevm/src/interpreter.rs:cycle", "compiler-tests/template/src/guest/src/main.rs:main", "compiler-tests/gen-tests/src/guest-test1/src/main.rs:main", "compiler-tests/uniswap/src/guest/src/main.rs:main", "compiler-tests/uniswap/src/main.rs:main"]}
{"id": "C92", "title": "Guests whose two executions differ, from their object files", "statement": "For every guest given by object files, also one whose loads and stores the interpreter does not carry out as the manual says: the test VM returns what the manual's machine, entered as the start-up code leaves it, has in the output section at the end, provided that machine never reaches an instruction the test VM stops at; the encrypted VM returns, under every correct library and with or without the comparison with its mirror, what the machine of the interpreter's circuits has there. In particular string-match linked from object files: with byte loads the test VM compares the whole string and the encrypted VM only every fourth character, so that the host gets through, with the right answer, exactly for strings that match or differ in one of these characters; with word loads both compare everything and the host gets through for every string.", "quantifier": "all object files, runs over RV32I instructions other than LB and than JAL over 512 KiB or more, files of the form lld writes, input tapes, cycle counts below 2^32 that suffice, thread counts, correct libraries, debug settings; for string-match all strings of up to 20 bytes and all environments", "why_tests_cant": "The host of string-match runs on one string, which differs in the first character; a false match under encryption needs a string that agrees at positions 0, 4, 8, 12 and 16, and whether it happens depends on which load instructions the compiler chooses.", "anchors": ["compiler-tests/string-match/src/guest/src/main.rs:main", "compiler-tests/string-match/src/main.rs:main", "compiler/src/interpreter.rs:from_elf", "compiler/src/interpreter/testvm.rs:execute", "fhevm/src/interpreter.rs:cycle", "runtime/src/lib.rs:start_rust"]}
{"id": "C93", "title": "A cycle limit that is too low goes unnoticed", "statement": "For every guest given by object files and every cycle limit up to the length of a run on which the manual and the interpreter agree: neither VM reports that the program was cut off; both return the output section as it is after that many instructions, and up to the seventh instruction (the start-up code) that is what the file holds there, whatever the guest. string-match for every limit: it needs 156 cycles with byte loads and 51 with word loads; below that both VMs answer that the string does not match, so that the host's assertions fail for the matching string and for no other. The host's own limit of 100 is too low for the guest with byte loads.", "quantifier": "all object files, files of the form lld writes, input tapes, cycle limits below 2^32, thread counts, correct libraries, debug settings; runs over RV32I instructions other than LB and than JAL over 512 KiB or more; for string-match all strings of up to 20 bytes and all environments", "why_tests_cant": "Tests fix one limit that is large enough for the compiler output at hand and one input; string-match's host tests a string that does not match, for which a run that is cut off gives the expected answer.", "anchors": ["compiler/src/interpreter.rs:execute", "compiler/src/interpreter/testvm.rs:execute", "compiler/src/interpreter.rs:output_tape", "compiler-tests/string-match/src/main.rs:main", "runtime/src/lib.rs:start_rust"]}
{"id": "C94", "title": "All of RV32IM, from object files to the output of both VMs", "statement": "For every guest given by object files, with any RV32IM instruction in it: the test VM returns what the manual's machine has in the output section at the end, provided it never reaches an instruction the test VM stops at; the encrypted VM without the comparison always completes and returns, under every correct library, what the machine of its circuits has there: the manual's, except that loads and stores act on the aligned word, LB does not extend the sign, JAL uses 20 bits of its distance and a multiplication or division writes 0, the program counter, its first operand or the sign of that, depending on the instruction. In particular, linked from object files: a guest that returns the sign of a byte returns it on the test VM and 0 under encryption; a guest that applies one of the eight instructions of RV32M to a word x and itself returns the result on the test VM, and under encryption 0 for the multiplications and DIV, 52 for DIVU (where it stands in the program), x for REM and the sign of x for REMU.", "quantifier": "all object files, runs over any RV32IM instructions, files of the form lld writes, input tapes, cycle counts below 2^32, thread counts, correct libraries, print settings; for the eight guests all words, for the sign guest all bytes", "why_tests_cant": "No guest of the repository has an M instruction or a signed byte load in it as compiled for rv32i, so no test reaches these cases; the outputs are wrong without any error.", "anchors": ["compiler/src/interpreter.rs:from_elf", "compiler/src/interpreter.rs:execute", "compiler/src/interpreter/testvm.rs:execute", "fhevm/src/interpreter.rs:cycle", "fhevm/src/instructions.rs:from_bits"]}
{"id": "C95", "title": "When the comparison with the mirror passes, exactly", "statement": "One cycle of the encrypted VM with the comparison succeeds if and only if the instruction is not a multiplication or division, is not an LB that meets a byte of 128 or more at the word it reads, and is not a JAL over 512 KiB or more; and then both executions show the effect of the mirror's machine. Hence for every ELF file, input and limit for which the mirror's machine can run that long over RV32IM instructions: execute succeeds if and only if every instruction met on the way is like that, and the output is then what the mirror's machine leaves in the output section. The same for every guest given by object files. The guest that returns the sign of a byte gets through exactly for bytes that are not negative; the guests with an M instruction never do.", "quantifier": "all instructions of RV32IM, states, ELF files, object files, input tapes, limits below 2^32, thread counts, correct libraries", "why_tests_cant": "A passing comparison says nothing about the programs and inputs for which it was not run; which programs can fail it needs all instructions and all states.", "anchors": ["compiler/src/interpreter.rs:execute", "fhevm/src/interpreter.rs:cycle", "fhevm/src/debug.rs:update_registers", "fhevm/src/debug.rs:update_pc", "fhevm/src/interpreter.rs:cycle_debug"]}
{"id": "C96", "title": "Every program the encrypted VM accepts", "statement": "What the parser accepts is executed, word by word, as exactly one RV32IM instruction: itself; SLLI whatever the upper seven bits; JALR whatever funct3; and every SYSTEM word as the instruction that does nothing. So for every ELF file that loads, every input tape and every number of cycles below 2^32 the encrypted VM is a machine given by the words of the program alone. Without the comparison: either this machine makes n steps, and then execute succeeds and the output tape is the declared part of its RAM, or it leaves the program (the program counter, reduced modulo the size of the program memory, is past the last word); with a power of two of words the second is impossible, so the VM completes on every input for every number of cycles. With the comparison: execute succeeds exactly if the machine of the mirror makes n steps in the program and meets no multiplication or division, no signed load of a byte above 127 and no JAL over 512 KiB or more, and then the output is the declared part of its RAM.", "quantifier": "all ELF files that load and whose words the parser accepts, all input tapes, all cycle counts below 2^32, all thread counts, all correct libraries, comparison on and off; all 2^32 words for the reading of a word", "why_tests_cant": "Tests run a few compiled guests, whose words are legal and whose runs stay in the program; the accepted words are more than 2^27, and programs, inputs and cycle counts are unbounded.", "anchors": ["fhevm/src/instructions/mod.rs:add", "fhevm/src/instructions/mod.rs:get_opid", "fhevm/src/interpreter.rs:cycle", "fhevm/src/interpreter.rs:cycle_debug", "fhevm/src/debug.rs:update_registers", "compiler/src/interpreter.rs:encrypted_vm", "compiler/src/interpreter.rs:execute"]}
{"id": "C97", "title": "The test VM on every program", "statement": "Each of the 2^32 words is either executed by the test VM as exactly one RV32IM instruction - itself, or the one obtained by ignoring the unused bits of the upper seven - or stops it; a word that both VMs take is read alike by both. For every ELF file that loads at the RAM base of the linker script, every input tape of the declared length and every number n of cycles, setting up and reading the input succeed; execute succeeds exactly if the machine given by the words of the program, repeated with its length as period, makes n steps without a misaligned jump or access, an excluded division or, with overflow checks, an access below the RAM or a program counter that overflows; and then the output tape is the declared part of its RAM. Within the RAM this machine is the one of the manual.", "quantifier": "all 2^32 words; all ELF files that load, all input tapes, all cycle counts, builds with and without overflow checks", "why_tests_cant": "Tests run compiled guests that end in a loop; this covers all words, also those no compiler writes, programs that run past their end, and all inputs and cycle counts.", "anchors": ["compiler/src/interpreter/testvm.rs:decode_inst", "compiler/src/interpreter/testvm.rs:run", "compiler/src/interpreter/testvm.rs:execute", "compiler/src/interpreter/testvm.rs:read_word", "compiler/src/interpreter/testvm.rs:output_tape"]}
{"id": "C98", "title": "The encrypted VM past the end of the program", "statement": "The places of a program memory beyond the program are encryptions of zero and decode as a branch to itself. If the number of ciphertexts per bit is a power of two (in particular for programs of up to N = 1024 words), the encrypted VM without the comparison completes on every program the parser accepts, for every input tape and every number of cycles below 2^32, under any correct library, and the output tape is the declared part of the RAM of the machine given by the words of the program and, beyond them, by branches to themselves. Once beyond the program, registers and RAM do not change any more, so the output is that of the moment when the program was left. The test VM starts such a program over: a program of five words without a loop counts its rounds there, and returns 1 under encryption.", "quantifier": "all ELF files that load and whose words the parser accepts with a power of two of ciphertexts per bit, all input tapes, all cycle counts below 2^32, all thread counts, all correct libraries", "why_tests_cant": "No test guest leaves its program; the statement is about all programs, inputs and cycle counts, and about the unused coefficients of the ciphertexts.", "anchors": ["fhevm/src/memory.rs:encrypt_sk", "fhevm/src/memory.rs:read_stateless", "fhevm/src/interpreter.rs:cycle", "compiler/src/interpreter.rs:execute"]}
{"id": "C99", "title": "On which runs both VMs do the same", "statement": "Where the test VM does not refuse the alignment, an instruction has the same effect on both VMs, with the 4096 bytes of RAM of the loader, exactly if: a load goes to x0 or returns the same as the load at the start of the word without sign extension of a byte; a half word is stored at an even address, or it and the bytes around it are zero; a JAL is below 512 KiB; a multiplication or division goes to x0 or has the result of what the encrypted VM executes instead. A run of the test VM that stays inside the program is the run of the encrypted VM, or there is a first step that is not of this kind, before which both are in the same state and after which they are not. The instructions that are of this kind in every state in which the test VM executes them are exactly: those other than loads of bytes and half words, stores of half words, far jumps, multiplications and divisions; loads, multiplications and divisions to x0; at a constant address loads of unsigned bytes and half words at the start of a word and stores of half words at an even address (or one that the test VM refuses); multiplications and divisions with the operand x0, except for DIVU with only the dividend x0. A program of these has only steps of this kind. If all steps are of this kind, both VMs complete and return the same output tape, for every ELF file, tape and number of cycles.", "quantifier": "all instructions and states; all ELF files that load and whose words the parser accepts, all input tapes, all cycle counts below 2^32, overflow checks on and off, all thread counts, all correct libraries", "why_tests_cant": "The tests compare both VMs on a few guests and inputs; the condition is an equivalence over all instructions and states, and carries over to all programs.", "anchors": ["fhevm/src/interpreter.rs:cycle", "compiler/src/interpreter/testvm.rs:execute", "compiler/src/interpreter/testvm.rs:read_byte", "compiler/src/interpreter.rs:execute"]}
{"id": "C100", "title": "Choosing the number of cycles with the test VM", "statement": "The documented procedure: run the test VM on sample inputs until its output is right and use that number of cycles. If the test VM has come to the final loop after m cycles, with all its steps inside the program and of the kind of C99, then for every n from m on the test VM and the encrypted VM return what the test VM returned after m cycles. Without the final loop this fails (C97_count: the output is right after 4 cycles and wrong after 9). For other inputs it says nothing: there is a program of eight instructions, all of that kind, on which both VMs return the input x if there are at least 4 x + 4 cycles and zero otherwise, so no number of cycles is right for all inputs, and the comparison of both VMs never shows it.", "quantifier": "all ELF files that load and whose words the parser accepts, all input tapes, all m <= n < 2^32, overflow checks on and off, all thread counts, all correct libraries; for the program all inputs and cycle counts below 2^32", "why_tests_cant": "A test runs one number of cycles on one input; the statement is about all larger numbers and about all inputs.", "anchors": ["compiler-tests/template/README.md", "compiler/src/interpreter.rs:execute", "compiler/src/interpreter/testvm.rs:execute"]}
{"id": "C101", "title": "Programs whose length is a power of two run round on both VMs", "statement": "If the number of words of the program is a power of two, both VMs read the same instruction at every program counter, also past the end. From the same registers and RAM, and program counters that are equal modulo the size of the program, one step on each VM leads to such states again exactly if: the condition of C99 holds, with the remainder as program counter of a DIVU; an AUIPC, JAL or JALR that writes a register is executed before the program starts over; and a JAL is below 512 KiB or the program is at most 1 MiB. A run of the test VM, however often it starts over, is up to the program counter the run of the encrypted VM, or there is a first step after which they differ. The instructions that satisfy the condition in every state in which the test VM executes them are exactly those of C99 that do not write the program counter to a register (unless the program is as large as the address space), JAL of any distance included when the program is at most 1 MiB, and JALR to a constant address which is not a multiple of four. If all instructions of the program are of this kind, then for every tape and number of cycles: whenever the test VM completes so does the encrypted VM, with the same output. The program of C98, filled up with nop to eight words, returns its number of rounds on both.", "quantifier": "all instructions and states and program sizes 2^1 to 2^32; all ELF files that load and whose words the parser accepts, with a power of two of words up to 2^30, all input tapes, all cycle counts below 2^32, overflow checks on and off, all thread counts, all correct libraries", "why_tests_cant": "No test guest leaves its program or has a power of two of words by design; the condition is an equivalence over all instructions and states.", "anchors": ["fhevm/src/interpreter.rs:cycle", "compiler/src/interpreter/testvm.rs:execute", "compiler/src/interpreter.rs:execute", "fhevm/src/memory.rs:read_stateless"]}
{"id": "C102", "title": "Using a VM more than once", "statement": "Any sequence of calls of read_input_tape, run, execute and output_tape on the test VM of an ELF file completes exactly if the same sequence does on a machine where a tape of the right length replaces the input section and nothing else, run is one step, execute is max_cycles steps from where the machine is, and output_tape returns the output section and changes nothing; then the outputs are those of the machine. Registers, program counter and the rest of the RAM are never reset. So executing r times is executing once with r times the cycles (also for the encrypted VM, with any library, with and without the comparison with the mirror, also in whether it panics), and once the guest has come to its final loop the VM returns the output of the first tape whatever tapes follow and however often it is executed: the guest of C100, given x and then y, returns x twice, while a VM of its own returns y.", "quantifier": "all ELF files that load with their sections in the RAM, all sequences of calls with all tapes, all cycle limits, overflow checks on and off; encrypted VM: any library, all thread counts, both modes, all tapes and cycle limits", "why_tests_cant": "Every test makes a new VM for every tape; the statement is about all sequences of calls.", "anchors": ["compiler/src/interpreter/testvm.rs:execute", "compiler/src/interpreter/testvm.rs:run", "compiler/src/interpreter/testvm.rs:read_input_tape", "compiler/src/interpreter/testvm.rs:output_tape", "compiler/src/interpreter.rs:execute"]}
{"id": "C103", "title": "Debug and release builds compute the same", "statement": "Overflow checks and debug assertions only turn results into panics: whatever a build with them returns, a build without them returns. This holds for the test VM made from any file with any sequence of calls (also for the state it is left in), for the instruction builder, for the guests executed natively, for the comparison of both VMs and for the four hosts with any environment, file and input. The parser and the set-up of the encrypted VM are the same in both builds: their debug assertions never fail. A run of the test VM without overflow checks is one with them, or there is a first step at which they stop it, a load or store below the RAM or an instruction that moves the program counter past the end of the address space. There is a guest of five instructions that reads its input one RAM size below: for every input, a release build of a host finds the input as the output of both VMs, and in a debug build the test VM panics.", "quantifier": "all loaded files, sequences of calls, tapes, cycle limits, words and chains of setters; any library for the encrypted VM and the hosts; for the guest all inputs, all cycle counts from 4 to 2^32, all correct libraries", "why_tests_cant": "A test runs in one profile; the relation is between two builds on all programs and inputs.", "anchors": ["compiler/src/interpreter/testvm.rs:run", "compiler/src/interpreter/testvm.rs:read_byte", "fhevm/src/instructions/mod.rs:get_imm", "compiler/src/interpreter.rs:encrypted_vm", "compiler/src/interpreter.rs:test_vm"]}
{"id": "C104", "title": "Files whose RAM is not at 0x40000", "statement": "The loader and the test VM take the beginning of the RAM from the first data segment of the file; the encrypted VM subtracts the constant 0x40000 from every address. For every address the two access the same byte of the RAM if and only if the RAM begins at a multiple of 4096. Wherever it begins, exactly the runs of the test machine with RAM at that place complete on the test VM, and it returns the bytes of the output section. A step of that machine is the same for every multiple of 4096, for every instruction in every state. So for every file with RAM at a multiple of 4096, every tape and number of cycles: if the run of the test VM stays inside the program and every step of it is the same on both VMs, both complete under any correct library with the same output. For other files this is false: a program of four instructions that copies its input, with RAM at 0x40004, returns the input on the test VM and four zero bytes on the encrypted VM, for every input.", "quantifier": "all files, places of the RAM below 2^32, addresses, instructions, states, tapes, cycle limits, debug or release builds, thread counts, correct libraries", "why_tests_cant": "All guests in the repository are linked with one script and have their RAM at 0x40000.", "anchors": ["compiler/src/interpreter.rs:from_elf", "compiler/src/interpreter.rs:output_tape", "compiler/src/interpreter/testvm.rs:init", "fhevm/src/ram_offset.rs:ram_offset"]}
{"id": "C105", "title": "Structures on the tapes", "statement": "Hosts turn an Input into bytes with to_u8_slice and bytes into an Output with from_u8_slice, guests read and write the same structures in their memory, and each side declares them for itself, with repr(C), on targets with 8 and 4 byte pointers. The fields of a structure are in the order of declaration, each at the next multiple of its alignment, and the size is the next multiple of the alignment, which all fields divide. Every type without usize has the same size, alignment and offsets on both targets; for every value of it, whatever is in the padding, the bytes one side writes are as many as the other expects and the other reads the value from them. Host and guest of all five programs declare the same types, without usize; the tapes of the other properties are the bytes of their values, and what the guests read of a tape is what the model takes from it; so from the structure a host writes to the structure it reads stands the function the source of the guest computes. With usize this is false: the tape of a structure of one usize is refused by both VMs, and that of a u64 and a usize is accepted, but the guest reads only the low word of the number.", "quantifier": "all nested structures, arrays, enums and integers, all their values, all padding bytes, all tapes", "why_tests_cant": "The tests use five types and a few values, and cannot choose the padding.", "anchors": ["compiler-tests/uniswap/src/main.rs:to_u8_slice", "compiler-tests/uniswap/src/main.rs:from_u8_slice", "compiler-tests/gen-tests/src/lib.rs:to_u8_slice", "compiler-tests/uniswap/src/guest/src/main.rs:main", "compiler-tests/otc/src/guest/src/main.rs:main"]}
{"id": "C106", "title": "A stack that grows into the data goes unnoticed", "statement": "The linker script puts the stack at the end of the 4 KiB of RAM, growing downwards towards the data, with nothing between them. A guest pushes as many words as its input says and returns a variable that is 42 from the beginning. For every input, under any correct library and with cycles enough: up to 1021 pushes both VMs return 42; from 1022 on both return the word that was pushed, so that the comparison of the two tapes passes. In a release build this holds for every number of pushes, also when the stack leaves the RAM at its lower end and comes back at the upper one. In a debug build it holds up to 1024; with more the test VM panics.", "quantifier": "all 2^32 inputs, all sufficient cycle limits, debug or release builds, thread counts, correct libraries", "why_tests_cant": "The tests compare the two VMs with each other, and both lose the variable in the same way; no guest of the tests has a deep stack.", "anchors": ["compiler/linker-script/default.x:_stack_start", "compiler/src/interpreter/testvm.rs:write_word", "fhevm/src/ram_offset.rs:ram_offset", "compiler/src/interpreter.rs:from_elf"]}
{"id": "C107", "title": "A check of the program that is enough for all inputs", "statement": "Whether the two VMs agree on a program is, by C99, a condition on every step of its run, which depends on the input. There is a check that only looks at the instructions: a table says of every register before every instruction that it is one of some words, a multiple of four, a number of so many bits, or anything; it has to hold at the start and be kept by every instruction; words of the text that cannot be reached (as `unimp` in the start-up code) can be any; no jump may leave the program, no reachable load or store be misaligned or one on which the VMs can differ (signed bytes; unsigned bytes and half words that are not at the start of a word), no reachable instruction be a multiplication or division, no JAL be longer than 512 KiB. If a program passes, then for every input tape and every number of cycles, under any correct library: in a release build both VMs run to the end and return the same output; in a debug build too, if the table also shows that no access is below the RAM; otherwise in a debug build the encrypted VM returns the output of the test VM whenever that gets to the end. The same holds for every guest linked with the linker script whose text passes. Of the programs of C88 uniswap passes in full, also as the linked file of C89 with its start-up code, and template and guest-test1, also as linked, without the condition on the RAM, as do the guest of C106 and string-match with a word for each character; string-match with byte loads does not pass.", "quantifier": "all programs and tables that pass, all data sections, input tapes, cycle limits, debug or release builds, thread counts, correct libraries", "why_tests_cant": "A test compares the VMs on one input and one number of cycles; the check covers all of them, and its soundness is a statement about all programs.", "anchors": ["compiler/src/interpreter/testvm.rs:execute", "compiler/src/interpreter.rs:execute", "fhevm/src/interpreter.rs:cycle", "fhevm/src/instructions/mod.rs:add", "compiler-tests/uniswap/src/main.rs:main"]}
{"id": "C108", "title": "A number of cycles that is enough for all inputs, from the program", "statement": "The documentation finds the number of cycles by running the test VM on an input (C100), which says nothing about other inputs. There is a check of the program text: to the table of C107 comes a graph with nodes at the instructions, each with values of some registers (loop counters) and a bound, such that every node is at the final loop or leads only to nodes with smaller bounds. If a program passes with bound b at the start, then for every input tape there is one output, which both VMs return with every number of cycles from b on, under any correct library, randomness and number of threads, in release builds (and in debug builds if the accesses are shown to be in the RAM). The same holds for every guest that is linked with the linker script and whose text passes. The program of C88 for uniswap passes with 648 cycles, the linked file of C89 with 657, string-match with a word for each character with 42. For the program of C100 that counts down from its input no table, graph and bound pass.", "quantifier": "all programs, tables, graphs and bounds that pass, all data sections, input tapes, cycle limits from the bound on, builds, thread counts, correct libraries", "why_tests_cant": "A run shows that a number of cycles is enough for one input; here it is for all inputs at once. With too few cycles both VMs return the same wrong output, so their comparison does not show it.", "anchors": ["compiler/src/interpreter.rs:execute", "compiler/src/interpreter/testvm.rs:execute", "compiler-tests/uniswap/src/main.rs:main", "compiler-tests/string-match/src/main.rs:main"]}
