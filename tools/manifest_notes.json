{
 "C01": [
  "proved",
  "Immediate extraction for every word of each format."
 ],
 "C02": [
  "proved",
  "Round trip exactly on representable immediates."
 ],
 "C03": [
  "proved",
  "Field independence of the setters; C03_debug_formats says which accessors a debug build allows."
 ],
 "C04": [
  "proved",
  "Parser storage, any sequence of additions."
 ],
 "C05": [
  "proved",
  "All legal RV32IM words; the triple, operands and immediate determine the instruction."
 ],
 "C06": [
  "partial",
  "Exact accepted set is proved (C06_accept_exact); the strict claim that every word outside RV32IM is rejected is false and its negation is proved (C06_strict_fails: SLLI funct7, JALR funct3 and SYSTEM words are accepted)."
 ],
 "C08": [
  "proved",
  "Ids distinct within a family and within the selector widths; RV32IM needs 6 bits."
 ],
 "C09": [
  "proved",
  "sext helper."
 ],
 "C10": [
  "proved",
  "All non-load RV32I instructions."
 ],
 "C11": [
  "partial",
  "MUL, MULH, MULHSU, MULHU, REMU proved in full. DIV, DIVU and REM deviate from the manual on a zero divisor; C11_div_iff, C11_divu_iff, C11_rem_iff give the exact inputs on which they agree."
 ],
 "C12": [
  "partial",
  "Loads ignore the two low address bits: proved for byte offset 0; for other offsets C12_exact says when the result is right nevertheless, and C12_offset_fails that in general it is not."
 ],
 "C13": [
  "proved",
  "Next pc of every instruction."
 ],
 "C14": [
  "proved",
  "Stores at naturally aligned addresses; a misaligned SH writes zero (C14_misaligned_sh)."
 ],
 "C15": [
  "proved",
  "All inputs and all stale buffer contents; evaluator contract in Model/Bdd."
 ],
 "C16": [
  "proved",
  "All inputs and all stale buffer contents."
 ],
 "C17": [
  "proved",
  "All inputs and all stale buffer contents."
 ],
 "C18": [
  "proved",
  "All inputs, either operand order, all stale buffer contents."
 ],
 "C19": [
  "proved",
  "All nine operations, all inputs; the circuit sign-extends the immediate from bit 19, so J-type jumps beyond 512 KiB go elsewhere (C19_wide_jump_fails)."
 ],
 "C20": [
  "proved",
  "All 160 generated circuits."
 ],
 "C21": [
  "proved",
  "Encrypt then decrypt, for any library meeting the Fhe contract (Model/Library), all sizes, ring degrees and thread counts; excess words are dropped (C21_excess_dropped)."
 ],
 "C22": [
  "proved",
  "Stateless read, for any library meeting the Fhe contract (Model/Library), all sizes, ring degrees and thread counts."
 ],
 "C23": [
  "proved",
  "Single write and arbitrary histories of calls against a word-list specification, for any library meeting the Fhe contract (Model/Library), all sizes, ring degrees and thread counts."
 ],
 "C24": [
  "proved",
  "Two-phase access equals a write and returns the old word, for any library meeting the Fhe contract (Model/Library), all sizes, ring degrees and thread counts."
 ],
 "C25": [
  "proved",
  "Exact set of accepted call sequences, arbitrary ciphertexts; zero and decrypt do not check the pending flag."
 ],
 "C26": [
  "partial",
  "zero(addr) clears word poly*n + poly%n (poly = addr/n): right for address 0, the only one used by the VM (C26_word_zero), wrong in general (C26_wrong_word: zero(1) clears word 0); C26_correct_iff gives the exact set."
 ],
 "C27": [
  "proved",
  "Every partition and interleaving of the bits; memory operations, preparation and whole interpreter cycles give the same ciphertexts for every thread count."
 ],
 "C28": [
  "proved",
  "All four kinds of access at an arbitrary encrypted address, and the mirror's index, for any library meeting the Fhe contract (Model/Library); other RAM sizes differ (C28_other_sizes_fail)."
 ],
 "C50": [
  "proved",
  "Least width, every index representable, tightness."
 ],
 "C29": [
  "partial",
  "Exact plaintext meaning of one encrypted cycle proved (for any library meeting the Fhe contract (Model/Library), all states: C29_exact with Spec/Cycle) and total on power-of-two memories. Equality with the mirror holds outside signed loads of negative bytes and jumps over 512 KiB; C29_lb_fails proves the full claim false."
 ],
 "C30": [
  "partial",
  "Exact meaning of n < 2^32 cycles from set-up on and absence of panics proved; equality with the mirror under the conditions of C29. The cycle counter wraps at 2^32 (C30_counter_wraps)."
 ],
 "C31": [
  "proved",
  "Encrypted VM, mirror and test VM."
 ],
 "C32": [
  "proved",
  "Program memories unchanged, refetching gives the same ciphertexts; mirror likewise."
 ],
 "C34": [
  "proved",
  "All three VMs; the counter of the encrypted VM is modulo 2^32."
 ],
 "C48": [
  "proved",
  "All words with opcode 1110011, encrypted cycle (through C29_exact) and mirror."
 ],
 "C51": [
  "proved",
  "Through C29_exact / C30_exact."
 ],
 "C52": [
  "proved",
  "On supported cycles; on a signed load of a negative byte cycle_debug panics (C52_debug_lb_panics)."
 ],
 "C33": [
  "proved",
  "For every lawful library (retrieval keeps the number of ciphertexts, circuits of the repository evaluate) the ciphertexts after n cycles are one fixed expression, depending only on the public shape of the machine, of the ciphertexts it was started with. C33_sequence (Props/Calls) is the same for the sequence of calls, thread by thread."
 ],
 "C07": [
  "proved",
  "Both decoders agree with the manual on all legal RV32IM words."
 ],
 "C37": [
  "proved",
  "Any memory with the byte positions in range; odd half-word and misaligned word reads panic, accesses below the base panic with overflow checks."
 ],
 "C53": [
  "proved",
  "Exact accepted set; reserved words that are accepted are exhibited (C53_reserved_accepted)."
 ],
 "C36": [
  "proved",
  "All RV32IM instructions, exact panic set, frame; any number of steps (C36_runs, C36_complete). Against the manual an access has to lie in the RAM; C68_testvm gives the exact effect of all others."
 ],
 "C35": [
  "partial",
  "Exact effect of a cycle on every RV32I instruction in every state, for the mirror (C35_exact), the encrypted cycle (C35_encrypted_exact) and the encrypted VM under any correct library (C35_library_exact), any number of cycles, against the instruction set of Spec/Interpreter, which is the manual's with the deviations written out. Agreement with the manual itself: loads at multiples of four, naturally aligned stores, accesses inside the RAM (encrypted: also signed byte loads below 128 and jump distances below 2^19 bytes). The unrestricted claim is false: C35_fails (byte load at an odd address)."
 ],
 "C38": [
  "proved",
  "Mirror, exact meaning of the encrypted cycles, and encrypted VM under any correct library; any number of cycles. Supported: RV32I inside the program, loads at multiples of four, naturally aligned stores, a RAM at 0x40000 (encrypted VM: with a power-of-two number of words), accesses anywhere; for the encrypted VM also signed byte loads below 128 and JAL distances below 2^19 bytes. C38_unsupported_differ: outside of that the VMs disagree."
 ],
 "C39": [
  "partial",
  "ROM, RAM base, zero fill, tapes and rejection proved. Segments with an uninitialised part are silently skipped: C39_fails; proved for all other segments."
 ],
 "C40": [
  "proved",
  "Inverse in both directions, with the byte order."
 ],
 "C41": [
  "proved",
  "Input and output of both VMs; for the encrypted VM under any correct library."
 ],
 "C42": [
  "proved",
  "Composition of the loader, both VMs and the tapes, with and without the debug comparison, under any correct library; supported behaviours as in C38, RAM based at 0x40000. C42_setup: set-up does not panic. A complete run is evaluated."
 ],
 "C43": [
  "proved",
  "Every block is aligned as requested, per call and over histories of allocations and deallocations, for power-of-two alignments (which Layout guarantees)."
 ],
 "C44": [
  "proved",
  "Over any history the blocks lie above _end and are pairwise disjoint."
 ],
 "C45": [
  "proved",
  "Exact behaviour of a call (least aligned address, succeeds iff block plus gap fit below sp, else panic with the position unchanged); C45_later_stack shows what the check does not give: the stack can later grow into an allocated block."
 ],
 "C46": [
  "partial",
  "Conservation of both totals and the exact rounding are proved when product and totals fit in 32 bits. The claim that the product never decreases is false (C46_product_decreases, on the host program's own sample input): division rounds in favour of the trader; C46_drain and C46_mints are further consequences."
 ],
 "C47": [
  "proved",
  "Output is 1 exactly for the hidden string followed by zeros; padding is injective on strings without zero bytes."
 ],
 "C49": [
  "proved",
  "Preparation succeeds and yields keys for exactly the requested elements, each made for its element; with a replaced map it fails exactly if an element is missing. trace_galois_elements and the key encryption itself belong to the library and are parameters."
 ],
 "C54": [
  "proved",
  "Closed forms modulo 2^32 from input tape to output tape; checked builds agree when they do not panic; the sample point of the template host overflows a checked build."
 ],
 "C55": [
  "proved",
  "Finite check of the constants, with the ranks of the keys."
 ],
 "C56": [
  "proved",
  "Proved on the manual's machine (C56_isa), the test VM (C56_testvm) and the encrypted VM under any correct library (C56_encrypted). The words are those of the unrelaxed assembly; linker relaxation of `la` is not modelled."
 ],
 "C57": [
  "proved",
  "C57_testvm, C57_encrypted for one loop; C57_output for the output tape of whole guests with any number of extra cycles."
 ],
 "C58": [
  "partial",
  "False of the encrypted VM: C58_encrypted shows `unimp` is a no-operation there, C58_restarts gives a guest re-entered for ever. C58_testvm_partial: the test VM does stop, with a panic."
 ],
 "C59": [
  "proved",
  ""
 ],
 "C60": [
  "proved",
  "The claim that larger trades never get better quotes is refuted for institutional and prime clients (C60_discount) and proved for retail clients."
 ],
 "C61": [
  "proved",
  ""
 ],
 "C62": [
  "partial",
  "False of stateful reads and writes of a memory that fits in one ciphertext (C62_stateful_false gives sizes). C62_stateful_partial and C62_write_partial give the exact condition; C62_zero and C62_stateless prove the claim for the other operations."
 ],
 "C63": [
  "proved",
  ""
 ],
 "C64": [
  "proved",
  "The linker itself is modelled from its manual (placement of input sections in the regions of the script) and compared with a real lld (Lemmas/LinkVectors); garbage collection is not modelled. C64_data_lost is the consequence of the gap C39_fails for a linker that puts .data and .bss in one segment; lld does not (C82)."
 ],
 "C65": [
  "proved",
  "The graph of doc/costs.md lacks three arrows (C65_missing); the theorem is about the graph with them."
 ],
 "C66": [
  "proved",
  ""
 ],
 "C67": [
  "partial",
  "False as hoped for: freshness holds within one set-up (C67_fresh_partial) but all set-ups share the secret key and the randomness (C67_same_key, C67_anyone_decrypts, C67_comparable). C67_set_up reduces the code's set-up to the one of the other theorems."
 ],
 "C68": [
  "proved",
  "C68_testvm and C68_testvm_runs are exact for all instructions and states; C68_same equates the test VM with the mirror on supported instructions; C68_below_differ shows that the one remaining condition is needed. Used by C38 and thus by C42, C57, C63 and C64."
 ],
 "C69": [
  "proved",
  "C69_sqrt_nearest holds for every positive finite argument; special values and 256 sampled roots of a floating-point unit are checked beside it. C69_sample is an equivalence over output tapes."
 ],
 "C70": [
  "proved",
  "C70_encrypted, C70_debug and C70_testvm are end-to-end theorems without the restriction to supported accesses. The machine code of the two guests is written by hand, since the sandbox has no compiler; which of the two forms a compiler emits is not modelled."
 ],
 "C71": [
  "proved",
  "C71_cycle and C71_any together characterise the possible measurements exactly. The noise fields of a measurement, set only by cycle_debug, are left out."
 ],
 "C72": [
  "proved",
  "Each test of fhevm/src/tests other than cycle.rs (C66) is a definition with its draws and sizes as parameters; the theorems are equivalences. The noise assertions of the memory test are left out (noise is C63)."
 ],
 "C73": [
  "proved",
  "What the elf crate (0.8.0, not in the repository) does with the bytes is taken from the ELF standard and its documented interface; that is an assumption (DESIGN section 8). C73_guest and C73_output use a file with one segment per section; C64 leaves the grouping open and C64_data_lost says what other groupings lose. Sums beyond 64 bits in ELF64 files are not described (C73_fields: they cannot occur in ELF32 files)."
 ],
 "C74": [
  "proved",
  "The formulas the hosts compare with are those of C46, C47 and C54. What std does with parse::<usize> and eq_ignore_ascii_case is written out in Model/Host from the documented behaviour of Rust (DESIGN section 8). Printing and timing by the hosts are left out. The guests run by the hosts are arbitrary machine programs; the translation of the guest sources by rustc is not modelled."
 ],
 "C75": [
  "proved",
  "What the benchmarking library does with the closure is left out: it calls it some number of times. C75_representative is C33 for the benchmark."
 ],
 "C76": [
  "proved",
  "The observer's evaluation keys are part of the test (C76_keys: a test for each key), so key-dependent security of the evaluation keys is in the hypothesis on one ciphertext. Whether a lattice encryption meets that hypothesis is not modelled. C76_code: the code's constant seeds do not meet it."
 ],
 "C77": [
  "proved",
  "Tokens, not characters: blanks put in by to_string and rustfmt are left out. Of get_test_cases the tokens are fixed and the meaning is transcribed. The crate calls build without its argument and does not compile as it stands; the model starts after that call."
 ],
 "C78": [
  "proved",
  "Cargo is a parameter with its documented promise as hypothesis. That success implies a fresh file is part of this promise."
 ],
 "C79": [
  "partial",
  "False as stated: in a polynomial that is not full, the report compares with stale contents of its buffer (C79_gap, C79_false, C79_stale). C79_exact says what is measured in all cases; C79_full_partial is the claim for full polynomials."
 ],
 "C80": [
  "proved",
  "All tests of the six files, and each helper for every value of the constants it fixes (C80_B to C80_R, C80_every_instruction). C80_encoding_complete and C80_encoding_blind say what imm_encoding determines."
 ],
 "C81": [
  "proved",
  "The functions of a cycle once more with a record of their calls (Model/Calls); C81_calls gives the record of any run and that the result is that of the model without record, C81_load the sizes, the others the counts. What prepare_custom_multi_thread does with its threads is the library's."
 ],
 "C82": [
  "proved",
  "Model/Segments describes lld, which is not in the repository; it was compared with lld 22.1.4 on 3000 random guests, 40 of them and one whole file checked in Lean (Lemmas/LinkVectors, ex5_lld)."
 ],
 "C83": [
  "proved",
  "Nothing is said about what a host would print: neither VM handles the call."
 ],
 "C84": [
  "proved",
  "Model/Select describes lld, which is not in the repository; it was compared with lld 22.1.4 on 3000 random inputs, 54 of them checked in Lean (Lemmas/SelectVectors). Merging of equal constants is not modelled."
 ],
 "C85": [
  "proved",
  "Model/Symbols describes lld and what quote makes of the item, neither of which is in the repository; symbols were compared with lld 22.1.4 on 1500 random inputs, 50 of them checked in Lean (Lemmas/SymbolVectors). Weak symbols, archives and objects that define symbols of the script are not modelled; the mangling of names is a parameter."
 ],
 "C86": [
  "partial",
  "False as stated; C86_ids_partial gives exactly the rows that differ, C86_fails and C86_bne what the documented ids do. C86_every_id is complete: the circuit of the next pc on all ids."
 ],
 "C87": [
  "proved",
  "All contents of the program memories. An id without operation (29 to 31) gives 0, as the library contract says of blind selection with a missing key (DESIGN 2, C49_missing)."
 ],
 "C88": [
  "proved",
  "The machine code is assembled by hand from the sources; what rustc produces is not modelled (DESIGN 6)."
 ],
 "C89": [
  "proved",
  "main and the eight bytes of _start_rust are assembled by hand; what rustc produces is not modelled (DESIGN 6)."
 ],
 "C90": [
  "proved",
  "The bytes of the sections after relocation are given, except those of _start; C91 derives them from object files. What rustc produces is not modelled (DESIGN 6). main of the two guests is assembled by hand."
 ],
 "C91": [
  "proved",
  "Relocation as lld does it, without relaxation and types for thread-local or position-independent code; compared with lld 22.1.4 (Lemmas/ObjectVectors). What rustc produces is not modelled (DESIGN 6); main of the three guests is assembled by hand."
 ],
 "C92": [
  "proved",
  "main is assembled by hand; which load instructions rustc chooses is not modelled (DESIGN 6), so both choices are proved. Runs are over the instructions both VMs decode alike (no LB, no M, JAL below 512 KiB)."
 ],
 "C93": [
  "proved",
  "As in C92 main is assembled by hand, so 156 and 51 are the lengths of these two machine programs, not of what rustc emits."
 ],
 "C94": [
  "proved",
  "The guests are assembled by hand.  Whether rustc emits LB or M instructions for a given source and target is outside the model."
 ],
 "C95": [
  "proved",
  "The run of the mirror's machine over decodable instructions is a hypothesis; the parser takes every word of the program before the first cycle."
 ],
 "C96": [
  "proved",
  "Without the comparison, what happens after the program counter leaves the program is C98. Output section in the RAM, as in C70."
 ],
 "C97": [
  "proved",
  "RAM at 0x40000, as the linker script puts it, and tape sections within the RAM, as in C70; file below 2^63 bytes."
 ],
 "C98": [
  "proved",
  "If the number of ciphertexts is not a power of two, addresses beyond the last ciphertext remain open: what the library reads there is not specified. Output section in the RAM, as in C70."
 ],
 "C99": [
  "proved",
  "Runs inside the program; what both do beyond it is C97 and C98. The encrypted VM without the comparison with the mirror."
 ],
 "C100": [
  "proved",
  "Programs that end in a jump to itself, as `loop {}` is compiled. The encrypted VM without the comparison with the mirror."
 ],
 "C101": [
  "proved",
  "One step as an equivalence (states up to the program counter modulo the size of the program), runs with the first differing step, the instructions that never differ, equal outputs for all ELF files of 2^k words, and a program that counts its rounds on both VMs."
 ],
 "C102": [
  "proved",
  "All sequences of calls on the test VM of any ELF file as an equivalence with a machine; repeated execution on both VMs; the final loop makes every later tape ineffective, with a guest for all pairs of inputs."
 ],
 "C103": [
  "proved",
  "One relation between builds, closed under sequencing, for the test VM, decoder, encrypted VM, guests and hosts; the first step at which the checks stop a run; a guest that only a release build runs."
 ],
 "C104": [
  "proved",
  "Exact condition for both VMs to access the same byte, the test VM for RAM anywhere, both VMs for RAM at any multiple of 4096; witness that it is necessary."
 ],
 "C105": [
  "proved",
  "repr(C) itself is a contract of the language, stated in Model/ReprC; that rustc keeps to it is trusted."
 ],
 "C106": [
  "proved",
  "Invariant of the pushes (what every byte of the RAM holds after j of them), for both VMs through C99; panics of the debug build through C97."
 ],
 "C107": [
  "proved",
  "Abstract interpretation of the program text, proved sound for one step and by induction for runs; the agreement comes from C99 and C97. The table is computed by an unverified function and only checked."
 ],
 "C108": [
  "proved",
  "Induction on the bound of the node with the soundness of a step of C107; from the final loop on the state stays, and C99 gives the outputs. The graph is computed by an unverified function and only checked."
 ]
}