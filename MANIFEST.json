{
 "claims": [
  {
   "property": "C01",
   "status": "proved",
   "theorems": [
    "Verif.Props.C01_imm_I",
    "Verif.Props.C01_imm_shift",
    "Verif.Props.C01_imm_S",
    "Verif.Props.C01_imm_B",
    "Verif.Props.C01_imm_J",
    "Verif.Props.C01_imm_U",
    "Verif.Props.C01_imm_R",
    "Verif.Props.C01_imm_legal"
   ],
   "note": "Immediate extraction for every word of each format."
  },
  {
   "property": "C02",
   "status": "proved",
   "theorems": [
    "Verif.Props.C02_roundtrip_I",
    "Verif.Props.C02_roundtrip_shift",
    "Verif.Props.C02_roundtrip_S",
    "Verif.Props.C02_roundtrip_B",
    "Verif.Props.C02_roundtrip_J",
    "Verif.Props.C02_roundtrip_U",
    "Verif.Props.C02_reject"
   ],
   "note": "Round trip exactly on representable immediates."
  },
  {
   "property": "C03",
   "status": "proved",
   "theorems": [
    "Verif.Props.C03_setters",
    "Verif.Props.C03_getters",
    "Verif.Props.C03_imm_setters",
    "Verif.Props.C03_disjoint_fields",
    "Verif.Props.C03_release_total",
    "Verif.Props.C03_debug_formats"
   ],
   "note": "Field independence of the setters; C03_debug_formats says which accessors a debug build allows."
  },
  {
   "property": "C04",
   "status": "proved",
   "theorems": [
    "Verif.Props.C04_lossless",
    "Verif.Props.C04_append_stable",
    "Verif.Props.C04_legal_program"
   ],
   "note": "Parser storage, any sequence of additions."
  },
  {
   "property": "C05",
   "status": "proved",
   "theorems": [
    "Verif.Props.C05_components_determine",
    "Verif.Props.C05_opid_legal",
    "Verif.Props.C05_registers_legal"
   ],
   "note": "All legal RV32IM words; the triple, operands and immediate determine the instruction."
  },
  {
   "property": "C06",
   "status": "partial",
   "theorems": [
    "Verif.Props.C06_slli_ignores_funct7",
    "Verif.Props.C06_jalr_ignores_funct3",
    "Verif.Props.C06_system_is_nop",
    "Verif.Props.C06_accept_exact",
    "Verif.Props.C06_components_defined",
    "Verif.Props.C06_parser_accepts",
    "Verif.Props.C06_strict_fails",
    "Verif.Props.C06_reject_illegal_partial"
   ],
   "note": "Exact accepted set is proved (C06_accept_exact); the strict claim that every word outside RV32IM is rejected is false and its negation is proved (C06_strict_fails: SLLI funct7, JALR funct3 and SYSTEM words are accepted)."
  },
  {
   "property": "C07",
   "status": "proved",
   "theorems": [
    "Verif.Props.C07_testvm_legal",
    "Verif.Props.C07_decoders_agree"
   ],
   "note": "Both decoders agree with the manual on all legal RV32IM words."
  },
  {
   "property": "C08",
   "status": "proved",
   "theorems": [
    "Verif.Props.C08_rd_id_injective",
    "Verif.Props.C08_ram_id_injective",
    "Verif.Props.C08_pc_id_injective",
    "Verif.Props.C08_id_widths",
    "Verif.Props.C08_lists_complete"
   ],
   "note": "Ids distinct within a family and within the selector widths; RV32IM needs 6 bits."
  },
  {
   "property": "C09",
   "status": "proved",
   "theorems": [
    "Verif.Props.C09_sext"
   ],
   "note": "sext helper."
  },
  {
   "property": "C10",
   "status": "proved",
   "theorems": [
    "Verif.Props.C10_rd_value",
    "Verif.Props.C10_no_destination"
   ],
   "note": "All non-load RV32I instructions."
  },
  {
   "property": "C11",
   "status": "partial",
   "theorems": [
    "Verif.Props.C11_mul",
    "Verif.Props.C11_mulh",
    "Verif.Props.C11_mulhsu",
    "Verif.Props.C11_mulhu",
    "Verif.Props.C11_remu",
    "Verif.Props.C11_divu_partial",
    "Verif.Props.C11_div_partial",
    "Verif.Props.C11_rem_partial",
    "Verif.Props.C11_div_fails",
    "Verif.Props.C11_divu_fails",
    "Verif.Props.C11_rem_fails",
    "Verif.Props.C11_not_correct",
    "Verif.Props.C11_div_iff",
    "Verif.Props.C11_divu_iff",
    "Verif.Props.C11_rem_iff"
   ],
   "note": "MUL, MULH, MULHSU, MULHU, REMU proved in full. DIV, DIVU and REM deviate from the manual on a zero divisor; C11_div_iff, C11_divu_iff, C11_rem_iff give the exact inputs on which they agree."
  },
  {
   "property": "C12",
   "status": "partial",
   "theorems": [
    "Verif.Props.C12_loads_partial",
    "Verif.Props.C12_offset_fails",
    "Verif.Props.C12_exact"
   ],
   "note": "Loads ignore the two low address bits: proved for byte offset 0; for other offsets C12_exact says when the result is right nevertheless, and C12_offset_fails that in general it is not."
  },
  {
   "property": "C13",
   "status": "proved",
   "theorems": [
    "Verif.Props.C13_next_pc"
   ],
   "note": "Next pc of every instruction."
  },
  {
   "property": "C14",
   "status": "proved",
   "theorems": [
    "Verif.Props.C14_store_bytes",
    "Verif.Props.C14_nonstore",
    "Verif.Props.C14_misaligned_sh"
   ],
   "note": "Stores at naturally aligned addresses; a misaligned SH writes zero (C14_misaligned_sh)."
  },
  {
   "property": "C15",
   "status": "proved",
   "theorems": [
    "Verif.Props.C15_lui",
    "Verif.Props.C15_lui_isa"
   ],
   "note": "All inputs and all stale buffer contents; evaluator contract in Model/Bdd."
  },
  {
   "property": "C16",
   "status": "proved",
   "theorems": [
    "Verif.Props.C16_auipc",
    "Verif.Props.C16_auipc_isa"
   ],
   "note": "All inputs and all stale buffer contents."
  },
  {
   "property": "C17",
   "status": "proved",
   "theorems": [
    "Verif.Props.C17_link"
   ],
   "note": "All inputs and all stale buffer contents."
  },
  {
   "property": "C18",
   "status": "proved",
   "theorems": [
    "Verif.Props.C18_ram_offset",
    "Verif.Props.C18_order",
    "Verif.Props.C18_in_ram"
   ],
   "note": "All inputs, either operand order, all stale buffer contents."
  },
  {
   "property": "C19",
   "status": "proved",
   "theorems": [
    "Verif.Props.C19_next_pc",
    "Verif.Props.C19_next_pc_20bit",
    "Verif.Props.C19_wide_jump_fails"
   ],
   "note": "All nine operations, all inputs; the circuit sign-extends the immediate from bit 19, so J-type jumps beyond 512 KiB go elsewhere (C19_wide_jump_fails)."
  },
  {
   "property": "C20",
   "status": "proved",
   "theorems": [
    "Verif.Props.C20_defined",
    "Verif.Props.C20_shape"
   ],
   "note": "All 160 generated circuits."
  },
  {
   "property": "C21",
   "status": "proved",
   "theorems": [
    "Verif.Props.C21_round_trip",
    "Verif.Props.C21_excess_dropped"
   ],
   "note": "Encrypt then decrypt, for any library meeting the Fhe contract (Model/Library), all sizes, ring degrees and thread counts; excess words are dropped (C21_excess_dropped)."
  },
  {
   "property": "C22",
   "status": "proved",
   "theorems": [
    "Verif.Props.C22_read"
   ],
   "note": "Stateless read, for any library meeting the Fhe contract (Model/Library), all sizes, ring degrees and thread counts."
  },
  {
   "property": "C23",
   "status": "proved",
   "theorems": [
    "Verif.Props.C23_write",
    "Verif.Props.C23_history"
   ],
   "note": "Single write and arbitrary histories of calls against a word-list specification, for any library meeting the Fhe contract (Model/Library), all sizes, ring degrees and thread counts."
  },
  {
   "property": "C24",
   "status": "proved",
   "theorems": [
    "Verif.Props.C24_two_phase",
    "Verif.Props.C24_write_back"
   ],
   "note": "Two-phase access equals a write and returns the old word, for any library meeting the Fhe contract (Model/Library), all sizes, ring degrees and thread counts."
  },
  {
   "property": "C25",
   "status": "proved",
   "theorems": [
    "Verif.Props.C25_protocol"
   ],
   "note": "Exact set of accepted call sequences, arbitrary ciphertexts; zero and decrypt do not check the pending flag."
  },
  {
   "property": "C26",
   "status": "partial",
   "theorems": [
    "Verif.Props.C26_zero_partial",
    "Verif.Props.C26_word_zero",
    "Verif.Props.C26_correct_iff",
    "Verif.Props.C26_wrong_word"
   ],
   "note": "zero(addr) clears word poly*n + poly%n (poly = addr/n): right for address 0, the only one used by the VM (C26_word_zero), wrong in general (C26_wrong_word: zero(1) clears word 0); C26_correct_iff gives the exact set."
  },
  {
   "property": "C27",
   "status": "proved",
   "theorems": [
    "Verif.Props.C27_prepare",
    "Verif.Props.C27_prepare_values",
    "Verif.Props.C27_cycle",
    "Verif.Props.C27_partition",
    "Verif.Props.C27_interleaving",
    "Verif.Props.C27_memory"
   ],
   "note": "Every partition and interleaving of the bits; memory operations, preparation and whole interpreter cycles give the same ciphertexts for every thread count."
  },
  {
   "property": "C28",
   "status": "proved",
   "theorems": [
    "Verif.Props.C28_mirror",
    "Verif.Props.C28_other_sizes_fail",
    "Verif.Props.C28_wraps"
   ],
   "note": "All four kinds of access at an arbitrary encrypted address, and the mirror's index, for any library meeting the Fhe contract (Model/Library); other RAM sizes differ (C28_other_sizes_fail)."
  },
  {
   "property": "C29",
   "status": "partial",
   "theorems": [
    "Verif.Props.C29_observe",
    "Verif.Props.C29_start",
    "Verif.Props.C29_start_mirror",
    "Verif.Props.C29_exact",
    "Verif.Props.C29_total",
    "Verif.Props.C29_decoded",
    "Verif.Props.C29_not_m",
    "Verif.Props.C29_mirror_partial",
    "Verif.Props.C29_lb_fails",
    "Verif.Props.C29_supported_ordinary"
   ],
   "note": "Exact plaintext meaning of one encrypted cycle proved (for any library meeting the Fhe contract (Model/Library), all states: C29_exact with Spec/Cycle) and total on power-of-two memories. Equality with the mirror holds outside signed loads of negative bytes and jumps over 512 KiB; C29_lb_fails proves the full claim false."
  },
  {
   "property": "C30",
   "status": "partial",
   "theorems": [
    "Verif.Props.C30_exact",
    "Verif.Props.C30_total",
    "Verif.Props.C30_mirror_partial",
    "Verif.Props.C30_counter_wraps"
   ],
   "note": "Exact meaning of n < 2^32 cycles from set-up on and absence of panics proved; equality with the mirror under the conditions of C29. The cycle counter wraps at 2^32 (C30_counter_wraps)."
  },
  {
   "property": "C31",
   "status": "proved",
   "theorems": [
    "Verif.Props.C31_encrypted",
    "Verif.Props.C31_mirror",
    "Verif.Props.C31_testvm"
   ],
   "note": "Encrypted VM, mirror and test VM."
  },
  {
   "property": "C32",
   "status": "proved",
   "theorems": [
    "Verif.Props.C32_program",
    "Verif.Props.C32_refetch",
    "Verif.Props.C32_mirror"
   ],
   "note": "Program memories unchanged, refetching gives the same ciphertexts; mirror likewise."
  },
  {
   "property": "C33",
   "status": "proved",
   "theorems": [
    "Verif.Props.C33_sequence",
    "Verif.Props.C33_fixed_expression",
    "Verif.Props.C33_intermediate",
    "Verif.Props.C33_oblivious"
   ],
   "note": "For every lawful library (retrieval keeps the number of ciphertexts, circuits of the repository evaluate) the ciphertexts after n cycles are one fixed expression, depending only on the public shape of the machine, of the ciphertexts it was started with. C33_sequence (Props/Calls) is the same for the sequence of calls, thread by thread."
  },
  {
   "property": "C34",
   "status": "proved",
   "theorems": [
    "Verif.Props.C34_compose",
    "Verif.Props.C34_counter",
    "Verif.Props.C34_testvm",
    "Verif.Props.C34_testvm_execute"
   ],
   "note": "All three VMs; the counter of the encrypted VM is modulo 2^32."
  },
  {
   "property": "C35",
   "status": "partial",
   "theorems": [
    "Verif.Props.C35_exact",
    "Verif.Props.C35_runs_exact",
    "Verif.Props.C35_encrypted_exact",
    "Verif.Props.C35_encrypted_runs_exact",
    "Verif.Props.C35_library_exact",
    "Verif.Props.C35_step_partial",
    "Verif.Props.C35_encrypted_partial",
    "Verif.Props.C35_runs_partial",
    "Verif.Props.C35_encrypted_runs_partial",
    "Verif.Props.C35_fails"
   ],
   "note": "Exact effect of a cycle on every RV32I instruction in every state, for the mirror (C35_exact), the encrypted cycle (C35_encrypted_exact) and the encrypted VM under any correct library (C35_library_exact), any number of cycles, against the instruction set of Spec/Interpreter, which is the manual's with the deviations written out. Agreement with the manual itself: loads at multiples of four, naturally aligned stores, accesses inside the RAM (encrypted: also signed byte loads below 128 and jump distances below 2^19 bytes). The unrestricted claim is false: C35_fails (byte load at an odd address)."
  },
  {
   "property": "C36",
   "status": "proved",
   "theorems": [
    "Verif.Props.C36_step",
    "Verif.Props.C36_shows",
    "Verif.Props.C36_illegal",
    "Verif.Props.C36_runs",
    "Verif.Props.C36_complete"
   ],
   "note": "All RV32IM instructions, exact panic set, frame; any number of steps (C36_runs, C36_complete). Against the manual an access has to lie in the RAM; C68_testvm gives the exact effect of all others."
  },
  {
   "property": "C37",
   "status": "proved",
   "theorems": [
    "Verif.Props.C37_read_half",
    "Verif.Props.C37_read_half_odd",
    "Verif.Props.C37_read_word",
    "Verif.Props.C37_read_word_misaligned",
    "Verif.Props.C37_write_half",
    "Verif.Props.C37_write_word",
    "Verif.Props.C37_write_byte",
    "Verif.Props.C37_total",
    "Verif.Props.C37_below",
    "Verif.Props.C37_word_roundtrip",
    "Verif.Props.C37_half_roundtrip",
    "Verif.Props.C37_small_memory"
   ],
   "note": "Any memory with the byte positions in range; odd half-word and misaligned word reads panic, accesses below the base panic with overflow checks."
  },
  {
   "property": "C38",
   "status": "proved",
   "theorems": [
    "Verif.Props.C38_mirror",
    "Verif.Props.C38_cycles",
    "Verif.Props.C38_encrypted",
    "Verif.Props.C38_unsupported_differ"
   ],
   "note": "Mirror, exact meaning of the encrypted cycles, and encrypted VM under any correct library; any number of cycles. Supported: RV32I inside the program, loads at multiples of four, naturally aligned stores, a RAM at 0x40000 (encrypted VM: with a power-of-two number of words), accesses anywhere; for the encrypted VM also signed byte loads below 128 and JAL distances below 2^19 bytes. C38_unsupported_differ: outside of that the VMs disagree."
  },
  {
   "property": "C39",
   "status": "partial",
   "theorems": [
    "Verif.Props.C39_rom",
    "Verif.Props.C39_ram_partial",
    "Verif.Props.C39_zero",
    "Verif.Props.C39_base",
    "Verif.Props.C39_tapes",
    "Verif.Props.C39_reject",
    "Verif.Props.C39_fails"
   ],
   "note": "ROM, RAM base, zero fill, tapes and rejection proved. Segments with an uninitialised part are silently skipped: C39_fails; proved for all other segments."
  },
  {
   "property": "C40",
   "status": "proved",
   "theorems": [
    "Verif.Props.C40_pack",
    "Verif.Props.C40_unpack",
    "Verif.Props.C40_inverse",
    "Verif.Props.C40_inverse'",
    "Verif.Props.C40_remainder"
   ],
   "note": "Inverse in both directions, with the byte order."
  },
  {
   "property": "C41",
   "status": "proved",
   "theorems": [
    "Verif.Props.C41_encrypted_input",
    "Verif.Props.C41_encrypted_output",
    "Verif.Props.C41_test_input",
    "Verif.Props.C41_test_output",
    "Verif.Props.C41_test_output_total"
   ],
   "note": "Input and output of both VMs; for the encrypted VM under any correct library."
  },
  {
   "property": "C42",
   "status": "proved",
   "theorems": [
    "Verif.Props.C42_output",
    "Verif.Props.C42_setup"
   ],
   "note": "Composition of the loader, both VMs and the tapes, with and without the debug comparison, under any correct library; supported behaviours as in C38, RAM based at 0x40000. C42_setup: set-up does not panic. A complete run is evaluated."
  },
  {
   "property": "C43",
   "status": "proved",
   "theorems": [
    "Verif.Props.C43_aligned",
    "Verif.Props.C43_history"
   ],
   "note": "Every block is aligned as requested, per call and over histories of allocations and deallocations, for power-of-two alignments (which Layout guarantees)."
  },
  {
   "property": "C44",
   "status": "proved",
   "theorems": [
    "Verif.Props.C44_disjoint"
   ],
   "note": "Over any history the blocks lie above _end and are pairwise disjoint."
  },
  {
   "property": "C45",
   "status": "proved",
   "theorems": [
    "Verif.Props.C45_exact",
    "Verif.Props.C45_gap",
    "Verif.Props.C45_history",
    "Verif.Props.C45_later_stack"
   ],
   "note": "Exact behaviour of a call (least aligned address, succeeds iff block plus gap fit below sp, else panic with the position unchanged); C45_later_stack shows what the check does not give: the stack can later grow into an allocated block."
  },
  {
   "property": "C46",
   "status": "partial",
   "theorems": [
    "Verif.Props.C46_trade_partial",
    "Verif.Props.C46_product_decreases",
    "Verif.Props.C46_drain",
    "Verif.Props.C46_wrapping",
    "Verif.Props.C46_mints",
    "Verif.Props.C46_tape"
   ],
   "note": "Conservation of both totals and the exact rounding are proved when product and totals fit in 32 bits. The claim that the product never decreases is false (C46_product_decreases, on the host program's own sample input): division rounds in favour of the trader; C46_drain and C46_mints are further consequences."
  },
  {
   "property": "C47",
   "status": "proved",
   "theorems": [
    "Verif.Props.C47_bounded",
    "Verif.Props.C47_match",
    "Verif.Props.C47_padding"
   ],
   "note": "Output is 1 exactly for the hidden string followed by zeros; padding is injective on strings without zero bytes."
  },
  {
   "property": "C48",
   "status": "proved",
   "theorems": [
    "Verif.Props.C48_decode",
    "Verif.Props.C48_cycle",
    "Verif.Props.C48_mirror"
   ],
   "note": "All words with opcode 1110011, encrypted cycle (through C29_exact) and mirror."
  },
  {
   "property": "C49",
   "status": "proved",
   "theorems": [
    "Verif.Props.C49_prepare",
    "Verif.Props.C49_missing"
   ],
   "note": "Preparation succeeds and yields keys for exactly the requested elements, each made for its element; with a replaced map it fails exactly if an element is missing. trace_galois_elements and the key encryption itself belong to the library and are parameters."
  },
  {
   "property": "C50",
   "status": "proved",
   "theorems": [
    "Verif.Props.C50_least_width",
    "Verif.Props.C50_every_index",
    "Verif.Props.C50_tight"
   ],
   "note": "Least width, every index representable, tightness."
  },
  {
   "property": "C51",
   "status": "proved",
   "theorems": [
    "Verif.Props.C51_padding_halts"
   ],
   "note": "Through C29_exact / C30_exact."
  },
  {
   "property": "C52",
   "status": "proved",
   "theorems": [
    "Verif.Props.C52_debug_passes",
    "Verif.Props.C52_debug_lb_panics"
   ],
   "note": "On supported cycles; on a signed load of a negative byte cycle_debug panics (C52_debug_lb_panics)."
  },
  {
   "property": "C53",
   "status": "proved",
   "theorems": [
    "Verif.Props.C53_accept_exact",
    "Verif.Props.C53_reserved_accepted"
   ],
   "note": "Exact accepted set; reserved words that are accepted are exhibited (C53_reserved_accepted)."
  },
  {
   "property": "C54",
   "status": "proved",
   "theorems": [
    "Verif.Props.C54_template",
    "Verif.Props.C54_template_checked",
    "Verif.Props.C54_template_sample",
    "Verif.Props.C54_test1",
    "Verif.Props.C54_test1_checked"
   ],
   "note": "Closed forms modulo 2^32 from input tape to output tape; checked builds agree when they do not panic; the sample point of the template host overflows a checked build."
  },
  {
   "property": "C55",
   "status": "proved",
   "theorems": [
    "Verif.Props.C55_parameters",
    "Verif.Props.C55_keyswitch",
    "Verif.Props.C55_ranks"
   ],
   "note": "Finite check of the constants, with the ranks of the keys."
  },
  {
   "property": "C56",
   "status": "proved",
   "theorems": [
    "Verif.Props.C56_isa",
    "Verif.Props.C56_testvm",
    "Verif.Props.C56_encrypted"
   ],
   "note": "Proved on the manual's machine (C56_isa), the test VM (C56_testvm) and the encrypted VM under any correct library (C56_encrypted). The words are those of the unrelaxed assembly; linker relaxation of `la` is not modelled."
  },
  {
   "property": "C57",
   "status": "proved",
   "theorems": [
    "Verif.Props.C57_testvm",
    "Verif.Props.C57_encrypted",
    "Verif.Props.C57_output"
   ],
   "note": "C57_testvm, C57_encrypted for one loop; C57_output for the output tape of whole guests with any number of extra cycles."
  },
  {
   "property": "C58",
   "status": "partial",
   "theorems": [
    "Verif.Props.C58_testvm_partial",
    "Verif.Props.C58_encrypted",
    "Verif.Props.C58_restarts",
    "Verif.Props.C58_testvm_witness"
   ],
   "note": "False of the encrypted VM: C58_encrypted shows `unimp` is a no-operation there, C58_restarts gives a guest re-entered for ever. C58_testvm_partial: the test VM does stop, with a panic."
  },
  {
   "property": "C59",
   "status": "proved",
   "theorems": [
    "Verif.Props.C59_bid_mid_ask",
    "Verif.Props.C59_host_is_guest",
    "Verif.Props.C59_tape",
    "Verif.Props.C59_output_exists",
    "Verif.Props.C59_bad_client"
   ],
   "note": ""
  },
  {
   "property": "C60",
   "status": "proved",
   "theorems": [
    "Verif.Props.C60_clients",
    "Verif.Props.C60_volatility",
    "Verif.Props.C60_retail_size",
    "Verif.Props.C60_discount"
   ],
   "note": "The claim that larger trades never get better quotes is refuted for institutional and prime clients (C60_discount) and proved for retail clients."
  },
  {
   "property": "C61",
   "status": "proved",
   "theorems": [
    "Verif.Props.C61_accuracy"
   ],
   "note": ""
  },
  {
   "property": "C62",
   "status": "partial",
   "theorems": [
    "Verif.Props.C62_zero",
    "Verif.Props.C62_stateless",
    "Verif.Props.C62_stateful_partial",
    "Verif.Props.C62_write_partial",
    "Verif.Props.C62_execute",
    "Verif.Props.C62_prepare",
    "Verif.Props.C62_fixed",
    "Verif.Props.C62_stateful_false"
   ],
   "note": "False of stateful reads and writes of a memory that fits in one ciphertext (C62_stateful_false gives sizes). C62_stateful_partial and C62_write_partial give the exact condition; C62_zero and C62_stateless prove the claim for the other operations."
  },
  {
   "property": "C63",
   "status": "proved",
   "theorems": [
    "Verif.Props.C63_budget",
    "Verif.Props.C63_enough",
    "Verif.Props.C63_shorter",
    "Verif.Props.C63_refreshed",
    "Verif.Props.C63_tight",
    "Verif.Props.C63_output"
   ],
   "note": ""
  },
  {
   "property": "C64",
   "status": "proved",
   "theorems": [
    "Verif.Props.C64_text",
    "Verif.Props.C64_ram",
    "Verif.Props.C64_first",
    "Verif.Props.C64_symbols",
    "Verif.Props.C64_heap",
    "Verif.Props.C64_boot",
    "Verif.Props.C64_loads",
    "Verif.Props.C64_output",
    "Verif.Props.C64_data_lost",
    "Verif.Props.C64_data_loaded"
   ],
   "note": "The linker itself is modelled from its manual (placement of input sections in the regions of the script) and compared with a real lld (Lemmas/LinkVectors); garbage collection is not modelled. C64_data_lost is the consequence of the gap C39_fails for a linker that puts .data and .bss in one segment; lld does not (C82)."
  },
  {
   "property": "C65",
   "status": "proved",
   "theorems": [
    "Verif.Props.C65_local",
    "Verif.Props.C65_inputs",
    "Verif.Props.C65_depends",
    "Verif.Props.C65_pc",
    "Verif.Props.C65_ram",
    "Verif.Props.C65_registers",
    "Verif.Props.C65_real",
    "Verif.Props.C65_real_encrypted",
    "Verif.Props.C65_missing"
   ],
   "note": "The graph of doc/costs.md lacks three arrows (C65_missing); the theorem is about the graph with them."
  },
  {
   "property": "C66",
   "status": "proved",
   "theorems": [
    "Verif.Props.C66_template",
    "Verif.Props.C66_setter",
    "Verif.Props.C66_chain",
    "Verif.Props.C66_build",
    "Verif.Props.C66_complete",
    "Verif.Props.C66_test_passes",
    "Verif.Props.C66_cycle_test",
    "Verif.Props.C66_noise_test"
   ],
   "note": ""
  },
  {
   "property": "C67",
   "status": "partial",
   "theorems": [
    "Verif.Props.C67_set_up",
    "Verif.Props.C67_ciphertexts",
    "Verif.Props.C67_fresh_partial",
    "Verif.Props.C67_same_key",
    "Verif.Props.C67_shared_start",
    "Verif.Props.C67_anyone_decrypts",
    "Verif.Props.C67_comparable",
    "Verif.Props.C67_comparable_program"
   ],
   "note": "False as hoped for: freshness holds within one set-up (C67_fresh_partial) but all set-ups share the secret key and the randomness (C67_same_key, C67_anyone_decrypts, C67_comparable). C67_set_up reduces the code's set-up to the one of the other theorems."
  },
  {
   "property": "C68",
   "status": "proved",
   "theorems": [
    "Verif.Props.C68_testvm",
    "Verif.Props.C68_testvm_runs",
    "Verif.Props.C68_same",
    "Verif.Props.C68_below_differ"
   ],
   "note": "C68_testvm and C68_testvm_runs are exact for all instructions and states; C68_same equates the test VM with the mirror on supported instructions; C68_below_differ shows that the one remaining condition is needed. Used by C38 and thus by C42, C57, C63 and C64."
  },
  {
   "property": "C69",
   "status": "proved",
   "theorems": [
    "Verif.Props.C69_sqrt_nearest",
    "Verif.Props.C69_value",
    "Verif.Props.C69_volatility",
    "Verif.Props.C69_sample"
   ],
   "note": "C69_sqrt_nearest holds for every positive finite argument; special values and 256 sampled roots of a floating-point unit are checked beside it. C69_sample is an equivalence over output tapes."
  },
  {
   "property": "C70",
   "status": "proved",
   "theorems": [
    "Verif.Props.C70_encrypted",
    "Verif.Props.C70_debug",
    "Verif.Props.C70_testvm",
    "Verif.Props.C70_bytes",
    "Verif.Props.C70_words",
    "Verif.Props.C70_false_match"
   ],
   "note": "C70_encrypted, C70_debug and C70_testvm are end-to-end theorems without the restriction to supported accesses. The machine code of the two guests is written by hand, since the sandbox has no compiler; which of the two forms a compiler emits is not modelled."
  },
  {
   "property": "C71",
   "status": "proved",
   "theorems": [
    "Verif.Props.C71_cycle",
    "Verif.Props.C71_any",
    "Verif.Props.C71_log",
    "Verif.Props.C71_average",
    "Verif.Props.C71_average_nested",
    "Verif.Props.C71_costs"
   ],
   "note": "C71_cycle and C71_any together characterise the possible measurements exactly. The noise fields of a measurement, set only by cycle_debug, are left out."
  },
  {
   "property": "C72",
   "status": "proved",
   "theorems": [
    "Verif.Props.C72_memory",
    "Verif.Props.C72_memory_crate",
    "Verif.Props.C72_ram_offset",
    "Verif.Props.C72_pc_cases",
    "Verif.Props.C72_pc_update",
    "Verif.Props.C72_pc_coverage",
    "Verif.Props.C72_many",
    "Verif.Props.C72_many_crate",
    "Verif.Props.C72_one",
    "Verif.Props.C72_one_crate",
    "Verif.Props.C72_one_op",
    "Verif.Props.C72_cycle",
    "Verif.Props.C72_cycle_crate"
   ],
   "note": "Each test of fhevm/src/tests other than cycle.rs (C66) is a definition with its draws and sizes as parameters; the theorems are equivalences. The noise assertions of the memory test are left out (noise is C63)."
  },
  {
   "property": "C73",
   "status": "proved",
   "theorems": [
    "Verif.Props.C73_accepts",
    "Verif.Props.C73_segments",
    "Verif.Props.C73_section",
    "Verif.Props.C73_fields",
    "Verif.Props.C73_written",
    "Verif.Props.C73_guest",
    "Verif.Props.C73_output",
    "Verif.Props.C73_truncated"
   ],
   "note": "What the elf crate (0.8.0, not in the repository) does with the bytes is taken from the ELF standard and its documented interface; that is an assumption (DESIGN section 8). C73_guest and C73_output use a file with one segment per section; C64 leaves the grouping open and C64_data_lost says what other groupings lose. Sums beyond 64 bits in ELF64 files are not described (C73_fields: they cannot occur in ELF32 files)."
  },
  {
   "property": "C74",
   "status": "proved",
   "theorems": [
    "Verif.Props.C74_parse",
    "Verif.Props.C74_yes",
    "Verif.Props.C74_settings",
    "Verif.Props.C74_no_threads",
    "Verif.Props.C74_equal",
    "Verif.Props.C74_passes",
    "Verif.Props.C74_zero_cycles",
    "Verif.Props.C74_match",
    "Verif.Props.C74_template_checked",
    "Verif.Props.C74_template",
    "Verif.Props.C74_swap_want",
    "Verif.Props.C74_uniswap",
    "Verif.Props.C74_match_idle",
    "Verif.Props.C74_match_words",
    "Verif.Props.C74_match_blind",
    "Verif.Props.C74_idle"
   ],
   "note": "The formulas the hosts compare with are those of C46, C47 and C54. What std does with parse::<usize> and eq_ignore_ascii_case is written out in Model/Host from the documented behaviour of Rust (DESIGN section 8). Printing and timing by the hosts are left out. The guests run by the hosts are arbitrary machine programs; the translation of the guest sources by rustc is not modelled."
  },
  {
   "property": "C75",
   "status": "proved",
   "theorems": [
    "Verif.Props.C75_idle",
    "Verif.Props.C75_bench",
    "Verif.Props.C75_no_threads",
    "Verif.Props.C75_representative",
    "Verif.Props.C75_debug",
    "Verif.Props.C75_sizes"
   ],
   "note": "What the benchmarking library does with the closure is left out: it calls it some number of times. C75_representative is C33 for the benchmark."
  },
  {
   "property": "C76",
   "status": "proved",
   "theorems": [
    "Verif.Props.C76_assembled",
    "Verif.Props.C76_reduction",
    "Verif.Props.C76_same",
    "Verif.Props.C76_bound",
    "Verif.Props.C76_perfect",
    "Verif.Props.C76_keys",
    "Verif.Props.C76_code"
   ],
   "note": "The observer's evaluation keys are part of the test (C76_keys: a test for each key), so key-dependent security of the evaluation keys is in the hypothesis on one ciphertext. Whether a lattice encryption meets that hypothesis is not modelled. C76_code: the code's constant seeds do not meet it."
  },
  {
   "property": "C77",
   "status": "proved",
   "theorems": [
    "Verif.Props.C77_reads",
    "Verif.Props.C77_get",
    "Verif.Props.C77_length",
    "Verif.Props.C77_cases",
    "Verif.Props.C77_misses"
   ],
   "note": "Tokens, not characters: blanks put in by to_string and rustfmt are left out. Of get_test_cases the tokens are fixed and the meaning is transcribed. The crate calls build without its argument and does not compile as it stands; the model starts after that call."
  },
  {
   "property": "C78",
   "status": "proved",
   "theorems": [
    "Verif.Props.C78_flags",
    "Verif.Props.C78_build",
    "Verif.Props.C78_missing",
    "Verif.Props.C78_apart"
   ],
   "note": "Cargo is a parameter with its documented promise as hypothesis. That success implies a fresh file is part of this promise."
  },
  {
   "property": "C79",
   "status": "partial",
   "theorems": [
    "Verif.Props.C79_exact",
    "Verif.Props.C79_sound",
    "Verif.Props.C79_full_partial",
    "Verif.Props.C79_gap",
    "Verif.Props.C79_small",
    "Verif.Props.C79_fresh",
    "Verif.Props.C79_false",
    "Verif.Props.C79_stale"
   ],
   "note": "False as stated: in a polynomial that is not full, the report compares with stale contents of its buffer (C79_gap, C79_false, C79_stale). C79_exact says what is measured in all cases; C79_full_partial is the claim for full polynomials."
  },
  {
   "property": "C80",
   "status": "proved",
   "theorems": [
    "Verif.Props.C80_check",
    "Verif.Props.C80_B",
    "Verif.Props.C80_S",
    "Verif.Props.C80_load",
    "Verif.Props.C80_jalr",
    "Verif.Props.C80_opImm",
    "Verif.Props.C80_shift",
    "Verif.Props.C80_J",
    "Verif.Props.C80_U",
    "Verif.Props.C80_R",
    "Verif.Props.C80_every_instruction",
    "Verif.Props.C80_tests_pass",
    "Verif.Props.C80_encoding_complete",
    "Verif.Props.C80_encoding_blind"
   ],
   "note": "All tests of the six files, and each helper for every value of the constants it fixes (C80_B to C80_R, C80_every_instruction). C80_encoding_complete and C80_encoding_blind say what imm_encoding determines."
  },
  {
   "property": "C81",
   "status": "proved",
   "theorems": [
    "Verif.Props.C81_load",
    "Verif.Props.C81_calls",
    "Verif.Props.C81_bootstraps",
    "Verif.Props.C81_circuits",
    "Verif.Props.C81_rounds",
    "Verif.Props.C81_threads"
   ],
   "note": "The functions of a cycle once more with a record of their calls (Model/Calls); C81_calls gives the record of any run and that the result is that of the model without record, C81_load the sizes, the others the counts. What prepare_custom_multi_thread does with its threads is the library's."
  },
  {
   "property": "C82",
   "status": "proved",
   "theorems": [
    "Verif.Props.C82_segments",
    "Verif.Props.C82_linked",
    "Verif.Props.C82_loads",
    "Verif.Props.C82_tapes_needed",
    "Verif.Props.C82_output"
   ],
   "note": "Model/Segments describes lld, which is not in the repository; it was compared with lld 22.1.4 on 3000 random guests, 40 of them and one whole file checked in Lean (Lemmas/LinkVectors, ex5_lld)."
  },
  {
   "property": "C83",
   "status": "proved",
   "theorems": [
    "Verif.Props.C83_encrypted",
    "Verif.Props.C83_testvm",
    "Verif.Props.C83_stops",
    "Verif.Props.C83_output",
    "Verif.Props.C83_differ"
   ],
   "note": "Nothing is said about what a host would print: neither VM handles the call."
  },
  {
   "property": "C84",
   "status": "proved",
   "theorems": [
    "Verif.Props.C84_names",
    "Verif.Props.C84_live",
    "Verif.Props.C84_kept",
    "Verif.Props.C84_refused",
    "Verif.Props.C84_placed",
    "Verif.Props.C84_complete",
    "Verif.Props.C84_tapes",
    "Verif.Props.C84_two_inputs",
    "Verif.Props.C84_start",
    "Verif.Props.C84_collected",
    "Verif.Props.C84_orphan"
   ],
   "note": "Model/Select describes lld, which is not in the repository; it was compared with lld 22.1.4 on 3000 random inputs, 54 of them checked in Lean (Lemmas/SelectVectors). Merging of equal constants is not modelled."
  },
  {
   "property": "C85",
   "status": "proved",
   "theorems": [
    "Verif.Props.C85_resolved",
    "Verif.Props.C85_reached",
    "Verif.Props.C85_refused",
    "Verif.Props.C85_main",
    "Verif.Props.C85_no_main",
    "Verif.Props.C85_twice",
    "Verif.Props.C85_once",
    "Verif.Props.C85_program",
    "Verif.Props.C85_entry",
    "Verif.Props.C85_marked",
    "Verif.Props.C85_no_runtime"
   ],
   "note": "Model/Symbols describes lld and what quote makes of the item, neither of which is in the repository; symbols were compared with lld 22.1.4 on 1500 random inputs, 50 of them checked in Lean (Lemmas/SymbolVectors). Weak symbols, archives and objects that define symbols of the script are not modelled; the mangling of names is a parameter."
  },
  {
   "property": "C86",
   "status": "partial",
   "theorems": [
    "Verif.Props.C86_every_id",
    "Verif.Props.C86_own",
    "Verif.Props.C86_ids_partial",
    "Verif.Props.C86_fails",
    "Verif.Props.C86_bne"
   ],
   "note": "False as stated; C86_ids_partial gives exactly the rows that differ, C86_fails and C86_bne what the documented ids do. C86_every_id is complete: the circuit of the next pc on all ids."
  },
  {
   "property": "C87",
   "status": "proved",
   "theorems": [
    "Verif.Props.C87_any",
    "Verif.Props.C87_total",
    "Verif.Props.C87_own",
    "Verif.Props.C87_mul",
    "Verif.Props.C87_wrong",
    "Verif.Props.C87_mirror",
    "Verif.Props.C87_debug",
    "Verif.Props.C87_replaced",
    "Verif.Props.C87_output",
    "Verif.Props.C87_differ",
    "Verif.Props.C87_differ_debug"
   ],
   "note": "All contents of the program memories. An id without operation (29 to 31) gives 0, as the library contract says of blind selection with a missing key (DESIGN 2, C49_missing)."
  },
  {
   "property": "C88",
   "status": "proved",
   "theorems": [
    "Verif.Props.C88_amm",
    "Verif.Props.C88_words",
    "Verif.Props.C88_both",
    "Verif.Props.C88_template_host",
    "Verif.Props.C88_uniswap_host",
    "Verif.Props.C88_generated",
    "Verif.Props.C88_poly",
    "Verif.Props.C88_test1"
   ],
   "note": "The machine code is assembled by hand from the sources; what rustc produces is not modelled (DESIGN 6)."
  },
  {
   "property": "C89",
   "status": "proved",
   "theorems": [
    "Verif.Props.C89_both",
    "Verif.Props.C89_lld",
    "Verif.Props.C89_bytes",
    "Verif.Props.C89_host",
    "Verif.Props.C89_file"
   ],
   "note": "main and the eight bytes of _start_rust are assembled by hand; what rustc produces is not modelled (DESIGN 6)."
  },
  {
   "property": "C90",
   "status": "proved",
   "theorems": [
    "Verif.Props.C90_loaded",
    "Verif.Props.C90_output",
    "Verif.Props.C90_bytes",
    "Verif.Props.C90_contents",
    "Verif.Props.C90_fetch",
    "Verif.Props.C90_poly",
    "Verif.Props.C90_template_host",
    "Verif.Props.C90_test1",
    "Verif.Props.C90_generated"
   ],
   "note": "The bytes of the sections after relocation are given, except those of _start; C91 derives them from object files. What rustc produces is not modelled (DESIGN 6). main of the two guests is assembled by hand."
  },
  {
   "property": "C91",
   "status": "proved",
   "theorems": [
    "Verif.Props.C91_start",
    "Verif.Props.C91_output",
    "Verif.Props.C91_bytes",
    "Verif.Props.C91_poly_linked",
    "Verif.Props.C91_poly",
    "Verif.Props.C91_sums_linked",
    "Verif.Props.C91_test1",
    "Verif.Props.C91_amm_linked",
    "Verif.Props.C91_amm_host",
    "Verif.Props.C91_branch_exact",
    "Verif.Props.C91_jal_exact",
    "Verif.Props.C91_rest",
    "Verif.Props.C91_word",
    "Verif.Props.C91_branch",
    "Verif.Props.C91_jal",
    "Verif.Props.C91_call",
    "Verif.Props.C91_goes",
    "Verif.Props.C91_loads",
    "Verif.Props.C91_absolute",
    "Verif.Props.C91_relative",
    "Verif.Props.C91_possible",
    "Verif.Props.C91_symbols",
    "Verif.Props.C91_linked",
    "Verif.Props.C91_refused",
    "Verif.Props.C91_sizes",
    "Verif.Props.C91_contents"
   ],
   "note": "Relocation as lld does it, without relaxation and types for thread-local or position-independent code; compared with lld 22.1.4 (Lemmas/ObjectVectors). What rustc produces is not modelled (DESIGN 6); main of the three guests is assembled by hand."
  },
  {
   "property": "C92",
   "status": "proved",
   "theorems": [
    "Verif.Props.C92_output",
    "Verif.Props.C92_bytes",
    "Verif.Props.C92_match_linked",
    "Verif.Props.C92_match_bytes",
    "Verif.Props.C92_match_words",
    "Verif.Props.C92_match_host"
   ],
   "note": "main is assembled by hand; which load instructions rustc chooses is not modelled (DESIGN 6), so both choices are proved. Runs are over the instructions both VMs decode alike (no LB, no M, JAL below 512 KiB)."
  },
  {
   "property": "C93",
   "status": "proved",
   "theorems": [
    "Verif.Props.C93_prefix",
    "Verif.Props.C93_early",
    "Verif.Props.C93_match_bytes",
    "Verif.Props.C93_match_words",
    "Verif.Props.C93_match_host"
   ],
   "note": "As in C92 main is assembled by hand, so 156 and 51 are the lengths of these two machine programs, not of what rustc emits."
  },
  {
   "property": "C94",
   "status": "proved",
   "theorems": [
    "Verif.Props.C94_library",
    "Verif.Props.C94_encrypted",
    "Verif.Props.C94_output",
    "Verif.Props.C94_sign",
    "Verif.Props.C94_selfOp"
   ],
   "note": "The guests are assembled by hand.  Whether rustc emits LB or M instructions for a given source and target is outside the model."
  },
  {
   "property": "C95",
   "status": "proved",
   "theorems": [
    "Verif.Props.C95_output",
    "Verif.Props.C95_cycle",
    "Verif.Props.C95_encrypted",
    "Verif.Props.C95_sign",
    "Verif.Props.C95_selfOp"
   ],
   "note": "The run of the mirror's machine over decodable instructions is a hypothesis; the parser takes every word of the program before the first cycle."
  },
  {
   "property": "C96",
   "status": "proved",
   "theorems": [
    "Verif.Props.C96_compared",
    "Verif.Props.C96_odd_compared",
    "Verif.Props.C96_accepted",
    "Verif.Props.C96_unique",
    "Verif.Props.C96_fetch",
    "Verif.Props.C96_library",
    "Verif.Props.C96_encrypted",
    "Verif.Props.C96_total",
    "Verif.Props.C96_odd"
   ],
   "note": "Without the comparison, what happens after the program counter leaves the program is C98. Output section in the RAM, as in C70."
  },
  {
   "property": "C97",
   "status": "proved",
   "theorems": [
    "Verif.Props.C97_accepted",
    "Verif.Props.C97_unique",
    "Verif.Props.C97_alike",
    "Verif.Props.C97_fetch",
    "Verif.Props.C97_step",
    "Verif.Props.C97_steps",
    "Verif.Props.C97_testvm",
    "Verif.Props.C97_window",
    "Verif.Props.C97_runs",
    "Verif.Props.C97_odd",
    "Verif.Props.C97_count"
   ],
   "note": "RAM at 0x40000, as the linker script puts it, and tape sections within the RAM, as in C70; file below 2^63 bytes."
  },
  {
   "property": "C98",
   "status": "proved",
   "theorems": [
    "Verif.Props.C98_fetch",
    "Verif.Props.C98_encrypted",
    "Verif.Props.C98_single",
    "Verif.Props.C98_stays",
    "Verif.Props.C98_left",
    "Verif.Props.C98_count"
   ],
   "note": "If the number of ciphertexts is not a power of two, addresses beyond the last ciphertext remain open: what the library reads there is not specified. Output section in the RAM, as in C70."
  },
  {
   "property": "C99",
   "status": "proved",
   "theorems": [
    "Verif.Props.C99_step",
    "Verif.Props.C99_first",
    "Verif.Props.C99_runs",
    "Verif.Props.C99_always",
    "Verif.Props.C99_static",
    "Verif.Props.C99_output",
    "Verif.Props.C99_count"
   ],
   "note": "Runs inside the program; what both do beyond it is C97 and C98. The encrypted VM without the comparison with the mirror."
  },
  {
   "property": "C100",
   "status": "proved",
   "theorems": [
    "Verif.Props.C100_settled",
    "Verif.Props.C100_countdown",
    "Verif.Props.C100_none"
   ],
   "note": "Programs that end in a jump to itself, as `loop {}` is compiled. The encrypted VM without the comparison with the mirror."
  },
  {
   "property": "C101",
   "status": "proved",
   "theorems": [
    "Verif.Props.C101_step",
    "Verif.Props.C101_fetch",
    "Verif.Props.C101_first",
    "Verif.Props.C101_runs",
    "Verif.Props.C101_always",
    "Verif.Props.C101_output",
    "Verif.Props.C101_static",
    "Verif.Props.C101_count"
   ],
   "note": "One step as an equivalence (states up to the program counter modulo the size of the program), runs with the first differing step, the instructions that never differ, equal outputs for all ELF files of 2^k words, and a program that counts its rounds on both VMs."
  },
  {
   "property": "C102",
   "status": "proved",
   "theorems": [
    "Verif.Props.C102_tape",
    "Verif.Props.C102_session",
    "Verif.Props.C102_again",
    "Verif.Props.C102_encrypted",
    "Verif.Props.C102_stale",
    "Verif.Props.C102_countdown"
   ],
   "note": "All sequences of calls on the test VM of any ELF file as an equivalence with a machine; repeated execution on both VMs; the final loop makes every later tape ineffective, with a guest for all pairs of inputs."
  },
  {
   "property": "C103",
   "status": "proved",
   "theorems": [
    "Verif.Props.C103_testvm",
    "Verif.Props.C103_first",
    "Verif.Props.C103_parser",
    "Verif.Props.C103_encrypted",
    "Verif.Props.C103_builder",
    "Verif.Props.C103_guests",
    "Verif.Props.C103_both",
    "Verif.Props.C103_hosts",
    "Verif.Props.C103_below"
   ],
   "note": "One relation between builds, closed under sequencing, for the test VM, decoder, encrypted VM, guests and hosts; the first step at which the checks stop a run; a guest that only a release build runs."
  },
  {
   "property": "C104",
   "status": "proved",
   "theorems": [
    "Verif.Props.C104_byte",
    "Verif.Props.C104_step",
    "Verif.Props.C104_testvm",
    "Verif.Props.C104_output",
    "Verif.Props.C104_page",
    "Verif.Props.C104_skew"
   ],
   "note": "Exact condition for both VMs to access the same byte, the test VM for RAM anywhere, both VMs for RAM at any multiple of 4096; witness that it is necessary."
  },
  {
   "property": "C105",
   "status": "proved",
   "theorems": [
    "Verif.Props.C105_layout",
    "Verif.Props.C105_same",
    "Verif.Props.C105_roundtrip",
    "Verif.Props.C105_guests",
    "Verif.Props.C105_written",
    "Verif.Props.C105_read",
    "Verif.Props.C105_output",
    "Verif.Props.C105_usize"
   ],
   "note": "repr(C) itself is a contract of the language, stated in Model/ReprC; that rustc keeps to it is trusted."
  },
  {
   "property": "C106",
   "status": "proved",
   "theorems": [
    "Verif.Props.C106_deep"
   ],
   "note": "Invariant of the pushes (what every byte of the RAM holds after j of them), for both VMs through C99; panics of the debug build through C97."
  },
  {
   "property": "C107",
   "status": "proved",
   "theorems": [
    "Verif.Props.C107_complete",
    "Verif.Props.C107_agree",
    "Verif.Props.C107_assembled",
    "Verif.Props.C107_linked"
   ],
   "note": "Abstract interpretation of the program text, proved sound for one step and by induction for runs; the agreement comes from C99 and C97. The table is computed by an unverified function and only checked."
  },
  {
   "property": "C108",
   "status": "proved",
   "theorems": [
    "Verif.Props.C108_enough",
    "Verif.Props.C108_assembled",
    "Verif.Props.C108_none",
    "Verif.Props.C108_linked"
   ],
   "note": "Induction on the bound of the node with the soundness of a step of C107; from the final loop on the state stays, and C99 gives the outputs. The graph is computed by an unverified function and only checked."
  }
 ]
}