{"claims": [
{"property": "C01", "status": "proved", "theorems": ["Funge.C01_stack_refines_deque", "Funge.C01_lifo", "Funge.C01_fifo", "Funge.C01_pop_empty"], "note": ""},
{"property": "C02", "status": "proved", "theorems": ["Funge.C02_get_predicts_pop", "Funge.C02_get_out_of_range", "Funge.C02_peek_predicts_pop", "Funge.C02_size_counts_pops", "Funge.C02_age_counts"], "note": ""},
{"property": "C03", "status": "proved", "theorems": ["Funge.C03_instruction", "Funge.C03_no_bad_access", "Funge.C03_false_for_FISH"], "note": "C03_instruction: every standard instruction, from any state. C03_no_bad_access: every run of every program from a fresh IP of a 93/98 standard, with fingerprint loading switched off so that only standard instructions (and tame fingerprints configured at start) execute. FISH is not standard and breaks it (C03_false_for_FISH)."},
{"property": "C04", "status": "proved", "theorems": ["Funge.Vec.C04_eq_iff_coords", "Funge.Vec.C04_hash_respects_eq", "Funge.Vec.C04_lt_spec", "Funge.Vec.C04_lt_irrefl", "Funge.Vec.C04_lt_trans", "Funge.Vec.C04_lt_trichotomy", "Funge.Vec.C04_le_iff"], "note": ""},
{"property": "C05", "status": "proved", "theorems": ["Funge.Vec.C05_add_coord", "Funge.Vec.C05_sub_coord", "Funge.Vec.C05_set_coord", "Funge.Vec.C05_reverse_coord", "Funge.Vec.C05_left_coord", "Funge.Vec.C05_right_coord", "Funge.Vec.C05_turn_inverse", "Funge.Vec.C05_reverse_involutive", "Funge.Vec.C05_left_left", "Funge.Vec.C05_add_sub_cancel"], "note": ""},
{"property": "C06", "status": "partial", "theorems": ["Funge.C06_printed", "Funge.C06_reads_back_partial", "Funge.C06_undefined_at_min", "Funge.C06_terminates_partial", "Funge.C06_terminates_unopened", "Funge.C06_false_reader_diverges", "Funge.C06_undefined_unclosed"], "note": "round trip proved but for coordinates -2^63 (overflow); the reader is proved to terminate if there is a closing parenthesis and shown to diverge on \"(0\""},
{"property": "C07", "status": "proved", "theorems": ["Funge.VecRange.C07_range_enumerates_box", "Funge.VecRange.C07_range_in_order"], "note": ""},
{"property": "C08", "status": "proved", "theorems": ["Funge.Field.C08_last_write_wins", "Funge.Field.C08_other_points_unchanged", "Funge.Field.C08_unwritten_is_blank"], "note": "For 8-byte cells; what one-byte cells read back is C09 (the other theorems are for both)."},
{"property": "C09", "status": "proved", "theorems": ["Funge.Field.C09_char_cells", "Funge.Field.C09_byte_unchanged", "Funge.Field.C09_all_cells_bytes"], "note": ""},
{"property": "C10", "status": "partial", "theorems": ["Funge.Field.C10_nonzero_axes_in_bounds_partial", "Funge.Field.C10_in_box_without_erasure_partial", "Funge.Field.C10_false_with_erasure"], "note": "False in general: C10_false_with_erasure is a witness (blanking a border cell can shrink an axis past cells whose coordinate there is 0). Proved: without erasures the box contains every non-blank cell; with erasures it still does on every axis where the coordinate is non-zero."},
{"property": "C11", "status": "proved", "theorems": ["Funge.Field.C11_text_layout"], "note": ""},
{"property": "C12", "status": "proved", "theorems": ["Funge.Field.C12_line_endings_bytes", "Funge.Field.C12_line_endings"], "note": ""},
{"property": "C13", "status": "proved", "theorems": ["Funge.Field.C13_planes_and_volumes", "Funge.Field.C13_every_text", "Funge.Field.C13_newline_after_formfeed", "Funge.Field.C13_formfeed_ignored_2d", "Funge.Field.C13_dimensions_minimal"], "note": "Every text is covered (C13_every_text): a line break directly after FF or VT is ignored by design (C13_newline_after_formfeed), so it does not count as a line of the plane. A blank program is detected as 0 dimensions and a non-blank one as at least 1."},
{"property": "C14", "status": "partial", "theorems": ["Funge.Field.C14_dump_then_load_partial", "Funge.Field.C14_false_in_1d"], "note": "Proved for every w x h area in a universe of two or more dimensions. False in one dimension: C14_false_in_1d (dump stops after the first cell)."},
{"property": "C15", "status": "proved", "theorems": ["Funge.IP.C15_advance", "Funge.IP.C15_always_terminates", "Funge.IP.C15_stopped_stays", "Funge.IP.C15_outside_drifts"], "note": "Full statement, plus termination from every position (in bounds or not) and the drift of an out-of-bounds IP."},
{"property": "C16", "status": "proved", "theorems": ["Funge.IP.C16_reversible", "Funge.IP.C16_injective", "Funge.IP.C16_periodic"], "note": "Reversibility, injectivity and periodicity, with the period bounded by the extent of the bounds."},
{"property": "C17", "status": "partial", "theorems": ["Funge.IP.C17_false_at_edge", "Funge.IP.C17_torus_bounds_partial", "Funge.IP.C17_torus_step_partial"], "note": "The property is false for the code (C17_false_at_edge: x = 80 is reached, the period is 81). Proved: the bounds 0..80 and 0..25 after every step, and what a unit step does."},
{"property": "C18", "status": "proved", "theorems": ["Funge.C18_jump_over", "Funge.C18_first_semicolon"], "note": "; moves to the next ; within one lap; first_semicolon for any topology"},
{"property": "C19", "status": "partial", "theorems": ["Funge.C19_jump_partial", "Funge.C19_there_and_back", "Funge.C19_false_beyond_int", "Funge.C19_undefined_at_min", "Funge.C19_jump_any_mode_partial"], "note": "Proved in all modes of the stack for counts that fit an int other than -2^31 (C19_jump_any_mode_partial). Missing: j narrows its count to int, so larger counts jump elsewhere (C19_false_beyond_int), and -2^31 is undefined (C19_undefined_at_min)."},
{"property": "C20", "status": "proved", "theorems": ["Funge.C20_string_any_mode", "Funge.C20_string"], "note": "Tick level, each prefix and the whole text, in all modes of the stack (C20_string_any_mode: inverted, the characters go below the others)."},
{"property": "C21", "status": "proved", "theorems": ["Funge.C21_sgml_string_any_mode", "Funge.C21_sgml_string", "Funge.C21_undefined_for_non_ascii"], "note": "Texts of bytes 0..255, in all modes of the stack; C21_undefined_for_non_ascii: other cells reach isspace."},
{"property": "C22", "status": "proved", "theorems": ["Funge.C22_c_string_any_mode", "Funge.C22_c_string"], "note": "In all modes of the stack (C22_c_string_any_mode)."},
{"property": "C23", "status": "partial", "theorems": ["Funge.C23_binary_partial", "Funge.C23_overflow", "Funge.C23_false_for_remainder", "Funge.C23_not", "Funge.C23_binary_any_mode_partial", "Funge.C23_not_any_mode"], "note": "False for %: -2^63 % -1 has the representable result 0 but is undefined behaviour (C23_false_for_remainder). Everything else proved; results that do not fit 64 bits are shown to be exactly the undefined ones (C23_overflow). C23_binary_any_mode_partial and C23_not_any_mode are for all modes of the stack."},
{"property": "C24", "status": "proved", "theorems": ["Funge.C24_put_any_mode", "Funge.C24_get_any_mode", "Funge.C24_put_then_get_any_mode", "Funge.C24_put", "Funge.C24_get", "Funge.C24_put_then_get"], "note": "In all modes of the stack (C24_put_any_mode, C24_get_any_mode, C24_put_then_get_any_mode); the simpler forms are for the normal (LIFO) mode."},
{"property": "C25", "status": "partial", "theorems": ["Funge.C25_begin", "Funge.C25_begin_nonpositive_partial", "Funge.C25_end", "Funge.C25_end_nonpositive_partial", "Funge.C25_end_alone", "Funge.C25_round_trip_partial", "Funge.C25_undefined_at_min", "Funge.C25_begin_any_mode", "Funge.C25_end_any_mode", "Funge.C25_begin_nonpositive_any_mode_partial", "Funge.C25_end_nonpositive_any_mode_partial", "Funge.C25_round_trip_same_end_partial", "Funge.C25_false_in_queue_mode"], "note": "Proved for all stacks, dimensions and counts other than -2^63, which is undefined (C25_undefined_at_min): what { and } do, in all modes (the _any_mode theorems); the round trip in normal mode and with queue and invert together (C25_round_trip_same_end_partial). In queue mode the round trip fails (C25_false_in_queue_mode)."},
{"property": "C26", "status": "partial", "theorems": ["Funge.C26_under", "Funge.C26_under_negative_partial", "Funge.C26_undefined_at_min", "Funge.C26_under_alone", "Funge.C26_conserves", "Funge.C26_round_trip", "Funge.C26_under_any_mode", "Funge.C26_under_negative_any_mode_partial", "Funge.C26_conserves_any_mode", "Funge.C26_round_trip_same_end_partial", "Funge.C26_false_in_queue_mode"], "note": "Proved for all stacks in all modes (the _any_mode theorems) and counts other than -2^63, which is undefined (C26_undefined_at_min). The round trip is proved when both stacks give at the end at which they take (normal mode, or queue and invert together), and fails in queue mode (C26_false_in_queue_mode)."},
{"property": "C27", "status": "partial", "theorems": ["Funge.C27_sysinfo_partial", "Funge.C27_sysinfo_all", "Funge.C27_false_beyond_int"], "note": "Proved for every n that fits an int (and n \u2264 0 in C27_sysinfo_all), all stacks in normal mode, arguments and environments. C27_false_beyond_int: y converts the count to int, so n = 2^32 pushes the whole list."},
{"property": "C28", "status": "partial", "theorems": ["Funge.C28_target_exists", "Funge.C28_iterate_partial", "Funge.C28_negative", "Funge.C28_zero_partial", "Funge.C28_false_zero_gap", "Funge.C28_false_for_wide_cells"], "note": "n>0 and n<0 in full for cells holding characters; n=0 skips only when the instruction is in the adjacent cell (C28_false_zero_gap), cells beyond char are truncated (C28_false_for_wide_cells)"},
{"property": "C29", "status": "partial", "theorems": ["Funge.C29_twin_partial", "Funge.C29_one_stack", "Funge.C29_independent", "Funge.C29_false_for_two_stacks"], "note": "False for IPs with more than one stack: the twin's stacks come in reversed order (C29_false_for_two_stacks). Proved: identity, parent, position, delta, storage offset, each stack's contents, and independence of the two IPs' stacks over every run; the order for IPs with one stack."},
{"property": "C30", "status": "partial", "theorems": ["Funge.C30_round_partial", "Funge.C30_between_partial", "Funge.C30_false_on_blank_path"], "note": "Proved: a round gives every live IP one turn in creation order, and the order of survivors never changes, and between two turns of an IP every other live IP takes one. A turn is one call of tick; an IP on a path with nothing to execute never ends its turn (C30_false_on_blank_path)."},
{"property": "C31", "status": "partial", "theorems": ["Funge.C31_stop", "Funge.C31_stop_for_good", "Funge.C31_quit_partial", "Funge.C31_not_running", "Funge.C31_running", "Funge.C31_false_under_k", "Funge.C31_false_beyond_int"], "note": "False under k (C31_false_under_k: q repeated overwrites) and for exit codes beyond int (C31_false_beyond_int: narrowed). Proved: @ ends one IP for good and nothing else changes, q ends all IPs of the universe, and when a universe stops running."},
{"property": "C32", "status": "partial", "theorems": ["Funge.C32_no_execute", "Funge.C32_permissions_kept", "Funge.C32_no_filesystem_partial", "Funge.C32_no_concurrent", "Funge.C32_no_filesystem_boxed", "Funge.C32_no_filesystem_from_start", "Funge.C32_false_for_DIRF"], "note": "-fno-execute and -fno-concurrent and permanence of permissions proved for every run. -fno-filesystem is false: DIRF ignores it (C32_false_for_DIRF); proved for runs where DIRF cannot be loaded, including from the start of any program without it."},
{"property": "C33", "status": "partial", "theorems": ["Funge.C33_others_keep", "Funge.C33_load", "Funge.C33_nested_partial", "Funge.C33_false_for_DBUG"], "note": "False for DBUG (C33_false_for_DBUG: loading binds nothing but unloading removes meanings). Proved for all other fingerprints and any properly nested execution; also: no instruction but ( ) and FING changes any meaning."},
{"property": "C34", "status": "partial", "theorems": ["Funge.C34_never_loaded_partial", "Funge.C34_reflects", "Funge.C34_false_after_unload"], "note": "False for a fingerprint unloaded earlier (C34_false_after_unload). Proved for fingerprints this IP never loaded."},
{"property": "C35", "status": "partial", "theorems": ["Funge.C35_unknown_reflects_partial", "Funge.C35_unassigned", "Funge.C35_reachable", "Funge.C35_false_under_k"], "note": "Proved for a cell executed by a tick. False under k, which ignores the result (C35_false_under_k)."},
{"property": "C36", "status": "partial", "theorems": ["Funge.C36_string_same_end_partial", "Funge.C36_vector_same_end_partial", "Funge.C36_false_queue_mode", "Funge.C36_string_partial", "Funge.C36_vector_partial"], "note": "Proved for stacks that push and pop at the same end (the normal mode, and MODE's I and Q together); characters are char values. With pushing and popping at different ends (I or Q alone) nothing comes back (C36_false_queue_mode)."},
{"property": "C37", "status": "partial", "theorems": ["Funge.C37_twice", "Funge.C37_applies_to_all", "Funge.C37_obeys_partial", "Funge.C37_false_for_new_stacks"], "note": "False for stacks created while a mode is on (C37_false_for_new_stacks). Proved: toggling twice restores everything, a toggle reaches every stack of every IP, and in every run each stack is in the mode of the universe or in normal mode."},
{"property": "C38", "status": "proved", "theorems": ["Funge.C38_distinct", "Funge.C38_never_reused", "Funge.C38_kept"], "note": "Invariant over every run of every program."},
{"property": "C39", "status": "partial", "theorems": ["Funge.C39_fresh", "Funge.C39_terminates_partial", "Funge.C39_false_when_taken", "Funge.C39_false_third_of_a_name"], "note": "Proved: a created universe has a fresh name and disturbs no other; creation ends if the name or the name with .1 is free. False otherwise: the search never ends, for every third universe of a name."},
{"property": "C40", "status": "proved", "theorems": ["Funge.Sync.C40_no_lost_wakeup", "Funge.Sync.C40_removes_the_served", "Funge.Sync.C40_mutex", "Funge.Sync.C40_scheduler_gets_nearer", "Funge.Sync.C40_others_do_not_hinder", "Funge.Sync.C40_never_stuck", "Funge.Sync.C40_eventually_served"], "note": "Invariant over all interleavings (both threading modes): the scheduler is asleep with something queued only while the adder that is about to signal holds the mutex. In every fair run with interpreted threads every queued IP is served in the end (ranking). The semaphore, mutex and condition variable are taken as correct; unsynchronised reads of running are atomic."},
{"property": "C41", "status": "partial", "theorems": ["Funge.Sync.C41_no_lost_notification", "Funge.Sync.C41_returns_only_then", "Funge.Sync.C41_wait_returns_partial", "Funge.Sync.C41_false_for_native"], "note": "Proved with interpreted threads: in every fair run, once all IPs have stopped and none is added, every thread in wait returns; no notification is lost in any interleaving; wait returns only when the universe is not running (both modes). With native threads the property is false: nothing notifies when threads end (C41_false_for_native)."},
{"property": "C42", "status": "partial", "theorems": ["Funge.C42_append_only", "Funge.C42_char_out_any_mode", "Funge.C42_num_out_any_mode_partial", "Funge.C42_char_out", "Funge.C42_num_out_partial", "Funge.C42_false_beyond_int"], "note": "False for . with values beyond int (C42_false_beyond_int): the value is narrowed to 32 bits. Proved, in all modes of the stack, for all values that fit int, and for , with every value; append-only proved for every run of every program (C42_append_only)."},
{"property": "C43", "status": "partial", "theorems": ["Funge.C43_backtrace_partial", "Funge.C43_false_while_off", "Funge.C43_false_after_setpos"], "note": "Proved for every sequence of events and commands, of the positions announced while the debugger is on. False where the debugger was off for a while (a gap) and after setpos (the position before it is recorded)."},
{"property": "C44", "status": "partial", "theorems": ["Funge.C44_added", "Funge.C44_stops_exactly", "Funge.C44_runs_on_partial", "Funge.C44_run", "Funge.C44_step", "Funge.C44_false_for_native", "Funge.C44_hangs_at_end_of_input"], "note": "Proved at the level of the events the debugger is told: stops exactly at breakpoints or when not told to run; an IP told to run goes on through any events that do not concern it; adding twice is adding once. The code has no way to remove a breakpoint. False with native threads (another IP's error stops this one)."},
{"property": "C45", "status": "partial", "theorems": ["Funge.C45_error_is_fatal", "Funge.C45_starved_program_dies_partial", "Funge.C45_program_partial", "Funge.C45_undefined_for_shift_and_return"], "note": "every instruction of ><>/*><> that takes more values than there are (all instructions, all stacks, from any reachable state) and every unknown instruction kills the whole program with exit code 1, for ever; missing: R with no stack below, and { } on an empty stack, which are undefined behaviour (C45_undefined_for_shift_and_return)"},
{"property": "C46", "status": "partial", "theorems": ["Funge.C46_store_partial", "Funge.C46_false_value_is_lost", "Funge.C46_false_for_a_program"], "note": "C46_store_partial: the first & stores the top value. The property itself is false: the second & empties the register and pushes nothing (C46_false_value_is_lost, C46_false_for_a_program)"},
{"property": "C47", "status": "proved", "theorems": ["Funge.C47_create", "Funge.C47_too_many", "Funge.C47_undefined_negative", "Funge.C47_remove", "Funge.C47_restores"], "note": "x[ moves the top x values (in opposite order) and ] moves everything back; together they restore stack and registers. More than there are kill the fish and move nothing (C47_too_many); a negative x is undefined (C47_undefined_negative)."},
{"property": "C48", "status": "partial", "theorems": ["Funge.C48_call_partial", "Funge.C48_false_data_is_lost", "Funge.C48_false_for_a_program"], "note": "C48_call_partial: C jumps and saves its position. The property is false: R returns to the caller but removes the data stack (C48_false_data_is_lost, C48_false_for_a_program)"},
{"property": "C49", "status": "proved", "theorems": ["Funge.C49_skipped", "Funge.C49_unknown_ignored", "Funge.C49_tick", "Funge.C49_until_rise", "Funge.C49_dive_and_rise"], "note": "while dived every non-movement instruction is skipped with no effect at all, unknown ones are ignored, and over any number of ticks until O nothing but the IP changes"},
{"property": "C50", "status": "proved", "theorems": ["Funge.C50_go", "Funge.C50_high_low_inverted", "Funge.C50_if", "Funge.C50_reflect", "Funge.C50_absolute", "Funge.C50_turn", "Funge.C50_compare", "Funge.C50_go_away", "Funge.C50_hover", "Funge.C50_go_any_mode", "Funge.C50_if_any_mode", "Funge.C50_absolute_any_mode", "Funge.C50_compare_any_mode"], "note": "Hover mode (MODE H) adds to the delta instead of replacing it; what > < v ^ h l _ | m x w do in all of MODE's modes of the stack and in hover mode is proved too (the _any_mode theorems). -finvert-hl swaps h and l."},
{"property": "C51", "status": "proved", "theorems": ["Funge.C51_pick", "Funge.C51_pick_negative", "Funge.C51_roll", "Funge.C51_roll_short", "Funge.C51_roll_back", "Funge.C51_roll_inverse", "Funge.C51_over_rot_depth"], "note": "P copies, L rolls (both signs), rolling by n then -n restores, deeper values untouched; zero fill on short stacks; O, R and D as well. What is left on the stack is said for stacks in their ordinary mode (MODE's I and Q off)."},
{"property": "C52", "status": "proved", "theorems": ["Funge.C52_forever", "Funge.C52_reference", "Funge.C52_dereference", "Funge.C52_always", "Funge.C52_reference_any_mode", "Funge.C52_dereference_any_mode", "Funge.C52_always_any_mode"], "note": "Invariant over every run for any number of IPs; freshness for any random source; all modes of the stacks at R and D (C52_always_any_mode)."},
{"property": "C53", "status": "partial", "theorems": ["Funge.C53_call", "Funge.C53_return", "Funge.C53_call_return_partial", "Funge.C53_false_when_hovering", "Funge.C53_undefined_for_negative", "Funge.C53_jump", "Funge.C53_addressing", "Funge.C53_false_for_jump"], "note": "call and return proved for all counts, addresses, stacks; J and the two ways of addressing as the code does them; in hover mode R adds to the delta (C53_false_when_hovering); negative counts undefined; J lands one cell past its target"},
{"property": "C54", "status": "proved", "theorems": ["Funge.C54_length", "Funge.C54_left", "Funge.C54_right", "Funge.C54_middle", "Funge.C54_bad_parts", "Funge.C54_append", "Funge.C54_find", "Funge.C54_put", "Funge.C54_get", "Funge.C54_put_get", "Funge.C54_false_beyond_char", "Funge.C54_number"], "note": "all strings of non-NUL chars, all vectors and storage offsets; also F, S, V; values beyond char are truncated (C54_false_beyond_char is outside the quantifier). What is left on the stack is said for stacks in their ordinary mode (MODE's I and Q off)."},
{"property": "C55", "status": "partial", "theorems": ["Funge.C55_print", "Funge.C55_print_fixed", "Funge.C55_reads_back", "Funge.C55_distinct_partial", "Funge.C55_false_in_base_85", "Funge.C55_unary", "Funge.C55_unary_reads_back", "Funge.C55_false_for_unary_zero", "Funge.C55_undefined_for_negative", "Funge.C55_reads_too_much"], "note": "round trip proved for bases 2 to 32 (and 1, but for zero), distinctness for every base but 85, where it is false; negative numbers undefined"},
{"property": "C56", "status": "partial", "theorems": ["Funge.C56_copy_low_partial", "Funge.C56_copy_high_partial", "Funge.C56_move_low_partial", "Funge.C56_move_high_partial", "Funge.C56_fill", "Funge.C56_store", "Funge.C56_fetch", "Funge.C56_column", "Funge.C56_row", "Funge.C56_false_for_overlap", "Funge.C56_false_onto_itself", "Funge.C56_false_for_empty", "Funge.C56_false_in_3d"], "note": "copies and moves proved for areas that are apart or overlap in the direction the instruction is made for; smearing otherwise, moves onto the area itself and sizes ending in 0 shown to fail; J and O proved in two dimensions, shown wrong in three"},
{"property": "C57", "status": "partial", "theorems": ["Funge.C57_put", "Funge.C57_get", "Funge.C57_look", "Funge.C57_own", "Funge.C57_nobody", "Funge.C57_ancestor_partial", "Funge.C57_undefined_for_root", "Funge.C57_undefined_after_death", "Funge.C57_sleep", "Funge.C57_sleep_on", "Funge.C57_wake", "Funge.C57_age", "Funge.C57_sleeping_turn"], "note": "Every letter of IIPC proved as specified for a family whose ids are distinct (put, get, look, own id, nobody, sleep, wake). A (ancestor) is proved when the parent is alive; the code dereferences a null parent for the root (C57_undefined_for_root) and a dead one otherwise (C57_undefined_after_death)."},
{"property": "C58", "status": "proved", "theorems": ["Funge.C58_swap", "Funge.C58_swap_twice", "Funge.C58_drop", "Funge.C58_copy", "Funge.C58_no_letter", "Funge.C58_swap_any_mode", "Funge.C58_drop_any_mode", "Funge.C58_copy_any_mode"], "note": "X, Y, Z for all letters and tables, also in all modes of the stack (the _any_mode theorems); X twice restores all meanings."},
{"property": "C59", "status": "partial", "theorems": ["Funge.C59_named_axes", "Funge.C59_axis_partial", "Funge.C59_false_for_new_axis", "Funge.C59_undefined_for_negative", "Funge.C59_false_for_a_program"], "note": "proved for the named axes and for X, Y, Z on existing axes; false for every new axis (X, Y, Z extend to n instead of n+1 dimensions), with a program whose turn never ends"},
{"property": "C60", "status": "partial", "theorems": ["Funge.C60_last_option_wins_partial", "Funge.C60_std", "Funge.C60_befunge93", "Funge.C60_funge98", "Funge.C60_by_name", "Funge.C60_false_for_bf", "Funge.C60_false_for_fish", "Funge.C60_undefined_without_value"], "note": "Proved for all sequences of documented options and all files: the last option that speaks of a setting wins, -std= gives the settings of its standard, files of Funge-98 get those of Funge-98. False for .bf files without -std= (Befunge-93 with the settings of Funge-98) and for -fstrings= with a .fish or .sf file; -std= and its like without a value are undefined."},
{"property": "C61", "status": "proved", "theorems": ["Funge.C61_nonletters", "Funge.C61_befunge98"], "note": "Invariant over every run, any strategies but *><>."},
{"property": "C62", "status": "partial", "theorems": ["Funge.C62_start", "Funge.C62_load", "Funge.C62_nested", "Funge.C62_twin_partial", "Funge.C62_false_after_FING"], "note": "False after FING (C62_false_after_FING): the twin's table is rebuilt from the list of loaded fingerprints. Proved for every IP whose table matches that list, which holds at the start and is kept by loading and by properly nested executions."},
{"property": "C63", "status": "partial", "theorems": ["Funge.C63_named_partial", "Funge.C63_beq", "Funge.C63_false_for_long_names"], "note": "Proved for ASCII names of up to four characters; a longer name is cut to its last four."},
{"property": "C64", "status": "partial", "theorems": ["Funge.C64_next_partial", "Funge.C64_end", "Funge.C64_text_partial", "Funge.C64_false_for_CR", "Funge.C64_next_any_mode_partial", "Funge.C64_text_any_mode_partial"], "note": "True of every byte but carriage return, for any length of input and all modes of the stack (the _any_mode theorems); a carriage return is dropped (C64_false_for_CR)."},
{"property": "C65", "status": "partial", "theorems": ["Funge.C65_number_partial", "Funge.C65_no_digit", "Funge.C65_false_for_negative", "Funge.C65_false_at_end", "Funge.C65_undefined_beyond_i64", "Funge.C65_number_any_mode_partial"], "note": "True, in all modes of the stack, of non-negative numbers of 63 bits that are followed by another character; the sign is ignored, a number at the very end of the input is lost, and longer numbers overflow (the negative theorems)."},
{"property": "C66", "status": "partial", "theorems": ["Funge.Beq.C66_layout_partial", "Funge.Beq.C66_character_partial", "Funge.Beq.C66_blank", "Funge.Beq.C66_false_above_127", "Funge.Beq.C66_false_short_block", "Funge.Beq.C66_ends"], "note": "True of all files whose blocks are complete, for any size, up to the sign of bytes above 127 (C66_false_above_127); incomplete blocks repeat their last line (C66_false_short_block). Termination for all files."},
{"property": "C67", "status": "partial", "theorems": ["Funge.Beq.C67_dimensions_partial", "Funge.Beq.C67_false_declaration_ignored", "Funge.Beq.C67_false_one_line"], "note": "The declaration has no effect (C67_false_declaration_ignored); the number of dimensions is right only when the text reaches the last declared dimension."},
{"property": "C68", "status": "partial", "theorems": ["Funge.Fmv.C68_creates_partial", "Funge.Fmv.C68_missing_program", "Funge.Fmv.C68_false_without_directory", "Funge.Fmv.C68_false_final_newline", "Funge.Fmv.C68_diverges_on_itself"], "note": "True for multiverse files given with a directory and without a final newline; otherwise false (negative theorems), and a file naming itself is loaded for ever."},
{"property": "C69", "status": "partial", "theorems": ["Funge.C69_zero", "Funge.C69_R_partial", "Funge.C69_M_partial", "Funge.C69_U_partial", "Funge.C69_false_M", "Funge.C69_false_M_small", "Funge.C69_undefined_R", "Funge.C69_undefined_M", "Funge.C69_undefined_U", "Funge.C69_false_U"], "note": "R is right but for the least value and -1, where it is undefined (C69_undefined_R); M is wrong when the signs differ and the dividend is smaller or a multiple, U is wrong for multiples (negative theorems), both overflow at the extremes; proved for the rest. That the library is found and bound is not modelled (its letters are called directly)."},
{"property": "C70", "status": "proved", "theorems": ["Funge.C70_P", "Funge.C70_P_none", "Funge.C70_numeral"], "note": "All numerals and P for every number. The library's letters are called directly; that it is found and bound is not modelled."},
{"property": "C71", "status": "partial", "theorems": ["Funge.C71_fixed", "Funge.C71_down", "Funge.C71_down_neg", "Funge.C71_up", "Funge.C71_up_neg", "Funge.C71_goto_partial", "Funge.C71_false_zero", "Funge.C71_false_goto"], "note": "Proved for C, H, L, S, for D and U of non-zero numbers and for G of coordinates that are not negative; D and U print a move by 0 (which terminals take for 1), and G prints characters that are no digits for negative coordinates (negative theorems)."},
{"property": "C72", "status": "proved", "theorems": ["Funge.C72_reflects", "Funge.C72_letters"], "note": "For all letters and states. The library's letters are called directly; that it is found and bound is not modelled."},
{"property": "C73", "status": "partial", "theorems": ["Funge.C73_bits", "Funge.C73_not", "Funge.C73_left_partial", "Funge.C73_right_partial", "Funge.C73_undefined_shift", "Funge.C73_bits_any_mode", "Funge.C73_not_any_mode", "Funge.C73_shift_any_mode_partial"], "note": "All bits of and/or/xor/not for all cells, and shifts by 0..63, in all modes of the stack. Shifts by other counts are undefined (C73_undefined_shift)."},
{"property": "C74", "status": "partial", "theorems": ["Funge.C74_arith_partial", "Funge.C74_undefined_product", "Funge.C74_overflow", "Funge.C74_print"], "note": "M is undefined for some products that fit (C74_undefined_product): the code violates the property."},
{"property": "C75", "status": "partial", "theorems": ["Funge.C75_put", "Funge.C75_get_partial", "Funge.C75_false_order"], "note": "G pushes the string in the wrong order (C75_false_order)."},
{"property": "C76", "status": "partial", "theorems": ["Funge.C76_put", "Funge.C76_get", "Funge.C76_put_get", "Funge.C76_delta_partial", "Funge.C76_false_when_hovering", "Funge.C76_position", "Funge.C76_ramp", "Funge.C76_print"], "note": "V and W add to the delta in hover mode (C76_false_when_hovering); everything else proved."},
{"property": "C77", "status": "partial", "theorems": ["Funge.C77_gable", "Funge.C77_butterfly", "Funge.C77_step", "Funge.C77_total_partial", "Funge.C77_product_partial", "Funge.C77_undefined_total", "Funge.C77_shift_partial", "Funge.C77_undefined_shift", "Funge.C77_not"], "note": "Partial sums and products may overflow though the result fits (C77_undefined_total); shifts by 64 or more places are undefined (C77_undefined_shift)."},
{"property": "C78", "status": "partial", "theorems": ["Funge.C78_look_partial", "Funge.C78_behind", "Funge.C78_branch_partial", "Funge.C78_undefined_axis", "Funge.C78_step", "Funge.C78_random_partial", "Funge.C78_false_inverted"], "note": "T with a negative axis throws (C78_undefined_axis); U leaves the wrong arrow with -finvert-hl (C78_false_inverted); L and R are stated for deltas within the plane of the first two axes."},
{"property": "C79", "status": "partial", "theorems": ["Funge.C79_wait_partial", "Funge.C79_waiting_turn_partial", "Funge.C79_false_in_queue_mode"], "note": "A single execution for all three cases and the whole turn of a waiting IP, for a stack in its ordinary mode. False in queue mode (C79_false_in_queue_mode): a waiting IP takes its operands from one end and puts them back at the other."},
{"property": "C80", "status": "proved", "theorems": ["Funge.C80_elapsed", "Funge.C80_unmarked", "Funge.C80_fresh", "Funge.C80_second"], "note": "Any state between M and T that keeps the IP's mark; the clock is an oracle (nanoseconds), assumed not to stand at its epoch when marked and not to run backwards."},
{"property": "C81", "status": "partial", "theorems": ["Funge.C81_arith_partial", "Funge.C81_false_subtraction", "Funge.C81_sign_partial", "Funge.C81_extend", "Funge.C81_print_partial", "Funge.C81_read_partial", "Funge.C81_false_negative", "Funge.C81_shift_partial"], "note": "S adds (C81_false_subtraction); Z ignores the sign (C81_false_negative). The operations of the number library are assumed lawful (LongOps.Lawful, shown to be satisfiable by exLong_lawful)."},
{"property": "C82", "status": "partial", "theorems": ["Funge.C82_double_partial", "Funge.C82_function_partial", "Funge.C82_convert_partial", "Funge.C82_undefined_single", "Funge.C82_format_partial", "Funge.C82_false_cut"], "note": "Every computing letter of FPSP reads outside of an object (C82_undefined_single); FPRT cuts texts (C82_false_cut). What the operations compute is left to the machine."},
{"property": "C83", "status": "partial", "theorems": ["Funge.C83_from_partial", "Funge.C83_put_partial", "Funge.C83_unknown", "Funge.C83_false_size", "Funge.C83_same_partial", "Funge.C83_count", "Funge.C83_name"], "note": "Exactly the area is copied but for one extra row, column, \u2026 (C83_false_size): C83_from_partial and C83_put_partial say which cells are copied and that nothing else changes; unknown names, C and N are proved."},
{"property": "C84", "status": "partial", "theorems": ["Funge.C84_create_partial", "Funge.C84_second", "Funge.C84_diverges_third", "Funge.C84_reflect", "Funge.C84_false_permissions", "Funge.C84_false_escape"], "note": "What is made is proved; the permissions are those of a default configuration (C84_false_permissions; C84_false_escape is a whole program that gets out of its sandbox) and a third universe of the same name is never finished (C84_diverges_third)."},
{"property": "C85", "status": "partial", "theorems": ["Funge.C85_jump", "Funge.C85_goto", "Funge.C85_unknown", "Funge.C85_false_get", "Funge.C85_alone_partial", "Funge.C85_false_race", "Funge.C85_false_iterate", "Funge.C85_false_put"], "note": "Where the IP goes and what stays behind is proved for J and G; g, p and k still use the old universe's field (C85_false_get, C85_false_put, C85_false_iterate), and two threads may run the same IP at once (C85_false_race); without transfers no two do (C85_alone_partial)."},
{"property": "C86", "status": "proved", "theorems": ["Funge.C86_turn", "Funge.C86_until_its_turn"], "note": "Tick level (C86_turn) and for any number of turns until the IP's own (C86_until_its_turn), for all instructions including IIPC; stacks are the subject of C29 and C57."},
{"property": "C87", "status": "proved", "theorems": ["Funge.C87_instruction", "Funge.C87_no_self_modification", "Funge.C87_from_start", "Funge.C87_false_without_low_byte", "Funge.C87_false_in_switch_mode"], "note": "Every instruction that is not in an explicit list of storing instructions leaves every cell as it is when switch mode is off (C87_instruction); a universe whose IPs understand nothing they may come across as a storing or table-changing instruction keeps its space for any number of turns, twins and k included (C87_no_self_modification); for a program from its start this is a condition on its characters only (C87_from_start). Two witnesses show that the exceptions in the statement are real: k executes the low byte of a cell, so that 368 acts as p, and in switch mode [ replaces itself."},
{"property": "C88", "status": "proved", "theorems": ["Funge.C88_words_any_mode", "Funge.C88_words_same_end", "Funge.C88_words", "Funge.C88_characters", "Funge.C88_undone"], "note": "for every stack and every Funge-98 configuration; in all modes of the stack (MODE's I and Q) by C88_words_any_mode, which says what is taken at one end and pushed at the other, and C88_words_same_end."},
{"property": "C89", "status": "partial", "theorems": ["Funge.C89_fetch_any_mode_partial", "Funge.C89_store_any_mode_partial", "Funge.C89_fetch_partial", "Funge.C89_false_for_wide_cells", "Funge.C89_store_partial", "Funge.C89_false_beyond_a_byte"], "note": "s keeps only the low byte of the value and ' only 32 bits of the cell: false for all other values (C89_false_beyond_a_byte, C89_false_for_wide_cells); proved within these ranges, in all modes of the stack"},
{"property": "C90", "status": "partial", "theorems": ["Funge.C90_words_partial", "Funge.C90_fingerprint_partial", "Funge.C90_division_by_zero", "Funge.C90_undone", "Funge.C90_rotated", "Funge.C90_false_for_fractions", "Funge.C90_conditional"], "note": "all but % on fractions and negative numbers, where the code differs from the language (C90_false_for_fractions), and shifts of an empty stack, which are undefined (C45_undefined_for_shift_and_return)"},
{"property": "C91", "status": "proved", "theorems": ["Funge.C91_mirrors", "Funge.C91_fingerprint", "Funge.C91_undone"], "note": "all directions, all stacks in any mode; outside of hover mode."},
{"property": "C92", "status": "partial", "theorems": ["Funge.C92_echo_partial", "Funge.C92_false_for_CR"], "note": "Carriage returns are dropped by the input instruction (negative theorem); proved for all other bytes."},
{"property": "C93", "status": "partial", "theorems": ["Funge.C93_factorial_partial", "Funge.C93_false_beyond_32_bits", "Funge.C93_undefined_beyond_64_bits", "Funge.C93_undefined_for_zero"], "note": "Proved for all numbers whose factorial fits 32 bits; beyond that the program prints another number (. prints only 32 bits), beyond 64 bits and for 0 it overflows: proved for all of them."},
{"property": "C94", "status": "proved", "theorems": ["Funge.C94_text_printed"], "note": "For ASCII texts; SGML strings under the stated condition (C21 says what happens otherwise)."},
{"property": "C95", "status": "partial", "theorems": ["Funge.C95_expression_partial", "Funge.C95_false_beyond_32_bits", "Funge.C95_undefined_beyond_64_bits"], "note": "Values beyond 32 bits are printed wrong and results beyond 64 bits are undefined: proved for every such expression."},
{"property": "C96", "status": "partial", "theorems": ["Funge.Defunge.C96_window_partial", "Funge.Defunge.C96_list", "Funge.Defunge.C96_get", "Funge.Defunge.C96_diverges_along_a_third_axis", "Funge.Defunge.C96_diverges_along_one_axis", "Funge.Defunge.C96_false_with_axes_swapped", "Funge.Defunge.C96_undefined_after_an_end", "Funge.Defunge.C96_diverges_on_garbage"], "note": "list and get draw the window with the right marks for every program, size and set of points (axes 0 and 1, sizes without further axes). The loop does not end for a size along a third axis or along one axis only; with the axes swapped the picture leaves the window; undefined once an IP has ended; and an uninitialised character may make list run forever."},
{"property": "C97", "status": "partial", "theorems": ["Funge.Defunge.C97_peek_partial", "Funge.Defunge.C97_peek_value", "Funge.Defunge.C97_peek_nth", "Funge.Defunge.C97_undefined_for_no_stack", "Funge.Defunge.C97_reports", "Funge.Defunge.C97_read", "Funge.Defunge.C97_threads_partial", "Funge.Defunge.C97_false_other_positions", "Funge.Defunge.C97_false_numbers_of_stacks"], "note": "All reports are proved for every state, except: thread shows every IP at the position of the selected one, peek gives every stack the number 0, peek of a stack that does not exist is undefined."},
{"property": "C98", "status": "partial", "theorems": ["Funge.Defunge.C98_frame", "Funge.Defunge.C98_session", "Funge.Defunge.C98_setpos", "Funge.Defunge.C98_setdelta_partial", "Funge.Defunge.C98_points", "Funge.Defunge.C98_thread", "Funge.Defunge.C98_leaves", "Funge.Defunge.C98_false_mistyped_thread", "Funge.Defunge.C98_false_missing_argument", "Funge.Defunge.C98_false_setdelta_hovering"], "note": "The frame of every line and every session is proved for all inputs. A mistyped thread selects IP 0, a missing argument of setpos or setdelta sets an empty vector, and under HOVR setdelta adds."},
{"property": "C99", "status": "partial", "theorems": ["Funge.C99_execute", "Funge.C99_change_directory", "Funge.C99_make_directory_partial", "Funge.C99_false_directory_not_made", "Funge.C99_remove_directory_partial", "Funge.C99_false_directory_not_removed", "Funge.C99_perl_partial", "Funge.C99_false_perl_dollar", "Funge.C99_false_multiple_of_256"], "note": "Proved for every string of bytes for =, C of DIRF and the others where the system succeeds; a directory that cannot be made or removed ends the interpreter with an exception, Perl code with a dollar sign or backquote is expanded by the shell first (proved for every such code), and a cell that is a multiple of 256 cuts the string."},
{"property": "C100", "status": "partial", "theorems": ["Funge.C100_read_then_write_partial", "Funge.C100_false_storage_offset", "Funge.C100_false_no_final_newline", "Funge.C100_false_binary"], "note": "Proved for every text file whose lines all have a line break, no trailing blanks and 7-bit characters, at every place in two dimensions without a storage offset; with an offset, without the final line break, or in binary mode o writes something else (witnesses)."},
{"property": "C101", "status": "partial", "theorems": ["Funge.C101_runs_as_the_machine_partial", "Funge.C101_what_it_prints_partial", "Funge.C101_it_ends_partial", "Funge.C101_tried_out", "Funge.C101_the_only_run", "Funge.C101_false_string_over_the_edge", "Funge.C101_false_bridge_over_the_edge"], "note": "Simulation of every program by a reference machine (Spec/Befunge.lean), for all inputs, random choices and numbers of ticks, with termination. Limited to runs in which the machine has a next state: it has none after a result that does not fit 64 bits (undefined in the code, C24), for the words ( ) = i o where they are allowed (where they are not, the IP turns around), for y asked for everything or for what is not in Spec.facts (makers, the IP's number, date, time, arguments, environment) (and for t, unless there is one IP only: C104), for k where the code deviates (C28: zero times for an instruction that is not in the next cell, cells beyond a character) or where the instruction is unknown, fails or is one of k t @ q \" (their errors are ignored by the code), for a block of -2^63 values (undefined, C25), when the last character of an outermost row or column is cleared (the code's box is then wrong, C10), when a byte cell is given a value with the low byte of a blank, for the cases in which the code is known to deviate (number at the end of the input, carriage return read by ~, cells beyond 32 bits with ' and s, exit codes beyond 32 bits, characters beyond a byte in a string). On the torus (Befunge-93's default) the machine has no next state for # at, or a string over, the east or south edge, where the code has one more column and row (C17; two witnesses here), and for g and p beyond the torus; crossing these edges otherwise is covered, with the IP one cell beyond the edge for part of the way. Also open: a stretch of as many idle cells as the model's loop bound (fuel; half of it on the torus)."},
{"property": "C102", "status": "partial", "theorems": ["Funge.C102_swims_as_the_machine_partial", "Funge.C102_what_it_prints_partial", "Funge.C102_it_ends_partial", "Funge.C102_tried_out", "Funge.C102_false_open_keeps_order", "Funge.C102_false_close_keeps_order", "Funge.C102_false_empty_cell_is_zero"], "note": "Simulation of every ><> program by a reference machine (Spec/Fish.lean), for all inputs, random choices, numbers of ticks and every arithmetic of doubles. Limited to runs in which the machine has a next state. It has none where the code deviates from the language (more than one value moved by [ or ], shown by witness; g of an empty cell, shown by witness; the second &, C46) or is undefined ({ } on an empty stack, values that do not fit 64 bits), for % with a negative number, a jump outside the box, o of a non-ASCII number, ] on the last stack, and when the last character of an outermost row or column is cleared (C10). *><> is not covered. Also open: a stretch of as many idle cells as the model's loop bound (fuel)."},
{"property": "C103", "status": "proved", "theorems": ["Funge.C103_compare", "Funge.C103_one_order", "Funge.C103_transitive", "Funge.C103_display", "Funge.C103_input", "Funge.C103_echo", "Funge.C103_two_lines", "Funge.C103_nul_ends_the_string"], "note": "The magnitude of what compare returns is left open, as the library leaves it open (any positive or negative int); only its sign is promised."},
{"property": "C104", "status": "partial", "theorems": ["Funge.C104_runs_as_the_machine_partial", "Funge.C104_what_it_prints_partial", "Funge.C104_it_ends_partial", "Funge.C104_tried_out"], "note": "Simulation of every concurrent program by a machine of several IPs (Spec/Many.lean over Spec/Befunge.lean), for all inputs, random choices and numbers of turns, with termination. Limits: those of C101, no torus, and an IP with more than one stack that splits (the twin's stacks are reversed in the code, C29_false_for_two_stacks)."},
{"property": "C105", "status": "proved", "theorems": ["Funge.C105_causal", "Funge.C105_answers", "Funge.C105_program", "Funge.C105_deterministic", "Funge.C105_past", "Funge.C105_bound"], "note": "Two runs are carried side by side through every instruction of every dialect and fingerprint (Lemmas/Twist, TwistOps, TwistRun): the second has other input to come, other answers to questions not yet asked, another past and a larger bound on loops. C105_causal says that after any number of turns they agree in everything as long as some of the common input is unread; C105_answers drops that condition when the input is the same; C105_program and C105_deterministic are the consequences for launched programs; C105_past and C105_bound cover what was written and the model's own bound, including what goes wrong. Examples show that the condition on unread input is necessary (a number ends where something else begins)."},
{"property": "C106", "status": "partial", "theorems": ["Funge.C106_fixp_partial", "Funge.C106_undefined_for_least", "Funge.C106_random_partial", "Funge.C106_undefined_for_random", "Funge.C106_false_for_random", "Funge.C106_functions_partial", "Funge.C106_complex_partial", "Funge.C106_print", "Funge.C106_read_partial", "Funge.C106_undefined_for_text", "Funge.C106_format_partial"], "note": "All letters proved on their whole domain. The least number has no negative (overflow), D is undefined for negative bounds and 2^31 and keeps only 32 bits of larger ones, R of FPDP ends the process on a text that says no number."},
{"property": "C107", "status": "partial", "theorems": ["Funge.C107_caught", "Funge.C107_in_turns", "Funge.C107_resumes", "Funge.C107_caught_FISH", "Funge.C107_resumes_FISH_partial", "Funge.C107_false_for_FISH", "Funge.C107_select", "Funge.C107_select_FISH", "Funge.C107_sleep", "Funge.C107_time"], "note": "Proved for *><>: every run, every past. For FISH proved after an instruction that sets the direction, false after a reflection (r, or an error): nobody tells FISH of it."},
{"property": "C108", "status": "partial", "theorems": ["Funge.C108_sum", "Funge.C108_opposite", "Funge.C108_same_step", "Funge.C108_steps_partial", "Funge.C108_undefined_for_far", "Funge.C108_undefined_for_a_program"], "note": "Within 2^62 of the origin every step is defined and agrees with the unbounded model (both topologies, walk-back loop included); the exact condition for sums and opposites. Missing: a program can set a direction with x whose next step overflows, proved by a concrete program."},
{"property": "C109", "status": "partial", "theorems": ["Funge.Life.C109_once", "Funge.Life.C109_all", "Funge.Life.C109_defined_partial", "Funge.Life.C109_native_partial", "Funge.Life.C109_undefined_for_any_thread", "Funge.Life.C109_undefined_for_native", "Funge.Life.C109_ends_partial", "Funge.Life.C109_diverges_for_a_late_twin"], "note": "Interpreted threads: no use of anything deleted in any interleaving, every IP deleted exactly once, and the destructor ends if no IP is added after the kill. Missing: with native threads the destructor joins deleted threads (proved reachable, and the only undefined place), and a twin that is added during the kill keeps universe and destructor running for ever (proved)."},
{"property": "C110", "status": "partial", "theorems": ["Funge.Whole.C110_all_ended_partial", "Funge.Whole.C110_for_good_partial", "Funge.Whole.C110_returns", "Funge.Whole.C110_false_for_travellers"], "note": "proved for all interleavings without travelling IPs, with libraries, new universes and kills, and that the interpreter then does exit; false with IPs that go from universe to universe (C110_false_for_travellers). Insertion into the table while it is gone through is taken to be harmless; in the code it is a data race"},
{"property": "C111", "status": "partial", "theorems": ["Funge.Access.C111_no_race_partial", "Funge.Access.C111_lock_owner", "Funge.Access.C111_false_for_the_main_thread", "Funge.Access.C111_false_for_running", "Funge.Access.C111_false_for_modes", "Funge.Access.C111_false_for_universes", "Funge.Access.C111_false_for_fungespace", "Funge.Access.C111_false_for_age"], "note": "proved for the functions that take the lock (adding, transferring, waiting, killing, destroying, creating, the scheduler, stack operations), any number of threads and calls; false for isRunning called by the main thread, the scheduler's test of running, setting modes, counting or finding universes, Fungespace with native threads, the age of a stack (C111_false_...)"},
{"property": "C112", "status": "partial", "theorems": ["Funge.C112_one_name", "Funge.C112_name_on_the_stack", "Funge.C112_in_the_directory_partial", "Funge.C112_false_for_absolute_names", "Funge.C112_false_for_dots", "Funge.C112_false_for_zeros"], "note": "names are one to one and stay in the directory if they have no slash and no zero; false otherwise (C112_false_for_absolute_names, C112_false_for_dots, C112_false_for_zeros)"},
{"property": "C113", "status": "partial", "theorems": ["Funge.C113_transparent_partial", "Funge.C113_own_input", "Funge.C113_off", "Funge.C113_runs", "Funge.C113_diverges_without_input", "Funge.C113_false_shared_input", "Funge.C113_undefined_after_an_end"], "note": "Proved for programs that do not read, sessions that only look, and interpreted threads: any such session leaves the program as it is without the debugger up to the input taken by the prompt (C113_transparent_partial); without debug mode the debugger is not there (C113_off). For a prompt with an input of its own it holds for all programs (C113_own_input), and typing run often enough gets every program as far as without the debugger (C113_runs). The code violates the rest: prompt and program read the same input (C113_false_shared_input), without input no instruction is ever executed (C113_diverges_without_input), and looking after an IP has ended follows a pointer to a deleted runner (C113_undefined_after_an_end). Watched writes are reported after the instruction instead of during it."},
{"property": "C114", "status": "proved", "theorems": ["Funge.C114_tick", "Funge.C114_turn", "Funge.C114_instruction", "Funge.C114_sees_stacks"], "note": "C114_tick and C114_turn: no hypothesis but that the other IPs have the same IDs and stacks; C114_instruction: any instruction (but for k, which executes others, and IIPC's) beside any other IPs at all. C114_sees_stacks shows that IDs and stacks cannot be left out."},
{"property": "C115", "status": "proved", "theorems": ["Funge.C115_does_the_same", "Funge.C115_old_as_new", "Funge.C115_new_as_old"], "note": "Full statement: a program the Befunge-98 machine runs in one way to its end, in states Befunge-93 knows (Common, Stays), ends under both standards with the same output, the same input left and no exit code (C115_does_the_same); with ?, each outcome under one standard is an outcome of a run of the other (C115_old_as_new, C115_new_as_old). On the torus the IP may go around it; g and p stay on it, strings and # do not go over the edge."},
{"property": "C116", "status": "proved", "theorems": ["Funge.C116_does_the_same", "Funge.C116_one_that_does_not_die", "Funge.C116_one_without_the_letters", "Funge.C116_prints_as_the_machine_partial"], "note": "Proved for all programs, as a lockstep simulation over every instruction of ><>. Its consequence with C102 (C116_prints_as_the_machine_partial) is as partial as C102."},
{"property": "C117", "status": "proved", "theorems": ["Funge.C117_does_the_same", "Funge.C117_program", "Funge.C117_by_its_text", "Funge.C117_by_its_letters"], "note": "C117_does_the_same is for any universe and any two settings; what is executed is defined by Executes and InTick, exactly, including what k executes and what is reached over cells that take no time. C117_by_its_text and C117_by_its_letters need only the text."},
{"property": "C118", "status": "partial", "theorems": ["Funge.C118_sails_as_the_machine_partial", "Funge.C118_what_it_prints_partial", "Funge.C118_it_ends_partial", "Funge.C118_tried_out", "Funge.C118_false_for_calls"], "note": "Proved for programs that do not call or return, choose another stack or use a file: the interpreter runs as the machine of Spec/Star.lean. Missing: calls and returns, which the code does otherwise than the language (C118_false_for_calls), I, D and F, and what C102 lacks."},
{"property": "C119", "status": "partial", "theorems": ["Funge.C119_permissions_kept", "Funge.C119_allowed_somewhere", "Funge.C119_no_execute_partial", "Funge.C119_no_filesystem_partial", "Funge.C119_no_execute_shut", "Funge.C119_false_with_B", "Funge.C119_example"], "note": "For all multiverses and orders of turns: permissions are kept, nothing is done that no universe allows, and nothing every universe forbids as long as no universe is made; in full without fingerprints. False with B of MVRS, whose universes allow everything. Turns of different universes do not overlap in the model."},
{"property": "C120", "status": "proved", "theorems": ["Funge.C120_one_place", "Funge.C120_turn"], "note": "For all multiverses with distinct names and identities and all orders of turns. Turns of different universes do not overlap in the model (C85_false_race is about those that do)."},
{"property": "C121", "status": "proved", "theorems": ["Funge.C121_turn", "Funge.C121_alone", "Funge.C121_elsewhere"], "note": "A refinement between the two levels of the model: it also shows that the theorems about single universes hold for universes in a multiverse."},
{"property": "C122", "status": "partial", "theorems": ["Funge.C122_frame", "Funge.C122_output", "Funge.C122_only_by_letters", "Funge.C122_stateless", "Funge.C122_false_permissions"], "note": "Frame, output, letters and statelessness proved for all libraries, programs and states (letters and statelessness for libraries without ( ) i p s). False of permissions: a library's universe has the default configuration, so a program that may not run commands does by a library (C122_false_permissions). Simplifications of the model: a library whose thread splits is not modelled, and what a call writes into the library's own code is not kept for the next (C122_stateless: without ( ) i p s there is nothing to keep)."}
]}
