{"id": "C01", "title": "A stack is a stack: pops return pushes in the order the mode promises, and an empty stack yields 0", "statement": "Whatever sequence of push, pop, clear and mode changes is applied to a Stack, every value it hands out is the one an ideal double-ended sequence would hand out: pushes go to the top (to the bottom in INVERT mode), pops take from the top (from the bottom in QUEUE mode), and popping an empty stack returns 0 and leaves it empty. In the default mode this is LIFO; in QUEUE mode it is FIFO.", "quantifier": "every finite sequence of push/pop/clear/setMode operations, every value, every mode word", "why_tests_cant": "The set of operation histories is infinite and the modes can be switched between any two operations; a test fixes one history.", "anchors": ["src/Stack.cpp:Stack::push", "src/Stack.cpp:Stack::pop", "src/Stack.cpp:Stack::clear", "src/Stack.cpp:Stack::setMode"]}
{"id": "C02", "title": "Inspecting a stack predicts its pops", "statement": "Stack::get(n) (and therefore `n y` and FRTH pick) returns exactly the value the n-th consecutive pop would return, returns 0 for n = 0 or n beyond the size, and changes nothing. In QUEUE mode the same holds, counting from the end pops are taken from.", "quantifier": "every stack contents, every mode, every index", "why_tests_cant": "Needs agreement of two different traversals (iterator walk vs. repeated pop) for every depth and every index.", "anchors": ["src/Stack.cpp:Stack::get", "src/Stack.cpp:Stack::peek", "src/Stack.cpp:Stack::size"]}
{"id": "C03", "title": "The stack-stack never runs out and is never indexed out of range by standard instructions", "statement": "Starting from a fresh IP, after any sequence of standard Funge-93/98 instructions there is at least one stack on the stack-stack, and every access made by those instructions to the top or second stack refers to a stack that exists.", "quantifier": "every program and every execution built from the standard instruction set, any nesting of { and }", "why_tests_cant": "An out-of-range access is undefined behaviour that depends on the whole history of { and }; tests only see particular nestings.", "anchors": ["src/StackStack.cpp:StackStack::at", "src/StackStack.cpp:StackStack::pop", "src/Unefunge98Strategy.cpp:instructionEnd", "src/Unefunge98Strategy.cpp:instructionUnder"]}
{"id": "C04", "title": "Vector equality, ordering and hashing agree", "statement": "Two vectors built by any sequence of API calls compare == exactly when all their coordinates agree (missing coordinates count as 0); equal vectors have the same hash; and operator< is a strict total order for that equality. These are the contracts std::unordered_map (fungespace) and std::set (breakpoints, watchpoints) rely on.", "quantifier": "all vectors of every length, including with leading/trailing zeros", "why_tests_cant": "Totality, transitivity and hash consistency quantify over pairs and triples of unboundedly long vectors.", "anchors": ["src/Vector.cpp:Vector::operator==", "src/Vector.cpp:Vector::operator<", "src/Vector.cpp:Vector::hash::operator()", "src/Vector.cpp:Vector::normalize"]}
{"id": "C05", "title": "Vector arithmetic is coordinate-wise and turning is invertible", "statement": "Addition, subtraction, assignment to a coordinate and reversal act on each coordinate independently for every dimension; turning left then right (or right then left) is the identity; reversing twice is the identity; two left turns in the plane equal a reversal of the first two coordinates; coordinates beyond the second are untouched by turns.", "quantifier": "all vectors of every dimension", "why_tests_cant": "Vectors have unbounded length and different lengths are mixed freely, normalisation can interfere at any coordinate.", "anchors": ["src/Vector.cpp:Vector::operator+=", "src/Vector.cpp:Vector::operator-=", "src/Vector.cpp:Vector::left", "src/Vector.cpp:Vector::right", "src/Vector.cpp:Vector::reverse", "src/Vector.cpp:Vector::set"]}
{"id": "C06", "title": "Printing a vector and reading it back gives the same vector", "statement": "Any non-empty vector written with operator<< and read with operator>> (the debugger's position syntax) comes back equal, and the reader consumes exactly the printed text. The reader should also terminate on every input.", "quantifier": "all vectors with machine-size coordinates; all input texts for termination", "why_tests_cant": "Round-trip over all coordinate lists and all digit strings; termination over all inputs.", "anchors": ["src/Vector.cpp:operator<<", "src/Vector.cpp:operator>>"]}
{"id": "C07", "title": "A vector range visits each cell of the box exactly once", "statement": "Iterating a VectorRange from corner a to corner b, in whatever direction each axis runs, visits every cell of the box spanned by a and b exactly once and then stops.", "quantifier": "all pairs of corners in any number of dimensions, any direction per axis", "why_tests_cant": "The number of dimensions and the extents are unbounded; carry and end detection interact across dimensions.", "anchors": ["src/VectorRange.cpp:VectorRange::operator++", "src/VectorRange.cpp:VectorRange::VectorRange"]}
{"id": "C08", "title": "Fungespace remembers the last write to each cell", "statement": "After any sequence of writes, reading a cell returns the value most recently written to that cell, or a space if it was never written; writing one cell never changes what any other cell reads. Writing a space is the same as never having written.", "quantifier": "every history of writes, every cell in any number of dimensions, every value (read back as written from 8-byte cells; for one-byte cells see C09)", "why_tests_cant": "Every history and every pair of distinct cells; erasing on space goes through a separate code path that also rescans bounds.", "anchors": ["src/Field.cpp:Field::put", "src/Field.cpp:Field::get"]}
{"id": "C09", "title": "One-byte cells keep exactly the low byte", "statement": "With char cells a value written to a cell reads back as its low byte interpreted as a signed char, and values already in that range read back unchanged; with 8-byte cells every value reads back unchanged.", "quantifier": "every 64-bit value, every cell, both cell types", "why_tests_cant": "All 2^64 values and every history.", "anchors": ["src/Field.cpp:Field::put", "src/Field.cpp:Field::get"]}
{"id": "C10", "title": "Every non-blank cell lies inside the reported bounds", "statement": "After any sequence of writes, every non-space cell lies, in every dimension, between the least and greatest point reported for that dimension (by `y`, and used for wrapping).", "quantifier": "every history of writes and erasures, every dimension", "why_tests_cant": "The bounds are maintained incrementally with a rescan on erasure; only a history-quantified invariant settles it.", "anchors": ["src/Field.cpp:Field::put", "src/Field.cpp:Field::max", "src/Field.cpp:Field::min"]}
{"id": "C11", "title": "The program file is laid out as written", "statement": "Loading a text puts the c-th character of the r-th line at (c, r) relative to the start, for every line and column, leaves spaces transparent (cells under spaces keep their old contents), and changes no other cell.", "quantifier": "all texts, any number and length of lines, any starting position and any prior contents", "why_tests_cant": "All file contents; the loader is a character-level state machine.", "anchors": ["src/Field.cpp:Field::parse", "src/Field.cpp:Field::increment"]}
{"id": "C12", "title": "Line-ending style does not matter", "statement": "The same lines separated by LF, by CR or by CRLF (in any mixture) load to the same fungespace and report the same size.", "quantifier": "all texts and all assignments of a line-ending style to each line break", "why_tests_cant": "Exponentially many mixtures of line endings over unboundedly many lines.", "anchors": ["src/Field.cpp:Field::parse"]}
{"id": "C13", "title": "Form feeds and vertical tabs select plane and 4th coordinate; dimensionality is detected minimally", "statement": "In auto-dimension or >=3D mode the text after the k-th form feed is placed on plane z = k (x and y restarting), vertical tabs likewise on the 4th axis; the number of dimensions detected for a freshly loaded text is the least d such that every non-space cell has zero coordinates from index d on.", "quantifier": "all texts with any arrangement of form feeds, vertical tabs and line breaks", "why_tests_cant": "All texts; the state machine suppresses newlines after form feeds.", "anchors": ["src/Field.cpp:Field::parse", "src/Field.cpp:Field::size"]}
{"id": "C14", "title": "Text written with `o` and read back with `i` restores the area", "statement": "Dumping a w x h area in text mode and loading the resulting file at a position reproduces every non-space cell of the area at that position (for areas holding ordinary byte characters).", "quantifier": "all areas of every width and height, all contents of ordinary characters", "why_tests_cant": "All areas and contents; trailing-space stripping and row ends interact.", "anchors": ["src/Field.cpp:Field::dump", "src/Field.cpp:Field::parse", "src/Unefunge98Strategy.cpp:instructionFileIn", "src/Unefunge98Strategy.cpp:instructionFileOut"]}
{"id": "C15", "title": "Lahey wrapping terminates and lands on the far edge of the same line", "statement": "With the IP inside the program's bounds and a non-zero delta, advancing always terminates, stays inside the bounds, and moves to position+delta if that is in bounds, and otherwise to the furthest cell behind the IP on its line that can be reached without leaving the bounds.", "quantifier": "all bounds, all positions in them, all non-zero deltas, any number of dimensions", "why_tests_cant": "Unbounded box sizes, arbitrary (including non-cardinal, long) deltas and dimensions; termination is part of the claim.", "anchors": ["src/InstructionPointer.cpp:InstructionPointer::next", "src/InstructionPointer.cpp:InstructionPointer::inField"]}
{"id": "C16", "title": "IP motion is reversible and periodic under Lahey wrapping", "statement": "Advancing, reflecting, advancing and reflecting again returns the IP to where it was; hence advancing permutes the cells in bounds and repeated advancing always returns to the starting cell.", "quantifier": "all bounds, positions, deltas, dimensions", "why_tests_cant": "Bijectivity over all positions of arbitrarily large spaces.", "anchors": ["src/InstructionPointer.cpp:InstructionPointer::next", "src/InstructionPointer.cpp:InstructionPointer::reverse"]}
{"id": "C17", "title": "The Befunge-93 torus keeps the IP on the 80x25 playfield", "statement": "With torus topology the IP's position always satisfies 0 <= x < 80 and 0 <= y < 25 and moves modulo 80 and 25.", "quantifier": "all positions on the playfield, all unit deltas, any number of steps", "why_tests_cant": "Every step of every execution; the edge cells are only reached by specific programs.", "anchors": ["src/InstructionPointer.cpp:InstructionPointer::next"]}
{"id": "C18", "title": "Jump-over `;` ignores exactly the text up to the next `;`", "statement": "Executing `;` moves the IP, executing nothing, to the first cell further along its path that holds `;`; with the IP in bounds (Lahey) this always terminates, even when there is no other `;` on the path.", "quantifier": "all fungespaces, positions, deltas", "why_tests_cant": "Termination over arbitrary spaces; depends on periodicity of IP motion.", "anchors": ["src/Unefunge98Strategy.cpp:instructionJumpOver", "src/InstructionPointer.cpp:InstructionPointer::next"]}
{"id": "C19", "title": "`j` jumps exactly n steps and is undone by jumping back", "statement": "`j` with count n moves the IP n steps along its path (backwards if negative), where steps wrap exactly like normal motion; jumping n and then -n returns to the same cell, and the delta is preserved.", "quantifier": "all n, all in-bounds positions and deltas", "why_tests_cant": "All counts and all spaces, wrap-around included.", "anchors": ["src/Unefunge98Strategy.cpp:instructionJumpForward", "src/InstructionPointer.cpp:InstructionPointer::next", "src/InstructionPointer.cpp:InstructionPointer::reverse"]}
{"id": "C20", "title": "String mode pushes the text between the quotes", "statement": "In multispace (Befunge-93) string mode, executing a quoted text pushes exactly its characters in order, one per tick, and returns to normal mode at the closing quote; no character in between is executed as an instruction.", "quantifier": "all texts not containing the quote, all machine states", "why_tests_cant": "All texts of unbounded length.", "anchors": ["src/FungeStateString.cpp:FungeStateString::execute"]}
{"id": "C21", "title": "SGML strings collapse each run of white space to one character", "statement": "In SGML string mode a quoted text pushes its characters with every maximal run of white space replaced by the first white-space character of the run, skipping the rest of the run without using a tick.", "quantifier": "all texts of ordinary characters not containing the quote", "why_tests_cant": "All texts; needs state carried across ticks.", "anchors": ["src/FungeStateString.cpp:FungeStateString::execute", "src/FungeRunner.cpp:FungeRunner::tick"]}
{"id": "C22", "title": "C-style strings decode escapes in a single tick", "statement": "With C-style strings, a backslash and the following character push one character given by the escape table (or the character itself), consume one tick, and an escaped quote does not end the string.", "quantifier": "all following characters, all machine states", "why_tests_cant": "Table plus interaction with the string terminator for all texts.", "anchors": ["src/FungeStateString.cpp:FungeStateString::execute"]}
{"id": "C23", "title": "Arithmetic instructions compute what they say, and division by zero gives zero", "statement": "`+ - * / % ! `` pop their operands and push the exact integer result (quotient truncated toward zero, remainder with the dividend's sign, 0 when dividing by 0), missing operands count as 0, everything below is untouched; the only inputs outside the contract are those whose exact result does not fit in 64 bits.", "quantifier": "all pairs of 64-bit operands, all stacks", "why_tests_cant": "2^128 operand pairs.", "anchors": ["src/Unefunge93Strategy.cpp:instructionAdd", "src/Unefunge93Strategy.cpp:instructionSubtract", "src/Unefunge93Strategy.cpp:instructionMultiply", "src/Unefunge93Strategy.cpp:instructionDivide", "src/Unefunge93Strategy.cpp:instructionRemainder", "src/Unefunge93Strategy.cpp:instructionNot", "src/Unefunge93Strategy.cpp:instructionGreater"]}
{"id": "C24", "title": "`p` then `g` returns the stored value, relative to the storage offset", "statement": "After `p` stores v at a vector, `g` at the same vector returns v (8-byte cells), whatever the storage offset and number of dimensions; the cell changed is exactly storage offset + vector and no other cell reads differently.", "quantifier": "all values, vectors, storage offsets, dimensions, modes of the stack and prior histories", "why_tests_cant": "Quantifies over all offsets, coordinates and dimension counts.", "anchors": ["src/Unefunge93Strategy.cpp:instructionGet", "src/Unefunge93Strategy.cpp:instructionPut", "src/util/FungeUtilities.cpp:popVector", "src/util/FungeUtilities.cpp:pushVector"]}
{"id": "C25", "title": "A block moves n cells intact and restores the storage offset", "statement": "`n {` moves the top n cells to a new stack in the same order (padding with zeros when the stack is shorter) and sets the storage offset to the next position; `n }` moves n cells back and restores the previous storage offset; so `n{` followed by `n}` leaves the stack contents and storage offset as they were. Negative n pushes/removes |n| zeros/cells as documented by Funge-98.", "quantifier": "all stacks, all n (positive, zero, negative), all storage offsets and dimensions", "why_tests_cant": "All depths, all n; order preservation over a reversal loop.", "anchors": ["src/Unefunge98Strategy.cpp:instructionBegin", "src/Unefunge98Strategy.cpp:instructionEnd"]}
{"id": "C26", "title": "`u` transfers cells one at a time and loses none", "statement": "`u` with count n > 0 pops n cells from the second stack onto the top stack one by one (so reversed), with n < 0 the other way; the two stacks together keep the same cells (zeros standing in for missing ones), and `n u` followed by `-n u` restores both stacks when enough cells exist.", "quantifier": "all stacks and all n", "why_tests_cant": "All counts and depths.", "anchors": ["src/Unefunge98Strategy.cpp:instructionUnder"]}
{"id": "C27", "title": "`n y` replaces its argument by one cell and leaves the rest of the stack alone", "statement": "For n > 0, `y` pops n and pushes exactly one value: the n-th cell of the full system-information list, or, beyond it, the corresponding cell of the stack as it was; every cell below is unchanged.", "quantifier": "all n > 0, all stacks, all environments (any number of stacks, arguments and environment strings)", "why_tests_cant": "The list has data-dependent length; cleaning it up must be exact for every length.", "anchors": ["src/Unefunge98Strategy.cpp:instructionSysInfo", "src/Unefunge98Strategy.cpp:pushSysInfo"]}
{"id": "C28", "title": "`k` executes the next instruction n times; zero skips it", "statement": "`n k` executes the next instruction that is not a space or inside `;...;` n times, from the position of the `k`; with n = 0 that instruction is skipped; with n < 0 nothing is executed.", "quantifier": "all n, all fungespaces and distances to the next instruction", "why_tests_cant": "All counts and all layouts of spaces and jump-overs.", "anchors": ["src/Unefunge98Strategy.cpp:instructionIterate"]}
{"id": "C29", "title": "`t` starts a twin with the same stacks going the other way", "statement": "`t` creates exactly one new IP with a fresh identity, the same stack-stack contents in the same order, the same storage offset, at the parent's position advanced one step along the reversed delta; the parent is unchanged, and later operations of one never affect the other's stacks.", "quantifier": "all IP states, any number of stacks and dimensions", "why_tests_cant": "All stack-stack shapes; tests rarely split with nested blocks open.", "anchors": ["src/FungeRunner.cpp:FungeRunner::FungeRunner(FungeRunner&)", "src/StackStack.cpp:StackStack::StackStack(const StackStack&)", "src/Unefunge98Strategy.cpp:instructionThread", "src/FungeUniverse.cpp:FungeUniverse::cloneRunner"]}
{"id": "C30", "title": "Every live IP gets exactly one turn per round, in creation order", "statement": "With funge-style threads the IPs of a universe take turns: between two turns of an IP every other live IP takes exactly one turn; the order of the survivors never changes; a new IP runs before its parent's next turn.", "quantifier": "all numbers of IPs, all schedules of splits and stops", "why_tests_cant": "Fairness over unbounded executions with dynamic population.", "anchors": ["src/FungeUniverse.cpp:FungeUniverse::operator()", "src/FungeUniverse.cpp:FungeUniverse::cloneRunner"]}
{"id": "C31", "title": "`@` ends one IP, `q` ends them all with the given exit code", "statement": "After `@` the IP never executes another instruction and other IPs are unaffected; after `q` no IP in the universe executes another instruction, and the exit code is the popped value; a universe stops running exactly when no IP is left or `q` was executed.", "quantifier": "all executions, any number of IPs", "why_tests_cant": "Quantifies over all continuations of the execution.", "anchors": ["src/Unefunge93Strategy.cpp:instructionStop", "src/Unefunge98Strategy.cpp:instructionQuit", "src/FungeUniverse.cpp:FungeUniverse::killAll", "src/FungeUniverse.cpp:FungeUniverse::isRunning", "src/FungeRunner.cpp:FungeRunner::stop"]}
{"id": "C32", "title": "Disabled features never take effect", "statement": "With -fno-execute no program can run an external command; with -fno-filesystem no program can read or change files; with -fno-concurrent no program ever has more than one IP; and no program can change these permissions for itself.", "quantifier": "all programs, all inputs, all executions", "why_tests_cant": "A sandbox claim quantifies over all programs; tests try a few.", "anchors": ["src/Unefunge98Strategy.cpp:instructionExecute", "src/Unefunge98Strategy.cpp:instructionFileIn", "src/Unefunge98Strategy.cpp:instructionFileOut", "src/Unefunge98Strategy.cpp:instructionThread", "src/fingerprint/FingerprintDIRF.cpp", "src/fingerprint/FingerprintPERL.cpp", "src/FungeUniverse.cpp:allowExecute", "src/FungeUniverse.cpp:allowFilesystem"]}
{"id": "C33", "title": "Loading and then unloading a fingerprint restores every instruction's meaning", "statement": "After any balanced, properly nested sequence of fingerprint loads and unloads each letter A-Z executes what it executed before; while loaded, a letter executes the most recently loaded fingerprint that defines it.", "quantifier": "all nestings of loads/unloads over all fingerprints", "why_tests_cant": "Unbounded nesting and all combinations of fingerprints.", "anchors": ["src/FungeStateNormal.cpp:FungeStateNormal::pushSemantic", "src/FungeStateNormal.cpp:FungeStateNormal::popSemantic", "src/FingerprintStrategy.cpp:FingerprintStrategy::load", "src/FingerprintStrategy.cpp:FingerprintStrategy::unload", "src/Fingerprint.cpp:activate"]}
{"id": "C34", "title": "Unloading what is not loaded changes nothing", "statement": "`)` with a fingerprint that is not currently loaded reflects and leaves all instruction meanings unchanged.", "quantifier": "all histories of loads and unloads", "why_tests_cant": "Depends on the whole load/unload history.", "anchors": ["src/FingerprintStrategy.cpp:FingerprintStrategy::unload", "src/Unefunge98Strategy.cpp:instructionUnload"]}
{"id": "C35", "title": "An unknown instruction reflects and does nothing else", "statement": "Executing a character with no meaning reverses the delta and moves on; stacks, fungespace, storage offset, output and other IPs are untouched.", "quantifier": "all unassigned cell values, all states", "why_tests_cant": "All 2^64 minus about 100 cell values and all states.", "anchors": ["src/FungeStateNormal.cpp:FungeStateNormal::execute", "src/FungeRunner.cpp:FungeRunner::tick", "src/Unefunge93Strategy.cpp:errorHandler"]}
{"id": "C36", "title": "Strings and vectors survive the stack", "statement": "Pushing a NUL-terminated string and popping it returns the same string; pushing a vector and popping it returns the same vector in the universe's dimensions; in both cases everything underneath is untouched.", "quantifier": "all strings without NUL, all vectors, all dimensions, all stacks", "why_tests_cant": "All lengths and contents.", "anchors": ["src/util/FungeUtilities.cpp:pushString", "src/util/FungeUtilities.cpp:popString", "src/util/FungeUtilities.cpp:pushVector", "src/util/FungeUtilities.cpp:popVector"]}
{"id": "C37", "title": "Toggling a MODE twice restores normal behaviour, and modes apply to all stacks", "statement": "Executing a MODE instruction twice restores the universe's mode word; while a mode is on, every stack of every IP obeys it, including stacks created after it was switched on.", "quantifier": "all mode words, all sets of IPs and stacks, all histories", "why_tests_cant": "Quantifies over histories interleaving toggles with stack creation.", "anchors": ["src/fingerprint/FingerprintMODE.cpp", "src/FungeUniverse.cpp:toggleMode", "src/FungeUniverse.cpp:updateMode", "src/StackStack.cpp:StackStack::setMode", "src/StackStack.cpp:StackStack::push"]}
{"id": "C38", "title": "IP identities are unique", "statement": "No two IPs ever created in a run have the same identity number, and an IP keeps its identity for life.", "quantifier": "all executions with any number of splits", "why_tests_cant": "Unbounded number of splits and histories.", "anchors": ["src/FungeRunner.cpp:FungeRunner::count", "src/FungeRunner.cpp:FungeRunner::getID"]}
{"id": "C39", "title": "A new universe always gets a fresh name", "statement": "Creating a universe always terminates and gives it a name no existing universe has, whatever names are already taken.", "quantifier": "all sets of existing names and all requested names", "why_tests_cant": "All sets of existing names; termination of a search loop.", "anchors": ["src/FungeMultiverse.cpp:FungeMultiverse::create"]}
{"id": "C40", "title": "The scheduler never loses a wake-up", "statement": "Whenever an IP is added to a universe, the universe's scheduler thread eventually runs it: it is never asleep with IPs waiting and no pending signal, in any interleaving of adding threads and the scheduler.", "quantifier": "all interleavings of any number of adders with the scheduler thread", "why_tests_cant": "Races: only an invariant over all interleavings settles it.", "anchors": ["src/FungeUniverse.cpp:FungeUniverse::operator()", "src/FungeUniverse.cpp:FungeUniverse::addRunner", "src/include/FungeUniverse.h:FungeSem"]}
{"id": "C41", "title": "Waiting for a universe returns when its last IP has stopped", "statement": "wait() on a universe returns once all its IPs have stopped, under both threading modes and every interleaving of the waiting thread with the scheduler and the IP threads.", "quantifier": "all interleavings", "why_tests_cant": "Lost-notification bugs show only in particular schedules.", "anchors": ["src/FungeUniverse.cpp:FungeUniverse::wait", "src/FungeUniverse.cpp:FungeUniverse::operator()", "src/FungeUniverse.cpp:FungeUniverse::isRunning"]}
{"id": "C42", "title": "Output appears in order and is never rewritten", "statement": "Each instruction only appends to the program's output; `,` appends exactly the popped character, `.` appends the decimal representation of the popped 64-bit value and a space.", "quantifier": "all executions, all 64-bit values", "why_tests_cant": "All values and histories.", "anchors": ["src/Unefunge93Strategy.cpp:instructionNumOut", "src/Unefunge93Strategy.cpp:instructionCharOut"]}
{"id": "C43", "title": "The backtrace holds the most recent positions", "statement": "The debugger's backtrace for a thread is always the list of the last (up to 10) positions executed, newest first, without gaps.", "quantifier": "all executions and positions", "why_tests_cant": "All histories; queue-size boundary.", "anchors": ["src/FungeDebugger.cpp:FungeDebugger::tick"]}
{"id": "C44", "title": "The debugger stops at a breakpoint and nowhere else", "statement": "After `run`, an IP is stopped before executing a cell exactly when that cell is a current breakpoint (or single-stepping, a watch-point write or an error trap occurred since); removing a breakpoint stops it being honoured; adding one twice is the same as once.", "quantifier": "all sets of breakpoints, all executions", "why_tests_cant": "All add/remove histories and all execution traces.", "anchors": ["src/FungeDebugger.cpp:27-106", "src/Defunge.cpp:79-124"]}
{"id": "C45", "title": "><> dies on the first error with exit code 1", "statement": "In ><> and *><> any instruction that needs more stack values than exist, or an unknown instruction, ends the whole program with exit code 1 and no further instruction is executed.", "quantifier": "all ><> programs, stacks, instructions", "why_tests_cant": "All instructions x all stack depths.", "anchors": ["src/FishStrategy.cpp:check_stack", "src/FishStrategy.cpp:errorHandler"]}
{"id": "C46", "title": "The ><> register keeps its value", "statement": "`&` stores the top value in the register and the next `&` pushes the same value back, whatever happens to the stack in between.", "quantifier": "all values and all states", "why_tests_cant": "All values and histories between the two.", "anchors": ["src/FishStrategy.cpp:instructionRegister"]}
{"id": "C47", "title": "><> `[` and `]` move values between stacks without loss", "statement": "`x[` moves the top x values to a new stack and `]` moves all of its values back; immediately closing restores the original stack.", "quantifier": "all stacks and all x from 0 to the number of values below it (with more the fish dies and the values stay where they were; with a negative x the behaviour is undefined)", "why_tests_cant": "All depths.", "anchors": ["src/FishStrategy.cpp:instructionCreateStack", "src/FishStrategy.cpp:instructionRemoveStack"]}
{"id": "C48", "title": "*><> call and return come back to the caller with the stack intact", "statement": "`C` jumps to the popped coordinates and `R` returns to just after the calling `C`, leaving the values on the data stack as the subroutine left them.", "quantifier": "all positions, all stacks", "why_tests_cant": "All nestings and stack contents.", "anchors": ["src/StarfishStrategy.cpp:instructionCall", "src/StarfishStrategy.cpp:instructionReturn"]}
{"id": "C49", "title": "While dived, only movement instructions act", "statement": "After *><> `u` every instruction that is not a movement instruction is skipped without effect until `O`.", "quantifier": "all instructions, all states", "why_tests_cant": "All instruction semantics x all states.", "anchors": ["src/FungeStateNormal.cpp:FungeStateNormal::execute", "src/StarfishStrategy.cpp:instructionDive"]}
{"id": "C50", "title": "Direction instructions set exactly the advertised delta", "statement": "`< > ^ v h l r x ? [ ] _ | m w` set the delta to the advertised direction in every dimension count (`?` to one of the 2d unit vectors, whatever the random source returns), consume exactly their documented operands, and alter nothing else.", "quantifier": "all states without the modes of the fingerprint MODE (which change what these instructions do), all random outcomes, all dimension counts", "why_tests_cant": "All random outcomes, all dimensions and prior deltas.", "anchors": ["src/Unefunge93Strategy.cpp", "src/Befunge93Strategy.cpp", "src/Befunge98Strategy.cpp", "src/Trefunge98Strategy.cpp", "src/Unefunge98Strategy.cpp"]}
{"id": "C51", "title": "FRTH roll and pick address the n-th value and roll is invertible", "statement": "`P` (pick) pushes a copy of the n-th value; `L` (roll) brings the n-th value to the top shifting the ones above; rolling n and then -n restores the stack when it holds more than n values; values deeper than n are never touched.", "quantifier": "all stacks in their ordinary mode (without the modes of the fingerprint MODE, which make them pop or push at the other end) and all n", "why_tests_cant": "All depths and indices.", "anchors": ["src/fingerprint/FingerprintFRTH.cpp"]}
{"id": "C52", "title": "A REFC reference always dereferences to the vector it was made from", "statement": "A value returned by `R` dereferences with `D` to the same vector for the rest of the run, no matter how many other references are created by any IP; distinct references have distinct numbers.", "quantifier": "all histories of reference/dereference, all random outcomes", "why_tests_cant": "All histories and all random draws.", "anchors": ["src/fingerprint/FingerprintREFC.cpp"]}
{"id": "C53", "title": "SUBR return undoes call", "statement": "`C` followed (after any balanced work) by `R` resumes just after the call with the caller's delta, carrying the requested number of arguments in order; the values under the arguments are untouched.", "quantifier": "all positions, deltas, argument counts and stacks", "why_tests_cant": "All argument counts and stack shapes.", "anchors": ["src/fingerprint/FingerprintSUBR.cpp"]}
{"id": "C54", "title": "STRN put/get and length agree", "statement": "A string stored with `P` and fetched with `G` from the same vector is the same string; `N` reports its length; `L`/`R`/`M` return the leftmost/rightmost/middle part; `A` concatenates.", "quantifier": "all strings without NUL, all vectors, all stacks in their ordinary mode", "why_tests_cant": "All strings and positions.", "anchors": ["src/fingerprint/FingerprintSTRN.cpp"]}
{"id": "C55", "title": "Numbers printed in a base read back the same", "statement": "For every base the BASE fingerprint both prints and reads, a non-negative number printed in that base reads back as the same number; two different numbers never print the same.", "quantifier": "all non-negative numbers and all supported bases", "why_tests_cant": "All numbers and bases.", "anchors": ["src/fingerprint/FingerprintBASE.cpp"]}
{"id": "C56", "title": "TOYS block copies copy the block and nothing else", "statement": "`C`/`K` (copy) make the destination area equal to the source area and change nothing outside it; `M`/`V` (move) also blank the source; `S` fills an area with one value; `F`/`G` store and fetch matrices.", "quantifier": "all areas, positions, sizes and contents", "why_tests_cant": "All sizes, offsets and overlaps.", "anchors": ["src/fingerprint/FingerprintTOYS.cpp"]}
{"id": "C57", "title": "IIPC never mixes up IPs", "statement": "`I`/`A`/`L`/`G`/`P` address exactly the IP with the given identity: `P` pushes on that IP's stack only, `G` pops from it only, `L` reads it without changing it; a dormant IP wakes exactly when its stack has been touched.", "quantifier": "all populations of IPs and all histories", "why_tests_cant": "All populations and interleavings.", "anchors": ["src/fingerprint/FingerprintIIPC.cpp"]}
{"id": "C58", "title": "FING reassigns one letter and nothing else", "statement": "`X` swaps the meanings of two letters, `Y` drops a letter's current meaning, `Z` copies one letter's meaning to another; all other letters keep their meaning and X twice restores it.", "quantifier": "all semantic tables, all letter pairs", "why_tests_cant": "All tables and pairs.", "anchors": ["src/fingerprint/FingerprintFING.cpp"]}
{"id": "C59", "title": "NFUN extends the number of dimensions to cover every axis it moves along", "statement": "After an NFUN direction instruction the universe has at least as many dimensions as the largest axis with non-zero delta, so that bounds checking and wrapping apply to every axis the IP moves along.", "quantifier": "all axes and states", "why_tests_cant": "All axis numbers.", "anchors": ["src/fingerprint/FingerprintNFUN.cpp"]}
{"id": "C60", "title": "Choosing a standard selects its defaults regardless of how it is chosen", "statement": "Selecting Befunge-93 (by option or by file extension) yields torus topology, multispace strings and one-byte cells; selecting Funge-98 yields Lahey, SGML and 8-byte cells; later -f options override earlier settings.", "quantifier": "all option sequences and file names", "why_tests_cant": "All sequences of options.", "anchors": ["src/Funge.cpp:58-90 (createUniverse)", "src/Funge.cpp:104-243 (fungemain)"]}
{"id": "C61", "title": "Only letters can be given new meanings", "statement": "In Funge-93, Funge-98 and ><>: whatever fingerprints a program loads, unloads or rebinds (with FING), in any run and for every IP that ever exists, each character that is not an upper-case letter keeps the meaning given to it by the strategies of the standard the interpreter was started with.", "quantifier": "all programs, all numbers of turns, all IPs, all non-letter characters", "why_tests_cant": "It is an invariant over every program and every interleaving of fingerprint loads, FING rebindings and thread creation; a test can only try particular programs.", "anchors": ["src/FungeRunner.cpp", "src/FingerprintStrategy.cpp", "src/fingerprint/FingerprintFING.cpp"]}
{"id": "C62", "title": "A twin understands what its parent understands", "statement": "An IP created by `t` gives every letter the meaning its parent gives it at that moment, whatever fingerprints were loaded, unloaded or rebound before.", "quantifier": "all IPs, all letters, all histories of loading, unloading and rebinding", "why_tests_cant": "All histories of a table of meanings; the twin's table is rebuilt from a list, not copied.", "anchors": ["src/FungeRunner.cpp:58-75", "src/FingerprintStrategy.cpp:50-57"]}
{"id": "C63", "title": "The fingerprints named on the command line are the ones that are loaded", "statement": "Each option -lNAME, wherever it stands among the options, asks for the fingerprint whose number is written NAME in base 256, in the order of the options; a .beq file asks for NFUN in addition.", "quantifier": "all option sequences, all names, all files", "why_tests_cant": "All names: the number is accumulated in a type narrower than the one it is stored in.", "anchors": ["src/Funge.cpp:213-216", "src/Funge.cpp:62-64"]}
{"id": "C64", "title": "~ reads the input character by character", "statement": "Executing ~ pushes the next character of the input and consumes only that one, so n executions deliver the first n characters in order; at the end of the input it reflects and changes nothing.", "quantifier": "all inputs, all stacks, any number of executions", "why_tests_cant": "All byte sequences; the code treats one byte specially.", "anchors": ["src/Unefunge93Strategy.cpp:220-234"]}
{"id": "C65", "title": "& reads back what . prints", "statement": "& skips to the next number in the input, in the notation that . prints, pushes its value and leaves the character after it to be read next; if there is no number it reflects.", "quantifier": "all numbers of 64 bits, all inputs", "why_tests_cant": "All 2^64 numbers and all contexts: signs, end of input and overflow are separate cases.", "anchors": ["src/Unefunge93Strategy.cpp:195-218", "src/Unefunge93Strategy.cpp:178-193"]}
{"id": "C66", "title": "A BeQunge file puts each character where it says", "statement": "Loading a .beq file stores each character of each line of each block at the point given by the block's Origin and Coord, the number of the line and the column, in the order of the file, and nothing else; loading ends for every file.", "quantifier": "all files: any number of blocks, lines, columns and coordinates", "why_tests_cant": "All texts and all coordinates; what happens when the file is shorter than announced or has bytes above 127 is in corners no example shows.", "anchors": ["src/Field.cpp:98-163"]}
{"id": "C67", "title": "A BeQunge file has the dimensions it declares", "statement": "A .beq file that declares `Dimensions n` is loaded as a program of n dimensions.", "quantifier": "all files, all n", "why_tests_cant": "The declared number is computed and then overwritten in another function, which only shows for programs that do not reach their last dimension.", "anchors": ["src/Field.cpp:121-127", "src/Field.cpp:157-162", "src/Field.cpp:34-36"]}
{"id": "C68", "title": "A multiverse file starts the programs it names", "statement": "Loading an .fmv file creates one universe for each program it names, in order, found relative to the directory of the .fmv file, with the arguments of its line after the common ones; .fmv files may name .fmv files.", "quantifier": "all file systems, all nestings of multiverse files, all names and arguments", "why_tests_cant": "Recursion over arbitrary file trees; the directory and the end of the file are handled by string concatenation.", "anchors": ["src/Funge.cpp:22-56", "src/Funge.cpp:58-102"]}
{"id": "C69", "title": "MODU: remainders with the documented sign", "statement": "Of the instructions of MODU (a library written in Funge), R leaves the remainder with the sign of the dividend, M the remainder with the sign of the divisor and U the remainder that is not negative; a divisor of 0 leaves 0. Only the two operands are consumed and nothing else changes.", "quantifier": "all pairs of cells, all stacks and states of the caller", "why_tests_cant": "Whether the sign is right depends on signs, sizes and divisibility of two 64-bit operands, through a program written in Funge.", "anchors": ["fing/MODU.fl:1-14", "src/fingerprint/FingerprintFungeLib.cpp:52-58", "src/fingerprint/FingerprintDynamic.cpp:20-136"]}
{"id": "C70", "title": "ROMA: Roman numerals", "statement": "I, V, X, L, C, D and M push the value of their numeral. P takes a number from the stack and prints it in Roman numerals followed by a space; numbers that are not positive are printed as 0.", "quantifier": "all positive cells without bound on the number of thousands, all stacks and states of the caller", "why_tests_cant": "P loops over the thousands and takes one of thirty ways through its code for the digits.", "anchors": ["fing/ROMA.fl:1-24", "src/fingerprint/FingerprintFungeLib.cpp:52-58"]}
{"id": "C71", "title": "TERM: terminal control sequences", "statement": "C, H, L and S print the escape sequence for clearing the screen, moving home, clearing to the end of the line and of the screen. D and U move the cursor down and up by the number of lines on the stack (the other way if it is negative, not at all if it is 0). G moves the cursor to a column and row counted from 0.", "quantifier": "all cells, all stacks and states of the caller", "why_tests_cant": "The numbers are printed by loops over their decimal digits written in Funge.", "anchors": ["fing/TERM.fl:1-18", "src/fingerprint/FingerprintFungeLib.cpp:52-58"]}
{"id": "C72", "title": "NULL: every instruction reflects", "statement": "NULL binds all 26 letters, and each of them reverses the direction of the thread that executes it and changes nothing else.", "quantifier": "all letters, all directions in any number of dimensions, all states of the caller", "why_tests_cant": "The reflection is done to the caller by a thread in another universe; that nothing else changes is a statement about the whole state.", "anchors": ["fing/NULL.fl:1-52", "src/fingerprint/FingerprintDynamic.cpp:119-121", "src/fingerprint/FingerprintFungeLib.cpp:52-58"]}
{"id": "C73", "title": "Bitwise instructions combine every bit", "statement": "The and, or and exclusive-or instructions of BITW, BOOL, ORTH and FIXP replace the two topmost cells by the cell whose every bit is that combination of the two bits in that place; N of BITW and BOOL flips every bit; L and R of BITW shift by the number of places given, for every number of places.", "quantifier": "all cells, all bit positions, all shift counts, all stacks (short ones included)", "why_tests_cant": "2^128 pairs of operands, and shift counts whose effect is undefined look fine on the machine the test runs on", "anchors": ["src/fingerprint/FingerprintBITW.cpp", "src/fingerprint/FingerprintBOOL.cpp", "src/fingerprint/FingerprintORTH.cpp", "src/fingerprint/FingerprintFIXP.cpp"]}
{"id": "C74", "title": "CPLI: complex integers", "statement": "A, S and M of CPLI replace the two complex numbers on top of the stack by their sum, difference and product whenever the result fits two cells, and change nothing else; O writes the number in the notation a+bi.", "quantifier": "all cells, all stacks (short ones included)", "why_tests_cant": "2^256 operands; overflow of an intermediate product is undefined behaviour that a test machine hides", "anchors": ["src/fingerprint/FingerprintCPLI.cpp"]}
{"id": "C75", "title": "JSTR: strings along a vector", "statement": "P of JSTR stores a popped string cell by cell along a step vector and changes no other cell; G fetches such a string so that it can be popped again as the same string.", "quantifier": "all lengths, points, steps, storage offsets, field contents", "why_tests_cant": "The length and the direction of the walk are unbounded; tests use short strings going east, and palindromes hide the order", "anchors": ["src/fingerprint/FingerprintJSTR.cpp"]}
{"id": "C76", "title": "ORTH: absolute access and single components", "statement": "P and G of ORTH access the cell at the coordinates given, counted from the origin; what P stores G fetches; V, W, X and Y set one component of the delta or position and leave the others; Z skips the next instruction if the value is 0; S writes a string and a newline.", "quantifier": "all coordinates, offsets, deltas in any number of dimensions, modes", "why_tests_cant": "Holds for all 64 bit coordinates and modes; a mode such as hovering changes what setting a delta means", "anchors": ["src/fingerprint/FingerprintORTH.cpp"]}
{"id": "C77", "title": "TOYS: stack arithmetic", "statement": "A, B, D, E, H, I, N and P of TOYS compute copies, butterfly, decrement, sum of the stack, shift, increment, logical negation and product of the stack whenever the result fits a cell.", "quantifier": "all stacks of any length, all cells", "why_tests_cant": "Sum and product range over stacks of any length; overflow of a partial sum is undefined behaviour", "anchors": ["src/fingerprint/FingerprintTOYS.cpp"]}
{"id": "C78", "title": "TOYS: looking, turning and moving", "statement": "L and R push the cell on the left and right of the IP, Q stores behind it, T branches along a given axis, X, Y and Z move along an axis the program has (and reflect otherwise), U picks a random direction and replaces itself by its arrow.", "quantifier": "all positions, deltas, axes, random choices, dialects", "why_tests_cant": "Depends on every delta and on every outcome of the random choice, and on rarely used flags", "anchors": ["src/fingerprint/FingerprintTOYS.cpp"]}
{"id": "C79", "title": "TOYS: W waits for a cell", "statement": "An IP on a W stays there, with its stack untouched and nothing else changed, as long as the cell at the given point is less than the given value; it goes on when the cell equals the value and reflects when it is greater.", "quantifier": "all points, values, fields, any number of turns spent waiting", "why_tests_cant": "The number of turns spent waiting is unbounded and depends on the other threads", "anchors": ["src/fingerprint/FingerprintTOYS.cpp", "src/FungeRunner.cpp"]}
{"id": "C80", "title": "HRTI: elapsed time", "statement": "T of HRTI pushes the time passed since the last M of the same IP, whatever happened in between; without a mark, or after E, it reflects. S pushes a number of microseconds less than a second.", "quantifier": "all clock readings, all executions between M and T", "why_tests_cant": "What happens between M and T is arbitrary", "anchors": ["src/fingerprint/FingerprintHRTI.cpp"]}
{"id": "C81", "title": "LONG: 128 bit arithmetic", "statement": "A, S, M, D, O, N and B of LONG replace long numbers by the sum, difference, product, quotient, remainder, negation and absolute value with 128 bits (0 for a division by zero); L and R multiply and divide by a power of two; E extends a cell keeping its value; P writes a long number in decimal and Z reads back what P writes.", "quantifier": "all pairs of 128 bit numbers, all stacks, decimal notations of any length", "why_tests_cant": "2^256 pairs of operands", "anchors": ["src/fingerprint/FingerprintLONG.cpp"]}
{"id": "C82", "title": "FPDP, FPSP and FPRT: floating point numbers", "statement": "The two-operand letters of FPDP and FPSP apply the operation to the lower and the upper number in this order, the one-operand letters of FPDP replace the number on top by the value of their function; an integer survives the conversion to floating point and back if it is representable; FPRT leaves the text that printf makes of the value and the format.", "quantifier": "all numbers, formats and stacks, all floating point implementations", "why_tests_cant": "Texts of any length; an access outside of an object looks fine on the machine the test runs on", "anchors": ["src/fingerprint/include/FingerprintFloat.h", "src/fingerprint/FingerprintFPRT.cpp"]}
{"id": "C83", "title": "MVRS copies exactly the area asked for between universes", "statement": "F of MVRS copies the area of the given size from the given place of the named universe to the given place of the present one, and P the other way: every cell of the area, no other cell, and nothing else in any universe changes but that the arguments are gone. An unknown name reflects. C pushes the number of universes and N the present one's name.", "quantifier": "for all multiverses, sizes (any sign), sources, destinations, dimensions and names", "why_tests_cant": "A test copies a few areas; which cells outside the area stay as they are is a statement about all cells, sizes and universes.", "anchors": ["src/fingerprint/FingerprintMVRS.cpp:62-77", "src/fingerprint/FingerprintMVRS.cpp:98-125", "src/VectorRange.cpp"]}
{"id": "C84", "title": "MVRS creates an empty universe that may do no more than its creator", "statement": "B of MVRS makes a universe of the given name (a free one derived from it if it is taken) with an empty field and nobody in it, of the dimensions, language and modes asked for, and with the permissions of the universe it was made in; bad arguments reflect; B always ends.", "quantifier": "for all multiverses, creators' configurations, names, dimensions, languages and flags", "why_tests_cant": "Permissions have to hold for every program a sandboxed universe may run; that the search for a free name ends has to hold for every set of names.", "anchors": ["src/fingerprint/FingerprintMVRS.cpp:24-61", "src/FungeMultiverse.cpp:48-61", "src/include/FungeConfig.h:50-67"]}
{"id": "C85", "title": "An IP that goes to another universe is there and nowhere else", "statement": "J and G of MVRS take the IP with all it has to the named universe: it leaves the one it was in, which is otherwise unchanged, is last among those of the other one, at the same place (J) or at the place and with the delta given (G); from then on it reads and writes the other universe's field; and no IP is ever run by the threads of two universes at once.", "quantifier": "for all multiverses, IPs, names, places and deltas, and all interleavings of the universes' threads", "why_tests_cant": "A race between two scheduler threads shows rarely if ever in a test; what else changes in which universe is a statement about all states.", "anchors": ["src/fingerprint/FingerprintMVRS.cpp:78-97", "src/FungeUniverse.cpp:85-145", "src/FungeStrategy.cpp:14"]}
{"id": "C86", "title": "An IP's course is its own", "statement": "Whatever one IP executes in its turn, every other IP stays where it is and keeps its delta, storage offset, identity, loaded fingerprints, string mode and the meanings of its instructions; at most it is stopped. When its turn comes it goes on from where it was.", "quantifier": "for every universe, every number of IPs, every program and every instruction including those of fingerprints", "why_tests_cant": "Tests with two threads exercise a few interleavings and instructions; that no instruction at all reaches into another IP needs an argument over every one of them.", "anchors": ["src/FungeUniverse.cpp:113-150", "src/FungeRunner.cpp:120-160", "src/fingerprint/FingerprintIIPC.cpp:17-75"]}
{"id": "C87", "title": "A program without storing instructions never changes itself", "statement": "Fungespace changes only through the instructions that are there to change it: p, s, i, ><>'s p, and P of JSTR, ORTH and STRN, C F J K M O Q S U V of TOYS. Hence a program none of whose cells (modulo 256, because k executes the low byte of a cell) is one of them, and which cannot acquire one by ( ) or FING, holds the same cells for ever, whatever its input, its threads and the number of its steps. Exceptions, also proved: switch mode (MODE's S), in which brackets replace themselves.", "quantifier": "for every instruction and state; for every program (space, standard other than *><>, fingerprints loaded at the start), every input, every number of turns", "why_tests_cant": "An unwanted write could occur anywhere in an unbounded space, by any of some 300 instructions, after any number of steps; a test looks at a few cells after a few steps.", "anchors": ["src/Field.cpp:285-300", "src/InstructionPointer.cpp:40-42", "src/Unefunge93Strategy.cpp:17-63", "src/Unefunge98Strategy.cpp:113-139", "src/FungeRunner.cpp:132-164", "src/fingerprint/FingerprintTOYS.cpp"]}
{"id": "C88", "title": "Stack instructions of Funge", "statement": "The digits 0-9 and a-f push their value; : doubles the top value, \\ exchanges the top two, $ drops one, n drops all, a missing value counting as 0. They change nothing else. In every Funge-98 program the characters have these meanings from the start, whatever fingerprints it begins with.", "quantifier": "all states, all stacks, all Funge-98 configurations", "why_tests_cant": "Stacks of all depths, all configurations of standard, dimensions and fingerprints.", "anchors": ["src/Unefunge93Strategy.cpp", "src/Unefunge98Strategy.cpp"]}
{"id": "C89", "title": "Fetch and store character", "statement": "' pushes the value of the next cell and moves over it so that it is not executed; s pops a value, puts it in the next cell and moves over it. No other cell changes and a value put by s is what ' would read.", "quantifier": "all programs, positions, directions, values", "why_tests_cant": "All 64-bit values, positions and directions, including wrapping around the edge.", "anchors": ["src/Unefunge98Strategy.cpp:instructionFetch", "src/Unefunge98Strategy.cpp:instructionStore"]}
{"id": "C90", "title": "Stack, arithmetic and comparison instructions of ><>", "statement": "In ><> and *><> digits, : ~ $ @ l { } r + - * , % = ( ) make of the stack what the language says and change nothing else; ? skips the next instruction just if it pops a zero; division by zero is an error. { and } undo each other, as do r and r, $ and $, and : and ~; @ has order three. L R S T of the fingerprint FISH are the same as { } r @.", "quantifier": "all stacks of values, any floating point arithmetic", "why_tests_cant": "Stacks of all depths with all values.", "anchors": ["src/FishStrategy.cpp", "src/fingerprint/FingerprintFISH.cpp"]}
{"id": "C91", "title": "Mirrors of ><>", "statement": "\\ / | _ # of ><> (and N M V H of FISH) reflect the direction of travel as drawn, for every direction, leave all other coordinates of it and everything else alone, and undo themselves.", "quantifier": "all directions (also not along an axis), all states outside of hover mode (MODE's H, in which directions are added)", "why_tests_cant": "All directions in all dimensions.", "anchors": ["src/FishStrategy.cpp:instructionMirror1", "src/fingerprint/FingerprintFISH.cpp"]}
{"id": "C92", "title": "The echo program copies its input", "statement": "test/echo.bf, run as Befunge-93 or Befunge-98, prints exactly the bytes it reads, in order: at any time its output is the beginning of the input, after enough turns it is all of it, and the program never ends or goes wrong.", "quantifier": "all inputs of any length, all numbers of turns, all cell sizes", "why_tests_cant": "A test feeds it a few texts; the claim is about every input and every moment of an endless run.", "anchors": ["test/echo.bf", "src/Funge.cpp:createUniverse", "src/FungeUniverse.cpp:operator()", "src/Unefunge93Strategy.cpp:instructionCharIn"]}
{"id": "C93", "title": "The factorial program", "statement": "test/cat.bf, given a natural number, prints its factorial and ends, whatever else the input contains around the number.", "quantifier": "all numbers, all inputs around them, Befunge-93 and Befunge-98, all cell sizes, unbounded running time", "why_tests_cant": "The number of turns grows with the number; a test runs a handful of numbers and none that overflow.", "anchors": ["test/cat.bf", "src/FungeUniverse.cpp:operator()", "src/Unefunge93Strategy.cpp:instructionMultiply", "src/Unefunge93Strategy.cpp:instructionNumOut", "src/Unefunge93Strategy.cpp:instructionNumIn"]}
{"id": "C94", "title": "Quoted texts are printed", "statement": "A one-line program that quotes a text and prints it with the usual loop (\"...\">:#,_@) prints exactly the characters of the text, last one first, and ends; with SGML strings if no two blanks follow each other.", "quantifier": "all ASCII texts of any length, Befunge-93 and Befunge-98, all cell sizes, both string styles", "why_tests_cant": "Tests print a few fixed texts; positions, wrapping and string mode depend on length and contents of the text.", "anchors": ["test/hello.bf", "src/Field.cpp:parse", "src/FungeStateString.cpp:execute", "src/InstructionPointer.cpp:next", "src/FungeUniverse.cpp:operator()"]}
{"id": "C95", "title": "Arithmetic expressions in reverse Polish notation", "statement": "The program made of an arithmetic expression in reverse Polish notation (digits, + - * / %, ! and greater-than) followed by .@ prints the value of the expression and ends.", "quantifier": "all expressions of any size and depth, Befunge-93 and Befunge-98, all cell sizes", "why_tests_cant": "Unbounded many expressions; a test evaluates a handful of them.", "anchors": ["src/Unefunge93Strategy.cpp:20-60", "src/Unefunge93Strategy.cpp:121-173", "src/Unefunge93Strategy.cpp:instructionNumOut", "src/FungeUniverse.cpp:operator()"]}
{"id": "C96", "title": "The debugger's window shows the program", "statement": "The commands list and get show the cells around a position, one row of the picture per row of the program: every cell with its own character, marked exactly if an IP is there, if it is a breakpoint or a watchpoint, if it is the middle, or if the selected IP is there. They end for every size and every pair of axes.", "quantifier": "all programs, positions, window sizes, sets of IPs, breakpoints and watchpoints", "why_tests_cant": "Pictures of unbounded size over unbounded programs; termination of the loop over the window depends on all coordinates.", "anchors": ["src/Defunge.cpp:131-172", "src/Defunge.cpp:330-380"]}
{"id": "C97", "title": "The debugger's reports are the state of the program", "statement": "At the debugger's prompt, peek shows every stack with its values, peek n s the n-th value from the top of stack s, position, delta and storage those of the selected IP, backtrace the positions it came through, read the value of a cell, and thread every IP with its own position.", "quantifier": "all states of the program, all numbers of stacks, all depths, positions and values", "why_tests_cant": "The debugger is interactive and not tested at all; the reports depend on unbounded state.", "anchors": ["src/Defunge.cpp:126-129", "src/Defunge.cpp:203-302", "src/Defunge.cpp:410-421"]}
{"id": "C98", "title": "Debugger commands change only what they say", "statement": "Looking at a program in the debugger does not disturb it: whatever is typed at the prompt, programs and stacks stay as they are; only setpos and setdelta change the selected IP (to what is typed), only break and watch add a point, only thread and universe change what is selected, only run, step and quit leave the prompt, and every other line changes nothing.", "quantifier": "all sessions, that is all sequences of lines of any characters, in all states", "why_tests_cant": "All possible input lines and sessions.", "anchors": ["src/Defunge.cpp:79-124", "src/Defunge.cpp:174-460", "src/FungeDebugger.cpp:87-102"]}
{"id": "C99", "title": "The system gets exactly the string on the stack", "statement": "The command that = runs, the directory that C, M and R of DIRF change to, make and remove, and the code that E and I of PERL evaluate are the null-terminated string on the stack, unchanged; nothing else is asked of the system; and what the system answers is pushed, or the IP is reflected if it could not be done.", "quantifier": "all strings, all stacks below them, all answers of the system", "why_tests_cant": "All strings, including those with quotes, backslashes, dollar signs and characters beyond a byte, and all ways in which the system can fail.", "anchors": ["src/Unefunge98Strategy.cpp:284-295", "src/fingerprint/FingerprintDIRF.cpp:17-43", "src/fingerprint/FingerprintPERL.cpp:17-52"]}
{"id": "C100", "title": "What i leaves on the stack makes o write the file back", "statement": "After reading a file, i leaves two vectors that are suitable arguments to a corresponding o: with the flag and the name of another file pushed on top of them, o writes exactly the bytes that i has read.", "quantifier": "all files, all places, all storage offsets, all spaces that are blank at the place", "why_tests_cant": "Unbounded files; the storage offset enters twice; only text files with a line break at the end behave.", "anchors": ["src/Unefunge98Strategy.cpp:240-282", "src/Field.cpp:52-96", "src/Field.cpp:190-230"]}
{"id": "C101", "title": "Befunge programs run as the language defines", "statement": "A Befunge-93 or Befunge-98 program that stays within the words the two languages share and the ordinary words of Befunge-98 (arithmetic, stacks, blocks, the storage offset, directions, strings, comments, input and output, reading and changing its own cells, repeating an instruction, asking about itself and the playfield, ending; fingerprints, files and other programs where they are not allowed) does what a small machine written from the language definition does: after any number of ticks what was printed, what was read, the stacks, the storage offset, the playfield and the place and direction of the IP are those of a state the machine reaches; if the program ends, it has printed what a complete run of the machine prints and has its exit code; if the machine ends, so does the program.", "quantifier": "all programs of any number of lines of bytes, all inputs, all random choices, all numbers of ticks, for Befunge-93 and Befunge-98, byte and full-size cells, both kinds of strings; for Befunge-93 both on a playfield that grows and on the torus of 80 by 25 cells", "why_tests_cant": "All programs, including those that change themselves, run forever or depend on random choices; the space of programs and runs is infinite and the words interact through the playfield.", "anchors": ["src/FungeStateNormal.cpp:1-60", "src/FungeStateString.cpp:1-94", "src/Unefunge93Strategy.cpp:15-295", "src/Befunge93Strategy.cpp:15-44", "src/Unefunge98Strategy.cpp:15-440", "src/Field.cpp:14-165", "src/InstructionPointer.cpp:15-120"]}
{"id": "C102", "title": "><> programs run as the language describes", "statement": "A ><> program does what a small machine written from the description of the language does: after any number of ticks what was printed, what was read, all stacks, which registers are full, the codebox and the place and direction of the fish are those of a state the machine reaches; if the program ends, normally or with \"something smells fishy\", it has printed what a complete run of the machine prints and has its exit code (1 after an error); if the machine ends, so does the program.", "quantifier": "all programs of any number of lines of bytes, all inputs, all random choices, all numbers of ticks, every arithmetic of doubles, byte and full-size cells", "why_tests_cant": "All programs, including those that change themselves, run forever or depend on random choices; the space of programs and runs is infinite and the words interact through codebox and stacks.", "anchors": ["src/FishStrategy.cpp:15-523", "src/FungeStateNormal.cpp:1-60", "src/FungeStateString.cpp:1-94", "src/FungeRunner.cpp:132-160", "src/Field.cpp:14-165", "src/InstructionPointer.cpp:15-120"]}
{"id": "C103", "title": "STRN: comparing, showing and reading strings", "statement": "`C` takes the two topmost strings and leaves one number that fits an int: 0 exactly if they are the same, negative exactly if the topmost comes first in the dictionary order of their bytes (as unsigned values, a string before its continuations), positive exactly if the other does; swapping the strings swaps the sign, and the order is transitive. `D` takes a string and prints exactly its characters in order. `I` takes exactly one line of the input with its end (all of it if there is none) and pushes its characters; `ID` prints the line that was typed, `IIC` compares the two lines.", "quantifier": "all strings, all stacks beneath them, all inputs, all lines without NUL, all states with an ordinary stack", "why_tests_cant": "There are unboundedly many strings and lines; a comparison that treats bytes as signed, or confuses a prefix with an equal string, is right on almost every sample.", "anchors": ["src/fingerprint/FingerprintSTRN.cpp:24-28", "src/fingerprint/FingerprintSTRN.cpp:29-32", "src/fingerprint/FingerprintSTRN.cpp:52-56"]}
{"id": "C104", "title": "Concurrent Befunge-98 programs run as the language defines", "statement": "A Befunge-98 program in which IPs split with t does what a machine of several IPs on one playfield does, each of them a machine as in C101 when it is its turn: the IPs take turns in the order of their creation with a new IP before its parent, one tick each, blanks and comments taking no tick; t makes a twin that goes the other way from the same place with a copy of the parent's stack and storage offset; @ ends one IP, q ends all with its exit code. After any number of turns what was printed and read, the playfield, and place, direction, storage offset and stacks of every IP are those of a state the machine reaches; if all IPs have stopped, the program has printed what a complete run prints; if the machine ends, so does the program.", "quantifier": "all programs of any number of lines of bytes, all inputs, all random choices, all numbers of turns, any number of IPs", "why_tests_cant": "All programs and all interleavings that the order of turns makes of any number of IPs sharing one playfield, input and output; tests see a handful of them.", "anchors": ["src/FungeUniverse.cpp", "src/FungeRunner.cpp", "src/Befunge98Strategy.cpp", "src/Unefunge98Strategy.cpp", "src/InstructionPointer.cpp"]}
{"id": "C105", "title": "A program cannot see the future, nor what it has written", "statement": "What a program has done up to some moment - every IP, stack, cell of the space and everything written, executed or opened - depends only on the input it has read and on the answers it has been given by then: with any other continuation of the input of which it has not read the beginning, and any other answers to questions it has not asked, it has done exactly the same. What was written before has no influence on what it does next. Loops inside instructions do not depend on any bound: if they end, they end in the same way under every larger one.", "quantifier": "All universes in all states with all programs in all dialects, fingerprints, permissions and modes; all numbers of turns; all inputs and continuations; all answers (random numbers, times, results of commands, file contents, directories); all past effects; all bounds.", "why_tests_cant": "A test compares finitely many runs on finitely many inputs; the claim is about every pair of runs with a common beginning, through every instruction of every fingerprint.", "anchors": ["src/FungeRunner.cpp:132-160", "src/FungeUniverse.cpp:118-150", "src/Unefunge93Strategy.cpp:184-218", "src/fingerprint/FingerprintSTRN.cpp", "src/fingerprint/FingerprintBASE.cpp", "src/fingerprint/FingerprintREFC.cpp:20-30"]}
{"id": "C106", "title": "FIXP, CPLI, FPDP, FPSP and FPRT: the other letters", "statement": "N, S and V of FIXP replace the number on top by its negative, its sign and its absolute value, D by a random number from 0 up to it, every one of which can come; the other letters of FIXP, and D and V of CPLI, replace their arguments by the value of their own function there, with the arguments in the documented order. P of FPDP and FPSP writes the number and a space, R of FPDP replaces a text by the number it says, L and S of FPRT leave the text that printf makes of a number of 64 bits given as two cells and of a string. Nothing else changes.", "quantifier": "All stacks with all numbers, all texts and formats, all behaviours of the floating point library, all answers of the random device.", "why_tests_cant": "A test picks a few numbers; the claim is for all numbers, texts and formats, with whatever lies below them on the stack, and the places where it fails are single numbers (the least one, 2^31, 2^32).", "anchors": ["src/fingerprint/FingerprintFIXP.cpp:19-131", "src/fingerprint/FingerprintCPLI.cpp:22-57", "src/include/FingerprintFloat.h:94-108", "src/fingerprint/FingerprintFPRT.cpp:54-77"]}
{"id": "C107", "title": "The fisherman, and the other words of *><>", "statement": "A fish that swims level and meets the fisherman is sent down, the next time up, and so on in turns, whatever happens in between; one that meets it while falling or rising goes on in the last level direction it had, however long ago that was. I and D make the next newer and the next older stack the current one, or are errors where there is none; S takes one number; h, m and s put what the clock says on top. F, I and D of the fingerprint FISH do the same in Funge. Nothing else changes.", "quantifier": "All *><> programs in all states they can reach from a start, all numbers of steps between two fishermen, all stacks, all answers of the clock; for FISH all states of a Funge IP.", "why_tests_cant": "What a fish does at a fisherman depends on its whole past: a test has only a few pasts.", "anchors": ["src/StarfishStrategy.cpp:22-54", "src/StarfishStrategy.cpp:84-90", "src/StarfishStrategy.cpp:124-162", "src/fingerprint/FingerprintFISH.cpp:44-56", "src/InstructionPointer.cpp:86-116"]}
{"id": "C108", "title": "Moving an IP never overflows a coordinate", "statement": "Every step of an IP, wrapping included, is defined: the sums and opposites of coordinates it computes fit in their 64-bit type, so the IP goes where arithmetic on unbounded numbers says. (Where program, IP and step lie within 2^62 of the origin this holds; a program can choose a direction with x for which the next step is undefined.)", "quantifier": "for all dimensions, topologies, fields, positions and directions", "why_tests_cant": "Signed overflow is undefined behaviour: a test on one compiler shows one outcome of it, and no set of sample coordinates shows that a loop of unbounded length stays within range.", "anchors": ["src/InstructionPointer.cpp:44-80", "src/Vector.cpp:62-100", "src/include/funge_types.h:14"]}
{"id": "C109", "title": "A universe is taken down once and completely", "statement": "However the threads of a universe are interleaved with its destructor: every IP that was ever added is deleted exactly once and not used afterwards, every thread is joined once, and the destructor comes to an end. (With native threads the destructor can join a thread it has deleted; an IP that is added while the universe is being killed runs on for ever.)", "quantifier": "for all interleavings of scheduler, IPs, killing, adding and waiting threads and destructor; any number of IPs", "why_tests_cant": "The failures need a particular interleaving of threads at the end of a run; a test sees a few of infinitely many, and use of freed memory often goes unnoticed.", "anchors": ["src/FungeUniverse.cpp:53-70", "src/FungeUniverse.cpp:85-177"]}
{"id": "C110", "title": "The interpreter exits only when every universe has come to an end", "statement": "When the main thread stops waiting and the interpreter exits, no universe has an IP left, neither one that was there at the beginning nor one created meanwhile nor that of a library; and when no universe has an IP left the interpreter does exit. (An IP that travels between universes can be forgotten.)", "quantifier": "for all numbers of universes and IPs and all interleavings of the waiting thread with IPs that stop, split, call libraries, return, create universes and kill their universe", "why_tests_cant": "Whether an IP is missed depends on where it is at the moment a universe is looked at; a test sees one schedule, there are infinitely many.", "anchors": ["src/FungeMultiverse.cpp:63-80", "src/FungeUniverse.cpp:72-178", "src/fingerprint/FingerprintFungeLib.cpp:52-58", "src/Funge.cpp:236-246"]}
{"id": "C111", "title": "Shared data is used by one thread at a time", "statement": "Whatever the interleaving of the threads of the interpreter, no two of them ever use the same shared variable at once with one of them changing it: the list of IPs of a universe, its list of threads, its exit code and whether it is running, Fungespace, the table of universes, the values of a stack; and a lock is given back only by the thread that holds it. (Several functions read without taking the lock, and Fungespace has none.)", "quantifier": "for all numbers of threads, all sequences of calls they make, all numbers of turns of the loops in them, all interleavings", "why_tests_cant": "A data race is undefined behaviour whose consequences depend on timing and compiler; a test that passes says nothing about the other interleavings.", "anchors": ["src/FungeUniverse.cpp:53-177", "src/FungeUniverse.cpp:207-214", "src/FungeUniverse.cpp:235-262", "src/FungeMultiverse.cpp:32-104", "src/Stack.cpp:30-112", "src/Field.cpp:248-319"]}
{"id": "C112", "title": "A fingerprint's ID is the name of one file in the directory of libraries", "statement": "The bytes a program gives to ( are the name of the library: different IDs have different names, and the file looked for is in the directory of libraries, named like the fingerprint with .fl after it. (With slashes in the name it can be any file, and a zero cuts the name short.)", "quantifier": "for all IDs of up to eight bytes, all stacks, all places of the executable", "why_tests_cant": "There are 2^64 IDs and any number of places for the executable; tests load a few libraries that exist.", "anchors": ["src/FingerprintStrategy.cpp:105-124", "src/FingerprintStrategy.cpp:154-162", "src/fingerprint/FingerprintFungeLib.cpp:25-50", "src/Unefunge98Strategy.cpp:309-332"]}
{"id": "C113", "title": "Looking at a program with the debugger does not change what it does", "statement": "If a program is run with the debugger and the user only looks (steps, runs on, sets breakpoints and watchpoints, shows stacks, positions, cells and threads; no quit, setdelta or setpos), the program goes through the same states as without the debugger: same IPs, same stacks, same cells, same output, same files, same number of random numbers. If the user always types `run`, the program gets as far as it does without the debugger. Without debug mode the debugger neither shows nor reads nor changes anything.", "quantifier": "all programs, dialects, states, numbers of IPs, numbers of turns, all typed lines, all sets of breakpoints and watchpoints", "why_tests_cant": "The claim is about all programs under all sessions; a test compares two runs of one program.", "anchors": ["src/FungeRunner.cpp:132-160", "src/FungeUniverse.cpp:124-145", "src/FungeDebugger.cpp:27-118", "src/Defunge.cpp:79-455"]}
{"id": "C114", "title": "What an IP does does not depend on what the other IPs are doing", "statement": "In its turn an IP does the same wherever the other IPs are, wherever they are going, whatever they have loaded and whether or not they have been stopped: of the others it can see no more than their IDs and their stacks, and these only with the instructions of IIPC. An instruction that is not one of IIPC does the same beside any other IPs at all, whatever it does to another IP it does to every one of them, and it adds the same new IPs.", "quantifier": "for every IP, every two lists of other IPs (any number, with the same IDs and stacks for a whole turn; any at all for a single instruction), every state of what is shared, every instruction of the core, of the other languages and of the fingerprints, and every outcome including faults", "why_tests_cant": "A test compares two runs beside two particular sets of IPs. That no instruction whatsoever looks at the others is a statement about pairs of states of unbounded size, for every instruction and every path through it.", "anchors": ["src/FungeUniverse.cpp:96-148", "src/FungeUniverse.cpp:207-214", "src/FungeUniverse.cpp:258-262", "src/FungeRunner.cpp:132-200", "src/fingerprint/FingerprintIIPC.cpp:20-55", "src/Unefunge98Strategy.cpp:148-156"]}
{"id": "C115", "title": "A Befunge-93 program does the same under Befunge-98", "statement": "A program that uses none of the characters Befunge-98 has added, has no two characters of white space next to each other in a string, stores only bytes, and (on the torus) uses only cells of it with `g` and `p` and has no string and no `#` that goes over the edge, does the same under `-std=befunge93` and `-std=befunge98`: if its run ends, it ends under both, and has printed the same, read the same and set no exit code. With `?` in it, what it does under one is what a run of the other does.", "quantifier": "for every program of that kind (including those that change themselves), every input, every number of ticks, byte or full-size cells, strings with or without the white-space rule of Befunge-98, and for Befunge-93 both on the torus of 80 by 25 cells and on a playfield that grows", "why_tests_cant": "It relates two runs of the interpreter for every program; which cells a program comes to, and what it has stored in them by then, is known only by running it, and the two runs have different playfields, different cells and different wrapping.", "anchors": ["src/Unefunge93Strategy.cpp:15-295", "src/Befunge93Strategy.cpp:15-44", "src/Unefunge98Strategy.cpp:15-440", "src/Befunge98Strategy.cpp:15-52", "src/FungeStateString.cpp:1-94", "src/Field.cpp:14-165"]}
{"id": "C116", "title": "A ><> program does the same under *><>", "statement": "A program started with -std=fish does the same with -std=starfish: after any number of ticks both runs have failed in the same way, or both have printed, read and asked the same, hold the same playfield and exit code, and their fish has the same place, direction, stacks and registers. The only exception is a run that comes, outside of a string, by one of the twelve characters *><> has added: there the fish of ><> dies with exit code 1, and both have done the same until then.", "quantifier": "for all source texts (any bytes), inputs, answers of the environment, modes other than dive, and numbers of ticks", "why_tests_cant": "The claim compares two runs of every program, tick by tick, for any length; *><> inherits the instructions of ><>, pushes twelve more over them and watches the fish's direction, and that none of this shows can only be sampled by tests.", "anchors": ["src/FishStrategy.cpp:17-529", "src/StarfishStrategy.cpp:16-162", "src/FungeRunner.cpp:85-172", "src/FungeStateNormal.cpp:46-58"]}
{"id": "C117", "title": "What a user allows makes no difference to a program that does not ask", "statement": "Forbidding (or allowing) concurrency, execution, the file system or fingerprints, inverting h and l, or giving the program another name, other arguments or another environment changes nothing for a program that executes no instruction that looks at what was changed: after any number of turns both runs have failed in the same way or have come to the same universe. The instructions that look are t (concurrency), = and PERL's E and I (execution), i, o and *><>'s F (file system), ( and ) (fingerprints), h, l and NFUN's H and L (inversion), MVRS's N (name), and y (arguments, environment, concurrency, execution, file system). In particular any program (not *><>) without the characters ( ) = h i l o p s t y, started without fingerprints, does the same whatever it is allowed and told.", "quantifier": "for all universes with any number of IPs, all pairs of settings, programs, inputs, environments and numbers of turns", "why_tests_cant": "It is a statement about two runs of every program and about every one of some four hundred instructions: each of them could look at the configuration, and a test only sees those it executes.", "anchors": ["src/include/FungeConfig.h:26-66", "src/Unefunge98Strategy.cpp:113-440", "src/Trefunge98Strategy.cpp:17-53", "src/StarfishStrategy.cpp:92-122", "src/FungeRunner.cpp:132-164", "src/FungeUniverse.cpp:124-145", "src/fingerprint/FingerprintPERL.cpp:18-44"]}
{"id": "C118", "title": "A *><> program runs as the language's abstract machine does", "statement": "Whatever the program, its input, and what the clock and the dice show, the interpreter under -std=*><> runs a program as a small abstract machine of *><> does: the machine of ><> with a fisherman that sends the fish down and up in turns and, from a vertical course, on along the last horizontal direction it had; with water under which only arrows, mirrors, the fisherman, dive and rise are obeyed and unknown letters do no harm; with sleep and the clock. It prints what the machine prints, reads what it reads, has its stacks, registers, codebox and depth after every tick, ends when it ends and with its exit code. Subroutines leave the data stack to their caller.", "quantifier": "all programs of printable characters, all inputs, all answers of the environment, any number of ticks, all floating point arithmetics", "why_tests_cant": "A test runs one program; the property is a simulation between two machines for all programs, including self-modifying ones, and for all interleavings of fisherman, water, strings and stacks.", "anchors": ["src/StarfishStrategy.cpp:17-156", "src/FishStrategy.cpp:24-525", "src/FungeRunner.cpp:132-172", "src/FungeStateNormal.cpp:46-58", "src/InstructionPointer.cpp:86-98", "src/StackStack.cpp:68-78"]}
{"id": "C119", "title": "What every universe forbids never happens, however many universes there are", "statement": "Programs cannot change the permissions of any universe. Where every universe forbids running commands (or using files), no command is run (no file is used), whatever the universes' programs are, in whatever order the universes take their turns, and wherever the IPs go.", "quantifier": "for all multiverses with any number of universes and IPs, all programs, and all sequences of turns of any length", "why_tests_cant": "A test runs a few programs in a few orders of turns; that no program in any universe gets round the switches is a statement about all of them.", "anchors": ["src/fingerprint/FingerprintMVRS.cpp:18-117", "src/FungeMultiverse.cpp:48-61", "src/FungeUniverse.cpp:85-145", "src/FungeUniverse.cpp:264-274", "src/Unefunge98Strategy.cpp:242-290"]}
{"id": "C120", "title": "Every IP is in exactly one universe", "statement": "However IPs split, end and go from one universe to another with J and G of MVRS, no IP is in two universes or twice in one, identities stay distinct over all universes, and nobody is lost: after a turn of a universe everybody who was somewhere is somewhere, but for the IP whose turn it was if it ended, and the only others are newly created IPs.", "quantifier": "for all multiverses whose IPs have distinct identities, all programs, and all sequences of turns", "why_tests_cant": "Losing or doubling an IP needs particular combinations of splitting, ending and transferring, and orders of turns; tests see a handful of them.", "anchors": ["src/FungeUniverse.cpp:85-145", "src/FungeRunner.cpp:18-75", "src/fingerprint/FingerprintMVRS.cpp:78-99"]}
{"id": "C121", "title": "A universe among others does what it does on its own", "statement": "A universe nobody can leave (its IPs were all started there, none knows the instructions of MVRS, and fingerprints are switched off) behaves as if there were no other universe: each of its turns fails or succeeds as it would in a multiverse with that universe alone, with the same IPs, field and effects, and leaves every other universe exactly as it was; a universe that has no turn in a schedule is unchanged by it.", "quantifier": "all worlds (any number of universes, IPs, any fields and configurations), all programs, all numbers of turns and all orders of turns", "why_tests_cant": "A test runs a program in one universe, or in a few; that no instruction of any program reaches into another universe is a statement about all instructions and all states.", "anchors": ["src/FungeUniverse.cpp:124-145", "src/FungeMultiverse.cpp", "src/fingerprint/FingerprintMVRS.cpp:18-117", "src/FungeRunner.cpp:18-75"]}
{"id": "C122", "title": "A library does to the program that uses it only what its letters say", "statement": "Using a letter of a fingerprint written in Funge (a .fl file), whatever its code is, changes nothing of the program but its stacks, its space, and position, direction and offset of the IP that used it: not the other IPs, settings, permissions or meanings, nor is anything printed before taken back. A library that does not change itself changes the space only if it has P, stops the IP only if it has X (its own @ and q end the call), moves it only if it has B, D, F, L, R, S or X, and is itself the same after each call. It is allowed no more than the program that uses it.", "quantifier": "all library files, letters, programs and states of the program", "why_tests_cant": "Tests run the four libraries that come with the interpreter; what an arbitrary library can do to its user is a statement about all library files.", "anchors": ["src/fingerprint/FingerprintFungeLib.cpp:14-58", "src/fingerprint/FingerprintDynamic.cpp:12-136", "src/FungeRunner.cpp:41-56", "src/FungeUniverse.cpp:124-154"]}
