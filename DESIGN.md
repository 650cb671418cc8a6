# Formal model of funge-plus-plus: design

Target: `cwesson/funge-plus-plus`, source in `/repo` (C++). The code is read as text; it is
neither built nor run. The model and all proofs are in Lean 4 (`/verif/lean`).

## 1. Trusted base

* Lean 4.33.0's kernel. Every theorem is checked by `lake build`; no `sorry`, `admit`, `axiom`,
  `native_decide`, `bv_decide`, `implemented_by`, `unsafe` or `partial` is used anywhere. Mathlib is not used.
* One tactic is defined (`krfl`, `Lemmas/Krfl`): it closes an equation by the term `Eq.refl a`, which the kernel then checks by
  computing; it adds nothing to the trusted base.
* Axioms: at most the three standard ones of Lean (`propext`, `Classical.choice`, `Quot.sound`).
* That the definitions under `Verif/Model` say what the C++ says. Each definition cites the file
  and the lines it was transcribed from, and names any simplification. This correspondence is by
  reading; nothing checks it mechanically.
* The C++ standard library behaves as documented (`std::list`, `std::vector`,
  `std::unordered_map` given a consistent hash/equality, `std::set` given a strict weak order, streams,
  mutex / semaphore / condition variable / thread semantics).

## 2. Modelling conventions

* `stack_t`, `inst_t`, `dim_t` are `int64_t`. Cells are `Int` in the model. Every arithmetic
  *instruction* goes through a checked operation (`ck`) that gives the distinct outcome
  `Fault.overflow` when the exact result is outside `[-2^63, 2^63)`: signed overflow is undefined
  behaviour in C++, so it is neither wrapped nor ignored. Narrowing casts (`char`, `int`) are modelled
  exactly (`toChar`, `toInt`).
* Undefined behaviour (out-of-range stack-stack index, null dereference, dangling pointer, bad shift, …) is
  `Except.error f` with `f : Fault`; a library exception that terminates the process is also a
  `Fault`. A loop that has not finished within the given fuel is `Fault.fuel`; wherever the claim
  is termination, the theorem says that enough fuel exists and that more fuel does not change the
  result.
* Coordinates are unbounded `Int` in `Vec` arithmetic (simplification: the overflow of a
  *coordinate* beyond ±2^63 is a fault in `Model/Checked` only; C108 proves that the two agree within
  ±2^62 and that a step beyond ±2^63 is undefined).
* The instruction semantics are written in a state-and-fault monad
  `Exec α = St → Except Fault (α × St)` so that they read like the C++ and so that invariants can be
  proved once per primitive and lifted through every instruction (`Lemmas/Engine*`).
* One `St` is one universe: the running IP (`cur`), the other IPs in scheduler order (`rest`), fungespace,
  configuration, the effects emitted so far (`eff`), the unread standard input and an oracle stream
  (random numbers, clock, results of files/commands). All theorems quantify over the oracle.
* The fingerprint MODE can make a stack push or pop at its other end (`I`, `Q`). The hypothesis `s.Lifo` says that the current stack is in its ordinary mode;
  theorems about what single instructions leave on the stack have it. C01 says what a stack does in every mode, C24 is proved in all modes, and the invariants
  over whole runs hold in all modes.
* Interpreted threads (the default) are modelled by `St`. The operating system's threads around a universe (adder,
  scheduler, waiter, native IP threads) are a labelled transition system (`Model/Sync`), each critical section being one step.

## 3. What is modelled

| model | code |
|-------|------|
| `Model/Basic` | types and constants of `funge_types.h`, narrowing |
| `Model/Stack` | `Stack.cpp`, `StackStack.cpp` |
| `Model/Vec`, `Model/VecIO`, `Model/VecRange` | `Vector.cpp` (with `<<` and `>>`), `VectorRange.cpp` |
| `Model/Field` | `Field.cpp`: get, put, bounds, `parse`, `parseFungeLib`, `dump` |
| `Model/Beq` | `Field.cpp`: `parseBeq` |
| `Model/FungeLib` | `FingerprintFungeLib.cpp`, `FingerprintDynamic.cpp`, `Field.cpp`: `parseFL`; a library's thread running on the stacks of its caller until it stops |
| `Model/Libs` | `fing/MODU.fl`, `NULL.fl`, `ROMA.fl`, `TERM.fl` |
| `Model/IP` | `InstructionPointer.cpp` |
| `Model/Checked` | `Vector::operator+=`, `Vector::reverse`, `InstructionPointer::next` again, with signed overflow as a fault |
| `Model/State`, `Model/Semantics` | `FungeRunner.cpp` (state, tables of meanings, clone), `FungeUtilities.cpp`, what instructions see of `FungeUniverse.cpp` |
| `Model/Instr` | strategies for Funge-93 and Funge-98 (1 to 3 dimensions, threads, file and system instructions, `y`, `k`, `( )`) |
| `Model/Defunge` | `Defunge.cpp`: the debugger's prompt with all its commands, as far as they act on what is shown and selected |
| `Model/Debugged` | the calls of the debugger in `FungeRunner::tick`, `FungeUniverse::operator()` and `Field::put`; sessions at the prompt on the running program |
| `Model/Fish` | `><>` and `*><>` strategies |
| `Model/Finger/*` | fingerprints BASE, BITW, BOOL, CPLI, DBUG (A, W), DIRF, FING, FISH, FIXP, FPDP, FPRT, FPSP, FRTH, HRTI, IIPC, JSTR, LONG, MODE, MVRS (N; the others in `Model/Mvrs`), NFUN, ORTH, PERL, REFC, STRN, SUBR, TOYS, and the loader of fingerprints; see each file |
| `Model/Run` | string states, `tick`, error handling, the scheduler's loop |
| `Model/Config` | `Funge.cpp`, `FungeConfig`: command line, defaults per standard, `-l`, the choice by file name |
| `Model/Fmv` | `Funge.cpp`: `parseFMV`, `createUniverse` |
| `Model/Launch` | `Funge.cpp`: a universe made from a text, with its first IP |
| `Model/Multiverse` | `FungeMultiverse.cpp`: table and names of universes |
| `Model/Mvrs` | the fingerprint MVRS where there are several universes, turns of several universes, what `g`, `p`, `k`, `i`, `o`, `y` and the `g`, `p` of Fish do away from home, `k` with letters of MVRS, the threads of the universes (`FungeUniverse.cpp`: `transferRunner`, the scheduler's loop) |
| `Model/Debugger` | `FungeDebugger.cpp`: states, breakpoints, watchpoints, backtraces, prompt commands |
| `Model/Teardown` | `FungeUniverse::~FungeUniverse` |
| `Model/LibFile` | `FingerprintStrategy::intToStr`, the path in `FingerprintFungeLib::factory` |
| `Model/WaitAll` | `FungeMultiverse::waitAll` among the universes |
| `Model/Access` | which locks and shared variables the functions of `FungeUniverse`, `FungeMultiverse`, `Stack` and `Field` use, in which order |
| `Model/Sync` | `FungeUniverse.cpp`: queue, semaphore, mutex, condition variable, waiting, native threads |

## 4. What is not modelled

* Floating point arithmetic, `<cmath>` and `printf` (FPDP, FPSP, FPRT, CPLI D and V, FIXP, `><>`) and the 128-bit numbers of LONG (`bigint` is a git
  submodule that is not present): their results are parameters of the model (`FloatOps`, `LongOps` in `Model/State`), every theorem holds for all of
  them unless it says what it assumes; how instructions pass values to and from the stack is modelled.
* DBUG B, D, E, which nothing binds (an attempt to execute one of them is `Fault.unmodelled`); MVRS in the model of a single universe (same fault; see
  `Model/Mvrs`), and there what the letters of other fingerprints do when the IP is away from the universe it is from; a library in Funge that starts further threads; the Perl and shell processes; real
  file systems (a file operation is an effect plus an oracle answer); terminal settings; diagnostics on `cerr`.
* Memory exhaustion and native stack overflow (VLAs of user-controlled size).
* The C++ memory model below mutex granularity (`Model/Access` has reads and writes, but as in a sequentially consistent machine).

## 5. Properties

For each property of `properties.jsonl`: what is modelled and how it is proved. Status and theorem names are in `MANIFEST.json`.

| id | model | proof |
|----|-------|-------|
| C01 | `Model/Stack` | refinement to an abstract deque (`Spec/Deque`), induction over the operation list |
| C02 | `Model/Stack` | induction on the index against iterated `pop` |
| C03 | `Model/Instr`, `Model/Run` | invariant (`select = 0`, at least one stack) lifted through every standard instruction (`Lemmas/Safe*`) and every run |
| C04 | `Model/Vec` | normal form lemma; `<` reduced to lexicographic order on coordinates |
| C05 | `Model/Vec` | extensionality over coordinates |
| C06 | `Model/VecIO` | induction over coordinates and decimal digits; divergence witness for unterminated input |
| C07 | `Model/VecRange` | induction over dimensions: odometer enumerates the mixed-radix numbers |
| C08, C09, C10 | `Model/Field` | induction over the history of `put`s against a function-valued spec; C10 false in general (witness), proved for histories without erasures and for non-zero coordinates |
| C11, C12, C13 | `Model/Field` | induction over the text against `Spec/Layout` |
| C14 | `Model/Field` | composition of `dump` and `parse`; 1-D failure witness |
| C15, C16 | `Model/IP` | walk-back loop characterised as the last in-bounds point; box convexity; injectivity and finiteness |
| C17 | `Model/IP` | false (x = 80, y = 25 reachable): witness; weaker bound proved |
| C18, C19 | `Model/Instr` | from C16 (periodicity, reversibility) |
| C20, C21, C22 | `Model/Run` | induction over the text, at the level of ticks |
| C23 | `Model/Instr` | case analysis, exact overflow condition |
| C24 | `Model/Instr` | vector push/pop round trip and C08, in all modes of the stack |
| C25, C26 | `Model/Instr` | two-stack loop lemmas (`Lemmas/Stacks`) |
| C27 | `Model/Instr` | list specification written out independently, loop lemmas |
| C28 | `Model/Instr` | loop lemmas over the scan and the repetitions; zero case false (witness) |
| C29 | `Model/Semantics` | characterisation of the twin; frame invariant for independence; false for two or more stacks (witness) |
| C30, C31 | `Model/Run` | induction over rounds of the queue |
| C32 | all instructions | effect invariant over every run (`Lemmas/Engine*`); DIRF counterexample |
| C33, C34, C58, C61, C62 | `Model/Semantics`, `Model/Finger/*` | tables of meanings as stacks per letter; invariants over properly nested executions; witnesses |
| C35 | `Model/Run` | tick level; witness under `k` |
| C36 | `Model/State` | induction; false where the stack pushes and pops at different ends (witness) |
| C37, C38, C52 | `Model/Run` | invariants over every run |
| C39 | `Model/Multiverse` | search over suffixes; divergence for all fuels |
| C40, C41 | `Model/Sync` | invariant over all interleavings, ranking and fair infinite runs; C41 false for native threads (a state from which no step helps) |
| C42 | `Model/Instr` | output prefix invariant over every run; `.` truncates to 32 bits (witness) |
| C43, C44 | `Model/Debugger` | induction over the sequence of events and commands |
| C45–C49 | `Model/Fish` | case analysis over all instructions and an invariant over runs; C46, C48 false (witness) |
| C50 | `Model/Instr` | case analysis over all random outcomes |
| C51, C53–C57, C59 | `Model/Finger/*` | per instruction, loop lemmas; several false (witness) |
| C60, C63 | `Model/Config` | induction over the option list |
| C64, C65 | `Model/Instr` | induction over the input; false for carriage return, signs and end of input (witness) |
| C66, C67 | `Model/Beq` | induction over blocks, lines and columns against `Spec/BeqFormat`; C67 false (witness) |
| C68 | `Model/Fmv` | mutual induction over the tree of files; divergence for all depths |
| C69–C71 | `Model/FungeLib`, `Model/Libs` | symbolic execution of the paths of the library (`Lemmas/Lib`: `arun`, proved sound), induction over its loops; C69 and C71 false (witness) |
| C72 | `Model/FungeLib`, `Model/Libs` | two steps of the library's thread, for all 26 letters |
| C73 | `Model/Finger/Basic` | bits of `BitVec` against `x / 2^i % 2`, all i; undefined shifts for all stacks |
| C74–C76 | `Model/Finger/Basic` | symbolic execution for all stacks; induction over the number of cells for C75; C74, C75, C76 false in part (witness) |
| C77–C79 | `Model/Finger/Toys` | symbolic execution, induction over the stack for sums and products; C77, C78 false in part, C79 in queue mode (witnesses) |
| C80 | `Model/Finger/Basic` | symbolic execution; the state at `T` is any state with the same mark |
| C81 | `Model/Finger/Float` | number library as a parameter that satisfies `LongOps.Lawful`; induction over the digits; false for S and Z (witness) |
| C82 | `Model/Finger/Float` | symbolic execution with floating point operations as a parameter; false for FPSP (all stacks) and FPRT |
| C83 | `Model/Mvrs`, `Model/VecRange` | symbolic execution, C07 for the cells of the area, induction over them; false for the size (one cell too many per axis) |
| C84 | `Model/Mvrs` | symbolic execution, induction over the search for a name; false for permissions (whole program as witness) and for a third name (diverges for all fuel) |
| C85 | `Model/Mvrs` | symbolic execution; invariant of a transition system for the universes' threads; false with transfers (trace as witness) and for `g`, `p` and `k` |
| C86 | `Model/Run` (all instructions) | invariant of every elementary change (`Engine`), induction over the turns before its own |
| C87 | `Model/Run` (all instructions) | invariant of every elementary change that is not a store (`EngineC`), symbolic execution of `k`, induction over turns |
| C88 | `Model/Instr`, `Model/Semantics` | symbolic execution for every stack; tables of all Funge-98 configurations |
| C89 | `Model/Instr`, `Model/Field` | symbolic execution, laws of the field; false for values beyond a byte (every such value) and cells beyond 32 bits |
| C90 | `Model/Fish`, `Model/Finger/Basic` | symbolic execution for every stack, relation between stacks as specification; false for `%` on fractions (witness) |
| C91 | `Model/Fish`, `Model/Finger/Basic` | symbolic execution for every direction |
| C92 | `Model/Launch` and all below it | whole program followed turn by turn (`Lemmas/Prog`), induction on the number of turns; false for carriage returns (witness) |
| C93 | `Model/Launch` and all below it | whole program followed turn by turn, induction on the number (two loops); false beyond 32 bits, undefined beyond 64 bits and for 0 (for every such number) |
| C94 | `Model/Launch` and all below it | program of any length followed turn by turn: layout of the text (C11), bounds (C10), string mode (C20, C21), induction on the text |
| C95 | `Model/Launch` and all below it | compiled expressions followed turn by turn, induction on the expression; false for values beyond 32 bits, undefined for operations beyond 64 bits (for every such expression) |
| C96 | `Model/Defunge` | loop over the window as two nested inductions; diverges for a third axis or one axis, false for swapped axes, undefined after the end of an IP (witnesses) |
| C97 | `Model/Defunge` | symbolic execution of the commands, induction on stacks, backtrace and list of IPs; false for positions of other IPs and numbers of stacks (witnesses), undefined for stacks that do not exist |
| C98 | `Model/Defunge` | frame of each command, induction on the lines of a session; false for mistyped and missing arguments and under HOVR (witnesses) |
| C99 | `Model/Instr`, `Model/Finger/Text` | symbolic execution for every string; a reader of double-quoted words of a POSIX shell as specification; false for cells that are multiples of 256 (witness), for directories that cannot be made or removed, for Perl code with `$` or a backquote (every such code) |
| C100 | `Model/Instr`, `Model/Field` | induction over lines for the size that comes back, C11 for the cells, the loop of C14 for what is written; false with a storage offset, without a final line break, and for binary files (witnesses) |
| C101 | `Spec/Befunge` (reference machine), `Model/Runner`, `Model/Instr`, `Model/Field`, `Model/IP` | simulation: a relation between interpreter states and machine states, kept by each word (one lemma per word), by moves, strings and comments; then induction on ticks; termination and complete runs as corollaries. On the torus the relation has one more case: the IP is between two edges and the machine is already at the next cell. The machine has no successor where the property is known to fail or is left out (see the note) |
| C102 | `Spec/Fish` (reference machine), `Model/Fish`, `Model/Run`, `Model/Field`, `Model/IP` | simulation as in C101, with a stack of stacks, registers and death by error; doubles are a parameter. False for `[` and `]` with more than one value and for `g` of an empty cell (witnesses) |
| C103 | `Model/Finger/Text` (STRN) | the dictionary order as its own predicate (after a common prefix one ends or has the smaller byte), decided by `compare` by induction on both strings; typed lines by running the letters one after the other |
| C104 | `Spec/Many` over `Spec/Befunge` (reference machine), `Model/Run`, `Model/Instr` | C101's simulation for the IP whose turn it is, in a world whose other IPs are kept (the rectangle only grows); a lemma for `t`; then induction on turns |
| C105 | `Univ.turns` over every instruction: input, answers of the outside world, effects, the bound on loops | a simulation of two runs that differ only in what is still to come, through every instruction (Lemmas/Twist, TwistOps, TwistRun), lifted to any number of turns |
| C106 | `Model/Finger` (FIXP, CPLI, FPDP, FPSP, FPRT) over an arbitrary floating point library | each letter run on a stack of the stated form; the packed 64 bits of FPRT by bit vector lemmas |
| C107 | `Model/Fish`, `Model/Finger/Basic` (FISH), `setDelta` with its observers | what is remembered is the last level direction: an invariant of every tick of a *><> program, through every instruction of its table, and from it by induction on ticks |
| C108 | `Model/Checked` | equality of checked and unbounded arithmetic within bounds (invariant of the walk-back loop), overflow otherwise; a program whose `x` overflows |
| C109 | `Model/Teardown` (the destructor among the threads of `Model/Sync`, with the objects that have been deleted) | invariant of the transition system over all interleavings; ranking for the end; traces as witnesses for native threads and for a twin that comes late |
| C110 | `Model/WaitAll` (universes with numbers of IPs, library calls under way, the local variables of `waitAll`) | invariant over all interleavings: every IP is in a universe still to be visited or works for one that is; a trace as witness for travellers |
| C111 | `Model/Access` (functions as sequences of lock, unlock, read, write; threads that run them) | the owner of a lock is the only thread between its lock and unlock (invariant over all interleavings); every call keeps to this (induction on calls, with loops of any length); traces as witnesses for the functions that do not |
| C112 | `Model/LibFile`, `popFingerprint` | the name is the number in base 256 (induction, both directions); the path resolved by an independent walk through its parts; witnesses for slashes and zeros |
| C113 | `Model/Debugged`: scheduler and `tick` with the calls of the debugger, a session at the prompt (`Model/Defunge`) on the running program, reading the program's own input | simulation between the runs with and without debugger, up to the input left; no command but `quit`, `setdelta` and `setpos` changes a runner; three witnesses against the rest |
| C114 | the whole machine, twice: the same IP and the same of what is shared, beside other IPs | a relational engine (`Lemmas/Blind…`): `Blind R m` says that `m` does the same in two states whose other IPs are related by `R`, and keeps `R`; proved for every instruction and for the tick, for every `R` that survives a new IP, `killAll` and a change of mode (and, for IIPC, that shows the same IDs and stacks); instances: same IDs and stacks, and "changed by the same function" |
| C115 | `Spec/Befunge` twice, with the rules of Befunge-93 and of Befunge-98 | simulation in both directions between the two reference machines, whose states are equal but for the rectangle and the white-space memory of strings, as long as the Befunge-98 machine is in a state that Befunge-93 knows (`Common`, `Stays`); lifted to the interpreter on both sides through C101. On the torus the IP may go around: that takes the Befunge-93 machine up to 79 blanks more than the other (`wrap`), and the simulation is a weak one (`Way`: so many blanks to go) |
| C116 | Runs of one program under the standards -1 and -2 | Lockstep simulation: every primitive and every ><> instruction does the same in a state and in the state made of it by *><>'s tables and its cached direction; induction on ticks and turns; exception: a letter only *><> knows |
| C117 | the whole machine, twice, with different switches, names, arguments and environments | a relational engine (`Lemmas/Even…`): `Even W W' m` says that `m` does the same under both settings; proved for every instruction under the condition that what it looks at is the same (`Op.Same`); `InTick` says which instructions a tick executes; lifted to turns. From the text alone through the invariant of C87 |
| C118 | Spec/Star.lean: the machine of Spec/Fish.lean with the last horizontal direction, the fisherman's turn and the depth; its words for `` ` ``, `u`, `O`, `S`, `h m s`; calls, returns, choice of a stack and files are beyond it | Lemmas/RefStar: each instruction of ><> does under *><> what it does under ><>, and leaves the direction in mind alone, or it sets the delta and the direction in mind is exactly that if horizontal. Lemmas/RefStarStep: the movement words do the same under water; a cell is simulated by the machine, then ticks and turns by induction; fisherman, dive and rise directly. That a return loses the data stack is shown with a program (`C118_false_for_calls`) |
| C119 | Model/Mvrs (`World.turns`, MVRS, several universes) | an engine for the multiverse (Lemmas/Worlds: a relation that contains every elementary change of a universe, of another universe's field, a new universe, and going to another one, holds over every turn), used with the list of names and permissions, which only grows; corollary by counting; without fingerprints, by the invariant that nobody knows MVRS. False because `B` makes a universe that allows everything |
| C120 | as C119 | the same engine: the list of identities over all universes is permuted and grows by fresh identities; induction over the turns |
| C121 | `World.turn`, `mtick`, `mexecute` (multiverse) against `Univ.turn`, `tick`, `execute` (a single universe) | refinement: on states where nobody has the instructions of MVRS or a home elsewhere the two engines are equal step by step; that property is an invariant of the engine (`engine_lone`); induction over the turns |
| C122 | Model/FungeLib (`libCall`, `libExec`, `dynRun`) | every step of the library's thread touches the caller by at most one letter of FingerprintDynamic (`dynRun_both`); closure over the thread's run (`LibSteady`); that the library stays as it is, from the machinery of C87. False of permissions: the universe of a library has the default configuration |

## 6. Disagreements between the code and the properties

Each line is a theorem of the model with a concrete witness (or for all values of the kind named). The weaker statement that does hold is proved beside it (suffix `_partial` where it replaces the property).

* `C03_false_for_FISH` (C03_Safety.lean): The instructions of FISH are not standard, and do break it: with FISH loaded, `0{D0}` reads a stack that does not exist.
* `C06_false_reader_diverges` (C06_VectorText.lean): **C06** fails for the text "(0": the reader loops for ever, since at the end of the input the last character stays in `c`.
* `C06_undefined_at_min` (C06_VectorText.lean): **C06** fails for the smallest coordinate: its digits overflow before the sign is applied.
* `C06_undefined_unclosed` (C06_VectorText.lean): **C06** fails for the text "(1": the last digit is read again and again until the coordinate overflows.
* `C10_false_with_erasure` (C08_Field.lean): **C10 fails in general**: after a blank is written on the border, a non-blank cell can lie outside the box (here `(2,0)` with `min(1) = 5`).
* `C14_false_in_1d` (C14_DumpLoad.lean): **C14 fails in one dimension**: there the popped size is `(w)`, and `dump` stops after the first cell, whatever `w` is (here `w = 3` on the line `abc`: the file holds just `a`).
* `C17_false_at_edge` (C15_Motion.lean): **C17 fails**: from the east edge (79, 0) an IP moving east lands on (80, 0), which is off the playfield, and needs 81 steps to come back to where it was, not 80.
* `C19_false_beyond_int` (C18_Jumps.lean): **C19** is violated for counts that do not fit an `int`: a jump of 2^32 + 1 moves one step.
* `C19_undefined_at_min` (C18_Jumps.lean): **C19** A jump of -2^31 is undefined behaviour (`std::abs`).
* `C21_undefined_for_non_ascii` (C20_Strings.lean): **C21** does not extend to texts with other cells: a byte of 128 or more (which the loader makes negative, e.g. every non-ASCII character of a UTF-8 source) in an SGML string is passed to `isspace`, which is undefined.
* `C23_false_for_remainder` (C23_Arithmetic.lean): **C23** is violated: the remainder of -2^63 by -1 is 0, a 64-bit number, but computing it is undefined (`%` traps on x86).
* `C25_false_in_queue_mode` (C25_Modes.lean): **C25** is violated in queue mode: `1 {`, then `1 }`, brings back neither the stack nor the storage offset: of a queue that was given 1, 5, 6, 7 and 8, with the storage offset (10, 20), the values 6 and 7 become the storage offset. (In normal mode all is as before.)
* `C25_undefined_at_min` (C25_Blocks.lean): **C25** A count of -2^63 is undefined behaviour (`std::abs`), for both brackets.
* `C26_false_in_queue_mode` (C25_Modes.lean): **C26** is violated in queue mode: `2 u`, then `-2 u`, does not restore the stacks, as the queue does not give the -2 first.
* `C26_undefined_at_min` (C25_Blocks.lean): **C26** A count of -2^63 is undefined behaviour (`-n`).
* `C27_false_beyond_int` (C27_SysInfo.lean): **C27** is violated by counts beyond the range of `int`: with 2^32 on the stack, n > 0, yet the whole list is pushed.
* `C28_false_for_wide_cells` (C28_Iterate.lean): **C28** is violated by cells that are not characters: `k` truncates them. In `22k` followed by the cell 305 = 256 + '1' and `@`, `k` executes the instruction `1` twice, although 305 by itself is no instruction (it reflects).
* `C28_false_zero_gap` (C28_Iterate.lean): **C28** is violated by a zero count when the next instruction is not in the cell after the `k`: `0k 12@` does not skip the 1.
* `C29_false_for_two_stacks` (C29_Threads.lean): **C29** is false for two stacks: the parent's stacks are 2 1 over 3, the twin's are 3 over 2 1.
* `C30_false_on_blank_path` (C30_Schedule.lean): **C30** is false of an IP whose path is blank: its turn never ends (whatever the fuel `n`), so that the IP behind it never has a turn.
* `C31_false_beyond_int` (C30_Schedule.lean): **C31** is false for values beyond `int`: with 2^32 + 5 on the stack, `q` gives exit code 5.
* `C31_false_under_k` (C30_Schedule.lean): **C31** is false under `k`: `372kq`, with 3 and then 7 on the stack, executes `q` twice: after the first, with exit code 7, another instruction is executed, and the exit code is 3.
* `C32_false_for_DIRF` (C32_Permissions.lean): **C32** is false of DIRF: with the file system (and everything else) switched off, `M` creates a directory.
* `C33_false_for_DBUG` (C33_Fingerprints.lean): **C33** is false for DBUG: with FRTH loaded, `"GUBD"4(` and `"GUBD"4)` leave `D` without a meaning, which was `D` of FRTH.
* `C34_false_after_unload` (C33_Fingerprints.lean): **C34** is false for a fingerprint that was loaded and unloaded before: with FRTH loaded, `"NRTS"4(`, `"NRTS"4)` and again `"NRTS"4)`, which does not reflect (the IP reaches the next instruction, `7`) but takes away the meaning of `D` of FRTH.
* `C35_false_under_k` (C35_Unknown.lean): **C35** is violated under `k`: the number of times the unknown instruction is executed, nothing happens, and the IP goes on in the same direction.
* `C36_false_queue_mode` (C24_Modes.lean): **C36** fails where pushing and popping happen at different ends (MODE's `Q` without `I` or `I` without `Q`): a string and a vector pushed over a 7 do not come back.
* `C37_false_for_new_stacks` (C37_Modes.lean): **C37** is false for stacks created while a mode is on: in queue mode `12.` prints 1, but on a stack made by `{` it prints 2.
* `C39_false_third_of_a_name` (C39_Names.lean): So three universes of one name cannot be created: starting with any table in which neither name is taken, two creations succeed and the third never ends.
* `C39_false_when_taken` (C39_Names.lean): The property fails as soon as both names are taken: the search tries the same name for ever.
* `C41_false_for_native` (C40_Wakeup.lean): C41 does not hold with native threads: nothing notifies those who wait. There is a reachable state in which every IP has stopped and its thread is joined, so that the universe is not running, and a thread sleeps in `wait`, having found it running; and whatever happens after that, adding more IPs included, it sleeps for ever, unless the universe is killed.
* `C42_false_beyond_int` (C42_Output.lean): **C42** is violated: printing 2^31 writes `-2147483648 `.
* `C43_false_after_setpos` (C43_Debugger.lean): The instruction executed after this stop is the one at 7, which the user asked for; the backtrace says 0.
* `C43_false_while_off` (C43_Debugger.lean): A gap: the debugger was off at the second of three positions.
* `C44_false_for_native` (C43_Debugger.lean): With native threads the property fails: IP 1, told to run, is stopped at a cell without a breakpoint, because IP 0 made an error just after IP 1 had come to its last instruction.
* `C44_hangs_at_end_of_input` (C43_Debugger.lean): At the end of the input the prompt comes back for ever.
* `C45_undefined_for_shift_and_return` (C45_Fish.lean): What is missing from C45: `{` and `}` on an empty stack, which ><> defines to do nothing, write outside of an array, and so does `R` outside of a subroutine instead of ending the program.
* `C46_false_for_a_program` (C45_Fish.lean): `5&&n` should print 5; it ends with exit code 1 and no output.
* `C46_false_value_is_lost` (C45_Fish.lean): **C46 does not hold.** With a value in the register, `&` empties the register and pushes nothing: whatever the value was, it is lost.
* `C47_undefined_negative` (C45_Fish.lean): For a negative `x` the conversion to `size_t` is undefined, whatever else is on the stack.
* `C48_false_data_is_lost` (C45_Fish.lean): **C48 does not hold.** `R` sends the IP back to the position of the calling `C` (which the tick then moves on from), but of the two stacks it removes the data stack, whatever the subroutine left on it, and keeps the one the position was on.
* `C48_false_for_a_program` (C45_Fish.lean): `701Cn;` with the subroutine `R` on the second line should print 7; it ends with exit code 1 and no output.
* `C53_false_for_jump` (C53_SUBR.lean): `J` does not even go where `C` goes: `"RBUS"4(c0J123` jumps to the `2` and runs the `3`, while `"RBUS"4(c00C123` calls the `1` it names and runs it.
* `C53_false_when_hovering` (C53_SUBR.lean): What is missing above: with the switch of MODE that makes the IP hover on, `R` adds the caller's delta to the one the IP has. The IP called heading east, the work balanced, and comes back with three times its delta.
* `C53_undefined_for_negative` (C53_SUBR.lean): A negative count is undefined behaviour (an array of negative size).
* `C54_false_beyond_char` (C54_STRN.lean): A string beyond `char` is not the same afterwards: `G` after `P` yields -56 for 200, and even `N` changes it.
* `C55_false_for_unary_zero` (C55_BASE.lean): Zero in base 1: written as a space only. If the input goes on with `ab`, `I` reads 2.
* `C55_false_in_base_85` (C55_BASE.lean): **C55 does not hold in base 85**: 81 and 83 both print as `{`.
* `C55_reads_too_much` (C55_BASE.lean): `I` accepts a digit too many: 2 in base 2. In base 32 it looks past the end of its table for a character that is no digit.
* `C55_undefined_for_negative` (C55_BASE.lean): Negative numbers index the table of digits below its start.
* `C56_false_for_empty` (C56_TOYS.lean): **C56** does not hold for an area without rows: it has no cells (`InArea` is empty), but the zero is dropped from the size vector and so `S` fills a row; an area without columns is left alone.
* `C56_false_for_overlap` (C56_TOYS.lean): **C56** does not hold for overlapping areas: `C` to the area one cell ahead smears the first cell over it, and so does `K` to the area one cell behind. The other instruction of the two gets it right.
* `C56_false_in_3d` (C56_TOYS.lean): **C56** does not hold for `J` in three dimensions: it shifts the column at level 0, whatever level the IP is on.
* `C56_false_onto_itself` (C56_TOYS.lean): **C56** does not hold for moves of an area onto itself: they blank it.
* `C57_undefined_after_death` (C57_IIPC.lean): **C57** `A` of an IP whose parent has ended uses a dangling pointer.
* `C57_undefined_for_root` (C57_IIPC.lean): **C57** `A` of the first IP of a program dereferences a null pointer.
* `C59_false_for_a_program` (C59_NFUN.lean): That turn is the last that ends: with however much fuel, the next one does not.
* `C59_false_for_new_axis` (C59_NFUN.lean): **C59 does not hold** of any new axis: if the universe has `n` dimensions or fewer, `X`, `Y` and `Z` send the IP along axis `n` but extend the universe to `n` dimensions only, so that axis `n` is not among them.
* `C59_undefined_for_negative` (C59_NFUN.lean): A negative axis ends the program with an exception.
* `C60_false_for_bf` (C60_Config.lean): The property fails for a Befunge-93 program recognised by its name: the standard is Befunge-93, but topology, strings and cells are those of Funge-98; for every `.bf` file and all options that do not speak of them.
* `C60_false_for_fish` (C60_Config.lean): It also fails for the strings of a program recognised as ><> or *><> by its name: the name overrides every `-fstrings=`.
* `C60_undefined_without_value` (C60_Config.lean): An option that lacks its value is undefined behaviour: `strcmp` of a null pointer.
* `C62_false_after_FING` (C33_Fingerprints.lean): **C62** is false after FING: with FING and FRTH loaded, `'D'AZ` gives `A` the meaning of `D`; a twin made by `t` then does not understand `A`.
* `C63_false_for_long_names` (C60_Config.lean): A name of five characters asks for the fingerprint of its last four: the number is kept in an `int`.
* `C64_false_for_CR` (C64_Input.lean): **C64** is violated by carriage returns: `~` drops one and pushes whatever comes after it, here another carriage return's neighbour `A`; and a carriage return at the end of the input is consumed although the instruction fails.
* `C65_false_at_end` (C64_Input.lean): **C65** is violated at the end of the input: if it ends right after the number, `&` is an error, and the number is lost.
* `C65_false_for_negative` (C64_Input.lean): **C65** is violated for negative numbers: the sign is skipped, `&` pushes the absolute value.
* `C65_undefined_beyond_i64` (C64_Input.lean): **C65** A number that does not fit 64 bits is undefined behaviour (signed overflow), here for any input that begins with 2^63.
* `C66_false_above_127` (C66_Beq.lean): **C66** is violated by bytes above 127: the character comes from a `char`, which is signed, so the same byte is another cell than in a file loaded as text (C11), which keeps it.
* `C66_false_short_block` (C66_Beq.lean): **C66** is violated when a block announces more lines than the file has: the last line is loaded again and again, as many times as are missing, although the file has it once (`getline` leaves the string as it was once the file has ended).
* `C67_false_declaration_ignored` (C66_Beq.lean): **C67** is violated: the declaration has no influence at all. Two files that differ only in the number of dimensions they declare are loaded alike, ...
* `C67_false_one_line` (C66_Beq.lean): ... so that a program of one line is a Unefunge program, although it declares three dimensions.
* `C68_diverges_on_itself` (C68_Multiverse.lean): **C68** A multiverse file that names itself is loaded for ever.
* `C68_false_final_newline` (C68_Multiverse.lean): **C68** is violated when the multiverse file ends in a newline: after the programs it names, the directory itself is loaded as a program.
* `C68_false_without_directory` (C68_Multiverse.lean): **C68** is violated when the multiverse file is given without a directory: the programs it names are looked for in the root directory, whatever the directory the multiverse file is in.
* `C69_false_M` (C69_Modu.lean): M leaves 2 for -4 and 2, where 0 is due: the quotient is lowered though nothing remains (/repo/fing/MODU.fl:1-3).
* `C69_false_M_small` (C69_Modu.lean): M leaves -1 for -1 and 2, where 1 is due: a quotient of 0 does not tell that the signs differ (/repo/fing/MODU.fl:1-3).
* `C69_false_U` (C69_Modu.lean): U leaves 2 for 4 and 2, where 0 is due: the divisor is added though nothing remains (/repo/fing/MODU.fl:7-9).
* `C69_undefined_M` (C69_Modu.lean): M overflows for the least value and 3, where 1 is due (/repo/fing/MODU.fl:1-3).
* `C69_undefined_R` (C69_Modu.lean): R overflows for the least value and -1, where 0 is due (/repo/fing/MODU.fl:4-6): `%` is undefined there.
* `C69_undefined_U` (C69_Modu.lean): U overflows when the divisor is the least value, where 9223372036854775803 is due (/repo/fing/MODU.fl:7-9).
* `C71_false_goto` (C71_Term.lean): G prints characters that are no digits for a negative row: `ESC [ . ; 1 H` for -3 (/repo/fing/TERM.fl:6-8).
* `C71_false_zero` (C71_Term.lean): D and U print `ESC [ 0 A` and `ESC [ 0 B` for 0, which a terminal takes for a move by one line, though there is nowhere to go (/repo/fing/TERM.fl:3-5).
* `C73_undefined_shift` (C73_Bits.lean): **C73** is violated: shifting by 64 or more places, or by a negative number, whose result would be plain, is undefined.
* `C74_undefined_product` (C74_CPLI.lean): **C74** is violated: `M` of 2^32 + i and 2^31 + i is undefined although both parts of the product, 2^63 - 1 and 2^32 + 2^31, fit a cell.
* `C75_false_order` (C75_JSTR.lean): **C75** is violated: a string is popped with its first character on top (as by `P` of STRN and of JSTR), but `G` pushes it with its last character on top, whenever it is not the same both ways round.
* `C76_false_when_hovering` (C76_ORTH.lean): **C76** is violated in hover mode: `0V` while going down leaves a delta twice as long.
* `C77_undefined_shift` (C77_Toys.lean): **C77** is violated: shifting by 64 or more places, either way, is undefined.
* `C77_undefined_total` (C77_Toys.lean): **C77** is violated: `E` on 2^63 - 1, 1 and -1 and `P` on 2^62, 2 and 0 are undefined although the sum and the product fit a cell.
* `C78_false_inverted` (C77_Toys.lean): **C78** is violated with `-finvert-hl`: going up, `U` leaves an `h` behind, which sends the next IP down.
* `C78_undefined_axis` (C77_Toys.lean): **C78** is violated: a negative axis ends the interpreter with an exception.
* `C79_false_in_queue_mode` (C77_Toys.lean): **C79 does not hold** for a queue: what `W` has taken from one end it puts back at the other, and in its next turn takes something else. Here a stack in queue mode holds (in the order in which it gives them) 0, 0, 90 and 7; `W` waits for a `Z` at (0, 0), and after one turn the stack gives the 7 first.
* `C81_false_negative` (C80_Numbers.lean): **C81** is violated: `Z` reads what `P` writes for -5 as -25.
* `C81_false_subtraction` (C80_Numbers.lean): **C81** is violated: `S` leaves the sum instead of the difference; the two differ unless twice the second number is 0 with 128 bits.
* `C82_false_cut` (C80_Numbers.lean): **C82** is violated: a longer text is cut to 1023 characters.
* `C82_undefined_single` (C80_Numbers.lean): **C82** is violated: every letter of FPSP that should leave a floating point number is undefined, on every stack.
* `C83_false_size` (C83_Mvrs.lean): **C83** is violated: `F` with whatever size does not copy an area of that size. The cell at its far corner, which lies outside, is overwritten too, unless it happens to hold the same already.
* `C84_diverges_third` (C83_Mvrs.lean): **C84** is violated: when that is taken too, `B` never ends.
* `C84_false_escape` (C83_Mvrs.lean): **C84** is violated, by a whole program: switched off in the one universe there is, commands are run nevertheless.
* `C84_false_permissions` (C83_Mvrs.lean): **C84** is violated: whatever its creator may do, the new universe may run commands, touch files, split IPs and load fingerprints.
* `C85_false_get` (C83_Mvrs.lean): **C85** is violated: an IP that is in another universe than the one it is from reads the field of the latter with `g`.
* `C85_false_iterate` (C85_Iterate.lean): **C85** is violated: `1k` of an IP that is in another universe than the one it is from executes the instruction that is at the next place in the universe it is from, `u`, whatever is there in the one it is in. The next place is that in the universe it is in.
* `C85_false_put` (C85_Iterate.lean): **C85** is violated: an IP that is in another universe than the one it is from writes into the field of the latter with `p`, and the universe it is in stays as it is (`Leaves`).
* `C85_false_race` (C83_Mvrs.lean): **C85** is violated: an IP that goes to another universe may be run by the thread of that one before that of its old one is done with it.
* `C87_false_in_switch_mode` (C87_Space.lean): In switch mode `[` replaces itself by `]`, though it is not among the instructions that store.
* `C87_false_without_low_byte` (C87_Space.lean): The low byte matters: a cell 368 is no instruction, but `k` has it executed as `p` (112 = 368 mod 256), which stores the 7 at (3, 0).
* `C89_false_beyond_a_byte` (C88_Words.lean): **C89** is false for other values: `s` never stores them, though `p` does (cells have 64 bits): what is stored is between -128 and 127.
* `C89_false_for_wide_cells` (C88_Words.lean): **C89** is false for other values: `'` never pushes them (it pushes the low 32 bits).
* `C90_false_for_fractions` (C90_FishWords.lean): What is missing: `%` takes no fractions (it drops them first), and the remainder has the sign of the dividend. In halves, 2½ `%` 1 is ½, but `%` makes it 0; and -1 `%` 3 is 2, but `%` makes it -1.
* `C92_false_for_CR` (C92_Programs.lean): What is missing: of CR LF only the LF is copied.
* `C93_false_beyond_32_bits` (C93_Factorial.lean): A factorial beyond 32 bits that still fits a cell: the program prints another number.
* `C93_undefined_beyond_64_bits` (C93_Factorial.lean): A factorial beyond 64 bits: the program runs into an overflow of signed numbers, which is undefined.
* `C93_undefined_for_zero` (C93_Factorial.lean): And 0! is never printed: the program counts down from 0 to the least number there is, and overflows.
* `C95_false_beyond_32_bits` (C95_Expressions.lean): A value beyond 32 bits: the program prints another number.
* `C95_undefined_beyond_64_bits` (C95_Expressions.lean): An operation whose result does not fit a cell: undefined.
* `C96_diverges_along_a_third_axis` (C96_Window.lean): **C96** fails if the size has a coordinate along a third, higher axis: the picture never ends.
* `C96_diverges_along_one_axis` (C96_Window.lean): **C96** fails if the same axis is given twice: the picture never ends.
* `C96_diverges_on_garbage` (C96_Window.lean): **C96** fails if the uninitialised variable of `operator>>` happens to hold '(': `list` then never ends.
* `C96_false_with_axes_swapped` (C96_Window.lean): **C96** fails with the axes the other way round: with a size of (1, 1) around (0, 0), the picture along the axes 1 and 0 has the X at (2, 0).
* `C96_undefined_after_an_end` (C96_Window.lean): **C96** fails once an IP has ended: its entry stays, with a pointer to a runner that has been deleted.
* `C97_false_numbers_of_stacks` (C97_Prompt.lean): **C97** fails for the numbers of the stacks: `peek` shows every one of them with the number 0, although `peek 1 1` is the way to ask for the second one.
* `C97_false_other_positions` (C97_Prompt.lean): **C97** fails for the IPs that are not selected: `thread` shows them where the selected one is. Here one is at (0, 0) and the other one at (1, 0).
* `C97_undefined_for_no_stack` (C97_Prompt.lean): **C97** fails for a stack that does not exist: reading it is undefined.
* `C98_false_missing_argument` (C98_Changes.lean): **C98** fails for a position or a delta left out: the IP goes to the origin, or stands still.
* `C98_false_mistyped_thread` (C98_Changes.lean): **C98** fails for a `thread` that is mistyped: it selects the IP 0.
* `C98_false_setdelta_hovering` (C98_Changes.lean): **C98** fails in the mode HOVR: what is typed behind `setdelta` is added to the delta.
* `C99_false_directory_not_made` (C99_System.lean): **C99** fails where the system cannot make the directory: the exception ends the interpreter instead of reflecting the IP.
* `C99_false_directory_not_removed` (C99_System.lean): **C99** fails for a directory that cannot be removed, for instance because it is not empty: the exception ends the interpreter.
* `C99_false_multiple_of_256` (C99_System.lean): **C99** fails for a cell that is not 0 but a multiple of 256: it is not the end of the string on the stack, but it is for the system. Here the command ends after `ls`.
* `C99_false_perl_dollar` (C99_System.lean): **C99** fails for Perl code with a variable in it: the shell expands `$x` before Perl sees it, whatever the code is otherwise.
* `C100_false_binary` (C100_Files.lean): **C100** fails for a file read as binary: all of it is in one line, which `i` does not count, and `o` writes one byte of it.
* `C100_false_no_final_newline` (C100_Files.lean): **C100** fails for a file whose last line has no line break: `i` does not count the line, and `o` does not write it.
* `C100_false_storage_offset` (C100_Files.lean): **C100** fails with a storage offset, here (10, 0): `i` leaves where it has put the file in space, and `o` adds the offset once more, and writes what is ten cells further east. Without an offset the file comes back.
* `C101_false_bridge_over_the_edge` (C101_Reference.lean): **C101**, why the machine gives nothing for a `#` at the east edge: the interpreter passes over no cell of the playfield, and the program ends without printing.
* `C101_false_string_over_the_edge` (C101_Reference.lean): **C101**, why the machine gives nothing at the east edge within a string: the interpreter finds a character there that is not on the playfield, and prints a space after the `A`.
* `C102_false_close_keeps_order` (C102_Fish.lean): **C102.** So it is with `]`.
* `C102_false_empty_cell_is_zero` (C102_Fish.lean): **C102.** An empty cell reads as zero, in the language. It reads as a blank.
* `C102_false_open_keeps_order` (C102_Fish.lean): **C102.** `[` takes values along in their order: with 1 2 3 4 5 on the stack, `3[` is to leave 1 2 and 3 4 5, so that 5, 4, 3 are printed. The order is reversed.
* `C106_false_for_random` (C106_Letters.lean): And of larger numbers only the low 32 bits count: up to 2^32 is up to 0.
* `C106_undefined_for_least` (C106_Letters.lean): What is missing above: the least number has neither a negative nor an absolute value.
* `C106_undefined_for_random` (C106_Letters.lean): What is missing above: for a negative number the distribution is undefined, and so it is for 2^31.
* `C106_undefined_for_text` (C106_Letters.lean): What is missing above: a text that says no number ends the whole process (an exception nobody catches) instead of being reflected.
* `C107_false_for_FISH` (C107_Fisherman.lean): What is missing above: nobody tells FISH of a reflection. An IP that goes level, is reflected, and meets `F` and another `F`, goes on in the direction it had before the reflection, not where it came from.
* `C108_undefined_for_a_program` (C108_Overflow.lean): The program gets as far as the `x`, whose direction fits in 64 bits, and the step after it is undefined (the unbounded model goes on).
* `C108_undefined_for_far` (C108_Overflow.lean): What is missing above: a step that leaves the range of 64 bits is undefined, for every program in every topology.
* `C109_diverges_for_a_late_twin` (C109_Teardown.lean): The missing case of `C109_ends_partial`: an IP that is added in the very moment in which the universe is killed is never stopped; it runs on, and the destructor waits for ever.
* `C109_undefined_for_any_thread` (C109_Teardown.lean): And there it happens whenever the destructor finds a thread that has not been joined: whatever is done next, and done by it, is to use that thread again.
* `C109_undefined_for_native` (C109_Teardown.lean): The program `q` with native threads, if its thread is quicker than the scheduler's: the IP is added and kills the universe, the thread that waits for the universe returns, the destructor is called, and only then the scheduler looks at `running`.
* `C110_false_for_travellers` (C110_WaitAll.lean): **C110** is violated by IPs that travel: one that goes from a universe that is still to be visited to one that has been visited is forgotten; the interpreter ends, and it has not. Here it creates a universe, goes there, and comes back.
* `C111_false_for_age` (C111_Races.lean): **C111** is violated by an IP that waits for its stack to change (D of IIPC), while another one puts something onto it (P of IIPC).
* `C111_false_for_fungespace` (C111_Races.lean): **C111** is violated by IPs that are native threads: Fungespace has no lock.
* `C111_false_for_modes` (C111_Races.lean): **C111** is violated by an IP that sets a mode, while an IP comes from another universe (MODE and MVRS).
* `C111_false_for_running` (C111_Races.lean): **C111** is violated by `running`: the scheduler tests it without the lock, while another thread kills the universe.
* `C111_false_for_the_main_thread` (C111_Races.lean): **C111** is violated whenever the interpreter waits for a program to end: the main thread asks whether the universe is running without the lock, while the scheduler takes an IP off the list.
* `C111_false_for_universes` (C111_Races.lean): **C111** is violated by an IP that asks for the number of universes (N of MVRS), or for one by its name, while another one creates one.
* `C112_false_for_absolute_names` (C112_LibFile.lean): **C112** is violated by names with slashes: a program can have any file with a short name loaded as a library, wherever the interpreter is.
* `C112_false_for_dots` (C112_LibFile.lean): **C112** is violated by names with slashes: a program can leave the directory by `..`.
* `C112_false_for_zeros` (C112_LibFile.lean): **C112** is violated by names with zeros: two IDs stand for the same file, and it does not have the name of a library.
* `C113_diverges_without_input` (C113_Debugged.lean): **Without input, no program runs under the debugger**: of whatever program, the first instruction is not executed. The prompt does not notice the end of the input, and asks for ever.
* `C113_false_shared_input` (C113_Debugged.lean): **The prompt takes the input of the program, and the program that of the prompt.** `~,@` prints the first character it reads. With the lines `r` and `A` it prints `r`; under the debugger it prints `A`, for the prompt has read the first line. Nothing typed does more than let the program run.
* `C113_undefined_after_an_end` (C113_Debugged.lean): **Looking at a program after an IP has ended is undefined**: `t` makes a second IP, which goes the other way and ends at `@`. Its runner has been deleted, but not the pointer to it, and `l` follows the pointer. Without the debugger the program is fine.
* `C118_false_for_calls` (C118_StarMachine.lean): **C118.** A subroutine that does nothing but return leaves the stack alone: `5` is to be printed after it. The code loses the stack in returning, and the fish dies at `n`.
* `C119_false_with_B` (C119_Worlds.lean): **C119** is violated: there is one universe, and it forbids commands; but its program makes another one with `B`, goes there, and runs a command.
* `C122_false_permissions` (C122_Library.lean): **C122** is false of permissions: the universe of a library allows everything, whatever its user is allowed. A program that may not run commands runs one by a letter of a library.

## 7. Wrong programs

`seeded/LOG.jsonl` records edits made to a scratch copy of the model, each a realistic bug, with the theorems that no longer prove.
The scratch build goes on after a failure (the failing proof is assumed away) until all failures are known; a theorem counts as failed if
its own proof fails or if it depends on a lemma whose proof fails.
