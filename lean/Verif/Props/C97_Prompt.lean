import Verif.Props.C96_Window
import Verif.Props.C01_Stack
import Verif.Props.C42_Output
/-!
C97: what the debugger's prompt reports is the state of the program.
-/
namespace Funge.Defunge
open Funge

attribute [local irreducible] lit

/-- What the prompt sees is in order: it is about a universe, and about an IP that exists. -/
structure Attached (w : World) (u h : Home) (r : Seen) : Prop where
  unique : w.alive.Pairwise fun r q => r.id ≠ q.id
  home : w.home w.dbg = .ok u
  runner : w.runner = some r.id
  alive : r ∈ w.alive
  uni : w.home r.uni = .ok h

theorem Attached.say {w : World} {u h : Home} {r : Seen} (a : Attached w u h r) (t : List Int) : Attached (w.say t) u h r :=
  ⟨a.unique, a.home, a.runner, a.alive, a.uni⟩

theorem Attached.deref {w : World} {u h : Home} {r : Seen} (a : Attached w u h r) : w.deref w.runner = .ok r := by
  rw [a.runner]; exact deref_of_mem a.unique a.alive

theorem Attached.some {w : World} {u h : Home} {r : Seen} (a : Attached w u h r) : ¬(w.runner.isNone = true) := by
  rw [a.runner]; exact Bool.false_ne_true

/-- A command typed without arguments. -/
theorem line_bare {cmd : List Int} (h0 : cmd ≠ []) (h : ∀ x ∈ cmd, IStream.isSpace x = false) : word ⟨cmd, false⟩ = (cmd, ⟨[], false⟩) := by
  obtain ⟨x, t, rfl⟩ := List.exists_cons_of_ne_nil h0
  have hs : IStream.skip (x :: t) = x :: t := skip_of_not (h x (by simp))
  unfold word
  rw [if_neg Bool.false_ne_true]
  dsimp only
  rw [hs]
  have e1 : ∀ (q : List Int), (∀ y ∈ q, IStream.isSpace y = false) → q.takeWhile (!IStream.isSpace ·) = q ∧ q.dropWhile (!IStream.isSpace ·) = [] := by
    intro q hq
    induction q with
    | nil => exact ⟨rfl, rfl⟩
    | cons y q ih =>
      have hy := hq y (by simp)
      have ih := ih fun z hz => hq z (List.mem_cons_of_mem _ hz)
      rw [List.takeWhile_cons, List.dropWhile_cons, hy]
      simp [ih]
  have := e1 (x :: t) h
  show ((x :: t).takeWhile _, (⟨(x :: t).dropWhile _, false⟩ : IStream)) = _
  rw [this.1, this.2]

/-! ### peek -/

theorem popN_snoc (n : Nat) : ∀ s : Stack, (s.popN (n + 1)).1 = (s.popN n).1 ++ [((s.popN n).2.pop).1] := by
  induction n with
  | zero => intro s; rfl
  | succ n ih =>
    intro s
    show s.pop.1 :: (s.pop.2.popN (n + 1)).1 = _
    rw [ih]
    rfl

theorem lit_blank : lit " " = [32] := by krfl

theorem peekLine_eq (s : Stack) (n : Nat) : peekLine s n = (s.popN n).1.reverse.flatMap fun x => decimal x ++ [32] := by
  induction n with
  | zero => rfl
  | succ n ih => rw [peekLine, ih, popN_snoc, C02_get_predicts_pop, List.reverse_append, lit_blank]; rfl

/-- The line `peek` shows for a stack: its values, the one that would be popped first being the last. -/
def stackLine (s : Stack) : List Int := lit "[0] " ++ ((s.popN s.size).1.reverse.flatMap fun x => decimal x ++ [32]) ++ [10]

theorem peekAll_eq (l : List Stack) : peekAll l = l.flatMap stackLine := by
  induction l with
  | nil => rfl
  | cons s t ih => rw [peekAll, ih, peekLine_eq, lit_nl]; rfl

/-- The word is a command: it is in the table. -/
theorem bare {n : String} {fn : Func} (hm : (cmdMap.find? fun p => lit p.1 == lit n).map Prod.snd = some fn) (h0 : lit n ≠ [])
    (h : ∀ x ∈ lit n, IStream.isSpace x = false) (fuel : Nat) (c : Int) (w : World) :
    line fuel c w (lit n) = match call fuel c (w.say promptText) ⟨[], false⟩ fn with
      | .ok (.noThread, w) => .ok (.ok, w.say (lit "No thread.\n"))
      | r => r := line_call hm fuel c w _ _ (line_bare h0 h)

/-- **C97** (partial: see `C97_false_numbers_of_stacks`) `peek` shows every stack, the topmost first, each with its values in the order opposite to that in which they would be popped. -/
theorem C97_peek_partial {w : World} {u h : Home} {r : Seen} (a : Attached w u h r) {n : String} (hn : n = "peek" ∨ n = "p") (fuel : Nat) (c : Int) :
    line fuel c w (lit n) = .ok (.ok, (w.say promptText).say (r.ss.stacks.flatMap stackLine)) := by
  have e : ∀ n : String, n = "peek" ∨ n = "p" → (cmdMap.find? fun p => lit p.1 == lit n).map Prod.snd = some Func.peek ∧ lit n ≠ [] ∧
      ∀ x ∈ lit n, IStream.isSpace x = false := by
    rintro n (rfl | rfl)
    · rw [show lit "peek" = [112, 101, 101, 107] by krfl]; exact ⟨by krfl, by decide, by decide⟩
    · rw [show lit "p" = [112] by krfl]; exact ⟨by krfl, by decide, by decide⟩
  obtain ⟨e1, e2, e3⟩ := e n hn
  rw [bare e1 e2 e3]
  have hc : call fuel c (w.say promptText) ⟨[], false⟩ .peek = .ok (.ok, (w.say promptText).say (r.ss.stacks.flatMap stackLine)) := by
    rw [call]
    unfold peek
    rw [if_neg (a.say _).some, (a.say _).deref, bind_ok_except]
    rw [← peekAll_eq]
    rfl
  rw [hc]

theorem number_digits (rest : List Int) (hr : ∀ y ∈ rest.head?, ¬ (48 ≤ y ∧ y ≤ 57)) (ds : List Int) : ∀ v : Nat, (∀ c ∈ ds, 48 ≤ c ∧ c ≤ 57) →
    number v (ds ++ rest) = ((valueFrom v ds).toNat, rest) := by
  induction ds with
  | nil =>
    intro v _
    cases rest with
    | nil => rfl
    | cons y t =>
      rw [List.nil_append, number, if_neg (hr y rfl)]
      rfl
  | cons c t ih =>
    intro v hd
    have hc := hd c (by simp)
    rw [List.cons_append, number, if_pos hc, ih _ fun c' h' => hd c' (List.mem_cons_of_mem _ h')]
    show _ = ((valueFrom (v * 10 + (c - 48)) t).toNat, rest)
    rw [show ((v * 10 + (c - 48).toNat : Nat) : Int) = (v : Int) * 10 + (c - 48) by omega]

theorem decimal_nat (n : Nat) : (∃ x t, decimal n = x :: t) ∧ (∀ c ∈ decimal n, 48 ≤ c ∧ c ≤ 57) ∧ valueFrom 0 (decimal n) = n := by
  rcases decimal_spec n with ⟨_, ⟨h1, h2, _⟩, h3⟩ | ⟨h, _⟩
  · exact ⟨List.exists_cons_of_ne_nil h1, h2, h3⟩
  · omega

/-- A number typed behind a blank. -/
theorem size_read (n : Nat) (hn : n < 18446744073709551616) (rest : List Int) (hr : ∀ y ∈ rest.head?, ¬ (48 ≤ y ∧ y ≤ 57)) (v : Nat) :
    size ⟨32 :: (decimal n ++ rest), false⟩ v = (n, ⟨rest, false⟩) := by
  obtain ⟨⟨x, t, hx⟩, h2, h3⟩ := decimal_nat n
  have hx' := h2 x (by rw [hx]; simp)
  have hs : IStream.skip (32 :: (decimal n ++ rest)) = x :: (t ++ rest) := by
    rw [hx]
    show IStream.skip (x :: (t ++ rest)) = _
    exact skip_of_not (notSpace (by omega) (by omega))
  unfold size
  rw [if_neg Bool.false_ne_true]
  dsimp only
  rw [hs]
  dsimp only
  rw [if_neg (by omega), if_neg (by omega), unsigned, if_pos hx']
  have := number_digits rest hr (decimal n) 0 h2
  rw [hx, List.cons_append] at this
  rw [this, ← hx, show valueFrom ((0 : Nat) : Int) (decimal n) = n from h3]
  simp only [Int.toNat_natCast]
  rw [if_neg (by omega)]
  simp

/-- **C97.** `peek n s` shows the value that the `n`-th pop from the stack with number `s` would give, the topmost stack having the number 0. -/
theorem C97_peek_value {w : World} {u h : Home} {r : Seen} (a : Attached w u h r) {n s : Nat} (hn : n + 1 < 18446744073709551616) (hs : s < 18446744073709551616)
    {st : Stack} (hst : r.ss.stacks[s]? = some st) (fuel : Nat) (c : Int) :
    line fuel c w (lit "peek " ++ decimal (n + 1 : Nat) ++ lit " " ++ decimal s) =
      .ok (.ok, (w.say promptText).say (decimal ((st.popN n).2.pop).1 ++ [10])) := by
  have hl : lit "peek " ++ decimal (n + 1 : Nat) ++ lit " " ++ decimal s = lit "peek" ++ 32 :: (decimal (n + 1 : Nat) ++ 32 :: (decimal s ++ [])) := by
    rw [show lit "peek " = lit "peek" ++ [32] by krfl, lit_blank]; simp
  have hw := word_then (lit "peek") (by rw [show lit "peek" = [112, 101, 101, 107] by krfl]; decide)
    (by rw [show lit "peek" = [112, 101, 101, 107] by krfl]; decide) (decimal (n + 1 : Nat) ++ 32 :: (decimal s ++ []))
  rw [hl, line_call (fn := .peek) (by krfl) fuel c w _ _ hw]
  have hc : call fuel c (w.say promptText) ⟨32 :: (decimal (n + 1 : Nat) ++ 32 :: (decimal s ++ [])), false⟩ .peek =
      .ok (.ok, (w.say promptText).say (decimal ((st.popN n).2.pop).1 ++ [10])) := by
    rw [call]
    unfold peek
    rw [if_neg (a.say _).some, (a.say _).deref, bind_ok_except, size_read (n + 1) hn _ (by simp)]
    dsimp only
    rw [if_neg (by omega), size_read s hs [] (by simp)]
    dsimp only
    rw [StackStack.at', hst]
    show Except.ok _ = _
    rw [C02_get_predicts_pop, lit_nl]
  rw [hc]

/-- **C97** The value `peek n s` shows is the `n`-th from the top of stack `s`, or the `n`-th from its bottom if the stack is in queue mode; 0 if
the stack holds fewer. -/
theorem C97_peek_nth {w : World} {u h : Home} {r : Seen} (a : Attached w u h r) {n s : Nat} (hn : n + 1 < 18446744073709551616) (hs : s < 18446744073709551616)
    {st : Stack} (hst : r.ss.stacks[s]? = some st) (fuel : Nat) (c : Int) :
    line fuel c w (lit "peek " ++ decimal (n + 1 : Nat) ++ lit " " ++ decimal s) =
      .ok (.ok, (w.say promptText).say (decimal (if hasMode st.mode modeQueue then st.items.reverse.getD n 0 else st.items.getD n 0) ++ [10])) := by
  rw [C97_peek_value a hn hs hst, ← C02_get_predicts_pop, Stack.get]
  simp only [Stack.walk_eq, Nat.add_sub_cancel, List.getD_eq_getElem?_getD]
  by_cases hl : n + 1 ≤ st.items.length
  · rw [if_pos ⟨hl, by omega⟩]
  · rw [if_neg (by omega), List.getElem?_eq_none (by simp; omega), List.getElem?_eq_none (by omega)]
    simp

/-- `peek 2 0` where the top stack holds 5 on 6. -/
example : (match line 100 0 { exWorld with alive := [{ exSeen 0 0 0 with ss := ⟨0, [⟨0, [5, 6], 0⟩]⟩ }] } (lit "peek 2 0") with
    | .ok (_, w) => w.out
    | .error _ => []) = promptText ++ lit "6\n" := by decide +kernel

/-- **C97** fails for a stack that does not exist: reading it is undefined. -/
theorem C97_undefined_for_no_stack {w : World} {u h : Home} {r : Seen} (a : Attached w u h r) {n s : Nat} (hn : n + 1 < 18446744073709551616) (hs : s < 18446744073709551616)
    (hst : r.ss.size ≤ s) (fuel : Nat) (c : Int) : line fuel c w (lit "peek " ++ decimal (n + 1 : Nat) ++ lit " " ++ decimal s) = .error .outOfRange := by
  have hl : lit "peek " ++ decimal (n + 1 : Nat) ++ lit " " ++ decimal s = lit "peek" ++ 32 :: (decimal (n + 1 : Nat) ++ 32 :: (decimal s ++ [])) := by
    rw [show lit "peek " = lit "peek" ++ [32] by krfl, lit_blank]; simp
  have hw := word_then (lit "peek") (by rw [show lit "peek" = [112, 101, 101, 107] by krfl]; decide)
    (by rw [show lit "peek" = [112, 101, 101, 107] by krfl]; decide) (decimal (n + 1 : Nat) ++ 32 :: (decimal s ++ []))
  rw [hl, line_call (fn := .peek) (by krfl) fuel c w _ _ hw]
  have hc : call fuel c (w.say promptText) ⟨32 :: (decimal (n + 1 : Nat) ++ 32 :: (decimal s ++ [])), false⟩ .peek = .error .outOfRange := by
    rw [call]
    unfold peek
    rw [if_neg (a.say _).some, (a.say _).deref, bind_ok_except, size_read (n + 1) hn _ (by simp)]
    dsimp only
    rw [if_neg (by omega), size_read s hs [] (by simp)]
    dsimp only
    rw [StackStack.at', List.getElem?_eq_none hst]
    rfl
  rw [hc]

/-! ### The other reports -/

/-- What `position` shows of an IP. -/
def positionLine (f : Field) (id : Nat) (p : Vec) : List Int := decimal id ++ lit ": " ++ printVec p ++ lit " \"" ++ [toChar (f.get p)] ++ lit "\"\n"

theorem printIP_eq {w : World} {u h : Home} {r : Seen} (a : Attached w u h r) (q : Seen) : printIP w q = .ok (w.say (positionLine h.field q.id r.ip.pos)) := by
  unfold printIP
  rw [a.deref, bind_ok_except, a.uni, bind_ok_except]
  rfl

/-- The lines of a backtrace: a number from 0, the position, and the character there. -/
def backtraceLines (f : Field) (l : List Vec) : List Int :=
  l.zipIdx.flatMap fun (p, i) => lit "#" ++ decimal i ++ lit "  " ++ printVec p ++ lit " \"" ++ [toChar (f.get p)] ++ lit "\"\n"

theorem traceLines_eq (f : Field) (l : List Vec) : ∀ i, traceLines f i l =
    (l.zipIdx i).flatMap fun (p, i) => lit "#" ++ decimal i ++ lit "  " ++ printVec p ++ lit " \"" ++ [toChar (f.get p)] ++ lit "\"\n" := by
  induction l with
  | nil => intro i; rfl
  | cons b t ih => intro i; rw [traceLines, ih]; rfl

/-- **C97.** `position` shows the id, the position and the instruction of the selected IP, `delta` and `storage` its delta and its storage offset, and `backtrace` the positions it
has come through, with what is there. -/
theorem C97_reports {w : World} {u h : Home} {r : Seen} (a : Attached w u h r) (fuel : Nat) (c : Int) :
    line fuel c w (lit "position") = .ok (.ok, (w.say promptText).say (positionLine h.field r.id r.ip.pos)) ∧
    line fuel c w (lit "delta") = .ok (.ok, (w.say promptText).say (lit "Delta " ++ printVec r.ip.delta ++ lit "\n")) ∧
    line fuel c w (lit "storage") = .ok (.ok, (w.say promptText).say (lit "Storage " ++ printVec r.ip.storage ++ lit "\n")) ∧
    ∀ t, u.threads.find? (·.id == r.id) = some t →
      line fuel c w (lit "backtrace") = .ok (.ok, ((w.say promptText).say (lit "Backtrace\n")).say (backtraceLines h.field t.backtrace)) := by
  have a' := a.say promptText
  refine ⟨?_, ?_, ?_, fun t ht => ?_⟩
  · rw [bare (n := "position") (fn := .position) (by krfl) (by rw [show lit "position" = [112, 111, 115, 105, 116, 105, 111, 110] by krfl]; decide)
      (by rw [show lit "position" = [112, 111, 115, 105, 116, 105, 111, 110] by krfl]; decide)]
    have : call fuel c (w.say promptText) ⟨[], false⟩ .position = .ok (.ok, (w.say promptText).say (positionLine h.field r.id r.ip.pos)) := by
      rw [call, showing, if_neg a'.some, a'.deref, bind_ok_except, printIP_eq a', bind_ok_except]; rfl
    rw [this]
  · rw [bare (n := "delta") (fn := .delta) (by krfl) (by rw [show lit "delta" = [100, 101, 108, 116, 97] by krfl]; decide)
      (by rw [show lit "delta" = [100, 101, 108, 116, 97] by krfl]; decide)]
    have : call fuel c (w.say promptText) ⟨[], false⟩ .delta = .ok (.ok, (w.say promptText).say (lit "Delta " ++ printVec r.ip.delta ++ lit "\n")) := by
      rw [call, showing, if_neg a'.some, a'.deref, bind_ok_except, bind_ok_except]; rfl
    rw [this]
  · rw [bare (n := "storage") (fn := .storage) (by krfl) (by rw [show lit "storage" = [115, 116, 111, 114, 97, 103, 101] by krfl]; decide)
      (by rw [show lit "storage" = [115, 116, 111, 114, 97, 103, 101] by krfl]; decide)]
    have : call fuel c (w.say promptText) ⟨[], false⟩ .storage = .ok (.ok, (w.say promptText).say (lit "Storage " ++ printVec r.ip.storage ++ lit "\n")) := by
      rw [call, showing, if_neg a'.some, a'.deref, bind_ok_except, bind_ok_except]; rfl
    rw [this]
  · rw [bare (n := "backtrace") (fn := .backtrace) (by krfl) (by rw [show lit "backtrace" = [98, 97, 99, 107, 116, 114, 97, 99, 101] by krfl]; decide)
      (by rw [show lit "backtrace" = [98, 97, 99, 107, 116, 114, 97, 99, 101] by krfl]; decide)]
    have : call fuel c (w.say promptText) ⟨[], false⟩ .backtrace =
        .ok (.ok, ((w.say promptText).say (lit "Backtrace\n")).say (backtraceLines h.field t.backtrace)) := by
      rw [call, backtrace, if_neg a'.some, a'.home, bind_ok_except, a'.deref, bind_ok_except, a'.uni, bind_ok_except]
      simp only [ht]
      rw [traceLines_eq]; rfl
    rw [this]

/-- **C97.** `read` shows the value of a cell as a number and as a character. -/
theorem C97_read {w : World} {u : Home} (hu : w.home w.dbg = .ok u) {v : Vec} (hv : Typeable v) {fuel : Nat} (hf : (printVec v).length ≤ fuel) (c : Int) :
    line fuel c w (lit "read " ++ printVec v) =
      .ok (.ok, (w.say promptText).say (lit "Value = (" ++ decimal (u.field.get v) ++ lit ") \"" ++ [toChar (u.field.get v)] ++ lit "\"\n")) := by
  have hl : lit "read " ++ printVec v = lit "read" ++ 32 :: (printVec v ++ []) := by rw [show lit "read " = lit "read" ++ [32] by krfl]; simp
  have hw := word_then (lit "read") (by rw [show lit "read" = [114, 101, 97, 100] by krfl]; decide)
    (by rw [show lit "read" = [114, 101, 97, 100] by krfl]; decide) (printVec v ++ [])
  rw [hl, line_call (fn := .read) (by krfl) fuel c w _ _ hw]
  have : call fuel c (w.say promptText) ⟨32 :: (printVec v ++ []), false⟩ .read =
      .ok (.ok, (w.say promptText).say (lit "Value = (" ++ decimal (u.field.get v) ++ lit ") \"" ++ [toChar (u.field.get v)] ++ lit "\"\n")) := by
    rw [call, read, show (w.say promptText).home (w.say promptText).dbg = .ok u from hu, bind_ok_except, hv.read [] c hf, bind_ok_except]
    rfl
  rw [this]

/-- The line of an IP in the list of IPs, as `thread` should show it. -/
def threadLine (w : World) (f : Field) (sel : Nat) (t : Entry) : List Int :=
  if t.state = .ended then lit "  " ++ decimal t.id ++ lit ": end\n"
  else match w.alive.find? (·.id == t.id) with
    | some r => (if t.id = sel then lit "* " else lit "  ") ++ positionLine f t.id r.ip.pos
    | none => []

theorem threadLines_eq {u h : Home} {r : Seen} (l : List Entry) : ∀ {w : World}, Attached w u h r → (∀ t ∈ l, t.state ≠ .ended → t.runner = some t.id ∧ ∃ q ∈ w.alive, q.id = t.id) →
    threadLines r.id w l = .ok (w.say (l.flatMap fun t => if t.state = .ended then lit "  " ++ decimal t.id ++ lit ": end\n"
      else (if t.id = r.id then lit "* " else lit "  ") ++ positionLine h.field t.id r.ip.pos)) := by
  induction l with
  | nil => intro w a _; simp [threadLines, World.say]
  | cons t ts ih =>
    intro w a hl
    by_cases he : t.state = .ended
    · rw [threadLines, if_neg (by simp [he]), ih (a.say _) fun t' h' => hl t' (List.mem_cons_of_mem _ h')]
      simp [World.say, he]
    · obtain ⟨h1, q, hq, h2⟩ := hl t (by simp) he
      rw [threadLines, if_pos he]
      have hr := a.runner
      rw [hr]
      dsimp only
      have hd : w.deref t.runner = .ok q := by rw [h1, ← h2]; exact deref_of_mem a.unique hq
      rw [hd, bind_ok_except, printIP_eq (a.say _), bind_ok_except, ih ((a.say _).say _) fun t' h' => hl t' (List.mem_cons_of_mem _ h')]
      simp [World.say, he, h2]

theorem flatMap_congr_mem {α β : Type} {f g : α → List β} {l : List α} (h : ∀ x ∈ l, f x = g x) : l.flatMap f = l.flatMap g := by
  induction l with
  | nil => rfl
  | cons x t ih => rw [List.flatMap_cons, List.flatMap_cons, h x (by simp), ih fun y hy => h y (by simp [hy])]

/-- **C97** (partial: see `C97_false_other_positions`) `thread` lists the IPs that have been debugged, with the selected one marked; the ones that have ended are shown to have ended, and if
there is only one that has not, its position is shown. -/
theorem C97_threads_partial {w : World} {u h : Home} {r : Seen} (a : Attached w u h r) (hr : u.threads.find? (·.id == r.id) = some ⟨r.id, some r.id, b, s⟩)
    (hl : ∀ t ∈ u.threads, t.state ≠ .ended → t.runner = some t.id ∧ t.id = r.id) (fuel : Nat) (c : Int) :
    line fuel c w (lit "thread") = .ok (.ok, (w.say promptText).say (u.threads.flatMap (threadLine w h.field r.id))) := by
  rw [bare (n := "thread") (fn := .thread) (by krfl) (by rw [show lit "thread" = [116, 104, 114, 101, 97, 100] by krfl]; decide)
      (by rw [show lit "thread" = [116, 104, 114, 101, 97, 100] by krfl]; decide)]
  have a' := a.say promptText
  have : call fuel c (w.say promptText) ⟨[], false⟩ .thread = .ok (.ok, (w.say promptText).say (u.threads.flatMap (threadLine w h.field r.id))) := by
    rw [call, thread, a'.home, bind_ok_except]
    simp only [a'.runner]
    rw [show (w.say promptText).deref (some r.id) = .ok r from deref_of_mem a.unique a.alive, bind_ok_except]
    show (do let w ← threadLines _ _ _; _) = _
    simp only [size, Bool.false_eq_true, if_false, IStream.skip, hr]
    have e := threadLines_eq u.threads (w := { w.say promptText with runner := some r.id }) (u := u) (h := h) (r := r) ⟨a.unique, a.home, rfl, a.alive, a.uni⟩
      (fun t ht hs => ⟨(hl t ht hs).1, r, a.alive, (hl t ht hs).2.symm⟩)
    rw [e, bind_ok_except]
    have hw : ({ w.say promptText with runner := some r.id } : World) = w.say promptText := by
      have : w.runner = some r.id := a.runner
      cases w; simp_all [World.say]
    rw [hw]
    show Except.ok _ = _
    have hm : ∀ t ∈ u.threads, (if t.state = .ended then lit "  " ++ decimal t.id ++ lit ": end\n"
        else (if t.id = r.id then lit "* " else lit "  ") ++ positionLine h.field t.id r.ip.pos) = threadLine w h.field r.id t := by
      intro t ht
      unfold threadLine
      split
      · rfl
      · rename_i hs
        rw [(hl t ht hs).2, find_of_mem a.unique a.alive]
    rw [flatMap_congr_mem hm]
  rw [this]

/-- The hypotheses are met by a universe with two IPs. -/
theorem exAttached : Attached exWorld exHome exHome (exSeen 0 0 0) :=
  ⟨exSound.unique, by krfl, rfl, by simp [exWorld], by krfl⟩

/-- `C97_threads_partial`: one IP, and another one that has ended. -/
example : ∀ t ∈ [(⟨0, some 0, [], .step⟩ : Entry), ⟨1, some 1, [], .ended⟩], t.state ≠ .ended → t.runner = some t.id ∧ t.id = (exSeen 0 0 0).id := by
  intro t ht hs
  simp only [List.mem_cons, List.not_mem_nil, or_false] at ht
  rcases ht with rfl | rfl
  · exact ⟨rfl, rfl⟩
  · exact absurd rfl hs

example : Typeable (Vec.ofList [2, 0]) ∧ (match line 100 0 exWorld (lit "read (2,0)") with
    | .ok (_, w) => w.out
    | .error _ => []) = promptText ++ lit "Value = (88) \"X\"\n" :=
  ⟨⟨Vec.normal_ofList _, by decide, by decide⟩, by decide +kernel⟩

/-- **C97** fails for the IPs that are not selected: `thread` shows them where the selected one is. Here one is at (0, 0) and the other one at (1, 0). -/
theorem C97_false_other_positions : (exSeen 1 1 0).ip.pos = Vec.ofList [1, 0] ∧ exSeen 1 1 0 ∈ exWorld.alive ∧
    (match line 100 0 exWorld (lit "thread") with
    | .ok (.ok, w) => some w.out
    | _ => none) = some (promptText ++ lit "* 0: (0) \" \"\n" ++ lit "  1: (0) \" \"\n") ∧
    exHome.threads.flatMap (threadLine exWorld exField 0) = lit "* 0: (0) \" \"\n" ++ lit "  1: (1) \" \"\n" :=
  ⟨rfl, by simp [exWorld], by decide +kernel, by decide +kernel⟩

/-- An IP with two stacks, the topmost one with a 7 and the other one with an 8. -/
def exStacks : Seen := { exSeen 0 0 0 with ss := { stacks := [{ items := [7] }, { items := [8] }] } }

/-- **C97** fails for the numbers of the stacks: `peek` shows every one of them with the number 0, although `peek 1 1` is the way to ask for the second one. -/
theorem C97_false_numbers_of_stacks : (match line 100 0 { exWorld with alive := [exStacks] } (lit "peek") with
      | .ok (.ok, w) => some w.out
      | _ => none) = some (promptText ++ lit "[0] 7 \n[0] 8 \n") ∧
    (match line 100 0 { exWorld with alive := [exStacks] } (lit "peek 1 1") with
      | .ok (.ok, w) => some w.out
      | _ => none) = some (promptText ++ lit "8\n") := by
  constructor <;> decide +kernel

end Funge.Defunge
