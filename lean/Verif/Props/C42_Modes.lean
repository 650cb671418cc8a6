import Verif.Props.C42_Output
import Verif.Props.C88_Modes
/-!
# C42 in all modes of the stack

`,` and `.` write the next value that the stack gives.
-/
namespace Funge
open Exec

/-- **C42** in all modes of the stack: `,` takes the next value and appends the character with that code (the low byte) to the output. -/
theorem C42_char_out_any_mode (exec : Int → Exec Err) (s : St) (h : s.cur.ss.select < s.cur.ss.stacks.length) :
    ∃ s' b, runOp exec .charOut s = .ok (.none, s') ∧ Writes s s' [b] (fromEnd (hasMode s.top.mode modeQueue) s.due.tail) ∧ -128 ≤ b ∧ b ≤ 127 ∧
      (256 : Int) ∣ s.due.headD 0 - b ∧ (-128 ≤ s.due.headD 0 → s.due.headD 0 ≤ 127 → b = s.due.headD 0) := by
  have hp := popTop_any h rfl s.due s.top.ops
  rw [due_self h rfl] at hp
  refine ⟨_, toChar (s.due.headD 0), ?_, ⟨s.top.ops + 1, rfl⟩, ?_, ?_, ?_, ?_⟩
  · show iCharOut s = _
    rw [iCharOut, bind_ok hp, bind_ok (emit_run _ _), pure_run]
    have : (if s.due.headD 0 = 10 then (10 : Int) else toChar (s.due.headD 0)) = toChar (s.due.headD 0) := by
      split
      · rename_i hx; rw [hx]; decide
      · rfl
    rw [this]
    rfl
  · unfold toChar; have := Int.le_bmod (x := s.due.headD 0) (m := 256) (by decide); omega
  · unfold toChar; have := Int.bmod_lt (x := s.due.headD 0) (m := 256) (by decide); omega
  · unfold toChar; rw [Int.bmod_def]; split <;> omega
  · intro h1 h2; unfold toChar; rw [Int.bmod_def]; split <;> omega

/-- **C42** in all modes of the stack (partial: only for values that fit an `int`, see `C42_false_beyond_int`): `.` takes the next value and appends
its decimal representation and a space to the output. -/
theorem C42_num_out_any_mode_partial (exec : Int → Exec Err) (s : St) (h : s.cur.ss.select < s.cur.ss.stacks.length) (hx : -2147483648 ≤ s.due.headD 0)
    (hx' : s.due.headD 0 ≤ 2147483647) :
    ∃ s' t, runOp exec .numOut s = .ok (.none, s') ∧ IsDecimal (s.due.headD 0) t ∧
      Writes s s' (t ++ [32]) (fromEnd (hasMode s.top.mode modeQueue) s.due.tail) := by
  have hp := popTop_any h rfl s.due s.top.ops
  rw [due_self h rfl] at hp
  refine ⟨_, decimal (s.due.headD 0), ?_, decimal_spec _, ⟨s.top.ops + 1, rfl⟩⟩
  show iNumOut s = _
  rw [iNumOut, bind_ok hp, bind_ok (emit_run _ _), pure_run]
  have : toInt (s.due.headD 0) = s.due.headD 0 := by
    unfold toInt; rw [Int.bmod_def]; split <;> omega
  rw [this]
  rfl

/-- A queue that holds 65 on top and gives 10 first. -/
example : let s := (exState []).setTop ⟨modeQueue, [65, 10], 0⟩
    s.cur.ss.select < s.cur.ss.stacks.length ∧ s.due = [10, 65] ∧ -2147483648 ≤ s.due.headD 0 ∧ s.due.headD 0 ≤ 2147483647 := by decide

end Funge
