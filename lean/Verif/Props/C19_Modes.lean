import Verif.Props.C18_Jumps
import Verif.Props.C88_Modes
/-!
# C19 in all modes of the stack

`j` takes its count from the end at which the stack gives, so the law is the same in queue mode and in invert mode.
-/
namespace Funge
open Exec IP

/-- **C19** in all modes of the stack, empty stacks included (partial: the count is a 32-bit number other than -2^31): `j` moves the IP as many
steps along its path as the next value of the stack says, backwards if it is negative, takes this value, and changes nothing else. -/
theorem C19_jump_any_mode_partial (exec : Int → Exec Err) (s : St) (h : s.cur.ss.select < s.cur.ss.stacks.length)
    (hn : -2147483648 < s.due.headD 0 ∧ s.due.headD 0 ≤ 2147483647) :
    ∃ ip' s', runOp exec .jumpForward s = .ok (.none, s') ∧ (s.setIP ip').Leaves s' s'.items ∧ s'.due = s.due.tail ∧
      JumpsTo s (s.due.headD 0) ip' ∧ (∀ i, ip'.delta.get i = s.cur.ip.delta.get i) ∧ ip'.storage = s.cur.ip.storage := by
  obtain ⟨n, hn0⟩ : ∃ n, n = s.due.headD 0 := ⟨_, rfl⟩
  rw [← hn0] at hn ⊢
  have hi : toInt n = n := by unfold toInt; rw [Int.bmod_def]; split <;> omega
  have hp : popTop s = .ok (n, s.setItems (fromEnd (hasMode s.top.mode modeQueue) s.due.tail) (s.top.ops + 1)) := by
    have := popTop_any h rfl s.due s.top.ops
    rw [due_self h rfl, ← hn0] at this
    exact this
  have fin : ∀ ip' : IP, ((s.setIP ip').setItems (fromEnd (hasMode s.top.mode modeQueue) s.due.tail) (s.top.ops + 1)).due = s.due.tail := by
    intro ip'
    have ht := top_setItems (s := s.setIP ip') h (fromEnd (hasMode s.top.mode modeQueue) s.due.tail) (s.top.ops + 1)
    rw [St.due, St.items, ht]
    exact fromEnd_fromEnd _ _
  have lv : ∀ ip' : IP, (s.setIP ip').Leaves ((s.setIP ip').setItems (fromEnd (hasMode s.top.mode modeQueue) s.due.tail) (s.top.ops + 1))
      ((s.setIP ip').setItems (fromEnd (hasMode s.top.mode modeQueue) s.due.tail) (s.top.ops + 1)).items := by
    intro ip'
    refine ⟨s.top.ops + 1, ?_⟩
    have ht := top_setItems (s := s.setIP ip') h (fromEnd (hasMode s.top.mode modeQueue) s.due.tail) (s.top.ops + 1)
    rw [show ((s.setIP ip').setItems (fromEnd (hasMode s.top.mode modeQueue) s.due.tail) (s.top.ops + 1)).items = _ from by rw [St.items, ht]]
  have keep : ∀ (m : Nat) (dims : Nat) (topo : Topo) (f : Field) (ip ip' : IP), advance dims topo f m ip = .ok ip' →
      (∀ i, ip'.delta.get i = ip.delta.get i) ∧ ip'.storage = ip.storage := by
    intro m dims topo f
    induction m with
    | zero => intro ip ip' h; cases h; exact ⟨fun _ => rfl, rfl⟩
    | succ m ih =>
      intro ip ip' h
      obtain ⟨ip1, h1⟩ := C15_always_terminates dims topo f ip
      rw [advance_succ h1] at h
      have e1 := ih _ _ h
      have e2 := next_keeps h1
      exact ⟨fun i => by rw [e1.1, e2.1], by rw [e1.2, e2.2.1]⟩
  by_cases hneg : n < 0
  · obtain ⟨ip1, h1⟩ := exists_ahead (s.setIP s.cur.ip.reflect) n.natAbs
    refine ⟨ip1.reflect, _, ?_, lv _, fin _, ?_, ?_, ?_⟩
    · show iJumpForward s = _
      rw [iJumpForward, bind_ok hp]
      simp only [hi]
      rw [if_neg (by omega), if_pos hneg, bind_ok (onIP_run _ _)]
      have h2 : Ahead ((s.setItems (fromEnd (hasMode s.top.mode modeQueue) s.due.tail) (s.top.ops + 1)).setIP
        (s.setItems (fromEnd (hasMode s.top.mode modeQueue) s.due.tail) (s.top.ops + 1)).cur.ip.reflect) n.natAbs ip1 := h1
      have h3 := ipNextN_run n.natAbs h2
      show (ipNextN n.natAbs >>= _) _ = _
      rw [bind_ok h3, if_pos hneg]
      rfl
    · rw [JumpsTo, if_pos hneg]; exact ⟨ip1, h1, rfl⟩
    · intro i
      show ip1.delta.reverse.get i = _
      rw [Vec.get_reverse, (keep _ _ _ _ _ _ h1).1 i]
      show - s.cur.ip.delta.reverse.get i = _
      rw [Vec.get_reverse]; omega
    · exact (keep _ _ _ _ _ _ h1).2
  · obtain ⟨ip1, h1⟩ := exists_ahead s n.natAbs
    refine ⟨ip1, _, ?_, lv _, fin _, ?_, ?_, ?_⟩
    · show iJumpForward s = _
      rw [iJumpForward, bind_ok hp]
      simp only [hi]
      rw [if_neg (by omega), if_neg hneg]
      have h2 : Ahead (s.setItems (fromEnd (hasMode s.top.mode modeQueue) s.due.tail) (s.top.ops + 1)) n.natAbs ip1 := h1
      have h3 := ipNextN_run n.natAbs h2
      show (ipNextN n.natAbs >>= _) _ = _
      rw [bind_ok h3, if_neg hneg]
      rfl
    · rw [JumpsTo, if_neg hneg]; exact h1
    · exact (keep _ _ _ _ _ _ h1).1
    · exact (keep _ _ _ _ _ _ h1).2

/-- A queue that holds 7 on top and gives -3 first. -/
example : let s := (exRow [59, 49, 50, 59, 51] 1 []).setTop ⟨modeQueue, [7, -3], 0⟩
    s.cur.ss.select < s.cur.ss.stacks.length ∧ s.due = [-3, 7] ∧ s.items = [7, -3] := by decide

end Funge
