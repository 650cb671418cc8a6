import Verif.Props.C64_Input
import Verif.Props.C88_Modes
/-!
# C64 and C65 in all modes of the stack

`~` and `&` push what they read at the end at which the stack takes.
-/
namespace Funge
open Exec

/-- **C64** in all modes of the stack (partial: for every character but carriage return, see `C64_false_for_CR`): `~` pushes the next character
of the input, and only that character is consumed. -/
theorem C64_next_any_mode_partial (exec : Int → Exec Err) (s : St) (h : s.cur.ss.select < s.cur.ss.stacks.length) {c : Int} {t : List Int}
    (hi : s.g.inp = c :: t) (hc : c ≠ 13) :
    ∃ s', runOp exec .charIn s = .ok (.none, s') ∧ Reads s s' t (pushedTo (hasMode s.top.mode modeInvert) [c] s.items) := by
  refine ⟨_, ?_, s.top.ops + 1, rfl⟩
  show iCharIn s = _
  rw [iCharIn, bind_ok (getChar_cons hi)]
  dsimp only
  rw [if_neg hc]
  conv => lhs; rw [← show (s.setG { s.g with inp := t }).setItems s.items s.top.ops = s.setG { s.g with inp := t } from setTop_self h]
  rw [bind_ok (pushTop_any (s := s.setG { s.g with inp := t }) h _ _ _)]; rfl

/-- **C64** in all modes of the stack (partial: without carriage returns): executing `~` once per character pushes the characters of the text,
the first one first, and leaves the rest of the input unread. -/
theorem C64_text_any_mode_partial (exec : Int → Exec Err) (text rest : List Int) (ht : 13 ∉ text) (s : St)
    (h : s.cur.ss.select < s.cur.ss.stacks.length) (hi : s.g.inp = text ++ rest) :
    ∃ s', CharIns exec text.length s s' ∧ s'.cur.ss.select < s'.cur.ss.stacks.length ∧ s'.g.inp = rest ∧
      s'.items = pushedTo (hasMode s.top.mode modeInvert) text s.items ∧ s'.top.mode = s.top.mode ∧
      s'.cur.ip = s.cur.ip ∧ s'.rest = s.rest ∧ s'.g.field = s.g.field ∧ s'.g.eff = s.g.eff := by
  induction text generalizing s with
  | nil =>
    refine ⟨s, .zero s, h, hi, ?_, rfl, rfl, rfl, rfl, rfl⟩
    cases hasMode s.top.mode modeInvert <;> simp [pushedTo]
  | cons c t ih =>
    obtain ⟨s1, h1, n, h2⟩ := C64_next_any_mode_partial exec s h hi (fun e => ht (e ▸ List.mem_cons_self))
    have hL : s1.cur.ss.select < s1.cur.ss.stacks.length := by rw [h2, setItems_select, setItems_len]; exact h
    have hg : s1.g = { s.g with inp := t ++ rest } := by rw [h2]; rfl
    have hT : s1.top = ⟨s.top.mode, pushedTo (hasMode s.top.mode modeInvert) [c] s.items, n⟩ := by
      rw [h2]; exact top_setItems (s := s.setG _) h _ _
    obtain ⟨s2, g1, g2, g3, g4, g9, g5, g6, g7, g8⟩ := ih (fun e => ht (List.mem_cons_of_mem _ e)) s1 hL (by rw [hg])
    refine ⟨s2, .succ h1 g1, g2, g3, ?_, ?_, ?_, ?_, ?_, ?_⟩
    · rw [g4, St.items, hT, pushedTo_pushedTo]; rfl
    · rw [g9, hT]
    · rw [g5, h2]; rfl
    · rw [g6, h2]; rfl
    · rw [g7, hg]
    · rw [g8, hg]

/-- Reading `Hi` with a stack in invert mode that holds a 7. -/
example : 13 ∉ ([72, 105] : List Int) ∧
    stackAfter { (machine [126, 126]).setTop ⟨modeInvert, [7], 0⟩ with g.inp := [72, 105, 33] } 2 = some [7, 72, 105] := by decide +kernel

/-- **C65** in all modes of the stack (partial: see `C65_number_partial`): `&` skips everything up to the first digit and pushes the number written there;
the character after the number is the next to be read. -/
theorem C65_number_any_mode_partial (exec : Int → Exec Err) (s : St) (h : s.cur.ss.select < s.cur.ss.stacks.length) {junk text rest : List Int} {d n : Int}
    (hi : s.g.inp = junk ++ text ++ d :: rest) (hj : ∀ c ∈ junk, c < 48 ∨ 57 < c) (ht : IsDecimal n text) (hn : 0 ≤ n) (hm : n ≤ i64Max)
    (hd : d < 48 ∨ 57 < d) :
    ∃ s', runOp exec .numIn s = .ok (.none, s') ∧ Reads s s' (d :: rest) (pushedTo (hasMode s.top.mode modeInvert) [n] s.items) := by
  have hds : IsDigits text ∧ digitsValue text = n := by
    rcases ht with ⟨-, h1, h2⟩ | ⟨h1, -⟩
    · exact ⟨h1, h2⟩
    · omega
  obtain ⟨hD, hv⟩ := hds
  refine ⟨_, ?_, s.top.ops + 1, rfl⟩
  show iNumIn s = _
  rw [iNumIn, bind_ok (get_run _)]
  have h1 : numDigits 0 (s.g.inp.dropWhile fun c => decide (c < 48 ∨ c > 57)) = .ok (some (n, d :: rest)) := by
    rw [hi, List.append_assoc, dropWhile_junk _ _ hj, dropWhile_digits _ _ hD.1 hD.2.1, numDigits_digits text _ hD.2.1 0 (by omega) (by omega),
      hv, Int.zero_mul, Int.zero_add, numDigits, if_neg (by omega)]
  rw [h1, bind_ok (show lift (.ok (some (n, d :: rest))) s = .ok (some (n, d :: rest), s) from rfl)]
  dsimp only
  have h2 : modG (fun g => { g with inp := d :: rest }) s = .ok ((), s.setG { s.g with inp := d :: rest }) := rfl
  rw [bind_ok h2]
  conv => lhs; rw [← show (s.setG { s.g with inp := d :: rest }).setItems s.items s.top.ops = s.setG { s.g with inp := d :: rest } from setTop_self h]
  rw [bind_ok (pushTop_any (s := s.setG { s.g with inp := d :: rest }) h _ _ _)]; rfl

/-- Reading 120 from `x120 ` with a stack in invert mode that holds a 7. -/
example : IsDecimal 120 [49, 50, 48] ∧
    stackAfter { (machine [38]).setTop ⟨modeInvert, [7], 0⟩ with g.inp := [120, 49, 50, 48, 32] } 1 = some [7, 120] :=
  ⟨.inl ⟨by decide, ⟨by decide, by decide, by decide⟩, by decide⟩, by decide +kernel⟩

end Funge
