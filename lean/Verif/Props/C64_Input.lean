import Verif.Props.C42_Output
import Verif.Props.C55_BASE
/-!
# C64, C65: what `~` and `&` read
-/
namespace Funge
open Exec

/-- `s'` is `s` with the values `l` on the top stack, `rest` left to be read, and nothing else changed. -/
def Reads (s s' : St) (rest : List Int) (l : List Int) : Prop :=
  ∃ n, s' = (s.setG { s.g with inp := rest }).setItems l n

theorem getChar_cons {s : St} {c : Int} {t : List Int} (h : s.g.inp = c :: t) :
    getChar s = .ok (some c, s.setG { s.g with inp := t }) := by
  unfold getChar
  rw [h]; rfl

theorem getChar_nil {s : St} (h : s.g.inp = []) : getChar s = .ok (none, s) := by
  unfold getChar
  rw [h]

/-- **C64** (partial: for every character but carriage return, see `C64_false_for_CR`) `~` pushes the next character of the input, and only that
character is consumed. -/
theorem C64_next_partial (exec : Int → Exec Err) (s : St) (h : s.Lifo) {c : Int} {t : List Int} (hi : s.g.inp = c :: t) (hc : c ≠ 13) :
    ∃ s', runOp exec .charIn s = .ok (.none, s') ∧ Reads s s' t (c :: s.items) := by
  refine ⟨_, ?_, s.top.ops + 1, rfl⟩
  show iCharIn s = _
  rw [iCharIn, bind_ok (getChar_cons hi)]
  dsimp only
  rw [if_neg hc]
  conv => lhs; rw [← setItems_self (s := s.setG { s.g with inp := t }) h]
  rw [bind_ok (pushTop_run (s := s.setG { s.g with inp := t }) h _ _ _)]; rfl

example : (exState [5]).Lifo ∧ ((exState [5]).setG { (exState [5]).g with inp := [65, 10, 66] }).Lifo := by decide

/-- **C64** At the end of the input `~` is an error (which reflects the IP, C35) and nothing changes. -/
theorem C64_end (exec : Int → Exec Err) (s : St) (hi : s.g.inp = []) : runOp exec .charIn s = .ok (.unspec, s) := by
  show iCharIn s = _
  rw [iCharIn, bind_ok (getChar_nil hi)]; rfl

example : (exState []).g.inp = [] := rfl

/-- `~` executed `n` times without an error. -/
inductive CharIns (exec : Int → Exec Err) : Nat → St → St → Prop
  | zero (s : St) : CharIns exec 0 s s
  | succ {n : Nat} {s s' s'' : St} : runOp exec .charIn s = .ok (.none, s') → CharIns exec n s' s'' → CharIns exec (n + 1) s s''

/-- **C64** (partial: without carriage returns) So any text is read as it stands: executing `~` once per character leaves the characters on the stack,
the last on top, and the rest of the input unread. -/
theorem C64_text_partial (exec : Int → Exec Err) (text rest : List Int) (ht : 13 ∉ text) (s : St) (h : s.Lifo) (hi : s.g.inp = text ++ rest) :
    ∃ s', CharIns exec text.length s s' ∧ s'.Lifo ∧ s'.g.inp = rest ∧ s'.items = text.reverse ++ s.items ∧
      s'.cur.ip = s.cur.ip ∧ s'.rest = s.rest ∧ s'.g.field = s.g.field ∧ s'.g.eff = s.g.eff := by
  induction text generalizing s with
  | nil => exact ⟨s, .zero s, h, hi, rfl, rfl, rfl, rfl, rfl⟩
  | cons c t ih =>
    obtain ⟨s1, h1, n, h2⟩ := C64_next_partial exec s h hi (fun e => ht (e ▸ List.mem_cons_self))
    have hL : s1.Lifo := by rw [h2]; exact lifo_setItems (s := s.setG _) h _ _
    have hg : s1.g = { s.g with inp := t ++ rest } := by rw [h2]; rfl
    obtain ⟨s2, g1, g2, g3, g4, g5, g6, g7, g8⟩ := ih (fun e => ht (List.mem_cons_of_mem _ e)) s1 hL (by rw [hg])
    have hI : s1.items = c :: s.items := by rw [h2]; exact items_setItems (s := s.setG _) h _ _
    refine ⟨s2, .succ h1 g1, g2, g3, ?_, ?_, ?_, ?_, ?_⟩
    · rw [g4, hI]; simp
    · rw [g5, h2]; rfl
    · rw [g6, h2]; rfl
    · rw [g7, hg]
    · rw [g8, hg]

example : 13 ∉ ([72, 105, 33, 10] : List Int) := by decide

/-- **C64** is violated by carriage returns: `~` drops one and pushes whatever comes after it, here another carriage return's neighbour `A`; and a carriage
return at the end of the input is consumed although the instruction fails. -/
theorem C64_false_for_CR (exec : Int → Exec Err) (s : St) (h : s.Lifo) :
    (∀ c t, s.g.inp = 13 :: c :: t → ∃ s', runOp exec .charIn s = .ok (.none, s') ∧ Reads s s' t (c :: s.items)) ∧
      (s.g.inp = [13] → ∃ s', runOp exec .charIn s = .ok (.unspec, s') ∧ Reads s s' [] s.items) := by
  constructor
  · intro c t hi
    refine ⟨_, ?_, s.top.ops + 1, rfl⟩
    show iCharIn s = _
    rw [iCharIn, bind_ok (getChar_cons hi)]
    dsimp only
    rw [if_pos rfl, bind_ok (getChar_cons (s := s.setG { s.g with inp := c :: t }) rfl)]
    show (pushTop c >>= _) (s.setG { s.g with inp := t }) = _
    conv => lhs; rw [← setItems_self (s := s.setG { s.g with inp := t }) h]
    show (pushTop c >>= _) ((s.setG { s.g with inp := t }).setItems _ _) = _
    rw [bind_ok (pushTop_run (s := s.setG { s.g with inp := t }) h _ _ _)]; rfl
  · intro hi
    refine ⟨_, ?_, s.top.ops, rfl⟩
    show iCharIn s = _
    rw [iCharIn, bind_ok (getChar_cons hi)]
    dsimp only
    rw [if_pos rfl, bind_ok (getChar_nil (s := s.setG { s.g with inp := [] }) rfl)]
    conv => lhs; rw [← setItems_self (s := s.setG { s.g with inp := [] }) h]
    rfl

example : ((exState [5]).setG { (exState [5]).g with inp := [13, 65] }).Lifo := by decide

/-! ### `&` -/

theorem numDigits_digits (ds rest : List Int) (hd : ∀ c ∈ ds, 48 ≤ c ∧ c ≤ 57) (num : Int) (hn : 0 ≤ num)
    (hf : num * 10 ^ ds.length + digitsValue ds ≤ i64Max) : numDigits num (ds ++ rest) = numDigits (num * 10 ^ ds.length + digitsValue ds) rest := by
  induction ds generalizing num with
  | nil => simp [digitsValue]
  | cons c t ih =>
    have hc := hd c List.mem_cons_self
    have hv : num * 10 ^ (c :: t).length + digitsValue (c :: t) = (num * 10 + (c - 48)) * 10 ^ t.length + digitsValue t := by
      have h1 : digitsValue (c :: t) = (c - 48) * 10 ^ t.length + digitsValue t := by
        have := digitsValue_append [c] t
        simpa [digitsValue] using this
      rw [h1, List.length_cons, Int.pow_succ, Int.add_mul, ← Int.add_assoc, Int.mul_assoc num, Int.mul_comm 10]
    have hdt : 0 ≤ digitsValue t := by
      have hd' : ∀ c ∈ t, 48 ≤ c ∧ c ≤ 57 := fun c h => hd c (List.mem_cons_of_mem _ h)
      clear hf hv ih hd
      have key : ∀ (t : List Int) (a : Int), 0 ≤ a → (∀ c ∈ t, 48 ≤ c ∧ c ≤ 57) → 0 ≤ t.foldl (fun a c => a * 10 + (c - 48)) a := by
        intro t
        induction t with
        | nil => intro a ha _; exact ha
        | cons x t ih =>
          intro a ha hx
          have := hx x List.mem_cons_self
          exact ih _ (show 0 ≤ a * 10 + (x - 48) by omega) (fun c h => hx c (List.mem_cons_of_mem _ h))
      exact key t 0 (by omega) hd'
    have hle : num * 10 + (c - 48) ≤ (num * 10 + (c - 48)) * 10 ^ t.length := by
      have h1 : (1 : Int) ≤ 10 ^ t.length := Int.pow_pos (by decide)
      have h2 : 0 ≤ num * 10 + (c - 48) := by omega
      have := Int.mul_le_mul_of_nonneg_left h1 h2
      omega
    rw [hv] at hf ⊢
    rw [List.cons_append, numDigits, if_pos hc]
    have hck : ck (num * 10 + (c - 48)) = .ok (num * 10 + (c - 48)) := by
      unfold ck InI64
      have : i64Min ≤ num * 10 + (c - 48) ∧ num * 10 + (c - 48) ≤ i64Max := by
        unfold i64Max at *
        unfold i64Min
        omega
      exact if_pos this
    rw [hck]
    dsimp only
    exact ih (fun c h => hd c (List.mem_cons_of_mem _ h)) _ (by omega) hf

theorem dropWhile_junk (junk l : List Int) (hj : ∀ c ∈ junk, c < 48 ∨ 57 < c) :
    (junk ++ l).dropWhile (fun c => decide (c < 48 ∨ c > 57)) = l.dropWhile (fun c => decide (c < 48 ∨ c > 57)) := by
  induction junk with
  | nil => rfl
  | cons c t ih =>
    have := hj c List.mem_cons_self
    rw [List.cons_append, List.dropWhile_cons, if_pos (by simpa using this)]
    exact ih fun c h => hj c (List.mem_cons_of_mem _ h)

theorem dropWhile_digits (ds l : List Int) (hne : ds ≠ []) (hd : ∀ c ∈ ds, 48 ≤ c ∧ c ≤ 57) :
    (ds ++ l).dropWhile (fun c => decide (c < 48 ∨ c > 57)) = ds ++ l := by
  cases ds with
  | nil => exact absurd rfl hne
  | cons c t =>
    have := hd c List.mem_cons_self
    rw [List.cons_append, List.dropWhile_cons, if_neg]
    simp; omega

/-- **C65** (partial: the number is not negative and the input does not end right after it, see `C65_false_for_negative`, `C65_false_at_end`) `&` skips
everything up to the first digit and pushes the number written there; the character after the number is the next to be read. In particular it reads
back what `.` writes (`IsDecimal` is the notation `.` uses, C42). -/
theorem C65_number_partial (exec : Int → Exec Err) (s : St) (h : s.Lifo) {junk text rest : List Int} {d n : Int}
    (hi : s.g.inp = junk ++ text ++ d :: rest) (hj : ∀ c ∈ junk, c < 48 ∨ 57 < c) (ht : IsDecimal n text) (hn : 0 ≤ n) (hm : n ≤ i64Max)
    (hd : d < 48 ∨ 57 < d) :
    ∃ s', runOp exec .numIn s = .ok (.none, s') ∧ Reads s s' (d :: rest) (n :: s.items) := by
  have hds : IsDigits text ∧ digitsValue text = n := by
    rcases ht with ⟨-, h1, h2⟩ | ⟨h1, -⟩
    · exact ⟨h1, h2⟩
    · omega
  obtain ⟨hD, hv⟩ := hds
  refine ⟨_, ?_, s.top.ops + 1, rfl⟩
  show iNumIn s = _
  rw [iNumIn, bind_ok (get_run _)]
  have h1 : numDigits 0 (s.g.inp.dropWhile fun c => decide (c < 48 ∨ c > 57)) = .ok (some (n, d :: rest)) := by
    rw [hi, List.append_assoc, dropWhile_junk _ _ hj, dropWhile_digits _ _ hD.1 hD.2.1, numDigits_digits text _ hD.2.1 0 (by omega) (by omega),
      hv, Int.zero_mul, Int.zero_add, numDigits, if_neg (by omega)]
  rw [h1, bind_ok (show lift (.ok (some (n, d :: rest))) s = .ok (some (n, d :: rest), s) from rfl)]
  dsimp only
  have h2 : modG (fun g => { g with inp := d :: rest }) s = .ok ((), s.setG { s.g with inp := d :: rest }) := rfl
  rw [bind_ok h2]
  conv => lhs; rw [← setItems_self (s := s.setG { s.g with inp := d :: rest }) h]
  rw [bind_ok (pushTop_run (s := s.setG { s.g with inp := d :: rest }) h _ _ _)]; rfl

example : IsDecimal 120 [49, 50, 48] ∧ ∀ c ∈ ([32, 45, 97] : List Int), c < 48 ∨ 57 < c :=
  ⟨Or.inl ⟨by decide, ⟨by decide, by decide, by decide⟩, by decide⟩, by decide⟩

/-- **C65** The input has no digit: `&` is an error (which reflects the IP) and the whole input is gone. -/
theorem C65_no_digit (exec : Int → Exec Err) (s : St) (hj : ∀ c ∈ s.g.inp, c < 48 ∨ 57 < c) :
    runOp exec .numIn s = .ok (.unspec, s.setG { s.g with inp := [] }) := by
  show iNumIn s = _
  rw [iNumIn, bind_ok (get_run _)]
  have h1 : numDigits 0 (s.g.inp.dropWhile fun c => decide (c < 48 ∨ c > 57)) = .ok none := by
    have := dropWhile_junk s.g.inp [] hj
    rw [List.append_nil] at this
    rw [this]; rfl
  rw [h1]; rfl

/-- **C65** is violated for negative numbers: the sign is skipped, `&` pushes the absolute value. -/
theorem C65_false_for_negative (exec : Int → Exec Err) (s : St) (h : s.Lifo) {text rest : List Int} {d n : Int}
    (hi : s.g.inp = text ++ d :: rest) (ht : IsDecimal n text) (hn : n < 0) (hm : -n ≤ i64Max) (hd : d < 48 ∨ 57 < d) :
    ∃ s', runOp exec .numIn s = .ok (.none, s') ∧ Reads s s' (d :: rest) (-n :: s.items) := by
  rcases ht with ⟨h1, -⟩ | ⟨-, ds, h1, h2, h3⟩
  · omega
  · refine C65_number_partial exec s h (junk := [45]) (text := ds) (by rw [hi, h1]; rfl) (by decide) (Or.inl ⟨by omega, h2, h3⟩) (by omega) hm hd

example : IsDecimal (-7) [45, 55] := Or.inr ⟨by decide, [55], rfl, ⟨by decide, by decide, by decide⟩, by decide⟩

/-- **C65** is violated at the end of the input: if it ends right after the number, `&` is an error, and the number is lost. -/
theorem C65_false_at_end (exec : Int → Exec Err) (s : St) {text : List Int} {n : Int} (hi : s.g.inp = text) (ht : IsDecimal n text) (hn : 0 ≤ n)
    (hm : n ≤ i64Max) : runOp exec .numIn s = .ok (.unspec, s.setG { s.g with inp := [] }) := by
  have hds : IsDigits text ∧ digitsValue text = n := by
    rcases ht with ⟨-, h1, h2⟩ | ⟨h1, -⟩
    · exact ⟨h1, h2⟩
    · omega
  obtain ⟨hD, hv⟩ := hds
  show iNumIn s = _
  rw [iNumIn, bind_ok (get_run _)]
  have h1 : numDigits 0 (s.g.inp.dropWhile fun c => decide (c < 48 ∨ c > 57)) = .ok none := by
    have h2 := dropWhile_digits text [] hD.1 hD.2.1
    have h3 := numDigits_digits text [] hD.2.1 0 (by omega) (by omega)
    rw [List.append_nil] at h2 h3
    rw [hi, h2, h3]; rfl
  rw [h1]; rfl

example : IsDecimal 42 [52, 50] ∧ (42 : Int) ≤ i64Max := ⟨Or.inl ⟨by decide, ⟨by decide, by decide, by decide⟩, by decide⟩, by decide⟩

/-- **C65** A number that does not fit 64 bits is undefined behaviour (signed overflow), here for any input that begins with 2^63. -/
theorem C65_undefined_beyond_i64 (exec : Int → Exec Err) (s : St) {rest : List Int}
    (hi : s.g.inp = [57, 50, 50, 51, 51, 55, 50, 48, 51, 54, 56, 53, 52, 55, 55, 53, 56, 48, 56] ++ rest) :
    runOp exec .numIn s = .error .overflow := by
  show iNumIn s = _
  rw [iNumIn, bind_ok (get_run _), hi]
  have h2 := dropWhile_digits [57, 50, 50, 51, 51, 55, 50, 48, 51, 54, 56, 53, 52, 55, 55, 53, 56, 48, 56] rest (by decide) (by decide)
  rw [h2]
  have h3 := numDigits_digits [57, 50, 50, 51, 51, 55, 50, 48, 51, 54, 56, 53, 52, 55, 55, 53, 56, 48] (56 :: rest) (by decide) 0 (by decide) (by decide)
  have h4 : numDigits 0 ([57, 50, 50, 51, 51, 55, 50, 48, 51, 54, 56, 53, 52, 55, 55, 53, 56, 48, 56] ++ rest) = .error .overflow := by
    rw [show ([57, 50, 50, 51, 51, 55, 50, 48, 51, 54, 56, 53, 52, 55, 55, 53, 56, 48, 56] ++ rest : List Int) =
      [57, 50, 50, 51, 51, 55, 50, 48, 51, 54, 56, 53, 52, 55, 55, 53, 56, 48] ++ (56 :: rest) from rfl, h3, numDigits, if_pos (by decide)]
    rfl
  rw [h4]; rfl

end Funge
