import Verif.Lemmas.Exec
import Verif.Spec.Decimal
import Verif.Props.C23_Arithmetic
/-!
# C42: what `,` and `.` write
-/
namespace Funge
open Exec

theorem digitsValue_foldl (l : List Int) (a : Int) :
    l.foldl (fun a c => a * 10 + (c - 48)) a = a * 10 ^ l.length + digitsValue l := by
  unfold digitsValue
  induction l generalizing a with
  | nil => simp
  | cons x t ih =>
    simp only [List.foldl_cons, List.length_cons]
    rw [ih, ih (0 * 10 + (x - 48)), Int.pow_succ, Int.add_mul, Int.add_mul, Int.zero_mul, Int.zero_mul]
    have : a * 10 * 10 ^ t.length = a * (10 ^ t.length * 10) := by
      rw [Int.mul_assoc, Int.mul_comm 10]
    omega

theorem digitsValue_append (l m : List Int) : digitsValue (l ++ m) = digitsValue l * 10 ^ m.length + digitsValue m := by
  rw [← digitsValue_foldl]
  unfold digitsValue
  rw [List.foldl_append]

theorem decLoop_spec (fuel n : Nat) (acc : List Int) (hf : n < fuel) :
    ∃ ds, decLoop fuel n acc = ds ++ acc ∧ ds ≠ [] ∧ (∀ c ∈ ds, 48 ≤ c ∧ c ≤ 57) ∧
      (ds.head? = some 48 → n = 0 ∧ ds.length = 1) ∧ digitsValue ds = n := by
  induction fuel generalizing n acc with
  | zero => omega
  | succ k ih =>
    unfold decLoop
    split
    · rename_i h
      refine ⟨[((48 + n % 10 : Nat) : Int)], rfl, by simp, ?_, ?_, ?_⟩
      · intro c hc; simp only [List.mem_singleton] at hc; omega
      · intro hh; simp only [List.head?_cons, Option.some.injEq] at hh; simp only [List.length_singleton, and_true]; omega
      · simp only [digitsValue, List.foldl_cons, List.foldl_nil]; omega
    · rename_i h
      obtain ⟨ds, h1, h2, h3, h4, h5⟩ := ih (n / 10) (((48 + n % 10 : Nat) : Int) :: acc) (by omega)
      refine ⟨ds ++ [((48 + n % 10 : Nat) : Int)], by rw [h1]; simp, by simp, ?_, ?_, ?_⟩
      · intro c hc
        rcases List.mem_append.1 hc with hc | hc
        · exact h3 c hc
        · simp only [List.mem_singleton] at hc; omega
      · intro hh
        cases ds with
        | nil => exact absurd rfl h2
        | cons a t => exact absurd (h4 (by simpa using hh)).1 h
      · rw [digitsValue_append, h5]
        simp only [List.length_singleton, digitsValue, List.foldl_cons, List.foldl_nil]
        omega

theorem decimal_spec (x : Int) : IsDecimal x (decimal x) := by
  unfold decimal
  obtain ⟨ds, h1, h2, h3, h4, h5⟩ := decLoop_spec (x.natAbs + 1) x.natAbs [] (by omega)
  have hd : IsDigits ds := ⟨h2, h3, fun h => (h4 h).2⟩
  split
  · rename_i hx
    exact Or.inr ⟨hx, ds, by rw [h1]; simp, hd, by rw [h5]; omega⟩
  · rename_i hx
    refine Or.inl ⟨by omega, ?_, ?_⟩
    · rw [h1]; simpa using hd
    · rw [h1]; simp only [List.append_nil]; rw [h5]; omega

/-- `s'` is `s` with the values `l` on the top stack, the text `t` written after what was written before, and nothing else changed. -/
def Writes (s s' : St) (t : List Int) (l : List Int) : Prop :=
  ∃ n, s' = (s.setG { s.g with eff := s.g.eff ++ [.out t] }).setItems l n

/-- **C42** `,` pops a value and appends the character with that code (the low byte) to the output. -/
theorem C42_char_out (exec : Int → Exec Err) (s : St) (h : s.Lifo) :
    ∃ s' b, runOp exec .charOut s = .ok (.none, s') ∧ Writes s s' [b] s.items.tail ∧ -128 ≤ b ∧ b ≤ 127 ∧
      (256 : Int) ∣ s.items.headD 0 - b ∧ (-128 ≤ s.items.headD 0 → s.items.headD 0 ≤ 127 → b = s.items.headD 0) := by
  refine ⟨_, toChar (s.items.headD 0), ?_, ⟨s.top.ops + 1, rfl⟩, ?_, ?_, ?_, ?_⟩
  · show iCharOut s = _
    apply run_items h
    rw [iCharOut, bind_ok (popTop_run h _ _), bind_ok (emit_run _ _), pure_run]
    have : (if s.items.headD 0 = 10 then (10 : Int) else toChar (s.items.headD 0)) = toChar (s.items.headD 0) := by
      split
      · rename_i hx; rw [hx]; decide
      · rfl
    rw [this]
    rfl
  · unfold toChar; have := Int.le_bmod (x := s.items.headD 0) (m := 256) (by decide); omega
  · unfold toChar; have := Int.bmod_lt (x := s.items.headD 0) (m := 256) (by decide); omega
  · unfold toChar; rw [Int.bmod_def]; split <;> omega
  · intro h1 h2; unfold toChar; rw [Int.bmod_def]; split <;> omega

example : (exState [10, 65]).Lifo ∧ -128 ≤ (exState [65, 10]).items.headD 0 ∧ (exState [65, 10]).items.headD 0 ≤ 127 := by decide

/-- **C42** (partial: only for values that fit an `int`, see `C42_false_beyond_int`) `.` pops a value and appends its decimal
representation and a space to the output. -/
theorem C42_num_out_partial (exec : Int → Exec Err) (s : St) (h : s.Lifo) (hx : -2147483648 ≤ s.items.headD 0)
    (hx' : s.items.headD 0 ≤ 2147483647) :
    ∃ s' t, runOp exec .numOut s = .ok (.none, s') ∧ IsDecimal (s.items.headD 0) t ∧ Writes s s' (t ++ [32]) s.items.tail := by
  refine ⟨_, decimal (s.items.headD 0), ?_, decimal_spec _, ⟨s.top.ops + 1, rfl⟩⟩
  show iNumOut s = _
  apply run_items h
  rw [iNumOut, bind_ok (popTop_run h _ _), bind_ok (emit_run _ _), pure_run]
  have : toInt (s.items.headD 0) = s.items.headD 0 := by
    unfold toInt; rw [Int.bmod_def]; split <;> omega
  rw [this]
  rfl

example : (exState [-120, 65]).Lifo ∧ -2147483648 ≤ (exState [-120, 65]).items.headD 0 ∧ (exState [-120, 65]).items.headD 0 ≤ 2147483647 ∧
    IsDecimal (-120) [45, 49, 50, 48] :=
  ⟨by decide, by decide, by decide, Or.inr ⟨by decide, [49, 50, 48], rfl, ⟨by decide, by decide, by decide⟩, by decide⟩⟩

/-- **C42** is violated: printing 2^31 writes `-2147483648 `. -/
theorem C42_false_beyond_int (exec : Int → Exec Err) :
    ∃ s s' : St, s.Lifo ∧ s.items = [2147483648] ∧ runOp exec .numOut s = .ok (.none, s') ∧
      Writes s s' [45, 50, 49, 52, 55, 52, 56, 51, 54, 52, 56, 32] [] ∧
      ¬ IsDecimal 2147483648 [45, 50, 49, 52, 55, 52, 56, 51, 54, 52, 56] := by
  refine ⟨exState [2147483648], _, by decide, rfl, ?_, ⟨1, rfl⟩, ?_⟩
  · have h : (exState [2147483648]).Lifo := by decide
    show iNumOut _ = _
    apply run_items h
    rw [iNumOut, bind_ok (popTop_run h _ _), bind_ok (emit_run _ _), pure_run]
    rfl
  · rintro (⟨-, h, -⟩ | ⟨h, -⟩)
    · exact absurd (h.2.1 45 (by simp)) (by decide)
    · exact absurd h (by decide)

end Funge
