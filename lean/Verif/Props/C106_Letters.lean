import Verif.Props.C80_Numbers
import Verif.Props.C74_CPLI
import Verif.Props.C27_SysInfo
/-
C106: the other letters of FIXP, CPLI, FPDP, FPSP and FPRT.
-/
namespace Funge
open Exec

/-! ### Specification -/

/-- What `N`, `S` and `V` of FIXP make of a number. -/
def fixpOf : Int → Option (Int → Int)
  | 78 => some fun n => -n
  | 83 => some Int.sign
  | 86 => some fun n => (n.natAbs : Int)
  | _ => none

/-! ### FIXP -/

theorem toInt_word {x : Int} (h : -2147483648 ≤ x) (h' : x < 2147483648) : toInt x = x := by
  unfold toInt; rw [Int.bmod_def]; split <;> omega

/-- **C106** (partial: see `C106_undefined_for_least`) `N`, `S` and `V` of FIXP replace the number on top by its negative, its sign and its absolute value, and change nothing else. -/
theorem C106_fixp_partial {s : St} (h : s.Lifo) {c : Int} {f : Int → Int} (hf : fixpOf c = some f) {x : Int} {l : List Int} (hi : s.items = x :: l) (hx : InI64 x) (hne : x ≠ i64Min) :
    ∃ s', fpRun .FIXP c s = .ok (.none, s') ∧ s.Leaves s' (f x :: l) := by
  have hc : c = 78 ∨ c = 83 ∨ c = 86 := by
    unfold fixpOf at hf
    split at hf
    · exact .inl rfl
    · exact .inr (.inl rfl)
    · exact .inr (.inr rfl)
    · cases hf
  refine ⟨_, ?_, s.top.ops + 2, rfl⟩
  conv => lhs; rw [← setItems_self h, hi]
  unfold InI64 i64Min i64Max at *
  rcases hc with rfl | rfl | rfl
  · cases hf
    show fixpNeg _ = _
    have hk : ck (-x) = .ok (-x) := by unfold ck; rw [if_pos (by unfold InI64 i64Min i64Max; omega)]
    rw [fixpNeg, bind_ok (popTop_head h _ _ _), hk, bind_ok (lift_ok _ _), bind_ok (pushTop_run h _ _ _)]
    rfl
  · cases hf
    show fixpSign _ = _
    have hs : (if x > 0 then 1 else if x < 0 then -1 else 0) = x.sign := by
      rcases Int.lt_trichotomy x 0 with h | h | h
      · rw [if_neg (by omega), if_pos h, Int.sign_eq_neg_one_of_neg h]
      · subst h; rfl
      · rw [if_pos h, Int.sign_eq_one_of_pos h]
    rw [fixpSign, bind_ok (popTop_head h _ _ _), hs, bind_ok (pushTop_run h _ _ _)]
    rfl
  · cases hf
    show fixpAbs _ = _
    have hk : ck (x.natAbs : Int) = .ok (x.natAbs : Int) := by unfold ck; rw [if_pos (by unfold InI64 i64Min i64Max; omega)]
    rw [fixpAbs, bind_ok (popTop_head h _ _ _), hk, bind_ok (lift_ok _ _), bind_ok (pushTop_run h _ _ _)]
    rfl

/-- What is missing above: the least number has neither a negative nor an absolute value. -/
theorem C106_undefined_for_least {s : St} (h : s.Lifo) {l : List Int} (hi : s.items = i64Min :: l) :
    fpRun .FIXP 78 s = .error .overflow ∧ fpRun .FIXP 86 s = .error .overflow := by
  constructor
  · show fixpNeg s = _
    conv => lhs; rw [← setItems_self h, hi]
    rw [fixpNeg, bind_ok (popTop_head h _ _ _)]
    rfl
  · show fixpAbs s = _
    conv => lhs; rw [← setItems_self h, hi]
    rw [fixpAbs, bind_ok (popTop_head h _ _ _)]
    rfl

/-- **C106** (partial: see `C106_undefined_for_random`, `C106_false_for_random`) `D` of FIXP replaces a number from 0 to 2^31 - 1 by a random one from 0 up to it, asks one question, and changes nothing else. Every number in that range can come. -/
theorem C106_random_partial {s : St} (h : s.Lifo) {x : Int} {l : List Int} (hi : s.items = x :: l) (h0 : 0 ≤ x) (hx : x < 2147483648) :
    ∃ s' r, fpRun .FIXP 68 s = .ok (.none, s') ∧ 0 ≤ r ∧ r ≤ x ∧ s.asked.Leaves s' (r :: l) ∧
      ∀ r', 0 ≤ r' → r' ≤ x → ∃ orc, ∃ s', fpRun .FIXP 68 (s.setG { s.g with orc := orc }) = .ok (.none, s') ∧ (s.setG { s.g with orc := orc }).asked.Leaves s' (r' :: l) := by
  have ht : toInt x = x := toInt_word (by omega) (by omega)
  have hr : ∀ {s : St}, s.Lifo → s.items = x :: l →
      fpRun .FIXP 68 s = .ok (.none, s.asked.setItems ((s.g.orc s.g.asked) % (x + 1) :: l) (s.top.ops + 2)) := by
    intro s h hi
    show fixpRandom s = _
    conv => lhs; rw [← setItems_self h, hi]
    have : ∀ l n, random 0 x (s.setItems l n) = .ok ((s.g.orc s.g.asked) % (x + 1), s.asked.setItems l n) := by
      intro l n
      rw [random, ht, show toInt 0 = 0 from rfl, if_pos h0, bind_ok (ask_run _)]
      show Except.ok (0 + s.g.orc s.g.asked % (x - 0 + 1), _) = _
      rw [Int.zero_add, Int.sub_zero]
      rfl
    rw [fixpRandom, bind_ok (popTop_head h _ _ _), bind_ok (this _ _), bind_ok (pushTop_run (s := s.asked) h _ _ _)]
    rfl
  refine ⟨_, _, hr h hi, Int.emod_nonneg _ (by omega), ?_, ⟨_, rfl⟩, fun r' h1 h2 => ?_⟩
  · have := Int.emod_lt_of_pos (s.g.orc s.g.asked) (show 0 < x + 1 by omega)
    omega
  · refine ⟨fun _ => r', _, hr (s := s.setG { s.g with orc := fun _ => r' }) h hi, s.top.ops + 2, ?_⟩
    rw [show (s.setG { s.g with orc := fun _ => r' }).g.orc (s.setG { s.g with orc := fun _ => r' }).g.asked = r' from rfl, Int.emod_eq_of_lt h1 (by omega)]
    rfl

/-- What is missing above: for a negative number the distribution is undefined, and so it is for 2^31. -/
theorem C106_undefined_for_random {s : St} (h : s.Lifo) {x : Int} {l : List Int} (hi : s.items = x :: l) (hx : -2147483648 ≤ x ∧ x < 0 ∨ x = 2147483648) :
    fpRun .FIXP 68 s = .error .badRandom := by
  show fixpRandom s = _
  conv => lhs; rw [← setItems_self h, hi]
  have ht : toInt x < 0 := by
    rcases hx with hx | rfl
    · rw [toInt_word hx.1 (by omega)]; exact hx.2
    · decide
  have : ∀ s : St, random 0 x s = .error .badRandom := fun s => by
    rw [random, show toInt 0 = 0 from rfl, if_neg (by omega)]
    rfl
  rw [fixpRandom, bind_ok (popTop_head h _ _ _)]
  rw [bind_error (this _)]

/-- And of larger numbers only the low 32 bits count: up to 2^32 is up to 0. -/
theorem C106_false_for_random {s : St} (h : s.Lifo) {l : List Int} (hi : s.items = 4294967296 :: l) : ∃ s', fpRun .FIXP 68 s = .ok (.none, s') ∧ s.asked.Leaves s' (0 :: l) := by
  refine ⟨s.asked.setItems (0 :: l) (s.top.ops + 2), ?_, _, rfl⟩
  show fixpRandom s = _
  conv => lhs; rw [← setItems_self h, hi]
  have : ∀ l n, random 0 4294967296 (s.setItems l n) = .ok (0, s.asked.setItems l n) := by
    intro l n
    rw [random, show toInt 4294967296 = 0 from rfl, show toInt 0 = 0 from rfl, if_pos (Int.le_refl 0), bind_ok (ask_run _)]
    show Except.ok (0 + s.g.orc s.g.asked % 1, _) = _
    rw [Int.emod_one]
    rfl
  rw [fixpRandom, bind_ok (popTop_head h _ _ _), bind_ok (this _ _), bind_ok (pushTop_run (s := s.asked) h _ _ _)]
  rfl

/-- **C106** (partial: where the result does not fit a cell, it is undefined) The functions of FIXP: each letter replaces the number on top by the value of its own function there, `R` the two numbers on top
by the lower raised to the upper; nothing else changes. -/
theorem C106_functions_partial {s : St} (h : s.Lifo) {x y r : Int} {l : List Int} :
    (∀ c ∈ [66, 67, 73, 74, 80, 81, 84, 85], s.items = x :: l →
      (s.g.flt.fn .FIXP c [x] = some r → ∃ s', fpRun .FIXP c s = .ok (.none, s') ∧ s.Leaves s' (r :: l)) ∧
      (s.g.flt.fn .FIXP c [x] = none → fpRun .FIXP c s = .error .overflow)) ∧
    (s.items = y :: x :: l →
      (s.g.flt.fn .FIXP 82 [x, y] = some r → ∃ s', fpRun .FIXP 82 s = .ok (.none, s') ∧ s.Leaves s' (r :: l)) ∧
      (s.g.flt.fn .FIXP 82 [x, y] = none → fpRun .FIXP 82 s = .error .overflow)) := by
  have hm : ∀ (c : Int) (a : List Int) (l n), mathFn .FIXP c a (s.setItems l n) = match s.g.flt.fn .FIXP c a with | some r => .ok (r, s.setItems l n) | none => .error .overflow := by
    intro c a l n
    show (match s.g.flt.fn .FIXP c a with | some r => pure r | none => fault .overflow : Exec Int) (s.setItems l n) = _
    cases s.g.flt.fn .FIXP c a <;> rfl
  constructor
  · intro c hc hi
    have e : fpRun .FIXP c s = fixpFn c (s.setItems (x :: l) s.top.ops) := by
      rw [← hi, setItems_self h]
      simp only [List.mem_cons, List.not_mem_nil, or_false] at hc
      rcases hc with rfl | rfl | rfl | rfl | rfl | rfl | rfl | rfl <;> rfl
    rw [e, fixpFn, bind_ok (popTop_head h _ _ _)]
    constructor
    · intro hr
      refine ⟨s.setItems (r :: l) (s.top.ops + 2), ?_, _, rfl⟩
      rw [bind_ok (show mathFn .FIXP c [x] (s.setItems l (s.top.ops + 1)) = .ok (r, _) by rw [hm, hr]), bind_ok (pushTop_run h _ _ _)]
      rfl
    · intro hr
      rw [bind_error (show mathFn .FIXP c [x] (s.setItems l (s.top.ops + 1)) = .error .overflow by rw [hm, hr])]
  · intro hi
    have e : fpRun .FIXP 82 s = fixpPow (s.setItems (y :: x :: l) s.top.ops) := by
      rw [← hi, setItems_self h]; rfl
    rw [e, fixpPow, bind_ok (popTop_head h _ _ _), bind_ok (popTop_head h _ _ _)]
    constructor
    · intro hr
      refine ⟨s.setItems (r :: l) (s.top.ops + 3), ?_, _, rfl⟩
      rw [bind_ok (show mathFn .FIXP 82 [x, y] (s.setItems l (s.top.ops + 1 + 1)) = .ok (r, _) by rw [hm, hr]), bind_ok (pushTop_run h _ _ _)]
      rfl
    · intro hr
      rw [bind_error (show mathFn .FIXP 82 [x, y] (s.setItems l (s.top.ops + 1 + 1)) = .error .overflow by rw [hm, hr])]

/-! ### CPLI -/

/-- **C106** (partial: where a result does not fit its cell, it is undefined) `D` of CPLI replaces the two complex numbers on top by the quotient of the lower by the upper, `V` the one on top by its absolute value; nothing else changes. -/
theorem C106_complex_partial {s : St} (h : s.Lifo) {ar ai br bi : Int} {l : List Int} :
    (∀ q, s.items = bi :: br :: ai :: ar :: l → s.g.flt.cdiv (ar, ai) (br, bi) = some q →
      ∃ s', fpRun .CPLI 68 s = .ok (.none, s') ∧ s.Leaves s' (q.2 :: q.1 :: l)) ∧
    (∀ r, s.items = ai :: ar :: l → s.g.flt.fn .CPLI 86 [ar, ai] = some r → ∃ s', fpRun .CPLI 86 s = .ok (.none, s') ∧ s.Leaves s' (r :: l)) := by
  have hp : ∀ (i r : Int) (l n), popComplex (s.setItems (i :: r :: l) n) = .ok ((r, i), s.setItems l (n + 2)) := fun i r l n => popComplex_run h _ _
  constructor
  · intro q hi hq
    refine ⟨s.setItems (q.2 :: q.1 :: l) (s.top.ops + 2 + 2 + 2), ?_, _, rfl⟩
    show cpliDiv s = _
    conv => lhs; rw [← setItems_self h, hi]
    rw [cpliDiv, bind_ok (hp _ _ _ _), bind_ok (hp _ _ _ _), bind_ok (show getFlt (s.setItems l (s.top.ops + 2 + 2)) = .ok (s.g.flt, s.setItems l (s.top.ops + 2 + 2)) from rfl), hq]
    show (pushComplex q.1 q.2 >>= _) _ = _
    rw [pushComplex]
    show ((pushTop q.1 >>= fun _ => pushTop q.2) >>= _) _ = _
    rw [bind_ok (show (pushTop q.1 >>= fun _ => pushTop q.2) (s.setItems l (s.top.ops + 2 + 2)) = .ok ((), s.setItems (q.2 :: q.1 :: l) (s.top.ops + 2 + 2 + 2)) by
      rw [bind_ok (pushTop_run h _ _ _), pushTop_run h _ _ _])]
    rfl
  · intro r hi hr
    refine ⟨s.setItems (r :: l) (s.top.ops + 2 + 1), ?_, _, rfl⟩
    show cpliAbs s = _
    conv => lhs; rw [← setItems_self h, hi]
    rw [cpliAbs, bind_ok (hp _ _ _ _)]
    have : mathFn .CPLI 86 [ar, ai] (s.setItems l (s.top.ops + 2)) = .ok (r, s.setItems l (s.top.ops + 2)) := by
      show (match s.g.flt.fn .CPLI 86 [ar, ai] with | some r => pure r | none => fault .overflow : Exec Int) (s.setItems l (s.top.ops + 2)) = _
      rw [hr]; rfl
    rw [bind_ok this, bind_ok (pushTop_run h _ _ _)]
    rfl

/-! ### FPDP, FPSP, FPRT -/

/-- **C106** `P` of FPDP and FPSP takes the number on top and writes it, and a space. -/
theorem C106_print {s : St} (h : s.Lifo) {f : Fp} (hf : f = .FPDP ∨ f = .FPSP) {x : Int} {l : List Int} (hi : s.items = x :: l) :
    ∃ s', fpRun f 80 s = .ok (.none, s') ∧ Writes s s' (s.g.flt.shown f x ++ [32]) l := by
  have e : fpRun f 80 s = floatOut f (s.setItems (x :: l) s.top.ops) := by
    rw [← hi, setItems_self h]
    rcases hf with rfl | rfl <;> rfl
  refine ⟨_, ?_, s.top.ops + 1, rfl⟩
  rw [e, floatOut, bind_ok (popTop_head h _ _ _)]
  rfl

/-- **C106** (partial: see `C106_undefined_for_text`) `R` of FPDP replaces the text on top by the number it says. -/
theorem C106_read_partial {s : St} (h : s.Lifo) {t l : List Int} (ht : IsStr t) (hi : s.items = t ++ 0 :: l) {r : Int} (hr : s.g.flt.parse t = some r) :
    ∃ s', fpRun .FPDP 82 s = .ok (.none, s') ∧ s.Leaves s' (r :: l) := by
  obtain ⟨n', hp⟩ := popStr h ht l s.top.ops
  refine ⟨s.setItems (r :: l) (n' + 1), ?_, _, rfl⟩
  show fpdpRead s = _
  conv => lhs; rw [← setItems_self h, hi]
  rw [fpdpRead, bind_ok hp, bind_ok (show getFlt (s.setItems l n') = .ok (s.g.flt, s.setItems l n') from rfl), hr]
  show (pushTop r >>= _) _ = _
  rw [bind_ok (pushTop_run h _ _ _)]
  rfl

/-- What is missing above: a text that says no number ends the whole process (an exception nobody catches) instead of being reflected. -/
theorem C106_undefined_for_text {s : St} (h : s.Lifo) {t l : List Int} (ht : IsStr t) (hi : s.items = t ++ 0 :: l) (hr : s.g.flt.parse t = none) :
    fpRun .FPDP 82 s = .error .exception := by
  obtain ⟨n', hp⟩ := popStr h ht l s.top.ops
  show fpdpRead s = _
  conv => lhs; rw [← setItems_self h, hi]
  rw [fpdpRead, bind_ok hp, bind_ok (show getFlt (s.setItems l n') = .ok (s.g.flt, s.setItems l n') from rfl), hr]
  rfl

theorem packed (h l : Int) : (BitVec.ofInt 64 (h * 2 ^ 32) ||| (BitVec.ofInt 64 l &&& 0xFFFFFFFF)).toInt = (h * 2 ^ 32 + l % 2 ^ 32).bmod (2 ^ 64) := by
  have e1 : BitVec.ofInt 64 (h * 2 ^ 32) = BitVec.ofInt 64 h <<< 32 := by
    rw [BitVec.ofInt_mul, BitVec.shiftLeft_eq_mul_twoPow]
    congr 1
  have e2 : (BitVec.ofInt 64 l &&& 0xFFFFFFFF) = BitVec.ofInt 64 (l % 2 ^ 32) := by
    apply BitVec.eq_of_toNat_eq
    rw [BitVec.toNat_and, show (0xFFFFFFFF : BitVec 64).toNat = 2 ^ 32 - 1 from rfl, Nat.and_two_pow_sub_one_eq_mod, BitVec.toNat_ofInt, BitVec.toNat_ofInt]
    omega
  have e3 : (BitVec.ofInt 64 h <<< 32) &&& (BitVec.ofInt 64 l &&& 0xFFFFFFFF) = 0#64 := by
    apply BitVec.eq_of_getLsbD_eq
    intro i hi
    rw [BitVec.getLsbD_and, BitVec.getLsbD_and, BitVec.getLsbD_shiftLeft, BitVec.getLsbD_zero]
    by_cases h32 : i < 32
    · simp [h32]
    · have : (0xFFFFFFFF : BitVec 64).getLsbD i = false := by
        rw [BitVec.getLsbD, show (0xFFFFFFFF : BitVec 64).toNat = 2 ^ 32 - 1 from rfl, Nat.testBit_two_pow_sub_one]
        simpa using h32
      rw [this, Bool.and_false, Bool.and_false]
  rw [e1, ← BitVec.add_eq_or_of_and_eq_zero _ _ e3, ← e1, e2, ← BitVec.ofInt_add, BitVec.toInt_ofInt]

/-- **C106** (partial: longer texts are cut as in C82) `L` of FPRT leaves the text that `printf` makes of the number whose upper 32 bits are the lower cell and whose lower 32 bits are the upper one, `S` the one it makes of a string. -/
theorem C106_format_partial {s : St} (h : s.Lifo) {f l t : List Int} (hf : IsStr f) (hz : 0 ∉ t) (hlen : t.length ≤ 1023) :
    (∀ hi lo : Int, -2147483648 ≤ hi → hi < 2147483648 → 0 ≤ lo → lo < 4294967296 → s.items = lo :: hi :: (f ++ 0 :: l) →
      s.g.flt.fmt 76 f [hi * 4294967296 + lo] = .ok (some t) → ∃ s', fpRun .FPRT 76 s = .ok (.none, s') ∧ s.Leaves s' (t ++ 0 :: l)) ∧
    (∀ str : List Int, IsStr str → s.items = str ++ 0 :: (f ++ 0 :: l) → s.g.flt.fmt 83 f str = .ok (some t) →
      ∃ s', fpRun .FPRT 83 s = .ok (.none, s') ∧ s.Leaves s' (t ++ 0 :: l)) := by
  have nz : ∀ u : List Int, 0 ∉ u → cstr u = u := by
    intro u hu
    unfold cstr
    have := List.takeWhile_append_of_pos (p := fun x : Int => decide (x ≠ 0)) (l₁ := u) (l₂ := [])
      (fun c hc => by simp; rintro rfl; exact hu hc)
    simpa using this
  have key : ∀ c a n, s.g.flt.fmt c f a = .ok (some t) → fprtPrint c f a (s.setItems l n) = .ok (.none, s.setItems (t ++ 0 :: l) (n + 1 + t.length)) := by
    intro c a n ht
    rw [fprtPrint, bind_ok (show getFlt (s.setItems l n) = .ok (s.g.flt, s.setItems l n) from rfl), nz f fun h0 => (hf 0 h0).1 rfl, ht, bind_ok (lift_ok _ _)]
    show (pushStr (cstr (t.take 1023)) >>= _) _ = _
    rw [List.take_of_length_le hlen, nz t hz, bind_ok (pushStr_run h _ _ _)]
    rfl
  constructor
  · intro hi lo h1 h2 h3 h4 hs ht
    obtain ⟨n', hp⟩ := popStr h hf l (s.top.ops + 1 + 1)
    refine ⟨s.setItems (t ++ 0 :: l) (n' + 1 + t.length), ?_, _, rfl⟩
    show fprtLong s = _
    conv => lhs; rw [← setItems_self h, hs]
    have e : (BitVec.ofInt 64 (hi * 2 ^ 32) ||| (BitVec.ofInt 64 lo &&& 0xFFFFFFFF)).toInt = hi * 4294967296 + lo := by
      rw [packed, show lo % 2 ^ 32 = lo from Int.emod_eq_of_lt h3 h4, show (2 : Int) ^ 32 = 4294967296 from rfl, Int.bmod_eq_of_le (by omega) (by omega)]
    rw [fprtLong, bind_ok (popTop_head h _ _ _), bind_ok (popTop_head h _ _ _), bind_ok hp, e, key _ _ _ ht]
  · intro str hstr hs ht
    obtain ⟨n', hp⟩ := popStr h hstr (f ++ 0 :: l) s.top.ops
    obtain ⟨n'', hp'⟩ := popStr h hf l n'
    refine ⟨s.setItems (t ++ 0 :: l) (n'' + 1 + t.length), ?_, _, rfl⟩
    show fprtStr s = _
    conv => lhs; rw [← setItems_self h, hs]
    rw [fprtStr, bind_ok hp, bind_ok hp', nz str fun h0 => (hstr 0 h0).1 rfl, key _ _ _ ht]

/-! ### Examples -/

/-- An arithmetic in which the hypotheses above are met. -/
def exMath : FloatOps :=
  { exFloat with fn := fun _ _ a => some (a.headD 0 + 1), cdiv := fun a b => some (a.1 / b.1, 0), shown := fun _ n => decimal n, parse := fun t => if t = [52, 50] then some 42 else none,
                 fmt := fun _ _ a => .ok (some (decimal (a.headD 0))) }

/-- A state with that arithmetic. -/
def exMathState (l : List Int) : St := (exState l).setG { (exState l).g with flt := exMath }

example : fixpOf 78 = some (fun n => -n) ∧ (exMathState [-7, 3]).Lifo ∧ (exMathState [-7, 3]).items = -7 :: [3] ∧ InI64 (-7) ∧ (-7 : Int) ≠ i64Min ∧
    (match fpRun .FIXP 78 (exMathState [-7, 3]), fpRun .FIXP 83 (exMathState [-7, 3]), fpRun .FIXP 86 (exMathState [-7, 3]), fpRun .FIXP 68 (exMathState [5, 3]) with
      | .ok (_, a), .ok (_, b), .ok (_, c), .ok (_, d) => some (a.items, b.items, c.items, d.items)
      | _, _, _, _ => none) = some ([7, 3], [-1, 3], [7, 3], [0, 3]) := ⟨rfl, by decide, by decide, by decide, by decide, by decide +kernel⟩

example : (exMathState [i64Min, 3]).items = i64Min :: [3] ∧ (exMathState [4294967296, 3]).items = 4294967296 :: [3] ∧ (exMathState [-1, 3]).items = -1 :: [3] := by decide

example : (66 : Int) ∈ [66, 67, 73, 74, 80, 81, 84, 85] ∧ (exMathState [5, 3]).g.flt.fn .FIXP 66 [5] = some 6 ∧ (exMathState [2, 5]).g.flt.fn .FIXP 82 [5, 2] = some 6 ∧
    (exMathState [1, 2, 3, 4, 9]).g.flt.cdiv (4, 3) (2, 1) = some (2, 0) ∧ (exMathState [5, 3]).g.flt.fn .CPLI 86 [3, 5] = some 4 ∧
    (match fpRun .FIXP 66 (exMathState [5, 3]), fpRun .FIXP 82 (exMathState [2, 5, 9]), fpRun .CPLI 68 (exMathState [1, 2, 3, 4, 9]), fpRun .CPLI 86 (exMathState [5, 3]) with
      | .ok (_, a), .ok (_, b), .ok (_, c), .ok (_, d) => some (a.items, b.items, c.items, d.items)
      | _, _, _, _ => none) = some ([6, 3], [6, 9], [0, 2, 9], [4]) := ⟨by decide, rfl, rfl, by decide, rfl, by decide +kernel⟩

example : IsStr [52, 50] ∧ (exMathState [52, 50, 0, 3]).items = [52, 50] ++ 0 :: [3] ∧ (exMathState [52, 50, 0, 3]).g.flt.parse [52, 50] = some 42 ∧
    (exMathState [52, 50, 0, 3]).g.flt.parse [120] = none ∧
    (match fpRun .FPDP 82 (exMathState [52, 50, 0, 3]), fpRun .FPRT 76 (exMathState [7, 1, 37, 108, 0, 3]), fpRun .FPRT 83 (exMathState [52, 0, 37, 115, 0, 3]), fpRun .FPDP 80 (exMathState [42, 3]) with
      | .ok (_, a), .ok (_, b), .ok (_, c), .ok (_, d) => some (a.items, b.items, c.items, d.g.eff)
      | _, _, _, _ => none) = some ([42, 3], decimal 4294967303 ++ [0, 3], [53, 50, 0, 3], [.out [52, 50, 32]]) :=
  ⟨by unfold IsStr; decide, by decide, rfl, rfl, by decide +kernel⟩

end Funge
