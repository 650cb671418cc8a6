import Verif.Props.C94_Texts
/-
Whole programs. C95: arithmetic expressions in reverse Polish notation.
-/
namespace Funge
open Exec

/-! ### C95 -/

/-- The operators of Befunge-93. -/
inductive BinOp | add | sub | mul | div | rem | gt

/-- Expressions. -/
inductive Expr
  | num (d : Fin 10)
  | not (a : Expr)
  | bin (o : BinOp) (a b : Expr)

/-- How an operator is written: `+ - * / %` and the backquote for greater than. -/
def BinOp.char : BinOp → Int
  | .add => 43 | .sub => 45 | .mul => 42 | .div => 47 | .rem => 37 | .gt => 96

/-- What it stands for. Quotients are rounded towards zero; dividing by 0 gives 0. -/
def BinOp.value : BinOp → Int → Int → Int
  | .add, x, y => x + y
  | .sub, x, y => x - y
  | .mul, x, y => x * y
  | .div, x, y => if y = 0 then 0 else x.tdiv y
  | .rem, x, y => if y = 0 then 0 else x.tmod y
  | .gt, x, y => if x > y then 1 else 0

/-- The operation is defined: the result, or the quotient for `%`, fits a cell. -/
def BinOp.Fits : BinOp → Int → Int → Prop
  | .rem, x, y => y = 0 ∨ InI64 (x.tdiv y)
  | o, x, y => InI64 (o.value x y)

/-- The value of an expression. -/
def Expr.value : Expr → Int
  | .num d => d.val
  | .not a => if a.value = 0 then 1 else 0
  | .bin o a b => o.value a.value b.value

/-- All operations of an expression are defined. -/
def Expr.Fits : Expr → Prop
  | .num _ => True
  | .not a => a.Fits
  | .bin o a b => a.Fits ∧ b.Fits ∧ o.Fits a.value b.value

/-- An expression in reverse Polish notation: operands first. -/
def Expr.postfix : Expr → List Int
  | .num d => [48 + d.val]
  | .not a => a.postfix ++ [33]
  | .bin o a b => a.postfix ++ b.postfix ++ [o.char]

/-- The program that prints an expression and ends. -/
def printText (e : Expr) : List Int := e.postfix ++ [46, 64]

/-- What the instruction does. -/
def BinOp.op : BinOp → Op
  | .add => .add | .sub => .sub | .mul => .mul | .div => .div | .rem => .rem | .gt => .gt

def BinOp.fn : BinOp → Int → Int → Except Fault Int
  | .add => addOp | .sub => subOp | .mul => mulOp | .div => divOp | .rem => remOp | .gt => gtOp

theorem BinOp.fn_ok {o : BinOp} {x y : Int} (h : o.Fits x y) : o.fn x y = .ok (o.value x y) := by
  cases o with
  | add => exact if_pos h
  | sub => exact if_pos h
  | mul => exact if_pos h
  | gt => rfl
  | div =>
    show divOp x y = .ok (if y = 0 then 0 else x.tdiv y)
    have h : InI64 (if y = 0 then 0 else x.tdiv y) := h
    unfold divOp
    split
    · rfl
    · rename_i h0; rw [if_neg h0] at h; exact if_pos h
  | rem =>
    show remOp x y = .ok (if y = 0 then 0 else x.tmod y)
    have h : y = 0 ∨ InI64 (x.tdiv y) := h
    unfold remOp
    split
    · rfl
    · rename_i h0
      rw [if_neg]
      rintro ⟨rfl, rfl⟩
      rcases h with h | h
      · omega
      · exact absurd h (by decide)

theorem BinOp.fn_error {o : BinOp} {x y : Int} (hx : InI64 x) (hy : InI64 y) (h : ¬ o.Fits x y) : o.fn x y = .error .overflow := by
  cases o with
  | add => exact if_neg h
  | sub => exact if_neg h
  | mul => exact if_neg h
  | gt =>
    refine absurd ?_ h
    show InI64 (if x > y then 1 else 0)
    split <;> decide
  | div =>
    have h : ¬ InI64 (if y = 0 then 0 else x.tdiv y) := h
    show divOp x y = _
    unfold divOp
    split
    · rename_i h0; rw [if_pos h0] at h; exact absurd (by decide) h
    · rename_i h0; rw [if_neg h0] at h; exact if_neg h
  | rem =>
    have h : ¬ (y = 0 ∨ InI64 (x.tdiv y)) := h
    show remOp x y = _
    unfold remOp
    rw [if_neg (fun h0 => h (.inl h0)), if_pos]
    have h2 : ¬ InI64 (x.tdiv y) := fun h' => h (.inr h')
    simp only [InI64, i64Min, i64Max] at *
    have h0 : y ≠ 0 := fun h0 => h (.inl h0)
    by_cases h1 : y = 1
    · rw [h1, Int.tdiv_one] at h2; exact absurd hx h2
    by_cases h3 : y = -1
    · refine ⟨?_, h3⟩
      rw [h3, Int.tdiv_neg, Int.tdiv_one] at h2
      omega
    · exfalso
      have e := Int.natAbs_tdiv x y
      have : x.natAbs.div y.natAbs ≤ x.natAbs / 2 := Nat.div_le_div_left (by omega) (by omega)
      omega

theorem BinOp.value_fits {o : BinOp} {x y : Int} (hy : InI64 y) (h : o.Fits x y) : InI64 (o.value x y) := by
  cases o with
  | add => exact h
  | sub => exact h
  | mul => exact h
  | gt => exact h
  | div => exact h
  | rem =>
    show InI64 (if y = 0 then 0 else x.tmod y)
    split
    · decide
    · rename_i h0
      have e := Int.natAbs_tmod x y
      have h1 := Nat.mod_lt x.natAbs (y := y.natAbs) (by omega)
      simp only [InI64, i64Min, i64Max] at *
      omega

theorem Expr.value_fits : ∀ {e : Expr}, e.Fits → InI64 e.value
  | .num d, _ => by have := d.isLt; simp only [Expr.value, InI64, i64Min, i64Max]; omega
  | .not a, _ => by simp only [Expr.value]; split <;> decide
  | .bin o a b, ⟨h1, h2, h3⟩ => BinOp.value_fits (Expr.value_fits h2) h3

theorem postfix_plain (e : Expr) : ∀ c ∈ e.postfix, 32 < c ∧ c ≤ 127 := by
  induction e with
  | num d => intro c hc; simp only [Expr.postfix, List.mem_singleton] at hc; have := d.isLt; omega
  | not a ih =>
    intro c hc
    simp only [Expr.postfix, List.mem_append, List.mem_singleton] at hc
    rcases hc with hc | rfl
    · exact ih c hc
    · decide
  | bin o a b iha ihb =>
    intro c hc
    simp only [Expr.postfix, List.mem_append, List.mem_singleton] at hc
    rcases hc with (hc | hc) | rfl
    · exact iha c hc
    · exact ihb c hc
    · cases o <;> decide

theorem printText_plain (e : Expr) : ∀ c ∈ printText e, 32 < c ∧ c ≤ 127 := by
  intro c hc
  simp only [printText, List.mem_append, List.mem_cons, List.not_mem_nil, or_false] at hc
  rcases hc with hc | rfl | rfl
  · exact postfix_plain e c hc
  · decide
  · decide

section
variable (g : Glob) (std : Int) (f : Nat) (cc : Bool) (P : List Int)

/-- A program of one line on its way, before its `i`-th instruction. -/
def lineAt (i : Nat) (l : List Int) (n : Nat) (inp : List Int) (eff : List Eff) : St :=
  progAt g std (f + 10) (Field.load 2 cc P) (at2 i 0 1 0) l n inp eff

variable {std P}

/-- One instruction of a program of one line, not the last one. -/
theorem line_step (hs : std = 93 ∨ std = 98) (hP : ∀ c ∈ P, 32 < c ∧ c ≤ 127) {pre post : List Int} {c : Int} (he : P = pre ++ c :: post) (hp : post ≠ [])
    {l l' n n' inp eff eff'} {sem : Sem} (hg : ∀ F ip, (progAt g std (f + 10) F ip l n inp eff).cur.getSem c = some sem)
    (hx : ∀ ex F ip, runOp ex sem.op (progAt g std (f + 10) F ip l n inp eff) = .ok (.none, progAt g std (f + 10) F ip l' n' inp eff')) :
    Goes 1 (lineAt g std f cc P pre.length l n inp eff) (lineAt g std f cc P (pre.length + 1) l' n' inp eff') := by
  have hP' : ∀ c ∈ P, 0 ≤ c ∧ c ≤ 127 ∧ Spec.Plain c := fun c hc => by have := hP c hc; unfold Spec.Plain; omega
  have hl : pre.length + 1 < P.length := by
    have := List.length_pos_iff.mpr hp
    rw [he, List.length_append, List.length_cons]; omega
  have hc : (Field.load 2 cc P).get (at2 pre.length 0 1 0).pos = c := by
    refine (line_cell cc hP' pre.length (by omega)).trans ?_
    simp [he]
  refine goes_tick rfl rfl (prog_step (ip1 := at2 pre.length 0 1 0) (sem := sem) hs (Nat.succ_pos _) ?_ (fun ex => hx ex _ _) ?_)
  · rw [hc]; exact hg _ _
  · have h32 : P[pre.length + 1] ≠ 32 := by have := hP _ (List.getElem_mem hl); omega
    exact at2_next (line_in cc hP' (pre.length + 1) hl h32 _ (by omega) (by omega))

/-- One that goes wrong. -/
theorem line_wrong (hs : std = 93 ∨ std = 98) (hP : ∀ c ∈ P, 32 < c ∧ c ≤ 127) {pre post : List Int} {c : Int} (he : P = pre ++ c :: post)
    {l n inp eff} {sem : Sem} {e : Fault} (hg : ∀ F ip, (progAt g std (f + 10) F ip l n inp eff).cur.getSem c = some sem)
    (hx : ∀ ex F ip, runOp ex sem.op (progAt g std (f + 10) F ip l n inp eff) = .error e) (k : Nat) :
    (lineAt g std f cc P pre.length l n inp eff).alone.turns (k + 1) = .error e := by
  have hP' : ∀ c ∈ P, 0 ≤ c ∧ c ≤ 127 ∧ Spec.Plain c := fun c hc => by have := hP c hc; unfold Spec.Plain; omega
  have hc : (Field.load 2 cc P).get (at2 pre.length 0 1 0).pos = c := by
    refine (line_cell cc hP' pre.length (by rw [he, List.length_append, List.length_cons]; omega)).trans ?_
    simp [he]
  refine prog_wrong (sem := sem) hs (Nat.succ_pos _) rfl ?_ (fun ex => hx ex _ _) k
  rw [hc]; exact hg _ _

/-- Computing an expression leaves its value on the stack. -/
theorem line_expr (hs : std = 93 ∨ std = 98) (hP : ∀ c ∈ P, 32 < c ∧ c ≤ 127) (inp eff) (e : Expr) : e.Fits → ∀ {pre post : List Int}, P = pre ++ (e.postfix ++ post) → post ≠ [] →
    ∀ l n, ∃ n', Goes e.postfix.length (lineAt g std f cc P pre.length l n inp eff) (lineAt g std f cc P (pre.length + e.postfix.length) (e.value :: l) n' inp eff) := by
  induction e with
  | num d =>
    intro _ pre post he hp l n
    refine ⟨n + 1, line_step g f cc hs hP (c := 48 + d.val) (sem := ⟨.push d.val, false⟩) he hp (fun F ip => ?_) (fun ex F ip => progAt_iPush ..)⟩
    show (progAt g std (f + 10) F ip l n inp eff).cur.getSem (48 + (d.val : Int)) = some ⟨.push (d.val : Int), false⟩
    have hd : d.val = 0 ∨ d.val = 1 ∨ d.val = 2 ∨ d.val = 3 ∨ d.val = 4 ∨ d.val = 5 ∨ d.val = 6 ∨ d.val = 7 ∨ d.val = 8 ∨ d.val = 9 := by omega
    rcases hd with h | h | h | h | h | h | h | h | h | h <;> rw [h] <;> rcases hs with rfl | rfl <;> krfl
  | not a ih =>
    intro hf pre post he hp l n
    simp only [Expr.postfix, List.append_assoc] at he
    obtain ⟨n1, h1⟩ := ih hf he (by simp) l n
    have h2 := line_step g f cc hs hP (pre := pre ++ a.postfix) (c := 33) (post := post) (sem := ⟨.not, false⟩) (l := a.value :: l) (n := n1) (inp := inp) (eff := eff)
      (by rw [he]; simp) hp (fun F ip => by rcases hs with rfl | rfl <;> krfl) (fun ex F ip => progAt_not ..)
    rw [List.length_append] at h2
    exact ⟨_, by simp only [Expr.postfix, List.length_append]; exact h1.trans h2⟩
  | bin o a b iha ihb =>
    intro hf pre post he hp l n
    obtain ⟨fa, fb, fo⟩ := hf
    simp only [Expr.postfix, List.append_assoc] at he
    obtain ⟨n1, h1⟩ := iha fa he (by simp) l n
    obtain ⟨n2, h2⟩ := ihb fb (pre := pre ++ a.postfix) (post := [o.char] ++ post) (by rw [he]; simp) (by simp) (a.value :: l) n1
    rw [List.length_append] at h2
    have h3 := line_step g f cc hs hP (pre := pre ++ (a.postfix ++ b.postfix)) (c := o.char) (post := post) (sem := ⟨o.op, false⟩) (l := b.value :: a.value :: l) (n := n2) (inp := inp) (eff := eff)
      (l' := o.value a.value b.value :: l) (n' := n2 + 3) (eff' := eff) (by rw [he]; simp) hp (fun F ip => by cases o <;> rcases hs with rfl | rfl <;> krfl)
      (fun ex F ip => by
        have := prog_bin (BinOp.fn_ok fo) g std (f + 10) F ip l n2 inp eff
        cases o <;> exact this)
    rw [List.length_append, List.length_append] at h3
    refine ⟨n2 + 3, ?_⟩
    simp only [Expr.postfix, List.length_append]
    rw [← Nat.add_assoc] at h3
    rw [show pre.length + (a.postfix.length + b.postfix.length + [o.char].length) = pre.length + a.postfix.length + b.postfix.length + 1 by simp; omega]
    exact (h1.trans h2).trans h3

/-- An expression with an undefined operation goes wrong. -/
theorem line_expr_wrong (hs : std = 93 ∨ std = 98) (hP : ∀ c ∈ P, 32 < c ∧ c ≤ 127) (inp eff) (e : Expr) : ¬ e.Fits → ∀ {pre post : List Int}, P = pre ++ (e.postfix ++ post) →
    ∀ l n, ∃ k, ∀ j, (lineAt g std f cc P pre.length l n inp eff).alone.turns (k + j) = .error .overflow := by
  induction e with
  | num d => exact fun h => absurd trivial h
  | not a ih =>
    intro hf pre post he l n
    simp only [Expr.postfix, List.append_assoc] at he
    exact ih hf he l n
  | bin o a b iha ihb =>
    intro hf pre post he l n
    simp only [Expr.postfix, List.append_assoc] at he
    by_cases fa : a.Fits
    · obtain ⟨n1, h1⟩ := line_expr g f cc hs hP inp eff a fa he (by simp) l n
      by_cases fb : b.Fits
      · obtain ⟨n2, h2⟩ := line_expr g f cc hs hP inp eff b fb (pre := pre ++ a.postfix) (post := [o.char] ++ post) (by rw [he]; simp) (by simp) (a.value :: l) n1
        rw [List.length_append] at h2
        have h3 := line_wrong g f cc hs hP (pre := pre ++ (a.postfix ++ b.postfix)) (c := o.char) (post := post) (sem := ⟨o.op, false⟩) (l := b.value :: a.value :: l) (n := n2) (inp := inp) (eff := eff)
          (e := .overflow) (by rw [he]; simp) (fun F ip => by cases o <;> rcases hs with rfl | rfl <;> krfl)
          (fun ex F ip => by
            have := prog_bin_error (BinOp.fn_error (Expr.value_fits fa) (Expr.value_fits fb) (fun fo => hf ⟨fa, fb, fo⟩)) g std (f + 10) F ip l n2 inp eff
            cases o <;> exact this)
        rw [List.length_append, List.length_append, ← Nat.add_assoc] at h3
        exact ⟨_ + 1, fun j => by rw [Nat.add_assoc, Nat.add_comm 1 j, (h1.trans h2)]; exact h3 j⟩
      · obtain ⟨k, h2⟩ := ihb fb (pre := pre ++ a.postfix) (post := [o.char] ++ post) (by rw [he]; simp) (a.value :: l) n1
        rw [List.length_append] at h2
        exact ⟨_ + k, fun j => by rw [Nat.add_assoc, h1]; exact h2 j⟩
    · exact iha fa he l n

/-- The whole program. -/
theorem print_all (hs : std = 93 ∨ std = 98) (e : Expr) (hf : e.Fits) (inp eff) : ∃ k0, ∀ j, ∃ u,
    (lineAt g std f cc (printText e) 0 [] 0 inp eff).alone.turns (k0 + j) = .ok u ∧ u.runners = [] ∧ u.g.eff = eff ++ [.out (decimal (toInt e.value) ++ [32])] := by
  obtain ⟨n1, h1⟩ := line_expr g f cc hs (printText_plain e) inp eff e hf (pre := []) (post := [46, 64]) rfl (by simp) [] 0
  have h2 := line_step g f cc hs (printText_plain e) (pre := e.postfix) (c := 46) (post := [64]) (sem := ⟨.numOut, false⟩) (l := [e.value]) (n := n1) (inp := inp) (eff := eff)
    rfl (by simp) (fun F ip => by rcases hs with rfl | rfl <;> krfl) (fun ex F ip => progAt_numOut ..)
  rw [List.length_nil, Nat.zero_add] at h1
  refine ⟨e.postfix.length + 1 + 1, fun j => ?_⟩
  rw [Nat.add_assoc _ 1 j, Nat.add_comm 1 j, (h1.trans h2)]
  have hP' : ∀ c ∈ printText e, 0 ≤ c ∧ c ≤ 127 ∧ Spec.Plain c := fun c hc => by have := printText_plain e c hc; unfold Spec.Plain; omega
  refine ⟨_, prog_ends (ip' := { at2 (e.postfix.length + 1 : Nat) 0 1 0 with stopped := true }) (g' := g) (std' := std) (f' := f + 10) (F' := Field.load 2 cc (printText e)) (l' := []) (n' := n1 + 1)
    (inp' := inp) (eff' := eff ++ [.out (decimal (toInt e.value) ++ [32])]) rfl rfl ?_ j, rfl, progAt_g_eff ..⟩
  refine prog_step (ip1 := { at2 (e.postfix.length + 1 : Nat) 0 1 0 with stopped := true }) (sem := ⟨.stop, false⟩) hs (Nat.succ_pos _) ?_ (fun ex => progAt_stop ..) rfl
  rw [show (Field.load 2 cc (printText e)).get (at2 (e.postfix.length + 1 : Nat) 0 1 0).pos = 64 from
    (line_cell cc hP' (e.postfix.length + 1) (by simp [printText])).trans (by simp [printText])]
  rcases hs with rfl | rfl <;> krfl
end

/-- **C95** (partial: the value has to fit 32 bits, see below) The program made of an arithmetic expression in reverse Polish notation (digits, `+ - * / %`, `!` and greater than)
followed by `.@` prints the value of the expression and ends. For every expression, as Befunge-93 or 98, with cells of any size. -/
theorem C95_expression_partial (g : Glob) {std : Int} (hs : std = 93 ∨ std = 98) {f : Nat} (hg : g.Befunge std (f + 10)) (cc : Bool) (h0 : g.eff = [])
    (e : Expr) (hf : e.Fits) (h1 : -2 ^ 31 ≤ e.value) (h2 : e.value < 2 ^ 31) :
    ∃ k0, ∀ k, k0 ≤ k → ∃ u t, (launch g cc (printText e)).turns k = .ok u ∧ u.runners = [] ∧ u.g.eff = [.out (t ++ [32])] ∧ IsDecimal e.value t := by
  obtain ⟨k0, h⟩ := print_all g f cc hs e hf g.inp []
  refine ⟨k0, fun k hk => ?_⟩
  obtain ⟨u, h3, h4, h5⟩ := h (k - k0)
  refine ⟨u, decimal e.value, ?_, h4, ?_, decimal_spec _⟩
  · rw [launch_eq _ hg hs, h0]
    rw [show k0 + (k - k0) = k by omega] at h3
    exact h3
  · rw [h5, show toInt e.value = e.value from Int.bmod_eq_of_le (by omega) (by omega)]; rfl

/-- A value beyond 32 bits: the program prints another number. -/
theorem C95_false_beyond_32_bits (g : Glob) {std : Int} (hs : std = 93 ∨ std = 98) {f : Nat} (hg : g.Befunge std (f + 10)) (cc : Bool) (h0 : g.eff = [])
    (e : Expr) (hf : e.Fits) (h1 : e.value < -2 ^ 31 ∨ 2 ^ 31 ≤ e.value) :
    ∃ k0, ∀ k, k0 ≤ k → ∃ u t, ∃ y : Int, (launch g cc (printText e)).turns k = .ok u ∧ u.runners = [] ∧ u.g.eff = [.out (t ++ [32])] ∧ IsDecimal y t ∧ y ≠ e.value := by
  obtain ⟨k0, h⟩ := print_all g f cc hs e hf g.inp []
  refine ⟨k0, fun k hk => ?_⟩
  obtain ⟨u, h3, h4, h5⟩ := h (k - k0)
  refine ⟨u, decimal (toInt e.value), toInt e.value, ?_, h4, h5, decimal_spec _, ?_⟩
  · rw [launch_eq _ hg hs, h0]
    rw [show k0 + (k - k0) = k by omega] at h3
    exact h3
  · unfold toInt
    have h6 : Int.bmod e.value 4294967296 < (4294967296 + 1) / 2 := Int.bmod_lt (by decide)
    have h7 : -(4294967296 / 2 : Int) ≤ Int.bmod e.value 4294967296 := Int.le_bmod (by decide)
    omega

/-- An operation whose result does not fit a cell: undefined. -/
theorem C95_undefined_beyond_64_bits (g : Glob) {std : Int} (hs : std = 93 ∨ std = 98) {f : Nat} (hg : g.Befunge std (f + 10)) (cc : Bool) (e : Expr) (hf : ¬ e.Fits) :
    ∃ k0, ∀ k, k0 ≤ k → (launch g cc (printText e)).turns k = .error .overflow := by
  obtain ⟨k0, h⟩ := line_expr_wrong g f cc hs (printText_plain e) g.inp g.eff e hf (pre := []) (post := [46, 64]) rfl [] 0
  refine ⟨k0, fun k hk => ?_⟩
  rw [launch_eq _ hg hs, show k = k0 + (k - k0) by omega]
  exact h _

/-- Hypotheses of the theorems: (9 - 7 * 8) / 5 % 4 and, by squaring, 9 to the 16th and 32nd power. -/
def exExpr : Expr := .bin .rem (.bin .div (.bin .sub (.num 9) (.bin .mul (.num 7) (.num 8))) (.num 5)) (.num 4)
def exSquare (e : Expr) : Expr := .bin .mul e e
example : exExpr.postfix = [57, 55, 56, 42, 45, 53, 47, 52, 37] ∧ exExpr.Fits ∧ exExpr.value = -1 := by
  refine ⟨by decide, ?_, by decide⟩
  exact ⟨⟨⟨trivial, ⟨trivial, trivial, by show InI64 _; decide⟩, by show InI64 _; decide⟩, trivial, by show InI64 _; decide⟩, trivial, .inr (by decide)⟩
example : 2 ^ 31 ≤ (exSquare (exSquare (exSquare (exSquare (.num 9))))).value := by decide
example : ¬ (exSquare (exSquare (exSquare (exSquare (exSquare (.num 9)))))).Fits := by
  rintro ⟨-, -, h⟩
  exact absurd h (by show ¬ InI64 _; decide)

end Funge
