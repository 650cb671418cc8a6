import Verif.Props.C92_Programs
/-
Whole programs. C93: /repo/test/cat.bf prints the factorial of a number.
-/
namespace Funge
open Exec

/-! ### C93 -/

/-- The text of /repo/test/cat.bf: `0&>:1-:v v *_$.@ ` (with a carriage return) and `  ^    _$>\:^`. -/
def factText : List Int :=
  [48, 38, 62, 58, 49, 45, 58, 118, 32, 118, 32, 42, 95, 36, 46, 64, 32, 13, 10,
   32, 32, 94, 32, 32, 32, 32, 95, 36, 62, 92, 58, 94]

/-- `n!`. -/
def factorial : Nat → Nat
  | 0 => 1
  | n + 1 => (n + 1) * factorial n

/-- `a + 1, …, a + k`. -/
def countUp (a : Int) : Nat → List Int
  | 0 => []
  | k + 1 => (a + 1) :: countUp (a + 1) k

theorem countUp_snoc (a : Int) (k : Nat) : countUp a (k + 1) = countUp a k ++ [a + k + 1] := by
  induction k generalizing a with
  | zero => simp [countUp]
  | succ k ih => rw [countUp, ih (a + 1), countUp]; simp; omega

section
variable (g : Glob) (std : Int) (f : Nat) (cc : Bool)

/-- The program on its way. -/
def factAt (ip : IP) (l : List Int) (n : Nat) (inp : List Int) (eff : List Eff) : St :=
  progAt g std (f + 10) (Field.load 2 cc factText) ip l n inp eff

variable {std}

/-- Once around the first loop: `x` becomes `x - 1`, `x`. -/
theorem fact_down1 (hs : std = 93 ∨ std = 98) (x l n inp eff) :
    Goes 2 (factAt g std f cc (at2 3 0 1 0) (x :: l) n inp eff) (factAt g std f cc (at2 5 0 1 0) (1 :: x :: x :: l) (n + 4) inp eff) := by
  refine goes_of_turns ?_
  rcases hs with rfl | rfl <;> cases cc <;> krfl

theorem fact_down2 (hs : std = 93 ∨ std = 98) {x : Int} (hx : InI64 (x - 1)) (l n inp eff) :
    Goes 1 (factAt g std f cc (at2 5 0 1 0) (1 :: x :: l) n inp eff) (factAt g std f cc (at2 6 0 1 0) ((x - 1) :: l) (n + 3) inp eff) := by
  refine goes_tick rfl rfl (prog_step (ip1 := at2 5 0 1 0) (sem := ⟨.sub, false⟩) hs (Nat.succ_pos _) ?_ (fun ex => ?_) ?_)
  · rcases hs with rfl | rfl <;> cases cc <;> krfl
  · exact prog_bin (op := subOp) (if_pos hx) ..
  · cases cc <;> krfl

theorem fact_down3 (hs : std = 93 ∨ std = 98) (x l n inp eff) :
    Goes 2 (factAt g std f cc (at2 6 0 1 0) (x :: l) n inp eff) (factAt g std f cc (at2 7 1 0 1) (x :: x :: l) (n + 3) inp eff) := by
  refine goes_of_turns ?_
  rcases hs with rfl | rfl <;> cases cc <;> krfl

theorem fact_down4 (hs : std = 93 ∨ std = 98) {x : Int} (hx : x ≠ 0) (l n inp eff) :
    Goes 1 (factAt g std f cc (at2 7 1 0 1) (x :: l) n inp eff) (factAt g std f cc (at2 6 1 (-1) 0) l (n + 1) inp eff) := by
  refine goes_tick rfl rfl (prog_step (ip1 := { at2 7 1 0 1 with delta := Vec.ofList [-1] }) (sem := ⟨.ifEW, false⟩) hs (Nat.succ_pos _) ?_ (fun ex => ?_) ?_)
  · rcases hs with rfl | rfl <;> cases cc <;> krfl
  · exact prog_if hs _ _ _ _ hx ..
  · cases cc <;> krfl

theorem fact_down5 (hs : std = 93 ∨ std = 98) (l n inp eff) :
    Goes 2 (factAt g std f cc (at2 6 1 (-1) 0) l n inp eff) (factAt g std f cc (at2 3 0 1 0) l n inp eff) := by
  refine goes_of_turns ?_
  rcases hs with rfl | rfl <;> cases cc <;> krfl

theorem fact_down (hs : std = 93 ∨ std = 98) {x : Int} (hx : InI64 (x - 1)) (h1 : x ≠ 1) (l n inp eff) :
    Goes 8 (factAt g std f cc (at2 3 0 1 0) (x :: l) n inp eff) (factAt g std f cc (at2 3 0 1 0) ((x - 1) :: x :: l) (n + 11) inp eff) :=
  ((((fact_down1 g f cc hs x l n inp eff).trans (fact_down2 g f cc hs hx (x :: l) (n + 4) inp eff)).trans
    (fact_down3 g f cc hs (x - 1) (x :: l) (n + 7) inp eff)).trans
    (fact_down4 g f cc hs (x := x - 1) (by omega) _ (n + 10) inp eff)).trans (fact_down5 g f cc hs _ (n + 11) inp eff)

/-- The way out of the first loop. -/
theorem fact_turn (hs : std = 93 ∨ std = 98) (l n inp eff) :
    Goes 8 (factAt g std f cc (at2 3 0 1 0) (1 :: l) n inp eff) (factAt g std f cc (at2 10 1 1 0) (1 :: l) (n + 12) inp eff) := by
  refine goes_of_turns ?_
  rcases hs with rfl | rfl <;> cases cc <;> krfl

/-- The first loop: from `m` to `1, 2, …, m`. -/
theorem fact_counts (hs : std = 93 ∨ std = 98) (m : Nat) (hm : (m + 1 : Int) ≤ i64Max) (inp eff) : ∀ l n, ∃ k n',
    Goes k (factAt g std f cc (at2 3 0 1 0) ((m + 1 : Int) :: l) n inp eff) (factAt g std f cc (at2 10 1 1 0) (1 :: (countUp 1 m ++ l)) n' inp eff) := by
  induction m with
  | zero => exact fun l n => ⟨_, _, fact_turn g f cc hs l n inp eff⟩
  | succ m ih =>
    intro l n
    obtain ⟨k, n', h⟩ := ih (by omega) (((m + 1 : Nat) + 1 : Int) :: l) (n + 11)
    refine ⟨8 + k, n', Goes.trans (fact_down g f cc hs ?_ (by omega) l n inp eff) ?_⟩
    · constructor <;> simp only [i64Min, i64Max] at * <;> omega
    · rw [countUp_snoc, List.append_assoc]
      have e1 : (((m + 1 : Nat) + 1 : Int) - 1) = (m + 1 : Int) := by omega
      have e2 : (1 + (m : Int) + 1) = ((m + 1 : Nat) + 1 : Int) := by omega
      rw [e1, e2]
      exact h

/-- Into the second loop: `\:^`. -/
theorem fact_up1 (hs : std = 93 ∨ std = 98) (a b l n inp eff) :
    Goes 3 (factAt g std f cc (at2 10 1 1 0) (a :: b :: l) n inp eff) (factAt g std f cc (at2 12 0 0 (-1)) (b :: b :: a :: l) (n + 7) inp eff) := by
  refine goes_of_turns ?_
  rcases hs with rfl | rfl <;> cases cc <;> krfl

theorem fact_up2 (hs : std = 93 ∨ std = 98) {x : Int} (hx : x ≠ 0) (l n inp eff) :
    Goes 1 (factAt g std f cc (at2 12 0 0 (-1)) (x :: l) n inp eff) (factAt g std f cc (at2 11 0 (-1) 0) l (n + 1) inp eff) := by
  refine goes_tick rfl rfl (prog_step (ip1 := { at2 12 0 0 (-1) with delta := Vec.ofList [-1] }) (sem := ⟨.ifEW, false⟩) hs (Nat.succ_pos _) ?_ (fun ex => ?_) ?_)
  · rcases hs with rfl | rfl <;> cases cc <;> krfl
  · exact prog_if hs _ _ _ _ hx ..
  · cases cc <;> krfl

theorem fact_up3 (hs : std = 93 ∨ std = 98) {a b : Int} (hx : InI64 (a * b)) (l n inp eff) :
    Goes 1 (factAt g std f cc (at2 11 0 (-1) 0) (b :: a :: l) n inp eff) (factAt g std f cc (at2 10 0 (-1) 0) ((a * b) :: l) (n + 3) inp eff) := by
  refine goes_tick rfl rfl (prog_step (ip1 := at2 11 0 (-1) 0) (sem := ⟨.mul, false⟩) hs (Nat.succ_pos _) ?_ (fun ex => ?_) ?_)
  · rcases hs with rfl | rfl <;> cases cc <;> krfl
  · exact prog_bin (op := mulOp) (if_pos hx) ..
  · cases cc <;> krfl

theorem fact_up4 (hs : std = 93 ∨ std = 98) (l n inp eff) :
    Goes 2 (factAt g std f cc (at2 10 0 (-1) 0) l n inp eff) (factAt g std f cc (at2 10 1 1 0) l n inp eff) := by
  refine goes_of_turns ?_
  rcases hs with rfl | rfl <;> cases cc <;> krfl

/-- Once around the second loop. -/
theorem fact_up (hs : std = 93 ∨ std = 98) {a b : Int} (hb : b ≠ 0) (hx : InI64 (a * b)) (l n inp eff) :
    Goes 7 (factAt g std f cc (at2 10 1 1 0) (a :: b :: l) n inp eff) (factAt g std f cc (at2 10 1 1 0) ((a * b) :: l) (n + 11) inp eff) :=
  (((fact_up1 g f cc hs a b l n inp eff).trans (fact_up2 g f cc hs hb (b :: a :: l) (n + 7) inp eff)).trans
    (fact_up3 g f cc hs hx l (n + 8) inp eff)).trans (fact_up4 g f cc hs _ (n + 11) inp eff)

/-- A product that is too large. -/
theorem fact_wrong (hs : std = 93 ∨ std = 98) {a b : Int} (hb : b ≠ 0) (hx : ¬ InI64 (a * b)) (l n inp eff) (j : Nat) :
    (factAt g std f cc (at2 10 1 1 0) (a :: b :: l) n inp eff).alone.turns (4 + (j + 1)) = .error .overflow := by
  rw [((fact_up1 g f cc hs a b l n inp eff).trans (fact_up2 g f cc hs hb (b :: a :: l) (n + 7) inp eff)) (j + 1)]
  refine prog_wrong (sem := ⟨.mul, false⟩) hs (Nat.succ_pos _) rfl ?_ (fun ex => ?_) j
  · rcases hs with rfl | rfl <;> cases cc <;> krfl
  · exact prog_bin_error (op := mulOp) (if_neg hx) ..

/-- The way out of the second loop, and the end. -/
theorem fact_out (hs : std = 93 ∨ std = 98) (x n inp eff) :
    Goes 6 (factAt g std f cc (at2 10 1 1 0) [x, 0] n inp eff) (factAt g std f cc (at2 15 0 1 0) [] (n + 10) inp (eff ++ [.out (decimal (toInt x) ++ [32])])) := by
  refine goes_of_turns ?_
  rcases hs with rfl | rfl <;> cases cc <;> krfl

theorem fact_end (hs : std = 93 ∨ std = 98) (n inp eff) (k : Nat) : ∃ u,
    (factAt g std f cc (at2 15 0 1 0) [] n inp eff).alone.turns (k + 1) = .ok u ∧ u.runners = [] ∧ u.g.eff = eff := by
  refine ⟨_, prog_ends (ip' := { at2 15 0 1 0 with stopped := true }) (g' := g) (std' := std) (f' := f + 10) (F' := Field.load 2 cc factText) (l' := []) (n' := n) (inp' := inp) (eff' := eff) rfl rfl ?_ k, rfl, progAt_g_eff ..⟩
  rcases hs with rfl | rfl <;> cases cc <;> krfl

theorem factorial_pos (n : Nat) : 0 < factorial n := by
  induction n with
  | zero => decide
  | succ n ih => exact Nat.mul_pos (Nat.succ_pos _) ih

theorem factorial_le (n k : Nat) : factorial n ≤ factorial (n + k) := by
  induction k with
  | zero => exact Nat.le_refl _
  | succ k ih => exact Nat.le_trans ih (Nat.le_mul_of_pos_left _ (Nat.succ_pos _))

theorem factorial_mul (n : Nat) : (factorial n : Int) * (n + 1) = (factorial (n + 1) : Int) := by
  rw [factorial, Int.natCast_mul, Int.mul_comm]; rfl

/-- The second loop. -/
theorem fact_mults (hs : std = 93 ∨ std = 98) (inp eff) (k : Nat) : ∀ (a : Nat) (n : Nat), (factorial (a + k) : Int) ≤ i64Max → ∃ j n',
    Goes j (factAt g std f cc (at2 10 1 1 0) ((factorial a : Int) :: (countUp a k ++ [0])) n inp eff)
      (factAt g std f cc (at2 10 1 1 0) [(factorial (a + k) : Int), 0] n' inp eff) := by
  induction k with
  | zero => exact fun a n _ => ⟨0, n, Goes.refl _⟩
  | succ k ih =>
    intro a n h
    have e : a + (k + 1) = a + 1 + k := by omega
    rw [e] at h ⊢
    have h1 := factorial_le (a + 1) k
    obtain ⟨j, n', hj⟩ := ih (a + 1) (n + 11) h
    have := fact_up g f cc hs (a := factorial a) (b := a + 1) (by omega) (by rw [factorial_mul]; constructor <;> simp only [i64Min, i64Max] at * <;> omega)
      (countUp (a + 1) k ++ [0]) n inp eff
    rw [factorial_mul] at this
    exact ⟨_, n', this.trans hj⟩

/-- The second loop, with a product that is too large. -/
theorem fact_mults_wrong (hs : std = 93 ∨ std = 98) (inp eff) (k : Nat) : ∀ (a : Nat) (n : Nat), (factorial a : Int) ≤ i64Max → i64Max < (factorial (a + k) : Int) →
    ∃ j, ∀ i, (factAt g std f cc (at2 10 1 1 0) ((factorial a : Int) :: (countUp a k ++ [0])) n inp eff).alone.turns (j + i) = .error .overflow := by
  induction k with
  | zero => exact fun a n h h' => by rw [Nat.add_zero] at h'; omega
  | succ k ih =>
    intro a n h h'
    have e : a + (k + 1) = a + 1 + k := by omega
    rw [e] at h'
    by_cases h1 : (factorial (a + 1) : Int) ≤ i64Max
    · obtain ⟨j, hj⟩ := ih (a + 1) (n + 11) h1 h'
      have := fact_up g f cc hs (a := factorial a) (b := a + 1) (by omega) (by rw [factorial_mul]; constructor <;> simp only [i64Min, i64Max] at * <;> omega)
        (countUp (a + 1) k ++ [0]) n inp eff
      rw [factorial_mul] at this
      refine ⟨7 + j, fun i => ?_⟩
      rw [Nat.add_assoc]
      exact (this (j + i)).trans (hj i)
    · refine ⟨4 + 1, fun i => ?_⟩
      rw [Nat.add_assoc, Nat.add_comm 1]
      exact fact_wrong g f cc hs (a := factorial a) (b := a + 1) (by omega) (by rw [factorial_mul]; intro hh; exact h1 hh.2) (countUp (a + 1) k ++ [0]) n inp eff i

/-- The start: `0&>`. -/
theorem fact_start (hs : std = 93 ∨ std = 98) {junk text rest : List Int} {d x : Int} (hj : ∀ c ∈ junk, c < 48 ∨ 57 < c) (ht : IsDecimal x text) (hn : 0 ≤ x)
    (hm : x ≤ i64Max) (hd : d < 48 ∨ 57 < d) (eff) : ∃ n,
    Goes 3 (factAt g std f cc (at2 0 0 1 0) [] 0 (junk ++ text ++ d :: rest) eff) (factAt g std f cc (at2 3 0 1 0) [x, 0] n (d :: rest) eff) := by
  have h1 : Goes 1 (factAt g std f cc (at2 0 0 1 0) [] 0 (junk ++ text ++ d :: rest) eff) (factAt g std f cc (at2 1 0 1 0) [0] 1 (junk ++ text ++ d :: rest) eff) := by
    refine goes_of_turns ?_
    rcases hs with rfl | rfl <;> cases cc <;> krfl
  obtain ⟨n, h2⟩ : ∃ n, ∀ ex, runOp ex .numIn (factAt g std f cc (at2 1 0 1 0) [0] 1 (junk ++ text ++ d :: rest) eff) =
      .ok (.none, factAt g std f cc (at2 1 0 1 0) [x, 0] n (d :: rest) eff) := by
    obtain ⟨s', hr, n, rfl⟩ := C65_number_partial (fun _ => iNumIn) (factAt g std f cc (at2 1 0 1 0) [0] 1 (junk ++ text ++ d :: rest) eff) (progAt_lifo ..) (progAt_inp ..) hj ht hn hm hd
    refine ⟨n, fun ex => ?_⟩
    have : ((factAt g std f cc (at2 1 0 1 0) [0] 1 (junk ++ text ++ d :: rest) eff).setG { (factAt g std f cc (at2 1 0 1 0) [0] 1 (junk ++ text ++ d :: rest) eff).g with inp := d :: rest }).setItems
      (x :: (factAt g std f cc (at2 1 0 1 0) [0] 1 (junk ++ text ++ d :: rest) eff).items) n = _ := progAt_reads ..
    rw [this, show (factAt g std f cc (at2 1 0 1 0) [0] 1 (junk ++ text ++ d :: rest) eff).items = [0] from progAt_items ..] at hr
    exact hr
  refine ⟨n, Goes.trans (k := 1) (k' := 2) h1 (Goes.trans (k := 1) (k' := 1) (s1 := factAt g std f cc (at2 2 0 1 0) [x, 0] n (d :: rest) eff) (goes_tick rfl rfl
    (prog_step (ip1 := at2 1 0 1 0) (sem := ⟨.numIn, false⟩) hs (Nat.succ_pos _) ?_ h2 ?_)) (goes_of_turns ?_))⟩
  · rcases hs with rfl | rfl <;> cases cc <;> krfl
  · cases cc <;> krfl
  · rcases hs with rfl | rfl <;> cases cc <;> krfl

/-- From 0 the first loop counts down until it cannot. -/
theorem fact_falls (hs : std = 93 ∨ std = 98) (inp eff) (m : Nat) : ∀ (x : Int) l n, x = i64Min + m → x ≤ 0 →
    ∃ j, ∀ i, (factAt g std f cc (at2 3 0 1 0) (x :: l) n inp eff).alone.turns (j + i) = .error .overflow := by
  induction m with
  | zero =>
    intro x l n hx h0
    refine ⟨2 + 1, fun i => ?_⟩
    rw [Nat.add_assoc, fact_down1 g f cc hs x l n inp eff, Nat.add_comm]
    refine prog_wrong (sem := ⟨.sub, false⟩) hs (Nat.succ_pos _) rfl ?_ (fun ex => ?_) i
    · rcases hs with rfl | rfl <;> cases cc <;> krfl
    · refine prog_bin_error (op := subOp) (if_neg ?_) ..
      intro h; have := h.1; simp only [i64Min] at *; omega
  | succ m ih =>
    intro x l n hx h0
    obtain ⟨j, hj⟩ := ih (x - 1) (x :: l) (n + 11) (by omega) (by omega)
    refine ⟨8 + j, fun i => ?_⟩
    rw [Nat.add_assoc, fact_down g f cc hs (x := x) (by constructor <;> simp only [i64Min, i64Max] at * <;> omega) (by omega) l n inp eff]
    exact hj i

/-- All of it. -/
theorem fact_all (hs : std = 93 ∨ std = 98) {junk text rest : List Int} {d : Int} {x : Nat} (hj : ∀ c ∈ junk, c < 48 ∨ 57 < c) (ht : IsDecimal x text)
    (hd : d < 48 ∨ 57 < d) (h0 : x ≠ 0) (hm : (factorial x : Int) ≤ i64Max) (eff) : ∃ k0, ∀ i, ∃ u,
    (factAt g std f cc (at2 0 0 1 0) [] 0 (junk ++ text ++ d :: rest) eff).alone.turns (k0 + i) = .ok u ∧ u.runners = [] ∧
      u.g.eff = eff ++ [.out (decimal (toInt (factorial x)) ++ [32])] := by
  obtain ⟨m, rfl⟩ : ∃ m, x = m + 1 := ⟨x - 1, by omega⟩
  have hle : m + 1 ≤ factorial (m + 1) := Nat.le_mul_of_pos_right _ (factorial_pos m)
  obtain ⟨n1, g1⟩ := fact_start g f cc hs (rest := rest) hj ht (by omega) (by omega) hd eff
  obtain ⟨k2, n2, g2⟩ := fact_counts g f cc hs m (by omega) (d :: rest) eff [0] n1
  obtain ⟨k3, n3, g3⟩ := fact_mults g f cc hs (d :: rest) eff m 1 n2 (by rw [Nat.add_comm]; exact hm)
  have g4 := fact_out g f cc hs (factorial (1 + m)) n3 (d :: rest) eff
  refine ⟨3 + k2 + k3 + 6 + 1, fun i => ?_⟩
  obtain ⟨u, h1, h2, h3⟩ := fact_end g f cc hs (n3 + 10) (d :: rest) (eff ++ [.out (decimal (toInt (factorial (1 + m))) ++ [32])]) i
  refine ⟨u, ?_, h2, by rw [h3, Nat.add_comm 1 m]⟩
  rw [Nat.add_assoc _ 1 i, Nat.add_comm 1 i]
  exact ((((g1.trans g2).trans g3).trans g4) (i + 1)).trans h1
end

/-- **C93** (partial: the factorial has to fit 32 bits, see below) Given a number `x` of at least 1, /repo/test/cat.bf prints `x!` and ends. Whatever else is before and
after the number in the input, as Befunge-93 or 98, with cells of any size. -/
theorem C93_factorial_partial (g : Glob) {std : Int} (hs : std = 93 ∨ std = 98) {f : Nat} (hg : g.Befunge std (f + 10)) (cc : Bool) (h0 : g.eff = [])
    {junk text rest : List Int} {d : Int} {x : Nat} (hi : g.inp = junk ++ text ++ d :: rest) (hj : ∀ c ∈ junk, c < 48 ∨ 57 < c) (ht : IsDecimal x text)
    (hd : d < 48 ∨ 57 < d) (hx : x ≠ 0) (hm : factorial x < 2 ^ 31) :
    ∃ k0, ∀ k, k0 ≤ k → ∃ u t, (launch g cc factText).turns k = .ok u ∧ u.runners = [] ∧ u.g.eff = [.out (t ++ [32])] ∧ IsDecimal (factorial x) t := by
  obtain ⟨k0, h⟩ := fact_all g f cc hs hj ht (rest := rest) hd hx (by simp only [i64Max]; omega) []
  refine ⟨k0, fun k hk => ?_⟩
  obtain ⟨u, h1, h2, h3⟩ := h (k - k0)
  refine ⟨u, decimal (factorial x), ?_, h2, ?_, decimal_spec _⟩
  · rw [launch_eq _ hg hs, h0, hi]
    rwa [show k0 + (k - k0) = k by omega] at h1
  · rw [h3, show toInt (factorial x) = factorial x from Int.bmod_eq_of_le (by omega) (by omega)]; rfl

/-- A factorial beyond 32 bits that still fits a cell: the program prints another number. -/
theorem C93_false_beyond_32_bits (g : Glob) {std : Int} (hs : std = 93 ∨ std = 98) {f : Nat} (hg : g.Befunge std (f + 10)) (cc : Bool) (h0 : g.eff = [])
    {text rest : List Int} {d : Int} {x : Nat} (hi : g.inp = text ++ d :: rest) (ht : IsDecimal x text)
    (hd : d < 48 ∨ 57 < d) (hm : 2 ^ 31 ≤ factorial x) (hm' : factorial x < 2 ^ 63) :
    ∃ k0, ∀ k, k0 ≤ k → ∃ u t, ∃ y : Int, (launch g cc factText).turns k = .ok u ∧ u.runners = [] ∧ u.g.eff = [.out (t ++ [32])] ∧ IsDecimal y t ∧ y ≠ factorial x := by
  have hx : x ≠ 0 := by rintro rfl; simp [factorial] at hm
  obtain ⟨k0, h⟩ := fact_all g f cc hs (junk := []) (by simp) ht (rest := rest) hd hx (by simp only [i64Max]; omega) []
  refine ⟨k0, fun k hk => ?_⟩
  obtain ⟨u, h1, h2, h3⟩ := h (k - k0)
  refine ⟨u, decimal (toInt (factorial x)), toInt (factorial x), ?_, h2, h3, decimal_spec _, ?_⟩
  · rw [launch_eq _ hg hs, h0, hi]
    rwa [show k0 + (k - k0) = k by omega] at h1
  · unfold toInt
    have : Int.bmod (factorial x) 4294967296 < (4294967296 + 1) / 2 := Int.bmod_lt (by decide)
    omega

/-- A factorial beyond 64 bits: the program runs into an overflow of signed numbers, which is undefined. -/
theorem C93_undefined_beyond_64_bits (g : Glob) {std : Int} (hs : std = 93 ∨ std = 98) {f : Nat} (hg : g.Befunge std (f + 10)) (cc : Bool)
    {text rest : List Int} {d : Int} {x : Nat} (hi : g.inp = text ++ d :: rest) (ht : IsDecimal x text)
    (hd : d < 48 ∨ 57 < d) (hx : x < 2 ^ 63) (hm : 2 ^ 63 ≤ factorial x) :
    ∃ k0, ∀ k, k0 ≤ k → (launch g cc factText).turns k = .error .overflow := by
  obtain ⟨m, rfl⟩ : ∃ m, x = m + 1 := ⟨x - 1, by have : x ≠ 0 := by { rintro rfl; simp [factorial] at hm }; omega⟩
  obtain ⟨n1, g1⟩ := fact_start g f cc hs (junk := []) (by simp) ht (by omega) (by simp only [i64Max]; omega) hd g.eff (rest := rest)
  obtain ⟨k2, n2, g2⟩ := fact_counts g f cc hs m (by simp only [i64Max]; omega) (d :: rest) g.eff [0] n1
  obtain ⟨k3, g3⟩ := fact_mults_wrong g f cc hs (d :: rest) g.eff m 1 n2 (by decide) (by rw [Nat.add_comm]; simp only [i64Max]; omega)
  refine ⟨3 + k2 + k3, fun k hk => ?_⟩
  rw [launch_eq _ hg hs, hi, show k = 3 + k2 + (k3 + (k - (3 + k2 + k3))) by omega]
  exact ((g1.trans g2) _).trans (g3 _)

/-- And 0! is never printed: the program counts down from 0 to the least number there is, and overflows. -/
theorem C93_undefined_for_zero (g : Glob) {std : Int} (hs : std = 93 ∨ std = 98) {f : Nat} (hg : g.Befunge std (f + 10)) (cc : Bool)
    {rest : List Int} {d : Int} (hi : g.inp = 48 :: d :: rest) (hd : d < 48 ∨ 57 < d) :
    ∃ k0, ∀ k, k0 ≤ k → (launch g cc factText).turns k = .error .overflow := by
  obtain ⟨n1, g1⟩ := fact_start g f cc hs (junk := []) (text := [48]) (x := 0) (by simp) (Or.inl ⟨by omega, ⟨by simp, by simp, by simp⟩, by decide⟩) (by omega)
    (by simp only [i64Max]; omega) hd g.eff (rest := rest)
  obtain ⟨k2, g2⟩ := fact_falls g f cc hs (d :: rest) g.eff (2 ^ 63) 0 [0] n1 (by decide) (by omega)
  refine ⟨3 + k2, fun k hk => ?_⟩
  rw [launch_eq _ hg hs, hi, show k = 3 + (k2 + (k - (3 + k2))) by omega]
  exact (g1 _).trans (g2 _)

/-- Hypotheses of the theorems: 12! fits 32 bits, 13! does not, 20! fits 64 bits, 21! does not. -/
example : factorial 12 < 2 ^ 31 ∧ 2 ^ 31 ≤ factorial 13 ∧ factorial 20 < 2 ^ 63 ∧ 2 ^ 63 ≤ factorial 21 := by decide
example : IsDecimal (12 : Nat) [49, 50] := Or.inl ⟨by decide, ⟨by decide, by decide, by decide⟩, by decide⟩
example : ∃ g : Glob, g.Befunge 93 (5 + 10) ∧ g.eff = [] ∧ g.inp = [32] ++ [49, 50] ++ 10 :: [] :=
  ⟨{ cfg := { dims := 2, standard := 93 }, fuel := 15, inp := [32, 49, 50, 10], flt := exFloat }, ⟨rfl, rfl, rfl, rfl, rfl, rfl⟩, rfl, rfl⟩

end Funge
