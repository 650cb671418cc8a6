import Verif.Props.C42_Output
import Verif.Props.C73_Bits
/-!
# C74: complex integers

CPLI keeps a complex number as two cells, the imaginary part on top.
-/
namespace Funge
open Exec

/-- The `n`-th cell from the top, zero if there is none. -/
def nth (l : List Int) (n : Nat) : Int := l.getD n 0

theorem nth_zero (l : List Int) : nth l 0 = l.headD 0 := by cases l <;> rfl
theorem nth_succ (l : List Int) (n : Nat) : nth l (n + 1) = nth l.tail n := by cases l <;> rfl

/-- `t` is the usual notation of the complex number with real part `r` and imaginary part `i`: a zero part is left out. -/
def IsComplex (r i : Int) (t : List Int) : Prop :=
  if i = 0 then IsDecimal r t
  else if r = 0 then ∃ d, t = d ++ [105] ∧ IsDecimal i d
  else ∃ d e, t = d ++ (if i < 0 then 45 else 43) :: (e ++ [105]) ∧ IsDecimal r d ∧ IsDigits e ∧ digitsValue e = i.natAbs

theorem popComplex_run {s : St} (h : s.Lifo) (l n) :
    popComplex (s.setItems l n) = .ok ((nth l 1, nth l 0), s.setItems (l.drop 2) (n + 2)) := by
  rw [popComplex, bind_ok (popTop_run h _ _), bind_ok (popTop_run h _ _), pure_run, nth_succ, nth_zero, nth_zero, tail_tail]

theorem pushComplex_run {s : St} (h : s.Lifo) (r i l n) : pushComplex r i (s.setItems l n) = .ok ((), s.setItems (i :: r :: l) (n + 2)) := by
  rw [pushComplex, bind_ok (pushTop_run h _ _ _), pushTop_run h]

/-- The exact result of `A`, `S` or `M`. -/
def complexOp : Int → Option (Int × Int → Int × Int → Int × Int)
  | 65 => some fun a b => (a.1 + b.1, a.2 + b.2)
  | 83 => some fun a b => (a.1 - b.1, a.2 - b.2)
  | 77 => some fun a b => (a.1 * b.1 - a.2 * b.2, a.1 * b.2 + a.2 * b.1)
  | _ => none

theorem ck_ok {x : Int} (h : InI64 x) : ck x = .ok x := if_pos h

/-- **C74** (partial: see `C74_undefined_product`) `A`, `S` and `M` replace two complex numbers by their sum, difference and product, if every number that
comes up fits a cell, and change nothing else. Zeros stand in for missing cells. -/
theorem C74_arith_partial (exec : Int → Exec Err) (c : Int) (f : Int × Int → Int × Int → Int × Int) (hf : complexOp c = some f) (s : St) (h : s.Lifo)
    (a b : Int × Int) (ha : a = (nth s.items 3, nth s.items 2)) (hb : b = (nth s.items 1, nth s.items 0))
    (hr : InI64 (f a b).1) (hi : InI64 (f a b).2)
    (hm : c = 77 → InI64 (a.1 * b.1) ∧ InI64 (a.2 * b.2) ∧ InI64 (a.1 * b.2) ∧ InI64 (a.2 * b.1)) :
    ∃ s', runOp exec (.fing .CPLI c) s = .ok (.none, s') ∧ s.Leaves s' ((f a b).2 :: (f a b).1 :: s.items.drop 4) := by
  have e2 : ∀ l : List Int, nth (l.drop 2) 1 = nth l 3 ∧ nth (l.drop 2) 0 = nth l 2 := by
    intro l; simp [nth, List.getD]
  subst ha hb
  unfold complexOp at hf
  split at hf
  · cases hf
    refine ⟨_, ?_, ⟨s.top.ops + 6, rfl⟩⟩
    show cpliAdd s = _
    apply run_items h
    rw [cpliAdd, bind_ok (popComplex_run h _ _), bind_ok (popComplex_run h _ _)]
    simp only [e2] at *
    rw [ck_ok hr, bind_ok (lift_ok _ _), ck_ok hi, bind_ok (lift_ok _ _), bind_ok (pushComplex_run h _ _ _ _), pure_run]
    simp
  · cases hf
    refine ⟨_, ?_, ⟨s.top.ops + 6, rfl⟩⟩
    show cpliSub s = _
    apply run_items h
    rw [cpliSub, bind_ok (popComplex_run h _ _), bind_ok (popComplex_run h _ _)]
    simp only [e2] at *
    rw [ck_ok hr, bind_ok (lift_ok _ _), ck_ok hi, bind_ok (lift_ok _ _), bind_ok (pushComplex_run h _ _ _ _), pure_run]
    simp
  · cases hf
    obtain ⟨h1, h2, h3, h4⟩ := hm rfl
    refine ⟨_, ?_, ⟨s.top.ops + 6, rfl⟩⟩
    show cpliMul s = _
    apply run_items h
    rw [cpliMul, bind_ok (popComplex_run h _ _), bind_ok (popComplex_run h _ _)]
    simp only [e2] at *
    rw [ck_ok h1, bind_ok (lift_ok _ _), ck_ok h2, bind_ok (lift_ok _ _), ck_ok hr, bind_ok (lift_ok _ _), ck_ok h3, bind_ok (lift_ok _ _), ck_ok h4,
      bind_ok (lift_ok _ _), ck_ok hi, bind_ok (lift_ok _ _), bind_ok (pushComplex_run h _ _ _ _), pure_run]
    simp
  · cases hf

example : (exState [3, 2, -1, 5]).Lifo ∧ (nth (exState [3, 2, -1, 5]).items 3, nth (exState [3, 2, -1, 5]).items 2) = (5, -1) ∧
    InI64 (5 * 2 - -1 * 3) ∧ InI64 (5 * 3 + -1 * 2) := by decide

/-- **C74** is violated: `M` of 2^32 + i and 2^31 + i is undefined although both parts of the product, 2^63 - 1 and 2^32 + 2^31, fit a cell. -/
theorem C74_undefined_product (exec : Int → Exec Err) (s : St) (h : s.Lifo) (l : List Int) (hl : s.items = 1 :: 2147483648 :: 1 :: 4294967296 :: l) :
    InI64 (4294967296 * 2147483648 - 1 * 1) ∧ InI64 (4294967296 * 1 + 1 * 2147483648) ∧ runOp exec (.fing .CPLI 77) s = .error .overflow := by
  refine ⟨by decide, by decide, ?_⟩
  show cpliMul s = _
  apply run_items h
  rw [cpliMul, bind_ok (popComplex_run h _ _), bind_ok (popComplex_run h _ _), hl]
  rw [show ck ((nth (List.drop 2 (1 :: 2147483648 :: 1 :: 4294967296 :: l)) 1, nth (List.drop 2 (1 :: 2147483648 :: 1 :: 4294967296 :: l)) 0).1 *
    (nth (1 :: 2147483648 :: 1 :: 4294967296 :: l) 1, nth (1 :: 2147483648 :: 1 :: 4294967296 :: l) 0).1) = .error .overflow from rfl]
  exact bind_error (lift_error _ _)

example : (exState [1, 2147483648, 1, 4294967296]).Lifo := by decide

/-- **C74** `A` and `S` are undefined only if a part of the exact result does not fit a cell. -/
theorem C74_overflow (exec : Int → Exec Err) (c : Int) (f : Int × Int → Int × Int → Int × Int) (hf : complexOp c = some f) (hc : c ≠ 77) (s : St)
    (h : s.Lifo) (a b : Int × Int) (ha : a = (nth s.items 3, nth s.items 2)) (hb : b = (nth s.items 1, nth s.items 0)) :
    runOp exec (.fing .CPLI c) s = .error .overflow ↔ ¬ (InI64 (f a b).1 ∧ InI64 (f a b).2) := by
  constructor
  · intro hrun ⟨h1, h2⟩
    obtain ⟨s', hs, _⟩ := C74_arith_partial exec c f hf s h a b ha hb h1 h2 (fun e => absurd e hc)
    rw [hs] at hrun
    cases hrun
  · intro hno
    have e2 : ∀ l : List Int, nth (l.drop 2) 1 = nth l 3 ∧ nth (l.drop 2) 0 = nth l 2 := by
      intro l; simp [nth, List.getD]
    have ckf : ∀ x : Int, ¬ InI64 x → ck x = .error .overflow := fun x hx => if_neg hx
    subst ha hb
    unfold complexOp at hf
    split at hf
    · cases hf
      show cpliAdd s = _
      apply run_items h
      rw [cpliAdd, bind_ok (popComplex_run h _ _), bind_ok (popComplex_run h _ _)]
      simp only [e2] at *
      by_cases h1 : InI64 (nth s.items 3 + nth s.items 1)
      · rw [ck_ok h1, bind_ok (lift_ok _ _), ckf _ fun h2 => hno ⟨h1, h2⟩, bind_error (lift_error _ _)]
      · rw [ckf _ h1, bind_error (lift_error _ _)]
    · cases hf
      show cpliSub s = _
      apply run_items h
      rw [cpliSub, bind_ok (popComplex_run h _ _), bind_ok (popComplex_run h _ _)]
      simp only [e2] at *
      by_cases h1 : InI64 (nth s.items 3 - nth s.items 1)
      · rw [ck_ok h1, bind_ok (lift_ok _ _), ckf _ fun h2 => hno ⟨h1, h2⟩, bind_error (lift_error _ _)]
      · rw [ckf _ h1, bind_error (lift_error _ _)]
    · exact absurd rfl hc
    · cases hf

example : complexOp 83 = some (fun a b => (a.1 - b.1, a.2 - b.2)) ∧ (exState [1, 9223372036854775807, 0, -2]).Lifo ∧
    ¬ InI64 (-2 - 9223372036854775807) := ⟨rfl, by decide⟩

/-- **C74** `O` writes the complex number in the usual notation and a space, and removes its two cells. -/
theorem C74_print (exec : Int → Exec Err) (s : St) (h : s.Lifo) :
    ∃ s' t, runOp exec (.fing .CPLI 79) s = .ok (.none, s') ∧ IsComplex (nth s.items 1) (nth s.items 0) t ∧
      Writes s s' (t ++ [32]) (s.items.drop 2) := by
  have go : ∀ t, (∀ n, cpliOut (s.setItems s.items n) = .ok (.none, (s.setG { s.g with eff := s.g.eff ++ [.out (t ++ [32])] }).setItems (s.items.drop 2) (n + 2))) →
      IsComplex (nth s.items 1) (nth s.items 0) t →
      ∃ s' t, runOp exec (.fing .CPLI 79) s = .ok (.none, s') ∧ IsComplex (nth s.items 1) (nth s.items 0) t ∧ Writes s s' (t ++ [32]) (s.items.drop 2) := by
    intro t ht hc
    refine ⟨_, t, ?_, hc, ⟨s.top.ops + 2, rfl⟩⟩
    show cpliOut s = _
    apply run_items h
    exact ht _
  by_cases hi : nth s.items 0 = 0
  · apply go (decimal (nth s.items 1))
    · intro n
      rw [cpliOut, bind_ok (popComplex_run h _ _)]
      simp only [hi, if_true]
      rw [bind_ok (emit_run _ _), pure_run]; rfl
    · rw [IsComplex, if_pos hi]; exact decimal_spec _
  · by_cases hr : nth s.items 1 = 0
    · apply go (decimal (nth s.items 0) ++ [105])
      · intro n
        rw [cpliOut, bind_ok (popComplex_run h _ _)]
        simp only [hi, hr, if_true, if_false]
        rw [bind_ok (emit_run _ _), pure_run]
        simp; rfl
      · rw [IsComplex, if_neg hi, if_pos hr]; exact ⟨_, rfl, decimal_spec _⟩
    · by_cases hn : nth s.items 0 < 0
      · apply go (decimal (nth s.items 1) ++ decimal (nth s.items 0) ++ [105])
        · intro n
          rw [cpliOut, bind_ok (popComplex_run h _ _)]
          simp only [hi, hr, hn, if_true, if_false]
          rw [bind_ok (emit_run _ _), pure_run]
          simp; rfl
        · rw [IsComplex, if_neg hi, if_neg hr, if_pos hn]
          rcases decimal_spec (nth s.items 0) with ⟨h0, _⟩ | ⟨_, ds, e, hd, hv⟩
          · omega
          · exact ⟨_, ds, by rw [e]; simp, decimal_spec _, hd, by rw [hv]; omega⟩
      · apply go (decimal (nth s.items 1) ++ [43] ++ decimal (nth s.items 0) ++ [105])
        · intro n
          rw [cpliOut, bind_ok (popComplex_run h _ _)]
          simp only [hi, hr, hn, if_false]
          rw [bind_ok (emit_run _ _), pure_run]
          simp; rfl
        · rw [IsComplex, if_neg hi, if_neg hr, if_neg hn]
          rcases decimal_spec (nth s.items 0) with ⟨h0, hd, hv⟩ | ⟨h0, _⟩
          · exact ⟨_, _, by simp, decimal_spec _, hd, by rw [hv]; omega⟩
          · omega

example : (exState [-3, 5]).Lifo ∧ IsComplex 5 (-3) [53, 45, 51, 105] := by
  refine ⟨by decide, ?_⟩
  rw [IsComplex, if_neg (by decide), if_neg (by decide)]
  exact ⟨[53], [51], rfl, Or.inl ⟨by decide, ⟨by decide, by decide, by decide⟩, by decide⟩, ⟨by decide, by decide, by decide⟩, by decide⟩

end Funge
