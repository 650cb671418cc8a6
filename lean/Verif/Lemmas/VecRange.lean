import Verif.Model.VecRange
import Verif.Lemmas.Vec
/-! Helper lemmas for `VectorRange`: mixed-radix ranks. -/
namespace Funge.VecRange

/-- Between `a` and `b`, in either direction. -/
def Btw (a b x : Int) : Prop := (a ≤ x ∧ x ≤ b) ∨ (b ≤ x ∧ x ≤ a)

/-- Extent of axis `i`. -/
def ext (a b : Nat → Int) (i : Nat) : Nat := (b i - a i).natAbs
/-- Offset of `c` on axis `i`. -/
def off (a c : Nat → Int) (i : Nat) : Nat := (c i - a i).natAbs

/-- Number of cells of the first `k` axes. -/
def weight (a b : Nat → Int) : Nat → Nat
  | 0 => 1
  | k + 1 => weight a b k * (ext a b k + 1)

/-- Rank of a cell among the first `k` axes. -/
def rank (a b c : Nat → Int) : Nat → Nat
  | 0 => 0
  | k + 1 => rank a b c k + off a c k * weight a b k

theorem weight_pos (a b : Nat → Int) (k : Nat) : 0 < weight a b k := by
  induction k with
  | zero => simp [weight]
  | succ k ih => simp only [weight]; exact Nat.mul_pos ih (by omega)

theorem off_le {a b c : Nat → Int} {i : Nat} (h : Btw (a i) (b i) (c i)) : off a c i ≤ ext a b i := by
  unfold off ext Btw at *; omega

theorem rank_lt {a b c : Nat → Int} (k : Nat) (h : ∀ i, i < k → Btw (a i) (b i) (c i)) :
    rank a b c k < weight a b k := by
  induction k with
  | zero => simp [rank, weight]
  | succ k ih =>
    simp only [rank, weight]
    have h1 := ih (fun i hi => h i (by omega))
    have h2 := off_le (h k (by omega))
    have : off a c k * weight a b k ≤ ext a b k * weight a b k := Nat.mul_le_mul_right _ h2
    rw [Nat.mul_add, Nat.mul_comm (weight a b k) (ext a b k)]
    omega

theorem off_inj {a b c d : Nat → Int} {i : Nat} (hc : Btw (a i) (b i) (c i)) (hd : Btw (a i) (b i) (d i))
    (h : off a c i = off a d i) : c i = d i := by
  unfold off Btw at *; omega

theorem rank_inj {a b c d : Nat → Int} (k : Nat) (hc : ∀ i, i < k → Btw (a i) (b i) (c i))
    (hd : ∀ i, i < k → Btw (a i) (b i) (d i)) (h : rank a b c k = rank a b d k) :
    ∀ i, i < k → c i = d i := by
  induction k with
  | zero => intro i hi; omega
  | succ k ih =>
    simp only [rank] at h
    have h1 := rank_lt k (fun i hi => hc i (by omega))
    have h2 := rank_lt k (fun i hi => hd i (by omega))
    have hw := weight_pos a b k
    have hoff : off a c k = off a d k := by
      have e1 : (rank a b c k + off a c k * weight a b k) / weight a b k = off a c k := by
        rw [Nat.add_mul_div_right _ _ hw, Nat.div_eq_of_lt h1, Nat.zero_add]
      have e2 : (rank a b d k + off a d k * weight a b k) / weight a b k = off a d k := by
        rw [Nat.add_mul_div_right _ _ hw, Nat.div_eq_of_lt h2, Nat.zero_add]
      rw [← e1, ← e2, h]
    have hr : rank a b c k = rank a b d k := by rw [hoff] at h; omega
    intro i hi
    by_cases he : i = k
    · subst he; exact off_inj (hc i (by omega)) (hd i (by omega)) hoff
    · exact ih (fun i hi => hc i (by omega)) (fun i hi => hd i (by omega)) hr i (by omega)

theorem rank_congr {a b c d : Nat → Int} (k : Nat) (h : ∀ i, i < k → c i = d i) :
    rank a b c k = rank a b d k := by
  induction k with
  | zero => rfl
  | succ k ih =>
    simp only [rank, ih (fun i hi => h i (by omega)), off, h k (by omega)]

theorem rank_begin {a b c : Nat → Int} (k : Nat) (h : ∀ i, i < k → c i = a i) : rank a b c k = 0 := by
  induction k with
  | zero => rfl
  | succ k ih => simp [rank, ih (fun i hi => h i (by omega)), off, h k (by omega)]

theorem rank_last {a b c : Nat → Int} (k : Nat) (h : ∀ i, i < k → c i = b i) :
    rank a b c k + 1 = weight a b k := by
  induction k with
  | zero => rfl
  | succ k ih =>
    have := ih (fun i hi => h i (by omega))
    simp only [rank, weight, Nat.mul_add, off, h k (by omega)]
    rw [Nat.mul_comm (weight a b k) (ext a b k)]
    unfold ext; omega

/-- Unit step away from the start of an axis. -/
def unit (a b : Int) : Int := if b ≥ a then 1 else -1

/-- After the first `k` axes are exhausted and axis `k` is not, resetting them and advancing axis `k`
adds one to the rank. -/
theorem rank_succ {a b c d : Nat → Int} (n k : Nat) (hk : k < n)
    (hc : ∀ i, i < n → Btw (a i) (b i) (c i))
    (hfull : ∀ i, i < k → c i = b i) (_hne : c k ≠ b k)
    (hd0 : ∀ i, i < k → d i = a i) (hdk : d k = c k + unit (a k) (b k))
    (hrest : ∀ i, k < i → i < n → d i = c i) :
    rank a b d n = rank a b c n + 1 := by
  induction n with
  | zero => omega
  | succ n ih =>
    by_cases he : k = n
    · subst he
      simp only [rank]
      rw [rank_begin k hd0]
      have := rank_last (c := c) (a := a) k hfull
      have ho : off a d k = off a c k + 1 := by
        have := hc k (by omega)
        unfold off unit Btw at *
        rw [hdk]
        split <;> omega
      rw [ho, Nat.add_mul]; omega
    · simp only [rank]
      rw [ih (by omega) (fun i hi => hc i (by omega)) (fun i h1 h2 => hrest i h1 (by omega))]
      have : off a d n = off a c n := by unfold off; rw [hrest n (by omega) (by omega)]
      rw [this]; omega

end Funge.VecRange
