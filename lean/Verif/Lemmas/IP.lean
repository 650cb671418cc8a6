import Verif.Model.IP
import Verif.Lemmas.Field
/-! Helper lemmas about instruction pointer motion. -/
namespace Funge
namespace IP

/-- In bounds on the first `dims` axes. -/
def InB (dims : Nat) (f : Field) (c : Nat → Int) : Prop := ∀ n, n < dims → f.min n ≤ c n ∧ c n ≤ f.max n

theorem inField_iff (dims : Nat) (f : Field) (p : Vec) : inField dims f p = true ↔ InB dims f p.get := by
  unfold inField InB
  rw [List.all_eq_true]
  constructor
  · intro h n hn
    have := h n (List.mem_range.mpr hn)
    simp at this; omega
  · intro h n hn
    have := h n (List.mem_range.mp hn)
    simp; omega

/-- The point `p + k d`. -/
def pt (p d : Nat → Int) (k : Int) : Nat → Int := fun i => p i + k * d i

theorem pt_zero (p d : Nat → Int) : pt p d 0 = p := by funext i; simp [pt]

theorem pt_add (p d : Nat → Int) (k : Int) : (fun i => pt p d k i + d i) = pt p d (k + 1) := by
  funext i; simp only [pt]; rw [Int.add_mul]; omega

theorem pt_sub (p d : Nat → Int) (k : Int) : (fun i => pt p d k i - d i) = pt p d (k - 1) := by
  funext i; simp only [pt]; rw [Int.sub_mul]; omega

theorem mul_between {a b k j d : Int} (x : Int) (h1 : a ≤ x + k * d ∧ x + k * d ≤ b)
    (h2 : a ≤ x + j * d ∧ x + j * d ≤ b) (m : Int) (hm : k ≤ m ∧ m ≤ j) :
    a ≤ x + m * d ∧ x + m * d ≤ b := by
  by_cases hd : 0 ≤ d
  · have h3 := Int.mul_le_mul_of_nonneg_right hm.1 hd
    have h4 := Int.mul_le_mul_of_nonneg_right hm.2 hd
    omega
  · have h3 := Int.mul_le_mul_of_nonneg_right hm.1 (show 0 ≤ -d by omega)
    have h4 := Int.mul_le_mul_of_nonneg_right hm.2 (show 0 ≤ -d by omega)
    rw [Int.mul_neg, Int.mul_neg] at h3 h4
    omega

/-- The box is convex along a line. -/
theorem inB_convex {dims : Nat} {f : Field} {p d : Nat → Int} {k j m : Int}
    (h1 : InB dims f (pt p d k)) (h2 : InB dims f (pt p d j)) (hm : k ≤ m ∧ m ≤ j) : InB dims f (pt p d m) :=
  fun n hn => mul_between (p n) (h1 n hn) (h2 n hn) m hm

/-- Points of a line with a non-zero delta that are in bounds have bounded index. -/
theorem inB_bound {dims : Nat} {f : Field} {p d : Nat → Int} {n : Nat} (hn : n < dims) (hd : d n ≠ 0)
    {k j : Int} (hk : InB dims f (pt p d k)) (hj : InB dims f (pt p d j)) : j - k ≤ f.max n - f.min n := by
  have h1 := hk n hn
  have h2 := hj n hn
  simp only [pt] at h1 h2
  by_cases hjk : j ≤ k
  · have := h1; omega
  · have h3 : (j - k) * d n ≤ f.max n - f.min n := by rw [Int.sub_mul]; omega
    have h4 : (j - k) * (- d n) ≤ f.max n - f.min n := by rw [Int.mul_neg, Int.sub_mul]; omega
    by_cases hd0 : 0 < d n
    · have := Int.mul_le_mul_of_nonneg_left (show 1 ≤ d n by omega) (show 0 ≤ j - k by omega)
      omega
    · have := Int.mul_le_mul_of_nonneg_left (show 1 ≤ - d n by omega) (show 0 ≤ j - k by omega)
      omega

theorem width_le_backFuel {dims : Nat} (f : Field) {n : Nat} (hn : n < dims) :
    (f.max n - f.min n + 1).toNat + 1 ≤ backFuel dims f := by
  unfold backFuel
  have key : ∀ (l : List Nat), n ∈ l →
      (f.max n - f.min n + 1).toNat ≤ (l.map (fun n => (f.max n - f.min n + 1).toNat)).sum := by
    intro l
    induction l with
    | nil => simp
    | cons a t ih =>
      intro h
      rw [List.map_cons, List.sum_cons]
      rcases List.mem_cons.mp h with rfl | h
      · omega
      · have := ih h; omega
  have := key (List.range dims) (List.mem_range.mpr hn)
  omega

theorem get_add_fun (v w : Vec) : (v.add w).get = fun i => v.get i + w.get i := by funext i; simp
theorem get_reverse_fun (v : Vec) : v.reverse.get = fun i => - v.get i := by funext i; simp

/-- Walking along the line `p + k d` from index `k` (in the direction of `-d`) until out of bounds, all indices from
`lo` to `k` being in bounds and `lo - 1` out of bounds. -/
theorem backLoop_line {dims : Nat} {f : Field} {p d : Nat → Int} {lo : Int} (hlo : ¬ InB dims f (pt p d (lo - 1)))
    (r : Vec) (hr : ∀ i, r.get i = - d i) (m : Nat) :
    ∀ (v : Vec) (k : Int), (∀ j, lo ≤ j → j ≤ k → InB dims f (pt p d j)) → v.get = pt p d k → k = lo - 1 + m →
      ∀ n, m < n → ∃ v', backLoop dims f r n v = some v' ∧ v'.get = pt p d (lo - 1) := by
  induction m with
  | zero =>
    intro v k _ hv hk n hn
    obtain ⟨n, rfl⟩ : ∃ n', n = n' + 1 := ⟨n - 1, by omega⟩
    refine ⟨v, ?_, ?_⟩
    · rw [backLoop, if_neg]
      rw [inField_iff, hv, hk]; simpa using hlo
    · rw [hv, hk]; simp
  | succ m ih =>
    intro v k hin hv hk n hn
    obtain ⟨n, rfl⟩ : ∃ n', n = n' + 1 := ⟨n - 1, by omega⟩
    rw [backLoop, if_pos]
    · refine ih (v.add r) (k - 1) (fun j h1 h2 => hin j h1 (by omega)) ?_ (by omega) n (by omega)
      rw [get_add_fun, hv, ← pt_sub]
      funext i; rw [hr]; omega
    · rw [inField_iff, hv]; exact hin k (by omega) (by omega)

/-- The in-bounds part of a line is an interval of indices. -/
def Segment (dims : Nat) (f : Field) (p d : Nat → Int) (lo hi : Int) : Prop :=
  ∀ k, InB dims f (pt p d k) ↔ lo ≤ k ∧ k ≤ hi

theorem exists_top (P : Int → Prop) (h0 : P 0) (bound : Nat) (hb : ∀ k, P k → k ≤ bound)
    (hc : ∀ k m : Int, P k → 0 ≤ m → m ≤ k → P m) : ∃ hi, 0 ≤ hi ∧ ∀ k, 0 ≤ k → (P k ↔ k ≤ hi) := by
  have key : ∀ n : Nat, (∃ hi, 0 ≤ hi ∧ ∀ k, 0 ≤ k → (P k ↔ k ≤ hi)) ∨ P n := by
    intro n
    induction n with
    | zero => exact Or.inr h0
    | succ n ih =>
      rcases ih with h | h
      · exact Or.inl h
      · by_cases hn : P ((n + 1 : Nat) : Int)
        · exact Or.inr hn
        · left
          refine ⟨n, by omega, ?_⟩
          intro k hk
          constructor
          · intro hPk
            by_cases hle : k ≤ n
            · exact hle
            · exact absurd (hc k _ hPk (by omega) (by omega)) hn
          · intro hle; exact hc n k h hk hle
  rcases key (bound + 1) with h | h
  · exact h
  · have := hb _ h; omega

theorem exists_segment {dims : Nat} {f : Field} {p d : Nat → Int} {n : Nat} (hn : n < dims) (hd : d n ≠ 0)
    (hp : InB dims f p) : ∃ lo hi, lo ≤ 0 ∧ 0 ≤ hi ∧ Segment dims f p d lo hi := by
  have hp0 : InB dims f (pt p d 0) := by rw [pt_zero]; exact hp
  have hw : 0 ≤ f.max n - f.min n := by have := hp n hn; omega
  obtain ⟨hi, h1, h2⟩ := exists_top (fun k => InB dims f (pt p d k)) hp0 (f.max n - f.min n).toNat
    (fun k hk => by have := inB_bound hn hd hp0 hk; omega)
    (fun k m hk h1 h2 => inB_convex hp0 hk ⟨h1, h2⟩)
  obtain ⟨lo, h3, h4⟩ := exists_top (fun k => InB dims f (pt p d (-k))) (by simpa using hp0)
    (f.max n - f.min n).toNat
    (fun k hk => by have := inB_bound hn hd hk hp0; omega)
    (fun k m hk h1 h2 => inB_convex hk hp0 ⟨by omega, by omega⟩)
  refine ⟨-lo, hi, by omega, h1, ?_⟩
  intro k
  by_cases hk : 0 ≤ k
  · rw [h2 k hk]; omega
  · have := h4 (-k) (by omega)
    rw [Int.neg_neg] at this
    rw [this]; omega

/-- Next index on a segment: one further, or back to the other end. -/
def cyc (lo hi k : Int) : Int := if k < hi then k + 1 else lo

/-- What `next` does, in terms of the index on the line. -/
theorem next_segment {dims : Nat} {f : Field} {p d : Nat → Int} {lo hi : Int} {n : Nat} (hn : n < dims)
    (hd : d n ≠ 0) (hs : Segment dims f p d lo hi) (ip : IP) (hst : ip.stopped = false) (k : Int)
    (hk : lo ≤ k ∧ k ≤ hi) (hpos : ip.pos.get = pt p d k) (hdelta : ip.delta.get = d) :
    ∃ ip', ip.next dims .lahey f = .ok ip' ∧ ip'.pos.get = pt p d (cyc lo hi k) ∧ ip'.delta.get = d ∧
      ip'.storage = ip.storage ∧ ip'.stopped = false ∧ (k < hi → ip'.delta = ip.delta) := by
  have hadd : (ip.pos.add ip.delta).get = pt p d (k + 1) := by
    rw [get_add_fun, hpos, hdelta, pt_add]
  unfold next
  simp only [hst, Bool.false_eq_true, if_false]
  by_cases hlt : k < hi
  · have hin : inField dims f (ip.pos.add ip.delta) = true := by
      rw [inField_iff, hadd, hs]; omega
    simp only [hin, if_true]
    exact ⟨_, rfl, by simp only [cyc, hlt, if_true]; exact hadd, hdelta, rfl, rfl, fun _ => rfl⟩
  · have hout : ¬ inField dims f (ip.pos.add ip.delta) = true := by
      rw [inField_iff, hadd, hs]; omega
    simp only [hout]
    have hr : ∀ i, ip.delta.reverse.get i = - d i := by intro i; rw [Vec.get_reverse, hdelta]
    have hback : ((ip.pos.add ip.delta).add ip.delta.reverse).get = pt p d k := by
      rw [get_add_fun, hadd, get_reverse_fun, hdelta]
      have := pt_sub p d (k + 1)
      rw [show k + 1 - 1 = k by omega] at this
      rw [← this]; funext i; dsimp only; omega
    have hbound : hi - lo ≤ f.max n - f.min n :=
      inB_bound hn hd ((hs lo).mpr (by omega)) ((hs hi).mpr (by omega))
    have hfuel := width_le_backFuel f hn
    obtain ⟨v', h1, h2⟩ := backLoop_line (lo := lo) (by rw [hs]; omega) ip.delta.reverse hr (k - lo + 1).toNat
      ((ip.pos.add ip.delta).add ip.delta.reverse) k
      (fun j h1 h2 => (hs j).mpr (by omega)) hback (by omega) (backFuel dims f) (by omega)
    rw [h1]
    refine ⟨_, rfl, ?_, ?_, rfl, rfl, fun h => absurd h hlt⟩
    · show (v'.add ip.delta.reverse.reverse).get = _
      rw [get_add_fun, h2, get_reverse_fun, get_reverse_fun, hdelta]
      simp only [cyc, hlt, if_false]
      have := pt_add p d (lo - 1)
      rw [show lo - 1 + 1 = lo by omega] at this
      rw [← this]; funext i; omega
    · show ip.delta.reverse.reverse.get = d
      rw [get_reverse_fun, get_reverse_fun, hdelta]; funext i; dsimp only; omega

end IP
end Funge
