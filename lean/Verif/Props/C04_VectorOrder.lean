import Verif.Lemmas.Vec
/-!
C04: vector equality, ordering and hashing agree.
C05: vector arithmetic is coordinate-wise and turning is invertible.

Specification used here: a vector *means* its coordinate function `v.get : Nat → Int`
(missing coordinates are 0).
-/
namespace Funge.Vec

/-- Vectors obtainable through the public API of `Vector`. -/
inductive Built : Vec → Prop where
  | empty : Built Vec.empty
  | ofList (l : List Int) : Built (Vec.ofList l)
  | set {v} (d : Nat) (x : Int) : Built v → Built (v.set d x)
  | reverse {v} : Built v → Built v.reverse
  | left {v} : Built v → Built v.left
  | right {v} : Built v → Built v.right
  | add {v w} : Built v → Built w → Built (v.add w)
  | sub {v w} : Built v → Built w → Built (v.sub w)

theorem Built.normal {v : Vec} (h : Built v) : v.Normal := by
  induction h with
  | empty => exact normal_empty
  | ofList l => exact normal_ofList l
  | set d x _ _ => exact normal_set _ _ _
  | reverse _ ih => exact normal_reverse ih
  | left _ _ => exact normal_set _ _ _
  | right _ _ => exact normal_set _ _ _
  | add _ _ ih _ => exact normal_add ih _
  | sub _ _ ih _ => exact normal_sub ih _

/-- Independent specification of the order: the highest coordinate in which they differ decides. -/
def SpecLt (f g : Nat → Int) : Prop := ∃ i, f i < g i ∧ ∀ j, i < j → f j = g j

/-- C04(a): `==` holds exactly when all coordinates agree. -/
theorem C04_eq_iff_coords (v w : Vec) : v.eqv w = true ↔ v.get = w.get := by
  rw [eqv_iff]; exact ⟨fun h => funext h, fun h i => congrFun h i⟩

/-- C04(b): vectors that compare equal hash equally, for every way of building them. -/
theorem C04_hash_respects_eq {v w : Vec} (hv : Built v) (hw : Built w) (h : v.eqv w = true) :
    v.hash = w.hash := by
  rw [eqv_iff] at h
  by_cases h0 : 0 < v.size
  · by_cases h1 : 0 < w.size
    · rw [hv.normal.ext hw.normal h0 h1 h]
    · have hw0 : w.vals = [] := by unfold size at h1; exact List.length_eq_zero_iff.mp (by omega)
      have hz : ∀ i, v.get i = 0 := by intro i; rw [h, get_of_size_le w (by omega)]
      have hs : v.size = 1 := by
        rcases Nat.lt_or_ge 1 v.size with h2 | h2
        · exact absurd (hz _) (hv.normal.get_last h2)
        · omega
      obtain ⟨x, hx⟩ : ∃ x, v.vals = [x] := List.length_eq_one_iff.mp hs
      have := hz 0
      simp [get, hx] at this
      subst this
      simp [hash, hx, hw0]
  · have hv0 : v.vals = [] := by unfold size at h0; exact List.length_eq_zero_iff.mp (by omega)
    by_cases h1 : 0 < w.size
    · have hz : ∀ i, w.get i = 0 := by intro i; rw [← h, get_of_size_le v (by omega)]
      have hs : w.size = 1 := by
        rcases Nat.lt_or_ge 1 w.size with h2 | h2
        · exact absurd (hz _) (hw.normal.get_last h2)
        · omega
      obtain ⟨x, hx⟩ : ∃ x, w.vals = [x] := List.length_eq_one_iff.mp hs
      have := hz 0
      simp [get, hx] at this
      subst this
      simp [hash, hx, hv0]
    · have hw0 : w.vals = [] := by unfold size at h1; exact List.length_eq_zero_iff.mp (by omega)
      simp [hash, hv0, hw0]

/-- Non-vacuity: two differently built vectors, `(3, 0, 0)` and `(3)`, are equal and hash equally. -/
example : Built (ofList [3, 0, 0]) ∧ Built ((Vec.empty).set 0 3) ∧
    (ofList [3, 0, 0]).eqv ((Vec.empty).set 0 3) = true ∧
    (ofList [3, 0, 0]).eqv (ofList [3, 0, 7]) = false := by
  exact ⟨.ofList _, .set _ _ .empty, by decide, by decide⟩

theorem ltLoop_iff (v w : Vec) (n : Nat) :
    ltLoop v w n = true ↔ ∃ i, i < n ∧ v.get i < w.get i ∧ ∀ j, i < j → j < n → v.get j = w.get j := by
  induction n with
  | zero => simp [ltLoop]
  | succ n ih =>
    simp only [ltLoop]
    split
    · rename_i hgt
      simp only [Bool.false_eq_true, false_iff]
      rintro ⟨i, hi, hlt, hj⟩
      by_cases he : i = n
      · subst he; omega
      · have := hj n (by omega) (by omega); omega
    · split
      · rename_i hlt
        simp only [true_iff]
        exact ⟨n, by omega, hlt, by intro j h1 h2; omega⟩
      · have heq : v.get n = w.get n := by omega
        rw [ih]
        constructor
        · rintro ⟨i, hi, hlt, hj⟩
          refine ⟨i, by omega, hlt, ?_⟩
          intro j h1 h2
          by_cases he : j = n
          · subst he; exact heq
          · exact hj j h1 (by omega)
        · rintro ⟨i, hi, hlt, hj⟩
          have : i ≠ n := by rintro rfl; omega
          exact ⟨i, by omega, hlt, fun j h1 h2 => hj j h1 (by omega)⟩

/-- C04(c): `operator<` is the order in which the highest differing coordinate decides. -/
theorem C04_lt_spec (v w : Vec) : v.lt w = true ↔ SpecLt v.get w.get := by
  unfold lt SpecLt
  rw [ltLoop_iff]
  constructor
  · rintro ⟨i, hi, hlt, hj⟩
    refine ⟨i, hlt, ?_⟩
    intro j h1
    by_cases h2 : j < max v.size w.size
    · exact hj j h1 h2
    · rw [get_of_size_le v (by omega), get_of_size_le w (by omega)]
  · rintro ⟨i, hlt, hj⟩
    refine ⟨i, ?_, hlt, fun j h1 _ => hj j h1⟩
    rcases Nat.lt_or_ge i (max v.size w.size) with h | h
    · exact h
    · rw [get_of_size_le v (by omega), get_of_size_le w (by omega)] at hlt; omega

/-- C04(d): `operator<` is irreflexive. -/
theorem C04_lt_irrefl (v : Vec) : v.lt v = false := by
  rcases h : v.lt v with _ | _
  · rfl
  · obtain ⟨i, hi, _⟩ := (C04_lt_spec v v).mp h; omega

/-- C04(e): `operator<` is transitive. -/
theorem C04_lt_trans {u v w : Vec} (h1 : u.lt v = true) (h2 : v.lt w = true) : u.lt w = true := by
  rw [C04_lt_spec] at *
  obtain ⟨i, hi, hi'⟩ := h1
  obtain ⟨j, hj, hj'⟩ := h2
  rcases Nat.lt_trichotomy i j with h | h | h
  · exact ⟨j, by rw [hi' j h]; exact hj, fun k hk => by rw [hi' k (by omega), hj' k hk]⟩
  · subst h; exact ⟨i, by omega, fun k hk => by rw [hi' k hk, hj' k hk]⟩
  · exact ⟨i, by rw [← hj' i h]; exact hi, fun k hk => by rw [hi' k hk, hj' k (by omega)]⟩

/-- C04(f): any two vectors are comparable: exactly one of `<`, `==`, `>` holds. -/
theorem C04_lt_trichotomy (v w : Vec) :
    (v.lt w = true ∧ v.eqv w = false ∧ w.lt v = false) ∨
    (v.lt w = false ∧ v.eqv w = true ∧ w.lt v = false) ∨
    (v.lt w = false ∧ v.eqv w = false ∧ w.lt v = true) := by
  have asym : ∀ {a b : Vec}, a.lt b = true → b.lt a = false := by
    intro a b h
    rcases hb : b.lt a with _ | _
    · rfl
    · have := C04_lt_trans h hb; rw [C04_lt_irrefl] at this; exact absurd this (by simp)
  have ne : ∀ {a b : Vec}, a.lt b = true → a.eqv b = false := by
    intro a b h
    rcases hb : a.eqv b with _ | _
    · rfl
    · rw [C04_eq_iff_coords] at hb
      obtain ⟨i, hi, _⟩ := (C04_lt_spec a b).mp h
      rw [hb] at hi; omega
  have symm : ∀ {a b : Vec}, a.eqv b = b.eqv a := by
    intro a b
    have h1 := C04_eq_iff_coords a b
    have h2 := C04_eq_iff_coords b a
    rw [Bool.eq_iff_iff, h1, h2]; exact eq_comm
  have tot : ∀ n, (∀ i, n ≤ i → v.get i = w.get i) → v.lt w = true ∨ v.eqv w = true ∨ w.lt v = true := by
    intro n
    induction n with
    | zero => intro h; right; left; rw [eqv_iff]; exact fun i => h i (by omega)
    | succ n ih =>
      intro h
      rcases Int.lt_trichotomy (v.get n) (w.get n) with hlt | heq | hgt
      · left; rw [C04_lt_spec]; exact ⟨n, hlt, fun j hj => h j hj⟩
      · apply ih; intro i hi
        by_cases he : i = n
        · subst he; exact heq
        · exact h i (by omega)
      · right; right; rw [C04_lt_spec]; exact ⟨n, hgt, fun j hj => (h j hj).symm⟩
  rcases tot (max v.size w.size) (fun i hi => by
    rw [get_of_size_le v (by omega), get_of_size_le w (by omega)]) with h | h | h
  · left; exact ⟨h, ne h, asym h⟩
  · right; left
    refine ⟨?_, h, ?_⟩
    · rcases hb : v.lt w with _ | _
      · rfl
      · rw [ne hb] at h; exact absurd h (by simp)
    · rcases hb : w.lt v with _ | _
      · rfl
      · rw [symm, ne hb] at h; exact absurd h (by simp)
  · right; right; exact ⟨asym h, by rw [symm]; exact ne h, h⟩

/-- C04(g): `operator<=` is `<` or `==`. -/
theorem C04_le_iff (v w : Vec) : v.le w = true ↔ v.lt w = true ∨ v.eqv w = true := by
  have key : ∀ n, leLoop v w n = true ↔ ltLoop v w n = true ∨ ∀ i, i < n → v.get i = w.get i := by
    intro n
    induction n with
    | zero => simp [leLoop]
    | succ n ih =>
      simp only [leLoop, ltLoop]
      split
      · rename_i hgt
        simp only [Bool.false_eq_true, false_or, false_iff]
        intro h; have := h n (by omega); omega
      · split
        · simp
        · rename_i h1 h2
          have heq : v.get n = w.get n := by omega
          rw [ih]
          constructor
          · rintro (h | h)
            · exact Or.inl h
            · right; intro i hi
              by_cases he : i = n
              · subst he; exact heq
              · exact h i (by omega)
          · rintro (h | h)
            · exact Or.inl h
            · right; intro i hi; exact h i (by omega)
  unfold le lt eqv
  rw [key]
  simp

example : (ofList [5, 1]).lt (ofList [2, 2]) = true ∧ (ofList [5, 1, -1]).lt (ofList [2]) = true ∧
    (ofList [1]).le (ofList [1, 0]) = true := by decide

/-! ### C05 -/

/-- C05(a): addition acts on every coordinate. -/
theorem C05_add_coord (v w : Vec) (i : Nat) : (v.add w).get i = v.get i + w.get i := get_add v w i

/-- C05(b): subtraction acts on every coordinate. -/
theorem C05_sub_coord (v w : Vec) (i : Nat) : (v.sub w).get i = v.get i - w.get i := get_sub v w i

/-- C05(c): assigning one coordinate changes exactly that coordinate. -/
theorem C05_set_coord (v : Vec) (d : Nat) (x : Int) :
    (v.set d x).get d = x ∧ ∀ i, i ≠ d → (v.set d x).get i = v.get i := by
  refine ⟨by simp, fun i h => by simp [get_set, h]⟩

/-- C05(d): reversal negates every coordinate. -/
theorem C05_reverse_coord (v : Vec) (i : Nat) : v.reverse.get i = - v.get i := get_reverse v i

/-- C05(e): turning left: `(x, y, z…) ↦ (y, -x, z…)`. -/
theorem C05_left_coord (v : Vec) :
    v.left.get 0 = v.get 1 ∧ v.left.get 1 = - v.get 0 ∧ ∀ i, 2 ≤ i → v.left.get i = v.get i := by
  refine ⟨by simp [get_left], by simp [get_left], fun i h => ?_⟩
  simp [get_left, show i ≠ 0 by omega, show i ≠ 1 by omega]

/-- C05(f): turning right: `(x, y, z…) ↦ (-y, x, z…)`. -/
theorem C05_right_coord (v : Vec) :
    v.right.get 0 = - v.get 1 ∧ v.right.get 1 = v.get 0 ∧ ∀ i, 2 ≤ i → v.right.get i = v.get i := by
  refine ⟨by simp [get_right], by simp [get_right], fun i h => ?_⟩
  simp [get_right, show i ≠ 0 by omega, show i ≠ 1 by omega]

/-- C05(g): left then right, and right then left, compare equal to the original. -/
theorem C05_turn_inverse (v : Vec) : v.left.right.eqv v = true ∧ v.right.left.eqv v = true := by
  constructor <;> rw [eqv_iff] <;> intro i <;> simp only [get_left, get_right] <;>
    (by_cases h0 : i = 0 <;> by_cases h1 : i = 1 <;> simp [h0, h1])

/-- C05(h): reversing twice compares equal to the original. -/
theorem C05_reverse_involutive (v : Vec) : v.reverse.reverse.eqv v = true := by
  rw [eqv_iff]; intro i; simp

/-- C05(i): two left turns negate the first two coordinates; four are the identity. -/
theorem C05_left_left (v : Vec) :
    (v.left.left.get 0 = - v.get 0 ∧ v.left.left.get 1 = - v.get 1) ∧
    v.left.left.left.left.eqv v = true := by
  constructor
  · simp [get_left]
  · rw [eqv_iff]; intro i; simp only [get_left]
    by_cases h0 : i = 0 <;> by_cases h1 : i = 1 <;> simp [h0, h1]

/-- C05(j): `a + b - b` compares equal to `a`, for vectors of any two lengths. -/
theorem C05_add_sub_cancel (v w : Vec) : ((v.add w).sub w).eqv v = true := by
  rw [eqv_iff]; intro i; simp

example : (ofList [1, 2, 3]).left.vals = [2, -1, 3] ∧ (ofList [0, 0, 5]).add (ofList [1, 0, -5]) = ofList [1] := by
  decide

end Funge.Vec
