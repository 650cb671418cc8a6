import Verif.Props.C101_Reference
/-
C115: a Befunge-93 program does the same as a Befunge-98 program.
-/
namespace Funge
open Exec Field Ref
open Ref.Bef (Step Steps Idle)

/-! ### C115 -/

/-- A state of the Befunge-98 machine in which Befunge-93 asks for the same (`t`: on a torus of 80 by 25 cells; `sgml`: Befunge-98 passes over white space
after white space in a string). -/
structure Ref.Bef.Common (t sgml : Bool) (b : Bef) : Prop where
  /-- The character is none of those that Befunge-98 has added. -/
  word : b.quote = false → words98.lookup (b.cell b.x b.y) = none
  /-- In a string: a character, and not white space after white space. -/
  string : b.quote = true → b.cell b.x b.y ≠ 34 → sgml = true → (0 ≤ b.cell b.x b.y ∧ b.cell b.x b.y ≤ 255) ∧ ¬ (Bef.white (b.cell b.x b.y) = true ∧ Bef.white b.prev = true)
  /-- `p` stores a byte. -/
  put : b.quote = false → b.cell b.x b.y = 112 → -128 ≤ (b.stack.drop 2).headD 0 ∧ (b.stack.drop 2).headD 0 ≤ 127
  /-- `g` and `p` go to a cell of the torus. -/
  place : t = true → b.quote = false → b.cell b.x b.y = 103 ∨ b.cell b.x b.y = 112 → (0 ≤ b.next ∧ b.next ≤ 79) ∧ 0 ≤ b.top ∧ b.top ≤ 24
  /-- On a torus, `#` does not pass over an edge of what is written on the playfield. -/
  bridge : t = true → b.quote = false → b.cell b.x b.y = 35 → b.has (b.x + b.dx, b.y + b.dy) = true

/-- On a torus, a string does not go over an edge of what is written on the playfield. -/
def Ref.Bef.Stays (R : Rules) (t : Bool) (b : Bef) : Prop := t = true → ∀ c ∈ b.acts R, c.over = false → c.quote = true → c.has (c.x + c.dx, c.y + c.dy) = true

/-- Wherever the Befunge-98 machine comes, Befunge-93 asks for the same. -/
def Ref.Bef.BothWays (R' : Rules) (t : Bool) (b : Bef) : Prop := ∀ n c, Steps R' n b c → c.over = false → c.Common t R'.sgml ∧ c.Stays R' t ∧ c.acts R' ≠ []

/-- The two machines have the same state, but for the rectangle the IP wraps around, and for what only matters to strings in Befunge-98. -/
def Ref.Bef.as93 (t : Bool) (p : Int) (b : Bef) : Bef :=
  { b with prev := p, west := if t then 0 else b.west, east := if t then 79 else b.east, north := if t then 0 else b.north, south := if t then 24 else b.south }

namespace Both

/-- One of the four directions. -/
def Card (dx dy : Int) : Prop := (dx = 1 ∧ dy = 0) ∨ (dx = -1 ∧ dy = 0) ∨ (dx = 0 ∧ dy = 1) ∨ (dx = 0 ∧ dy = -1)

theorem has_iff {b : Bef} {p : Int × Int} : b.has p = true ↔ b.west ≤ p.1 ∧ p.1 ≤ b.east ∧ b.north ≤ p.2 ∧ p.2 ≤ b.south := by
  unfold Bef.has
  simp only [Bool.and_eq_true, decide_eq_true_eq, and_assoc]

theorem back_east {b : Bef} (h1 : b.dx = 1) (h2 : b.dy = 0) (k : Nat) : ∀ {x y : Int}, b.has (x, y) = true → x - b.west ≤ k → b.back k (x, y) = (b.west, y) := by
  induction k with
  | zero =>
    intro x y h hk
    have := has_iff.mp h
    dsimp only at this
    rw [Bef.back, show x = b.west by omega]
  | succ k ih =>
    intro x y h hk
    have := has_iff.mp h
    dsimp only at this
    rw [Bef.back, h1, h2, Int.sub_zero]
    by_cases hx : x = b.west
    · rw [if_neg (by rw [has_iff]; dsimp only; omega), hx]
    · have hh : b.has (x - 1, y) = true := by rw [has_iff]; dsimp only; omega
      rw [if_pos hh]
      exact ih hh (by omega)

theorem back_west {b : Bef} (h1 : b.dx = -1) (h2 : b.dy = 0) (k : Nat) : ∀ {x y : Int}, b.has (x, y) = true → b.east - x ≤ k → b.back k (x, y) = (b.east, y) := by
  induction k with
  | zero =>
    intro x y h hk
    have := has_iff.mp h
    dsimp only at this
    rw [Bef.back, show x = b.east by omega]
  | succ k ih =>
    intro x y h hk
    have := has_iff.mp h
    dsimp only at this
    rw [Bef.back, h1, h2, Int.sub_zero]
    by_cases hx : x = b.east
    · rw [if_neg (by rw [has_iff]; dsimp only; omega), hx]
    · have hh : b.has (x - -1, y) = true := by rw [has_iff]; dsimp only; omega
      rw [if_pos hh]
      exact ih hh (by omega)

theorem back_south {b : Bef} (h1 : b.dx = 0) (h2 : b.dy = 1) (k : Nat) : ∀ {x y : Int}, b.has (x, y) = true → y - b.north ≤ k → b.back k (x, y) = (x, b.north) := by
  induction k with
  | zero =>
    intro x y h hk
    have := has_iff.mp h
    dsimp only at this
    rw [Bef.back, show y = b.north by omega]
  | succ k ih =>
    intro x y h hk
    have := has_iff.mp h
    dsimp only at this
    rw [Bef.back, h1, h2, Int.sub_zero]
    by_cases hx : y = b.north
    · rw [if_neg (by rw [has_iff]; dsimp only; omega), hx]
    · have hh : b.has (x, y - 1) = true := by rw [has_iff]; dsimp only; omega
      rw [if_pos hh]
      exact ih hh (by omega)

theorem back_north {b : Bef} (h1 : b.dx = 0) (h2 : b.dy = -1) (k : Nat) : ∀ {x y : Int}, b.has (x, y) = true → b.south - y ≤ k → b.back k (x, y) = (x, b.south) := by
  induction k with
  | zero =>
    intro x y h hk
    have := has_iff.mp h
    dsimp only at this
    rw [Bef.back, show y = b.south by omega]
  | succ k ih =>
    intro x y h hk
    have := has_iff.mp h
    dsimp only at this
    rw [Bef.back, h1, h2, Int.sub_zero]
    by_cases hx : y = b.south
    · rw [if_neg (by rw [has_iff]; dsimp only; omega), hx]
    · have hh : b.has (x, y - -1) = true := by rw [has_iff]; dsimp only; omega
      rw [if_pos hh]
      exact ih hh (by omega)

/-- Where a step over the edge leads. -/
theorem ahead_over {b : Bef} (hi : b.has (b.x, b.y) = true) (hn : b.has (b.x + b.dx, b.y + b.dy) = false) (hc : Card b.dx b.dy) :
    (b.dx = 1 ∧ b.dy = 0 ∧ b.x = b.east ∧ b.ahead = (b.west, b.y)) ∨ (b.dx = -1 ∧ b.dy = 0 ∧ b.x = b.west ∧ b.ahead = (b.east, b.y)) ∨
    (b.dx = 0 ∧ b.dy = 1 ∧ b.y = b.south ∧ b.ahead = (b.x, b.north)) ∨ (b.dx = 0 ∧ b.dy = -1 ∧ b.y = b.north ∧ b.ahead = (b.x, b.south)) := by
  have h1 := has_iff.mp hi
  have h2 : ¬ _ := fun h => absurd (has_iff.mpr h) (by rw [hn]; decide)
  dsimp only at h1 h2
  have ha : b.ahead = b.back ((b.east - b.west).toNat + (b.south - b.north).toNat) (b.x, b.y) := if_neg (by rw [hn]; decide)
  rw [ha]
  rcases hc with ⟨c1, c2⟩ | ⟨c1, c2⟩ | ⟨c1, c2⟩ | ⟨c1, c2⟩
  · exact .inl ⟨c1, c2, by omega, back_east c1 c2 _ hi (by omega)⟩
  · exact .inr (.inl ⟨c1, c2, by omega, back_west c1 c2 _ hi (by omega)⟩)
  · exact .inr (.inr (.inl ⟨c1, c2, by omega, back_south c1 c2 _ hi (by omega)⟩))
  · exact .inr (.inr (.inr ⟨c1, c2, by omega, back_north c1 c2 _ hi (by omega)⟩))

theorem ahead_inside {b : Bef} (hi : b.has (b.x, b.y) = true) (hc : Card b.dx b.dy) : b.has b.ahead = true := by
  cases hn : b.has (b.x + b.dx, b.y + b.dy) with
  | true => rw [show b.ahead = _ from if_pos hn]; exact hn
  | false =>
    have h1 := has_iff.mp hi
    dsimp only at h1
    rcases ahead_over hi hn hc with ⟨-, -, -, h⟩ | ⟨-, -, -, h⟩ | ⟨-, -, -, h⟩ | ⟨-, -, -, h⟩ <;> rw [h, has_iff] <;> dsimp only <;> omega

/-- On the torus. -/
structure OnTorus (e : Bef) : Prop where
  rect : e.west = 0 ∧ e.east = 79 ∧ e.north = 0 ∧ e.south = 24
  card : Card e.dx e.dy
  pos : 0 ≤ e.x ∧ e.x ≤ 79 ∧ 0 ≤ e.y ∧ e.y ≤ 24

theorem torus_ahead {e : Bef} (h : OnTorus e) : e.ahead = ((e.x + e.dx) % 80, (e.y + e.dy) % 25) := by
  obtain ⟨⟨r1, r2, r3, r4⟩, hc, p⟩ := h
  have hi : e.has (e.x, e.y) = true := by rw [has_iff]; dsimp only; omega
  cases hn : e.has (e.x + e.dx, e.y + e.dy) with
  | true =>
    have := has_iff.mp hn
    dsimp only at this
    rw [show e.ahead = _ from if_pos hn, Prod.mk.injEq]
    omega
  | false =>
    rcases ahead_over hi hn hc with ⟨a, b, c, h⟩ | ⟨a, b, c, h⟩ | ⟨a, b, c, h⟩ | ⟨a, b, c, h⟩ <;> rw [h, Prod.mk.injEq] <;> omega

theorem torus_move {e : Bef} (h : OnTorus e) : OnTorus e.move := by
  have := h.pos
  refine ⟨h.rect, h.card, ?_⟩
  show 0 ≤ e.ahead.1 ∧ e.ahead.1 ≤ 79 ∧ 0 ≤ e.ahead.2 ∧ e.ahead.2 ≤ 24
  rw [torus_ahead h]
  dsimp only
  omega

theorem torus_moves (j : Nat) : ∀ {e : Bef}, OnTorus e → e.moves j = { e with x := (e.x + j * e.dx) % 80, y := (e.y + j * e.dy) % 25 } := by
  induction j with
  | zero =>
    intro e h
    have := h.pos
    have h1 : (e.x + ((0 : Nat) : Int) * e.dx) % 80 = e.x := by rw [Int.ofNat_zero, Int.zero_mul]; omega
    have h2 : (e.y + ((0 : Nat) : Int) * e.dy) % 25 = e.y := by rw [Int.ofNat_zero, Int.zero_mul]; omega
    rw [h1, h2]
    rfl
  | succ j ih =>
    intro e h
    rw [Bef.moves, ih (torus_move h)]
    have h1 : e.move = { e with x := (e.x + e.dx) % 80, y := (e.y + e.dy) % 25 } := by unfold Bef.move; rw [torus_ahead h]
    rw [h1]
    dsimp only
    congr 1
    · rw [Int.emod_add_emod]; congr 1; rw [Int.natCast_succ, Int.add_mul]; omega
    · rw [Int.emod_add_emod]; congr 1; rw [Int.natCast_succ, Int.add_mul]; omega

/-- The way around the torus, from one edge of what is written to the other. -/
theorem wrap {b : Bef} {q : Int} (hr : 0 ≤ b.west ∧ b.east ≤ 79 ∧ 0 ≤ b.north ∧ b.south ≤ 24) (hi : b.has (b.x, b.y) = true) (hc : Card b.dx b.dy)
    (hb : ∀ x y, b.has (x, y) = false → b.cell x y = 32) (hn : b.has (b.x + b.dx, b.y + b.dy) = false) :
    ∃ m, m ≤ 79 ∧ (b.as93 true q).move.moves m = b.move.as93 true q ∧
      ∀ j < m, b.cell ((b.as93 true q).move.moves j).x ((b.as93 true q).move.moves j).y = 32 := by
  have h1 := has_iff.mp hi
  dsimp only at h1
  have ht : OnTorus (b.as93 true q) := ⟨⟨rfl, rfl, rfl, rfl⟩, hc, by show 0 ≤ b.x ∧ b.x ≤ 79 ∧ 0 ≤ b.y ∧ b.y ≤ 24; omega⟩
  have hm : ∀ j, (b.as93 true q).move.moves j = { b.as93 true q with x := (b.x + ((j + 1 : Nat) : Int) * b.dx) % 80, y := (b.y + ((j + 1 : Nat) : Int) * b.dy) % 25 } :=
    fun j => torus_moves (j + 1) ht
  have fin : ∀ m : Nat, b.ahead = ((b.x + ((m + 1 : Nat) : Int) * b.dx) % 80, (b.y + ((m + 1 : Nat) : Int) * b.dy) % 25) → (b.as93 true q).move.moves m = b.move.as93 true q := by
    intro m h
    rw [hm]
    unfold Bef.move
    rw [h]
    rfl
  have out : ∀ x y, ¬ (b.west ≤ x ∧ x ≤ b.east ∧ b.north ≤ y ∧ y ≤ b.south) → b.cell x y = 32 := fun x y h => hb x y (by rw [Bool.eq_false_iff]; exact fun h' => h (has_iff.mp h'))
  rcases ahead_over hi hn hc with ⟨a1, a2, a3, h⟩ | ⟨a1, a2, a3, h⟩ | ⟨a1, a2, a3, h⟩ | ⟨a1, a2, a3, h⟩
  · refine ⟨(79 - b.east + b.west).toNat, by omega, fin _ ?_, fun j hj => ?_⟩
    · rw [h, a1, a2, Prod.mk.injEq]; omega
    · rw [hm]; dsimp only; rw [a1, a2]; exact out _ _ (by omega)
  · refine ⟨(79 - b.east + b.west).toNat, by omega, fin _ ?_, fun j hj => ?_⟩
    · rw [h, a1, a2, Prod.mk.injEq]; omega
    · rw [hm]; dsimp only; rw [a1, a2]; exact out _ _ (by omega)
  · refine ⟨(24 - b.south + b.north).toNat, by omega, fin _ ?_, fun j hj => ?_⟩
    · rw [h, a1, a2, Prod.mk.injEq]; omega
    · rw [hm]; dsimp only; rw [a1, a2]; exact out _ _ (by omega)
  · refine ⟨(24 - b.south + b.north).toNat, by omega, fin _ ?_, fun j hj => ?_⟩
    · rw [h, a1, a2, Prod.mk.injEq]; omega
    · rw [hm]; dsimp only; rw [a1, a2]; exact out _ _ (by omega)
/-- What goes with it. -/
structure Fits (t : Bool) (b : Bef) : Prop where
  comment : b.comment = false
  ox : b.ox = 0
  oy : b.oy = 0
  code : b.code = none
  rect : t = true → 0 ≤ b.west ∧ b.east ≤ 79 ∧ 0 ≤ b.north ∧ b.south ≤ 24
  card : Card b.dx b.dy
  inside : b.has (b.x, b.y) = true
  blank : ∀ x y, b.has (x, y) = false → b.cell x y = 32

variable {t : Bool} {p : Int} {b : Bef}

theorem has_as93 (hf : Fits t b) {q : Int × Int} (h : b.has q = true) : (b.as93 t p).has q = true := by
  cases t with
  | false => exact h
  | true =>
    obtain ⟨h1, h2, h3, h4⟩ := hf.rect rfl
    simp only [Bef.has, Bef.as93, Bool.and_eq_true, decide_eq_true_eq, if_true] at h ⊢
    omega

theorem has_torus {q : Int × Int} (h1 : 0 ≤ q.1) (h2 : q.1 ≤ 79) (h3 : 0 ≤ q.2) (h4 : q.2 ≤ 24) : (b.as93 true p).has q = true := by
  simp only [Bef.has, Bef.as93, Bool.and_eq_true, decide_eq_true_eq, if_true]
  omega

theorem back_as93 (k : Nat) : ∀ q, (b.as93 false p).back k q = b.back k q := by
  induction k with
  | zero => intro q; rfl
  | succ k ih =>
    intro q
    unfold Bef.back
    rw [ih]
    rfl

theorem move_as93 (hf : Fits t b) (h : t = true → b.has (b.x + b.dx, b.y + b.dy) = true) : (b.as93 t p).move = b.move.as93 t p := by
  have ha : (b.as93 t p).ahead = b.ahead := by
    cases t with
    | false => unfold Bef.ahead; rw [back_as93]; rfl
    | true => exact (if_pos (has_as93 hf (h rfl))).trans (if_pos (h rfl)).symm
  unfold Bef.move
  rw [ha]
  rfl

theorem brink_as93 (R : Rules) (hf : Fits t b) (h : t = true → b.has (b.x + b.dx, b.y + b.dy) = true) (ht : R.torus = t) : (b.as93 t p).brink R = false := by
  unfold Bef.brink
  cases t with
  | false => rw [ht]; rfl
  | true =>
    have := has_as93 (p := p) hf (h rfl)
    simp only [Bef.has, Bool.and_eq_true, decide_eq_true_eq] at this
    rw [ht, Bool.true_and, Bool.or_eq_false_iff]
    simp only [Bef.as93, decide_eq_false_iff_not, if_true] at this ⊢
    omega

theorem lookup_append {l m : List (Int × Word)} {c : Int} (h : m.lookup c = none) : (l ++ m).lookup c = l.lookup c := by
  induction l with
  | nil => exact h
  | cons a l ih =>
    obtain ⟨a, w⟩ := a
    simp only [List.cons_append, List.lookup_cons]
    split
    · rfl
    · exact ih

theorem bmod_byte {v : Int} (h1 : -128 ≤ v) (h2 : v ≤ 127) : v.bmod 256 = v := by rw [Int.bmod_def]; split <;> omega

theorem lookup_mem {l : List (Int × Word)} {c : Int} {w : Word} (h : l.lookup c = some w) : (c, w) ∈ l := by
  induction l with
  | nil => cases h
  | cons a l ih =>
    obtain ⟨a, v⟩ := a
    rw [List.lookup_cons] at h
    split at h
    · rename_i hc
      rw [beq_iff_eq] at hc
      obtain rfl := Option.some.inj h
      subst hc
      exact List.mem_cons_self
    · exact List.mem_cons_of_mem _ (ih h)

theorem kept_as93 {b : Bef} (x y : Int) : (b.as93 false p).kept x y = b.kept x y := rfl

theorem store_as93 {R R' : Rules} (ht : R.torus = t) (ht' : R'.torus = false) (hf : Fits t b) {x y v : Int} (h1 : -128 ≤ v) (h2 : v ≤ 127)
    (hp : t = true → (0 ≤ x ∧ x ≤ 79) ∧ 0 ≤ y ∧ y ≤ 24) (hne : b.store R' x y v ≠ []) :
    (b.as93 t p).store R x y v = (b.store R' x y v).map (Bef.as93 t p) := by
  unfold Bef.store at hne ⊢
  simp only [ite_self, ht, ht', bmod_byte h1 h2, Bool.false_eq_true, if_false] at hne ⊢
  cases t with
  | true =>
    obtain ⟨⟨a1, a2⟩, a3, a4⟩ := hp rfl
    have hh : (b.as93 true p).has (x, y) = true := by
      simp only [Bef.has, Bef.as93, Bool.and_eq_true, decide_eq_true_eq, if_true]
      omega
    rw [if_pos rfl, if_pos hh]
    by_cases hv : v = 32
    · rw [if_pos hv] at hne ⊢
      split at hne
      · rename_i hk
        rw [if_pos hk, hv]
        rfl
      · exact absurd rfl hne
    · rw [if_neg hv] at hne ⊢
      rw [if_neg (show ¬ (R'.byte && decide (v = 32)) = true by simp [hv])]
      rfl
  | false =>
    rw [if_neg (by decide)]
    by_cases hv : v = 32
    · rw [if_pos hv] at hne ⊢
      rw [if_pos hv]
      split at hne
      · rename_i hk
        have hk' : ((b.as93 false p).write x y 32).kept x y = true := hk
        rw [if_pos hk, if_pos hk']
        rfl
      · exact absurd rfl hne
    · rw [if_neg hv, if_neg hv, if_neg (show ¬ (R.byte && decide (v = 32)) = true by simp [hv]), if_neg (show ¬ (R'.byte && decide (v = 32)) = true by simp [hv])]
      rfl

theorem result_as93 (v : Int) : (b.as93 t p).result v = (b.result v).map (Bef.as93 t p) := by
  unfold Bef.result
  split <;> rfl

theorem readNumber_as93 : (b.as93 t p).readNumber = b.readNumber.map (Bef.as93 t p) := by
  unfold Bef.readNumber
  show (if _ then _ else if _ then _ else _) = List.map _ (if _ then _ else if _ then _ else _)
  have e : (b.as93 t p).inp = b.inp := rfl
  simp only [e]
  split
  · rfl
  · split <;> rfl

theorem readChar_as93 : (b.as93 t p).readChar = b.readChar.map (Bef.as93 t p) := by
  unfold Bef.readChar
  have e : (b.as93 t p).inp = b.inp := rfl
  rw [e]
  cases b.inp with
  | nil => rfl
  | cons c l =>
    dsimp only
    split <;> rfl

theorem top_as93 : (b.as93 t p).top = b.top := rfl
theorem next_as93 : (b.as93 t p).next = b.next := rfl

/-- A word of Befunge-93. -/
theorem perform_as93 {R R' : Rules} (ht : R.torus = t) (ht' : R'.torus = false) (hf : Fits t b) {s : Bool} (ho : b.over = false) (hq : b.quote = false) (hc : b.Common t s) {w : Word}
    (hw : words93.lookup (b.cell b.x b.y) = some w) (hne : b.perform R' w ≠ []) (hs : t = true → ∀ c ∈ b.perform R' w, c.over = false → c.quote = true → c.has (c.x + c.dx, c.y + c.dy) = true) :
    (b.as93 t p).perform R w = (b.perform R' w).map (Bef.as93 t p) := by
  have hm := lookup_mem hw
  have hb : b.brink R' = false := by unfold Bef.brink; rw [ht']; rfl
  generalize hcc : b.cell b.x b.y = c at *
  have hpl := hc.place
  have hpu := hc.put
  have hbr := hc.bridge
  rw [hcc] at hpl hpu hbr
  simp only [words93, List.mem_cons, Prod.mk.injEq, List.not_mem_nil, or_false] at hm
  rcases hm with h|h|h|h|h|h|h|h|h|h|h|h|h|h|h|h|h|h|h|h|h|h|h|h|h|h|h|h|h|h|h|h|h|h|h|h|h|h <;> obtain ⟨rfl, rfl⟩ := h
  all_goals try rfl
  all_goals try exact result_as93 _
  · -- bridge
    have hh := fun h => hbr h hq rfl
    simp only [Bef.perform, brink_as93 R hf hh ht, hb, Bool.false_eq_true, if_false, List.map_cons, List.map_nil, move_as93 hf hh]
  · -- rem
    by_cases h : b.next = -9223372036854775808 ∧ b.top = -1
    · exact absurd (if_pos h : b.perform R' .rem = []) hne
    · exact (if_neg h : (b.as93 t p).perform R .rem = _).trans ((result_as93 _).trans (congrArg (List.map _) (if_neg h : b.perform R' .rem = _).symm))
  · -- quote
    have hh : t = true → b.has (b.x + b.dx, b.y + b.dy) = true := by
      intro h
      have := hs h { b with quote := true } (by simp only [Bef.perform, hb]; exact List.mem_singleton.mpr rfl)
      exact this ho rfl
    simp only [Bef.perform, brink_as93 R hf hh ht, hb, Bool.false_eq_true, if_false, List.map_cons, List.map_nil]
    rfl
  · -- numOut
    by_cases h : -2147483648 ≤ b.top ∧ b.top ≤ 2147483647
    · rw [show b.perform R' .numOut = _ from if_pos h]
      exact if_pos h
    · exact absurd (if_neg h : b.perform R' .numOut = []) hne
  · exact readNumber_as93
  · exact readChar_as93
  · -- get
    simp only [Bef.perform, ht', Bool.false_and, Bool.false_eq_true, if_false]
    have : (R.torus && !(b.as93 t p).has ((b.as93 t p).next + (b.as93 t p).ox, (b.as93 t p).top + (b.as93 t p).oy)) = false := by
      cases t with
      | false => rw [ht]; rfl
      | true =>
        obtain ⟨⟨a1, a2⟩, a3, a4⟩ := hpl rfl hq (.inl rfl)
        have e1 := hf.ox
        have e2 := hf.oy
        have : (b.as93 true p).has ((b.as93 true p).next + (b.as93 true p).ox, (b.as93 true p).top + (b.as93 true p).oy) = true := by
          refine has_torus ?_ ?_ ?_ ?_
          · show 0 ≤ b.next + b.ox; omega
          · show b.next + b.ox ≤ 79; omega
          · show 0 ≤ b.top + b.oy; omega
          · show b.top + b.oy ≤ 24; omega
        rw [this]
        simp
    rw [this]
    rfl
  · -- put
    obtain ⟨h1, h2⟩ := hpu hq rfl
    have hf' : Fits t (b.replace 3 []) := ⟨hf.comment, hf.ox, hf.oy, hf.code, hf.rect, hf.card, hf.inside, hf.blank⟩
    refine store_as93 (b := b.replace 3 []) ht ht' hf' h1 h2 (fun h => ?_) hne
    obtain ⟨⟨a1, a2⟩, a3, a4⟩ := hpl h hq (.inr rfl)
    have e1 := hf.ox
    have e2 := hf.oy
    show (0 ≤ b.next + b.ox ∧ b.next + b.ox ≤ 79) ∧ 0 ≤ b.top + b.oy ∧ b.top + b.oy ≤ 24
    omega

theorem fits_store {R' : Rules} (ht' : R'.torus = false) (hf : Fits t b) {x y v : Int} (hp : t = true → (0 ≤ x ∧ x ≤ 79) ∧ 0 ≤ y ∧ y ≤ 24) {c : Bef} (hc : c ∈ b.store R' x y v) : Fits t c := by
  unfold Bef.store at hc
  rw [ht', if_neg (by decide)] at hc
  split at hc
  · split at hc
    · obtain rfl := List.mem_singleton.mp hc
      refine ⟨hf.comment, hf.ox, hf.oy, hf.code, hf.rect, hf.card, hf.inside, fun i j h => ?_⟩
      show (if i = x ∧ j = y then 32 else b.cell i j) = 32
      split
      · rfl
      · exact hf.blank i j h
    · cases hc
  · split at hc
    · cases hc
    · obtain rfl := List.mem_singleton.mp hc
      have hi := has_iff.mp hf.inside
      dsimp only at hi
      refine ⟨hf.comment, hf.ox, hf.oy, hf.code, fun h => ?_, hf.card, ?_, fun i j h => ?_⟩
      · have := hf.rect h
        have := hp h
        dsimp only
        omega
      · rw [has_iff]
        show min b.west x ≤ b.x ∧ b.x ≤ max b.east x ∧ min b.north y ≤ b.y ∧ b.y ≤ max b.south y
        omega
      · have h : ¬ (min b.west x ≤ i ∧ i ≤ max b.east x ∧ min b.north y ≤ j ∧ j ≤ max b.south y) := fun h' => absurd (has_iff.mpr h') (by rw [h]; decide)
        show (if i = x ∧ j = y then _ else b.cell i j) = 32
        rw [if_neg (by omega)]
        refine hf.blank i j ?_
        rw [Bool.eq_false_iff]
        intro h'
        have := has_iff.mp h'
        dsimp only at this
        omega

theorem fits_move (hf : Fits t b) : Fits t b.move :=
  ⟨hf.comment, hf.ox, hf.oy, hf.code, hf.rect, hf.card, ahead_inside hf.inside hf.card, hf.blank⟩

theorem fits_perform {R' : Rules} (ht' : R'.torus = false) (hf : Fits t b) {s : Bool} (hq : b.quote = false) (hc : b.Common t s) {w : Word}
    (hw : words93.lookup (b.cell b.x b.y) = some w) {c : Bef} (hm : c ∈ b.perform R' w) : Fits t c := by
  have hl := lookup_mem hw
  generalize hcc : b.cell b.x b.y = d at *
  have hpl := hc.place
  rw [hcc] at hpl
  simp only [words93, List.mem_cons, Prod.mk.injEq, List.not_mem_nil, or_false] at hl
  rcases hl with h|h|h|h|h|h|h|h|h|h|h|h|h|h|h|h|h|h|h|h|h|h|h|h|h|h|h|h|h|h|h|h|h|h|h|h|h|h <;> obtain ⟨rfl, rfl⟩ := h
  case inr.inr.inr.inr.inr.inr.inr.inr.inr.inr.inr.inr.inr.inr.inr.inr.inr.inr.inr.inr.inr.inr.inr.inr.inr.inr.inr.inr.inr.inr.inr.inr.inr.inr.inr.inr.inr =>
    refine fits_store (b := b.replace 3 []) ht' ⟨hf.comment, hf.ox, hf.oy, hf.code, hf.rect, hf.card, hf.inside, hf.blank⟩ (fun h => ?_) hm
    obtain ⟨⟨a1, a2⟩, a3, a4⟩ := hpl h hq (.inr rfl)
    have e1 := hf.ox
    have e2 := hf.oy
    show (0 ≤ b.next + b.ox ∧ b.next + b.ox ≤ 79) ∧ 0 ≤ b.top + b.oy ∧ b.top + b.oy ≤ 24
    omega
  all_goals simp only [Bef.perform, Bef.result, Bef.readNumber, Bef.readChar, List.map_cons, List.map_nil] at hm
  all_goals
    repeat' split at hm
    all_goals simp only [List.mem_cons, List.not_mem_nil, or_false] at hm
    all_goals first
      | exact hm.elim
      | (subst hm; exact fits_move hf)
      | (subst hm; exact ⟨hf.comment, hf.ox, hf.oy, hf.code, hf.rect, hf.card, hf.inside, hf.blank⟩)
      | (subst hm; exact ⟨hf.comment, hf.ox, hf.oy, hf.code, hf.rect, by unfold Card; dsimp only; omega, hf.inside, hf.blank⟩)
      | (subst hm; exact ⟨hf.comment, hf.ox, hf.oy, hf.code, hf.rect, by unfold Card; dsimp only; split <;> omega, hf.inside, hf.blank⟩)
      | (subst hm; exact ⟨hf.comment, hf.ox, hf.oy, hf.code, hf.rect, by have := hf.card; unfold Card Bef.turn at *; dsimp only; omega, hf.inside, hf.blank⟩)
      | (rcases hm with rfl | rfl | rfl | rfl <;> exact ⟨hf.comment, hf.ox, hf.oy, hf.code, hf.rect, by unfold Card; dsimp only; omega, hf.inside, hf.blank⟩)

/-- A cell. -/
theorem acts_as93 {R R' : Rules} (h93 : R.funge98 = false) (hms : R.sgml = false) (h98 : R'.funge98 = true) (ht : R.torus = t) (ht' : R'.torus = false) (hf : Fits t b)
    (ho : b.over = false) (hc : b.Common t R'.sgml) (hs : b.Stays R' t) (hne : b.acts R' ≠ []) :
    (∃ p', (b.as93 t p).acts R = (b.acts R').map (Bef.as93 t p')) ∧ ∀ c ∈ b.acts R', Fits t c := by
  have hb : b.brink R' = false := by unfold Bef.brink; rw [ht']; rfl
  unfold Bef.Stays at hs
  unfold Bef.acts at hs hne ⊢
  have e : (b.as93 t p).cell (b.as93 t p).x (b.as93 t p).y = b.cell b.x b.y := rfl
  have e1 : (b.as93 t p).comment = false := hf.comment
  have e2 : (b.as93 t p).quote = b.quote := rfl
  simp only [e, e1, e2, hf.comment, hb, hms, Bool.false_eq_true, if_false, Bool.not_false, if_true] at hs hne ⊢
  cases hq : b.quote with
  | true =>
    simp only [hq, if_true] at hs hne ⊢
    by_cases h34 : b.cell b.x b.y = 34
    · simp only [if_pos h34, List.mem_singleton]
      refine ⟨⟨0, rfl⟩, ?_⟩
      rintro c rfl
      exact ⟨rfl, hf.ox, hf.oy, hf.code, hf.rect, hf.card, hf.inside, hf.blank⟩
    · simp only [if_neg h34] at hs hne ⊢
      have hin : ∃ q, (if (!R'.sgml) = true then [b.replace 0 [b.cell b.x b.y]]
          else if b.cell b.x b.y < 0 ∨ 255 < b.cell b.x b.y then []
          else if (Bef.white (b.cell b.x b.y) && Bef.white b.prev) = true then [b] else [{ b.replace 0 [b.cell b.x b.y] with prev := b.cell b.x b.y }]) =
          [{ b.replace 0 [b.cell b.x b.y] with prev := q }] := by
        cases hsg : R'.sgml with
        | false => exact ⟨b.prev, rfl⟩
        | true =>
          obtain ⟨⟨a1, a2⟩, a3⟩ := hc.string hq h34 hsg
          refine ⟨b.cell b.x b.y, ?_⟩
          rw [if_neg (by decide), if_neg (by omega), if_neg (by rw [Bool.and_eq_true]; exact a3)]
      obtain ⟨q, hin⟩ := hin
      rw [hin] at hs ⊢
      have hh : t = true → b.has (b.x + b.dx, b.y + b.dy) = true := fun h => hs h { b.replace 0 [b.cell b.x b.y] with prev := q } (List.mem_singleton.mpr rfl) ho hq
      simp only [brink_as93 R hf hh ht, Bool.false_eq_true, if_false, List.mem_singleton]
      refine ⟨⟨p, rfl⟩, ?_⟩
      rintro c rfl
      exact ⟨hf.comment, hf.ox, hf.oy, hf.code, hf.rect, hf.card, hf.inside, hf.blank⟩
  | false =>
    simp only [hq, Bool.false_eq_true, if_false] at hs hne ⊢
    have w1 : word R (b.cell b.x b.y) = words93.lookup (b.cell b.x b.y) := by unfold word; rw [h93]; rfl
    have w2 : word R' (b.cell b.x b.y) = words93.lookup (b.cell b.x b.y) := by unfold word; rw [h98, if_pos rfl]; exact lookup_append (hc.word hq)
    rw [w2] at hs hne ⊢
    rw [w1]
    cases hw : words93.lookup (b.cell b.x b.y) with
    | none =>
      simp only [List.mem_singleton]
      refine ⟨⟨p, rfl⟩, ?_⟩
      rintro c rfl
      exact ⟨hf.comment, hf.ox, hf.oy, hf.code, hf.rect, by have := hf.card; unfold Card Bef.turn at *; dsimp only; omega, hf.inside, hf.blank⟩
    | some w =>
      simp only [hw] at hs hne ⊢
      have hi : w ≠ .iterate := by
        rintro rfl
        have := lookup_mem hw
        simp [words93] at this
      simp only [if_neg hi] at hs hne ⊢
      exact ⟨⟨p, perform_as93 ht ht' hf ho hq hc hw hne hs⟩, fun c hm => fits_perform ht' hf hq hc hw hm⟩

theorem over_as93 : (b.as93 t p).over = b.over := rfl

/-- The Befunge-93 machine in the state `e` is on its way to where the Befunge-98 machine in the state `c` is already: it has `m` blanks to go. -/
def Way (t : Bool) (m : Nat) (c e : Bef) : Prop :=
  (∃ q, e.moves m = c.as93 t q) ∧ ∀ j < m, (e.quote = false ∧ e.over = false ∧ e.comment = false) ∧ e.cell (e.moves j).x (e.moves j).y = 32

/-- A step. -/
theorem way_next {c : Bef} (hf : Fits t c) (ho : c.over = false) (hs : t = true → c.quote = true → c.has (c.x + c.dx, c.y + c.dy) = true) :
    ∃ m, m ≤ (if t then 79 else 0) ∧ Way t m c.move (c.as93 t p).move := by
  cases t with
  | false => exact ⟨0, Nat.le_refl 0, ⟨p, move_as93 hf fun h => nomatch h⟩, fun j hj => absurd hj (Nat.not_lt_zero j)⟩
  | true =>
    cases hn : c.has (c.x + c.dx, c.y + c.dy) with
    | true => exact ⟨0, Nat.zero_le _, ⟨p, move_as93 hf fun _ => hn⟩, fun j hj => absurd hj (Nat.not_lt_zero j)⟩
    | false =>
      have hq : c.quote = false := by
        cases hq : c.quote with
        | false => rfl
        | true => rw [hs rfl hq] at hn; exact absurd hn (by decide)
      obtain ⟨m, h1, h2, h3⟩ := wrap (q := p) (hf.rect rfl) hf.inside hf.card hf.blank hn
      exact ⟨m, h1, ⟨p, h2⟩, fun j hj => ⟨⟨hq, ho, hf.comment⟩, h3 j hj⟩⟩

theorem way_move {m : Nat} {c e : Bef} (h : Way t (m + 1) c e) : Way t m c e.move :=
  ⟨h.1, fun j hj => h.2 (j + 1) (by omega)⟩

theorem way_acts {R : Rules} (h93 : R.funge98 = false) {m : Nat} {c e : Bef} (h : Way t (m + 1) c e) : e.over = false ∧ e.acts R = [e] := by
  obtain ⟨⟨h1, h2, h3⟩, h4⟩ := h.2 0 (by omega)
  refine ⟨h2, ?_⟩
  have hw : word R 32 = some .blank := by unfold word; rw [h93]; rfl
  have h4 : e.cell e.x e.y = 32 := h4
  unfold Bef.acts
  simp only [h1, h3, h4, hw, Bool.false_eq_true, if_false]
  rw [if_neg (by decide)]
  rfl

variable {R R' : Rules} {b0 : Bef}

theorem way_steps (h93 : R.funge98 = false) {c : Bef} (m : Nat) : ∀ {e : Bef}, Way t m c e → ∃ q, Steps R m e (c.as93 t q) := by
  induction m with
  | zero => intro e ⟨⟨q, h⟩, _⟩; exact ⟨q, by rw [← h]; exact .zero _⟩
  | succ m ih =>
    intro e h
    obtain ⟨h1, h2⟩ := way_acts h93 h
    obtain ⟨q, h3⟩ := ih (way_move h)
    refine ⟨q, ?_⟩
    rw [Nat.add_comm]
    exact (Steps.snoc (.zero e) ⟨h1, e, by rw [h2]; exact List.mem_singleton.mpr rfl, by rw [if_neg (by rw [h1]; decide)]⟩).trans h3

theorem steps_as93 (h93 : R.funge98 = false) (hms : R.sgml = false) (h98 : R'.funge98 = true) (ht : R.torus = t) (ht' : R'.torus = false) (hf : Fits t b0)
    (hall : b0.BothWays R' t) {n : Nat} {c : Bef} (h : Steps R' n b0 c) : Fits t c ∧ ∃ n' q, n' ≤ (if t then 80 * n else n) ∧ Steps R n' (b0.as93 t p) (c.as93 t q) := by
  generalize hb : b0 = b1 at h
  induction h with
  | zero => subst hb; exact ⟨hf, 0, p, Nat.zero_le _, .zero _⟩
  | @snoc n _ c d h1 h2 ih =>
    obtain ⟨k1, n', q, hn, k2⟩ := ih hb
    obtain ⟨ho, e, he, rfl⟩ := h2
    subst hb
    obtain ⟨a1, a2, a3⟩ := hall _ _ h1 ho
    obtain ⟨⟨q', a4⟩, a5⟩ := acts_as93 (p := q) h93 hms h98 ht ht' k1 ho a1 a2 a3
    have hs : Step R (c.as93 t q) (if (e.as93 t q').over then e.as93 t q' else (e.as93 t q').move) := ⟨ho, e.as93 t q', by rw [a4]; exact List.mem_map_of_mem he, rfl⟩
    rw [over_as93] at hs
    cases hov : e.over with
    | true =>
      simp only [hov, if_true] at hs ⊢
      exact ⟨a5 e he, n' + 1, q', by split at hn <;> rename_i htt <;> simp only [htt, if_true, if_false, Bool.false_eq_true] <;> omega, .snoc k2 hs⟩
    | false =>
      simp only [hov, Bool.false_eq_true, if_false] at hs ⊢
      obtain ⟨m, hm, hw⟩ := way_next (p := q') (a5 e he) hov fun h => a2 h e he hov
      obtain ⟨r, hr⟩ := way_steps h93 m hw
      exact ⟨fits_move (a5 e he), n' + 1 + m, r, by split at hn <;> rename_i htt <;> simp only [htt, if_true, if_false, Bool.false_eq_true] at hm ⊢ <;> omega, (Steps.snoc k2 hs).trans hr⟩

theorem as93_steps (h93 : R.funge98 = false) (hms : R.sgml = false) (h98 : R'.funge98 = true) (ht : R.torus = t) (ht' : R'.torus = false) (hf : Fits t b0)
    (hall : b0.BothWays R' t) {n : Nat} {d : Bef} (h : Steps R n (b0.as93 t p) d) : ∃ n' c m, Steps R' n' b0 c ∧ Fits t c ∧ Way t m c d := by
  generalize hb : b0.as93 t p = b1 at h
  induction h with
  | zero => subst hb; exact ⟨0, b0, 0, .zero _, hf, ⟨p, rfl⟩, fun j hj => absurd hj (Nat.not_lt_zero j)⟩
  | @snoc n _ d f h1 h2 ih =>
    obtain ⟨n', c, m, k1, k2, hw⟩ := ih hb
    cases m with
    | succ m =>
      obtain ⟨ho, e, he, rfl⟩ := h2
      obtain ⟨w1, w2⟩ := way_acts h93 hw
      rw [w2] at he
      obtain rfl := List.mem_singleton.mp he
      rw [if_neg (by rw [w1]; decide)]
      exact ⟨n', c, m, k1, k2, way_move hw⟩
    | zero =>
      obtain ⟨⟨q, hq⟩, -⟩ := hw
      obtain rfl : d = c.as93 t q := hq
      obtain ⟨ho, e, he, rfl⟩ := h2
      obtain ⟨a1, a2, a3⟩ := hall _ _ k1 ho
      obtain ⟨⟨q', a4⟩, a5⟩ := acts_as93 (p := q) h93 hms h98 ht ht' k2 ho a1 a2 a3
      rw [a4] at he
      obtain ⟨x, hx, rfl⟩ := List.mem_map.mp he
      have hs : Step R' c (if x.over then x else x.move) := ⟨ho, x, hx, rfl⟩
      rw [over_as93]
      cases hov : x.over with
      | true =>
        simp only [hov, if_true] at hs ⊢
        exact ⟨n' + 1, x, 0, .snoc k1 hs, a5 x hx, ⟨q', rfl⟩, fun j hj => absurd hj (Nat.not_lt_zero j)⟩
      | false =>
        simp only [hov, Bool.false_eq_true, if_false] at hs ⊢
        obtain ⟨m, -, hw⟩ := way_next (p := q') (a5 x hx) hov fun h => a2 h x hx hov
        exact ⟨n' + 1, x.move, m, .snoc k1 hs, fits_move (a5 x hx), hw⟩

/-- What the Befunge-93 machine does next. -/
theorem acts_way (h93 : R.funge98 = false) (hms : R.sgml = false) (h98 : R'.funge98 = true) (ht : R.torus = t) (ht' : R'.torus = false) {c e : Bef} (hf : Fits t c)
    (hc : c.over = false → c.Common t R'.sgml ∧ c.Stays R' t ∧ c.acts R' ≠ []) {m : Nat} (hw : Way t m c e) (ho : e.over = false) :
    e.acts R = [e] ∨ (c.over = false ∧ (e.acts R).length = (c.acts R').length ∧ c.acts R' ≠ []) := by
  cases m with
  | succ m => exact .inl (way_acts h93 hw).2
  | zero =>
    obtain ⟨⟨q, hq⟩, -⟩ := hw
    obtain rfl : e = c.as93 t q := hq
    obtain ⟨a1, a2, a3⟩ := hc ho
    obtain ⟨⟨q', a4⟩, -⟩ := acts_as93 (p := q) h93 hms h98 ht ht' hf ho a1 a2 a3
    exact .inr ⟨ho, by rw [a4, List.length_map], a3⟩

theorem start_as93 {lines : List (List Int)} (hl : ∀ l ∈ lines, ∀ c ∈ l, 0 ≤ c ∧ c ≤ 127) (ht : R.torus = t) (ht' : R'.torus = false) (inp : List Int) :
    Bef.start R lines inp = (Bef.start R' lines inp).as93 t 0 := by
  have hc : (Bef.start R lines inp).cell = (Bef.start R' lines inp).cell := by
    funext x y
    show ((Spec.cell2 lines x y).map fun c => if R.byte then c.bmod 256 else c).getD 32 = ((Spec.cell2 lines x y).map fun c => if R'.byte then c.bmod 256 else c).getD 32
    cases h : Spec.cell2 lines x y with
    | none => rfl
    | some c =>
      obtain ⟨-, -, l, h1, h2⟩ := cell2_some.mp h
      obtain ⟨a1, a2⟩ := hl l (List.mem_of_getElem? h1) c (List.mem_of_getElem? h2)
      simp only [Option.map_some, Option.getD_some, bmod_byte (show -128 ≤ c by omega) a2, ite_self]
  unfold Bef.as93
  rw [← hc]
  unfold Bef.start
  rw [ht, ht']
  cases t <;> rfl

/-- At first the IP is in the rectangle of what is written, and around it there are blanks. -/
theorem start_blank (lines : List (List Int)) (ht' : R'.torus = false) (inp : List Int) :
    (Bef.start R' lines inp).has (0, 0) = true ∧ ∀ x y, (Bef.start R' lines inp).has (x, y) = false → (Bef.start R' lines inp).cell x y = 32 := by
  have he : (Bef.start R' lines inp).east = Bef.lastColumn lines := by
    show (if R'.torus then _ else _) = _
    rw [ht', if_neg (by decide)]
  have hs : (Bef.start R' lines inp).south = Bef.lastRow lines := by
    show (if R'.torus then _ else _) = _
    rw [ht', if_neg (by decide)]
  obtain ⟨e1, e2, -⟩ := furthest_spec (lines.flatMap fun l => (l.zipIdx.filter (·.1 ≠ 32)).map (·.2))
  obtain ⟨s1, s2, -⟩ := furthest_spec ((lines.zipIdx.filter (·.1.any (· ≠ 32))).map (·.2))
  have e1 : 0 ≤ Bef.lastColumn lines := e1
  have s1 : 0 ≤ Bef.lastRow lines := s1
  have hh : ∀ x y, (Bef.start R' lines inp).has (x, y) = true ↔ 0 ≤ x ∧ x ≤ Bef.lastColumn lines ∧ 0 ≤ y ∧ y ≤ Bef.lastRow lines := by
    intro x y
    rw [← he, ← hs]
    exact has_iff
  refine ⟨(hh 0 0).mpr ⟨Int.le_refl 0, e1, Int.le_refl 0, s1⟩, fun x y hn => ?_⟩
  show ((Spec.cell2 lines x y).map fun c => if R'.byte then c.bmod 256 else c).getD 32 = 32
  cases hc : Spec.cell2 lines x y with
  | none => rfl
  | some c =>
    by_cases h32 : c = 32
    · subst h32; simp only [Option.map_some, Option.getD_some]; split <;> decide
    · obtain ⟨h1, h2, -⟩ := cell2_some.mp hc
      have := (hh x y).mpr ⟨h1, e2 _ (mem_columns.mpr ⟨y, c, hc, h32⟩), h2, s2 _ (mem_rows.mpr ⟨x, c, hc, h32⟩)⟩
      rw [this] at hn; cases hn

theorem fits_start {lines : List (List Int)} (hl : t = true → lines.length ≤ 25 ∧ ∀ l ∈ lines, l.length ≤ 80) (ht' : R'.torus = false) (inp : List Int) :
    Fits t (Bef.start R' lines inp) := by
  obtain ⟨z1, z2⟩ := start_blank lines ht' inp
  refine ⟨rfl, rfl, rfl, rfl, fun h => ?_, .inl ⟨rfl, rfl⟩, z1, z2⟩
  obtain ⟨h1, h2⟩ := hl h
  unfold Bef.start
  simp only [ht', Bool.false_eq_true, if_false]
  refine ⟨Int.le_refl 0, ?_, Int.le_refl 0, ?_⟩
  · unfold Bef.lastColumn
    rcases (furthest_spec (lines.flatMap fun l => (l.zipIdx.filter (·.1 ≠ 32)).map (·.2))).2.2 with h | h
    · rw [h]; decide
    · generalize Bef.furthest _ = v at h ⊢
      rw [List.mem_flatMap] at h
      obtain ⟨l, hl, h⟩ := h
      obtain ⟨⟨a, i⟩, hm, rfl⟩ := List.mem_map.mp h
      have := List.snd_lt_of_mem_zipIdx (List.mem_filter.mp hm).1
      have := h2 l hl
      dsimp only at *
      omega
  · unfold Bef.lastRow
    rcases (furthest_spec ((lines.zipIdx.filter (·.1.any (· ≠ 32))).map (·.2))).2.2 with h | h
    · rw [h]; decide
    · generalize Bef.furthest _ = v at h ⊢
      obtain ⟨⟨a, i⟩, hm, rfl⟩ := List.mem_map.mp h
      have := List.snd_lt_of_mem_zipIdx (List.mem_filter.mp hm).1
      dsimp only at *
      omega

end Both

/-- The same program and the same input, once for Befunge-93, as `g` says, and once for Befunge-98, as `g'` says. -/
structure Twice (R R' : Rules) (g g' : Glob) (f f' : Nat) (lines : List (List Int)) : Prop where
  old : Plays R g 93 f lines
  new : Plays R' g' 98 f' lines
  strings : R.sgml = false
  ascii : ∀ l ∈ lines, ∀ c ∈ l, c ≤ 127
  inp : g.inp = g'.inp

namespace Twice
variable {R R' : Rules} {g g' : Glob} {f f' : Nat} {lines : List (List Int)}

theorem rules (h : Twice R R' g g' f f' lines) : R.funge98 = false ∧ R'.funge98 = true ∧ R'.torus = false := by
  refine ⟨?_, ?_⟩
  · rcases h.old.rules with ⟨-, h⟩ | ⟨h, -⟩
    · exact h
    · exact absurd h (by decide)
  · rcases h.new.rules with ⟨h, -⟩ | ⟨-, h⟩
    · exact absurd h (by decide)
    · exact h

theorem begins (h : Twice R R' g g' f f' lines) : Bef.start R lines g.inp = (Bef.start R' lines g'.inp).as93 R.torus 0 ∧ Both.Fits R.torus (Bef.start R' lines g'.inp) := by
  obtain ⟨-, -, h3⟩ := h.rules
  rw [h.inp]
  exact ⟨Both.start_as93 (fun l hl c hc => ⟨(h.old.plain l hl c hc).1, h.ascii l hl c hc⟩) rfl h3 _, Both.fits_start h.old.fits h3 _⟩

theorem down (h : Twice R R' g g' f f' lines) (hall : (Bef.start R' lines g'.inp).BothWays R' R.torus) {n : Nat} {c : Bef} (hs : Steps R' n (Bef.start R' lines g'.inp) c) :
    Both.Fits R.torus c ∧ ∃ n' q, n' ≤ (if R.torus then 80 * n else n) ∧ Steps R n' (Bef.start R lines g.inp) (c.as93 R.torus q) := by
  obtain ⟨h1, h2, h3⟩ := h.rules
  rw [h.begins.1]
  exact Both.steps_as93 h1 h.strings h2 rfl h3 h.begins.2 hall hs

theorem up (h : Twice R R' g g' f f' lines) (hall : (Bef.start R' lines g'.inp).BothWays R' R.torus) {n : Nat} {d : Bef} (hs : Steps R n (Bef.start R lines g.inp) d) :
    ∃ n' c m, Steps R' n' (Bef.start R' lines g'.inp) c ∧ Both.Fits R.torus c ∧ Both.Way R.torus m c d := by
  obtain ⟨h1, h2, h3⟩ := h.rules
  rw [h.begins.1] at hs
  exact Both.as93_steps h1 h.strings h2 rfl h3 h.begins.2 hall hs

theorem within (h : Twice R R' g g' f f' lines) (hall : (Bef.start R' lines g'.inp).BothWays R' R.torus) : Bef.Within R (Bef.start R lines g.inp) := by
  obtain ⟨h1, h2, h3⟩ := h.rules
  intro n d hs ho
  obtain ⟨n', c, m, k1, k2, hw⟩ := h.up hall hs
  rcases Both.acts_way h1 h.strings h2 rfl h3 k2 (hall n' c k1) hw ho with e | ⟨-, e, a⟩
  · rw [e]; exact List.cons_ne_nil _ _
  · intro h0
    rw [h0] at e
    exact a (List.length_eq_zero_iff.mp e.symm)

end Twice

/-- **C115.** A program of which the Befunge-98 machine has one run, that ends, and in which Befunge-93 asks for the same all the way, ends under either, has printed the same, has read
the same, and has set no exit code. -/
theorem C115_does_the_same {R R' : Rules} {g g' : Glob} {f f' : Nat} {lines : List (List Int)} (h : Twice R R' g g' f f' lines)
    (hall : (Bef.start R' lines g'.inp).BothWays R' R.torus) {N : Nat} {b : Bef} (hb : Steps R' N (Bef.start R' lines g'.inp) b) (ho : b.over = true)
    (hone : ∀ n c, Steps R' n (Bef.start R' lines g'.inp) c → c.over = false → (c.acts R').length ≤ 1)
    (hf : (if R.torus then 160 * N + 1 else N) < f) (hf' : N < f') {k : Nat} (hk : (if R.torus then 80 * N else N) < k) :
    ∃ u u', (launch g R.byte (Spec.planeText lines)).turns k = .ok u ∧ (launch g' R'.byte (Spec.planeText lines)).turns k = .ok u' ∧ u.runners = [] ∧ u'.runners = [] ∧
      (∃ o o' : List (List Int), u.g.eff = g.eff ++ o.map Eff.out ∧ u'.g.eff = g'.eff ++ o'.map Eff.out ∧ o.flatten = o'.flatten) ∧
      u.g.inp = u'.g.inp ∧ u.g.exitcode = g.exitcode ∧ u'.g.exitcode = g'.exitcode := by
  obtain ⟨h1, h2, h3⟩ := h.rules
  obtain ⟨k1, n', q, hn, k2⟩ := h.down hall hb
  have hone' : ∀ n c, Steps R n (Bef.start R lines g.inp) c → c.over = false → (c.acts R).length ≤ 1 := by
    intro n d hs hd
    obtain ⟨n', c, m, m1, m2, hw⟩ := h.up hall hs
    rcases Both.acts_way h1 h.strings h2 rfl h3 m2 (hall n' c m1) hw hd with e | ⟨ho, e, -⟩
    · rw [e]; exact Nat.le_refl 1
    · rw [e]; exact hone n' c m1 ho
  obtain ⟨u, e1, e2, ⟨o, s1, s2⟩, s3, s4, -⟩ := C101_the_only_run h.old k2 ho hone' (by split at hn <;> rename_i htt <;> simp only [htt, if_true, if_false, Bool.false_eq_true] at hf ⊢ <;> omega) (Nat.lt_of_le_of_lt hn hk)
  obtain ⟨u', e1', e2', ⟨o', s1', s2'⟩, s3', s4', -⟩ := C101_the_only_run (k := k) h.new hb ho hone (by rw [h3]; exact hf') (by split at hk <;> omega)
  refine ⟨u, u', e1, e1', e2, e2', ⟨o, o', s1, s1', s2.trans s2'.symm⟩, s3.trans s3'.symm, ?_, ?_⟩
  · rw [s4, show (b.as93 R.torus q).code = b.code from rfl, k1.code]; rfl
  · rw [s4', k1.code]; rfl

/-- **C115.** With `?` in it: a program that has ended under Befunge-93 has printed and read what some run of the Befunge-98 machine prints and reads that ends. -/
theorem C115_old_as_new {R R' : Rules} {g g' : Glob} {f f' : Nat} {lines : List (List Int)} (h : Twice R R' g g' f f' lines)
    (hall : (Bef.start R' lines g'.inp).BothWays R' R.torus) {k : Nat} {u : Univ} (hu : (launch g R.byte (Spec.planeText lines)).turns k = .ok u) (hr : u.runners = []) :
    ∃ n b, Steps R' n (Bef.start R' lines g'.inp) b ∧ b.over = true ∧ (∃ o : List (List Int), u.g.eff = g.eff ++ o.map Eff.out ∧ o.flatten = b.out) ∧ u.g.inp = b.inp := by
  obtain ⟨n, d, h1, h2, h3⟩ := C101_what_it_prints_partial h.old (h.within hall) hu hr
  obtain ⟨n', c, m, k1, -, hw⟩ := h.up hall h1
  cases m with
  | succ m => exact absurd (h2.symm.trans (hw.2 0 (Nat.succ_pos m)).1.2.1) (by decide)
  | zero =>
    obtain ⟨⟨q, hq⟩, -⟩ := hw
    obtain rfl : d = c.as93 R.torus q := hq
    exact ⟨n', c, k1, h2, h3.out, h3.inp⟩

/-- **C115.** And the other way around. -/
theorem C115_new_as_old {R R' : Rules} {g g' : Glob} {f f' : Nat} {lines : List (List Int)} (h : Twice R R' g g' f f' lines)
    (hall : (Bef.start R' lines g'.inp).BothWays R' R.torus) {k : Nat} {u : Univ} (hu : (launch g' R'.byte (Spec.planeText lines)).turns k = .ok u) (hr : u.runners = []) :
    ∃ n b, Steps R n (Bef.start R lines g.inp) b ∧ b.over = true ∧ (∃ o : List (List Int), u.g.eff = g'.eff ++ o.map Eff.out ∧ o.flatten = b.out) ∧ u.g.inp = b.inp := by
  obtain ⟨n, d, h1, h2, h3⟩ := C101_what_it_prints_partial h.new (fun n c h1 h2 => (hall n c h1 h2).2.2) hu hr
  obtain ⟨-, n', q, -, k1⟩ := h.down hall h1
  exact ⟨n', d.as93 R.torus q, k1, h2, h3.out, h3.inp⟩

/-! ### Examples -/

instance (t sgml : Bool) (b : Bef) : Decidable (b.Common t sgml) :=
  if h1 : b.quote = false → words98.lookup (b.cell b.x b.y) = none then
    if h2 : b.quote = true → b.cell b.x b.y ≠ 34 → sgml = true → (0 ≤ b.cell b.x b.y ∧ b.cell b.x b.y ≤ 255) ∧ ¬ (Bef.white (b.cell b.x b.y) = true ∧ Bef.white b.prev = true) then
      if h3 : b.quote = false → b.cell b.x b.y = 112 → -128 ≤ (b.stack.drop 2).headD 0 ∧ (b.stack.drop 2).headD 0 ≤ 127 then
        if h4 : t = true → b.quote = false → b.cell b.x b.y = 103 ∨ b.cell b.x b.y = 112 → (0 ≤ b.next ∧ b.next ≤ 79) ∧ 0 ≤ b.top ∧ b.top ≤ 24 then
          if h5 : t = true → b.quote = false → b.cell b.x b.y = 35 → b.has (b.x + b.dx, b.y + b.dy) = true then .isTrue ⟨h1, h2, h3, h4, h5⟩
          else .isFalse fun h => h5 h.bridge
        else .isFalse fun h => h4 h.place
      else .isFalse fun h => h3 h.put
    else .isFalse fun h => h2 h.string
  else .isFalse fun h => h1 h.word

instance (R : Rules) (t : Bool) (b : Bef) : Decidable (b.Stays R t) := by unfold Bef.Stays; infer_instance

/-- All runs from `b` end within `n` steps, and all states on the way are as asked for. -/
def Ref.Bef.bothWays (R' : Rules) (t : Bool) : Nat → Bef → Bool
  | 0, b => b.over
  | n + 1, b => b.over || (decide (b.Common t R'.sgml) && decide (b.Stays R' t) && !(b.acts R').isEmpty && (b.acts R').all fun c => bothWays R' t n (if c.over then c else c.move))

theorem Ref.Bef.bothWays_spec {R' : Rules} {t : Bool} (n : Nat) : ∀ {b : Bef}, b.bothWays R' t n = true → b.BothWays R' t := by
  have stuck : ∀ {b : Bef}, b.over = true → b.BothWays R' t := by
    intro b ho m c hs hc
    cases m with
    | zero => cases hs; exact absurd (ho.symm.trans hc) (by decide)
    | succ m => obtain ⟨e, h1, -⟩ := hs.first
                exact absurd (ho.symm.trans h1.1) (by decide)
  induction n with
  | zero => exact fun h => stuck h
  | succ n ih =>
    intro b h
    unfold Bef.bothWays at h
    cases ho : b.over with
    | true => exact stuck ho
    | false =>
      rw [ho, Bool.false_or] at h
      simp only [Bool.and_eq_true, decide_eq_true_eq, List.all_eq_true, Bool.not_eq_true'] at h
      obtain ⟨⟨⟨h1, h2⟩, h3⟩, h4⟩ := h
      intro m c hs hc
      cases m with
      | zero => cases hs; exact ⟨h1, h2, fun e => by rw [e] at h3; exact absurd h3 (by decide)⟩
      | succ m =>
        obtain ⟨e, ⟨-, x, hx, rfl⟩, h5⟩ := hs.first
        exact ih (h4 x hx) m c h5 hc

/-- Befunge-93 as the interpreter runs it unless told otherwise, and Befunge-98. -/
def rules93 : Rules := ⟨false, false, true, true, 100, true, true, true, true⟩
def rules98 : Rules := ⟨true, true, false, true, 100, false, true, true, true⟩

/-- A program that reads a number, counts down from it, says so, and changes itself. -/
def exCommon : List (List Int) := [sourceLine "&>:!#v_:.1-v", sourceLine " ^   >$  v", sourceLine " ^         <", sourceLine "vp06-2*88<", sourceLine ">\"so em\",,,,,60g.@"]

/-- As `exTorus`, and enough for programs that go around it. -/
def exLongLine : Glob := { exTorus with fuel := 50000 }

theorem exCommon_twice : Twice rules93 rules98 exLongLine ex98 50000 2000 exCommon :=
  ⟨⟨⟨rfl, rfl, rfl, rfl, rfl⟩, ⟨rfl, rfl, rfl, rfl, rfl⟩, .inl ⟨rfl, rfl⟩, (fun _ => by decide), rfl, rfl, by decide, by decide, sourceLine_plain (by decide)⟩,
    ⟨⟨rfl, rfl, rfl, rfl, rfl⟩, ⟨rfl, rfl, rfl, rfl, rfl⟩, .inr ⟨rfl, rfl, rfl⟩, (fun h => nomatch h), rfl, rfl, by decide, by decide, sourceLine_plain (by decide)⟩,
    rfl, by decide, rfl⟩

theorem exCommon_ways : (Bef.start rules98 exCommon ex98.inp).BothWays rules98 rules93.torus := Bef.bothWays_spec 200 (by decide +kernel)

/-- What C115 asks for is so for this program. -/
example : ∃ N b, Steps rules98 N (Bef.start rules98 exCommon ex98.inp) b ∧ b.over = true ∧ b.out = sourceLine "5 4 3 2 1 me os62 " ∧
    (∀ n c, Steps rules98 n (Bef.start rules98 exCommon ex98.inp) c → c.over = false → (c.acts rules98).length ≤ 1) ∧ (if rules93.torus then 160 * N + 1 else N) < 50000 := by
  obtain ⟨N, b, h1, h2, h3⟩ := Bef.forced_run (R := rules98) 200 (b := Bef.start rules98 exCommon ex98.inp) (by decide +kernel)
  have hs := Bef.settles_steps (R := rules98) (p := fun b => b.out == sourceLine "5 4 3 2 1 me os62 ") 200 (b := Bef.start rules98 exCommon ex98.inp) (by decide +kernel) N b h1
  refine ⟨N, b, h1, h2, eq_of_beq (hs.2.2 h2), h3, ?_⟩
  have := hs.1
  show 160 * N + 1 < 50000
  omega

/-- And it is what the interpreter does. -/
example : ((launch exTorus true (Spec.planeText exCommon)).turns 201).map (fun u => (u.runners.length, u.g.eff)) =
    ((launch ex98 false (Spec.planeText exCommon)).turns 201).map (fun u => (u.runners.length, u.g.eff)) := by krfl

/-- A program that counts down and goes around, westwards, each time: on the torus that takes it 80 steps, on the plane as many as there are columns written. -/
def exAround : List (List Int) := [sourceLine "&v          (not here)", sourceLine ":<_@#:-1."]

theorem exAround_twice : Twice rules93 rules98 exLongLine ex98 50000 2000 exAround :=
  ⟨⟨⟨rfl, rfl, rfl, rfl, rfl⟩, ⟨rfl, rfl, rfl, rfl, rfl⟩, .inl ⟨rfl, rfl⟩, (fun _ => by decide), rfl, rfl, by decide, by decide, sourceLine_plain (by decide)⟩,
    ⟨⟨rfl, rfl, rfl, rfl, rfl⟩, ⟨rfl, rfl, rfl, rfl, rfl⟩, .inr ⟨rfl, rfl, rfl⟩, (fun h => nomatch h), rfl, rfl, by decide, by decide, sourceLine_plain (by decide)⟩,
    rfl, by decide, rfl⟩

/-- What C115 asks for is so for this program. -/
example : (Bef.start rules98 exAround ex98.inp).BothWays rules98 rules93.torus ∧
    ∃ N b, Steps rules98 N (Bef.start rules98 exAround ex98.inp) b ∧ b.over = true ∧ b.out = sourceLine "5 4 3 2 1 " ∧
    (∀ n c, Steps rules98 n (Bef.start rules98 exAround ex98.inp) c → c.over = false → (c.acts rules98).length ≤ 1) ∧ (if rules93.torus then 160 * N + 1 else N) < 50000 := by
  refine ⟨Bef.bothWays_spec 200 (by decide +kernel), ?_⟩
  obtain ⟨N, b, h1, h2, h3⟩ := Bef.forced_run (R := rules98) 200 (b := Bef.start rules98 exAround ex98.inp) (by decide +kernel)
  have hs := Bef.settles_steps (R := rules98) (p := fun b => b.out == sourceLine "5 4 3 2 1 ") 200 (b := Bef.start rules98 exAround ex98.inp) (by decide +kernel) N b h1
  refine ⟨N, b, h1, h2, eq_of_beq (hs.2.2 h2), h3, ?_⟩
  have := hs.1
  show 160 * N + 1 < 50000
  omega

/-- And it is what the interpreter does: blanks take no turn, and so it goes around in as many turns. -/
example : ((launch exLongLine true (Spec.planeText exAround)).turns 60).map (fun u => (u.runners.length, u.g.eff)) =
    ((launch ex98 false (Spec.planeText exAround)).turns 60).map (fun u => (u.runners.length, u.g.eff)) := by krfl

theorem ran_out {x : Except Fault Univ} (h : x.map (fun u => u.runners.isEmpty) = .ok true) : ∃ u, x = .ok u ∧ u.runners = [] := by
  cases x with
  | error e => cases h
  | ok v => exact ⟨v, rfl, List.isEmpty_iff.mp (Except.ok.inj h)⟩

/-- A program that goes one of four ways. -/
def exFork : List (List Int) := [sourceLine " v", sourceLine " #", sourceLine " @", sourceLine "@?1.@", sourceLine " >\"on on\">:#,_@"]

example : Twice rules93 rules98 exTorus ex98 2000 2000 exFork ∧ (Bef.start rules98 exFork ex98.inp).BothWays rules98 rules93.torus ∧
    (∃ u, (launch exTorus true (Spec.planeText exFork)).turns 60 = .ok u ∧ u.runners = []) ∧ ∃ u, (launch ex98 false (Spec.planeText exFork)).turns 60 = .ok u ∧ u.runners = [] :=
  ⟨⟨⟨⟨rfl, rfl, rfl, rfl, rfl⟩, ⟨rfl, rfl, rfl, rfl, rfl⟩, .inl ⟨rfl, rfl⟩, (fun _ => by decide), rfl, rfl, by decide, by decide, sourceLine_plain (by decide)⟩,
    ⟨⟨rfl, rfl, rfl, rfl, rfl⟩, ⟨rfl, rfl, rfl, rfl, rfl⟩, .inr ⟨rfl, rfl, rfl⟩, (fun h => nomatch h), rfl, rfl, by decide, by decide, sourceLine_plain (by decide)⟩,
    rfl, by decide, rfl⟩, Bef.bothWays_spec 60 (by decide +kernel), ran_out (by krfl), ran_out (by krfl)⟩

/-- **C115**, what differs: two blanks in a string. Befunge-93 has both of them, Befunge-98 one. -/
example : ((launch exTorus true (Spec.planeText [sourceLine "\"A  \",,,@"])).turns 20).map (fun u => (u.runners.length, u.g.eff)) = .ok (0, [.out [32], .out [32], .out [65]]) ∧
    ((launch ex98 false (Spec.planeText [sourceLine "\"A  \",,,@"])).turns 20).map (fun u => (u.runners.length, u.g.eff)) = .ok (0, [.out [32], .out [65], .out [0]]) :=
  ⟨by krfl, by krfl⟩

/-- **C115**, what differs: a letter that Befunge-98 has a word for. Befunge-93 turns around, for ever. -/
example : ((launch exTorus true (Spec.planeText [sourceLine "v", sourceLine "a", sourceLine ".", sourceLine "@"])).turns 20).map (fun u => (u.runners.length, u.g.eff)) = .ok (1, []) ∧
    ((launch ex98 false (Spec.planeText [sourceLine "v", sourceLine "a", sourceLine ".", sourceLine "@"])).turns 20).map (fun u => (u.runners.length, u.g.eff)) = .ok (0, [.out [49, 48, 32]]) :=
  ⟨by krfl, by krfl⟩

/-- **C115**, what differs: a value that is not a byte, stored and read again. -/
example : ((launch exTorus true (Spec.planeText [sourceLine "99*9*50p50g.@"])).turns 20).map (fun u => (u.runners.length, u.g.eff)) = .ok (0, [.out [45, 51, 57, 32]]) ∧
    ((launch ex98 false (Spec.planeText [sourceLine "99*9*50p50g.@"])).turns 20).map (fun u => (u.runners.length, u.g.eff)) = .ok (0, [.out [55, 50, 57, 32]]) :=
  ⟨by krfl, by krfl⟩

end Funge
