import Verif.Props.C74_CPLI
import Verif.Props.C56_TOYS
import Verif.Lemmas.Krfl
import Verif.Props.C57_IIPC
/-!
# C77 to C79: the other letters of TOYS

C77: `A B D E H I N P` compute; C78: `L Q R T U X Y Z` look and move; C79: `W` waits.
-/
namespace Funge
open Exec

/-! ### C77 -/

/-- **C77** `A` replaces a value and a count by that many copies of the value (none if the count is negative). -/
theorem C77_gable {s : St} (h : s.Lifo) {n a : Int} {l : List Int} (hi : s.items = n :: a :: l) :
    ∃ s' copies, fpRun .TOYS 65 s = .ok (.none, s') ∧ s.Leaves s' (copies ++ l) ∧ copies.length = n.toNat ∧ ∀ x ∈ copies, x = a := by
  refine ⟨_, List.replicate n.toNat a, ?_, ⟨s.top.ops + 2 + n.toNat, rfl⟩, by simp, fun x hx => (List.mem_replicate.mp hx).2⟩
  show toysGable s = _
  conv => lhs; rw [← setItems_self h, hi]
  rw [toysGable, bind_ok (popTop_head h _ _ _), bind_ok (popTop_head h _ _ _), bind_ok (pushAll_run h _ _ _)]
  simp [pure_run]

/-- **C77** `B` replaces two values by their sum and, on top, their difference, if both fit a cell; otherwise it is undefined. -/
theorem C77_butterfly {s : St} (h : s.Lifo) {a b : Int} {l : List Int} (hi : s.items = b :: a :: l) :
    (InI64 (a + b) → InI64 (a - b) → ∃ s', fpRun .TOYS 66 s = .ok (.none, s') ∧ s.Leaves s' ((a - b) :: (a + b) :: l)) ∧
    (¬ (InI64 (a + b) ∧ InI64 (a - b)) → fpRun .TOYS 66 s = .error .overflow) := by
  have start : ∀ r, (lift (ck (a + b)) >>= fun x => pushTop x >>= fun _ => lift (ck (a - b)) >>= fun y => pushTop y >>= fun _ => pure Err.none : Exec Err)
      (s.setItems l (s.top.ops + 2)) = r → toysButterfly s = r := by
    intro r hr
    rw [← hr]
    conv => lhs; rw [← setItems_self h, hi]
    rw [toysButterfly, bind_ok (popTop_head h _ _ _), bind_ok (popTop_head h _ _ _)]
  refine ⟨fun h1 h2 => ⟨_, start _ ?_, s.top.ops + 4, rfl⟩, fun hno => start _ ?_⟩
  · rw [ck_ok h1, bind_ok (lift_ok _ _), bind_ok (pushTop_run h _ _ _), ck_ok h2, bind_ok (lift_ok _ _), bind_ok (pushTop_run h _ _ _)]; rfl
  · by_cases h1 : InI64 (a + b)
    · rw [ck_ok h1, bind_ok (lift_ok _ _), bind_ok (pushTop_run h _ _ _), show ck (a - b) = .error .overflow from if_neg fun h2 => hno ⟨h1, h2⟩,
        bind_error (lift_error _ _)]
    · rw [show ck (a + b) = .error .overflow from if_neg h1, bind_error (lift_error _ _)]

/-- **C77** `I` and `D` add and subtract one, if that fits a cell; otherwise they are undefined. -/
theorem C77_step {s : St} (h : s.Lifo) {x : Int} {l : List Int} (hi : s.items = x :: l) {c d : Int} (hc : (c = 73 ∧ d = 1) ∨ (c = 68 ∧ d = -1)) :
    (InI64 (x + d) → ∃ s', fpRun .TOYS c s = .ok (.none, s') ∧ s.Leaves s' ((x + d) :: l)) ∧
    (¬ InI64 (x + d) → fpRun .TOYS c s = .error .overflow) := by
  have hrun : fpRun .TOYS c = toysInc d := by rcases hc with ⟨rfl, rfl⟩ | ⟨rfl, rfl⟩ <;> rfl
  have start : ∀ r, (lift (ck (x + d)) >>= fun x => pushTop x >>= fun _ => pure Err.none : Exec Err)
      (s.setItems l (s.top.ops + 1)) = r → fpRun .TOYS c s = r := by
    intro r hr
    rw [← hr, hrun]
    conv => lhs; rw [← setItems_self h, hi]
    rw [toysInc, bind_ok (popTop_head h _ _ _)]
  refine ⟨fun h1 => ⟨_, start _ ?_, s.top.ops + 2, rfl⟩, fun hno => start _ ?_⟩
  · rw [ck_ok h1, bind_ok (lift_ok _ _), bind_ok (pushTop_run h _ _ _)]; rfl
  · rw [show ck (x + d) = .error .overflow from if_neg hno, bind_error (lift_error _ _)]

/-- The sum and the product of all numbers of a list. -/
def total : List Int → Int
  | [] => 0
  | x :: l => x + total l
def product : List Int → Int
  | [] => 1
  | x :: l => x * product l

theorem foldStack_run {s : St} (h : s.Lifo) (f : Int → Int → Int) (l : List Int) (acc : Int) (n : Nat)
    (hf : ∀ k ≤ l.length, k ≠ 0 → InI64 ((l.take k).foldl f acc)) :
    foldStack f l.length acc (s.setItems l n) = .ok (l.foldl f acc, s.setItems [] (n + l.length)) := by
  induction l generalizing acc n with
  | nil => rfl
  | cons x t ih =>
    have h1 : InI64 (f acc x) := hf 1 (by simp) (by decide)
    rw [List.length_cons, foldStack, bind_ok (popTop_head h _ _ _), ck_ok h1, bind_ok (lift_ok _ _), ih]
    · rw [Nat.add_assoc, Nat.add_comm 1]; rfl
    · intro k hk hk0
      exact hf (k + 1) (by simpa using hk) (by omega)

theorem foldl_total (l : List Int) (a : Int) : l.foldl (· + ·) a = a + total l := by
  induction l generalizing a with
  | nil => simp [total]
  | cons x t ih => rw [List.foldl_cons, ih, total]; omega

theorem foldl_product (l : List Int) (a : Int) : l.foldl (· * ·) a = a * product l := by
  induction l generalizing a with
  | nil => simp [product]
  | cons x t ih => rw [List.foldl_cons, ih, product, Int.mul_assoc]

/-- **C77** (partial: see `C77_undefined_total`) `E` replaces the whole stack by its sum, if the sums of the topmost cells all fit a cell. -/
theorem C77_total_partial {s : St} (h : s.Lifo) (hf : ∀ k, InI64 (total (s.items.take k))) :
    ∃ s', fpRun .TOYS 69 s = .ok (.none, s') ∧ s.Leaves s' [total s.items] := by
  refine ⟨_, ?_, s.top.ops + s.items.length + 1, rfl⟩
  show toysFold (· + ·) 0 s = _
  apply run_items h
  rw [toysFold, bind_ok (sizeTop_run h _ _), bind_ok (foldStack_run h _ _ _ _ _), bind_ok (pushTop_run h _ _ _)]
  · rw [foldl_total, Int.zero_add]; rfl
  · intro k _ _; rw [foldl_total, Int.zero_add]; exact hf k

/-- **C77** (partial: see `C77_undefined_total`) `P` replaces the whole stack by its product, if the products of the topmost cells all fit a cell. -/
theorem C77_product_partial {s : St} (h : s.Lifo) (hf : ∀ k, InI64 (product (s.items.take k))) :
    ∃ s', fpRun .TOYS 80 s = .ok (.none, s') ∧ s.Leaves s' [product s.items] := by
  refine ⟨_, ?_, s.top.ops + s.items.length + 1, rfl⟩
  show toysFold (· * ·) 1 s = _
  apply run_items h
  rw [toysFold, bind_ok (sizeTop_run h _ _), bind_ok (foldStack_run h _ _ _ _ _), bind_ok (pushTop_run h _ _ _)]
  · rw [foldl_product, Int.one_mul]; rfl
  · intro k _ _; rw [foldl_product, Int.one_mul]; exact hf k

example : (exState [7, -8, 9]).Lifo ∧ total [7, -8, 9] = 8 ∧ product [7, -8, 9] = -504 ∧ (∀ k, InI64 (total ((exState [7, -8, 9]).items.take k))) ∧
    (∀ k, InI64 (product ((exState [7, -8, 9]).items.take k))) := by
  refine ⟨by decide, by decide, by decide, fun k => ?_, fun k => ?_⟩
  all_goals
    rw [show (exState [7, -8, 9]).items = [7, -8, 9] from rfl]
    match k with
    | 0 => decide
    | 1 => decide
    | 2 => decide
    | k + 3 => rw [List.take_of_length_le (by simp)]; decide

/-- **C77** is violated: `E` on 2^63 - 1, 1 and -1 and `P` on 2^62, 2 and 0 are undefined although the sum and the product fit a cell. -/
theorem C77_undefined_total : InI64 (total [9223372036854775807, 1, -1]) ∧ fpRun .TOYS 69 (exState [9223372036854775807, 1, -1]) = .error .overflow ∧
    InI64 (product [4611686018427387904, 2, 0]) ∧ fpRun .TOYS 80 (exState [4611686018427387904, 2, 0]) = .error .overflow :=
  ⟨by decide, by krfl, by decide, by krfl⟩

/-- **C77** (partial: see `C77_undefined_shift`) `H` shifts left by a positive and right by a negative number of places. -/
theorem C77_shift_partial {s : St} (h : s.Lifo) {a b : Int} {l : List Int} (hi : s.items = b :: a :: l) :
    (∀ n : Nat, b = n → n < 64 → InI64 a → ∃ s' r, fpRun .TOYS 72 s = .ok (.none, s') ∧ s.Leaves s' (r :: l) ∧ InI64 r ∧ ∃ k, a * 2 ^ n = r + k * 2 ^ 64) ∧
    (∀ n : Nat, b = -n → n < 64 → ∃ s' r, fpRun .TOYS 72 s = .ok (.none, s') ∧ s.Leaves s' (r :: l) ∧ r * 2 ^ n ≤ a ∧ a < (r + 1) * 2 ^ n) := by
  have start : ∀ r, (if b > 0 then shlOp a b else if b = i64Min then .error .overflow else shrOp a (-b)) = .ok r →
      fpRun .TOYS 72 s = .ok (.none, s.setItems (r :: l) (s.top.ops + 3)) := by
    intro r hr
    show toysShift s = _
    conv => lhs; rw [← setItems_self h, hi]
    rw [toysShift, bind_ok (popTop_head h _ _ _), bind_ok (popTop_head h _ _ _), hr, bind_ok (lift_ok _ _), bind_ok (pushTop_run h _ _ _)]
    rfl
  have right : ∀ n : Nat, b = -n → n < 64 → ∃ s' r, fpRun .TOYS 72 s = .ok (.none, s') ∧ s.Leaves s' (r :: l) ∧ r * 2 ^ n ≤ a ∧ a < (r + 1) * 2 ^ n := by
    intro n hb hn
    have hp : (0 : Int) < 2 ^ n := Int.pow_pos (by decide)
    refine ⟨_, a / 2 ^ n, start _ ?_, ⟨_, rfl⟩, Int.ediv_mul_le _ (by omega), Int.lt_ediv_add_one_mul_self _ hp⟩
    rw [if_neg (by omega), if_neg (by unfold i64Min; omega), shrOp, if_pos (by omega), show (-b).toNat = n by omega]
  refine ⟨fun n hb hn ha => ?_, right⟩
  by_cases h0 : n = 0
  · obtain ⟨s', r, h1, h2, h3, h4⟩ := right 0 (by omega) (by omega)
    have : r = a := by simp at h3 h4; omega
    subst this
    refine ⟨s', r, h1, h2, ha, 0, by subst h0; simp⟩
  · refine ⟨_, toI64 (a * 2 ^ n), start _ ?_, ⟨_, rfl⟩, ?_, Int.bdiv (a * 2 ^ n) 18446744073709551616, ?_⟩
    · rw [if_pos (by omega), shlOp, if_pos (by omega), show b.toNat = n by omega]
    · unfold toI64 InI64 i64Min i64Max
      have h1 := Int.le_bmod (x := a * 2 ^ n) (m := 18446744073709551616) (by decide)
      have h2 := Int.bmod_lt (x := a * 2 ^ n) (m := 18446744073709551616) (by decide)
      omega
    · have := Int.bmod_add_bdiv (a * 2 ^ n) 18446744073709551616
      unfold toI64
      omega

/-- **C77** is violated: shifting by 64 or more places, either way, is undefined. -/
theorem C77_undefined_shift {s : St} (h : s.Lifo) {a b : Int} {l : List Int} (hi : s.items = b :: a :: l) (hb : 64 ≤ b ∨ b ≤ -64) :
    ∃ e, fpRun .TOYS 72 s = .error e := by
  have : ∃ e, (if b > 0 then shlOp a b else if b = i64Min then .error .overflow else shrOp a (-b)) = .error e := by
    split
    · exact ⟨.badShift, if_neg (by omega)⟩
    · split
      · exact ⟨_, rfl⟩
      · exact ⟨.badShift, if_neg (by omega)⟩
  obtain ⟨e, he⟩ := this
  refine ⟨e, ?_⟩
  show toysShift s = _
  conv => lhs; rw [← setItems_self h, hi]
  rw [toysShift, bind_ok (popTop_head h _ _ _), bind_ok (popTop_head h _ _ _), he, bind_error (lift_error _ _)]

/-- **C77** `N` replaces a value by 1 if it is 0 and by 0 otherwise. -/
theorem C77_not {s : St} (h : s.Lifo) :
    ∃ s', fpRun .TOYS 78 s = .ok (.none, s') ∧ s.Leaves s' ((if s.items.headD 0 = 0 then 1 else 0) :: s.items.drop 1) :=
  C23_not (fun _ => pure .none) s h

example : (exState [3, -5, 1]).Lifo ∧ (exState [3, -5, 1]).items = 3 :: -5 :: [1] ∧ InI64 (-5 + 3) ∧ InI64 (-5 - 3) ∧
    (exState [-64, 1]).items = -64 :: 1 :: [] := by decide

/-! ### C78 -/

/-- `q` is the cell on the left (`t = 1`) or right (`t = -1`) hand of an IP at `p` going in direction `d` of the plane: north is up. -/
def Beside (p d : Vec) (t : Int) (q : Vec) : Prop := q.get 0 = p.get 0 + t * d.get 1 ∧ q.get 1 = p.get 1 - t * d.get 0 ∧ ∀ i, 2 ≤ i → q.get i = p.get i

theorem get_left (v : Vec) (i : Nat) : v.left.get i = if i = 0 then v.get 1 else if i = 1 then - v.get 0 else v.get i := by
  unfold Vec.left; rw [Vec.get_set, Vec.get_set]; split <;> split <;> first | rfl | omega

theorem get_right (v : Vec) (i : Nat) : v.right.get i = if i = 0 then - v.get 1 else if i = 1 then v.get 0 else v.get i := by
  unfold Vec.right; rw [Vec.get_set, Vec.get_set]; split <;> split <;> first | rfl | omega

/-- **C78** (partial: an IP that also moves along a third axis looks elsewhere) `L` and `R` push the cell on the left and on the right hand of the IP and change
nothing else. -/
theorem C78_look_partial {s : St} (h : s.Lifo) (hp : ∀ i, 2 ≤ i → s.cur.ip.delta.get i = 0) {c t : Int} (hc : (c = 76 ∧ t = 1) ∨ (c = 82 ∧ t = -1)) {q : Vec}
    (hq : Beside s.cur.ip.pos s.cur.ip.delta t q) : ∃ s', fpRun .TOYS c s = .ok (.none, s') ∧ s.Leaves s' (s.g.field.get q :: s.items) := by
  have main : ∀ turn : Vec → Vec, (∀ i, s.cur.ip.pos.get i + (turn s.cur.ip.delta).get i = q.get i) →
      ∃ s', toysLook turn s = .ok (.none, s') ∧ s.Leaves s' (s.g.field.get q :: s.items) := by
    intro turn ht
    refine ⟨_, ?_, s.top.ops + 1, rfl⟩
    apply run_items h
    rw [toysLook, bind_ok (ipDelta_run _), bind_ok (ipPos_run _), bind_ok (fieldGet_run _ _), bind_ok (pushTop_run h _ _ _)]
    have : (s.cur.ip.pos.add (turn s.cur.ip.delta)).eqv q = true := by
      rw [Vec.eqv_iff]; intro i; rw [Vec.get_add, ht]
    rw [← Field.get_congr _ this]
    rfl
  obtain ⟨q0, q1, q2⟩ := hq
  rcases hc with ⟨rfl, rfl⟩ | ⟨rfl, rfl⟩
  · refine main Vec.left fun i => ?_
    rw [get_left]
    split
    · subst i; omega
    · split
      · subst i; omega
      · rw [q2 i (by omega), hp i (by omega)]; omega
  · refine main Vec.right fun i => ?_
    rw [get_right]
    split
    · subst i; omega
    · split
      · subst i; omega
      · rw [q2 i (by omega), hp i (by omega)]; omega

example : Beside (Vec.ofList [4, 7]) (Vec.ofList [1, 0]) 1 (Vec.ofList [4, 6]) ∧ Beside (Vec.ofList [4, 7]) (Vec.ofList [1, 0]) (-1) (Vec.ofList [4, 8]) ∧
    Beside (Vec.ofList [4, 7]) (Vec.ofList [0, 1]) 1 (Vec.ofList [5, 7]) := by
  have g : ∀ (a b : Int) i, 2 ≤ i → (Vec.ofList [a, b]).get i = 0 := fun a b i hi => by rw [get_pair, if_neg (by omega), if_neg (by omega)]
  refine ⟨⟨by decide, by decide, fun i hi => ?_⟩, ⟨by decide, by decide, fun i hi => ?_⟩, ⟨by decide, by decide, fun i hi => ?_⟩⟩ <;> rw [g _ _ _ hi, g _ _ _ hi]

/-- **C78** `Q` stores a value in the cell behind the IP and changes nothing else. -/
theorem C78_behind {s : St} (h : s.Lifo) (hu : Field.UniqueKeys s.g.field.cells) {x : Int} {l : List Int} (hi : s.items = x :: l) :
    ∃ s' f, fpRun .TOYS 81 s = .ok (.none, s') ∧ s.Puts s' l f ∧
      (∀ q, (∀ i, q.get i = s.cur.ip.pos.get i - s.cur.ip.delta.get i) → f.get q = s.g.field.cellOf x) ∧
      (∀ q, (¬ ∀ i, q.get i = s.cur.ip.pos.get i - s.cur.ip.delta.get i) → f.get q = s.g.field.get q) := by
  have key : ∀ q, (s.cur.ip.pos.add s.cur.ip.delta.reverse).eqv q = true ↔ ∀ i, q.get i = s.cur.ip.pos.get i - s.cur.ip.delta.get i := by
    intro q
    rw [Vec.eqv_iff]
    constructor
    · intro h i; have := h i; rw [Vec.get_add, Vec.get_reverse] at this; omega
    · intro h i; rw [Vec.get_add, Vec.get_reverse, h i]; omega
  refine ⟨_, s.g.field.put (s.cur.ip.pos.add s.cur.ip.delta.reverse) x, ?_, ⟨s.top.ops + 1, rfl⟩, ?_, ?_⟩
  · show toysTail s = _
    conv => lhs; rw [← setItems_self h, hi]
    rw [toysTail, bind_ok (ipDelta_run _), bind_ok (ipPos_run _), bind_ok (popTop_head h _ _ _), bind_ok (fieldPut_run _ _ _)]
    rfl
  · intro q hq; rw [Field.get_put hu, if_pos ((key q).mpr hq)]
  · intro q hq; rw [Field.get_put hu, if_neg fun e => hq ((key q).mp e)]

/-- **C78** (partial: see `C78_undefined_axis`) `T` turns the IP along the axis given: forwards if the value under it is zero, backwards if not; an axis
the program does not have makes the IP reflect. -/
theorem C78_branch_partial {s : St} (h : s.Lifo) (hh : hasMode s.g.cfg.mode modeHover = false) {n : Nat} {x : Int} {l : List Int} (hi : s.items = (n : Int) :: x :: l) :
    (n < s.g.cfg.dims → ∃ s', fpRun .TOYS 84 s = .ok (.none, s') ∧ Turns s s' (along n (if x = 0 then 1 else -1)) l) ∧
    (s.g.cfg.dims ≤ n → ∃ s', fpRun .TOYS 84 s = .ok (.unspec, s') ∧ s.Leaves s' l) := by
  have start : ∀ r, (getDims >>= fun d => if (d : Int) > n then (setDelta (Vec.empty.set n (if x = 0 then 1 else -1)) >>= fun _ => pure Err.none) else pure .unspec : Exec Err)
      (s.setItems l (s.top.ops + 2)) = r → fpRun .TOYS 84 s = r := by
    intro r hr
    rw [← hr]
    show toysBranch s = _
    conv => lhs; rw [← setItems_self h, hi]
    rw [toysBranch, bind_ok (popTop_head h _ _ _), bind_ok (popTop_head h _ _ _), axisVec, if_neg (by omega), bind_ok (pure_run _ _), Int.toNat_natCast]
  refine ⟨fun hn => ?_, fun hn => ⟨_, start _ ?_, s.top.ops + 2, rfl⟩⟩
  · obtain ⟨a, b, h4⟩ := setDelta_turns hh l (s.top.ops + 2) (Vec.empty.set n (if x = 0 then 1 else -1))
    refine ⟨_, start _ ?_, Vec.empty.set n (if x = 0 then 1 else -1), a, b, s.top.ops + 2, rfl, ?_⟩
    · rw [bind_ok (getDims_run _), setItems_g, if_pos (by omega), bind_ok h4]; rfl
    · intro i; rw [Vec.get_set, along]; rfl
  · rw [bind_ok (getDims_run _), setItems_g, if_neg (by omega)]; rfl

/-- **C78** is violated: a negative axis ends the interpreter with an exception. -/
theorem C78_undefined_axis {s : St} (h : s.Lifo) {n x : Int} {l : List Int} (hi : s.items = n :: x :: l) (hn : n < 0) :
    fpRun .TOYS 84 s = .error .exception := by
  show toysBranch s = _
  conv => lhs; rw [← setItems_self h, hi]
  rw [toysBranch, bind_ok (popTop_head h _ _ _), bind_ok (popTop_head h _ _ _), axisVec, if_pos hn, bind_error (fault_run _ _)]

/-- **C78** `X`, `Y` and `Z` move the IP one cell along the first, second and third axis; if the program does not have that axis, it reflects. -/
theorem C78_step {s : St} {c : Int} {n : Nat} (hc : (c = 88 ∧ n = 0) ∨ (c = 89 ∧ n = 1) ∨ (c = 90 ∧ n = 2)) :
    (n = 0 ∨ n < s.g.cfg.dims → ∃ p, fpRun .TOYS c s = .ok (.none, s.setIP { s.cur.ip with pos := p }) ∧
      ∀ i, p.get i = s.cur.ip.pos.get i + if i = n then 1 else 0) ∧
    (¬ (n = 0 ∨ n < s.g.cfg.dims) → fpRun .TOYS c s = .ok (.unspec, s)) := by
  have hrun : fpRun .TOYS c = toysStep n := by rcases hc with ⟨rfl, rfl⟩ | ⟨rfl, rfl⟩ | ⟨rfl, rfl⟩ <;> rfl
  rw [hrun, toysStep, bind_ok (getDims_run _)]
  refine ⟨fun hn => ⟨s.cur.ip.pos.set n (s.cur.ip.pos.get n + 1), ?_, ?_⟩, fun hn => ?_⟩
  · rw [if_pos hn]; rfl
  · intro i; rw [Vec.get_set]; split
    · subst i; rfl
    · omega
  · rw [if_neg hn]; rfl

/-- The arrow that stands for going forwards (`x = 1`) or backwards (`x = -1`) along axis `a`, in the default configuration. -/
def arrowFor : Nat → Int → Int
  | 0, x => if x = 1 then 62 else 60
  | 1, x => if x = 1 then 118 else 94
  | _, x => if x = 1 then 104 else 108

/-- **C78** (partial: see `C78_false_inverted`) `U` picks a direction along one of the axes (of the first three) and replaces itself by the arrow for
that direction; nothing else changes. -/
theorem C78_random_partial {s : St} (h : s.Lifo) (hh : hasMode s.g.cfg.mode modeHover = false) (hd : 0 < s.g.cfg.dims) (hu : Field.UniqueKeys s.g.field.cells) :
    ∃ s' f a x, fpRun .TOYS 85 s = .ok (.none, s') ∧ Turns (s.setG { s.g with field := f, asked := s.g.asked + 1 }) s' (along a x) s.items ∧
      a < s.g.cfg.dims ∧ a < 3 ∧ (x = 1 ∨ x = -1) ∧ f.get s.cur.ip.pos = s.g.field.cellOf (arrowFor a x) ∧
      ∀ q, q.eqv s.cur.ip.pos = false → f.get q = s.g.field.get q := by
  generalize hr : s.g.orc s.g.asked % (2 * (min s.g.cfg.dims 3 : Nat) : Int) = r
  have r0 : 0 ≤ r := by rw [← hr]; exact Int.emod_nonneg _ (by omega)
  have r1 : r < (2 * (min s.g.cfg.dims 3 : Nat) : Int) := by rw [← hr]; exact Int.emod_lt_of_pos _ (by omega)
  let f := s.g.field.put s.cur.ip.pos (toysArrow r)
  let s₁ := s.setG { s.g with field := f, asked := s.g.asked + 1 }
  have hl : s₁.Lifo := h
  obtain ⟨a, b, h4⟩ := setDelta_turns (s := s₁) hh s.items s.top.ops (Vec.empty.set (r / 2).toNat (if r % 2 = 1 then -1 else 1))
  refine ⟨_, f, (r / 2).toNat, if r % 2 = 1 then -1 else 1, ?_, ⟨Vec.empty.set (r / 2).toNat (if r % 2 = 1 then -1 else 1), a, b, s.top.ops, rfl, ?_⟩,
    by omega, by omega, ?_, ?_, ?_⟩
  · show toysRandom s = _
    have e : s₁.setItems s.items s.top.ops = s₁ := setItems_self hl
    rw [e] at h4
    rw [toysRandom, bind_ok (getDims_run _)]
    show (ask >>= _) s = _
    rw [bind_ok (show ask s = .ok (s.g.orc s.g.asked, s.setG { s.g with asked := s.g.asked + 1 }) from rfl), hr]
    show (ipPut (toysArrow r) >>= _) _ = _
    rw [bind_ok (ipPut_run _ _)]
    exact bind_ok h4
  · intro i; rw [Vec.get_set, along]; rfl
  · split <;> simp
  · rw [Field.get_put hu, if_pos (Vec.eqv_refl _)]
    congr 1
    have : r = 0 ∨ r = 1 ∨ r = 2 ∨ r = 3 ∨ r = 4 ∨ r = 5 := by omega
    rcases this with rfl | rfl | rfl | rfl | rfl | rfl <;> rfl
  · intro q hq
    rw [Field.get_put hu, if_neg]
    rw [Vec.eqv_comm, hq]; decide

/-- **C78** is violated with `-finvert-hl`: going up, `U` leaves an `h` behind, which sends the next IP down. -/
theorem C78_false_inverted : ∃ s s' : St, s.g.cfg.inverthl = true ∧ fpRun .TOYS 85 s = .ok (.none, s') ∧ (s'.cur.ip.delta.get 2 = 1) ∧
    s'.g.field.get s.cur.ip.pos = 104 ∧ ∃ s'', iHigh s' = .ok (.none, s'') ∧ s''.cur.ip.delta.get 2 = -1 := by
  refine ⟨{ machine [85] with g.cfg.inverthl := true, g.cfg.dims := 3, g.orc := fun _ => 4 }, _, rfl, rfl, ?_, ?_, _, rfl, ?_⟩ <;> decide +kernel

example : ((machine [64]).setItems [1, 0, 7] 0).Lifo ∧ Field.UniqueKeys ((machine [64]).setItems [1, 0, 7] 0).g.field.cells ∧
    ((machine [64]).setItems [1, 0, 7] 0).items = ((1 : Nat) : Int) :: 0 :: [7] ∧ 1 < ((machine [64]).setItems [1, 0, 7] 0).g.cfg.dims ∧
    hasMode ((machine [64]).setItems [1, 0, 7] 0).g.cfg.mode modeHover = false ∧ (exState [-1, 3]).items = -1 :: 3 :: [] :=
  ⟨by decide, by unfold Field.UniqueKeys; decide, by decide, by decide, by decide, by decide⟩

/-! ### C79 -/

/-- **C79** (partial: for a stack in its ordinary mode, see `C79_false_in_queue_mode`) `W` with a point and a value: while the cell at the point is less than the value, the IP stays on the `W` with the same stack and nothing changes; when the cell
equals the value, it goes on without the arguments; when the cell is greater, it turns back without the arguments. The point is counted from the origin. -/
theorem C79_wait_partial {s : St} (h : s.Lifo) (hd : 0 < s.g.cfg.dims) {v : Vec} (hv : v.InDim s.g.cfg.dims) {x : Int} {l : List Int}
    (hi : s.items = coords s.g.cfg.dims v ++ x :: l) :
    (s.g.field.get v < x → ∃ s', fpRun .TOYS 87 s = .ok (.block, s') ∧ s.Leaves s' s.items) ∧
    (s.g.field.get v = x → ∃ s', fpRun .TOYS 87 s = .ok (.none, s') ∧ s.Leaves s' l) ∧
    (s.g.field.get v > x → ∃ s' w n, fpRun .TOYS 87 s = .ok (.none, s') ∧ s' = (s.setIP { s.cur.ip with delta := w }).setItems l n ∧
      ∀ i, w.get i = - s.cur.ip.delta.get i) := by
  obtain ⟨w, h1, h2, -⟩ := popCoordsN h v hd (x :: l) s.top.ops
  have gw := sameVec_eqv hv h2
  have hcell : s.g.field.get w = s.g.field.get v := Field.get_congr _ (by rw [Vec.eqv_iff]; exact gw)
  have start : ∀ r, (if s.g.field.get v < x then (pushTop x >>= fun _ => pushVector w >>= fun _ => pure Err.block)
      else if s.g.field.get v > x then (onIP IP.reflect >>= fun _ => pure Err.none) else pure Err.none : Exec Err)
      (s.setItems l (s.top.ops + s.g.cfg.dims + 1)) = r → fpRun .TOYS 87 s = r := by
    intro r hr
    rw [← hr]
    show toysWait s = _
    conv => lhs; rw [← setItems_self h, hi]
    rw [toysWait, bind_ok h1, bind_ok (popTop_head h _ _ _), bind_ok (fieldGet_run _ _), setItems_g, hcell]
  refine ⟨fun hlt => ⟨_, start _ ?_, s.top.ops + s.g.cfg.dims + 1 + 1 + s.g.cfg.dims, rfl⟩, fun heq => ⟨_, start _ ?_, s.top.ops + s.g.cfg.dims + 1, rfl⟩,
    fun hgt => ⟨_, s.cur.ip.delta.reverse, s.top.ops + s.g.cfg.dims + 1, start _ ?_, rfl, ?_⟩⟩
  · rw [if_pos hlt, bind_ok (pushTop_run h _ _ _), bind_ok (pushVector_run h _ _ _), pure_run, hi]
    have : w.get = v.get := funext gw
    rw [this]; rfl
  · rw [if_neg (by omega), if_neg (by omega)]; rfl
  · rw [if_neg (by omega), if_pos hgt]; rfl
  · intro i; rw [Vec.get_reverse]

/-- **C79** (partial as well) For a whole turn: an IP on a `W` whose cell is less than the value spends its turn without any effect. -/
theorem C79_waiting_turn_partial {s : St} (h : s.Lifo) (hd : 0 < s.g.cfg.dims) (hf : 0 < s.g.fuel) (hstr : s.cur.inString = false)
    (hdive : hasMode s.g.cfg.mode modeDive = false) {b : Bool} (hsem : s.cur.getSem (s.g.field.get s.cur.ip.pos) = some ⟨.fing .TOYS 87, b⟩)
    {v : Vec} (hv : v.InDim s.g.cfg.dims) {x : Int} {l : List Int} (hi : s.items = coords s.g.cfg.dims v ++ x :: l) (hlt : s.g.field.get v < x) :
    ∃ s', tick s = .ok ((), s') ∧ s.Leaves s' s.items := by
  obtain ⟨s', h1, h2⟩ := (C79_wait_partial h hd hv hi).1 hlt
  refine ⟨s', tick_block hf ?_, h2⟩
  obtain ⟨k, hk⟩ : ∃ k, s.g.fuel = k + 1 := ⟨s.g.fuel - 1, by omega⟩
  rw [hk]
  simp only [execute, hstr, execNormal, hsem, hdive]
  exact h1

/-- An IP at `W` of TOYS, waiting for a `Z` at (0, 0). -/
example : let s := (exFing [0x544f5953] [87]).setItems [0, 0, 90, 7] 0
    s.Lifo ∧ 0 < s.g.cfg.dims ∧ 0 < s.g.fuel ∧ s.cur.inString = false ∧ hasMode s.g.cfg.mode modeDive = false ∧
    s.cur.getSem (s.g.field.get s.cur.ip.pos) = some ⟨.fing .TOYS 87, false⟩ ∧ s.items = coords s.g.cfg.dims (cellAt 0 0) ++ 90 :: [7] ∧
    s.g.field.get (cellAt 0 0) < 90 := by decide +kernel

example : ((machine [64]).setItems [0, 0, 65, 7] 0).Lifo ∧ 0 < ((machine [64]).setItems [0, 0, 65, 7] 0).g.cfg.dims ∧
    ((machine [64]).setItems [0, 0, 65, 7] 0).items = coords ((machine [64]).setItems [0, 0, 65, 7] 0).g.cfg.dims (cellAt 0 0) ++ 65 :: [7] ∧
    ((machine [64]).setItems [0, 0, 65, 7] 0).g.field.get (cellAt 0 0) < 65 := by decide

/-- **C79 does not hold** for a queue: what `W` has taken from one end it puts back at the other, and in its next turn takes something else.
Here a stack in queue mode holds (in the order in which it gives them) 0, 0, 90 and 7; `W` waits for a `Z` at (0, 0), and after one turn the
stack gives the 7 first. -/
theorem C79_false_in_queue_mode :
    let s := (exFing [0x544f5953] [87]).setTop ⟨modeQueue, [7, 90, 0, 0], 0⟩
    s.cur.getSem (s.g.field.get s.cur.ip.pos) = some ⟨.fing .TOYS 87, false⟩ ∧ s.g.field.get (cellAt 0 0) < 90 ∧
    stackAfter s 1 = some [0, 0, 90, 7] := by decide +kernel

end Funge
