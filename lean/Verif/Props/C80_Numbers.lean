import Verif.Props.C74_CPLI
import Verif.Props.C54_STRN
import Verif.Lemmas.Krfl
/-!
# C80 to C82: HRTI, LONG and the floating point fingerprints
-/
namespace Funge
open Exec

/-! ### C80 -/

/-- **C80** `M` marks the time, and `T` of the same IP, at any later moment, pushes the microseconds passed since (the clock counts nanoseconds, and stands not at
its epoch), as long as the IP has not marked anew or erased the mark; neither changes anything else (but that the clock has been read). -/
theorem C80_elapsed {s : St} (hc : s.g.orc s.g.asked ≠ 0) :
    ∃ s₁, fpRun .HRTI 77 s = .ok (.none, s₁) ∧ s₁ = { s with cur := { s.cur with hrtiMark := s₁.cur.hrtiMark }, g := { s.g with asked := s.g.asked + 1 } } ∧
      ∀ t : St, t.Lifo → t.cur.hrtiMark = s₁.cur.hrtiMark → s.g.orc s.g.asked ≤ t.g.orc t.g.asked →
        ∃ t' us, fpRun .HRTI 84 t = .ok (.none, t') ∧ (t.setG { t.g with asked := t.g.asked + 1 }).Leaves t' (us :: t.items) ∧
          1000 * us ≤ t.g.orc t.g.asked - s.g.orc s.g.asked ∧ t.g.orc t.g.asked - s.g.orc s.g.asked < 1000 * (us + 1) := by
  refine ⟨_, rfl, rfl, fun t ht hm hle => ⟨_, (t.g.orc t.g.asked - s.g.orc s.g.asked).tdiv 1000, ?_, ⟨t.top.ops + 1, rfl⟩, ?_, ?_⟩⟩
  · have hm' : t.cur.hrtiMark = s.g.orc s.g.asked := hm
    show hrtiTimer t = _
    rw [hrtiTimer, bind_ok (get_run _), hm', if_neg hc]
    have hl : (t.setG { t.g with asked := t.g.asked + 1 }).Lifo := ht
    rw [bind_ok (show ask t = .ok (t.g.orc t.g.asked, t.setG { t.g with asked := t.g.asked + 1 }) from rfl)]
    have e := setItems_self hl
    rw [← e, bind_ok (pushTop_run hl _ _ _), e]
    rfl
  · rw [Int.tdiv_eq_ediv_of_nonneg (by omega)]; omega
  · rw [Int.tdiv_eq_ediv_of_nonneg (by omega)]; omega

/-- **C80** Without a mark, or after `E`, `T` reflects and changes nothing. -/
theorem C80_unmarked {s : St} :
    (s.cur.hrtiMark = 0 → fpRun .HRTI 84 s = .ok (.unspec, s)) ∧
    ∃ s₁, fpRun .HRTI 69 s = .ok (.none, s₁) ∧ ∀ t : St, t.cur.hrtiMark = s₁.cur.hrtiMark → fpRun .HRTI 84 t = .ok (.unspec, t) := by
  have key : ∀ t : St, t.cur.hrtiMark = 0 → fpRun .HRTI 84 t = .ok (.unspec, t) := by
    intro t ht
    show hrtiTimer t = _
    rw [hrtiTimer, bind_ok (get_run _), ht]; rfl
  exact ⟨key s, _, rfl, fun t ht => key t ht⟩

/-- **C80** An IP has no mark to begin with, nor has its twin. -/
theorem C80_fresh (cfg : Cfg) (id : Nat) (pos delta : Vec) (p : Runner) (g : Glob) (r : Runner) (hr : p.clone g id = .ok r) :
    (newRunner cfg id pos delta).hrtiMark = 0 ∧ r.hrtiMark = 0 := by
  have push : ∀ (l : List (Int × Sem)) (r : Runner), (r.pushSems l).hrtiMark = r.hrtiMark := by
    intro l
    unfold Runner.pushSems
    induction l with
    | nil => intro r; rfl
    | cons a t ih => intro r; exact ih _
  have act : ∀ (f : Fp) (r : Runner), (f.activate r).hrtiMark = r.hrtiMark := by
    intro f r
    unfold Fp.activate
    split
    · rfl
    · exact push _ _
    · exact push _ _
  have load : ∀ (l : List Nat) (r : Runner), (r.loadFps l).hrtiMark = r.hrtiMark := by
    intro l
    unfold Runner.loadFps
    induction l with
    | nil => intro r; rfl
    | cons a t ih =>
      intro r
      refine (ih _).trans ?_
      show ((r.loadFp a).getD r).hrtiMark = _
      unfold Runner.loadFp
      split
      · rfl
      · exact act _ _
  have init : ∀ (fps : List Nat) (l : List Strat) (r : Runner), (l.foldl (Strat.init fps) r).hrtiMark = r.hrtiMark := by
    intro fps l
    induction l with
    | nil => intro r; rfl
    | cons a t ih =>
      intro r
      refine (ih _).trans ?_
      cases a
      · exact push semsUne93 r
      · exact (push semsUne98 (r.loadFps fps)).trans (load fps r)
      · exact push semsBe93 r
      · exact push semsBe98 r
      · exact push semsTre98 r
      · exact push semsFish r
      · exact (push semsStarfish (r.pushSems semsFish)).trans (push semsFish r)
  have notify : ∀ r : Runner, (notifyDelta r).hrtiMark = r.hrtiMark := by
    intro r; unfold notifyDelta; dsimp only; split <;> rfl
  constructor
  · have h0 := init cfg.fingerprints (strategiesFor cfg) { id := id, strats := strategiesFor cfg }
    unfold newRunner
    exact (notify _).trans h0
  · have h0 := init p.loaded (p.strats.map Strat.cloned) { id := id, strats := p.strats.map Strat.cloned, ss := p.ss.copy, ip := p.ip, parent := some p.id }
    unfold Runner.clone at hr
    dsimp only at hr
    split at hr
    · cases hr
    · cases hr
      exact h0

/-- **C80** `S` pushes a number of microseconds less than a second (the clock stands after 1970). -/
theorem C80_second {s : St} (h : s.Lifo) (hc : 0 ≤ s.g.orc s.g.asked) :
    ∃ s' r, fpRun .HRTI 83 s = .ok (.none, s') ∧ (s.setG { s.g with asked := s.g.asked + 1 }).Leaves s' (r :: s.items) ∧ 0 ≤ r ∧ r < 1000000 := by
  refine ⟨_, (s.g.orc s.g.asked).tmod 1000000, ?_, ⟨s.top.ops + 1, rfl⟩, ?_, ?_⟩
  · show hrtiSecond s = _
    have hl : (s.setG { s.g with asked := s.g.asked + 1 }).Lifo := h
    rw [hrtiSecond, bind_ok (show ask s = .ok (s.g.orc s.g.asked, s.setG { s.g with asked := s.g.asked + 1 }) from rfl)]
    have e := setItems_self hl
    rw [← e, bind_ok (pushTop_run hl _ _ _), e]
    rfl
  · rw [Int.tmod_eq_emod_of_nonneg hc]; omega
  · rw [Int.tmod_eq_emod_of_nonneg hc]; omega

example : (exState [1]).Lifo ∧ (exState [1]).cur.hrtiMark = 0 ∧
    (match fpRun .HRTI 77 { exState [1] with g.orc := fun n => 100 + n } with
      | .ok (_, t) => t.Lifo ∧ t.cur.hrtiMark = 100 ∧ 100 ≤ t.g.orc t.g.asked
      | .error _ => False) := ⟨by decide, rfl, by decide, rfl, by decide⟩

/-! ### C81 -/

/-- The number that two words stand for: two's complement with 128 bits. -/
def longVal (n : Int × Int) : Int := n.1 * 2 ^ 64 + n.2 % 2 ^ 64

/-- `r` is `x` reduced to 128 bits. -/
def Wraps (r : Int × Int) (x : Int) : Prop := InI64 r.1 ∧ InI64 r.2 ∧ ∃ k, x = longVal r + k * 2 ^ 128

/-- The operations of the number library do what they are called. -/
structure LongOps.Lawful (o : LongOps) : Prop where
  ofInt : ∀ x, Wraps (o.ofInt x) x
  add : ∀ a b, Wraps (o.add a b) (longVal a + longVal b)
  mul : ∀ a b, Wraps (o.mul a b) (longVal a * longVal b)
  div : ∀ a b, longVal b ≠ 0 → Wraps (o.div a b) ((longVal a).tdiv (longVal b))
  rem : ∀ a b, longVal b ≠ 0 → Wraps (o.rem a b) ((longVal a).tmod (longVal b))
  neg : ∀ a, Wraps (o.neg a) (- longVal a)
  isNeg : ∀ a, o.isNeg a = true ↔ longVal a < 0
  isZero : ∀ a, o.isZero a = true ↔ longVal a = 0
  text : ∀ a, IsDecimal (longVal a) (o.text a)

theorem wraps_congr {r : Int × Int} {x y k : Int} (h : Wraps r x) (e : y = x + k * 2 ^ 128) : Wraps r y := by
  obtain ⟨h1, h2, j, h3⟩ := h
  exact ⟨h1, h2, j + k, by rw [e, h3]; omega⟩

/-- Two long numbers on the stack, the second on top. -/
def twoLongs (a b : Int × Int) (l : List Int) : List Int := b.2 :: b.1 :: a.2 :: a.1 :: l

theorem popLong_run {s : St} (h : s.Lifo) (a : Int × Int) (l n) :
    popLong (s.setItems (a.2 :: a.1 :: l) n) = .ok (a, s.setItems l (n + 2)) := by
  rw [popLong, bind_ok (popTop_head h _ _ _), bind_ok (popTop_head h _ _ _), pure_run]

theorem pushLong_run {s : St} (h : s.Lifo) (a : Int × Int) (l n) : pushLong a (s.setItems l n) = .ok ((), s.setItems (a.2 :: a.1 :: l) (n + 2)) := by
  rw [pushLong, bind_ok (pushTop_run h _ _ _), pushTop_run h]

theorem longBin_run {s : St} (h : s.Lifo) (f : LongOps → Int × Int → Int × Int → Int × Int) {a b : Int × Int} {l : List Int} (hi : s.items = twoLongs a b l) :
    ∃ s', longBin f s = .ok (.none, s') ∧ s.Leaves s' ((f s.g.lng a b).2 :: (f s.g.lng a b).1 :: l) := by
  refine ⟨_, ?_, s.top.ops + 6, rfl⟩
  conv => lhs; rw [← setItems_self h, hi, twoLongs]
  rw [longBin, bind_ok (popLong_run h _ _ _), bind_ok (popLong_run h _ _ _),
    bind_ok (show getLng (s.setItems l (s.top.ops + 2 + 2)) = .ok (s.g.lng, s.setItems l (s.top.ops + 2 + 2)) from rfl), bind_ok (pushLong_run h _ _ _)]
  rfl

theorem longDiv_run {s : St} (h : s.Lifo) (f : LongOps → Int × Int → Int × Int → Int × Int) {a b : Int × Int} {l : List Int} (hi : s.items = twoLongs a b l) :
    ∃ s' r, longDiv f s = .ok (.none, s') ∧ s.Leaves s' (r.2 :: r.1 :: l) ∧ r = if s.g.lng.isZero b then s.g.lng.ofInt 0 else f s.g.lng a b := by
  refine ⟨_, if s.g.lng.isZero b then s.g.lng.ofInt 0 else f s.g.lng a b, ?_, ⟨s.top.ops + 6, rfl⟩, rfl⟩
  conv => lhs; rw [← setItems_self h, hi, twoLongs]
  rw [longDiv, bind_ok (popLong_run h _ _ _), bind_ok (popLong_run h _ _ _),
    bind_ok (show getLng (s.setItems l (s.top.ops + 2 + 2)) = .ok (s.g.lng, s.setItems l (s.top.ops + 2 + 2)) from rfl)]
  split
  · rw [bind_ok (pushLong_run h _ _ _)]; rfl
  · rw [bind_ok (pushLong_run h _ _ _)]; rfl

/-- The exact result of the two-operand letters of LONG that work; dividing by zero gives zero. -/
def longOp : Int → Option (Int → Int → Int)
  | 65 => some fun a b => a + b
  | 77 => some fun a b => a * b
  | 68 => some fun a b => if b = 0 then 0 else a.tdiv b
  | 79 => some fun a b => if b = 0 then 0 else a.tmod b
  | _ => none

/-- **C81** (partial: the number library is assumed to be right; for `S` see `C81_false_subtraction`) `A`, `M`, `D` and `O` replace two long numbers by their sum, product, quotient and
remainder (rounding towards zero; 0 for a division by zero) reduced to 128 bits, and change nothing else. -/
theorem C81_arith_partial {s : St} (h : s.Lifo) (ho : s.g.lng.Lawful) {c : Int} {f : Int → Int → Int} (hf : longOp c = some f) {a b : Int × Int} {l : List Int}
    (hi : s.items = twoLongs a b l) :
    ∃ s' r, fpRun .LONG c s = .ok (.none, s') ∧ s.Leaves s' (r.2 :: r.1 :: l) ∧ Wraps r (f (longVal a) (longVal b)) := by
  unfold longOp at hf
  split at hf
  · cases hf
    obtain ⟨s', h1, h2⟩ := longBin_run h LongOps.add hi
    exact ⟨s', _, h1, h2, ho.add _ _⟩
  · cases hf
    obtain ⟨s', h1, h2⟩ := longBin_run h LongOps.mul hi
    exact ⟨s', _, h1, h2, ho.mul _ _⟩
  · cases hf
    obtain ⟨s', r, h1, h2, h3⟩ := longDiv_run h LongOps.div hi
    refine ⟨s', r, h1, h2, ?_⟩
    by_cases hz : longVal b = 0
    · rw [h3, if_pos ((ho.isZero b).mpr hz)]; simp only [hz, if_true]; exact ho.ofInt 0
    · rw [h3, if_neg (fun e => hz ((ho.isZero b).mp e))]; simp only [hz, if_false]; exact ho.div _ _ hz
  · cases hf
    obtain ⟨s', r, h1, h2, h3⟩ := longDiv_run h LongOps.rem hi
    refine ⟨s', r, h1, h2, ?_⟩
    by_cases hz : longVal b = 0
    · rw [h3, if_pos ((ho.isZero b).mpr hz)]; simp only [hz, if_true]; exact ho.ofInt 0
    · rw [h3, if_neg (fun e => hz ((ho.isZero b).mp e))]; simp only [hz, if_false]; exact ho.rem _ _ hz
  · cases hf

/-- **C81** is violated: `S` leaves the sum instead of the difference; the two differ unless twice the second number is 0 with 128 bits. -/
theorem C81_false_subtraction {s : St} (h : s.Lifo) (ho : s.g.lng.Lawful) {a b : Int × Int} {l : List Int} (hi : s.items = twoLongs a b l)
    (hb : ¬ (2 : Int) ^ 127 ∣ longVal b) :
    ∃ s' r, fpRun .LONG 83 s = .ok (.none, s') ∧ s.Leaves s' (r.2 :: r.1 :: l) ∧ ¬ Wraps r (longVal a - longVal b) := by
  obtain ⟨s', h1, h2⟩ := longBin_run h LongOps.add hi
  refine ⟨s', _, h1, h2, ?_⟩
  rintro ⟨-, -, k, hk⟩
  obtain ⟨-, -, j, hj⟩ := ho.add a b
  apply hb
  refine ⟨j - k, ?_⟩
  omega

/-- **C81** (partial: the number library is assumed to be right) `N` negates, `B` leaves the absolute value (with 128 bits, so that -2^127 stays). -/
theorem C81_sign_partial {s : St} (h : s.Lifo) (ho : s.g.lng.Lawful) {a : Int × Int} {l : List Int} (hi : s.items = a.2 :: a.1 :: l) (ha : InI64 a.1 ∧ InI64 a.2) :
    (∃ s' r, fpRun .LONG 78 s = .ok (.none, s') ∧ s.Leaves s' (r.2 :: r.1 :: l) ∧ Wraps r (- longVal a)) ∧
    (∃ s' r, fpRun .LONG 66 s = .ok (.none, s') ∧ s.Leaves s' (r.2 :: r.1 :: l) ∧ Wraps r (longVal a).natAbs) := by
  have g : ∀ m, getLng (s.setItems l m) = .ok (s.g.lng, s.setItems l m) := fun _ => rfl
  constructor
  · refine ⟨_, s.g.lng.neg a, ?_, ⟨s.top.ops + 4, rfl⟩, ho.neg a⟩
    show longNeg s = _
    conv => lhs; rw [← setItems_self h, hi]
    rw [longNeg, bind_ok (popLong_run h _ _ _), bind_ok (g _), bind_ok (pushLong_run h _ _ _)]; rfl
  · refine ⟨_, if s.g.lng.isNeg a then s.g.lng.neg a else a, ?_, ⟨s.top.ops + 4, rfl⟩, ?_⟩
    · show longAbs s = _
      conv => lhs; rw [← setItems_self h, hi]
      rw [longAbs, bind_ok (popLong_run h _ _ _), bind_ok (g _), bind_ok (pushLong_run h _ _ _)]; rfl
    · split
      · rename_i hn
        have := (ho.isNeg a).mp hn
        rw [show ((longVal a).natAbs : Int) = - longVal a by omega]
        exact ho.neg a
      · rename_i hn
        have : ¬ longVal a < 0 := fun e => hn ((ho.isNeg a).mpr e)
        exact ⟨ha.1, ha.2, 0, by omega⟩

/-- **C81** `E` extends a cell to the long number with the same value. -/
theorem C81_extend {s : St} (h : s.Lifo) {x : Int} {l : List Int} (hi : s.items = x :: l) (hx : InI64 x) :
    ∃ s' r, fpRun .LONG 69 s = .ok (.none, s') ∧ s.Leaves s' (r.2 :: r.1 :: l) ∧ InI64 r.1 ∧ InI64 r.2 ∧ longVal r = x := by
  refine ⟨_, (if x < 0 then -1 else 0, x), ?_, ⟨s.top.ops + 3, rfl⟩, ?_, hx, ?_⟩
  · show longExtend s = _
    conv => lhs; rw [← setItems_self h, hi]
    rw [longExtend, bind_ok (popTop_head h _ _ _), bind_ok (pushLong_run h _ _ _)]; rfl
  · show InI64 (if x < 0 then -1 else 0)
    split <;> decide
  · unfold longVal
    unfold InI64 i64Min i64Max at hx
    show (if x < 0 then -1 else 0) * 2 ^ 64 + x % 2 ^ 64 = x
    split <;> omega

/-- **C81** (partial: the number library is assumed to be right) `P` writes the number in decimal and a space. -/
theorem C81_print_partial {s : St} (h : s.Lifo) (ho : s.g.lng.Lawful) {a : Int × Int} {l : List Int} (hi : s.items = a.2 :: a.1 :: l) :
    ∃ s' t, fpRun .LONG 80 s = .ok (.none, s') ∧ IsDecimal (longVal a) t ∧ Writes s s' (t ++ [32]) l := by
  refine ⟨_, s.g.lng.text a, ?_, ho.text a, s.top.ops + 2, rfl⟩
  show longOut s = _
  conv => lhs; rw [← setItems_self h, hi]
  rw [longOut, bind_ok (popLong_run h _ _ _), bind_ok (show getLng (s.setItems l (s.top.ops + 2)) = .ok (s.g.lng, s.setItems l (s.top.ops + 2)) from rfl),
    bind_ok (emit_run _ _)]
  rfl

theorem longDigits_spec {o : LongOps} (ho : o.Lawful) (str : List Int) (acc : Int × Int) (v : Int) (ha : Wraps acc v) :
    Wraps (longDigits o acc str) (str.foldl (fun a c => a * 10 + (c - 48)) v) := by
  induction str generalizing acc v with
  | nil => exact ha
  | cons c t ih =>
    rw [longDigits, List.foldl_cons]
    apply ih
    obtain ⟨-, -, k, hk⟩ := ha
    obtain ⟨-, -, k1, h1⟩ := ho.ofInt 10
    obtain ⟨-, -, k2, h2⟩ := ho.ofInt (c - 48)
    obtain ⟨-, -, k3, h3⟩ := ho.mul acc (o.ofInt 10)
    have h4 := ho.add (o.mul acc (o.ofInt 10)) (o.ofInt (c - 48))
    generalize longVal (o.mul acc (o.ofInt 10)) = m at *
    generalize longVal (o.ofInt (c - 48)) = d at *
    generalize longVal (o.ofInt 10) = ten at *
    generalize longVal acc = x at *
    have e10 : ten = 10 - k1 * 2 ^ 128 := by omega
    subst e10
    have e3 : x * (10 - k1 * 2 ^ 128) = x * 10 - x * k1 * 2 ^ 128 := by rw [Int.mul_sub, Int.mul_assoc]
    rw [e3] at h3
    refine wraps_congr (k := k * 10 + x * k1 + k3 + k2) h4 ?_
    generalize x * k1 = xk at *
    omega

/-- **C81** (partial: the number library is assumed to be right; see `C81_false_negative`) `Z` reads back the decimal notation of a number that is not negative. -/
theorem C81_read_partial {s : St} (h : s.Lifo) (ho : s.g.lng.Lawful) {n : Int} {t l : List Int} (hn : 0 ≤ n) (ht : IsDecimal n t) (hi : s.items = t ++ 0 :: l) :
    ∃ s' r, fpRun .LONG 90 s = .ok (.none, s') ∧ s.Leaves s' (r.2 :: r.1 :: l) ∧ Wraps r n := by
  obtain ⟨-, ⟨-, hd, -⟩, hv⟩ : 0 ≤ n ∧ IsDigits t ∧ digitsValue t = n := by
    rcases ht with h' | ⟨h', _⟩
    · exact h'
    · omega
  have hs : IsStr t := by
    intro c hc
    have := hd c hc
    refine ⟨by omega, ?_⟩
    unfold toChar; rw [Int.bmod_def]; split <;> omega
  obtain ⟨n', hp⟩ := popStr h hs l s.top.ops
  refine ⟨_, longDigits s.g.lng (s.g.lng.ofInt 0) t, ?_, ⟨n' + 2, rfl⟩, ?_⟩
  · show longRead s = _
    conv => lhs; rw [← setItems_self h, hi]
    rw [longRead, bind_ok hp, bind_ok (show getLng (s.setItems l n') = .ok (s.g.lng, s.setItems l n') from rfl), bind_ok (pushLong_run h _ _ _)]
    rfl
  · rw [← hv]; exact longDigits_spec ho t _ 0 (ho.ofInt 0)

/-- **C81** is violated: `Z` reads what `P` writes for -5 as -25. -/
theorem C81_false_negative {s : St} (h : s.Lifo) (ho : s.g.lng.Lawful) {l : List Int} (hi : s.items = [45, 53] ++ 0 :: l) :
    IsDecimal (-5) [45, 53] ∧ ∃ s' r, fpRun .LONG 90 s = .ok (.none, s') ∧ s.Leaves s' (r.2 :: r.1 :: l) ∧ Wraps r (-25) := by
  refine ⟨Or.inr ⟨by decide, [53], rfl, ⟨by decide, by decide, by decide⟩, by decide⟩, ?_⟩
  have hs : IsStr [45, 53] := by unfold IsStr; decide
  obtain ⟨n', hp⟩ := popStr h hs l s.top.ops
  refine ⟨_, longDigits s.g.lng (s.g.lng.ofInt 0) [45, 53], ?_, ⟨n' + 2, rfl⟩, ?_⟩
  · show longRead s = _
    conv => lhs; rw [← setItems_self h, hi]
    rw [longRead, bind_ok hp, bind_ok (show getLng (s.setItems l n') = .ok (s.g.lng, s.setItems l n') from rfl), bind_ok (pushLong_run h _ _ _)]
    rfl
  · exact longDigits_spec ho [45, 53] _ 0 (ho.ofInt 0)

/-- The two words of a number with 128 bits. -/
def exWords (x : Int) : Int × Int := (toI64 (x / 2 ^ 64), toI64 x)

/-- A number library that computes with integers. For examples. -/
def exLong : LongOps :=
  { ofInt := exWords, add := fun a b => exWords (longVal a + longVal b), mul := fun a b => exWords (longVal a * longVal b)
    div := fun a b => exWords ((longVal a).tdiv (longVal b)), rem := fun a b => exWords ((longVal a).tmod (longVal b)), neg := fun a => exWords (- longVal a)
    isNeg := fun a => longVal a < 0, isZero := fun a => longVal a = 0, text := fun a => decimal (longVal a) }

theorem exWords_wraps (x : Int) : Wraps (exWords x) x := by
  have b1 : ∀ y, InI64 (toI64 y) := by
    intro y
    unfold toI64 InI64 i64Min i64Max
    have h1 := Int.le_bmod (x := y) (m := 18446744073709551616) (by decide)
    have h2 := Int.bmod_lt (x := y) (m := 18446744073709551616) (by decide)
    omega
  refine ⟨b1 _, b1 _, Int.bdiv (x / 2 ^ 64) 18446744073709551616, ?_⟩
  have h1 := Int.bmod_add_bdiv (x / 2 ^ 64) 18446744073709551616
  have h2 := Int.bmod_add_bdiv x 18446744073709551616
  unfold longVal exWords toI64
  dsimp only
  omega

theorem exLong_lawful : exLong.Lawful where
  ofInt := exWords_wraps
  add _ _ := exWords_wraps _
  mul _ _ := exWords_wraps _
  div _ _ _ := exWords_wraps _
  rem _ _ _ := exWords_wraps _
  neg _ := exWords_wraps _
  isNeg _ := by simp [exLong]
  isZero _ := by simp [exLong]
  text _ := decimal_spec _

/-- The hypotheses of the theorems on LONG are met. -/
example : let s := { exState [5, 0, -3, -1, 7] with g.lng := exLong }
    s.Lifo ∧ s.g.lng.Lawful ∧ s.items = twoLongs (-1, -3) (0, 5) [7] ∧ longVal (-1, -3) = -3 ∧ longVal (0, 5) = 5 ∧ ¬ (2 : Int) ^ 127 ∣ longVal (0, 5) ∧
    IsDecimal 42 [52, 50] :=
  ⟨by decide, exLong_lawful, by decide, by decide, by decide, by decide, Or.inl ⟨by decide, ⟨by decide, by decide, by decide⟩, by decide⟩⟩

/-- What the number library should do for shifts by 0 to 127 places. -/
structure LongOps.Shifts (o : LongOps) : Prop where
  shl : ∀ a n, 0 ≤ n → n < 128 → Wraps (o.shl a n) (longVal a * 2 ^ n.toNat)
  shr : ∀ a n, 0 ≤ n → n < 128 → Wraps (o.shr a n) (longVal a / 2 ^ n.toNat)

/-- **C81** (partial: the number library is assumed to be right) `L` and `R` replace a long number and, on top, a number of places by the product with, and the quotient rounded down by,
that power of two. -/
theorem C81_shift_partial {s : St} (h : s.Lifo) (ho : s.g.lng.Shifts) {a : Int × Int} {n : Int} (h0 : 0 ≤ n) (h1 : n < 128) {l : List Int} (hi : s.items = n :: a.2 :: a.1 :: l) :
    (∃ s' r, fpRun .LONG 76 s = .ok (.none, s') ∧ s.Leaves s' (r.2 :: r.1 :: l) ∧ Wraps r (longVal a * 2 ^ n.toNat)) ∧
    (∃ s' r, fpRun .LONG 82 s = .ok (.none, s') ∧ s.Leaves s' (r.2 :: r.1 :: l) ∧ Wraps r (longVal a / 2 ^ n.toNat)) := by
  have key : ∀ f : LongOps → Int × Int → Int → Int × Int, ∃ s', longShift f s = .ok (.none, s') ∧ s.Leaves s' ((f s.g.lng a n).2 :: (f s.g.lng a n).1 :: l) := by
    intro f
    refine ⟨_, ?_, s.top.ops + 5, rfl⟩
    conv => lhs; rw [← setItems_self h, hi]
    rw [longShift, bind_ok (popTop_head h _ _ _), bind_ok (popLong_run h _ _ _),
      bind_ok (show getLng (s.setItems l (s.top.ops + 1 + 2)) = .ok (s.g.lng, s.setItems l (s.top.ops + 1 + 2)) from rfl), bind_ok (pushLong_run h _ _ _)]
    rfl
  obtain ⟨s1, e1, e2⟩ := key LongOps.shl
  obtain ⟨s2, e3, e4⟩ := key LongOps.shr
  exact ⟨⟨s1, _, e1, e2, ho.shl a n h0 h1⟩, ⟨s2, _, e3, e4, ho.shr a n h0 h1⟩⟩

/-- The hypotheses of `C81_shift_partial` are met: -3 and 5 places. -/
example : let s := { exState [5, -3, -1, 7] with g.lng := { exLong with shl := fun a n => exWords (longVal a * 2 ^ n.toNat), shr := fun a n => exWords (longVal a / 2 ^ n.toNat) } }
    s.Lifo ∧ s.g.lng.Shifts ∧ s.items = 5 :: (-1, (-3 : Int)).2 :: (-1, (-3 : Int)).1 :: [7] ∧ longVal (-1, -3) = -3 :=
  ⟨by decide, ⟨fun _ _ _ _ => exWords_wraps _, fun _ _ _ _ => exWords_wraps _⟩, by decide, by decide⟩

/-! ### C82 -/

/-- The operation of a two-operand letter of FPDP. -/
def floatOp : Int → Option (FloatOps → Int → Int → Int)
  | 65 => some FloatOps.add
  | 83 => some FloatOps.sub
  | 77 => some FloatOps.mul
  | 68 => some FloatOps.div
  | _ => none

/-- **C82** (partial: what the operations compute is left to the machine) `A`, `S`, `M` and `D` of FPDP replace two floating point numbers by what the operation makes of the lower and
the upper one, in this order, and change nothing else. -/
theorem C82_double_partial {s : St} (h : s.Lifo) {c : Int} {f : FloatOps → Int → Int → Int} (hf : floatOp c = some f) {a b : Int} {l : List Int}
    (hi : s.items = b :: a :: l) : ∃ s', fpRun .FPDP c s = .ok (.none, s') ∧ s.Leaves s' (f s.g.flt a b :: l) := by
  have key : ∃ s', fpdpBin f s = .ok (.none, s') ∧ s.Leaves s' (f s.g.flt a b :: l) := by
    refine ⟨_, ?_, s.top.ops + 3, rfl⟩
    conv => lhs; rw [← setItems_self h, hi]
    rw [fpdpBin, bind_ok (popTop_head h _ _ _), bind_ok (popTop_head h _ _ _),
      bind_ok (show getFlt (s.setItems l (s.top.ops + 1 + 1)) = .ok (s.g.flt, s.setItems l (s.top.ops + 1 + 1)) from rfl), bind_ok (pushTop_run h _ _ _)]
    rfl
  unfold floatOp at hf
  split at hf <;> cases hf <;> exact key

/-- **C82** (partial: what the functions compute is left to the machine) Each of the one-operand letters of FPDP replaces the number on top by what the function of that very letter
makes of it; `Y` applies its function to the lower and the upper number. -/
theorem C82_function_partial {s : St} (h : s.Lifo) {x y : Int} {l : List Int} :
    (∀ c ∈ [66, 67, 69, 71, 72, 75, 76, 78, 81, 84, 86, 88], ∀ r, s.items = x :: l → s.g.flt.fn .FPDP c [x] = some r →
      ∃ s', fpRun .FPDP c s = .ok (.none, s') ∧ s.Leaves s' (r :: l)) ∧
    (∀ r, s.items = y :: x :: l → s.g.flt.fn .FPDP 89 [x, y] = some r → ∃ s', fpRun .FPDP 89 s = .ok (.none, s') ∧ s.Leaves s' (r :: l)) := by
  constructor
  · intro c hc r hi hr
    have key : fpdpFn c s = .ok (.none, s.setItems (r :: l) (s.top.ops + 2)) := by
      conv => lhs; rw [← setItems_self h, hi]
      rw [fpdpFn, bind_ok (popTop_head h _ _ _), bind_ok (show mathFn .FPDP c [x] (s.setItems l (s.top.ops + 1)) = .ok (r, s.setItems l (s.top.ops + 1)) by
        rw [mathFn, bind_ok (show getFlt (s.setItems l (s.top.ops + 1)) = .ok (s.g.flt, s.setItems l (s.top.ops + 1)) from rfl), hr]; rfl), bind_ok (pushTop_run h _ _ _)]
      rfl
    refine ⟨_, ?_, s.top.ops + 2, rfl⟩
    · rw [← key]
      simp only [List.mem_cons, List.not_mem_nil, or_false] at hc
      rcases hc with rfl | rfl | rfl | rfl | rfl | rfl | rfl | rfl | rfl | rfl | rfl | rfl <;> rfl
  · intro r hi hr
    refine ⟨_, ?_, s.top.ops + 3, rfl⟩
    show fpdpPow s = _
    conv => lhs; rw [← setItems_self h, hi]
    rw [fpdpPow, bind_ok (popTop_head h _ _ _), bind_ok (popTop_head h _ _ _),
      bind_ok (show mathFn .FPDP 89 [x, y] (s.setItems l (s.top.ops + 1 + 1)) = .ok (r, s.setItems l (s.top.ops + 1 + 1)) by
        rw [mathFn, bind_ok (show getFlt (s.setItems l (s.top.ops + 1 + 1)) = .ok (s.g.flt, s.setItems l (s.top.ops + 1 + 1)) from rfl), hr]; rfl), bind_ok (pushTop_run h _ _ _)]
    rfl

/-- The hypotheses of `C82_function_partial` are met. -/
example : let s := { exState [7, 9] with g.flt := { exFloat with fn := fun _ _ a => some (a.headD 0 + 1) } }
    s.Lifo ∧ s.items = 7 :: [9] ∧ s.g.flt.fn .FPDP 66 [7] = some 8 ∧ s.items = 7 :: 9 :: [] ∧ s.g.flt.fn .FPDP 89 [9, 7] = some 10 :=
  ⟨by decide, by decide, rfl, by decide, rfl⟩

/-- **C82** (partial: what the conversions compute is left to the machine) An integer that the floating point numbers can represent is the same after `F` and `I` of FPDP. -/
theorem C82_convert_partial {s : St} (h : s.Lifo) {x : Int} {l : List Int} (hi : s.items = x :: l) (hx : s.g.flt.toI64 (s.g.flt.ofInt x) = some x) :
    ∃ s₁ s₂, fpRun .FPDP 70 s = .ok (.none, s₁) ∧ fpRun .FPDP 73 s₁ = .ok (.none, s₂) ∧ s.Leaves s₂ s.items := by
  refine ⟨s.setItems (s.g.flt.ofInt x :: l) (s.top.ops + 2), s.setItems (x :: l) (s.top.ops + 4), ?_, ?_, by rw [hi]; exact ⟨_, rfl⟩⟩
  · show fpdpFromInt s = _
    conv => lhs; rw [← setItems_self h, hi]
    rw [fpdpFromInt, bind_ok (popTop_head h _ _ _),
      bind_ok (show getFlt (s.setItems l (s.top.ops + 1)) = .ok (s.g.flt, s.setItems l (s.top.ops + 1)) from rfl), bind_ok (pushTop_run h _ _ _)]
    rfl
  · show fpdpToInt _ = _
    rw [fpdpToInt, bind_ok (popTop_head h _ _ _)]
    have : fishInt (s.g.flt.ofInt x) (s.setItems l (s.top.ops + 2 + 1)) = .ok (x, s.setItems l (s.top.ops + 2 + 1)) := by
      rw [fishInt, bind_ok (show getFlt (s.setItems l (s.top.ops + 2 + 1)) = .ok (s.g.flt, s.setItems l (s.top.ops + 2 + 1)) from rfl), hx]; rfl
    rw [bind_ok this, bind_ok (pushTop_run h _ _ _)]
    rfl

/-- **C82** is violated: every letter of FPSP that should leave a floating point number is undefined, on every stack. -/
theorem C82_undefined_single {s : St} (h : s.Lifo) {c : Int} (hc : c ∈ [65, 66, 67, 68, 69, 70, 71, 72, 75, 76, 77, 78, 81, 82, 83, 84, 86, 88, 89]) :
    ∃ e, fpRun .FPSP c s = .error e := by
  have hb : ∃ e, fpspBin s = .error e := ⟨.outOfRange, by
    apply run_items h
    rw [fpspBin, bind_ok (popTop_run h _ _), bind_ok (popTop_run h _ _)]; rfl⟩
  have hf : ∃ e, fpspFn s = .error e := ⟨.outOfRange, by
    apply run_items h
    rw [fpspFn, bind_ok (popTop_run h _ _)]; rfl⟩
  have hr : ∃ e, fpspRead s = .error e := by
    obtain ⟨n', hn⟩ := popString_run h s.items s.top.ops
    rw [setItems_self h] at hn
    rw [fpspRead, bind_ok hn]
    rw [bind_ok (show getFlt (s.setItems (s.items.dropWhile (fun x => decide (x ≠ 0))).tail n') = .ok (s.g.flt, _) from rfl)]
    cases s.g.flt.parse ((s.items.takeWhile (fun x => decide (x ≠ 0))).map toChar) with
    | some v => exact ⟨_, rfl⟩
    | none => exact ⟨_, rfl⟩
  simp only [List.mem_cons, List.not_mem_nil, or_false] at hc
  rcases hc with rfl | rfl | rfl | rfl | rfl | rfl | rfl | rfl | rfl | rfl | rfl | rfl | rfl | rfl | rfl | rfl | rfl | rfl | rfl <;>
    first | exact hb | exact hf | exact hr

/-- **C82** (partial: see `C82_false_cut`) `I`, `D` and `F` of FPRT leave the text that `printf` makes of a value and a format, if it has at most 1023 characters. -/
theorem C82_format_partial {s : St} (h : s.Lifo) {c : Int} (hc : c = 68 ∨ c = 70 ∨ c = 73) {x : Int} {f l t : List Int} (hf : IsStr f) (hi : s.items = x :: (f ++ 0 :: l))
    (ht : s.g.flt.fmt c f [x] = .ok (some t)) (hz : 0 ∉ t) (hlen : t.length ≤ 1023) :
    ∃ s', fpRun .FPRT c s = .ok (.none, s') ∧ s.Leaves s' (t ++ 0 :: l) := by
  have hrun : fpRun .FPRT c = fprtCell c := by rcases hc with rfl | rfl | rfl <;> rfl
  have nz : ∀ u : List Int, 0 ∉ u → cstr u = u := by
    intro u hu
    unfold cstr
    have := List.takeWhile_append_of_pos (p := fun x : Int => decide (x ≠ 0)) (l₁ := u) (l₂ := [])
      (fun c hc => by simp; rintro rfl; exact hu hc)
    simpa using this
  obtain ⟨n', hp⟩ := popStr h hf l (s.top.ops + 1)
  refine ⟨_, ?_, n' + 1 + t.length, rfl⟩
  rw [hrun]
  conv => lhs; rw [← setItems_self h, hi]
  rw [fprtCell, bind_ok (popTop_head h _ _ _), bind_ok hp, fprtPrint, bind_ok (show getFlt (s.setItems l n') = .ok (s.g.flt, s.setItems l n') from rfl),
    nz f fun h0 => (hf 0 h0).1 rfl, ht, bind_ok (lift_ok _ _)]
  show (pushStr (cstr (t.take 1023)) >>= _) _ = _
  rw [List.take_of_length_le hlen, nz t hz, bind_ok (pushStr_run h _ _ _)]
  rfl

/-- **C82** is violated: a longer text is cut to 1023 characters. -/
theorem C82_false_cut {s : St} (h : s.Lifo) {x : Int} {f l t : List Int} (hf : IsStr f) (hi : s.items = x :: (f ++ 0 :: l))
    (ht : s.g.flt.fmt 73 f [x] = .ok (some t)) (hz : 0 ∉ t) (hlen : 1023 < t.length) :
    ∃ s', fpRun .FPRT 73 s = .ok (.none, s') ∧ s.Leaves s' (t.take 1023 ++ 0 :: l) ∧ t.take 1023 ≠ t := by
  have nz : ∀ u : List Int, 0 ∉ u → cstr u = u := by
    intro u hu
    unfold cstr
    have := List.takeWhile_append_of_pos (p := fun x : Int => decide (x ≠ 0)) (l₁ := u) (l₂ := [])
      (fun c hc => by simp; rintro rfl; exact hu hc)
    simpa using this
  obtain ⟨n', hp⟩ := popStr h hf l (s.top.ops + 1)
  refine ⟨_, ?_, ⟨n' + 1 + (t.take 1023).length, rfl⟩, ?_⟩
  · show fprtCell 73 s = _
    conv => lhs; rw [← setItems_self h, hi]
    rw [fprtCell, bind_ok (popTop_head h _ _ _), bind_ok hp, fprtPrint, bind_ok (show getFlt (s.setItems l n') = .ok (s.g.flt, s.setItems l n') from rfl),
      nz f fun h0 => (hf 0 h0).1 rfl, ht, bind_ok (lift_ok _ _)]
    show (pushStr (cstr (t.take 1023)) >>= _) _ = _
    rw [nz (t.take 1023) fun h0 => hz (List.mem_of_mem_take h0), bind_ok (pushStr_run h _ _ _)]
    rfl
  · intro e
    have := congrArg List.length e
    rw [List.length_take] at this
    omega

/-- The hypotheses of the theorems on floating point numbers are met: the format `%d` and a value whose text is short, or one that is long (as with `%2000d`). -/
example : (exState [42, 37, 100, 0, 9]).Lifo ∧ IsStr [37, 100] ∧ (exState [42, 37, 100, 0, 9]).items = 42 :: ([37, 100] ++ 0 :: [9]) ∧
    ({ exFloat with fmt := fun _ _ a => .ok (some (decimal (a.headD 0))) } : FloatOps).fmt 73 [37, 100] [42] = .ok (some [52, 50]) ∧
    exFloat.toI64 (exFloat.ofInt 42) = some 42 := by
  refine ⟨by decide, by unfold IsStr; decide, by decide, ?_, rfl⟩
  show Except.ok (some (decimal 42)) = _
  rw [show decimal 42 = [52, 50] by decide]

end Funge
