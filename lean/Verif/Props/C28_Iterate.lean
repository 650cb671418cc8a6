import Verif.Props.C18_Jumps
import Verif.Lemmas.Tick
/-!
# C28: `k`
-/
namespace Funge
open Exec IP

/-- `Finds a inside i j`: reading the cells `a i, a (i + 1), ...`, inside or outside a `;...;`, the first instruction (not a space, not
between semicolons) is the one at `j`. -/
inductive Finds (a : Nat → Int) : Bool → Nat → Nat → Prop
  | here {i} : a i ≠ 32 → a i ≠ 59 → Finds a false i i
  | space {i j} : a i = 32 → Finds a false (i + 1) j → Finds a false i j
  | opening {i j} : a i = 59 → Finds a true (i + 1) j → Finds a false i j
  | comment {i j} : a i ≠ 59 → Finds a true (i + 1) j → Finds a true i j
  | closing {i j} : a i = 59 → Finds a false (i + 1) j → Finds a true i j

/-- `Repeats exec c n s s'`: `n` executions of the instruction `c` lead from `s` to `s'`. -/
inductive Repeats (exec : Int → Exec Err) (c : Int) : Nat → St → St → Prop
  | zero {s} : Repeats exec c 0 s s
  | succ {n s s1 s2 e} : exec c s = .ok (e, s1) → Repeats exec c n s1 s2 → Repeats exec c (n + 1) s s2

theorem Finds.le {a : Nat → Int} {b : Bool} {i j : Nat} (h : Finds a b i j) : i ≤ j := by
  induction h <;> omega

theorem Finds.unique {a : Nat → Int} {b : Bool} {i j : Nat} (h : Finds a b i j) : ∀ {k}, Finds a b i k → k = j := by
  induction h with
  | here h1 h2 => intro k hk; cases hk <;> first | rfl | contradiction
  | space h1 _ ih =>
    intro k hk
    cases hk with
    | here => contradiction
    | space _ h => exact ih h
    | opening h => omega
  | opening h1 _ ih =>
    intro k hk
    cases hk with
    | here => contradiction
    | space h => omega
    | opening _ h => exact ih h
  | comment h1 _ ih =>
    intro k hk
    cases hk with
    | comment _ h => exact ih h
    | closing h => contradiction
  | closing h1 _ ih =>
    intro k hk
    cases hk with
    | comment h => contradiction
    | closing _ h => exact ih h

/-- Whether an odd number of the `n` cells from `i` on are semicolons. -/
def oddSemis (a : Nat → Int) (i : Nat) : Nat → Bool
  | 0 => false
  | n + 1 => (a i == 59) ^^ oddSemis a (i + 1) n

theorem scan (a : Nat → Int) (n : Nat) : ∀ (b : Bool) (i : Nat),
    (∃ j, j < i + n ∧ Finds a b i j) ∨ ∀ j, Finds a (b ^^ oddSemis a i n) (i + n) j → Finds a b i j := by
  induction n with
  | zero => intro b i; right; intro j h; simpa [oddSemis] using h
  | succ n ih =>
    intro b i
    have step : ∀ b', (b ^^ (a i == 59)) = b' → (∀ j, Finds a b' (i + 1) j → Finds a b i j) →
        (∃ j, j < i + (n + 1) ∧ Finds a b i j) ∨ ∀ j, Finds a (b ^^ oddSemis a i (n + 1)) (i + (n + 1)) j → Finds a b i j := by
      intro b' hb hstep
      rcases ih b' (i + 1) with ⟨j, h1, h2⟩ | h
      · exact .inl ⟨j, by omega, hstep j h2⟩
      · right
        intro j hj
        apply hstep j
        apply h
        rw [oddSemis, ← Bool.xor_assoc, hb] at hj
        rw [show i + 1 + n = i + (n + 1) by omega]; exact hj
    by_cases h59 : a i = 59
    · cases b with
      | false => exact step true (by simp [h59]) fun j => .opening h59
      | true => exact step false (by simp [h59]) fun j => .closing h59
    · cases b with
      | false =>
        by_cases h32 : a i = 32
        · exact step false (by simp [h32]) fun j => .space h32
        · exact .inl ⟨i, by omega, .here h32 h59⟩
      | true => exact step true (by simp [h59]) fun j => .comment h59

theorem oddSemis_congr (a : Nat → Int) (n : Nat) : ∀ (i k : Nat), (∀ m, a (m + k) = a m) → oddSemis a (i + k) n = oddSemis a i n := by
  induction n with
  | zero => intros; rfl
  | succ n ih =>
    intro i k h
    rw [oddSemis, oddSemis, h, show i + k + 1 = i + 1 + k by omega, ih _ _ h]

/-- **C28** There is a next instruction, at most two laps ahead (it may be the `k` itself). -/
theorem C28_target_exists (s : St) (h : Cruising s) (a : Nat → Int) (ha : CellsAhead s a) (h0 : a 0 ≠ 32 ∧ a 0 ≠ 59) :
    ∃ j, Finds a false 1 j ∧ ∀ n, n < s.g.cfg.dims → s.cur.ip.delta.get n ≠ 0 → (j : Int) ≤ 2 * (s.g.field.max n - s.g.field.min n + 1) := by
  obtain ⟨N, hN0, hN1, hN2, -⟩ := exists_period h
  have hp := hN2 a ha
  have hN : a N = a 0 := by have := hp 0; rwa [Nat.zero_add] at this
  have h2N : a (N + N) = a 0 := by rw [hp, hN]
  suffices hs : ∃ j, j ≤ 2 * N ∧ Finds a false 1 j by
    obtain ⟨j, h1, h2⟩ := hs
    refine ⟨j, h2, fun n hn hd => ?_⟩
    have := hN1 n hn hd
    omega
  rcases scan a (N - 1) false 1 with ⟨j, h1, h2⟩ | h1
  · exact ⟨j, by omega, h2⟩
  rw [show 1 + (N - 1) = N by omega, Bool.false_xor] at h1
  cases hodd : oddSemis a 1 (N - 1) with
  | false =>
    rw [hodd] at h1
    exact ⟨N, by omega, h1 N (.here (hN ▸ h0.1) (hN ▸ h0.2))⟩
  | true =>
    rw [hodd] at h1
    rcases scan a (N - 1) true (1 + N) with ⟨j, h2, h3⟩ | h2
    · exact ⟨j, by omega, h1 j (.comment (hN ▸ h0.2) (by rwa [Nat.add_comm] at h3))⟩
    · rw [oddSemis_congr a (N - 1) 1 N hp, hodd, show 1 + N + (N - 1) = N + N by omega, Bool.true_xor, Bool.not_true] at h2
      have h3 := h2 (N + N) (.here (h2N ▸ h0.1) (h2N ▸ h0.2))
      exact ⟨N + N, by omega, h1 _ (.comment (hN ▸ h0.2) (by rwa [Nat.add_comm] at h3))⟩

/-- `k ;x; 1`, then the same row again and again. -/
example : Cruising (exRow [107, 32, 59, 120, 59, 49] 0 [3]) ∧
    (exRow [107, 32, 59, 120, 59, 49] 0 [3]).g.field.get (exRow [107, 32, 59, 120, 59, 49] 0 [3]).cur.ip.pos = 107 :=
  ⟨exRow_cruising _ _ _ (by decide), by decide⟩

theorem untilSemiChar_run {s0 : St} {a : Nat → Int} (ha : CellsAhead s0 a) (hc : ∀ i, toChar (a i) = a i) {k j : Nat}
    (h : Finds a true (k + 1) j) : ∀ (ipk : IP) (fuel : Nat), Ahead s0 k ipk → j - k ≤ fuel →
      ∃ m ip', k < m ∧ m < j ∧ Ahead s0 m ip' ∧ Finds a false (m + 1) j ∧ untilSemiChar fuel (s0.setIP ipk) = .ok ((), s0.setIP ip') := by
  generalize hb : true = b at h
  generalize hi : k + 1 = i at h
  induction h generalizing k with
  | here => cases hb
  | space => cases hb
  | opening => cases hb
  | @comment i j h1 h2 ih =>
    subst hi
    intro ipk fuel hk hf
    have := h2.le
    obtain ⟨fuel, rfl⟩ : ∃ f, fuel = f + 1 := ⟨fuel - 1, by omega⟩
    obtain ⟨ip1, e1, e2⟩ := ahead_next hk
    obtain ⟨m, ip', f1, f2, f3, f4, f5⟩ := ih rfl rfl ip1 fuel e2 (by omega)
    refine ⟨m, ip', by omega, f2, f3, f4, ?_⟩
    rw [untilSemiChar, bind_ok (ipNext_run (s := s0.setIP ipk) e1), bind_ok (ipGet_run _)]
    have hcell : (((s0.setIP ipk).setIP ip1).g.field.get ((s0.setIP ipk).setIP ip1).cur.ip.pos) = a (k + 1) := (ha.eq e2).symm
    rw [hcell, hc, if_neg h1, setIP_setIP, f5]
  | @closing i j h1 h2 ih =>
    subst hi
    intro ipk fuel hk hf
    have := h2.le
    obtain ⟨fuel, rfl⟩ : ∃ f, fuel = f + 1 := ⟨fuel - 1, by omega⟩
    obtain ⟨ip1, e1, e2⟩ := ahead_next hk
    refine ⟨k + 1, ip1, by omega, by omega, e2, h2, ?_⟩
    rw [untilSemiChar, bind_ok (ipNext_run (s := s0.setIP ipk) e1), bind_ok (ipGet_run _)]
    have hcell : (((s0.setIP ipk).setIP ip1).g.field.get ((s0.setIP ipk).setIP ip1).cur.ip.pos) = a (k + 1) := (ha.eq e2).symm
    rw [hcell, hc, if_pos h1, setIP_setIP]; rfl

theorem iterSearch_run {s0 : St} {a : Nat → Int} (ha : CellsAhead s0 a) (hc : ∀ i, toChar (a i) = a i) :
    ∀ (fuel i j : Nat) (ipi : IP), Finds a false i j → Ahead s0 i ipi → j - i < fuel →
      ∃ ip', iterSearch fuel (a i) (s0.setIP ipi) = .ok (a j, s0.setIP ip') ∧ Ahead s0 j ip' := by
  intro fuel
  induction fuel with
  | zero => intro i j ipi _ _ h; omega
  | succ fuel ih =>
    intro i j ipi h hi hf
    cases h with
    | here h1 h2 => exact ⟨ipi, by rw [iterSearch, if_neg h2, if_neg h1]; rfl, hi⟩
    | space h1 h2 =>
      have := h2.le
      obtain ⟨ip1, e1, e2⟩ := ahead_next hi
      obtain ⟨ip', f1, f2⟩ := ih (i + 1) j ip1 h2 e2 (by omega)
      refine ⟨ip', ?_, f2⟩
      rw [iterSearch, if_neg (by omega), if_pos h1, bind_ok (ipNext_run (s := s0.setIP ipi) e1), bind_ok (ipGet_run _)]
      have hcell : (((s0.setIP ipi).setIP ip1).g.field.get ((s0.setIP ipi).setIP ip1).cur.ip.pos) = a (i + 1) := (ha.eq e2).symm
      rw [hcell, hc, setIP_setIP, f1]
    | opening h1 h2 =>
      have := h2.le
      obtain ⟨m, ipm, g1, g2, g3, g4, g5⟩ := untilSemiChar_run ha hc h2 ipi fuel hi (by omega)
      obtain ⟨ip1, e1, e2⟩ := ahead_next g3
      obtain ⟨ip', f1, f2⟩ := ih (m + 1) j ip1 g4 e2 (by omega)
      refine ⟨ip', ?_, f2⟩
      rw [iterSearch, if_pos h1, bind_ok g5, bind_ok (ipNext_run (s := s0.setIP ipm) e1), bind_ok (ipGet_run _)]
      have hcell : (((s0.setIP ipm).setIP ip1).g.field.get ((s0.setIP ipm).setIP ip1).cur.ip.pos) = a (m + 1) := (ha.eq e2).symm
      rw [hcell, hc, setIP_setIP, f1]

theorem iterRun_repeats (exec : Int → Exec Err) (c : Int) (n : Nat) : ∀ s s', iterRun exec c n s = .ok ((), s') ↔ Repeats exec c n s s' := by
  induction n with
  | zero =>
    intro s s'
    constructor
    · intro h; cases h; exact .zero
    · intro h; cases h; rfl
  | succ n ih =>
    intro s s'
    constructor
    · intro h
      obtain ⟨e, s1, h1, h2⟩ := bind_inv h
      exact .succ h1 ((ih _ _).1 h2)
    · intro h
      cases h with
      | succ h1 h2 =>
        show (exec c >>= fun _ => iterRun exec c n) s = _
        rw [bind_ok h1]; exact (ih _ _).2 h2

/-- What remains of `k` once the instruction is found. -/
theorem iterate_reduces (exec : Int → Exec Err) (s : St) (h : s.Lifo) (a : Nat → Int) (ha : CellsAhead s a) (hc : ∀ i, toChar (a i) = a i)
    (j : Nat) (hj : Finds a false 1 j) (hf : j ≤ s.g.fuel) :
    ∃ ip0 n, SameMotion ip0 s.cur.ip ∧ ip0.storage = s.cur.ip.storage ∧ ip0.stopped = s.cur.ip.stopped ∧
      runOp exec .iterate s = (do
        iterRun exec (a j) (toInt (s.items.headD 0)).toNat
        if toInt (s.items.headD 0) = 0 then ipNext else pure ()
        pure .none : Exec Err) ((s.setIP ip0).setItems s.items.tail n) := by
  obtain ⟨ip1, e1, e2⟩ := ahead_next (s := s) (m := 0) (ip1 := s.cur.ip) rfl
  have := hj.le
  obtain ⟨ip', f1, f2⟩ := iterSearch_run ha hc s.g.fuel 1 j ip1 hj e2 (by omega)
  have keep : ∀ (m : Nat) (dims : Nat) (topo : Topo) (f : Field) (ip ip' : IP), advance dims topo f m ip = .ok ip' →
      (∀ i, ip'.delta.get i = ip.delta.get i) ∧ ip'.storage = ip.storage ∧ ip'.stopped = ip.stopped := by
    intro m dims topo f
    induction m with
    | zero => intro ip ip' h; cases h; exact ⟨fun _ => rfl, rfl, rfl⟩
    | succ m ih =>
      intro ip ip' h
      obtain ⟨ip1, h1⟩ := C15_always_terminates dims topo f ip
      rw [advance_succ h1] at h
      have e1 := ih _ _ h
      have e2 := next_keeps h1
      exact ⟨fun i => by rw [e1.1, e2.1], by rw [e1.2.1, e2.2.1], by rw [e1.2.2, e2.2.2]⟩
  have hk := keep _ _ _ _ _ _ f2
  have hl : (s.setIP (ip'.setPos s.cur.ip.pos)).Lifo := h
  refine ⟨ip'.setPos s.cur.ip.pos, s.top.ops + 1, fun i => ⟨rfl, hk.1 i⟩, hk.2.1, hk.2.2, ?_⟩
  show iIterate exec s = _
  have hpos : ipPos s = .ok (s.cur.ip.pos, s) := rfl
  rw [iIterate, bind_ok hpos, bind_ok (ipNext_run e1), bind_ok (ipGet_run _)]
  have hcell : ((s.setIP ip1).g.field.get (s.setIP ip1).cur.ip.pos) = a 1 := (ha.eq e2).symm
  rw [hcell, hc, bind_ok (getFuel_run _)]
  rw [show (s.setIP ip1).g.fuel = s.g.fuel from rfl, bind_ok f1, bind_ok (onIP_run _ _)]
  have hs : (s.setIP ip').setIP ((s.setIP ip').cur.ip.setPos s.cur.ip.pos) = s.setIP (ip'.setPos s.cur.ip.pos) := rfl
  rw [hs]
  apply run_items hl
  rw [bind_ok (popTop_run hl _ _)]
  rfl

/-- **C28** `n k` with n > 0 pops the count and executes the next instruction n times, starting with the IP where the `k` is.
The cells on the path hold characters, and the count is a 32-bit number. -/
theorem C28_iterate_partial (exec : Int → Exec Err) (s : St) (h : s.Lifo) (a : Nat → Int) (ha : CellsAhead s a)
    (hc : ∀ i, -128 ≤ a i ∧ a i ≤ 127) (j : Nat) (hj : Finds a false 1 j) (hf : j ≤ s.g.fuel) (n : Int) (l : List Int)
    (hl : s.items = n :: l) (hn : 0 < n ∧ n ≤ 2147483647) :
    ∃ ip0 s0, SameMotion ip0 s.cur.ip ∧ ip0.storage = s.cur.ip.storage ∧ ip0.stopped = s.cur.ip.stopped ∧ (s.setIP ip0).Leaves s0 l ∧
      ∀ e s', runOp exec .iterate s = .ok (e, s') ↔ e = .none ∧ Repeats exec (a j) n.natAbs s0 s' := by
  have hc' : ∀ i, toChar (a i) = a i := by
    intro i; have := hc i; unfold toChar; rw [Int.bmod_def]; split <;> omega
  obtain ⟨ip0, k, h1, h2, h3, h4⟩ := iterate_reduces exec s h a ha hc' j hj hf
  have hi : toInt n = n := by unfold toInt; rw [Int.bmod_def]; split <;> omega
  rw [hl, List.headD_cons, hi, List.tail_cons] at h4
  refine ⟨ip0, _, h1, h2, h3, ⟨k, rfl⟩, fun e s' => ?_⟩
  rw [h4, ← iterRun_repeats, show n.toNat = n.natAbs by omega]
  constructor
  · intro hr
    obtain ⟨_, s1, r1, r2⟩ := bind_inv hr
    rw [if_neg (by omega)] at r2
    cases r2
    exact ⟨rfl, r1⟩
  · rintro ⟨rfl, hr⟩
    rw [bind_ok hr, if_neg (by omega)]; rfl

/-- **C28** With a negative count the instruction is not executed: `k` only pops the count. -/
theorem C28_negative (exec : Int → Exec Err) (s : St) (h : s.Lifo) (a : Nat → Int) (ha : CellsAhead s a)
    (hc : ∀ i, -128 ≤ a i ∧ a i ≤ 127) (j : Nat) (hj : Finds a false 1 j) (hf : j ≤ s.g.fuel) (n : Int) (l : List Int)
    (hl : s.items = n :: l) (hn : -2147483648 ≤ n ∧ n < 0) :
    ∃ ip0 s', SameMotion ip0 s.cur.ip ∧ ip0.storage = s.cur.ip.storage ∧ ip0.stopped = s.cur.ip.stopped ∧ (s.setIP ip0).Leaves s' l ∧
      runOp exec .iterate s = .ok (.none, s') := by
  have hc' : ∀ i, toChar (a i) = a i := by
    intro i; have := hc i; unfold toChar; rw [Int.bmod_def]; split <;> omega
  obtain ⟨ip0, k, h1, h2, h3, h4⟩ := iterate_reduces exec s h a ha hc' j hj hf
  have hi : toInt n = n := by unfold toInt; rw [Int.bmod_def]; split <;> omega
  rw [hl, List.headD_cons, hi, List.tail_cons] at h4
  refine ⟨ip0, _, h1, h2, h3, ⟨k, rfl⟩, ?_⟩
  rw [h4, show n.toNat = 0 by omega, if_neg (by omega)]
  rfl

/-- **C28** With a zero count nothing is executed and the IP moves one cell, from where it goes on after the tick. So the
next instruction is skipped if it is in the cell after the `k`. -/
theorem C28_zero_partial (exec : Int → Exec Err) (s : St) (h : s.Lifo) (hlahey : Cruising s) (a : Nat → Int) (ha : CellsAhead s a)
    (hc : ∀ i, -128 ≤ a i ∧ a i ≤ 127) (j : Nat) (hj : Finds a false 1 j) (hf : j ≤ s.g.fuel) (l : List Int)
    (hl : s.items = 0 :: l) :
    ∃ ip1 ip' s', Ahead s 1 ip1 ∧ SameMotion ip' ip1 ∧ (s.setIP ip').Leaves s' l ∧ runOp exec .iterate s = .ok (.none, s') := by
  have hc' : ∀ i, toChar (a i) = a i := by
    intro i; have := hc i; unfold toChar; rw [Int.bmod_def]; split <;> omega
  obtain ⟨ip0, k, h1, h2, h3, h4⟩ := iterate_reduces exec s h a ha hc' j hj hf
  have hi : toInt 0 = 0 := by decide
  rw [hl, List.headD_cons, hi, List.tail_cons, if_pos rfl] at h4
  obtain ⟨x1, x2, e1, e2, e3, -⟩ := advance_congr s.g.cfg.dims s.g.field s.cur.ip ip0 hlahey.alive (by rw [h3, hlahey.alive])
    hlahey.inside hlahey.moves h1 1
  refine ⟨x1, x2, (s.setIP x2).setItems l k, ?_, e3, ⟨k, rfl⟩, ?_⟩
  · unfold Ahead; rw [hlahey.lahey]; exact e1
  · rw [h4]
    have hz : iterRun exec (a j) (Int.toNat 0) ((s.setIP ip0).setItems l k) = .ok ((), (s.setIP ip0).setItems l k) := rfl
    have hn : IP.next s.g.cfg.dims s.g.cfg.topo s.g.field ip0 = .ok x2 := by
      rw [hlahey.lahey, ← advance_one]; exact e2
    rw [bind_ok hz, bind_ok (ipNext_run (s := (s.setIP ip0).setItems l k) hn)]
    rfl

/-- The hypotheses of the three: a row `k ;x; 1`. -/
example : ∃ a, CellsAhead (exRow [107, 32, 59, 120, 59, 49] 0 [3]) a ∧ Finds a false 1 5 := by
  obtain ⟨a, ha⟩ := exists_cells (exRow [107, 32, 59, 120, 59, 49] 0 [3])
  have c : ∀ i ip', Ahead (exRow [107, 32, 59, 120, 59, 49] 0 [3]) i ip' → a i = _ := fun i ip' h => ha.eq h
  refine ⟨a, ha, ?_⟩
  have h1 : a 1 = 32 := (c 1 _ rfl).trans (by decide)
  have h2 : a 2 = 59 := (c 2 _ rfl).trans (by decide)
  have h3 : a 3 = 120 := (c 3 _ rfl).trans (by decide)
  have h4 : a 4 = 59 := (c 4 _ rfl).trans (by decide)
  have h5 : a 5 = 49 := (c 5 _ rfl).trans (by decide)
  exact .space h1 (.opening h2 (.comment (by rw [h3]; decide) (.closing h4 (.here (by rw [h5]; decide) (by rw [h5]; decide)))))

/-- `0k12@` skips the 1, -/
example : stackAfter (machine [48, 107, 49, 50, 64]) 3 = some [2] := by decide +kernel

/-- **C28** is violated by a zero count when the next instruction is not in the cell after the `k`: `0k 12@` does not skip the 1. -/
theorem C28_false_zero_gap : stackAfter (machine [48, 107, 32, 49, 50, 64]) 3 = some [1] := by decide +kernel

/-- **C28** is violated by cells that are not characters: `k` truncates them. In `22k` followed by the cell 305 = 256 + '1' and `@`, `k` executes
the instruction `1` twice, although 305 by itself is no instruction (it reflects). -/
theorem C28_false_for_wide_cells : stackAfter (machine [50, 50, 107, 305, 64]) 3 = some [1, 1, 2] ∧
    (machine [50, 50, 107, 305, 64]).cur.getSem 305 = none := by decide +kernel

end Funge
