import Verif.Lemmas.Path
import Verif.Props.C35_Unknown
/-!
# C18 and C19: `;` and `j`
-/
namespace Funge
open Exec IP

/-! ## C18 -/

theorem untilSemi_run {s0 : St} {a : Nat → Int} (ha : CellsAhead s0 a) (m : Nat) (hm : a m = 59) :
    ∀ (k : Nat) (ipk : IP) (fuel : Nat), Ahead s0 k ipk → k < m → (∀ j, k < j → j < m → a j ≠ 59) → m - k ≤ fuel →
      ∃ ip', Ahead s0 m ip' ∧ untilSemi fuel (s0.setIP ipk) = .ok ((), s0.setIP ip') := by
  intro k ipk fuel
  induction fuel generalizing k ipk with
  | zero => intro _ h1 _ h2; omega
  | succ fuel ih =>
    intro hk hlt hno hf
    obtain ⟨ip1, h1, h2⟩ := ahead_next hk
    rw [untilSemi, bind_ok (ipNext_run (s := s0.setIP ipk) h1), bind_ok (ipGet_run _)]
    have hc : (((s0.setIP ipk).setIP ip1).g.field.get ((s0.setIP ipk).setIP ip1).cur.ip.pos) = a (k + 1) := (ha.eq h2).symm
    rw [hc, setIP_setIP]
    by_cases h59 : a (k + 1) = 59
    · have : k + 1 = m := by
        rcases Nat.lt_or_ge (k + 1) m with h | h
        · exact absurd h59 (hno (k + 1) (by omega) h)
        · omega
      subst this
      exact ⟨ip1, h2, by rw [if_pos h59]; rfl⟩
    · rw [if_neg h59]
      have : k + 1 ≠ m := fun h => h59 (h ▸ hm)
      exact ih (k + 1) ip1 h2 (by omega) (fun j h1 h2 => hno j (by omega) h2) (by omega)

/-- **C18** `;` moves the IP to the next `;` on its path, `m` cells ahead, with none in between, and changes nothing else. There is one
(possibly the same `;` again) within one lap, and `m` iterations are all it takes. -/
theorem C18_jump_over (exec : Int → Exec Err) (s : St) (h : Cruising s) (hsemi : s.g.field.get s.cur.ip.pos = 59) :
    ∃ (m : Nat) (ip' : IP), 0 < m ∧ (∀ n, n < s.g.cfg.dims → s.cur.ip.delta.get n ≠ 0 → (m : Int) ≤ s.g.field.max n - s.g.field.min n + 1) ∧
      Ahead s m ip' ∧ s.g.field.get ip'.pos = 59 ∧
      (∀ (j : Nat) ipj, 0 < j → j < m → Ahead s j ipj → s.g.field.get ipj.pos ≠ 59) ∧
      (m ≤ s.g.fuel → runOp exec .jumpOver s = .ok (.skip, s.setIP ip')) := by
  obtain ⟨a, ha⟩ := exists_cells s
  obtain ⟨N, hN0, hN1, hN2, -⟩ := exists_period h
  have h0 : a 0 = 59 := by rw [ha.eq (ip' := s.cur.ip) (i := 0) rfl, hsemi]
  obtain ⟨m, ⟨hm0, hm⟩, hleast⟩ := exists_least (P := fun m => 0 < m ∧ a m = 59) ⟨N, hN0, by
    have := hN2 a ha 0; rw [Nat.zero_add] at this; rw [this, h0]⟩
  have hmN : m ≤ N := by
    rcases Nat.lt_or_ge N m with hlt | hge
    · refine absurd ⟨hN0, ?_⟩ (hleast N hlt)
      have := hN2 a ha 0; rw [Nat.zero_add] at this; rw [this, h0]
    · exact hge
  obtain ⟨ip', hip⟩ := exists_ahead s m
  refine ⟨m, ip', hm0, ?_, hip, ?_, ?_, ?_⟩
  · intro n hn hd; have := hN1 n hn hd; omega
  · rw [← ha.eq hip, hm]
  · intro j ipj hj hjm hA hc
    exact hleast j hjm ⟨hj, by rw [ha.eq hA, hc]⟩
  · intro hfuel
    obtain ⟨ip2, h1, h2⟩ := untilSemi_run ha m hm 0 s.cur.ip s.g.fuel rfl hm0 (fun j h1 h2 hc => hleast j h2 ⟨h1, hc⟩) (by omega)
    unfold Ahead at hip h1
    rw [hip] at h1; cases h1
    have h3 : untilSemi s.g.fuel s = .ok ((), s.setIP ip') := h2
    show iJumpOver s = _
    rw [iJumpOver, bind_ok (getFuel_run s), bind_ok h3]; rfl

/-- The IP at the given place going east in a field whose first row holds the given cells, and a second row; for the examples. -/
def exRow (cells : List Int) (x : Int) (items : List Int) : St :=
  { exState2 items with
    cur := { (exState2 items).cur with ip := { pos := Vec.ofList [x], delta := Vec.ofList [1] } }
    g := { (exState2 items).g with
      field := (cells.zipIdx.foldl (fun f p => f.put (Vec.ofList [p.2]) p.1) (Field.new 2 false)).put (Vec.ofList [0, 1]) 64
      fuel := 100 } }

theorem exRow_cruising (cells : List Int) (x : Int) (items : List Int)
    (hx : ∀ n, n < 2 → (exRow cells x items).g.field.min n ≤ (Vec.ofList [x]).get n ∧
      (Vec.ofList [x]).get n ≤ (exRow cells x items).g.field.max n) : Cruising (exRow cells x items) :=
  ⟨rfl, rfl, hx, 0, (by decide : 0 < 2), (by decide : (Vec.ofList [1]).get 0 ≠ 0)⟩

/-- `;12;3` -/
example : Cruising (exRow [59, 49, 50, 59, 51] 0 []) ∧
    (exRow [59, 49, 50, 59, 51] 0 []).g.field.get (exRow [59, 49, 50, 59, 51] 0 []).cur.ip.pos = 59 :=
  ⟨exRow_cruising _ _ _ (by decide), by decide⟩

/-- **C18** In any topology, wherever the IP is: if `;` ends, the IP is on the first `;` ahead. -/
theorem C18_first_semicolon (exec : Int → Exec Err) (s s' : St) (e : Err) (h : runOp exec .jumpOver s = .ok (e, s')) :
    e = .skip ∧ ∃ m ip', 0 < m ∧ Ahead s m ip' ∧ s' = s.setIP ip' ∧ s.g.field.get ip'.pos = 59 ∧
      ∀ j ipj, 0 < j → j < m → Ahead s j ipj → s.g.field.get ipj.pos ≠ 59 := by
  have main : ∀ (fuel k : Nat) (ipk : IP) (s' : St), Ahead s k ipk → untilSemi fuel (s.setIP ipk) = .ok ((), s') →
      ∃ m ip', k < m ∧ Ahead s m ip' ∧ s' = s.setIP ip' ∧ s.g.field.get ip'.pos = 59 ∧
      ∀ j ipj, k < j → j < m → Ahead s j ipj → s.g.field.get ipj.pos ≠ 59 := by
    intro fuel
    induction fuel with
    | zero => intro k ipk s' _ h; cases h
    | succ fuel ih =>
      intro k ipk s' hk hrun
      obtain ⟨ip1, h1, h2⟩ := ahead_next hk
      rw [untilSemi, bind_ok (ipNext_run (s := s.setIP ipk) h1), bind_ok (ipGet_run _)] at hrun
      have hc : (((s.setIP ipk).setIP ip1).g.field.get ((s.setIP ipk).setIP ip1).cur.ip.pos) = s.g.field.get ip1.pos := rfl
      rw [hc, setIP_setIP] at hrun
      by_cases h59 : s.g.field.get ip1.pos = 59
      · rw [if_pos h59] at hrun
        cases hrun
        exact ⟨k + 1, ip1, by omega, h2, rfl, h59, fun j _ _ _ => by omega⟩
      · rw [if_neg h59] at hrun
        obtain ⟨m, ip', e1, e2, e3, e4, e5⟩ := ih (k + 1) ip1 s' h2 hrun
        refine ⟨m, ip', by omega, e2, e3, e4, fun j ipj hj hjm hA => ?_⟩
        by_cases hjk : j = k + 1
        · subst hjk
          unfold Ahead at hA h2
          rw [hA] at h2; cases h2; exact h59
        · exact e5 j ipj (by omega) hjm hA
  change iJumpOver s = _ at h
  rw [iJumpOver, bind_ok (getFuel_run s)] at h
  obtain ⟨_, s1, h1, h2⟩ := bind_inv h
  cases h2
  exact ⟨rfl, main s.g.fuel 0 s.cur.ip s' rfl h1⟩

/-! ## C19 -/

/-- Where a jump of `n` steps leads: `n` steps ahead, or `-n` steps ahead of the reversed IP, reversed again. -/
def JumpsTo (s : St) (n : Int) (ip' : IP) : Prop :=
  if n < 0 then ∃ ip1, Ahead (s.setIP s.cur.ip.reflect) n.natAbs ip1 ∧ ip' = ip1.reflect else Ahead s n.natAbs ip'

theorem ipNextN_run (m : Nat) : ∀ {s : St} {ip' : IP}, Ahead s m ip' → ipNextN m s = .ok ((), s.setIP ip') := by
  induction m with
  | zero => intro s ip' h; cases h; rfl
  | succ m ih =>
    intro s ip' h
    obtain ⟨ip1, h1⟩ := C15_always_terminates s.g.cfg.dims s.g.cfg.topo s.g.field s.cur.ip
    have h2 : Ahead (s.setIP ip1) m ip' := by
      unfold Ahead at *
      rw [advance_succ h1] at h; exact h
    rw [ipNextN, bind_ok (ipNext_run h1), ih h2]; rfl

/-- **C19** `j` pops a count and moves the IP that many steps along its path, wrapping like normal motion (backwards if the count is
negative). It changes nothing else; in particular not the delta. The count is a 32-bit number other than -2^31. -/
theorem C19_jump_partial (exec : Int → Exec Err) (s : St) (h : s.Lifo) (n : Int) (l : List Int) (hl : s.items = n :: l)
    (hn : -2147483648 < n ∧ n ≤ 2147483647) :
    ∃ ip' s', runOp exec .jumpForward s = .ok (.none, s') ∧ (s.setIP ip').Leaves s' l ∧ JumpsTo s n ip' ∧
      (∀ i, ip'.delta.get i = s.cur.ip.delta.get i) ∧ ip'.storage = s.cur.ip.storage := by
  have hi : toInt n = n := by unfold toInt; rw [Int.bmod_def]; split <;> omega
  have keep : ∀ (m : Nat) (dims : Nat) (topo : Topo) (f : Field) (ip ip' : IP), advance dims topo f m ip = .ok ip' →
      (∀ i, ip'.delta.get i = ip.delta.get i) ∧ ip'.storage = ip.storage := by
    intro m dims topo f
    induction m with
    | zero => intro ip ip' h; cases h; exact ⟨fun _ => rfl, rfl⟩
    | succ m ih =>
      intro ip ip' h
      obtain ⟨ip1, h1⟩ := C15_always_terminates dims topo f ip
      rw [advance_succ h1] at h
      have e1 := ih _ _ h
      have e2 := next_keeps h1
      exact ⟨fun i => by rw [e1.1, e2.1], by rw [e1.2, e2.2.1]⟩
  by_cases hneg : n < 0
  · obtain ⟨ip1, h1⟩ := exists_ahead (s.setIP s.cur.ip.reflect) n.natAbs
    refine ⟨ip1.reflect, (s.setIP ip1.reflect).setItems l (s.top.ops + 1), ?_, ⟨_, rfl⟩, ?_, ?_, ?_⟩
    · show iJumpForward s = _
      apply run_items h
      rw [iJumpForward, bind_ok (popTop_run h _ _), hl]
      simp only [List.headD_cons, List.tail_cons, hi]
      rw [if_neg (by omega), if_pos hneg, bind_ok (onIP_run _ _)]
      have h2 : Ahead ((s.setItems l (s.top.ops + 1)).setIP (s.setItems l (s.top.ops + 1)).cur.ip.reflect) n.natAbs ip1 := h1
      have h3 := ipNextN_run n.natAbs h2
      show (ipNextN n.natAbs >>= _) _ = _
      rw [bind_ok h3, if_pos hneg]
      rfl
    · rw [JumpsTo, if_pos hneg]; exact ⟨ip1, h1, rfl⟩
    · intro i
      show ip1.delta.reverse.get i = _
      rw [Vec.get_reverse, (keep _ _ _ _ _ _ h1).1 i]
      show - s.cur.ip.delta.reverse.get i = _
      rw [Vec.get_reverse]; omega
    · exact (keep _ _ _ _ _ _ h1).2
  · obtain ⟨ip1, h1⟩ := exists_ahead s n.natAbs
    refine ⟨ip1, (s.setIP ip1).setItems l (s.top.ops + 1), ?_, ⟨_, rfl⟩, ?_, ?_, ?_⟩
    · show iJumpForward s = _
      apply run_items h
      rw [iJumpForward, bind_ok (popTop_run h _ _), hl]
      simp only [List.headD_cons, List.tail_cons, hi]
      rw [if_neg (by omega), if_neg hneg]
      have h2 : Ahead (s.setItems l (s.top.ops + 1)) n.natAbs ip1 := h1
      have h3 := ipNextN_run n.natAbs h2
      show (ipNextN n.natAbs >>= _) _ = _
      rw [bind_ok h3, if_neg hneg]
      rfl
    · rw [JumpsTo, if_neg hneg]; exact h1
    · exact (keep _ _ _ _ _ _ h1).1
    · exact (keep _ _ _ _ _ _ h1).2

example : (exRow [59, 49, 50, 59, 51] 1 [-3, 7]).Lifo ∧ (exRow [59, 49, 50, 59, 51] 1 [-3, 7]).items = [-3, 7] := by decide

/-- **C19** Jumping n steps and then -n steps leads back to the same cell with the same delta. -/
theorem C19_there_and_back (s : St) (h : Cruising s) (n : Int) (ip1 ip2 : IP) (h1 : JumpsTo s n ip1)
    (h2 : JumpsTo (s.setIP ip1) (-n) ip2) : SameMotion ip2 s.cur.ip := by
  have hl := h.lahey
  have hr : ∀ ip : IP, ip.stopped = false → Inside s.g.cfg.dims s.g.field ip.pos.get → Moves s.g.cfg.dims ip.delta →
      Moves s.g.cfg.dims ip.reflect.delta := by
    rintro ip _ _ ⟨n, hn, hd⟩
    refine ⟨n, hn, ?_⟩
    show ip.delta.reverse.get n ≠ 0
    rw [Vec.get_reverse]; omega
  unfold JumpsTo at h1 h2
  by_cases hneg : n < 0
  · rw [if_pos hneg] at h1
    rw [if_neg (by omega)] at h2
    obtain ⟨ipa, ha, rfl⟩ := h1
    unfold Ahead at ha h2
    simp only [setIP_g, setIP_ip, hl] at ha h2
    obtain ⟨x1, x2, e1, e2, e3⟩ := advance_back s.g.cfg.dims s.g.field s.cur.ip.reflect h.alive h.inside
      (hr _ h.alive h.inside h.moves) n.natAbs
    rw [ha] at e1; cases e1
    rw [Int.natAbs_neg, e2] at h2; cases h2
    intro i
    have := e3 i
    refine ⟨this.1, ?_⟩
    have h5 : ip2.delta.reverse.get i = s.cur.ip.delta.reverse.get i := this.2
    rw [Vec.get_reverse, Vec.get_reverse] at h5; omega
  · rw [if_neg hneg] at h1
    unfold Ahead at h1
    rw [hl] at h1
    obtain ⟨x1, x2, e1, e2, e3⟩ := advance_back s.g.cfg.dims s.g.field s.cur.ip h.alive h.inside h.moves n.natAbs
    rw [h1] at e1; cases e1
    by_cases h0 : n = 0
    · subst h0
      simp only [Int.natAbs_zero, advance, Except.ok.injEq] at h1
      subst h1
      rw [if_neg (by omega)] at h2
      unfold Ahead at h2
      simp only [Int.neg_zero, Int.natAbs_zero, advance, Except.ok.injEq, setIP_ip] at h2
      subst h2
      exact fun i => ⟨rfl, rfl⟩
    · rw [if_pos (by omega)] at h2
      obtain ⟨ipb, hb, rfl⟩ := h2
      unfold Ahead at hb
      simp only [setIP_g, setIP_ip, hl, Int.natAbs_neg] at hb
      rw [e2] at hb; cases hb
      exact e3

example : Cruising (exRow [59, 49, 50, 59, 51] 1 []) := exRow_cruising _ _ _ (by decide)

/-- **C19** is violated for counts that do not fit an `int`: a jump of 2^32 + 1 moves one step. -/
theorem C19_false_beyond_int (exec : Int → Exec Err) (s : St) (h : s.Lifo) (l : List Int) (hl : s.items = 4294967297 :: l) :
    ∃ ip' s', runOp exec .jumpForward s = .ok (.none, s') ∧ (s.setIP ip').Leaves s' l ∧ Ahead s 1 ip' := by
  obtain ⟨ip1, h1⟩ := exists_ahead s 1
  refine ⟨ip1, (s.setIP ip1).setItems l (s.top.ops + 1), ?_, ⟨_, rfl⟩, h1⟩
  show iJumpForward s = _
  apply run_items h
  rw [iJumpForward, bind_ok (popTop_run h _ _), hl]
  have hi : toInt 4294967297 = 1 := by decide
  simp only [List.headD_cons, List.tail_cons, hi]
  rw [if_neg (by omega), if_neg (by omega)]
  have h2 : Ahead (s.setItems l (s.top.ops + 1)) (1 : Int).natAbs ip1 := h1
  have h3 := ipNextN_run _ h2
  show (ipNextN _ >>= _) _ = _
  rw [bind_ok h3, if_neg (by omega)]
  rfl

/-- On a row of 5 cells (41 steps more than a lap of 2^32 + 1 would not end where one step does). -/
example : (exRow [59, 49, 50, 59, 51] 1 [4294967297]).Lifo ∧ (exRow [59, 49, 50, 59, 51] 1 [4294967297]).items = [4294967297] := by decide

/-- **C19** A jump of -2^31 is undefined behaviour (`std::abs`). -/
theorem C19_undefined_at_min (exec : Int → Exec Err) (s : St) (h : s.Lifo) (l : List Int) (hl : s.items = -2147483648 :: l) :
    runOp exec .jumpForward s = .error .overflow := by
  show iJumpForward s = _
  apply run_items h
  rw [iJumpForward, bind_ok (popTop_run h _ _), hl]
  have hi : toInt (-2147483648) = -2147483648 := by decide
  simp only [List.headD_cons, hi]
  rfl

example : (exRow [59, 49] 1 [-2147483648]).Lifo ∧ (exRow [59, 49] 1 [-2147483648]).items = [-2147483648] := by decide

end Funge
