import Verif.Lemmas.IP
/-!
# C15, C16, C17: motion of the instruction pointer

Positions and deltas are read as coordinate functions `Nat → Int` (`Vec.get`), so nothing depends on how a vector
is stored. `f.min n`, `f.max n` are the program's bounds on axis `n`.
-/
namespace Funge
namespace IP

/-- The coordinates `c` are within the program's bounds on every axis. -/
def Inside (dims : Nat) (f : Field) (c : Nat → Int) : Prop := ∀ n, n < dims → f.min n ≤ c n ∧ c n ≤ f.max n

/-- The delta moves the IP along some axis of the space. -/
def Moves (dims : Nat) (d : Vec) : Prop := ∃ n, n < dims ∧ d.get n ≠ 0

/-- `n` calls of `next`. -/
def advance (dims : Nat) (topo : Topo) (f : Field) : Nat → IP → Except Fault IP
  | 0, ip => .ok ip
  | n + 1, ip => do
    let ip ← ip.next dims topo f
    advance dims topo f n ip

/-- A 5 x 3 space holding `@` in its far corner, used in the examples. -/
def exField : Field := (Field.new 2 false).put (Vec.ofList [4, 2]) 64

/-- **C15** An IP inside the bounds with a non-zero delta always finishes advancing, is inside the bounds afterwards
and keeps its delta; it moves by delta if that is in bounds, and otherwise `m` deltas backwards, where `m` is
the largest number of steps backwards that stay in bounds all the way. -/
theorem C15_advance (dims : Nat) (f : Field) (ip : IP) (hs : ip.stopped = false)
    (hin : Inside dims f ip.pos.get) (hd : Moves dims ip.delta) :
    ∃ ip', ip.next dims .lahey f = .ok ip' ∧ Inside dims f ip'.pos.get ∧
      (∀ i, ip'.delta.get i = ip.delta.get i) ∧ ip'.stopped = false ∧ ip'.storage = ip.storage ∧
      (Inside dims f (fun i => ip.pos.get i + ip.delta.get i) →
        ∀ i, ip'.pos.get i = ip.pos.get i + ip.delta.get i) ∧
      (¬ Inside dims f (fun i => ip.pos.get i + ip.delta.get i) →
        ∃ m : Nat, (∀ i, ip'.pos.get i = ip.pos.get i - m * ip.delta.get i) ∧
          (∀ j : Nat, j ≤ m → Inside dims f (fun i => ip.pos.get i - j * ip.delta.get i)) ∧
          ¬ Inside dims f (fun i => ip.pos.get i - (m + 1) * ip.delta.get i)) := by
  obtain ⟨n, hn, hd⟩ := hd
  obtain ⟨lo, hi, hlo, hhi, hseg⟩ := exists_segment hn hd hin
  obtain ⟨ip', h1, h2, h3, h4, h5, -⟩ := next_segment hn hd hseg ip hs 0 ⟨hlo, hhi⟩ (pt_zero _ _).symm rfl
  have hone : pt ip.pos.get ip.delta.get 1 = fun i => ip.pos.get i + ip.delta.get i := by
    funext i; simp [pt]
  have hneg : ∀ j : Int, pt ip.pos.get ip.delta.get (-j) = fun i => ip.pos.get i - j * ip.delta.get i := by
    intro j; funext i; simp only [pt]; rw [Int.neg_mul]; omega
  refine ⟨ip', h1, ?_, fun i => by rw [h3], h5, h4, ?_, ?_⟩
  · show InB dims f ip'.pos.get
    rw [h2, hseg]; unfold cyc; split <;> omega
  · intro h i
    rw [← hone] at h
    have : 1 ≤ hi := ((hseg 1).mp h).2
    rw [h2, cyc, if_pos (by omega)]
    exact congrFun hone i
  · intro h
    rw [← hone] at h
    have hlt : ¬ 0 < hi := fun hlt => h ((hseg 1).mpr (by omega))
    rw [cyc, if_neg hlt] at h2
    obtain ⟨m, hm⟩ : ∃ m : Nat, lo = -(m : Int) := ⟨(-lo).toNat, by omega⟩
    refine ⟨m, fun i => ?_, fun j hj => ?_, ?_⟩
    · rw [h2, hm, hneg]
    · rw [← hneg]; exact (hseg _).mpr (by omega)
    · rw [← hneg]; intro h; have := (hseg _).mp h; omega

/-- The hypotheses of `C15_advance` are met, and both the plain and the wrapping step occur. -/
example : let ip : IP := { pos := Vec.ofList [4, 1], delta := Vec.ofList [2] }
    (∀ n, n < 2 → exField.min n ≤ ip.pos.get n ∧ ip.pos.get n ≤ exField.max n) ∧ ip.delta.get 0 ≠ 0 ∧
    ip.next 2 .lahey exField = .ok { ip with pos := Vec.ofList [0, 1] } ∧
    ({ ip with pos := Vec.ofList [1, 1] } : IP).next 2 .lahey exField = .ok { ip with pos := Vec.ofList [3, 1] } := by
  decide

/-- **C15** In fact advancing finishes from every position with every delta, in bounds or not, in every topology. -/
theorem C15_always_terminates (dims : Nat) (topo : Topo) (f : Field) (ip : IP) :
    ∃ ip', ip.next dims topo f = .ok ip' := by
  by_cases hs : ip.stopped = true
  · exact ⟨ip, by simp [next, hs]⟩
  have hs : ip.stopped = false := by simpa using hs
  cases topo with
  | torus => simp only [next, hs]; exact ⟨_, rfl⟩
  | lahey =>
    by_cases hin : Inside dims f ip.pos.get
    · by_cases hd : Moves dims ip.delta
      · obtain ⟨ip', h, -⟩ := C15_advance dims f ip hs hin hd
        exact ⟨ip', h⟩
      · have : inField dims f (ip.pos.add ip.delta) = true := by
          rw [inField_iff]
          intro n hn
          have : ip.delta.get n = 0 := by
            by_cases h : ip.delta.get n = 0
            · exact h
            · exact absurd ⟨n, hn, h⟩ hd
          simpa [this] using hin n hn
        simp only [next, hs, this]; exact ⟨_, rfl⟩
    · simp only [next, hs]
      by_cases hf : inField dims f (ip.pos.add ip.delta) = true
      · simp only [hf]; exact ⟨_, rfl⟩
      · have hb : ¬ inField dims f ((ip.pos.add ip.delta).add ip.delta.reverse) = true := by
          rw [inField_iff]
          have : ((ip.pos.add ip.delta).add ip.delta.reverse).get = ip.pos.get := by
            funext i; simp; omega
          rw [this]; exact hin
        simp only [hf]
        unfold backFuel backLoop
        simp only [hb]
        exact ⟨_, rfl⟩

/-- A stopped IP does not move: the case `C15_advance` excludes. -/
theorem C15_stopped_stays (dims : Nat) (topo : Topo) (f : Field) (ip : IP) (hs : ip.stopped = true) :
    ip.next dims topo f = .ok ip := by simp [next, hs]

example : ({ stopped := true } : IP).next 2 .lahey exField = .ok { stopped := true } := by decide

/-- Extra: an IP that is out of bounds and steps to another point out of bounds just moves by delta: it is never brought
back unless its path happens to enter the bounds (so it drifts away forever otherwise). -/
theorem C15_outside_drifts (dims : Nat) (f : Field) (ip : IP) (hs : ip.stopped = false)
    (h0 : ¬ Inside dims f ip.pos.get) :
    ∃ ip', ip.next dims .lahey f = .ok ip' ∧ ∀ i, ip'.pos.get i = ip.pos.get i + ip.delta.get i ∧
      ip'.delta.get i = ip.delta.get i := by
  simp only [next, hs]
  by_cases hf : inField dims f (ip.pos.add ip.delta) = true
  · simp only [hf]; exact ⟨_, rfl, fun i => by simp⟩
  · have hb : ¬ inField dims f ((ip.pos.add ip.delta).add ip.delta.reverse) = true := by
      rw [inField_iff]
      have : ((ip.pos.add ip.delta).add ip.delta.reverse).get = ip.pos.get := by
        funext i; simp; omega
      rw [this]; exact h0
    simp only [hf]
    unfold backFuel backLoop
    simp only [hb]
    exact ⟨_, rfl, fun i => by simp; omega⟩

example : ({ pos := Vec.ofList [9, 1] } : IP).next 2 .lahey exField = .ok { pos := Vec.ofList [10, 1] } := by decide

/-! ## C16 -/

/-- Two IPs at the same point with the same delta. -/
def SameMotion (a b : IP) : Prop := ∀ i, a.pos.get i = b.pos.get i ∧ a.delta.get i = b.delta.get i

theorem segment_neg {dims : Nat} {f : Field} {p d : Nat → Int} {lo hi : Int} (h : Segment dims f p d lo hi) :
    Segment dims f p (fun i => - d i) (-hi) (-lo) := by
  intro k
  have : pt p (fun i => - d i) k = pt p d (-k) := by
    funext i; simp only [pt]; rw [Int.neg_mul, Int.mul_neg]
  rw [this, h]; omega

/-- **C16** Advancing, reflecting, advancing and reflecting again brings the IP back with its delta. -/
theorem C16_reversible (dims : Nat) (f : Field) (ip : IP) (hs : ip.stopped = false)
    (hin : Inside dims f ip.pos.get) (hd : Moves dims ip.delta) :
    ∃ ip1 ip2, ip.next dims .lahey f = .ok ip1 ∧ ip1.reflect.next dims .lahey f = .ok ip2 ∧
      SameMotion ip2.reflect ip := by
  obtain ⟨n, hn, hd⟩ := hd
  obtain ⟨lo, hi, hlo, hhi, hseg⟩ := exists_segment hn hd hin
  obtain ⟨ip1, h1, h2, h3, -, h5, -⟩ := next_segment hn hd hseg ip hs 0 ⟨hlo, hhi⟩ (pt_zero _ _).symm rfl
  have hc : -hi ≤ -(cyc lo hi 0) ∧ -(cyc lo hi 0) ≤ -lo := by unfold cyc; split <;> omega
  obtain ⟨ip2, g1, g2, g3, -⟩ := next_segment hn (show (fun i => - ip.delta.get i) n ≠ 0 by simpa using hd)
    (segment_neg hseg) ip1.reflect h5 (-(cyc lo hi 0)) hc
    (by
      show ip1.pos.get = _
      rw [h2]; funext i; simp only [pt]; rw [Int.neg_mul, Int.mul_neg, Int.neg_neg])
    (by
      show ip1.delta.reverse.get = _
      rw [get_reverse_fun, h3])
  refine ⟨ip1, ip2, h1, g1, fun i => ⟨?_, ?_⟩⟩
  · show ip2.pos.get i = _
    have : cyc (-hi) (-lo) (-(cyc lo hi 0)) = 0 := by
      unfold cyc; split <;> split <;> omega
    rw [g2, this, pt_zero]
  · show ip2.delta.reverse.get i = _
    rw [get_reverse_fun, g3]; dsimp only; omega

/-- Hence advancing is injective: two IPs with the same delta that end on the same cell started on the same cell. -/
theorem C16_injective (dims : Nat) (f : Field) (a b a' b' : IP) (hsa : a.stopped = false) (hsb : b.stopped = false)
    (ha : Inside dims f a.pos.get) (hb : Inside dims f b.pos.get) (hd : Moves dims a.delta)
    (hab : ∀ i, a.delta.get i = b.delta.get i)
    (h1 : a.next dims .lahey f = .ok a') (h2 : b.next dims .lahey f = .ok b')
    (he : ∀ i, a'.pos.get i = b'.pos.get i) : ∀ i, a.pos.get i = b.pos.get i := by
  have hdb : Moves dims b.delta := by
    obtain ⟨n, hn, h⟩ := hd; exact ⟨n, hn, by rw [← hab]; exact h⟩
  obtain ⟨a1, a2, e1, e2, e3⟩ := C16_reversible dims f a hsa ha hd
  obtain ⟨b1, b2, g1, g2, g3⟩ := C16_reversible dims f b hsb hb hdb
  obtain ⟨a1', k1, k2, k3, k4, -⟩ := C15_advance dims f a hsa ha hd
  obtain ⟨b1', l1, l2, l3, l4, -⟩ := C15_advance dims f b hsb hb hdb
  rw [h1] at e1 k1; rw [h2] at g1 l1
  cases e1; cases g1; cases k1; cases l1
  -- both reflected IPs are the same motion, and `next` depends on coordinates only
  have hda : Moves dims a'.reflect.delta := by
    obtain ⟨n, hn, h⟩ := hd
    refine ⟨n, hn, ?_⟩
    show a'.delta.reverse.get n ≠ 0
    rw [Vec.get_reverse, k3]; omega
  obtain ⟨n, hn, hda'⟩ := hda
  obtain ⟨lo, hi, hlo, hhi, hseg⟩ := exists_segment hn hda' (show InB dims f a'.reflect.pos.get from k2)
  obtain ⟨a3, m1, m2, -⟩ := next_segment hn hda' hseg a'.reflect k4 0 ⟨hlo, hhi⟩ (pt_zero _ _).symm rfl
  obtain ⟨b3, n1, n2, -⟩ := next_segment hn hda' hseg b'.reflect l4 0 ⟨hlo, hhi⟩
    (by rw [pt_zero]; funext i; exact (he i).symm)
    (by
      show b'.delta.reverse.get = a'.delta.reverse.get
      rw [get_reverse_fun, get_reverse_fun]; funext i; rw [k3, l3, hab])
  rw [e2] at m1; rw [g2] at n1
  cases m1; cases n1
  intro i
  have h3 := (e3 i).1
  have h4 := (g3 i).1
  rw [← h3, ← h4]
  show a2.pos.get i = b2.pos.get i
  rw [m2, n2]

/-- Position on the segment after `m` steps. -/
def cycN (lo hi : Int) : Nat → Int → Int
  | 0, k => k
  | m + 1, k => cycN lo hi m (cyc lo hi k)

theorem cycN_plain (lo hi : Int) (m : Nat) : ∀ k, k + m ≤ hi → cycN lo hi m k = k + m := by
  induction m with
  | zero => intro k _; simp [cycN]
  | succ m ih =>
    intro k h
    rw [cycN, cyc, if_pos (by omega), ih _ (by omega)]; omega

theorem cycN_add (lo hi : Int) (m m' : Nat) : ∀ k, cycN lo hi (m + m') k = cycN lo hi m' (cycN lo hi m k) := by
  induction m with
  | zero => intro k; simp [cycN]
  | succ m ih =>
    intro k
    rw [show m + 1 + m' = (m + m') + 1 by omega, cycN, ih, cycN]

theorem cycN_period (lo hi k : Int) (h : lo ≤ k ∧ k ≤ hi) : cycN lo hi (hi - lo + 1).toNat k = k := by
  have h1 : (hi - lo + 1).toNat = (hi - k).toNat + (1 + (k - lo).toNat) := by omega
  rw [h1, cycN_add, cycN_add, cycN_plain lo hi _ k (by omega)]
  have h2 : k + ((hi - k).toNat : Int) = hi := by omega
  rw [h2]
  show cycN lo hi _ (cycN lo hi 0 (cyc lo hi hi)) = k
  rw [cycN, cyc, if_neg (by omega), cycN_plain lo hi _ lo (by omega)]
  omega

theorem advance_segment {dims : Nat} {f : Field} {p d : Nat → Int} {lo hi : Int} {n : Nat} (hn : n < dims)
    (hd : d n ≠ 0) (hseg : Segment dims f p d lo hi) (m : Nat) : ∀ (ip : IP) (k : Int), ip.stopped = false →
    lo ≤ k ∧ k ≤ hi → ip.pos.get = pt p d k → ip.delta.get = d →
    ∃ ip', advance dims .lahey f m ip = .ok ip' ∧ ip'.pos.get = pt p d (cycN lo hi m k) ∧ ip'.delta.get = d ∧
      ip'.stopped = false ∧ ip'.storage = ip.storage := by
  induction m with
  | zero => intro ip k hs _ hp hdl; exact ⟨ip, rfl, hp, hdl, hs, rfl⟩
  | succ m ih =>
    intro ip k hs hk hp hdl
    obtain ⟨ip1, h1, h2, h3, h4, h5, -⟩ := next_segment hn hd hseg ip hs k hk hp hdl
    obtain ⟨ip', g1, g2, g3, g4, g5⟩ := ih ip1 (cyc lo hi k) h5 (by unfold cyc; split <;> omega) h2 h3
    exact ⟨ip', by rw [advance, h1]; exact g1, g2, g3, g4, by rw [g5, h4]⟩

/-- **C16** Repeated advancing always returns to the starting cell: there is a number of steps `N > 0`, at most the
extent of the bounds on any axis the IP moves along, after which the IP is back with the same delta; and every cell in
between is in bounds. -/
theorem C16_periodic (dims : Nat) (f : Field) (ip : IP) (hs : ip.stopped = false)
    (hin : Inside dims f ip.pos.get) (hd : Moves dims ip.delta) :
    ∃ N : Nat, 0 < N ∧ (∀ n, n < dims → ip.delta.get n ≠ 0 → (N : Int) ≤ f.max n - f.min n + 1) ∧
      (∃ ip', advance dims .lahey f N ip = .ok ip' ∧ SameMotion ip' ip) ∧
      ∀ m, ∃ ip', advance dims .lahey f m ip = .ok ip' ∧ Inside dims f ip'.pos.get := by
  obtain ⟨n, hn, hd⟩ := hd
  obtain ⟨lo, hi, hlo, hhi, hseg⟩ := exists_segment hn hd hin
  have hcyc : ∀ m k, lo ≤ k ∧ k ≤ hi → lo ≤ cycN lo hi m k ∧ cycN lo hi m k ≤ hi := by
    intro m
    induction m with
    | zero => intro k hk; exact hk
    | succ m ih => intro k hk; exact ih _ (by unfold cyc; split <;> omega)
  refine ⟨(hi - lo + 1).toNat, by omega, ?_, ?_, ?_⟩
  · intro n' hn' hd'
    have := inB_bound hn' hd' ((hseg lo).mpr (by omega)) ((hseg hi).mpr (by omega))
    omega
  · obtain ⟨ip', h1, h2, h3, -⟩ := advance_segment hn hd hseg (hi - lo + 1).toNat ip 0 hs ⟨hlo, hhi⟩
      (pt_zero _ _).symm rfl
    refine ⟨ip', h1, fun i => ⟨?_, by rw [h3]⟩⟩
    rw [h2, cycN_period lo hi 0 ⟨hlo, hhi⟩, pt_zero]
  · intro m
    obtain ⟨ip', h1, h2, -⟩ := advance_segment hn hd hseg m ip 0 hs ⟨hlo, hhi⟩ (pt_zero _ _).symm rfl
    refine ⟨ip', h1, ?_⟩
    show InB dims f ip'.pos.get
    rw [h2]; exact (hseg _).mpr (hcyc m 0 ⟨hlo, hhi⟩)

/-- A flying IP (delta (2,1)) in the 5 x 3 space: back after 3 steps, and reversible. -/
example : let ip : IP := { pos := Vec.ofList [2, 1], delta := Vec.ofList [2, 1] }
    (∀ n, n < 2 → exField.min n ≤ ip.pos.get n ∧ ip.pos.get n ≤ exField.max n) ∧
    advance 2 .lahey exField 3 ip = .ok ip ∧ advance 2 .lahey exField 2 ip = .ok { ip with pos := Vec.ofList [0] } := by
  decide

/-! ## C17 -/

/-- The Befunge-93 playfield. -/
def OnPlayfield (v : Vec) : Prop := 0 ≤ v.get 0 ∧ v.get 0 < 80 ∧ 0 ≤ v.get 1 ∧ v.get 1 < 25

/-- **C17 fails**: from the east edge (79, 0) an IP moving east lands on (80, 0), which is off the playfield, and needs
81 steps to come back to where it was, not 80. -/
theorem C17_false_at_edge : ∃ ip ip' : IP, OnPlayfield ip.pos ∧ ip.delta = Vec.ofList [1] ∧
    ip.next 2 .torus exField = .ok ip' ∧ ¬ OnPlayfield ip'.pos ∧
    (∃ ip80, advance 2 .torus exField 80 ip = .ok ip80 ∧ ip80.pos ≠ ip.pos) ∧
    advance 2 .torus exField 81 ip = .ok ip :=
  ⟨{ pos := Vec.ofList [79] }, { pos := Vec.ofList [80] }, by unfold OnPlayfield; decide, rfl, by decide,
    by unfold OnPlayfield; decide,
    ⟨{ pos := Vec.ofList [78] }, by decide +kernel, by decide⟩, by decide +kernel⟩

/-- **C17** (what does hold) With torus topology every advance of a running IP ends with 0 ≤ x ≤ 80 and 0 ≤ y ≤ 25, whatever
position and delta it started from. -/
theorem C17_torus_bounds_partial (dims : Nat) (f : Field) (ip ip' : IP) (hs : ip.stopped = false)
    (h : ip.next dims .torus f = .ok ip') :
    0 ≤ ip'.pos.get 0 ∧ ip'.pos.get 0 ≤ 80 ∧ 0 ≤ ip'.pos.get 1 ∧ ip'.pos.get 1 ≤ 25 := by
  simp only [next, hs, Bool.false_eq_true, if_false, Except.ok.injEq] at h
  subst h
  dsimp only
  repeat' split
  all_goals simp_all [Vec.get_set]
  all_goals omega

/-- **C17** (what does hold) A step, from any position and by any delta, is a plain step while it stays within 0..80 and
0..25; leaving west lands on x = 79, leaving north on y = 24, leaving east on x = 0 and leaving south on y = 0. -/
theorem C17_torus_step_partial (dims : Nat) (f : Field) (ip : IP) (hs : ip.stopped = false) :
    ∃ ip', ip.next dims .torus f = .ok ip' ∧ (∀ i, ip'.delta.get i = ip.delta.get i) ∧
      ip'.pos.get 0 = (if ip.pos.get 0 + ip.delta.get 0 < 0 then 79 else if 80 < ip.pos.get 0 + ip.delta.get 0 then 0 else ip.pos.get 0 + ip.delta.get 0) ∧
      ip'.pos.get 1 = (if ip.pos.get 1 + ip.delta.get 1 < 0 then 24 else if 25 < ip.pos.get 1 + ip.delta.get 1 then 0 else ip.pos.get 1 + ip.delta.get 1) := by
  simp only [next, hs, Bool.false_eq_true, if_false]
  refine ⟨_, rfl, fun _ => rfl, ?_, ?_⟩ <;> dsimp only
  all_goals repeat' split
  all_goals simp_all [Vec.get_set]
  all_goals omega

example : ({ pos := Vec.ofList [0, 24], delta := Vec.ofList [-1, 1] } : IP).next 2 .torus exField =
    .ok { pos := Vec.ofList [79, 25], delta := Vec.ofList [-1, 1] } := by decide

example : ({ pos := Vec.ofList [80, 25], delta := Vec.ofList [1, 1] } : IP).next 2 .torus exField =
    .ok { pos := Vec.ofList [0], delta := Vec.ofList [1, 1] } := by decide

end IP
end Funge
