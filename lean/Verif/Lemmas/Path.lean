import Verif.Lemmas.Exec
import Verif.Props.C15_Motion
/-
The path of an IP: the cells it visits when it only advances.
-/
namespace Funge
open Exec IP

namespace IP

theorem advance_total (dims : Nat) (topo : Topo) (f : Field) (m : Nat) : ∀ ip : IP, ∃ ip', advance dims topo f m ip = .ok ip' := by
  induction m with
  | zero => exact fun ip => ⟨ip, rfl⟩
  | succ m ih =>
    intro ip
    obtain ⟨ip1, h1⟩ := C15_always_terminates dims topo f ip
    obtain ⟨ip2, h2⟩ := ih ip1
    exact ⟨ip2, by rw [advance, h1]; exact h2⟩

theorem advance_succ {dims : Nat} {topo : Topo} {f : Field} {m : Nat} {ip ip1 : IP} (h : ip.next dims topo f = .ok ip1) :
    advance dims topo f (m + 1) ip = advance dims topo f m ip1 := by rw [advance, h]; rfl

theorem advance_one (dims : Nat) (topo : Topo) (f : Field) (ip : IP) : advance dims topo f 1 ip = ip.next dims topo f := by
  rw [advance]; cases h : ip.next dims topo f <;> rfl

theorem advance_add {dims : Nat} {topo : Topo} {f : Field} {m k : Nat} : ∀ {ip ip1 : IP}, advance dims topo f m ip = .ok ip1 →
    advance dims topo f (m + k) ip = advance dims topo f k ip1 := by
  induction m with
  | zero => intro ip ip1 h; cases h; rw [Nat.zero_add]
  | succ m ih =>
    intro ip ip1 h
    obtain ⟨ip2, h2⟩ := C15_always_terminates dims topo f ip
    rw [advance_succ h2] at h
    rw [show m + 1 + k = (m + k) + 1 by omega, advance_succ h2, ih h]

theorem advance_snoc {dims : Nat} {topo : Topo} {f : Field} {m : Nat} {ip ip1 : IP} (h : advance dims topo f m ip = .ok ip1) :
    advance dims topo f (m + 1) ip = ip1.next dims topo f := by
  rw [advance_add h, advance_one]

/-- The index on the segment stays on the segment. -/
theorem cycN_range (lo hi : Int) (m : Nat) : ∀ k, lo ≤ k ∧ k ≤ hi → lo ≤ cycN lo hi m k ∧ cycN lo hi m k ≤ hi := by
  induction m with
  | zero => intro k hk; exact hk
  | succ m ih => intro k hk; exact ih _ (by unfold cyc; split <;> omega)

theorem cycN_snoc (lo hi : Int) (m : Nat) (k : Int) : cycN lo hi (m + 1) k = cyc lo hi (cycN lo hi m k) := by
  rw [cycN_add]; rfl

/-- Walking the segment backwards undoes walking it forwards. -/
theorem cycN_neg (lo hi : Int) (m : Nat) : ∀ k, lo ≤ k ∧ k ≤ hi → cycN (-hi) (-lo) m (-(cycN lo hi m k)) = -k := by
  induction m with
  | zero => intro k _; rfl
  | succ m ih =>
    intro k hk
    rw [cycN_snoc lo hi m k, cycN]
    have h1 := cycN_range lo hi m k hk
    have : cyc (-hi) (-lo) (-(cyc lo hi (cycN lo hi m k))) = -(cycN lo hi m k) := by
      unfold cyc; split <;> split <;> omega
    rw [this, ih k hk]

/-- Advancing `m` steps, turning round, advancing `m` steps and turning round again brings the IP back. -/
theorem advance_back (dims : Nat) (f : Field) (ip : IP) (hs : ip.stopped = false) (hin : Inside dims f ip.pos.get)
    (hd : Moves dims ip.delta) (m : Nat) :
    ∃ ip1 ip2, advance dims .lahey f m ip = .ok ip1 ∧ advance dims .lahey f m ip1.reflect = .ok ip2 ∧ SameMotion ip2.reflect ip := by
  obtain ⟨n, hn, hd⟩ := hd
  obtain ⟨lo, hi, hlo, hhi, hseg⟩ := exists_segment hn hd hin
  obtain ⟨ip1, h1, h2, h3, h4, -⟩ := advance_segment hn hd hseg m ip 0 hs ⟨hlo, hhi⟩ (pt_zero _ _).symm rfl
  have hc := cycN_range lo hi m 0 ⟨hlo, hhi⟩
  obtain ⟨ip2, g1, g2, g3, -⟩ := advance_segment hn (show (fun i => - ip.delta.get i) n ≠ 0 by simpa using hd)
    (segment_neg hseg) m ip1.reflect (-(cycN lo hi m 0)) h4 (by omega)
    (by
      show ip1.pos.get = _
      rw [h2]; funext i; simp only [pt]; rw [Int.neg_mul, Int.mul_neg, Int.neg_neg])
    (by
      show ip1.delta.reverse.get = _
      rw [get_reverse_fun, h3])
  refine ⟨ip1, ip2, h1, g1, fun i => ⟨?_, ?_⟩⟩
  · show ip2.pos.get i = _
    rw [g2, cycN_neg lo hi m 0 ⟨hlo, hhi⟩]; simp [pt]
  · show ip2.delta.reverse.get i = _
    rw [get_reverse_fun, g3]; dsimp only; omega

/-- Advancing depends on coordinates only. -/
theorem advance_congr (dims : Nat) (f : Field) (a b : IP) (hs : a.stopped = false) (hsb : b.stopped = false) (hin : Inside dims f a.pos.get)
    (hd : Moves dims a.delta) (hab : SameMotion b a) (m : Nat) :
    ∃ a' b', advance dims .lahey f m a = .ok a' ∧ advance dims .lahey f m b = .ok b' ∧ SameMotion b' a' ∧ a'.stopped = false ∧
      b'.stopped = false ∧ Inside dims f a'.pos.get ∧ Moves dims a'.delta := by
  obtain ⟨n, hn, hd⟩ := hd
  obtain ⟨lo, hi, hlo, hhi, hseg⟩ := exists_segment hn hd hin
  obtain ⟨a', h1, h2, h3, h4, -⟩ := advance_segment hn hd hseg m a 0 hs ⟨hlo, hhi⟩ (pt_zero _ _).symm rfl
  obtain ⟨b', g1, g2, g3, g4, -⟩ := advance_segment hn hd hseg m b 0 hsb ⟨hlo, hhi⟩
    (by rw [pt_zero]; funext i; exact (hab i).1) (by funext i; exact (hab i).2)
  refine ⟨a', b', h1, g1, fun i => ⟨by rw [g2, h2], by rw [g3, h3]⟩, h4, g4, ?_, n, hn, by rw [h3]; exact hd⟩
  show InB dims f a'.pos.get
  rw [h2]; exact (hseg _).mpr (cycN_range lo hi m 0 ⟨hlo, hhi⟩)

end IP

/-- A set of numbers that is not empty has a least element. -/
theorem exists_least {P : Nat → Prop} (h : ∃ n, P n) : ∃ n, P n ∧ ∀ m, m < n → ¬ P m := by
  obtain ⟨n, hn⟩ := h
  induction n using Nat.strongRecOn with
  | ind n ih =>
    by_cases hc : ∃ m, m < n ∧ P m
    · obtain ⟨m, h1, h2⟩ := hc; exact ih m h1 h2
    · exact ⟨n, hn, fun m hm hp => hc ⟨m, hm, hp⟩⟩

/-- The IP of `s` is in bounds and moving, in Lahey space. -/
structure Cruising (s : St) : Prop where
  lahey : s.g.cfg.topo = .lahey
  alive : s.cur.ip.stopped = false
  inside : Inside s.g.cfg.dims s.g.field s.cur.ip.pos.get
  moves : Moves s.g.cfg.dims s.cur.ip.delta

/-- `ip'` is the IP of `s` after advancing `m` steps. -/
def Ahead (s : St) (m : Nat) (ip' : IP) : Prop := advance s.g.cfg.dims s.g.cfg.topo s.g.field m s.cur.ip = .ok ip'

/-- `a 0` is the cell under the IP of `s`, `a 1` the next one on its path, and so on. -/
def CellsAhead (s : St) (a : Nat → Int) : Prop := ∀ i, ∃ ip', Ahead s i ip' ∧ a i = s.g.field.get ip'.pos

theorem exists_ahead (s : St) (m : Nat) : ∃ ip', Ahead s m ip' := advance_total _ _ _ _ _

theorem exists_cells (s : St) : ∃ a, CellsAhead s a := by
  refine ⟨fun i => s.g.field.get (Classical.choose (exists_ahead s i)).pos, fun i => ⟨_, Classical.choose_spec (exists_ahead s i), rfl⟩⟩

theorem CellsAhead.eq {s : St} {a : Nat → Int} (h : CellsAhead s a) {i : Nat} {ip' : IP} (hi : Ahead s i ip') :
    a i = s.g.field.get ip'.pos := by
  obtain ⟨ip2, h2, h3⟩ := h i
  unfold Ahead at *
  rw [hi] at h2; cases h2; exact h3

theorem ahead_next {s : St} {m : Nat} {ip1 : IP} (h : Ahead s m ip1) :
    ∃ ip2, ip1.next s.g.cfg.dims s.g.cfg.topo s.g.field = .ok ip2 ∧ Ahead s (m + 1) ip2 := by
  obtain ⟨ip2, h2⟩ := C15_always_terminates s.g.cfg.dims s.g.cfg.topo s.g.field ip1
  exact ⟨ip2, h2, by unfold Ahead; rw [advance_snoc h, h2]⟩

/-- A period of the path: the number of steps after which the cells repeat, at most the extent of any axis moved along. -/
theorem exists_period {s : St} (h : Cruising s) :
    ∃ N : Nat, 0 < N ∧ (∀ n, n < s.g.cfg.dims → s.cur.ip.delta.get n ≠ 0 → (N : Int) ≤ s.g.field.max n - s.g.field.min n + 1) ∧
      (∀ a, CellsAhead s a → ∀ i, a (i + N) = a i) ∧ ∃ ip', Ahead s N ip' ∧ SameMotion ip' s.cur.ip := by
  obtain ⟨N, h0, h1, ⟨ip', h2, h3⟩, -⟩ := C16_periodic s.g.cfg.dims s.g.field s.cur.ip h.alive h.inside h.moves
  have hA : Ahead s N ip' := by unfold Ahead; rw [h.lahey]; exact h2
  refine ⟨N, h0, h1, ?_, ip', hA, h3⟩
  intro a ha i
  obtain ⟨ip1, k1⟩ := exists_ahead s (i + N)
  obtain ⟨ip2, k2⟩ := exists_ahead s i
  rw [ha.eq k1, ha.eq k2]
  have hst : ip'.stopped = false := by
    obtain ⟨n, hn, hd⟩ := h.moves
    obtain ⟨lo, hi, hlo, hhi, hseg⟩ := exists_segment hn hd h.inside
    obtain ⟨a', e1, -, -, e4, -⟩ := advance_segment hn hd hseg N s.cur.ip 0 h.alive ⟨hlo, hhi⟩ (pt_zero _ _).symm rfl
    rw [h2] at e1; cases e1; exact e4
  obtain ⟨a', b', e1, e2, e3, -⟩ := advance_congr s.g.cfg.dims s.g.field s.cur.ip ip' h.alive hst h.inside h.moves h3 i
  unfold Ahead at k1 k2
  rw [h.lahey] at k1 k2
  rw [Nat.add_comm, advance_add h2, e2] at k1
  rw [e1] at k2
  cases k1; cases k2
  exact Field.get_congr _ ((Vec.eqv_iff _ _).2 fun i => (e3 i).1)

end Funge
