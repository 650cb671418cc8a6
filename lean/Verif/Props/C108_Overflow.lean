import Verif.Model.Checked
import Verif.Lemmas.IP
import Verif.Lemmas.Tick
import Verif.Lemmas.Krfl
/-
C108: where the coordinates of an IP stay within their type.
-/
namespace Funge
open Exec

/-! ### Sums and negatives -/

theorem addLoopCk_ok {w : Vec} (l : List Nat) (hl : l.Nodup) : ∀ v : Vec, (∀ i ∈ l, InI64 (v.get i + w.get i)) →
    Vec.addLoopCk w l v = .ok (l.foldl (fun a i => a.set i (a.get i + w.get i)) v) := by
  induction l with
  | nil => intro v _; rfl
  | cons i t ih =>
    intro v h
    rw [Vec.addLoopCk, if_pos (h i (List.mem_cons_self ..)), List.foldl_cons]
    refine ih (List.nodup_cons.1 hl).2 _ fun j hj => ?_
    have : j ≠ i := fun e => (List.nodup_cons.1 hl).1 (e ▸ hj)
    rw [Vec.get_set, if_neg this]
    exact h j (List.mem_cons_of_mem _ hj)

theorem addLoopCk_overflow {w : Vec} (l : List Nat) (hl : l.Nodup) : ∀ v : Vec, (∃ i ∈ l, ¬ InI64 (v.get i + w.get i)) →
    Vec.addLoopCk w l v = .error .overflow := by
  induction l with
  | nil => intro v ⟨i, hi, _⟩; cases hi
  | cons i t ih =>
    intro v ⟨j, hj, h⟩
    rw [Vec.addLoopCk]
    split
    · rename_i hi
      have hne : j ≠ i := fun e => h (e ▸ hi)
      have hj : j ∈ t := (List.mem_cons.1 hj).resolve_left hne
      refine ih (List.nodup_cons.1 hl).2 _ ⟨j, hj, ?_⟩
      rwa [Vec.get_set, if_neg hne]
    · rfl

/-- **C108** The sum of two vectors is the sum of their coordinates where each of these fits 64 bits; where one of them does not, it is undefined. (Storage offsets of `g`, `p`, `i`, `o`, `s` and steps of IPs are such sums.) -/
theorem C108_sum (v w : Vec) : ((∀ i, InI64 (v.get i + w.get i)) → v.addCk w = .ok (v.add w)) ∧ ((∃ i, ¬ InI64 (v.get i + w.get i)) → v.addCk w = .error .overflow) := by
  constructor
  · intro h
    exact addLoopCk_ok _ List.nodup_range v fun i _ => h i
  · intro ⟨i, h⟩
    refine addLoopCk_overflow _ List.nodup_range v ⟨i, ?_, h⟩
    rw [List.mem_range]
    apply Nat.lt_of_not_le
    intro hle
    apply h
    rw [Vec.get_of_size_le v (by omega), Vec.get_of_size_le w (by omega)]
    decide

theorem reverseLoopCk_ok (n i : Nat) (v : Vec) (h : ∀ j, i ≤ j → InI64 (- v.get j)) : Vec.reverseLoopCk n i v = .ok (Vec.reverseLoop n i v) := by
  induction n generalizing i v with
  | zero => rfl
  | succ n ih =>
    rw [Vec.reverseLoopCk, Vec.reverseLoop]
    split
    · rw [if_pos (h i (Nat.le_refl i))]
      refine ih _ _ fun j hj => ?_
      rw [Vec.get_set, if_neg (by omega)]
      exact h j (by omega)
    · rfl

theorem size_set_le (v : Vec) (i : Nat) (x : Int) (hi : i < v.size) : (v.set i x).size ≤ v.size := by
  unfold Vec.set Vec.normalize Vec.size
  simp only [List.length_reverse]
  have : ∀ l : List Int, (Vec.stripRev l).length ≤ l.length := by
    intro l; fun_induction Vec.stripRev l <;> simp_all; omega
  refine Nat.le_trans (this _) ?_
  unfold Vec.size at hi
  simp; omega

theorem reverseLoopCk_overflow (n i : Nat) (v : Vec) (hn : v.size ≤ i + n) {j : Nat} (hj : i ≤ j) (hs : j < v.size) (h : ¬ InI64 (- v.get j)) :
    Vec.reverseLoopCk n i v = .error .overflow := by
  induction n generalizing i v with
  | zero => omega
  | succ n ih =>
    rw [Vec.reverseLoopCk, if_pos (by omega)]
    split
    · rename_i hi
      have hne : j ≠ i := fun e => h (e ▸ hi)
      have hsz : (v.set i (- v.get i)).size ≤ i + 1 + n ∧ j < (v.set i (- v.get i)).size := by
        have hz : (v.set i (- v.get i)).get j ≠ 0 := by
          rw [Vec.get_set, if_neg hne]
          intro e; rw [e] at h; exact h (by decide)
        refine ⟨?_, Nat.lt_of_not_le fun hle => hz (Vec.get_of_size_le _ hle)⟩
        have := size_set_le v i (- v.get i) (by omega)
        omega
      refine ih _ _ hsz.1 (by omega) hsz.2 ?_
      rwa [Vec.get_set, if_neg hne]
    · rfl

theorem neg_fits {x : Int} (h : InI64 x) : InI64 (-x) ↔ x ≠ i64Min := by unfold InI64 i64Min i64Max at *; omega

/-- **C108** The opposite of a direction has the opposite coordinates unless one of these is the least number; then it is undefined. -/
theorem C108_opposite (v : Vec) (hv : ∀ i, InI64 (v.get i)) :
    ((∀ i, v.get i ≠ i64Min) → v.reverseCk = .ok v.reverse) ∧ ((∃ i, v.get i = i64Min) → v.reverseCk = .error .overflow) := by
  constructor
  · intro h
    exact reverseLoopCk_ok _ _ v fun j _ => (neg_fits (hv j)).2 (h j)
  · intro ⟨i, h⟩
    refine reverseLoopCk_overflow _ _ v (by omega) (Nat.zero_le i) (Nat.lt_of_not_le fun hle => ?_) fun hn => (neg_fits (hv i)).1 hn h
    rw [Vec.get_of_size_le v hle] at h
    exact absurd h (by decide)

/-! ### Steps -/

theorem addCk_inv {v w p : Vec} (h : v.addCk w = .ok p) : p = v.add w := by
  by_cases hc : ∀ i, InI64 (v.get i + w.get i)
  · rw [(C108_sum v w).1 hc] at h; cases h; rfl
  · rw [(C108_sum v w).2 (Classical.not_forall.1 hc)] at h; cases h

theorem reverseLoopCk_inv (n i : Nat) (v p : Vec) (h : Vec.reverseLoopCk n i v = .ok p) : p = Vec.reverseLoop n i v := by
  induction n generalizing i v with
  | zero => cases h; rfl
  | succ n ih =>
    rw [Vec.reverseLoopCk] at h
    rw [Vec.reverseLoop]
    split at h
    · rename_i hi
      rw [if_pos hi]
      split at h
      · exact ih _ _ h
      · cases h
    · rename_i hi
      rw [if_neg hi]; cases h; rfl

theorem backLoopCk_inv {dims : Nat} {f : Field} {d : Vec} (n : Nat) (p q : Vec) (h : IP.backLoopCk dims f d n p = .ok q) : IP.backLoop dims f d n p = some q := by
  induction n generalizing p with
  | zero => cases h
  | succ n ih =>
    rw [IP.backLoopCk] at h
    rw [IP.backLoop]
    split at h
    · rename_i hi
      rw [if_pos hi]
      split at h
      · cases h
      · rename_i p' hp
        rw [addCk_inv hp] at h
        exact ih _ h
    · rename_i hi
      rw [if_neg hi]; cases h; rfl

/-- **C108** A step of an IP whose arithmetic is all defined goes where the model on unbounded numbers says. -/
theorem C108_same_step {dims : Nat} {topo : Topo} {f : Field} {ip ip' : IP} (h : ip.nextCk dims topo f = .ok ip') : ip.next dims topo f = .ok ip' := by
  unfold IP.nextCk at h
  unfold IP.next
  split at h
  · rename_i hs; rw [if_pos hs]; exact h
  · rename_i hs
    rw [if_neg hs]
    split at h
    · cases h
    · rename_i pos hp
      rw [addCk_inv hp] at h
      dsimp only
      cases topo with
      | torus => exact h
      | lahey =>
        dsimp only at h ⊢
        split at h
        · rename_i hi; rw [if_pos hi]; exact h
        · rename_i hi
          rw [if_neg hi]
          split at h
          · cases h
          · rename_i delta hd
            have hd := reverseLoopCk_inv _ _ _ _ hd
            change delta = ip.delta.reverse at hd
            subst hd
            split at h
            · cases h
            · rename_i p1 hp1
              rw [addCk_inv hp1] at h
              split at h
              · cases h
              · rename_i p2 hp2
                rw [backLoopCk_inv _ _ _ hp2]
                split at h
                · cases h
                · rename_i d2 hd2
                  have hd2 := reverseLoopCk_inv _ _ _ _ hd2
                  change d2 = ip.delta.reverse.reverse at hd2
                  subst hd2
                  split at h
                  · cases h
                  · rename_i p3 hp3
                    rw [addCk_inv hp3] at h
                    exact h

/-- All coordinates are less than 2^62 away from the origin. -/
def Moderate (c : Nat → Int) : Prop := ∀ i, -4611686018427387904 < c i ∧ c i < 4611686018427387904

theorem backLoopCk_ok {dims : Nat} {f : Field} (hf : ∀ n < dims, -4611686018427387904 < f.min n ∧ f.max n < 4611686018427387904) {d : Vec} (hd : Moderate d.get)
    (h0 : ∀ i, dims ≤ i → d.get i = 0) (n : Nat) : ∀ p : Vec, (∀ i, dims ≤ i → -4611686018427387904 < p.get i ∧ p.get i < 4611686018427387904) →
      (∃ q, IP.backLoopCk dims f d n p = .ok q ∧ IP.backLoop dims f d n p = some q ∧ (q = p ∨ Moderate fun i => q.get i - d.get i)) ∨
      (IP.backLoopCk dims f d n p = .error .fuel ∧ IP.backLoop dims f d n p = none) := by
  induction n with
  | zero => intro p _; exact .inr ⟨rfl, rfl⟩
  | succ n ih =>
    intro p hp
    rw [IP.backLoopCk, IP.backLoop]
    by_cases hi : IP.inField dims f p = true
    · rw [if_pos hi, if_pos hi]
      have hm : Moderate p.get := by
        intro i
        by_cases h : i < dims
        · have := (IP.inField_iff dims f p).1 hi i h
          have := hf i h
          omega
        · exact hp i (by omega)
      have ha : p.addCk d = .ok (p.add d) := (C108_sum p d).1 fun i => by
        have := hm i; have := hd i
        unfold InI64 i64Min i64Max; omega
      rw [ha]
      dsimp only
      rcases ih (p.add d) (fun i h => by rw [Vec.get_add, h0 i h, Int.add_zero]; exact hp i h) with ⟨q, h1, h2, h3⟩ | h
      · refine .inl ⟨q, h1, h2, .inr ?_⟩
        rcases h3 with rfl | h3
        · intro i
          simp only [Vec.get_add]
          have := hm i
          omega
        · exact h3
      · exact .inr h
    · rw [if_neg hi, if_neg hi]
      exact .inl ⟨p, rfl, rfl, .inl rfl⟩

/-- **C108** Where the program, the IP and its step are less than 2^62 away from the origin, every step is defined: it goes where the model on unbounded numbers says (and walks back for ever where that one does).
With the torus the extent of the program does not matter. -/
theorem C108_steps_partial {dims : Nat} {topo : Topo} {f : Field} {ip : IP} (hp : Moderate ip.pos.get) (hd : Moderate ip.delta.get)
    (hf : topo = .lahey → (∀ n < dims, -4611686018427387904 < f.min n ∧ f.max n < 4611686018427387904) ∧ ∀ i, dims ≤ i → ip.delta.get i = 0) :
    ip.nextCk dims topo f = ip.next dims topo f := by
  unfold IP.nextCk IP.next
  split
  · rfl
  · have ha : ip.pos.addCk ip.delta = .ok (ip.pos.add ip.delta) := (C108_sum _ _).1 fun i => by
      have := hp i; have := hd i
      unfold InI64 i64Min i64Max; omega
    rw [ha]
    dsimp only
    cases topo with
    | torus => rfl
    | lahey =>
      dsimp only
      obtain ⟨hf, h0⟩ := hf rfl
      split
      · rfl
      · have hr : ip.delta.reverseCk = .ok ip.delta.reverse := (C108_opposite _ fun i => by
            have := hd i
            unfold InI64 i64Min i64Max; omega).1 fun i => by
          have := hd i
          unfold i64Min; omega
        have hr2 : ip.delta.reverse.reverseCk = .ok ip.delta.reverse.reverse := (C108_opposite _ fun i => by
            have := hd i
            rw [Vec.get_reverse]
            unfold InI64 i64Min i64Max; omega).1 fun i => by
          have := hd i
          rw [Vec.get_reverse]
          unfold i64Min; omega
        have hb : (ip.pos.add ip.delta).addCk ip.delta.reverse = .ok ((ip.pos.add ip.delta).add ip.delta.reverse) := (C108_sum _ _).1 fun i => by
          have := hp i
          rw [Vec.get_add, Vec.get_reverse]
          unfold InI64 i64Min i64Max; omega
        rw [hr]
        dsimp only
        rw [hb]
        dsimp only
        have hback : ∀ i, ((ip.pos.add ip.delta).add ip.delta.reverse).get i = ip.pos.get i := fun i => by
          rw [Vec.get_add, Vec.get_add, Vec.get_reverse]; omega
        rcases backLoopCk_ok hf (d := ip.delta.reverse) (fun i => by rw [Vec.get_reverse]; have := hd i; omega) (fun i h => by rw [Vec.get_reverse, h0 i h]; rfl) (IP.backFuel dims f)
            ((ip.pos.add ip.delta).add ip.delta.reverse) (fun i _ => by rw [hback]; exact hp i) with ⟨q, h1, h2, h3⟩ | ⟨h1, h2⟩
        · rw [h1, h2]
          dsimp only
          rw [hr2]
          dsimp only
          have hl : q.addCk ip.delta.reverse.reverse = .ok (q.add ip.delta.reverse.reverse) := (C108_sum _ _).1 fun i => by
            rw [Vec.get_reverse, Vec.get_reverse]
            rcases h3 with rfl | h3
            · rw [hback]
              have := hp i; have := hd i
              unfold InI64 i64Min i64Max; omega
            · have := h3 i
              simp only [Vec.get_reverse] at this
              unfold InI64 i64Min i64Max; omega
          rw [hl]
        · rw [h1, h2]

example : Moderate (Vec.ofList [3, 0]).get ∧ Moderate (Vec.ofList [-2, 5]).get := by
  constructor <;> (intro i; rcases i with _ | _ | i <;> simp [Vec.get_ofList] <;> decide)

/-- What is missing above: a step that leaves the range of 64 bits is undefined, for every program in every topology. -/
theorem C108_undefined_for_far {dims : Nat} {topo : Topo} {f : Field} {ip : IP} (hs : ip.stopped = false) (h : ∃ i, ¬ InI64 (ip.pos.get i + ip.delta.get i)) :
    ip.nextCk dims topo f = .error .overflow := by
  unfold IP.nextCk
  rw [hs, if_neg (by decide), (C108_sum _ _).2 h]

/-- A program that does it: 8 to the 20th power, times 4, is 2^62; with 2^62 - 1 added it makes a step of 2^63 - 1, from the cell where it is. -/
def exFar : St := machine ([56] ++ (List.replicate 19 [56, 42]).flatten ++ [52, 42, 58, 49, 45, 43, 48, 120])

/-- The IP when the `x` has been executed. -/
def farAway : Except Fault IP :=
  match ticks 46 exFar with
  | .error e => .error e
  | .ok (_, s) => (execute s.g.fuel (s.g.field.get s.cur.ip.pos) s).map fun r => r.2.cur.ip

/-- The program gets as far as the `x`, whose direction fits in 64 bits, and the step after it is undefined (the unbounded model goes on). -/
theorem C108_undefined_for_a_program :
    (farAway.map fun ip => (ip.pos.get 0, ip.delta.get 0, ip.delta.get 1)) = .ok (46, i64Max, 0) ∧
    (farAway.bind fun ip => (ip.nextCk 2 .lahey exFar.g.field).map fun ip => ip.pos.get 0) = .error .overflow ∧
    (farAway.bind fun ip => (ip.next 2 .lahey exFar.g.field).map fun ip => ip.pos.get 0) = .ok 46 := by
  refine ⟨?_, ?_, ?_⟩ <;> krfl

/-- A sum that fits and one that does not; an opposite that does not. -/
example : (Vec.ofList [i64Max, 2]).addCk (Vec.ofList [0, 3]) = .ok (Vec.ofList [i64Max, 5]) ∧
    (Vec.ofList [i64Max, 2]).addCk (Vec.ofList [1, 3]) = .error .overflow ∧ (Vec.ofList [0, i64Min]).reverseCk = .error .overflow := by
  refine ⟨?_, ?_, ?_⟩ <;> krfl

/-- The hypotheses hold for a program whose IP goes round. -/
example : Moderate (machine [49, 50, 51]).cur.ip.pos.get ∧ Moderate (machine [49, 50, 51]).cur.ip.delta.get ∧
    (∀ n < 2, -4611686018427387904 < (machine [49, 50, 51]).g.field.min n ∧ (machine [49, 50, 51]).g.field.max n < 4611686018427387904) ∧
    ∀ i, 2 ≤ i → (machine [49, 50, 51]).cur.ip.delta.get i = 0 := by
  refine ⟨?_, ?_, ?_, ?_⟩
  · have h : (machine [49, 50, 51]).cur.ip.pos = Vec.ofList [0] := by krfl
    intro i; rw [h]; rcases i with _ | i <;> simp [Vec.get_ofList]
  · have h : (machine [49, 50, 51]).cur.ip.delta = Vec.ofList [1] := by krfl
    intro i; rw [h]; rcases i with _ | i <;> simp [Vec.get_ofList]
  · decide +kernel
  · have h : (machine [49, 50, 51]).cur.ip.delta = Vec.ofList [1] := by krfl
    intro i hi; rw [h]; rcases i with _ | i
    · omega
    · simp [Vec.get_ofList]

end Funge
