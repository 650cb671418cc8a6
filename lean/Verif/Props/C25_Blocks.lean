import Verif.Lemmas.Stacks
import Verif.Lemmas.Tick
import Verif.Props.C24_PutGet
/-!
# C25 and C26: `{`, `}` and `u`
-/
namespace Funge
open Exec

/-- In switch mode (MODE fingerprint) a bracket replaces itself in fungespace. -/
def St.switched (s : St) (c : Int) : St :=
  if hasMode s.g.cfg.mode modeSwitch then s.setG { s.g with field := s.g.field.put s.cur.ip.pos c } else s

theorem switchPut_run (c : Int) (s : St) : switchPut c s = .ok ((), s.switched c) := by
  rw [switchPut, bind_ok (isMode_run _ _), St.switched]
  cases hasMode s.g.cfg.mode modeSwitch <;> rfl

/-- The coordinates of a vector as they are pushed: the last one on top. -/
def coords (d : Nat) (v : Vec) : List Int := ((List.range d).map v.get).reverse

theorem coords_length (d : Nat) (v : Vec) : (coords d v).length = d := by simp [coords]

theorem vecOf_coords (d : Nat) (v : Vec) (l : List Int) (i : Nat) (hi : i < d) : vecOf (coords d v ++ l) d i = v.get i := by
  rw [vecOf, if_pos hi]
  have h1 : d - 1 - i < (coords d v).length := by rw [coords_length]; omega
  rw [List.getD_eq_getElem?_getD, List.getElem?_append_left h1]
  simp only [coords, List.length_reverse, List.length_map, List.length_range] at *
  rw [List.getElem?_reverse (by simpa using h1)]
  simp only [List.length_map, List.length_range]
  rw [show d - 1 - (d - 1 - i) = i by omega]
  simp [hi]

/-- The first `n` values of `l`, zeros standing in for missing ones. -/
def firstN (n : Nat) (l : List Int) : List Int := l.take n ++ List.replicate (n - l.length) 0

theorem padTake_firstN (n : Nat) (l : List Int) : padTake n l = firstN n l := padTake_eq n l

/-- The topmost stack is selected and in its normal mode, with the values `l`; `R` are the stacks below. -/
structure OnTop (s : St) (A : Stack) (l : List Int) (R : List Stack) : Prop where
  select : s.cur.ss.select = 0
  stacks : s.cur.ss.stacks = A :: R
  items : A.items = l
  plain : A.Plain

/-- `B` is `A` with other values. -/
def Stack.Became (A : Stack) (l : List Int) (B : Stack) : Prop := ∃ n, B = ⟨A.mode, l, n⟩

theorem plain_zero (l n) : (⟨0, l, n⟩ : Stack).Plain :=
  ⟨(by decide : hasMode 0 modeQueue = false), (by decide : hasMode 0 modeInvert = false)⟩

theorem became {A : Stack} {l l' : List Int} {n : Nat} (h : l = l') : A.Became l' ⟨A.mode, l, n⟩ := ⟨n, by rw [h]⟩

/-- **C25** `n {` with n > 0 moves the n topmost values, in the same order, to a new stack (zeros standing in for missing ones), leaves the
storage offset on the old one and makes the next position the storage offset. Nothing else changes. -/
theorem C25_begin (exec : Int → Exec Err) (s : St) (A : Stack) (R : List Stack) (n : Int) (l : List Int) (h : OnTop s A (n :: l) R) (hn : 0 < n) :
    ∃ T B, runOp exec .beginBlock s =
        .ok (.none, ((s.setIP (s.cur.ip.setStorage (s.cur.ip.pos.add s.cur.ip.delta))).setStacks (T :: B :: R)).switched 125) ∧
      Stack.new.Became (firstN n.toNat l) T ∧ A.Became (coords s.g.cfg.dims s.cur.ip.storage ++ l.drop n.toNat) B := by
  obtain ⟨h1, h2, h3, h4⟩ := h
  obtain ⟨m, la, na⟩ := A
  simp only at h3; subst h3
  have hs : s = s.setStacks (⟨m, n :: l, na⟩ :: R) := by rw [← h2, setStacks_self h1]
  have hpn : Pops popSecond fun l n => s.setStacks (⟨0, [], 0⟩ :: ⟨m, l, n⟩ :: R) := fun l n => popSecond_stacks s h4.1 _ l n R
  have hpt : Pushes pushTop fun l' n' => s.setStacks (⟨0, l', n'⟩ :: ⟨m, l.drop n.toNat, na + 1 + n.toNat⟩ :: R) :=
    fun l n v => pushTop_stacks s (by decide) l n _ v
  have hps : Pushes pushSecond fun l' n' => s.setStacks (⟨0, (padTake n.toNat l).reverse.reverse ++ [], 0 + (padTake n.toNat l).reverse.length⟩ :: ⟨m, l', n'⟩ :: R) :=
    fun l n v => pushSecond_stacks s h4.2 _ l n _ v
  refine ⟨⟨0, (padTake n.toNat l).reverse.reverse ++ [], 0 + (padTake n.toNat l).reverse.length⟩,
    ⟨m, coords s.g.cfg.dims s.cur.ip.storage ++ l.drop n.toNat, na + 1 + n.toNat + s.g.cfg.dims⟩, ?_, ?_, ⟨_, rfl⟩⟩
  · show iBegin s = _
    conv => lhs; rw [hs]
    rw [iBegin, bind_ok (popTop_cons s h4.1 _ _ _ _)]
    have e1 : onStacks (fun ss => .ok ss.push) (s.setStacks (⟨m, l, na + 1⟩ :: R)) = .ok ((), s.setStacks (⟨0, [], 0⟩ :: ⟨m, l, na + 1⟩ :: R)) := rfl
    rw [bind_ok e1, if_pos (by omega)]
    have e2 := hpn.popN n.toNat l (na + 1)
    have e3 := hpt.pushAll (padTake n.toNat l).reverse [] 0
    have e4 := hps.pushVectorOn s.cur.ip.storage (l.drop n.toNat) (na + 1 + n.toNat) rfl
    show (popN popSecond n.toNat >>= _) _ = _
    rw [bind_ok e2]
    show (pushAll pushTop _ >>= _) _ = _
    rw [bind_ok (m := pushAll pushTop (padTake n.toNat l).reverse) e3]
    show (ipStorage >>= _) _ = _
    rw [bind_ok (ipStorage_run _), setStacks_ip]
    rw [bind_ok (m := pushVectorOn pushSecond _) e4, bind_ok (onIP_stacks _ _ _), bind_ok (switchPut_run _ _)]
    rfl
  · refine ⟨0 + (padTake n.toNat l).reverse.length, ?_⟩
    simp [padTake_firstN, Stack.new]

/-- **C25** `n {` with n ≤ 0 starts with an empty stack and leaves |n| zeros below the storage offset. -/
theorem C25_begin_nonpositive_partial (exec : Int → Exec Err) (s : St) (A : Stack) (R : List Stack) (n : Int) (l : List Int) (h : OnTop s A (n :: l) R)
    (hn : n ≤ 0) (hmin : -9223372036854775808 < n) :
    ∃ B, runOp exec .beginBlock s =
        .ok (.none, ((s.setIP (s.cur.ip.setStorage (s.cur.ip.pos.add s.cur.ip.delta))).setStacks (Stack.new :: B :: R)).switched 125) ∧
      A.Became (coords s.g.cfg.dims s.cur.ip.storage ++ List.replicate n.natAbs 0 ++ l) B := by
  obtain ⟨h1, h2, h3, h4⟩ := h
  obtain ⟨m, la, na⟩ := A
  simp only at h3; subst h3
  have hs : s = s.setStacks (⟨m, n :: l, na⟩ :: R) := by rw [← h2, setStacks_self h1]
  have hps : Pushes pushSecond fun l' n' => s.setStacks (Stack.new :: ⟨m, l', n'⟩ :: R) :=
    fun l n v => pushSecond_stacks s h4.2 _ l n _ v
  refine ⟨⟨m, coords s.g.cfg.dims s.cur.ip.storage ++ ((List.replicate (-n).toNat 0).reverse ++ l),
    na + 1 + (List.replicate (-n).toNat (0 : Int)).length + s.g.cfg.dims⟩, ?_, became ?_⟩
  · show iBegin s = _
    conv => lhs; rw [hs]
    rw [iBegin, bind_ok (popTop_cons s h4.1 _ _ _ _)]
    have e1 : onStacks (fun ss => .ok ss.push) (s.setStacks (⟨m, l, na + 1⟩ :: R)) = .ok ((), s.setStacks (Stack.new :: ⟨m, l, na + 1⟩ :: R)) := rfl
    rw [bind_ok e1, if_neg (by omega), if_neg (by unfold i64Min; omega)]
    have e2 := hps.pushAll (List.replicate (-n).toNat 0) l (na + 1)
    have e4 := hps.pushVectorOn s.cur.ip.storage ((List.replicate (-n).toNat 0).reverse ++ l) (na + 1 + (List.replicate (-n).toNat (0 : Int)).length) rfl
    show (pushAll pushSecond _ >>= _) _ = _
    rw [bind_ok (m := pushAll pushSecond _) e2]
    show (ipStorage >>= _) _ = _
    rw [bind_ok (ipStorage_run _), setStacks_ip]
    rw [bind_ok (m := pushVectorOn pushSecond _) e4, bind_ok (onIP_stacks _ _ _), bind_ok (switchPut_run _ _)]
    rfl
  · rw [List.reverse_replicate, List.append_assoc, show (-n).toNat = n.natAbs by omega]

theorem end_run (exec : Int → Exec Err) (s : St) (A B : Stack) (R : List Stack) (n : Int) (l b : List Int) (h : OnTop s A (n :: l) (B :: R))
    (hb : B.items = b) (hB : B.Plain) (hn : 0 < n) :
    ∃ v B', runOp exec .endBlock s = .ok (.none, ((s.setIP (s.cur.ip.setStorage v)).setStacks (B' :: R)).switched 123) ∧
      v.get = vecOf b s.g.cfg.dims ∧ (v.Normal ∧ (0 < s.g.cfg.dims → 0 < v.size)) ∧ B.Became (firstN n.toNat l ++ b.drop s.g.cfg.dims) B' := by
  obtain ⟨h1, h2, h3, h4⟩ := h
  obtain ⟨m, la, na⟩ := A
  obtain ⟨mb, lb, nb⟩ := B
  simp only at h3 hb; subst h3; subst hb
  have hs : s = s.setStacks (⟨m, n :: l, na⟩ :: ⟨mb, lb, nb⟩ :: R) := by rw [← h2, setStacks_self h1]
  have hp2 : Pops popSecond fun l' n' => s.setStacks (⟨m, l, na + 1⟩ :: ⟨mb, l', n'⟩ :: R) := fun l n => popSecond_stacks s hB.1 _ l n R
  obtain ⟨v, e1, e2, e2'⟩ := hp2.popVectorOn_normal (d := s.g.cfg.dims) lb nb rfl
  have hp1 : Pops popTop fun l' n' => (s.setIP (s.cur.ip.setStorage v)).setStacks (⟨m, l', n'⟩ :: ⟨mb, lb.drop s.g.cfg.dims, nb + s.g.cfg.dims⟩ :: R) :=
    fun l n => popTop_stacks _ h4.1 l n _
  have hp3 : Pushes pushSecond fun l' n' =>
      (s.setIP (s.cur.ip.setStorage v)).setStacks (⟨m, l.drop n.toNat, na + 1 + n.toNat⟩ :: ⟨mb, l', n'⟩ :: R) :=
    fun l n w => pushSecond_stacks _ hB.2 _ l n _ w
  refine ⟨v, ⟨mb, (padTake n.toNat l).reverse.reverse ++ lb.drop s.g.cfg.dims, nb + s.g.cfg.dims + (padTake n.toNat l).reverse.length⟩, ?_, e2, e2',
    became ?_⟩
  · show iEnd s = _
    conv => lhs; rw [hs]
    have e0 : numStacks (s.setStacks (⟨m, n :: l, na⟩ :: ⟨mb, lb, nb⟩ :: R)) = .ok (R.length + 2, s.setStacks (⟨m, n :: l, na⟩ :: ⟨mb, lb, nb⟩ :: R)) := rfl
    rw [iEnd, bind_ok e0, if_pos (by omega), bind_ok (popTop_cons s h4.1 _ _ _ _)]
    rw [bind_ok (m := popVectorOn popSecond) e1, bind_ok (onIP_stacks _ _ _), if_pos (by omega)]
    have e3 := hp1.popN n.toNat l (na + 1)
    have e4 := hp3.pushAll (padTake n.toNat l).reverse (lb.drop s.g.cfg.dims) (nb + s.g.cfg.dims)
    show (popN popTop n.toNat >>= _) _ = _
    rw [bind_ok (m := popN popTop n.toNat) e3]
    show (pushAll pushSecond _ >>= _) _ = _
    rw [bind_ok (m := pushAll pushSecond _) e4]
    show (onStacks StackStack.pop >>= _) _ = _
    have e5 : ∀ (t : St) (X : Stack) (Y : List Stack), onStacks StackStack.pop (t.setStacks (X :: Y)) = .ok ((), t.setStacks Y) := fun _ _ _ => rfl
    rw [bind_ok (e5 _ _ _), bind_ok (switchPut_run _ _)]
    rfl
  · simp [padTake_firstN]

/-- **C25** `n }` with n > 0 takes the storage offset from the second stack, moves the n topmost values onto it in the same order and drops the
top stack. -/
theorem C25_end (exec : Int → Exec Err) (s : St) (A B : Stack) (R : List Stack) (n : Int) (l b : List Int) (h : OnTop s A (n :: l) (B :: R))
    (hb : B.items = b) (hB : B.Plain) (hn : 0 < n) :
    ∃ v B', runOp exec .endBlock s = .ok (.none, ((s.setIP (s.cur.ip.setStorage v)).setStacks (B' :: R)).switched 123) ∧
      v.get = vecOf b s.g.cfg.dims ∧ B.Became (firstN n.toNat l ++ b.drop s.g.cfg.dims) B' := by
  obtain ⟨v, B', h1, h2, -, h3⟩ := end_run exec s A B R n l b h hb hB hn
  exact ⟨v, B', h1, h2, h3⟩

theorem end_run_nonpositive (exec : Int → Exec Err) (s : St) (A B : Stack) (R : List Stack) (n : Int) (l b : List Int)
    (h : OnTop s A (n :: l) (B :: R)) (hb : B.items = b) (hB : B.Plain) (hn : n ≤ 0) (hmin : -9223372036854775808 < n) :
    ∃ v B', runOp exec .endBlock s = .ok (.none, ((s.setIP (s.cur.ip.setStorage v)).setStacks (B' :: R)).switched 123) ∧
      v.get = vecOf b s.g.cfg.dims ∧ (v.Normal ∧ (0 < s.g.cfg.dims → 0 < v.size)) ∧ B.Became (b.drop (s.g.cfg.dims + n.natAbs)) B' := by
  obtain ⟨h1, h2, h3, h4⟩ := h
  obtain ⟨m, la, na⟩ := A
  obtain ⟨mb, lb, nb⟩ := B
  simp only at h3 hb; subst h3; subst hb
  have hs : s = s.setStacks (⟨m, n :: l, na⟩ :: ⟨mb, lb, nb⟩ :: R) := by rw [← h2, setStacks_self h1]
  have hp2 : Pops popSecond fun l' n' => s.setStacks (⟨m, l, na + 1⟩ :: ⟨mb, l', n'⟩ :: R) := fun l n => popSecond_stacks s hB.1 _ l n R
  obtain ⟨v, e1, e2, e2'⟩ := hp2.popVectorOn_normal (d := s.g.cfg.dims) lb nb rfl
  have hp1 : Pops popSecond fun l' n' => (s.setIP (s.cur.ip.setStorage v)).setStacks (⟨m, l, na + 1⟩ :: ⟨mb, l', n'⟩ :: R) :=
    fun l n => popSecond_stacks _ hB.1 _ l n R
  refine ⟨v, ⟨mb, (lb.drop s.g.cfg.dims).drop (-n).toNat, nb + s.g.cfg.dims + (-n).toNat⟩, ?_, e2, e2', became ?_⟩
  · show iEnd s = _
    conv => lhs; rw [hs]
    have e0 : numStacks (s.setStacks (⟨m, n :: l, na⟩ :: ⟨mb, lb, nb⟩ :: R)) = .ok (R.length + 2, s.setStacks (⟨m, n :: l, na⟩ :: ⟨mb, lb, nb⟩ :: R)) := rfl
    rw [iEnd, bind_ok e0, if_pos (by omega), bind_ok (popTop_cons s h4.1 _ _ _ _)]
    rw [bind_ok (m := popVectorOn popSecond) e1, bind_ok (onIP_stacks _ _ _), if_neg (by omega), if_neg (by unfold i64Min; omega)]
    have e3 := hp1.popN (-n).toNat (lb.drop s.g.cfg.dims) (nb + s.g.cfg.dims)
    show (popN popSecond (-n).toNat >>= _) _ = _
    rw [bind_ok (m := popN popSecond (-n).toNat) e3]
    have e5 : ∀ (t : St) (X : Stack) (Y : List Stack), onStacks StackStack.pop (t.setStacks (X :: Y)) = .ok ((), t.setStacks Y) := fun _ _ _ => rfl
    show (onStacks StackStack.pop >>= _) _ = _
    rw [bind_ok (e5 _ _ _), bind_ok (switchPut_run _ _)]
    rfl
  · rw [List.drop_drop, show (-n).toNat = n.natAbs by omega]

/-- **C25** `n }` with n ≤ 0 takes the storage offset from the second stack, pops |n| values from it and drops the top stack. -/
theorem C25_end_nonpositive_partial (exec : Int → Exec Err) (s : St) (A B : Stack) (R : List Stack) (n : Int) (l b : List Int)
    (h : OnTop s A (n :: l) (B :: R)) (hb : B.items = b) (hB : B.Plain) (hn : n ≤ 0) (hmin : -9223372036854775808 < n) :
    ∃ v B', runOp exec .endBlock s = .ok (.none, ((s.setIP (s.cur.ip.setStorage v)).setStacks (B' :: R)).switched 123) ∧
      v.get = vecOf b s.g.cfg.dims ∧ B.Became (b.drop (s.g.cfg.dims + n.natAbs)) B' := by
  obtain ⟨v, B', h1, h2, -, h3⟩ := end_run_nonpositive exec s A B R n l b h hb hB hn hmin
  exact ⟨v, B', h1, h2, h3⟩

/-- **C25** `}` with a single stack is an error that reflects; the stack is untouched. -/
theorem C25_end_alone (exec : Int → Exec Err) (s : St) (h : s.cur.ss.stacks.length ≤ 1) :
    runOp exec .endBlock s = .ok (.unspec, s.switched 123) := by
  show iEnd s = _
  rw [iEnd, bind_ok (numStacks_run s), if_neg (by show ¬ s.cur.ss.stacks.length > 1; omega), bind_ok (switchPut_run _ _)]
  rfl

example : (machine [125]).cur.ss.stacks.length ≤ 1 := by decide +kernel

/-- A Befunge-98 machine with two stacks; for the examples. -/
def exTwo (a b : List Int) : St := (exState2 []).setStacks [{ items := a }, { items := b }]

example : OnTop (exTwo [2, 5, 6, 7] [8]) { items := [2, 5, 6, 7] } [2, 5, 6, 7] [{ items := [8] }] := ⟨rfl, rfl, rfl, by decide⟩
example : OnTop (exTwo [-2, 5, 6, 7] [8]) { items := [-2, 5, 6, 7] } [-2, 5, 6, 7] [{ items := [8] }] := ⟨rfl, rfl, rfl, by decide⟩

/-- The state of `s'`, a block having been started: what the round trip needs. -/
theorem switched_ss (s : St) (c : Int) : (s.switched c).cur = s.cur := by
  unfold St.switched; split <;> rfl
theorem switched_dims (s : St) (c : Int) : (s.switched c).g.cfg = s.g.cfg := by
  unfold St.switched; split <;> rfl
theorem switched_rest (s : St) (c : Int) : (s.switched c).rest = s.rest := by
  unfold St.switched; split <;> rfl

/-- **C25** `n {` followed, with n on top again, by `n }` leaves the stacks as they were (without the n; if there were fewer than n values, with
zeros below them), and the storage offset too. -/
theorem C25_round_trip_partial (exec : Int → Exec Err) (s s1 s2 s3 : St) (e1 e2 : Err) (A : Stack) (R : List Stack) (n : Int) (l : List Int)
    (h : OnTop s A (n :: l) R) (hmin : -9223372036854775808 < n) (h1 : runOp exec .beginBlock s = .ok (e1, s1))
    (h2 : pushTop n s1 = .ok ((), s2)) (h3 : runOp exec .endBlock s2 = .ok (e2, s3)) :
    e1 = .none ∧ e2 = .none ∧ (∃ B, s3.cur.ss = ⟨0, B :: R⟩ ∧ A.Became (l ++ List.replicate (n.toNat - l.length) 0) B) ∧
      (∀ i, i < s.g.cfg.dims → s3.cur.ip.storage.get i = s.cur.ip.storage.get i) ∧
      s3.cur.ip.pos = s.cur.ip.pos ∧ s3.cur.ip.delta = s.cur.ip.delta ∧ s3.rest = s.rest := by
  have hplain := h.plain
  by_cases hn : 0 < n
  · obtain ⟨T, B, b1, ⟨nt, hT⟩, ⟨nb, hB⟩⟩ := C25_begin exec s A R n l h hn
    rw [b1] at h1; cases h1
    have hpush : pushTop n (((s.setIP (s.cur.ip.setStorage (s.cur.ip.pos.add s.cur.ip.delta))).setStacks (T :: B :: R)).switched 125) =
        .ok ((), ((s.setIP (s.cur.ip.setStorage (s.cur.ip.pos.add s.cur.ip.delta))).switched 125).setStacks
          (⟨0, n :: firstN n.toNat l, nt + 1⟩ :: B :: R)) := by
      have : ((s.setIP (s.cur.ip.setStorage (s.cur.ip.pos.add s.cur.ip.delta))).setStacks (T :: B :: R)).switched 125 =
          ((s.setIP (s.cur.ip.setStorage (s.cur.ip.pos.add s.cur.ip.delta))).switched 125).setStacks (T :: B :: R) := by
        unfold St.switched
        show (if hasMode s.g.cfg.mode modeSwitch then _ else _) = St.setStacks (if hasMode s.g.cfg.mode modeSwitch then _ else _) _
        split <;> rfl
      rw [this, hT]
      exact pushTop_stacks _ (by decide) _ _ _ _
    rw [hpush] at h2; cases h2
    have hBp : B.Plain := by rw [hB]; exact hplain
    obtain ⟨v, B', c1, c2, ⟨nb', hB'⟩⟩ := C25_end exec (((s.setIP (s.cur.ip.setStorage (s.cur.ip.pos.add s.cur.ip.delta))).switched 125).setStacks
          (⟨0, n :: firstN n.toNat l, nt + 1⟩ :: B :: R)) ⟨0, n :: firstN n.toNat l, nt + 1⟩ B R n (firstN n.toNat l)
      (coords s.g.cfg.dims s.cur.ip.storage ++ l.drop n.toNat) ⟨rfl, rfl, rfl, plain_zero _ _⟩ (by rw [hB]) hBp hn
    rw [c1] at h3; cases h3
    rw [setStacks_g, switched_dims] at c2 hB'
    refine ⟨rfl, rfl, ⟨B', by rw [switched_ss]; rfl, nb', ?_⟩, ?_, ?_, ?_, ?_⟩
    · rw [hB', hB]
      show (⟨A.mode, firstN n.toNat (firstN n.toNat l) ++ _, _⟩ : Stack) = _
      have hd : (coords s.g.cfg.dims s.cur.ip.storage ++ l.drop n.toNat).drop s.g.cfg.dims = l.drop n.toNat := by
        rw [List.drop_append, coords_length, List.drop_eq_nil_of_le (by rw [coords_length]; omega)]; simp
      show (⟨A.mode, firstN n.toNat (firstN n.toNat l) ++ List.drop s.g.cfg.dims _, _⟩ : Stack) = _
      have hll : firstN n.toNat (firstN n.toNat l) ++ l.drop n.toNat = l ++ List.replicate (n.toNat - l.length) 0 := by
        rw [← padTake_firstN n.toNat (firstN n.toNat l), ← padTake_firstN]
        have hpp : padTake n.toNat (padTake n.toNat l) = padTake n.toNat l := by
          have := padTake_append (padTake n.toNat l) []
          rwa [padTake_length, List.append_nil] at this
        rw [hpp, padTake_firstN, firstN]
        by_cases hle : n.toNat ≤ l.length
        · rw [show n.toNat - l.length = 0 by omega]; simp
        · rw [List.drop_eq_nil_of_le (by omega), List.take_of_length_le (by omega)]; simp
      rw [hd, hll]
    · intro i hi
      rw [switched_ss]
      show v.get i = _
      rw [c2]
      exact vecOf_coords s.g.cfg.dims s.cur.ip.storage _ i hi
    · rw [switched_ss]; show ((s.setIP _).switched 125).cur.ip.pos = _; rw [switched_ss]; rfl
    · rw [switched_ss]; show ((s.setIP _).switched 125).cur.ip.delta = _; rw [switched_ss]; rfl
    · rw [switched_rest]; show ((s.setIP _).switched 125).rest = _; rw [switched_rest]; rfl
  · obtain ⟨B, b1, ⟨nb, hB⟩⟩ := C25_begin_nonpositive_partial exec s A R n l h (by omega) hmin
    rw [b1] at h1; cases h1
    have hpush : pushTop n (((s.setIP (s.cur.ip.setStorage (s.cur.ip.pos.add s.cur.ip.delta))).setStacks (Stack.new :: B :: R)).switched 125) =
        .ok ((), ((s.setIP (s.cur.ip.setStorage (s.cur.ip.pos.add s.cur.ip.delta))).switched 125).setStacks
          (⟨0, [n], 1⟩ :: B :: R)) := by
      have : ((s.setIP (s.cur.ip.setStorage (s.cur.ip.pos.add s.cur.ip.delta))).setStacks (Stack.new :: B :: R)).switched 125 =
          ((s.setIP (s.cur.ip.setStorage (s.cur.ip.pos.add s.cur.ip.delta))).switched 125).setStacks (Stack.new :: B :: R) := by
        unfold St.switched
        show (if hasMode s.g.cfg.mode modeSwitch then _ else _) = St.setStacks (if hasMode s.g.cfg.mode modeSwitch then _ else _) _
        split <;> rfl
      rw [this]
      exact pushTop_stacks _ (by decide) _ _ _ _
    rw [hpush] at h2; cases h2
    have hBp : B.Plain := by rw [hB]; exact hplain
    obtain ⟨v, B', c1, c2, ⟨nb', hB'⟩⟩ := C25_end_nonpositive_partial exec (((s.setIP (s.cur.ip.setStorage (s.cur.ip.pos.add s.cur.ip.delta))).switched 125).setStacks
          (⟨0, [n], 1⟩ :: B :: R)) ⟨0, [n], 1⟩ B R n []
      (coords s.g.cfg.dims s.cur.ip.storage ++ List.replicate n.natAbs 0 ++ l) ⟨rfl, rfl, rfl, plain_zero _ _⟩ (by rw [hB]) hBp (by omega) hmin
    rw [c1] at h3; cases h3
    rw [setStacks_g, switched_dims] at c2 hB'
    refine ⟨rfl, rfl, ⟨B', by rw [switched_ss]; rfl, nb', ?_⟩, ?_, ?_, ?_, ?_⟩
    · rw [hB', hB]
      have hd : (coords s.g.cfg.dims s.cur.ip.storage ++ List.replicate n.natAbs 0 ++ l).drop (s.g.cfg.dims + n.natAbs) =
          l ++ List.replicate (n.toNat - l.length) 0 := by
        have hlen : (coords s.g.cfg.dims s.cur.ip.storage ++ List.replicate n.natAbs (0 : Int)).length = s.g.cfg.dims + n.natAbs := by
          rw [List.length_append, coords_length, List.length_replicate]
        rw [List.drop_append, hlen, List.drop_eq_nil_of_le (by rw [hlen]; omega), show n.toNat = 0 by omega]; simp
      show (⟨A.mode, List.drop (s.g.cfg.dims + n.natAbs) _, _⟩ : Stack) = _
      rw [hd]
    · intro i hi
      rw [switched_ss]
      show v.get i = _
      rw [c2, List.append_assoc]
      exact vecOf_coords s.g.cfg.dims s.cur.ip.storage _ i hi
    · rw [switched_ss]; show ((s.setIP _).switched 125).cur.ip.pos = _; rw [switched_ss]; rfl
    · rw [switched_ss]; show ((s.setIP _).switched 125).cur.ip.delta = _; rw [switched_ss]; rfl
    · rw [switched_rest]; show ((s.setIP _).switched 125).rest = _; rw [switched_rest]; rfl

/-- The program `5678 2{2}`; only its last four instructions are executed here. -/
example : stackAfter (machine [56, 55, 54, 53, 50, 123, 50, 125]) 8 = some [5, 6, 7, 8] := by decide +kernel

/-- **C25** A count of -2^63 is undefined behaviour (`std::abs`), for both brackets. -/
theorem C25_undefined_at_min (exec : Int → Exec Err) (s : St) (A B : Stack) (R : List Stack) (l : List Int)
    (h : OnTop s A (-9223372036854775808 :: l) (B :: R)) (hB : B.Plain) :
    runOp exec .beginBlock s = .error .overflow ∧ runOp exec .endBlock s = .error .overflow := by
  obtain ⟨h1, h2, h3, h4⟩ := h
  obtain ⟨m, la, na⟩ := A
  obtain ⟨mb, lb, nb⟩ := B
  simp only at h3; subst h3
  have hs : s = s.setStacks (⟨m, -9223372036854775808 :: l, na⟩ :: ⟨mb, lb, nb⟩ :: R) := by rw [← h2, setStacks_self h1]
  constructor
  · show iBegin s = _
    have e1 : onStacks (fun ss => .ok ss.push) (s.setStacks (⟨m, l, na + 1⟩ :: ⟨mb, lb, nb⟩ :: R)) =
      .ok ((), s.setStacks (Stack.new :: ⟨m, l, na + 1⟩ :: ⟨mb, lb, nb⟩ :: R)) := rfl
    rw [hs, iBegin, bind_ok (popTop_cons s h4.1 _ _ _ _), bind_ok e1, if_neg (by decide), if_pos (by decide)]
    exact bind_error (fault_run _ _)
  · show iEnd s = _
    rw [hs]
    have e0 : numStacks (s.setStacks (⟨m, -9223372036854775808 :: l, na⟩ :: ⟨mb, lb, nb⟩ :: R)) =
      .ok (R.length + 2, s.setStacks (⟨m, -9223372036854775808 :: l, na⟩ :: ⟨mb, lb, nb⟩ :: R)) := rfl
    rw [iEnd, bind_ok e0, if_pos (by omega), bind_ok (popTop_cons s h4.1 _ _ _ _)]
    have hp2 : Pops popSecond fun l' n' => s.setStacks (⟨m, l, na + 1⟩ :: ⟨mb, l', n'⟩ :: R) := fun l n => popSecond_stacks s hB.1 _ l n R
    obtain ⟨v, e1, -⟩ := hp2.popVectorOn (d := s.g.cfg.dims) lb nb rfl
    rw [bind_ok (m := popVectorOn popSecond) e1, bind_ok (onIP_stacks _ _ _), if_neg (by decide), if_pos (by decide)]
    exact bind_error (fault_run _ _)

example : OnTop (exTwo [-9223372036854775808] [8]) { items := [-9223372036854775808] } [-9223372036854775808] [{ items := [8] }] :=
  ⟨rfl, rfl, rfl, by decide⟩

/-! ## C26 -/

theorem moveN_run {pop : Exec Int} {push : Int → Exec Unit} (X : List Int → List Int → Nat → Nat → St)
    (hpop : ∀ a b n m, pop (X a b n m) = .ok (a.headD 0, X a.tail b (n + 1) m))
    (hpush : ∀ a b n m v, push v (X a b n m) = .ok ((), X a (v :: b) n (m + 1))) (k : Nat) (a b : List Int) (n m : Nat) :
    moveN pop push k (X a b n m) = .ok ((), X (a.drop k) ((padTake k a).reverse ++ b) (n + k) (m + k)) := by
  induction k generalizing a b n m with
  | zero => rfl
  | succ k ih =>
    rw [moveN, bind_ok (hpop a b n m), bind_ok (hpush _ _ _ _ _), ih]
    simp [padTake, Nat.add_comm, Nat.add_left_comm]

/-- **C26** `u` with n > 0 moves n values one by one from the second stack to the top stack, so in reverse order; zeros stand in for missing
values. -/
theorem C26_under (exec : Int → Exec Err) (s : St) (A B : Stack) (R : List Stack) (n : Int) (l b : List Int) (h : OnTop s A (n :: l) (B :: R))
    (hb : B.items = b) (hB : B.Plain) (hn : 0 < n) :
    ∃ A' B', runOp exec .under s = .ok (.none, s.setStacks (A' :: B' :: R)) ∧
      A.Became ((firstN n.toNat b).reverse ++ l) A' ∧ B.Became (b.drop n.toNat) B' := by
  obtain ⟨h1, h2, h3, h4⟩ := h
  obtain ⟨m, la, na⟩ := A
  obtain ⟨mb, lb, nb⟩ := B
  simp only at h3 hb; subst h3; subst hb
  have hs : s = s.setStacks (⟨m, n :: l, na⟩ :: ⟨mb, lb, nb⟩ :: R) := by rw [← h2, setStacks_self h1]
  refine ⟨⟨m, (padTake n.toNat lb).reverse ++ l, na + 1 + n.toNat⟩, ⟨mb, lb.drop n.toNat, nb + n.toNat⟩, ?_, became (by rw [padTake_firstN]),
    ⟨_, rfl⟩⟩
  show iUnder s = _
  conv => lhs; rw [hs]
  have e0 : numStacks (s.setStacks (⟨m, n :: l, na⟩ :: ⟨mb, lb, nb⟩ :: R)) = .ok (R.length + 2, s.setStacks (⟨m, n :: l, na⟩ :: ⟨mb, lb, nb⟩ :: R)) := rfl
  rw [iUnder, bind_ok e0, if_pos (by omega), bind_ok (popTop_cons s h4.1 _ _ _ _)]
  rw [if_pos (by omega)]
  have e1 := moveN_run (fun a b n k => s.setStacks (⟨m, b, k⟩ :: ⟨mb, a, n⟩ :: R)) (fun a b n k => popSecond_stacks s hB.1 _ _ _ _)
    (fun a b n k v => pushTop_stacks s h4.2 _ _ _ _) n.toNat lb l nb (na + 1)
  show (moveN popSecond pushTop n.toNat >>= _) _ = _
  rw [bind_ok (m := moveN popSecond pushTop n.toNat) e1]
  rfl

/-- **C26** `u` with n ≤ 0 moves |n| values one by one from the top stack to the second. -/
theorem C26_under_negative_partial (exec : Int → Exec Err) (s : St) (A B : Stack) (R : List Stack) (n : Int) (l b : List Int)
    (h : OnTop s A (n :: l) (B :: R)) (hb : B.items = b) (hB : B.Plain) (hn : n ≤ 0) (hmin : -9223372036854775808 < n) :
    ∃ A' B', runOp exec .under s = .ok (.none, s.setStacks (A' :: B' :: R)) ∧
      A.Became (l.drop n.natAbs) A' ∧ B.Became ((firstN n.natAbs l).reverse ++ b) B' := by
  obtain ⟨h1, h2, h3, h4⟩ := h
  obtain ⟨m, la, na⟩ := A
  obtain ⟨mb, lb, nb⟩ := B
  simp only at h3 hb; subst h3; subst hb
  have hs : s = s.setStacks (⟨m, n :: l, na⟩ :: ⟨mb, lb, nb⟩ :: R) := by rw [← h2, setStacks_self h1]
  have hk : (-n).toNat = n.natAbs := by omega
  refine ⟨⟨m, l.drop n.natAbs, na + 1 + n.natAbs⟩, ⟨mb, (padTake n.natAbs l).reverse ++ lb, nb + n.natAbs⟩, ?_, ⟨_, rfl⟩,
    became (by rw [padTake_firstN])⟩
  show iUnder s = _
  conv => lhs; rw [hs]
  have e0 : numStacks (s.setStacks (⟨m, n :: l, na⟩ :: ⟨mb, lb, nb⟩ :: R)) = .ok (R.length + 2, s.setStacks (⟨m, n :: l, na⟩ :: ⟨mb, lb, nb⟩ :: R)) := rfl
  rw [iUnder, bind_ok e0, if_pos (by omega), bind_ok (popTop_cons s h4.1 _ _ _ _)]
  rw [if_neg (by omega), if_neg (by unfold i64Min; omega), hk]
  have e1 := moveN_run (fun a b n k => s.setStacks (⟨m, a, n⟩ :: ⟨mb, b, k⟩ :: R)) (fun a b n k => popTop_stacks s h4.1 _ _ _)
    (fun a b n k v => pushSecond_stacks s hB.2 _ _ _ _ _) n.natAbs l lb (na + 1) nb
  show (moveN popTop pushSecond n.natAbs >>= _) _ = _
  rw [bind_ok (m := moveN popTop pushSecond n.natAbs) e1]
  rfl

/-- **C26** A count of -2^63 is undefined behaviour (`-n`). -/
theorem C26_undefined_at_min (exec : Int → Exec Err) (s : St) (A : Stack) (B : Stack) (R : List Stack) (l : List Int)
    (h : OnTop s A (-9223372036854775808 :: l) (B :: R)) : runOp exec .under s = .error .overflow := by
  obtain ⟨h1, h2, h3, h4⟩ := h
  obtain ⟨m, la, na⟩ := A
  simp only at h3; subst h3
  have hs : s = s.setStacks (⟨m, -9223372036854775808 :: l, na⟩ :: B :: R) := by rw [← h2, setStacks_self h1]
  show iUnder s = _
  rw [hs]
  have e0 : numStacks (s.setStacks (⟨m, -9223372036854775808 :: l, na⟩ :: B :: R)) =
    .ok (R.length + 2, s.setStacks (⟨m, -9223372036854775808 :: l, na⟩ :: B :: R)) := rfl
  rw [iUnder, bind_ok e0, if_pos (by omega), bind_ok (popTop_cons s h4.1 _ _ _ _), if_neg (by decide), if_pos (by decide)]
  exact bind_error (fault_run _ _)

/-- **C26** With a single stack `u` is an error that reflects; nothing is popped. -/
theorem C26_under_alone (exec : Int → Exec Err) (s : St) (h : s.cur.ss.stacks.length ≤ 1) : runOp exec .under s = .ok (.unspec, s) := by
  show iUnder s = _
  rw [iUnder, bind_ok (numStacks_run s), if_neg (by show ¬ s.cur.ss.stacks.length > 1; omega)]
  rfl

/-- **C26** No value is lost: when there are enough of them, the two stacks together hold the same values, without the count. -/
theorem C26_conserves (exec : Int → Exec Err) (s s' : St) (e : Err) (A B : Stack) (R : List Stack) (n : Int) (l b : List Int)
    (h : OnTop s A (n :: l) (B :: R)) (hb : B.items = b) (hB : B.Plain) (hmin : -9223372036854775808 < n)
    (henough : n ≤ b.length ∧ -n ≤ l.length) (hrun : runOp exec .under s = .ok (e, s')) :
    ∃ A' B', s' = s.setStacks (A' :: B' :: R) ∧ (A'.items ++ B'.items).Perm (l ++ b) := by
  have key : ∀ (k : Nat) (x y : List Int), k ≤ x.length → ((firstN k x).reverse ++ y ++ x.drop k).Perm (y ++ x) := by
    intro k x y hk
    have h1 : firstN k x = x.take k := by rw [← padTake_firstN, padTake_eq_take hk]
    rw [h1]
    have h2 : ((x.take k).reverse ++ y ++ x.drop k).Perm (x.take k ++ y ++ x.drop k) :=
      ((List.reverse_perm _).append_right y).append_right _
    refine h2.trans ?_
    rw [List.append_assoc]
    have h3 : (x.take k ++ (y ++ x.drop k)).Perm (y ++ (x.take k ++ x.drop k)) := by
      rw [← List.append_assoc, ← List.append_assoc]
      exact List.perm_append_comm.append_right _
    rwa [List.take_append_drop] at h3
  by_cases hn : 0 < n
  · obtain ⟨A', B', h1, ⟨na, hA'⟩, ⟨nb, hB'⟩⟩ := C26_under exec s A B R n l b h hb hB hn
    rw [h1] at hrun; cases hrun
    refine ⟨A', B', rfl, ?_⟩
    rw [hA', hB']
    exact key n.toNat b l (by omega)
  · obtain ⟨A', B', h1, ⟨na, hA'⟩, ⟨nb, hB'⟩⟩ := C26_under_negative_partial exec s A B R n l b h hb hB (by omega) hmin
    rw [h1] at hrun; cases hrun
    refine ⟨A', B', rfl, ?_⟩
    rw [hA', hB']
    show (l.drop n.natAbs ++ ((firstN n.natAbs l).reverse ++ b)).Perm _
    refine List.perm_append_comm.trans ?_
    rw [List.append_assoc]
    have h2 := key n.natAbs l b (by omega)
    rw [List.append_assoc] at h2
    exact h2.trans List.perm_append_comm

/-- **C26** `n u`, then `-n u`, restores both stacks if the second has n values. -/
theorem C26_round_trip (exec : Int → Exec Err) (s s1 s2 s3 : St) (e1 e2 : Err) (A B : Stack) (R : List Stack) (n : Int) (l b : List Int)
    (h : OnTop s A (n :: l) (B :: R)) (hb : B.items = b) (hB : B.Plain) (hn : 0 < n ∧ n ≤ 9223372036854775807) (henough : n ≤ b.length)
    (h1 : runOp exec .under s = .ok (e1, s1)) (h2 : pushTop (-n) s1 = .ok ((), s2)) (h3 : runOp exec .under s2 = .ok (e2, s3)) :
    ∃ A' B', s3 = s.setStacks (A' :: B' :: R) ∧ A.Became l A' ∧ B.Became b B' := by
  obtain ⟨A', B', c1, ⟨na, hA'⟩, ⟨nb, hB'⟩⟩ := C26_under exec s A B R n l b h hb hB hn.1
  rw [c1] at h1; cases h1
  rw [hA'] at h2
  rw [pushTop_stacks s h.plain.2 _ _ _ _] at h2; cases h2
  obtain ⟨A2, B2, d1, ⟨na2, hA2⟩, ⟨nb2, hB2⟩⟩ := C26_under_negative_partial exec
    (s.setStacks (⟨A.mode, -n :: ((firstN n.toNat b).reverse ++ l), na + 1⟩ :: B' :: R))
    ⟨A.mode, -n :: ((firstN n.toNat b).reverse ++ l), na + 1⟩ B' R (-n) ((firstN n.toNat b).reverse ++ l)
    (b.drop n.toNat) ⟨rfl, rfl, rfl, h.plain⟩ (by rw [hB']) (by rw [hB']; exact hB) (by omega) (by omega)
  rw [d1] at h3; cases h3
  have hnat : (-n).natAbs = n.toNat := by omega
  refine ⟨A2, B2, rfl, ⟨na2, ?_⟩, ⟨nb2, ?_⟩⟩
  · rw [hA2, hnat, ← padTake_firstN]
    show (⟨A.mode, _, _⟩ : Stack) = _
    have : ((padTake n.toNat b).reverse ++ l).drop n.toNat = l := by
      rw [List.drop_append, List.length_reverse, padTake_length, List.drop_eq_nil_of_le (by rw [List.length_reverse, padTake_length]; omega)]; simp
    rw [this]
  · rw [hB2, hB', hnat, ← padTake_firstN, ← padTake_firstN, padTake_reverse_append, List.reverse_reverse,
      padTake_eq_take (by omega), List.take_append_drop]

example : OnTop (exTwo [2, 5] [6, 7, 8]) { items := [2, 5] } [2, 5] [{ items := [6, 7, 8] }] := ⟨rfl, rfl, rfl, by decide⟩
example : OnTop (exTwo [-2, 5, 1] [6]) { items := [-2, 5, 1] } [-2, 5, 1] [{ items := [6] }] := ⟨rfl, rfl, rfl, by decide⟩

end Funge
