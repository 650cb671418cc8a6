import Verif.Props.C45_Fish
import Verif.Props.C50_Directions
import Verif.Props.C51_FRTH
/-
C90: what the instructions of ><> do to the stack. C91: the mirrors.
-/
namespace Funge
open Exec

/-! ### C90 -/

/-- What the instruction `c` of ><> is to make of the stack (topmost first), with the arithmetic of `double`s `fl`. -/
inductive FishStack (fl : FloatOps) : Int → List Int → List Int → Prop
  | digit (d : Int) (l) (h0 : 0 ≤ d) (h9 : d ≤ 9) : FishStack fl (48 + d) l (fl.ofInt d :: l)
  | letter (d : Int) (l) (h0 : 10 ≤ d) (h9 : d ≤ 15) : FishStack fl (87 + d) l (fl.ofInt d :: l)
  | dup (x l) : FishStack fl 58 (x :: l) (x :: x :: l)
  | remove (x l) : FishStack fl 126 (x :: l) l
  | swap2 (x y l) : FishStack fl 36 (x :: y :: l) (y :: x :: l)
  | swap3 (x y z l) : FishStack fl 64 (x :: y :: z :: l) (y :: z :: x :: l)
  | length (l : List Int) : FishStack fl 108 l (fl.ofInt l.length :: l)
  | left (l x) : FishStack fl 123 (l ++ [x]) (x :: l)
  | right (l x) : FishStack fl 125 (x :: l) (l ++ [x])
  | reverse (l : List Int) : FishStack fl 114 l l.reverse
  | add (x y l) : FishStack fl 43 (x :: y :: l) (fl.add y x :: l)
  | sub (x y l) : FishStack fl 45 (x :: y :: l) (fl.sub y x :: l)
  | mul (x y l) : FishStack fl 42 (x :: y :: l) (fl.mul y x :: l)
  | div (x y l) (h : fl.isZero x = false) : FishStack fl 44 (x :: y :: l) (fl.div y x :: l)
  | modulo (x y l) (a b : Int) (hx : fl.toI64 x = some a) (hy : fl.toI64 y = some b) (ha : 0 < a) (hb : 0 ≤ b) : FishStack fl 37 (x :: y :: l) (fl.ofInt (b % a) :: l)
  | equal (x y l) : FishStack fl 61 (x :: y :: l) (fl.ofInt (if fl.eq y x then 1 else 0) :: l)
  | greater (x y l) : FishStack fl 41 (x :: y :: l) (fl.ofInt (if fl.lt x y then 1 else 0) :: l)
  | less (x y l) : FishStack fl 40 (x :: y :: l) (fl.ofInt (if fl.lt y x then 1 else 0) :: l)

theorem checkTop_items {s : St} (h : s.Lifo) {k : Nat} {l : List Int} (hk : k ≤ l.length) (n) (K : Exec Err) : checkTop k K (s.setItems l n) = K (s.setItems l n) := by
  rw [checkTop, bind_ok (sizeTop_run h _ _), if_neg (by omega)]

theorem checkSelected_items {s : St} (h : s.Lifo) (l n) (K : Exec Err) : checkSelected 0 K (s.setItems l n) = K (s.setItems l n) := by
  rw [checkSelected, bind_ok (numStacks_run _), if_neg]
  have := h.1
  unfold StackStack.size
  rw [setItems_len]
  omega

theorem getFlt_run (s : St) : getFlt s = .ok (s.g.flt, s) := rfl

theorem fishPush_run {s : St} (h : s.Lifo) (l n) (x : Int) : fishPush x (s.setItems l n) = .ok ((), s.setItems (s.g.flt.ofInt x :: l) (n + 1)) := by
  rw [fishPush, bind_ok (getFlt_run _)]; exact pushTop_run h _ _ _

theorem fiBin_run {s : St} (h : s.Lifo) (f : FloatOps → Int → Int → Int) (x y l n) :
    fiBin f (s.setItems (x :: y :: l) n) = .ok (.none, s.setItems (f s.g.flt y x :: l) (n + 3)) := by
  rw [fiBin, checkTop_items h (by simp), bind_ok (popTop_head h _ _ _), bind_ok (popTop_head h _ _ _), bind_ok (getFlt_run _), bind_ok (pushTop_run h _ _ _)]; rfl

theorem shiftLeft_run {s : St} (h : s.Lifo) (l : List Int) (x : Int) (n : Nat) :
    ∃ n', (do
      let len ← sizeTop
      let temp ← popN popTop len
      match temp.getLast? with
      | none => fault .outOfRange
      | some x => do
        pushAll pushTop temp.dropLast.reverse
        pushTop x
        pure Err.none : Exec Err) (s.setItems (l ++ [x]) n) = .ok (.none, s.setItems (x :: l) n') := by
  rw [bind_ok (sizeTop_run h _ _), bind_ok (popN_run h _ _ _), padTake_eq_take (Nat.le_refl _), List.take_length, List.drop_length, List.getLast?_concat]
  dsimp only
  rw [bind_ok (pushAll_run h _ _ _), bind_ok (pushTop_run h _ _ _), List.dropLast_concat, List.reverse_reverse, List.append_nil]
  exact ⟨_, rfl⟩

theorem shiftRight_run {s : St} (h : s.Lifo) (l : List Int) (x : Int) (n : Nat) :
    ∃ n', (do
      let len ← sizeTop
      let temp ← popN popTop len
      match temp with
      | [] => fault .outOfRange
      | x :: r => do
        pushTop x
        pushAll pushTop r.reverse
        pure Err.none : Exec Err) (s.setItems (x :: l) n) = .ok (.none, s.setItems (l ++ [x]) n') := by
  rw [bind_ok (sizeTop_run h _ _), bind_ok (popN_run h _ _ _), padTake_eq_take (Nat.le_refl _), List.take_length, List.drop_length]
  dsimp only
  rw [bind_ok (pushTop_run h _ _ _), bind_ok (pushAll_run h _ _ _), List.reverse_reverse]
  exact ⟨_, rfl⟩

theorem reverse_run {s : St} (h : s.Lifo) (l : List Int) (n : Nat) :
    ∃ n', (do
      let len ← sizeTop
      let temp ← popN popTop len
      pushAll pushTop temp
      pure Err.none : Exec Err) (s.setItems l n) = .ok (.none, s.setItems l.reverse n') := by
  rw [bind_ok (sizeTop_run h _ _), bind_ok (popN_run h _ _ _), padTake_eq_take (Nat.le_refl _), List.take_length, List.drop_length, bind_ok (pushAll_run h _ _ _), List.append_nil]
  exact ⟨_, rfl⟩

/-- An instruction of ><> that is in the table does what its function does. -/
theorem fishy_exec {s : St} (hf : s.cur.Fishy) (hd : hasMode s.g.cfg.mode modeDive = false) (ex : Int → Exec Err) {c : Int} {op : Op} {mv : Bool}
    (h1 : (meanings semsFish c).head? = some ⟨op, mv⟩) (h2 : (meanings (semsFish ++ semsStarfish) c).head? = some ⟨op, mv⟩) :
    execNormal ex c s = runOp ex op s := exec_sem (fishy_sem hf h1 h2) hd ex

/-- **C90** The instructions of ><> do to the stack what they are to do, in ><> as in *><>, whatever the stack holds, and nothing else. -/
theorem C90_words_partial (ex : Int → Exec Err) {s : St} (hf : s.cur.Fishy) (hd : hasMode s.g.cfg.mode modeDive = false) (h : s.Lifo) {c : Int} {l l' : List Int}
    (hi : s.items = l) (hw : FishStack s.g.flt c l l') : ∃ s', execNormal ex c s = .ok (.none, s') ∧ s.Leaves s' l' := by
  have hs : s = s.setItems l s.top.ops := by rw [← hi]; exact (setItems_self h).symm
  have go : ∀ {op : Op} {c : Int}, (meanings semsFish c).head? = some ⟨op, false⟩ → (meanings (semsFish ++ semsStarfish) c).head? = some ⟨op, false⟩ →
      (∃ n, runOp ex op (s.setItems l s.top.ops) = .ok (.none, s.setItems l' n)) → ∃ s', execNormal ex c s = .ok (.none, s') ∧ s.Leaves s' l' := by
    intro op c h1 h2 ⟨n, hn⟩
    refine ⟨s.setItems l' n, ?_, n, rfl⟩
    rw [fishy_exec hf hd ex h1 h2]
    rw [← hs] at hn
    exact hn
  have hp : ∀ (v : Int) n, fiPush v (s.setItems l n) = .ok (.none, s.setItems (s.g.flt.ofInt v :: l) (n + 1)) := by
    intro v n
    rw [fiPush, checkSelected_items h, bind_ok (fishPush_run h _ _ _)]; rfl
  cases hw with
  | digit d _ h0 h9 =>
    have : d = 0 ∨ d = 1 ∨ d = 2 ∨ d = 3 ∨ d = 4 ∨ d = 5 ∨ d = 6 ∨ d = 7 ∨ d = 8 ∨ d = 9 := by omega
    exact go (op := .fPush d) (by rcases this with rfl | rfl | rfl | rfl | rfl | rfl | rfl | rfl | rfl | rfl <;> decide)
      (by rcases this with rfl | rfl | rfl | rfl | rfl | rfl | rfl | rfl | rfl | rfl <;> decide) ⟨_, hp _ _⟩
  | letter d _ h0 h9 =>
    have : d = 10 ∨ d = 11 ∨ d = 12 ∨ d = 13 ∨ d = 14 ∨ d = 15 := by omega
    exact go (op := .fPush d) (by rcases this with rfl | rfl | rfl | rfl | rfl | rfl <;> decide)
      (by rcases this with rfl | rfl | rfl | rfl | rfl | rfl <;> decide) ⟨_, hp _ _⟩
  | dup x l =>
    refine go (op := .fDuplicate) (by decide) (by decide) ⟨s.top.ops + 3, ?_⟩
    show fiDuplicate _ = _
    rw [fiDuplicate, checkTop_items h (by simp), bind_ok (popTop_head h _ _ _), bind_ok (pushTop_run h _ _ _), bind_ok (pushTop_run h _ _ _)]; rfl
  | remove x =>
    refine go (op := .fRemove) (by decide) (by decide) ⟨s.top.ops + 1, ?_⟩
    show fiRemove _ = _
    rw [fiRemove, checkTop_items h (by simp), bind_ok (popTop_head h _ _ _)]; rfl
  | swap2 x y l =>
    refine go (op := .fSwap2) (by decide) (by decide) ⟨s.top.ops + 4, ?_⟩
    show fiSwap2 _ = _
    rw [fiSwap2, checkTop_items h (by simp), bind_ok (popTop_head h _ _ _), bind_ok (popTop_head h _ _ _), bind_ok (pushTop_run h _ _ _), bind_ok (pushTop_run h _ _ _)]; rfl
  | swap3 x y z l =>
    refine go (op := .fSwap3) (by decide) (by decide) ⟨s.top.ops + 6, ?_⟩
    show fiSwap3 _ = _
    rw [fiSwap3, checkTop_items h (by simp), bind_ok (popTop_head h _ _ _), bind_ok (popTop_head h _ _ _), bind_ok (popTop_head h _ _ _), bind_ok (pushTop_run h _ _ _),
      bind_ok (pushTop_run h _ _ _), bind_ok (pushTop_run h _ _ _)]; rfl
  | length =>
    refine go (op := .fLength) (by decide) (by decide) ⟨s.top.ops + 1, ?_⟩
    show fiLength _ = _
    rw [fiLength, checkSelected_items h, bind_ok (sizeTop_run h _ _), bind_ok (fishPush_run h _ _ _)]; rfl
  | left l x =>
    refine go (op := .fShiftLeft) (by decide) (by decide) ?_
    show ∃ n, fiShiftLeft _ = _
    rw [fiShiftLeft, checkSelected_items h]
    exact shiftLeft_run h l x _
  | right l x =>
    refine go (op := .fShiftRight) (by decide) (by decide) ?_
    show ∃ n, fiShiftRight _ = _
    rw [fiShiftRight, checkSelected_items h]
    exact shiftRight_run h l x _
  | reverse =>
    refine go (op := .fReverse) (by decide) (by decide) ?_
    show ∃ n, fiReverse _ = _
    rw [fiReverse, checkSelected_items h]
    exact reverse_run h l _
  | add x y l => exact go (op := .fAdd) (by decide) (by decide) ⟨_, fiBin_run h _ _ _ _ _⟩
  | sub x y l => exact go (op := .fSub) (by decide) (by decide) ⟨_, fiBin_run h _ _ _ _ _⟩
  | mul x y l => exact go (op := .fMult) (by decide) (by decide) ⟨_, fiBin_run h _ _ _ _ _⟩
  | div x y l hz =>
    refine go (op := .fDiv) (by decide) (by decide) ⟨s.top.ops + 3, ?_⟩
    show fiDiv _ = _
    rw [fiDiv, checkTop_items h (by simp), bind_ok (popTop_head h _ _ _), bind_ok (popTop_head h _ _ _), bind_ok (getFlt_run _)]
    rw [if_neg (by rw [setItems_g, hz]; decide), bind_ok (pushTop_run h _ _ _)]; rfl
  | modulo x y l a b hx hy ha hb =>
    refine go (op := .fModu) (by decide) (by decide) ⟨s.top.ops + 3, ?_⟩
    show fiModu _ = _
    have hint : ∀ {z v : Int} (l : List Int) (n : Nat), s.g.flt.toI64 z = some v → fishPopInt (s.setItems (z :: l) n) = .ok (v, s.setItems l (n + 1)) := by
      intro z v l n hz
      rw [fishPopInt, bind_ok (popTop_head h _ _ _)]
      exact fishInt_run hz
    rw [fiModu, checkTop_items h (by simp), bind_ok (hint _ _ hx), bind_ok (hint _ _ hy), if_neg (by omega), if_neg (by unfold i64Min; omega),
      bind_ok (fishPush_run h _ _ _), Int.tmod_eq_emod_of_nonneg hb]; rfl
  | equal x y l => exact go (op := .fEqual) (by decide) (by decide) ⟨_, fiBin_run h _ _ _ _ _⟩
  | greater x y l => exact go (op := .fGreater) (by decide) (by decide) ⟨_, fiBin_run h _ _ _ _ _⟩
  | less x y l => exact go (op := .fLess) (by decide) (by decide) ⟨_, fiBin_run h _ _ _ _ _⟩

/-- The same of the fingerprint FISH: `L`, `R`, `S` and `T` are `{`, `}`, `r` and `@`. -/
theorem C90_fingerprint_partial (ex : Int → Exec Err) {s : St} (h : s.Lifo) {c c' : Int} {l l' : List Int}
    (hc : (c, c') ∈ ([(76, 123), (82, 125), (83, 114), (84, 64)] : List (Int × Int)))
    (hi : s.items = l) (hw : FishStack s.g.flt c' l l') : ∃ s', runOp ex (.fing .FISH c) s = .ok (.none, s') ∧ s.Leaves s' l' := by
  have hs : s = s.setItems l s.top.ops := by rw [← hi]; exact (setItems_self h).symm
  have go : (∃ n, runOp ex (.fing .FISH c) (s.setItems l s.top.ops) = .ok (.none, s.setItems l' n)) → ∃ s', runOp ex (.fing .FISH c) s = .ok (.none, s') ∧ s.Leaves s' l' := by
    intro ⟨n, hn⟩
    refine ⟨s.setItems l' n, ?_, n, rfl⟩
    rw [← hs] at hn
    exact hn
  apply go
  simp only [List.mem_cons, Prod.mk.injEq, List.not_mem_nil, or_false] at hc
  rcases hc with ⟨rfl, rfl⟩ | ⟨rfl, rfl⟩ | ⟨rfl, rfl⟩ | ⟨rfl, rfl⟩
  · generalize hc : (123 : Int) = c at hw
    cases hw <;> try omega
    show ∃ n, fgShiftLeft _ = _
    rw [fgShiftLeft]
    exact shiftLeft_run h _ _ _
  · generalize hc : (125 : Int) = c at hw
    cases hw <;> try omega
    show ∃ n, fgShiftRight _ = _
    rw [fgShiftRight]
    exact shiftRight_run h _ _ _
  · generalize hc : (114 : Int) = c at hw
    cases hw <;> try omega
    show ∃ n, fgReverse _ = _
    rw [fgReverse]
    exact reverse_run h _ _
  · generalize hc : (64 : Int) = c at hw
    cases hw <;> try omega
    refine ⟨s.top.ops + 6, ?_⟩
    show fgSwap3 _ = _
    rw [fgSwap3, bind_ok (popTop_head h _ _ _), bind_ok (popTop_head h _ _ _), bind_ok (popTop_head h _ _ _), bind_ok (pushTop_run h _ _ _),
      bind_ok (pushTop_run h _ _ _), bind_ok (pushTop_run h _ _ _)]; rfl

/-- **C90** Division by zero ends the program instead. -/
theorem C90_division_by_zero (ex : Int → Exec Err) {s : St} (hf : s.cur.Fishy) (hd : hasMode s.g.cfg.mode modeDive = false) (h : s.Lifo) {x y : Int} {l : List Int}
    (hi : s.items = x :: y :: l) (hx : s.g.flt.isZero x = true) : ∃ e s', execNormal ex 44 s = .ok (e, s') ∧ e.bad = true := by
  refine ⟨.unspec, s.setItems l (s.top.ops + 2), ?_, rfl⟩
  rw [fishy_exec hf hd ex (op := .fDiv) (mv := false) (by decide) (by decide)]
  show fiDiv s = _
  conv => lhs; rw [← setItems_self h, hi]
  rw [fiDiv, checkTop_items h (by simp), bind_ok (popTop_head h _ _ _), bind_ok (popTop_head h _ _ _), bind_ok (getFlt_run _)]
  rw [if_pos (by exact hx)]
  rfl

theorem fishStack_undone (fl : FloatOps) {l l1 : List Int} :
    (FishStack fl 123 l l1 → FishStack fl 125 l1 l) ∧ (FishStack fl 125 l l1 → FishStack fl 123 l1 l) ∧ (FishStack fl 114 l l1 → FishStack fl 114 l1 l) ∧
    (FishStack fl 36 l l1 → FishStack fl 36 l1 l) ∧ (FishStack fl 64 l l1 → ∃ l2, FishStack fl 64 l1 l2 ∧ FishStack fl 64 l2 l) ∧
    (FishStack fl 58 l l1 → FishStack fl 126 l1 l) := by
  refine ⟨fun h => ?_, fun h => ?_, fun h => ?_, fun h => ?_, fun h => ?_, fun h => ?_⟩
  · generalize hc : (123 : Int) = c at h
    cases h <;> try omega
    exact .right _ _
  · generalize hc : (125 : Int) = c at h
    cases h <;> try omega
    exact .left _ _
  · generalize hc : (114 : Int) = c at h
    cases h <;> try omega
    have := FishStack.reverse (fl := fl) l.reverse
    rwa [List.reverse_reverse] at this
  · generalize hc : (36 : Int) = c at h
    cases h <;> try omega
    exact .swap2 _ _ _
  · generalize hc : (64 : Int) = c at h
    cases h <;> try omega
    exact ⟨_, .swap3 _ _ _ _, .swap3 _ _ _ _⟩
  · generalize hc : (58 : Int) = c at h
    cases h <;> try omega
    exact .remove _ _

/-- **C90** `{` and `}` undo each other; `r` twice and `$` twice change nothing; `:` and then `~` neither. -/
theorem C90_undone (ex : Int → Exec Err) {s : St} (hf : s.cur.Fishy) (hd : hasMode s.g.cfg.mode modeDive = false) (h : s.Lifo) {c c' : Int} {l : List Int}
    (hc : (c, c') ∈ ([(123, 125), (125, 123), (114, 114), (36, 36), (58, 126)] : List (Int × Int))) (hw : FishStack s.g.flt c s.items l) :
    ∃ s1 s2, execNormal ex c s = .ok (.none, s1) ∧ execNormal ex c' s1 = .ok (.none, s2) ∧ s.Leaves s2 s.items := by
  have hw' : FishStack s.g.flt c' l s.items := by
    simp only [List.mem_cons, Prod.mk.injEq, List.not_mem_nil, or_false] at hc
    have u := fishStack_undone s.g.flt (l := s.items) (l1 := l)
    rcases hc with ⟨rfl, rfl⟩ | ⟨rfl, rfl⟩ | ⟨rfl, rfl⟩ | ⟨rfl, rfl⟩ | ⟨rfl, rfl⟩
    · exact u.1 hw
    · exact u.2.1 hw
    · exact u.2.2.1 hw
    · exact u.2.2.2.1 hw
    · exact u.2.2.2.2.2 hw
  obtain ⟨s1, h1, n1, rfl⟩ := C90_words_partial ex hf hd h rfl hw
  obtain ⟨s2, h2, n2, rfl⟩ := C90_words_partial ex (s := s.setItems l n1) (hf.same rfl rfl rfl rfl) hd (lifo_setItems h _ _) (items_setItems h _ _) hw'
  exact ⟨_, _, h1, h2, n2, by rw [setItems_setItems h]⟩

/-- **C90** `@` three times changes nothing. -/
theorem C90_rotated (ex : Int → Exec Err) {s : St} (hf : s.cur.Fishy) (hd : hasMode s.g.cfg.mode modeDive = false) (h : s.Lifo) {x y z : Int} {l : List Int}
    (hi : s.items = x :: y :: z :: l) :
    ∃ s1 s2 s3, execNormal ex 64 s = .ok (.none, s1) ∧ execNormal ex 64 s1 = .ok (.none, s2) ∧ execNormal ex 64 s2 = .ok (.none, s3) ∧ s.Leaves s3 s.items := by
  obtain ⟨s1, h1, n1, rfl⟩ := C90_words_partial ex hf hd h hi (.swap3 x y z l)
  obtain ⟨s2, h2, n2, rfl⟩ := C90_words_partial ex (s := s.setItems _ n1) (hf.same rfl rfl rfl rfl) hd (lifo_setItems h _ _) (items_setItems h _ _) (.swap3 y z x l)
  rw [setItems_setItems h] at h2
  obtain ⟨s3, h3, n3, rfl⟩ := C90_words_partial ex (s := s.setItems _ n2) (hf.same rfl rfl rfl rfl) hd (lifo_setItems h _ _) (items_setItems h _ _) (.swap3 z x y l)
  exact ⟨_, _, _, h1, h2, h3, n3, by rw [setItems_setItems h, hi]⟩

/-- Numbers with halves, represented by twice their value. -/
def halves : FloatOps where
  ofInt i := 2 * i
  toI64 x := some (x.tdiv 2)
  add x y := x + y
  sub x y := x - y
  mul x y := (x * y).tdiv 2
  div x y := (2 * x).tdiv y
  isZero x := x == 0
  eq x y := x == y
  lt x y := decide (x < y)
  text _ := []

/-- What is missing: `%` takes no fractions (it drops them first), and the remainder has the sign of the dividend. In halves, 2½ `%` 1 is ½, but `%` makes it 0;
and -1 `%` 3 is 2, but `%` makes it -1. -/
theorem C90_false_for_fractions : (fishProgram [37]).cur.Fishy ∧
    (runOp (fun _ => pure .none) .fModu (((fishProgram [37]).setG { (fishProgram [37]).g with flt := halves }).setItems [2, 5] 0)).toOption.map (fun r => r.2.items) = some [0] ∧
    (runOp (fun _ => pure .none) .fModu (((fishProgram [37]).setG { (fishProgram [37]).g with flt := halves }).setItems [6, -2] 0)).toOption.map (fun r => r.2.items) = some [-2] :=
  ⟨fishy_newRunner (.inl rfl) _ _ _, by decide +kernel, by decide +kernel⟩

/-- Hypotheses: `$` in a program of ><> with two values on the stack. -/
example : (fishProgram [36]).cur.Fishy ∧ hasMode (fishProgram [36]).g.cfg.mode modeDive = false ∧ ((fishProgram [36]).setItems [1, 2] 0).Lifo ∧
    FishStack (fishProgram [36]).g.flt 36 [1, 2] [2, 1] ∧ FishStack (fishProgram [36]).g.flt 123 [1, 2, 3] [3, 1, 2] :=
  ⟨fishy_newRunner (.inl rfl) _ _ _, by decide, by decide, .swap2 1 2 [], .left [1, 2] 3⟩

/-- **C90** `?` pops a value, and skips the next instruction just if it is zero: the IP goes to the cell it would go to next. -/
theorem C90_conditional (ex : Int → Exec Err) {s : St} (hf : s.cur.Fishy) (hd : hasMode s.g.cfg.mode modeDive = false) (h : s.Lifo) {x : Int} {l : List Int}
    (hi : s.items = x :: l) : ∃ s', execNormal ex 63 s = .ok (.none, s') ∧ (s.g.flt.isZero x = false → s.Leaves s' l) ∧
      (s.g.flt.isZero x = true → ∃ ip, s.cur.ip.next s.g.cfg.dims s.g.cfg.topo s.g.field = .ok ip ∧ (s.setIP ip).Leaves s' l) := by
  obtain ⟨ip, hip⟩ := IP.C15_always_terminates s.g.cfg.dims s.g.cfg.topo s.g.field s.cur.ip
  rw [fishy_exec hf hd ex (op := .fConditional) (mv := false) (by decide) (by decide)]
  show ∃ s', fiConditional s = _ ∧ _
  have e : fiConditional s = (do
      if s.g.flt.isZero x then ipNext else pure ()
      pure .none : Exec Err) (s.setItems l (s.top.ops + 1)) := by
    conv => lhs; rw [← setItems_self h, hi]
    rw [fiConditional, checkTop_items h (by simp), bind_ok (popTop_head h _ _ _), bind_ok (getFlt_run _)]
    rfl
  rw [e]
  cases hz : s.g.flt.isZero x
  · exact ⟨_, rfl, fun _ => ⟨_, rfl⟩, by simp⟩
  · refine ⟨_, ?_, by simp, fun _ => ⟨ip, hip, s.top.ops + 1, rfl⟩⟩
    have : ipNext (s.setItems l (s.top.ops + 1)) = .ok ((), (s.setIP ip).setItems l (s.top.ops + 1)) := ipNext_run hip
    exact (bind_ok this)

/-- Its hypotheses. -/
example : (fishProgram [63, 49]).cur.Fishy ∧ ((fishProgram [63, 49]).setItems [0] 0).Lifo ∧ ((fishProgram [63, 49]).setItems [0] 0).items = [0] :=
  ⟨fishy_newRunner (.inl rfl) _ _ _, by decide, rfl⟩

/-! ### C91 -/

/-- What the mirrors are to do with a direction of travel (first coordinate to the right, second downwards): `\` `/` `|` `_` `#`. -/
def mirrored (c : Int) (d : Int × Int) : Option (Int × Int) :=
  match c with
  | 92 => some (d.2, d.1)
  | 47 => some (-d.2, -d.1)
  | 124 => some (-d.1, d.2)
  | 95 => some (d.1, -d.2)
  | 35 => some (-d.1, -d.2)
  | _ => none

/-- The direction with the first two coordinates `p`, the others as in `d`. -/
def facing (d : Nat → Int) (p : Int × Int) : Nat → Int := fun i => if i = 0 then p.1 else if i = 1 then p.2 else d i

theorem facing_set (v : Vec) (p : Int × Int) (i : Nat) : ((v.set 1 p.2).set 0 p.1).get i = facing v.get p i := by
  unfold facing
  rw [Vec.get_set, Vec.get_set]

theorem mirror_run {s : St} (h : s.cur.ss.select < s.cur.ss.stacks.length) (hh : hasMode s.g.cfg.mode modeHover = false) {w : Vec} {d : Nat → Int} (hw : ∀ i, w.get i = d i) :
    ∃ s', (do
      setDelta w
      pure Err.none : Exec Err) s = .ok (.none, s') ∧ Turns s s' d s.items := by
  obtain ⟨a, b, hab⟩ := setDelta_turns hh s.items s.top.ops w
  rw [show s.setItems s.items s.top.ops = s from setTop_self h] at hab
  exact ⟨_, bind_ok hab, w, a, b, _, rfl, hw⟩

/-- **C91** The mirrors reflect the direction of travel as drawn, whatever it is, and do nothing else; the other coordinates of the direction stay. -/
theorem C91_mirrors (ex : Int → Exec Err) {s : St} (hf : s.cur.Fishy) (h : s.cur.ss.select < s.cur.ss.stacks.length) (hh : hasMode s.g.cfg.mode modeHover = false) {c : Int} {p : Int × Int}
    (hc : mirrored c (s.cur.ip.delta.get 0, s.cur.ip.delta.get 1) = some p) :
    ∃ s', execNormal ex c s = .ok (.none, s') ∧ Turns s s' (facing s.cur.ip.delta.get p) s.items := by
  have go : ∀ {op : Op} {c : Int}, (meanings semsFish c).head? = some ⟨op, true⟩ → (meanings (semsFish ++ semsStarfish) c).head? = some ⟨op, true⟩ →
      (∃ s', runOp ex op s = .ok (.none, s') ∧ Turns s s' (facing s.cur.ip.delta.get p) s.items) →
      ∃ s', execNormal ex c s = .ok (.none, s') ∧ Turns s s' (facing s.cur.ip.delta.get p) s.items := by
    intro op c h1 h2 ⟨s', hs', ht⟩
    refine ⟨s', ?_, ht⟩
    unfold execNormal
    rw [fishy_sem hf h1 h2]
    simpa using hs'
  unfold mirrored at hc
  split at hc
  · cases hc
    refine go (op := .fMirror1) (by decide) (by decide) (mirror_run h hh fun i => ?_)
    exact facing_set _ (_, _) i
  · cases hc
    refine go (op := .fMirror2) (by decide) (by decide) (mirror_run h hh fun i => ?_)
    exact facing_set _ (_, _) i
  · cases hc
    refine go (op := .fMirrorVert) (by decide) (by decide) (mirror_run h hh fun i => ?_)
    rw [Vec.get_set]; unfold facing; split
    · rfl
    · split
      · subst_vars; rfl
      · rfl
  · cases hc
    refine go (op := .fMirrorHori) (by decide) (by decide) (mirror_run h hh fun i => ?_)
    rw [Vec.get_set]; unfold facing
    by_cases h0 : i = 0
    · subst h0; rfl
    · rw [if_neg h0]
  · cases hc
    refine go (op := .fMirrorAll) (by decide) (by decide) (mirror_run h hh fun i => ?_)
    rw [Vec.get_set, Vec.get_set, Vec.get_set]; unfold facing
    by_cases h0 : i = 0
    · subst h0; rfl
    · rw [if_neg h0]
      split
      · rfl
      · rfl
  · cases hc

/-- **C91** The same of `N`, `M`, `V` and `H` in FISH. -/
theorem C91_fingerprint (ex : Int → Exec Err) {s : St} (h : s.cur.ss.select < s.cur.ss.stacks.length) (hh : hasMode s.g.cfg.mode modeHover = false) {c c' : Int} {p : Int × Int}
    (hc' : (c, c') ∈ ([(78, 92), (77, 47), (86, 124), (72, 95)] : List (Int × Int)))
    (hc : mirrored c' (s.cur.ip.delta.get 0, s.cur.ip.delta.get 1) = some p) :
    ∃ s', runOp ex (.fing .FISH c) s = .ok (.none, s') ∧ Turns s s' (facing s.cur.ip.delta.get p) s.items := by
  simp only [List.mem_cons, Prod.mk.injEq, List.not_mem_nil, or_false] at hc'
  rcases hc' with ⟨rfl, rfl⟩ | ⟨rfl, rfl⟩ | ⟨rfl, rfl⟩ | ⟨rfl, rfl⟩
  · cases hc
    exact mirror_run h hh fun i => facing_set _ (_, _) i
  · cases hc
    exact mirror_run h hh fun i => facing_set _ (_, _) i
  · cases hc
    refine mirror_run h hh fun i => ?_
    rw [Vec.get_set]; unfold facing; split
    · rfl
    · split
      · subst_vars; rfl
      · rfl
  · cases hc
    refine mirror_run h hh fun i => ?_
    rw [Vec.get_set]; unfold facing
    by_cases h0 : i = 0
    · subst h0; rfl
    · rw [if_neg h0]

theorem setItems_again {s : St} (h : s.cur.ss.select < s.cur.ss.stacks.length) (l n l' n') : (s.setItems l n).setItems l' n' = s.setItems l' n' := by
  show (s.setTop _).setTop _ = _
  rw [setTop_setTop, top_setItems h]; rfl

/-- **C91** A mirror passed twice has no effect. -/
theorem C91_undone (ex : Int → Exec Err) {s : St} (hf : s.cur.Fishy) (h : s.cur.ss.select < s.cur.ss.stacks.length) (hh : hasMode s.g.cfg.mode modeHover = false) {c : Int}
    (hc : c ∈ ([92, 47, 124, 95, 35] : List Int)) :
    ∃ s1 s2, execNormal ex c s = .ok (.none, s1) ∧ execNormal ex c s1 = .ok (.none, s2) ∧ Turns s s2 s.cur.ip.delta.get s.items := by
  have key : ∀ d : Int × Int, ∃ p, mirrored c d = some p ∧ mirrored c p = some d := by
    intro ⟨x, y⟩
    simp only [List.mem_cons, List.not_mem_nil, or_false] at hc
    rcases hc with rfl | rfl | rfl | rfl | rfl <;> exact ⟨_, rfl, by simp [mirrored]⟩
  obtain ⟨p, hp, hp'⟩ := key (s.cur.ip.delta.get 0, s.cur.ip.delta.get 1)
  obtain ⟨s1, h1, v, a, b, n, rfl, hv⟩ := C91_mirrors ex hf h hh hp
  have hl : ((s.setCaches a b).setIP { s.cur.ip with delta := v }).cur.ss.select < ((s.setCaches a b).setIP { s.cur.ip with delta := v }).cur.ss.stacks.length := h
  have e0 : v.get 0 = p.1 := by rw [hv]; rfl
  have e1 : v.get 1 = p.2 := by rw [hv]; rfl
  have hp2 : mirrored c (v.get 0, v.get 1) = some (s.cur.ip.delta.get 0, s.cur.ip.delta.get 1) := by rw [e0, e1]; exact hp'
  obtain ⟨s2, h2, v', a', b', n', rfl, hv'⟩ := C91_mirrors ex (s := (((s.setCaches a b).setIP { s.cur.ip with delta := v }).setItems s.items n)) (hf.same rfl rfl rfl rfl)
    (by rw [setItems_select, setItems_len]; exact hl) hh hp2
  refine ⟨_, _, h1, h2, v', a', b', n', ?_, ?_⟩
  · rw [show (((s.setCaches a b).setIP { s.cur.ip with delta := v }).setItems s.items n).items = s.items by rw [St.items, top_setItems hl]]
    exact setItems_again (s := (s.setCaches a' b').setIP { s.cur.ip with delta := v' }) h s.items n s.items n'
  · intro i
    rw [hv' i]
    show facing v.get _ i = _
    unfold facing
    split
    · subst_vars; rfl
    · split
      · subst_vars; rfl
      · rename_i h0 h1; rw [hv]; unfold facing; rw [if_neg h0, if_neg h1]

/-- Going right, `\` leads down and `/` up; `|` leads back, `_` changes nothing. -/
example : mirrored 92 (1, 0) = some (0, 1) ∧ mirrored 47 (1, 0) = some (0, -1) ∧ mirrored 124 (1, 0) = some (-1, 0) ∧ mirrored 95 (1, 0) = some (1, 0) := by decide

/-- Hypotheses of the theorems. -/
example : (fishProgram [47]).cur.Fishy ∧ (fishProgram [47]).cur.ss.select < (fishProgram [47]).cur.ss.stacks.length ∧ hasMode (fishProgram [47]).g.cfg.mode modeHover = false ∧
    mirrored 47 ((fishProgram [47]).cur.ip.delta.get 0, (fishProgram [47]).cur.ip.delta.get 1) = some (0, -1) :=
  ⟨fishy_newRunner (.inl rfl) _ _ _, by decide, by decide, by decide⟩

end Funge
