import Verif.Props.C33_Fingerprints
import Verif.Props.C56_TOYS
import Verif.Props.C15_Motion
/-
C88: the instructions that only rearrange the stack. C89: `'` and `s`.
-/
namespace Funge
open Exec

/-! ### C88 -/

/-- What the instructions that only concern the stack are to make of it (topmost first, zeros standing in for missing values). -/
def stackWord : Op → Option (List Int → List Int)
  | .push n => some fun l => n :: l
  | .dup => some fun l => l.headD 0 :: l.headD 0 :: l.tail
  | .swap => some fun l => l.tail.headD 0 :: l.headD 0 :: l.tail.tail
  | .pop => some fun l => l.tail
  | .clear => some fun _ => []
  | _ => none

/-- **C88** The digits, `:`, `\`, `$` and `n` do to the stack what they are to do, for any stack, and nothing else. -/
theorem C88_words (exec : Int → Exec Err) {op : Op} {f : List Int → List Int} (hop : stackWord op = some f) {s : St} (h : s.Lifo) :
    ∃ s', runOp exec op s = .ok (.none, s') ∧ s.Leaves s' (f s.items) := by
  cases op <;> simp only [stackWord, Option.some.injEq, reduceCtorEq] at hop <;> subst hop
  case push n =>
    refine ⟨_, ?_, s.top.ops + 1, rfl⟩
    apply run_items h
    show iPush n _ = _
    rw [iPush, bind_ok (pushTop_run h _ _ _)]; rfl
  case pop =>
    refine ⟨_, ?_, s.top.ops + 1, rfl⟩
    apply run_items h
    show iPop _ = _
    rw [iPop, bind_ok (popTop_run h _ _)]; rfl
  case dup =>
    refine ⟨_, ?_, s.top.ops + 3, rfl⟩
    apply run_items h
    show iDup _ = _
    rw [iDup, bind_ok (popTop_run h _ _), bind_ok (pushTop_run h _ _ _), bind_ok (pushTop_run h _ _ _)]; rfl
  case swap =>
    refine ⟨_, ?_, s.top.ops + 4, rfl⟩
    apply run_items h
    show iSwap _ = _
    rw [iSwap, bind_ok (popTop_run h _ _), bind_ok (popTop_run h _ _), bind_ok (pushTop_run h _ _ _), bind_ok (pushTop_run h _ _ _)]; rfl
  case clear =>
    refine ⟨_, ?_, s.top.ops + 1, rfl⟩
    apply run_items h
    show iClear _ = _
    rw [iClear, bind_ok (clearTop_run h _ _)]; rfl

/-- The characters for them: `0` to `9` and `a` to `f`, `:`, `\`, `$` and `n`. -/
def wordFor (c : Int) : Option Op :=
  if 48 ≤ c ∧ c ≤ 57 then some (.push (c - 48))
  else if 97 ≤ c ∧ c ≤ 102 then some (.push (c - 97 + 10))
  else if c = 58 then some .dup
  else if c = 92 then some .swap
  else if c = 36 then some .pop
  else if c = 110 then some .clear
  else none

/-- **C88** These are what the characters mean in a Funge-98 program of one, two or three dimensions, whatever fingerprints it starts with. -/
theorem C88_characters {cfg : Cfg} (hS : isFunge98 (strategiesFor cfg)) (id : Nat) (pos delta : Vec) {c : Int} {op : Op} (hc : wordFor c = some op) :
    ((newRunner cfg id pos delta).getSem c).map (·.op) = some op := by
  have hin : c ∈ ([48, 49, 50, 51, 52, 53, 54, 55, 56, 57, 97, 98, 99, 100, 101, 102, 58, 92, 36, 110] : List Int) := by
    unfold wordFor at hc
    simp only [List.mem_cons, List.not_mem_nil, or_false]
    repeat' split at hc
    all_goals first | omega | cases hc
  have key : ∀ S : List Strat, isFunge98 S → ∀ c ∈ ([48, 49, 50, 51, 52, 53, 54, 55, 56, 57, 97, 98, 99, 100, 101, 102, 58, 92, 36, 110] : List Int),
      ((meanings (S.flatMap Strat.table) c).head?).map (·.op) = wordFor c := by
    intro S hS
    rcases hS with rfl | rfl | rfl <;> decide
  have hl : ¬ (65 ≤ c ∧ c ≤ 90) := by
    simp only [List.mem_cons, List.not_mem_nil, or_false] at hin
    omega
  unfold Runner.getSem
  rw [newRunner_sems_other _ _ _ _ hl, key _ hS c hin, hc]

/-- **C88** `:` then `$`, and `\` twice, leave the stack as it was (if it had a value, or two). -/
theorem C88_undone (exec : Int → Exec Err) {s : St} (h : s.Lifo) {x y : Int} {l : List Int} (hi : s.items = x :: y :: l) :
    (∃ s1 s2, runOp exec .dup s = .ok (.none, s1) ∧ runOp exec .pop s1 = .ok (.none, s2) ∧ s.Leaves s2 s.items) ∧
    (∃ s1 s2, runOp exec .swap s = .ok (.none, s1) ∧ runOp exec .swap s1 = .ok (.none, s2) ∧ s.Leaves s2 s.items) := by
  constructor
  · obtain ⟨s1, h1, n1, rfl⟩ := C88_words exec (op := .dup) rfl h
    obtain ⟨s2, h2, n2, rfl⟩ := C88_words exec (op := .pop) rfl (lifo_setItems h _ n1)
    refine ⟨_, _, h1, h2, n2, ?_⟩
    rw [items_setItems h, setItems_setItems, hi]
    · rfl
    · exact h
  · obtain ⟨s1, h1, n1, rfl⟩ := C88_words exec (op := .swap) rfl h
    obtain ⟨s2, h2, n2, rfl⟩ := C88_words exec (op := .swap) rfl (lifo_setItems h _ n1)
    refine ⟨_, _, h1, h2, n2, ?_⟩
    rw [items_setItems h, setItems_setItems, hi]
    · rfl
    · exact h

/-- Their hypotheses. -/
example : (exState [3, 4]).Lifo ∧ (exState [3, 4]).items = [3, 4] ∧ isFunge98 (strategiesFor { dims := 2, standard := 98 }) ∧ wordFor 100 = some (.push 13) ∧
    (stackWord .swap).map (fun f => f [3]) = some [0, 3] :=
  ⟨by decide, rfl, .inr (.inl rfl), rfl, rfl⟩

/-! ### C89 -/

/-- A number of 32 bits. -/
def InI32 (x : Int) : Prop := -2147483648 ≤ x ∧ x ≤ 2147483647

/-- **C89** `'` goes to the next cell and pushes its value, if it is a 32-bit number; nothing else changes. The IP stands on that cell, so that it goes on behind it. -/
theorem C89_fetch_partial (exec : Int → Exec Err) {s : St} (h : s.Lifo) :
    ∃ ip s', s.cur.ip.next s.g.cfg.dims s.g.cfg.topo s.g.field = .ok ip ∧ runOp exec .fetch s = .ok (.none, s') ∧
      (InI32 (s.g.field.get ip.pos) → (s.setIP ip).Leaves s' (s.g.field.get ip.pos :: s.items)) := by
  obtain ⟨ip, hip⟩ := IP.C15_always_terminates s.g.cfg.dims s.g.cfg.topo s.g.field s.cur.ip
  refine ⟨ip, (s.setIP ip).setItems (toInt (s.g.field.get ip.pos) :: s.items) (s.top.ops + 1), hip, ?_, fun hx => ⟨s.top.ops + 1, ?_⟩⟩
  · show iFetch s = _
    rw [iFetch, bind_ok (ipNext_run hip), bind_ok (ipGet_run _)]
    have hl : (s.setIP ip).Lifo := h
    conv => lhs; rw [← setItems_self hl]
    rw [bind_ok (pushTop_run hl _ _ _)]; rfl
  · have : toInt (s.g.field.get ip.pos) = s.g.field.get ip.pos := by
      unfold InI32 at hx; unfold toInt; rw [Int.bmod_def]; split <;> omega
    rw [this]

/-- **C89** is false for other values: `'` never pushes them (it pushes the low 32 bits). -/
theorem C89_false_for_wide_cells (exec : Int → Exec Err) {s : St} (h : s.Lifo) {ip : IP} (hip : s.cur.ip.next s.g.cfg.dims s.g.cfg.topo s.g.field = .ok ip)
    (hx : ¬ InI32 (s.g.field.get ip.pos)) : ∃ s' y, runOp exec .fetch s = .ok (.none, s') ∧ (s.setIP ip).Leaves s' (y :: s.items) ∧ y ≠ s.g.field.get ip.pos := by
  refine ⟨_, toInt (s.g.field.get ip.pos), ?_, ⟨s.top.ops + 1, rfl⟩, ?_⟩
  · show iFetch s = _
    rw [iFetch, bind_ok (ipNext_run hip), bind_ok (ipGet_run _)]
    have hl : (s.setIP ip).Lifo := h
    conv => lhs; rw [← setItems_self hl]
    rw [bind_ok (pushTop_run hl _ _ _)]; rfl
  · intro e
    apply hx
    rw [← e]
    unfold InI32 toInt
    rw [Int.bmod_def]; split <;> omega

/-- **C89** `s` goes to the next cell and puts the value popped there, if it is between -128 and 127; no other cell, and nothing else, changes. -/
theorem C89_store_partial (exec : Int → Exec Err) {s : St} (h : s.Lifo) (hu : Field.UniqueKeys s.g.field.cells) {x : Int} {l : List Int} (hi : s.items = x :: l) :
    ∃ ip s' f, s.cur.ip.next s.g.cfg.dims s.g.cfg.topo s.g.field = .ok ip ∧ runOp exec .store s = .ok (.none, s') ∧ (s.setIP ip).Puts s' l f ∧
      (-128 ≤ x ∧ x ≤ 127 → f.get ip.pos = x) ∧ ∀ q, ip.pos.eqv q = false → f.get q = s.g.field.get q := by
  obtain ⟨ip, hip⟩ := IP.C15_always_terminates s.g.cfg.dims s.g.cfg.topo s.g.field s.cur.ip
  refine ⟨ip, _, s.g.field.put ip.pos (toChar (toInt x)), hip, ?_, ⟨s.top.ops + 1, rfl⟩, fun hx => ?_, fun q hq => ?_⟩
  · show iStore s = _
    rw [iStore, bind_ok (ipNext_run hip)]
    have hl : (s.setIP ip).Lifo := h
    have hi' : (s.setIP ip).items = x :: l := hi
    conv => lhs; rw [← setItems_self hl, hi']
    rw [bind_ok (popTop_run hl _ _)]; rfl
  · have : toChar (toInt x) = x := by
      unfold toInt toChar; rw [Int.bmod_def, Int.bmod_def]; split <;> split <;> omega
    rw [Field.get_put hu, if_pos (Vec.eqv_refl _), this, Field.cellOf]
    split
    · unfold toChar; rw [Int.bmod_def]; split <;> omega
    · rfl
  · rw [Field.get_put hu, if_neg (by rw [hq]; decide)]

/-- **C89** is false for other values: `s` never stores them, though `p` does (cells have 64 bits): what is stored is between -128 and 127. -/
theorem C89_false_beyond_a_byte (exec : Int → Exec Err) {s : St} (h : s.Lifo) (hu : Field.UniqueKeys s.g.field.cells) {x : Int} {l : List Int} (hi : s.items = x :: l)
    (hx : ¬ (-128 ≤ x ∧ x ≤ 127)) : ∃ ip s' f, s.cur.ip.next s.g.cfg.dims s.g.cfg.topo s.g.field = .ok ip ∧ runOp exec .store s = .ok (.none, s') ∧
      (s.setIP ip).Puts s' l f ∧ f.get ip.pos ≠ x := by
  obtain ⟨ip, hip⟩ := IP.C15_always_terminates s.g.cfg.dims s.g.cfg.topo s.g.field s.cur.ip
  refine ⟨ip, _, s.g.field.put ip.pos (toChar (toInt x)), hip, ?_, ⟨s.top.ops + 1, rfl⟩, ?_⟩
  · show iStore s = _
    rw [iStore, bind_ok (ipNext_run hip)]
    have hl : (s.setIP ip).Lifo := h
    have hi' : (s.setIP ip).items = x :: l := hi
    conv => lhs; rw [← setItems_self hl, hi']
    rw [bind_ok (popTop_run hl _ _)]; rfl
  · rw [Field.get_put hu, if_pos (Vec.eqv_refl _)]
    intro e
    apply hx
    rw [← e, Field.cellOf]
    have key : ∀ z, -128 ≤ toChar z ∧ toChar z ≤ 127 := fun z => by unfold toChar; rw [Int.bmod_def]; split <;> omega
    split
    · exact key _
    · exact key _

/-- Their hypotheses: `s` with 65 on the stack, and `'` before a cell 3000000000. -/
example : ((machine [115, 32]).setItems [65] 1).Lifo ∧ Field.UniqueKeys (machine [115, 32]).g.field.cells ∧
    (∃ ip, (machine [39, 3000000000]).cur.ip.next 2 (machine [39, 3000000000]).g.cfg.topo (machine [39, 3000000000]).g.field = .ok ip ∧
      ip.pos.eqv (Vec.ofList [1, 0]) = true) ∧ (machine [39, 3000000000]).g.field.get (Vec.ofList [1, 0]) = 3000000000 := by
  refine ⟨by decide +kernel, by unfold Field.UniqueKeys; decide +kernel, ?_, by decide +kernel⟩
  obtain ⟨ip, hip⟩ := IP.C15_always_terminates 2 (machine [39, 3000000000]).g.cfg.topo (machine [39, 3000000000]).g.field (machine [39, 3000000000]).cur.ip
  refine ⟨ip, hip, ?_⟩
  have : ((machine [39, 3000000000]).cur.ip.next 2 (machine [39, 3000000000]).g.cfg.topo (machine [39, 3000000000]).g.field).toOption.map
      (fun ip => ip.pos.eqv (Vec.ofList [1, 0])) = some true := by decide +kernel
  rw [hip] at this
  exact Option.some.inj this

end Funge
