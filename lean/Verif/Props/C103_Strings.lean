import Verif.Props.C54_STRN
import Verif.Props.C88_Words
/-
C103 (STRN: comparing, showing and reading strings).
-/
namespace Funge
open Exec

/-! ### Specification -/

/-- `a` comes before `b` in the dictionary whose alphabet are the bytes 0 to 255: after what they have in common `a` ends and `b` goes on, or `a` goes on
with the smaller byte. -/
def Precedes (a b : List Int) : Prop :=
  ∃ p x y, a = p ++ x ∧ b = p ++ y ∧
    ((x = [] ∧ y ≠ []) ∨ ∃ c d t u, x = c :: t ∧ y = d :: u ∧ c % 256 < d % 256)

/-- `x` is the answer to comparing `a` with `b`: 0 if they are the same, negative if `a` comes first and positive if `b` does. -/
def Compares (a b : List Int) (x : Int) : Prop := (x = 0 ↔ a = b) ∧ (x < 0 ↔ Precedes a b) ∧ (0 < x ↔ Precedes b a)

/-! ### The order -/

theorem Precedes.cons {a b : List Int} (h : Precedes a b) (c : Int) : Precedes (c :: a) (c :: b) := by
  obtain ⟨p, x, y, rfl, rfl, h⟩ := h
  exact ⟨c :: p, x, y, rfl, rfl, h⟩

theorem precedes_cons {a b : List Int} {c d : Int} (h : Precedes (c :: a) (d :: b)) : c % 256 < d % 256 ∨ (c = d ∧ Precedes a b) := by
  obtain ⟨p, x, y, h1, h2, h⟩ := h
  cases p with
  | nil =>
    simp only [List.nil_append] at h1 h2
    subst h1; subst h2
    rcases h with ⟨h, -⟩ | ⟨c', d', t, u, h1, h2, h⟩
    · exact nomatch h
    · cases h1; cases h2
      exact Or.inl h
  | cons e p =>
    simp only [List.cons_append, List.cons.injEq] at h1 h2
    exact Or.inr ⟨h1.1.trans h2.1.symm, p, x, y, h1.2, h2.2, h⟩

theorem not_precedes_nil {a : List Int} : ¬ Precedes a [] := by
  rintro ⟨p, x, y, -, h2, h⟩
  obtain ⟨rfl, rfl⟩ := List.append_eq_nil_iff.mp h2.symm
  rcases h with ⟨-, h⟩ | ⟨_, _, _, _, -, h, -⟩
  · exact h rfl
  · simp at h

theorem toChar_mod {c d : Int} (hc : toChar c = c) (hd : toChar d = d) (h : c % 256 = d % 256) : c = d := by
  rw [← hc, ← hd]
  unfold toChar
  rw [← Int.emod_bmod, ← Int.emod_bmod (d)]
  exact congrArg (Int.bmod · 256) h

theorem strCmp_spec (a b : List Int) (ha : IsStr a) (hb : IsStr b) : Compares a b (strCmp a b) := by
  induction a generalizing b with
  | nil =>
    cases b with
    | nil => exact ⟨⟨fun _ => rfl, fun _ => rfl⟩, ⟨fun h => absurd h (by decide), fun h => (not_precedes_nil h).elim⟩,
        ⟨fun h => absurd h (by decide), fun h => (not_precedes_nil h).elim⟩⟩
    | cons d t =>
      exact ⟨⟨fun h => absurd h (by simp [strCmp]), fun h => nomatch h⟩, ⟨fun _ => ⟨[], [], d :: t, rfl, rfl, Or.inl ⟨rfl, by simp⟩⟩, fun _ => by simp [strCmp]⟩,
        ⟨fun h => absurd h (by simp [strCmp]), fun h => (not_precedes_nil h).elim⟩⟩
  | cons c s ih =>
    cases b with
    | nil => exact ⟨⟨fun h => absurd h (by simp [strCmp]), fun h => nomatch h⟩, ⟨fun h => absurd h (by simp [strCmp]), fun h => (not_precedes_nil h).elim⟩,
        ⟨fun _ => ⟨[], [], c :: s, rfl, rfl, Or.inl ⟨rfl, by simp⟩⟩, fun _ => by simp [strCmp]⟩⟩
    | cons d t =>
      have hc := (ha c List.mem_cons_self).2
      have hd := (hb d List.mem_cons_self).2
      obtain ⟨i1, i2, i3⟩ := ih t (fun x h => ha x (List.mem_cons_of_mem _ h)) (fun x h => hb x (List.mem_cons_of_mem _ h))
      rw [strCmp]
      split
      · rename_i hlt
        refine ⟨⟨fun h => absurd h (by decide), fun h => ?_⟩, ⟨fun _ => ⟨[], c :: s, d :: t, rfl, rfl, Or.inr ⟨c, d, s, t, rfl, rfl, hlt⟩⟩, fun _ => by decide⟩,
          ⟨fun h => absurd h (by decide), fun h => ?_⟩⟩
        · rw [(List.cons.inj h).1] at hlt; omega
        · rcases precedes_cons h with h | ⟨h, -⟩
          · omega
          · subst h; omega
      · split
        · rename_i hge hgt
          refine ⟨⟨fun h => absurd h (by decide), fun h => ?_⟩, ⟨fun h => absurd h (by decide), fun h => ?_⟩,
            ⟨fun _ => ⟨[], d :: t, c :: s, rfl, rfl, Or.inr ⟨d, c, t, s, rfl, rfl, hgt⟩⟩, fun _ => by decide⟩⟩
          · rw [(List.cons.inj h).1] at hgt; omega
          · rcases precedes_cons h with h | ⟨h, -⟩
            · omega
            · subst h; omega
        · rename_i hge hle
          have he : c = d := toChar_mod hc hd (by omega)
          subst he
          refine ⟨i1.trans ⟨fun h => by rw [h], fun h => (List.cons.inj h).2⟩, i2.trans ⟨fun h => h.cons c, fun h => ?_⟩, i3.trans ⟨fun h => h.cons c, fun h => ?_⟩⟩
          · rcases precedes_cons h with h | ⟨-, h⟩
            · omega
            · exact h
          · rcases precedes_cons h with h | ⟨-, h⟩
            · omega
            · exact h

theorem strCmp_range (a b : List Int) : strCmp a b = -1 ∨ strCmp a b = 0 ∨ strCmp a b = 1 := by
  fun_induction strCmp a b <;> simp_all

theorem Compares.scale {a b : List Int} {x : Int} (h : Compares a b x) {k : Int} (hk : 0 < k) : Compares a b (x * k) := by
  obtain ⟨h1, h2, h3⟩ := h
  have e : (x * k = 0 ↔ x = 0) ∧ (x * k < 0 ↔ x < 0) ∧ (0 < x * k ↔ 0 < x) := by
    rcases Int.lt_trichotomy x 0 with h | h | h
    · have := Int.mul_neg_of_neg_of_pos h hk
      omega
    · subst h; simp
    · have := Int.mul_pos h hk
      omega
  exact ⟨e.1.trans h1, e.2.1.trans h2, e.2.2.trans h3⟩

/-! ### Comparing -/

/-- **C103.** `C` takes both strings and leaves a number that says which of them comes first in the dictionary, nothing else. -/
theorem C103_compare {s : St} (h : s.Lifo) {upper bottom l : List Int} (hu : IsStr upper) (hb : IsStr bottom)
    (hi : s.items = upper ++ 0 :: bottom ++ 0 :: l) :
    ∃ s' x n, fpRun .STRN 67 s = .ok (.none, s') ∧ Compares upper bottom x ∧ InI32 x ∧
      s' = (s.setItems (x :: l) n).setG { s.g with asked := s.g.asked + 1 } := by
  obtain ⟨n1, h1⟩ := popStr h hu (bottom ++ 0 :: l) s.top.ops
  obtain ⟨n2, h2⟩ := popStr h hb l n1
  have hk : 0 < s.g.orc s.g.asked % 2147483647 + 1 := by omega
  refine ⟨_, strCmp upper bottom * (s.g.orc s.g.asked % 2147483647 + 1), n2 + 1, ?_, (strCmp_spec _ _ hu hb).scale hk, ?_, rfl⟩
  · show strnCompare s = _
    conv => lhs; rw [← setItems_self h, hi, List.append_assoc, List.cons_append]
    rw [strnCompare, bind_ok h1, bind_ok h2]
    show (pushTop _ >>= _) ((s.setG { s.g with asked := s.g.asked + 1 }).setItems l n2) = _
    rw [bind_ok (pushTop_run (s := s.setG { s.g with asked := s.g.asked + 1 }) h _ _ _)]; rfl
  · have hm : s.g.orc s.g.asked % 2147483647 + 1 ≤ 2147483647 := by omega
    rcases strCmp_range upper bottom with e | e | e <;> rw [e] <;> unfold InI32 <;> omega

/-- **C103.** The two orders of the strings give opposite answers, and only a string compared with itself gives 0. -/
theorem C103_one_order {a b : List Int} {x y : Int} (h : Compares a b x) (h' : Compares b a y) : (x < 0 ↔ 0 < y) ∧ (x = 0 ↔ y = 0) ∧ (0 < x ↔ y < 0) :=
  ⟨h.2.1.trans h'.2.2.symm, h.1.trans ⟨fun e => h'.1.mpr e.symm, fun e => (h'.1.mp e).symm⟩, h.2.2.trans h'.2.1.symm⟩

/-- The order is one: what comes before something that comes before a third comes before the third. -/
theorem C103_transitive {a b c : List Int} (h : Precedes a b) (h' : Precedes b c) : Precedes a c := by
  induction a generalizing b c with
  | nil =>
    cases c with
    | nil => exact (not_precedes_nil h').elim
    | cons d t => exact ⟨[], [], d :: t, rfl, rfl, Or.inl ⟨rfl, by simp⟩⟩
  | cons x a ih =>
    cases b with
    | nil => exact (not_precedes_nil h).elim
    | cons y b =>
      cases c with
      | nil => exact (not_precedes_nil h').elim
      | cons z c =>
        rcases precedes_cons h with h | ⟨rfl, g⟩ <;> rcases precedes_cons h' with h' | ⟨rfl, g'⟩
        · exact ⟨[], x :: a, z :: c, rfl, rfl, Or.inr ⟨x, z, a, c, rfl, rfl, by omega⟩⟩
        · exact ⟨[], x :: a, y :: c, rfl, rfl, Or.inr ⟨x, y, a, c, rfl, rfl, h⟩⟩
        · exact ⟨[], x :: a, z :: c, rfl, rfl, Or.inr ⟨x, z, a, c, rfl, rfl, h'⟩⟩
        · exact (ih g g').cons x

/-! ### Showing and reading -/

/-- **C103.** `D` takes the string and prints its characters, in their order, and nothing else. -/
theorem C103_display {s : St} (h : s.Lifo) {str l : List Int} (hs : IsStr str) (hi : s.items = str ++ 0 :: l) :
    ∃ n, fpRun .STRN 68 s = .ok (.none, (s.setItems l n).setG { s.g with eff := s.g.eff ++ [.out str] }) := by
  obtain ⟨n', hp⟩ := popStr h hs l s.top.ops
  refine ⟨n', ?_⟩
  show strnDisplay s = _
  conv => lhs; rw [← setItems_self h, hi]
  rw [strnDisplay, bind_ok hp, bind_ok (emit_run _ _)]; rfl

theorem line_take {line rest inp : List Int} (hl : ∀ c ∈ line, c ≠ 10) (hi : inp = line ++ 10 :: rest ∨ (inp = line ∧ rest = [])) :
    inp.takeWhile (· ≠ 10) = line ∧ (inp.dropWhile (· ≠ 10)).drop 1 = rest := by
  have hp : ∀ c ∈ line, decide (c ≠ 10) = true := fun c hc => by simpa using hl c hc
  rcases hi with rfl | ⟨rfl, rfl⟩
  · rw [List.takeWhile_append_of_pos hp, List.dropWhile_append_of_pos hp]; simp
  · have h1 := List.takeWhile_append_of_pos (l₂ := []) hp
    have h2 := List.dropWhile_append_of_pos (l₂ := []) hp
    simp only [List.append_nil, List.takeWhile_nil, List.dropWhile_nil] at h1 h2
    rw [h1, h2]; simp

/-- **C103.** `I` takes one line of the input, with its end, and pushes its characters; without an end of line it takes all there is. -/
theorem C103_input {s : St} (h : s.Lifo) {line rest : List Int} (hl : ∀ c ∈ line, c ≠ 10)
    (hi : s.g.inp = line ++ 10 :: rest ∨ (s.g.inp = line ∧ rest = [])) :
    ∃ n, fpRun .STRN 73 s = .ok (.none, (s.setItems (line.map toChar ++ 0 :: s.items) n).setG { s.g with inp := rest }) := by
  obtain ⟨h1, h2⟩ := line_take hl hi
  refine ⟨s.top.ops + 1 + (line.map toChar).length, ?_⟩
  show strnInput s = _
  conv => lhs; rw [← setItems_self h]
  rw [strnInput, bind_ok (get_run _), bind_ok (modG_run _ _)]
  show (pushStr ((s.g.inp.takeWhile (· ≠ 10)).map toChar) >>= _) ((s.setG { s.g with inp := (s.g.inp.dropWhile (· ≠ 10)).drop 1 }).setItems s.items s.top.ops) = _
  rw [h1, h2, bind_ok (pushStr_run (s := s.setG { s.g with inp := rest }) h _ _ _)]; rfl

theorem isStr_chars {line : List Int} (hn : ∀ c ∈ line, toChar c ≠ 0) : IsStr (line.map toChar) := by
  intro c hc
  obtain ⟨d, hd, rfl⟩ := List.mem_map.mp hc
  refine ⟨hn d hd, ?_⟩
  unfold toChar
  exact Int.bmod_bmod

/-- **C103.** `I` and then `D` print the line that was typed (each byte as the character it is), leave the stack as it was and the rest of the input to be
read: for every line without NUL. -/
theorem C103_echo {s : St} (h : s.Lifo) {line rest : List Int} (hn : ∀ c ∈ line, toChar c ≠ 0) (hl : ∀ c ∈ line, c ≠ 10)
    (hi : s.g.inp = line ++ 10 :: rest ∨ (s.g.inp = line ∧ rest = [])) :
    ∃ s₁ s₂ n, fpRun .STRN 73 s = .ok (.none, s₁) ∧ fpRun .STRN 68 s₁ = .ok (.none, s₂) ∧
      s₂ = (s.setItems s.items n).setG { s.g with inp := rest, eff := s.g.eff ++ [.out (line.map toChar)] } := by
  obtain ⟨n, h1⟩ := C103_input h hl hi
  have hs := isStr_chars hn
  generalize line.map toChar = str at *
  have h' : ((s.setItems (str ++ 0 :: s.items) n).setG { s.g with inp := rest }).Lifo := lifo_setItems h _ _
  obtain ⟨m, h2⟩ := C103_display h' hs (l := s.items) (items_setItems h _ _)
  refine ⟨_, _, m, h1, h2, ?_⟩
  exact setItems_setItems (s := s.setG { s.g with inp := rest, eff := s.g.eff ++ [.out str] }) h _ _ _ _

/-- **C103.** Two lines typed are compared as typed: `IIC` answers how the second compares with the first. -/
theorem C103_two_lines {s : St} (h : s.Lifo) {a b rest : List Int} (ha : ∀ c ∈ a, toChar c ≠ 0 ∧ c ≠ 10) (hb : ∀ c ∈ b, toChar c ≠ 0 ∧ c ≠ 10)
    (hi : s.g.inp = a ++ 10 :: b ++ 10 :: rest) :
    ∃ s₁ s₂ s₃ x, fpRun .STRN 73 s = .ok (.none, s₁) ∧ fpRun .STRN 73 s₁ = .ok (.none, s₂) ∧ fpRun .STRN 67 s₂ = .ok (.none, s₃) ∧
      Compares (b.map toChar) (a.map toChar) x ∧ s₃.items = x :: s.items ∧ s₃.g.inp = rest ∧ s₃.g.eff = s.g.eff := by
  obtain ⟨n, h1⟩ := C103_input h (rest := b ++ 10 :: rest) (fun c hc => (ha c hc).2) (Or.inl (by rw [hi]; simp))
  have hsa := isStr_chars fun c hc => (ha c hc).1
  have hsb := isStr_chars fun c hc => (hb c hc).1
  have h' : ((s.setItems (a.map toChar ++ 0 :: s.items) n).setG { s.g with inp := b ++ 10 :: rest }).Lifo := lifo_setItems h _ _
  obtain ⟨m, h2⟩ := C103_input h' (rest := rest) (fun c hc => (hb c hc).2) (Or.inl rfl)
  rw [show ((s.setItems (a.map toChar ++ 0 :: s.items) n).setG { s.g with inp := b ++ 10 :: rest }).items = a.map toChar ++ 0 :: s.items from items_setItems h _ _] at h2
  have h'' : (((((s.setItems (a.map toChar ++ 0 :: s.items) n).setG { s.g with inp := b ++ 10 :: rest }).setItems (b.map toChar ++ 0 :: (a.map toChar ++ 0 :: s.items)) m).setG
    { ((s.setItems (a.map toChar ++ 0 :: s.items) n).setG { s.g with inp := b ++ 10 :: rest }).g with inp := rest })).Lifo := lifo_setItems h' _ _
  obtain ⟨s₃, x, k, h3, h4, -, h5⟩ := C103_compare h'' hsb hsa (l := s.items) ((items_setItems h' _ _).trans (by simp))
  exact ⟨_, _, s₃, x, h1, h2, h3, h4, by rw [h5]; exact items_setItems h'' _ _, by rw [h5]; rfl, by rw [h5]; rfl⟩

/-! ### Examples -/

/-- NUL ends a string: of the line `a`, NUL, `b` only `a` is printed, and the rest of the line stays on the stack. -/
theorem C103_nul_ends_the_string : (match fpRun .STRN 73 { machine [] with g.inp := [97, 0, 98, 10] } with
    | .ok (_, s) => (match fpRun .STRN 68 s with | .ok (_, s') => some (s'.items, s'.g.eff) | .error _ => none)
    | .error _ => none) = some ([98, 0], [.out [97]]) := by decide +kernel

/-- Characters compare as bytes: `ä` (-28 as a `char`) comes after `z`, and a word before its continuations. -/
example : Precedes [122] [-28] ∧ Precedes [97, 98] [97, 98, 99] ∧ ¬ Precedes [-28] [122] :=
  ⟨⟨[], [122], [-28], rfl, rfl, Or.inr ⟨122, -28, [], [], rfl, rfl, by decide⟩⟩, ⟨[97, 98], [], [99], rfl, rfl, Or.inl ⟨rfl, by simp⟩⟩,
    fun h => by rcases precedes_cons h with h | ⟨h, -⟩ <;> revert h <;> decide⟩

/-- `IIC` on the lines `ab` and `abÈ`. -/
example : IsStr [97, 98] ∧ (∀ c ∈ [97, 98, (200 : Int)], toChar c ≠ 0 ∧ c ≠ 10) ∧ (machine []).Lifo ∧ (match fpRun .STRN 73 { machine [] with g.inp := [97, 98, 10, 97, 98, 200, 10, 33] } with
    | .ok (_, s) => (match fpRun .STRN 73 s with
      | .ok (_, s') => (match fpRun .STRN 67 s' with | .ok (_, s'') => some (s''.items, s''.g.inp) | .error _ => none)
      | .error _ => none)
    | .error _ => none) = some ([1], [33]) :=
  ⟨by unfold IsStr; decide, by decide, by decide, by decide +kernel⟩

end Funge
