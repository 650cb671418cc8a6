import Verif.Props.C92_Programs
import Verif.Props.C20_Strings
import Verif.Props.C11_Loader
import Verif.Props.C08_Field
/-
Whole programs. C94: a program of one line that quotes a text and prints it.
-/
namespace Funge
open Exec

/-! ### C94 -/

/-- A character of a quoted text: ASCII, not a line break or the quote itself. -/
def Quotable (c : Int) : Prop := 0 < c ∧ c ≤ 127 ∧ c ≠ 34 ∧ Spec.Plain c

/-- The program `"…">:#,_@`. -/
def sayText (t : List Int) : List Int := 34 :: (t ++ [34, 62, 58, 35, 44, 95, 64])

/-- No two blanks stand next to each other. -/
def SingleBlanks : List Int → Prop
  | a :: b :: t => ¬(Blank a ∧ Blank b) ∧ SingleBlanks (b :: t)
  | _ => True

theorem line_cell (cc : Bool) {t : List Int} (ht : ∀ c ∈ t, 0 ≤ c ∧ c ≤ 127 ∧ Spec.Plain c) (i : Nat) (hi : i < t.length) :
    (Field.load 2 cc t).get (Vec.ofList [i, 0]) = t[i] := by
  have hl : Field.load 2 cc t = ((Field.new 2 cc).parse (Vec.ofList [0]) false (Spec.planeText [t])).2 := rfl
  have h := Field.C11_text_layout (Field.new 2 cc) (.new 2 cc) (Vec.ofList [0]) [t] (by simp) (by simpa using fun c hc => (ht c hc).2.2) (Vec.ofList [i, 0])
  have hc : Spec.cell2 [t] ((Vec.ofList [(i : Int), 0]).get 0 - (Vec.ofList [0]).get 0) ((Vec.ofList [(i : Int), 0]).get 1 - (Vec.ofList [0]).get 1) = some t[i] := by
    rw [Vec.get_ofList, Vec.get_ofList, Vec.get_ofList, Vec.get_ofList]
    show Spec.cell2 [t] ((i : Int) - 0) (0 - 0) = _
    rw [Int.sub_zero]
    simp [Spec.cell2, Spec.at', hi]
  rw [hl]
  by_cases h32 : t[i] = 32
  · rw [h.2 (.inr (.inr (by rw [hc, h32]))), h32]; cases cc <;> rfl
  · rw [h.1 (fun d hd => by rw [Vec.get_ofList, Vec.get_ofList]; match d, hd with | d + 2, _ => rfl) _ hc h32]
    have := ht t[i] (List.getElem_mem hi)
    cases cc
    · rfl
    · exact Int.bmod_eq_of_le (by omega) (by omega)

theorem line_in (cc : Bool) {t : List Int} (ht : ∀ c ∈ t, 0 ≤ c ∧ c ≤ 127 ∧ Spec.Plain c) (k : Nat) (hk : k < t.length) (h32 : t[k] ≠ 32) (x : Int) (h0 : 0 ≤ x) (hx : x ≤ k) :
    IP.inField 2 (Field.load 2 cc t) (Vec.ofList [x, 0]) = true := by
  have hr : Field.ReachableNoErase (Field.load 2 cc t) := .parse _ _ _ _ (.new 2 cc)
  have hb := Field.C10_in_box_without_erasure_partial _ hr (Vec.ofList [k, 0]) (by rw [line_cell cc ht k hk]; exact h32)
  rw [IP.inField_iff]
  intro i hi
  have h1 := hb i
  have h2 := hr.zero i
  rw [Vec.get_ofList] at h1 ⊢
  match i, hi with
  | 0, _ => simp at h1 ⊢; omega
  | 1, _ => simp at h1 ⊢; omega

theorem sayText_plain {t : List Int} (ht : ∀ c ∈ t, Quotable c) : ∀ c ∈ sayText t, 0 ≤ c ∧ c ≤ 127 ∧ Spec.Plain c := by
  intro c hc
  simp only [sayText, List.mem_cons, List.mem_append, List.not_mem_nil, or_false] at hc
  rcases hc with rfl | hc | rfl | rfl | rfl | rfl | rfl | rfl | rfl
  · unfold Spec.Plain; decide
  · obtain ⟨h1, h2, -, h3⟩ := ht c hc; exact ⟨by omega, h2, h3⟩
  all_goals unfold Spec.Plain; decide

theorem sayText_length (t : List Int) : (sayText t).length = t.length + 8 := by simp [sayText]

theorem say_tail {t : List Int} (j : Nat) (hj : j < 7) : (sayText t)[t.length + 1 + j]'(by rw [sayText_length]; omega) = [34, 62, 58, 35, 44, 95, 64][j] := by
  unfold sayText
  rw [List.getElem_cons]
  simp only [show t.length + 1 + j ≠ 0 by omega, dite_false]
  rw [List.getElem_append_right (by omega)]
  congr 1; omega

theorem say_mid {t : List Int} (j : Nat) (hj : j < t.length) : (sayText t)[j + 1]'(by rw [sayText_length]; omega) = t[j] := by
  unfold sayText
  rw [List.getElem_cons_succ, List.getElem_append_left hj]

section
variable (g : Glob) (std : Int) (f : Nat) (cc : Bool) (t : List Int)

/-- The program on its way. -/
def sayAt (ip : IP) (l : List Int) (n : Nat) (inp : List Int) (eff : List Eff) : St :=
  progAt g std (f + 10) (Field.load 2 cc (sayText t)) ip l n inp eff

variable {std t}

theorem say_next (ht : ∀ c ∈ t, Quotable c) {x y dx : Int} (h0 : 0 ≤ x + dx) (hx : x + dx ≤ t.length + 7) (hy : y = x + dx) :
    (at2 x 0 dx 0).next 2 .lahey (Field.load 2 cc (sayText t)) = .ok (at2 y 0 dx 0) := by
  subst hy
  have := say_tail (t := t) 6 (by decide)
  exact at2_next (line_in cc (sayText_plain ht) (t.length + 7) (by rw [sayText_length]; omega) (by rw [this]; decide) _ h0 (by omega))

theorem say_cell (ht : ∀ c ∈ t, Quotable c) (j : Nat) (hj : j < 7) {x : Int} (hx : x = t.length + 1 + j) :
    (Field.load 2 cc (sayText t)).get (at2 x 0 dx dy).pos = [34, 62, 58, 35, 44, 95, 64][j] := by
  have := line_cell cc (sayText_plain ht) (t.length + 1 + j) (by rw [sayText_length]; omega)
  rw [say_tail j hj] at this
  rw [← this, hx]; rfl

/-- One instruction of the loop. -/
theorem say_step (hs : std = 93 ∨ std = 98) (ht : ∀ c ∈ t, Quotable c) (j : Nat) (hj : j < 7) {x y dx dy : Int} (hx : x = t.length + 1 + j)
    {l l' n n' inp eff eff'} {x' dx' : Int} {sem : Sem}
    (hg : ∀ F ip, (progAt g std (f + 10) F ip l n inp eff).cur.getSem [34, 62, 58, 35, 44, 95, 64][j] = some sem)
    (hx' : ∀ ex, runOp ex sem.op (sayAt g std f cc t (at2 x 0 dx dy) l n inp eff) = .ok (.none, sayAt g std f cc t (at2 x' 0 dx' 0) l' n' inp eff'))
    (h0 : 0 ≤ x' + dx') (h1 : x' + dx' ≤ t.length + 7) (hy : y = x' + dx') :
    Goes 1 (sayAt g std f cc t (at2 x 0 dx dy) l n inp eff) (sayAt g std f cc t (at2 y 0 dx' 0) l' n' inp eff') := by
  refine goes_tick rfl rfl (prog_step (ip1 := at2 x' 0 dx' 0) (sem := sem) hs (Nat.succ_pos _) ?_ hx' (say_next cc ht h0 h1 hy))
  rw [say_cell cc ht j hj hx]
  exact hg _ _

/-- Once around the loop: `>:#,_` forth and back. -/
theorem say_char (hs : std = 93 ∨ std = 98) (ht : ∀ c ∈ t, Quotable c) {c : Int} (hc : c ≠ 0) (l n inp eff) :
    Goes 6 (sayAt g std f cc t (at2 (t.length + 3) 0 1 0) (c :: l) n inp eff)
      (sayAt g std f cc t (at2 (t.length + 3) 0 1 0) l (n + 5) inp (eff ++ [.out [if c = 10 then 10 else toChar c]])) := by
  have g1 : Goes 1 (sayAt g std f cc t (at2 (t.length + 3) 0 1 0) (c :: l) n inp eff) (sayAt g std f cc t (at2 (t.length + 4) 0 1 0) (c :: c :: l) (n + 3) inp eff) :=
    say_step g f cc hs ht 2 (by decide) (x' := t.length + 3) (sem := ⟨.dup, false⟩) (by omega) (fun F ip => by rcases hs with rfl | rfl <;> krfl)
      (fun ex => progAt_dup ..) (by omega) (by omega) (by omega)
  have g2 : Goes 1 (sayAt g std f cc t (at2 (t.length + 4) 0 1 0) (c :: c :: l) (n + 3) inp eff) (sayAt g std f cc t (at2 (t.length + 6) 0 1 0) (c :: c :: l) (n + 3) inp eff) :=
    say_step g f cc hs ht 3 (by decide) (x' := t.length + 5) (sem := ⟨.trampoline, false⟩) (by omega) (fun F ip => by rcases hs with rfl | rfl <;> krfl)
      (fun ex => progAt_trampoline (say_next cc ht (by omega) (by omega) (by omega)) ..) (by omega) (by omega) (by omega)
  have g3 : Goes 1 (sayAt g std f cc t (at2 (t.length + 6) 0 1 0) (c :: c :: l) (n + 3) inp eff) (sayAt g std f cc t (at2 (t.length + 5) 0 (-1) 0) (c :: l) (n + 4) inp eff) :=
    say_step g f cc hs ht 5 (by decide) (x' := t.length + 6) (sem := ⟨.ifEW, false⟩) (by omega) (fun F ip => by rcases hs with rfl | rfl <;> krfl)
      (fun ex => prog_if hs _ _ _ _ hc ..) (by omega) (by omega) (by omega)
  have g4 : Goes 1 (sayAt g std f cc t (at2 (t.length + 5) 0 (-1) 0) (c :: l) (n + 4) inp eff)
      (sayAt g std f cc t (at2 (t.length + 4) 0 (-1) 0) l (n + 5) inp (eff ++ [.out [if c = 10 then 10 else toChar c]])) :=
    say_step g f cc hs ht 4 (by decide) (x' := t.length + 5) (sem := ⟨.charOut, false⟩) (by omega) (fun F ip => by rcases hs with rfl | rfl <;> krfl)
      (fun ex => progAt_charOut ..) (by omega) (by omega) (by omega)
  have g5 : ∀ n eff, Goes 1 (sayAt g std f cc t (at2 (t.length + 4) 0 (-1) 0) l n inp eff) (sayAt g std f cc t (at2 (t.length + 2) 0 (-1) 0) l n inp eff) := fun n eff =>
    say_step g f cc hs ht 3 (by decide) (x' := t.length + 3) (sem := ⟨.trampoline, false⟩) (by omega) (fun F ip => by rcases hs with rfl | rfl <;> krfl)
      (fun ex => progAt_trampoline (say_next cc ht (by omega) (by omega) (by omega)) ..) (by omega) (by omega) (by omega)
  have g6 : ∀ n eff, Goes 1 (sayAt g std f cc t (at2 (t.length + 2) 0 (-1) 0) l n inp eff) (sayAt g std f cc t (at2 (t.length + 3) 0 1 0) l n inp eff) := fun n eff =>
    say_step g f cc hs ht 1 (by decide) (x' := t.length + 2) (sem := ⟨.east, true⟩) (by omega) (fun F ip => by rcases hs with rfl | rfl <;> krfl)
      (fun ex => progAt_go hs ..) (by omega) (by omega) (by omega)
  exact ((((g1.trans g2).trans g3).trans g4).trans (g5 _ _)).trans (g6 _ _)

theorem say_enter (hs : std = 93 ∨ std = 98) (ht : ∀ c ∈ t, Quotable c) (l n inp eff) :
    Goes 1 (sayAt g std f cc t (at2 (t.length + 2) 0 1 0) l n inp eff) (sayAt g std f cc t (at2 (t.length + 3) 0 1 0) l n inp eff) :=
  say_step g f cc hs ht 1 (by decide) (x' := t.length + 2) (sem := ⟨.east, true⟩) (by omega) (fun F ip => by rcases hs with rfl | rfl <;> krfl)
    (fun ex => progAt_go hs ..) (by omega) (by omega) (by omega)

/-- The loop. -/
theorem say_loop (hs : std = 93 ∨ std = 98) (ht : ∀ c ∈ t, Quotable c) (inp) (l : List Int) : (∀ c ∈ l, c ≠ 0) → ∀ n eff, ∃ n',
    Goes (6 * l.length) (sayAt g std f cc t (at2 (t.length + 3) 0 1 0) l n inp eff)
      (sayAt g std f cc t (at2 (t.length + 3) 0 1 0) [] n' inp (eff ++ l.map fun c => .out [if c = 10 then 10 else toChar c])) := by
  induction l with
  | nil => exact fun _ n eff => ⟨n, by rw [List.map_nil, List.append_nil]; exact Goes.refl _⟩
  | cons c l ih =>
    intro hl n eff
    obtain ⟨n', h⟩ := ih (fun c hc => hl c (by simp [hc])) (n + 5) (eff ++ [.out [if c = 10 then 10 else toChar c]])
    refine ⟨n', ?_⟩
    rw [List.append_assoc] at h
    rw [List.length_cons, Nat.mul_add, Nat.add_comm (6 * _)]
    exact (say_char g f cc hs ht (hl c (by simp)) l n inp eff).trans h

/-- The end. -/
theorem say_end (hs : std = 93 ∨ std = 98) (ht : ∀ c ∈ t, Quotable c) (n inp eff) (k : Nat) : ∃ u,
    (sayAt g std f cc t (at2 (t.length + 3) 0 1 0) [] n inp eff).alone.turns (3 + (k + 1)) = .ok u ∧ u.runners = [] ∧ u.g.eff = eff := by
  have g1 : Goes 1 (sayAt g std f cc t (at2 (t.length + 3) 0 1 0) [] n inp eff) (sayAt g std f cc t (at2 (t.length + 4) 0 1 0) [0, 0] (n + 3) inp eff) :=
    say_step g f cc hs ht 2 (by decide) (x' := t.length + 3) (sem := ⟨.dup, false⟩) (by omega) (fun F ip => by rcases hs with rfl | rfl <;> krfl)
      (fun ex => progAt_dup_empty ..) (by omega) (by omega) (by omega)
  have g2 : Goes 1 (sayAt g std f cc t (at2 (t.length + 4) 0 1 0) [0, 0] (n + 3) inp eff) (sayAt g std f cc t (at2 (t.length + 6) 0 1 0) [0, 0] (n + 3) inp eff) :=
    say_step g f cc hs ht 3 (by decide) (x' := t.length + 5) (sem := ⟨.trampoline, false⟩) (by omega) (fun F ip => by rcases hs with rfl | rfl <;> krfl)
      (fun ex => progAt_trampoline (say_next cc ht (by omega) (by omega) (by omega)) ..) (by omega) (by omega) (by omega)
  have g3 : Goes 1 (sayAt g std f cc t (at2 (t.length + 6) 0 1 0) [0, 0] (n + 3) inp eff) (sayAt g std f cc t (at2 (t.length + 7) 0 1 0) [0] (n + 4) inp eff) :=
    say_step g f cc hs ht 5 (by decide) (x' := t.length + 6) (sem := ⟨.ifEW, false⟩) (by omega) (fun F ip => by rcases hs with rfl | rfl <;> krfl)
      (fun ex => prog_if_zero hs ..) (by omega) (by omega) (by omega)
  rw [((g1.trans g2).trans g3)]
  refine ⟨_, prog_ends (ip' := { at2 (t.length + 7) 0 1 0 with stopped := true }) (g' := g) (std' := std) (f' := f + 10) (F' := Field.load 2 cc (sayText t)) (l' := [0]) (n' := n + 4) (inp' := inp) (eff' := eff) rfl rfl ?_ k, rfl, progAt_g_eff ..⟩
  refine prog_step (ip1 := { at2 (t.length + 7) 0 1 0 with stopped := true }) (sem := ⟨.stop, false⟩) hs (Nat.succ_pos _) ?_ (fun ex => ?_) ?_
  · rw [say_cell cc ht 6 (by decide) (by omega)]
    rcases hs with rfl | rfl <;> krfl
  · exact progAt_stop ..
  · rfl

unseal progAt in
/-- The opening quote. -/
theorem say_open (hs : std = 93 ∨ std = 98) (ht : ∀ c ∈ t, Quotable c) (inp eff) :
    Goes 1 (sayAt g std f cc t (at2 0 0 1 0) [] 0 inp eff) ((sayAt g std f cc t (at2 0 0 1 0) [] 0 inp eff).inText 34 0 (at2 1 0 1 0) [] 0) := by
  have hq : (Field.load 2 cc (sayText t)).get (at2 0 0 1 0).pos = 34 := line_cell cc (sayText_plain ht) 0 (by rw [sayText_length]; omega)
  obtain ⟨h1, h2, h3⟩ := progAt_atQuote hs g (f + 10) (Field.load 2 cc (sayText t)) (at2 0 0 1 0) [] 0 inp eff
  have h4 : AtQuote (sayAt g std f cc t (at2 0 0 1 0) [] 0 inp eff) := ⟨progAt_lifo .., h2, h1, progAt_strPrev hs .., hq, h3, by show hasMode 0 modeDive = false; decide⟩
  obtain ⟨ip', h5, h6⟩ := opening_tick h4 (Nat.succ_pos _)
  have h7 : (at2 0 0 1 0).next 2 .lahey (Field.load 2 cc (sayText t)) = .ok ip' := by
    have : IP.advance 2 .lahey (Field.load 2 cc (sayText t)) 1 (at2 0 0 1 0) = .ok ip' := h5
    rw [IP.advance_one] at this; exact this
  rw [say_next cc ht (y := 1) (by omega) (by omega) rfl] at h7
  cases h7
  intro j
  rw [Nat.add_comm, turns_cons (turn_alone (s := sayAt g std f cc t (at2 0 0 1 0) [] 0 inp eff) rfl rfl h6 rfl rfl)]
  rfl

unseal progAt in
/-- A character of the text. -/
theorem say_push (hs : std = 93 ∨ std = 98) (ht : ∀ c ∈ t, Quotable c) (inp eff) (hq : g.cfg.strings = .multispace ∨ g.cfg.strings = .sgml) {p : Int} (hp : 0 ≤ p ∧ p ≤ 127)
    (i : Nat) (hi : i < t.length) (hb : g.cfg.strings = .sgml → ¬(Blank p ∧ Blank t[i])) (l n) : ∃ p', (g.cfg.strings = .sgml → p' = t[i]) ∧ 0 ≤ p' ∧ p' ≤ 127 ∧
    Goes 1 ((sayAt g std f cc t (at2 0 0 1 0) [] 0 inp eff).inText 34 p (at2 (i + 1) 0 1 0) l n)
      ((sayAt g std f cc t (at2 0 0 1 0) [] 0 inp eff).inText 34 p' (at2 (i + 2) 0 1 0) (t[i] :: l) (n + 1)) := by
  have hm : t[i] ∈ t := List.getElem_mem hi
  obtain ⟨c1, c2, c3, -⟩ := ht _ hm
  have hc : (Field.load 2 cc (sayText t)).get (at2 (i + 1) 0 1 0).pos = t[i] := by
    have := line_cell cc (sayText_plain ht) (i + 1) (by rw [sayText_length]; omega)
    rw [say_mid i hi] at this
    exact this
  obtain ⟨-, h2, -⟩ := progAt_atQuote hs g (f + 10) (Field.load 2 cc (sayText t)) (at2 0 0 1 0) [] 0 inp eff
  have key : ∀ p', execString t[i] ((sayAt g std f cc t (at2 0 0 1 0) [] 0 inp eff).inText 34 p (at2 (i + 1) 0 1 0) l n) =
      .ok (.none, (sayAt g std f cc t (at2 0 0 1 0) [] 0 inp eff).inText 34 p' (at2 (i + 1) 0 1 0) (t[i] :: l) (n + 1)) →
      Goes 1 ((sayAt g std f cc t (at2 0 0 1 0) [] 0 inp eff).inText 34 p (at2 (i + 1) 0 1 0) l n)
        ((sayAt g std f cc t (at2 0 0 1 0) [] 0 inp eff).inText 34 p' (at2 (i + 2) 0 1 0) (t[i] :: l) (n + 1)) := by
    intro p' he j
    have h := tick_none (s := (sayAt g std f cc t (at2 0 0 1 0) [] 0 inp eff).inText 34 p (at2 (i + 1) 0 1 0) l n) (Nat.succ_pos _) (by
      show execute (f + 10) ((Field.load 2 cc (sayText t)).get (at2 (i + 1) 0 1 0).pos) _ = _
      rw [hc, execute_inText _ _ _ _ _ (Nat.succ_pos _)]
      exact he) (say_next cc ht (x := i + 1) (y := i + 2) (dx := 1) (by omega) (by omega) (by omega))
    rw [Nat.add_comm, turns_cons (turn_alone (s := (sayAt g std f cc t (at2 0 0 1 0) [] 0 inp eff).inText 34 p (at2 (i + 1) 0 1 0) l n) rfl rfl h rfl rfl)]
    rfl
  rcases hq with hq | hq
  · exact ⟨p, fun h => (by rw [hq] at h; cases h), hp.1, hp.2, key p (execString_multispace (progAt_lifo ..) h2 hq _ _ _ _ _ c3)⟩
  · refine ⟨t[i], fun _ => rfl, by omega, c2, key _ ?_⟩
    refine (execString_sgml (s := sayAt g std f cc t (at2 0 0 1 0) [] 0 inp eff) (progAt_lifo ..) h2 hq _ p _ _ _ c3 (by omega) (by omega)).trans (if_neg ?_)
    rw [isSpaceByte_blank, isSpaceByte_blank, Bool.and_eq_true]
    exact fun h => hb hq ⟨h.2, h.1⟩

theorem singleBlanks_get {t : List Int} (h : SingleBlanks t) : ∀ (i : Nat) (hi : i + 1 < t.length), ¬(Blank t[i] ∧ Blank t[i + 1]) := by
  induction t with
  | nil => intro i hi; simp at hi
  | cons a t ih =>
    intro i hi
    cases t with
    | nil => simp at hi
    | cons b t =>
      cases i with
      | zero => exact h.1
      | succ i => exact ih h.2 i (by simpa using hi)

/-- The whole text. -/
theorem say_string (hs : std = 93 ∨ std = 98) (ht : ∀ c ∈ t, Quotable c) (inp eff) (hq : g.cfg.strings = .multispace ∨ g.cfg.strings = .sgml ∧ SingleBlanks t)
    (i : Nat) (hi : i ≤ t.length) : ∃ p n, 0 ≤ p ∧ p ≤ 127 ∧ (g.cfg.strings = .sgml → p = if h : 0 < i then t[i - 1] else 0) ∧
    Goes (i + 1) (sayAt g std f cc t (at2 0 0 1 0) [] 0 inp eff) ((sayAt g std f cc t (at2 0 0 1 0) [] 0 inp eff).inText 34 p (at2 (i + 1) 0 1 0) (t.take i).reverse n) := by
  induction i with
  | zero => exact ⟨0, 0, by omega, by omega, fun _ => rfl, say_open g f cc hs ht inp eff⟩
  | succ i ih =>
    obtain ⟨p, n, h1, h2, h3, h4⟩ := ih (by omega)
    obtain ⟨p', k1, k2, k3, k4⟩ := say_push g f cc hs ht inp eff (p := p) (hq.imp id And.left) ⟨h1, h2⟩ i (by omega) (fun hg => by
      rw [h3 hg]
      rcases hq with hq | ⟨-, hq⟩
      · rw [hq] at hg; cases hg
      · cases i with
        | zero => simp [Blank]
        | succ i => exact singleBlanks_get hq i (by omega)) (t.take i).reverse n
    refine ⟨p', n + 1, k2, k3, fun hg => by rw [k1 hg]; simp, ?_⟩
    have e : (t.take (i + 1)).reverse = t[i] :: (t.take i).reverse := by rw [List.take_succ_eq_append_getElem (by omega)]; simp
    rw [e, show (((i + 1 : Nat) : Int) + 1) = (i : Int) + 2 by omega]
    exact h4.trans k4

unseal progAt in
/-- The closing quote. -/
theorem say_close (hs : std = 93 ∨ std = 98) (ht : ∀ c ∈ t, Quotable c) (inp eff p l n) :
    Goes 1 ((sayAt g std f cc t (at2 0 0 1 0) [] 0 inp eff).inText 34 p (at2 (t.length + 1) 0 1 0) l n) (sayAt g std f cc t (at2 (t.length + 2) 0 1 0) l n inp eff) := by
  intro j
  have h := tick_none (s := (sayAt g std f cc t (at2 0 0 1 0) [] 0 inp eff).inText 34 p (at2 (t.length + 1) 0 1 0) l n) (Nat.succ_pos _) (by
    show execute (f + 10) ((Field.load 2 cc (sayText t)).get (at2 (t.length + 1) 0 1 0).pos) _ = _
    rw [say_cell cc ht 0 (by decide) (by omega), execute_inText _ _ _ _ _ (Nat.succ_pos _)]
    exact execString_end ..) (say_next cc ht (x := t.length + 1) (y := t.length + 2) (dx := 1) (by omega) (by omega) (by omega))
  rw [Nat.add_comm, turns_cons (turn_alone (s := (sayAt g std f cc t (at2 0 0 1 0) [] 0 inp eff).inText 34 p (at2 (t.length + 1) 0 1 0) l n) rfl rfl h rfl rfl)]
  have e : (((sayAt g std f cc t (at2 0 0 1 0) [] 0 inp eff).setStr false 34 0).setIP (at2 (t.length + 2) 0 1 0)).setItems l n = _ := progAt_setStr hs ..
  exact congrArg (fun s : St => s.alone.turns j) e
end

/-- **C94** A program of one line that quotes a text and prints it with the usual loop, `"…">:#,_@`, prints exactly the characters of the text, last one first, and ends. For
every text, as Befunge-93 or 98, with cells of any size; with SGML strings the text must not have two blanks in a row (they count as one then, C21). -/
theorem C94_text_printed (g : Glob) {std : Int} (hs : std = 93 ∨ std = 98) {f : Nat} (hg : g.Befunge std (f + 10)) (cc : Bool) (h0 : g.eff = [])
    (t : List Int) (ht : ∀ c ∈ t, Quotable c) (hq : g.cfg.strings = .multispace ∨ g.cfg.strings = .sgml ∧ SingleBlanks t) :
    ∃ k0, ∀ k, k0 ≤ k → ∃ u, (launch g cc (sayText t)).turns k = .ok u ∧ u.runners = [] ∧ bytesOut u.g.eff = t.reverse := by
  obtain ⟨p, n, -, -, -, g1⟩ := say_string g f cc hs ht g.inp [] hq t.length (Nat.le_refl _)
  rw [List.take_length] at g1
  have g2 := say_close g f cc hs ht g.inp [] p t.reverse n
  have g3 := say_enter g f cc hs ht t.reverse n g.inp []
  obtain ⟨n', g4⟩ := say_loop g f cc hs ht g.inp t.reverse (fun c hc => by have := (ht c (by simpa using hc)).1; omega) n []
  have g5 := ((g1.trans g2).trans g3).trans g4
  refine ⟨t.length + 1 + 1 + 1 + 6 * t.reverse.length + 4, fun k hk => ?_⟩
  obtain ⟨u, h1, h2, h3⟩ := say_end g f cc hs ht n' g.inp ([] ++ t.reverse.map fun c => .out [if c = 10 then 10 else toChar c]) (k - (t.length + 1 + 1 + 1 + 6 * t.reverse.length + 4))
  refine ⟨u, ?_, h2, ?_⟩
  · rw [launch_eq _ hg hs, h0, show k = t.length + 1 + 1 + 1 + 6 * t.reverse.length + (3 + ((k - (t.length + 1 + 1 + 1 + 6 * t.reverse.length + 4)) + 1)) by omega]
    exact (g5 _).trans h1
  · rw [h3, bytesOut_sent _ _ (fun c hc => by have := ht c (by simpa using hc); obtain ⟨a, b, -⟩ := this; omega)]; rfl

/-- Hypotheses of the theorem: `a b,c`. -/
example : (∀ c ∈ [97, 32, 98, 44, 99], Quotable c) ∧ SingleBlanks [97, 32, 98, 44, 99] := by
  refine ⟨?_, ?_⟩
  · intro c hc
    simp at hc
    rcases hc with rfl | rfl | rfl | rfl | rfl <;> (unfold Quotable Spec.Plain; decide)
  · simp [SingleBlanks, Blank]
example : ∃ g : Glob, g.Befunge 98 (5 + 10) ∧ g.eff = [] ∧ g.cfg.strings = .sgml :=
  ⟨{ cfg := { dims := 2, standard := 98, strings := .sgml }, fuel := 15, flt := exFloat }, ⟨rfl, rfl, rfl, rfl, rfl, rfl⟩, rfl, rfl⟩

end Funge
