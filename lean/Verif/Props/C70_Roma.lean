import Verif.Lemmas.RomaPaths
/-!
C70: the instructions of ROMA, a fingerprint written in Funge (`fing/ROMA.fl`). I, V, X, L, C, D and M push the value of the numeral, P prints a number
in Roman numerals.
-/
namespace Funge
open Lib

/-- The digit `d` in Roman numerals, from the letters for one, five and ten. -/
def romanDigit (one five ten : Char) : Nat → List Char
  | 0 => []
  | 1 => [one]
  | 2 => [one, one]
  | 3 => [one, one, one]
  | 4 => [one, five]
  | 5 => [five]
  | 6 => [five, one]
  | 7 => [five, one, one]
  | 8 => [five, one, one, one]
  | _ => [one, ten]

/-- A number in Roman numerals. Thousands are all written with M. -/
def roman (n : Nat) : List Char :=
  List.replicate (n / 1000) 'M' ++ romanDigit 'C' 'D' 'M' (n / 100 % 10) ++ romanDigit 'X' 'L' 'C' (n / 10 % 10) ++ romanDigit 'I' 'V' 'X' (n % 10)

example : roman 1984 = "MCMLXXXIV".toList := by decide
example : roman 3999 = "MMMCMXCIX".toList := by decide

/-- Characters printed one by one. -/
def printed (cs : List Char) : List Eff := cs.map fun c => .out [(c.toNat : Int)]

/-- Their codes. -/
def codes (cs : List Char) : List Int := cs.map fun c => (c.toNat : Int)

theorem outs_codes (e : List Eff) (cs : List Char) : outs e (codes cs) = e ++ printed cs := by
  rw [outs_eq, codes, printed, List.map_map]; rfl

theorem codes_append (a b : List Char) : codes a ++ codes b = codes (a ++ b) := by simp [codes]

theorem roma_dims : romaField.dims = 3 := rfl

theorem hundred_leads {s : St} (hs : s.cur.ss.select < s.cur.ss.stacks.length) (k : Nat) (n : Int) (l : List Int) (e : List Eff) (h0 : 0 ≤ n)
    (hn : n < 1000) (hk : n / 100 = k) :
    ∃ d, d ≤ 60 ∧ Leads romaField 80 s d (atEast 80 17 1 (n :: l) e) (atEast 80 38 0 ((n - (k : Int) * 100) :: l) (outs e (codes (romanDigit 'C' 'D' 'M' k)))) := by
  have ht : n.tdiv 100 = k := by rw [Int.tdiv_eq_ediv_of_nonneg h0]; exact hk
  have hc : k = 0 ∨ k = 1 ∨ k = 2 ∨ k = 3 ∨ k = 4 ∨ k = 5 ∨ k = 6 ∨ k = 7 ∨ k = 8 ∨ k = 9 := by omega
  rw [← ht]
  rcases hc with rfl | rfl | rfl | rfl | rfl | rfl | rfl | rfl | rfl | rfl
  · exact ⟨_, by decide, leads (roma_hundred_0 n l e) roma_dims hs (by simp only [All, InI64, i64Min, i64Max, ht, and_true, true_and]; omega)⟩
  · exact ⟨_, by decide, leads (roma_hundred_1 n l e) roma_dims hs (by simp only [All, InI64, i64Min, i64Max, ht, and_true, true_and]; omega)⟩
  · exact ⟨_, by decide, leads (roma_hundred_2 n l e) roma_dims hs (by simp only [All, InI64, i64Min, i64Max, ht, and_true, true_and]; omega)⟩
  · exact ⟨_, by decide, leads (roma_hundred_3 n l e) roma_dims hs (by simp only [All, InI64, i64Min, i64Max, ht, and_true, true_and]; omega)⟩
  · exact ⟨_, by decide, leads (roma_hundred_4 n l e) roma_dims hs (by simp only [All, InI64, i64Min, i64Max, ht, and_true, true_and]; omega)⟩
  · exact ⟨_, by decide, leads (roma_hundred_5 n l e) roma_dims hs (by simp only [All, InI64, i64Min, i64Max, ht, and_true, true_and]; omega)⟩
  · exact ⟨_, by decide, leads (roma_hundred_6 n l e) roma_dims hs (by simp only [All, InI64, i64Min, i64Max, ht, and_true, true_and]; omega)⟩
  · exact ⟨_, by decide, leads (roma_hundred_7 n l e) roma_dims hs (by simp only [All, InI64, i64Min, i64Max, ht, and_true, true_and]; omega)⟩
  · exact ⟨_, by decide, leads (roma_hundred_8 n l e) roma_dims hs (by simp only [All, InI64, i64Min, i64Max, ht, and_true, true_and]; omega)⟩
  · exact ⟨_, by decide, leads (roma_hundred_9 n l e) roma_dims hs (by simp only [All, InI64, i64Min, i64Max, ht, and_true, true_and]; omega)⟩

theorem ten_leads {s : St} (hs : s.cur.ss.select < s.cur.ss.stacks.length) (k : Nat) (n : Int) (l : List Int) (e : List Eff) (h0 : 0 ≤ n)
    (hn : n < 100) (hk : n / 10 = k) :
    ∃ d, d ≤ 60 ∧ Leads romaField 80 s d (atEast 80 38 0 (n :: l) e) (atEast 80 59 0 ((n - (k : Int) * 10) :: l) (outs e (codes (romanDigit 'X' 'L' 'C' k)))) := by
  have ht : n.tdiv 10 = k := by rw [Int.tdiv_eq_ediv_of_nonneg h0]; exact hk
  have hc : k = 0 ∨ k = 1 ∨ k = 2 ∨ k = 3 ∨ k = 4 ∨ k = 5 ∨ k = 6 ∨ k = 7 ∨ k = 8 ∨ k = 9 := by omega
  rw [← ht]
  rcases hc with rfl | rfl | rfl | rfl | rfl | rfl | rfl | rfl | rfl | rfl
  · exact ⟨_, by decide, leads (roma_ten_0 n l e) roma_dims hs (by simp only [All, InI64, i64Min, i64Max, ht, and_true, true_and]; omega)⟩
  · exact ⟨_, by decide, leads (roma_ten_1 n l e) roma_dims hs (by simp only [All, InI64, i64Min, i64Max, ht, and_true, true_and]; omega)⟩
  · exact ⟨_, by decide, leads (roma_ten_2 n l e) roma_dims hs (by simp only [All, InI64, i64Min, i64Max, ht, and_true, true_and]; omega)⟩
  · exact ⟨_, by decide, leads (roma_ten_3 n l e) roma_dims hs (by simp only [All, InI64, i64Min, i64Max, ht, and_true, true_and]; omega)⟩
  · exact ⟨_, by decide, leads (roma_ten_4 n l e) roma_dims hs (by simp only [All, InI64, i64Min, i64Max, ht, and_true, true_and]; omega)⟩
  · exact ⟨_, by decide, leads (roma_ten_5 n l e) roma_dims hs (by simp only [All, InI64, i64Min, i64Max, ht, and_true, true_and]; omega)⟩
  · exact ⟨_, by decide, leads (roma_ten_6 n l e) roma_dims hs (by simp only [All, InI64, i64Min, i64Max, ht, and_true, true_and]; omega)⟩
  · exact ⟨_, by decide, leads (roma_ten_7 n l e) roma_dims hs (by simp only [All, InI64, i64Min, i64Max, ht, and_true, true_and]; omega)⟩
  · exact ⟨_, by decide, leads (roma_ten_8 n l e) roma_dims hs (by simp only [All, InI64, i64Min, i64Max, ht, and_true, true_and]; omega)⟩
  · exact ⟨_, by decide, leads (roma_ten_9 n l e) roma_dims hs (by simp only [All, InI64, i64Min, i64Max, ht, and_true, true_and]; omega)⟩

theorem unit_leads {s : St} (hs : s.cur.ss.select < s.cur.ss.stacks.length) (k : Nat) (hk : k < 10) (l : List Int) (e : List Eff) :
    ∃ d, d ≤ 60 ∧ Leads romaField 80 s d (atEast 80 59 0 ((k : Int) :: l) e) (atEast 80 80 7 l (outs e (codes (romanDigit 'I' 'V' 'X' k ++ [' '])))) := by
  have hc : k = 0 ∨ k = 1 ∨ k = 2 ∨ k = 3 ∨ k = 4 ∨ k = 5 ∨ k = 6 ∨ k = 7 ∨ k = 8 ∨ k = 9 := by omega
  rcases hc with rfl | rfl | rfl | rfl | rfl | rfl | rfl | rfl | rfl | rfl
  · exact ⟨_, by decide, leads (roma_unit_0 _ l e) roma_dims hs (by simp only [All]; decide)⟩
  · exact ⟨_, by decide, leads (roma_unit_1 _ l e) roma_dims hs (by simp only [All]; decide)⟩
  · exact ⟨_, by decide, leads (roma_unit_2 _ l e) roma_dims hs (by simp only [All]; decide)⟩
  · exact ⟨_, by decide, leads (roma_unit_3 _ l e) roma_dims hs (by simp only [All]; decide)⟩
  · exact ⟨_, by decide, leads (roma_unit_4 _ l e) roma_dims hs (by simp only [All]; decide)⟩
  · exact ⟨_, by decide, leads (roma_unit_5 _ l e) roma_dims hs (by simp only [All]; decide)⟩
  · exact ⟨_, by decide, leads (roma_unit_6 _ l e) roma_dims hs (by simp only [All]; decide)⟩
  · exact ⟨_, by decide, leads (roma_unit_7 _ l e) roma_dims hs (by simp only [All]; decide)⟩
  · exact ⟨_, by decide, leads (roma_unit_8 _ l e) roma_dims hs (by simp only [All]; decide)⟩
  · exact ⟨_, by decide, leads (roma_unit_9 _ l e) roma_dims hs (by simp only [All]; decide)⟩

/-- What is left when the thousands are printed. -/
theorem rest_leads {s : St} (hs : s.cur.ss.select < s.cur.ss.stacks.length) (n : Nat) (hn : n < 1000) (l : List Int) (e : List Eff) :
    ∃ d, d ≤ 200 ∧ Leads romaField 80 s d (atEast 80 5 1 ((n : Int) :: l) e) (atEast 80 80 7 l (outs e (codes (roman n ++ [' '])))) := by
  have h0 : Leads romaField 80 s _ _ _ := leads (roma_rest (n : Int) l e) roma_dims hs
    (by have : ¬ (n : Int) > 999 := by omega
        simp only [All, InI64, i64Min, i64Max, if_neg this, and_true, true_and]; omega)
  obtain ⟨d1, b1, h1⟩ := hundred_leads hs (n / 100) (n : Int) l (outs e []) (by omega) (by omega) (by omega)
  obtain ⟨d2, b2, h2⟩ := ten_leads hs (n / 10 % 10) ((n : Int) - ((n / 100 : Nat) : Int) * 100) l (outs (outs e []) (codes (romanDigit 'C' 'D' 'M' (n / 100))))
    (by omega) (by omega) (by omega)
  obtain ⟨d3, b3, h3⟩ := unit_leads hs (n % 10) (by omega) l
    (outs (outs (outs e []) (codes (romanDigit 'C' 'D' 'M' (n / 100)))) (codes (romanDigit 'X' 'L' 'C' (n / 10 % 10))))
  have he : (n : Int) - ((n / 100 : Nat) : Int) * 100 - ((n / 10 % 10 : Nat) : Int) * 10 = ((n % 10 : Nat) : Int) := by omega
  rw [he] at h2
  have h4 := ((h0.trans h1).trans h2).trans h3
  refine ⟨d3 + (d2 + (d1 + 11)), by omega, ?_⟩
  · have hr : roman n = romanDigit 'C' 'D' 'M' (n / 100) ++ romanDigit 'X' 'L' 'C' (n / 10 % 10) ++ romanDigit 'I' 'V' 'X' (n % 10) := by
      rw [roman, show n / 1000 = 0 by omega, show n / 100 % 10 = n / 100 by omega]; rfl
    rw [outs_outs, outs_outs, outs_outs, List.nil_append, codes_append, codes_append, ← List.append_assoc, ← List.append_assoc, ← hr] at h4
    exact h4

theorem roman_thousand (n : Nat) : roman (n + 1000) = 'M' :: roman n := by
  rw [roman, roman, show (n + 1000) / 1000 = n / 1000 + 1 by omega, show (n + 1000) / 100 % 10 = n / 100 % 10 by omega,
    show (n + 1000) / 10 % 10 = n / 10 % 10 by omega, show (n + 1000) % 10 = n % 10 by omega, List.replicate_succ]; rfl

theorem thousands_lead {s : St} (hs : s.cur.ss.select < s.cur.ss.stacks.length) (t : Nat) (n : Nat) (hn : n / 1000 = t) (hi : InI64 (n : Int)) (l : List Int)
    (e : List Eff) :
    ∃ d, d ≤ 200 + 30 * t ∧ Leads romaField 80 s d (atEast 80 5 1 ((n : Int) :: l) e) (atEast 80 80 7 l (outs e (codes (roman n ++ [' '])))) := by
  induction t generalizing n e with
  | zero => exact rest_leads hs n (by omega) l e
  | succ t ih =>
    obtain ⟨m, rfl⟩ : ∃ m, n = m + 1000 := ⟨n - 1000, by omega⟩
    have h0 : Leads romaField 80 s _ _ _ := leads (roma_thousand ((m + 1000 : Nat) : Int) l e) roma_dims hs
      (by have : ((m + 1000 : Nat) : Int) > 999 := by omega
          simp only [All, InI64, i64Min, i64Max, if_pos this, and_true, true_and]; unfold InI64 i64Min i64Max at hi; omega)
    have hm : ((m + 1000 : Nat) : Int) - 1000 = (m : Int) := by omega
    rw [hm] at h0
    obtain ⟨d, hd, h1⟩ := ih m (by omega) (by unfold InI64 i64Min i64Max at *; omega) (outs e [77])
    have h2 := h0.trans h1
    refine ⟨d + 24, by omega, ?_⟩
    · rw [outs_outs] at h2
      rw [roman_thousand]
      exact h2

section
variable {s : St} {l : List Int}

/-- P prints a positive number in Roman numerals and a space, and takes it from the stack (C70). -/
theorem C70_P (n : Nat) (h : s.Synced) (hi : s.items = (n : Int) :: l) (h0 : 0 < n) (hn : InI64 (n : Int)) (hf : 300 + 30 * (n / 1000) ≤ s.g.fuel) :
    ∃ s', libCall romaLib 80 s = .ok (.none, s') ∧ s.Answers s' l (printed (roman n ++ [' '])) := by
  rw [romaLib_eq]
  obtain ⟨d, hd, h1⟩ := thousands_lead h.1 (n / 1000) n rfl hn l (outs s.g.eff [])
  have hb : Leads romaField 80 s _ _ _ := leads (roma_begin (n : Int) l s.g.eff) roma_dims h.1
    (by have : (n : Int) > 0 := by omega
        simp only [All, InI64, i64Min, i64Max, if_pos this, and_true, true_and]; omega)
  have h2 := hb.trans h1
  rw [outs_outs, List.nil_append, outs_codes] at h2
  refine libCall_of_fin (m := 1 + (d + 7)) h ?_ (by omega)
  rw [hi]
  exact h2 _ _ _ (fin_stop roma_dims rfl (by krfl))

/-- P prints `0 ` for 0 and for every negative number (C70). -/
theorem C70_P_none (n : Int) (h : s.Synced) (hi : s.items = n :: l) (h0 : n ≤ 0) (hf : 300 ≤ s.g.fuel) :
    ∃ s', libCall romaLib 80 s = .ok (.none, s') ∧ s.Answers s' l [.out ([48, 32])] := by
  rw [romaLib_eq]
  refine libCall_of_fin (m := 1 + 8) h ?_ (by omega)
  rw [hi]
  refine leads (path := [0]) (ps := [(if n > 0 then (1 : Int) else 0) = 0]) (c' := atEast 80 9 0 l (s.g.eff ++ [.out [48, 32]])) ?_ roma_dims h.1 ⟨if_neg (by omega), trivial⟩
    _ _ _ (fin_stop roma_dims rfl (by krfl))
  krfl

/-- The numerals. -/
theorem C70_numeral (cmd v : Int)
    (hc : (cmd, v) ∈ [((73 : Int), (1 : Int)), (86, 5), (88, 10), (76, 50), (67, 100), (68, 500), (77, 1000)]) (h : s.Synced) (hf : 300 ≤ s.g.fuel) :
    ∃ s', libCall romaLib cmd s = .ok (.none, s') ∧ s.Answers s' (v :: s.items) [] := by
  rw [romaLib_eq]
  simp only [List.mem_cons, Prod.mk.injEq, List.not_mem_nil, or_false] at hc
  rcases hc with ⟨rfl, rfl⟩ | ⟨rfl, rfl⟩ | ⟨rfl, rfl⟩ | ⟨rfl, rfl⟩ | ⟨rfl, rfl⟩ | ⟨rfl, rfl⟩ | ⟨rfl, rfl⟩
  · refine libCall_path (d := 1) (path := []) (x := 1) (y := 0) (ps := []) h roma_dims rfl (by omega) (fun e => ?_) (by exact trivial) (by decide +kernel)
    krfl
  · refine libCall_path (d := 1) (path := []) (x := 1) (y := 0) (ps := []) h roma_dims rfl (by omega) (fun e => ?_) (by exact trivial) (by decide +kernel)
    krfl
  · refine libCall_path (d := 1) (path := []) (x := 1) (y := 0) (ps := []) h roma_dims rfl (by omega) (fun e => ?_) (by exact trivial) (by decide +kernel)
    krfl
  · refine libCall_path (d := 3) (path := []) (x := 3) (y := 0) (ps := [InI64 50]) h roma_dims rfl (by omega) (fun e => ?_) (by simp only [All]; decide) (by decide +kernel)
    krfl
  · refine libCall_path (d := 3) (path := []) (x := 3) (y := 0) (ps := [InI64 100]) h roma_dims rfl (by omega) (fun e => ?_) (by simp only [All]; decide) (by decide +kernel)
    krfl
  · refine libCall_path (d := 5) (path := []) (x := 5) (y := 0) (ps := [InI64 50, InI64 500]) h roma_dims rfl (by omega) (fun e => ?_) (by simp only [All]; decide) (by decide +kernel)
    krfl
  · refine libCall_path (d := 5) (path := []) (x := 5) (y := 0) (ps := [InI64 100, InI64 1000]) h roma_dims rfl (by omega) (fun e => ?_) (by simp only [All]; decide) (by decide +kernel)
    krfl

end

example : ∃ s', libCall romaLib 80 (libState [1984, 7]) = .ok (.none, s') ∧ (libState [1984, 7]).Answers s' [7] (printed "MCMLXXXIV ".toList) :=
  C70_P 1984 (libState_synced _) rfl (by decide) (by decide) (by decide)

example : ∃ s', libCall romaLib 80 (libState [-3, 7]) = .ok (.none, s') ∧ (libState [-3, 7]).Answers s' [7] [.out [48, 32]] :=
  C70_P_none (-3) (libState_synced _) rfl (by decide) (by decide)

example : ∃ s', libCall romaLib 68 (libState [7]) = .ok (.none, s') ∧ (libState [7]).Answers s' [500, 7] [] :=
  C70_numeral 68 500 (by decide) (libState_synced _) (by decide)

end Funge
