import Verif.Lemmas.TermPaths
import Verif.Props.C42_Output
/-!
C71: the instructions of TERM, a fingerprint written in Funge (`fing/TERM.fl`), print the escape sequences of a terminal: C clears the screen, H moves the
cursor home, L clears to the end of the line, S to the end of the screen, D and U move the cursor down and up by the number on the stack,
G moves it to a column and, on top, a row, counted from 0.
-/
namespace Funge
open Lib

/-- Characters printed one by one. -/
def typed (cs : List Int) : List Eff := cs.map fun c => .out [c]

/-- The characters of a text. -/
def asciiText (t : String) : List Int := t.toList.map fun c => (c.toNat : Int)

/-- Escape and `[`. -/
def csi : List Int := [27, 91]

/-- `ds` is the number `n` in decimal digits. -/
def InDigits (n : Int) (ds : List Int) : Prop := IsDigits ds ∧ digitsValue ds = n

theorem term_dims : termField.dims = 3 := rfl

/-- What a round of the loop over the digits requires. -/
def digitReq (n : Int) (q : Prop) (extra : List Prop) : List Prop :=
  [(10 : Int) ≠ 0, ¬(n = i64Min ∧ (10 : Int) = -1), InI64 (n.tmod 10 + 48), (10 : Int) ≠ 0, InI64 (n.tdiv 10), q] ++ extra

theorem digits_lead {F : Field} {cmd x y x' y' : Int} {s : St} {pre : List Int} {dl : Nat} {extra : List Prop} (hF : F.dims = 3)
    (hs : s.cur.ss.select < s.cur.ss.stacks.length)
    (hloop : ∀ n l e, arun F 26 [1] (atEast cmd x y (n :: l) e) =
      some (atEast cmd x y (n.tdiv 10 :: (n.tmod 10 + 48) :: l) e, digitReq n (n.tdiv 10 ≠ 0) []))
    (hlast : ∀ n l e, arun F dl [0] (atEast cmd x y (n :: l) e) =
      some (atEast cmd x' y' (pre ++ (n.tmod 10 + 48) :: l) e, digitReq n (n.tdiv 10 = 0) extra))
    (hx : All extra) (hdl : dl ≤ 26) (k : Nat) (n : Nat) (hn : n < 10 ^ (k + 1)) (hi : InI64 (n : Int)) (l : List Int) (e : List Eff) :
    ∃ ds d, InDigits n ds ∧ ds.length ≤ k + 1 ∧ d ≤ 26 * (k + 1) ∧
      Leads F cmd s d (atEast cmd x y ((n : Int) :: l) e) (atEast cmd x' y' (pre ++ ds ++ l) e) := by
  have ht : (n : Int).tdiv 10 = ((n / 10 : Nat) : Int) := by rw [Int.tdiv_eq_ediv_of_nonneg (by omega)]; omega
  have hm : (n : Int).tmod 10 = ((n % 10 : Nat) : Int) := by rw [Int.tmod_eq_emod_of_nonneg (by omega)]; omega
  by_cases h : n < 10
  · refine ⟨[(n : Int) + 48], dl, ⟨⟨by simp, by simp; omega, by simp⟩, by simp [digitsValue]⟩, by simp, by omega, ?_⟩
    have h0 := leads (cmd := cmd) (s := s) (hlast (n : Int) l e) hF hs (by
      simp only [digitReq, all_append, hx, and_true]
      simp only [All, ht, hm, InI64, i64Min, i64Max, and_true]; omega)
    rw [hm, show n % 10 = n by omega] at h0
    rw [List.append_assoc]
    exact h0
  · induction k generalizing n l with
    | zero => omega
    | succ k ih =>
      have h0 := leads (cmd := cmd) (s := s) (hloop (n : Int) l e) hF hs (by
        simp only [digitReq, List.append_nil]
        simp only [All, ht, hm, InI64, i64Min, i64Max, and_true] at *; omega)
      rw [hm, ht] at h0
      have hp : n / 10 < 10 ^ (k + 1) := by rw [Nat.pow_succ] at hn; omega
      have hin : InI64 ((n / 10 : Nat) : Int) := by unfold InI64 i64Min i64Max at *; omega
      have key : ∃ ds d, InDigits ((n / 10 : Nat) : Int) ds ∧ ds.length ≤ k + 1 ∧ d ≤ 26 * (k + 1) ∧
          Leads F cmd s d (atEast cmd x y (((n / 10 : Nat) : Int) :: (((n % 10 : Nat) : Int) + 48) :: l) e)
            (atEast cmd x' y' (pre ++ ds ++ (((n % 10 : Nat) : Int) + 48) :: l) e) := by
        have ht' : ((n / 10 : Nat) : Int).tdiv 10 = ((n / 10 / 10 : Nat) : Int) := by rw [Int.tdiv_eq_ediv_of_nonneg (by omega)]; omega
        have hm' : ((n / 10 : Nat) : Int).tmod 10 = ((n / 10 % 10 : Nat) : Int) := by rw [Int.tmod_eq_emod_of_nonneg (by omega)]; omega
        by_cases h' : n / 10 < 10
        · refine ⟨[((n / 10 : Nat) : Int) + 48], dl, ⟨⟨by simp, by simp; omega, by simp⟩, by simp [digitsValue]⟩, by simp, by omega, ?_⟩
          have h0 := leads (cmd := cmd) (s := s) (hlast ((n / 10 : Nat) : Int) ((((n % 10 : Nat) : Int) + 48) :: l) e) hF hs (by
            simp only [digitReq, all_append, hx, and_true]
            simp only [All, ht', hm', InI64, i64Min, i64Max, and_true]; omega)
          rw [hm', show n / 10 % 10 = n / 10 by omega] at h0
          rw [List.append_assoc]
          exact h0
        · exact ih (n / 10) hp hin _ ht' hm' h'
      obtain ⟨ds, d, ⟨⟨c1, c2, c3⟩, c4⟩, c5, c6, c7⟩ := key
      refine ⟨ds ++ [((n % 10 : Nat) : Int) + 48], d + 26, ⟨⟨by simp, ?_, ?_⟩, ?_⟩, by simp; omega, by omega, ?_⟩
      · intro c hc
        rcases List.mem_append.mp hc with hc | hc
        · exact c2 c hc
        · simp only [List.mem_singleton] at hc; omega
      · intro hh
        exfalso
        cases ds with
        | nil => exact c1 rfl
        | cons c t =>
          simp only [List.cons_append, List.head?_cons, Option.some.injEq] at hh
          have := c3 (by rw [hh]; rfl)
          simp only [List.length_cons, Nat.add_eq_right, List.length_eq_zero_iff] at this
          subst this
          simp only [digitsValue, List.foldl_cons, List.foldl_nil, hh] at c4
          omega
      · rw [digitsValue_append, c4]
        simp only [List.length_singleton, digitsValue, List.foldl_cons, List.foldl_nil]
        omega
      · have h2 := h0.trans c7
        simp only [List.append_assoc, List.singleton_append] at h2 ⊢
        exact h2

theorem print_leads {F : Field} {cmd x y x' : Int} {s : St} (hF : F.dims = 3) (hs : s.cur.ss.select < s.cur.ss.stacks.length)
    (hstep : ∀ c l e, arun F 6 [1] (atEast cmd x y (c :: l) e) = some (atEast cmd x y l (e ++ [.out [if c = 10 then 10 else toChar c]]), [c ≠ 0]))
    (hend : ∀ c l e, arun F 4 [0] (atEast cmd x y (c :: l) e) = some (atEast cmd x' y l e, [c = 0]))
    (cs l : List Int) (hc : ∀ c ∈ cs, 10 < c ∧ c < 128) (e : List Eff) :
    Leads F cmd s (4 + 6 * cs.length) (atEast cmd x y (cs ++ 0 :: l) e) (atEast cmd x' y l (e ++ typed cs)) := by
  induction cs generalizing e with
  | nil =>
    have := leads (cmd := cmd) (s := s) (hend 0 l e) hF hs ⟨rfl, trivial⟩
    simpa [typed] using this
  | cons c t ih =>
    have hb := hc c (by simp)
    have h0 := leads (cmd := cmd) (s := s) (hstep c (t ++ 0 :: l) e) hF hs ⟨by omega, trivial⟩
    have h1 := h0.trans (ih (fun c h => hc c (by simp [h])) _)
    have ht : (if c = 10 then (10 : Int) else toChar c) = c := by
      rw [if_neg (by omega)]; unfold toChar; rw [Int.bmod_def]; omega
    rw [ht] at h1
    simp only [List.length_cons, typed, List.map_cons, List.cons_append, List.append_assoc, List.nil_append, Nat.mul_add,
      Nat.mul_one, ← Nat.add_assoc] at h1 ⊢
    exact h1

theorem digits_range {n : Int} {ds : List Int} (h : InDigits n ds) : ∀ c ∈ ds, 10 < c ∧ c < 128 := by
  intro c hc; have := h.1.2.1 c hc; omega

section
variable {s : St} {l : List Int}

/-- C, H, L and S print their escape sequence and leave the stack alone (C71). -/
theorem C71_fixed (cmd : Int) (t : String) (hc : (cmd, t) ∈ [((67 : Int), "2J"), (72, "1;1H"), (76, "0K"), (83, "0J")]) (h : s.Synced)
    (hf : 1000 ≤ s.g.fuel) : ∃ s', libCall termLib cmd s = .ok (.none, s') ∧ s.Answers s' s.items (typed (csi ++ asciiText t)) := by
  rw [termLib_eq]
  simp only [List.mem_cons, Prod.mk.injEq, List.not_mem_nil, or_false] at hc
  rcases hc with ⟨rfl, rfl⟩ | ⟨rfl, rfl⟩ | ⟨rfl, rfl⟩ | ⟨rfl, rfl⟩
  · refine libCall_of_fin (m := 1 + (4 + 6 * 4 + 10)) h ?_ (by omega)
    exact ((leads (termC_begin s.items s.g.eff) term_dims h.1 ⟨by decide, trivial⟩).trans
      (print_leads term_dims h.1 termC_print termC_end (csi ++ asciiText "2J") s.items (by decide) _)) _ _ _ (fin_stop term_dims rfl (by krfl))
  · refine libCall_of_fin (m := 1 + (4 + 6 * 6 + 12)) h ?_ (by omega)
    exact ((leads (termH_begin s.items s.g.eff) term_dims h.1 ⟨by decide, trivial⟩).trans
      (print_leads term_dims h.1 termH_print termH_end (csi ++ asciiText "1;1H") s.items (by decide) _)) _ _ _ (fin_stop term_dims rfl (by krfl))
  · refine libCall_of_fin (m := 1 + (4 + 6 * 4 + 10)) h ?_ (by omega)
    exact ((leads (termL_begin s.items s.g.eff) term_dims h.1 ⟨by decide, trivial⟩).trans
      (print_leads term_dims h.1 termL_print termL_end (csi ++ asciiText "0K") s.items (by decide) _)) _ _ _ (fin_stop term_dims rfl (by krfl))
  · refine libCall_of_fin (m := 1 + (4 + 6 * 4 + 10)) h ?_ (by omega)
    exact ((leads (termS_begin s.items s.g.eff) term_dims h.1 ⟨by decide, trivial⟩).trans
      (print_leads term_dims h.1 termS_print termS_end (csi ++ asciiText "0J") s.items (by decide) _)) _ _ _ (fin_stop term_dims rfl (by krfl))

theorem in_pow (n : Nat) (hi : InI64 (n : Int)) : n < 10 ^ (18 + 1) := by unfold InI64 i64Min i64Max at hi; omega

theorem termD_move (n : Nat) (k : Int) (hk : 10 < k ∧ k < 128) (h : s.cur.ss.select < s.cur.ss.stacks.length) (hi : InI64 (n : Int)) (e : List Eff) :
    ∃ ds d, InDigits n ds ∧ d ≤ 700 ∧ Leads termField 68 s d (atEast 68 16 0 ((n : Int) :: k :: 0 :: l) e) (atEast 68 42 0 l (e ++ typed (csi ++ ds ++ [k]))) := by
  obtain ⟨ds, d, h1, h2, h3, h4⟩ := digits_lead (s := s) (pre := csi) (extra := [InI64 27]) term_dims h termD_digit termD_last ⟨by decide, trivial⟩ (by omega)
    18 n (in_pow n hi) hi (k :: 0 :: l) e
  have h5 := print_leads (s := s) term_dims h termD_print termD_end (csi ++ ds ++ [k]) l (by
    intro c hc
    simp only [List.mem_append, List.mem_singleton] at hc
    rcases hc with (hc | hc) | rfl
    · revert c; decide
    · exact digits_range h1 c hc
    · exact hk) e
  have h6 : csi ++ ds ++ k :: 0 :: l = csi ++ ds ++ [k] ++ 0 :: l := by simp
  rw [h6] at h4
  exact ⟨ds, _, h1, by simp [csi]; omega, h4.trans h5⟩

theorem termU_move (n : Nat) (k : Int) (hk : 10 < k ∧ k < 128) (h : s.cur.ss.select < s.cur.ss.stacks.length) (hi : InI64 (n : Int)) (e : List Eff) :
    ∃ ds d, InDigits n ds ∧ d ≤ 700 ∧ Leads termField 85 s d (atEast 85 16 0 ((n : Int) :: k :: 0 :: l) e) (atEast 85 42 0 l (e ++ typed (csi ++ ds ++ [k]))) := by
  obtain ⟨ds, d, h1, h2, h3, h4⟩ := digits_lead (s := s) (pre := csi) (extra := [InI64 27]) term_dims h termU_digit termU_last ⟨by decide, trivial⟩ (by omega)
    18 n (in_pow n hi) hi (k :: 0 :: l) e
  have h5 := print_leads (s := s) term_dims h termU_print termU_end (csi ++ ds ++ [k]) l (by
    intro c hc
    simp only [List.mem_append, List.mem_singleton] at hc
    rcases hc with (hc | hc) | rfl
    · revert c; decide
    · exact digits_range h1 c hc
    · exact hk) e
  have h6 : csi ++ ds ++ k :: 0 :: l = csi ++ ds ++ [k] ++ 0 :: l := by simp
  rw [h6] at h4
  exact ⟨ds, _, h1, by simp [csi]; omega, h4.trans h5⟩

/-- D moves the cursor down by `n` lines: `ESC [ n B` (C71). -/
theorem C71_down (n : Nat) (h : s.Synced) (hi : s.items = (n : Int) :: l) (h0 : 0 < n) (hn : InI64 (n : Int)) (hf : 1000 ≤ s.g.fuel) :
    ∃ ds s', InDigits n ds ∧ libCall termLib 68 s = .ok (.none, s') ∧ s.Answers s' l (typed (csi ++ ds ++ asciiText "B")) := by
  rw [termLib_eq]
  obtain ⟨ds, d, h1, h2, h3⟩ := termD_move (l := l) n 66 (by decide) h.1 hn s.g.eff
  have hb := leads (cmd := 68) (s := s) (termD_pos (n : Int) l s.g.eff) term_dims h.1 ⟨by rw [if_pos (by omega)]; decide, trivial⟩
  obtain ⟨s', r⟩ := libCall_of_fin (m := 1 + (d + 18)) h (by rw [hi]; exact (hb.trans h3) _ _ _ (fin_stop term_dims rfl (by krfl))) (by omega)
  exact ⟨ds, s', h1, r⟩

/-- D moves the cursor up by `n` lines if it finds `-n`: `ESC [ n A` (C71). -/
theorem C71_down_neg (n : Nat) (h : s.Synced) (hi : s.items = -(n : Int) :: l) (h0 : 0 < n) (hn : InI64 (n : Int)) (hf : 1000 ≤ s.g.fuel) :
    ∃ ds s', InDigits n ds ∧ libCall termLib 68 s = .ok (.none, s') ∧ s.Answers s' l (typed (csi ++ ds ++ asciiText "A")) := by
  rw [termLib_eq]
  obtain ⟨ds, d, h1, h2, h3⟩ := termD_move (l := l) n 65 (by decide) h.1 hn s.g.eff
  have hm : -(n : Int) * -1 = n := by omega
  have hb := leads (cmd := 68) (s := s) (termD_neg (-(n : Int)) l s.g.eff) term_dims h.1 ⟨if_neg (by omega), by decide, by rw [hm]; exact hn, trivial⟩
  rw [hm] at hb
  obtain ⟨s', r⟩ := libCall_of_fin (m := 1 + (d + 14)) h (by rw [hi]; exact (hb.trans h3) _ _ _ (fin_stop term_dims rfl (by krfl))) (by omega)
  exact ⟨ds, s', h1, r⟩

/-- U moves the cursor up by `n` lines: `ESC [ n A` (C71). -/
theorem C71_up (n : Nat) (h : s.Synced) (hi : s.items = (n : Int) :: l) (h0 : 0 < n) (hn : InI64 (n : Int)) (hf : 1000 ≤ s.g.fuel) :
    ∃ ds s', InDigits n ds ∧ libCall termLib 85 s = .ok (.none, s') ∧ s.Answers s' l (typed (csi ++ ds ++ asciiText "A")) := by
  rw [termLib_eq]
  obtain ⟨ds, d, h1, h2, h3⟩ := termU_move (l := l) n 65 (by decide) h.1 hn s.g.eff
  have hb := leads (cmd := 85) (s := s) (termU_pos (n : Int) l s.g.eff) term_dims h.1 ⟨by rw [if_pos (by omega)]; decide, trivial⟩
  obtain ⟨s', r⟩ := libCall_of_fin (m := 1 + (d + 18)) h (by rw [hi]; exact (hb.trans h3) _ _ _ (fin_stop term_dims rfl (by krfl))) (by omega)
  exact ⟨ds, s', h1, r⟩

/-- U moves the cursor down by `n` lines if it finds `-n`: `ESC [ n B` (C71). -/
theorem C71_up_neg (n : Nat) (h : s.Synced) (hi : s.items = -(n : Int) :: l) (h0 : 0 < n) (hn : InI64 (n : Int)) (hf : 1000 ≤ s.g.fuel) :
    ∃ ds s', InDigits n ds ∧ libCall termLib 85 s = .ok (.none, s') ∧ s.Answers s' l (typed (csi ++ ds ++ asciiText "B")) := by
  rw [termLib_eq]
  obtain ⟨ds, d, h1, h2, h3⟩ := termU_move (l := l) n 66 (by decide) h.1 hn s.g.eff
  have hm : -(n : Int) * -1 = n := by omega
  have hb := leads (cmd := 85) (s := s) (termU_neg (-(n : Int)) l s.g.eff) term_dims h.1 ⟨if_neg (by omega), by decide, by rw [hm]; exact hn, trivial⟩
  rw [hm] at hb
  obtain ⟨s', r⟩ := libCall_of_fin (m := 1 + (d + 14)) h (by rw [hi]; exact (hb.trans h3) _ _ _ (fin_stop term_dims rfl (by krfl))) (by omega)
  exact ⟨ds, s', h1, r⟩

/-- G moves the cursor to column `x` and row `y`, counted from 0: `ESC [ y+1 ; x+1 H` (C71). -/
theorem C71_goto_partial (x y : Nat) (h : s.Synced) (hi : s.items = (y : Int) :: (x : Int) :: l) (hx : InI64 ((x : Int) + 1)) (hy : InI64 ((y : Int) + 1))
    (hf : 2000 ≤ s.g.fuel) : ∃ dy dx s', InDigits ((y : Int) + 1) dy ∧ InDigits ((x : Int) + 1) dx ∧ libCall termLib 71 s = .ok (.none, s') ∧
      s.Answers s' l (typed (csi ++ dy ++ asciiText ";" ++ dx ++ asciiText "H")) := by
  rw [termLib_eq]
  have b1 := leads (cmd := 71) (s := s) (termG_begin (y : Int) ((x : Int) :: l) s.g.eff) term_dims h.1 ⟨hy, trivial⟩
  obtain ⟨dy, d1, c1, c2, c3, c4⟩ := digits_lead (s := s) (pre := csi) (extra := [InI64 27]) term_dims h.1 termG_digit termG_last ⟨by decide, trivial⟩ (by omega)
    18 (y + 1) (in_pow _ hy) hy (59 :: 0 :: (x : Int) :: l) s.g.eff
  have p1 := print_leads (s := s) term_dims h.1 termG_print termG_end (csi ++ dy ++ asciiText ";") ((x : Int) :: l) (by
    intro c hc
    simp only [List.mem_append] at hc
    rcases hc with (hc | hc) | hc
    · revert c; decide
    · exact digits_range c1 c hc
    · revert c; decide) s.g.eff
  have b2 := leads (cmd := 71) (s := s) (termG_begin2 (x : Int) l (s.g.eff ++ typed (csi ++ dy ++ asciiText ";"))) term_dims h.1 ⟨hx, trivial⟩
  obtain ⟨dx, d2, e1, e2, e3, e4⟩ := digits_lead (s := s) (pre := []) (extra := []) term_dims h.1 termG_digit2 termG_last2 trivial (by omega)
    18 (x + 1) (in_pow _ hx) hx (72 :: 0 :: l) (s.g.eff ++ typed (csi ++ dy ++ asciiText ";"))
  have p2 := print_leads (s := s) term_dims h.1 termG_print2 termG_end2 (dx ++ asciiText "H") l (by
    intro c hc
    simp only [List.mem_append] at hc
    rcases hc with hc | hc
    · exact digits_range e1 c hc
    · revert c; decide) (s.g.eff ++ typed (csi ++ dy ++ asciiText ";"))
  have q1 : csi ++ dy ++ 59 :: 0 :: (x : Int) :: l = csi ++ dy ++ asciiText ";" ++ 0 :: (x : Int) :: l := by simp [asciiText]
  have q2 : [] ++ dx ++ 72 :: 0 :: l = dx ++ asciiText "H" ++ 0 :: l := by simp [asciiText]
  rw [q1] at c4
  rw [q2] at e4
  have big := ((((b1.trans c4).trans p1).trans b2).trans e4).trans p2
  have hl1 : (csi ++ dy ++ asciiText ";").length ≤ 22 := by simp [csi, asciiText]; omega
  have hl2 : (dx ++ asciiText "H").length ≤ 20 := by simp [asciiText]; omega
  have he : s.g.eff ++ typed (csi ++ dy ++ asciiText ";") ++ typed (dx ++ asciiText "H") =
      s.g.eff ++ typed (csi ++ dy ++ asciiText ";" ++ dx ++ asciiText "H") := by simp [typed]
  rw [he] at big
  obtain ⟨s', r⟩ := libCall_of_fin h (by rw [hi]; exact big _ _ _ (fin_stop term_dims rfl (by krfl))) (by omega)
  exact ⟨dy, dx, s', c1, e1, r⟩

end

example : ∃ s', libCall termLib 72 (libState [7]) = .ok (.none, s') ∧ (libState [7]).Answers s' [7] (typed [27, 91, 49, 59, 49, 72]) :=
  C71_fixed 72 "1;1H" (by decide) (libState_synced _) (by decide)

example : ∃ ds s', InDigits 120 ds ∧ libCall termLib 68 (libState [120, 7]) = .ok (.none, s') ∧
    (libState [120, 7]).Answers s' [7] (typed (csi ++ ds ++ asciiText "B")) :=
  C71_down 120 (libState_synced _) rfl (by decide) (by decide) (by decide)

example : ∃ ds s', InDigits 5 ds ∧ libCall termLib 68 (libState [-5, 7]) = .ok (.none, s') ∧
    (libState [-5, 7]).Answers s' [7] (typed (csi ++ ds ++ asciiText "A")) :=
  C71_down_neg 5 (libState_synced _) rfl (by decide) (by decide) (by decide)

example : ∃ ds s', InDigits 120 ds ∧ libCall termLib 85 (libState [120, 7]) = .ok (.none, s') ∧
    (libState [120, 7]).Answers s' [7] (typed (csi ++ ds ++ asciiText "A")) :=
  C71_up 120 (libState_synced _) rfl (by decide) (by decide) (by decide)

example : ∃ ds s', InDigits 5 ds ∧ libCall termLib 85 (libState [-5, 7]) = .ok (.none, s') ∧
    (libState [-5, 7]).Answers s' [7] (typed (csi ++ ds ++ asciiText "B")) :=
  C71_up_neg 5 (libState_synced _) rfl (by decide) (by decide) (by decide)

example : ∃ dy dx s', InDigits 24 dy ∧ InDigits 80 dx ∧ libCall termLib 71 (libState [23, 79, 7]) = .ok (.none, s') ∧
    (libState [23, 79, 7]).Answers s' [7] (typed (csi ++ dy ++ asciiText ";" ++ dx ++ asciiText "H")) :=
  C71_goto_partial 79 23 (libState_synced _) rfl (by decide) (by decide) (by decide)

/-- The call: what it prints. -/
def termCall (cmd : Int) (l : List Int) : Except Fault (List Eff) := (libCall termLib cmd (libState l)).map fun r => r.2.g.eff

/-- D and U print `ESC [ 0 A` and `ESC [ 0 B` for 0, which a terminal takes for a move by one line, though there is nowhere to go (/repo/fing/TERM.fl:3-5). -/
theorem C71_false_zero : termCall 68 [0] = .ok (typed (csi ++ asciiText "0A")) ∧ termCall 85 [0] = .ok (typed (csi ++ asciiText "0B")) := by
  rw [termCall, termCall, termLib_eq]; decide +kernel

/-- G prints characters that are no digits for a negative row: `ESC [ . ; 1 H` for -3 (/repo/fing/TERM.fl:6-8). -/
theorem C71_false_goto : termCall 71 [-3, 0] = .ok (typed (csi ++ asciiText ".;1H")) := by
  rw [termCall, termLib_eq]; decide +kernel

end Funge
