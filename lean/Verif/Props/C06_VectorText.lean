import Verif.Model.VecIO
import Verif.Lemmas.Vec
import Verif.Props.C42_Output
/-
C06: vectors are printed and read back.
-/
namespace Funge

/-! ### Specification -/

/-- The text of a vector: its coordinates in decimal notation, separated by a comma and a blank, in parentheses. -/
inductive IsCoordText : List Int → List Int → Prop
  | one {x t} : IsDecimal x t → IsCoordText [x] t
  | more {x t xs ts} : IsDecimal x t → IsCoordText xs ts → IsCoordText (x :: xs) (t ++ [44, 32] ++ ts)

/-! ### Reading digits -/

theorem skip_of_not {c : Int} {t : List Int} (h : IStream.isSpace c = false) : IStream.skip (c :: t) = c :: t := by
  rw [IStream.skip, h]; rfl

theorem char_of_not {c c' : Int} {t : List Int} (h : IStream.isSpace c = false) : IStream.char ⟨c :: t, false⟩ c' = (c, ⟨t, false⟩) := by
  rw [IStream.char]; simp only [Bool.false_eq_true, if_false]; rw [skip_of_not h]

theorem char_of_blank {c c' : Int} {t : List Int} (h : IStream.isSpace c = false) : IStream.char ⟨32 :: c :: t, false⟩ c' = (c, ⟨t, false⟩) := by
  have : IStream.skip (32 :: c :: t) = c :: t := by
    rw [IStream.skip]; simp only [show IStream.isSpace 32 = true from rfl, if_true]; exact skip_of_not h
  rw [IStream.char]; simp only [Bool.false_eq_true, if_false]; rw [this]

theorem notSpace {c : Int} (h : 14 ≤ c) (h' : c ≠ 32) : IStream.isSpace c = false := by
  unfold IStream.isSpace; simp; omega

/-- The value digits have after a number already read. -/
def valueFrom (v : Int) (ds : List Int) : Int := ds.foldl (fun a c => a * 10 + (c - 48)) v

theorem valueFrom_mono {v : Int} {ds : List Int} (hv : 0 ≤ v) (hd : ∀ c ∈ ds, 48 ≤ c ∧ c ≤ 57) : v ≤ valueFrom v ds := by
  induction ds generalizing v with
  | nil => exact Int.le_refl _
  | cons c t ih =>
    have hc := hd c List.mem_cons_self
    have := ih (v := v * 10 + (c - 48)) (by omega) (fun c' h => hd c' (List.mem_cons_of_mem _ h))
    show v ≤ valueFrom (v * 10 + (c - 48)) t
    omega

theorem bind_ok_except {α β : Type} (x : α) (f : α → Except Fault β) : ((Except.ok x : Except Fault α) >>= f) = f x := rfl

theorem ck_ok {x : Int} (h : InI64 x) : ck x = .ok x := by rw [ck, if_pos h]

/-- Reading digits up to the next character, which is no white space. -/
theorem readLoop_digits (rhs : Vec) (d : Nat) (neg : Bool) (y : Int) (hy : IStream.isSpace y = false) (r : List Int) (ds : List Int) (x v : Int) (n : Nat)
    (hv : 0 ≤ v) (hd : ∀ c ∈ x :: ds, 48 ≤ c ∧ c ≤ 57) (hb : valueFrom v (x :: ds) ≤ i64Max) :
    readLoop (n + (ds.length + 1)) rhs d v neg x ⟨ds ++ y :: r, false⟩ = readLoop n rhs d (valueFrom v (x :: ds)) neg y ⟨r, false⟩ := by
  induction ds generalizing x v with
  | nil =>
    have hx := hd x List.mem_cons_self
    have hb' : v * 10 + (x - 48) ≤ i64Max := hb
    have e1 : ck (v * 10) = .ok (v * 10) := ck_ok (by unfold InI64 i64Min i64Max at *; omega)
    have e2 : ck (v * 10 + (x - 48)) = .ok (v * 10 + (x - 48)) := ck_ok (by unfold InI64 i64Min i64Max at *; omega)
    show readLoop (n + 1) rhs d v neg x ⟨y :: r, false⟩ = _
    rw [readLoop, if_neg (by omega), if_neg (by omega), if_pos hx, e1, bind_ok_except, e2, bind_ok_except]
    rw [char_of_not hy]; rfl
  | cons z t ih =>
    have hx := hd x List.mem_cons_self
    have hz := hd z (List.mem_cons_of_mem _ List.mem_cons_self)
    have hm : v * 10 + (x - 48) ≤ valueFrom v (x :: z :: t) :=
      valueFrom_mono (by omega) (fun c h => hd c (List.mem_cons_of_mem _ h))
    have e1 : ck (v * 10) = .ok (v * 10) := ck_ok (by unfold InI64 i64Min i64Max at *; omega)
    have e2 : ck (v * 10 + (x - 48)) = .ok (v * 10 + (x - 48)) := ck_ok (by unfold InI64 i64Min i64Max at *; omega)
    show readLoop (n + (t.length + 1) + 1) rhs d v neg x ⟨z :: (t ++ y :: r), false⟩ = _
    rw [readLoop, if_neg (by omega), if_neg (by omega), if_pos hx, e1, bind_ok_except, e2, bind_ok_except]
    rw [char_of_not (notSpace (by omega) (by omega))]
    exact ih z (v * 10 + (x - 48)) (by omega) (fun c h => hd c (List.mem_cons_of_mem _ h)) hb

/-- Reading a coordinate up to the comma or parenthesis after it; its value is then `±v`. -/
theorem readLoop_coord (rhs : Vec) (d : Nat) (x : Int) (y : Int) (hy : y = 44 ∨ y = 41) (r : List Int) {t : List Int} (ht : IsDecimal x t) (hx : i64Min < x ∧ x ≤ i64Max)
    (n : Nat) : ∃ c t' v neg, t = c :: t' ∧ IStream.isSpace c = false ∧ (if neg then -v else v) = x ∧ 0 ≤ v ∧ v ≤ i64Max ∧
      readLoop (n + t.length) rhs d 0 false c ⟨t' ++ y :: r, false⟩ = readLoop n rhs d v neg y ⟨r, false⟩ := by
  have hys : IStream.isSpace y = false := by rcases hy with rfl | rfl <;> rfl
  rcases ht with ⟨h0, ⟨hne, hd, -⟩, hv⟩ | ⟨h0, ds, rfl, ⟨hne, hd, -⟩, hv⟩
  · cases t with
    | nil => exact absurd rfl hne
    | cons c t' =>
      have hc := hd c List.mem_cons_self
      refine ⟨c, t', x, false, rfl, notSpace (by omega) (by omega), rfl, h0, hx.2, ?_⟩
      have h := readLoop_digits rhs d false y hys r t' c 0 n (Int.le_refl _) hd (by unfold valueFrom; unfold digitsValue at hv; omega)
      rw [show valueFrom 0 (c :: t') = x from hv] at h
      exact h
  · cases ds with
    | nil => exact absurd rfl hne
    | cons c t' =>
      have hc := hd c List.mem_cons_self
      have hx' : -x ≤ i64Max := by unfold i64Min i64Max at *; omega
      refine ⟨45, c :: t', -x, true, rfl, rfl, by simp, by omega, hx', ?_⟩
      have h := readLoop_digits rhs d true y hys r t' c 0 n (Int.le_refl _) hd (by unfold valueFrom; unfold digitsValue at hv; omega)
      rw [show valueFrom 0 (c :: t') = -x from hv] at h
      rw [show n + (45 :: c :: t').length = n + (t'.length + 1) + 1 by simp; omega, readLoop, if_neg (by decide), if_neg (by decide), if_neg (by decide), if_neg (by decide), if_pos ⟨rfl, rfl⟩]
      rw [show (c :: t') ++ y :: r = c :: (t' ++ y :: r) from rfl, char_of_not (notSpace (by omega) (by omega))]
      exact h

theorem isCoordText_print (l : List Int) (h : l ≠ []) : IsCoordText l (printVals l) := by
  fun_induction printVals l with
  | case1 => exact absurd rfl h
  | case2 x => exact .one (decimal_spec x)
  | case3 x y t ih => exact .more (decimal_spec x) (ih (by simp))

theorem signed_ok {neg : Bool} {v x : Int} (h : (if neg then -v else v) = x) (hx : i64Min < x ∧ x ≤ i64Max) : signed neg v = .ok x := by
  unfold signed
  cases neg
  · rw [if_neg (by decide)] at h ⊢; rw [h]
  · rw [if_pos rfl] at h ⊢; rw [h, ck_ok ⟨by omega, hx.2⟩]

theorem size_normalize_pos {v : Vec} (h : 0 < v.size) : 0 < v.normalize.size := by
  have : Vec.stripRev v.vals.reverse ≠ [] := Vec.stripRev_ne_nil _ (by
    intro h'; rw [List.reverse_eq_nil_iff] at h'; rw [Vec.size, h'] at h; exact absurd h (by decide))
  unfold Vec.size Vec.normalize
  simp only [List.length_reverse]
  exact List.length_pos_iff.mpr this

/-- The coordinates read so far. -/
theorem readLoop_coords {xs ts : List Int} (h : IsCoordText xs ts) (hx : ∀ x ∈ xs, i64Min < x ∧ x ≤ i64Max) (r : List Int) :
    ∀ (rhs : Vec) (d n : Nat), ts.length < n → ∃ c t w, ts = c :: t ∧ IStream.isSpace c = false ∧
      readLoop n rhs d 0 false c ⟨t ++ 41 :: r, false⟩ = .ok (w, ⟨r, false⟩) ∧ w.Normal ∧ 0 < w.size ∧
      ∀ i, w.get i = if i < d then rhs.get i else if i < d + xs.length then xs.getD (i - d) 0 else rhs.get i := by
  induction h with
  | @one x t ht =>
    intro rhs d n hn
    obtain ⟨m, rfl⟩ : ∃ m, n = m + 1 + t.length := ⟨n - 1 - t.length, by omega⟩
    have hx0 := hx x List.mem_cons_self
    obtain ⟨c, t', v, neg, h1, h2, h3, h4, h5, h6⟩ := readLoop_coord rhs d x 41 (.inr rfl) r ht hx0 (m + 1)
    refine ⟨c, t', (rhs.set d x).normalize, h1, h2, ?_, Vec.normal_normalize _, ?_, ?_⟩
    · rw [h6, readLoop, if_pos rfl, readEnd, signed_ok h3 hx0]; rfl
    · exact size_normalize_pos (Vec.size_set_pos _ _ _)
    · intro i
      rw [Vec.get_normalize, Vec.get_set]
      by_cases hi : i = d
      · subst hi; simp
      · rw [if_neg hi]
        by_cases h' : i < d
        · rw [if_pos h']
        · rw [if_neg h', if_neg (by simp; omega)]
  | @more x t xs ts ht hts ih =>
    intro rhs d n hn
    have hx0 := hx x List.mem_cons_self
    obtain ⟨m, rfl⟩ : ∃ m, n = m + 1 + t.length := ⟨n - 1 - t.length, by simp at hn; omega⟩
    obtain ⟨c, t', v, neg, h1, h2, h3, h4, h5, h6⟩ := readLoop_coord rhs d x 44 (.inl rfl) (32 :: ts ++ 41 :: r) ht hx0 (m + 1)
    obtain ⟨c2, t2, w, g1, g2, g3, g4, g4', g5⟩ := ih (fun x h => hx x (List.mem_cons_of_mem _ h)) (rhs.set d x) (d + 1) m (by simp at hn; omega)
    refine ⟨c, t' ++ [44, 32] ++ ts, w, by rw [h1]; simp, h2, ?_, g4, g4', ?_⟩
    · have : t' ++ [44, 32] ++ ts ++ 41 :: r = t' ++ 44 :: (32 :: ts ++ 41 :: r) := by simp
      rw [this, h6, readLoop, if_neg (by decide), if_neg (by decide), if_neg (by decide), if_pos rfl]
      rw [signed_ok h3 hx0, bind_ok_except, g1]
      rw [show (32 :: (c2 :: t2) ++ 41 :: r) = 32 :: c2 :: (t2 ++ 41 :: r) from rfl, char_of_blank g2]
      exact g3
    · intro i
      rw [g5, Vec.get_set]
      by_cases hi : i = d
      · subst hi; simp
      · rw [if_neg hi]
        by_cases h' : i < d
        · rw [if_pos (by omega), if_pos h']
        · rw [if_neg (by omega), if_neg h']
          by_cases h'' : i < d + 1 + xs.length
          · rw [if_pos h'', if_pos (by simp; omega)]
            obtain ⟨k, rfl⟩ : ∃ k, i = d + 1 + k := ⟨i - d - 1, by omega⟩
            rw [show d + 1 + k - (d + 1) = k by omega, show d + 1 + k - d = k + 1 by omega]; rfl
          · rw [if_neg h'', if_neg (by simp; omega)]

/-- **C06.** A vector is printed as its coordinates in decimal notation. -/
theorem C06_printed (v : Vec) (hne : v.vals ≠ []) : ∃ t, printVec v = 40 :: t ++ [41] ∧ IsCoordText v.vals t :=
  ⟨_, rfl, isCoordText_print _ hne⟩

/-- **C06.** A vector that is printed and read comes back equal (the same, if it has no trailing zeros), whatever follows, and the reader consumes
just the text printed. -/
theorem C06_reads_back_partial (v : Vec) (hne : v.vals ≠ []) (hx : ∀ x ∈ v.vals, i64Min < x ∧ x ≤ i64Max) (r : List Int) (c₀ : Int) (fuel : Nat)
    (hf : (printVec v).length ≤ fuel) :
    ∃ w, readVec fuel c₀ ⟨printVec v ++ r, false⟩ = .ok (w, ⟨r, false⟩) ∧ w.eqv v = true ∧ (v.Normal → w = v) := by
  obtain ⟨c, t, w, h1, h2, h3, h4, h5, h6⟩ := readLoop_coords (isCoordText_print _ hne) hx r Vec.empty 0 fuel (by rw [printVec] at hf; simp at hf; omega)
  have hg : ∀ i, w.get i = v.get i := by
    intro i
    rw [h6, if_neg (by omega), Vec.get_eq v]
    split
    · rw [Nat.sub_zero, List.getD_eq_getElem?_getD]
    · rw [List.getElem?_eq_none (by omega)]; rfl
  refine ⟨w, ?_, (Vec.eqv_iff _ _).mpr hg, fun hn => Vec.Normal.ext h4 hn h5 (List.length_pos_iff.mpr hne) hg⟩
  have : printVec v ++ r = 40 :: c :: (t ++ 41 :: r) := by rw [printVec, h1]; simp
  rw [this, readVec, char_of_not (by rfl)]
  dsimp only
  rw [if_pos rfl, char_of_not h2]
  exact h3

/-- **C06** fails for the smallest coordinate: its digits overflow before the sign is applied. -/
theorem C06_undefined_at_min : readVec 100 0 ⟨printVec (Vec.ofList [i64Min]), false⟩ = .error .overflow := by decide

/-! ### Termination -/

theorem skip_mem {l : List Int} (h : 41 ∈ l) : 41 ∈ IStream.skip l ∧ (IStream.skip l).length ≤ l.length := by
  induction l with
  | nil => cases h
  | cons c t ih =>
    rw [IStream.skip]
    split
    · rename_i hc
      rcases List.mem_cons.mp h with rfl | h
      · cases hc
      · exact ⟨(ih h).1, by have := (ih h).2; simp; omega⟩
    · exact ⟨h, Nat.le_refl _⟩

theorem char_progress {l : List Int} (h : 41 ∈ l) (c : Int) :
    ∃ c' t, IStream.char ⟨l, false⟩ c = (c', ⟨t, false⟩) ∧ t.length < l.length ∧ (c' = 41 ∨ 41 ∈ t) := by
  obtain ⟨h1, h2⟩ := skip_mem h
  rw [IStream.char]
  simp only [Bool.false_eq_true, if_false]
  cases hs : IStream.skip l with
  | nil => rw [hs] at h1; cases h1
  | cons x t =>
    rw [hs] at h1 h2
    refine ⟨x, t, rfl, by simp at h2; omega, ?_⟩
    rcases List.mem_cons.mp h1 with h | h
    · exact .inl h.symm
    · exact .inr h

theorem ck_fuel (x : Int) : ck x ≠ .error .fuel := by
  unfold ck; split <;> simp

theorem signed_fuel (neg : Bool) (v : Int) : signed neg v ≠ .error .fuel := by
  unfold signed; split
  · exact ck_fuel _
  · simp

theorem bind_fuel {α β : Type} {m : Except Fault α} {f : α → Except Fault β} (hm : m ≠ .error .fuel) (hf : ∀ a, f a ≠ .error .fuel) : (m >>= f) ≠ .error .fuel := by
  cases m with
  | ok a => exact hf a
  | error e => intro h; apply hm; change (Except.error e : Except Fault β) = _ at h; injection h with h; rw [h]

theorem readLoop_ends (n : Nat) : ∀ (rhs : Vec) (d : Nat) (v : Int) (neg : Bool) (c : Int) (l : List Int), l.length < n → (c = 41 ∨ 41 ∈ l) →
    readLoop n rhs d v neg c ⟨l, false⟩ ≠ .error .fuel := by
  induction n with
  | zero => intro _ _ _ _ _ l h; omega
  | succ n ih =>
    intro rhs d v neg c l hn hc
    have he : ∀ rhs d v neg is, readEnd rhs d v neg is ≠ .error .fuel := by
      intro rhs d v neg is
      rw [readEnd]
      exact bind_fuel (signed_fuel _ _) (fun a => by intro h; cases h)
    rw [readLoop]
    by_cases h41 : c = 41
    · rw [if_pos h41]; exact he _ _ _ _ _
    rw [if_neg h41]
    have hl : 41 ∈ l := hc.resolve_left h41
    obtain ⟨c', t, h1, h2, h3⟩ := char_progress hl c
    split
    · simp
    split
    · refine bind_fuel (ck_fuel _) fun a => bind_fuel (ck_fuel _) fun b => ?_
      rw [h1]; exact ih _ _ _ _ _ _ (by omega) h3
    split
    · refine bind_fuel (signed_fuel _ _) fun a => ?_
      rw [h1]; exact ih _ _ _ _ _ _ (by omega) h3
    split
    · rw [h1]; exact ih _ _ _ _ _ _ (by omega) h3
    split
    · rw [h1]; exact ih _ _ _ _ _ _ (by omega) h3
    · exact he _ _ _ _ _

/-- **C06.** The reader terminates on every input with a closing parenthesis (the fuel, which the program does not have, is not used up). -/
theorem C06_terminates_partial (l : List Int) (h : 41 ∈ l) (c₀ : Int) (fuel : Nat) (hf : l.length ≤ fuel) : readVec fuel c₀ ⟨l, false⟩ ≠ .error .fuel := by
  obtain ⟨c, t, h1, h2, h3⟩ := char_progress h c₀
  rw [readVec, h1]
  dsimp only
  split
  · rename_i h40
    rcases h3 with h3 | h3
    · omega
    · obtain ⟨c', t', h4, h5, h6⟩ := char_progress h3 c
      rw [h4]
      exact readLoop_ends _ _ _ _ _ _ _ (by omega) h6
  · intro h; cases h

/-- **C06.** It terminates also if the first character after white space is no parenthesis. -/
theorem C06_terminates_unopened (l : List Int) (c₀ : Int) (h : (IStream.char ⟨l, false⟩ c₀).1 ≠ 40) (fuel : Nat) : readVec fuel c₀ ⟨l, false⟩ ≠ .error .fuel := by
  rw [readVec]
  dsimp only
  rw [if_neg h]
  intro h; cases h

/-- **C06** fails for the text "(0": the reader loops for ever, since at the end of the input the last character stays in `c`. -/
theorem C06_false_reader_diverges (fuel : Nat) (c₀ : Int) : readVec fuel c₀ ⟨[40, 48], false⟩ = .error .fuel := by
  have loop : ∀ fuel l, readLoop fuel Vec.empty 0 0 false 48 ⟨l, true⟩ = .error .fuel := by
    intro fuel l
    induction fuel with
    | zero => rfl
    | succ n ih => exact ih
  rw [readVec, char_of_not (by rfl)]
  dsimp only
  rw [if_pos rfl, char_of_not (by rfl)]
  cases fuel with
  | zero => rfl
  | succ n => exact loop n []

/-- **C06** fails for the text "(1": the last digit is read again and again until the coordinate overflows. -/
theorem C06_undefined_unclosed (c₀ : Int) : readVec 100 c₀ ⟨[40, 49], false⟩ = .error .overflow := by
  rw [readVec, char_of_not (by rfl)]
  dsimp only
  rw [if_pos rfl, char_of_not (by rfl)]
  decide

/-! ### Examples -/

/-- A vector with a negative coordinate, with text behind it. -/
example : (Vec.ofList [12, -3]).vals ≠ [] ∧ (∀ x ∈ (Vec.ofList [12, -3]).vals, i64Min < x ∧ x ≤ i64Max) ∧ printVec (Vec.ofList [12, -3]) = [40, 49, 50, 44, 32, 45, 51, 41] ∧
    readVec 8 0 ⟨[40, 49, 50, 44, 32, 45, 51, 41, 120], false⟩ = .ok (Vec.ofList [12, -3], ⟨[120], false⟩) := by decide

/-- A text with a parenthesis that is no vector. -/
example : (41 : Int) ∈ [40, 49, 120, 41] ∧ readVec 4 0 ⟨[40, 49, 120, 41], false⟩ = .ok (Vec.ofList [1], ⟨[120, 41], false⟩) ∧
    (IStream.char ⟨[32, 49], false⟩ 0).1 ≠ 40 := by decide

end Funge
