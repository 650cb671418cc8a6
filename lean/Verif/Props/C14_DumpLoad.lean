import Verif.Props.C11_Loader
import Verif.Props.C04_VectorOrder
/-!
# C14: `o` in text mode followed by `i` restores the area
-/
namespace Funge
namespace Field
open Spec

/-- A line without its trailing blanks. -/
def trim (l : List Int) : List Int := (l.reverse.dropWhile (· = 32)).reverse

theorem trim_snoc_blank (l : List Int) : trim (l ++ [32]) = trim l := by
  unfold trim; simp

theorem trim_snoc (l : List Int) {c : Int} (h : c ≠ 32) : trim (l ++ [c]) = l ++ [c] := by
  unfold trim; simp [h]

theorem trim_prefix (l : List Int) : ∃ n, l = trim l ++ List.replicate n 32 := by
  obtain ⟨r, rfl⟩ : ∃ r, l = r.reverse := ⟨l.reverse, by simp⟩
  induction r with
  | nil => exact ⟨0, rfl⟩
  | cons c r ih =>
    rw [List.reverse_cons]
    by_cases h : c = 32
    · subst h
      obtain ⟨n, hn⟩ := ih
      refine ⟨n + 1, ?_⟩
      rw [trim_snoc_blank, List.replicate_succ', ← List.append_assoc, ← hn]
    · exact ⟨0, by rw [trim_snoc _ h]; simp⟩

/-- The cell `(c, r)` of the area with corner `s`. -/
def areaCell (f : Field) (s : Vec) (c r : Nat) : Int := f.get (s.add (Vec.ofList [(c : Int), (r : Int)]))

/-- Line `r` of the area. -/
def areaRow (f : Field) (s : Vec) (w r : Nat) : List Int := (List.range w).map (areaCell f s · r)

theorem get_pair (a b : Int) (d : Nat) : (Vec.ofList [a, b]).get d = if d = 0 then a else if d = 1 then b else 0 := by
  rw [Vec.get_ofList]
  match d with
  | 0 => rfl
  | 1 => rfl
  | d + 2 => simp

/-- `v` is the point `s + (c, r)`. -/
def IsAt (s v : Vec) (c r : Nat) : Prop :=
  v.get 0 = s.get 0 + c ∧ v.get 1 = s.get 1 + r ∧ ∀ d, 2 ≤ d → v.get d = s.get d

theorem isAt_add (s : Vec) (c r : Nat) : IsAt s (s.add (Vec.ofList [(c : Int), (r : Int)])) c r := by
  refine ⟨?_, ?_, ?_⟩
  · rw [Vec.get_add, get_pair]; simp
  · rw [Vec.get_add, get_pair]; simp
  · intro d hd
    rw [Vec.get_add, get_pair, if_neg (by omega), if_neg (by omega)]; simp

theorem get_isAt (f : Field) {s v : Vec} {c r : Nat} (h : IsAt s v c r) : f.get v = areaCell f s c r := by
  unfold areaCell
  apply get_congr
  rw [Vec.eqv_iff]
  obtain ⟨h0, h1, h2⟩ := h
  obtain ⟨g0, g1, g2⟩ := isAt_add s c r
  intro i
  match i with
  | 0 => rw [h0, g0]
  | 1 => rw [h1, g1]
  | i + 2 => rw [h2 _ (by omega), g2 _ (by omega)]

theorem areaRow_snoc (f : Field) (s : Vec) (c r : Nat) :
    areaRow f s (c + 1) r = areaRow f s c r ++ [areaCell f s c r] := by
  unfold areaRow; rw [List.range_succ]; simp

theorem lt_end {s v e : Vec} {c r w h : Nat} (hv : IsAt s v c r) (he : IsAt s e w h) (hr : r < h) :
    v.lt e = true := by
  rw [Vec.C04_lt_spec]
  refine ⟨1, ?_, ?_⟩
  · rw [hv.2.1, he.2.1]; omega
  · intro j hj; rw [hv.2.2 j (by omega), he.2.2 j (by omega)]

theorem dump_row (f : Field) (s e : Vec) (w h r : Nat) (he : IsAt s e w h) (hr : r < h)
    (hA : ∀ c, c < w → toChar (areaCell f s c r) = areaCell f s c r) (k : Nat) :
    ∀ (c : Nat) (_ : c + (k + 1) = w) (v : Vec) (_ : IsAt s v c r) (B O O0 : List Int)
      (_ : O = O0 ++ trim (areaRow f s c r)) (_ : O ++ B = O0 ++ areaRow f s c r),
    ∃ v', IsAt s v' 0 (r + 1) ∧ ∀ n,
      dumpLoop f s e false (n + (k + 1)) { v := v, buffer := B, out := O } =
        if r + 1 = h then some (O0 ++ trim (areaRow f s w r) ++ [10])
        else dumpLoop f s e false n { v := v', buffer := [], out := O0 ++ trim (areaRow f s w r) ++ [10] } := by
  induction k with
  | zero =>
    intro c hc v hv B O O0 hO hOB
    refine ⟨((v.set 0 (v.get 0 + 1)).set 1 ((v.set 0 (v.get 0 + 1)).get 1 + 1)).set 0 (s.get 0), ?_, ?_⟩
    · refine ⟨?_, ?_, ?_⟩
      · rw [Vec.get_set, if_pos rfl]; simp
      · rw [Vec.get_set, if_neg (by omega), Vec.get_set, if_pos rfl, Vec.get_set, if_neg (by omega), hv.2.1]
        omega
      · intro d hd
        rw [Vec.get_set, if_neg (by omega), Vec.get_set, if_neg (by omega), Vec.get_set, if_neg (by omega),
          hv.2.2 d hd]
    · intro n
      have hcw : c + 1 = w := by omega
      rw [show n + (0 + 1) = n + 1 from rfl, dumpLoop]
      have hx : (v.set 0 (v.get 0 + 1)).get 0 ≥ e.get 0 := by
        rw [Vec.get_set, if_pos rfl, hv.1, he.1]; omega
      have hout : (if f.get v ≠ 32 ∨ (false = true) then O ++ (B ++ [toChar (f.get v)]) else O) =
          O0 ++ trim (areaRow f s w r) := by
        rw [get_isAt f hv, hA c (by omega), ← hcw, areaRow_snoc]
        split
        · rename_i hi
          rw [trim_snoc _ (by simpa using hi), ← List.append_assoc, hOB]; simp
        · rename_i hi
          have : areaCell f s c r = 32 := by simpa using hi
          rw [this, trim_snoc_blank, hO]
      simp only [lt_end hv he hr, if_true, hx]
      have hy : (((v.set 0 (v.get 0 + 1)).set 1 ((v.set 0 (v.get 0 + 1)).get 1 + 1)).set 0 (s.get 0)).get 1 =
          s.get 1 + (r + 1 : Nat) := by
        rw [Vec.get_set, if_neg (by omega), Vec.get_set, if_pos rfl, Vec.get_set, if_neg (by omega), hv.2.1]
        omega
      have hy' := he.2.1
      have hsplit : ∀ (p : Prop) [Decidable p] (a b a' b' : List Int),
          (if p then (a, b) else (a', b')).1 = if p then a else a' := by intros; split <;> rfl
      rw [hy, hy', hsplit]
      rw [hout]
      by_cases hrh : r + 1 = h
      · rw [if_pos (by omega), if_pos hrh]
      · rw [if_neg (by omega), if_neg hrh]
        simp
  | succ k ih =>
    intro c hc v hv B O O0 hO hOB
    have hcell := get_isAt f hv
    have hv' : IsAt s (v.set 0 (v.get 0 + 1)) (c + 1) r := by
      refine ⟨?_, ?_, ?_⟩
      · rw [Vec.get_set, if_pos rfl, hv.1]; omega
      · rw [Vec.get_set, if_neg (by omega), hv.2.1]
      · intro d hd; rw [Vec.get_set, if_neg (by omega), hv.2.2 d hd]
    by_cases hi : areaCell f s c r = 32
    · obtain ⟨v', h1, h2⟩ := ih (c + 1) (by omega) _ hv' (B ++ [32]) O O0
        (by rw [areaRow_snoc, hi, trim_snoc_blank, hO])
        (by rw [areaRow_snoc, hi, ← List.append_assoc, hOB]; simp)
      refine ⟨v', h1, ?_⟩
      intro n
      rw [← h2 n]
      rw [show n + (k + 1 + 1) = (n + (k + 1)) + 1 from rfl, dumpLoop]
      simp only [lt_end hv he hr, if_true, hcell, hi]
      have hx : ¬ (v.set 0 (v.get 0 + 1)).get 0 ≥ e.get 0 := by rw [hv'.1, he.1]; omega
      have hy : ¬ (v.set 0 (v.get 0 + 1)).get 1 ≥ e.get 1 := by rw [hv'.2.1, he.2.1]; omega
      simp only [hx, if_false, hy]
      rfl
    · obtain ⟨v', h1, h2⟩ := ih (c + 1) (by omega) _ hv' [] (O ++ (B ++ [areaCell f s c r])) O0
        (by rw [areaRow_snoc, trim_snoc _ hi, ← List.append_assoc, hOB]; simp)
        (by rw [areaRow_snoc, ← List.append_assoc, hOB]; simp)
      refine ⟨v', h1, ?_⟩
      intro n
      rw [← h2 n]
      rw [show n + (k + 1 + 1) = (n + (k + 1)) + 1 from rfl, dumpLoop]
      simp only [lt_end hv he hr, if_true, hcell]
      have hx : ¬ (v.set 0 (v.get 0 + 1)).get 0 ≥ e.get 0 := by rw [hv'.1, he.1]; omega
      have hy : ¬ (v.set 0 (v.get 0 + 1)).get 1 ≥ e.get 1 := by rw [hv'.2.1, he.2.1]; omega
      simp only [hx, if_false, hy, hA c (by omega)]
      simp [hi]

/-- The text of lines `r`, `r+1`, … (`k` of them). -/
def rowsText (f : Field) (s : Vec) (w r : Nat) : Nat → List Int
  | 0 => []
  | k + 1 => trim (areaRow f s w r) ++ [10] ++ rowsText f s w (r + 1) k

theorem dump_rows (f : Field) (s e : Vec) (w h : Nat) (he : IsAt s e w h) (hw : 0 < w)
    (hA : ∀ c r, c < w → r < h → toChar (areaCell f s c r) = areaCell f s c r) (j : Nat) :
    ∀ (r : Nat) (_ : r + (j + 1) = h) (v : Vec) (_ : IsAt s v 0 r) (O : List Int) (n : Nat),
    dumpLoop f s e false (n + (j + 1) * w) { v := v, buffer := [], out := O } =
      some (O ++ rowsText f s w r (j + 1)) := by
  induction j with
  | zero =>
    intro r hr v hv O n
    obtain ⟨v', h1, h2⟩ := dump_row f s e w h r he (by omega) (fun c hc => hA c r hc (by omega)) (w - 1) 0 (by omega)
      v hv [] O O (by simp [areaRow, trim]) (by simp [areaRow])
    have := h2 n
    rw [show n + (w - 1 + 1) = n + (0 + 1) * w by rw [Nat.zero_add, Nat.one_mul]; omega] at this
    rw [this, if_pos (by omega)]
    simp [rowsText]
  | succ j ih =>
    intro r hr v hv O n
    obtain ⟨v', h1, h2⟩ := dump_row f s e w h r he (by omega) (fun c hc => hA c r hc (by omega)) (w - 1) 0 (by omega)
      v hv [] O O (by simp [areaRow, trim]) (by simp [areaRow])
    have := h2 (n + (j + 1) * w)
    rw [show n + (j + 1) * w + (w - 1 + 1) = n + (j + 1 + 1) * w by
      rw [Nat.add_mul (j + 1) 1 w, Nat.one_mul]; omega] at this
    rw [this, if_neg (by omega), ih (r + 1) (by omega) v' h1]
    rw [rowsText.eq_def f s w r (j + 1 + 1)]
    simp [List.append_assoc]

theorem planeText_rows (f : Field) (s : Vec) (w : Nat) (k : Nat) : ∀ r,
    planeText ((List.range' r k).map (fun r => trim (areaRow f s w r)) ++ [[]]) = rowsText f s w r k := by
  induction k with
  | zero => intro r; simp [rowsText, planeText, joinWith]
  | succ k ih =>
    intro r
    rw [List.range'_succ, rowsText, ← ih (r + 1)]
    unfold planeText
    cases k with
    | zero => simp [joinWith]
    | succ k => simp [List.range'_succ, joinWith]

theorem mem_trim {l : List Int} {c : Int} (h : c ∈ trim l) : c ∈ l := by
  obtain ⟨n, hn⟩ := trim_prefix l
  rw [hn]; simp [h]

theorem mem_areaRow {f : Field} {s : Vec} {w r : Nat} {x : Int} (h : x ∈ areaRow f s w r) :
    ∃ c, c < w ∧ x = areaCell f s c r := by
  unfold areaRow at h
  obtain ⟨c, h1, h2⟩ := List.mem_map.mp h
  exact ⟨c, List.mem_range.mp h1, h2.symm⟩

/-- Indexing a trimmed line: either the cell itself, or nothing and the cell is blank (or outside). -/
theorem trim_at (l : List Int) (x : Int) :
    at' (trim l) x = at' l x ∨ (at' (trim l) x = none ∧ at' l x = some 32) := by
  obtain ⟨n, hn⟩ := trim_prefix l
  unfold at'
  by_cases h0 : 0 ≤ x
  · simp only [h0, if_true]
    by_cases h1 : x.toNat < (trim l).length
    · left; conv => rhs; rw [hn]
      rw [List.getElem?_append_left h1]
    · have hnone : (trim l)[x.toNat]? = none := by simp; omega
      by_cases h2 : x.toNat < l.length
      · right; refine ⟨hnone, ?_⟩
        have hlen : l.length = (trim l).length + n := by
          conv => lhs; rw [hn]
          simp
        rw [hn, List.getElem?_append_right (by omega), List.getElem?_replicate, if_pos (by omega)]
      · left; rw [hnone]; symm; simp; omega
  · simp [h0]

/-- **C14.** Take any area `w × h` (`w, h ≥ 1`) at `s` of a field `f` whose cells are ordinary 7-bit characters. `o` in text
mode (`delta = (w, h)`, zero on further axes) finishes and writes a file; loading this file at `t` into
any field `g` reproduces every non-blank cell of the area at the same place relative to `t`, and leaves all other
cells of `g` as they were. -/
theorem C14_dump_then_load_partial (f g : Field) (hg : Reachable g) (s t delta : Vec) (w h : Nat) (hw : 0 < w) (hh : 0 < h)
    (hd0 : delta.get 0 = w) (hd1 : delta.get 1 = h) (hd2 : ∀ d, 2 ≤ d → delta.get d = 0)
    (hA : ∀ c r, c < w → r < h → 0 ≤ areaCell f s c r ∧ areaCell f s c r ≤ 127 ∧ Plain (areaCell f s c r)) :
    ∃ file, (∀ fuel, h * w ≤ fuel → f.dump fuel s delta false = some file) ∧
      (∀ c r, c < w → r < h → areaCell f s c r ≠ 32 →
        areaCell (g.parse t false (file.map (· % 256))).2 t c r = areaCell f s c r) ∧
      (∀ c r, c < w → r < h → areaCell f s c r = 32 →
        areaCell (g.parse t false (file.map (· % 256))).2 t c r = areaCell g t c r) ∧
      (∀ q, (∀ c r, c < w → r < h → ¬ IsAt t q c r) →
        (g.parse t false (file.map (· % 256))).2.get q = g.get q) := by
  have hbyte : ∀ c r, c < w → r < h → toChar (areaCell f s c r) = areaCell f s c r := by
    intro c r hc hr
    have := hA c r hc hr
    unfold toChar; rw [Int.bmod_eq_emod]; split <;> omega
  have he : IsAt s (s.add delta) w h := by
    refine ⟨?_, ?_, ?_⟩
    · rw [Vec.get_add, hd0]
    · rw [Vec.get_add, hd1]
    · intro d hd; rw [Vec.get_add, hd2 d hd]; simp
  have hs : IsAt s s 0 0 := ⟨by simp, by simp, fun _ _ => rfl⟩
  let lines := (List.range' 0 h).map (fun r => trim (areaRow f s w r)) ++ [[]]
  have hmem : ∀ l ∈ lines, ∀ x ∈ l, ∃ c r, c < w ∧ r < h ∧ x = areaCell f s c r := by
    intro l hl x hx
    rcases List.mem_append.mp hl with hl | hl
    · obtain ⟨r, h1, h2⟩ := List.mem_map.mp hl
      simp at h1
      subst h2
      obtain ⟨c, h3, h4⟩ := mem_areaRow (mem_trim hx)
      exact ⟨c, r, h3, by omega, h4⟩
    · simp at hl; subst hl; simp at hx
  have hplain : ∀ l ∈ lines, ∀ c ∈ l, Plain c := by
    intro l hl x hx
    obtain ⟨c, r, h1, h2, rfl⟩ := hmem l hl x hx
    exact (hA c r h1 h2).2.2
  have htext := planeText_rows f s w h 0
  have hrows : ∀ (k r : Nat), r + k ≤ h → ∀ x ∈ rowsText f s w r k, 0 ≤ x ∧ x ≤ 127 := by
    intro k
    induction k with
    | zero => intro r _ x hx; simp [rowsText] at hx
    | succ k ih =>
      intro r hr x hx
      simp only [rowsText, List.append_assoc, List.mem_append] at hx
      rcases hx with hx | hx | hx
      · obtain ⟨c, h3, h4⟩ := mem_areaRow (mem_trim hx)
        have := hA c r h3 (by omega); rw [h4]; exact ⟨this.1, this.2.1⟩
      · simp at hx; subst hx; omega
      · exact ih (r + 1) (by omega) x hx
  have hfile : (rowsText f s w 0 h).map (· % 256) = planeText lines := by
    rw [show planeText lines = rowsText f s w 0 h from htext]
    have := hrows h 0 (by omega)
    conv => rhs; rw [← List.map_id (rowsText f s w 0 h)]
    apply List.map_congr_left
    intro x hx
    have := this x hx
    show x % 256 = x
    omega
  refine ⟨rowsText f s w 0 h, ?_, ?_⟩
  · intro fuel hf
    unfold dump
    have := dump_rows f s (s.add delta) w h he hw hbyte (h - 1) 0 (by omega) s hs [] (fuel - h * w)
    rw [show h - 1 + 1 = h by omega, show fuel - h * w + h * w = fuel by omega] at this
    simpa using this
  · rw [hfile]
    have hC11 := C11_text_layout g hg t lines (by simp [lines]) hplain
    have hline : ∀ y : Int, at' lines y = none ∨ at' lines y = some [] ∨
        ∃ r : Nat, r < h ∧ y = r ∧ at' lines y = some (trim (areaRow f s w r)) := by
      intro y
      unfold at'
      by_cases h0 : 0 ≤ y
      · simp only [h0, if_true]
        by_cases h1 : y.toNat < h
        · right; right
          refine ⟨y.toNat, h1, by omega, ?_⟩
          simp only [lines]
          rw [List.getElem?_append_left (by simpa using h1)]
          simp [h1]
        · by_cases h2 : y.toNat = h
          · right; left
            simp only [lines]
            rw [List.getElem?_append_right (by simp; omega)]
            simp [h2]
          · left; simp [lines]; omega
      · simp [h0]
    have hcellrow : ∀ (r : Nat) (x : Int), at' (areaRow f s w r) x = none ∨
        ∃ c : Nat, c < w ∧ x = c ∧ at' (areaRow f s w r) x = some (areaCell f s c r) := by
      intro r x
      unfold at'
      by_cases h0 : 0 ≤ x
      · simp only [h0, if_true]
        by_cases h1 : x.toNat < w
        · right
          refine ⟨x.toNat, h1, by omega, ?_⟩
          unfold areaRow; simp [h1]
        · left; unfold areaRow; simp; omega
      · simp [h0]
    -- at the point (c, r) of the area
    have hpoint : ∀ c r : Nat, c < w → r < h →
        cell2 lines c r = some (areaCell f s c r) ∨ (cell2 lines c r = none ∧ areaCell f s c r = 32) := by
      intro c r hc hr
      have h1 : at' lines (r : Int) = some (trim (areaRow f s w r)) := by
        unfold at'; simp only [lines]
        rw [if_pos (by omega), List.getElem?_append_left (by simpa using hr)]
        simp [hr]
      have h2 : at' (areaRow f s w r) (c : Int) = some (areaCell f s c r) := by
        unfold at' areaRow; simp [hc]
      unfold cell2; rw [h1]
      show at' _ _ = _ ∨ (at' _ _ = _ ∧ _)
      rcases trim_at (areaRow f s w r) c with h3 | ⟨h3, h4⟩
      · left; rw [h3, h2]
      · right; refine ⟨h3, ?_⟩; rw [h2] at h4; simpa using h4
    refine ⟨?_, ?_, ?_⟩
    · intro c r hc hr hne
      obtain ⟨g0, g1, g2⟩ := isAt_add t c r
      have h1 := (hC11 (t.add (Vec.ofList [(c : Int), (r : Int)]))).1 g2 (areaCell f s c r)
        (by
          rw [g0, g1, show t.get 0 + (c : Int) - t.get 0 = c by omega,
            show t.get 1 + (r : Int) - t.get 1 = r by omega]
          rcases hpoint c r hc hr with h | h
          · exact h
          · exact absurd h.2 hne) hne
      show get _ _ = _
      rw [h1]
      have := hA c r hc hr
      unfold stored; split
      · rw [Int.bmod_eq_emod]; split <;> omega
      · rfl
    · intro c r hc hr hbl
      obtain ⟨g0, g1, g2⟩ := isAt_add t c r
      refine (hC11 (t.add (Vec.ofList [(c : Int), (r : Int)]))).2 (Or.inr ?_)
      rw [g0, g1, show t.get 0 + (c : Int) - t.get 0 = c by omega,
        show t.get 1 + (r : Int) - t.get 1 = r by omega]
      rcases hpoint c r hc hr with h | h
      · right; rw [h, hbl]
      · left; exact h.1
    · intro q hq
      refine (hC11 q).2 ?_
      by_cases hp : ∃ d, 2 ≤ d ∧ q.get d ≠ t.get d
      · exact Or.inl hp
      · right; left
        have hp' : ∀ d, 2 ≤ d → q.get d = t.get d := by
          intro d hd
          by_cases h : q.get d = t.get d
          · exact h
          · exact absurd ⟨d, hd, h⟩ hp
        unfold cell2
        rcases hline (q.get 1 - t.get 1) with h | h | ⟨r, hr, hy, h⟩
        · rw [h]; rfl
        · rw [h]; exact at_nil _
        · rw [h]
          show at' _ _ = none
          rcases hcellrow r (q.get 0 - t.get 0) with h1 | ⟨c, hc, hx, h1⟩
          · rcases trim_at (areaRow f s w r) (q.get 0 - t.get 0) with h2 | h2
            · rw [h2, h1]
            · exact h2.1
          · exact absurd ⟨by omega, by omega, hp'⟩ (hq c r hc hr)

/-- Non-trivial case: a 3×2 area with a blank in the middle of a line and a trailing blank. -/
def c14Example : Field := (Field.new 2 false).writes
  [(Vec.ofList [4, 5], 97), (Vec.ofList [6, 5], 98), (Vec.ofList [5, 6], 99)]

example : let f := c14Example
    (∀ c, c < 3 → ∀ r, r < 2 → 0 ≤ areaCell f (Vec.ofList [4, 5]) c r ∧
      areaCell f (Vec.ofList [4, 5]) c r ≤ 127 ∧
      (areaCell f (Vec.ofList [4, 5]) c r ≠ 10 ∧ areaCell f (Vec.ofList [4, 5]) c r ≠ 13 ∧
       areaCell f (Vec.ofList [4, 5]) c r ≠ 12 ∧ areaCell f (Vec.ofList [4, 5]) c r ≠ 11)) ∧
    f.dump 6 (Vec.ofList [4, 5]) (Vec.ofList [3, 2]) false = some [97, 32, 98, 10, 32, 99, 10] := by decide

/-- **C14 fails in one dimension**: there the popped size is `(w)`, and `dump` stops after the first cell, whatever `w`
is (here `w = 3` on the line `abc`: the file holds just `a`). -/
theorem C14_false_in_1d :
    let f := (Field.new 1 false).writes [(Vec.ofList [0], 97), (Vec.ofList [1], 98), (Vec.ofList [2], 99)]
    (∀ c : Nat, c < 3 → areaCell f (Vec.ofList [0]) c 0 = 97 + c) ∧
    ∀ fuel, 0 < fuel → f.dump fuel (Vec.ofList [0]) (Vec.ofList [3]) false = some [97] := by
  refine ⟨by decide, ?_⟩
  intro fuel hf
  obtain ⟨n, rfl⟩ : ∃ n, fuel = n + 1 := ⟨fuel - 1, by omega⟩
  rfl

end Field
end Funge
