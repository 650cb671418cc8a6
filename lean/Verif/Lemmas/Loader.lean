import Verif.Lemmas.Field
import Verif.Spec.Layout
/-! Helper lemmas about the text loader. -/
namespace Funge
namespace Field
open Spec
open scoped Classical

theorem at_nil {α : Type} (i : Int) : at' ([] : List α) i = none := by unfold at'; split <;> simp

theorem at_cons {α : Type} (a : α) (l : List α) (i : Int) :
    at' (a :: l) i = if i = 0 then some a else at' l (i - 1) := by
  unfold at'
  by_cases h0 : i = 0
  · subst h0; simp
  · by_cases h1 : 0 ≤ i
    · obtain ⟨n, rfl⟩ := Int.eq_ofNat_of_zero_le h1
      cases n with
      | zero => simp at h0
      | succ n =>
        have : ((n + 1 : Nat) : Int) - 1 = (n : Int) := by omega
        rw [if_pos h1, if_neg h0, this, if_pos (by omega)]
        simp
    · rw [if_neg h1, if_neg h0, if_neg (by omega)]

/-- Keep `o` only if the condition holds. -/
def guardO (p : Prop) [Decidable p] (o : Option Int) : Option Int := if p then o else none

/-- Cell value of a byte in the field. -/
def byteVal (f : Field) (o : Option Int) : Option Int := o.map (fun c => if c = 32 then 32 else f.cellOf c)

theorem v_parseChar (i : Int) (s : PState) (d : Nat) :
    (parseChar i s).v.get d = if d = 0 then s.v.get 0 + 1 else s.v.get d := by
  unfold parseChar increment; simp only; rw [Vec.get_set]

theorem last_parseChar (i : Int) (s : PState) : (parseChar i s).last = i := rfl

theorem charCells_parseChar (i : Int) (s : PState) : (parseChar i s).f.charCells = s.f.charCells := by
  unfold parseChar; simp only; split
  · rw [put_charCells]
  · rfl

theorem dims_parseChar (i : Int) (s : PState) : (parseChar i s).f.dims = s.f.dims := by
  unfold parseChar; simp only; split
  · rw [put_dims]
  · rfl

theorem unique_parseChar' {i : Int} {s : PState} (h : UniqueKeys s.f.cells) :
    UniqueKeys (parseChar i s).f.cells := by
  unfold parseChar; simp only; split
  · exact unique_put h _ _
  · exact h

/-- What a loaded character leaves in the cell. -/
def over (f : Field) (o : Option Int) (old : Int) : Int :=
  match o with
  | none => old
  | some c => if c = 32 then old else f.cellOf c

theorem get_parseChar {s : PState} (hu : UniqueKeys s.f.cells) (i : Int) (q : Vec) :
    (parseChar i s).f.get q = over s.f (if s.v.eqv q then some i else none) (s.f.get q) := by
  unfold parseChar over; simp only
  by_cases hi : i = 32
  · subst hi; cases s.v.eqv q <;> simp
  · simp only [ne_eq, hi, not_false_eq_true, if_true]
    rw [get_put hu]
    split <;> simp [hi]

/-- Reading a plain line. -/
theorem parseLoop_line (start : Vec) (line rest : List Int) (hl : ∀ c ∈ line, Plain c) (s : PState) :
    parseLoop start false (line ++ rest) s = parseLoop start false rest (line.foldl (fun s c => parseChar c s) s) := by
  induction line generalizing s with
  | nil => rfl
  | cons c t ih =>
    have hc := hl c (by simp)
    obtain ⟨h1, h2, h3, h4⟩ := hc
    rw [List.foldl_cons, ← ih (fun c h => hl c (List.mem_cons_of_mem _ h))]
    show parseLoop start false (c :: (t ++ rest)) s = _
    rw [parseLoop.eq_def]
    split
    · simp_all
    · simp_all
    · rename_i heq; injection heq with e1 e2; subst e1; subst e2
      simp [h1, h2, h3, h4]

theorem foldl_line (line : List Int) (s : PState) (hu : UniqueKeys s.f.cells) :
    let s' := line.foldl (fun s c => parseChar c s) s
    UniqueKeys s'.f.cells ∧ s'.f.charCells = s.f.charCells ∧ s'.f.dims = s.f.dims ∧
    (∀ d, d ≠ 0 → s'.v.get d = s.v.get d) ∧
    (s'.last = s.last ∧ line = [] ∨ ∃ c ∈ line, s'.last = c) ∧
    (∀ q, s'.f.get q = over s.f (if (∀ d, d ≠ 0 → q.get d = s.v.get d) then at' line (q.get 0 - s.v.get 0) else none)
      (s.f.get q)) := by
  induction line generalizing s with
  | nil =>
    refine ⟨hu, rfl, rfl, fun _ _ => rfl, Or.inl ⟨rfl, rfl⟩, ?_⟩
    intro q; simp only [List.foldl_nil, at_nil]; split <;> rfl
  | cons c t ih =>
    obtain ⟨h1, h2, h3, h4, h5, h6⟩ := ih (parseChar c s) (unique_parseChar' hu)
    simp only [List.foldl_cons]
    refine ⟨h1, h2.trans (charCells_parseChar c s), h3.trans (dims_parseChar c s), ?_, ?_, ?_⟩
    · intro d hd; rw [h4 d hd, v_parseChar, if_neg hd]
    · right
      rcases h5 with ⟨h5, _⟩ | ⟨x, hx, h5⟩
      · exact ⟨c, by simp, by rw [h5]; rfl⟩
      · exact ⟨x, List.mem_cons_of_mem _ hx, h5⟩
    · intro q
      rw [h6 q, get_parseChar hu]
      have hcell : ∀ x, (parseChar c s).f.cellOf x = s.f.cellOf x := by
        intro x; unfold cellOf; rw [charCells_parseChar]
      have hcond : (∀ d, d ≠ 0 → q.get d = (parseChar c s).v.get d) ↔ (∀ d, d ≠ 0 → q.get d = s.v.get d) := by
        constructor <;> intro h d hd <;> have := h d hd
        · rw [v_parseChar, if_neg hd] at this; exact this
        · rw [v_parseChar, if_neg hd]; exact this
      have hx : (parseChar c s).v.get 0 = s.v.get 0 + 1 := by rw [v_parseChar, if_pos rfl]
      rw [hx, at_cons]
      by_cases hq : ∀ d, d ≠ 0 → q.get d = s.v.get d
      · rw [if_pos (hcond.mpr hq), if_pos hq]
        by_cases h0 : q.get 0 - s.v.get 0 = 0
        · rw [if_pos h0]
          have : at' t (q.get 0 - (s.v.get 0 + 1)) = none := by
            unfold at'; rw [if_neg (by omega)]
          rw [this]
          have hv : s.v.eqv q = true := by
            rw [Vec.eqv_iff]; intro d
            by_cases hd : d = 0
            · subst hd; omega
            · exact (hq d hd).symm
          rw [hv]; rfl
        · rw [if_neg h0]
          have hv : s.v.eqv q = false := by
            rcases he : s.v.eqv q with _ | _
            · rfl
            · rw [Vec.eqv_iff] at he; have := he 0; omega
          rw [hv]
          have : q.get 0 - (s.v.get 0 + 1) = q.get 0 - s.v.get 0 - 1 := by omega
          rw [this]
          unfold over; simp only [Bool.false_eq_true, if_false]
          split <;> simp [hcell]
      · rw [if_neg (fun h => hq (hcond.mp h)), if_neg hq]
        have hv : s.v.eqv q = false := by
          rcases he : s.v.eqv q with _ | _
          · rfl
          · rw [Vec.eqv_iff] at he; exact absurd (fun d _ => (he d).symm) hq
        rw [hv]; rfl

/-- `last` is neither FF nor VT. -/
def LastOk (s : PState) : Prop := s.last ≠ 12 ∧ s.last ≠ 11

theorem parseLoop_nl (start : Vec) (rest : List Int) (s : PState) :
    parseLoop start false (10 :: rest) s = parseLoop start false rest (parseNewline start s) := by
  rw [parseLoop.eq_def]; simp

theorem parseLoop_ff (start : Vec) (rest : List Int) (s : PState) :
    parseLoop start false (12 :: rest) s = parseLoop start false rest (parseFF start s) := by
  rw [parseLoop.eq_def]; simp

theorem parseLoop_vt (start : Vec) (rest : List Int) (s : PState) :
    parseLoop start false (11 :: rest) s = parseLoop start false rest (parseVT start s) := by
  rw [parseLoop.eq_def]; simp

theorem parseNewline_ok (start : Vec) {s : PState} (h : LastOk s) :
    (parseNewline start s).f = s.f ∧ (parseNewline start s).last = s.last ∧
    (parseNewline start s).v.get 0 = start.get 0 ∧ (parseNewline start s).v.get 1 = s.v.get 1 + 1 ∧
    ∀ d, 2 ≤ d → (parseNewline start s).v.get d = s.v.get d := by
  obtain ⟨h1, h2⟩ := h
  unfold parseNewline
  simp only [ne_eq, h1, not_false_eq_true, h2, and_self, if_true, increment, reset, true_and]
  refine ⟨?_, ?_, ?_⟩
  · rw [Vec.get_set, if_pos rfl]
  · rw [Vec.get_set, if_neg (by omega), Vec.get_set, if_pos rfl]
  · intro d hd; rw [Vec.get_set, if_neg (by omega), Vec.get_set, if_neg (by omega)]

theorem over_over {f g : Field} (hc : f.charCells = g.charCells) (a b : Option Int) (old : Int)
    (hdisj : a = none ∨ b = none) :
    over f a (over g b old) = over g (if a = none then b else a) old := by
  rcases hdisj with h | h
  · subst h; simp [over]
  · subst h
    cases a with
    | none => simp [over]
    | some c => simp [over, cellOf, hc]

theorem cell2_cons (l : List Int) (t : List (List Int)) (x y : Int) :
    cell2 (l :: t) x y = if y = 0 then at' l x else cell2 t x (y - 1) := by
  unfold cell2; rw [at_cons]; split <;> simp

theorem cell2_nil (x y : Int) : cell2 [] x y = none := by unfold cell2; rw [at_nil]; rfl

theorem cell2_neg (t : List (List Int)) (x : Int) {y : Int} (h : y < 0) : cell2 t x y = none := by
  unfold cell2 at'; rw [if_neg (by omega)]; rfl

/-- Reading a block of lines, from column `start x`. -/
theorem parse_lines (start : Vec) (lines : List (List Int)) (hne : lines ≠ []) (rest : List Int)
    (hl : ∀ l ∈ lines, ∀ c ∈ l, Plain c)
    (s : PState) (hu : UniqueKeys s.f.cells) (hx : s.v.get 0 = start.get 0)
    (hlast : LastOk s ∨ Begins lines) :
    ∃ s', parseLoop start false (planeText lines ++ rest) s = parseLoop start false rest s' ∧
      UniqueKeys s'.f.cells ∧ s'.f.charCells = s.f.charCells ∧ s'.f.dims = s.f.dims ∧
      (∀ d, 2 ≤ d → s'.v.get d = s.v.get d) ∧
      (∀ q, s'.f.get q = over s.f (if (∀ d, 2 ≤ d → q.get d = s.v.get d) then
        cell2 lines (q.get 0 - start.get 0) (q.get 1 - s.v.get 1) else none) (s.f.get q)) := by
  induction lines generalizing s with
  | nil => exact absurd rfl hne
  | cons l t ih =>
    obtain ⟨h1, h2, h3, h4, h5, h6⟩ := foldl_line l s hu
    have hl1 := hl l (by simp)
    have hcondeq : ∀ q : Vec, (∀ d, d ≠ 0 → q.get d = s.v.get d) ↔
        ((∀ d, 2 ≤ d → q.get d = s.v.get d) ∧ q.get 1 = s.v.get 1) := by
      intro q; constructor
      · intro h; exact ⟨fun d hd => h d (by omega), h 1 (by omega)⟩
      · rintro ⟨h, h'⟩ d hd
        by_cases h1 : d = 1
        · subst h1; exact h'
        · exact h d (by omega)
    by_cases ht : t = []
    · subst ht
      refine ⟨_, parseLoop_line start l rest hl1 s, h1, h2, h3, fun d hd => h4 d (by omega), ?_⟩
      intro q
      rw [h6 q]
      congr 1
      by_cases hq : ∀ d, 2 ≤ d → q.get d = s.v.get d
      · rw [if_pos hq, cell2_cons]
        by_cases hy : q.get 1 = s.v.get 1
        · rw [if_pos ((hcondeq q).mpr ⟨hq, hy⟩), if_pos (by omega), hx]
        · rw [if_neg (fun h => hy ((hcondeq q).mp h).2), if_neg (by omega), cell2_nil]
      · rw [if_neg (fun h => hq ((hcondeq q).mp h).1), if_neg hq]
    · have hlast1 : LastOk (l.foldl (fun s c => parseChar c s) s) := by
        rcases h5 with ⟨h5, h5'⟩ | ⟨c, hc, h5⟩
        · rcases hlast with hlast | hlast | hlast
          · unfold LastOk; rw [h5]; exact hlast
          · simp [h5'] at hlast
          · exact absurd (List.cons.inj hlast).2 ht
        · have := hl1 c hc
          unfold LastOk; rw [h5]; exact ⟨this.2.2.1, this.2.2.2⟩
      obtain ⟨n1, n2, n3, n4, n5⟩ := parseNewline_ok start hlast1
      have hu2 : UniqueKeys (parseNewline start (l.foldl (fun s c => parseChar c s) s)).f.cells := by
        rw [n1]; exact h1
      have hlast2 : LastOk (parseNewline start (l.foldl (fun s c => parseChar c s) s)) := by
        unfold LastOk; rw [n2]; exact hlast1
      obtain ⟨s', e1, e2, e3, e4, e5, e7⟩ := ih ht (fun l hl' => hl l (List.mem_cons_of_mem _ hl'))
        (parseNewline start (l.foldl (fun s c => parseChar c s) s)) hu2 n3 (Or.inl hlast2)
      refine ⟨s', ?_, e2, ?_, ?_, ?_, ?_⟩
      · have : planeText (l :: t) ++ rest = l ++ (10 :: (planeText t ++ rest)) := by
          unfold planeText
          cases t with
          | nil => exact absurd rfl ht
          | cons a b => simp [joinWith]
        rw [this, parseLoop_line start l _ hl1, parseLoop_nl, e1]
      · rw [e3, n1, h2]
      · rw [e4, n1, h3]
      · intro d hd; rw [e5 d hd, n5 d hd, h4 d (by omega)]
      · intro q
        rw [e7 q, n1, h6 q, n4, h4 1 (by omega)]
        have hc2 : (∀ d, 2 ≤ d → q.get d = (parseNewline start (l.foldl (fun s c => parseChar c s) s)).v.get d) ↔
            (∀ d, 2 ≤ d → q.get d = s.v.get d) := by
          constructor <;> intro h d hd <;> have := h d hd
          · rw [n5 d hd, h4 d (by omega)] at this; exact this
          · rw [n5 d hd, h4 d (by omega)]; exact this
        by_cases hq : ∀ d, 2 ≤ d → q.get d = s.v.get d
        · rw [if_pos (hc2.mpr hq), if_pos hq, cell2_cons]
          by_cases hy : q.get 1 = s.v.get 1
          · rw [if_pos ((hcondeq q).mpr ⟨hq, hy⟩), if_pos (by omega), cell2_neg _ _ (by omega), hx]
            rfl
          · rw [if_neg (fun h => hy ((hcondeq q).mp h).2), if_neg (by omega)]
            have : q.get 1 - (s.v.get 1 + 1) = q.get 1 - s.v.get 1 - 1 := by omega
            rw [this, over_over h2 _ none _ (Or.inr rfl)]
            congr 1; split <;> simp [*]
        · rw [if_neg (fun h => hq (hc2.mp h)), if_neg hq, if_neg (fun h => hq ((hcondeq q).mp h).1)]
          rfl

end Field
end Funge

namespace Funge
namespace Field
open Spec
open scoped Classical

/-- Form feeds and vertical tabs are honoured. -/
def DimsOk (f : Field) : Prop := f.dims = 0 ∨ f.dims ≥ 3

theorem parseFF_ok (start : Vec) {s : PState} (h : DimsOk s.f) :
    (parseFF start s).f = s.f ∧ (parseFF start s).v.get 0 = start.get 0 ∧
    (parseFF start s).v.get 1 = start.get 1 ∧ (parseFF start s).v.get 2 = s.v.get 2 + 1 ∧
    ∀ d, 3 ≤ d → (parseFF start s).v.get d = s.v.get d := by
  unfold parseFF; unfold DimsOk at h
  simp only [h, if_true, increment, reset, true_and]
  refine ⟨?_, ?_, ?_, ?_⟩
  · simp [Vec.get_set]
  · simp [Vec.get_set]
  · simp [Vec.get_set]
  · intro d hd
    rw [Vec.get_set, if_neg (by omega), Vec.get_set, if_neg (by omega), Vec.get_set, if_neg (by omega)]

theorem parseVT_ok (start : Vec) {s : PState} (h : DimsOk s.f) :
    (parseVT start s).f = s.f ∧ (parseVT start s).v.get 0 = start.get 0 ∧
    (parseVT start s).v.get 1 = start.get 1 ∧ (parseVT start s).v.get 2 = start.get 2 ∧
    (parseVT start s).v.get 3 = s.v.get 3 + 1 ∧
    ∀ d, 4 ≤ d → (parseVT start s).v.get d = s.v.get d := by
  unfold parseVT; unfold DimsOk at h
  simp only [h, if_true, increment, reset, true_and]
  refine ⟨?_, ?_, ?_, ?_, ?_⟩
  · simp [Vec.get_set]
  · simp [Vec.get_set]
  · simp [Vec.get_set]
  · simp [Vec.get_set]
  · intro d hd
    rw [Vec.get_set, if_neg (by omega), Vec.get_set, if_neg (by omega), Vec.get_set, if_neg (by omega),
      Vec.get_set, if_neg (by omega)]

theorem cell3_cons (l : List (List Int)) (t : List (List (List Int))) (x y z : Int) :
    cell3 (l :: t) x y z = if z = 0 then cell2 l x y else cell3 t x y (z - 1) := by
  unfold cell3; rw [at_cons]; split <;> simp

theorem cell3_nil (x y z : Int) : cell3 [] x y z = none := by unfold cell3; rw [at_nil]; rfl

theorem cell3_neg (t : List (List (List Int))) (x y : Int) {z : Int} (h : z < 0) : cell3 t x y z = none := by
  unfold cell3 at'; rw [if_neg (by omega)]; rfl

theorem cell4_cons (l : List (List (List Int))) (t : List (List (List (List Int)))) (x y z w : Int) :
    cell4 (l :: t) x y z w = if w = 0 then cell3 l x y z else cell4 t x y z (w - 1) := by
  unfold cell4; rw [at_cons]; split <;> simp

theorem cell4_nil (x y z w : Int) : cell4 [] x y z w = none := by unfold cell4; rw [at_nil]; rfl

theorem cell4_neg (t : List (List (List (List Int)))) (x y z : Int) {w : Int} (h : w < 0) :
    cell4 t x y z w = none := by
  unfold cell4 at'; rw [if_neg (by omega)]; rfl

theorem cond_split (q v : Vec) (n : Nat) : (∀ d, n ≤ d → q.get d = v.get d) ↔
    ((∀ d, n + 1 ≤ d → q.get d = v.get d) ∧ q.get n = v.get n) := by
  constructor
  · intro h; exact ⟨fun d hd => h d (by omega), h n (by omega)⟩
  · rintro ⟨h, h'⟩ d hd
    by_cases h1 : d = n
    · subst h1; exact h'
    · exact h d (by omega)

theorem parse_planes (start : Vec) (planes : List (List (List Int))) (hne : planes ≠ []) (rest : List Int)
    (hp : ∀ p ∈ planes, p ≠ [] ∧ ∀ l ∈ p, ∀ c ∈ l, Plain c)
    (htail : ∀ p ∈ planes.tail, Begins p)
    (s : PState) (hu : UniqueKeys s.f.cells) (hd : DimsOk s.f) (hx : s.v.get 0 = start.get 0)
    (hy : s.v.get 1 = start.get 1)
    (hlast : LastOk s ∨ ∀ p, planes.head? = some p → Begins p) :
    ∃ s', parseLoop start false (volText planes ++ rest) s = parseLoop start false rest s' ∧
      UniqueKeys s'.f.cells ∧ s'.f.charCells = s.f.charCells ∧ s'.f.dims = s.f.dims ∧
      (∀ d, 3 ≤ d → s'.v.get d = s.v.get d) ∧
      (∀ q, s'.f.get q = over s.f (if (∀ d, 3 ≤ d → q.get d = s.v.get d) then
        cell3 planes (q.get 0 - start.get 0) (q.get 1 - start.get 1) (q.get 2 - s.v.get 2) else none)
        (s.f.get q)) := by
  induction planes generalizing s with
  | nil => exact absurd rfl hne
  | cons p t ih =>
    have hp1 := hp p (by simp)
    by_cases ht : t = []
    · subst ht
      obtain ⟨s', e1, e2, e3, e4, e5, e7⟩ := parse_lines start p hp1.1 rest hp1.2 s hu hx (hlast.imp_right fun h => h p rfl)
      refine ⟨s', e1, e2, e3, e4, fun d hd => e5 d (by omega), ?_⟩
      intro q
      rw [e7 q, hy]; congr 1
      rw [cell3_cons]
      by_cases hq : ∀ d, 3 ≤ d → q.get d = s.v.get d
      · rw [if_pos hq]
        by_cases hz : q.get 2 = s.v.get 2
        · rw [if_pos ((cond_split q s.v 2).mpr ⟨hq, hz⟩), if_pos (by omega)]
        · rw [if_neg (fun h => hz ((cond_split q s.v 2).mp h).2), if_neg (by omega), cell3_nil]
      · rw [if_neg (fun h => hq ((cond_split q s.v 2).mp h).1), if_neg hq]
    · obtain ⟨s1, e1, e2, e3, e4, e5, e7⟩ :=
        parse_lines start p hp1.1 (12 :: (volText t ++ rest)) hp1.2 s hu hx (hlast.imp_right fun h => h p rfl)
      have hd1 : DimsOk s1.f := by unfold DimsOk; rw [e4]; exact hd
      obtain ⟨n1, n2, n3, n4, n5⟩ := parseFF_ok start hd1
      have hthead : ∀ p, t.head? = some p → Begins p := fun p hp => htail p (List.mem_of_mem_head? hp)
      have hdff : DimsOk (parseFF start s1).f := by unfold DimsOk; rw [n1, e4]; exact hd
      obtain ⟨s', g1, g2, g3, g4, g5, g6⟩ := ih ht (fun l hl' => hp l (List.mem_cons_of_mem _ hl'))
        (fun p hp => htail p (List.mem_of_mem_tail hp))
        (parseFF start s1) (by rw [n1]; exact e2) hdff n2 n3 (Or.inr hthead)
      refine ⟨s', ?_, g2, ?_, ?_, ?_, ?_⟩
      · have : volText (p :: t) ++ rest = planeText p ++ (12 :: (volText t ++ rest)) := by
          unfold volText
          cases t with
          | nil => exact absurd rfl ht
          | cons a b => simp [joinWith]
        rw [this, e1, parseLoop_ff, g1]
      · rw [g3, n1, e3]
      · rw [g4, n1, e4]
      · intro d hd; rw [g5 d hd, n5 d hd, e5 d (by omega)]
      · intro q
        rw [g6 q, n1, e7 q, n4, e5 2 (by omega), hy]
        have hc2 : (∀ d, 3 ≤ d → q.get d = (parseFF start s1).v.get d) ↔
            (∀ d, 3 ≤ d → q.get d = s.v.get d) := by
          constructor <;> intro h d hd <;> have := h d hd
          · rw [n5 d hd, e5 d (by omega)] at this; exact this
          · rw [n5 d hd, e5 d (by omega)]; exact this
        by_cases hq : ∀ d, 3 ≤ d → q.get d = s.v.get d
        · rw [if_pos (hc2.mpr hq), if_pos hq, cell3_cons]
          by_cases hz : q.get 2 = s.v.get 2
          · rw [if_pos ((cond_split q s.v 2).mpr ⟨hq, hz⟩), if_pos (by omega), cell3_neg _ _ _ (by omega)]
            rfl
          · rw [if_neg (fun h => hz ((cond_split q s.v 2).mp h).2), if_neg (by omega)]
            have : q.get 2 - (s.v.get 2 + 1) = q.get 2 - s.v.get 2 - 1 := by omega
            rw [this, over_over e3 _ none _ (Or.inr rfl)]
            congr 1; split <;> simp [*]
        · rw [if_neg (fun h => hq (hc2.mp h)), if_neg hq, if_neg (fun h => hq ((cond_split q s.v 2).mp h).1)]
          rfl

theorem parse_vols (start : Vec) (vols : List (List (List (List Int)))) (hne : vols ≠ []) (rest : List Int)
    (hp : ∀ v ∈ vols, v ≠ [] ∧ (∀ p ∈ v, p ≠ [] ∧ ∀ l ∈ p, ∀ c ∈ l, Plain c) ∧ ∀ p ∈ v.tail, Begins p)
    (htail : ∀ v ∈ vols.tail, ∀ p, v.head? = some p → Begins p)
    (s : PState) (hu : UniqueKeys s.f.cells) (hd : DimsOk s.f) (hx : s.v.get 0 = start.get 0)
    (hy : s.v.get 1 = start.get 1) (hz : s.v.get 2 = start.get 2)
    (hlast : LastOk s ∨ ∀ v, vols.head? = some v → ∀ p, v.head? = some p → Begins p) :
    ∃ s', parseLoop start false (Spec.text vols ++ rest) s = parseLoop start false rest s' ∧
      UniqueKeys s'.f.cells ∧ s'.f.charCells = s.f.charCells ∧ s'.f.dims = s.f.dims ∧
      (∀ q, s'.f.get q = over s.f (if (∀ d, 4 ≤ d → q.get d = s.v.get d) then
        cell4 vols (q.get 0 - start.get 0) (q.get 1 - start.get 1) (q.get 2 - start.get 2)
          (q.get 3 - s.v.get 3) else none)
        (s.f.get q)) := by
  induction vols generalizing s with
  | nil => exact absurd rfl hne
  | cons p t ih =>
    obtain ⟨hp1, hp2, hp3⟩ := hp p (by simp)
    by_cases ht : t = []
    · subst ht
      obtain ⟨s', e1, e2, e3, e4, e5, e7⟩ := parse_planes start p hp1 rest hp2 hp3 s hu hd hx hy
        (hlast.imp_right fun h => h p rfl)
      refine ⟨s', e1, e2, e3, e4, ?_⟩
      intro q
      rw [e7 q, hz]; congr 1
      rw [cell4_cons]
      by_cases hq : ∀ d, 4 ≤ d → q.get d = s.v.get d
      · rw [if_pos hq]
        by_cases hz : q.get 3 = s.v.get 3
        · rw [if_pos ((cond_split q s.v 3).mpr ⟨hq, hz⟩), if_pos (by omega)]
        · rw [if_neg (fun h => hz ((cond_split q s.v 3).mp h).2), if_neg (by omega), cell4_nil]
      · rw [if_neg (fun h => hq ((cond_split q s.v 3).mp h).1), if_neg hq]
    · obtain ⟨s1, e1, e2, e3, e4, e5, e7⟩ :=
        parse_planes start p hp1 (11 :: (Spec.text t ++ rest)) hp2 hp3 s hu hd hx hy (hlast.imp_right fun h => h p rfl)
      have hd1 : DimsOk s1.f := by unfold DimsOk; rw [e4]; exact hd
      obtain ⟨n1, n2, n3, n3', n4, n5⟩ := parseVT_ok start hd1
      have hthead : ∀ v, t.head? = some v → ∀ p, v.head? = some p → Begins p := fun v hv => htail v (List.mem_of_mem_head? hv)
      have hdff : DimsOk (parseVT start s1).f := by unfold DimsOk; rw [n1, e4]; exact hd
      obtain ⟨s', g1, g2, g3, g4, g6⟩ := ih ht (fun l hl' => hp l (List.mem_cons_of_mem _ hl'))
        (fun p hp => htail p (List.mem_of_mem_tail hp))
        (parseVT start s1) (by rw [n1]; exact e2) hdff n2 n3 n3' (Or.inr hthead)
      refine ⟨s', ?_, g2, ?_, ?_, ?_⟩
      · have : Spec.text (p :: t) ++ rest = volText p ++ (11 :: (Spec.text t ++ rest)) := by
          unfold Spec.text
          cases t with
          | nil => exact absurd rfl ht
          | cons a b => simp [joinWith]
        rw [this, e1, parseLoop_vt, g1]
      · rw [g3, n1, e3]
      · rw [g4, n1, e4]
      · intro q
        rw [g6 q, n1, e7 q, n4, e5 3 (by omega), hz]
        have hc2 : (∀ d, 4 ≤ d → q.get d = (parseVT start s1).v.get d) ↔
            (∀ d, 4 ≤ d → q.get d = s.v.get d) := by
          constructor <;> intro h d hd <;> have := h d hd
          · rw [n5 d hd, e5 d (by omega)] at this; exact this
          · rw [n5 d hd, e5 d (by omega)]; exact this
        by_cases hq : ∀ d, 4 ≤ d → q.get d = s.v.get d
        · rw [if_pos (hc2.mpr hq), if_pos hq, cell4_cons]
          by_cases hz : q.get 3 = s.v.get 3
          · rw [if_pos ((cond_split q s.v 3).mpr ⟨hq, hz⟩), if_pos (by omega), cell4_neg _ _ _ _ (by omega)]
            rfl
          · rw [if_neg (fun h => hz ((cond_split q s.v 3).mp h).2), if_neg (by omega)]
            have : q.get 3 - (s.v.get 3 + 1) = q.get 3 - s.v.get 3 - 1 := by omega
            rw [this, over_over e3 _ none _ (Or.inr rfl)]
            congr 1; split <;> simp [*]
        · rw [if_neg (fun h => hq (hc2.mp h)), if_neg hq, if_neg (fun h => hq ((cond_split q s.v 3).mp h).1)]
          rfl

theorem parseLoop_append (start : Vec) (b : Bool) (pre l : List Int) (hl : l.head? ≠ some 10) (s : PState) :
    parseLoop start b (pre ++ l) s = parseLoop start b l (parseLoop start b pre s) := by
  fun_induction parseLoop start b pre s with
  | case1 => rfl
  | case2 t s hb ih =>
    rw [← ih]; show parseLoop start b (13 :: 10 :: (t ++ l)) _ = _
    rw [parseLoop]; simp [hb]
  | case3 t s hb ih =>
    rw [← ih]; show parseLoop start b (13 :: 10 :: (t ++ l)) _ = _
    rw [parseLoop]; simp [hb]
  | case4 i t s hne hc ih =>
    rw [← ih]; show parseLoop start b (i :: (t ++ l)) _ = _
    rw [parseLoop]
    · rw [if_pos hc]
    · intro t' h1 h2
      cases t with
      | nil => simp at h2; subst h2; simp at hl
      | cons a t => simp at h2; exact hne t h1 (by rw [h2.1])
  | case5 i t s hne hc hc2 ih =>
    rw [← ih]; show parseLoop start b (i :: (t ++ l)) _ = _
    rw [parseLoop]
    · rw [if_neg hc, if_pos hc2]
    · intro t' h1 h2; simp [h1] at hc2
  | case6 i t s hne hc hc2 hc3 ih =>
    rw [← ih]; show parseLoop start b (i :: (t ++ l)) _ = _
    rw [parseLoop]
    · rw [if_neg hc, if_neg hc2, if_pos hc3]
    · intro t' h1 h2; simp [h1] at hc3
  | case7 i t s hne hc hc2 hc3 ih =>
    rw [← ih]; show parseLoop start b (i :: (t ++ l)) _ = _
    rw [parseLoop]
    · rw [if_neg hc, if_neg hc2, if_neg hc3]
    · intro t' h1 h2
      cases t with
      | nil => simp at h2; subst h2; simp at hl
      | cons a t => simp at h2; exact hne t h1 (by rw [h2.1])

end Field
end Funge
