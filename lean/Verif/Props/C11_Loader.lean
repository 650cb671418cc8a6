import Verif.Lemmas.Loader
import Verif.Props.C08_Field
/-!
# C11, C12, C13: how a text file becomes fungespace
-/
namespace Funge
namespace Field
open Spec

theorem parse_get (f : Field) (start : Vec) (b : Bool) (bytes : List Int) (q : Vec) :
    (f.parse start b bytes).2.get q =
      (parseLoop start b bytes { v := start, max := start, last := 0, f := f }).f.get q := by
  unfold parse; simp only; split <;> rfl

theorem over_some (f : Field) (c old : Int) (hc : c ≠ 32) : over f (some c) old = stored f.charCells c := by
  unfold over stored cellOf toChar; simp [hc]

theorem over_keep (f : Field) (o : Option Int) (old : Int) (h : o = none ∨ o = some 32) : over f o old = old := by
  rcases h with rfl | rfl <;> simp [over]

/-- **C11.** Loading the text made of `lines` (any number, any lengths, any ordinary characters) at `start` into any
field: a non-blank `c`-th character of the `r`-th line ends up at `start + (c, r)`, and a cell keeps its old contents
if it lies outside the plane of `start`, outside the text, or under a blank of the text. -/
theorem C11_text_layout (f : Field) (hf : Reachable f) (start : Vec) (lines : List (List Int))
    (hne : lines ≠ []) (hl : ∀ l ∈ lines, ∀ c ∈ l, Plain c) (q : Vec) :
    ((∀ d, 2 ≤ d → q.get d = start.get d) →
      ∀ c, cell2 lines (q.get 0 - start.get 0) (q.get 1 - start.get 1) = some c → c ≠ 32 →
        (f.parse start false (planeText lines)).2.get q = stored f.charCells c) ∧
    ((∃ d, 2 ≤ d ∧ q.get d ≠ start.get d) ∨
      cell2 lines (q.get 0 - start.get 0) (q.get 1 - start.get 1) = none ∨
      cell2 lines (q.get 0 - start.get 0) (q.get 1 - start.get 1) = some 32 →
        (f.parse start false (planeText lines)).2.get q = f.get q) := by
  rw [parse_get]
  obtain ⟨s', e1, e2, e3, e4, e5, e7⟩ := parse_lines start lines hne [] hl
    { v := start, max := start, last := 0, f := f } hf.unique rfl (Or.inl ⟨by simp, by simp⟩)
  rw [List.append_nil] at e1
  rw [e1, parseLoop, e7 q]
  simp only
  constructor
  · intro h c hc hne
    rw [if_pos h, hc, over_some _ _ _ hne]
  · rintro (⟨d, hd, h⟩ | h)
    · rw [if_neg (fun h' => h (h' d hd))]; rfl
    · split
      · exact over_keep _ _ _ h
      · rfl

example : (∀ l ∈ [[97, 32, 98], [], [99]], ∀ c ∈ l, Plain c) ∧
    planeText [[97, 32, 98], [], [99]] = [97, 32, 98, 10, 10, 99] ∧
    ((Field.new 2 false).parse (Vec.ofList [5, 7]) false [97, 32, 98, 10, 10, 99]).2.get
      (Vec.ofList [5, 9]) = 99 := by unfold Plain; decide

/-- **C12.** Replacing every CRLF and every lone CR by LF changes neither the resulting field nor the reported size,
for every text, wherever it is loaded. -/
theorem C12_line_endings_bytes (f : Field) (start : Vec) (bytes : List Int) :
    f.parse start false bytes = f.parse start false (toLF bytes) := by
  have key : ∀ (bytes : List Int) (s : PState),
      parseLoop start false bytes s = parseLoop start false (toLF bytes) s := by
    intro bytes
    fun_induction toLF bytes with
    | case1 t ih => intro s; rw [parseLoop_nl, ← ih, parseLoop]; simp
    | case2 c t hne ih =>
      intro s
      have h1 : parseLoop start false (c :: t) s =
          if (c = 10 ∨ c = 13) then parseLoop start false t (parseNewline start s)
          else if c = 12 then parseLoop start false t (parseFF start s)
          else if c = 11 then parseLoop start false t (parseVT start s)
          else parseLoop start false t (parseChar c s) := by
        rw [parseLoop.eq_def]; split
        · simp_all
        · rename_i heq; injection heq with e1 e2
          exact (hne _ e1 e2).elim
        · rename_i heq; injection heq with e1 e2; subst e1; subst e2; simp
      rw [h1]
      by_cases h13 : c = 13
      · subst h13; simp [parseLoop_nl, ih]
      · rw [if_neg h13]
        have h2 : parseLoop start false (c :: toLF t) s =
          if (c = 10 ∨ c = 13) then parseLoop start false (toLF t) (parseNewline start s)
          else if c = 12 then parseLoop start false (toLF t) (parseFF start s)
          else if c = 11 then parseLoop start false (toLF t) (parseVT start s)
          else parseLoop start false (toLF t) (parseChar c s) := by
          rw [parseLoop.eq_def]; split
          · simp_all
          · rename_i heq; injection heq with e1 e2
            exact absurd e1 h13
          · rename_i heq; injection heq with e1 e2; subst e1; subst e2; simp
        rw [h2]; simp only [← ih]
    | case3 => intro s; rfl
  unfold parse; simp only [key bytes]

theorem toLF_line (l rest : List Int) (hl : ∀ c ∈ l, Plain c) : toLF (l ++ rest) = l ++ toLF rest := by
  induction l with
  | nil => rfl
  | cons c t ih =>
    have hc := hl c (by simp)
    show toLF (c :: (t ++ rest)) = _
    rw [toLF]
    · rw [if_neg hc.2.1, ih (fun c h => hl c (List.mem_cons_of_mem _ h))]; rfl
    · intro t h; exact absurd h hc.2.1

theorem toLF_cr (rest : List Int) (h : rest.head? ≠ some 10) : toLF (13 :: rest) = 10 :: toLF rest := by
  rw [toLF]
  · simp
  · intro t _ h'; subst h'; simp at h

theorem toLF_mixed (ls : List (List Int × Ending)) (last : List Int) (hu : Unambiguous ls)
    (hl : ∀ p ∈ ls, ∀ c ∈ p.1, Plain c) (hlast : ∀ c ∈ last, Plain c) :
    toLF (mixedText ls last) = lfText ls last := by
  induction ls with
  | nil => have := toLF_line last [] hlast; simpa [mixedText, lfText, toLF] using this
  | cons p t ih =>
    obtain ⟨l, e⟩ := p
    have hu' : Unambiguous t := by
      cases e
      · simpa [Unambiguous] using hu
      · cases t with
        | nil => trivial
        | cons a b =>
          obtain ⟨la, ea⟩ := a
          cases la with
          | cons => simpa [Unambiguous] using hu
          | nil => cases ea <;> simp_all [Unambiguous]
      · simpa [Unambiguous] using hu
    have ih := ih hu' (fun p hp => hl p (List.mem_cons_of_mem _ hp))
    have h1 := hl (l, e) (by simp)
    simp only [mixedText, lfText, List.append_assoc]
    rw [toLF_line l _ h1]
    congr 1
    cases e with
    | lf =>
      show toLF (10 :: mixedText t last) = 10 :: lfText t last
      rw [toLF, ih]
      · rfl
      · intro t h; simp at h
    | crlf => show toLF (13 :: 10 :: mixedText t last) = 10 :: lfText t last; rw [toLF, ih]
    | cr =>
      show toLF (13 :: mixedText t last) = 10 :: lfText t last
      rw [toLF_cr, ih]
      cases t with
      | nil =>
        cases last with
        | nil => simp [mixedText]
        | cons c _ => simp [mixedText]; exact (hlast c (by simp)).1
      | cons a b =>
        obtain ⟨la, ea⟩ := a
        cases la with
        | cons c t' =>
          simp [mixedText]; exact (hl (c :: t', ea) (by simp) c (by simp)).1
        | nil => cases ea <;> simp_all [Unambiguous, mixedText, Ending.bytes]

/-- **C12.** The same lines, each ended by LF, CR or CRLF as you like, load to the same field and report the same
size as with LF throughout. (The only mixtures excluded are those where a lone CR is followed by an empty line ended
by LF: those bytes *are* a CRLF.) -/
theorem C12_line_endings (f : Field) (start : Vec) (ls : List (List Int × Ending)) (last : List Int)
    (hl : ∀ p ∈ ls, ∀ c ∈ p.1, Plain c) (hlast : ∀ c ∈ last, Plain c) (hu : Unambiguous ls) :
    f.parse start false (mixedText ls last) = f.parse start false (lfText ls last) := by
  rw [C12_line_endings_bytes, toLF_mixed ls last hu hl hlast]

example : Unambiguous [([97], .crlf), ([], .cr), ([98, 99], .cr), ([], .crlf), ([100], .lf), ([], .lf)] := by
  simp [Unambiguous]

/-- A text in four dimensions: at least one volume, one plane per volume, one line per plane; ordinary characters; and
(because line breaks after a form feed or vertical tab are ignored) no plane but the first begins with an
empty line, unless it is blank altogether. -/
def WellFormed (vols : List (List (List (List Int)))) : Prop :=
  vols ≠ [] ∧
  (∀ v ∈ vols, v ≠ [] ∧ (∀ p ∈ v, p ≠ [] ∧ ∀ l ∈ p, ∀ c ∈ l, Plain c) ∧ ∀ p ∈ v.tail, Begins p) ∧
  (∀ v ∈ vols.tail, ∀ p, v.head? = some p → Begins p)

/-- **C13.** With automatic or at least three dimensions: in a text whose volumes are separated by VT, whose planes are
separated by FF and whose lines are separated by LF, the `x`-th character of line `y` of plane `z` of
volume `w` ends up at `start + (x, y, z, w)`, and every other cell (and every cell under a blank) keeps its contents. -/
theorem C13_planes_and_volumes (f : Field) (hf : Reachable f) (hd : f.dims = 0 ∨ 3 ≤ f.dims) (start : Vec)
    (vols : List (List (List (List Int)))) (hw : WellFormed vols) (q : Vec) :
    ((∀ d, 4 ≤ d → q.get d = start.get d) →
      ∀ c, cell4 vols (q.get 0 - start.get 0) (q.get 1 - start.get 1) (q.get 2 - start.get 2)
          (q.get 3 - start.get 3) = some c → c ≠ 32 →
        (f.parse start false (Spec.text vols)).2.get q = stored f.charCells c) ∧
    ((∃ d, 4 ≤ d ∧ q.get d ≠ start.get d) ∨
      cell4 vols (q.get 0 - start.get 0) (q.get 1 - start.get 1) (q.get 2 - start.get 2)
          (q.get 3 - start.get 3) = none ∨
      cell4 vols (q.get 0 - start.get 0) (q.get 1 - start.get 1) (q.get 2 - start.get 2)
          (q.get 3 - start.get 3) = some 32 →
        (f.parse start false (Spec.text vols)).2.get q = f.get q) := by
  rw [parse_get]
  obtain ⟨s', e1, e2, e3, e4, e7⟩ := parse_vols start vols hw.1 [] hw.2.1 hw.2.2
    { v := start, max := start, last := 0, f := f } hf.unique hd rfl rfl rfl (Or.inl ⟨by simp, by simp⟩)
  rw [List.append_nil] at e1
  rw [e1, parseLoop, e7 q]
  simp only
  constructor
  · intro h c hc hne
    rw [if_pos h, hc, over_some _ _ _ hne]
  · rintro (⟨d, hd, h⟩ | h)
    · rw [if_neg (fun h' => h (h' d hd))]; rfl
    · split
      · exact over_keep _ _ _ h
      · rfl

example : WellFormed [[[[97], [98]], [[]], [[99]]], [[[100], []]]] ∧
    Spec.text [[[[97], [98]], [[]], [[99]]], [[[100], []]]] = [97, 10, 98, 12, 12, 99, 11, 100, 10] := by
  simp [WellFormed, Begins, Plain, Spec.text, volText, planeText, joinWith]

theorem parseLoop_dropBreaks (start : Vec) (t : List Int) (ht : ∀ c ∈ t, c ≠ 13) : ∀ (s : PState), DimsOk s.f →
    ∀ after, (after = true ↔ s.last = 12 ∨ s.last = 11) → parseLoop start false t s = parseLoop start false (dropBreaks after t) s := by
  induction t with
  | nil => intro s _ after _; rfl
  | cons c t ih =>
    intro s hd after ha
    have ht' : ∀ c ∈ t, c ≠ 13 := fun c hc => ht c (List.mem_cons_of_mem _ hc)
    have hc := ht c List.mem_cons_self
    unfold dropBreaks
    split
    · rename_i h
      obtain ⟨rfl, rfl⟩ := h
      rw [parseLoop_nl]
      have : parseNewline start s = s := by
        unfold parseNewline
        rw [if_neg]
        rcases ha.1 rfl with e | e <;> rw [e] <;> simp
      rw [this]
      exact ih ht' s hd _ ha
    · rename_i h
      by_cases h10 : c = 10
      · subst h10
        have h0 : after = false := by
          cases after with
          | false => rfl
          | true => exact absurd ⟨rfl, rfl⟩ h
        rw [parseLoop_nl, parseLoop_nl]
        have e : (parseNewline start s).f = s.f ∧ (parseNewline start s).last = s.last := by unfold parseNewline; split <;> exact ⟨rfl, rfl⟩
        refine ih ht' _ (by rw [e.1]; exact hd) _ ?_
        rw [e.2, ← ha, h0]
        simp
      · by_cases h12 : c = 12
        · subst h12
          rw [parseLoop_ff, parseLoop_ff]
          refine ih ht' _ (by rw [(parseFF_ok start hd).1]; exact hd) _ ?_
          have : (parseFF start s).last = 12 := by have hd' : s.f.dims = 0 ∨ s.f.dims ≥ 3 := hd; unfold parseFF; rw [if_pos hd']
          simp [this]
        · by_cases h11 : c = 11
          · subst h11
            rw [parseLoop_vt, parseLoop_vt]
            refine ih ht' _ (by rw [(parseVT_ok start hd).1]; exact hd) _ ?_
            have : (parseVT start s).last = 11 := by have hd' : s.f.dims = 0 ∨ s.f.dims ≥ 3 := hd; unfold parseVT; rw [if_pos hd']
            simp [this]
          · have hp : ∀ c' ∈ [c], Plain c' := by intro x hx; rw [List.mem_singleton] at hx; subst hx; exact ⟨h10, hc, h12, h11⟩
            have e1 := parseLoop_line start [c] t hp s
            have e2 := parseLoop_line start [c] (dropBreaks (c == 11 || c == 12) t) hp s
            simp only [List.singleton_append, List.foldl_cons, List.foldl_nil] at e1 e2
            rw [e1, e2]
            refine ih ht' _ ?_ _ ?_
            · show DimsOk (if c ≠ 32 then s.f.put s.v c else s.f)
              split
              · unfold DimsOk; rw [put_dims]; exact hd
              · exact hd
            · show _ ↔ c = 12 ∨ c = 11
              simp [h11, h12]

theorem joinWith_char (sep : List Int) (c : Int) (l : List Int) (t : List (List Int)) : joinWith sep ((c :: l) :: t) = c :: joinWith sep (l :: t) := by
  cases t <;> simp [joinWith]

theorem joinWith_empty (sep l : List Int) (t : List (List Int)) : joinWith sep ([] :: l :: t) = sep ++ joinWith sep (l :: t) := by simp [joinWith]

/-- Every text without line breaks after FF or VT is made of volumes, planes and lines. -/
theorem exists_vols (t : List Int) (ht : ∀ c ∈ t, c ≠ 13) : ∀ after, ∃ l ls ps vs, WellFormed (((l :: ls) :: ps) :: vs) ∧
    Spec.text (((l :: ls) :: ps) :: vs) = dropBreaks after t ∧ (after = true → Begins (l :: ls)) := by
  induction t with
  | nil =>
    intro after
    refine ⟨[], [], [], [], ?_, rfl, fun _ => .inr rfl⟩
    simp [WellFormed]
  | cons c t ih =>
    intro after
    have ih := ih fun c hc => ht c (List.mem_cons_of_mem _ hc)
    have hc := ht c List.mem_cons_self
    unfold dropBreaks
    split
    · obtain ⟨l, ls, ps, vs, h1, h2, h3⟩ := ih true
      exact ⟨l, ls, ps, vs, h1, h2, fun _ => h3 rfl⟩
    · rename_i h
      obtain ⟨l, ls, ps, vs, ⟨-, h1, h1'⟩, h2, h3⟩ := ih (c == 11 || c == 12)
      have hv := h1 _ List.mem_cons_self
      have hv' : ∀ v ∈ vs, _ := fun v hv => h1 v (List.mem_cons_of_mem _ hv)
      have hps : ∀ p ∈ ps, _ := fun p hp => hv.2.1 p (List.mem_cons_of_mem _ hp)
      have hl := hv.2.1 _ List.mem_cons_self
      rw [← h2]
      by_cases h10 : c = 10
      · subst h10
        refine ⟨[], l :: ls, ps, vs, ⟨by simp, ?_, h1'⟩, ?_, fun ha => absurd ⟨rfl, ha⟩ h⟩
        · intro v hm
          rcases List.mem_cons.1 hm with rfl | hm
          · refine ⟨by simp, ?_, hv.2.2⟩
            intro p hp
            rcases List.mem_cons.1 hp with rfl | hp
            · refine ⟨by simp, fun x hx => ?_⟩
              rcases List.mem_cons.1 hx with rfl | hx
              · intro c hc; cases hc
              · exact hl.2 x hx
            · exact hps p hp
          · exact hv' v hm
        · simp only [Spec.text, volText, planeText, List.map_cons, joinWith_empty, List.singleton_append, joinWith_char]
      · by_cases h12 : c = 12
        · subst h12
          refine ⟨[], [], (l :: ls) :: ps, vs, ⟨by simp, ?_, h1'⟩, ?_, fun _ => .inr rfl⟩
          · intro v hm
            rcases List.mem_cons.1 hm with rfl | hm
            · refine ⟨by simp, ?_, ?_⟩
              · intro p hp
                rcases List.mem_cons.1 hp with rfl | hp
                · refine ⟨by simp, fun x hx => ?_⟩
                  rw [List.mem_singleton] at hx; subst hx
                  intro c hc; cases hc
                · exact hv.2.1 p hp
              · intro p hp
                rcases List.mem_cons.1 hp with rfl | hp
                · exact h3 rfl
                · exact hv.2.2 p hp
            · exact hv' v hm
          · have : planeText [[]] = [] := rfl
            simp only [Spec.text, volText, List.map_cons, this, joinWith_empty, List.singleton_append, joinWith_char]
        · by_cases h11 : c = 11
          · subst h11
            refine ⟨[], [], [], ((l :: ls) :: ps) :: vs, ⟨by simp, ?_, ?_⟩, ?_, fun _ => .inr rfl⟩
            · intro v hm
              rcases List.mem_cons.1 hm with rfl | hm
              · simp
              · exact h1 v hm
            · intro v hm p hp
              rcases List.mem_cons.1 hm with rfl | hm
              · cases hp; exact h3 rfl
              · exact h1' v hm p hp
            · have : volText [[[]]] = [] := rfl
              simp only [Spec.text, List.map_cons, this, joinWith_empty, List.singleton_append]
          · refine ⟨c :: l, ls, ps, vs, ⟨by simp, ?_, h1'⟩, ?_, fun _ => .inl (by simp)⟩
            · intro v hm
              rcases List.mem_cons.1 hm with rfl | hm
              · refine ⟨by simp, ?_, hv.2.2⟩
                intro p hp
                rcases List.mem_cons.1 hp with rfl | hp
                · refine ⟨by simp, fun x hx => ?_⟩
                  rcases List.mem_cons.1 hx with rfl | hx
                  · intro d hd
                    rcases List.mem_cons.1 hd with rfl | hd
                    · exact ⟨h10, hc, h12, h11⟩
                    · exact hl.2 l List.mem_cons_self d hd
                  · exact hl.2 x (List.mem_cons_of_mem _ hx)
                · exact hps p hp
              · exact hv' v hm
            · simp only [Spec.text, volText, planeText, List.map_cons, joinWith_char]

theorem toLF_noCR (t : List Int) : ∀ c ∈ toLF t, c ≠ 13 := by
  fun_induction toLF t with
  | case1 t ih =>
    intro c hc
    rcases List.mem_cons.1 hc with rfl | hc
    · decide
    · exact ih c hc
  | case2 c t hne ih =>
    intro d hd
    rcases List.mem_cons.1 hd with rfl | hd
    · split
      · decide
      · assumption
    · exact ih d hd
  | case3 => intro c hc; cases hc

/-- **C13.** `C13_planes_and_volumes` is about every text there is: any bytes, with the line breaks of any style made LF, and those directly after a form feed or a
vertical tab left out, are the text of volumes, planes and lines, and are loaded like that text. -/
theorem C13_every_text (f : Field) (hd : f.dims = 0 ∨ 3 ≤ f.dims) (start : Vec) (bytes : List Int) :
    ∃ vols, WellFormed vols ∧ Spec.text vols = dropBreaks false (toLF bytes) ∧ f.parse start false bytes = f.parse start false (Spec.text vols) := by
  obtain ⟨l, ls, ps, vs, h1, h2, -⟩ := exists_vols (toLF bytes) (toLF_noCR bytes) false
  refine ⟨_, h1, h2, ?_⟩
  rw [C12_line_endings_bytes, h2]
  unfold parse
  rw [parseLoop_dropBreaks start (toLF bytes) (toLF_noCR bytes) { v := start, max := start, last := 0, f := f } hd false (by simp)]

/-- Blank lines after a form feed: `a`, FF, CRLF, LF, `b`. -/
example : dropBreaks false (toLF [97, 12, 13, 10, 10, 98, 10, 10, 12, 12, 99]) = Spec.text [[[[97]], [[98], [], []], [[]], [[99]]]] := by decide

/-- **C13.** A line break directly after a form feed is ignored (the form feed may stand on its own line), with
automatic or at least three dimensions and whatever surrounds it. -/
theorem C13_newline_after_formfeed (f : Field) (hd : f.dims = 0 ∨ 3 ≤ f.dims) (start : Vec)
    (pre post : List Int) :
    f.parse start false (pre ++ 12 :: 10 :: post) = f.parse start false (pre ++ 12 :: post) := by
  have hdims : ∀ s : PState, (s.f.dims = 0 ∨ 3 ≤ s.f.dims) →
      ((parseLoop start false pre s).f.dims = 0 ∨ 3 ≤ (parseLoop start false pre s).f.dims) := by
    intro s h
    exact parseLoop_pred (fun f => f.dims = 0 ∨ 3 ≤ f.dims) (fun f p v _ h => by rw [put_dims]; exact h)
      start false pre s h
  have key : ∀ s : PState, (s.f.dims = 0 ∨ 3 ≤ s.f.dims) →
      parseLoop start false (pre ++ 12 :: 10 :: post) s = parseLoop start false (pre ++ 12 :: post) s := by
    intro s h
    rw [parseLoop_append _ _ _ _ (by simp), parseLoop_append _ _ _ _ (by simp), parseLoop_ff, parseLoop_ff,
      parseLoop_nl]
    congr 1
    have h' := hdims s h
    unfold parseNewline
    rw [if_neg]
    unfold parseFF
    rw [if_pos h']
    simp
  unfold parse; simp only [key { v := start, max := start, last := 0, f := f } hd]

/-- **C13.** With one or two dimensions form feeds are skipped: they neither occupy a cell nor move. -/
theorem C13_formfeed_ignored_2d (f : Field) (hd : f.dims = 1 ∨ f.dims = 2) (start : Vec) (pre post : List Int)
    (hpost : post.head? ≠ some 10) :
    f.parse start false (pre ++ 12 :: post) = f.parse start false (pre ++ post) := by
  have hdims : ∀ s : PState, (s.f.dims = 1 ∨ s.f.dims = 2) →
      ((parseLoop start false pre s).f.dims = 1 ∨ (parseLoop start false pre s).f.dims = 2) := by
    intro s h
    exact parseLoop_pred (fun f => f.dims = 1 ∨ f.dims = 2) (fun f p v _ h => by rw [put_dims]; exact h)
      start false pre s h
  have key : ∀ s : PState, (s.f.dims = 1 ∨ s.f.dims = 2) →
      parseLoop start false (pre ++ 12 :: post) s = parseLoop start false (pre ++ post) s := by
    intro s h
    rw [parseLoop_append _ _ _ _ (by simp), parseLoop_append _ _ _ _ hpost, parseLoop_ff]
    congr 1
    have h' := hdims s h
    unfold parseFF
    rw [if_neg]
    omega
  unfold parse; simp only [key { v := start, max := start, last := 0, f := f } hd]

/-- Invariant behind dimension detection: `maxs` is as long as the longest stored position. -/
def DimInv (f : Field) : Prop :=
  UniqueKeys f.cells ∧ (∀ kv ∈ f.cells, kv.1.Normal ∧ 0 < kv.1.size ∧ f.cellOf kv.2 ≠ 32) ∧
  (∀ kv ∈ f.cells, kv.1.size ≤ f.maxs.length) ∧
  (f.maxs.length = 0 ∨ ∃ kv ∈ f.cells, kv.1.size = f.maxs.length)

theorem dimInv_put (f : Field) (p : Vec) (v : Int) (hv : v ≠ 32) (hR : 0 ≤ v ∧ v ≤ 255)
    (hp : p.Normal ∧ 0 < p.size) (h : DimInv f) : DimInv (f.put p v) := by
  obtain ⟨h1, h2, h3, h4⟩ := h
  have hcell : ∀ x, (f.put p v).cellOf x = f.cellOf x := by
    intro x; unfold cellOf; rw [put_charCells]
  have hcells : (f.put p v).cells = store f.cells p (if f.charCells then toChar v else v) := by
    rw [put_cells, if_neg hv]
  refine ⟨unique_put h1 p v, ?_, ?_, ?_⟩
  · intro kv hkv
    rw [hcell]
    rw [hcells] at hkv
    have hkey : kv.1.Normal ∧ 0 < kv.1.size := by
      rcases mem_store hkv with he | ⟨kv', h5, h6⟩
      · rw [he]; exact hp
      · rw [← h6]; exact ⟨(h2 kv' h5).1, (h2 kv' h5).2.1⟩
    refine ⟨hkey.1, hkey.2, ?_⟩
    rcases store_vals hkv with he | he
    · rw [he]; unfold cellOf
      cases f.charCells
      · simpa using hv
      · simp only [if_true, toChar_idem]
        exact toChar_byte_ne hv hR
    · exact (h2 kv he).2.2
  · intro kv hkv
    rw [hcells] at hkv
    rw [length_maxs_put]
    rcases mem_store hkv with he | ⟨kv', h5, h6⟩
    · rw [he]; omega
    · have := h3 kv' h5; rw [h6] at this; omega
  · right
    rw [hcells, length_maxs_put]
    by_cases hle : p.size ≤ f.maxs.length
    · rcases h4 with h4 | ⟨kv, h5, h6⟩
      · omega
      · obtain ⟨kv', h7, h8⟩ := store_keeps (p := p) (v := if f.charCells then toChar v else v) h5
        exact ⟨kv', h7, by rw [h8, h6]; omega⟩
    · obtain ⟨kv', h7, h8⟩ := store_has f.cells p (if f.charCells then toChar v else v)
      refine ⟨kv', h7, ?_⟩
      have hkey : kv'.1.Normal ∧ 0 < kv'.1.size := by
        rcases mem_store h7 with he | ⟨kv'', h5, h6⟩
        · rw [he]; exact hp
        · rw [← h6]; exact ⟨(h2 kv'' h5).1, (h2 kv'' h5).2.1⟩
      have : kv'.1 = p := Vec.Normal.ext hkey.1 hp.1 hkey.2 hp.2 ((Vec.eqv_iff _ _).mp h8)
      rw [this]; omega

theorem load_dims (c : Bool) (bytes : List Int) (hb : ∀ b ∈ bytes, 0 ≤ b ∧ b ≤ 255) :
    DimInv (load 0 c bytes) ∧ (load 0 c bytes).dims = (load 0 c bytes).maxs.length := by
  have h := parse_pred' DimInv (fun v => v.Normal ∧ 0 < v.size) (fun b => 0 ≤ b ∧ b ≤ 255)
    (fun f p v hv hR hp h => dimInv_put f p v hv hR hp h) (fun _ _ h => h)
    (fun v d x _ => ⟨Vec.normal_set v d x, Vec.size_set_pos v d x⟩)
    { dims := 0, charCells := c } (Vec.ofList [0]) false bytes hb ⟨Vec.normal_ofList _, by decide⟩
    ⟨List.Pairwise.nil, by simp, by simp, Or.inl rfl⟩
  unfold load; simp only [if_true, and_true]
  exact h

/-- **C13.** Dimension detection on a freshly loaded text: no non-blank cell has a non-zero coordinate at or beyond the
detected number of dimensions, and no smaller positive number of dimensions would do; it is 0 exactly when
everything is blank. -/
theorem C13_dimensions_minimal (c : Bool) (bytes : List Int) (hb : ∀ b ∈ bytes, 0 ≤ b ∧ b ≤ 255) :
    (∀ q, (load 0 c bytes).get q ≠ 32 → ∀ i, (load 0 c bytes).dims ≤ i → q.get i = 0) ∧
    (∀ d, 0 < d → d < (load 0 c bytes).dims →
      ∃ q, (load 0 c bytes).get q ≠ 32 ∧ ∃ i, d ≤ i ∧ q.get i ≠ 0) ∧
    ((load 0 c bytes).dims = 0 ↔ ∀ q, (load 0 c bytes).get q = 32) := by
  obtain ⟨⟨h1, h2, h3, h4⟩, hd⟩ := load_dims c bytes hb
  rw [hd]
  generalize load 0 c bytes = f at *
  have hnb : ∀ kv ∈ f.cells, f.get kv.1 ≠ 32 := by
    intro kv hkv
    unfold get; rw [find_mem h1 hkv]
    exact (h2 kv hkv).2.2
  refine ⟨?_, ?_, ?_, ?_⟩
  · intro q hq i hi
    obtain ⟨kv, hkv, hs⟩ := stored_of_nonblank hq
    rw [← hs i]
    exact Vec.get_of_size_le _ (Nat.le_trans (h3 kv hkv) hi)
  · intro d hd0 hd
    rcases h4 with h4 | ⟨kv, hkv, hsz⟩
    · omega
    · refine ⟨kv.1, hnb kv hkv, kv.1.size - 1, by omega, ?_⟩
      exact (h2 kv hkv).1.get_last (by omega)
  · intro h0 q
    by_cases hq : f.get q = 32
    · exact hq
    · obtain ⟨kv, hkv, _⟩ := stored_of_nonblank hq
      have := h3 kv hkv; have := (h2 kv hkv).2.1; omega
  · intro hq
    rcases h4 with h4 | ⟨kv, hkv, hsz⟩
    · exact h4
    · exact absurd (hq kv.1) (hnb kv hkv)

example : (load 0 false [97, 10, 12, 32, 98]).dims = 3 ∧ (load 0 false [32, 10, 32, 10]).dims = 0 ∧
    (load 0 false [97, 10, 32, 10]).dims = 1 := by decide

end Field
end Funge
