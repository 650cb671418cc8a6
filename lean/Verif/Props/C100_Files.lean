import Verif.Props.C14_DumpLoad
import Verif.Props.C99_System
/-!
# C100: what `i` leaves on the stack are the arguments with which `o` writes the file back
-/
namespace Funge
open Exec Field Spec

/-- The bytes of a text file: every line with its line break. -/
def fileText (lines : List (List Int)) : List Int := lines.flatMap (· ++ [10])

/-- Lines that a text file can hold and give back: 7-bit characters other than line breaks and page breaks, and no blanks at the end. -/
def Tame (lines : List (List Int)) : Prop := ∀ l ∈ lines, (∀ c ∈ l, 0 ≤ c ∧ c ≤ 127 ∧ c ≠ 10 ∧ c ≠ 13 ∧ c ≠ 12 ∧ c ≠ 11) ∧ l.getLast? ≠ some 32

/-- `w` is the length of the longest line. -/
def Widest (lines : List (List Int)) (w : Nat) : Prop := (∀ l ∈ lines, l.length ≤ w) ∧ ∃ l ∈ lines, l.length = w

theorem fileText_plane (lines : List (List Int)) : fileText lines = planeText (lines ++ [[]]) := by
  induction lines with
  | nil => rfl
  | cons l t ih =>
    rw [fileText, List.flatMap_cons]
    show _ ++ fileText t = _
    rw [ih]
    cases t with
    | nil => simp [planeText, joinWith]
    | cons a b => simp [planeText, joinWith]

theorem max_chars (l : List Int) : ∀ s : PState, s.v.get 0 ≤ s.max.get 0 →
    (l.foldl (fun s c => parseChar c s) s).v.get 0 = s.v.get 0 + l.length ∧
    (l.foldl (fun s c => parseChar c s) s).max.get 0 = Max.max (s.max.get 0) (s.v.get 0 + l.length) ∧
    ∀ d, 0 < d → (l.foldl (fun s c => parseChar c s) s).v.get d = s.v.get d ∧ (l.foldl (fun s c => parseChar c s) s).max.get d = s.max.get d := by
  induction l with
  | nil => intro s h; refine ⟨by simp, ?_, fun d _ => ⟨rfl, rfl⟩⟩; show s.max.get 0 = _; simp; omega
  | cons c l ih =>
    intro s h
    have e : (parseChar c s).v.get 0 = s.v.get 0 + 1 := by simp [parseChar, increment]
    have m : (parseChar c s).max.get 0 = Max.max (s.max.get 0) (s.v.get 0 + 1) := by
      simp only [parseChar, increment, Vec.get_set, if_true]
      split
      · rw [Vec.get_set, if_pos rfl]; omega
      · omega
    obtain ⟨a, b, o⟩ := ih (parseChar c s) (by omega)
    refine ⟨?_, ?_, ?_⟩
    · rw [List.foldl_cons, a, e]; simp; omega
    · rw [List.foldl_cons, b, e, m]; simp; omega
    · intro d hd
      rw [List.foldl_cons, (o d hd).1, (o d hd).2]
      simp only [parseChar, increment]
      refine ⟨by rw [Vec.get_set, if_neg (by omega)], ?_⟩
      split
      · rw [Vec.get_set, if_neg (by omega)]
      · rfl

theorem max_newline (start : Vec) {s : PState} (h : LastOk s) (hm : s.v.get 0 ≤ s.max.get 0) (h1 : s.max.get 1 = s.v.get 1) :
    (parseNewline start s).max.get 0 = s.max.get 0 ∧ (parseNewline start s).max.get 1 = s.v.get 1 + 1 ∧
    ∀ d, 2 ≤ d → (parseNewline start s).max.get d = s.max.get d := by
  obtain ⟨a, b⟩ := h
  unfold parseNewline
  simp only [ne_eq, a, not_false_eq_true, b, and_self, if_true, increment, reset, Vec.get_set, if_true]
  rw [if_neg (by omega : ¬(0 : Nat) = 1), if_pos (by omega : s.v.get 1 + 1 > s.max.get 1)]
  rw [Vec.get_set, if_neg (by omega : ¬(0 : Nat) = 1), if_neg (by omega)]
  refine ⟨by rw [Vec.get_set, if_neg (by omega)], by rw [Vec.get_set, if_pos rfl], fun d hd => by rw [Vec.get_set, if_neg (by omega)]⟩

theorem max_lines (start : Vec) (lines : List (List Int)) : ∀ (s : PState), (∀ l ∈ lines, ∀ c ∈ l, Plain c) → s.v.get 0 = start.get 0 → start.get 0 ≤ s.max.get 0 →
    s.max.get 1 = s.v.get 1 → LastOk s →
    (parseLoop start false (fileText lines) s).max.get 0 = lines.foldl (fun m l => Max.max m (start.get 0 + l.length)) (s.max.get 0) ∧
    (parseLoop start false (fileText lines) s).max.get 1 = s.v.get 1 + lines.length ∧
    ∀ d, 2 ≤ d → (parseLoop start false (fileText lines) s).max.get d = s.max.get d := by
  induction lines with
  | nil => intro s _ hx hm h1 hl; refine ⟨?_, ?_, ?_⟩ <;> simp [fileText, parseLoop, h1]
  | cons l t ih =>
    intro s hp hx hm h1 hl
    have hp1 := hp l (by simp)
    have e : parseLoop start false (fileText (l :: t)) s = parseLoop start false (fileText t) (parseNewline start (l.foldl (fun s c => parseChar c s) s)) := by
      have : fileText (l :: t) = l ++ (10 :: fileText t) := by simp [fileText]
      rw [this, parseLoop_line start l _ hp1 s, parseLoop_nl]
    obtain ⟨c0, cm, cd⟩ := max_chars l s (by omega)
    have hlast : LastOk (l.foldl (fun s c => parseChar c s) s) := by
      rcases List.eq_nil_or_concat l with rfl | ⟨l', c, rfl⟩
      · exact hl
      · have := hp1 c (by simp)
        unfold LastOk
        rw [List.concat_eq_append, List.foldl_append]
        exact ⟨this.2.2.1, this.2.2.2⟩
    obtain ⟨n1, n2, n3, n4, n5⟩ := parseNewline_ok start hlast
    obtain ⟨m0, m1, m2⟩ := max_newline start hlast (by rw [c0, cm]; omega) (by rw [(cd 1 (by omega)).1, (cd 1 (by omega)).2, h1])
    obtain ⟨a, b, o⟩ := ih (parseNewline start (l.foldl (fun s c => parseChar c s) s)) (fun x hx => hp x (by simp [hx])) n3 (by rw [m0, cm]; omega) (by rw [m1, n4])
      (by unfold LastOk; rw [n2]; exact hlast)
    rw [e]
    refine ⟨?_, ?_, ?_⟩
    · rw [a, m0, cm, hx]; rfl
    · rw [b, n4, (cd 1 (by omega)).1]; simp; omega
    · intro d hd; rw [o d hd, m2 d hd, (cd d (by omega)).2]

theorem widest_fold {lines : List (List Int)} {w : Nat} (a : Int) : ∀ m : Int, a ≤ m → (∀ l ∈ lines, l.length ≤ w) → ((∃ l ∈ lines, l.length = w) ∨ m = a + w) → m ≤ a + w →
    lines.foldl (fun m l => Max.max m (a + (l.length : Int))) m = a + w := by
  induction lines with
  | nil => intro m _ _ h _; rcases h with ⟨l, hl, _⟩ | h; · simp at hl
           exact h
  | cons l t ih =>
    intro m hm ha hb hle
    rw [List.foldl_cons]
    have := ha l (by simp)
    refine ih _ (by omega) (fun x hx => ha x (by simp [hx])) ?_ (by omega)
    rcases hb with ⟨x, hx, e⟩ | hb
    · rcases List.mem_cons.mp hx with rfl | hx
      · right; omega
      · exact .inl ⟨x, hx, e⟩
    · right; omega

/-- The size with which `i` comes back from a text file. -/
theorem parse_size (f : Field) (start : Vec) {lines : List (List Int)} {w : Nat} (hp : Tame lines) (hw : Widest lines w) :
    (f.parse start false (fileText lines)).1.get 0 = w ∧ (f.parse start false (fileText lines)).1.get 1 = lines.length ∧
    ∀ d, 2 ≤ d → (f.parse start false (fileText lines)).1.get d = 0 := by
  have hp' : ∀ l ∈ lines, ∀ c ∈ l, Plain c := fun l hl c hc => ((hp l hl).1 c hc).2.2
  obtain ⟨a, b, o⟩ := max_lines start lines { v := start, max := start, last := 0, f := f } hp' rfl (Int.le_refl _) rfl ⟨by simp, by simp⟩
  have := widest_fold (lines := lines) (w := w) (start.get 0) (start.get 0) (Int.le_refl _) hw.1 (.inl hw.2) (by omega)
  refine ⟨?_, ?_, ?_⟩
  · show ((parseLoop start false (fileText lines) _).max.sub start).get 0 = _
    rw [Vec.get_sub, a, this]; omega
  · show ((parseLoop start false (fileText lines) _).max.sub start).get 1 = _
    rw [Vec.get_sub, b]; show start.get 1 + _ - _ = _; omega
  · intro d hd
    show ((parseLoop start false (fileText lines) _).max.sub start).get d = _
    rw [Vec.get_sub, o d hd]; show start.get d - _ = _; omega

theorem trim_full {l : List Int} (h : l.getLast? ≠ some 32) : trim l = l := by
  rcases List.eq_nil_or_concat l with rfl | ⟨l', c, rfl⟩
  · rfl
  · rw [List.concat_eq_append] at h ⊢
    exact trim_snoc _ (by simpa using h)

theorem trim_pad {l : List Int} (h : l.getLast? ≠ some 32) (k : Nat) : trim (l ++ List.replicate k 32) = l := by
  induction k with
  | zero => simpa using trim_full h
  | succ k ih => rw [List.replicate_succ', ← List.append_assoc, trim_snoc_blank, ih]

/-- The cells of the area after reading the file into blank space. -/
theorem area_read {f : Field} (hf : Reachable f) (t : Vec) {lines : List (List Int)} {w : Nat} (hp : Tame lines)
    (hb : ∀ c r, c < w → r < lines.length → areaCell f t c r = 32) (c r : Nat) (hc : c < w) (hr : r < lines.length) :
    areaCell (f.parse t false (fileText lines)).2 t c r = ((lines[r]'hr)[c]?).getD 32 := by
  have hp' : ∀ l ∈ lines ++ [[]], ∀ c ∈ l, Plain c := by
    intro l hl c hc
    rcases List.mem_append.mp hl with hl | hl
    · exact ((hp l hl).1 c hc).2.2
    · simp at hl; subst hl; simp at hc
  rw [fileText_plane]
  have H := C11_text_layout f hf t (lines ++ [[]]) (by simp) hp' (t.add (Vec.ofList [(c : Int), (r : Int)]))
  obtain ⟨g0, g1, g2⟩ := isAt_add t c r
  have hcell : cell2 (lines ++ [[]]) ((t.add (Vec.ofList [(c : Int), (r : Int)])).get 0 - t.get 0) ((t.add (Vec.ofList [(c : Int), (r : Int)])).get 1 - t.get 1) = (lines[r]'hr)[c]? := by
    rw [g0, g1, show t.get 0 + (c : Int) - t.get 0 = c by omega, show t.get 1 + (r : Int) - t.get 1 = r by omega]
    unfold cell2 at'
    rw [if_pos (by omega), show (r : Int).toNat = r from rfl, List.getElem?_append_left hr, List.getElem?_eq_getElem hr]
    show (if 0 ≤ (c : Int) then (lines[r]'hr)[(c : Int).toNat]? else none) = _
    rw [if_pos (by omega)]
    rfl
  rw [hcell] at H
  show Field.get _ _ = _
  cases hx : (lines[r]'hr)[c]? with
  | none =>
    rw [H.2 (.inr (.inl hx))]
    exact hb c r hc hr
  | some x =>
    by_cases hx2 : x = 32
    · subst hx2
      rw [H.2 (.inr (.inr hx))]
      exact hb c r hc hr
    · rw [H.1 g2 x hx hx2]
      have hm : x ∈ lines[r]'hr := List.mem_of_getElem? hx
      have := (hp _ (List.getElem_mem hr)).1 x hm
      show stored _ _ = x
      unfold stored; split
      · rw [Int.bmod_eq_emod]; split <;> omega
      · rfl

theorem rowsText_read {f : Field} {t : Vec} {lines : List (List Int)} {w : Nat} (hw : ∀ l ∈ lines, l.length ≤ w) (ht : ∀ l ∈ lines, l.getLast? ≠ some 32)
    (hcell : ∀ c r (_ : c < w) (hr : r < lines.length), areaCell f t c r = ((lines[r]'hr)[c]?).getD 32) :
    ∀ k r, r + k = lines.length → rowsText f t w r k = fileText (lines.drop r) := by
  intro k
  induction k with
  | zero => intro r hr; rw [List.drop_of_length_le (by omega)]; rfl
  | succ k ih =>
    intro r hr
    have hr' : r < lines.length := by omega
    rw [rowsText, ih (r + 1) (by omega), List.drop_eq_getElem_cons hr', fileText, fileText, List.flatMap_cons]
    congr 2
    have hrow : areaRow f t w r = lines[r] ++ List.replicate (w - lines[r].length) 32 := by
      have hlen := hw _ (List.getElem_mem hr')
      apply List.ext_getElem
      · simp [areaRow]; omega
      · intro c h1 h2
        have hc : c < w := by simpa [areaRow] using h1
        simp only [areaRow, List.getElem_map, List.getElem_range]
        rw [hcell c r hc hr']
        by_cases hcl : c < lines[r].length
        · rw [List.getElem_append_left hcl, List.getElem?_eq_getElem hcl]; rfl
        · rw [List.getElem_append_right (by omega), List.getElem?_eq_none (by omega)]; simp
    rw [hrow, trim_pad (ht _ (List.getElem_mem hr'))]

/-- Reading a text file into blank space and writing the same area in text mode: the same bytes. -/
theorem dump_read {f : Field} (hf : Reachable f) (t v delta : Vec) {lines : List (List Int)} {w : Nat} (hw0 : 0 < w) (hp : Tame lines) (hw : ∀ l ∈ lines, l.length ≤ w)
    (hne : lines ≠ []) (hb : ∀ c r, c < w → r < lines.length → areaCell f t c r = 32) (hv : ∀ d, v.get d = t.get d) (h0 : delta.get 0 = w) (h1 : delta.get 1 = lines.length)
    (h2 : ∀ d, 2 ≤ d → delta.get d = 0) (fuel : Nat) (hfuel : lines.length * w ≤ fuel) :
    (f.parse t false (fileText lines)).2.dump fuel v delta false = some (fileText lines) := by
  have hcell' := area_read hf t hp hb
  generalize (f.parse t false (fileText lines)).2 = f' at hcell' ⊢
  have hcell : ∀ c r (_ : c < w) (hr : r < lines.length), areaCell f' v c r = ((lines[r]'hr)[c]?).getD 32 := by
    intro c r hc hr
    rw [← hcell' c r hc hr]
    unfold areaCell
    apply get_congr
    rw [Vec.eqv_iff]
    intro i; rw [Vec.get_add, Vec.get_add, hv]
  have hpos : 0 < lines.length := List.length_pos_iff.mpr hne
  have hbyte : ∀ c r, c < w → r < lines.length → toChar (areaCell f' v c r) = areaCell f' v c r := by
    intro c r hc hr
    rw [hcell c r hc hr]
    refine toChar_byte ?_
    cases hx : (lines[r]'hr)[c]? with
    | none => simp
    | some x =>
      have := (hp _ (List.getElem_mem hr)).1 x (List.mem_of_getElem? hx)
      show -128 ≤ x ∧ x ≤ 127; omega
  have he : IsAt v (v.add delta) w lines.length := by
    refine ⟨?_, ?_, ?_⟩
    · rw [Vec.get_add, h0]
    · rw [Vec.get_add, h1]
    · intro d hd; rw [Vec.get_add, h2 d hd]; simp
  have hs : IsAt v v 0 0 := ⟨by simp, by simp, fun _ _ => rfl⟩
  have := dump_rows f' v (v.add delta) w lines.length he hw0 hbyte (lines.length - 1) 0 (by omega) v hs [] (fuel - lines.length * w)
  rw [show lines.length - 1 + 1 = lines.length by omega, show fuel - lines.length * w + lines.length * w = fuel by omega] at this
  unfold dump
  rw [this, rowsText_read hw (fun l hl => (hp l hl).2) hcell lines.length 0 (by omega)]
  simp

theorem popTop_items {s : St} (h : s.Lifo) (x : Int) (l n) : popTop (s.setItems (x :: l) n) = .ok (x, s.setItems l (n + 1)) := popTop_run h _ _

/-- The arguments of `i` and `o` on the stack: the name, the flags, and the corner of the area, `y` above `x`. -/
def fileArgs (name : List Int) (flags x y : Int) (l : List Int) : List Int := name ++ 0 :: flags :: y :: x :: l

/-- **C100** (partial: see `C100_false_storage_offset`, `C100_false_no_final_newline`, `C100_false_binary`) With no storage offset, `i` in text mode reads a file of lines into space, and leaves where
it put them and how large they are. With the name of another file and the flag for text above that, `o` writes the area into the other file, and if it was blank before `i` and the file can be
opened, that is the text that `i` has read, byte by byte, and nothing is left on the stack. -/
theorem C100_read_then_write_partial {s : St} (h : s.Lifo) (hd : s.g.cfg.dims = 2) (hc : s.g.cfg.filesystem = true) (hz : ∀ d, s.cur.ip.storage.get d = 0) (hf : Reachable s.g.field)
    {name name' l : List Int} (hn : Spelled name) (hn' : Spelled name') {x y : Int} (hi : s.items = fileArgs name 0 x y l) {lines : List (List Int)} {w : Nat} (hne : lines ≠ [])
    (hw0 : 0 < w) (hp : Tame lines) (hw : Widest lines w) (hfile : s.g.files s.g.asked = some (fileText lines)) :
    ∃ s', iFileIn s = .ok (.none, s') ∧ s'.items = y :: x :: (lines.length : Int) :: (w : Int) :: l ∧ s'.g.eff = s.g.eff ++ [.openRead name] ∧
      ((∀ c r, c < w → r < lines.length → areaCell s.g.field (Vec.ofList [x, y]) c r = 32) → (∃ b, s.g.files (s.g.asked + 1) = some b) → lines.length * w ≤ s.g.fuel → ∀ n,
        ∃ s'', iFileOut (s'.setItems (name' ++ 0 :: 1 :: s'.items) n) = .ok (.none, s'') ∧ s''.items = l ∧
          s''.g.eff = s.g.eff ++ [.openRead name, .openWrite name', .writeFile name' (fileText lines)]) := by
  obtain ⟨n1, hp1⟩ := popString_items h hn hi
  obtain ⟨v, hv, vg, vs, vn⟩ := popVector_run h (y :: x :: l) (n1 + 1)
  rw [hd] at hv vg
  have v0 : (v.add s.cur.ip.storage).get 0 = x := by rw [Vec.get_add, hz, vg]; simp [vecOf]
  have v1 : (v.add s.cur.ip.storage).get 1 = y := by rw [Vec.get_add, hz, vg]; simp [vecOf]
  have v2 : ∀ d, 2 ≤ d → (v.add s.cur.ip.storage).get d = 0 := by intro d hd; rw [Vec.get_add, hz, vg, vecOf, if_neg (by omega)]; rfl
  obtain ⟨z0, z1, z2⟩ := parse_size s.g.field (v.add s.cur.ip.storage) hp hw
  let va := v.add s.cur.ip.storage
  let g1 : Glob := { s.g with eff := s.g.eff ++ [.openRead name], asked := s.g.asked + 1, field := (s.g.field.parse va false (fileText lines)).2 }
  have hA : iFileIn s = .ok (.none, (s.setG g1).setItems (y :: x :: (lines.length : Int) :: (w : Int) :: l) (n1 + 1 + 2 + 2 + 2)) := by
    rw [iFileIn, bind_ok (getCfg_run s), if_pos hc, bind_ok hp1, bind_ok (popTop_items h 0 _ _), bind_ok hv, bind_ok (ipStorage_run _), bind_ok (emit_run _ _), cstr_spelled hn]
    have ha : askFile ((s.setG { s.g with eff := s.g.eff ++ [.openRead name] }).setItems l (n1 + 1 + 2)) =
        .ok (some (fileText lines), (s.setG { s.g with eff := s.g.eff ++ [.openRead name], asked := s.g.asked + 1 }).setItems l (n1 + 1 + 2)) := by rw [← hfile]; rfl
    refine (bind_ok ha).trans ?_
    have hb := pushVector_run (s := s.setG g1) h (s.g.field.parse va false (fileText lines)).1 l (n1 + 1 + 2)
    have hb' := pushVector_run (s := s.setG g1) h va ((lines.length : Int) :: (w : Int) :: l) (n1 + 1 + 2 + 2)
    rw [show (s.setG g1).g.cfg.dims = 2 from hd] at hb hb'
    have e1 : ((List.range 2).map (s.g.field.parse va false (fileText lines)).1.get).reverse ++ l = (lines.length : Int) :: (w : Int) :: l := by
      show [(s.g.field.parse va false (fileText lines)).1.get 1, (s.g.field.parse va false (fileText lines)).1.get 0] ++ l = _
      rw [z0, z1]; rfl
    have e2 : ((List.range 2).map va.get).reverse ++ ((lines.length : Int) :: (w : Int) :: l) = y :: x :: (lines.length : Int) :: (w : Int) :: l := by
      show [va.get 1, va.get 0] ++ _ = _
      rw [v0, v1]; rfl
    rw [e1] at hb
    rw [e2] at hb'
    exact (bind_ok hb).trans (bind_ok hb')
  have hit : ((s.setG g1).setItems (y :: x :: (lines.length : Int) :: (w : Int) :: l) (n1 + 1 + 2 + 2 + 2)).items = y :: x :: (lines.length : Int) :: (w : Int) :: l :=
    items_setItems (s := s.setG g1) h _ _
  refine ⟨_, hA, hit, rfl, ?_⟩
  intro hb ⟨b, hfile2⟩ hfuel n
  rw [hit]
  let s1 := (s.setG g1)
  have h' : s1.Lifo := h
  rw [setItems_setItems (s := s.setG g1) h]
  show ∃ s'', iFileOut (s1.setItems (name' ++ 0 :: 1 :: y :: x :: (lines.length : Int) :: (w : Int) :: l) n) = _ ∧ _
  obtain ⟨m1, hq1⟩ := popString_spelled h' hn' (1 :: y :: x :: (lines.length : Int) :: (w : Int) :: l) n
  obtain ⟨u, hu, ug, us, un⟩ := popVector_run h' (y :: x :: (lines.length : Int) :: (w : Int) :: l) (m1 + 1)
  obtain ⟨t, ht, tg, ts, tn⟩ := popVector_run h' ((lines.length : Int) :: (w : Int) :: l) (m1 + 1 + 2)
  rw [show s1.g.cfg.dims = 2 from hd] at hu ug ht tg
  replace hu : popVector (s1.setItems (y :: x :: (lines.length : Int) :: (w : Int) :: l) (m1 + 1)) = .ok (u, s1.setItems ((lines.length : Int) :: (w : Int) :: l) (m1 + 1 + 2)) := hu
  replace ht : popVector (s1.setItems ((lines.length : Int) :: (w : Int) :: l) (m1 + 1 + 2)) = .ok (t, s1.setItems l (m1 + 1 + 2 + 2)) := ht
  have hdump : g1.field.dump s.g.fuel (u.add s.cur.ip.storage) t false = some (fileText lines) := by
    refine dump_read hf va (u.add s.cur.ip.storage) t hw0 hp hw.1 hne ?_ ?_ ?_ ?_ ?_ _ hfuel
    · intro c r hc hr
      rw [← hb c r hc hr]
      unfold areaCell
      apply get_congr
      rw [Vec.eqv_iff]
      intro i
      rw [Vec.get_add va, Vec.get_add (Vec.ofList [x, y]), get_pair x y]
      match i with
      | 0 => rw [v0]; rfl
      | 1 => rw [v1]; rfl
      | i + 2 => rw [v2 _ (by omega), if_neg (by omega), if_neg (by omega)]
    · intro d
      rw [Vec.get_add, hz, ug]
      match d with
      | 0 => rw [v0]; simp [vecOf]
      | 1 => rw [v1]; simp [vecOf]
      | d + 2 => rw [v2 _ (by omega), vecOf, if_neg (by omega)]; rfl
    · rw [tg]; simp [vecOf]
    · rw [tg]; simp [vecOf]
    · intro d hd; rw [tg, vecOf, if_neg (by omega)]
  refine ⟨(s1.setG { g1 with eff := (g1.eff ++ [.openWrite name']) ++ [.writeFile name' (fileText lines)], asked := s.g.asked + 2 }).setItems l (m1 + 1 + 2 + 2), ?_, items_setItems (s := s1.setG _) h _ _, ?_⟩
  · rw [iFileOut, bind_ok (getCfg_run _), if_pos (show (s1.setItems _ n).g.cfg.filesystem = true from hc), bind_ok hq1, bind_ok (popTop_items h' 1 _ _), bind_ok hu, bind_ok (ipStorage_run _), bind_ok ht, bind_ok (emit_run _ _), cstr_spelled hn']
    have ha : askFile ((s1.setG { g1 with eff := g1.eff ++ [.openWrite name'] }).setItems l (m1 + 1 + 2 + 2)) =
        .ok (some b, (s1.setG { g1 with eff := g1.eff ++ [.openWrite name'], asked := s.g.asked + 2 }).setItems l (m1 + 1 + 2 + 2)) := by rw [← hfile2]; rfl
    refine (bind_ok ha).trans ?_
    show (match g1.field.dump s.g.fuel (u.add s.cur.ip.storage) t false with
      | none => _
      | some bytes => _ : Exec Err) _ = _
    rw [hdump]
    rfl
  · show ((s.g.eff ++ [.openRead name]) ++ [.openWrite name']) ++ [.writeFile name' (fileText lines)] = _
    simp

/-- A state with a stack, a storage offset, and an environment in which every file has these bytes. -/
def exFiles (l : List Int) (storage : Vec) (bytes : List Int) : St :=
  { exSystem l with cur.ip.storage := storage, g.field := Field.new 2 false, g.files := fun _ => some bytes, g.fuel := 100 }

/-- `ab`, an empty line, and ` c`, read into (4, 5) of an empty space: everything that the theorem asks for. -/
example : (exFiles (fileArgs [102] 0 4 5 [7]) (Vec.ofList [0]) (fileText [[97, 98], [], [32, 99]])).Lifo ∧ Spelled [102] ∧ Tame [[97, 98], [], [32, 99]] ∧
    Widest [[97, 98], [], [32, 99]] 2 ∧ Reachable (Field.new 2 false) ∧ (∀ d, (Vec.ofList [0]).get d = 0) ∧
    (∀ c r, c < 2 → r < 3 → areaCell (Field.new 2 false) (Vec.ofList [4, 5]) c r = 32) :=
  ⟨⟨by decide, by decide, by decide⟩, by unfold Spelled; decide, by unfold Tame; decide, by unfold Widest; decide, .new 2 false, by
    intro d; rw [Vec.get_ofList]; match d with
      | 0 => rfl
      | d + 1 => rfl, fun _ _ _ _ => rfl⟩

/-- What `o` writes with what `i` has left, the name of the file and the flag above it. -/
def rewritten (flags : Int) (s : St) : Option (List Eff) :=
  match iFileIn s with
  | .ok (.none, s') =>
    match iFileOut (s'.setItems (102 :: 0 :: flags :: s'.items) 0) with
    | .ok (.none, s'') => some (s''.g.eff.drop 2)
    | _ => none
  | _ => none

/-- **C100** fails with a storage offset, here (10, 0): `i` leaves where it has put the file in space, and `o` adds the offset once more, and writes what is ten cells further east. Without an
offset the file comes back. -/
theorem C100_false_storage_offset :
    rewritten 1 (exFiles (fileArgs [102] 0 4 5 [7]) (Vec.ofList [0]) (fileText [[97, 98], [99]])) = some [.writeFile [102] (fileText [[97, 98], [99]])] ∧
    rewritten 1 (exFiles (fileArgs [102] 0 4 5 [7]) (Vec.ofList [10, 0]) (fileText [[97, 98], [99]])) = some [.writeFile [102] (fileText [[], []])] := by decide +kernel

/-- **C100** fails for a file whose last line has no line break: `i` does not count the line, and `o` does not write it. -/
theorem C100_false_no_final_newline :
    rewritten 1 (exFiles (fileArgs [102] 0 4 5 [7]) (Vec.ofList [0]) [97, 98, 10, 99, 100]) = some [.writeFile [102] [97, 98, 10]] := by decide +kernel

/-- **C100** fails for a file read as binary: all of it is in one line, which `i` does not count, and `o` writes one byte of it. -/
theorem C100_false_binary :
    rewritten 0 (exFiles (fileArgs [102] 1 4 5 [7]) (Vec.ofList [0]) [97, 98, 10, 99, 100]) = some [.writeFile [102] [97]] := by decide +kernel

end Funge
