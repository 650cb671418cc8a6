import Verif.Model.Fmv
/-!
# C68: multiverse files
-/
namespace Funge
namespace Fmv

/-- An entry of a multiverse file: a program and its arguments. -/
structure Item where
  name : List Char
  args : List (List Char)

/-- White space. -/
def blanks : List Char := [' ', '\t', '\n', '\x0b', '\x0c', '\r']

/-- A word: not empty, and without white space. -/
def IsWord (w : List Char) : Prop := w ≠ [] ∧ ∀ c ∈ w, c ∉ blanks

/-- The line that writes an entry: the name and the arguments, separated by blanks. -/
def Item.line (e : Item) : List Char := e.name ++ (e.args.map fun a => ' ' :: a).flatten

/-- The text of a multiverse file: the entries on lines of their own, without a newline at the end. -/
def textOf : List Item → List Char
  | [] => []
  | [e] => e.line
  | e :: e' :: es => e.line ++ '\n' :: textOf (e' :: es)

/-- The directory `d` and the file name `n` make the path `p`. -/
def InDir (d n p : List Char) : Prop := p = d ++ '/' :: n ∧ '/' ∉ n ∧ d ≠ [] ∧ d.getLast? ≠ some '/'

/-- The file that an entry of a multiverse file in the directory `d` stands for: an absolute path as it is, any other in that directory. -/
def Names (d n p : List Char) : Prop := (n.head? = some '/' ∧ p = n) ∨ (n.head? ≠ some '/' ∧ p = d ++ '/' :: n)

mutual
/-- What loading the file `p` with configuration `c` is meant to create: for a program, one universe; for a multiverse file, what its entries create, one after
the other. -/
inductive Creates (fs : List Char → Option (List Char)) : List Char → Config → Made → Prop
  | program {p : List Char} {c : Config} {text : List Char} : extension p ≠ ".fmv".toList → fs p = some text → Creates fs p c [chooseConfig c p]
  | multiverse {d n p : List Char} {c : Config} {items : List Item} {made : Made} : InDir d n p → extension p = ".fmv".toList → items ≠ [] →
      fs p = some (textOf items) → CreatesAll fs d c items made → Creates fs p c made
/-- The entries of a multiverse file in the directory `d`: each with its arguments after the common ones. -/
inductive CreatesAll (fs : List Char → Option (List Char)) : List Char → Config → List Item → Made → Prop
  | nil {d : List Char} {c : Config} : CreatesAll fs d c [] []
  | cons {d p : List Char} {c : Config} {e : Item} {es : List Item} {m1 m2 : Made} : IsWord e.name → (∀ a ∈ e.args, IsWord a) → Names d e.name p →
      Creates fs p { c with args := c.args ++ e.args } m1 → CreatesAll fs d c es m2 → CreatesAll fs d c (e :: es) (m1 ++ m2)
end

/-! ### Reading the text -/

theorem isSpace_iff (c : Char) : isSpace c = true ↔ c ∈ blanks := by
  simp [isSpace, blanks, or_assoc]

theorem isSpace_false {c : Char} (h : c ∉ blanks) : isSpace c = false := by
  cases hs : isSpace c with
  | false => rfl
  | true => exact absurd ((isSpace_iff c).1 hs) h

theorem word_run (w r : List Char) (hw : IsWord w) (hr : r = [] ∨ ∃ t, r = ' ' :: t) : word (w ++ r) = (w, r) := by
  have h1 : (w ++ r).dropWhile isSpace = w ++ r := by
    obtain ⟨hne, hc⟩ := hw
    cases w with
    | nil => exact absurd rfl hne
    | cons c t => rw [List.cons_append, List.dropWhile_cons, if_neg]; simp [isSpace_false (hc c List.mem_cons_self)]
  have h2 : ∀ w : List Char, (∀ c ∈ w, c ∉ blanks) → (w ++ r).takeWhile (fun c => !isSpace c) = w ∧ (w ++ r).dropWhile (fun c => !isSpace c) = r := by
    intro w hc
    induction w with
    | nil =>
      rcases hr with rfl | ⟨t, rfl⟩
      · exact ⟨rfl, rfl⟩
      · exact ⟨rfl, rfl⟩
    | cons c t ih =>
      have := isSpace_false (hc c List.mem_cons_self)
      have ih := ih fun c h => hc c (List.mem_cons_of_mem _ h)
      rw [List.cons_append, List.takeWhile_cons, List.dropWhile_cons, if_pos (by simp [this]), if_pos (by simp [this]), ih.1, ih.2]
      exact ⟨rfl, rfl⟩
  unfold word
  simp only [h1, (h2 w hw.2).1, (h2 w hw.2).2]

theorem word_blank (l : List Char) : word (' ' :: l) = word l := rfl

theorem flat_shape (as : List (List Char)) : ((as.map fun a => ' ' :: a).flatten = [] ∨ ∃ t, (as.map fun a => ' ' :: a).flatten = ' ' :: t) := by
  cases as with
  | nil => exact Or.inl rfl
  | cons a as => exact Or.inr ⟨_, rfl⟩

theorem words_run (as : List (List Char)) (ha : ∀ a ∈ as, IsWord a) (n : Nat) (hn : ((as.map fun a => ' ' :: a).flatten).length ≤ n) :
    words n (as.map fun a => ' ' :: a).flatten = as := by
  induction as generalizing n with
  | nil => cases n <;> rfl
  | cons a as ih =>
    rw [List.map_cons, List.flatten_cons, List.cons_append] at hn ⊢
    cases n with
    | zero => simp at hn
    | succ n =>
      rw [words, if_neg (by simp), word_blank, word_run a _ (ha a List.mem_cons_self) (flat_shape as)]
      dsimp only
      rw [ih (fun a h => ha a (List.mem_cons_of_mem _ h)) n (by simp at hn ⊢; omega)]

theorem line_no_newline {e : Item} (h : IsWord e.name) (ha : ∀ a ∈ e.args, IsWord a) : '\n' ∉ e.line := by
  intro hm
  rcases List.mem_append.1 hm with h1 | h1
  · exact h.2 _ h1 (by simp [blanks])
  · simp only [List.mem_flatten, List.mem_map] at h1
    obtain ⟨_, ⟨a, h2, rfl⟩, h3⟩ := h1
    rcases List.mem_cons.1 h3 with h4 | h4
    · exact absurd h4 (by decide)
    · exact (ha a h2).2 _ h4 (by simp [blanks])

theorem lines_last (l : List Char) (h : '\n' ∉ l) : lines l = [l] := by
  induction l with
  | nil => rfl
  | cons c t ih =>
    have h1 : c ≠ '\n' := fun e => h (e ▸ List.mem_cons_self)
    rw [lines, if_neg h1, ih fun e => h (List.mem_cons_of_mem _ e)]

theorem lines_more (l r : List Char) (h : '\n' ∉ l) : lines (l ++ '\n' :: r) = l :: lines r := by
  induction l with
  | nil => rw [List.nil_append, lines, if_pos rfl]
  | cons c t ih =>
    have h1 : c ≠ '\n' := fun e => h (e ▸ List.mem_cons_self)
    rw [List.cons_append, lines, if_neg h1, ih fun e => h (List.mem_cons_of_mem _ e)]

theorem lines_text (items : List Item) (hne : items ≠ []) (h : ∀ e ∈ items, '\n' ∉ e.line) : lines (textOf items) = items.map Item.line := by
  fun_induction textOf items with
  | case1 => exact absurd rfl hne
  | case2 e => exact lines_last _ (h e List.mem_cons_self)
  | case3 e e' es ih =>
    rw [lines_more _ _ (h e List.mem_cons_self), ih (by simp) fun e he => h e (List.mem_cons_of_mem _ he)]
    rfl

theorem parentPath_inDir {d n p : List Char} (h : InDir d n p) : parentPath p = d := by
  obtain ⟨rfl, hn, hd, hl⟩ := h
  have h1 : ∀ l r : List Char, '/' ∉ l → (l ++ '/' :: r).dropWhile (· != '/') = '/' :: r := by
    intro l r hl
    induction l with
    | nil => rfl
    | cons c t ih =>
      have : c ≠ '/' := fun e => hl (e ▸ List.mem_cons_self)
      rw [List.cons_append, List.dropWhile_cons, if_pos (by simp [this]), ih fun e => hl (List.mem_cons_of_mem _ e)]
  have h2 : (d ++ '/' :: n).reverse = n.reverse ++ '/' :: d.reverse := by simp
  have h3 : ('/' :: d.reverse).dropWhile (· == '/') = d.reverse := by
    rw [List.dropWhile_cons, if_pos (by decide)]
    cases hr : d.reverse with
    | nil => rfl
    | cons c t =>
      have : d.getLast? = some c := by rw [List.getLast?_eq_head?_reverse, hr]; rfl
      rw [List.dropWhile_cons, if_neg]
      intro hc
      rw [this] at hl
      simp at hc
      exact hl (by rw [hc])
  unfold parentPath
  simp only [h2]
  rw [h1 _ _ (by simpa using hn), h3, if_neg (by simpa using hd)]
  simp

theorem entry_item (d : List Char) (c : Config) (e : Item) (h : IsWord e.name) (ha : ∀ a ∈ e.args, IsWord a) {p : List Char} (hp : Names d e.name p) :
    entry d c e.line = (p, { c with args := c.args ++ e.args }) := by
  have hw : word e.line = (e.name, (e.args.map fun a => ' ' :: a).flatten) := word_run _ _ h (flat_shape _)
  unfold entry
  rw [hw]
  dsimp only
  rw [words_run _ ha _ (Nat.le_refl _)]
  congr 1
  unfold resolve
  rcases hp with ⟨h1, rfl⟩ | ⟨h1, rfl⟩
  · rw [if_pos h1]
  · rw [if_neg h1]

/-- **C68** (partial: the multiverse file must be given with a directory, and must not end in a newline; see `C68_false_without_directory` and
`C68_false_final_newline`) Loading a multiverse file creates a universe for each program it names, in the order of the file, at the place given
relative to the multiverse file, with the arguments of its line after those of the command line; a multiverse file named in it stands for what that one names. -/
theorem C68_creates_partial {fs : List Char → Option (List Char)} {p : List Char} {c : Config} {made : Made} (h : Creates fs p c made) :
    ∃ n, ∀ m, n ≤ m → createUniverse fs m p c = .ok (0, made) := by
  refine Creates.rec (motive_1 := fun p c made _ => ∃ n, ∀ m, n ≤ m → createUniverse fs m p c = .ok (0, made))
    (motive_2 := fun d c items made _ => (∀ e ∈ items, '\n' ∉ e.line) ∧
      ∃ n, ∀ m, n ≤ m → entries (createUniverse fs m) d c (items.map Item.line) = .ok (0, made)) ?_ ?_ ?_ ?_ h
  · intro p c text h1 h2
    refine ⟨1, fun m hm => ?_⟩
    cases m with
    | zero => omega
    | succ m => rw [createUniverse, if_neg h1, h2]
  · intro d n p c items made h1 h2 h3 h4 _ ih
    obtain ⟨hl, n, hn⟩ := ih
    refine ⟨n + 1, fun m hm => ?_⟩
    cases m with
    | zero => omega
    | succ m =>
      rw [createUniverse, if_pos h2, h4]
      dsimp only
      rw [parentPath_inDir h1, lines_text _ h3 hl]
      exact hn m (by omega)
  · intro d c
    exact ⟨fun e he => absurd he (by simp), 0, fun _ _ => rfl⟩
  · intro d p c e es m1 m2 h1 h2 h3 _ _ ih1 ih2
    obtain ⟨n1, hn1⟩ := ih1
    obtain ⟨hl, n2, hn2⟩ := ih2
    refine ⟨?_, n1 + n2, fun m hm => ?_⟩
    · intro e' he
      rcases List.mem_cons.1 he with rfl | he
      · exact line_no_newline h1 h2
      · exact hl e' he
    · rw [List.map_cons, entries, entry_item _ _ _ h1 h2 h3]
      dsimp only
      rw [hn1 m (by omega)]
      dsimp only
      rw [if_neg (by simp), hn2 m (by omega)]

/-- A file system for the examples: a multiverse file in the directory `d` that names two programs, and these. -/
def exFs (p : List Char) : Option (List Char) :=
  if p = "d/m.fmv".toList then some "a.bf x y\n/b.b98".toList
  else if p = "d/a.bf".toList ∨ p = "/b.b98".toList then some "@".toList
  else none

example (c : Config) : Creates exFs "d/m.fmv".toList c
    [chooseConfig { c with args := c.args ++ ["x".toList, "y".toList] } "d/a.bf".toList, chooseConfig { c with args := c.args ++ [] } "/b.b98".toList] := by
  have hw : ∀ w : List Char, w ≠ [] → (∀ c ∈ w, c ∉ blanks) → IsWord w := fun w h1 h2 => ⟨h1, h2⟩
  refine .multiverse (d := "d".toList) (n := "m.fmv".toList) (items := [⟨"a.bf".toList, ["x".toList, "y".toList]⟩, ⟨"/b.b98".toList, []⟩])
    ⟨rfl, by decide, by decide, by decide⟩ (by decide) (by simp) (by decide) ?_
  refine .cons (m1 := [_]) (m2 := [_]) (p := "d/a.bf".toList) (hw _ (by decide) (by decide)) ?_ (Or.inr (by decide)) (.program (by decide) rfl) ?_
  · intro a ha
    exact hw a (by rintro rfl; revert ha; decide) (by
      have : ∀ a ∈ ["x".toList, "y".toList], ∀ c ∈ a, c ∉ blanks := by decide
      exact this a ha)
  · exact .cons (m1 := [_]) (m2 := []) (p := "/b.b98".toList) (hw _ (by decide) (by decide)) (by simp) (Or.inl (by decide)) (.program (by decide) rfl) .nil

theorem create_missing {fs : List Char → Option (List Char)} {q : List Char} (h : fs q = none) {m : Nat} {c : Config} :
    createUniverse fs (m + 1) q c = .ok (5, []) := by
  rw [createUniverse]
  split <;> rw [h]

/-- **C68** A program that cannot be opened stops everything: what was named before it has been created, nothing after it is. -/
theorem C68_missing_program {fs : List Char → Option (List Char)} {d n p q : List Char} {c : Config} {before after : List Item} {e : Item} {made : Made}
    (hp : InDir d n p) (he : extension p = ".fmv".toList) (ht : fs p = some (textOf (before ++ e :: after))) (hb : CreatesAll fs d c before made)
    (hw : IsWord e.name) (ha : ∀ a ∈ e.args, IsWord a) (hq : Names d e.name q) (hm : fs q = none) (hl : ∀ e ∈ after, '\n' ∉ e.line) :
    ∃ n, ∀ m, n ≤ m → createUniverse fs m p c = .ok (5, made) := by
  have hbefore : (∀ e ∈ before, '\n' ∉ e.line) ∧
      ∃ n, ∀ m, n ≤ m → ∀ rest code more, entries (createUniverse fs m) d c rest = .ok (code, more) →
        entries (createUniverse fs m) d c (before.map Item.line ++ rest) = .ok (code, made ++ more) := by
    clear ht
    induction before generalizing made with
    | nil =>
      cases hb
      exact ⟨fun e he => absurd he (by simp), 0, fun m _ rest code more h => h⟩
    | cons e' es ih =>
      cases hb with
      | cons h1 h2 h3 h4 h5 =>
        obtain ⟨n1, hn1⟩ := C68_creates_partial h4
        obtain ⟨hl, n2, hn2⟩ := ih h5
        refine ⟨?_, n1 + n2, fun m hm rest code more h => ?_⟩
        · intro e'' he
          rcases List.mem_cons.1 he with rfl | he
          · exact line_no_newline h1 h2
          · exact hl e'' he
        · rw [List.map_cons, List.cons_append, entries, entry_item _ _ _ h1 h2 h3]
          dsimp only
          rw [hn1 m (by omega)]
          dsimp only
          rw [if_neg (by simp), hn2 m (by omega) rest code more h]
          dsimp only
          rw [List.append_assoc]
  obtain ⟨hl', k, hk⟩ := hbefore
  refine ⟨k + 2, fun m hm' => ?_⟩
  match m, hm' with
  | m + 2, hm' =>
    rw [createUniverse, if_pos he, ht]
    dsimp only
    rw [parentPath_inDir hp, lines_text _ (by simp) (by
      intro e' he'
      rcases List.mem_append.1 he' with h | h
      · exact hl' e' h
      · rcases List.mem_cons.1 h with rfl | h
        · exact line_no_newline hw ha
        · exact hl e' h), List.map_append]
    have := hk (m + 1) (by omega) (e.line :: after.map Item.line) 5 [] (by
      rw [entries, entry_item _ _ _ hw ha hq]
      dsimp only
      rw [create_missing hm]
      rfl)
    rw [List.append_nil] at this
    exact this

example : ∃ n, ∀ m, n ≤ m → createUniverse (fun p => if p = "d/m.fmv".toList then some "c.bf".toList else none) m "d/m.fmv".toList {} = .ok (5, []) :=
  C68_missing_program (d := "d".toList) (n := "m.fmv".toList) (before := []) (after := []) (e := ⟨"c.bf".toList, []⟩) (q := "d/c.bf".toList)
    ⟨rfl, by decide, by decide, by decide⟩ (by decide) (by decide) .nil ⟨by decide, by decide⟩ (by simp) (Or.inr (by decide)) (by decide) (by simp)

/-- **C68** is violated when the multiverse file is given without a directory: the programs it names are looked for in the root directory, whatever the directory
the multiverse file is in. -/
theorem C68_false_without_directory {fs : List Char → Option (List Char)} {p : List Char} (hp : '/' ∉ p) (he : extension p = ".fmv".toList) {e : Item}
    (hw : IsWord e.name) (ha : ∀ a ∈ e.args, IsWord a) (hr : e.name.head? ≠ some '/') (ht : fs p = some e.line) (hm : fs ('/' :: e.name) = none)
    (c : Config) (n : Nat) : createUniverse fs (n + 2) p c = .ok (5, []) := by
  have hpar : parentPath p = [] := by
    have : ∀ l : List Char, '/' ∉ l → l.dropWhile (· != '/') = [] := by
      intro l hl
      induction l with
      | nil => rfl
      | cons c t ih =>
        have : c ≠ '/' := fun e => hl (e ▸ List.mem_cons_self)
        rw [List.dropWhile_cons, if_pos (by simp [this]), ih fun e => hl (List.mem_cons_of_mem _ e)]
    unfold parentPath
    simp only [this p.reverse (by simpa using hp)]
    rfl
  rw [createUniverse, if_pos he, ht]
  dsimp only
  rw [hpar, lines_last _ (line_no_newline hw ha), entries, entry_item _ _ _ hw ha (p := '/' :: e.name) (Or.inr ⟨hr, rfl⟩)]
  dsimp only
  rw [create_missing hm]
  rfl

example : createUniverse (fun p => if p = "m.fmv".toList ∨ p = "a.bf".toList then some "a.bf".toList else none) 2 "m.fmv".toList {} = .ok (5, []) :=
  C68_false_without_directory (e := ⟨"a.bf".toList, []⟩) (by decide) (by decide) ⟨by decide, by decide⟩ (by simp) (by decide) (by decide) (by decide) {} 0

/-- **C68** is violated when the multiverse file ends in a newline: after the programs it names, the directory itself is loaded as a program. -/
theorem C68_false_final_newline {fs : List Char → Option (List Char)} {d n p : List Char} {c : Config} (hp : InDir d n p)
    (he : extension p = ".fmv".toList) {e : Item} (hw : IsWord e.name) (ha : ∀ a ∈ e.args, IsWord a) {q : List Char} (hq : Names d e.name q)
    (hx : extension q ≠ ".fmv".toList) {text dir : List Char} (hf : fs q = some text) (ht : fs p = some (e.line ++ ['\n']))
    (hd : fs (d ++ ['/']) = some dir) (k : Nat) :
    createUniverse fs (k + 2) p c = .ok (0, [chooseConfig { c with args := c.args ++ e.args } q, chooseConfig c (d ++ ['/'])]) := by
  have hext : extension (d ++ ['/']) ≠ ".fmv".toList := by
    have hfn : fileName (d ++ ['/']) = [] := by
      unfold fileName
      rw [List.reverse_append]
      rfl
    unfold extension
    rw [hfn]; decide
  have h2 : entry d c [] = (d ++ ['/'], c) := by
    unfold entry resolve word
    simp [words]
  rw [createUniverse, if_pos he, ht]
  dsimp only
  rw [parentPath_inDir hp, lines_more _ _ (line_no_newline hw ha), lines, entries, entry_item _ _ _ hw ha hq, createUniverse]
  dsimp only
  rw [if_neg hx, hf]
  dsimp only
  rw [if_neg (by simp), entries, h2]
  dsimp only
  rw [createUniverse, if_neg hext, hd]
  rfl

example : createUniverse (fun p => if p = "d/m.fmv".toList then some "a.bf\n".toList else if p = "d/a.bf".toList then some [] else some []) 2
    "d/m.fmv".toList {} = .ok (0, [chooseConfig {} "d/a.bf".toList, chooseConfig {} "d/".toList]) := by decide

/-- **C68** A multiverse file that names itself is loaded for ever. -/
theorem C68_diverges_on_itself {fs : List Char → Option (List Char)} {d n p : List Char} (hp : InDir d n p) (he : extension p = ".fmv".toList)
    (hw : IsWord n) (ht : fs p = some n) (c : Config) (k : Nat) : createUniverse fs k p c = .error .fuel := by
  have hline : (Item.mk n []).line = n := by simp [Item.line]
  have hnames : Names d n p := Or.inr ⟨fun h => by
    cases n with
    | nil => simp at h
    | cons a t => simp at h; exact hp.2.1 (h ▸ List.mem_cons_self), hp.1⟩
  induction k generalizing c with
  | zero => rfl
  | succ k ih =>
    rw [createUniverse, if_pos he, ht]
    dsimp only
    have hl : lines n = [(Item.mk n []).line] := by
      rw [hline]
      have := lines_last (Item.mk n []).line (line_no_newline (e := ⟨n, []⟩) hw (by simp))
      rwa [hline] at this
    rw [parentPath_inDir hp, hl, entries, entry_item (e := ⟨n, []⟩) _ _ hw (by simp) hnames]
    dsimp only
    rw [ih]

example : InDir "d".toList "m.fmv".toList "d/m.fmv".toList ∧ IsWord "m.fmv".toList := ⟨⟨rfl, by decide, by decide, by decide⟩, by decide, by decide⟩

end Fmv
end Funge
