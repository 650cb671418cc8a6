import Verif.Props.C08_Field
import Verif.Model.Beq
import Verif.Spec.BeqFormat
/-!
# C66, C67: BeQunge files
-/
namespace Funge
namespace Beq
open BeqFormat

/-! ### Splitting -/

theorem split_none (d : Int) (t : List Int) (h : d ∉ t) : splitString d t = [t] := by
  induction t with
  | nil => rfl
  | cons c t ih =>
    have h1 : c ≠ d := fun e => h (e ▸ List.mem_cons_self)
    rw [splitString, if_neg h1, ih fun e => h (List.mem_cons_of_mem _ e)]

theorem split_one (d : Int) (t r : List Int) (h : d ∉ t) : splitString d (t ++ d :: r) = t :: splitString d r := by
  induction t with
  | nil => rw [List.nil_append, splitString, if_pos rfl]
  | cons c t ih =>
    have h1 : c ≠ d := fun e => h (e ▸ List.mem_cons_self)
    rw [List.cons_append, splitString, if_neg h1, ih fun e => h (List.mem_cons_of_mem _ e)]

theorem split_ne_nil (d : Int) (t : List Int) : splitString d t ≠ [] := by
  cases t with
  | nil => simp [splitString]
  | cons c t =>
    rw [splitString]
    split
    · simp
    · split <;> simp

/-! ### Numbers -/

theorem dec_chars {n : Int} {t : List Int} (h : IsDecimal n t) : ∀ c ∈ t, c = 45 ∨ (48 ≤ c ∧ c ≤ 57) := by
  rcases h with ⟨-, h, -⟩ | ⟨-, ds, rfl, h, -⟩
  · intro c hc; exact Or.inr (h.2.1 c hc)
  · intro c hc
    rcases List.mem_cons.1 hc with h1 | h1
    · exact Or.inl h1
    · exact Or.inr (h.2.1 c h1)

theorem dec_ne {n : Int} {t : List Int} (h : IsDecimal n t) {d : Int} (hd : d ≠ 45) (hd' : ¬ (48 ≤ d ∧ d ≤ 57)) : d ∉ t := by
  intro hm
  rcases dec_chars h d hm with h1 | h1
  · exact hd h1
  · exact hd' h1

theorem dec_nonempty {n : Int} {t : List Int} (h : IsDecimal n t) : t ≠ [] := by
  rcases h with ⟨-, h, -⟩ | ⟨-, ds, rfl, h, -⟩
  · exact h.1
  · simp

theorem takeWhile_all {α} (p : α → Bool) (l : List α) (h : ∀ x ∈ l, p x = true) : l.takeWhile p = l := by
  induction l with
  | nil => rfl
  | cons x t ih => rw [List.takeWhile_cons, if_pos (h x List.mem_cons_self), ih fun y hy => h y (List.mem_cons_of_mem _ hy)]

theorem strtol_dec {n : Int} {t : List Int} (h : IsDecimal n t) : strtol t = some (decide (n < 0), if n < 0 then -n else n) := by
  have hdrop : t.dropWhile isSpace = t := by
    rcases t with _ | ⟨c, r⟩
    · rfl
    · have := dec_chars h c List.mem_cons_self
      rw [List.dropWhile_cons, if_neg]
      simp only [isSpace, decide_eq_true_eq]; omega
  rcases h with ⟨h0, h, hv⟩ | ⟨h0, ds, rfl, h, hv⟩
  · have hs : sign t = (false, t) := by
      rcases t with _ | ⟨c, r⟩
      · rfl
      · have := h.2.1 c List.mem_cons_self
        rw [sign, if_neg (by omega), if_neg (by omega)]
    have ht : t.takeWhile isDigit = t := takeWhile_all _ _ fun c hc => by simpa [isDigit] using h.2.1 c hc
    have hne : t.isEmpty = false := by simpa using h.1
    unfold strtol
    simp only [hdrop, hs, ht, hne]
    rw [if_neg (by omega : ¬ n < 0), decide_eq_false (by omega : ¬ n < 0)]
    simp only [Bool.false_eq_true, if_false]
    rw [← hv]; rfl
  · have hs : sign (45 :: ds) = (true, ds) := by rw [sign, if_pos rfl]
    have ht : ds.takeWhile isDigit = ds := takeWhile_all _ _ fun c hc => by simpa [isDigit] using h.2.1 c hc
    have hne : ds.isEmpty = false := by simpa using h.1
    unfold strtol
    simp only [hdrop, hs, ht, hne]
    rw [if_pos (by omega : n < 0), decide_eq_true (by omega : n < 0)]
    simp only [Bool.false_eq_true, if_false]
    rw [← hv]; rfl

theorem stoi_dec {n : Int} {t : List Int} (h : IsDecimal n t) (hf : FitsInt n) : stoi t = .ok n := by
  unfold stoi
  rw [strtol_dec h]
  dsimp only
  have : (if decide (n < 0) = true then -(if n < 0 then -n else n) else (if n < 0 then -n else n)) = n := by
    by_cases h0 : n < 0
    · simp [h0]
    · simp [h0]
  rw [this]
  exact if_pos hf

theorem stoul_dec {n : Nat} {t : List Int} (h : IsDecimal n t) (hf : n < 2 ^ 64) : stoul t = .ok n := by
  unfold stoul
  rw [strtol_dec h]
  have h0 : ¬ ((n : Int) < 0) := by omega
  simp only [h0, decide_false, if_false, Bool.false_eq_true]
  rw [if_pos (by omega)]
  simp

/-! ### Origin and Coord -/

theorem ofList_size_pos (m : List Int) (hm : m ≠ []) : 0 < (Vec.ofList m).size := by
  unfold Vec.ofList Vec.normalize Vec.size
  have key : ∀ m : List Int, m ≠ [] → Vec.stripRev m ≠ [] := by
    intro m
    fun_induction Vec.stripRev m with
    | case1 => rename_i ih; intro _; exact ih (by simp)
    | case2 => simp
    | case3 => intro h; exact h
  have := key m.reverse (by simpa using hm)
  simp only [List.length_reverse]
  exact List.length_pos_iff.2 this

theorem ofList_snoc (l : List Int) (x : Int) : (Vec.ofList l).set l.length x = Vec.ofList (l ++ [x]) := by
  apply Vec.Normal.ext (Vec.normal_set _ _ _) (Vec.normal_ofList _) (Vec.size_set_pos _ _ _)
  · exact ofList_size_pos _ (by simp)
  · intro i
    rw [Vec.get_set, Vec.get_ofList, Vec.get_ofList]
    by_cases hi : i = l.length
    · subst hi; simp
    · rw [if_neg hi]
      by_cases h2 : i < l.length
      · rw [List.getElem?_append_left h2]
      · rw [List.getElem?_eq_none (by omega), List.getElem?_eq_none (by simp; omega)]

theorem setOrigin_numbers {ns t : List Int} (h : Numbers ns t) (hf : ∀ n ∈ ns, FitsInt n) (l : List Int) :
    setOrigin (splitString 58 t) l.length (Vec.ofList l) = .ok (Vec.ofList (l ++ ns), (l ++ ns).length) := by
  induction h generalizing l with
  | one h =>
    rename_i n t
    rw [split_none 58 t (dec_ne h (by decide) (by decide)), setOrigin, stoi_dec h (hf n List.mem_cons_self)]
    dsimp only
    rw [setOrigin, ofList_snoc, List.length_append]; rfl
  | cons h _ ih =>
    rename_i n t ns ts _
    rw [split_one 58 t ts (dec_ne h (by decide) (by decide)), setOrigin, stoi_dec h (hf n List.mem_cons_self)]
    dsimp only
    have := ih (fun n hn => hf n (List.mem_cons_of_mem _ hn)) (l ++ [n])
    rw [List.length_append] at this
    rw [ofList_snoc]
    rw [show l.length + 1 = l.length + [n].length from rfl, this, List.append_assoc]; rfl

theorem setCoord_coords {ns t : List Int} (h : Coords ns t) (hf : ∀ n ∈ ns, FitsInt n) (l : List Int) :
    setCoord (splitString 58 t) l.length (Vec.ofList l) = .ok (Vec.ofList (l ++ ns), (l ++ ns).length + 1) := by
  induction h generalizing l with
  | nil =>
    rw [List.append_nil]; rfl
  | cons h _ ih =>
    rename_i n t ns ts _
    have hne : t.isEmpty = false := by simpa using dec_nonempty h
    rw [split_one 58 t ts (dec_ne h (by decide) (by decide)), setCoord, if_neg (by simp [hne]), stoi_dec h (hf n List.mem_cons_self)]
    dsimp only
    have := ih (fun n hn => hf n (List.mem_cons_of_mem _ hn)) (l ++ [n])
    rw [List.length_append] at this
    rw [ofList_snoc]
    rw [show l.length + 1 = l.length + [n].length from rfl, this, List.append_assoc]; rfl

/-! ### Control lines -/

theorem numbers_chars {ns t : List Int} (h : Numbers ns t) : ∀ c ∈ t, c = 45 ∨ (48 ≤ c ∧ c ≤ 58) := by
  induction h with
  | one h => intro c hc; have := dec_chars h c hc; omega
  | cons h _ ih =>
    intro c hc
    rcases List.mem_append.1 hc with h1 | h1
    · have := dec_chars h c h1; omega
    · rcases List.mem_cons.1 h1 with h2 | h2
      · omega
      · exact ih c h2

theorem coords_chars {ns t : List Int} (h : Coords ns t) : ∀ c ∈ t, c = 45 ∨ (48 ≤ c ∧ c ≤ 58) := by
  induction h with
  | nil => intro c hc; cases hc
  | cons h _ ih =>
    intro c hc
    rcases List.mem_append.1 hc with h1 | h1
    · have := dec_chars h c h1; omega
    · rcases List.mem_cons.1 h1 with h2 | h2
      · omega
      · exact ih c h2

theorem command_lines {nt : List Int} {n : Nat} (h : IsDecimal n nt) (hn : n < 2 ^ 64) (k : Ctl) :
    command (ascii "Lines " ++ nt) k = .ok { k with lines := n } := by
  have hs : splitString 32 (ascii "Lines " ++ nt) = [text "Lines", nt] := by
    have := split_one 32 (text "Lines") nt (by decide)
    rw [split_none 32 nt (dec_ne h (by decide) (by decide))] at this
    exact this
  unfold command
  rw [hs]
  show named (text _) _ _ = _
  rw [named, if_neg (by decide), if_neg (by decide), if_pos rfl]
  simp only [arg]
  rw [stoul_dec h hn]

theorem command_origin {os ot : List Int} (h : Numbers os ot) (hf : ∀ n ∈ os, FitsInt n) (k : Ctl) (hk : k.origin = Vec.empty) :
    command (ascii "Origin " ++ ot) k = .ok { k with origin := Vec.ofList os, dim := os.length } := by
  have hs : splitString 32 (ascii "Origin " ++ ot) = [text "Origin", ot] := by
    have := split_one 32 (text "Origin") ot (by decide)
    rw [split_none 32 ot (fun hm => by have := numbers_chars h _ hm; omega)] at this
    exact this
  unfold command
  rw [hs]
  show named (text _) _ _ = _
  rw [named, if_neg (by decide), if_neg (by decide), if_neg (by decide), if_pos rfl]
  simp only [arg]
  have := setOrigin_numbers h hf []
  rw [show (Vec.ofList [] : Vec) = Vec.empty from rfl] at this
  rw [hk, show (0 : Nat) = ([] : List Int).length from rfl, this]; rfl

theorem command_coord {os cs ct : List Int} (h : Coords cs ct) (hf : ∀ n ∈ cs, FitsInt n) (k : Ctl) (hk : k.origin = Vec.ofList os)
    (hd : k.dim = os.length) :
    command (ascii "Coord " ++ ct) k = .ok { k with origin := Vec.ofList (os ++ cs), dim := (os ++ cs).length + 1 } := by
  have hs : splitString 32 (ascii "Coord " ++ ct) = [text "Coord", ct] := by
    have := split_one 32 (text "Coord") ct (by decide)
    rw [split_none 32 ct (fun hm => by have := coords_chars h _ hm; omega)] at this
    exact this
  unfold command
  rw [hs]
  show named (text _) _ _ = _
  rw [named, if_neg (by decide), if_neg (by decide), if_neg (by decide), if_neg (by decide), if_pos rfl]
  simp only [arg]
  rw [hk, hd, setCoord_coords h hf os]

theorem not_mem_ascii {c : Int} (s : String) (h : c ∉ ascii s) {t : List Int} (ht : c ∉ t) : c ∉ ascii s ++ t := by
  intro hm
  rcases List.mem_append.1 hm with h1 | h1
  · exact h h1
  · exact ht h1

theorem control_block {b : Block} {nt ot ct : List Int} (hn : IsDecimal b.lines.length nt) (ho : Numbers b.origin ot) (hc : Coords b.coord ct)
    (hf : ∀ n ∈ b.origin ++ b.coord, FitsInt n) (hl : b.lines.length < 2 ^ 64) (d : Nat) :
    commands (splitString 44 (ascii "Lines " ++ nt ++ ascii ",Origin " ++ ot ++ ascii ",Coord " ++ ct)) { dims := d } =
      .ok { lines := b.lines.length, origin := Vec.ofList (b.origin ++ b.coord), dim := (b.origin ++ b.coord).length + 1, dims := d } := by
  have e : ascii "Lines " ++ nt ++ ascii ",Origin " ++ ot ++ ascii ",Coord " ++ ct =
      (ascii "Lines " ++ nt) ++ 44 :: ((ascii "Origin " ++ ot) ++ 44 :: (ascii "Coord " ++ ct)) := by
    simp only [List.append_assoc]
    rfl
  rw [e, split_one 44 _ _ (not_mem_ascii _ (by decide) (dec_ne hn (by decide) (by decide))),
    split_one 44 _ _ (not_mem_ascii _ (by decide) (fun hm => by have := numbers_chars ho _ hm; omega)),
    split_none 44 _ (not_mem_ascii _ (by decide) (fun hm => by have := coords_chars hc _ hm; omega))]
  rw [commands, command_lines hn hl]
  dsimp only
  rw [commands, command_origin ho (fun n h => hf n (List.mem_append_left _ h)) _ rfl]
  dsimp only
  rw [commands, command_coord hc (fun n h => hf n (List.mem_append_right _ h)) _ rfl rfl]
  rfl

theorem control_header {d : Nat} {dt : List Int} (h : IsDecimal d dt) (hd : d < 2 ^ 64) :
    commands (splitString 44 (ascii "Version 1,Dimensions " ++ dt)) { dims := 0 } = .ok { dims := d } := by
  have e : ascii "Version 1,Dimensions " ++ dt = ascii "Version 1" ++ 44 :: (ascii "Dimensions " ++ dt) := rfl
  rw [e, split_one 44 _ _ (by decide), split_none 44 _ (not_mem_ascii _ (by decide) (dec_ne h (by decide) (by decide)))]
  have h1 : ∀ k, command (ascii "Version 1") k = .ok k := by
    intro k
    have hs : splitString 32 (ascii "Version 1") = [text "Version", text "1"] := by decide
    unfold command
    rw [hs]
    show named (text _) _ _ = _
    rw [named, if_pos rfl]
  have hs : splitString 32 (ascii "Dimensions " ++ dt) = [text "Dimensions", dt] := by
    have := split_one 32 (text "Dimensions") dt (by decide)
    rw [split_none 32 dt (dec_ne h (by decide) (by decide))] at this
    exact this
  have h2 : command (ascii "Dimensions " ++ dt) {} = .ok { dims := d } := by
    unfold command
    rw [hs]
    show named (text _) _ _ = _
    rw [named, if_neg (by decide), if_pos rfl, if_pos rfl]
    simp only [arg]
    rw [stoul_dec h hd]
  rw [commands, h1]
  dsimp only
  rw [commands, h2]
  rfl

/-! ### The stream as a list of lines -/

/-- The stream when `ls` are the lines not read yet. -/
def inp : List (List Int) → Input
  | [] => { rest := [], good := false }
  | l :: ls => { rest := unlines (l :: ls), good := true }

theorem takeLine_last (l : List Int) (h : (10 : Int) ∉ l) : takeLine l = (l, none) := by
  induction l with
  | nil => rfl
  | cons c t ih =>
    have h1 : c ≠ 10 := fun e => h (e ▸ List.mem_cons_self)
    rw [takeLine, if_neg h1, ih fun e => h (List.mem_cons_of_mem _ e)]

theorem takeLine_more (l r : List Int) (h : (10 : Int) ∉ l) : takeLine (l ++ 10 :: r) = (l, some r) := by
  induction l with
  | nil => rw [List.nil_append, takeLine, if_pos rfl]
  | cons c t ih =>
    have h1 : c ≠ 10 := fun e => h (e ▸ List.mem_cons_self)
    rw [List.cons_append, takeLine, if_neg h1, ih fun e => h (List.mem_cons_of_mem _ e)]

theorem getline_inp (line l : List Int) (ls : List (List Int)) (h : (10 : Int) ∉ l) : getline line (inp (l :: ls)) = (l, inp ls) := by
  unfold getline
  cases ls with
  | nil =>
    simp only [inp, unlines, if_true]
    rw [takeLine_last l h]
  | cons m ls =>
    simp only [inp, unlines, if_true]
    rw [takeLine_more l _ h]

theorem getline_end (line : List Int) : getline line (inp []) = (line, inp []) := rfl

/-! ### Blocks -/

theorem get_posAt (o : List Int) (i j k : Nat) :
    (posAt o i j).get k = if k = 0 then o.getD 0 0 + j else if k = 1 then o.getD 1 0 + i else o.getD k 0 := by
  unfold posAt
  rw [Vec.get_ofList]
  match k with
  | 0 => rfl
  | 1 => rfl
  | k + 2 =>
    rw [if_neg (by omega), if_neg (by omega)]
    simp [List.getD, Nat.add_comm]

theorem normal_posAt (o : List Int) (i j : Nat) : (posAt o i j).Normal := Vec.normal_ofList _

theorem size_posAt (o : List Int) (i j : Nat) : 0 < (posAt o i j).size := ofList_size_pos _ (by simp)

theorem posAt_start (o : List Int) (h : o ≠ []) : posAt o 0 0 = Vec.ofList o := by
  apply Vec.Normal.ext (normal_posAt _ _ _) (Vec.normal_ofList _) (size_posAt _ _ _) (ofList_size_pos _ h)
  intro k
  rw [get_posAt, Vec.get_ofList]
  match k with
  | 0 => simp [List.getD]
  | 1 => simp [List.getD]
  | k + 2 => rw [if_neg (by omega), if_neg (by omega)]; simp [List.getD]

theorem posAt_next (o : List Int) (i j : Nat) : (posAt o i j).set 0 ((posAt o i j).get 0 + 1) = posAt o i (j + 1) := by
  apply Vec.Normal.ext (Vec.normal_set _ _ _) (normal_posAt _ _ _) (Vec.size_set_pos _ _ _) (size_posAt _ _ _)
  intro k
  rw [Vec.get_set, get_posAt, get_posAt, get_posAt]
  by_cases h0 : k = 0
  · simp only [h0, if_true]; omega
  · simp only [h0, if_false]

theorem posAt_newline (o : List Int) (h : o ≠ []) (i j : Nat) :
    ((posAt o i j).set 0 ((Vec.ofList o).get 0)).set 1 (((posAt o i j).set 0 ((Vec.ofList o).get 0)).get 1 + 1) = posAt o (i + 1) 0 := by
  apply Vec.Normal.ext (Vec.normal_set _ _ _) (normal_posAt _ _ _) (Vec.size_set_pos _ _ _) (size_posAt _ _ _)
  intro k
  rw [Vec.get_set, Vec.get_set, Vec.get_set, get_posAt, get_posAt, get_posAt, ← posAt_start o h, get_posAt]
  match k with
  | 0 => simp
  | 1 => simp; omega
  | k + 2 => simp

theorem putLine_spec (f : Field) (o : List Int) (i j : Nat) (line : List Int) :
    putLine f (posAt o i j) line =
      (f.writes ((line.mapIdx fun c x => (posAt o i (j + c), x)).map fun w => (w.1, toChar w.2)), posAt o i (j + line.length)) := by
  induction line generalizing f j with
  | nil => rfl
  | cons c t ih =>
    rw [putLine, posAt_next, ih, List.mapIdx_cons, List.map_cons, List.length_cons]
    simp only [Nat.add_assoc, Nat.add_comm 1, Nat.add_zero]
    rfl

theorem block_spec (f : Field) (o : List Int) (h : o ≠ []) (i : Nat) (ls rest : List (List Int)) (hl : ∀ l ∈ ls, (10 : Int) ∉ l) (line : List Int) :
    block (Vec.ofList o) ls.length (posAt o i 0) line (inp (ls ++ rest)) f =
      (inp rest, f.writes (((ls.mapIdx fun k l => rowWrites o (i + k) l).flatten).map fun w => (w.1, toChar w.2))) := by
  induction ls generalizing f i line with
  | nil => rfl
  | cons l t ih =>
    rw [List.length_cons, block, List.cons_append, getline_inp _ _ _ (hl l List.mem_cons_self)]
    dsimp only
    rw [putLine_spec]
    dsimp only
    rw [posAt_newline o h, ih _ _ (fun l h => hl l (List.mem_cons_of_mem _ h))]
    congr 1
    rw [List.mapIdx_cons, List.flatten_cons, List.map_append, Field.writes_append]
    simp only [rowWrites, Nat.zero_add, Nat.add_zero, Nat.add_assoc, Nat.add_comm 1]

/-- The characters of a file as they are stored. -/
def stored (ws : List (Vec × Int)) : List (Vec × Int) := ws.map fun w => (w.1, toChar w.2)

theorem numbers_ne {ns t : List Int} (h : Numbers ns t) : ns ≠ [] := by cases h <;> simp

theorem ctl_no_newline {b : Block} {nt ot ct : List Int} (hn : IsDecimal b.lines.length nt) (ho : Numbers b.origin ot) (hc : Coords b.coord ct) :
    (10 : Int) ∉ ascii "Lines " ++ nt ++ ascii ",Origin " ++ ot ++ ascii ",Coord " ++ ct := by
  simp only [List.append_assoc]
  refine not_mem_ascii _ (by decide) fun hm => ?_
  rcases List.mem_append.1 hm with h1 | h1
  · exact dec_ne hn (by decide) (by decide) h1
  · refine not_mem_ascii _ (by decide) (fun hm => ?_) h1
    rcases List.mem_append.1 hm with h1 | h1
    · have := numbers_chars ho _ h1; omega
    · exact not_mem_ascii _ (by decide) (fun hm => by have := coords_chars hc _ hm; omega) h1

theorem loop_blocks {bs : List Block} {ls e : List (List Int)} (h : IsBlocks bs ls) (he : e = [] ∨ e = [[]]) (d : Nat) (f : Field) (n : Nat)
    (hn : (ls ++ e).length < n) : loop n d (inp (ls ++ e)) f = .ok (d, f.writes (stored (fileWrites bs))) := by
  induction h generalizing f n with
  | nil =>
    rcases he with rfl | rfl
    · cases n with
      | zero => simp at hn
      | succ n => rfl
    · match n, hn with
      | n + 2, _ => rfl
  | cons hb hbs ih =>
    rename_i b bs l ls
    obtain ⟨nt, ot, ct, h1, h2, h3, h4, h5, rfl, h6⟩ := hb
    cases n with
    | zero => omega
    | succ n =>
      have hg : (inp ((ascii "Lines " ++ nt ++ ascii ",Origin " ++ ot ++ ascii ",Coord " ++ ct) :: (b.lines ++ (ls ++ e)))).good = true := rfl
      rw [List.cons_append, List.cons_append, List.append_assoc b.lines ls e, loop, if_pos hg, getline_inp _ _ _ (ctl_no_newline h1 h2 h3)]
      dsimp only
      rw [control_block h1 h2 h3 h4 h5]
      dsimp only
      have hne : b.origin ++ b.coord ≠ [] := by
        have := numbers_ne h2
        simp [this]
      have hbl := block_spec f (b.origin ++ b.coord) hne 0 b.lines (ls ++ e) h6
        (ascii "Lines " ++ nt ++ ascii ",Origin " ++ ot ++ ascii ",Coord " ++ ct)
      rw [posAt_start _ hne] at hbl
      rw [hbl]
      dsimp only
      rw [ih _ n (by simp at hn ⊢; omega)]
      congr 2
      simp only [stored, fileWrites, List.map_cons, List.flatten_cons, List.map_append, Field.writes_append, Block.writes, Nat.zero_add]

theorem unlines_length (ls : List (List Int)) : ls.length ≤ (unlines ls).length + 1 := by
  fun_induction unlines ls with
  | case1 => simp
  | case2 => simp
  | case3 => rename_i ih; simp at ih ⊢; omega

theorem writes_dims (f : Field) (ws : List (Vec × Int)) : (f.writes ws).dims = f.dims := by
  induction ws generalizing f with
  | nil => rfl
  | cons w t ih => exact (ih _).trans (Field.put_dims _ _ _)

/-- **C66** A BeQunge file is loaded as it says: fungespace is what results from storing each character of each line of each block, in the order of the
file, at the point given by the origin of the block, the number of the line and the number of the column; nothing else is stored. The bytes above
127 are stored as negative numbers (`toChar`, see `C66_false_above_127`). -/
theorem C66_layout_partial {d : Nat} {bs : List Block} {bytes : List Int} (h : IsFile d bs bytes) (dim : Nat) (c : Bool) :
    load dim c bytes = .ok { (Field.new dim c).writes (stored (fileWrites bs)) with
      dims := if dim = 0 then ((Field.new dim c).writes (stored (fileWrites bs))).maxs.length else dim } := by
  obtain ⟨dt, ls, e, h1, h2, h3, h4, rfl⟩ := h
  have hnl : (10 : Int) ∉ ascii "Version 1,Dimensions " ++ dt := not_mem_ascii _ (by decide) (dec_ne h1 (by decide) (by decide))
  have hlen := unlines_length ((ascii "Version 1,Dimensions " ++ dt) :: (ls ++ e))
  rw [List.length_cons] at hlen
  have hloop : loop ((unlines ((ascii "Version 1,Dimensions " ++ dt) :: (ls ++ e))).length + 2) 0
      { rest := unlines ((ascii "Version 1,Dimensions " ++ dt) :: (ls ++ e)), good := true } (Field.new dim c) =
      .ok (d, (Field.new dim c).writes (stored (fileWrites bs))) := by
    rw [loop, if_pos rfl]
    have hg := getline_inp [] _ (ls ++ e) hnl
    simp only [inp] at hg
    rw [hg]
    dsimp only
    rw [control_header h1 h2]
    dsimp only
    exact loop_blocks h3 h4 d _ _ (by omega)
  unfold load parseBeq
  rw [hloop]
  dsimp only
  rw [writes_dims]
  by_cases hd : dim = 0
  · simp [hd, Field.new]
  · simp only [hd, if_false, Field.new]
    congr 1
    have := writes_dims { dims := dim, charCells := c } (stored (fileWrites bs))
    generalize hf : Field.writes { dims := dim, charCells := c } (stored (fileWrites bs)) = f at *
    cases f
    simp_all


/-- A file in the format: two blocks, the second one plane higher. -/
def exBlocks : List Block := [⟨[0, 0], [0], [[62, 118], [60, 64]]⟩, ⟨[1, 0], [-1], [[97]]⟩]

/-- Its bytes. -/
def exFile : List Int := ascii "Version 1,Dimensions 3\nLines 2,Origin 0:0,Coord 0:\n>v\n<@\nLines 1,Origin 1:0,Coord -1:\na"

theorem isDecimal_digit {n : Int} (h : 0 ≤ n) (h' : n ≤ 9) : IsDecimal n [n + 48] :=
  Or.inl ⟨h, ⟨by simp, by intro c hc; simp at hc; omega, by simp⟩, by simp [digitsValue]⟩

theorem isDecimal_minus_digit {n : Int} (h : 0 < n) (h' : n ≤ 9) : IsDecimal (-n) [45, n + 48] :=
  Or.inr ⟨by omega, [n + 48], rfl, ⟨by simp, by intro c hc; simp at hc; omega, by simp⟩, by simp [digitsValue]⟩

theorem exFile_isFile : IsFile 3 exBlocks exFile := by
  refine ⟨[51], _, [], isDecimal_digit (n := 3) (by decide) (by decide), by decide, .cons (b := exBlocks[0])
    ⟨[50], [48] ++ 58 :: [48], [48] ++ 58 :: [], isDecimal_digit (n := 2) (by decide) (by decide),
      .cons (isDecimal_digit (n := 0) (by decide) (by decide)) (.one (isDecimal_digit (n := 0) (by decide) (by decide))),
      .cons (isDecimal_digit (n := 0) (by decide) (by decide)) .nil, ?_, by decide, rfl, by decide⟩
    (.cons (b := exBlocks[1]) ⟨[49], [49] ++ 58 :: [48], [45, 49] ++ 58 :: [], isDecimal_digit (n := 1) (by decide) (by decide),
      .cons (isDecimal_digit (n := 1) (by decide) (by decide)) (.one (isDecimal_digit (n := 0) (by decide) (by decide))),
      .cons (isDecimal_minus_digit (n := 1) (by decide) (by decide)) .nil, ?_, by decide, rfl, by decide⟩ .nil), Or.inl rfl, ?_⟩
  · intro n hn; simp [exBlocks] at hn; unfold FitsInt; omega
  · intro n hn; simp [exBlocks] at hn; unfold FitsInt; omega
  · decide

/-- **C66** So the last character the file gives for a point is the one found there (bytes above 127 as negative numbers)... -/
theorem C66_character_partial {d : Nat} {bs : List Block} {bytes : List Int} (h : IsFile d bs bytes) (dim : Nat) (c : Bool) {h1 h2 : List (Vec × Int)}
    {p q : Vec} {x : Int} (hw : fileWrites bs = h1 ++ (p, x) :: h2) (hp : Field.SamePoint p q) (hl : ∀ w ∈ h2, ¬ Field.SamePoint w.1 q) :
    ∃ f, load dim c bytes = .ok f ∧ f.get q = toChar x := by
  refine ⟨_, C66_layout_partial h dim c, ?_⟩
  have := Field.get_writes_last (f := Field.new dim c) (Field.Reachable.new dim c).unique (stored h1) (stored h2) p q (toChar x) hp (by
    intro w hw
    simp only [stored, List.mem_map] at hw
    obtain ⟨w', h3, rfl⟩ := hw
    exact hl w' h3)
  have hs : stored (fileWrites bs) = stored h1 ++ (p, toChar x) :: stored h2 := by
    rw [hw]; simp [stored]
  rw [hs]
  have hcell : (Field.new dim c).cellOf (toChar x) = toChar x := by
    unfold Field.cellOf
    split
    · exact Field.toChar_idem x
    · rfl
  rw [hcell] at this
  exact this

/-- ... and every other point is blank. -/
theorem C66_blank {d : Nat} {bs : List Block} {bytes : List Int} (h : IsFile d bs bytes) (dim : Nat) (c : Bool) (q : Vec)
    (hl : ∀ w ∈ fileWrites bs, ¬ Field.SamePoint w.1 q) : ∃ f, load dim c bytes = .ok f ∧ f.get q = 32 := by
  refine ⟨_, C66_layout_partial h dim c, ?_⟩
  have := Field.C08_unwritten_is_blank dim c (stored (fileWrites bs)) q (by
    intro w hw
    simp only [stored, List.mem_map] at hw
    obtain ⟨w', h3, rfl⟩ := hw
    exact hl w' h3)
  exact this

example : ∃ f, load 0 false exFile = .ok f ∧ f.get (Vec.ofList [1, 1]) = 64 ∧ f.get (Vec.ofList [1, 0, -1]) = 97 ∧ f.get (Vec.ofList [1, 1, -1]) = 32 :=
  ⟨_, C66_layout_partial exFile_isFile 0 false, by decide +kernel⟩

/-- **C66** is violated by bytes above 127: the character comes from a `char`, which is signed, so the same byte is another cell than in a file loaded as
text (C11), which keeps it. -/
theorem C66_false_above_127 : ∃ d bs bytes, IsFile d bs bytes ∧ fileWrites bs = [(Vec.ofList [0, 0], 233)] ∧ ∃ f, load 0 false bytes = .ok f ∧
    f.get (Vec.ofList [0, 0]) = -23 := by
  have h : IsFile 2 [⟨[0, 0], [], [[233]]⟩] (ascii "Version 1,Dimensions 2\nLines 1,Origin 0:0,Coord \n" ++ [233]) := by
    refine ⟨[50], _, [], isDecimal_digit (n := 2) (by decide) (by decide), by decide, .cons
      ⟨[49], [48] ++ 58 :: [48], [], isDecimal_digit (n := 1) (by decide) (by decide),
        .cons (isDecimal_digit (n := 0) (by decide) (by decide)) (.one (isDecimal_digit (n := 0) (by decide) (by decide))),
        .nil, ?_, by decide, rfl, by decide⟩ .nil, Or.inl rfl, by decide⟩
    intro n hn; simp at hn; unfold FitsInt; omega
  exact ⟨_, _, _, h, by decide, _, C66_layout_partial h 0 false, by decide +kernel⟩

theorem block_end (f : Field) (o : List Int) (h : o ≠ []) (i n : Nat) (line : List Int) :
    block (Vec.ofList o) n (posAt o i 0) line (inp []) f =
      (inp [], f.writes (stored (((List.replicate n line).mapIdx fun k l => rowWrites o (i + k) l).flatten))) := by
  induction n generalizing f i with
  | zero => rfl
  | succ n ih =>
    rw [block, getline_end]
    dsimp only
    rw [putLine_spec]
    dsimp only
    rw [posAt_newline o h, ih, List.replicate_succ]
    congr 1
    rw [List.mapIdx_cons, List.flatten_cons, stored, stored, List.map_append, Field.writes_append]
    simp only [rowWrites, Nat.zero_add, Nat.add_zero, Nat.add_assoc, Nat.add_comm 1]

/-- **C66** is violated when a block announces more lines than the file has: the last line is loaded again and again, as many times as are missing, although
the file has it once (`getline` leaves the string as it was once the file has ended). -/
theorem C66_false_short_block (dim : Nat) (c : Bool) {n : Nat} {nt ot : List Int} {o : List Int} (hn : IsDecimal (n + 1 : Nat) nt) (hb : n + 1 < 2 ^ 64)
    (ho : Numbers o ot) (hf : ∀ n ∈ o, FitsInt n) (l : List Int) (hl : (10 : Int) ∉ l) :
    ∃ f, load dim c (ascii "Lines " ++ nt ++ ascii ",Origin " ++ ot ++ ascii ",Coord " ++ 10 :: l) = .ok f ∧
      f.cells = ((Field.new dim c).writes (stored (Block.writes ⟨o, [], List.replicate (n + 1) l⟩))).cells := by
  have hc := control_block (b := ⟨o, [], List.replicate (n + 1) l⟩) (nt := nt) (ot := ot) (ct := []) (by simpa using hn) ho .nil
    (by simpa using hf) (by simpa using hb) 0
  have hnl := ctl_no_newline (b := ⟨o, [], List.replicate (n + 1) l⟩) (nt := nt) (ot := ot) (ct := []) (by simpa using hn) ho .nil
  rw [List.append_nil] at hc hnl
  simp only [List.length_replicate, List.append_nil] at hc
  have hne := numbers_ne ho
  generalize hT : ascii "Lines " ++ nt ++ ascii ",Origin " ++ ot ++ ascii ",Coord " = T at *
  have hloop : loop ((T ++ 10 :: l).length + 2) 0 { rest := T ++ 10 :: l, good := true } (Field.new dim c) =
      .ok (0, (Field.new dim c).writes (stored (Block.writes ⟨o, [], List.replicate (n + 1) l⟩))) := by
    have hi : ({ rest := T ++ 10 :: l, good := true } : Input) = inp [T, l] := rfl
    rw [hi, loop, if_pos (show (inp [T, l]).good = true from rfl), getline_inp _ _ _ hnl]
    dsimp only
    rw [hc]
    dsimp only
    have h1 : block (Vec.ofList o) (n + 1) (posAt o 0 0) T (inp [l]) (Field.new dim c) =
        block (Vec.ofList o) n (posAt o 1 0) l (inp []) ((Field.new dim c).writes (stored (rowWrites o 0 l))) := by
      rw [block, getline_inp _ _ _ hl]
      dsimp only
      rw [putLine_spec]
      dsimp only
      rw [posAt_newline o hne]
      simp only [stored, rowWrites, Nat.zero_add]
    rw [posAt_start o hne] at h1
    rw [h1, block_end _ o hne]
    dsimp only
    rw [loop]
    · rw [if_neg (show ¬ (inp []).good = true by decide), ← Field.writes_append]
      congr 3
      simp only [Block.writes, List.append_nil, stored, List.replicate_succ, List.mapIdx_cons, List.flatten_cons, List.map_append]
      simp only [Nat.add_comm 1]
  unfold load parseBeq
  rw [hloop]
  dsimp only
  refine ⟨_, rfl, ?_⟩
  by_cases h1 : dim = 0 <;> by_cases h2 : ((Field.new dim c).writes (stored (Block.writes ⟨o, [], List.replicate (n + 1) l⟩))).dims = 0 <;>
    simp only [h1, h2, if_true, if_false] <;> subst_vars <;> simp_all

example : IsDecimal ((1 : Nat) + 1 : Nat) [50] ∧ Numbers [3] [51] :=
  ⟨isDecimal_digit (n := 2) (by decide) (by decide), .one (isDecimal_digit (n := 3) (by decide) (by decide))⟩

/-! ### Every file is read to its end -/

theorem split_no_delim (d : Int) (t : List Int) : ∀ w ∈ splitString d t, d ∉ w := by
  induction t with
  | nil => intro w hw; simp [splitString] at hw; simp [hw]
  | cons c t ih =>
    rw [splitString]
    split
    · intro w hw
      rcases List.mem_cons.1 hw with rfl | h
      · simp
      · exact ih w h
    · rename_i hc
      cases hs : splitString d t with
      | nil => intro w hw; simp at hw; subst hw; simp; exact fun e => hc e.symm
      | cons v vs =>
        rw [hs] at ih
        intro w hw
        rcases List.mem_cons.1 hw with rfl | h
        · intro hm
          rcases List.mem_cons.1 hm with h | h
          · exact hc h.symm
          · exact ih v List.mem_cons_self h
        · exact ih w (List.mem_cons_of_mem _ h)

theorem unlines_split (t : List Int) : unlines (splitString 10 t) = t := by
  induction t with
  | nil => rfl
  | cons c t ih =>
    rw [splitString]
    cases hs : splitString 10 t with
    | nil => exact absurd hs (split_ne_nil _ _)
    | cons v vs =>
      rw [hs] at ih
      split
      · rename_i hc
        rw [unlines, ih, hc]; rfl
      · cases vs with
        | nil => simp only [unlines] at ih ⊢; rw [ih]
        | cons u us => simp only [unlines] at ih ⊢; rw [List.cons_append, ih]

theorem inp_split (t : List Int) : ({ rest := t, good := true } : Input) = inp (splitString 10 t) := by
  cases hs : splitString 10 t with
  | nil => exact absurd hs (split_ne_nil _ _)
  | cons v vs =>
    show _ = ({ rest := unlines (v :: vs), good := true } : Input)
    rw [← hs, unlines_split]

theorem block_rest (origin : Vec) (n : Nat) (pos : Vec) (line : List Int) (ls : List (List Int)) (hl : ∀ l ∈ ls, (10 : Int) ∉ l) (f : Field) :
    ∃ f', block origin n pos line (inp ls) f = (inp (ls.drop n), f') := by
  induction n generalizing pos line ls f with
  | zero => exact ⟨f, rfl⟩
  | succ n ih =>
    rw [block]
    cases ls with
    | nil =>
      rw [getline_end]
      obtain ⟨f', h⟩ := ih _ line [] (by simp) _
      exact ⟨f', by rw [h]; simp⟩
    | cons l ls =>
      rw [getline_inp _ _ _ (hl l List.mem_cons_self)]
      obtain ⟨f', h⟩ := ih _ l ls (fun l h => hl l (List.mem_cons_of_mem _ h)) _
      exact ⟨f', h⟩

theorem loop_no_fuel (ls : List (List Int)) (hl : ∀ l ∈ ls, (10 : Int) ∉ l) (n d : Nat) (f : Field) (hn : ls.length < n)
    (hc : ∀ c k, commands c k ≠ .error .fuel) : loop n d (inp ls) f ≠ .error .fuel := by
  induction n generalizing ls d f with
  | zero => omega
  | succ n ih =>
    cases ls with
    | nil => intro h; cases h
    | cons l ls =>
      rw [loop, if_pos (show (inp (l :: ls)).good = true from rfl), getline_inp _ _ _ (hl l List.mem_cons_self)]
      dsimp only
      cases hk : commands (splitString 44 l) { dims := d } with
      | error e =>
        intro h
        simp only [Except.error.injEq] at h
        exact hc _ _ (h ▸ hk)
      | ok k =>
        dsimp only
        obtain ⟨f', h⟩ := block_rest k.origin k.lines k.origin l ls (fun l h => hl l (List.mem_cons_of_mem _ h)) f
        rw [h]
        refine ih _ (fun l h => hl l (List.mem_cons_of_mem _ (List.mem_of_mem_drop h))) _ _ ?_
        simp at hn ⊢; omega

theorem stoi_no_fuel (t : List Int) : stoi t ≠ .error .fuel := by
  unfold stoi
  cases strtol t with
  | none => intro h; cases h
  | some r =>
    obtain ⟨neg, v⟩ := r
    dsimp only
    generalize (if neg = true then -v else v) = x
    by_cases hx : -2147483648 ≤ x ∧ x ≤ 2147483647
    · rw [if_pos hx]; intro h; cases h
    · rw [if_neg hx]; intro h; cases h

theorem stoul_no_fuel (t : List Int) : stoul t ≠ .error .fuel := by
  unfold stoul
  cases strtol t with
  | none => intro h; cases h
  | some r =>
    obtain ⟨neg, v⟩ := r
    dsimp only
    by_cases hx : v ≤ 18446744073709551615
    · rw [if_pos hx]; intro h; cases h
    · rw [if_neg hx]; intro h; cases h

theorem fuel_of {α β : Type} {e : Fault} (h : (.error e : Except Fault α) = .error .fuel) : (.error e : Except Fault β) = .error .fuel := by
  cases h; rfl

theorem setOrigin_no_fuel (ws : List (List Int)) (d : Nat) (v : Vec) : setOrigin ws d v ≠ .error .fuel := by
  induction ws generalizing d v with
  | nil => intro h; cases h
  | cons w ws ih =>
    rw [setOrigin]
    cases hs : stoi w with
    | error e => intro h; exact stoi_no_fuel w (hs.trans (fuel_of h))
    | ok x => exact ih _ _

theorem setCoord_no_fuel (ws : List (List Int)) (d : Nat) (v : Vec) : setCoord ws d v ≠ .error .fuel := by
  induction ws generalizing d v with
  | nil => intro h; cases h
  | cons w ws ih =>
    rw [setCoord]
    split
    · exact ih _ _
    · cases hs : stoi w with
      | error e => intro h; exact stoi_no_fuel w (hs.trans (fuel_of h))
      | ok x => exact ih _ _

theorem arg_no_fuel (ws : List (List Int)) : arg ws ≠ .error .fuel := by
  rcases ws with _ | ⟨a, _ | ⟨b, t⟩⟩ <;> (intro h; cases h)

theorem named_no_fuel (name : List Int) (cmd : List (List Int)) (k : Ctl) : named name cmd k ≠ .error .fuel := by
  have ha := arg_no_fuel cmd
  unfold named
  cases harg : arg cmd with
  | error e =>
    have he : (.error e : Except Fault Ctl) ≠ .error .fuel := fun h => ha (harg.trans (fuel_of h))
    dsimp only
    repeat' split
    all_goals (first | exact he | (intro h; cases h; done))
  | ok a =>
    have h1 := stoul_no_fuel a
    have h2 := setOrigin_no_fuel (splitString 58 a) 0 k.origin
    have h3 := setCoord_no_fuel (splitString 58 a) k.dim k.origin
    dsimp only
    split
    · intro h; cases h
    split
    · split
      · cases hs : stoul a with
        | error e => intro h; exact h1 (hs.trans (fuel_of h))
        | ok n => intro h; cases h
      · intro h; cases h
    split
    · cases hs : stoul a with
      | error e => intro h; exact h1 (hs.trans (fuel_of h))
      | ok n => intro h; cases h
    split
    · cases hs : setOrigin (splitString 58 a) 0 k.origin with
      | error e => intro h; exact h2 (hs.trans (fuel_of h))
      | ok n => intro h; cases h
    split
    · cases hs : setCoord (splitString 58 a) k.dim k.origin with
      | error e => intro h; exact h3 (hs.trans (fuel_of h))
      | ok n => intro h; cases h
    · intro h; cases h

theorem commands_no_fuel (c : List (List Int)) (k : Ctl) : commands c k ≠ .error .fuel := by
  induction c generalizing k with
  | nil => intro h; cases h
  | cons w ws ih =>
    rw [commands]
    cases hs : command w k with
    | error e => intro h; exact named_no_fuel _ _ _ (hs.trans (fuel_of h))
    | ok x => exact ih _

/-- **C66** Loading ends for every file whatsoever: the bound on the number of rounds of the model is never what stops it. -/
theorem C66_ends (dim : Nat) (c : Bool) (bytes : List Int) : load dim c bytes ≠ .error .fuel := by
  have hlen := unlines_length (splitString 10 bytes)
  rw [unlines_split] at hlen
  have h := loop_no_fuel (splitString 10 bytes) (split_no_delim 10 bytes) (bytes.length + 2) 0 (Field.new dim c) (by omega) commands_no_fuel
  rw [← inp_split] at h
  unfold load parseBeq
  cases hl : loop (bytes.length + 2) 0 { rest := bytes, good := true } (Field.new dim c) with
  | error e => rw [hl] at h; intro h'; exact h (fuel_of (α := Field) h')
  | ok r => intro h'; cases h'

/-! ### C67: dimensions -/

theorem writes_maxs_le (f : Field) (ws : List (Vec × Int)) (d : Nat) (hf : f.maxs.length ≤ d) (h : ∀ w ∈ ws, w.1.size ≤ d) :
    (f.writes ws).maxs.length ≤ d := by
  induction ws generalizing f with
  | nil => exact hf
  | cons w t ih =>
    refine ih _ ?_ fun w hw => h w (List.mem_cons_of_mem _ hw)
    rw [Field.length_maxs_put]
    exact Nat.max_le.2 ⟨hf, h w List.mem_cons_self⟩

theorem writes_maxs_mono (f : Field) (ws : List (Vec × Int)) : f.maxs.length ≤ (f.writes ws).maxs.length := by
  induction ws generalizing f with
  | nil => exact Nat.le_refl _
  | cons w t ih =>
    refine Nat.le_trans ?_ (ih (f.put w.1 w.2))
    rw [Field.length_maxs_put]
    exact Nat.le_max_left _ _

theorem writes_maxs_ge (f : Field) (ws : List (Vec × Int)) (w : Vec × Int) (h : w ∈ ws) : w.1.size ≤ (f.writes ws).maxs.length := by
  induction ws generalizing f with
  | nil => cases h
  | cons v t ih =>
    rcases List.mem_cons.1 h with rfl | h
    · refine Nat.le_trans ?_ (writes_maxs_mono (f.put w.1 w.2) t)
      rw [Field.length_maxs_put]
      exact Nat.le_max_right _ _
    · exact ih _ h

theorem fileWrites_normal (bs : List Block) : ∀ w ∈ fileWrites bs, w.1.Normal := by
  intro w hw
  simp only [fileWrites, List.mem_flatten, List.mem_map] at hw
  obtain ⟨_, ⟨b, _, rfl⟩, hw⟩ := hw
  simp only [Block.writes, List.mem_flatten] at hw
  obtain ⟨r, hr, hw⟩ := hw
  obtain ⟨i, hi, rfl⟩ := List.mem_mapIdx.1 hr
  obtain ⟨j, hj, rfl⟩ := List.mem_mapIdx.1 hw
  exact normal_posAt _ _ _

/-- **C67** (partial: only if the text really reaches the declared dimension, see `C67_false_declaration_ignored`) If the file declares `d` dimensions, some
character lies outside the first `d - 1` of them, and none outside the `d`, then fungespace has `d` dimensions. -/
theorem C67_dimensions_partial {d : Nat} {bs : List Block} {bytes : List Int} (h : IsFile d bs bytes) (c : Bool) (hd : 0 < d)
    (h1 : ∀ w ∈ fileWrites bs, ∀ k, d ≤ k → w.1.get k = 0) (h2 : ∃ w ∈ fileWrites bs, w.1.get (d - 1) ≠ 0) :
    ∃ f, load 0 c bytes = .ok f ∧ f.dims = d := by
  refine ⟨_, C66_layout_partial h 0 c, ?_⟩
  show ((Field.new 0 c).writes (stored (fileWrites bs))).maxs.length = d
  have hsize : ∀ w ∈ fileWrites bs, w.1.size ≤ d := by
    intro w hw
    have hn := fileWrites_normal bs w hw
    apply Decidable.byContradiction
    intro hgt
    exact hn.get_last (by omega) (h1 w hw _ (by omega))
  apply Nat.le_antisymm
  · refine writes_maxs_le _ _ d (by simp [Field.new]) ?_
    intro w hw
    simp only [stored, List.mem_map] at hw
    obtain ⟨w', hw', rfl⟩ := hw
    exact hsize w' hw'
  · obtain ⟨w, hw, h3⟩ := h2
    have := writes_maxs_ge (Field.new 0 c) (stored (fileWrites bs)) (w.1, toChar w.2) (List.mem_map.2 ⟨w, hw, rfl⟩)
    have hs : d - 1 < w.1.size := by
      apply Decidable.byContradiction
      intro hge
      apply h3
      exact dif_neg hge
    dsimp only at this
    omega

example : (∀ w ∈ fileWrites exBlocks, ∀ k, 3 ≤ k → w.1.get k = 0) ∧ ∃ w ∈ fileWrites exBlocks, w.1.get 2 ≠ 0 := by
  constructor
  · intro w hw k hk
    have : ∀ w ∈ fileWrites exBlocks, w.1.size ≤ 3 := by decide
    have := this w hw
    unfold Vec.get Vec.size at *
    rw [dif_neg (by omega)]
  · exact ⟨(posAt [1, 0, -1] 0 0, 97), by decide, by decide⟩

/-- **C67** is violated: the declaration has no influence at all. Two files that differ only in the number of dimensions they declare are loaded alike, ... -/
theorem C67_false_declaration_ignored {d d' : Nat} {bs : List Block} {bytes bytes' : List Int} (h : IsFile d bs bytes) (h' : IsFile d' bs bytes')
    (dim : Nat) (c : Bool) : load dim c bytes = load dim c bytes' := by
  rw [C66_layout_partial h, C66_layout_partial h']

/-- ... so that a program of one line is a Unefunge program, although it declares three dimensions. -/
theorem C67_false_one_line : ∃ bs bytes, IsFile 3 bs bytes ∧ ∃ f, load 0 false bytes = .ok f ∧ f.dims = 1 := by
  have h : IsFile 3 [⟨[0, 0], [0], [[62, 64]]⟩] (ascii "Version 1,Dimensions 3\nLines 1,Origin 0:0,Coord 0:\n>@\n") := by
    refine ⟨[51], _, [[]], isDecimal_digit (n := 3) (by decide) (by decide), by decide, .cons
      ⟨[49], [48] ++ 58 :: [48], [48] ++ 58 :: [], isDecimal_digit (n := 1) (by decide) (by decide),
        .cons (isDecimal_digit (n := 0) (by decide) (by decide)) (.one (isDecimal_digit (n := 0) (by decide) (by decide))),
        .cons (isDecimal_digit (n := 0) (by decide) (by decide)) .nil, ?_, by decide, rfl, by decide⟩ .nil, Or.inr rfl, by decide⟩
    intro n hn; simp at hn; unfold FitsInt; omega
  exact ⟨_, _, h, _, C66_layout_partial h 0 false, by decide +kernel⟩

end Beq
end Funge
