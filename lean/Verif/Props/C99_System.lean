import Verif.Lemmas.Exec
import Verif.Lemmas.Tick
import Verif.Lemmas.Krfl
import Verif.Model.Run
/-!
# C99: what is handed to the operating system is the string on the stack
-/
namespace Funge
open Exec

/-- A string for the operating system: bytes other than 0. -/
def Spelled (t : List Int) : Prop := ∀ c ∈ t, c ≠ 0 ∧ -128 ≤ c ∧ c ≤ 127

/-- `s'` is `s` after the effects `e`, in this order, and `k` answers of the environment, with the values `l` on the top stack; nothing else has changed. -/
def St.Does (s s' : St) (e : List Eff) (k : Nat) (l : List Int) : Prop :=
  ∃ n, s' = (s.setG { s.g with eff := s.g.eff ++ e, asked := s.g.asked + k }).setItems l n

theorem spelled_take {t : List Int} (h : Spelled t) (l : List Int) : (t ++ 0 :: l).takeWhile (· ≠ 0) = t ∧ (t ++ 0 :: l).dropWhile (· ≠ 0) = 0 :: l := by
  induction t with
  | nil => exact ⟨rfl, rfl⟩
  | cons c t ih =>
    have hc := (h c (by simp)).1
    have := ih fun x hx => h x (by simp [hx])
    constructor
    · rw [List.cons_append, List.takeWhile_cons, if_pos (by simpa using hc), this.1]
    · rw [List.cons_append, List.dropWhile_cons, if_pos (by simpa using hc), this.2]

theorem toChar_byte {c : Int} (h : -128 ≤ c ∧ c ≤ 127) : toChar c = c := by unfold toChar; rw [Int.bmod_def]; split <;> omega

theorem spelled_chars {t : List Int} (h : Spelled t) : t.map toChar = t := by
  conv => rhs; rw [← List.map_id t]
  exact List.map_congr_left fun c hc => toChar_byte (h c hc).2

theorem cstr_spelled {t : List Int} (h : Spelled t) : cstr t = t := by
  unfold cstr
  induction t with
  | nil => rfl
  | cons c t ih => rw [List.takeWhile_cons, if_pos (by simpa using (h c (by simp)).1), ih fun x hx => h x (by simp [hx])]

theorem popString_spelled {s : St} (h : s.Lifo) {t : List Int} (ht : Spelled t) (l : List Int) (n : Nat) :
    ∃ n', popString (s.setItems (t ++ 0 :: l) n) = .ok (t, s.setItems l n') := by
  obtain ⟨n', e⟩ := popString_run h (t ++ 0 :: l) n
  refine ⟨n', ?_⟩
  rw [e, (spelled_take ht l).1, (spelled_take ht l).2, spelled_chars ht]
  rfl

theorem popString_items {s : St} (h : s.Lifo) {t l : List Int} (ht : Spelled t) (hi : s.items = t ++ 0 :: l) : ∃ n, popString s = .ok (t, s.setItems l n) := by
  have := popString_spelled h ht l s.top.ops
  rwa [← hi, setItems_self h] at this

/-- **C99.** `=` runs the command that is on the stack, and nothing else, and pushes what it returns. -/
theorem C99_execute {s : St} (h : s.Lifo) {t l : List Int} (ht : Spelled t) (hi : s.items = t ++ 0 :: l) (hc : s.g.cfg.execute = true) :
    ∃ s', iExecute s = .ok (.none, s') ∧ s.Does s' [.system t] 1 (toInt (s.g.orc s.g.asked) :: l) := by
  obtain ⟨n, hp⟩ := popString_items h ht hi
  refine ⟨_, ?_, n + 1, rfl⟩
  rw [iExecute, bind_ok (getCfg_run s), if_pos hc, bind_ok hp, bind_ok (emit_run _ _), cstr_spelled ht]
  exact bind_ok (pushTop_run (s := s.setG { s.g with eff := s.g.eff ++ [.system t], asked := s.g.asked + 1 }) h l n _)

/-- **C99.** `C` of DIRF changes to the directory named on the stack if there is one, and is otherwise as if it were not implemented. -/
theorem C99_change_directory {s : St} (h : s.Lifo) {t l : List Int} (ht : Spelled t) (hi : s.items = t ++ 0 :: l) :
    (s.g.dirs s.g.asked = true → ∃ s', dirfRun 67 s = .ok (.none, s') ∧ s.Does s' [.chdir t] 1 l) ∧
    (s.g.dirs s.g.asked = false → ∃ s', dirfRun 67 s = .ok (.unspec, s') ∧ s.Does s' [] 1 l) := by
  obtain ⟨n, hp⟩ := popString_items h ht hi
  constructor
  · intro hd
    refine ⟨_, ?_, n, rfl⟩
    show dirfChange s = _
    have ha : askDir (s.setItems l n) = .ok (true, (s.setG { s.g with asked := s.g.asked + 1 }).setItems l n) := by
      rw [← hd]; rfl
    rw [dirfChange, bind_ok hp, bind_ok ha, if_pos rfl, bind_ok (emit_run _ _), cstr_spelled ht]
    rfl
  · intro hd
    refine ⟨_, ?_, n, rfl⟩
    show dirfChange s = _
    have ha : askDir (s.setItems l n) = .ok (false, (s.setG { s.g with asked := s.g.asked + 1 }).setItems l n) := by
      rw [← hd]; rfl
    rw [dirfChange, bind_ok hp, bind_ok ha, if_neg Bool.false_ne_true, List.append_nil]
    rfl

/-- **C99** (partial: see `C99_false_directory_not_made`) `M` of DIRF makes the directory named on the stack if the system can. -/
theorem C99_make_directory_partial {s : St} (h : s.Lifo) {t l : List Int} (ht : Spelled t) (hi : s.items = t ++ 0 :: l) (hd : s.g.dirs s.g.asked = true) :
    ∃ s', dirfRun 77 s = .ok (.none, s') ∧ s.Does s' [.mkdir t] 1 l := by
  obtain ⟨n, hp⟩ := popString_items h ht hi
  refine ⟨_, ?_, n, rfl⟩
  show dirfMake s = _
  rw [dirfMake, bind_ok hp, bind_ok (emit_run _ _), cstr_spelled ht]
  have ha : askDir ((s.setG { s.g with eff := s.g.eff ++ [.mkdir t] }).setItems l n) =
      .ok (true, (s.setG { s.g with eff := s.g.eff ++ [.mkdir t], asked := s.g.asked + 1 }).setItems l n) := by rw [← hd]; rfl
  exact bind_ok ha

/-- **C99** fails where the system cannot make the directory: the exception ends the interpreter instead of reflecting the IP. -/
theorem C99_false_directory_not_made {s : St} (h : s.Lifo) {t l : List Int} (ht : Spelled t) (hi : s.items = t ++ 0 :: l) (hd : s.g.dirs s.g.asked = false) :
    dirfRun 77 s = .error .exception := by
  obtain ⟨n, hp⟩ := popString_items h ht hi
  show dirfMake s = _
  rw [dirfMake, bind_ok hp, bind_ok (emit_run _ _), cstr_spelled ht]
  have ha : askDir ((s.setG { s.g with eff := s.g.eff ++ [.mkdir t] }).setItems l n) =
      .ok (false, (s.setG { s.g with eff := s.g.eff ++ [.mkdir t], asked := s.g.asked + 1 }).setItems l n) := by rw [← hd]; rfl
  exact bind_ok ha

/-- **C99** (partial: see `C99_false_directory_not_removed`) `R` of DIRF removes the directory named on the stack, and is as if it were not implemented if there is none. -/
theorem C99_remove_directory_partial {s : St} (h : s.Lifo) {t l : List Int} (ht : Spelled t) (hi : s.items = t ++ 0 :: l) :
    (s.g.dirs s.g.asked = true → s.g.dirs (s.g.asked + 1) = true → ∃ s', dirfRun 82 s = .ok (.none, s') ∧ s.Does s' [.rmdir t] 2 l) ∧
    (s.g.dirs s.g.asked = false → ∃ s', dirfRun 82 s = .ok (.unspec, s') ∧ s.Does s' [] 1 l) := by
  obtain ⟨n, hp⟩ := popString_items h ht hi
  constructor
  · intro hd hd2
    refine ⟨_, ?_, n, rfl⟩
    show dirfRemove s = _
    have ha : askDir (s.setItems l n) = .ok (true, (s.setG { s.g with asked := s.g.asked + 1 }).setItems l n) := by
      rw [← hd]; rfl
    rw [dirfRemove, bind_ok hp, bind_ok ha, if_pos rfl, bind_ok (emit_run _ _), cstr_spelled ht]
    have hb : askDir ((s.setG { s.g with eff := s.g.eff ++ [.rmdir t], asked := s.g.asked + 1 }).setItems l n) =
        .ok (true, (s.setG { s.g with eff := s.g.eff ++ [.rmdir t], asked := s.g.asked + 2 }).setItems l n) := by rw [← hd2]; rfl
    exact bind_ok hb
  · intro hd
    refine ⟨_, ?_, n, rfl⟩
    show dirfRemove s = _
    have ha : askDir (s.setItems l n) = .ok (false, (s.setG { s.g with asked := s.g.asked + 1 }).setItems l n) := by
      rw [← hd]; rfl
    rw [dirfRemove, bind_ok hp, bind_ok ha, if_neg Bool.false_ne_true, List.append_nil]
    rfl

/-- **C99** fails for a directory that cannot be removed, for instance because it is not empty: the exception ends the interpreter. -/
theorem C99_false_directory_not_removed {s : St} (h : s.Lifo) {t l : List Int} (ht : Spelled t) (hi : s.items = t ++ 0 :: l) (hd : s.g.dirs s.g.asked = true)
    (hd2 : s.g.dirs (s.g.asked + 1) = false) : dirfRun 82 s = .error .exception := by
  obtain ⟨n, hp⟩ := popString_items h ht hi
  show dirfRemove s = _
  have ha : askDir (s.setItems l n) = .ok (true, (s.setG { s.g with asked := s.g.asked + 1 }).setItems l n) := by
    rw [← hd]; rfl
  rw [dirfRemove, bind_ok hp, bind_ok ha, if_pos rfl, bind_ok (emit_run _ _), cstr_spelled ht]
  have hb : askDir ((s.setG { s.g with eff := s.g.eff ++ [.rmdir t], asked := s.g.asked + 1 }).setItems l n) =
      .ok (false, (s.setG { s.g with eff := s.g.eff ++ [.rmdir t], asked := s.g.asked + 2 }).setItems l n) := by rw [← hd2]; rfl
  exact bind_ok hb

/-! ### PERL -/

/-- What a POSIX shell takes a text between double quotes for, the opening quote being gone: a backslash in front of `$`, a backquote, a double quote, or a backslash stands for that
character, any other backslash for itself; a dollar sign or a backquote without one is an expansion, and the text is not what it says (`none`). Second, what is behind the closing quote. -/
def shellText : List Int → Option (List Int × List Int)
  | [] => none
  | 34 :: t => some ([], t)
  | 36 :: _ => none
  | 96 :: _ => none
  | 92 :: 36 :: t => (shellText t).map fun p => (36 :: p.1, p.2)
  | 92 :: 96 :: t => (shellText t).map fun p => (96 :: p.1, p.2)
  | 92 :: 34 :: t => (shellText t).map fun p => (34 :: p.1, p.2)
  | 92 :: 92 :: t => (shellText t).map fun p => (92 :: p.1, p.2)
  | c :: t => (shellText t).map fun p => (c :: p.1, p.2)

/-- `perl -e ` -/
def perlPrefix : List Int := [112, 101, 114, 108, 32, 45, 101, 32]

/-- `exit(eval{` … `})` -/
def evalText (code : List Int) : List Int := [101, 120, 105, 116, 40, 101, 118, 97, 108, 123] ++ code ++ [125, 41]

/-- The shell gives the program after `perl -e` the code as its only argument. -/
def Runs (cmd code : List Int) : Prop := ∃ w, cmd = perlPrefix ++ 34 :: w ∧ shellText w = some (evalText code, [])

theorem shellText_plain {c : Int} (h1 : c ≠ 34) (h2 : c ≠ 36) (h3 : c ≠ 96) (h4 : c ≠ 92) (t : List Int) : shellText (c :: t) = (shellText t).map fun p => (c :: p.1, p.2) := by
  rw [shellText.eq_def]
  split <;> simp_all

theorem shellText_quoted (t : List Int) (h : 36 ∉ t ∧ 96 ∉ t) :
    shellText (t.flatMap (fun c => if c = 34 ∨ c = 92 then [92, c] else [c]) ++ [34]) = some (t, []) := by
  induction t with
  | nil => rfl
  | cons c t ih =>
    have ih := ih ⟨fun hc => h.1 (by simp [hc]), fun hc => h.2 (by simp [hc])⟩
    have h1 : c ≠ 36 := fun e => h.1 (by simp [e])
    have h2 : c ≠ 96 := fun e => h.2 (by simp [e])
    rw [List.flatMap_cons, List.append_assoc]
    split
    · rename_i hc
      rcases hc with rfl | rfl
      · show shellText (92 :: 34 :: _) = _
        rw [shellText]; show (shellText (List.flatMap _ _ ++ [34])).map _ = _; rw [ih]; rfl
      · show shellText (92 :: 92 :: _) = _
        rw [shellText]; show (shellText (List.flatMap _ _ ++ [34])).map _ = _; rw [ih]; rfl
    · rename_i hc
      show shellText (c :: _) = _
      rw [shellText_plain (fun e => hc (.inl e)) h1 h2 (fun e => hc (.inr e))]; show (shellText (List.flatMap _ _ ++ [34])).map _ = _; rw [ih]; rfl

theorem spelled_quoted {t : List Int} (h : Spelled t) : Spelled (perlPrefix ++ quoted (evalText t)) := by
  have e : ∀ x ∈ evalText t, x ≠ 0 ∧ -128 ≤ x ∧ x ≤ 127 := by
    intro x hx
    rw [evalText, List.append_assoc, List.mem_append, List.mem_append] at hx
    rcases hx with hx | hx | hx
    · revert x; decide
    · exact h x hx
    · revert x; decide
  intro c hc
  rw [List.mem_append] at hc
  rcases hc with hc | hc
  · revert c; decide
  · unfold quoted at hc
    simp only [List.mem_append, List.mem_cons, List.not_mem_nil, or_false, List.mem_flatMap] at hc
    rcases hc with (rfl | ⟨x, hx, hc⟩) | rfl
    · decide
    · split at hc
      · simp only [List.mem_cons, List.not_mem_nil, or_false] at hc
        rcases hc with rfl | rfl
        · decide
        · exact e _ hx
      · simp only [List.mem_cons, List.not_mem_nil, or_false] at hc
        subst hc; exact e _ hx
    · decide

theorem perl_run {s : St} {t : List Int} (ht : Spelled t) (l : List Int) (n : Nat) : perl t (s.setItems l n) =
    .ok (toInt (s.g.orc s.g.asked) / 256, (s.setG { s.g with eff := s.g.eff ++ [.system (perlPrefix ++ quoted (evalText t))], asked := s.g.asked + 1 }).setItems l n) := by
  have hq := cstr_spelled (spelled_quoted ht)
  show (do emit (.system (cstr (perlPrefix ++ quoted (evalText t)))); let r ← ask; pure (toInt r / 256) : Exec Int) _ = _
  rw [hq]
  rfl

/-- **C99** (partial: see `C99_false_perl_dollar`) `E` and `I` of PERL have the code on the stack evaluated by Perl if it has no dollar sign and no backquote in it, and push the exit status, as
a string or as a number. -/
theorem C99_perl_partial {s : St} (h : s.Lifo) {t l : List Int} (ht : Spelled t) (hi : s.items = t ++ 0 :: l) (hc : s.g.cfg.execute = true) (hd : 36 ∉ t ∧ 96 ∉ t) :
    ∃ cmd, Runs cmd t ∧
      (∃ s', perlRun 73 s = .ok (.none, s') ∧ s.Does s' [.system cmd] 1 (toInt (s.g.orc s.g.asked) / 256 :: l)) ∧
      (∃ s', perlRun 69 s = .ok (.none, s') ∧ s.Does s' [.system cmd] 1 (decimal (toInt (s.g.orc s.g.asked) / 256) ++ 0 :: l)) := by
  obtain ⟨n, hp⟩ := popString_items h ht hi
  refine ⟨perlPrefix ++ quoted (evalText t), ⟨_, rfl, ?_⟩, ⟨_, ?_, n + 1, rfl⟩, ⟨_, ?_, n + 1 + (decimal (toInt (s.g.orc s.g.asked) / 256)).length, rfl⟩⟩
  · refine shellText_quoted _ ⟨?_, ?_⟩
    · rw [evalText]; simp [hd.1]
    · rw [evalText]; simp [hd.2]
  · show perlInt s = _
    rw [perlInt, bind_ok (getCfg_run s), if_pos hc, bind_ok hp, bind_ok (perl_run ht l n)]
    exact bind_ok (pushTop_run (s := s.setG { s.g with eff := s.g.eff ++ [.system (perlPrefix ++ quoted (evalText t))], asked := s.g.asked + 1 }) h l n _)
  · show perlEval s = _
    rw [perlEval, bind_ok (getCfg_run s), if_pos hc, bind_ok hp, bind_ok (perl_run ht l n)]
    exact bind_ok (pushStr_run (s := s.setG { s.g with eff := s.g.eff ++ [.system (perlPrefix ++ quoted (evalText t))], asked := s.g.asked + 1 }) h _ l n)

/-- **C99** fails for Perl code with a variable in it: the shell expands `$x` before Perl sees it, whatever the code is otherwise. -/
theorem C99_false_perl_dollar {s : St} (h : s.Lifo) {t l : List Int} (ht : Spelled t) (hi : s.items = t ++ 0 :: l) (hc : s.g.cfg.execute = true) (hd : 36 ∈ t ∨ 96 ∈ t) :
    ∃ cmd s', perlRun 73 s = .ok (.none, s') ∧ s.Does s' [.system cmd] 1 (toInt (s.g.orc s.g.asked) / 256 :: l) ∧ ¬Runs cmd t := by
  obtain ⟨n, hp⟩ := popString_items h ht hi
  refine ⟨perlPrefix ++ quoted (evalText t), _, ?_, ⟨n + 1, rfl⟩, ?_⟩
  · show perlInt s = _
    rw [perlInt, bind_ok (getCfg_run s), if_pos hc, bind_ok hp, bind_ok (perl_run ht l n)]
    exact bind_ok (pushTop_run (s := s.setG { s.g with eff := s.g.eff ++ [.system (perlPrefix ++ quoted (evalText t))], asked := s.g.asked + 1 }) h l n _)
  · rintro ⟨w, hw, hs⟩
    have hw := List.append_cancel_left hw
    have none : ∀ (u : List Int), (36 ∈ u ∨ 96 ∈ u) → shellText (u.flatMap (fun c => if c = 34 ∨ c = 92 then [92, c] else [c]) ++ [34]) = none := by
      intro u
      induction u with
      | nil => intro h; simp at h
      | cons c u ih =>
        intro hu
        rw [List.flatMap_cons, List.append_assoc]
        by_cases h1 : c = 36
        · subst h1; rfl
        by_cases h2 : c = 96
        · subst h2; rfl
        have ih := ih (by
          rcases hu with hu | hu
          · exact .inl (by simpa [Ne.symm h1] using hu)
          · exact .inr (by simpa [Ne.symm h2] using hu))
        split
        · rename_i hc
          rcases hc with rfl | rfl
          · show shellText (92 :: 34 :: _) = _
            rw [shellText]; show (shellText (List.flatMap _ _ ++ [34])).map _ = _; rw [ih]; rfl
          · show shellText (92 :: 92 :: _) = _
            rw [shellText]; show (shellText (List.flatMap _ _ ++ [34])).map _ = _; rw [ih]; rfl
        · rename_i hc
          show shellText (c :: _) = _
          rw [shellText_plain (fun e => hc (.inl e)) h1 h2 (fun e => hc (.inr e))]; show (shellText (List.flatMap _ _ ++ [34])).map _ = _; rw [ih]; rfl
    have hq : quoted (evalText t) = 34 :: ((evalText t).flatMap (fun c => if c = 34 ∨ c = 92 then [92, c] else [c]) ++ [34]) := by
      unfold quoted; simp
    rw [hq] at hw
    have hw := (List.cons.inj hw).2
    rw [← hw, none (evalText t) (by rw [evalText]; rcases hd with hd | hd <;> simp [hd])] at hs
    exact nomatch hs

/-- A state with values on its stack in which everything is allowed. -/
def exSystem (l : List Int) : St := { cur := { (newRunner { standard := 98, dims := 2, execute := true, filesystem := true } 0 (Vec.ofList [0]) (Vec.ofList [1])) with ss := { stacks := [{ items := l }] } }, rest := [], g := { cfg := { standard := 98, dims := 2, execute := true, filesystem := true }, dirs := fun _ => true, flt := exFloat } }

/-- `ls` on the stack, above a 7. -/
example : (exSystem [108, 115, 0, 7]).Lifo ∧ Spelled [108, 115] ∧ (exSystem [108, 115, 0, 7]).items = [108, 115] ++ 0 :: [7] ∧
    (exSystem [108, 115, 0, 7]).g.cfg.execute = true ∧ (exSystem [108, 115, 0, 7]).g.dirs 0 = true ∧ (36 ∉ [(108 : Int), 115] ∧ 96 ∉ [(108 : Int), 115]) :=
  ⟨⟨by decide, by decide, by decide⟩, by unfold Spelled; decide, rfl, rfl, rfl, by decide⟩

/-- **C99** fails for a cell that is not 0 but a multiple of 256: it is not the end of the string on the stack, but it is for the system. Here the command ends after `ls`. -/
theorem C99_false_multiple_of_256 : (match iExecute (exSystem [108, 115, 256, 32, 47, 0, 7]) with
    | .ok (.none, s) => some (s.g.eff, s.items.tail)
    | _ => none) = some ([.system [108, 115]], [7]) := by decide +kernel

end Funge
