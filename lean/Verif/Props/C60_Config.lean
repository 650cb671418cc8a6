import Verif.Model.Config
/-
C60: what the options and the name of the file make of the configuration.
C63: the fingerprints named with `-l`.
-/
namespace Funge

/-! ### The options as the user writes them -/

/-- The names after `-std=`. -/
inductive StdName
  | une93 | une98 | be93 | be98 | tre98 | fish | sfish
  deriving DecidableEq, Repr

/-- The documented options. -/
inductive Opt
  | std (n : StdName) | topo (t : Topo) | strings (s : StrStyle) | cells (c : CellKind) | threads (t : ThreadKind)
  | concurrent (b : Bool) | execute (b : Bool) | filesystem (b : Bool) | inverthl | lib (name : List Char) | debug
  deriving DecidableEq, Repr

/-- How an option is written. -/
def Opt.text : Opt → List Char
  | .std .une93 => "-std=une93".toList
  | .std .une98 => "-std=une98".toList
  | .std .be93 => "-std=be93".toList
  | .std .be98 => "-std=be98".toList
  | .std .tre98 => "-std=tre98".toList
  | .std .fish => "-std=fish".toList
  | .std .sfish => "-std=sfish".toList
  | .topo .torus => "-ftopo=torus".toList
  | .topo .lahey => "-ftopo=lahey".toList
  | .strings .multispace => "-fstrings=multispace".toList
  | .strings .sgml => "-fstrings=sgml".toList
  | .strings .c => "-fstrings=c".toList
  | .cells .char => "-fcells=char".toList
  | .cells .int => "-fcells=int".toList
  | .threads .native => "-fthreads=native".toList
  | .threads .funge => "-fthreads=funge".toList
  | .concurrent true => "-fconcurrent".toList
  | .concurrent false => "-fno-concurrent".toList
  | .execute true => "-fexecute".toList
  | .execute false => "-fno-execute".toList
  | .filesystem true => "-ffilesystem".toList
  | .filesystem false => "-fno-filesystem".toList
  | .inverthl => "-finvert-hl".toList
  | .lib name => '-' :: 'l' :: name
  | .debug => "-g".toList

/-- The standard a name stands for. -/
def StdName.standard : StdName → Std
  | .une93 | .be93 => .f93
  | .une98 | .be98 | .tre98 => .f98
  | .fish => .fish
  | .sfish => .starfish

/-- The dimensions a name stands for. -/
def StdName.dims : StdName → Nat
  | .une93 | .une98 => 1
  | .tre98 => 3
  | _ => 2

/-- The topology a standard asks for: the torus for the 93 standards, Lahey-space for the others. -/
def StdName.topo (n : StdName) : Topo := if n = .une93 ∨ n = .be93 then .torus else .lahey

/-- The strings a standard asks for: SGML-style for the 98 standards, multispace for the others. -/
def StdName.strings (n : StdName) : StrStyle := if n = .une98 ∨ n = .be98 ∨ n = .tre98 then .sgml else .multispace

/-- The cells a standard asks for: one byte for the 93 standards, eight for the others. -/
def StdName.cells (n : StdName) : CellKind := if n = .une93 ∨ n = .be93 then .char else .int

/-- What an option says about the topology. -/
def Opt.topo? : Opt → Option Topo
  | .std n => some n.topo
  | .topo t => some t
  | _ => none

/-- What an option says about strings. -/
def Opt.strings? : Opt → Option StrStyle
  | .std n => some n.strings
  | .strings s => some s
  | _ => none

/-- What an option says about cells. -/
def Opt.cells? : Opt → Option CellKind
  | .std n => some n.cells
  | .cells s => some s
  | _ => none

/-- What an option says about the standard. -/
def Opt.std? : Opt → Option StdName
  | .std n => some n
  | _ => none

/-- What an option says about threads. -/
def Opt.threads? : Opt → Option ThreadKind
  | .threads t => some t
  | _ => none

/-- What an option says about the three permissions. -/
def Opt.concurrent? : Opt → Option Bool
  | .concurrent b => some b
  | _ => none
def Opt.execute? : Opt → Option Bool
  | .execute b => some b
  | _ => none
def Opt.filesystem? : Opt → Option Bool
  | .filesystem b => some b
  | _ => none

/-- The name of a fingerprint an option asks for. -/
def Opt.lib? : Opt → Option (List Char)
  | .lib n => some n
  | _ => none

/-- The last value among the options that say something, else the default. -/
def lastOr (f : Opt → Option α) (d : α) (l : List Opt) : α := ((l.filterMap f).getLast?).getD d

/-! ### The loop over the options -/

/-- What an option does to the configuration. -/
def Opt.apply (c : Config) : Opt → Config
  | .std n => { c with dimensions := n.dims, standard := n.standard, topo := n.topo, strings := n.strings, cells := n.cells }
  | .topo t => { c with topo := t }
  | .strings s => { c with strings := s }
  | .cells x => { c with cells := x }
  | .threads t => { c with threads := t }
  | .concurrent b => { c with concurrent := b }
  | .execute b => { c with execute := b }
  | .filesystem b => { c with filesystem := b }
  | .inverthl => { c with inverthl := true }
  | .lib n => { c with fingerprints := c.fingerprints ++ [accumulate 0 n] }
  | .debug => { c with debug := true }

theorem parseOption_text (c : Config) (o : Opt) : parseOption c o.text = .ok (o.apply c) := by
  rcases o with n | t | s | x | t | b | b | b | _ | n | _
  · cases n <;> rfl
  · cases t <;> rfl
  · cases s <;> rfl
  · cases x <;> rfl
  · cases t <;> rfl
  · cases b <;> rfl
  · cases b <;> rfl
  · cases b <;> rfl
  all_goals rfl

theorem head_text (o : Opt) : o.text.head? = some '-' := by
  rcases o with n | t | s | x | t | b | b | b | _ | n | _
  · cases n <;> rfl
  · cases t <;> rfl
  · cases s <;> rfl
  · cases x <;> rfl
  · cases t <;> rfl
  · cases b <;> rfl
  · cases b <;> rfl
  · cases b <;> rfl
  all_goals rfl

theorem parseOptions_text {path : List Char} (hp : path.head? ≠ some '-') (rest : List (List Char)) : (c : Config) → (l : List Opt) →
    parseOptions c (l.map Opt.text ++ path :: rest) = .ok (l.foldl Opt.apply c, path :: rest)
  | c, [] => by simp [parseOptions, hp]
  | c, o :: t => by
    simp only [List.map_cons, List.cons_append, parseOptions, head_text, if_true, parseOption_text, List.foldl_cons]
    exact parseOptions_text hp rest (o.apply c) t

/-- Folding options over a field keeps the last value said. -/
theorem foldl_lastOr {f : Opt → Option α} {get : Config → α} (hget : ∀ c o, get (Opt.apply c o) = (f o).getD (get c)) :
    (c : Config) → (l : List Opt) → get (l.foldl Opt.apply c) = lastOr f (get c) l
  | c, [] => rfl
  | c, o :: t => by
    rw [List.foldl_cons, foldl_lastOr hget (o.apply c) t, hget]
    unfold lastOr
    cases h : f o with
    | none => simp [h]
    | some v =>
      simp only [List.filterMap_cons, h, List.getLast?_cons, Option.getD_some]

theorem foldl_libs : (c : Config) → (l : List Opt) →
    (l.foldl Opt.apply c).fingerprints = c.fingerprints ++ (l.filterMap Opt.lib?).map (accumulate 0)
  | c, [] => by simp
  | c, o :: t => by
    rw [List.foldl_cons, foldl_libs]
    cases o <;> simp [Opt.apply, Opt.lib?, List.filterMap_cons]

/-! ### C60 -/

/-- Whether some option chooses a standard. -/
def stdChosen (l : List Opt) : Prop := l.filterMap Opt.std? ≠ []

instance : Decidable (stdChosen l) := inferInstanceAs (Decidable (_ ≠ _))

theorem standard_fold (l : List Opt) :
    (l.foldl Opt.apply {}).standard = match (l.filterMap Opt.std?).getLast? with | none => .auto | some n => n.standard := by
  have h := foldl_lastOr (f := fun o => o.std?.map StdName.standard) (get := Config.standard)
    (fun c o => by cases o <;> rfl) {} l
  rw [h, lastOr]
  have hm : l.filterMap (fun o => o.std?.map StdName.standard) = (l.filterMap Opt.std?).map StdName.standard := by
    rw [List.map_filterMap]
  rw [hm, List.getLast?_map]
  cases (l.filterMap Opt.std?).getLast? <;> rfl

theorem std_ne_auto (n : StdName) : n.standard ≠ .auto := by cases n <;> decide

theorem standard_auto_iff (l : List Opt) : (l.foldl Opt.apply {}).standard = .auto ↔ ¬ stdChosen l := by
  rw [standard_fold, stdChosen]
  cases h : (l.filterMap Opt.std?).getLast? with
  | none => simp [List.getLast?_eq_none_iff.mp h]
  | some n =>
    have : l.filterMap Opt.std? ≠ [] := by intro h'; rw [h'] at h; cases h
    simp [this, std_ne_auto]

/-- A name of a file that can be given after the options, and is not a list of universes. -/
structure IsProgram (path : List Char) : Prop where
  nonempty : path ≠ []
  noOption : path.head? ≠ some '-'
  noList : extension path ≠ ".fmv".toList

theorem configure_text {path : List Char} (hp : IsProgram path) (l : List Opt) (rest env : List (List Char)) :
    configure (l.map Opt.text ++ path :: rest) env =
      .ok (chooseConfig { l.foldl Opt.apply {} with args := path :: rest, env := env } path) := by
  simp only [configure, parseOptions_text hp.noOption, if_neg hp.nonempty]

/-- The extensions that stand for ><> and *><>. -/
def FishName (path : List Char) : Prop := extension path = ".fish".toList ∨ extension path = ".sf".toList

instance : Decidable (FishName p) := inferInstanceAs (Decidable (_ ∨ _))

theorem chooseConfig_keeps (c : Config) (p : List Char) :
    (chooseConfig c p).2.topo = c.topo ∧ (chooseConfig c p).2.cells = c.cells ∧ (chooseConfig c p).2.threads = c.threads ∧
    (chooseConfig c p).2.concurrent = c.concurrent ∧ (chooseConfig c p).2.execute = c.execute ∧
    (chooseConfig c p).2.filesystem = c.filesystem := by
  by_cases h0 : extension p = ".fmv".toList
  · simp [chooseConfig, h0]
  simp only [chooseConfig, if_neg h0]
  by_cases h1 : extension p = ".beq".toList <;> by_cases h2 : c.standard = .auto
  all_goals simp only [h1, h2, if_true, if_false]
  all_goals repeat' split
  all_goals simp

theorem chooseConfig_chosen {c : Config} (h : c.standard ≠ .auto) (p : List Char) :
    (chooseConfig c p).2.strings = c.strings ∧ (chooseConfig c p).2.standard = c.standard ∧
    (chooseConfig c p).2.dimensions = c.dimensions := by
  by_cases h0 : extension p = ".fmv".toList
  · simp [chooseConfig, h0]
  simp only [chooseConfig, if_neg h0]
  by_cases h1 : extension p = ".beq".toList
  all_goals simp only [h1, h, if_true, if_false, and_self]

theorem chooseConfig_strings (c : Config) {p : List Char} (h : ¬ FishName p) : (chooseConfig c p).2.strings = c.strings := by
  simp only [FishName, not_or] at h
  by_cases h0 : extension p = ".fmv".toList
  · simp [chooseConfig, h0]
  simp only [chooseConfig, if_neg h0, h.1, h.2, if_false]
  by_cases h1 : extension p = ".beq".toList <;> by_cases h2 : c.standard = .auto
  all_goals simp only [h1, h2, if_true, if_false]
  all_goals repeat' split
  all_goals rfl

/-- Whatever options are given, in whatever order: topology, cells, threads and permissions are those of the last option that speaks of them
(a `-std=` speaks of topology, strings and cells), and otherwise the defaults; the same holds of the strings, if a standard was chosen
or the file is not named as a ><> or *><> program. What is missing: the name of the file cannot make the program a Befunge-93 one with the
settings of Befunge-93 (`C60_false_for_bf`), and it can override `-fstrings=` (`C60_false_for_fish`). -/
theorem C60_last_option_wins_partial {path : List Char} (hp : IsProgram path) (l : List Opt) (rest env : List (List Char)) :
    ∃ fmt cfg, configure (l.map Opt.text ++ path :: rest) env = .ok (fmt, cfg) ∧
      cfg.topo = lastOr Opt.topo? .lahey l ∧
      cfg.cells = lastOr Opt.cells? .int l ∧
      cfg.threads = lastOr Opt.threads? .funge l ∧
      cfg.concurrent = lastOr Opt.concurrent? true l ∧
      cfg.execute = lastOr Opt.execute? true l ∧
      cfg.filesystem = lastOr Opt.filesystem? true l ∧
      (stdChosen l ∨ ¬ FishName path → cfg.strings = lastOr Opt.strings? .sgml l) := by
  have hk := chooseConfig_keeps { l.foldl Opt.apply {} with args := path :: rest, env := env } path
  refine ⟨(chooseConfig { l.foldl Opt.apply {} with args := path :: rest, env := env } path).1,
    (chooseConfig { l.foldl Opt.apply {} with args := path :: rest, env := env } path).2, configure_text hp l rest env, ?_, ?_, ?_, ?_, ?_, ?_, ?_⟩
  · exact hk.1.trans (foldl_lastOr (get := Config.topo) (fun c o => by cases o <;> rfl) {} l)
  · exact hk.2.1.trans (foldl_lastOr (get := Config.cells) (fun c o => by cases o <;> rfl) {} l)
  · exact hk.2.2.1.trans (foldl_lastOr (get := Config.threads) (fun c o => by cases o <;> rfl) {} l)
  · exact hk.2.2.2.1.trans (foldl_lastOr (get := Config.concurrent) (fun c o => by cases o <;> rfl) {} l)
  · exact hk.2.2.2.2.1.trans (foldl_lastOr (get := Config.execute) (fun c o => by cases o <;> rfl) {} l)
  · exact hk.2.2.2.2.2.trans (foldl_lastOr (get := Config.filesystem) (fun c o => by cases o <;> rfl) {} l)
  · intro h
    refine Eq.trans ?_ (foldl_lastOr (get := Config.strings) (fun c o => by cases o <;> rfl) {} l)
    rcases h with h | h
    · exact (chooseConfig_chosen (c := { l.foldl Opt.apply {} with args := path :: rest, env := env })
        (fun h' => ((standard_auto_iff l).mp h') h) path).1
    · exact chooseConfig_strings { l.foldl Opt.apply {} with args := path :: rest, env := env } h

example : IsProgram "dir/life.bf".toList := ⟨by decide, by decide, by decide⟩
example : lastOr Opt.topo? .lahey [.std .be93, .topo .lahey, .debug] = .lahey ∧ stdChosen [.std .be93, .topo .lahey, .debug] := by decide

theorem lastOr_split {f : Opt → Option α} {d v : α} {o : Opt} (ho : f o = some v) (pre post : List Opt) (hpost : ∀ o ∈ post, f o = none) :
    lastOr f d (pre ++ o :: post) = v := by
  have h : post.filterMap f = [] := List.filterMap_eq_nil_iff.mpr hpost
  simp [lastOr, ho, h, List.filterMap_append]

/-- The settings of the last `-std=`, when no later option speaks of topology, strings or cells; whatever the options before it and the file. -/
theorem C60_std {path : List Char} (hp : IsProgram path) (n : StdName) (pre post : List Opt)
    (hpost : ∀ o ∈ post, o.topo? = none ∧ o.strings? = none ∧ o.cells? = none) (rest env : List (List Char)) :
    ∃ fmt cfg, configure ((pre ++ .std n :: post).map Opt.text ++ path :: rest) env = .ok (fmt, cfg) ∧
      cfg.standard = n.standard ∧ cfg.dimensions = n.dims ∧ cfg.topo = n.topo ∧ cfg.strings = n.strings ∧ cfg.cells = n.cells := by
  have hnone : ∀ o ∈ post, o.std? = none := fun o ho => by
    have := (hpost o ho).1
    cases o <;> first | rfl | cases this
  have hc : stdChosen (pre ++ .std n :: post) := by simp [stdChosen, Opt.std?, List.filterMap_append]
  obtain ⟨fmt, cfg, h, ht, hce, _, _, _, _, hs⟩ := C60_last_option_wins_partial hp (pre ++ .std n :: post) rest env
  have h' := configure_text hp (pre ++ .std n :: post) rest env
  have hcfg : chooseConfig { (pre ++ .std n :: post).foldl Opt.apply {} with args := path :: rest, env := env } path = (fmt, cfg) := by
    rw [h] at h'; injection h' with h'; exact h'.symm
  have hch := chooseConfig_chosen (c := { (pre ++ .std n :: post).foldl Opt.apply {} with args := path :: rest, env := env })
    (fun h' => ((standard_auto_iff _).mp h') hc) path
  rw [hcfg] at hch
  refine ⟨fmt, cfg, h, ?_, ?_, ?_, ?_, ?_⟩
  · rw [hch.2.1]
    show ((pre ++ .std n :: post).foldl Opt.apply {}).standard = _
    rw [standard_fold]
    have : post.filterMap Opt.std? = [] := List.filterMap_eq_nil_iff.mpr hnone
    simp [Opt.std?, List.filterMap_append, this]
  · rw [hch.2.2]
    have := foldl_lastOr (f := fun o => o.std?.map StdName.dims) (get := Config.dimensions) (fun c o => by cases o <;> rfl) {} (pre ++ .std n :: post)
    refine this.trans (lastOr_split (f := fun o => o.std?.map StdName.dims) rfl _ _ fun o ho => ?_)
    show o.std?.map _ = none
    rw [hnone o ho]; rfl
  · rw [ht]; exact lastOr_split (f := Opt.topo?) rfl _ _ fun o ho => (hpost o ho).1
  · rw [hs (.inl hc)]; exact lastOr_split (f := Opt.strings?) rfl _ _ fun o ho => (hpost o ho).2.1
  · rw [hce]; exact lastOr_split (f := Opt.cells?) rfl _ _ fun o ho => (hpost o ho).2.2

/-- Befunge-93 by option: the torus, multispace strings and one-byte cells. -/
theorem C60_befunge93 {path : List Char} (hp : IsProgram path) (pre post : List Opt)
    (hpost : ∀ o ∈ post, o.topo? = none ∧ o.strings? = none ∧ o.cells? = none) (rest env : List (List Char)) :
    ∃ fmt cfg, configure ((pre ++ .std .be93 :: post).map Opt.text ++ path :: rest) env = .ok (fmt, cfg) ∧
      cfg.standard = .f93 ∧ cfg.dimensions = 2 ∧ cfg.topo = .torus ∧ cfg.strings = .multispace ∧ cfg.cells = .char :=
  C60_std hp .be93 pre post hpost rest env

/-- Funge-98 by option: Lahey-space, SGML-style strings and eight-byte cells. -/
theorem C60_funge98 {path : List Char} (hp : IsProgram path) {n : StdName} (hn : n = .une98 ∨ n = .be98 ∨ n = .tre98) (pre post : List Opt)
    (hpost : ∀ o ∈ post, o.topo? = none ∧ o.strings? = none ∧ o.cells? = none) (rest env : List (List Char)) :
    ∃ fmt cfg, configure ((pre ++ .std n :: post).map Opt.text ++ path :: rest) env = .ok (fmt, cfg) ∧
      cfg.standard = .f98 ∧ cfg.topo = .lahey ∧ cfg.strings = .sgml ∧ cfg.cells = .int := by
  obtain ⟨fmt, cfg, h, h1, -, h2, h3, h4⟩ := C60_std hp n pre post hpost rest env
  refine ⟨fmt, cfg, h, ?_⟩
  rcases hn with rfl | rfl | rfl <;> exact ⟨h1, h2, h3, h4⟩

example : ∀ o ∈ [Opt.debug, .lib "STRN".toList], o.topo? = none ∧ o.strings? = none ∧ o.cells? = none := by decide

/-- The standards the name of a file stands for when no option says. -/
def namedStandard (path : List Char) : Std :=
  if extension path = ".bf".toList then .f93
  else if extension path = ".fish".toList then .fish
  else if extension path = ".sf".toList then .starfish
  else .f98

/-- With no `-std=` the name of the file chooses the standard; with none of the options about topology, strings and cells either, the settings
are those of Funge-98, which is right for every file that stands for Funge-98. -/
theorem C60_by_name {path : List Char} (hp : IsProgram path) (l : List Opt)
    (hl : ∀ o ∈ l, o.topo? = none ∧ o.strings? = none ∧ o.cells? = none) (rest env : List (List Char)) :
    ∃ fmt cfg, configure (l.map Opt.text ++ path :: rest) env = .ok (fmt, cfg) ∧ cfg.standard = namedStandard path ∧
      cfg.topo = .lahey ∧ cfg.strings = (if FishName path then .multispace else .sgml) ∧ cfg.cells = .int := by
  have hnone : ∀ o ∈ l, o.std? = none := fun o ho => by
    have := (hl o ho).1
    cases o <;> first | rfl | cases this
  have hauto : (l.foldl Opt.apply {}).standard = .auto := by
    rw [standard_auto_iff, stdChosen, List.filterMap_eq_nil_iff.mpr hnone]; simp
  obtain ⟨fmt, cfg, h, ht, hce, _, _, _, _, hs⟩ := C60_last_option_wins_partial hp l rest env
  have h' := configure_text hp l rest env
  have hcfg : chooseConfig { l.foldl Opt.apply {} with args := path :: rest, env := env } path = (fmt, cfg) := by
    rw [h] at h'; injection h' with h'; exact h'.symm
  refine ⟨fmt, cfg, h, ?_, ?_, ?_, ?_⟩
  · rw [show cfg = (fmt, cfg).2 from rfl, ← hcfg]
    simp only [chooseConfig, if_neg hp.noList, namedStandard]
    by_cases h1 : extension path = ".beq".toList
    · rw [h1]; simp [hauto]
    · simp only [h1, if_false, hauto, if_true]
      repeat' split
      all_goals first | rfl | (exfalso; simp_all; done) | skip
  · rw [ht, lastOr, List.filterMap_eq_nil_iff.mpr fun o ho => (hl o ho).1]; rfl
  · by_cases hf : FishName path
    · rw [if_pos hf, show cfg = (fmt, cfg).2 from rfl, ← hcfg]
      simp only [chooseConfig, if_neg hp.noList]
      rcases hf with hf | hf <;> rw [hf] <;> simp [hauto]
    · rw [if_neg hf, hs (.inr hf), lastOr, List.filterMap_eq_nil_iff.mpr fun o ho => (hl o ho).2.1]; rfl
  · rw [hce, lastOr, List.filterMap_eq_nil_iff.mpr fun o ho => (hl o ho).2.2]; rfl

/-- The property fails for a Befunge-93 program recognised by its name: the standard is Befunge-93, but topology, strings and cells are those of
Funge-98; for every `.bf` file and all options that do not speak of them. -/
theorem C60_false_for_bf {path : List Char} (hp : path ≠ []) (ho : path.head? ≠ some '-') (hb : extension path = ".bf".toList) (l : List Opt)
    (hl : ∀ o ∈ l, o.topo? = none ∧ o.strings? = none ∧ o.cells? = none) (rest env : List (List Char)) :
    ∃ fmt cfg, configure (l.map Opt.text ++ path :: rest) env = .ok (fmt, cfg) ∧
      cfg.standard = .f93 ∧ cfg.topo = .lahey ∧ cfg.strings = .sgml ∧ cfg.cells = .int := by
  have hP : IsProgram path := ⟨hp, ho, by rw [hb]; decide⟩
  obtain ⟨fmt, cfg, h, h1, h2, h3, h4⟩ := C60_by_name hP l hl rest env
  refine ⟨fmt, cfg, h, ?_, h2, ?_, h4⟩
  · rw [h1, namedStandard, if_pos hb]
  · rw [h3, if_neg]; rw [FishName, hb]; decide

example : extension "dir/life.bf".toList = ".bf".toList := by decide

/-- It also fails for the strings of a program recognised as ><> or *><> by its name: the name overrides every `-fstrings=`. -/
theorem C60_false_for_fish : ∃ cfg, configure ["-fstrings=c".toList, "a.fish".toList] [] = .ok (.bf, cfg) ∧ cfg.strings = .multispace :=
  ⟨_, rfl, rfl⟩

/-- An option that lacks its value is undefined behaviour: `strcmp` of a null pointer. -/
theorem C60_undefined_without_value (c : Config) (o : List Char)
    (ho : o = "-std=".toList ∨ o = "-ftopo=".toList ∨ o = "-fstrings=".toList ∨ o = "-fcells=".toList ∨ o = "-fthreads=".toList) :
    parseOption c o = .error (.fault .nullDeref) := by
  rcases ho with rfl | rfl | rfl | rfl | rfl <;> rfl

/-! ### C63 -/

/-- The number a fingerprint is known by: its characters as the digits of a number to the base 256. -/
def fingerprintId (name : List Char) : Int := name.foldl (fun n x => n * 256 + x.toNat) 0

theorem toInt_small {x : Int} (h : -2147483648 ≤ x) (h' : x < 2147483648) : toInt x = x := by
  unfold toInt; rw [Int.bmod_def]; split <;> omega

theorem accumulate_spec : (l : List Char) → (∀ x ∈ l, x.toNat < 128) → (a b : Int) → toInt a = toInt b →
    toInt (accumulate a l) = toInt (l.foldl (fun n x => n * 256 + x.toNat) b)
  | [], _, a, b, h => h
  | x :: t, hl, a, b, h => by
    refine accumulate_spec t (fun y hy => hl y (.tail _ hy)) _ _ ?_
    have hx : toChar (x.toNat : Int) = x.toNat := by
      have := hl x (.head _)
      unfold toChar; rw [Int.bmod_def]; split <;> omega
    rw [hx]
    unfold toInt at *
    rw [Int.bmod_bmod, ← Int.emod_bmod (a * 256 + _), ← Int.emod_bmod (b * 256 + _)]
    have h2 := congrArg (· % ((4294967296 : Nat) : Int)) h
    simp only [Int.bmod_emod] at h2
    rw [show (a * 256 + (x.toNat : Int)) % ((4294967296 : Nat) : Int) = (b * 256 + (x.toNat : Int)) % ((4294967296 : Nat) : Int) by omega]

theorem toInt_accumulate : (l : List Char) → (a : Int) → toInt a = a → toInt (accumulate a l) = accumulate a l
  | [], _, h => h
  | _ :: t, _, _ => toInt_accumulate t _ (by unfold toInt; rw [Int.bmod_bmod])

theorem fold_small (n : List Char) (hlen : n.length ≤ 4) (hx : ∀ x ∈ n, x.toNat < 128) :
    -2147483648 ≤ n.foldl (fun (n : Int) x => n * 256 + x.toNat) 0 ∧ n.foldl (fun (n : Int) x => n * 256 + x.toNat) 0 < 2147483648 := by
  rcases n with _ | ⟨a, _ | ⟨b, _ | ⟨c, _ | ⟨d, _ | ⟨e, t⟩⟩⟩⟩⟩
  · simp
  all_goals simp only [List.mem_cons, List.not_mem_nil, or_false, forall_eq_or_imp, forall_eq, List.length_cons, List.foldl_cons, List.foldl_nil] at hx hlen ⊢
  all_goals omega

/-- `-lNAME` asks for the fingerprint whose number is `NAME`, in the order the options are given, for all names of ASCII characters whose number fits
an `int`: those of up to four characters. What is missing: longer names (`C63_false_for_long_names`). -/
theorem C63_named_partial {path : List Char} (hp : IsProgram path) (hb : extension path ≠ ".beq".toList) (l : List Opt)
    (hl : ∀ n ∈ l.filterMap Opt.lib?, n.length ≤ 4 ∧ ∀ x ∈ n, x.toNat < 128) (rest env : List (List Char)) :
    ∃ fmt cfg, configure (l.map Opt.text ++ path :: rest) env = .ok (fmt, cfg) ∧
      cfg.fingerprints = (l.filterMap Opt.lib?).map fingerprintId := by
  refine ⟨(chooseConfig { l.foldl Opt.apply {} with args := path :: rest, env := env } path).1,
    (chooseConfig { l.foldl Opt.apply {} with args := path :: rest, env := env } path).2, configure_text hp l rest env, ?_⟩
  have hf : (l.foldl Opt.apply {}).fingerprints = (l.filterMap Opt.lib?).map fingerprintId := by
    rw [foldl_libs]
    refine (List.map_congr_left fun n hn => ?_)
    obtain ⟨hlen, hx⟩ := hl n hn
    have h := accumulate_spec n hx 0 0 rfl
    rw [toInt_accumulate n 0 rfl] at h
    rw [h]
    exact toInt_small (fold_small n hlen hx).1 (fold_small n hlen hx).2
  rw [← hf]
  simp only [chooseConfig, if_neg hp.noList, if_neg hb]
  repeat' split
  all_goals rfl

example : ∀ n ∈ [Opt.lib "STRN".toList, .debug, .lib "HRTI".toList].filterMap Opt.lib?, n.length ≤ 4 ∧ ∀ x ∈ n, x.toNat < 128 := by decide
example : fingerprintId "NFUN".toList = 0x4e46554e := by decide

/-- A `.beq` file asks for `NFUN` after the named ones, once. -/
theorem C63_beq {path : List Char} (hp : path ≠ []) (ho : path.head? ≠ some '-') (hb : extension path = ".beq".toList) (rest env : List (List Char)) :
    ∃ fmt cfg, configure (path :: rest) env = .ok (fmt, cfg) ∧ fmt = .beq ∧ cfg.standard = .f98 ∧
      cfg.fingerprints = [fingerprintId "NFUN".toList] := by
  have hP : IsProgram path := ⟨hp, ho, by rw [hb]; decide⟩
  refine ⟨(chooseConfig { args := path :: rest, env := env } path).1, (chooseConfig { args := path :: rest, env := env } path).2,
    configure_text hP [] rest env, ?_⟩
  have h1 : ".beq".toList ≠ ".fmv".toList := by decide
  have h2 : ".beq".toList ≠ ".bf".toList := by decide
  have h3 : ".beq".toList ≠ ".b98".toList := by decide
  simp only [chooseConfig, hb, h1, h2, h3, if_true, if_false]
  exact ⟨trivial, trivial, by decide⟩

example : extension "x/y.beq".toList = ".beq".toList := by decide

/-- A name of five characters asks for the fingerprint of its last four: the number is kept in an `int`. -/
theorem C63_false_for_long_names :
    ∃ cfg, configure ["-lXSTRN".toList, "a.b98".toList] [] = .ok (.bf, cfg) ∧ cfg.fingerprints = [fingerprintId "STRN".toList] ∧
      fingerprintId "XSTRN".toList ≠ fingerprintId "STRN".toList :=
  ⟨_, rfl, by decide, by decide⟩

end Funge
