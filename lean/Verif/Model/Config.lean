import Verif.Model.State
/-
The command line and the choice of a configuration (/repo/src/Funge.cpp, /repo/src/include/FungeConfig.h).
-/
namespace Funge

/-- `enum FungeStandard` (/repo/src/include/FungeConfig.h:16-22). -/
inductive Std
  | auto | f93 | f98 | fish | starfish
  deriving DecidableEq, Repr

/-- `enum FungeCell` (/repo/src/include/funge_types.h:67-70). -/
inductive CellKind
  | char | int
  deriving DecidableEq, Repr

/-- `enum FungeThread` (/repo/src/include/funge_types.h:75-78). -/
inductive ThreadKind
  | native | funge
  deriving DecidableEq, Repr

/-- `class FungeConfig` (/repo/src/include/FungeConfig.h:27-67) with the values its constructor gives; of `mode` only `FUNGE_MODE_DEBUG`. -/
structure Config where
  name : List Char := []
  args : List (List Char) := []
  env : List (List Char) := []
  fingerprints : List Int := []
  dimensions : Nat := 0
  standard : Std := .auto
  topo : Topo := .lahey
  strings : StrStyle := .sgml
  cells : CellKind := .int
  threads : ThreadKind := .funge
  debug : Bool := false
  concurrent : Bool := true
  execute : Bool := true
  filesystem : Bool := true
  fingerprint : Bool := true
  inverthl : Bool := false
  deriving DecidableEq, Repr

/-- How the program ends before anything runs: it returns an error code (/repo/src/Funge.cpp:137, 176, 189, 200, 211, 227) or behaves undefined. -/
inductive Quit
  | einval | eio | fault (f : Fault)
  deriving DecidableEq, Repr

/-- What the second call of `std::strtok(…, "=")` returns (/repo/src/Funge.cpp:112-113 and the like); `none` is a null pointer. -/
def secondToken (o : List Char) : Option (List Char) :=
  match (o.dropWhile (· != '=')).dropWhile (· == '=') with
  | [] => none
  | r => some (r.takeWhile (· != '='))

/-- The part of `-std=` that chooses dimensions and standard (/repo/src/Funge.cpp:114-138). -/
def setStd (c : Config) (a : List Char) : Except Quit Config :=
  if a = "une93".toList then .ok { c with dimensions := 1, standard := .f93 }
  else if a = "une98".toList then .ok { c with dimensions := 1, standard := .f98 }
  else if a = "be93".toList then .ok { c with dimensions := 2, standard := .f93 }
  else if a = "be98".toList then .ok { c with dimensions := 2, standard := .f98 }
  else if a = "tre98".toList then .ok { c with dimensions := 3, standard := .f98 }
  else if a = "fish".toList then .ok { c with dimensions := 2, standard := .fish }
  else if a = "sfish".toList then .ok { c with dimensions := 2, standard := .starfish }
  else .error .einval

/-- The part of `-std=` that sets the defaults of the standard (/repo/src/Funge.cpp:139-152). -/
def stdDefaults (c : Config) : Config :=
  if c.standard = .f93 then { c with topo := .torus, strings := .multispace, cells := .char }
  else if c.standard = .fish ∨ c.standard = .starfish then { c with topo := .lahey, strings := .multispace, cells := .int }
  else { c with topo := .lahey, strings := .sgml, cells := .int }

/-- `std::accumulate` of `-l` (/repo/src/Funge.cpp:214-216): the accumulator has the type of the initial value, `int`, and is converted to and from
`uint64_t` at each character, which is a signed `char`. -/
def accumulate (acc : Int) : List Char → Int
  | [] => acc
  | x :: t => accumulate (toInt (acc * 256 + toChar (x.toNat : Int))) t

/-- One option (/repo/src/Funge.cpp:111-219). -/
def parseOption (c : Config) (o : List Char) : Except Quit Config :=
  if "-std=".toList.isPrefixOf o then
    match secondToken o with
    | none => .error (.fault .nullDeref)
    | some a => match setStd c a with
      | .error e => .error e
      | .ok c => .ok (stdDefaults c)
  else if o = "-fconcurrent".toList then .ok { c with concurrent := true }
  else if o = "-fexecute".toList then .ok { c with execute := true }
  else if o = "-ffilesystem".toList then .ok { c with filesystem := true }
  else if o = "-fno-concurrent".toList then .ok { c with concurrent := false }
  else if o = "-fno-execute".toList then .ok { c with execute := false }
  else if o = "-fno-filesystem".toList then .ok { c with filesystem := false }
  else if o = "-finvert-hl".toList then .ok { c with inverthl := true }
  else if "-ftopo=".toList.isPrefixOf o then
    match secondToken o with
    | none => .error (.fault .nullDeref)
    | some a =>
      if a = "torus".toList then .ok { c with topo := .torus }
      else if a = "lahey".toList then .ok { c with topo := .lahey }
      else .error .einval
  else if "-fstrings=".toList.isPrefixOf o then
    match secondToken o with
    | none => .error (.fault .nullDeref)
    | some a =>
      if a = "multispace".toList then .ok { c with strings := .multispace }
      else if a = "sgml".toList then .ok { c with strings := .sgml }
      else if a = "c".toList then .ok { c with strings := .c }
      else .error .einval
  else if "-fcells=".toList.isPrefixOf o then
    match secondToken o with
    | none => .error (.fault .nullDeref)
    | some a =>
      if a = "char".toList then .ok { c with cells := .char }
      else if a = "int".toList then .ok { c with cells := .int }
      else .error .einval
  else if "-fthreads=".toList.isPrefixOf o then
    match secondToken o with
    | none => .error (.fault .nullDeref)
    | some a =>
      if a = "native".toList then .ok { c with threads := .native }
      else if a = "funge".toList then .ok { c with threads := .funge }
      else .error .einval
  else if "-l".toList.isPrefixOf o then
    .ok { c with fingerprints := c.fingerprints ++ [accumulate 0 (o.drop 2)] }
  else if o = "-g".toList then .ok { c with debug := true }
  else .ok c

/-- The loop over the options (/repo/src/Funge.cpp:108-220), up to the first argument that does not begin with '-'; the rest of the arguments. -/
def parseOptions (c : Config) : List (List Char) → Except Quit (Config × List (List Char))
  | [] => .ok (c, [])
  | o :: t =>
    if o.head? = some '-' then
      match parseOption c o with
      | .error e => .error e
      | .ok c => parseOptions c t
    else .ok (c, o :: t)

/-- `filepath.filename()` (used by `extension`, /repo/src/Funge.cpp:61). -/
def fileName (p : List Char) : List Char := (p.reverse.takeWhile (· != '/')).reverse

/-- `filepath.extension()` (/repo/src/Funge.cpp:61): from the last dot of the file name, unless that is its first character. -/
def extension (p : List Char) : List Char :=
  let n := fileName p
  if n = "..".toList then []
  else match n.reverse.takeWhile (· != '.') with
    | r => if r.length + 1 < n.length then '.' :: r.reverse else []

/-- The formats of `Field::FileFormat` (/repo/src/Funge.cpp:59-69), and the list of files `.fmv`. -/
inductive Format
  | bf | beq | fl | fmv
  deriving DecidableEq, Repr

/-- The choice of format, name and standard in `createUniverse` (/repo/src/Funge.cpp:58-90). A `.fmv` file is left to `parseFMV`
(/repo/src/Funge.cpp:22-56, `Model/Fmv`). -/
def chooseConfig (c : Config) (path : List Char) : Format × Config :=
  let ext := extension path
  if ext = ".fmv".toList then (.fmv, c)
  else
    let c := if ext = ".beq".toList then { c with fingerprints := c.fingerprints ++ [0x4e46554e] } else c
    let fmt := if ext = ".beq".toList then Format.beq else if ext = ".fl".toList then .fl else .bf
    let c := { c with name := path }
    let c :=
      if c.standard = .auto then
        if ext = ".bf".toList then { c with standard := .f93 }
        else if ext = ".b98".toList then { c with standard := .f98 }
        else if ext = ".beq".toList then { c with standard := .f98 }
        else if ext = ".fish".toList then { c with dimensions := 2, standard := .fish, strings := .multispace }
        else if ext = ".sf".toList then { c with dimensions := 2, standard := .starfish, strings := .multispace }
        else { c with standard := .f98 }
      else c
    (fmt, c)

/-- `fungemain` up to the creation of the universe (/repo/src/Funge.cpp:104-237), whose arguments are those after the name of the program. -/
def configure (args env : List (List Char)) : Except Quit (Format × Config) :=
  match parseOptions {} args with
  | .error e => .error e
  | .ok (_, []) => .error .einval
  | .ok (c, path :: t) =>
    if path = [] then .error .einval
    else .ok (chooseConfig { c with args := path :: t, env := env } path)

end Funge
