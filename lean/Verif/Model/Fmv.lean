import Verif.Model.Config
/-
Multiverse files: `parseFMV` and `createUniverse` (/repo/src/Funge.cpp:20-102). A file system is a function from paths to contents, `none` if the file
cannot be opened. Creating the universe itself (`FungeMultiverse::create`, `createRunner`, /repo/src/Funge.cpp:98-99) is reduced to the record of its format and
configuration.
-/
namespace Funge
namespace Fmv

/-- `filepath.parent_path()` (/repo/src/Funge.cpp:23): what precedes the file name, without the slashes at its end unless that is all there is. -/
def parentPath (p : List Char) : List Char :=
  let d := p.reverse.dropWhile (· != '/')
  let s := d.dropWhile (· == '/')
  if s = [] then (if d = [] then [] else ['/']) else s.reverse

/-- `isspace` in the C locale. -/
def isSpace (c : Char) : Bool := c == ' ' || c == '\t' || c == '\n' || c == '\x0b' || c == '\x0c' || c == '\r'

/-- `iss >> word` (/repo/src/Funge.cpp:36, 45): the word and what follows it; the stream stays good unless its end was reached, that is, unless nothing follows. -/
def word (l : List Char) : List Char × List Char :=
  let l := l.dropWhile isSpace
  (l.takeWhile (fun c => !isSpace c), l.dropWhile (fun c => !isSpace c))

/-- `while(iss.good()){ iss >> arg; cfg.args.push_back(arg); }` (/repo/src/Funge.cpp:43-47). The first argument bounds the number of rounds; the length of the text
is enough because each round consumes something. -/
def words : Nat → List Char → List (List Char)
  | 0, _ => []
  | n + 1, l => if l = [] then [] else (word l).1 :: words n (word l).2

/-- The loop `while(stream.good()) std::getline(stream, line)` (/repo/src/Funge.cpp:30-32): the lines, including the empty one after a newline at the end. -/
def lines : List Char → List (List Char)
  | [] => [[]]
  | c :: t =>
    if c = '\n' then [] :: lines t
    else match lines t with
      | [] => [[c]]
      | w :: ws => (c :: w) :: ws

/-- The path of a file named in a multiverse file in the directory `dir` (/repo/src/Funge.cpp:37-40). -/
def resolve (dir name : List Char) : List Char := if name.head? = some '/' then name else dir ++ '/' :: name

/-- A universe as it is created: format and configuration. -/
abbrev Made := List (Format × Config)

/-- One entry of a multiverse file (/repo/src/Funge.cpp:33-47): the file to load and the configuration for it. -/
def entry (dir : List Char) (c : Config) (line : List Char) : List Char × Config :=
  (resolve dir (word line).1, { c with args := c.args ++ words (word line).2.length (word line).2 })

/-- The loop over the lines of a multiverse file (/repo/src/Funge.cpp:30-53), `create` being `createUniverse`. -/
def entries (create : List Char → Config → Except Fault (Int × Made)) (dir : List Char) (c : Config) : List (List Char) → Except Fault (Int × Made)
  | [] => .ok (0, [])
  | l :: ls =>
    match create (entry dir c l).1 (entry dir c l).2 with
    | .error e => .error e
    | .ok (code, made) =>
      if code ≠ 0 then .ok (code, made)
      else match entries create dir c ls with
        | .error e => .error e
        | .ok (code, more) => .ok (code, made ++ more)

/-- `createUniverse` and `parseFMV` (/repo/src/Funge.cpp:22-102): the error code (`EIO` is 5) and the universes created until then. The first argument bounds
the depth of multiverse files in multiverse files. -/
def createUniverse (fs : List Char → Option (List Char)) : Nat → List Char → Config → Except Fault (Int × Made)
  | 0, _, _ => .error .fuel
  | n + 1, path, c =>
    if extension path = ".fmv".toList then
      match fs path with
      | none => .ok (5, [])
      | some text => entries (createUniverse fs n) (parentPath path) c (lines text)
    else
      match fs path with
      | none => .ok (5, [])
      | some _ => .ok (0, [chooseConfig c path])

end Fmv
end Funge
