import Verif.Model.Run
/-
Starting a program (/repo/src/Funge.cpp:92-102).
-/
namespace Funge

/-- `FungeMultiverse::create(stream, FORMAT_BF, config)` and `createRunner(Vector{0}, Vector{1})` (/repo/src/Funge.cpp:98-99, /repo/src/FungeUniverse.cpp:76-78): the
universe of a program with the given text. Simplification: `g` gives the configuration (with the number of dimensions already known, and not in need of being found
from the text) and everything outside of the program: input, files, clock. -/
def launch (g : Glob) (charCells : Bool) (text : List Int) : Univ :=
  { runners := [newRunner g.cfg g.nextId (Vec.ofList [0]) (Vec.ofList [1])]
    g := { g with field := Field.load g.cfg.dims charCells text, nextId := g.nextId + 1 } }

end Funge
