/-
Which file a fingerprint's ID stands for: `FingerprintStrategy::loadFL` and `FingerprintFungeLib::factory` (/repo/src/FingerprintStrategy.cpp:105-108, 154-162, /repo/src/fingerprint/FingerprintFungeLib.cpp:25-33).
Texts are lists of bytes.
-/
namespace Funge

/-- `FingerprintStrategy::intToStr` (/repo/src/FingerprintStrategy.cpp:154-162). -/
def intToStr (i : Nat) : List Nat := if 0 < i then intToStr (i / 256) ++ [i % 256] else []

/-- `std::filesystem::path::operator/=` on POSIX, as used in /repo/src/fingerprint/FingerprintFungeLib.cpp:27-29: an absolute path replaces what was there; otherwise there is a separator
if there is a file name before it. -/
def pathAppend (a b : List Nat) : List Nat :=
  if b.head? = some 47 then b else if a = [] ∨ a.getLast? = some 47 then a ++ b else a ++ 47 :: b

/-- The directory of libraries: `..` and `fing` after the directory of the executable (/repo/src/fingerprint/FingerprintFungeLib.cpp:26-28). -/
def libDir (exe : List Nat) : List Nat := pathAppend (pathAppend exe [46, 46]) [102, 105, 110, 103]

/-- The path of the library with an ID (/repo/src/FingerprintStrategy.cpp:105-108, /repo/src/fingerprint/FingerprintFungeLib.cpp:25-29). -/
def libFile (exe : List Nat) (id : Nat) : List Nat := pathAppend (libDir exe) (intToStr id ++ [46, 102, 108])

/-- What the system is asked for (/repo/src/fingerprint/FingerprintFungeLib.cpp:32-33): a path given as a C string ends at the first zero. -/
def cString (p : List Nat) : List Nat := p.takeWhile (· ≠ 0)

end Funge
