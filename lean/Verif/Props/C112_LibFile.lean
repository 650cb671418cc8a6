import Verif.Model.LibFile
import Verif.Props.C51_FRTH
import Verif.Props.C23_Arithmetic
/-
C112: a fingerprint's ID is the name of one file in the directory of libraries.
-/
namespace Funge
open Exec

/-- The parts of a path, between slashes. -/
def slashParts : List Nat → List (List Nat)
  | [] => [[]]
  | c :: t => if c = 47 then [] :: slashParts t else match slashParts t with
    | w :: ws => (c :: w) :: ws
    | [] => [[c]]

/-- Going from directory to directory: `.` and nothing lead nowhere, `..` leads back. (Links are not followed.) -/
def walkPath (at' : List (List Nat)) : List (List Nat) → List (List Nat)
  | [] => at'
  | w :: ws => if w = [] ∨ w = [46] then walkPath at' ws else if w = [46, 46] then walkPath at'.dropLast ws else walkPath (at' ++ [w]) ws

/-- Where an absolute path leads to: the directories from the root on, and the file. -/
def place (p : List Nat) : List (List Nat) := walkPath [] (slashParts p)

theorem slashParts_ne (p : List Nat) : slashParts p ≠ [] := by
  cases p with
  | nil => simp [slashParts]
  | cons c t => unfold slashParts; split
                · simp
                · split <;> simp

theorem slashParts_append (a b : List Nat) : slashParts (a ++ 47 :: b) = slashParts a ++ slashParts b := by
  induction a with
  | nil => simp [slashParts]
  | cons c t ih =>
    rw [List.cons_append, slashParts, slashParts, ih]
    split
    · rfl
    · match h : slashParts t with
      | w :: ws => rfl
      | [] => exact absurd h (slashParts_ne t)

theorem slashParts_file {f : List Nat} (h : 47 ∉ f) : slashParts f = [f] := by
  induction f with
  | nil => rfl
  | cons c t ih =>
    rw [slashParts, if_neg (fun e => h (by rw [e]; exact List.mem_cons_self)), ih (fun e => h (List.mem_cons_of_mem _ e))]

theorem walkPath_append (a b d : List (List Nat)) : walkPath d (a ++ b) = walkPath (walkPath d a) b := by
  induction a generalizing d with
  | nil => rfl
  | cons w ws ih => simp only [List.cons_append, walkPath]; split
                    · exact ih _
                    · split <;> exact ih _

/-- The ID made of some bytes. -/
def idOf (acc : Nat) : List Nat → Nat
  | [] => acc
  | c :: t => idOf (acc * 256 + c) t

theorem idOf_append (a b : List Nat) : ∀ acc, idOf acc (a ++ b) = idOf (idOf acc a) b := by
  induction a with
  | nil => intro acc; rfl
  | cons c t ih => intro acc; exact ih _

theorem idOf_intToStr (i : Nat) : idOf 0 (intToStr i) = i := by
  induction i using Nat.strongRecOn with
  | ind i ih =>
    unfold intToStr
    split
    · rename_i h
      rw [idOf_append, ih (i / 256) (Nat.div_lt_self h (by decide))]
      show i / 256 * 256 + i % 256 = i
      omega
    · show 0 = i; omega

theorem intToStr_step {i c : Nat} (hc : c < 256) (h : 0 < i * 256 + c) : intToStr (i * 256 + c) = intToStr i ++ [c] := by
  rw [intToStr, if_pos h, show (i * 256 + c) / 256 = i by omega, show (i * 256 + c) % 256 = c by omega]

theorem intToStr_idOf (l : List Nat) : ∀ {acc : Nat}, (∀ c ∈ l, c < 256) → (0 < acc ∨ l.head? ≠ some 0) → intToStr (idOf acc l) = intToStr acc ++ l := by
  induction l with
  | nil => intro acc _ _; simp [idOf]
  | cons c t ih =>
    intro acc hl h0
    have hp : 0 < acc * 256 + c := by
      rcases h0 with h0 | h0
      · omega
      · have : c ≠ 0 := fun e => h0 (by rw [e]; rfl)
        omega
    rw [idOf, ih (fun d hd => hl d (List.mem_cons_of_mem _ hd)) (.inl hp), intToStr_step (hl c List.mem_cons_self) hp]
    simp

theorem idOf_bound (l : List Nat) : ∀ {acc : Nat}, (∀ c ∈ l, c < 256) → idOf acc l < (acc + 1) * 256 ^ l.length := by
  induction l with
  | nil => intro acc _; simp [idOf]
  | cons c t ih =>
    intro acc hl
    have h1 := ih (acc := acc * 256 + c) (fun d hd => hl d (List.mem_cons_of_mem _ hd))
    have h2 : acc * 256 + c + 1 ≤ (acc + 1) * 256 := by have := hl c List.mem_cons_self; omega
    have h3 := Nat.mul_le_mul_right (256 ^ t.length) h2
    rw [idOf, List.length_cons, Nat.pow_succ, Nat.mul_comm (256 ^ t.length) 256, ← Nat.mul_assoc]
    omega

theorem idOf_ge (l : List Nat) : ∀ acc, acc ≤ idOf acc l := by
  induction l with
  | nil => intro acc; exact Nat.le_refl _
  | cons c t ih => intro acc; have := ih (acc * 256 + c); rw [idOf]; omega

/-! ### C112 -/

/-- **C112** Different IDs are different names. -/
theorem C112_one_name {i j : Nat} (h : intToStr i = intToStr j) : i = j := by rw [← idOf_intToStr i, h, idOf_intToStr]

/-- **C112** Up to eight bytes on the stack, the last one on top at the end, and the first one not zero, are the name: `(` finds the ID whose name they are. -/
theorem C112_name_on_the_stack {s : St} (h : s.Lifo) {name : List Nat} (hn : name.length ≤ 8) (hb : ∀ c ∈ name, c < 256) (h0 : name.head? ≠ some 0) (l : List Int) (n : Nat) :
    ∃ id : Nat, popFingerprint name.length 0 (s.setItems (name.map (fun c : Nat => (c : Int)) ++ l) n) = .ok ((id : Int), s.setItems l (n + name.length)) ∧ intToStr id = name := by
  refine ⟨idOf 0 name, ?_, by rw [intToStr_idOf name hb (.inr h0), intToStr]; rfl⟩
  have key : ∀ (t : List Nat) (acc n : Nat), (∀ c ∈ t, c < 256) → idOf acc t < 18446744073709551616 →
      popFingerprint t.length (acc : Int) (s.setItems (t.map (fun c : Nat => (c : Int)) ++ l) n) = .ok ((idOf acc t : Int), s.setItems l (n + t.length)) := by
    intro t
    induction t with
    | nil => intro acc n _ _; rfl
    | cons c t ih =>
      intro acc n ht hlt
      have hge := idOf_ge t (acc * 256 + c)
      rw [idOf] at hlt
      show popFingerprint (t.length + 1) (acc : Int) (s.setItems ((c : Int) :: (t.map (fun c : Nat => (c : Int)) ++ l)) n) = _
      rw [popFingerprint, bind_ok (popTop_head h _ _ _)]
      have e : ((acc : Int) * 256 + (c : Int)) % 18446744073709551616 = ((acc * 256 + c : Nat) : Int) := by omega
      rw [e, ih _ _ (fun d hd => ht d (List.mem_cons_of_mem _ hd)) hlt, idOf, List.length_cons, show n + 1 + t.length = n + (t.length + 1) by omega]
  refine key name 0 n hb (Nat.lt_of_lt_of_le (idOf_bound name hb) ?_)
  rw [Nat.zero_add, Nat.one_mul]
  exact Nat.pow_le_pow_right (by decide) hn

example : (exState [82, 79, 77, 65, 7]).Lifo ∧ ([82, 79, 77, 65] : List Nat).length ≤ 8 ∧ (∀ c ∈ ([82, 79, 77, 65] : List Nat), c < 256) ∧ ([82, 79, 77, 65] : List Nat).head? ≠ some 0 := by decide

theorem libDir_last (exe : List Nat) : libDir exe ≠ [] ∧ (libDir exe).getLast? ≠ some 47 := by
  unfold libDir
  generalize pathAppend exe [46, 46] = a
  unfold pathAppend
  rw [if_neg (by decide)]
  split <;> simp

theorem libDir_zero {exe : List Nat} (h : 0 ∉ exe) : 0 ∉ libDir exe := by
  have key : ∀ a b : List Nat, 0 ∉ a → 0 ∉ b → 0 ∉ pathAppend a b := fun a b ha hb => by
    unfold pathAppend
    split
    · exact hb
    · split <;> simp [ha, hb]
  exact key _ _ (key _ _ h (by decide)) (by decide)

theorem cString_eq {p : List Nat} (h : 0 ∉ p) : cString p = p := by
  unfold cString
  induction p with
  | nil => rfl
  | cons c t ih =>
    rw [List.takeWhile_cons, if_pos, ih (fun e => h (List.mem_cons_of_mem _ e))]
    simp only [ne_eq, decide_not, Bool.not_eq_eq_eq_not, Bool.not_true, decide_eq_false_iff_not]
    exact fun e => h (by rw [e]; exact List.mem_cons_self)

/-- **C112** (partial: for names without slashes and zeros, see below) The file is in the directory of libraries, and its name is that of the ID with `.fl` after it. -/
theorem C112_in_the_directory_partial {exe : List Nat} {id : Nat} (hexe : 0 ∉ exe) (h : 47 ∉ intToStr id) (h' : 0 ∉ intToStr id) :
    place (cString (libFile exe id)) = place (libDir exe) ++ [intToStr id ++ [46, 102, 108]] := by
  have hs : 47 ∉ intToStr id ++ [46, 102, 108] := by simp [h]
  have hz : 0 ∉ intToStr id ++ [46, 102, 108] := by simp [h']
  have e : libFile exe id = libDir exe ++ 47 :: (intToStr id ++ [46, 102, 108]) := by
    unfold libFile pathAppend
    rw [if_neg, if_neg]
    · intro hh
      rcases hh with hh | hh
      · exact (libDir_last exe).1 hh
      · exact (libDir_last exe).2 hh
    · intro hh
      exact hs (List.mem_of_mem_head? hh)
  rw [e, cString_eq (by simp only [List.mem_append, List.mem_cons, not_or]; exact ⟨libDir_zero hexe, by decide, by simpa using hz⟩)]
  unfold place
  rw [slashParts_append, walkPath_append, slashParts_file hs]
  have hl : (intToStr id ++ [46, 102, 108]).length ≥ 3 := by simp
  rw [walkPath, if_neg, if_neg, walkPath]
  · intro hh; rw [hh] at hl; exact absurd hl (by decide)
  · rintro (hh | hh) <;> (rw [hh] at hl; exact absurd hl (by decide))

/-- The bytes of a text. -/
def asciiCodes (s : String) : List Nat := s.toList.map (·.toNat)

/-- The directory is `fing`, beside the one of the executable: here `/usr/fing` for `/usr/bin`. -/
example : place (libDir (asciiCodes "/usr/bin")) = [asciiCodes "usr", asciiCodes "fing"] := by decide

theorem intToStr_name {name : List Nat} (hb : ∀ c ∈ name, c < 256) (h0 : name.head? ≠ some 0) : intToStr (idOf 0 name) = name := by
  rw [intToStr_idOf name hb (.inr h0), intToStr]; rfl

/-- The name `ROMA`. -/
example : 47 ∉ intToStr 0x524F4D41 ∧ 0 ∉ intToStr 0x524F4D41 ∧ intToStr 0x524F4D41 = asciiCodes "ROMA" := by
  have : intToStr 0x524F4D41 = asciiCodes "ROMA" := intToStr_name (name := asciiCodes "ROMA") (by decide) (by decide)
  rw [this]; decide

/-- **C112** is violated by names with slashes: a program can have any file with a short name loaded as a library, wherever the interpreter is. -/
theorem C112_false_for_absolute_names (exe : List Nat) : ∃ id < 2 ^ 64, cString (libFile exe id) = asciiCodes "/tmp/abc.fl" := by
  refine ⟨idOf 0 (asciiCodes "/tmp/abc"), by decide, ?_⟩
  rw [libFile, intToStr_name (by decide) (by decide)]
  rfl

/-- **C112** is violated by names with slashes: a program can leave the directory by `..`. -/
theorem C112_false_for_dots : ∃ id < 2 ^ 64, place (cString (libFile (asciiCodes "/usr/bin") id)) = [asciiCodes "usr", asciiCodes "src", asciiCodes "a.fl"] := by
  refine ⟨idOf 0 (asciiCodes "../src/a"), by decide, ?_⟩
  rw [libFile, intToStr_name (by decide) (by decide)]
  decide

/-- **C112** is violated by names with zeros: two IDs stand for the same file, and it does not have the name of a library. -/
theorem C112_false_for_zeros : ∃ i < 2 ^ 64, ∃ j < 2 ^ 64, i ≠ j ∧ cString (libFile (asciiCodes "/usr/bin") i) = cString (libFile (asciiCodes "/usr/bin") j) ∧
    place (cString (libFile (asciiCodes "/usr/bin") i)) = [asciiCodes "usr", asciiCodes "fing", asciiCodes "A"] := by
  refine ⟨idOf 0 [65, 0, 66], by decide, idOf 0 [65, 0, 67], by decide, by decide, ?_, ?_⟩
  · rw [libFile, libFile, intToStr_name (by decide) (by decide), intToStr_name (by decide) (by decide)]
    rfl
  · rw [libFile, intToStr_name (by decide) (by decide)]
    decide

end Funge
