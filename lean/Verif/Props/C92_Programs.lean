import Verif.Lemmas.Prog
import Verif.Props.C42_Output
import Verif.Props.C64_Input
/-
Whole programs. C92: /repo/test/echo.bf copies its input.
-/
namespace Funge
open Exec

/-! ### C92 -/

/-- The text of /repo/test/echo.bf: `>~,v` and `^  <`. -/
def echoText : List Int := [62, 126, 44, 118, 10, 94, 32, 32, 60]

/-- What is printed, as bytes. -/
def bytesOut (e : List Eff) : List Int := (e.flatMap fun
  | .out l => l
  | _ => []).map (· % 256)

section
variable (g : Glob) (std : Int) (f : Nat) (cc : Bool)

/-- The program on its way. -/
def echoAt (ip : IP) (l : List Int) (n : Nat) (inp : List Int) (eff : List Eff) : St :=
  progAt g std (f + 10) (Field.load 2 cc echoText) ip l n inp eff

variable {std}

theorem echo_read (hs : std = 93 ∨ std = 98) {c : Int} (hc : c ≠ 13) (n inp eff) :
    Goes 1 (echoAt g std f cc (at2 1 0 1 0) [] n (c :: inp) eff) (echoAt g std f cc (at2 2 0 1 0) [c] (n + 1) inp eff) := by
  refine goes_tick rfl rfl (prog_step (ip1 := at2 1 0 1 0) (sem := ⟨.charIn, false⟩) hs (Nat.succ_pos _) ?_ (fun ex => ?_) ?_)
  · rcases hs with rfl | rfl <;> cases cc <;> krfl
  · show iCharIn _ = _
    rw [iCharIn, bind_ok (progAt_getChar ..)]
    dsimp only
    rw [if_neg hc]
    exact bind_ok (progAt_push ..)
  · cases cc <;> krfl

theorem echo_end1 (hs : std = 93 ∨ std = 98) (n eff) :
    Goes 1 (echoAt g std f cc (at2 1 0 1 0) [] n [] eff) (echoAt g std f cc (at2 0 0 (-1) 0) [] n [] eff) := by
  refine goes_tick rfl rfl ?_
  rcases hs with rfl | rfl <;> cases cc <;> krfl

theorem echo_end (hs : std = 93 ∨ std = 98) (n eff) :
    Goes 2 (echoAt g std f cc (at2 1 0 1 0) [] n [] eff) (echoAt g std f cc (at2 1 0 1 0) [] n [] eff) := by
  refine (echo_end1 g f cc hs n eff).trans (goes_tick rfl rfl ?_)
  rcases hs with rfl | rfl <;> cases cc <;> krfl

theorem echo_write (hs : std = 93 ∨ std = 98) (c n inp eff) :
    Goes 1 (echoAt g std f cc (at2 2 0 1 0) [c] n inp eff) (echoAt g std f cc (at2 3 0 1 0) [] (n + 1) inp (eff ++ [.out [if c = 10 then 10 else toChar c]])) := by
  refine goes_tick rfl rfl ?_
  rcases hs with rfl | rfl <;> cases cc <;> krfl

theorem echo_back1 (hs : std = 93 ∨ std = 98) (n inp eff) :
    Goes 1 (echoAt g std f cc (at2 3 0 1 0) [] n inp eff) (echoAt g std f cc (at2 3 1 0 1) [] n inp eff) := by
  refine goes_tick rfl rfl ?_
  rcases hs with rfl | rfl <;> cases cc <;> krfl
theorem echo_back2 (hs : std = 93 ∨ std = 98) (n inp eff) :
    Goes 1 (echoAt g std f cc (at2 3 1 0 1) [] n inp eff) (echoAt g std f cc (at2 2 1 (-1) 0) [] n inp eff) := by
  refine goes_tick rfl rfl ?_
  rcases hs with rfl | rfl <;> cases cc <;> krfl
theorem echo_back3 (hs : std = 93 ∨ std = 98) (n inp eff) :
    Goes 1 (echoAt g std f cc (at2 2 1 (-1) 0) [] n inp eff) (echoAt g std f cc (at2 0 0 0 (-1)) [] n inp eff) := by
  refine goes_tick rfl rfl ?_
  rcases hs with rfl | rfl <;> cases cc <;> krfl
theorem echo_back4 (hs : std = 93 ∨ std = 98) (n inp eff) :
    Goes 1 (echoAt g std f cc (at2 0 0 0 (-1)) [] n inp eff) (echoAt g std f cc (at2 1 0 1 0) [] n inp eff) := by
  refine goes_tick rfl rfl ?_
  rcases hs with rfl | rfl <;> cases cc <;> krfl

/-- The rest of the way from any point: it prints as much of the remaining input as there was time for. -/
theorem echo_runs (hs : std = 93 ∨ std = 98) (k : Nat) : ∀ (inp : List Int) (n : Nat) (eff : List Eff), 13 ∉ inp →
    ∃ u j, (echoAt g std f cc (at2 1 0 1 0) [] n inp eff).alone.turns k = .ok u ∧ u.g.eff = eff ++ (inp.take j).map (fun c => .out [if c = 10 then 10 else toChar c]) ∧
      u.runners ≠ [] ∧ (6 * inp.length ≤ k → j = inp.length) := by
  induction k using Nat.strongRecOn with
  | _ k ih =>
    intro inp n eff h13
    cases inp with
    | nil =>
      have h2 := echo_end g f cc hs n eff
      match k, ih with
      | 0, _ => exact ⟨_, 0, rfl, by simp [echoAt, progAt_eff], alone_runners _, by simp⟩
      | 1, _ =>
        refine ⟨(echoAt g std f cc (at2 0 0 (-1) 0) [] n [] eff).alone, 0, ?_, by simp [echoAt, progAt_eff], alone_runners _, by simp⟩
        exact echo_end1 g f cc hs n eff 0
      | k + 2, ih =>
        obtain ⟨u, j, h, he, hr, hj⟩ := ih k (by omega) [] n eff h13
        refine ⟨u, j, ?_, he, hr, fun _ => hj (by simp)⟩
        rw [Nat.add_comm, h2, h]
    | cons c inp =>
      have hc : c ≠ 13 := fun e => h13 (by simp [e])
      have h13' : 13 ∉ inp := fun e => h13 (by simp [e])
      have g1 := echo_read g f cc hs hc n inp eff
      have g2 := g1.trans (echo_write g f cc hs c (n + 1) inp eff)
      have g3 := g2.trans (echo_back1 g f cc hs (n + 2) inp _)
      have g4 := g3.trans (echo_back2 g f cc hs (n + 2) inp _)
      have g5 := g4.trans (echo_back3 g f cc hs (n + 2) inp _)
      have g6 := g5.trans (echo_back4 g f cc hs (n + 2) inp _)
      match k, ih with
      | 0, _ => exact ⟨_, 0, rfl, by simp [echoAt, progAt_eff], alone_runners _, by simp⟩
      | 1, _ => exact ⟨_, 0, g1 0, by simp [echoAt, progAt_eff], alone_runners _, by simp; omega⟩
      | 2, _ => exact ⟨_, 1, g2 0, by simp [echoAt, progAt_eff], alone_runners _, by simp; omega⟩
      | 3, _ => exact ⟨_, 1, g3 0, by simp [echoAt, progAt_eff], alone_runners _, by simp; omega⟩
      | 4, _ => exact ⟨_, 1, g4 0, by simp [echoAt, progAt_eff], alone_runners _, by simp; omega⟩
      | 5, _ => exact ⟨_, 1, g5 0, by simp [echoAt, progAt_eff], alone_runners _, by simp; omega⟩
      | k + 6, ih =>
        obtain ⟨u, j, h, he, hr, hj⟩ := ih k (by omega) inp (n + 2) (eff ++ [.out [if c = 10 then 10 else toChar c]]) h13'
        refine ⟨u, j + 1, ?_, ?_, hr, fun hk => ?_⟩
        · rw [Nat.add_comm, g6, h]
        · rw [he]; simp
        · rw [hj (by simp at hk; omega)]; rfl
end

theorem bytesOut_sent (e : List Eff) (xs : List Int) (hx : ∀ c ∈ xs, 0 ≤ c ∧ c ≤ 255) :
    bytesOut (e ++ xs.map fun c => .out [if c = 10 then 10 else toChar c]) = bytesOut e ++ xs := by
  unfold bytesOut
  rw [List.flatMap_append, List.map_append]
  congr 1
  induction xs with
  | nil => rfl
  | cons c xs ih =>
    rw [List.map_cons, List.flatMap_cons, List.map_append, ih fun c hc => hx c (by simp [hc])]
    have := hx c (by simp)
    have e : (if c = 10 then 10 else toChar c) % 256 = c := by
      split
      · omega
      · unfold toChar; rw [Int.bmod_def]; split <;> omega
    simp [e]

/-- **C92** /repo/test/echo.bf copies its input, byte for byte, whatever it is (carriage returns excepted): at any time what it has printed is the beginning of the
input, once it has had six turns for every byte it is all of the input, and it never ends by itself or goes wrong. As Befunge-93 or 98, with cells of any size. -/
theorem C92_echo_partial (g : Glob) {std : Int} (hs : std = 93 ∨ std = 98) {f : Nat} (hg : g.Befunge std (f + 10)) (cc : Bool) (h0 : g.eff = [])
    (hb : ∀ c ∈ g.inp, 0 ≤ c ∧ c ≤ 255) (h13 : 13 ∉ g.inp) (k : Nat) :
    ∃ u, (launch g cc echoText).turns k = .ok u ∧ bytesOut u.g.eff <+: g.inp ∧ (6 * g.inp.length < k → bytesOut u.g.eff = g.inp) ∧ u.runners ≠ [] := by
  rw [launch_eq _ hg hs]
  have h1 : Goes 1 (progAt g std (f + 10) (Field.load 2 cc echoText) (at2 0 0 1 0) [] 0 g.inp g.eff) (echoAt g std f cc (at2 1 0 1 0) [] 0 g.inp g.eff) := by
    refine goes_tick rfl rfl ?_
    rcases hs with rfl | rfl <;> cases cc <;> krfl
  cases k with
  | zero =>
    refine ⟨_, rfl, ?_, by omega, alone_runners _⟩
    rw [progAt_eff, h0]; exact List.nil_prefix
  | succ k =>
    obtain ⟨u, j, h, he, hr, hj⟩ := echo_runs g f cc hs k g.inp 0 g.eff h13
    have hp : bytesOut u.g.eff = g.inp.take j := by
      rw [he, bytesOut_sent _ _ (fun c hc => hb c (List.mem_of_mem_take hc)), h0]; rfl
    refine ⟨u, ?_, ?_, fun hk => ?_, hr⟩
    · rw [Nat.add_comm, h1, h]
    · rw [hp]; exact List.take_prefix _ _
    · rw [hp, hj (by omega), List.take_length]

/-- What is missing: of CR LF only the LF is copied. -/
theorem C92_false_for_CR : ∃ g : Glob, g.Befunge 98 100 ∧ g.inp = [65, 13, 10] ∧ ((launch g false echoText).turns 30).toOption.map (fun u => bytesOut u.g.eff) = some [65, 10] ∧
    ((launch g false echoText).turns 60).toOption.map (fun u => bytesOut u.g.eff) = some [65, 10] :=
  ⟨{ cfg := { dims := 2, standard := 98 }, fuel := 100, inp := [65, 13, 10], flt := exFloat }, ⟨rfl, rfl, rfl, rfl, rfl, rfl⟩, rfl, by decide +kernel, by decide +kernel⟩

/-- Hypotheses of the theorem. -/
example : ∃ g : Glob, g.Befunge 93 (5 + 10) ∧ g.eff = [] ∧ g.inp = [0, 200, 10] ∧ (∀ c ∈ g.inp, 0 ≤ c ∧ c ≤ 255) ∧ 13 ∉ g.inp :=
  ⟨{ cfg := { dims := 2, standard := 93 }, fuel := 15, inp := [0, 200, 10], flt := exFloat }, ⟨rfl, rfl, rfl, rfl, rfl, rfl⟩, rfl, rfl, by decide, by decide⟩

end Funge
