import Verif.Lemmas.RefFishStep
import Verif.Props.C101_Reference
/-
Whole programs of ><>. C102: the interpreter runs every program as the reference machine of Spec/Fish.lean does.
-/
namespace Funge
open Exec Field Ref
open Ref.Fish (Step Steps Idle)

/-! ### C102 -/

/-- What the universe `u` has of the machine's state `b`: since `g`, what was printed, what was read, the exit code; and, until the program has
ended, the one fish, its stacks, which of its registers are full, and the codebox. -/
structure Univ.Swims (u : Univ) (g : Glob) (b : Fish) : Prop where
  out : ∃ o : List (List Int), u.g.eff = g.eff ++ o.map Eff.out ∧ o.flatten = b.out
  inp : u.g.inp = b.inp
  code : u.g.exitcode = b.code.getD g.exitcode
  over : b.over = true → u.runners = []
  live : b.over = false → ∃ r, u.runners = [r] ∧ r.ip.stopped = false ∧ r.ip.pos = Vec.ofList [b.x, b.y] ∧ r.ip.delta = Vec.ofList [b.dx, b.dy] ∧
    r.ss.stacks.map (·.items) = b.stack :: b.below ∧ r.regs.map (·.1) = b.regs.map Option.isSome ∧ r.inString = b.quote ∧
    ∀ x y, u.g.field.get (Vec.ofList [x, y]) = b.cell x y

theorem Swims.shows {R : Rules} {g : Glob} {f : Nat} {s : St} {b : Fish} (H : Swims R g f s b) : s.alone.Swims g b := by
  obtain ⟨r1, r2, r3, r4, r5⟩ := H.rest
  refine ⟨r5, r3, by rw [H.code]; exact r4, fun h => absurd (H.over.symm.trans h) (by decide), fun _ => ?_⟩
  obtain ⟨⟨F, a, n, bn, rg, o, rfl, h1, h2, h3, h4⟩, -⟩ := H
  refine ⟨_, rfl, r2, by krfl, by krfl, ?_, h4, by krfl, fun x y => ?_⟩
  · rw [← h3]
    show b.stack :: List.map (·.items) (bn.map fun p => (⟨0, p.1, p.2⟩ : Stack)) = _
    rw [List.map_map]; rfl
  · rw [← h1.get x y]
    krfl

theorem Drowned.swims {g : Glob} {s : St} {b : Fish} (h : Drowned g s b.toBef) (ho : b.over = true) : (⟨[], s.g⟩ : Univ).Swims g b :=
  ⟨h.out, h.inp, h.code, fun _ => rfl, fun h => absurd (ho.symm.trans h) (by decide)⟩

/-- A program of ><> and a configuration for it. -/
structure Dives (g : Glob) (f : Nat) (lines : List (List Int)) : Prop where
  config : g.Befunge (-1) f
  strings : g.cfg.strings = .multispace
  fuel : 0 < f
  some : lines ≠ []
  plain : ∀ l ∈ lines, ∀ c ∈ l, 0 ≤ c ∧ c ≤ 255 ∧ Spec.Plain c

theorem Dives.start {g : Glob} {f : Nat} {lines : List (List Int)} (h : Dives g f lines) (R : Rules) (hR : R.torus = false) :
    ∃ s, launch g R.byte (Spec.planeText lines) = s.alone ∧ Swims R g f s (Fish.start R lines g.inp) := by
  have hsh := shown_start R hR h.some h.plain g.inp
  refine ⟨fishAt g f g.asked (Field.load 2 R.byte (Spec.planeText lines)) 0 [] [(false, 0)] [] (Fish.start R lines g.inp), ?_,
    ⟨⟨_, g.asked, 0, [], [(false, 0)], [], rfl, hsh, rfl, rfl, rfl⟩, ?_, rfl, rfl, rfl⟩⟩
  · obtain ⟨h1, h2, h3, h4, h5, h6⟩ := h.config
    have hc : g.cfg = { g.cfg with dims := 2, standard := -1, topo := .lahey, mode := 0, fingerprints := [] } := by
      rw [← h1, ← h2, ← h3, ← h4, ← h5]
    unfold launch fishAt St.alone
    dsimp only
    rw [← hc, h1]
    have hr : ∀ (cfg : Cfg), cfg.dims = 2 → cfg.standard = -1 → cfg.fingerprints = [] → cfg.mode = 0 → newRunner cfg g.nextId (Vec.ofList [0]) (Vec.ofList [1]) =
      { newRunner cfg g.nextId (Vec.ofList [0]) (Vec.ofList [1]) with ss := ⟨0, [⟨0, [], 0⟩]⟩, ip := at2 0 0 1 0, regs := [(false, 0)], inString := false, strEnd := 34 } := by
      intro ⟨a, b, c, d, e, f, gg, i, j, k, m, n, o, p⟩ h1 h2 h5 h4
      dsimp only at h1 h2 h5 h4
      subst h1 h2 h5 h4
      krfl
    refine congr (congrArg Univ.mk (congrArg (fun r => [r]) (hr _ h1 h2 h5 h4))) ?_
    rw [← h6, List.map_nil, List.append_nil]
    rfl
  · obtain ⟨h1, h2, h3, h4⟩ := hsh.zero
    show Bef.has _ _ = true
    unfold Bef.has
    simp only [Bool.and_eq_true, decide_eq_true_eq]
    exact ⟨⟨⟨h1, h2⟩, h3⟩, h4⟩

/-- **C102.** -/
theorem C102_swims_as_the_machine_partial {g : Glob} {f : Nat} {lines : List (List Int)} (h : Dives g f lines) (R : Rules) (hR : R.torus = false)
    (hw : Fish.Within g.flt R (Fish.start R lines g.inp)) (k : Nat) :
    (∃ u n b, (launch g R.byte (Spec.planeText lines)).turns k = .ok u ∧ Steps g.flt R n (Fish.start R lines g.inp) b ∧ u.Swims g b ∧ (b.over = false → k ≤ n)) ∨
    ((launch g R.byte (Spec.planeText lines)).turns k = .error .fuel ∧ ∃ n b c, Steps g.flt R n (Fish.start R lines g.inp) b ∧ Idle g.flt R f b c) := by
  obtain ⟨s, e, H⟩ := h.start R hR
  rw [e]
  rcases turns_fish h.strings h.fuel k H hw with ⟨s', c, n, h1, h2, h3, h4⟩ | ⟨s', c, n, h1, h2, h3, h4⟩ | h1
  · exact .inl ⟨_, n, c, h1, h2, h4.shows, fun _ => h3⟩
  · exact .inl ⟨_, n, c, h1, h2, h4.swims h3, fun h => absurd (h3.symm.trans h) (by decide)⟩
  · exact .inr h1

/-- **C102.** If the program ends, it has printed what a run of the machine prints that ends, read what it reads, and has its exit code. -/
theorem C102_what_it_prints_partial {g : Glob} {f : Nat} {lines : List (List Int)} (h : Dives g f lines) (R : Rules) (hR : R.torus = false)
    (hw : Fish.Within g.flt R (Fish.start R lines g.inp)) {k : Nat} {u : Univ} (hu : (launch g R.byte (Spec.planeText lines)).turns k = .ok u) (hr : u.runners = []) :
    ∃ n b, Steps g.flt R n (Fish.start R lines g.inp) b ∧ b.over = true ∧ u.Swims g b := by
  rcases C102_swims_as_the_machine_partial h R hR hw k with ⟨u', n, b, h1, h2, h3, -⟩ | ⟨h1, -⟩
  · obtain rfl : u = u' := Except.ok.inj (hu.symm.trans h1)
    refine ⟨n, b, h2, ?_, h3⟩
    cases ho : b.over with
    | true => rfl
    | false => obtain ⟨r, h4, -⟩ := h3.live ho
               rw [hr] at h4; cases h4
  · rw [h1] at hu; cases hu

/-- **C102.** If all runs of the machine end within `N` steps, the program ends within as many ticks and one. -/
theorem C102_it_ends_partial {g : Glob} {f : Nat} {lines : List (List Int)} (h : Dives g f lines) (R : Rules) (hR : R.torus = false)
    (hw : Fish.Within g.flt R (Fish.start R lines g.inp)) {N : Nat} (hN : ∀ n b, Steps g.flt R n (Fish.start R lines g.inp) b → n ≤ N) (hf : N < f) {k : Nat} (hk : N < k) :
    ∃ u n b, (launch g R.byte (Spec.planeText lines)).turns k = .ok u ∧ u.runners = [] ∧ Steps g.flt R n (Fish.start R lines g.inp) b ∧ b.over = true ∧ u.Swims g b := by
  rcases C102_swims_as_the_machine_partial h R hR hw k with ⟨u, n, b, h1, h2, h3, h4⟩ | ⟨-, n, b, c, h2, h3⟩
  · cases ho : b.over with
    | true => exact ⟨u, n, b, h1, h3.over ho, h2, ho, h3⟩
    | false => have := hN n b h2
               have := h4 ho
               omega
  · have := hN _ _ (h2.trans h3.steps)
    omega

/-- All runs from `b` end within `n` steps, within the limits of the specification, and with a state that has the property `p`. -/
def Ref.Fish.settles (fl : FloatOps) (R : Rules) (p : Fish → Bool) : Nat → Fish → Bool
  | 0, b => b.over && p b
  | n + 1, b => if b.over then p b else !(b.acts fl R).isEmpty && (b.acts fl R).all fun c => settles fl R p n (if c.over then c else c.swim)

theorem Ref.Fish.Steps.first {fl : FloatOps} {R : Rules} {n : Nat} {b c : Fish} (h : Steps fl R (n + 1) b c) : ∃ d, Step fl R b d ∧ Steps fl R n d c := by
  generalize hm : n + 1 = m at h
  induction h generalizing n with
  | zero => omega
  | @snoc m b c d h1 h2 ih =>
    obtain rfl : n = m := by omega
    cases n with
    | zero => cases h1; exact ⟨d, h2, .zero _⟩
    | succ n => obtain ⟨e, h3, h4⟩ := ih rfl
                exact ⟨e, h3, .snoc h4 h2⟩

theorem Ref.Fish.settles_steps {fl : FloatOps} {R : Rules} {p : Fish → Bool} (n : Nat) : ∀ {b : Fish}, b.settles fl R p n = true → ∀ m c, Steps fl R m b c →
    m ≤ n ∧ (c.over = false → c.acts fl R ≠ []) ∧ (c.over = true → p c = true) := by
  induction n with
  | zero =>
    intro b h m c hs
    unfold Fish.settles at h
    simp only [Bool.and_eq_true] at h
    cases m with
    | zero => cases hs; exact ⟨Nat.le_refl 0, fun h' => absurd (h.1.symm.trans h') (by decide), fun _ => h.2⟩
    | succ m => obtain ⟨d, h1, -⟩ := hs.first
                exact absurd (h.1.symm.trans h1.1) (by decide)
  | succ n ih =>
    intro b h m c hs
    unfold Fish.settles at h
    cases ho : b.over with
    | true =>
      rw [if_pos ho] at h
      cases m with
      | zero => cases hs; exact ⟨Nat.zero_le _, fun h' => absurd (ho.symm.trans h') (by decide), fun _ => h⟩
      | succ m => obtain ⟨d, h1, -⟩ := hs.first
                  exact absurd (ho.symm.trans h1.1) (by decide)
    | false =>
      rw [if_neg (by rw [ho]; decide)] at h
      simp only [Bool.and_eq_true, List.all_eq_true] at h
      cases m with
      | zero =>
        cases hs
        refine ⟨Nat.zero_le _, fun _ he => ?_, fun h' => absurd (ho.symm.trans h') (by decide)⟩
        rw [he] at h
        exact absurd h.1 (by decide)
      | succ m =>
        obtain ⟨d, ⟨h1, e, h2, h3⟩, h4⟩ := hs.first
        obtain ⟨k1, k2⟩ := ih (h3 ▸ h.2 e h2) m c h4
        exact ⟨by omega, k2⟩

/-- **C102.** Trying out the machine is enough: if each of its runs ends within `N` steps with a state that has the property `p`, the interpreter ends within `N + 1` ticks in such a state. -/
theorem C102_tried_out {g : Glob} {f : Nat} {lines : List (List Int)} (h : Dives g f lines) (R : Rules) (hR : R.torus = false) {p : Fish → Bool} {N : Nat}
    (hN : (Fish.start R lines g.inp).settles g.flt R p N = true) (hf : N < f) {k : Nat} (hk : N < k) :
    ∃ u b, (launch g R.byte (Spec.planeText lines)).turns k = .ok u ∧ u.runners = [] ∧ p b = true ∧ u.Swims g b := by
  have hs := Fish.settles_steps N hN
  obtain ⟨u, n, b, h1, h2, h3, h4, h5⟩ := C102_it_ends_partial h R hR (fun n c h1 => (hs n c h1).2.1) (fun n b h1 => (hs n b h1).1) hf hk
  exact ⟨u, b, h1, h2, (hs n b h3).2.2 h4, h5⟩

/-! ### Examples -/

def exFish : Glob := { cfg := { dims := 2, standard := -1, strings := .multispace }, fuel := 2000, flt := exFloat, inp := [104, 105] }

/-- Whole words of the language: cells are integers. -/
def exRules : Rules := ⟨false, false, false, false, 100, false, true, true, true⟩

/-- A string printed backwards, as it was pushed, until the stack is empty. -/
def exHello : List (List Int) := [sourceLine "\"olleh\"v", sourceLine ">l?!;o >"]

example : Dives exFish 2000 exHello ∧ (Fish.start exRules exHello exFish.inp).settles exFish.flt exRules (fun b => b.out == sourceLine "hello" && b.code == none) 150 = true :=
  ⟨⟨⟨rfl, rfl, rfl, rfl, rfl, rfl⟩, rfl, by decide, by decide, sourceLine_plain (by decide)⟩, by decide +kernel⟩

/-- A stack of its own for one value, the register, a jump. -/
def exPond : List (List Int) := [sourceLine "1231[n4]&nne0.;ln;"]

example : Dives exFish 2000 exPond ∧ (Fish.start exRules exPond exFish.inp).settles exFish.flt exRules (fun b => b.out == sourceLine "3210") 60 = true :=
  ⟨⟨⟨rfl, rfl, rfl, rfl, rfl, rfl⟩, rfl, by decide, by decide, sourceLine_plain (by decide)⟩, by decide +kernel⟩

/-- It writes the `n` it comes by, prints a character of itself with it, and dies for want of a value. -/
def exDeath : List (List Int) := [sourceLine "\"n\"90p00g +;"]

example : Dives exFish 2000 exDeath ∧ (Fish.start exRules exDeath exFish.inp).settles exFish.flt exRules (fun b => b.out == sourceLine "34" && b.code == some 1) 60 = true :=
  ⟨⟨⟨rfl, rfl, rfl, rfl, rfl, rfl⟩, rfl, by decide, by decide, sourceLine_plain (by decide)⟩, by decide +kernel⟩

/-- Input, and one of four ways. -/
def exChoice : List (List Int) := [sourceLine "\\2n;", sourceLine "xion;", sourceLine ";"]

example : Dives exFish 2000 exChoice ∧ (Fish.start exRules exChoice exFish.inp).settles exFish.flt exRules
    (fun b => (b.out == [] && b.inp == [104, 105] && b.code == none) || (b.out == [104] && b.inp == [105] && b.code == some 1)) 60 = true :=
  ⟨⟨⟨rfl, rfl, rfl, rfl, rfl, rfl⟩, rfl, by decide, by decide, sourceLine_plain (by decide)⟩, by decide +kernel⟩

/-! ### Where the code is not the language -/

/-- What a program prints, if it ends within `k` ticks. -/
def fishPrints (line : String) (k : Nat) : Option (List Int) :=
  match (launch exFish false (Spec.planeText [sourceLine line])).turns k with
  | .ok ⟨[], g⟩ => some (g.eff.flatMap fun e => match e with | .out l => l | _ => [])
  | _ => none

/-- **C102.** `[` takes values along in their order: with 1 2 3 4 5 on the stack, `3[` is to leave 1 2 and 3 4 5, so that 5, 4, 3 are printed. The order is reversed. -/
theorem C102_false_open_keeps_order : fishPrints "123453[nnn;" 20 = some (sourceLine "345") ∧ sourceLine "345" ≠ sourceLine "543" := by
  constructor
  · decide +kernel
  · decide

/-- **C102.** So it is with `]`. -/
theorem C102_false_close_keeps_order : fishPrints "10[2345]nnnn;" 20 = some (sourceLine "2345") ∧ sourceLine "2345" ≠ sourceLine "5432" := by
  constructor
  · decide +kernel
  · decide

/-- **C102.** An empty cell reads as zero, in the language. It reads as a blank. -/
theorem C102_false_empty_cell_is_zero : fishPrints "05gn;" 20 = some (sourceLine "32") ∧ sourceLine "32" ≠ sourceLine "0" := by
  constructor
  · decide +kernel
  · decide

end Funge
