import Verif.Lemmas.RefStart
/-
Whole programs. C101: the interpreter runs every program as the reference machine of Spec/Befunge.lean does.
-/
namespace Funge
open Exec Field Ref
open Ref.Bef (Step Steps Idle)

/-! ### C101 -/

/-- The IP is where the machine's is. If it goes on over the east or the south edge of a torus, it is on its way there at first. -/
def Ref.Bef.Where (R : Rules) (b : Bef) (p : Vec) : Prop := p = Vec.ofList [b.x, b.y] ∨
  (R.torus = true ∧ b.quote = false ∧ ((p = Vec.ofList [80, b.y] ∧ b.x = 0 ∧ b.dx = 1 ∧ b.dy = 0) ∨ (p = Vec.ofList [b.x, 25] ∧ b.y = 0 ∧ b.dx = 0 ∧ b.dy = 1)))

/-- What the universe `u` has of the machine's state `b`: since `g`, what was printed, what was read, the exit code; and, until the program has
ended, the one IP, its storage offset and its stacks, and the playfield. -/
structure Univ.Shows (u : Univ) (R : Rules) (g : Glob) (b : Bef) : Prop where
  out : ∃ o : List (List Int), u.g.eff = g.eff ++ o.map Eff.out ∧ o.flatten = b.out
  inp : u.g.inp = b.inp
  code : u.g.exitcode = b.code.getD g.exitcode
  over : b.over = true → u.runners = []
  live : b.over = false → ∃ r, u.runners = [r] ∧ r.ip.stopped = false ∧ b.Where R r.ip.pos ∧ r.ip.delta = Vec.ofList [b.dx, b.dy] ∧
    r.ip.storage = Vec.ofList [b.ox, b.oy] ∧ r.ss.select = 0 ∧ r.ss.stacks.map (·.items) = b.stack :: b.below ∧ r.inString = b.quote ∧ ∀ x y, u.g.field.get (Vec.ofList [x, y]) = b.cell x y

theorem Holds.shows {R : Rules} {g : Glob} {std : Int} {f : Nat} {w : Walk} {s : St} {b : Bef} (H : Holds R g std f w s b) : s.alone.Shows R g b := by
  obtain ⟨r1, r2, r3, r4, r5⟩ := H.rest
  refine ⟨r5, r3, by rw [H.code]; exact r4, fun h => absurd (H.over.symm.trans h) (by decide), fun _ => ?_⟩
  obtain ⟨⟨F, a, n, bn, o, rfl, h1, hb, h2⟩, -⟩ := H
  refine ⟨_, rfl, r2, .inl (by krfl), by krfl, by krfl, by krfl, ?_, by krfl, fun x y => ?_⟩
  · have : (befAt g std f w a F n bn o b).cur.ss.stacks = (⟨0, b.stack, n⟩ : Stack) :: bn.map fun p => ⟨0, p.1, p.2⟩ := by krfl
    rw [this, ← hb]
    simp
  · rw [← h1.get x y]
    krfl

theorem Near.shows {R : Rules} {g : Glob} {std : Int} {f : Nat} {w : Walk} {s : St} {b : Bef} (H : Near R g std f w s b) : s.alone.Shows R g b := by
  rcases H with H | H
  · exact H.shows
  · obtain ⟨s0, H, k1, k2, k3, k4, k5, k6, ht, -, -, -, hq, hp⟩ := H.known
    obtain ⟨a1, a2, a3, a4, a5⟩ := H.shows
    have e : s.alone.g = s0.alone.g := k2
    refine ⟨by rw [e]; exact a1, by rw [e]; exact a2, by rw [e]; exact a3, fun h => absurd (H.over.symm.trans h) (by decide), fun h => ?_⟩
    obtain ⟨r, e1, -, -, -, -, e2, e3, e4, e5⟩ := a5 h
    obtain rfl : s0.cur = r := (List.cons.inj e1).1
    exact ⟨s.cur, rfl, k4, .inr ⟨ht, hq, hp⟩, k5, k6, by rw [k3]; exact e2, by rw [k3]; exact e3, by rw [k3]; exact e4, by rw [e]; exact e5⟩

theorem Ended.shows {R : Rules} {g : Glob} {std : Int} {f : Nat} {w : Walk} {s : St} {b : Bef} (h : Ended R g std f w s b) : (⟨[], s.g⟩ : Univ).Shows R g b := by
  obtain ⟨h1, h2, h3⟩ := h.known
  exact ⟨h3, h1, h2, fun _ => rfl, fun h' => absurd (h.over.symm.trans h') (by decide)⟩

/-- A program and a configuration for the machine with the rules `R`. -/
structure Plays (R : Rules) (g : Glob) (std : Int) (f : Nat) (lines : List (List Int)) : Prop where
  config : g.cfg.dims = 2 ∧ g.cfg.standard = std ∧ g.cfg.mode = 0 ∧ g.cfg.fingerprints = [] ∧ g.fuel = f
  around : Rules.Around R g
  rules : Rules.For R std
  fits : R.torus = true → lines.length ≤ 25 ∧ ∀ l ∈ lines, l.length ≤ 80
  strings : g.cfg.strings = if R.sgml then .sgml else .multispace
  many : g.cfg.concurrent = R.many
  fuel : 1 < f ∧ R.reach ≤ f
  some : lines ≠ []
  plain : ∀ l ∈ lines, ∀ c ∈ l, 0 ≤ c ∧ c ≤ 255 ∧ Spec.Plain c

theorem Plays.start {R : Rules} {g : Glob} {std : Int} {f : Nat} {lines : List (List Int)} (h : Plays R g std f lines) :
    ∃ s, launch g R.byte (Spec.planeText lines) = s.alone ∧ Holds R g std f ⟨g.nextId, none, [], g.nextId + 1⟩ s (Bef.start R lines g.inp) := by
  obtain ⟨c1, c2, c3, c4, c5⟩ := h.config
  have hsh := plane_start R h.some h.plain h.fits g.inp
  refine ⟨_, launch_bef c1 c2 c3 c4 c5 h.rules.std R lines _, ⟨⟨_, g.asked, 0, [], [], rfl, hsh, rfl, rfl⟩, ?_, rfl, rfl, rfl, ⟨Int.le_refl 0, (by decide : (0 : Int) ≤ 255)⟩, fun _ => rfl⟩⟩
  obtain ⟨h1, h2, h3, h4⟩ := hsh.zero
  unfold Bef.has
  simp only [Bool.and_eq_true, decide_eq_true_eq]
  exact ⟨⟨⟨h1, h2⟩, h3⟩, h4⟩

/-- **C101.** -/
theorem C101_runs_as_the_machine_partial {R : Rules} {g : Glob} {std : Int} {f : Nat} {lines : List (List Int)} (h : Plays R g std f lines)
    (hw : Bef.Within R (Bef.start R lines g.inp)) (k : Nat) :
    (∃ u n b, (launch g R.byte (Spec.planeText lines)).turns k = .ok u ∧ Steps R n (Bef.start R lines g.inp) b ∧ u.Shows R g b ∧ (b.over = false → k ≤ n)) ∨
    ((launch g R.byte (Spec.planeText lines)).turns k = .error .fuel ∧ ∃ n b m c, Steps R n (Bef.start R lines g.inp) b ∧ (f ≤ m ∨ (R.torus = true ∧ f ≤ 2 * m + 1)) ∧ Idle R m b c) := by
  obtain ⟨s, e, H⟩ := h.start
  rw [e]
  rcases turns_ref h.rules h.strings h.many h.around h.fuel rfl k (.inl H) (fun _ => .inl rfl) hw with ⟨s', c, n, h1, h2, h3, h4⟩ | ⟨s', c, n, h1, h2, h4⟩ | h1
  · exact .inl ⟨_, n, c, h1, h2, h4.shows, fun _ => h3⟩
  · exact .inl ⟨_, n, c, h1, h2, h4.shows, fun h => absurd (h4.over.symm.trans h) (by decide)⟩
  · exact .inr h1

/-- **C101.** If the program ends, it has printed what a run of the machine prints that ends, read what it reads, and has its exit code. -/
theorem C101_what_it_prints_partial {R : Rules} {g : Glob} {std : Int} {f : Nat} {lines : List (List Int)} (h : Plays R g std f lines)
    (hw : Bef.Within R (Bef.start R lines g.inp)) {k : Nat} {u : Univ} (hu : (launch g R.byte (Spec.planeText lines)).turns k = .ok u) (hr : u.runners = []) :
    ∃ n b, Steps R n (Bef.start R lines g.inp) b ∧ b.over = true ∧ u.Shows R g b := by
  rcases C101_runs_as_the_machine_partial h hw k with ⟨u', n, b, h1, h2, h3, -⟩ | ⟨h1, -⟩
  · obtain rfl : u = u' := Except.ok.inj (hu.symm.trans h1)
    refine ⟨n, b, h2, ?_, h3⟩
    cases ho : b.over with
    | true => rfl
    | false => obtain ⟨r, h4, -⟩ := h3.live ho
               rw [hr] at h4; cases h4
  · rw [h1] at hu; cases hu

/-- **C101.** If all runs of the machine end within `N` steps, the program ends within as many ticks and one. -/
theorem C101_it_ends_partial {R : Rules} {g : Glob} {std : Int} {f : Nat} {lines : List (List Int)} (h : Plays R g std f lines)
    (hw : Bef.Within R (Bef.start R lines g.inp)) {N : Nat} (hN : ∀ n b, Steps R n (Bef.start R lines g.inp) b → n ≤ N) (hf : (if R.torus then 2 * N + 1 else N) < f) {k : Nat} (hk : N < k) :
    ∃ u n b, (launch g R.byte (Spec.planeText lines)).turns k = .ok u ∧ u.runners = [] ∧ Steps R n (Bef.start R lines g.inp) b ∧ b.over = true ∧ u.Shows R g b := by
  rcases C101_runs_as_the_machine_partial h hw k with ⟨u, n, b, h1, h2, h3, h4⟩ | ⟨-, n, b, m, c, h2, hm, h3⟩
  · cases ho : b.over with
    | true => exact ⟨u, n, b, h1, h3.over ho, h2, ho, h3⟩
    | false => have := hN n b h2
               have := h4 ho
               omega
  · have := hN _ _ (h2.trans h3.steps)
    split at hf
    · omega
    · rename_i hn
      have := hm.resolve_right fun h => hn h.1
      omega

/-! A run of the machine, as far as it is one of finitely many. -/

/-- All runs from `b` end within `n` steps, within the limits of the specification, and with a state that has the property `p`. -/
def Ref.Bef.settles (R : Rules) (p : Bef → Bool) : Nat → Bef → Bool
  | 0, b => b.over && p b
  | n + 1, b => if b.over then p b else !(b.acts R).isEmpty && (b.acts R).all fun c => settles R p n (if c.over then c else c.move)

theorem Ref.Bef.Steps.first {R : Rules} {n : Nat} {b c : Bef} (h : Steps R (n + 1) b c) : ∃ d, Step R b d ∧ Steps R n d c := by
  generalize hm : n + 1 = m at h
  induction h generalizing n with
  | zero => omega
  | @snoc m b c d h1 h2 ih =>
    obtain rfl : n = m := by omega
    cases n with
    | zero => cases h1; exact ⟨d, h2, .zero _⟩
    | succ n => obtain ⟨e, h3, h4⟩ := ih rfl
                exact ⟨e, h3, .snoc h4 h2⟩

theorem Ref.Bef.settles_steps {R : Rules} {p : Bef → Bool} (n : Nat) : ∀ {b : Bef}, b.settles R p n = true → ∀ m c, Steps R m b c →
    m ≤ n ∧ (c.over = false → c.acts R ≠ []) ∧ (c.over = true → p c = true) := by
  induction n with
  | zero =>
    intro b h m c hs
    unfold Bef.settles at h
    simp only [Bool.and_eq_true] at h
    cases m with
    | zero => cases hs; exact ⟨Nat.le_refl 0, fun h' => absurd (h.1.symm.trans h') (by decide), fun _ => h.2⟩
    | succ m => obtain ⟨d, h1, -⟩ := hs.first
                exact absurd (h.1.symm.trans h1.1) (by decide)
  | succ n ih =>
    intro b h m c hs
    unfold Bef.settles at h
    cases ho : b.over with
    | true =>
      rw [if_pos ho] at h
      cases m with
      | zero => cases hs; exact ⟨Nat.zero_le _, fun h' => absurd (ho.symm.trans h') (by decide), fun _ => h⟩
      | succ m => obtain ⟨d, h1, -⟩ := hs.first
                  exact absurd (ho.symm.trans h1.1) (by decide)
    | false =>
      rw [if_neg (by rw [ho]; decide)] at h
      simp only [Bool.and_eq_true, List.all_eq_true] at h
      cases m with
      | zero =>
        cases hs
        refine ⟨Nat.zero_le _, fun _ he => ?_, fun h' => absurd (ho.symm.trans h') (by decide)⟩
        rw [he] at h
        exact absurd h.1 (by decide)
      | succ m =>
        obtain ⟨d, ⟨h1, e, h2, h3⟩, h4⟩ := hs.first
        obtain ⟨k1, k2⟩ := ih (h3 ▸ h.2 e h2) m c h4
        exact ⟨by omega, k2⟩

/-- **C101.** Trying out the machine on a program without input that matters is enough: if each of its runs ends within `N` steps with a state that has the property `p`, the
interpreter ends within `N + 1` ticks in such a state. -/
theorem C101_tried_out {R : Rules} {g : Glob} {std : Int} {f : Nat} {lines : List (List Int)} (h : Plays R g std f lines) {p : Bef → Bool} {N : Nat}
    (hN : (Bef.start R lines g.inp).settles R p N = true) (hf : (if R.torus then 2 * N + 1 else N) < f) {k : Nat} (hk : N < k) :
    ∃ u b, (launch g R.byte (Spec.planeText lines)).turns k = .ok u ∧ u.runners = [] ∧ p b = true ∧ u.Shows R g b := by
  have hs := Bef.settles_steps N hN
  obtain ⟨u, n, b, h1, h2, h3, h4, h5⟩ := C101_it_ends_partial h (fun n c h1 => (hs n c h1).2.1) (fun n b h1 => (hs n b h1).1) hf hk
  exact ⟨u, b, h1, h2, (hs n b h3).2.2 h4, h5⟩

/-- A machine with no choice has one run. -/
theorem Ref.Bef.Steps.only {R : Rules} (n : Nat) : ∀ {b c : Bef}, Steps R n b c → c.over = true → (∀ m d, Steps R m b d → d.over = false → (d.acts R).length ≤ 1) → ∀ m d, Steps R m b d →
    m ≤ n ∧ (d.over = false → d.acts R ≠ []) ∧ (d.over = true → d = c) := by
  induction n with
  | zero =>
    intro b c h ho _ m d hd
    cases h
    cases m with
    | zero => cases hd; exact ⟨Nat.le_refl 0, fun h' => absurd (ho.symm.trans h') (by decide), fun _ => rfl⟩
    | succ m => obtain ⟨e, h1, -⟩ := hd.first
                exact absurd (ho.symm.trans h1.1) (by decide)
  | succ n ih =>
    intro b c h ho hone m d hd
    obtain ⟨e, ⟨h1, x, hx, hxe⟩, h2⟩ := h.first
    cases m with
    | zero =>
      cases hd
      exact ⟨Nat.zero_le _, fun _ he => (by rw [he] at hx; cases hx), fun h' => absurd (h'.symm.trans h1) (by decide)⟩
    | succ m =>
      obtain ⟨e', ⟨-, y, hy, hye⟩, h4⟩ := hd.first
      have hl := hone 0 b (.zero _) h1
      have hxy : x = y := by
        match h : b.acts R with
        | [] => rw [h] at hx; cases hx
        | [z] => rw [h] at hx hy; exact (List.mem_singleton.mp hx).trans (List.mem_singleton.mp hy).symm
        | _ :: _ :: _ => rw [h] at hl; simp only [List.length_cons] at hl; omega
      have he : e' = e := by rw [hxe, hye, hxy]
      subst he
      obtain ⟨k1, k2⟩ := ih h2 ho (fun m d h => hone (1 + m) d ((Steps.snoc (.zero b) ⟨h1, x, hx, hxe⟩).trans h)) m d h4
      exact ⟨by omega, k2⟩

/-- **C101.** A run of the machine that ends and leaves no choice is what the interpreter does. -/
theorem C101_the_only_run {R : Rules} {g : Glob} {std : Int} {f : Nat} {lines : List (List Int)} (h : Plays R g std f lines) {N : Nat} {b : Bef}
    (hb : Steps R N (Bef.start R lines g.inp) b) (ho : b.over = true) (hone : ∀ n c, Steps R n (Bef.start R lines g.inp) c → c.over = false → (c.acts R).length ≤ 1)
    (hf : (if R.torus then 2 * N + 1 else N) < f) {k : Nat} (hk : N < k) :
    ∃ u, (launch g R.byte (Spec.planeText lines)).turns k = .ok u ∧ u.runners = [] ∧ u.Shows R g b := by
  have hs := Steps.only N hb ho hone
  obtain ⟨u, n, c, h1, h2, h3, h4, h5⟩ := C101_it_ends_partial h (fun n c h1 => (hs n c h1).2.1) (fun n b h1 => (hs n b h1).1) hf hk
  obtain rfl := (hs n c h3).2.2 h4
  exact ⟨u, h1, h2, h5⟩

/-! ### Examples -/

/-- There is one run from `b`, and it ends within `n` steps. -/
def Ref.Bef.forced (R : Rules) : Nat → Bef → Bool
  | 0, b => b.over
  | n + 1, b => b.over || match b.acts R with
    | [c] => forced R n (if c.over then c else c.move)
    | _ => false

theorem Ref.Bef.forced_run {R : Rules} (n : Nat) : ∀ {b : Bef}, b.forced R n = true → ∃ N c, Steps R N b c ∧ c.over = true ∧
    ∀ m d, Steps R m b d → d.over = false → (d.acts R).length ≤ 1 := by
  have stuck : ∀ {b : Bef}, b.over = true → ∃ N c, Steps R N b c ∧ c.over = true ∧ ∀ m d, Steps R m b d → d.over = false → (d.acts R).length ≤ 1 := by
    intro b ho
    refine ⟨0, b, .zero _, ho, fun m d hd ho' => ?_⟩
    cases m with
    | zero => cases hd; exact absurd (ho.symm.trans ho') (by decide)
    | succ m => obtain ⟨e, h1, -⟩ := hd.first
                exact absurd (ho.symm.trans h1.1) (by decide)
  induction n with
  | zero => exact fun h => stuck h
  | succ n ih =>
    intro b h
    unfold Bef.forced at h
    cases ho : b.over with
    | true => exact stuck ho
    | false =>
      rw [ho, Bool.false_or] at h
      split at h
      · rename_i c hc
        obtain ⟨N, d, h1, h2, h3⟩ := ih h
        have hs : Step R b (if c.over then c else c.move) := ⟨ho, c, by rw [hc]; exact List.mem_singleton.mpr rfl, rfl⟩
        refine ⟨1 + N, d, (Steps.snoc (.zero b) hs).trans h1, h2, fun m e he ho' => ?_⟩
        cases m with
        | zero => cases he; rw [hc]; exact Nat.le_refl 1
        | succ m =>
          obtain ⟨x, ⟨-, y, hy, hx⟩, h5⟩ := he.first
          rw [hc] at hy
          obtain rfl := List.mem_singleton.mp hy
          subst hx
          exact h3 m e h5 ho'
      · exact absurd h (by decide)

/-- A line of a program. -/
def sourceLine (s : String) : List Int := s.toList.map fun c => (c.toNat : Int)

theorem sourceLine_plain {lines : List (List Int)} (h : (lines.all fun l => l.all fun c => decide (0 ≤ c ∧ c ≤ 255 ∧ c ≠ 10 ∧ c ≠ 13 ∧ c ≠ 12 ∧ c ≠ 11)) = true) :
    ∀ l ∈ lines, ∀ c ∈ l, 0 ≤ c ∧ c ≤ 255 ∧ Spec.Plain c := by
  simp only [List.all_eq_true, decide_eq_true_eq] at h
  exact h

def ex93 : Glob := { cfg := { dims := 2, standard := 93, strings := .multispace }, fuel := 2000, flt := exFloat, inp := [53, 10] }
def ex98 : Glob := { cfg := { dims := 2, standard := 98, strings := .sgml }, fuel := 2000, flt := exFloat, inp := [53, 10] }

/-- A program that changes itself: it writes a `7` where it then comes by, and prints it. -/
def exSelf : List (List Int) := [sourceLine "78*1-90p  .@"]

example : Plays ⟨false, false, true, true, 100, false, true, true, true⟩ ex93 93 2000 exSelf ∧ (Bef.start ⟨false, false, true, true, 100, false, true, true, true⟩ exSelf ex93.inp).settles ⟨false, false, true, true, 100, false, true, true, true⟩ (fun b => b.out == sourceLine "7 ") 20 = true :=
  ⟨⟨⟨rfl, rfl, rfl, rfl, rfl⟩, ⟨rfl, rfl, rfl, rfl, rfl⟩, .inl ⟨rfl, rfl⟩, (fun h => nomatch h), rfl, rfl, by decide, by decide, sourceLine_plain (by decide)⟩, by decide +kernel⟩

/-- This program has one run. -/
example : ∃ N b, Steps ⟨false, false, true, true, 100, false, true, true, true⟩ N (Bef.start ⟨false, false, true, true, 100, false, true, true, true⟩ exSelf ex93.inp) b ∧ b.over = true ∧
    ∀ n c, Steps ⟨false, false, true, true, 100, false, true, true, true⟩ n (Bef.start ⟨false, false, true, true, 100, false, true, true, true⟩ exSelf ex93.inp) c → c.over = false → (c.acts ⟨false, false, true, true, 100, false, true, true, true⟩).length ≤ 1 := by
  obtain ⟨N, b, h1, h2, h3⟩ := Bef.forced_run (R := ⟨false, false, true, true, 100, false, true, true, true⟩) 20 (b := Bef.start ⟨false, false, true, true, 100, false, true, true, true⟩ exSelf ex93.inp) (by decide +kernel)
  exact ⟨N, b, h1, h2, h3⟩

/-- A program that goes one of four ways. -/
def exWays : List (List Int) := [sourceLine " v", sourceLine " #", sourceLine " @", sourceLine "@?1.@", sourceLine " >\"on  on\">:#,_@"]

example : Plays ⟨true, true, false, true, 100, false, true, true, true⟩ ex98 98 2000 exWays ∧
    (Bef.start ⟨true, true, false, true, 100, false, true, true, true⟩ exWays ex98.inp).settles ⟨true, true, false, true, 100, false, true, true, true⟩ (fun b => b.out == [] || b.out == sourceLine "1 " || b.out == sourceLine "no no") 60 = true :=
  ⟨⟨⟨rfl, rfl, rfl, rfl, rfl⟩, ⟨rfl, rfl, rfl, rfl, rfl⟩, .inr ⟨rfl, rfl, rfl⟩, (fun h => nomatch h), rfl, rfl, by decide, by decide, sourceLine_plain (by decide)⟩, by decide +kernel⟩

/-- A program that reads a number, counts down from it to zero, passes over a comment, and quits with an exit code. -/
def exCount : List (List Int) := [sourceLine "&>:!#v_:.1-v", sourceLine " ^   >;n;7q", sourceLine " ^         <"]

example : Plays ⟨true, true, false, true, 100, false, true, true, true⟩ ex98 98 2000 exCount ∧
    (Bef.start ⟨true, true, false, true, 100, false, true, true, true⟩ exCount ex98.inp).settles ⟨true, true, false, true, 100, false, true, true, true⟩ (fun b => b.code == some 7 && b.inp == [10] && b.out == sourceLine "5 4 3 2 1 ") 200 = true :=
  ⟨⟨⟨rfl, rfl, rfl, rfl, rfl⟩, ⟨rfl, rfl, rfl, rfl, rfl⟩, .inr ⟨rfl, rfl, rfl⟩, (fun h => nomatch h), rfl, rfl, by decide, by decide, sourceLine_plain (by decide)⟩, by decide +kernel⟩

/-- A program that begins a block, reads a cell at the storage offset, takes values from the stack below, and ends the block. -/
def exBlock : List (List Int) := [sourceLine "3452{-00g,2u+.1}.@"]

example : Plays ⟨true, true, false, true, 100, false, true, true, true⟩ ex98 98 2000 exBlock ∧
    (Bef.start ⟨true, true, false, true, 100, false, true, true, true⟩ exBlock ex98.inp).settles ⟨true, true, false, true, 100, false, true, true, true⟩ (fun b => b.out == sourceLine "-0 -1 " && b.oy == 3 && b.below == []) 30 = true :=
  ⟨⟨⟨rfl, rfl, rfl, rfl, rfl⟩, ⟨rfl, rfl, rfl, rfl, rfl⟩, .inr ⟨rfl, rfl, rfl⟩, (fun h => nomatch h), rfl, rfl, by decide, by decide, sourceLine_plain (by decide)⟩, by decide +kernel⟩

/-- A program that passes over an instruction, and executes one several times, beyond a comment. -/
def exOften : List (List Int) := [sourceLine "70k.2k;c; :....@"]

example : Plays ⟨true, true, false, true, 100, false, true, true, true⟩ ex98 98 2000 exOften ∧
    (Bef.start ⟨true, true, false, true, 100, false, true, true, true⟩ exOften ex98.inp).settles ⟨true, true, false, true, 100, false, true, true, true⟩ (fun b => b.out == sourceLine "7 7 7 7 " && b.stack == []) 30 = true :=
  ⟨⟨⟨rfl, rfl, rfl, rfl, rfl⟩, ⟨rfl, rfl, rfl, rfl, rfl⟩, .inr ⟨rfl, rfl, rfl⟩, (fun h => nomatch h), rfl, rfl, by decide, by decide, sourceLine_plain (by decide)⟩, by decide +kernel⟩

/-- A program that asks of how many dimensions the playfield is, how large its stack is, how wide the playfield is, and where it is. -/
def exInfo : List (List Int) := [sourceLine "557y.99+5+y.99+1+y.74+y.@"]

example : Plays ⟨true, true, false, true, 100, false, true, true, true⟩ ex98 98 2000 exInfo ∧
    (Bef.start ⟨true, true, false, true, 100, false, true, true, true⟩ exInfo ex98.inp).settles ⟨true, true, false, true, 100, false, true, true, true⟩ (fun b => b.out == sourceLine "2 2 24 22 ") 30 = true :=
  ⟨⟨⟨rfl, rfl, rfl, rfl, rfl⟩, ⟨rfl, rfl, rfl, rfl, rfl⟩, .inr ⟨rfl, rfl, rfl⟩, (fun h => nomatch h), rfl, rfl, by decide, by decide, sourceLine_plain (by decide)⟩, by decide +kernel⟩

/-- Nothing is allowed. -/
def exLocked : Glob := { cfg := { dims := 2, standard := 98, strings := .sgml, fingerprint := false, filesystem := false, execute := false }, fuel := 2000, flt := exFloat, inp := [] }

/-- A program that comes back from an `=` and from a `(`, with nothing taken from its stack. -/
def exTries : List (List Int) := [sourceLine "7#v=", sourceLine "  >9#v(", sourceLine "     >..@"]

example : Plays ⟨true, true, false, true, 100, false, false, false, false⟩ exLocked 98 2000 exTries ∧
    (Bef.start ⟨true, true, false, true, 100, false, false, false, false⟩ exTries exLocked.inp).settles ⟨true, true, false, true, 100, false, false, false, false⟩ (fun b => b.out == sourceLine "9 7 ") 100 = true :=
  ⟨⟨⟨rfl, rfl, rfl, rfl, rfl⟩, ⟨rfl, rfl, rfl, rfl, rfl⟩, .inr ⟨rfl, rfl, rfl⟩, (fun h => nomatch h), rfl, rfl, by decide, by decide, sourceLine_plain (by decide)⟩, by decide +kernel⟩

/-! ### The torus -/

/-- The configuration of `-std=befunge93`. -/
def exTorus : Glob := { cfg := { dims := 2, standard := 93, strings := .multispace, topo := .torus }, fuel := 2000, flt := exFloat, inp := [53, 10] }

/-- A program that goes over the west edge, and over the east edge. -/
def exRound : List (List Int) := [sourceLine "v", sourceLine "<" ++ List.replicate 78 32 ++ sourceLine "v", sourceLine "7.@" ++ List.replicate 76 32 ++ sourceLine ">"]

example : Plays ⟨false, false, true, true, 100, true, true, true, true⟩ exTorus 93 2000 exRound ∧
    (Bef.start ⟨false, false, true, true, 100, true, true, true, true⟩ exRound exTorus.inp).settles ⟨false, false, true, true, 100, true, true, true, true⟩ (fun b => b.out == sourceLine "7 ") 200 = true :=
  ⟨⟨⟨rfl, rfl, rfl, rfl, rfl⟩, ⟨rfl, rfl, rfl, rfl, rfl⟩, .inl ⟨rfl, rfl⟩, (fun _ => by decide), rfl, rfl, by decide, by decide, sourceLine_plain (by decide)⟩, by decide +kernel⟩

/-- The interpreter is at (80, 2) once on its way, where the playfield has no cell. -/
example : ((launch exTorus true (Spec.planeText exRound)).turns 4).map (fun u => u.runners.map (·.ip.pos)) = .ok [Vec.ofList [80, 2]] := by krfl

/-- A line of eighty characters with a string that begins with the last of them, and goes on at the west edge: in it is the letter `A`. Then two characters are printed. -/
def exEdge : List (List Int) := [sourceLine "     v", sourceLine "A\",,@>" ++ List.replicate 73 32 ++ sourceLine "\""]

/-- **C101**, why the machine gives nothing at the east edge within a string: the interpreter finds a character there that is not on the playfield, and prints a space
after the `A`. -/
theorem C101_false_string_over_the_edge : (∀ l ∈ exEdge, l.length ≤ 80) ∧
    ((launch exTorus true (Spec.planeText exEdge)).turns 9).map (fun u => (u.runners.length, u.g.eff)) = .ok (0, [.out [65], .out [32]]) :=
  ⟨by decide, by krfl⟩

/-- A `#` at the east edge, an `@` at the west edge, and beyond it a program that prints `7`. -/
def exBridge : List (List Int) := [sourceLine "     v", sourceLine "@7.@ >" ++ List.replicate 73 32 ++ sourceLine "#"]

/-- **C101**, why the machine gives nothing for a `#` at the east edge: the interpreter passes over no cell of the playfield, and the program ends without printing. -/
theorem C101_false_bridge_over_the_edge : (∀ l ∈ exBridge, l.length ≤ 80) ∧
    ((launch exTorus true (Spec.planeText exBridge)).turns 5).map (fun u => (u.runners.length, u.g.eff)) = .ok (0, []) :=
  ⟨by decide, by krfl⟩

end Funge
