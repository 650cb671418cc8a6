import Verif.Lemmas.RefStarStep
/-
Whole programs of *><>. C118: the interpreter runs every program as the reference machine of Spec/Star.lean does.
-/
namespace Funge
open Exec Field Ref
open Ref.Star (Step Steps Idle)

/-! ### C118 -/

/-- What the universe `u` has of the machine's state `b`: since `g`, what was printed, what was read, the exit code; and, until the program has
ended, the one fish, its stacks, which of its registers are full, and the codebox, and whether it is under water. -/
structure Univ.Sails (u : Univ) (g : Glob) (b : Star) : Prop where
  out : ∃ o : List (List Int), u.g.eff = g.eff ++ o.map Eff.out ∧ o.flatten = b.out
  inp : u.g.inp = b.inp
  code : u.g.exitcode = b.code.getD g.exitcode
  over : b.over = true → u.runners = []
  live : b.over = false → ∃ r, u.runners = [r] ∧ r.ip.stopped = false ∧ r.ip.pos = Vec.ofList [b.x, b.y] ∧ r.ip.delta = Vec.ofList [b.dx, b.dy] ∧
    r.ss.stacks.map (·.items) = b.stack :: b.below ∧ r.regs.map (·.1) = b.regs.map Option.isSome ∧ r.inString = b.quote ∧
    (∀ x y, u.g.field.get (Vec.ofList [x, y]) = b.cell x y) ∧ hasMode u.g.cfg.mode modeDive = b.deep

theorem Angler.Sails.shows {R : Rules} {g : Glob} {f : Nat} {s : St} {b : Star} (H : Angler.Sails R g f s b) : s.alone.Sails g b := by
  obtain ⟨r1, r2, r3, r4, r5⟩ := H.rest
  refine ⟨r5, r3, by rw [H.code]; exact r4, fun h => absurd (H.over.symm.trans h) (by decide), fun ho => ?_⟩
  obtain ⟨⟨t, Ht, rfl⟩, -, -⟩ := H
  obtain ⟨r, e1, e2, e3, e4, e5, e6, e7, e8⟩ := Ht.shows.live ho
  have hr : r = t.cur := by
    have : [t.cur] = [r] := e1
    exact ((List.cons.inj this).1).symm
  have hm := Angler.swims_mode Ht
  subst hr
  have hd : (Angler.veil b.deep (Angler.hooked (Vec.ofList [b.cast, 0], b.hook) t)).cur = { (Angler.hooked (Vec.ofList [b.cast, 0], b.hook) t).cur with ss := if b.deep then t.cur.ss.setMode modeDive else t.cur.ss } := by
    cases b.deep <;> rfl
  refine ⟨(Angler.veil b.deep (Angler.hooked (Vec.ofList [b.cast, 0], b.hook) t)).cur, ?_, r2, ?_, ?_, ?_, ?_, ?_, ?_, ?_⟩
  · rfl
  · rw [hd]; exact e3
  · rw [hd]; exact e4
  · rw [hd, ← e5]
    cases b.deep with
    | false => rfl
    | true => show List.map _ (List.map _ _) = _
              rw [List.map_map]; rfl
  · rw [hd]; exact e6
  · rw [hd]; exact e7
  · intro x y
    rw [← e8 x y]
    cases b.deep <;> rfl
  · cases b.deep with
    | false => show hasMode t.g.cfg.mode modeDive = false
               rw [hm]; rfl
    | true => show hasMode modeDive modeDive = true
              decide

theorem Drowned.sails {g : Glob} {s : St} {b : Star} (h : Drowned g s b.toBef) (ho : b.over = true) : (⟨[], s.g⟩ : Univ).Sails g b :=
  ⟨h.out, h.inp, h.code, fun _ => rfl, fun h => absurd (ho.symm.trans h) (by decide)⟩

/-- A new IP of *><>. -/
theorem Angler.newRunner_star {cfg : Cfg} (h1 : cfg.standard = -1) (h2 : cfg.mode = 0) (id : Nat) :
    newRunner { cfg with standard := -2 } id (Vec.ofList [0]) (Vec.ofList [1]) = Angler.snared (Vec.ofList [1, 0], true) (newRunner cfg id (Vec.ofList [0]) (Vec.ofList [1])) := by
  have hp : ∀ (r : Runner) (l : List (Int × Sem)), r.sems = (fun _ => []) → r.pushSems l = { r with sems := meanings l } := by
    intro r l hr
    rw [pushSems_eq]
    congr 1
    funext i
    rw [pushSems_sems, hr, List.append_nil]
  have hpp : ∀ (r : Runner) (l l' : List (Int × Sem)), r.sems = (fun _ => []) → (r.pushSems l).pushSems l' = { r with sems := fun i => meanings l' i ++ meanings l i } := by
    intro r l l' hr
    rw [hp r l hr, pushSems_eq]
    congr 1
    funext i
    rw [pushSems_sems]
  unfold newRunner strategiesFor
  rw [if_pos h1]
  dsimp only
  rw [if_neg (by decide), if_pos rfl]
  dsimp only [List.foldl_cons, List.foldl_nil, Strat.init]
  rw [hpp _ _ _ rfl, hp _ _ rfl, h2]
  unfold notifyDelta
  have hd : ((({} : IP).setPos (Vec.ofList [0])).setDelta (hasMode 0 modeHover) (Vec.ofList [1])).delta = Vec.ofList [1, 0] := ofList_one 1
  have hc : (Vec.ofList [1, 0]).get 0 ≠ 0 ∧ (Vec.ofList [1, 0]).get 1 = 0 := by decide
  dsimp only
  rw [hd, if_pos hc, if_pos hc, if_pos (List.mem_singleton.mpr rfl)]
  rfl

theorem Dives.sails {g : Glob} {f : Nat} {lines : List (List Int)} (h : Dives g f lines) (R : Rules) (hR : R.torus = false) :
    ∃ s, launch g.starfish R.byte (Spec.planeText lines) = s.alone ∧ Angler.Sails R g f s (Star.start R lines g.inp) := by
  obtain ⟨t, e, H⟩ := h.start R hR
  refine ⟨Angler.hooked (Vec.ofList [1, 0], true) t, ?_, ⟨t, H, rfl⟩, fun _ => rfl, fun h => nomatch h⟩
  obtain ⟨h1, h2, h3, h4, h5, h6⟩ := h.config
  have hr := H.rest.1
  obtain ⟨c, r, G⟩ := t
  cases hr
  have e1 : newRunner g.cfg g.nextId (Vec.ofList [0]) (Vec.ofList [1]) = c := (List.cons.inj (congrArg Univ.runners e)).1
  have e2 : { g with field := Field.load g.cfg.dims R.byte (Spec.planeText lines), nextId := g.nextId + 1 } = G := congrArg Univ.g e
  subst e1 e2
  unfold launch Glob.starfish
  dsimp only
  rw [Angler.newRunner_star h2 h4]
  rfl

/-- **C118.** -/
theorem C118_sails_as_the_machine_partial {g : Glob} {f : Nat} {lines : List (List Int)} (h : Dives g f lines) (R : Rules) (hR : R.torus = false) {clock : List Int} (hc : ∀ n, g.orc n ∈ clock)
    (hw : Star.Within g.flt R clock (Star.start R lines g.inp)) (k : Nat) :
    (∃ u n b, (launch g.starfish R.byte (Spec.planeText lines)).turns k = .ok u ∧ Steps g.flt R clock n (Star.start R lines g.inp) b ∧ u.Sails g b ∧ (b.over = false → k ≤ n)) ∨
    ((launch g.starfish R.byte (Spec.planeText lines)).turns k = .error .fuel ∧ ∃ n b c, Steps g.flt R clock n (Star.start R lines g.inp) b ∧ Idle g.flt R clock f b c) := by
  obtain ⟨s, e, H⟩ := h.sails R hR
  rw [e]
  rcases Angler.turns_star h.strings hc h.fuel k H hw with ⟨s', c, n, h1, h2, h3, h4⟩ | ⟨s', c, n, h1, h2, h3, h4⟩ | h1
  · exact .inl ⟨_, n, c, h1, h2, h4.shows, fun _ => h3⟩
  · exact .inl ⟨_, n, c, h1, h2, h4.sails h3, fun h => absurd (h3.symm.trans h) (by decide)⟩
  · exact .inr h1

/-- **C118.** If the program ends, it has printed what a run of the machine prints that ends, read what it reads, and has its exit code. -/
theorem C118_what_it_prints_partial {g : Glob} {f : Nat} {lines : List (List Int)} (h : Dives g f lines) (R : Rules) (hR : R.torus = false) {clock : List Int} (hc : ∀ n, g.orc n ∈ clock)
    (hw : Star.Within g.flt R clock (Star.start R lines g.inp)) {k : Nat} {u : Univ} (hu : (launch g.starfish R.byte (Spec.planeText lines)).turns k = .ok u) (hr : u.runners = []) :
    ∃ n b, Steps g.flt R clock n (Star.start R lines g.inp) b ∧ b.over = true ∧ u.Sails g b := by
  rcases C118_sails_as_the_machine_partial h R hR hc hw k with ⟨u', n, b, h1, h2, h3, -⟩ | ⟨h1, -⟩
  · obtain rfl : u = u' := Except.ok.inj (hu.symm.trans h1)
    refine ⟨n, b, h2, ?_, h3⟩
    cases ho : b.over with
    | true => rfl
    | false => obtain ⟨r, h4, -⟩ := h3.live ho
               rw [hr] at h4; cases h4
  · rw [h1] at hu; cases hu

/-- **C118.** If all runs of the machine end within `N` steps, the program ends within as many ticks and one. -/
theorem C118_it_ends_partial {g : Glob} {f : Nat} {lines : List (List Int)} (h : Dives g f lines) (R : Rules) (hR : R.torus = false) {clock : List Int} (hc : ∀ n, g.orc n ∈ clock)
    (hw : Star.Within g.flt R clock (Star.start R lines g.inp)) {N : Nat} (hN : ∀ n b, Steps g.flt R clock n (Star.start R lines g.inp) b → n ≤ N) (hf : N < f) {k : Nat} (hk : N < k) :
    ∃ u n b, (launch g.starfish R.byte (Spec.planeText lines)).turns k = .ok u ∧ u.runners = [] ∧ Steps g.flt R clock n (Star.start R lines g.inp) b ∧ b.over = true ∧ u.Sails g b := by
  rcases C118_sails_as_the_machine_partial h R hR hc hw k with ⟨u, n, b, h1, h2, h3, h4⟩ | ⟨-, n, b, c, h2, h3⟩
  · cases ho : b.over with
    | true => exact ⟨u, n, b, h1, h3.over ho, h2, ho, h3⟩
    | false => have := hN n b h2
               have := h4 ho
               omega
  · have := hN _ _ (Angler.steps_trans h2 (Angler.idle_steps h3))
    omega

/-- All runs from `b` end within `n` steps, within the limits of the specification, and with a state that has the property `p`. -/
def Ref.Star.settles (fl : FloatOps) (R : Rules) (clock : List Int) (p : Star → Bool) : Nat → Star → Bool
  | 0, b => b.over && p b
  | n + 1, b => if b.over then p b else !(b.acts fl R clock).isEmpty && (b.acts fl R clock).all fun c => settles fl R clock p n (if c.over then c else c.swim)

theorem Ref.Star.Steps.first {fl : FloatOps} {R : Rules} {clock : List Int} {n : Nat} {b c : Star} (h : Steps fl R clock (n + 1) b c) : ∃ d, Step fl R clock b d ∧ Steps fl R clock n d c := by
  generalize hm : n + 1 = m at h
  induction h generalizing n with
  | zero => omega
  | @snoc m b c d h1 h2 ih =>
    obtain rfl : n = m := by omega
    cases n with
    | zero => cases h1; exact ⟨d, h2, .zero _⟩
    | succ n => obtain ⟨e, h3, h4⟩ := ih rfl
                exact ⟨e, h3, .snoc h4 h2⟩

theorem Ref.Star.settles_steps {fl : FloatOps} {R : Rules} {clock : List Int} {p : Star → Bool} (n : Nat) : ∀ {b : Star}, b.settles fl R clock p n = true → ∀ m c, Steps fl R clock m b c →
    m ≤ n ∧ (c.over = false → c.acts fl R clock ≠ []) ∧ (c.over = true → p c = true) := by
  induction n with
  | zero =>
    intro b h m c hs
    unfold Star.settles at h
    simp only [Bool.and_eq_true] at h
    cases m with
    | zero => cases hs; exact ⟨Nat.le_refl 0, fun h' => absurd (h.1.symm.trans h') (by decide), fun _ => h.2⟩
    | succ m => obtain ⟨d, h1, -⟩ := hs.first
                exact absurd (h.1.symm.trans h1.1) (by decide)
  | succ n ih =>
    intro b h m c hs
    unfold Star.settles at h
    cases ho : b.over with
    | true =>
      rw [if_pos ho] at h
      cases m with
      | zero => cases hs; exact ⟨Nat.zero_le _, fun h' => absurd (ho.symm.trans h') (by decide), fun _ => h⟩
      | succ m => obtain ⟨d, h1, -⟩ := hs.first
                  exact absurd (ho.symm.trans h1.1) (by decide)
    | false =>
      rw [if_neg (by rw [ho]; decide)] at h
      simp only [Bool.and_eq_true, List.all_eq_true] at h
      cases m with
      | zero =>
        cases hs
        refine ⟨Nat.zero_le _, fun _ he => ?_, fun h' => absurd (ho.symm.trans h') (by decide)⟩
        rw [he] at h
        exact absurd h.1 (by decide)
      | succ m =>
        obtain ⟨d, ⟨h1, e, h2, h3⟩, h4⟩ := hs.first
        obtain ⟨k1, k2⟩ := ih (h3 ▸ h.2 e h2) m c h4
        exact ⟨by omega, k2⟩

/-- **C118.** Trying out the machine is enough: if each of its runs ends within `N` steps with a state that has the property `p`, the interpreter ends within `N + 1` ticks in such a state. -/
theorem C118_tried_out {g : Glob} {f : Nat} {lines : List (List Int)} (h : Dives g f lines) (R : Rules) (hR : R.torus = false) {clock : List Int} (hc : ∀ n, g.orc n ∈ clock)
    {p : Star → Bool} {N : Nat} (hN : (Star.start R lines g.inp).settles g.flt R clock p N = true) (hf : N < f) {k : Nat} (hk : N < k) :
    ∃ u b, (launch g.starfish R.byte (Spec.planeText lines)).turns k = .ok u ∧ u.runners = [] ∧ p b = true ∧ u.Sails g b := by
  have hs := Star.settles_steps N hN
  obtain ⟨u, n, b, h1, h2, h3, h4, h5⟩ := C118_it_ends_partial h R hR hc (fun n c h1 => (hs n c h1).2.1) (fun n b h1 => (hs n b h1).1) hf hk
  exact ⟨u, b, h1, h2, (hs n b h3).2.2 h4, h5⟩

/-! ### Examples -/

/-- The fisherman sends the fish down, on in the direction it came, then up, and around the codebox. -/
def exAngling : List (List Int) := [sourceLine "1n` 4n`;", sourceLine "  2", sourceLine "  `3n` "]

example : Dives exFish 2000 exAngling ∧ (Star.start exRules exAngling exFish.inp).settles exFish.flt exRules [0] (fun b => b.out == sourceLine "1324" && b.code == none) 150 = true :=
  ⟨⟨⟨rfl, rfl, rfl, rfl, rfl, rfl⟩, rfl, by decide, by decide, sourceLine_plain (by decide)⟩, by decide +kernel⟩

/-- Under water the fish prints nothing and does not mind a letter nobody knows, but it turns. -/
def exDiving : List (List Int) := [sourceLine "1nu2nWv", sourceLine ";n8On3<"]

example : Dives exFish 2000 exDiving ∧ (Star.start exRules exDiving exFish.inp).settles exFish.flt exRules [0] (fun b => b.out == sourceLine "18" && b.code == none) 150 = true :=
  ⟨⟨⟨rfl, rfl, rfl, rfl, rfl, rfl⟩, rfl, by decide, by decide, sourceLine_plain (by decide)⟩, by decide +kernel⟩

/-- The clock, of a world in which it is always 0 or 7; and sleep, which takes a value and dies without. -/
def exClock : List (List Int) := [sourceLine "hn5SS;"]

example : Dives exFish 2000 exClock ∧ (Star.start exRules exClock exFish.inp).settles exFish.flt exRules [0, 7]
    (fun b => (b.out == sourceLine "0" || b.out == sourceLine "7") && b.code == some 1) 60 = true :=
  ⟨⟨⟨rfl, rfl, rfl, rfl, rfl, rfl⟩, rfl, by decide, by decide, sourceLine_plain (by decide)⟩, by decide +kernel⟩

example : ∃ u, ∃ b : Star, (launch exFish.starfish exRules.byte (Spec.planeText exDiving)).turns 151 = .ok u ∧ u.runners = [] ∧ (b.out == sourceLine "18" && b.code == none) = true ∧ u.Sails exFish b :=
  C118_tried_out (g := exFish) (f := 2000) (N := 150) (clock := [0]) ⟨⟨rfl, rfl, rfl, rfl, rfl, rfl⟩, rfl, by decide, by decide, sourceLine_plain (by decide)⟩ exRules rfl
    (fun _ => List.mem_singleton.mpr rfl) (by decide +kernel) (by decide) (by decide)

/-! ### Where the code is not the language -/

/-- **C118.** A subroutine that does nothing but return leaves the stack alone: `5` is to be printed after it. The code loses the stack in returning, and the fish dies at `n`. -/
theorem C118_false_for_calls : fishEnds (-2) "560Cn; R" 20 = some ([], 1) ∧ (sourceLine "5", (0 : Int)) ≠ ([], 1) := by
  constructor
  · decide +kernel
  · decide

end Funge
