import Verif.Lemmas.RefMany
import Verif.Props.C101_Reference
/-
Whole programs. C104: the interpreter runs every concurrent program as the machine of Spec/Many.lean does.
-/
namespace Funge
open Exec Field Ref
open Ref.Bef (Step Steps Idle Tick)

/-! ### C104 -/

/-- The runner's IP is the machine's. -/
structure Runner.Is (r : Runner) (h : Head) : Prop where
  live : r.ip.stopped = false
  pos : r.ip.pos = Vec.ofList [h.x, h.y]
  delta : r.ip.delta = Vec.ofList [h.dx, h.dy]
  storage : r.ip.storage = Vec.ofList [h.ox, h.oy]
  select : r.ss.select = 0
  stacks : r.ss.stacks.map (·.items) = h.stack :: h.below
  string : r.inString = h.quote

/-- What the universe `u` has of the machine's state `m`: since `g`, what was printed, what was read, the exit code; and, until the program has
ended, the IPs, in the order of their turns, and the playfield. -/
structure Univ.ShowsAll (u : Univ) (g : Glob) (m : Many) : Prop where
  out : ∃ o : List (List Int), u.g.eff = g.eff ++ o.map Eff.out ∧ o.flatten = m.world.out
  inp : u.g.inp = m.world.inp
  code : u.g.exitcode = m.world.code.getD g.exitcode
  over : m.heads = [] → ∀ r ∈ u.runners, r.ip.stopped = true
  live : m.heads ≠ [] → Matched Runner.Is u.runners m.heads ∧ ∀ x y, u.g.field.get (Vec.ofList [x, y]) = m.world.cell x y

theorem Lives.is {g : Glob} {std : Int} {f : Nat} {b : Bef} {r : Runner} {h : Head} (hl : Lives g std f b r h) : r.Is h := by
  obtain ⟨id, parent, n, bn, rfl, hb, -⟩ := hl
  refine ⟨by krfl, by krfl, by krfl, by krfl, by krfl, ?_, by krfl⟩
  have : (befCur g std f id parent n bn (b.led h)).ss.stacks = (⟨0, h.stack, n⟩ : Stack) :: bn.map fun p => ⟨0, p.1, p.2⟩ := by krfl
  rw [this, ← show bn.map (·.1) = h.below from hb]
  simp

theorem matched_imp {α β : Type} {P Q : α → β → Prop} (hpq : ∀ x y, P x y → Q x y) {a : List α} {c : List β} (h : Matched P a c) : Matched Q a c := by
  induction h with
  | nil => exact .nil
  | cons h _ ih => exact .cons (hpq _ _ h) ih

theorem Crowd.shows {R : Rules} {g : Glob} {std : Int} {f : Nat} {u : Univ} {m : Many} (h : Crowd R g std f u m) : u.ShowsAll g m := by
  obtain ⟨⟨F, a, o, nid, e, h1, h2⟩, h3, h4, h5, h6⟩ := h
  refine ⟨⟨o, ?_, h2⟩, ?_, ?_, fun hh r hr => ?_, fun _ => ⟨matched_imp (fun _ _ => Lives.is) h3, fun x y => ?_⟩⟩
  · rw [e]; krfl
  · rw [e]; krfl
  · rw [h6, e]; krfl
  · rw [hh] at h3
    generalize u.runners = rs at h3 hr
    cases h3
    cases hr
  · rw [e, ← h1.get x y]
    krfl

theorem Gone.shows {g : Glob} {u : Univ} {m : Many} (h : Gone g u m) : u.ShowsAll g m := by
  obtain ⟨v, h1, h2⟩ := h.code
  exact ⟨h.out, h.inp, by rw [h1]; exact h2, fun _ => h.stopped, fun h' => absurd h.heads h'⟩

/-- **C104.** -/
theorem C104_runs_as_the_machine_partial {R : Rules} {g : Glob} {std : Int} {f : Nat} {lines : List (List Int)} (h : Plays R g std f lines) (ht : R.torus = false)
    (hw : Many.Within R (Many.start R lines g.inp)) (k : Nat) :
    (∃ u n m, (launch g R.byte (Spec.planeText lines)).turns k = .ok u ∧ Many.Turns R n (Many.start R lines g.inp) m ∧ u.ShowsAll g m ∧ n ≤ k ∧ (m.heads ≠ [] → n = k)) ∨
    ((launch g R.byte (Spec.planeText lines)).turns k = .error .fuel ∧ ∃ n b h t i d, Many.Turns R n (Many.start R lines g.inp) ⟨b, h :: t⟩ ∧ f ≤ i ∧ Idle R i (b.led h) d) := by
  obtain ⟨s, e, H⟩ := h.start
  have hc := H.crowd ht (t := []) (by rw [H.rest.1]; exact .nil)
  rw [e]
  have hs : s.alone = ⟨s.rest ++ [s.cur], s.g⟩ := by rw [H.rest.1]; rfl
  rw [hs]
  rcases turns_many h.rules h.strings h.many h.around ht h.fuel k hc hw with ⟨u, m, n, h1, h2, h3, h4, h5⟩ | h1
  · exact .inl ⟨u, n, m, h1, h2, h5.elim Crowd.shows Gone.shows, h3, h4⟩
  · exact .inr h1

/-- **C104.** If all IPs have stopped, the program has printed what a run of the machine prints that ends, read what it reads, and has its exit code. -/
theorem C104_what_it_prints_partial {R : Rules} {g : Glob} {std : Int} {f : Nat} {lines : List (List Int)} (h : Plays R g std f lines) (ht : R.torus = false)
    (hw : Many.Within R (Many.start R lines g.inp)) {k : Nat} {u : Univ} (hu : (launch g R.byte (Spec.planeText lines)).turns k = .ok u) (hr : ∀ r ∈ u.runners, r.ip.stopped = true) :
    ∃ n m, Many.Turns R n (Many.start R lines g.inp) m ∧ m.heads = [] ∧ u.ShowsAll g m := by
  rcases C104_runs_as_the_machine_partial h ht hw k with ⟨u', n, m, h1, h2, h3, -⟩ | ⟨h1, -⟩
  · obtain rfl : u = u' := Except.ok.inj (hu.symm.trans h1)
    refine ⟨n, m, h2, ?_, h3⟩
    cases hm : m.heads with
    | nil => rfl
    | cons a t =>
      have h4 := (h3.live (by rw [hm]; exact List.cons_ne_nil _ _)).1
      rw [hm] at h4
      generalize u.runners = rs at h4 hr
      cases h4 with
      | cons h5 _ => exact absurd ((hr _ List.mem_cons_self).symm.trans h5.live) (by decide)
  · rw [h1] at hu; cases hu

/-- **C104.** If all runs of the machine end within `N` turns, each of them over at most `M` cells that are passed over, the program ends within as many turns and one. -/
theorem C104_it_ends_partial {R : Rules} {g : Glob} {std : Int} {f : Nat} {lines : List (List Int)} (h : Plays R g std f lines) (ht : R.torus = false)
    (hw : Many.Within R (Many.start R lines g.inp)) {N M : Nat} (hN : ∀ n m, Many.Turns R n (Many.start R lines g.inp) m → n ≤ N)
    (hM : ∀ n b h t, Many.Turns R n (Many.start R lines g.inp) ⟨b, h :: t⟩ → ∀ j d, Idle R j (b.led h) d → j ≤ M) (hf : M < f) {k : Nat} (hk : N < k) :
    ∃ u n m, (launch g R.byte (Spec.planeText lines)).turns k = .ok u ∧ (∀ r ∈ u.runners, r.ip.stopped = true) ∧ Many.Turns R n (Many.start R lines g.inp) m ∧ m.heads = [] ∧ u.ShowsAll g m := by
  rcases C104_runs_as_the_machine_partial h ht hw k with ⟨u, n, m, h1, h2, h3, h4, h5⟩ | ⟨-, n, b, hd, t, i, d, h2, h4, h3⟩
  · have hm : m.heads = [] := by
      cases hm : m.heads with
      | nil => rfl
      | cons a t =>
        have := h5 (by rw [hm]; exact List.cons_ne_nil _ _)
        have := hN n m h2
        omega
    exact ⟨u, n, m, h1, h3.over hm, h2, hm, h3⟩
  · have := hM _ _ _ _ h2 _ _ h3
    omega

/-! A run of the machine, as far as it is one of finitely many. -/

/-- The first state at a cell that is not passed over, if it is at most `n` cells ahead. -/
def Ref.Bef.quiet (R : Rules) : Nat → Bef → Option Bef
  | 0, b => if b.idle R then none else some b
  | n + 1, b => if b.idle R then
      match b.acts R with
      | [c] => quiet R n (if c.over then c else c.move)
      | _ => none
    else some b

theorem Ref.Bef.Idle.first {R : Rules} {n : Nat} {b c : Bef} (h : Idle R (n + 1) b c) : b.idle R = true ∧ ∃ d, Step R b d ∧ Idle R n d c := by
  generalize hm : n + 1 = m at h
  induction h generalizing n with
  | zero => omega
  | @snoc m b c d h1 h2 h3 ih =>
    obtain rfl : n = m := by omega
    cases n with
    | zero => cases h1; exact ⟨h2, d, h3, .zero _⟩
    | succ n => obtain ⟨h4, e, h5, h6⟩ := ih rfl
                exact ⟨h4, e, h5, .snoc h6 h2 h3⟩

theorem Ref.Bef.quiet_idle {R : Rules} (n : Nat) : ∀ {b d : Bef}, b.quiet R n = some d → ∀ j e, Idle R j b e →
    j ≤ n ∧ (e.idle R = true → e.acts R ≠ []) ∧ (e.idle R = false → e = d) := by
  have stuck : ∀ {b d : Bef}, b.idle R = false → some b = some d → ∀ j e, Idle R j b e → j = 0 ∧ (e.idle R = true → e.acts R ≠ []) ∧ (e.idle R = false → e = d) := by
    intro b d hi hd j e he
    cases j with
    | zero => cases he; exact ⟨rfl, fun h => absurd (hi.symm.trans h) (by decide), fun _ => Option.some.inj hd⟩
    | succ j => exact absurd (hi.symm.trans he.first.1) (by decide)
  induction n with
  | zero =>
    intro b d h j e he
    unfold Bef.quiet at h
    cases hi : b.idle R with
    | true => rw [hi, if_pos rfl] at h; cases h
    | false =>
      rw [hi, if_neg (by decide)] at h
      obtain ⟨h1, h2⟩ := stuck hi h j e he
      exact ⟨Nat.le_of_eq h1, h2⟩
  | succ n ih =>
    intro b d h j e he
    unfold Bef.quiet at h
    cases hi : b.idle R with
    | false =>
      rw [hi, if_neg (by decide)] at h
      obtain ⟨h1, h2⟩ := stuck hi h j e he
      exact ⟨by omega, h2⟩
    | true =>
      rw [hi, if_pos rfl] at h
      split at h
      · rename_i c hc
        cases j with
        | zero => cases he; exact ⟨Nat.zero_le _, fun _ h' => (by rw [h'] at hc; cases hc), fun h' => absurd (hi.symm.trans h') (by decide)⟩
        | succ j =>
          obtain ⟨-, x, ⟨-, y, hy, rfl⟩, h2⟩ := he.first
          rw [hc] at hy
          obtain rfl := List.mem_singleton.mp hy
          obtain ⟨k1, k2⟩ := ih h j e h2
          exact ⟨by omega, k2⟩
      · cases h

/-- All runs from `m` end within `n` turns, each of them over at most `M` cells that are passed over, within the limits of the specification, and with a
state that has the property `p`. -/
def Ref.Many.settles (R : Rules) (M : Nat) (p : Bef → Bool) : Nat → Many → Bool
  | _, ⟨b, []⟩ => p b
  | 0, _ => false
  | n + 1, ⟨b, h :: t⟩ =>
    match (b.led h).quiet R M with
    | none => false
    | some d =>
      if d.splits R then d.below.isEmpty && settles R M p n ⟨d.move, t ++ [d.twin, d.move.head]⟩
      else !(d.acts R).isEmpty && (d.acts R).all fun c =>
        if c.over then (match c.code with
          | none => settles R M p n ⟨{ c with over := false }, t⟩
          | some _ => p c)
        else !c.move.over && settles R M p n ⟨c.move, t ++ [c.move.head]⟩

theorem splits_not_idle {R : Rules} {b : Bef} (h : b.splits R = true) : b.idle R = false := by
  unfold Bef.splits at h
  simp only [Bool.and_eq_true, Bool.not_eq_true', decide_eq_true_eq] at h
  obtain ⟨⟨⟨-, h1⟩, h2⟩, h3⟩ := h
  unfold Bef.idle
  simp [h1, h2, h3]

theorem turns_none {R : Rules} {k : Nat} {b : Bef} {m : Many} (h : Many.Turns R k ⟨b, []⟩ m) : k = 0 ∧ m = ⟨b, []⟩ := by
  cases k with
  | zero => cases h; exact ⟨rfl, rfl⟩
  | succ k => obtain ⟨m', h1, -⟩ := h.first
              cases h1

theorem Ref.Many.settles_turns {R : Rules} {M : Nat} {p : Bef → Bool} (n : Nat) : ∀ {m : Many}, m.settles R M p n = true → ∀ k m', Many.Turns R k m m' →
    k ≤ n ∧ (m'.heads = [] → p m'.world = true) ∧
    ∀ b h t, m' = ⟨b, h :: t⟩ → ∀ j d, Idle R j (b.led h) d → j ≤ M ∧ (d.acts R ≠ [] ∨ (d.splits R = true ∧ d.below = [])) := by
  have none' : ∀ {n : Nat} {b : Bef}, Many.settles R M p n ⟨b, []⟩ = true → ∀ k m', Many.Turns R k ⟨b, []⟩ m' → k ≤ n ∧ (m'.heads = [] → p m'.world = true) ∧
      ∀ b h t, m' = ⟨b, h :: t⟩ → ∀ j d, Idle R j (b.led h) d → j ≤ M ∧ (d.acts R ≠ [] ∨ (d.splits R = true ∧ d.below = [])) := by
    intro n b h k m' hm
    obtain ⟨rfl, rfl⟩ := turns_none hm
    refine ⟨Nat.zero_le _, fun _ => ?_, fun _ _ _ h => nomatch h⟩
    unfold Many.settles at h
    exact h
  induction n with
  | zero =>
    intro m h
    obtain ⟨b, hs⟩ := m
    cases hs with
    | nil => exact none' h
    | cons a t => unfold Many.settles at h; exact absurd h (by decide)
  | succ n ih =>
    intro m hset
    obtain ⟨b, hs⟩ := m
    cases hs with
    | nil => exact none' hset
    | cons a t =>
      unfold Many.settles at hset
      split at hset
      · exact absurd hset (by decide)
      · rename_i d hd
        have hq := Bef.quiet_idle M hd
        intro k m' hm
        cases k with
        | zero =>
          cases hm
          refine ⟨Nat.zero_le _, fun h => absurd h (List.cons_ne_nil _ _), fun b' h' t' he j e hi => ?_⟩
          cases he
          obtain ⟨q1, q2, q3⟩ := hq j e hi
          refine ⟨q1, ?_⟩
          cases hi' : e.idle R with
          | true => exact .inl (q2 hi')
          | false =>
            obtain rfl := q3 hi'
            split at hset
            · rename_i hsp
              simp only [Bool.and_eq_true] at hset
              exact .inr ⟨hsp, List.isEmpty_iff.mp hset.1⟩
            · simp only [Bool.and_eq_true] at hset
              exact .inl fun h' => by rw [h'] at hset; exact absurd hset.1 (by decide)
        | succ k =>
          obtain ⟨m1, h1, h2⟩ := hm.first
          have go : ∀ {m1 : Many}, m1.settles R M p n = true → Many.Turns R k m1 m' → k + 1 ≤ n + 1 ∧ (m'.heads = [] → p m'.world = true) ∧
              ∀ b h t, m' = ⟨b, h :: t⟩ → ∀ j d, Idle R j (b.led h) d → j ≤ M ∧ (d.acts R ≠ [] ∨ (d.splits R = true ∧ d.below = [])) := by
            intro m1 h3 h4
            obtain ⟨q1, q2⟩ := ih h3 k m' h4
            exact ⟨by omega, q2⟩
          have tick : ∀ {c : Bef}, Tick R (b.led a) c → ∃ c0, (if c0.over then (match c0.code with
                | none => Many.settles R M p n ⟨{ c0 with over := false }, t⟩
                | some _ => p c0)
              else !c0.move.over && Many.settles R M p n ⟨c0.move, t ++ [c0.move.head]⟩) = true ∧ c = if c0.over then c0 else c0.move := by
            rintro c ⟨j, e, e1, e2, -, c0, e4, e5⟩
            obtain rfl := (hq j e e1).2.2 e2
            split at hset
            · rename_i hsp
              rw [acts_split hsp] at e4
              cases e4
            · simp only [Bool.and_eq_true, List.all_eq_true] at hset
              exact ⟨c0, hset.2 c0 e4, e5⟩
          cases h1 with
          | go ht ho =>
            obtain ⟨c0, h3, rfl⟩ := tick ht
            split at h3
            · rename_i h4
              rw [if_pos h4] at ho
              exact absurd (h4.symm.trans ho) (by decide)
            · rename_i h4
              rw [if_neg h4] at h2
              simp only [Bool.and_eq_true] at h3
              exact go h3.2 h2
          | stop ht ho hcode =>
            obtain ⟨c0, h3, rfl⟩ := tick ht
            split at h3
            · rename_i h4
              rw [if_pos h4] at hcode h2
              rw [hcode] at h3 h2
              exact go h3 h2
            · rename_i h4
              rw [if_neg h4] at ho
              simp only [Bool.and_eq_true, ho] at h3
              exact absurd h3.1 (by decide)
          | quit ht ho hcode =>
            obtain ⟨c0, h3, rfl⟩ := tick ht
            split at h3
            · rename_i h4
              rw [if_pos h4] at hcode h2
              rw [hcode] at h3
              obtain ⟨rfl, rfl⟩ := turns_none h2
              exact ⟨by omega, fun _ => h3, fun _ _ _ h => nomatch h⟩
            · rename_i h4
              rw [if_neg h4] at ho
              simp only [Bool.and_eq_true, ho] at h3
              exact absurd h3.1 (by decide)
          | split hi hsp =>
            obtain rfl := (hq _ _ hi).2.2 (splits_not_idle hsp)
            rw [if_pos hsp] at hset
            simp only [Bool.and_eq_true] at hset
            exact go hset.2 h2

/-- **C104.** Trying out the machine is enough: if each of its runs ends within `N` turns with a state that has the property `p`, the
interpreter ends within `N + 1` turns in such a state. -/
theorem C104_tried_out {R : Rules} {g : Glob} {std : Int} {f : Nat} {lines : List (List Int)} (h : Plays R g std f lines) (ht : R.torus = false) {p : Bef → Bool} {M N : Nat}
    (hN : (Many.start R lines g.inp).settles R M p N = true) (hf : M < f) {k : Nat} (hk : N < k) :
    ∃ u m, (launch g R.byte (Spec.planeText lines)).turns k = .ok u ∧ (∀ r ∈ u.runners, r.ip.stopped = true) ∧ p m.world = true ∧ m.heads = [] ∧ u.ShowsAll g m := by
  have hs := Many.settles_turns N hN
  obtain ⟨u, n, m, h1, h2, h3, h4, h5⟩ := C104_it_ends_partial h ht (fun n b h t h1 j d h2 _ => ((hs n _ h1).2.2 b h t rfl j d h2).2) (fun n m h1 => (hs n m h1).1)
    (fun n b h t h1 j d h2 => ((hs n _ h1).2.2 b h t rfl j d h2).1) hf hk
  exact ⟨u, m, h1, h2, (hs n m h3).2.1 h4, h4, h5⟩

/-! ### Examples -/

/-- Two IPs that print in turn, until one ends the program. -/
def exMany : List (List Int) := [sourceLine "#vt1.z.@", sourceLine " >2..7q"]

example : Plays ⟨true, true, false, true, 100, false, true, true, true⟩ ex98 98 2000 exMany ∧
    (Many.start ⟨true, true, false, true, 100, false, true, true, true⟩ exMany ex98.inp).settles ⟨true, true, false, true, 100, false, true, true, true⟩ 20 (fun b => b.out == sourceLine "1 2 0 0 " && b.code == some 7) 20 = true :=
  ⟨⟨⟨rfl, rfl, rfl, rfl, rfl⟩, ⟨rfl, rfl, rfl, rfl, rfl⟩, .inr ⟨rfl, rfl, rfl⟩, (fun h => nomatch h), rfl, rfl, by decide, by decide, sourceLine_plain (by decide)⟩, by decide +kernel⟩

/-- Two IPs, one of which writes a `5` where the other then comes by. -/
def exMeet : List (List Int) := [sourceLine "#vt77*4+81p@", sourceLine " >zzzzzz .@"]

example : Plays ⟨true, true, false, true, 100, false, true, true, true⟩ ex98 98 2000 exMeet ∧
    (Many.start ⟨true, true, false, true, 100, false, true, true, true⟩ exMeet ex98.inp).settles ⟨true, true, false, true, 100, false, true, true, true⟩ 20 (fun b => b.out == sourceLine "5 " && b.code == none) 40 = true :=
  ⟨⟨⟨rfl, rfl, rfl, rfl, rfl⟩, ⟨rfl, rfl, rfl, rfl, rfl⟩, .inr ⟨rfl, rfl, rfl⟩, (fun h => nomatch h), rfl, rfl, by decide, by decide, sourceLine_plain (by decide)⟩, by decide +kernel⟩

/-- What the universe then has: every IP has stopped, and `5` was printed. -/
example : ∃ u m, (launch ex98 false (Spec.planeText exMeet)).turns 41 = .ok u ∧ (∀ r ∈ u.runners, r.ip.stopped = true) ∧
    (m.world.out == sourceLine "5 " && m.world.code == none) = true ∧ m.heads = [] ∧ u.ShowsAll ex98 m :=
  C104_tried_out (g := ex98) (lines := exMeet) (R := ⟨true, true, false, true, 100, false, true, true, true⟩) (p := fun b => b.out == sourceLine "5 " && b.code == none) (M := 20) (N := 40)
    ⟨⟨rfl, rfl, rfl, rfl, rfl⟩, ⟨rfl, rfl, rfl, rfl, rfl⟩, .inr ⟨rfl, rfl, rfl⟩, (fun h => nomatch h), rfl, rfl, by decide, by decide, sourceLine_plain (by decide)⟩ rfl (by decide +kernel) (by decide) (by decide)

end Funge
