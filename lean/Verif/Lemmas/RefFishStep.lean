import Verif.Lemmas.RefFishWords
import Verif.Lemmas.RefStep
/-!
Ticks and turns of the interpreter and steps of the reference machine for ><>.
-/
namespace Funge
open Exec Field Ref
open Ref.Fish (Step Steps Idle)

section
variable {R : Rules} {g : Glob} {f : Nat} {s : St} {b : Fish} {fl : FloatOps}

theorem Ref.Fish.Idle.steps {n : Nat} {b c : Fish} (h : Idle fl R n b c) : Steps fl R n b c := by
  induction h with
  | zero => exact .zero _
  | snoc _ h2 _ ih => exact .snoc ih h2

theorem Ref.Fish.Idle.prefix {n j : Nat} {b c : Fish} (h : Idle fl R n b c) (hj : j ≤ n) : ∃ d, Idle fl R j b d := by
  induction h with
  | zero => obtain rfl : j = 0 := by omega
            exact ⟨_, .zero _⟩
  | @snoc m b c d h1 h2 h3 ih =>
    by_cases e : j = m + 1
    · subst e; exact ⟨_, .snoc h1 h2 h3⟩
    · exact ih (by omega)

theorem Ref.Fish.Steps.trans {m n : Nat} {b c d : Fish} (h1 : Steps fl R m b c) (h2 : Steps fl R n c d) : Steps fl R (m + n) b d := by
  induction h2 with
  | zero => exact h1
  | snoc _ hs ih => exact .snoc (ih h1) hs

theorem Ref.Fish.Idle.trans {m n : Nat} {b c d : Fish} (h1 : Idle fl R m b c) (h2 : Idle fl R n c d) : Idle fl R (m + n) b d := by
  induction h2 with
  | zero => exact h1
  | snoc _ hs hd ih => exact .snoc (ih h1) hs hd

theorem Ref.Fish.Within.steps {n : Nat} {b c : Fish} (h : Fish.Within fl R b) (hs : Steps fl R n b c) : Fish.Within fl R c :=
  fun m d hd => h (n + m) d (hs.trans hd)

/-! The table. -/

theorem Swims.sems (H : Swims R g f s b) (c : Int) : s.cur.sems c = meanings semsFish c := by
  obtain ⟨⟨F, a, n, bn, rg, o, rfl, h1, h2, h3, h4⟩, -⟩ := H
  have h1 : (fishAt g f a F n bn rg o b).cur.sems =
    (newRunner { g.cfg with dims := 2, standard := -1, topo := .lahey, mode := 0, fingerprints := [] } g.nextId (Vec.ofList [0]) (Vec.ofList [1])).sems := by krfl
  rw [h1]
  unfold newRunner
  dsimp only
  rw [notifyDelta_sems]
  dsimp only
  have h0 : strategiesFor { g.cfg with dims := 2, standard := -1, topo := .lahey, mode := 0, fingerprints := [] } = [.fish] := rfl
  rw [h0]
  simp only [List.foldl_cons, List.foldl_nil, Strat.init]
  rw [pushSems_sems]
  simp

theorem fish_lookup {l : List (Int × Swim)} {c : Int} {w : Swim} (h : l.lookup c = some w) : (c, w) ∈ l := by
  induction l with
  | nil => cases h
  | cons p t ih =>
    rw [List.lookup_cons] at h
    split at h
    · rename_i hc
      have : c = p.1 := by simpa using hc
      subst this; cases h; exact List.mem_cons_self
    · exact List.mem_cons_of_mem _ (ih h)

theorem fish_lookup_none {l : List (Int × Swim)} {c : Int} (h : l.lookup c = none) : ∀ p ∈ l, p.1 ≠ c := by
  induction l with
  | nil => intro p hp; cases hp
  | cons p t ih =>
    rw [List.lookup_cons] at h
    split at h
    · cases h
    · rename_i hc
      intro q hq
      rcases List.mem_cons.mp hq with rfl | hq
      · intro he; simp [he] at hc
      · exact ih h q hq

theorem Swims.known (H : Swims R g f s b) {c : Int} {w : Swim} (h : swims.lookup c = some w) : ∃ m, s.cur.getSem c = some ⟨fishOp w, m⟩ := by
  have all : ∀ p ∈ swims, ((meanings semsFish p.1).head?).map (·.op) = some (fishOp p.2) := by decide +kernel
  have key := all _ (fish_lookup h)
  unfold Runner.getSem
  rw [H.sems]
  dsimp only at key
  cases hm : (meanings semsFish c).head? with
  | none => rw [hm] at key; cases key
  | some x =>
    rw [hm] at key
    obtain ⟨o, m⟩ := x
    exact ⟨m, by simp at key; rw [key]⟩

theorem Swims.foreign (H : Swims R g f s b) {c : Int} (h : swims.lookup c = none) : s.cur.getSem c = none := by
  have key : meanings semsFish c = [] := by
    refine meanings_nil fun p hp => ?_
    have all : ∀ p ∈ semsFish, ∃ q ∈ swims, q.1 = p.1 := by decide +kernel
    obtain ⟨q, hq, he⟩ := all p hp
    rw [← he]; exact fish_lookup_none h q hq
  unfold Runner.getSem
  rw [H.sems, key]; rfl

theorem Swims.fuel (H : Swims R g f s b) : s.g.fuel = f := by
  obtain ⟨⟨F, a, n, bn, rg, o, rfl, h1, h2, h3, h4⟩, -⟩ := H
  krfl

theorem Swims.inString (H : Swims R g f s b) : s.cur.inString = b.quote ∧ s.cur.strEnd = b.mark ∧ s.g.cfg.strings = g.cfg.strings := by
  obtain ⟨⟨F, a, n, bn, rg, o, rfl, h1, h2, h3, h4⟩, -⟩ := H
  exact ⟨by krfl, by krfl, by krfl⟩

theorem Swims.runnerPush (H : Swims R g f s b) (c : Int) : Funge.runnerPush c s = pushTop (g.flt.ofInt c) s := by
  have hf := H.flt
  obtain ⟨⟨F, a, n, bn, rg, o, rfl, h1, h2, h3, h4⟩, -⟩ := H
  have hs : (fishAt g f a F n bn rg o b).cur.strats = [.fish] := by krfl
  unfold Funge.runnerPush
  rw [hs, ← hf]

theorem Swims.rest (H : Swims R g f s b) : s.rest = [] ∧ s.cur.ip.stopped = false ∧ s.g.inp = b.inp ∧ s.g.exitcode = g.exitcode ∧
    ∃ o : List (List Int), s.g.eff = g.eff ++ o.map Eff.out ∧ o.flatten = b.out := by
  obtain ⟨⟨F, a, n, bn, rg, o, rfl, h1, h2, h3, h4⟩, -⟩ := H
  exact ⟨by krfl, by krfl, by krfl, by krfl, o, by krfl, h2⟩

/-- The program has ended. -/
structure Drowned (g : Glob) (s : St) (b : Bef) : Prop where
  stopped : s.cur.ip.stopped = true
  rest : s.rest = []
  inp : s.g.inp = b.inp
  code : s.g.exitcode = b.code.getD g.exitcode
  out : ∃ o : List (List Int), s.g.eff = g.eff ++ o.map Eff.out ∧ o.flatten = b.out

/-- The program dies of an error. -/
theorem tickLoop_dies {s1 : St} {e : Err} (he : e = .unimp ∨ e = .unspec) (h : execute s.g.fuel (s.g.field.get s.cur.ip.pos) s = .ok (e, s1))
    (H : Sinks g s1 b) (k : Nat) : ∃ s', tickLoop (k + 1) s = .ok ((), s') ∧ Drowned g s' b.die.toBef := by
  refine ⟨killed s1 1, ?_, ⟨rfl, ?_, H.inp, rfl, H.out⟩⟩
  · rw [tickLoop, bind_ok (ipGet_run s), bind_ok (getFuel_run s), bind_ok h]
    have hm : isMode modeDive s1 = .ok (false, s1) := by
      rw [← H.noDive]; rfl
    have h2 : afterExec e s1 = .ok (e, killed s1 1) := by
      have : afterExec e s1 = handle e s1 := by rcases he with rfl | rfl <;> rfl
      rw [this, handle, bind_ok (get_run s1), H.handler]
      refine (bind_ok hm).trans ?_
      rw [if_neg (by simp)]; rfl
    rw [bind_ok h2]
    rcases he with rfl | rfl <;> rfl
  · show List.map _ s1.rest = []
    rw [H.rest]; rfl

/-- One iteration of the loop of a tick. -/
theorem fish_step (hst : g.cfg.strings = .multispace) (H : Swims R g f s b) (hne : b.acts g.flt R ≠ []) (hf : 0 < f) (k : Nat) :
    (∃ s' c, tickLoop (k + 1) s = .ok ((), s') ∧ Step g.flt R b c ∧ Swims R g f s' c) ∨
    (∃ s' c, tickLoop (k + 1) s = tickLoop k s' ∧ Idle g.flt R 1 b c ∧ Swims R g f s' c) ∨
    (∃ s' c, tickLoop (k + 1) s = .ok ((), s') ∧ Step g.flt R b c ∧ c.over = true ∧ Drowned g s' c.toBef) := by
  have step : ∀ {c : Fish}, c ∈ b.acts g.flt R → c.over = false → Step g.flt R b c.swim := fun {c} hc ho =>
    ⟨H.over, c, hc, by rw [if_neg (by rw [ho]; decide)]⟩
  have last : ∀ {c : Fish}, c ∈ b.acts g.flt R → c.over = true → Step g.flt R b c := fun {c} hc ho =>
    ⟨H.over, c, hc, by rw [if_pos ho]⟩
  have plain : ∀ {s1 : St} {c : Fish}, execute s.g.fuel (s.g.field.get s.cur.ip.pos) s = .ok (.none, s1) → c ∈ b.acts g.flt R → Swims R g f s1 c →
      ∃ s' c, tickLoop (k + 1) s = .ok ((), s') ∧ Step g.flt R b c ∧ Swims R g f s' c := by
    intro s1 c h hc H1
    obtain ⟨ip', h1, H2⟩ := H1.move
    exact ⟨_, _, tickLoop_none h h1, step hc H1.over, H2⟩
  have dead : ∀ {s1 : St} {c : Fish} {e : Err}, e = .unimp ∨ e = .unspec → execute s.g.fuel (s.g.field.get s.cur.ip.pos) s = .ok (e, s1) → c.die ∈ b.acts g.flt R → Sinks g s1 c →
      ∃ s' c, tickLoop (k + 1) s = .ok ((), s') ∧ Step g.flt R b c ∧ c.over = true ∧ Drowned g s' c.toBef := by
    intro s1 c e he h hc H1
    obtain ⟨s', h1, h2⟩ := tickLoop_dies he h H1 k
    exact ⟨s', c.die, h1, last hc rfl, rfl, h2⟩
  have hcell : s.g.field.get s.cur.ip.pos = b.cell b.x b.y := by
    have := H.ipGet
    rw [ipGet_run] at this
    exact (Prod.mk.inj (Except.ok.inj this)).1
  obtain ⟨i1, i2, i3⟩ := H.inString
  have hex : ∃ m, execute s.g.fuel (s.g.field.get s.cur.ip.pos) s = if b.quote then execString (b.cell b.x b.y) s else execNormal (execute m) (b.cell b.x b.y) s := by
    obtain ⟨m, rfl⟩ : ∃ m, f = m + 1 := ⟨f - 1, by omega⟩
    refine ⟨m, ?_⟩
    rw [hcell, H.fuel, ← i1]
    rfl
  obtain ⟨m, hex⟩ := hex
  rw [hex] at plain dead
  cases hq : b.quote with
  | true =>
    rw [hq] at plain
    have ha : b.acts g.flt R = (if b.cell b.x b.y = b.mark then [{ b with quote := false }] else [b.on (g.flt.ofInt (b.cell b.x b.y) :: b.stack)]) := by
      unfold Fish.acts
      rw [hq]; rfl
    rw [ha] at plain
    simp only [if_true] at plain
    generalize b.cell b.x b.y = c at *
    by_cases hc : c = b.mark
    · rw [if_pos hc] at plain
      have h1 : execString c s = .ok (.none, { s with cur := { s.cur with strPrev := 0, inString := false } }) := by
        rw [execString, bind_ok (get_run s), i2, if_pos hc]; rfl
      refine .inl (plain h1 (List.mem_singleton.mpr rfl) ?_)
      obtain ⟨⟨F, a, n, bn, rg, o, rfl, q1, q2, q3, q4⟩, q5, q6, q7, q8⟩ := H
      exact ⟨⟨F, a, n, bn, rg, o, by krfl, shown_of q1 rfl rfl rfl rfl rfl, q2, q3, q4⟩, q5, q6, q7, q8⟩
    · rw [if_neg hc] at plain
      obtain ⟨s1, h1, H1⟩ := H.push (g.flt.ofInt c)
      refine .inl (plain ?_ (List.mem_singleton.mpr rfl) H1)
      rw [execString, bind_ok (get_run s), i2, if_neg hc, i3, hst]
      show (Funge.runnerPush c >>= _) s = _
      rw [bind_ok ((H.runnerPush c).trans h1)]; rfl
  | false =>
    rw [hq] at plain dead hex
    simp only [Bool.false_eq_true, if_false] at plain dead hex
    have ha : b.acts g.flt R = (match swims.lookup (b.cell b.x b.y) with
      | Option.none => [b.die]
      | some w => b.perform g.flt R w) := by
      unfold Fish.acts
      rw [hq]; rfl
    cases hw : swims.lookup (b.cell b.x b.y) with
    | none =>
      rw [hw] at ha
      refine .inr (.inr (dead (.inl rfl) (s1 := s) (c := b) ?_ (by rw [ha]; exact List.mem_singleton.mpr rfl) H.sinks))
      unfold execNormal
      rw [H.foreign hw]
    | some w =>
      have ha : b.acts g.flt R = b.perform g.flt R w := by rw [ha, hw]
      have hx : execNormal (execute m) (b.cell b.x b.y) s = runOp (execute m) (fishOp w) s := by
        obtain ⟨mv, hs⟩ := H.known hw
        unfold execNormal
        rw [hs]
        simp only [H.sinks.noDive, Bool.false_and, Bool.false_eq_true, if_false]
      by_cases w1 : w = .blank
      · subst w1
        obtain ⟨ip', h1, H2⟩ := H.move
        exact .inr (.inl ⟨_, _, tickLoop_skip (hex.trans hx) h1, .snoc (.zero _) (step (by rw [ha]; exact List.mem_singleton.mpr rfl) H.over) rfl, H2⟩)
      by_cases w2 : w = .stop
      · subst w2
        obtain ⟨r1, r2, r3, r4, r5⟩ := H.rest
        have h1 : runOp (execute m) .fEnd s = .ok (.none, s.setIP s.cur.ip.stop) := rfl
        refine .inr (.inr ⟨_, { b with over := true }, tickLoop_none (hex.trans (hx.trans h1)) (stop_next _ _ _ _), last (by rw [ha]; exact List.mem_singleton.mpr rfl) rfl, rfl, ⟨rfl, r1, r3, ?_, r5⟩⟩)
        show s.g.exitcode = b.code.getD _
        rw [H.code]; exact r4
      rw [ha] at hne
      obtain ⟨e, s1, h1, h2⟩ := swims_perform H (execute m) hw w1 w2 hne
      rw [← hx] at h1
      rcases h2 with ⟨rfl, c, hc, H1⟩ | ⟨rfl, c, hc, H1⟩
      · exact .inl (plain h1 (ha ▸ hc) H1)
      · exact .inr (.inr (dead (.inr rfl) h1 (ha ▸ hc) H1))

/-- The loop of a tick. -/
theorem tickLoop_fish (hst : g.cfg.strings = .multispace) (hf : 0 < f) (k : Nat) :
    ∀ {s : St} {b b0 : Fish} {j : Nat}, Swims R g f s b → Fish.Within g.flt R b → Idle g.flt R j b0 b → f ≤ j + k →
    (∃ s' c n, tickLoop k s = .ok ((), s') ∧ Steps g.flt R (n + 1) b0 c ∧ (Swims R g f s' c ∨ c.over = true ∧ Drowned g s' c.toBef)) ∨
    (tickLoop k s = .error .fuel ∧ ∃ n c d, Steps g.flt R n b0 c ∧ Idle g.flt R f c d) := by
  induction k with
  | zero =>
    intro s b b0 j H hw hi hj
    obtain ⟨d, hd⟩ := Idle.prefix hi (show f ≤ j by omega)
    exact .inr ⟨rfl, 0, b0, d, .zero _, hd⟩
  | succ k ih =>
    intro s b b0 j H hw hi hj
    rcases fish_step hst H (hw 0 b (.zero _) H.over) hf k with ⟨s', c, h1, h2, h3⟩ | ⟨s', c, h1, h2, h3⟩ | ⟨s', c, h1, h2, h3, h4⟩
    · exact .inl ⟨s', c, j, h1, .snoc hi.steps h2, .inl h3⟩
    · rw [h1]
      exact ih h3 (hw.steps h2.steps) (Idle.trans hi h2) (by omega)
    · exact .inl ⟨s', c, j, h1, .snoc hi.steps h2, .inr ⟨h3, h4⟩⟩

theorem tick_fish (hst : g.cfg.strings = .multispace) (hf : 0 < f) (H : Swims R g f s b) (hw : Fish.Within g.flt R b) :
    (∃ s' c n, tick s = .ok ((), s') ∧ Steps g.flt R (n + 1) b c ∧ (Swims R g f s' c ∨ c.over = true ∧ Drowned g s' c.toBef)) ∨
    (tick s = .error .fuel ∧ ∃ n c d, Steps g.flt R n b c ∧ Idle g.flt R f c d) := by
  have h := tickLoop_fish hst hf f H hw (.zero _) (by omega)
  unfold tick
  rw [bind_ok (getFuel_run s), H.fuel]
  exact h

/-- Some turns. -/
theorem turns_fish (hst : g.cfg.strings = .multispace) (hf : 0 < f) (k : Nat) :
    ∀ {s : St} {b : Fish}, Swims R g f s b → Fish.Within g.flt R b →
    (∃ s' c n, s.alone.turns k = .ok s'.alone ∧ Steps g.flt R n b c ∧ k ≤ n ∧ Swims R g f s' c) ∨
    (∃ s' c n, s.alone.turns k = .ok ⟨[], s'.g⟩ ∧ Steps g.flt R n b c ∧ c.over = true ∧ Drowned g s' c.toBef) ∨
    (s.alone.turns k = .error .fuel ∧ ∃ n c d, Steps g.flt R n b c ∧ Idle g.flt R f c d) := by
  induction k with
  | zero => exact fun {s b} H hw => .inl ⟨s, b, 0, rfl, .zero _, Nat.le_refl 0, H⟩
  | succ k ih =>
    intro s b H hw
    obtain ⟨r1, r2, -⟩ := H.rest
    rcases tick_fish hst hf H hw with ⟨s', c, n, h1, h2, h3 | ⟨h3, h4⟩⟩ | ⟨h1, h2⟩
    · obtain ⟨q1, q2, -⟩ := h3.rest
      have ht := turns_cons (turn_alone r1 r2 h1 q2 q1) k
      rw [ht]
      rcases ih h3 (hw.steps h2) with ⟨s2, d, m, e1, e2, e3, e4⟩ | ⟨s2, d, m, e1, e2, e3⟩ | ⟨e1, m, d, e, e2, e3⟩
      · exact .inl ⟨s2, d, n + 1 + m, e1, h2.trans e2, by omega, e4⟩
      · exact .inr (.inl ⟨s2, d, n + 1 + m, e1, h2.trans e2, e3⟩)
      · exact .inr (.inr ⟨e1, n + 1 + m, d, e, h2.trans e2, e3⟩)
    · have ht := turns_cons (turn_last r1 r2 h1 h4.stopped h4.rest) k
      rw [ht, turns_over]
      exact .inr (.inl ⟨s', c, n + 1, rfl, h2, h3, h4⟩)
    · exact .inr (.inr ⟨turns_wrong r1 r2 h1 k, h2⟩)

end
end Funge
