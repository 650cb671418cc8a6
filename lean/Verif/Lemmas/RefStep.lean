import Verif.Lemmas.RefWords
/-!
Ticks and turns of the interpreter and steps of the reference machine.
-/
namespace Funge
open Exec Field Ref
open Ref.Bef (Step Steps Idle Tick)

section
variable {R : Rules} {g : Glob} {std : Int} {f : Nat} {w : Walk} {s : St} {b : Bef}

theorem Ref.Bef.Idle.steps {n : Nat} {b c : Bef} (h : Idle R n b c) : Steps R n b c := by
  induction h with
  | zero => exact .zero _
  | snoc _ _ h2 ih => exact .snoc ih h2

theorem Ref.Bef.Idle.prefix {n j : Nat} {b c : Bef} (h : Idle R n b c) (hj : j ≤ n) : ∃ d, Idle R j b d := by
  induction h with
  | zero => obtain rfl : j = 0 := by omega
            exact ⟨_, .zero _⟩
  | @snoc m b c d h1 h2 h3 ih =>
    by_cases e : j = m + 1
    · subst e; exact ⟨_, .snoc h1 h2 h3⟩
    · exact ih (by omega)

theorem Ref.Bef.Steps.trans {m n : Nat} {b c d : Bef} (h1 : Steps R m b c) (h2 : Steps R n c d) : Steps R (m + n) b d := by
  induction h2 with
  | zero => exact h1
  | snoc _ hs ih => exact .snoc (ih h1) hs

theorem Ref.Bef.Idle.trans {m n : Nat} {b c d : Bef} (h1 : Idle R m b c) (h2 : Idle R n c d) : Idle R (m + n) b d := by
  induction h2 with
  | zero => exact h1
  | snoc _ hs hd ih => exact .snoc (ih h1) hs hd

theorem Ref.Bef.Tick.steps {b c : Bef} (h : Tick R b c) : ∃ n, Steps R (n + 1) b c := by
  obtain ⟨n, d, h1, -, h2⟩ := h
  exact ⟨n, .snoc h1.steps h2⟩

theorem Holds.fuel (H : Holds R g std f w s b) : s.g.fuel = f := by
  obtain ⟨⟨F, a, n, bn, o, rfl, -⟩, -⟩ := H
  krfl

theorem Holds.noDive (H : Holds R g std f w s b) : hasMode s.g.cfg.mode modeDive = false := by
  obtain ⟨⟨F, a, n, bn, o, rfl, -⟩, -⟩ := H
  krfl

theorem Holds.inString (H : Holds R g std f w s b) : s.cur.inString = b.quote := by
  obtain ⟨⟨F, a, n, bn, o, rfl, -⟩, -⟩ := H
  krfl

theorem Holds.handler (hs : std = 93 ∨ std = 98) (H : Holds R g std f w s b) : s.cur.handler = .funge := by
  obtain ⟨⟨F, a, n, bn, o, rfl, -⟩, -⟩ := H
  rcases hs with rfl | rfl <;> krfl

theorem Holds.rest (H : Holds R g std f w s b) : s.rest = w.rest ∧ s.cur.ip.stopped = false ∧ s.g.inp = b.inp ∧ s.g.exitcode = g.exitcode ∧
    ∃ o : List (List Int), s.g.eff = g.eff ++ o.map Eff.out ∧ o.flatten = b.out := by
  obtain ⟨⟨F, a, n, bn, o, rfl, -, -, h⟩, -⟩ := H
  exact ⟨by krfl, by krfl, by krfl, by krfl, o, by krfl, h⟩

/-- The state all IPs are stopped in. -/
def killed (s : St) (code : Int) : St :=
  ⟨{ s.cur with ip := s.cur.ip.stop }, s.rest.map (fun r => { r with ip := r.ip.stop }), { s.g with exitcode := code, running := false }⟩

/-- The IP has stopped, or the program has ended with an exit code. -/
def Ended (R : Rules) (g : Glob) (std : Int) (f : Nat) (w : Walk) (s : St) (b : Bef) : Prop :=
  ∃ s0 b0, Holds R g std f w s0 b0 ∧ ((b = { b0 with over := true } ∧ s = s0.setIP s0.cur.ip.stop) ∨ ∃ v, b = { b0 with over := true, code := some v } ∧ s = killed s0 v)

theorem Ended.over (h : Ended R g std f w s b) : b.over = true := by
  obtain ⟨s0, b0, -, ⟨rfl, -⟩ | ⟨v, rfl, -⟩⟩ := h <;> rfl

theorem Ended.stopped (h : Ended R g std f w s b) : s.cur.ip.stopped = true := by
  obtain ⟨s0, b0, -, ⟨-, rfl⟩ | ⟨v, -, rfl⟩⟩ := h <;> rfl

theorem Ended.rest (h : Ended R g std f w s b) : s.rest = if b.code = none then w.rest else w.rest.map fun r => { r with ip := r.ip.stop } := by
  obtain ⟨s0, b0, H, ⟨rfl, rfl⟩ | ⟨v, rfl, rfl⟩⟩ := h
  · rw [if_pos (show ({ b0 with over := true } : Bef).code = none from H.code)]
    exact H.rest.1
  · rw [if_neg (by exact fun h => nomatch h), ← H.rest.1]; rfl

theorem Ended.known (h : Ended R g std f w s b) : s.g.inp = b.inp ∧ s.g.exitcode = b.code.getD g.exitcode ∧
    ∃ o : List (List Int), s.g.eff = g.eff ++ o.map Eff.out ∧ o.flatten = b.out := by
  obtain ⟨s0, b0, H, ⟨rfl, rfl⟩ | ⟨v, rfl, rfl⟩⟩ := h
  · obtain ⟨-, -, r3, r4, r5⟩ := H.rest
    refine ⟨r3, ?_, r5⟩
    show s0.g.exitcode = b0.code.getD _
    rw [H.code]; exact r4
  · obtain ⟨-, -, r3, r4, r5⟩ := H.rest
    exact ⟨r3, rfl, r5⟩

/-- The cell the IP is at. -/
theorem Holds.cellAt (H : Holds R g std f w s b) : s.g.field.get s.cur.ip.pos = b.cell b.x b.y := by
  have := H.ipGet
  rw [ipGet_run] at this
  exact (Prod.mk.inj (Except.ok.inj this)).1

/-- A word is executed. -/
theorem Holds.runs (hR : Rules.For R std) (H : Holds R g std f w s b) (hq : b.quote = false) {c : Int} {v : Word} (hw : word R c = some v) (k : Nat) :
    execute (k + 1) c s = runOp (execute k) (opOf v) s := by
  show (if s.cur.inString then _ else _) = _
  rw [H.inString, hq, if_neg (by decide)]
  have hsem : ∃ m, s.cur.getSem c = some ⟨opOf v, m⟩ := by
    obtain ⟨⟨F, a, n, bn, o, rfl, -⟩, -⟩ := H
    exact words_known hR g _ (Field.new 2 false) (at2s b.x b.y b.dx b.dy b.ox b.oy) b.stack n [] [] hw
  obtain ⟨m, hsem⟩ := hsem
  unfold execNormal
  rw [hsem]
  simp only [H.noDive, Bool.false_and, Bool.false_eq_true, if_false]

/-- A word of the program is executed. -/
theorem Holds.word (hR : Rules.For R std) (H : Holds R g std f w s b) (hq : b.quote = false) {v : Word} (hw : word R (b.cell b.x b.y) = some v) (hf : 0 < f) :
    ∃ k, f = k + 1 ∧ execute s.g.fuel (s.g.field.get s.cur.ip.pos) s = runOp (execute k) (opOf v) s := by
  rw [H.cellAt, H.fuel]
  obtain ⟨k, rfl⟩ : ∃ k, f = k + 1 := ⟨f - 1, by omega⟩
  exact ⟨k, rfl, H.runs hR hq hw k⟩

theorem Holds.unknown (hR : Rules.For R std) (H : Holds R g std f w s b) (hq : b.quote = false) (hw : Ref.word R (b.cell b.x b.y) = none) (hf : 0 < f) :
    execute s.g.fuel (s.g.field.get s.cur.ip.pos) s = .ok (.unimp, s) := by
  have hc : s.g.field.get s.cur.ip.pos = b.cell b.x b.y := by
    have := H.ipGet
    rw [ipGet_run] at this
    exact (Prod.mk.inj (Except.ok.inj this)).1
  rw [hc, H.fuel]
  obtain ⟨k, rfl⟩ : ∃ k, f = k + 1 := ⟨f - 1, by omega⟩
  show (if s.cur.inString then _ else _) = _
  rw [H.inString, hq, if_neg (by decide)]
  have hsem : s.cur.getSem (b.cell b.x b.y) = none := by
    obtain ⟨⟨F, a, n, bn, o, rfl, -⟩, -⟩ := H
    exact words_unknown hR g _ (Field.new 2 false) (at2s b.x b.y b.dx b.dy b.ox b.oy) b.stack n [] [] hw
  unfold execNormal
  rw [hsem]

/-- The IP is between the east and the west edge of a torus, or between the south and the north edge, where the machine takes no notice of it. -/
def Astride (R : Rules) (g : Glob) (std : Int) (f : Nat) (w : Walk) (s : St) (b : Bef) : Prop :=
  ∃ s0 b0, Holds R g std f w s0 b0 ∧ R.torus = true ∧ b0.cardinal ∧ b0.brink R = true ∧ b0.quote = false ∧
    s = s0.setIP (at2s (b0.x + b0.dx) (b0.y + b0.dy) b0.dx b0.dy b0.ox b0.oy) ∧ b = b0.move

/-- The interpreter's state shows the machine's, or is on the way to. -/
def Near (R : Rules) (g : Glob) (std : Int) (f : Nat) (w : Walk) (s : St) (b : Bef) : Prop := Holds R g std f w s b ∨ Astride R g std f w s b

/-- What is known of the IP while it is there. -/
theorem Astride.known (h : Astride R g std f w s b) : ∃ s0, Holds R g std f w s0 b ∧ s.rest = s0.rest ∧ s.g = s0.g ∧ s.cur = { s0.cur with ip := s.cur.ip } ∧
    s.cur.ip.stopped = false ∧ s.cur.ip.delta = Vec.ofList [b.dx, b.dy] ∧ s.cur.ip.storage = Vec.ofList [b.ox, b.oy] ∧ R.torus = true ∧
    s.cur.ip.next s.g.cfg.dims .torus s.g.field = .ok s0.cur.ip ∧ s0 = s.setIP s0.cur.ip ∧ s.g.field.get s.cur.ip.pos = 32 ∧ b.quote = false ∧
    ((s.cur.ip.pos = Vec.ofList [80, b.y] ∧ b.x = 0 ∧ b.dx = 1 ∧ b.dy = 0) ∨ (s.cur.ip.pos = Vec.ofList [b.x, 25] ∧ b.y = 0 ∧ b.dx = 0 ∧ b.dy = 1)) := by
  obtain ⟨s0, b0, ⟨⟨F, a, n, bn, o, rfl, h1, hb, h2⟩, h3, h4, h5, h6, h7, h8⟩, ht, hc, hbr, hq, rfl, rfl⟩ := h
  obtain ⟨r1, r2, r3, r4, r5⟩ := ring_brink (h1.ring ht) hc h3 hbr
  refine ⟨befAt g std f w a F n bn o b0.move, ⟨⟨F, a, n, bn, o, rfl, plane_of h1 rfl rfl rfl rfl rfl, hb, h2⟩, r4, h4, h5, h6, h7, h8⟩,
    by krfl, by krfl, by krfl, by krfl, by krfl, by krfl, ht, ?_, by krfl, ?_, hq, ?_⟩
  · have e : (befAt g std f w a F n bn o b0.move).cur.ip = at2s b0.ahead.1 b0.ahead.2 b0.dx b0.dy b0.ox b0.oy := by krfl
    rw [e]
    have e2 : ((befAt g std f w a F n bn o b0).setIP (at2s (b0.x + b0.dx) (b0.y + b0.dy) b0.dx b0.dy b0.ox b0.oy)).cur.ip = at2s (b0.x + b0.dx) (b0.y + b0.dy) b0.dx b0.dy b0.ox b0.oy ∧
      ((befAt g std f w a F n bn o b0).setIP (at2s (b0.x + b0.dx) (b0.y + b0.dy) b0.dx b0.dy b0.ox b0.oy)).g.cfg.dims = 2 ∧
      ((befAt g std f w a F n bn o b0).setIP (at2s (b0.x + b0.dx) (b0.y + b0.dy) b0.dx b0.dy b0.ox b0.oy)).g.field = F := ⟨by krfl, by krfl, by krfl⟩
    rw [e2.1, e2.2.1, e2.2.2]
    exact (next_storage _ (at2 (b0.x + b0.dx) (b0.y + b0.dy) b0.dx b0.dy) _ _ _).trans (by rw [r3]; rfl)
  · rw [← r2, ← h1.get]; krfl
  · rcases r5 with ⟨e1, e2, e3, e4⟩ | ⟨e1, e2, e3, e4⟩
    · refine .inl ⟨?_, congrArg Prod.fst e1, e2, e3⟩
      have : b0.move.y = b0.y := congrArg Prod.snd e1
      rw [this]
      show Vec.ofList [b0.x + b0.dx, b0.y + b0.dy] = _
      rw [e4, e3, Int.add_zero]
    · refine .inr ⟨?_, congrArg Prod.snd e1, e2, e3⟩
      have : b0.move.x = b0.x := congrArg Prod.fst e1
      rw [this]
      show Vec.ofList [b0.x + b0.dx, b0.y + b0.dy] = _
      rw [e4, e2, Int.add_zero]

/-- The IP gets to the other edge within the tick. -/
theorem Astride.step (hR : Rules.For R std) (hg : Rules.Around R g) (hf : 0 < f) (h : Astride R g std f w s b) (k : Nat) :
    ∃ s', tickLoop (k + 1) s = tickLoop k s' ∧ Holds R g std f w s' b := by
  obtain ⟨s0, H, k1, k2, k3, k4, k5, k6, ht, hn, he, hb, hq, -⟩ := h.known
  have htopo : s.g.cfg.topo = .torus := by
    rw [k2]
    obtain ⟨⟨F, a, n, bn, o, rfl, -⟩, -⟩ := H
    have hg := hg.1
    rw [ht, if_pos rfl] at hg
    rw [← hg]; krfl
  refine ⟨s0, ?_, H⟩
  have hx : execute s.g.fuel (s.g.field.get s.cur.ip.pos) s = .ok (.skip, s) := by
    rw [hb, k2, H.fuel]
    obtain ⟨j, rfl⟩ : ∃ j, f = j + 1 := ⟨f - 1, by omega⟩
    show (if s.cur.inString then _ else _) = _
    rw [show s.cur.inString = s0.cur.inString by rw [k3], H.inString, hq, if_neg (by decide)]
    have hw : word R 32 = some .blank := by
      unfold word
      split <;> rfl
    have hsem : ∃ m, s.cur.getSem 32 = some ⟨opOf .blank, m⟩ := by
      have e : s.cur.getSem 32 = s0.cur.getSem 32 := by rw [k3]; rfl
      rw [e]
      obtain ⟨⟨F, a, n, bn, o, rfl, -⟩, -⟩ := H
      exact words_known hR g _ (Field.new 2 false) (at2s b.x b.y b.dx b.dy b.ox b.oy) b.stack n [] [] hw
    obtain ⟨m, hsem⟩ := hsem
    unfold execNormal
    rw [hsem]
    have hnd : hasMode s.g.cfg.mode modeDive = false := by rw [k2]; exact H.noDive
    simp only [hnd, Bool.false_and, Bool.false_eq_true, if_false]
    rfl
  rw [tickLoop_skip hx (htopo ▸ hn), ← he]

/-- The IP moves on. -/
theorem Holds.go (hg : Rules.Around R g) (H : Holds R g std f w s b) (hc : R.torus = true → b.cardinal) (hq : b.brink R = true → b.quote = false) :
    ∃ ip', s.cur.ip.next s.g.cfg.dims s.g.cfg.topo s.g.field = .ok ip' ∧ Near R g std f w (s.setIP ip') b.move := by
  cases hbr : b.brink R with
  | false =>
    obtain ⟨ip', h1, h2⟩ := H.hop hg hc hbr
    exact ⟨ip', h1, .inl h2⟩
  | true =>
    have ht : R.torus = true := by
      unfold Bef.brink at hbr
      simp only [Bool.and_eq_true] at hbr
      exact hbr.1
    refine ⟨at2s (b.x + b.dx) (b.y + b.dy) b.dx b.dy b.ox b.oy, ?_, .inr ⟨s, b, H, ht, hc ht, hbr, hq hbr, rfl, rfl⟩⟩
    obtain ⟨⟨F, a, n, bn, o, rfl, h1, hb, h2⟩, h3, -⟩ := H
    obtain ⟨r1, -⟩ := ring_brink (h1.ring ht) (hc ht) h3 hbr
    have e : (befAt g std f w a F n bn o b).cur.ip = at2s b.x b.y b.dx b.dy b.ox b.oy ∧ (befAt g std f w a F n bn o b).g.cfg.dims = 2 ∧ (befAt g std f w a F n bn o b).g.cfg.topo = g.cfg.topo ∧
      (befAt g std f w a F n bn o b).g.field = F := ⟨by krfl, by krfl, by krfl, by krfl⟩
    have hg := hg.1
    rw [e.1, e.2.1, e.2.2.1, e.2.2.2, hg, ht, if_pos rfl]
    exact (next_storage _ (at2 b.x b.y b.dx b.dy) _ _ _).trans (by rw [r1]; rfl)

theorem cardinal_turn (h : b.cardinal) : b.turn.cardinal := by
  unfold Bef.cardinal Bef.turn
  rcases h with h | h | h | h <;> simp only [Prod.mk.injEq] at h <;> obtain ⟨h1, h2⟩ := h <;> simp only [h1, h2]
  · exact .inr (.inl rfl)
  · exact .inl rfl
  · exact .inr (.inr (.inr rfl))
  · exact .inr (.inr (.inl rfl))

/-- An error turns the IP around. -/
theorem tickLoop_error (hs : std = 93 ∨ std = 98) (hg : Rules.Around R g) (hcd : R.torus = true → b.cardinal) (hq : b.quote = false) {s1 : St} {e : Err} (he : e = .unimp ∨ e = .unspec ∨ e = .notavail) (h : execute s.g.fuel (s.g.field.get s.cur.ip.pos) s = .ok (e, s1))
    (H : Holds R g std f w s1 b) (k : Nat) : ∃ s', tickLoop (k + 1) s = .ok ((), s') ∧ Near R g std f w s' b.turn.move := by
  obtain ⟨s2, e2, H2⟩ := H.reflect
  obtain ⟨ip', e3, H3⟩ := H2.go hg (fun h => cardinal_turn (hcd h)) (fun _ => hq)
  have e3 := ipNext_run e3
  generalize s2.setIP ip' = s3 at e3 H3
  refine ⟨s3, ?_, H3⟩
  rw [tickLoop, bind_ok (ipGet_run s), bind_ok (getFuel_run s), bind_ok h]
  have h2 : afterExec e s1 = .ok (e, s3) := by
    have : afterExec e s1 = handle e s1 := by rcases he with rfl | rfl | rfl <;> rfl
    rw [this, handle, bind_ok (get_run s1), H.handler hs]
    show (onIP IP.reflect >>= _) s1 = _
    rw [bind_ok e2, bind_ok e3]; rfl
  rw [bind_ok h2]
  rcases he with rfl | rfl | rfl <;> rfl

theorem back_comment (b : Bef) (v : Bool) (k : Nat) : ∀ p, ({ b with comment := v } : Bef).back k p = b.back k p := by
  induction k with
  | zero => exact fun _ => rfl
  | succ k ih => intro p; simp only [Bef.back, ih]; rfl

theorem move_comment (b : Bef) {v : Bool} : { b.move with comment := v } = ({ b with comment := v } : Bef).move := by
  unfold Bef.move Bef.ahead
  simp only [back_comment]
  rfl

/-- The search for the next semicolon. -/
theorem untilSemi_ref (hg : Rules.Around R g) (ht : R.torus = false) (n : Nat) : ∀ {s : St} {b b0 : Bef} {j : Nat}, Holds R g std f w s b → Idle R j b0 { b.move with comment := true } →
    (∃ s' b' k, untilSemi n s = .ok ((), s') ∧ Holds R g std f w s' b' ∧ b'.cell b'.x b'.y = 59 ∧ Idle R k b0 { b' with comment := true }) ∨
    (untilSemi n s = .error .fuel ∧ ∃ d, Idle R (j + n) b0 d) := by
  induction n with
  | zero => exact fun H hi => .inr ⟨rfl, _, hi⟩
  | succ n ih =>
    intro s b b0 j H hi
    obtain ⟨s1, e1, H1⟩ := H.ipNext hg ht
    have e2 := H1.ipGet
    by_cases hc : b.move.cell b.move.x b.move.y = 59
    · refine .inl ⟨s1, b.move, j, ?_, H1, hc, hi⟩
      rw [untilSemi, bind_ok e1, bind_ok e2, if_pos hc]; rfl
    · have hstep : Step R { b.move with comment := true } { b.move.move with comment := true } := by
        refine ⟨H1.over, { b.move with comment := true }, ?_, ?_⟩
        · unfold Bef.acts
          rw [if_pos rfl]
          simp only [List.mem_singleton]
          rw [decide_eq_true (show b.move.cell b.move.x b.move.y ≠ 59 from hc)]
        · show _ = if b.move.over = true then _ else _
          rw [if_neg (by rw [H1.over]; decide)]
          exact move_comment b.move
      have he : untilSemi (n + 1) s = untilSemi n s1 := by rw [untilSemi, bind_ok e1, bind_ok e2, if_neg hc]
      rw [he]
      rcases ih H1 (.snoc hi rfl hstep) with h | ⟨h1, d, h2⟩
      · exact .inl h
      · exact .inr ⟨h1, d, by rw [show j + (n + 1) = j + 1 + n by omega]; exact h2⟩

theorem stop_next (ip : IP) (d : Nat) (t : Topo) (F : Field) : ip.stop.next d t F = .ok ip.stop := by
  unfold IP.next
  exact if_pos rfl

/-! ### `k` -/

theorem perform_quote {c : Bef} {v : Word} (h : c ∈ b.perform R v) (hv : v ≠ .quote) : c.quote = b.quote := by
  have one : ∀ {d : Bef}, c ∈ [d] → d.quote = b.quote → c.quote = b.quote := fun hm hd => by rw [List.mem_singleton.mp hm]; exact hd
  have ite : ∀ {P : Prop} [Decidable P] {d : Bef}, c ∈ (if P then [d] else []) → d.quote = b.quote → c.quote = b.quote := fun {P _ d} hm hd => by
    split at hm
    · exact one hm hd
    · cases hm
  have eti : ∀ {P : Prop} [Decidable P] {d : Bef}, c ∈ (if P then [] else [d]) → d.quote = b.quote → c.quote = b.quote := fun {P _ d} hm hd => by
    split at hm
    · cases hm
    · exact one hm hd
  have result : ∀ {v}, c ∈ b.result v → c.quote = b.quote := fun h => ite h rfl
  have store : ∀ {d : Bef} {x y v : Int}, c ∈ d.store R x y v → c.quote = d.quote := by
    intro d x y v h
    unfold Bef.store at h
    split at h
    · split at h
      · rw [List.mem_singleton.mp h]; rfl
      · cases h
    split at h
    · split at h
      · rw [List.mem_singleton.mp h]; rfl
      · cases h
    · split at h
      · cases h
      · rw [List.mem_singleton.mp h]; rfl
  have moves : ∀ (k : Nat) (d : Bef), (d.moves k).quote = d.quote := by
    intro k
    induction k with
    | zero => exact fun _ => rfl
    | succ k ih => exact fun d => ih d.move
  cases v with
  | quote => exact absurd rfl hv
  | bridge => exact eti h rfl
  | get => exact eti h rfl
  | random =>
    obtain ⟨d, -, rfl⟩ := List.mem_map.mp h
    rfl
  | rem =>
    simp only [Bef.perform] at h
    split at h
    · cases h
    · exact result h
  | mul => exact result h
  | add => exact result h
  | sub => exact result h
  | div => exact result h
  | gt => exact result h
  | numIn =>
    simp only [Bef.perform, Bef.readNumber] at h
    split at h
    · exact one h rfl
    · exact eti h rfl
  | charIn =>
    simp only [Bef.perform, Bef.readChar] at h
    split at h
    · exact one h rfl
    · exact eti h rfl
  | numOut => exact ite h rfl
  | put => exact store (d := b.replace 3 []) h
  | compare =>
    refine one h ?_
    split
    · rfl
    · split <;> rfl
  | jump =>
    refine ite h ?_
    split
    · exact moves _ (b.replace 1 []).turn
    · exact moves _ (b.replace 1 [])
  | quit => exact ite h rfl
  | fetch => exact ite h rfl
  | store =>
    simp only [Bef.perform] at h
    split at h
    · exact store (d := b.move.replace 1 []) h
    · cases h
  | opens => exact eti h rfl
  | closes =>
    simp only [Bef.perform] at h
    split at h
    · exact one h rfl
    · exact eti h rfl
  | under =>
    simp only [Bef.perform] at h
    split at h
    · exact one h rfl
    · refine eti h ?_
      unfold Bef.transfer
      dsimp only
      split <;> rfl
  | split =>
    simp only [Bef.perform] at h
    exact eti h rfl
  | iterate => cases h
  | info =>
    simp only [Bef.perform] at h
    split at h
    · cases h
    · split at h
      · exact one h rfl
      · cases h
  | system k => exact eti h rfl
  | _ => exact one h rfl

/-- A string does not begin at the east or the south edge of a torus. -/
theorem perform_brink {c : Bef} {v : Word} (h : c ∈ b.perform R v) (hq : b.quote = false) (hbr : c.brink R = true) : c.quote = false := by
  by_cases hv : v = .quote
  · subst hv
    simp only [Bef.perform] at h
    split at h
    · cases h
    · rename_i hn
      obtain rfl := List.mem_singleton.mp h
      exact absurd hbr hn
  · exact (perform_quote h hv).trans hq

/-- Only one word leaves a choice. -/
theorem perform_one {v : Word} (hv : v ≠ .random) : (b.perform R v).length ≤ 1 := by
  have ite : ∀ {P : Prop} [Decidable P] {d : Bef}, (if P then [d] else []).length ≤ 1 := fun {P _ d} => by split <;> simp
  have eti : ∀ {P : Prop} [Decidable P] {d : Bef}, (if P then [] else [d]).length ≤ 1 := fun {P _ d} => by split <;> simp
  have store : ∀ {d : Bef} {x y v : Int}, (d.store R x y v).length ≤ 1 := by
    intro d x y v
    unfold Bef.store
    split
    · exact ite
    split
    · exact ite
    · exact eti
  cases v with
  | random => exact absurd rfl hv
  | bridge => exact eti
  | quote => exact eti
  | get => exact eti
  | rem =>
    simp only [Bef.perform]
    split
    · exact Nat.zero_le _
    · exact ite
  | mul => exact ite
  | add => exact ite
  | sub => exact ite
  | div => exact ite
  | gt => exact ite
  | numIn =>
    simp only [Bef.perform, Bef.readNumber]
    split
    · exact Nat.le_refl 1
    · exact eti
  | charIn =>
    simp only [Bef.perform, Bef.readChar]
    split
    · exact Nat.le_refl 1
    · exact eti
  | numOut => exact ite
  | put => exact store
  | jump => exact ite
  | quit => exact ite
  | fetch => exact ite
  | store =>
    simp only [Bef.perform]
    split
    · exact store
    · exact Nat.zero_le _
  | opens => exact eti
  | closes =>
    simp only [Bef.perform]
    split
    · exact Nat.le_refl 1
    · exact eti
  | under =>
    simp only [Bef.perform]
    split
    · exact Nat.le_refl 1
    · exact eti
  | split => exact eti
  | iterate => exact Nat.zero_le _
  | info =>
    simp only [Bef.perform]
    split
    · exact Nat.zero_le _
    · split
      · exact Nat.le_refl 1
      · exact Nat.zero_le _
  | system k => exact eti
  | _ => exact Nat.le_refl 1

theorem repeated_random (n : Nat) : ∀ b : Bef, b.repeated R .random n ≠ [] := by
  induction n with
  | zero => exact fun b h => nomatch h
  | succ n ih =>
    intro b h
    have : b.repeated R .random (n + 1) = (b.perform R .random).flatMap (Bef.repeated R .random n) := rfl
    rw [this, List.flatMap_eq_nil_iff] at h
    exact ih _ (h { b with dx := 1, dy := 0 } (List.mem_map.mpr ⟨(1, 0), List.mem_cons_self, rfl⟩))

theorem repeatable_ne {v : Word} (h : Bef.repeatable v = true) : v ≠ .blank ∧ v ≠ .comment ∧ v ≠ .stop ∧ v ≠ .quit ∧ v ≠ .quote ∧ v ≠ .split ∧ v ≠ .iterate := by
  refine ⟨?_, ?_, ?_, ?_, ?_, ?_, ?_⟩ <;> (rintro rfl; exact absurd h (by decide))

/-- An instruction is executed again and again. -/
theorem iterRun_ref (hR : Rules.For R std) (hg : Rules.Around R g) (ht : R.torus = false) {ch : Int} {v : Word} (hw : word R ch = some v) (hv : Bef.repeatable v = true) (k : Nat) (n : Nat) :
    ∀ {s : St} {b : Bef}, Holds R g std f w s b → b.quote = false → b.repeated R v n ≠ [] →
    ∃ s' c, iterRun (execute (k + 1)) ch n s = .ok ((), s') ∧ c ∈ b.repeated R v n ∧ Holds R g std f w s' c := by
  obtain ⟨v1, v2, v3, v4, v5, v6, v7⟩ := repeatable_ne hv
  induction n with
  | zero => exact fun {s b} H _ _ => ⟨s, b, rfl, List.mem_singleton.mpr rfl, H⟩
  | succ n ih =>
    intro s b H hq hne
    have hun : b.repeated R v (n + 1) = if b.fails R v then [] else (b.perform R v).flatMap (Bef.repeated R v n) := rfl
    rw [hun] at hne ⊢
    cases hfl : b.fails R v with
    | true => rw [hfl, if_pos rfl] at hne; exact absurd rfl hne
    | false =>
      rw [hfl, if_neg (by decide)] at hne
      rw [if_neg (by decide)]
      have hp : b.perform R v ≠ [] := fun h => by rw [h] at hne; exact hne rfl
      obtain ⟨e, s1, h1, h2⟩ := perform_run hR hg H (fun h => absurd (ht.symm.trans h) (by decide)) hq (execute k) hw v1 v2 v3 v4 v6 hp
      rw [hfl] at h2
      rcases h2 with ⟨rfl, c, hc, H1⟩ | ⟨-, h, -⟩
      · have hn : c.repeated R v n ≠ [] := by
          by_cases hr : v = .random
          · rw [hr]; exact repeated_random n c
          · intro h
            have hl := perform_one (b := b) (R := R) hr
            match hm : b.perform R v with
            | [] => exact hp hm
            | [d] =>
              rw [hm] at hc hne
              obtain rfl := List.mem_singleton.mp hc
              rw [List.flatMap_cons, h] at hne
              exact hne rfl
            | _ :: _ :: _ => rw [hm] at hl; simp only [List.length_cons] at hl; omega
        obtain ⟨s2, d, h3, h4, H2⟩ := ih H1 ((perform_quote hc v5).trans hq) hn
        refine ⟨s2, d, ?_, List.mem_flatMap.mpr ⟨c, hc, h4⟩, H2⟩
        show (execute (k + 1) ch >>= fun _ => iterRun (execute (k + 1)) ch n) s = _
        rw [bind_ok ((H.runs hR hq hw k).trans h1), h3]
      · cases h

theorem seek_same (n : Nat) : ∀ {i : Bool} {b d : Bef}, b.seek n i = some d → d = { b with x := d.x, y := d.y } := by
  induction n with
  | zero => intro i b d h; cases h
  | succ n ih =>
    intro i b d h
    have go : ∀ {i}, b.move.seek n i = some d → d = { b with x := d.x, y := d.y } := fun h => ih (b := b.move) h
    unfold Bef.seek at h
    split at h
    · cases h
    · split at h
      · exact go h
      · split at h
        · exact go h
        · split at h
          · exact go h
          · cases h; rfl

/-- The next cell is a character if the search goes on there. -/
theorem seek_char {n : Nat} {i : Bool} {d : Bef} (h : b.seek n i = some d) : toChar (b.cell b.x b.y) = b.cell b.x b.y := by
  cases n with
  | zero => cases h
  | succ n =>
    unfold Bef.seek at h
    split at h
    · cases h
    · exact Int.bmod_eq_of_le (by omega) (by omega)

theorem untilSemiChar_ref (hg : Rules.Around R g) (ht : R.torus = false) (m : Nat) : ∀ {n : Nat} {s : St} {b d : Bef}, Holds R g std f w s b → b.move.seek m true = some d → m ≤ n →
    ∃ s' c m', untilSemiChar n s = .ok ((), s') ∧ Holds R g std f w s' c ∧ c.move.seek m' false = some d ∧ m' ≤ m := by
  induction m with
  | zero => intro n s b d _ h; cases h
  | succ m ih =>
    intro n s b d H h hn
    obtain ⟨n, rfl⟩ : ∃ n', n = n' + 1 := ⟨n - 1, by omega⟩
    obtain ⟨s1, e1, H1⟩ := H.ipNext hg ht
    have hch := seek_char h
    unfold Bef.seek at h
    split at h
    · cases h
    · rw [if_pos rfl] at h
      have hr : untilSemiChar (n + 1) s = (if b.move.cell b.move.x b.move.y = 59 then pure () else untilSemiChar n : Exec Unit) s1 := by
        rw [untilSemiChar, bind_ok e1, bind_ok H1.ipGet, hch]
      rw [hr]
      by_cases hc : b.move.cell b.move.x b.move.y = 59
      · rw [decide_eq_false (fun h => h hc)] at h
        rw [if_pos hc]
        exact ⟨s1, b.move, m, rfl, H1, h, by omega⟩
      · rw [decide_eq_true hc] at h
        rw [if_neg hc]
        obtain ⟨s2, c, m', h1, h2, h3, h4⟩ := ih H1 h (by omega : m ≤ n)
        exact ⟨s2, c, m', h1, h2, h3, by omega⟩

theorem iterSearch_ref (hg : Rules.Around R g) (ht : R.torus = false) (n : Nat) : ∀ {m : Nat} {s : St} {b d : Bef}, Holds R g std f w s b → b.seek m false = some d → m ≤ n →
    ∃ s', iterSearch n (b.cell b.x b.y) s = .ok (d.cell d.x d.y, s') ∧ Holds R g std f w s' d := by
  induction n with
  | zero => intro m s b d _ h hm; obtain rfl : m = 0 := by omega
            cases h
  | succ n ih =>
    intro m s b d H h hm
    obtain ⟨m, rfl⟩ : ∃ m', m = m' + 1 := by
      cases m with
      | zero => cases h
      | succ m => exact ⟨m, rfl⟩
    unfold Bef.seek at h
    split at h
    · cases h
    · rw [if_neg (by decide)] at h
      by_cases h59 : b.cell b.x b.y = 59
      · rw [if_pos h59] at h
        obtain ⟨s1, c, m', e1, H1, h1, hm'⟩ := untilSemiChar_ref hg ht m H h (by omega : m ≤ n)
        obtain ⟨s2, e2, H2⟩ := H1.ipNext hg ht
        obtain ⟨s3, e3, H3⟩ := ih H2 h1 (by omega)
        refine ⟨s3, ?_, H3⟩
        rw [iterSearch, if_pos h59, bind_ok e1, bind_ok e2, bind_ok H2.ipGet, seek_char h1, e3]
      · rw [if_neg h59] at h
        by_cases h32 : b.cell b.x b.y = 32
        · rw [if_pos h32] at h
          obtain ⟨s2, e2, H2⟩ := H.ipNext hg ht
          obtain ⟨s3, e3, H3⟩ := ih H2 h (by omega)
          refine ⟨s3, ?_, H3⟩
          rw [iterSearch, if_neg h59, if_pos h32, bind_ok e2, bind_ok H2.ipGet, seek_char h, e3]
        · rw [if_neg h32] at h
          cases h
          exact ⟨s, by rw [iterSearch, if_neg h59, if_neg h32]; rfl, H⟩

/-- The IP is put back. -/
theorem Holds.putBack (H : Holds R g std f w s b) {x y : Int} (h : b.has (x, y) = true) :
    ∃ s', onIP (·.setPos (Vec.ofList [x, y])) s = .ok ((), s') ∧ Holds R g std f w s' { b with x := x, y := y } := by
  obtain ⟨⟨F, a, n, bn, o, rfl, h1, hb, h2⟩, h3, h4, h5, h6, h7, h8⟩ := H
  exact ⟨_, onIP_run _ _, ⟨F, a, n, bn, o, by krfl, plane_of h1 rfl rfl rfl rfl rfl, hb, h2⟩, h, h4, h5, h6, h7, h8⟩

theorem back_stack (b : Bef) (l : List Int) (k : Nat) : ∀ p, ({ b with stack := l } : Bef).back k p = b.back k p := by
  induction k with
  | zero => exact fun _ => rfl
  | succ k ih => intro p; simp only [Bef.back, ih]; rfl

theorem ahead_stack (b : Bef) (l : List Int) : ({ b with stack := l } : Bef).ahead = b.ahead := by
  unfold Bef.ahead
  simp only [back_stack]
  rfl

/-- `k`. -/
theorem does_iterate (hR : Rules.For R std) (hg : Rules.Around R g) (ht : R.torus = false) (H : Holds R g std f w s b) (hq : b.quote = false) (hf : R.reach ≤ f) (hne : b.iterate R ≠ []) (k : Nat) :
    ∃ s' c, runOp (execute (k + 1)) .iterate s = .ok (.none, s') ∧ c ∈ b.iterate R ∧ Holds R g std f w s' c := by
  unfold Bef.iterate at hne ⊢
  split at hne
  · exact absurd rfl hne
  · rename_i d hd
    obtain ⟨s1, e1, H1⟩ := H.ipNext hg ht
    obtain ⟨s2, e2, H2⟩ := iterSearch_ref hg ht f H1 hd hf
    have hs := seek_same _ hd
    have hh : d.has (b.x, b.y) = true := by rw [hs]; exact H.here
    obtain ⟨s3, e3, H3⟩ := H2.putBack hh
    have hb : ({ d with x := b.x, y := b.y } : Bef) = b := by rw [hs]; rfl
    rw [hb] at H3
    obtain ⟨s4, e4, H4⟩ := H3.pop
    have hpos : ipPos s = .ok (Vec.ofList [b.x, b.y], s) := by
      obtain ⟨⟨F, a, n, bn, o, rfl, -⟩, -⟩ := H
      krfl
    have hrun : runOp (execute (k + 1)) .iterate s = (do
        iterRun (execute (k + 1)) (d.cell d.x d.y) (toInt b.top).toNat
        if toInt b.top = 0 then ipNext else pure ()
        pure .none : Exec Err) s4 := by
      show iIterate (execute (k + 1)) s = _
      rw [iIterate, bind_ok hpos, bind_ok e1, bind_ok H1.ipGet, bind_ok (getFuel_run s1), seek_char hd, H1.fuel, bind_ok e2, bind_ok e3, bind_ok e4]
    split at hne
    · exact absurd rfl hne
    · rename_i hrg
      rw [if_neg hrg]
      have hi : toInt b.top = b.top := Int.bmod_eq_of_le (by omega) (by omega)
      rw [hi] at hrun
      rw [hrun]
      split at hne
      · rename_i hneg
        rw [if_pos hneg]
        refine ⟨s4, _, ?_, List.mem_singleton.mpr rfl, H4⟩
        rw [show b.top.toNat = 0 by omega, bind_ok (show iterRun (execute (k + 1)) (d.cell d.x d.y) 0 s4 = .ok ((), s4) from rfl), if_neg (by omega)]; rfl
      · rename_i hneg
        rw [if_neg hneg]
        split at hne
        · rename_i h0
          simp only [if_pos h0]
          split at hne
          · rename_i hxy
            rw [if_pos hxy]
            obtain ⟨s5, e5, H5⟩ := H4.ipNext hg ht
            refine ⟨s5, _, ?_, List.mem_singleton.mpr rfl, ?_⟩
            · rw [show b.top.toNat = 0 by omega, bind_ok (show iterRun (execute (k + 1)) (d.cell d.x d.y) 0 s4 = .ok ((), s4) from rfl), bind_ok e5]; rfl
            · have hm : (b.replace 1 []).move = { b.replace 1 [] with x := b.ahead.1, y := b.ahead.2 } := by
                unfold Bef.move
                rw [show (b.replace 1 []).ahead = b.ahead from ahead_stack b _]
              rw [hm] at H5
              rw [hxy.1, hxy.2]; exact H5
          · exact absurd rfl hne
        · rename_i h0
          simp only [if_neg h0]
          split at hne
          · exact absurd rfl hne
          · rename_i v hv
            split at hne
            · rename_i hrep
              simp only [if_pos hrep]
              obtain ⟨s5, c, h1, h2, h3⟩ := iterRun_ref hR hg ht hv hrep k b.top.natAbs H4 hq hne
              refine ⟨s5, c, ?_, h2, h3⟩
              rw [show b.top.toNat = b.top.natAbs by omega, bind_ok h1]; rfl
            · exact absurd rfl hne

/-! ### The directions on a torus -/

theorem turn_turn (b : Bef) : b.turn.turn = b := by
  unfold Bef.turn
  simp only [Int.neg_neg]

theorem perform_cardinal {c : Bef} {v : Word} {ch : Int} (hw : words93.lookup ch = some v) (hb : b.cardinal) (h : c ∈ b.perform R v) : c.cardinal := by
  have one : ∀ {d : Bef}, c ∈ [d] → d.cardinal → c.cardinal := fun hm hd => by rw [List.mem_singleton.mp hm]; exact hd
  have ite : ∀ {P : Prop} [Decidable P] {d : Bef}, c ∈ (if P then [d] else []) → d.cardinal → c.cardinal := fun {P _ d} hm hd => by
    split at hm
    · exact one hm hd
    · cases hm
  have eti : ∀ {P : Prop} [Decidable P] {d : Bef}, c ∈ (if P then [] else [d]) → d.cardinal → c.cardinal := fun {P _ d} hm hd => by
    split at hm
    · cases hm
    · exact one hm hd
  have result : ∀ {v}, c ∈ b.result v → c.cardinal := fun h => ite h hb
  have mem := mem_lookup hw
  have known : ∀ v', (words93.all (·.2 ≠ v')) = true → v ≠ v' := by
    rintro v' hv rfl
    simp only [List.all_eq_true, decide_eq_true_eq] at hv
    exact hv _ mem rfl
  cases v with
  | go dx dy =>
    have hgo : (dx, dy) = (1, 0) ∨ (dx, dy) = (-1, 0) ∨ (dx, dy) = (0, 1) ∨ (dx, dy) = (0, -1) := by
      have all2 : ∀ p ∈ words93, p.2 ∈ [Word.go 1 0, .go (-1) 0, .go 0 1, .go 0 (-1)] ∨ (match p.2 with | .go _ _ => false | _ => true) = true := by decide
      rcases all2 _ mem with h | h
      · simpa using h
      · cases h
    exact one h hgo
  | ifEW =>
    refine one h ?_
    by_cases h0 : b.top = 0
    · left; simp [h0]
    · right; left; simp [h0]
  | ifNS =>
    refine one h ?_
    by_cases h0 : b.top = 0
    · right; right; left; simp [h0]
    · right; right; right; simp [h0]
  | random =>
    obtain ⟨d, hd, rfl⟩ := List.mem_map.mp h
    have hd : d = (1, 0) ∨ d = (-1, 0) ∨ d = (0, 1) ∨ d = (0, -1) := by simpa using hd
    exact hd
  | rem =>
    simp only [Bef.perform] at h
    split at h
    · cases h
    · exact result h
  | mul => exact result h
  | add => exact result h
  | sub => exact result h
  | div => exact result h
  | gt => exact result h
  | numIn =>
    simp only [Bef.perform, Bef.readNumber] at h
    split at h
    · exact one h (cardinal_turn hb)
    · exact eti h hb
  | charIn =>
    simp only [Bef.perform, Bef.readChar] at h
    split at h
    · exact one h (cardinal_turn hb)
    · exact eti h hb
  | numOut => exact ite h hb
  | bridge => exact eti h hb
  | quote => exact eti h hb
  | get => exact eti h hb
  | put =>
    simp only [Bef.perform, Bef.store] at h
    split at h
    · exact ite h hb
    split at h
    · exact ite h hb
    · exact eti h hb
  | noop => exact absurd rfl (known .noop (by decide))
  | left => exact absurd rfl (known .left (by decide))
  | right => exact absurd rfl (known .right (by decide))
  | compare => exact absurd rfl (known .compare (by decide))
  | reflect => exact absurd rfl (known .reflect (by decide))
  | absolute => exact absurd rfl (known .absolute (by decide))
  | jump => exact absurd rfl (known .jump (by decide))
  | comment => exact absurd rfl (known .comment (by decide))
  | quit => exact absurd rfl (known .quit (by decide))
  | clear => exact absurd rfl (known .clear (by decide))
  | fetch => exact absurd rfl (known .fetch (by decide))
  | store => exact absurd rfl (known .store (by decide))
  | opens => exact absurd rfl (known .opens (by decide))
  | closes => exact absurd rfl (known .closes (by decide))
  | under => exact absurd rfl (known .under (by decide))
  | split => exact absurd rfl (known .split (by decide))
  | iterate => exact absurd rfl (known .iterate (by decide))
  | info => exact absurd rfl (known .info (by decide))
  | system k => exact absurd rfl (known (.system k) (by cases k <;> decide))
  | _ => exact one h hb

theorem acts_cardinal (hR : Rules.For R std) (ht : R.torus = true) (hb : b.cardinal) {c : Bef} (h : c ∈ b.acts R) : c.cardinal := by
  have h98 : R.funge98 = false := by
    rcases hR with ⟨-, h1⟩ | ⟨-, -, h1⟩
    · exact h1
    · exact absurd (ht.symm.trans h1) (by decide)
  have one : ∀ {d : Bef}, c ∈ [d] → d.cardinal → c.cardinal := fun hm hd => by rw [List.mem_singleton.mp hm]; exact hd
  unfold Bef.acts at h
  dsimp only at h
  split at h
  · exact one h hb
  split at h
  · split at h
    · exact one h hb
    split at h
    · cases h
    split at h
    · exact one h hb
    split at h
    · cases h
    split at h
    · exact one h hb
    · exact one h hb
  · split at h
    · exact one h (cardinal_turn hb)
    · rename_i v hv
      have hv' : words93.lookup (b.cell b.x b.y) = some v := by
        unfold word at hv
        rwa [h98, if_neg (by decide)] at hv
      split at h
      · rename_i hi
        subst hi
        exact absurd ((hR.flat hv (by decide)).symm.trans ht) (by decide)
      · exact perform_cardinal hv' hb h

theorem step_cardinal (hR : Rules.For R std) (ht : R.torus = true) {c : Bef} (h : Step R b c) (hb : b.cardinal) : c.cardinal := by
  obtain ⟨-, d, h1, rfl⟩ := h
  have := acts_cardinal hR ht hb h1
  split
  · exact this
  · exact this

theorem steps_cardinal (hR : Rules.For R std) (ht : R.torus = true) {n : Nat} {c : Bef} (h : Steps R n b c) (hb : b.cardinal) : c.cardinal := by
  induction h with
  | zero => exact hb
  | snoc _ h2 ih => exact step_cardinal hR ht h2 (ih hb)

/-- One iteration of the loop of a tick. -/
theorem cell_step (hR : Rules.For R std) (hst : g.cfg.strings = if R.sgml then .sgml else .multispace) (hcon : g.cfg.concurrent = R.many) (hg : Rules.Around R g)
    (H : Holds R g std f w s b) (hcd : R.torus = true → b.cardinal) (hne : b.acts R ≠ []) (hf : 1 < f ∧ R.reach ≤ f) (k : Nat) :
    (∃ s' c, tickLoop (k + 1) s = .ok ((), s') ∧ (b.idle R = false ∧ Step R b c) ∧ Near R g std f w s' c) ∨
    (∃ s' c j, tickLoop (k + 1) s = tickLoop k s' ∧ Idle R (j + 1) b c ∧ Near R g std f w s' c) ∨
    (∃ s' c, tickLoop (k + 1) s = .ok ((), s') ∧ (b.idle R = false ∧ Step R b c) ∧ Ended R g std f w s' c) ∨
    (tickLoop (k + 1) s = .error .fuel ∧ ∃ c, Idle R f b c) := by
  have hs := hR.std
  have step : ∀ {c : Bef}, c ∈ b.acts R → c.over = false → Step R b c.move := fun {c} hc ho =>
    ⟨H.over, c, hc, by rw [if_neg (by rw [ho]; decide)]⟩
  have plain : ∀ {s1 : St} {c : Bef}, execute s.g.fuel (s.g.field.get s.cur.ip.pos) s = .ok (.none, s1) → b.idle R = false → c ∈ b.acts R → (c.brink R = true → c.quote = false) → Holds R g std f w s1 c →
      ∃ s' c, tickLoop (k + 1) s = .ok ((), s') ∧ (b.idle R = false ∧ Step R b c) ∧ Near R g std f w s' c := by
    intro s1 c h hi hc hbq H1
    obtain ⟨ip', h1, H2⟩ := H1.go hg (fun h => acts_cardinal hR h (hcd h) hc) hbq
    exact ⟨_, _, tickLoop_none h h1, ⟨hi, step hc H1.over⟩, H2⟩
  have skip : execute s.g.fuel (s.g.field.get s.cur.ip.pos) s = .ok (.skip, s) → b.idle R = true → b ∈ b.acts R → (b.brink R = true → b.quote = false) →
      ∃ s' c j, tickLoop (k + 1) s = tickLoop k s' ∧ Idle R (j + 1) b c ∧ Near R g std f w s' c := by
    intro h hi hc hbq
    obtain ⟨ip', h1, H2⟩ := H.go hg hcd hbq
    exact ⟨_, _, 0, tickLoop_skip h h1, .snoc (.zero _) hi (step hc H.over), H2⟩
  have hcell : s.g.field.get s.cur.ip.pos = b.cell b.x b.y := by
    have := H.ipGet
    rw [ipGet_run] at this
    exact (Prod.mk.inj (Except.ok.inj this)).1
  cases hq : b.quote with
  | true =>
    have ha : b.acts R = (if b.cell b.x b.y = 34 then [{ b with quote := false, prev := 0 }]
      else if b.brink R then []
      else if !R.sgml then [b.replace 0 [b.cell b.x b.y]]
      else if b.cell b.x b.y < 0 ∨ 255 < b.cell b.x b.y then []
      else if Bef.white (b.cell b.x b.y) && Bef.white b.prev then [b]
      else [{ b.replace 0 [b.cell b.x b.y] with prev := b.cell b.x b.y }]) := by
      unfold Bef.acts
      rw [H.comment, hq]; rfl
    have hid : b.idle R = (R.sgml && b.cell b.x b.y ≠ 34 && Bef.white (b.cell b.x b.y) && Bef.white b.prev) := by
      unfold Bef.idle
      rw [H.comment, hq]; rfl
    rw [ha, hid] at plain skip
    rw [ha] at hne
    rw [hid]
    rw [hcell] at plain skip
    generalize b.cell b.x b.y = c at *
    obtain ⟨F, a, n, bn, o, rfl, hsh, hbn, ho⟩ := H.st
    have hbef : ∀ m p l, befAt g std f w a F m bn o { b with stack := l, prev := p } =
        (befAt g std f w a F n bn o b).inText 34 p (at2s b.x b.y b.dx b.dy b.ox b.oy) l m := by
      intro m p l
      unfold befAt befCur
      rw [show ({ b with stack := l, prev := p } : Bef).quote = true from hq]
      krfl
    have hb : befAt g std f w a F n bn o b = (befAt g std f w a F n bn o b).inText 34 b.prev (at2s b.x b.y b.dx b.dy b.ox b.oy) b.stack n :=
      hbef n b.prev b.stack
    have hex : execute (befAt g std f w a F n bn o b).g.fuel c (befAt g std f w a F n bn o b) = execString c (befAt g std f w a F n bn o b) := by
      rw [H.fuel]
      conv => lhs; rw [hb]
      rw [execute_inText _ _ _ _ _ (by omega), ← hb]
    rw [hex] at plain skip
    have hpu : (befAt g std f w a F n bn o b).PushesInts := by
      rcases hs with rfl | rfl
      · exact ⟨.une93, [.be93], by krfl, by decide, by decide⟩
      · exact ⟨.une93, [.une98, .be93, .be98], by krfl, by decide, by decide⟩
    have hli : (befAt g std f w a F n bn o b).Lifo := by
      refine ⟨?_, ?_, ?_⟩
      · have : (befAt g std f w a F n bn o b).cur.ss = ⟨0, ⟨0, b.stack, n⟩ :: bn.map fun p => ⟨0, p.1, p.2⟩⟩ := by krfl
        rw [this]; exact Nat.succ_pos _
      · show hasMode 0 modeQueue = false; decide
      · show hasMode 0 modeInvert = false; decide
    have hcf : (befAt g std f w a F n bn o b).g.cfg.strings = g.cfg.strings := by krfl
    by_cases c1 : c = 34
    · subst c1
      refine .inl (plain (c := { b with quote := false, prev := 0 }) ((congrArg _ hb).trans (execString_end _ _ _ _ _)) (by simp) (by rw [if_pos rfl]; exact List.mem_singleton.mpr rfl) (fun _ => rfl)
        ⟨⟨F, a, n, bn, o, by krfl, plane_of hsh rfl rfl rfl rfl rfl, hbn, ho⟩, H.here, H.comment, H.over, H.code, ⟨Int.le_refl 0, (by decide : (0 : Int) ≤ 255)⟩, fun _ => rfl⟩)
    rw [if_neg c1] at plain skip hne
    have hbr : b.brink R = false := by
      cases h : b.brink R with
      | false => rfl
      | true => rw [h, if_pos rfl] at hne; exact absurd rfl hne
    rw [hbr, if_neg (by decide)] at plain skip hne
    have hbq : b.brink R = true → b.quote = false := fun h => absurd (hbr.symm.trans h) (by decide)
    cases hsg : R.sgml with
    | false =>
      rw [hsg] at plain skip hst
      have hst : g.cfg.strings = .multispace := hst
      exact .inl (plain (c := b.replace 0 [c]) ((congrArg _ hb).trans (execString_multispace hli hpu (hcf.trans hst) 34 b.prev _ _ _ c1)) rfl (List.mem_singleton.mpr rfl) hbq
        ⟨⟨F, a, n + 1, bn, o, (hbef (n + 1) b.prev (c :: b.stack)).symm, plane_of hsh rfl rfl rfl rfl rfl, hbn, ho⟩, H.here, H.comment, H.over, H.code, H.prev, H.plain⟩)
    | true =>
      rw [hsg] at plain skip hst hne
      have hst : g.cfg.strings = .sgml := hst
      simp only [Bool.not_true, Bool.false_eq_true, if_false] at plain skip hne
      by_cases c2 : c < 0 ∨ 255 < c
      · rw [if_pos c2] at hne; exact absurd rfl hne
      rw [if_neg c2] at plain skip
      have hw : ∀ c, isSpaceByte c = Bef.white c := fun c => by simp only [isSpaceByte, Bef.white, Bool.decide_or, Bool.decide_and]
      have he := (congrArg (execString c) hb).trans (execString_sgml hli hpu (hcf.trans hst) 34 b.prev (at2s b.x b.y b.dx b.dy b.ox b.oy) b.stack n c1 ⟨by omega, by omega⟩ H.prev)
      rw [hw, hw] at he
      have hid' : (true && decide (c ≠ 34) && Bef.white c && Bef.white b.prev) = (Bef.white c && Bef.white b.prev) := by simp [c1]
      rw [hid'] at plain skip ⊢
      cases c3 : Bef.white c && Bef.white b.prev with
      | true =>
        rw [c3] at he skip
        exact .inr (.inl (skip (he.trans (by rw [if_pos rfl, ← hb])) rfl (List.mem_singleton.mpr rfl) (fun h => nomatch h)))
      | false =>
        rw [c3] at he plain
        exact .inl (plain (c := { b.replace 0 [c] with prev := c }) he rfl (List.mem_singleton.mpr rfl) hbq
          ⟨⟨F, a, n + 1, bn, o, (hbef (n + 1) c (c :: b.stack)).symm, plane_of hsh rfl rfl rfl rfl rfl, hbn, ho⟩, H.here, H.comment, H.over, H.code, (show 0 ≤ c ∧ c ≤ 255 by omega),
            fun h => absurd (hq.symm.trans h) (by decide)⟩)
  | false =>
    have ha : b.acts R = (match word R (b.cell b.x b.y) with
      | Option.none => [b.turn]
      | some w => if w = .iterate then b.iterate R else b.perform R w) := by
      unfold Bef.acts
      rw [H.comment, hq]; rfl
    have hid : b.idle R = (decide (word R (b.cell b.x b.y) = some .blank) || decide (word R (b.cell b.x b.y) = some .comment)) := by
      unfold Bef.idle
      rw [H.comment, hq]; rfl
    cases hw : word R (b.cell b.x b.y) with
    | none =>
      have ha : b.acts R = [b.turn] := by rw [ha, hw]
      obtain ⟨s', h1, H1⟩ := tickLoop_error hs hg hcd hq (.inl rfl) (H.unknown hR hq hw (by omega)) H k
      exact .inl ⟨s', _, h1, ⟨by rw [hid, hw]; rfl, step (c := b.turn) (by rw [ha]; exact List.mem_singleton.mpr rfl) H.over⟩, H1⟩
    | some v =>
      have ha : b.acts R = if v = .iterate then b.iterate R else b.perform R v := by rw [ha, hw]
      obtain ⟨fk, hfk, hx⟩ := H.word hR hq hw (by omega)
      rw [hw] at hid
      by_cases w6 : v = .iterate
      · subst w6
        rw [if_pos rfl] at ha
        obtain ⟨fk, rfl⟩ : ∃ k', fk = k' + 1 := ⟨fk - 1, by omega⟩
        obtain ⟨s1, c, h1, h2, H1⟩ := does_iterate hR hg (hR.flat hw (by decide)) H hq hf.2 (ha ▸ hne) fk
        exact .inl (plain (hx.trans h1) (by rw [hid]; rfl) (ha ▸ h2) (fun h => by rw [brink_flat (hR.flat hw (by decide))] at h; cases h) H1)
      rw [if_neg w6] at ha
      generalize execute fk = ex at hx
      by_cases w1 : v = .blank
      · subst w1
        exact .inr (.inl (skip hx (by rw [hid]; rfl) (by rw [ha]; exact List.mem_singleton.mpr rfl) (fun _ => hq)))
      by_cases w2 : v = .comment
      · subst w2
        have ha : b.acts R = [{ b with comment := true }] := ha
        have hi : Idle R 1 b { b.move with comment := true } := by
          refine .snoc (.zero _) (by rw [hid]; rfl) ?_
          have := step (c := { b with comment := true }) (by rw [ha]; exact List.mem_singleton.mpr rfl) H.over
          rw [← move_comment b] at this
          exact this
        have hj : runOp ex .jumpOver s = (untilSemi f >>= fun _ => pure .skip) s := by
          show iJumpOver s = _
          rw [iJumpOver, bind_ok (getFuel_run s), H.fuel]
        rcases untilSemi_ref hg (hR.flat hw (by decide)) f H hi with ⟨s', b', m, h1, H1, hc, h2⟩ | ⟨h1, d, h2⟩
        · obtain ⟨ip', h3, H2⟩ := H1.move hg (hR.flat hw (by decide))
          refine .inr (.inl ⟨_, b'.move, m, tickLoop_skip (s1 := s') ?_ h3, .snoc h2 rfl ⟨H1.over, b', ?_, ?_⟩, .inl H2⟩)
          · rw [hx]; exact hj.trans (by rw [bind_ok h1]; rfl)
          · unfold Bef.acts
            rw [if_pos rfl]
            simp only [List.mem_singleton]
            rw [decide_eq_false (fun h => h hc)]
            have := H1.comment
            obtain ⟨_⟩ := b'
            simp only at this
            rw [this]
          · rw [if_neg (by rw [H1.over]; decide)]
        · obtain ⟨c, hc⟩ := Idle.prefix h2 (show f ≤ 1 + f by omega)
          refine .inr (.inr (.inr ⟨?_, c, hc⟩))
          rw [tickLoop, bind_ok (ipGet_run s), bind_ok (getFuel_run s), bind_error (hx.trans (hj.trans (bind_error h1)))]
      have hid : b.idle R = false := by rw [hid]; simp [w1, w2]
      by_cases w3 : v = .stop
      · subst w3
        have h1 : runOp ex .stop s = .ok (.none, s.setIP s.cur.ip.stop) := rfl
        refine .inr (.inr (.inl ⟨_, { b with over := true }, tickLoop_none (hx.trans h1) (stop_next _ _ _ _), ⟨hid, H.over, { b with over := true }, ?_, (if_pos rfl).symm⟩,
          s, b, H, .inl ⟨rfl, rfl⟩⟩))
        rw [ha]; exact List.mem_singleton.mpr rfl
      by_cases w4 : v = .quit
      · subst w4
        have ha : b.acts R = if -2147483648 ≤ b.top ∧ b.top ≤ 2147483647 then [{ b.replace 1 [] with over := true, code := some b.top }] else [] := ha
        by_cases hr : -2147483648 ≤ b.top ∧ b.top ≤ 2147483647
        · rw [if_pos hr] at ha
          obtain ⟨s1, e1, H1⟩ := H.pop
          have hv : toInt b.top = b.top := Int.bmod_eq_of_le (by omega) (by omega)
          have h1 : runOp ex .quit s = .ok (.none, killed s1 b.top) := by
            show iQuit s = _
            rw [iQuit, bind_ok e1, hv]; rfl
          refine .inr (.inr (.inl ⟨_, _, tickLoop_none (hx.trans h1) (stop_next _ _ _ _),
            ⟨hid, H.over, { b.replace 1 [] with over := true, code := some b.top }, ?_, (if_pos rfl).symm⟩, s1, b.replace 1 [], H1, .inr ⟨b.top, rfl, rfl⟩⟩))
          rw [ha]; exact List.mem_singleton.mpr rfl
        · rw [if_neg hr] at ha; exact absurd ha hne
      by_cases w5 : v = .split
      · subst w5
        have ha : b.acts R = if R.many then [] else [b.turn] := ha
        cases hm : R.many with
        | true => rw [hm, if_pos rfl] at ha; exact absurd ha hne
        | false =>
          rw [hm, if_neg (by decide)] at ha
          have hc : s.g.cfg.concurrent = false := by
            obtain ⟨⟨F, a, n, bn, o, rfl, -⟩, -⟩ := H
            rw [hm] at hcon
            rw [← hcon]; krfl
          have h1 : runOp ex .thread s = .ok (.notavail, s) := by
            show iThread s = _
            rw [iThread, bind_ok (getCfg_run s), hc]; rfl
          obtain ⟨s', h2, H1⟩ := tickLoop_error hs hg hcd hq (.inr (.inr rfl)) (hx.trans h1) H k
          exact .inl ⟨s', _, h2, ⟨hid, step (c := b.turn) (by rw [ha]; exact List.mem_singleton.mpr rfl) H.over⟩, H1⟩
      rw [ha] at hne
      obtain ⟨e, s1, h1, h2⟩ := perform_run hR hg H hcd hq ex hw w1 w2 w3 w4 w5 hne
      rw [← hx] at h1
      rcases h2 with ⟨rfl, c, hc, H1⟩ | ⟨hee, hfl, c, hc, H1⟩
      · exact .inl (plain h1 hid (ha ▸ hc) (perform_brink hc hq) H1)
      · have hct : R.torus = true → c.cardinal := fun h => by
          have := cardinal_turn (acts_cardinal hR h (hcd h) (ha ▸ hc))
          rwa [turn_turn] at this
        have hqc : c.quote = false := by
          have : c.turn.quote = b.quote := perform_quote hc (by rintro rfl; cases hfl)
          exact this.trans hq
        obtain ⟨s', h3, H2⟩ := tickLoop_error hs hg hct hqc (.inr hee) h1 H1 k
        exact .inl ⟨s', _, h3, ⟨hid, step (c := c.turn) (ha ▸ hc) H1.over⟩, H2⟩

theorem Ref.Bef.Within.steps {n : Nat} {b c : Bef} (h : Bef.Within R b) (hs : Steps R n b c) : Bef.Within R c :=
  fun m d hd => h (n + m) d (hs.trans hd)

theorem acts_split (h : b.splits R = true) : b.acts R = [] := by
  unfold Bef.splits at h
  simp only [Bool.and_eq_true, Bool.not_eq_true', decide_eq_true_eq] at h
  obtain ⟨⟨⟨h1, h2⟩, h3⟩, h4⟩ := h
  unfold Bef.acts
  simp only [h2, h3, h4, Bef.perform, h1]
  rfl

/-- The loop of a tick. -/
theorem tickLoop_ref (hR : Rules.For R std) (hst : g.cfg.strings = if R.sgml then .sgml else .multispace) (hcon : g.cfg.concurrent = R.many) (hg : Rules.Around R g) (hf : 1 < f ∧ R.reach ≤ f) {b0 : Bef}
    (hcd : R.torus = true → b0.cardinal) (hw : ∀ j d, Idle R j b0 d → d.over = false → d.acts R ≠ [] ∨ d.splits R = true) (k : Nat) :
    ∀ {s : St} {b : Bef} {j : Nat}, ((Holds R g std f w s b ∧ (f ≤ j + k ∨ (R.torus = true ∧ f ≤ 2 * j + k + 1))) ∨ (Astride R g std f w s b ∧ f ≤ 2 * j + k)) → Idle R j b0 b →
    (∃ s' c, tickLoop k s = .ok ((), s') ∧ Tick R b0 c ∧ (Near R g std f w s' c ∨ Ended R g std f w s' c)) ∨
    (∃ s' c j k', tickLoop k s = tickLoop (k' + 1) s' ∧ Idle R j b0 c ∧ c.splits R = true ∧ Holds R g std f w s' c) ∨
    (tickLoop k s = .error .fuel ∧ ∃ m d, (f ≤ m ∨ (R.torus = true ∧ f ≤ 2 * m + 1)) ∧ Idle R m b0 d) := by
  induction k with
  | zero =>
    intro s b j H hi
    exact .inr (.inr ⟨rfl, j, b, by
      rcases H with ⟨-, h | h⟩ | ⟨h, h'⟩
      · exact .inl h
      · exact .inr ⟨h.1, by omega⟩
      · obtain ⟨-, -, -, ht, -⟩ := h
        exact .inr ⟨ht, by omega⟩, hi⟩)
  | succ k ih =>
    intro s b j H hi
    rcases H with ⟨H, hj⟩ | ⟨H, hj⟩
    · rcases hw j b hi H.over with hne | hsp
      · rcases cell_step hR hst hcon hg H (fun h => steps_cardinal hR h hi.steps (hcd h)) hne hf k with ⟨s', c, h1, ⟨h0, h2⟩, h3⟩ | ⟨s', c, i, h1, h2, h3⟩ | ⟨s', c, h1, ⟨h0, h2⟩, h3⟩ | ⟨h1, c, h2⟩
        · exact .inl ⟨s', c, h1, ⟨j, b, hi, h0, h2⟩, .inl h3⟩
        · rw [h1]
          refine ih ?_ (Idle.trans hi h2)
          rcases h3 with h3 | h3
          · exact .inl ⟨h3, hj.imp (fun h => by omega) (fun h => ⟨h.1, by omega⟩)⟩
          · exact .inr ⟨h3, by omega⟩
        · exact .inl ⟨s', c, h1, ⟨j, b, hi, h0, h2⟩, .inr h3⟩
        · exact .inr (.inr ⟨h1, j + f, c, .inl (by omega), Idle.trans hi h2⟩)
      · exact .inr (.inl ⟨s, b, j, k, rfl, hi, hsp, H⟩)
    · obtain ⟨s', h1, H1⟩ := H.step hR hg (by omega) k
      obtain ⟨-, -, -, ht, -⟩ := H
      rw [h1]
      exact ih (.inl ⟨H1, .inr ⟨ht, by omega⟩⟩) hi

theorem Near.fuel (H : Near R g std f w s b) : s.g.fuel = f := by
  rcases H with H | H
  · exact H.fuel
  · obtain ⟨s0, H, -, k, -⟩ := H.known
    rw [k]; exact H.fuel

theorem Near.rest (H : Near R g std f w s b) : s.rest = w.rest ∧ s.cur.ip.stopped = false ∧ s.g.inp = b.inp ∧ s.g.exitcode = g.exitcode ∧
    ∃ o : List (List Int), s.g.eff = g.eff ++ o.map Eff.out ∧ o.flatten = b.out := by
  rcases H with H | H
  · exact H.rest
  · obtain ⟨s0, H, k1, k2, -, k4, -⟩ := H.known
    obtain ⟨r1, -, r3⟩ := H.rest
    rw [k2]
    exact ⟨k1.trans r1, k4, r3⟩

theorem Near.flat (H : Near R g std f w s b) (ht : R.torus = false) : Holds R g std f w s b := by
  rcases H with H | ⟨-, -, -, h, -⟩
  · exact H
  · exact absurd (ht.symm.trans h) (by decide)

theorem Near.over (H : Near R g std f w s b) : b.over = false := by
  rcases H with H | H
  · exact H.over
  · obtain ⟨s0, H, -⟩ := H.known
    exact H.over

theorem tick_ref (hR : Rules.For R std) (hst : g.cfg.strings = if R.sgml then .sgml else .multispace) (hcon : g.cfg.concurrent = R.many) (hg : Rules.Around R g) (hf : 1 < f ∧ R.reach ≤ f)
    (H : Near R g std f w s b) (hcd : R.torus = true → b.cardinal) (hw : ∀ j d, Idle R j b d → d.over = false → d.acts R ≠ [] ∨ d.splits R = true) :
    (∃ s' c, tick s = .ok ((), s') ∧ Tick R b c ∧ (Near R g std f w s' c ∨ Ended R g std f w s' c)) ∨
    (∃ s' c j k, tick s = tickLoop (k + 1) s' ∧ Idle R j b c ∧ c.splits R = true ∧ Holds R g std f w s' c) ∨
    (tick s = .error .fuel ∧ ∃ m d, (f ≤ m ∨ (R.torus = true ∧ f ≤ 2 * m + 1)) ∧ Idle R m b d) := by
  have h := tickLoop_ref (w := w) (s := s) (b := b) (j := 0) hR hst hcon hg hf hcd hw f (H.imp (fun h => ⟨h, .inl (by omega)⟩) (fun h => ⟨h, by omega⟩)) (.zero _)
  unfold tick
  rw [bind_ok (getFuel_run s), H.fuel]
  exact h

/-- Some turns of a program with one IP. -/
theorem turns_ref (hR : Rules.For R std) (hst : g.cfg.strings = if R.sgml then .sgml else .multispace) (hcon : g.cfg.concurrent = R.many) (hg : Rules.Around R g) (hf : 1 < f ∧ R.reach ≤ f)
    (hr : w.rest = []) (k : Nat) : ∀ {s : St} {b : Bef}, Near R g std f w s b → (R.torus = true → b.cardinal) → Bef.Within R b →
    (∃ s' c n, s.alone.turns k = .ok s'.alone ∧ Steps R n b c ∧ k ≤ n ∧ Near R g std f w s' c) ∨
    (∃ s' c n, s.alone.turns k = .ok ⟨[], s'.g⟩ ∧ Steps R n b c ∧ Ended R g std f w s' c) ∨
    (s.alone.turns k = .error .fuel ∧ ∃ n c m d, Steps R n b c ∧ (f ≤ m ∨ (R.torus = true ∧ f ≤ 2 * m + 1)) ∧ Idle R m c d) := by
  induction k with
  | zero => exact fun {s b} H _ hw => .inl ⟨s, b, 0, rfl, .zero _, Nat.le_refl 0, H⟩
  | succ k ih =>
    intro s b H hcd hw
    obtain ⟨r1, r2, -⟩ := H.rest
    rw [hr] at r1
    have hw' : ∀ j d, Idle R j b d → d.over = false → d.acts R ≠ [] := fun j d h ho => hw j d h.steps ho
    rcases tick_ref hR hst hcon hg hf H hcd (fun j d h ho => .inl (hw' j d h ho)) with ⟨s', c, h1, h2, h3⟩ | ⟨s', c, j, k', -, h2, h3, H3⟩ | ⟨h1, m, d, h2, h2'⟩
    · obtain ⟨n, h2⟩ := h2.steps
      rcases h3 with h3 | h4
      · obtain ⟨q1, q2, -⟩ := h3.rest
        have ht := turns_cons (turn_alone r1 r2 h1 q2 (q1.trans hr)) k
        rw [ht]
        rcases ih h3 (fun h => steps_cardinal hR h h2 (hcd h)) (hw.steps h2) with ⟨s2, d, m, e1, e2, e3, e4⟩ | ⟨s2, d, m, e1, e2, e3⟩ | ⟨e1, m, d, i, e, e2, e3⟩
        · exact .inl ⟨s2, d, n + 1 + m, e1, h2.trans e2, by omega, e4⟩
        · exact .inr (.inl ⟨s2, d, n + 1 + m, e1, h2.trans e2, e3⟩)
        · exact .inr (.inr ⟨e1, n + 1 + m, d, i, e, h2.trans e2, e3⟩)
      · have hr' : s'.rest = [] := by rw [h4.rest, hr]; split <;> rfl
        have ht := turns_cons (turn_last r1 r2 h1 h4.stopped hr') k
        rw [ht, turns_over]
        exact .inr (.inl ⟨s', c, n + 1, rfl, h2, h4⟩)
    · exact absurd (acts_split h3) (hw' j c h2 H3.over)
    · exact .inr (.inr ⟨turns_wrong r1 r2 h1 k, 0, b, m, d, .zero _, h2, h2'⟩)

end
end Funge
