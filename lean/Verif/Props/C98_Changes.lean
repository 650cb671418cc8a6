import Verif.Props.C97_Prompt
import Verif.Props.C04_VectorOrder
/-!
C98: the commands of the debugger's prompt change what they say and nothing else.
-/
namespace Funge.Defunge
open Funge

attribute [local irreducible] lit

theorem ok_bind {α β : Type} {m : Except Fault α} {f : α → Except Fault β} {x : β} (h : (m >>= f) = .ok x) : ∃ a, m = .ok a ∧ f a = .ok x := by
  cases m with
  | error e => exact nomatch h
  | ok a => exact ⟨a, rfl, h⟩

/-- The names of the universes are different, and so are the ids of the IPs. -/
structure Tidy (w : World) : Prop where
  names : w.unis.Pairwise fun u v => u.name ≠ v.name
  ids : w.alive.Pairwise fun r q => r.id ≠ q.id

/-- What no command changes: the programs, the modes, the stacks of the IPs. What has been shown stays. -/
structure Untouched (w w' : World) : Prop where
  unis : w'.unis.map (fun u => (u.name, u.field, u.hover, u.last)) = w.unis.map (fun u => (u.name, u.field, u.hover, u.last))
  alive : w'.alive.map (fun r => (r.id, r.uni, r.ss)) = w.alive.map (fun r => (r.id, r.uni, r.ss))
  out : ∃ t, w'.out = w.out ++ t

theorem Untouched.trans {w w' w'' : World} (a : Untouched w w') (b : Untouched w' w'') : Untouched w w'' := by
  obtain ⟨t, ht⟩ := a.out
  obtain ⟨t', ht'⟩ := b.out
  exact ⟨b.unis.trans a.unis, b.alive.trans a.alive, t ++ t', by rw [ht', ht, List.append_assoc]⟩

theorem pairwise_map_eq {α β : Type} [DecidableEq β] {f : α → β} {l l' : List α} (h : l'.map f = l.map f) (p : l.Pairwise fun x y => f x ≠ f y) : l'.Pairwise fun x y => f x ≠ f y := by
  have : (l.map f).Pairwise (· ≠ ·) := List.pairwise_map.mpr p
  rw [← h] at this
  exact List.pairwise_map.mp this

theorem Untouched.tidy {w w' : World} (a : Untouched w w') (h : Tidy w) : Tidy w' := by
  constructor
  · refine pairwise_map_eq (f := Home.name) ?_ h.names
    have := congrArg (List.map Prod.fst) a.unis
    rw [List.map_map, List.map_map] at this
    exact this
  · refine pairwise_map_eq (f := Seen.id) ?_ h.ids
    have := congrArg (List.map Prod.fst) a.alive
    rw [List.map_map, List.map_map] at this
    exact this

/-- What a command may change. -/
structure Frame (fn : Func) (v : Verdict) (w w' : World) : Prop where
  untouched : Untouched w w'
  alive : fn ≠ .setdelta → fn ≠ .setpos → w'.alive = w.alive
  unis : fn ∉ [.run, .step, .brk, .watch, .backtrace, .universe] → w'.unis = w.unis
  breaks : fn ≠ .brk → w'.unis.map Home.breakpoints = w.unis.map Home.breakpoints
  watches : fn ≠ .watch → w'.unis.map Home.watchpoints = w.unis.map Home.watchpoints
  selected : fn ≠ .thread → fn ≠ .universe → w'.runner = w.runner ∧ w'.dbg = w.dbg
  killed : fn ≠ .quit → w'.killed = w.killed
  ends : v = .brk → fn ∈ [.run, .step, .quit]

theorem Frame.said {fn : Func} {v : Verdict} (w : World) (t : List Int) (hv : v ≠ .brk) : Frame fn v w (w.say t) :=
  ⟨⟨rfl, rfl, t, rfl⟩, fun _ _ => rfl, fun _ => rfl, fun _ => rfl, fun _ => rfl, fun _ _ => ⟨rfl, rfl⟩, fun _ => rfl, fun h => absurd h hv⟩

theorem Frame.same {fn : Func} {v : Verdict} (w : World) (hv : v ≠ .brk) : Frame fn v w w :=
  ⟨⟨rfl, rfl, [], by simp⟩, fun _ _ => rfl, fun _ => rfl, fun _ => rfl, fun _ => rfl, fun _ _ => ⟨rfl, rfl⟩, fun _ => rfl, fun h => absurd h hv⟩

theorem Frame.trans {fn : Func} {v v' : Verdict} {w w' w'' : World} (a : Frame fn v' w w') (b : Frame fn v w' w'') : Frame fn v w w'' :=
  ⟨a.untouched.trans b.untouched, fun h1 h2 => (b.alive h1 h2).trans (a.alive h1 h2), fun h => (b.unis h).trans (a.unis h), fun h => (b.breaks h).trans (a.breaks h),
   fun h => (b.watches h).trans (a.watches h), fun h1 h2 => ⟨(b.selected h1 h2).1.trans (a.selected h1 h2).1, (b.selected h1 h2).2.trans (a.selected h1 h2).2⟩,
   fun h => (b.killed h).trans (a.killed h), b.ends⟩

theorem printIP_said {w w' : World} {r : Seen} (h : printIP w r = .ok w') : ∃ t, w' = w.say t := by
  unfold printIP at h
  obtain ⟨q, _, h⟩ := ok_bind h
  obtain ⟨u, _, h⟩ := ok_bind h
  cases h
  exact ⟨_, rfl⟩

theorem printField_said {fuel : Nat} {w w' : World} {u : Home} {f : Field} {a b d : Vec} {ip : Option Vec} (h : printField fuel w u f a b d ip = .ok w') : ∃ t, w' = w.say t := by
  unfold printField at h
  split at h
  · exact nomatch h
  · obtain ⟨t, _, h⟩ := ok_bind h
    cases h
    exact ⟨_, rfl⟩

theorem threadLines_said {tid : Nat} (l : List Entry) : ∀ {w w' : World}, threadLines tid w l = .ok w' → ∃ t, w' = w.say t := by
  induction l with
  | nil => intro w w' h; cases h; exact ⟨[], by simp [World.say]⟩
  | cons e l ih =>
    intro w w' h
    have chain : ∀ {w1 w2 : World} {t1 : List Int}, w1 = w.say t1 → (∃ t, w2 = w1.say t) → ∃ t, w2 = w.say t := by
      rintro w1 w2 t1 rfl ⟨t, rfl⟩
      exact ⟨t1 ++ t, by simp [World.say]⟩
    unfold threadLines at h
    split at h
    · split at h
      · obtain ⟨r, _, h⟩ := ok_bind h
        obtain ⟨w1, h1, h⟩ := ok_bind h
        obtain ⟨t1, rfl⟩ := printIP_said h1
        refine chain (t1 := lit "  " ++ t1) ?_ (ih h)
        simp [World.say]
      · obtain ⟨r, _, h⟩ := ok_bind h
        obtain ⟨w1, h1, h⟩ := ok_bind h
        obtain ⟨t1, rfl⟩ := printIP_said h1
        refine chain (t1 := (if r.id = tid then lit "* " else lit "  ") ++ t1) ?_ (ih h)
        simp [World.say]
    · exact chain rfl (ih h)

theorem home_mem {w : World} {n : List Int} {u : Home} (h : w.home n = .ok u) : u ∈ w.unis ∧ u.name = n := by
  unfold World.home at h
  split at h
  · rename_i v hv
    cases h
    exact ⟨List.mem_of_find?_eq_some hv, by simpa using List.find?_some hv⟩
  · exact nomatch h

theorem deref_mem {w : World} {i : Option Nat} {r : Seen} (h : w.deref i = .ok r) : r ∈ w.alive ∧ i = some r.id := by
  unfold World.deref at h
  split at h
  · exact nomatch h
  · split at h
    · rename_i v hv
      cases h
      exact ⟨List.mem_of_find?_eq_some hv, by have := List.find?_some hv; simp at this; rw [this]⟩
    · exact nomatch h

/-- Replacing an element by another one with the same name keeps what the two have in common. -/
theorem map_replace {α β γ : Type} [DecidableEq β] {k : α → β} {f : α → γ} {l : List α} (p : l.Pairwise fun x y => k x ≠ k y) {u u' : α} (hu : u ∈ l) (hk : k u' = k u)
    (hf : f u' = f u) : (l.map fun v => if k v == k u' then u' else v).map f = l.map f := by
  rw [List.map_map]
  apply List.map_congr_left
  intro v hv
  show f (if k v == k u' then u' else v) = f v
  split
  · rename_i he
    have he : k v = k u := by rw [← hk]; simpa using he
    have : v = u := by
      clear hf hk
      induction l with
      | nil => exact nomatch hu
      | cons x t ih =>
        rw [List.pairwise_cons] at p
        rcases List.mem_cons.mp hv with rfl | hv'
        · rcases List.mem_cons.mp hu with rfl | hu'
          · rfl
          · exact absurd he (p.1 u hu')
        · rcases List.mem_cons.mp hu with rfl | hu'
          · exact absurd he.symm (p.1 v hv')
          · exact ih p.2 hu' hv'
    rw [this, hf]
  · rfl

theorem setHome_keeps {γ : Type} {f : Home → γ} {w : World} (hw : Tidy w) {u u' : Home} (hu : u ∈ w.unis) (hk : u'.name = u.name) (hf : f u' = f u) :
    (w.setHome u').unis.map f = w.unis.map f := by
  have := map_replace (k := Home.name) hw.names hu hk hf
  rw [World.setHome]
  refine Eq.trans (congrArg (List.map f) (List.map_congr_left fun v _ => ?_)) this
  by_cases h : v.name = u'.name <;> simp [h]

theorem turnTo_frame {w : World} (hw : Tidy w) (n : List Int) : Frame .universe .ok w (turnTo w n) := by
  unfold turnTo
  split
  · exact .same w (by decide)
  · rename_i u hu
    have hu := List.mem_of_find?_eq_some hu
    split
    · exact ⟨⟨rfl, rfl, [], by simp⟩, fun _ _ => rfl, fun _ => rfl, fun _ => rfl, fun _ => rfl, fun _ h => absurd rfl h, fun _ => rfl, fun h => nomatch h⟩
    · split
      · exact ⟨⟨rfl, rfl, [], by simp⟩, fun _ _ => rfl, fun _ => rfl, fun _ => rfl, fun _ => rfl, fun _ h => absurd rfl h, fun _ => rfl, fun h => nomatch h⟩
      · exact ⟨⟨setHome_keeps hw hu rfl rfl, rfl, [], by simp [World.setHome]⟩, fun _ _ => rfl, fun h => absurd (by decide) h, fun _ => setHome_keeps hw hu rfl rfl,
          fun _ => setHome_keeps hw hu rfl rfl, fun _ h => absurd rfl h, fun _ => rfl, fun h => nomatch h⟩

theorem call_frame {w w' : World} (hw : Tidy w) {fuel : Nat} {c : Int} {is : IStream} {fn : Func} {v : Verdict} (h : call fuel c w is fn = .ok (v, w')) : Frame fn v w w' := by
  have hres : ∀ {s}, fn ∈ [.run, .step, .quit] → fn ∈ [.run, .step, .brk, .watch, .backtrace, .universe] → resume s w = .ok (v, w') → Frame fn v w w' := by
    intro s hf hf' h
    unfold resume at h
    split at h
    · cases h; exact .same w (by decide)
    · obtain ⟨u, hu, h⟩ := ok_bind h
      obtain ⟨r, hr, h⟩ := ok_bind h
      cases h
      have hu := (home_mem hu).1
      exact ⟨⟨setHome_keeps hw hu rfl rfl, rfl, [], by simp [World.setHome]⟩, fun _ _ => rfl, fun h => absurd hf' h, fun _ => setHome_keeps hw hu rfl rfl,
        fun _ => setHome_keeps hw hu rfl rfl, fun _ _ => ⟨rfl, rfl⟩, fun _ => rfl, fun _ => hf⟩
  have hset : ∀ {b}, (fn = .setdelta ∨ fn = .setpos) → setIP fuel c b w is = .ok (v, w') → Frame fn v w w' := by
    intro b hf h
    have fr : ∀ {r r' : Seen}, r ∈ w.alive → r'.id = r.id → r'.uni = r.uni → r'.ss = r.ss → Frame fn .ok w (w.setSeen r') := by
      intro r r' hr h1 h2 h3
      refine ⟨⟨rfl, ?_, [], by simp [World.setSeen]⟩, fun ha hb => ?_, fun _ => rfl, fun _ => rfl, fun _ => rfl, fun _ _ => ⟨rfl, rfl⟩, fun _ => rfl, fun h => nomatch h⟩
      · exact map_replace (k := Seen.id) hw.ids hr h1 (by rw [h1, h2, h3])
      · rcases hf with rfl | rfl
        · exact absurd rfl ha
        · exact absurd rfl hb
    unfold setIP at h
    split at h
    · cases h; exact .same w (by decide)
    · obtain ⟨⟨x, is'⟩, _, h⟩ := ok_bind h
      obtain ⟨r, hr, h⟩ := ok_bind h
      obtain ⟨u, hu, h⟩ := ok_bind h
      have hr := (deref_mem hr).1
      dsimp only at h
      split at h
      · obtain ⟨r2, hr2, h⟩ := ok_bind h
        obtain ⟨w2, h2, h⟩ := ok_bind h
        obtain ⟨t, rfl⟩ := printIP_said h2
        cases h
        exact (fr (r' := { r with ip := r.ip.setPos x }) hr rfl rfl rfl).trans (Frame.said (v := .ok) _ _ (by decide))
      · obtain ⟨r2, hr2, h⟩ := ok_bind h
        cases h
        exact (fr (r' := { r with ip := r.ip.setDelta u.hover x }) hr rfl rfl rfl).trans (Frame.said (v := .ok) _ _ (by decide))
  have hshow : ∀ {f : Seen → Except Fault World}, (∀ r w1, f r = .ok w1 → ∃ t, w1 = w.say t) → showing f w = .ok (v, w') → Frame fn v w w' := by
    intro f hf h
    unfold showing at h
    split at h
    · cases h; exact .same w (by decide)
    · obtain ⟨r, _, h⟩ := ok_bind h
      obtain ⟨w1, h1, h⟩ := ok_bind h
      obtain ⟨t, rfl⟩ := hf r w1 h1
      cases h
      exact .said w t (by decide)
  cases fn with
  | run => exact hres (by decide) (by decide) h
  | step => exact hres (by decide) (by decide) h
  | quit =>
    cases h
    exact ⟨⟨rfl, rfl, [], by simp⟩, fun _ _ => rfl, fun _ => rfl, fun _ => rfl, fun _ => rfl, fun _ _ => ⟨rfl, rfl⟩, fun h => absurd rfl h, fun _ => by decide⟩
  | peek =>
    rw [call] at h
    unfold peek at h
    split at h
    · cases h; exact .same w (by decide)
    · obtain ⟨r, _, h⟩ := ok_bind h
      dsimp only at h
      split at h
      · cases h; exact .said w _ (by decide)
      · obtain ⟨st, _, h⟩ := ok_bind h
        cases h; exact .said w _ (by decide)
  | delta => exact hshow (fun r w1 h => by cases h; exact ⟨_, rfl⟩) h
  | storage => exact hshow (fun r w1 h => by cases h; exact ⟨_, rfl⟩) h
  | position => exact hshow (fun r w1 h => printIP_said h) h
  | thread =>
    rw [call] at h
    unfold thread at h
    obtain ⟨u, _, h⟩ := ok_bind h
    obtain ⟨tid, _, h⟩ := ok_bind h
    dsimp only at h
    obtain ⟨w1, h1, h⟩ := ok_bind h
    cases h
    obtain ⟨t, rfl⟩ := threadLines_said _ h1
    refine Frame.trans (v' := .ok) ?_ (.said _ t (by decide))
    split
    · exact ⟨⟨rfl, rfl, [], by simp⟩, fun _ _ => rfl, fun _ => rfl, fun _ => rfl, fun _ => rfl, fun h => absurd rfl h, fun _ => rfl, fun h => nomatch h⟩
    · exact .same w (by decide)
  | backtrace =>
    rw [call] at h
    unfold backtrace at h
    split at h
    · cases h; exact .same w (by decide)
    · obtain ⟨u, hu, h⟩ := ok_bind h
      obtain ⟨r, _, h⟩ := ok_bind h
      obtain ⟨g, _, h⟩ := ok_bind h
      dsimp only at h
      have hu := (home_mem hu).1
      split at h
      · cases h
        exact (Frame.said w (lit "Backtrace\n") (v := .ok) (by decide)).trans (.said _ _ (by decide))
      · cases h
        have hk : ∀ {γ : Type} (f : Home → γ), f { u with threads := setState u.threads r.id .start } = f u →
            ((w.say (lit "Backtrace\n")).setHome { u with threads := setState u.threads r.id .start }).unis.map f = w.unis.map f :=
          fun f hf => setHome_keeps (w := w.say (lit "Backtrace\n")) ⟨hw.names, hw.ids⟩ hu rfl hf
        exact ⟨⟨hk _ rfl, rfl, lit "Backtrace\n", rfl⟩, fun _ _ => rfl, fun h => absurd (by decide) h, fun _ => hk _ rfl, fun _ => hk _ rfl, fun _ _ => ⟨rfl, rfl⟩, fun _ => rfl,
          fun h => nomatch h⟩
  | setdelta => exact hset (.inl rfl) h
  | setpos => exact hset (.inr rfl) h
  | get =>
    rw [call] at h
    unfold get at h
    obtain ⟨u, _, h⟩ := ok_bind h
    obtain ⟨ip, _, h⟩ := ok_bind h
    obtain ⟨⟨x, is1⟩, _, h⟩ := ok_bind h
    obtain ⟨⟨y, is2⟩, _, h⟩ := ok_bind h
    obtain ⟨⟨z, is3⟩, _, h⟩ := ok_bind h
    obtain ⟨w1, h1, h⟩ := ok_bind h
    obtain ⟨t, rfl⟩ := printField_said h1
    cases h
    exact .said w t (by decide)
  | list =>
    rw [call] at h
    unfold list at h
    split at h
    · cases h; exact .same w (by decide)
    · obtain ⟨u, _, h⟩ := ok_bind h
      obtain ⟨r, _, h⟩ := ok_bind h
      obtain ⟨f, _, h⟩ := ok_bind h
      obtain ⟨⟨y, is2⟩, _, h⟩ := ok_bind h
      obtain ⟨⟨z, is3⟩, _, h⟩ := ok_bind h
      obtain ⟨w1, h1, h⟩ := ok_bind h
      obtain ⟨t, rfl⟩ := printField_said h1
      cases h
      exact .said w t (by decide)
  | brk =>
    rw [call] at h
    unfold addPoint at h
    obtain ⟨u, hu, h⟩ := ok_bind h
    obtain ⟨⟨x, is1⟩, _, h⟩ := ok_bind h
    cases h
    have hu := (home_mem hu).1
    exact ⟨⟨setHome_keeps hw hu rfl rfl, rfl, _, rfl⟩, fun _ _ => rfl, fun h => absurd (by decide) h, fun h => absurd rfl h, fun _ => setHome_keeps hw hu rfl rfl,
      fun _ _ => ⟨rfl, rfl⟩, fun _ => rfl, fun h => nomatch h⟩
  | watch =>
    rw [call] at h
    unfold addPoint at h
    obtain ⟨u, hu, h⟩ := ok_bind h
    obtain ⟨⟨x, is1⟩, _, h⟩ := ok_bind h
    cases h
    have hu := (home_mem hu).1
    exact ⟨⟨setHome_keeps hw hu rfl rfl, rfl, _, rfl⟩, fun _ _ => rfl, fun h => absurd (by decide) h, fun _ => setHome_keeps hw hu rfl rfl, fun h => absurd rfl h,
      fun _ _ => ⟨rfl, rfl⟩, fun _ => rfl, fun h => nomatch h⟩
  | read =>
    rw [call] at h
    unfold read at h
    obtain ⟨u, _, h⟩ := ok_bind h
    obtain ⟨⟨x, is1⟩, _, h⟩ := ok_bind h
    cases h
    exact .said w _ (by decide)
  | «universe» =>
    rw [call] at h
    unfold «universe» at h
    dsimp only at h
    rw [Except.ok.injEq, Prod.mk.injEq] at h
    obtain ⟨rfl, rfl⟩ := h
    refine Frame.trans (v' := .ok) ?_ (Frame.said (v := .ok) _ _ (by decide))
    by_cases hn : (word is).1 = []
    · rw [if_neg (by simp [hn])]; exact .same w (by decide)
    · rw [if_pos hn]; exact turnTo_frame hw _

/-- The first word of a line is one of these. -/
def Typed (l : List Int) (cmds : List String) : Prop := (word ⟨l, false⟩).1 ∈ cmds.map lit

/-- **C98.** A line typed at the prompt never changes a program, a stack, or what has been shown. Only `setdelta` and `setpos` change an IP, only `run`, `step`, `break`, `watch`,
`backtrace` and `universe` what is kept about a universe, only `break` the breakpoints and only `watch` the watchpoints, only `thread` and `universe` what is selected, only `quit`
ends the program, and only `run`, `step` and `quit` leave the prompt. Every other line changes nothing. -/
theorem C98_frame {w w' : World} (hw : Tidy w) {fuel : Nat} {c : Int} {l : List Int} {v : Verdict} (h : line fuel c w l = .ok (v, w')) :
    Untouched w w' ∧
    (¬Typed l ["setdelta", "setpos"] → w'.alive = w.alive) ∧
    (¬Typed l ["run", "r", "continue", "con", "c", "step", "stp", "s", "break", "bp", "watch", "wp", "backtrace", "bt", "universe", "u"] → w'.unis = w.unis) ∧
    (¬Typed l ["break", "bp"] → w'.unis.map Home.breakpoints = w.unis.map Home.breakpoints) ∧
    (¬Typed l ["watch", "wp"] → w'.unis.map Home.watchpoints = w.unis.map Home.watchpoints) ∧
    (¬Typed l ["thread", "t", "universe", "u"] → w'.runner = w.runner ∧ w'.dbg = w.dbg) ∧
    (¬Typed l ["quit", "q"] → w'.killed = w.killed) ∧
    (v = .brk → Typed l ["run", "r", "continue", "con", "c", "step", "stp", "s", "quit", "q"]) := by
  unfold line at h
  dsimp only at h
  split at h
  · cases h
    exact ⟨⟨rfl, rfl, _, rfl⟩, fun _ => rfl, fun _ => rfl, fun _ => rfl, fun _ => rfl, fun _ => ⟨rfl, rfl⟩, fun _ => rfl, fun h => nomatch h⟩
  · rename_i p hp
    have hm := List.mem_of_find?_eq_some hp
    have hn : lit p.1 = (word ⟨l, false⟩).1 := by simpa using List.find?_some hp
    have F : Frame p.2 v w w' := by
      split at h
      · rename_i w1 h1
        rw [Except.ok.injEq, Prod.mk.injEq] at h
        obtain ⟨rfl, rfl⟩ := h
        exact (Frame.said (v := .ok) w _ (by decide)).trans ((call_frame (w := w.say _) ⟨hw.names, hw.ids⟩ h1).trans (Frame.said (v := .ok) w1 _ (by decide)))
      · exact (Frame.said (v := .ok) w _ (by decide)).trans (call_frame (w := w.say _) ⟨hw.names, hw.ids⟩ h)
    have T : ∀ (fns : List Func) (cmds : List String), (∀ p ∈ cmdMap, p.2 ∈ fns → p.1 ∈ cmds) → p.2 ∈ fns → Typed l cmds := by
      intro fns cmds h1 h2
      exact List.mem_map.mpr ⟨p.1, h1 p hm h2, hn⟩
    refine ⟨F.untouched, fun h => F.alive ?_ ?_, fun h => F.unis ?_, fun h => F.breaks ?_, fun h => F.watches ?_, fun h => F.selected ?_ ?_, fun h => F.killed ?_, fun h => ?_⟩
    · exact fun e => h (T [.setdelta, .setpos] _ (by decide +kernel) (by rw [e]; decide))
    · exact fun e => h (T [.setdelta, .setpos] _ (by decide +kernel) (by rw [e]; decide))
    · exact fun e => h (T _ _ (by decide +kernel) e)
    · exact fun e => h (T [.brk] _ (by decide +kernel) (by rw [e]; decide))
    · exact fun e => h (T [.watch] _ (by decide +kernel) (by rw [e]; decide))
    · exact fun e => h (T [.thread, .universe] _ (by decide +kernel) (by rw [e]; decide))
    · exact fun e => h (T [.thread, .universe] _ (by decide +kernel) (by rw [e]; decide))
    · exact fun e => h (T [.quit] _ (by decide +kernel) (by rw [e]; decide))
    · exact T _ _ (by decide +kernel) (F.ends h)

/-- **C98.** Whatever is typed, from the moment the prompt appears to the command that leaves it, programs and stacks stay as they were, and if no line sets a position or a delta, so do
the IPs. -/
theorem C98_session {w : World} (hw : Tidy w) {fuel : Nat} {c : Int} {dbg : List Int} {run : Nat} {l rest : List (List Int)} {w' : World}
    (h : debug fuel c w dbg run l = .ok (w', rest)) : Untouched w w' ∧ ((∀ x ∈ l, ¬Typed x ["setdelta", "setpos"]) → w'.alive = w.alive) := by
  have hl : ∀ (l : List (List Int)) {w w' : World} {rest}, Tidy w → lines fuel c w l = .ok (w', rest) →
      Untouched w w' ∧ ((∀ x ∈ l, ¬Typed x ["setdelta", "setpos"]) → w'.alive = w.alive) := by
    intro l
    induction l with
    | nil => intro w w' rest _ h; exact nomatch h
    | cons x t ih =>
      intro w w' rest hw h
      unfold lines at h
      split at h
      · rename_i w1 h1
        cases h
        have F := C98_frame hw h1
        exact ⟨F.1, fun hx => F.2.1 (hx x (by simp))⟩
      · rename_i v w1 _ h1
        have F := C98_frame hw h1
        have := ih (F.1.tidy hw) h
        exact ⟨F.1.trans this.1, fun hx => (this.2 fun y hy => hx y (by simp [hy])).trans (F.2.1 (hx x (by simp)))⟩
      · exact nomatch h
  unfold debug at h
  dsimp only at h
  obtain ⟨u, hu, h⟩ := ok_bind h
  have hu : w.home dbg = .ok u := hu
  have key : ∀ {st : DState} {w1 : World}, Untouched w w1 → w1.alive = w.alive →
      (match st with
        | .run => (pure (w1, l) : Except Fault _)
        | _ => do
          let r ← w1.deref w1.runner
          let w ← printIP w1 r
          lines fuel c w l) = .ok (w', rest) → Untouched w w' ∧ ((∀ x ∈ l, ¬Typed x ["setdelta", "setpos"]) → w'.alive = w.alive) := by
    intro st w1 hu1 ha h
    have go : (do
          let r ← w1.deref w1.runner
          let w ← printIP w1 r
          lines fuel c w l) = .ok (w', rest) → Untouched w w' ∧ ((∀ x ∈ l, ¬Typed x ["setdelta", "setpos"]) → w'.alive = w.alive) := by
      intro h
      obtain ⟨r, _, h⟩ := ok_bind h
      obtain ⟨w2, h2, h⟩ := ok_bind h
      obtain ⟨t, rfl⟩ := printIP_said h2
      have t1 := hu1.tidy hw
      have := hl l (w := w1.say t) ⟨t1.names, t1.ids⟩ h
      exact ⟨hu1.trans ((⟨rfl, rfl, t, rfl⟩ : Untouched w1 (w1.say t)).trans this.1), fun hx => (this.2 hx).trans ha⟩
    cases st with
    | run => cases h; exact ⟨hu1, fun _ => ha⟩
    | start => exact go h
    | step => exact go h
    | brk => exact go h
    | ended => exact go h
  have hu' := (home_mem hu).1
  cases hf : u.threads.find? (·.id == u.last) with
  | some t =>
    rw [hf] at h
    exact key (w1 := { w with dbg := dbg, runner := some run }) (st := t.state) ⟨rfl, rfl, [], by simp⟩ rfl h
  | none =>
    rw [hf] at h
    exact key (st := .start) (w1 := ({ w with dbg := dbg, runner := some run } : World).setHome { u with threads := setState u.threads u.last .start })
      ⟨setHome_keeps (w := { w with dbg := dbg, runner := some run }) ⟨hw.names, hw.ids⟩ hu' rfl rfl, rfl, [], by simp [World.setHome]⟩ rfl h

/-- A command typed with one vector. -/
theorem line_vec {n : String} {fn : Func} (hm : (cmdMap.find? fun p => lit p.1 == lit n).map Prod.snd = some fn) (h0 : lit n ≠ [])
    (h : ∀ x ∈ lit n, IStream.isSpace x = false) (fuel : Nat) (c : Int) (w : World) (v : Vec) :
    line fuel c w (lit n ++ lit " " ++ printVec v) = match call fuel c (w.say promptText) ⟨32 :: (printVec v ++ []), false⟩ fn with
      | .ok (.noThread, w) => .ok (.ok, w.say (lit "No thread.\n"))
      | r => r := by
  have hl : lit n ++ lit " " ++ printVec v = lit n ++ 32 :: (printVec v ++ []) := by rw [lit_blank]; simp
  rw [hl]
  exact line_call hm fuel c w _ _ (word_then (lit n) h0 h _)

/-- The IPs after one of them has been changed. -/
def World.withIP (w : World) (id : Nat) (f : IP → IP) : World := { w with alive := w.alive.map fun q => if q.id = id then { q with ip := f q.ip } else q }

theorem setSeen_eq {w : World} {r : Seen} (hu : w.alive.Pairwise fun r q => r.id ≠ q.id) (hr : r ∈ w.alive) (f : IP → IP) :
    w.setSeen { r with ip := f r.ip } = w.withIP r.id f := by
  unfold World.setSeen World.withIP
  congr 1
  apply List.map_congr_left
  intro q hq
  by_cases h : q.id = r.id
  · have := find_of_mem hu hr
    have h2 := find_of_mem hu hq
    rw [h, this] at h2
    cases h2
    simp
  · simp [h]

theorem Attached.moved {w : World} {u h : Home} {r : Seen} (a : Attached w u h r) (f : IP → IP) : Attached (w.withIP r.id f) u h { r with ip := f r.ip } := by
  refine ⟨?_, a.home, a.runner, ?_, a.uni⟩
  · refine pairwise_map_eq (f := Seen.id) ?_ a.unique
    rw [World.withIP, List.map_map]
    apply List.map_congr_left
    intro q _
    show Seen.id (if q.id = r.id then _ else q) = q.id
    split <;> rfl
  · exact List.mem_map.mpr ⟨r, a.alive, by simp⟩

/-- **C98.** `setpos` gives the selected IP the position that is typed, shows it, and changes nothing else. -/
theorem C98_setpos {w : World} {u h : Home} {r : Seen} (a : Attached w u h r) {v : Vec} (hv : Typeable v) {fuel : Nat} (hf : (printVec v).length ≤ fuel) (c : Int) :
    line fuel c w (lit "setpos" ++ lit " " ++ printVec v) =
      .ok (.ok, ((w.say promptText).withIP r.id fun ip => { ip with pos := v }).say (positionLine h.field r.id v)) := by
  rw [line_vec (fn := .setpos) (by krfl) (by rw [show lit "setpos" = [115, 101, 116, 112, 111, 115] by krfl]; decide)
    (by rw [show lit "setpos" = [115, 101, 116, 112, 111, 115] by krfl]; decide)]
  have a' := a.say promptText
  have : call fuel c (w.say promptText) ⟨32 :: (printVec v ++ []), false⟩ .setpos =
      .ok (.ok, ((w.say promptText).withIP r.id fun ip => { ip with pos := v }).say (positionLine h.field r.id v)) := by
    rw [call, setIP, if_neg a'.some, hv.read [] c hf, bind_ok_except]
    dsimp only
    rw [a'.deref, bind_ok_except, a'.uni, bind_ok_except, if_pos rfl]
    have e : (w.say promptText).setSeen { r with ip := r.ip.setPos v } = (w.say promptText).withIP r.id fun ip => { ip with pos := v } :=
      setSeen_eq a'.unique a'.alive fun ip => { ip with pos := v }
    have m := a'.moved fun ip => { ip with pos := v }
    rw [e, m.deref, bind_ok_except, printIP_eq m, bind_ok_except]
    rfl
  rw [this]

/-- **C98** (partial: see `C98_false_setdelta_hovering`) Outside the mode HOVR, `setdelta` gives the selected IP the delta that is typed, shows it, and changes nothing else. -/
theorem C98_setdelta_partial {w : World} {u h : Home} {r : Seen} (a : Attached w u h r) (hh : h.hover = false) {v : Vec} (hv : Typeable v) {fuel : Nat}
    (hf : (printVec v).length ≤ fuel) (c : Int) :
    line fuel c w (lit "setdelta" ++ lit " " ++ printVec v) =
      .ok (.ok, ((w.say promptText).withIP r.id fun ip => { ip with delta := v }).say (lit "Delta " ++ printVec v ++ lit "\n")) := by
  rw [line_vec (fn := .setdelta) (by krfl) (by rw [show lit "setdelta" = [115, 101, 116, 100, 101, 108, 116, 97] by krfl]; decide)
    (by rw [show lit "setdelta" = [115, 101, 116, 100, 101, 108, 116, 97] by krfl]; decide)]
  have a' := a.say promptText
  have : call fuel c (w.say promptText) ⟨32 :: (printVec v ++ []), false⟩ .setdelta =
      .ok (.ok, ((w.say promptText).withIP r.id fun ip => { ip with delta := v }).say (lit "Delta " ++ printVec v ++ lit "\n")) := by
    rw [call, setIP, if_neg a'.some, hv.read [] c hf, bind_ok_except]
    dsimp only
    rw [a'.deref, bind_ok_except, a'.uni, bind_ok_except, if_neg Bool.false_ne_true, hh]
    have e : (w.say promptText).setSeen { r with ip := r.ip.setDelta false v } = (w.say promptText).withIP r.id fun ip => { ip with delta := v } :=
      setSeen_eq a'.unique a'.alive fun ip => { ip with delta := v }
    have m := a'.moved fun ip => { ip with delta := v }
    rw [e, m.deref, bind_ok_except]
    rfl
  rw [this]

theorem contains_iff {l : List Vec} {v : Vec} : setContains l v = true ↔ ∃ b ∈ l, b.eqv v = true := by
  unfold setContains
  rw [List.any_eq_true]
  constructor
  · rintro ⟨b, hb, h⟩
    refine ⟨b, hb, ?_⟩
    simp only [Bool.and_eq_true, Bool.not_eq_true'] at h
    rcases Vec.C04_lt_trichotomy b v with h' | h' | h'
    · rw [h'.1] at h; exact absurd h.1 (by simp)
    · exact h'.2.1
    · rw [h'.2.2] at h; exact absurd h.2 (by simp)
  · rintro ⟨b, hb, h⟩
    refine ⟨b, hb, ?_⟩
    rcases Vec.C04_lt_trichotomy b v with h' | h' | h'
    · rw [h'.2.1] at h; exact nomatch h
    · rw [h'.1, h'.2.2]; rfl
    · rw [h'.2.1] at h; exact nomatch h

/-- Inserting into a set: what is in it afterwards. -/
theorem setAdd_contains (v x : Vec) (l : List Vec) : setContains (setAdd v l) x = true ↔ setContains l x = true ∨ v.eqv x = true := by
  rw [contains_iff, contains_iff]
  induction l with
  | nil => simp [setAdd]
  | cons b t ih =>
    unfold setAdd
    split
    · simp [or_comm]
    · split
      · constructor
        · rintro ⟨y, hy, h⟩
          rcases List.mem_cons.mp hy with rfl | hy
          · exact .inl ⟨y, by simp, h⟩
          · rcases ih.mp ⟨y, hy, h⟩ with ⟨z, hz, h'⟩ | h'
            · exact .inl ⟨z, by simp [hz], h'⟩
            · exact .inr h'
        · rintro (⟨y, hy, h⟩ | h)
          · rcases List.mem_cons.mp hy with rfl | hy
            · exact ⟨y, by simp, h⟩
            · obtain ⟨z, hz, h'⟩ := ih.mpr (.inl ⟨y, hy, h⟩)
              exact ⟨z, by simp [hz], h'⟩
          · obtain ⟨z, hz, h'⟩ := ih.mpr (.inr h)
            exact ⟨z, by simp [hz], h'⟩
      · rename_i h1 h2
        constructor
        · exact .inl
        · rintro (h | h)
          · exact h
          · refine ⟨b, by simp, ?_⟩
            have hb : b.eqv v = true := by
              rcases Vec.C04_lt_trichotomy b v with h' | h' | h'
              · exact absurd h'.1 h2
              · exact h'.2.1
              · exact absurd h'.2.2 h1
            rw [Vec.C04_eq_iff_coords] at *
            rw [hb, h]

/-- A set of points in order, without two that are the same. -/
def Ordered (l : List Vec) : Prop := l.Pairwise fun v w => v.lt w = true

theorem setAdd_ordered {v : Vec} {l : List Vec} (h : Ordered l) : Ordered (setAdd v l) := by
  have mem : ∀ {l : List Vec} {y : Vec}, y ∈ setAdd v l → y = v ∨ y ∈ l := by
    intro l
    induction l with
    | nil => intro y hy; exact .inl (by simpa [setAdd] using hy)
    | cons b t ih =>
      intro y hy
      unfold setAdd at hy
      split at hy
      · simpa using hy
      · split at hy
        · rcases List.mem_cons.mp hy with rfl | hy
          · exact .inr (by simp)
          · rcases ih hy with h | h
            · exact .inl h
            · exact .inr (by simp [h])
        · exact .inr hy
  induction l with
  | nil => exact List.pairwise_singleton _ _
  | cons b t ih =>
    have hb := List.pairwise_cons.mp h
    unfold setAdd
    split
    · rename_i h1
      refine List.pairwise_cons.mpr ⟨fun y hy => ?_, h⟩
      rcases List.mem_cons.mp hy with rfl | hy
      · exact h1
      · exact Vec.C04_lt_trans h1 (hb.1 y hy)
    · split
      · rename_i h1 h2
        refine List.pairwise_cons.mpr ⟨fun y hy => ?_, ih hb.2⟩
        rcases mem hy with rfl | hy
        · exact h2
        · exact hb.1 y hy
      · exact h

/-- **C98.** `break` adds the position that is typed to the breakpoints of the universe, `watch` to its watchpoints, each once; the list is shown, and nothing else changes. -/
theorem C98_points {w : World} {u : Home} (hu : w.home w.dbg = .ok u) {v : Vec} (hv : Typeable v) {fuel : Nat} (hf : (printVec v).length ≤ fuel) (c : Int) :
    (∃ l, line fuel c w (lit "break" ++ lit " " ++ printVec v) =
        .ok (.ok, ((w.say promptText).setHome { u with breakpoints := l }).say (l.flatMap fun b => lit "Breakpoint " ++ printVec b ++ lit "\n")) ∧
      (∀ x, setContains l x = true ↔ setContains u.breakpoints x = true ∨ v.eqv x = true) ∧ (Ordered u.breakpoints → Ordered l)) ∧
    (∃ l, line fuel c w (lit "watch" ++ lit " " ++ printVec v) =
        .ok (.ok, ((w.say promptText).setHome { u with watchpoints := l }).say (l.flatMap fun b => lit "Watchpoint " ++ printVec b ++ lit "\n")) ∧
      (∀ x, setContains l x = true ↔ setContains u.watchpoints x = true ∨ v.eqv x = true) ∧ (Ordered u.watchpoints → Ordered l)) := by
  have pl : ∀ (t : List Int) (l : List Vec), pointLines t l = l.flatMap fun b => t ++ printVec b ++ lit "\n" := by
    intro t l
    induction l with
    | nil => rfl
    | cons b l ih => rw [pointLines, ih]; rfl
  constructor
  · refine ⟨setAdd v u.breakpoints, ?_, fun x => setAdd_contains v x _, setAdd_ordered⟩
    rw [line_vec (fn := .brk) (by krfl) (by rw [show lit "break" = [98, 114, 101, 97, 107] by krfl]; decide)
      (by rw [show lit "break" = [98, 114, 101, 97, 107] by krfl]; decide)]
    have : call fuel c (w.say promptText) ⟨32 :: (printVec v ++ []), false⟩ .brk = .ok (.ok, ((w.say promptText).setHome { u with breakpoints := setAdd v u.breakpoints }).say
        ((setAdd v u.breakpoints).flatMap fun b => lit "Breakpoint " ++ printVec b ++ lit "\n")) := by
      rw [call, addPoint, show (w.say promptText).home (w.say promptText).dbg = .ok u from hu, bind_ok_except, hv.read [] c hf, bind_ok_except]
      dsimp only
      rw [if_pos rfl, if_pos hv.ne, pl]
      rfl
    rw [this]
  · refine ⟨setAdd v u.watchpoints, ?_, fun x => setAdd_contains v x _, setAdd_ordered⟩
    rw [line_vec (fn := .watch) (by krfl) (by rw [show lit "watch" = [119, 97, 116, 99, 104] by krfl]; decide)
      (by rw [show lit "watch" = [119, 97, 116, 99, 104] by krfl]; decide)]
    have : call fuel c (w.say promptText) ⟨32 :: (printVec v ++ []), false⟩ .watch = .ok (.ok, ((w.say promptText).setHome { u with watchpoints := setAdd v u.watchpoints }).say
        ((setAdd v u.watchpoints).flatMap fun b => lit "Watchpoint " ++ printVec b ++ lit "\n")) := by
      rw [call, addPoint, show (w.say promptText).home (w.say promptText).dbg = .ok u from hu, bind_ok_except, hv.read [] c hf, bind_ok_except]
      dsimp only
      rw [if_neg Bool.false_ne_true, if_pos hv.ne, pl]
      rfl
    rw [this]

/-- **C98.** `thread n` selects the IP with the number `n` if there is an entry for it, and leaves the selection as it is if there is none. -/
theorem C98_thread {w w' : World} {u h : Home} {r : Seen} (a : Attached w u h r) {n : Nat} (hn : n < 18446744073709551616) {fuel : Nat} {c : Int} {v : Verdict}
    (hl : line fuel c w (lit "thread" ++ lit " " ++ decimal n) = .ok (v, w')) :
    w'.runner = match u.threads.find? (·.id == n) with
      | some t => t.runner
      | none => w.runner := by
  have he : lit "thread" ++ lit " " ++ decimal n = lit "thread" ++ 32 :: (decimal n ++ []) := by rw [lit_blank]; simp
  have hw := word_then (lit "thread") (by rw [show lit "thread" = [116, 104, 114, 101, 97, 100] by krfl]; decide)
      (by rw [show lit "thread" = [116, 104, 114, 101, 97, 100] by krfl]; decide) (decimal n ++ [])
  rw [he, line_call (fn := .thread) (by krfl) fuel c w _ _ hw] at hl
  have key : ∀ {v : Verdict} {w' : World}, call fuel c (w.say promptText) ⟨32 :: (decimal n ++ []), false⟩ .thread = .ok (v, w') →
      w'.runner = match u.threads.find? (·.id == n) with
        | some t => t.runner
        | none => w.runner := by
    intro v w' h
    rw [call, thread, (a.say _).home, bind_ok_except] at h
    obtain ⟨tid, _, h⟩ := ok_bind h
    rw [size_read n hn [] (by simp)] at h
    dsimp only at h
    obtain ⟨w1, h1, h⟩ := ok_bind h
    cases h
    obtain ⟨t, rfl⟩ := threadLines_said _ h1
    cases u.threads.find? (·.id == n) <;> rfl
  split at hl
  · rename_i w1 h1
    rw [Except.ok.injEq, Prod.mk.injEq] at hl
    rw [← hl.2]
    exact key (w' := w1) h1
  · exact key hl

theorem setState_mem (l : List Entry) (id : Nat) (s : DState) : (∃ t ∈ setState l id s, t.id = id ∧ t.state = s) ∧ ∀ t, t.id ≠ id → (t ∈ setState l id s ↔ t ∈ l) := by
  induction l with
  | nil => exact ⟨⟨_, List.mem_singleton.mpr rfl, rfl, rfl⟩, fun t h => ⟨fun hm => absurd (by rw [List.mem_singleton.mp hm]) h, fun hm => nomatch hm⟩⟩
  | cons a l ih =>
    unfold setState
    split
    · rename_i ha
      refine ⟨⟨_, List.mem_cons_self, ha, rfl⟩, fun t h => ?_⟩
      simp only [List.mem_cons]
      constructor
      · rintro (rfl | h1)
        · exact absurd ha h
        · exact .inr h1
      · rintro (rfl | h1)
        · exact absurd ha h
        · exact .inr h1
    · split
      · refine ⟨⟨_, List.mem_cons_self, rfl, rfl⟩, fun t h => ?_⟩
        rw [List.mem_cons]
        exact or_iff_right fun e => h (by rw [e])
      · obtain ⟨⟨t, h1, h2⟩, h3⟩ := ih
        exact ⟨⟨t, List.mem_cons_of_mem _ h1, h2⟩, fun t h => by rw [List.mem_cons, List.mem_cons, h3 t h]⟩

theorem Typed.find {l : List Int} {cmds : List String} (h : Typed l cmds) {fn : Func} (hc : (cmds.all fun s => (cmdMap.find? fun p => lit p.1 == lit s).map (·.2) == some fn) = true) :
    ∃ p, (cmdMap.find? fun p => lit p.1 == (word ⟨l, false⟩).1) = some p ∧ p.2 = fn := by
  obtain ⟨s, h1, h2⟩ := List.mem_map.mp h
  have := List.all_eq_true.mp hc s h1
  rw [h2, beq_iff_eq, Option.map_eq_some_iff] at this
  exact this

/-- **C98.** `quit` leaves the prompt and ends the program. `run` and `step` leave it and let the selected IP, and only that one, run, or go one step. A line that is none of the
commands, such as an empty one, does nothing and does not leave it. -/
theorem C98_leaves (fuel : Nat) (c : Int) (w : World) (l : List Int) :
    (Typed l ["quit", "q"] → line fuel c w l = .ok (.brk, { w.say promptText with killed := true })) ∧
    (∀ {u h : Home} {r : Seen}, Attached w u h r → ∀ s cmds, (s, cmds) ∈ [(DState.run, ["run", "r", "continue", "con", "c"]), (DState.step, ["step", "stp", "s"])] → Typed l cmds →
      ∃ ts, line fuel c w l = .ok (.brk, (w.say promptText).setHome { u with threads := ts }) ∧
        (∃ t ∈ ts, t.id = r.id ∧ t.state = s) ∧ ∀ t, t.id ≠ r.id → (t ∈ ts ↔ t ∈ u.threads)) ∧
    (¬ Typed l (cmdMap.map (·.1)) → line fuel c w l = .ok (.ok, w.say promptText)) := by
  refine ⟨fun h => ?_, fun {u h r} a s cmds hs ht => ?_, fun h => ?_⟩
  · obtain ⟨p, h1, h2⟩ := h.find (fn := .quit) (by decide +kernel)
    unfold line
    dsimp only
    rw [h1]
    dsimp only
    rw [h2]
    rfl
  · refine ⟨setState u.threads r.id s, ?_, setState_mem _ _ _⟩
    have key : ∀ fn, (∀ is, call fuel c (w.say promptText) is fn = resume s (w.say promptText)) → (cmds.all fun s => (cmdMap.find? fun p => lit p.1 == lit s).map (·.2) == some fn) = true →
        line fuel c w l = .ok (.brk, (w.say promptText).setHome { u with threads := setState u.threads r.id s }) := by
      intro fn hfn hc
      obtain ⟨p, h1, h2⟩ := ht.find hc
      unfold line
      dsimp only
      rw [h1]
      dsimp only
      rw [h2, hfn]
      have a' := a.say promptText
      unfold resume
      rw [if_neg a'.some, a'.home, bind_ok_except, a'.deref, bind_ok_except]
      rfl
    simp only [List.mem_cons, Prod.mk.injEq, List.not_mem_nil, or_false] at hs
    rcases hs with ⟨rfl, rfl⟩ | ⟨rfl, rfl⟩
    · exact key .run (fun _ => rfl) (by decide +kernel)
    · exact key .step (fun _ => rfl) (by decide +kernel)
  · unfold line
    dsimp only
    split
    · rfl
    · rename_i p hp
      refine absurd ?_ h
      have hn : lit p.1 = (word ⟨l, false⟩).1 := by simpa using List.find?_some hp
      exact List.mem_map.mpr ⟨p.1, List.mem_map_of_mem (List.mem_of_find?_eq_some hp), hn⟩

example : Typed (lit "quit now") ["quit", "q"] ∧ Typed (lit " con") ["run", "r", "continue", "con", "c"] ∧ ¬ Typed (lit "stop") (cmdMap.map (·.1)) ∧ ¬ Typed [] (cmdMap.map (·.1)) := by
  unfold Typed
  decide +kernel

/-- **C98** fails for a `thread` that is mistyped: it selects the IP 0. -/
theorem C98_false_mistyped_thread : (match line 100 0 { exWorld with runner := some 1 } (lit "thread one") with
    | .ok (.ok, w) => some w.runner
    | _ => none) = some (some 0) := by decide +kernel

/-- **C98** fails for a position or a delta left out: the IP goes to the origin, or stands still. -/
theorem C98_false_missing_argument : (match line 100 0 { exWorld with runner := some 1 } (lit "setpos") with
      | .ok (.ok, w) => some ((w.deref (some 1)).toOption.map fun r => r.ip.pos.vals)
      | _ => none) = some (some []) ∧
    (match line 100 0 { exWorld with runner := some 1 } (lit "setdelta") with
      | .ok (.ok, w) => some ((w.deref (some 1)).toOption.map fun r => r.ip.delta.vals)
      | _ => none) = some (some []) := by
  constructor <;> decide +kernel

/-- **C98** fails in the mode HOVR: what is typed behind `setdelta` is added to the delta. -/
theorem C98_false_setdelta_hovering : (exSeen 0 0 0).ip.delta = Vec.ofList [1] ∧
    (match line 100 0 { exWorld with unis := [{ exHome with hover := true }] } (lit "setdelta (1,1)") with
      | .ok (.ok, w) => some ((w.deref (some 0)).toOption.map fun r => r.ip.delta.vals)
      | _ => none) = some (some [2, 1]) := by
  constructor <;> decide +kernel

example : Tidy exWorld := ⟨by simp [exWorld], exSound.unique⟩

/-- A session that ends. -/
example : (match debug 100 0 exWorld (lit "main") 0 [lit "setpos (1,1)", lit "thread 1", lit "break (5,0)", lit "nonsense", lit "step", lit "left"] with
    | .ok (w, rest) => some (w.alive.map (·.ip.pos.vals), w.runner, w.unis.map fun u => (u.breakpoints.map (·.vals), u.threads.map (·.state)), rest)
    | .error _ => none) = some ([[1, 1], [1]], some 1, [([[5], [1, 1]], [.step, .step])], [lit "left"]) := by krfl

end Funge.Defunge
