import Verif.Model.Debugger
import Verif.Props.C04_VectorOrder
/-
C43: the backtrace. C44: where the debugger stops.
-/
namespace Funge

/-! ### Threads of the debugger -/

theorem thread_setThread (d : Dbg) (id k : Nat) (t : DThread) : (d.setThread id t).thread k = if k = id then t else d.thread k := by
  unfold Dbg.setThread Dbg.thread; by_cases h : k = id <;> simp [h]

theorem thread_setState (d : Dbg) (id k : Nat) (s : DState) :
    (d.setState id s).thread k = if k = id then { d.thread k with state := s } else d.thread k := by
  unfold Dbg.setState; rw [thread_setThread]; split
  · rename_i h; rw [h]
  · rfl

theorem thread_addBreakpoint (d : Dbg) (v : Vec) (k : Nat) : (d.addBreakpoint v).thread k = d.thread k := by
  unfold Dbg.addBreakpoint; split <;> rfl

theorem thread_addWatchpoint (d : Dbg) (v : Vec) (k : Nat) : (d.addWatchpoint v).thread k = d.thread k := by
  unfold Dbg.addWatchpoint; split <;> rfl

theorem prompt_backtrace {k : Nat} : (cmds : List Cmd) → (d : Dbg) → (r : Nat) → (m : List (Nat × Vec)) → {s : Stop} → prompt d r m cmds = .ok s →
    (s.d.thread k).backtrace = (d.thread k).backtrace
  | [], _, _, _, _, h => by cases h
  | .run :: _, d, r, _, _, h => by injection h with h; subst h; simp only [thread_setState]; split <;> rfl
  | .quit :: _, _, _, _, _, h => by injection h with h; subst h; rfl
  | .step :: _, d, r, _, _, h => by injection h with h; subst h; simp only [thread_setState]; split <;> rfl
  | .thread _ :: t, d, _, _, _, h => prompt_backtrace t d _ _ h
  | .setpos _ :: t, d, _, _, _, h => prompt_backtrace t d _ _ h
  | .brk v :: t, d, _, _, _, h => by rw [prompt_backtrace t (d.addBreakpoint v) _ _ h, thread_addBreakpoint]
  | .watch v :: t, d, _, _, _, h => by rw [prompt_backtrace t (d.addWatchpoint v) _ _ h, thread_addWatchpoint]
  | .other :: t, d, _, _, _, h => prompt_backtrace t d _ _ h

theorem debug_backtrace {k : Nat} {cmds : List Cmd} {d : Dbg} {r : Nat} {s : Stop} (h : d.debug r cmds = .ok s) :
    (s.d.thread k).backtrace = (d.thread k).backtrace := by
  unfold Dbg.debug at h
  split at h
  · injection h with h; subst h; rfl
  · exact prompt_backtrace _ _ _ _ h

theorem thread_arrive (d : Dbg) (id : Nat) (pos : Vec) (k : Nat) : (d.arrive id pos).thread k =
    if k = id then { backtrace := pushBack (d.thread k).backtrace pos,
                     state := if setContains d.breakpoints pos then .brk else (d.thread k).state }
    else d.thread k := by
  have h0 : ∀ k, (d.meet id).thread k = d.thread k := by
    intro k
    unfold Dbg.meet
    split
    · rename_i hn
      rw [thread_setThread]; split
      · rename_i h; rw [h, Dbg.thread, hn]; rfl
      · rfl
    · rfl
  have hb : (d.meet id).breakpoints = d.breakpoints := by unfold Dbg.meet; split <;> rfl
  unfold Dbg.arrive
  simp only []
  have h2 : ∀ k, ({ d.meet id with last := id } : Dbg).thread k = d.thread k := h0
  have hb2 : ({ d.meet id with last := id } : Dbg).breakpoints = d.breakpoints := hb
  generalize ({ d.meet id with last := id } : Dbg) = d2 at h2 hb2 ⊢
  rw [thread_setThread]
  by_cases hk : k = id
  · subst hk
    rw [if_pos rfl, if_pos rfl, hb]
    by_cases hc : setContains d.breakpoints pos = true
    · simp only [hc, if_true, thread_setState, h2]
    · rw [if_neg hc, if_neg hc, h2]
  · rw [if_neg hk, if_neg hk]
    split
    · rw [thread_setState, if_neg hk, h2]
    · exact h2 k

/-! ### C43 -/

/-- The positions at which the IP `id` was about to execute an instruction, in order, while the debugger was on. -/
def visited (id : Nat) (es : List DEvent) : List Vec :=
  es.filterMap fun e => match e with | .tick true k pos => if k = id then some pos else none | _ => none

/-- The debugger after a trace. -/
def Dbg.after (d : Dbg) (l : List Stop) : Dbg := ((l.getLast?).map Stop.d).getD d

theorem pushBack_take {l : List Vec} (pos : Vec) (h : l.length ≤ 10) : pushBack l pos = (pos :: l).take 10 := by
  unfold pushBack
  by_cases h2 : l.length ≥ 10
  · rw [if_pos h2, List.take_succ_cons, List.dropLast_eq_take, show l.length - 1 = 9 by omega]
  · rw [if_neg h2, List.take_of_length_le]; simp; omega

theorem event_backtrace {d : Dbg} {cmds : List Cmd} {e : DEvent} {s : Stop} (h : d.event cmds e = .ok s) (id : Nat) :
    (s.d.thread id).backtrace = match visited id [e] with
      | pos :: _ => pushBack (d.thread id).backtrace pos
      | [] => (d.thread id).backtrace := by
  unfold Dbg.event at h
  split at h
  · rename_i k pos
    rw [debug_backtrace h, thread_arrive]
    by_cases hk : id = k
    · subst hk; simp [visited]
    · simp [visited, hk, Ne.symm hk]
  · rw [debug_backtrace h, thread_setState]; simp only [visited, List.filterMap_cons, List.filterMap_nil]; split <;> rfl
  · rw [debug_backtrace h, thread_setState]; simp only [visited, List.filterMap_cons, List.filterMap_nil]; split <;> rfl
  · split at h
    · rw [debug_backtrace h, thread_setState]; simp only [visited, List.filterMap_cons, List.filterMap_nil]; split <;> rfl
    · injection h with h; subst h; rfl
  · injection h with h; subst h
    simp only [thread_setState, visited, List.filterMap_cons, List.filterMap_nil]; split <;> rfl
  · injection h with h; subst h
    rename_i x h1 h2 h3 h4 h5
    have : visited id [e] = [] := by
      cases e with
      | tick on k pos =>
        cases on
        · rfl
        · exact absurd rfl (h1 k pos)
      | _ => rfl
    rw [this]

theorem trace_backtrace (id : Nat) : (es : List DEvent) → (d : Dbg) → (cmds : List Cmd) → (l : List Stop) → d.trace cmds es = .ok l →
    (d.thread id).backtrace.length ≤ 10 →
    ((d.after l).thread id).backtrace = ((visited id es).reverse ++ (d.thread id).backtrace).take 10
  | [], d, cmds, l, h, hl => by
    injection h with h; subst h
    show (d.thread id).backtrace = _
    simp [visited, List.take_of_length_le hl]
  | e :: t, d, cmds, l, h, hl => by
    rw [Dbg.trace] at h
    split at h
    · cases h
    rename_i s hs
    split at h
    · cases h
    rename_i l' hl'
    injection h with h; subst h
    have hb := event_backtrace hs id
    have hv : visited id (e :: t) = visited id [e] ++ visited id t := by
      rw [show e :: t = [e] ++ t from rfl, visited, visited, visited, List.filterMap_append]
    have hlen : (s.d.thread id).backtrace.length ≤ 10 := by
      rw [hb]; split
      · rw [pushBack_take _ hl]; simp; omega
      · exact hl
    have ih := trace_backtrace id t s.d s.cmds l' hl' hlen
    have ha : d.after (s :: l') = s.d.after l' := by
      unfold Dbg.after; rw [List.getLast?_cons]
      cases l'.getLast? <;> rfl
    have hle : (visited id [e]).length ≤ 1 := by
      unfold visited; exact List.length_filterMap_le _ _
    rw [ha, ih, hb, hv]
    rcases hve : visited id [e] with _ | ⟨pos, _ | ⟨_, _⟩⟩
    · rfl
    · show List.take 10 ((visited id t).reverse ++ pushBack (d.thread id).backtrace pos) = _
      rw [pushBack_take _ hl]
      simp only [List.reverse_cons, List.nil_append, List.append_assoc, List.cons_append]
      rw [List.take_append, List.take_append, List.take_take]
      congr 2
      omega
    · rw [hve] at hle; simp at hle

/-- After any sequence of events and commands, the backtrace of every IP is the list of the last ten positions at which it was about to execute an
instruction while the debugger was on, or of all of them if there are fewer, the newest first. What is missing: positions passed while the debugger is off
leave a gap (`C43_false_while_off`), and if the user sets the position, the backtrace holds the one before (`C43_false_after_setpos`). -/
theorem C43_backtrace_partial {cmds : List Cmd} {es : List DEvent} {l : List Stop} (h : ({} : Dbg).trace cmds es = .ok l) (id : Nat) :
    ((({} : Dbg).after l).thread id).backtrace = ((visited id es).reverse).take 10 := by
  have := trace_backtrace id es {} cmds l h (by simp [Dbg.thread])
  rw [this]; simp [Dbg.thread]

example : (match ({} : Dbg).trace [.step, .step, .run]
      [.tick true 0 (Vec.ofList [0]), .tick true 1 (Vec.ofList [5]), .tick true 0 (Vec.ofList [1])] with
    | .ok l => some ((({} : Dbg).after l).thread 0).backtrace
    | .error _ => none) = some [Vec.ofList [1], Vec.ofList [0]] := by decide

/-- A gap: the debugger was off at the second of three positions. -/
theorem C43_false_while_off : (match ({} : Dbg).trace [.step, .step]
      [.tick true 0 (Vec.ofList [0]), .tick false 0 (Vec.ofList [1]), .tick true 0 (Vec.ofList [2])] with
    | .ok l => some ((({} : Dbg).after l).thread 0).backtrace
    | .error _ => none) = some [Vec.ofList [2], Vec.ofList [0]] := by decide

/-- The instruction executed after this stop is the one at 7, which the user asked for; the backtrace says 0. -/
theorem C43_false_after_setpos : (match ({} : Dbg).trace [.setpos (Vec.ofList [7]), .step] [.tick true 0 (Vec.ofList [0])] with
    | .ok l => some (((({} : Dbg).after l).thread 0).backtrace, l.map Stop.moved)
    | .error _ => none) = some ([Vec.ofList [0]], [[(0, Vec.ofList [7])]]) := by decide

/-! ### C44 -/

/-- Two vectors with the same coordinates. -/
def AtSame (v w : Vec) : Prop := ∀ i, v.get i = w.get i

theorem setContains_iff (l : List Vec) (v : Vec) : setContains l v = true ↔ ∃ b ∈ l, AtSame b v := by
  unfold setContains AtSame
  rw [List.any_eq_true]
  constructor
  · rintro ⟨b, hb, h⟩
    refine ⟨b, hb, ?_⟩
    simp only [Bool.and_eq_true, Bool.not_eq_true'] at h
    have := Vec.C04_lt_trichotomy b v
    have he : b.eqv v = true := by simp_all
    exact fun i => congrFun ((Vec.C04_eq_iff_coords b v).mp he) i
  · rintro ⟨b, hb, h⟩
    refine ⟨b, hb, ?_⟩
    have hg : b.get = v.get := funext h
    have h1 : b.lt v = false := by
      have := Vec.C04_lt_irrefl v
      rw [Bool.eq_false_iff] at this ⊢
      rw [ne_eq, Vec.C04_lt_spec] at this ⊢; rwa [hg]
    have h2 : v.lt b = false := by
      have := Vec.C04_lt_irrefl v
      rw [Bool.eq_false_iff] at this ⊢
      rw [ne_eq, Vec.C04_lt_spec] at this ⊢; rwa [hg]
    simp [h1, h2]

/-- The cell `v` has a breakpoint. -/
def Dbg.Breaks (d : Dbg) (v : Vec) : Prop := ∃ b ∈ d.breakpoints, AtSame b v

/-- The cell `v` has a watchpoint. -/
def Dbg.Watches (d : Dbg) (v : Vec) : Prop := ∃ b ∈ d.watchpoints, AtSame b v

/-- The IP has been told to run and nothing has stopped it since. -/
def Dbg.Released (d : Dbg) (id : Nat) : Prop := (d.thread id).state = .run

theorem setInsert_iff (l : List Vec) (v w : Vec) : (∃ b ∈ setInsert l v, AtSame b w) ↔ (∃ b ∈ l, AtSame b w) ∨ AtSame v w := by
  unfold setInsert
  split
  · rename_i h
    rw [List.any_eq_true] at h
    obtain ⟨b, hb, he⟩ := h
    have hc := (Vec.C04_eq_iff_coords b v).mp he
    refine ⟨.inl, ?_⟩
    rintro (h | h)
    · exact h
    · exact ⟨b, hb, fun i => (congrFun hc i).trans (h i)⟩
  · simp only [List.mem_cons, exists_eq_or_imp]
    exact or_comm

/-- Adding a breakpoint: it is there from then on, every other cell keeps or lacks its own, and adding it again changes nothing. (A vector without coordinates,
which is what the prompt reads if none is given, is no breakpoint.) -/
theorem C44_added (d : Dbg) (v : Vec) (hv : v.size > 0) :
    (∀ w, (d.addBreakpoint v).Breaks w ↔ d.Breaks w ∨ AtSame v w) ∧ (d.addBreakpoint v).addBreakpoint v = d.addBreakpoint v := by
  constructor
  · intro w
    unfold Dbg.addBreakpoint Dbg.Breaks
    rw [if_pos hv]
    exact setInsert_iff _ _ _
  · unfold Dbg.addBreakpoint
    rw [if_pos hv, if_pos hv]
    have : setInsert (setInsert d.breakpoints v) v = setInsert d.breakpoints v := by
      rw [setInsert, if_pos]
      obtain ⟨b, hb, h⟩ := (setInsert_iff d.breakpoints v v).mpr (.inr fun _ => rfl)
      exact List.any_eq_true.mpr ⟨b, hb, (Vec.C04_eq_iff_coords b v).mpr (funext h)⟩
    simp only [this]

example : (Vec.ofList [0, 0]).size > 0 := by decide

theorem debug_stopped {d : Dbg} {r : Nat} {cmds : List Cmd} {s : Stop} (h : d.debug r cmds = .ok s) :
    s.stopped = true ↔ ¬ d.Released d.last := by
  unfold Dbg.debug at h
  unfold Dbg.Released
  split at h
  · rename_i hr
    injection h with h; subst h; simp [hr]
  · rename_i hr
    refine ⟨fun _ => hr, fun _ => ?_⟩
    clear hr
    have : ∀ (cmds : List Cmd) (d : Dbg) (r : Nat) (m : List (Nat × Vec)) (s : Stop), prompt d r m cmds = .ok s → s.stopped = true := by
      intro cmds
      induction cmds with
      | nil => intro d r m s h; cases h
      | cons c t ih =>
        intro d r m s h
        cases c <;> first | (injection h with h; subst h; rfl) | exact ih _ _ _ _ h
    exact this _ _ _ _ _ h

theorem last_arrive (d : Dbg) (id : Nat) (pos : Vec) : (d.arrive id pos).last = id := by
  unfold Dbg.arrive
  simp only [Dbg.setThread, Dbg.setState]
  split <;> rfl

/-- Before an instruction is executed with the debugger on, the prompt is shown exactly if the cell has a breakpoint or the IP has not been told to run. -/
theorem C44_stops_exactly {d : Dbg} {cmds : List Cmd} {id : Nat} {pos : Vec} {s : Stop} (h : d.event cmds (.tick true id pos) = .ok s) :
    s.stopped = true ↔ d.Breaks pos ∨ ¬ d.Released id := by
  rw [debug_stopped (d := d.arrive id pos) h, last_arrive, Dbg.Released, thread_arrive, if_pos rfl, Dbg.Breaks, ← setContains_iff, Dbg.Released]
  by_cases hc : setContains d.breakpoints pos = true <;> simp [hc]

/-- An event that concerns the IP `id` in a way that may stop it. -/
def DEvent.Hits (d : Dbg) (id : Nat) : DEvent → Prop
  | .tick on k pos => on = true ∧ k = id ∧ d.Breaks pos
  | .swbreak on k => on = true ∧ (k = id ∨ d.last = id)
  | .trap on k => on = true ∧ (k = id ∨ d.last = id)
  | .write on pos => on = true ∧ d.last = id ∧ d.Watches pos
  | .ended k => k = id

theorem prompt_other {id : Nat} : (cmds : List Cmd) → (d : Dbg) → (r : Nat) → (m : List (Nat × Vec)) → {s : Stop} → prompt d r m cmds = .ok s →
    r ≠ id → Cmd.thread id ∉ cmds → (s.d.thread id).state = (d.thread id).state ∧ Cmd.thread id ∉ s.cmds
  | [], _, _, _, _, h, _, _ => by cases h
  | .run :: t, d, r, _, _, h, hr, hc => by
    injection h with h; subst h; simp only [thread_setState, if_neg hr.symm]; exact ⟨trivial, fun h => hc (.tail _ h)⟩
  | .quit :: t, _, _, _, _, h, _, hc => by injection h with h; subst h; exact ⟨rfl, fun h => hc (.tail _ h)⟩
  | .step :: t, d, r, _, _, h, hr, hc => by
    injection h with h; subst h; simp only [thread_setState, if_neg hr.symm]; exact ⟨trivial, fun h => hc (.tail _ h)⟩
  | .thread k :: t, d, r, m, _, h, hr, hc => by
    refine prompt_other t d _ m h ?_ (fun h => hc (.tail _ h))
    split
    · rintro rfl; exact hc (.head _)
    · exact hr
  | .setpos _ :: t, d, _, _, _, h, hr, hc => prompt_other t d _ _ h hr (fun h => hc (.tail _ h))
  | .brk v :: t, d, _, _, _, h, hr, hc => by
    rw [← thread_addBreakpoint d v]; exact prompt_other t (d.addBreakpoint v) _ _ h hr (fun h => hc (.tail _ h))
  | .watch v :: t, d, _, _, _, h, hr, hc => by
    rw [← thread_addWatchpoint d v]; exact prompt_other t (d.addWatchpoint v) _ _ h hr (fun h => hc (.tail _ h))
  | .other :: t, d, _, _, _, h, hr, hc => prompt_other t d _ _ h hr (fun h => hc (.tail _ h))

theorem debug_other {id : Nat} {cmds : List Cmd} {d : Dbg} {r : Nat} {s : Stop} (h : d.debug r cmds = .ok s) (hr : r ≠ id) (hc : Cmd.thread id ∉ cmds) :
    (s.d.thread id).state = (d.thread id).state ∧ Cmd.thread id ∉ s.cmds := by
  unfold Dbg.debug at h
  split at h
  · injection h with h; subst h; exact ⟨rfl, hc⟩
  · exact prompt_other _ _ _ _ h hr hc

theorem event_quiet {d : Dbg} {cmds : List Cmd} {e : DEvent} {s : Stop} {id : Nat} (h : d.event cmds e = .ok s) (hr : d.Released id)
    (hh : ¬ e.Hits d id) (hc : Cmd.thread id ∉ cmds) :
    s.d.Released id ∧ Cmd.thread id ∉ s.cmds ∧ ((∃ pos, e = .tick true id pos) → s.stopped = false) := by
  unfold Dbg.event at h
  unfold Dbg.Released at hr ⊢
  split at h
  · rename_i k pos
    by_cases hk : k = id
    · subst hk
      have hb : ¬ setContains d.breakpoints pos = true := fun h' => hh ⟨rfl, rfl, (setContains_iff _ _).mp h'⟩
      have hst : ((d.arrive k pos).thread k).state = .run := by rw [thread_arrive, if_pos rfl, if_neg hb]; exact hr
      rw [Dbg.debug, last_arrive, hst] at h
      injection h with h; subst h
      exact ⟨hst, hc, fun _ => rfl⟩
    · have := debug_other h hk hc
      rw [thread_arrive, if_neg (Ne.symm hk)] at this
      refine ⟨this.1.trans hr, this.2, ?_⟩
      rintro ⟨_, he⟩; injection he with _ he; exact absurd he hk
  · rename_i k
    have hl : d.last ≠ id := fun h' => hh ⟨rfl, .inr h'⟩
    have := debug_other h (fun h' => hh ⟨rfl, .inl h'⟩) hc
    rw [thread_setState, if_neg hl.symm] at this
    exact ⟨this.1.trans hr, this.2, fun ⟨_, he⟩ => by cases he⟩
  · rename_i k
    have hl : d.last ≠ id := fun h' => hh ⟨rfl, .inr h'⟩
    have := debug_other h (fun h' => hh ⟨rfl, .inl h'⟩) hc
    rw [thread_setState, if_neg hl.symm] at this
    exact ⟨this.1.trans hr, this.2, fun ⟨_, he⟩ => by cases he⟩
  · rename_i pos
    split at h
    · rename_i hw
      have hl : d.last ≠ id := fun h' => hh ⟨rfl, h', (setContains_iff _ _).mp hw⟩
      have := debug_other h hl hc
      rw [thread_setState, if_neg hl.symm] at this
      exact ⟨this.1.trans hr, this.2, fun ⟨_, he⟩ => by cases he⟩
    · injection h with h; subst h
      exact ⟨hr, hc, fun _ => rfl⟩
  · rename_i k
    injection h with h; subst h
    have hk : id ≠ k := fun h' => hh h'.symm
    refine ⟨?_, hc, fun _ => rfl⟩
    simp only [thread_setState, if_neg hk]; exact hr
  · injection h with h; subst h
    exact ⟨hr, hc, fun _ => rfl⟩

/-- None of the events may stop the IP `id`: it comes to no breakpoint (among those there are at that time), it causes no error, runs no software breakpoint, writes
to no watchpoint and does not end. -/
def Misses (id : Nat) : Dbg → List DEvent → List Stop → Prop
  | d, e :: es, s :: l => ¬ e.Hits d id ∧ Misses id s.d es l
  | _, _, _ => True

/-- An IP told to run is not stopped, in any sequence of events of this and all other IPs and for any commands given meanwhile at other stops that do not select this
IP, as long as no event may stop it; and it is still free to run afterwards, so that by `C44_stops_exactly` the next cell with a breakpoint stops it. -/
theorem C44_runs_on_partial (id : Nat) : (es : List DEvent) → (d : Dbg) → (cmds : List Cmd) → (l : List Stop) → d.trace cmds es = .ok l →
    d.Released id → Cmd.thread id ∉ cmds → Misses id d es l →
    (∀ p ∈ es.zip l, (∃ pos, p.1 = .tick true id pos) → p.2.stopped = false) ∧ (d.after l).Released id
  | [], d, cmds, l, h, hr, _, _ => by
    injection h with h; subst h
    exact ⟨fun p hp => by simp at hp, hr⟩
  | e :: t, d, cmds, l, h, hr, hc, hm => by
    rw [Dbg.trace] at h
    split at h
    · cases h
    rename_i s hs
    split at h
    · cases h
    rename_i l' hl'
    injection h with h; subst h
    obtain ⟨h1, h2, h3⟩ := event_quiet hs hr hm.1 hc
    have ih := C44_runs_on_partial id t s.d s.cmds l' hl' h1 h2 hm.2
    have ha : d.after (s :: l') = s.d.after l' := by
      unfold Dbg.after; rw [List.getLast?_cons]
      cases l'.getLast? <;> rfl
    refine ⟨fun p hp => ?_, by rw [ha]; exact ih.2⟩
    rw [List.zip_cons_cons, List.mem_cons] at hp
    rcases hp with rfl | hp
    · exact h3
    · exact ih.1 p hp

example : ∃ l, (({} : Dbg).setState 0 .run).trace [] [.tick true 0 (Vec.ofList [0]), .tick true 0 (Vec.ofList [1])] = .ok l ∧
    (({} : Dbg).setState 0 .run).Released 0 ∧
    Misses 0 (({} : Dbg).setState 0 .run) [.tick true 0 (Vec.ofList [0]), .tick true 0 (Vec.ofList [1])] l := by
  refine ⟨_, rfl, rfl, ?_, ?_, trivial⟩
  · rintro ⟨_, _, b, hb, _⟩; cases hb
  · rintro ⟨_, _, b, hb, _⟩; cases hb

/-- A command that leaves the prompt open and the same IP selected. -/
def Cmd.stays : Cmd → Bool
  | .setpos _ | .brk _ | .watch _ | .other => true
  | _ => false

/-- The breakpoints a command adds. -/
def Cmd.adds (w : Vec) : Cmd → Prop
  | .brk v => v.size > 0 ∧ AtSame v w
  | _ => False

theorem prompt_run : (pre : List Cmd) → (d : Dbg) → (r : Nat) → (m : List (Nat × Vec)) → (∀ c ∈ pre, c.stays = true) → (t : List Cmd) →
    ∃ s, prompt d r m (pre ++ .run :: t) = .ok s ∧ s.d.Released r ∧ s.cmds = t ∧ s.stopped = true ∧ s.killed = false ∧
      ∀ w, s.d.Breaks w ↔ d.Breaks w ∨ ∃ c ∈ pre, c.adds w
  | [], d, r, m, _, t => by
    refine ⟨_, rfl, ?_, rfl, rfl, rfl, fun w => ?_⟩
    · rw [Dbg.Released, thread_setState, if_pos rfl]
    · simp only [List.not_mem_nil, false_and, exists_false, or_false]; exact Iff.rfl
  | c :: pre, d, r, m, hp, t => by
    have hp' : ∀ c ∈ pre, c.stays = true := fun c hc => hp c (.tail _ hc)
    have hc := hp c (.head _)
    cases c with
    | setpos v =>
      obtain ⟨s, h, h1, h2, h3, h4, h5⟩ := prompt_run pre d r (m ++ [(r, v)]) hp' t
      exact ⟨s, h, h1, h2, h3, h4, fun w => by rw [h5]; simp [Cmd.adds]⟩
    | brk v =>
      obtain ⟨s, h, h1, h2, h3, h4, h5⟩ := prompt_run pre (d.addBreakpoint v) r m hp' t
      refine ⟨s, h, h1, h2, h3, h4, fun w => ?_⟩
      rw [h5]
      by_cases hv : v.size > 0
      · rw [(C44_added d v hv).1]
        simp only [List.mem_cons, exists_eq_or_imp, Cmd.adds, hv, true_and, or_assoc]
      · have : d.addBreakpoint v = d := by unfold Dbg.addBreakpoint; rw [if_neg hv]
        rw [this]
        simp only [List.mem_cons, exists_eq_or_imp, Cmd.adds, hv, false_and, false_or]
    | watch v =>
      obtain ⟨s, h, h1, h2, h3, h4, h5⟩ := prompt_run pre (d.addWatchpoint v) r m hp' t
      refine ⟨s, h, h1, h2, h3, h4, fun w => ?_⟩
      rw [h5]
      have : (d.addWatchpoint v).Breaks w ↔ d.Breaks w := by unfold Dbg.addWatchpoint; split <;> exact Iff.rfl
      rw [this]; simp [Cmd.adds]
    | other =>
      obtain ⟨s, h, h1, h2, h3, h4, h5⟩ := prompt_run pre d r m hp' t
      exact ⟨s, h, h1, h2, h3, h4, fun w => by rw [h5]; simp [Cmd.adds]⟩
    | _ => cases hc

theorem prompt_step : (pre : List Cmd) → (d : Dbg) → (r : Nat) → (m : List (Nat × Vec)) → (∀ c ∈ pre, c.stays = true) → (t : List Cmd) →
    ∃ s, prompt d r m (pre ++ .step :: t) = .ok s ∧ ¬ s.d.Released r ∧ s.cmds = t ∧ s.stopped = true ∧ s.killed = false ∧
      ∀ w, s.d.Breaks w ↔ d.Breaks w ∨ ∃ c ∈ pre, c.adds w
  | [], d, r, m, _, t => by
    refine ⟨_, rfl, ?_, rfl, rfl, rfl, fun w => ?_⟩
    · rw [Dbg.Released, thread_setState, if_pos rfl]; exact DState.noConfusion
    · simp only [List.not_mem_nil, false_and, exists_false, or_false]; exact Iff.rfl
  | c :: pre, d, r, m, hp, t => by
    have hp' : ∀ c ∈ pre, c.stays = true := fun c hc => hp c (.tail _ hc)
    have hc := hp c (.head _)
    cases c with
    | setpos v =>
      obtain ⟨s, h, h1, h2, h3, h4, h5⟩ := prompt_step pre d r (m ++ [(r, v)]) hp' t
      exact ⟨s, h, h1, h2, h3, h4, fun w => by rw [h5]; simp [Cmd.adds]⟩
    | brk v =>
      obtain ⟨s, h, h1, h2, h3, h4, h5⟩ := prompt_step pre (d.addBreakpoint v) r m hp' t
      refine ⟨s, h, h1, h2, h3, h4, fun w => ?_⟩
      rw [h5]
      by_cases hv : v.size > 0
      · rw [(C44_added d v hv).1]
        simp only [List.mem_cons, exists_eq_or_imp, Cmd.adds, hv, true_and, or_assoc]
      · have : d.addBreakpoint v = d := by unfold Dbg.addBreakpoint; rw [if_neg hv]
        rw [this]
        simp only [List.mem_cons, exists_eq_or_imp, Cmd.adds, hv, false_and, false_or]
    | watch v =>
      obtain ⟨s, h, h1, h2, h3, h4, h5⟩ := prompt_step pre (d.addWatchpoint v) r m hp' t
      refine ⟨s, h, h1, h2, h3, h4, fun w => ?_⟩
      rw [h5]
      have : (d.addWatchpoint v).Breaks w ↔ d.Breaks w := by unfold Dbg.addWatchpoint; split <;> exact Iff.rfl
      rw [this]; simp [Cmd.adds]
    | other =>
      obtain ⟨s, h, h1, h2, h3, h4, h5⟩ := prompt_step pre d r m hp' t
      exact ⟨s, h, h1, h2, h3, h4, fun w => by rw [h5]; simp [Cmd.adds]⟩
    | _ => cases hc

theorem arrive_breakpoints (d : Dbg) (id : Nat) (pos : Vec) : (d.arrive id pos).breakpoints = d.breakpoints := by
  unfold Dbg.arrive Dbg.meet
  simp only [Dbg.setThread, Dbg.setState]
  repeat' split
  all_goals rfl

/-- When the prompt is shown before an instruction and the user, after any other commands that keep this IP selected, says `run`: the IP is free to run and the
breakpoints are those there were and those added. -/
theorem C44_run {d : Dbg} {id : Nat} {pos : Vec} (hstop : d.Breaks pos ∨ ¬ d.Released id) (pre : List Cmd) (hp : ∀ c ∈ pre, c.stays = true) (t : List Cmd) :
    ∃ s, d.event (pre ++ .run :: t) (.tick true id pos) = .ok s ∧ s.d.Released id ∧ s.cmds = t ∧ s.stopped = true ∧ s.killed = false ∧
      ∀ w, s.d.Breaks w ↔ d.Breaks w ∨ ∃ c ∈ pre, c.adds w := by
  have hst : ((d.arrive id pos).thread (d.arrive id pos).last).state ≠ .run := by
    rw [last_arrive, thread_arrive, if_pos rfl]
    rw [Dbg.Breaks, ← setContains_iff, Dbg.Released] at hstop
    by_cases hc : setContains d.breakpoints pos = true
    · simp [hc]
    · simpa [hc] using hstop
  obtain ⟨s, h, h1, h2, h3, h4, h5⟩ := prompt_run pre (d.arrive id pos) id [] hp t
  refine ⟨s, ?_, h1, h2, h3, h4, fun w => ?_⟩
  · show (d.arrive id pos).debug id _ = _
    unfold Dbg.debug
    split
    · rename_i hr; exact absurd hr hst
    · exact h
  · rw [h5]
    unfold Dbg.Breaks; rw [arrive_breakpoints]

/-- When the prompt is shown before an instruction and the user, after any other commands that keep this IP selected, says `step`: the IP is not free to run,
so that by `C44_stops_exactly` it is stopped again before its next instruction, and the breakpoints are those there were and those added. -/
theorem C44_step {d : Dbg} {id : Nat} {pos : Vec} (hstop : d.Breaks pos ∨ ¬ d.Released id) (pre : List Cmd) (hp : ∀ c ∈ pre, c.stays = true) (t : List Cmd) :
    ∃ s, d.event (pre ++ .step :: t) (.tick true id pos) = .ok s ∧ ¬ s.d.Released id ∧ s.cmds = t ∧ s.stopped = true ∧ s.killed = false ∧
      ∀ w, s.d.Breaks w ↔ d.Breaks w ∨ ∃ c ∈ pre, c.adds w := by
  have hst : ((d.arrive id pos).thread (d.arrive id pos).last).state ≠ .run := by
    rw [last_arrive, thread_arrive, if_pos rfl]
    rw [Dbg.Breaks, ← setContains_iff, Dbg.Released] at hstop
    by_cases hc : setContains d.breakpoints pos = true
    · simp [hc]
    · simpa [hc] using hstop
  obtain ⟨s, h, h1, h2, h3, h4, h5⟩ := prompt_step pre (d.arrive id pos) id [] hp t
  refine ⟨s, ?_, h1, h2, h3, h4, fun w => ?_⟩
  · show (d.arrive id pos).debug id _ = _
    unfold Dbg.debug
    split
    · rename_i hr; exact absurd hr hst
    · exact h
  · rw [h5]
    unfold Dbg.Breaks; rw [arrive_breakpoints]

example : ¬ ({} : Dbg).Released 0 ∧ ∀ c ∈ [Cmd.brk (Vec.ofList [3]), .other], c.stays = true := by
  constructor
  · unfold Dbg.Released; decide
  · decide

/-- With native threads the property fails: IP 1, told to run, is stopped at a cell without a breakpoint, because IP 0 made an error just after IP 1 had come to its
last instruction. -/
theorem C44_false_for_native : (match ({} : Dbg).trace [.run, .run, .run, .run]
      [.tick true 0 (Vec.ofList [0]), .tick true 1 (Vec.ofList [5]), .trap true 0, .tick true 1 (Vec.ofList [6])] with
    | .ok l => some (l.map fun s => s.stopped, (({} : Dbg).after l).breakpoints)
    | .error _ => none) = some ([true, true, true, true], []) := by decide

/-- At the end of the input the prompt comes back for ever. -/
theorem C44_hangs_at_end_of_input (d : Dbg) (id : Nat) (pos : Vec) (h : d.Breaks pos ∨ ¬ d.Released id) :
    d.event [] (.tick true id pos) = .error .fuel := by
  have hst : ((d.arrive id pos).thread (d.arrive id pos).last).state ≠ .run := by
    rw [last_arrive, thread_arrive, if_pos rfl]
    rw [Dbg.Breaks, ← setContains_iff, Dbg.Released] at h
    by_cases hc : setContains d.breakpoints pos = true
    · simp [hc]
    · simpa [hc] using h
  show (d.arrive id pos).debug id [] = _
  unfold Dbg.debug
  split
  · rename_i hr; exact absurd hr hst
  · rfl

end Funge
