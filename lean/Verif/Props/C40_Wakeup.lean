import Verif.Model.Sync
/-
C40: the scheduler never loses a wake-up. C41: waiting for a universe.
-/
namespace Funge
namespace Sync

/-! ### What holds in every interleaving -/

/-- The scheduler is between taking an IP or thread from the front of its queue and removing it. -/
def Serves (s : Sync) (r : Nat) : Prop := s.sched = .busy r ∨ s.sched = .relock r ∨ s.sched = .remove r

/-- The invariant. -/
structure Inv (s : Sync) : Prop where
  mine : s.owner = .sched ↔ s.sched = .loop ∨ s.sched = .notify ∨ ∃ r, s.sched = .remove r
  sleeps : s.sched = .asleep → s.sem = false
  pending : s.sched = .top ∨ s.sched = .acquire ∨ s.sched = .asleep → s.queue ≠ [] → s.sem = true ∨ s.owner = .added
  front : ∀ r, s.Serves r → ∃ t, s.queue = r :: t
  holds : ∀ k, s.wait k = .holds ↔ s.owner = .waiter k
  over : s.sched = .done → s.running = false
  nodup : s.runners.Nodup

theorem inv_start (native : Bool) : Inv { native := native } where
  mine := by simp
  sleeps := by simp
  pending := by cases native <;> simp [queue]
  front := by simp [Serves]
  holds := by simp
  over := by simp
  nodup := by simp

theorem queue_funge {s : Sync} (h : s.native = false) : s.queue = s.runners := by simp [queue, h]
theorem queue_native {s : Sync} (h : s.native = true) : s.queue = s.threads := by simp [queue, h]

theorem inv_step {a : Actor} {s s' : Sync} (hi : Inv s) (h : Step a s s') : Inv s' := by
  obtain ⟨h1, h2, h3, h4, h5, h6, h7⟩ := hi
  cases h
  case top h =>
    have : ¬ s.owner = .sched := by rw [h1, h]; simp
    refine ⟨?_, ?_, ?_, ?_, h5, ?_, h7⟩
    · cases s.running <;> simpa using this
    · cases s.running <;> simp
    · intro _; exact h3 (.inl h)
    · intro r; cases s.running <;> simp [Serves]
    · cases hr : s.running <;> simp
  case acquired h hs =>
    have : ¬ s.owner = .sched := by rw [h1, h]; simp
    exact ⟨by simpa using this, by simp, by simp, by simp [Serves], h5, by simp, h7⟩
  case sleep h hs =>
    have : ¬ s.owner = .sched := by rw [h1, h]; simp
    exact ⟨by simpa using this, fun _ => hs, fun _ => h3 (.inr (.inl h)), by simp [Serves], h5, by simp, h7⟩
  case lock h ho =>
    refine ⟨by simp, by simp, by simp, by simp [Serves], fun k => ?_, by simp, h7⟩
    rw [h5, ho]; simp
  case front r t h hq =>
    refine ⟨by simp, by simp, by simp, ?_, fun k => ?_, by simp, h7⟩
    · intro r' h'; simp only [Serves, SchedAt.busy.injEq, reduceCtorEq, or_false] at h'; subst h'; exact ⟨t, hq⟩
    · rw [h5, h1.mpr (.inl h)]; simp
  case empty h hq =>
    refine ⟨by simp, by simp, ?_, by simp [Serves], fun k => ?_, by simp, h7⟩
    · intro _ h'; exact absurd hq h'
    · rw [h5, h1.mpr (.inl h)]; simp
  case ticked r h hn =>
    have : ¬ s.owner = .sched := by rw [h1, h]; simp
    refine ⟨by simpa using this, by simp, by simp, ?_, h5, by simp, h7⟩
    intro r' h'; simp only [Serves, SchedAt.relock.injEq, reduceCtorEq, or_false, false_or] at h'; subst h'
    exact h4 r (.inl h)
  case joined r h hn ha =>
    have : ¬ s.owner = .sched := by rw [h1, h]; simp
    refine ⟨by simpa using this, by simp, by simp, ?_, h5, by simp, h7⟩
    intro r' h'; simp only [Serves, SchedAt.relock.injEq, reduceCtorEq, or_false, false_or] at h'; subst h'
    exact h4 r (.inl h)
  case relock r h ho =>
    refine ⟨by simp, by simp, by simp, ?_, fun k => ?_, by simp, h7⟩
    · intro r' h'; simp only [Serves, SchedAt.remove.injEq, reduceCtorEq, false_or] at h'; subst h'
      exact h4 r (.inr (.inl h))
    · rw [h5, ho]; simp
  case requeue r h hn ha =>
    refine ⟨by simp [h1.mpr (.inr (.inr ⟨r, h⟩))], by simp, by simp, by simp [Serves], h5, by simp, ?_⟩
    obtain ⟨t, ht⟩ := h4 r (.inr (.inr h))
    rw [queue_funge hn] at ht
    rw [ht] at h7
    simp only [ht, List.tail_cons]
    rw [List.nodup_cons] at h7
    rw [List.nodup_append]
    exact ⟨h7.2, by simp, fun a ha b hb => by simp at hb; rintro rfl; exact h7.1 (hb ▸ ha)⟩
  case reap r h hn ha =>
    refine ⟨by simp [h1.mpr (.inr (.inr ⟨r, h⟩))], by simp, by simp, by simp [Serves], h5, by simp, ?_⟩
    exact h7.sublist (List.tail_sublist _)
  case notify h =>
    refine ⟨by simp [notifyAll, h1.mpr (.inr (.inl h))], by simp, by simp, by simp [Serves], fun k => ?_, by simp, h7⟩
    have := h5 k
    simp only [notifyAll]
    split
    · rename_i hw; rw [hw] at this; simpa using this
    · exact this
  case popThread r h hn =>
    exact ⟨by simp [h1.mpr (.inr (.inr ⟨r, h⟩))], by simp, by simp, by simp [Serves], h5, by simp, h7⟩
  case addLock ho =>
    have hm : ¬ (s.sched = .loop ∨ s.sched = .notify ∨ ∃ r, s.sched = .remove r) := by rw [← h1, ho]; simp
    refine ⟨by simpa using hm, h2, fun hs hq => ?_, h4, fun k => ?_, h6, h7⟩
    · have := h3 hs hq; rw [ho] at this; simpa using this
    · rw [h5, ho]; simp
  case addPush r ho hr ht =>
    have hm : ¬ (s.sched = .loop ∨ s.sched = .notify ∨ ∃ r, s.sched = .remove r) := by rw [← h1, ho]; simp
    refine ⟨by simpa using hm, h2, fun hs hq => .inr rfl, fun x hx => ?_, fun k => ?_, h6, ?_⟩
    · obtain ⟨t, hq⟩ := h4 x hx
      refine ⟨t ++ [r], ?_⟩
      unfold queue at hq ⊢
      cases hn : s.native <;> simp_all
    · rw [h5, ho]; simp
    · rw [List.nodup_append]
      exact ⟨h7, by simp, fun a ha b hb => by simp at hb; rintro rfl; exact hr (hb ▸ ha)⟩
  case addRelease ho =>
    have hm : ¬ (s.sched = .loop ∨ s.sched = .notify ∨ ∃ r, s.sched = .remove r) := by rw [← h1, ho]; simp
    refine ⟨?_, ?_, fun _ _ => .inl rfl, ?_, fun k => ?_, ?_, h7⟩
    · simp only [release]; split
      · simp
      · simpa using hm
    · simp only [release]; split <;> simp_all
    · intro r hr
      have : s.Serves r := by
        simp only [release, Serves] at hr ⊢; split at hr <;> simp_all
      exact h4 r this
    · simp only [release]; rw [h5, ho]; simp
    · simp only [release]; split <;> simp_all
  case addUnlock ho =>
    have hm : ¬ (s.sched = .loop ∨ s.sched = .notify ∨ ∃ r, s.sched = .remove r) := by rw [← h1, ho]; simp
    refine ⟨by simpa using hm, h2, fun hs hq => ?_, h4, fun k => ?_, h6, h7⟩
    · have := h3 hs hq; rw [ho] at this; simpa using this
    · rw [h5, ho]; simp
  case killLock ho =>
    have hm : ¬ (s.sched = .loop ∨ s.sched = .notify ∨ ∃ r, s.sched = .remove r) := by rw [← h1, ho]; simp
    refine ⟨by simpa using hm, h2, fun hs hq => ?_, h4, fun k => ?_, h6, h7⟩
    · have := h3 hs hq; rw [ho] at this; simpa using this
    · rw [h5, ho]; simp
  case killStop ho =>
    have hm : ¬ (s.sched = .loop ∨ s.sched = .notify ∨ ∃ r, s.sched = .remove r) := by rw [← h1, ho]; simp
    refine ⟨by simpa using hm, h2, fun hs hq => ?_, h4, fun k => ?_, fun _ => rfl, h7⟩
    · have := h3 hs hq; rw [ho] at this; simpa using this
    · rw [h5, ho]; simp
  case killRelease ho =>
    have hm : ¬ (s.sched = .loop ∨ s.sched = .notify ∨ ∃ r, s.sched = .remove r) := by rw [← h1, ho]; simp
    refine ⟨?_, ?_, fun _ _ => .inl rfl, ?_, fun k => ?_, ?_, h7⟩
    · simp only [release]; split
      · simp
      · simpa using hm
    · simp only [release]; split <;> simp_all
    · intro r hr
      have : s.Serves r := by
        simp only [release, Serves] at hr ⊢; split at hr <;> simp_all
      exact h4 r this
    · simp only [release]; rw [h5, ho]; simp
    · simp only [release]; split <;> simp_all
  case killNotify ho =>
    have hm : ¬ (s.sched = .loop ∨ s.sched = .notify ∨ ∃ r, s.sched = .remove r) := by rw [← h1, ho]; simp
    refine ⟨by simpa [notifyAll] using hm, h2, fun hs hq => .inl ?_, h4, fun k => ?_, h6, h7⟩
    · have := h3 hs hq; rw [ho] at this
      show s.sem = true
      simpa using this
    · have := h5 k
      simp only [notifyAll]
      split
      · simp
      · rw [this, ho]; simp
  case killUnlock ho =>
    have hm : ¬ (s.sched = .loop ∨ s.sched = .notify ∨ ∃ r, s.sched = .remove r) := by rw [← h1, ho]; simp
    refine ⟨by simpa using hm, h2, fun hs hq => ?_, h4, fun k => ?_, h6, h7⟩
    · have := h3 hs hq; rw [ho] at this; simpa using this
    · rw [h5, ho]; simp
  case waitCall k hw =>
    refine ⟨h1, h2, h3, h4, fun i => ?_, h6, h7⟩
    simp only []
    split
    · rename_i hik; subst hik
      have := h5 i; rw [hw] at this; simpa using this
    · exact h5 i
  case waitLock k hw ho =>
    have hm : ¬ (s.sched = .loop ∨ s.sched = .notify ∨ ∃ r, s.sched = .remove r) := by rw [← h1, ho]; simp
    refine ⟨by simpa using hm, h2, fun hs hq => ?_, h4, fun i => ?_, h6, h7⟩
    · have := h3 hs hq; rw [ho] at this; simpa using this
    · simp only []
      split
      · rename_i hik; subst hik; simp
      · rename_i hik; rw [h5, ho]; simp [Ne.symm hik]
  case waitReturn k hw ho hr =>
    have hm : ¬ (s.sched = .loop ∨ s.sched = .notify ∨ ∃ r, s.sched = .remove r) := by rw [← h1, ho]; simp
    refine ⟨by simpa using hm, h2, fun hs hq => ?_, h4, fun i => ?_, h6, h7⟩
    · have := h3 hs hq; rw [ho] at this; simpa using this
    · simp only []
      split
      · simp
      · rename_i hik; rw [h5, ho]; simp [Ne.symm hik]
  case waitSleep k hw ho hr =>
    have hm : ¬ (s.sched = .loop ∨ s.sched = .notify ∨ ∃ r, s.sched = .remove r) := by rw [← h1, ho]; simp
    refine ⟨by simpa using hm, h2, fun hs hq => ?_, h4, fun i => ?_, h6, h7⟩
    · have := h3 hs hq; rw [ho] at this; simpa using this
    · simp only []
      split
      · simp
      · rename_i hik; rw [h5, ho]; simp [Ne.symm hik]
  case spurious k hw =>
    refine ⟨h1, h2, h3, h4, fun i => ?_, h6, h7⟩
    simp only []
    split
    · rename_i hik; subst hik
      have := h5 i; rw [hw] at this; simpa using this
    · exact h5 i
  case stops r => exact ⟨h1, h2, h3, h4, h5, h6, h7⟩

theorem step_native {a : Actor} {s s' : Sync} (h : Step a s s') : s'.native = s.native := by cases h <;> rfl

theorem reachable_native {native : Bool} {s : Sync} (h : Reachable native s) : s.native = native := by
  induction h with
  | start => rfl
  | step _ hn ih => obtain ⟨a, ha⟩ := hn; rw [step_native ha, ih]

theorem reachable_inv {native : Bool} {s : Sync} (h : Reachable native s) : Inv s := by
  induction h with
  | start => exact inv_start native
  | step _ hn ih => obtain ⟨a, ha⟩ := hn; exact inv_step ih ha

/-! ### C40 -/

/-- In every interleaving of any number of adding, killing and waiting threads with the scheduler: the scheduler is asleep with something in its queue only while the thread that has just
put it there still holds the mutex and is about to signal; and before it falls asleep, a signal is pending or about to come. -/
theorem C40_no_lost_wakeup {native : Bool} {s : Sync} (h : Reachable native s) :
    (s.sched = .asleep → s.queue ≠ [] → s.owner = .added) ∧
    (s.sched = .top ∨ s.sched = .acquire → s.queue ≠ [] → s.sem = true ∨ s.owner = .added) ∧
    (s.sched = .asleep → s.sem = false) := by
  have hi := reachable_inv h
  refine ⟨fun hs hq => ?_, fun hs => hi.pending ?_, hi.sleeps⟩
  · rcases hi.pending (.inr (.inr hs)) hq with h' | h'
    · rw [hi.sleeps hs] at h'; cases h'
    · exact h'
  · rcases hs with h | h
    · exact .inl h
    · exact .inr (.inl h)

/-- The IP or thread the scheduler removes from its queue is the one it has served, whatever was added meanwhile; no IP is ever queued twice. -/
theorem C40_removes_the_served {native : Bool} {s : Sync} (h : Reachable native s) :
    (∀ r, s.sched = .remove r → ∃ t, s.queue = r :: t) ∧ s.runners.Nodup :=
  ⟨fun r hr => (reachable_inv h).front r (.inr (.inr hr)), (reachable_inv h).nodup⟩

/-- The mutex is held by one thread at a time, and the scheduler touches its queue only while it holds it. -/
theorem C40_mutex {native : Bool} {s : Sync} (h : Reachable native s) :
    (s.owner = .sched ↔ s.sched = .loop ∨ s.sched = .notify ∨ ∃ r, s.sched = .remove r) ∧ ∀ k, s.wait k = .holds ↔ s.owner = .waiter k :=
  ⟨(reachable_inv h).mine, (reachable_inv h).holds⟩

/-- The IP `r` is in the queue, `i` places from the front, and is not the one just being served. -/
def Queued (s : Sync) (r i : Nat) : Prop := s.runners[i]? = some r ∧ (i = 0 → ∀ x, ¬ s.Serves x)

/-- A measure of what the scheduler has to do before it serves the IP `i` places from the front. -/
def rank (s : Sync) (i : Nat) : Nat :=
  let b := if s.sem then 0 else 2
  match s.sched with
  | .top => 5 * i + 4 + b
  | .acquire => 5 * i + 3 + b
  | .asleep => 5 * i + 2 + b
  | .lock => 5 * i + 1
  | .loop => 5 * i
  | .busy _ => 5 * i - 1
  | .relock _ => 5 * i - 2
  | .remove _ => 5 * i - 3
  | .notify => 5 * i + 1
  | .done => 0

/-- Each step of the scheduler brings a queued IP nearer to being served, or serves it. -/
theorem C40_scheduler_gets_nearer {s s' : Sync} (h : Reachable false s) (hr : s.running = true) {r i : Nat} (hq : s.Queued r i)
    (hs : Step .sched s s') : (s'.sched = .busy r) ∨ ∃ j, s'.Queued r j ∧ rank s' j < rank s i := by
  have hi := reachable_inv h
  have hn := reachable_native h
  obtain ⟨hq1, hq2⟩ := hq
  have hne : s.queue ≠ [] := by rw [queue_funge hn]; rintro h0; rw [h0] at hq1; cases hq1
  cases hs
  case top h =>
    refine .inr ⟨i, ⟨hq1, fun _ x => by simp [Serves, hr]⟩, ?_⟩
    simp only [rank, h, hr, if_true]; omega
  case acquired h hs =>
    refine .inr ⟨i, ⟨hq1, fun _ x => by simp [Serves]⟩, ?_⟩
    simp only [rank, h, hs]; simp
  case sleep h hs =>
    refine .inr ⟨i, ⟨hq1, fun _ x => by simp [Serves]⟩, ?_⟩
    simp only [rank, h, hs]; simp
  case lock h ho =>
    refine .inr ⟨i, ⟨hq1, fun _ x => by simp [Serves]⟩, ?_⟩
    simp only [rank, h]; omega
  case front x t h hx =>
    rw [queue_funge hn] at hx
    cases i with
    | zero => left; rw [hx] at hq1; simp at hq1; simp [hq1]
    | succ i =>
      refine .inr ⟨i + 1, ⟨hq1, fun h0 => by omega⟩, ?_⟩
      simp only [rank, h]; omega
  case empty h hx => exact absurd hx hne
  case ticked x h _ =>
    have : i ≠ 0 := fun h0 => hq2 h0 x (.inl h)
    refine .inr ⟨i, ⟨hq1, fun h0 => absurd h0 this⟩, ?_⟩
    simp only [rank, h]; omega
  case joined x h hn' _ => rw [hn] at hn'; cases hn'
  case relock x h ho =>
    have : i ≠ 0 := fun h0 => hq2 h0 x (.inr (.inl h))
    refine .inr ⟨i, ⟨hq1, fun h0 => absurd h0 this⟩, ?_⟩
    simp only [rank, h]; omega
  case requeue x h _ ha =>
    have hi0 : i ≠ 0 := fun h0 => hq2 h0 x (.inr (.inr h))
    obtain ⟨j, rfl⟩ : ∃ j, i = j + 1 := ⟨i - 1, by omega⟩
    refine .inr ⟨j, ⟨?_, fun _ y => by simp [Serves]⟩, ?_⟩
    · obtain ⟨t, ht⟩ := hi.front x (.inr (.inr h))
      rw [queue_funge hn] at ht
      rw [ht, List.getElem?_cons_succ] at hq1
      show (s.runners.tail ++ [x])[j]? = some r
      rw [ht, List.tail_cons, List.getElem?_append_left, hq1]
      exact (List.getElem?_eq_some_iff.mp hq1).1
    · simp only [rank, h]; omega
  case reap x h _ ha =>
    have hi0 : i ≠ 0 := fun h0 => hq2 h0 x (.inr (.inr h))
    obtain ⟨j, rfl⟩ : ∃ j, i = j + 1 := ⟨i - 1, by omega⟩
    refine .inr ⟨j, ⟨?_, fun _ y => by simp [Serves]⟩, ?_⟩
    · obtain ⟨t, ht⟩ := hi.front x (.inr (.inr h))
      rw [queue_funge hn] at ht
      rw [ht, List.getElem?_cons_succ] at hq1
      show s.runners.tail[j]? = some r
      rw [ht, List.tail_cons, hq1]
    · simp only [rank, h]; omega
  case notify h =>
    refine .inr ⟨i, ⟨hq1, fun _ y => by simp [Serves]⟩, ?_⟩
    simp only [rank, h]; omega
  case popThread x h hn' => rw [hn] at hn'; cases hn'

/-- No step of another thread sets it back, unless the universe is killed; and if the scheduler is asleep the one that wakes it brings the IP nearer. -/
theorem C40_others_do_not_hinder {a : Actor} {s s' : Sync} (h : Reachable false s) {r i : Nat} (hq : s.Queued r i) (hs : Step a s s') (ha : a ≠ .sched) :
    s'.Queued r i ∧ rank s' i ≤ rank s i ∧ (s.sched = .asleep → s'.sched ≠ .asleep → rank s' i < rank s i) := by
  have hi := reachable_inv h
  obtain ⟨hq1, hq2⟩ := hq
  have hsame : ∀ t : Sync, t.sched = s.sched → t.sem = s.sem → t.runners[i]? = some r →
      t.Queued r i ∧ rank t i ≤ rank s i ∧ (s.sched = .asleep → t.sched ≠ .asleep → rank t i < rank s i) := by
    intro t h1 h2 h3
    refine ⟨⟨h3, fun h0 x => ?_⟩, ?_, fun h4 h5 => absurd (h1.trans h4) h5⟩
    · have := hq2 h0 x; simpa [Serves, h1] using this
    · simp only [rank, h1, h2]; exact Nat.le_refl _
  have hrel : ∀ o, ({ s.release with owner := o } : Sync).Queued r i ∧ rank { s.release with owner := o } i ≤ rank s i ∧
      (s.sched = .asleep → ({ s.release with owner := o } : Sync).sched ≠ .asleep → rank { s.release with owner := o } i < rank s i) := by
    intro o
    by_cases hs : s.sched = .asleep
    · have := hi.sleeps hs
      refine ⟨⟨hq1, fun _ x => by simp [Serves, release, hs]⟩, ?_, fun _ _ => ?_⟩
      · simp only [rank, release, hs, this]; simp
      · simp only [rank, release, hs, this]; simp
    · refine ⟨⟨hq1, fun h0 x => ?_⟩, ?_, fun h4 => absurd h4 hs⟩
      · have := hq2 h0 x; simpa [Serves, release, hs] using this
      · simp only [rank, release, hs, if_false]
        cases s.sem <;> cases s.sched <;> simp <;> omega
  cases hs
  all_goals first
    | exact absurd rfl ha
    | exact hrel _
    | exact hsame _ rfl rfl hq1
    | skip
  case addPush x ho hr ht =>
    refine hsame _ rfl rfl ?_
    show (s.runners ++ [x])[i]? = some r
    rw [List.getElem?_append_left (List.getElem?_eq_some_iff.mp hq1).1, hq1]

theorem above : (l : List Nat) → ∃ b, ∀ x ∈ l, x < b
  | [] => ⟨0, by simp⟩
  | a :: t => by
    obtain ⟨b, hb⟩ := above t
    refine ⟨a + b + 1, fun x hx => ?_⟩
    rcases List.mem_cons.mp hx with rfl | hx
    · omega
    · have := hb x hx; omega

/-- Nothing is ever stuck: while an IP is queued and the universe is not killed, the scheduler can take a step, or the thread that holds the mutex can, which is none that is waiting for anything.
With the two theorems above an IP that is added is served after finitely many steps, if every thread that can take a step takes one at some time and no instruction runs for ever. -/
theorem C40_never_stuck {s : Sync} (h : Reachable false s) (hr : s.running = true) (hq : s.runners ≠ []) :
    (∃ s', Step .sched s s') ∨ (s.owner ≠ .free ∧ s.owner ≠ .sched ∧ ∃ a s', Step a s s' ∧ a ≠ .sched ∧ ∀ x, a ≠ .ip x) := by
  have hi := reachable_inv h
  have hn := reachable_native h
  have hne : s.queue ≠ [] := by rw [queue_funge hn]; exact hq
  have hother : s.owner ≠ .free → s.owner ≠ .sched → ∃ a s', Step a s s' ∧ a ≠ .sched ∧ ∀ x, a ≠ .ip x := by
    intro h1 h2
    cases ho : s.owner with
    | free => exact absurd ho h1
    | sched => exact absurd ho h2
    | adding =>
      have : ∃ x, x ∉ s.runners ++ s.threads := by
        obtain ⟨b, hb⟩ := above (s.runners ++ s.threads)
        exact ⟨b, fun hm => absurd (hb b hm) (Nat.lt_irrefl b)⟩
      obtain ⟨x, hx⟩ := this
      rw [List.mem_append, not_or] at hx
      exact ⟨_, _, .addPush s x ho hx.1 hx.2, by simp, by simp⟩
    | added => exact ⟨_, _, .addRelease s ho, by simp, by simp⟩
    | signalled => exact ⟨_, _, .addUnlock s ho, by simp, by simp⟩
    | killing => exact ⟨_, _, .killStop s ho, by simp, by simp⟩
    | killed => exact ⟨_, _, .killRelease s ho, by simp, by simp⟩
    | killSignalled => exact ⟨_, _, .killNotify s ho, by simp, by simp⟩
    | killNotified => exact ⟨_, _, .killUnlock s ho, by simp, by simp⟩
    | waiter k =>
      have hw := (hi.holds k).mpr ho
      cases hrun : s.isRunning
      · exact ⟨_, _, .waitReturn s k hw ho hrun, by simp, by simp⟩
      · exact ⟨_, _, .waitSleep s k hw ho hrun, by simp, by simp⟩
  have hlock : (s.owner = .free → ∃ s', Step .sched s s') → s.owner ≠ .sched →
      (∃ s', Step .sched s s') ∨ (s.owner ≠ .free ∧ s.owner ≠ .sched ∧ ∃ a s', Step a s s' ∧ a ≠ .sched ∧ ∀ x, a ≠ .ip x) := by
    intro h1 h2
    by_cases hf : s.owner = .free
    · exact .inl (h1 hf)
    · exact .inr ⟨hf, h2, hother hf h2⟩
  cases hs : s.sched with
  | top => exact .inl ⟨_, .top s hs⟩
  | acquire =>
    cases hsem : s.sem
    · exact .inl ⟨_, .sleep s hs hsem⟩
    · exact .inl ⟨_, .acquired s hs hsem⟩
  | asleep =>
    have ho := (C40_no_lost_wakeup h).1 hs hne
    exact .inr ⟨by simp [ho], by simp [ho], hother (by simp [ho]) (by simp [ho])⟩
  | lock => exact hlock (fun hf => ⟨_, .lock s hs hf⟩) (by rw [ne_eq, hi.mine, hs]; simp)
  | loop =>
    cases hqq : s.queue with
    | nil => exact absurd hqq hne
    | cons x t => exact .inl ⟨_, .front s x t hs hqq⟩
  | busy x => exact .inl ⟨_, .ticked s x hs hn⟩
  | relock x => exact hlock (fun hf => ⟨_, .relock s x hs hf⟩) (by rw [ne_eq, hi.mine, hs]; simp)
  | remove x =>
    cases ha : s.alive x
    · exact .inl ⟨_, .reap s x hs hn ha⟩
    · exact .inl ⟨_, .requeue s x hs hn ha⟩
  | notify => exact .inl ⟨_, .notify s hs⟩
  | done => rw [hi.over hs] at hr; cases hr

/-- Such states are reached: two IPs are queued, the scheduler is serving the first. -/
example : ∃ s : Sync, Reachable false s ∧ s.running = true ∧ s.Queued 2 1 ∧ s.sched = .busy 1 := by
  have h0 := Reachable.start (native := false)
  have h1 := h0.step ⟨_, .addLock _ rfl⟩
  have h2 := h1.step ⟨_, .addPush _ 1 rfl (by simp) (by simp)⟩
  have h3 := h2.step ⟨_, .addRelease _ rfl⟩
  have h4 := h3.step ⟨_, .addUnlock _ rfl⟩
  have h5 := h4.step ⟨_, .addLock _ rfl⟩
  have h6 := h5.step ⟨_, .addPush _ 2 rfl (by simp [release]) (by simp [release])⟩
  have h7 := h6.step ⟨_, .addRelease _ rfl⟩
  have h8 := h7.step ⟨_, .addUnlock _ rfl⟩
  have h9 := h8.step ⟨_, .top _ rfl⟩
  have h10 := h9.step ⟨_, .acquired _ rfl rfl⟩
  have h11 := h10.step ⟨_, .lock _ rfl rfl⟩
  have h12 := h11.step ⟨_, .front _ 1 [2] rfl rfl⟩
  exact ⟨_, h12, rfl, ⟨rfl, fun h => by cases h⟩, rfl⟩

/-! ### C41 -/

theorem asleep_running {s : Sync} (h : Reachable false s) {k : Nat} (hw : s.wait k = .asleep) :
    (s.running = true ∧ s.runners ≠ []) ∨ s.sched = .notify ∨ s.owner = .killed ∨ s.owner = .killSignalled := by
  induction h with
  | start => cases hw
  | @step s s' hs hn ih =>
    obtain ⟨a, ha⟩ := hn
    have hi := reachable_inv hs
    have hnat := reachable_native hs
    have hm := hi.mine
    cases ha
    case top h =>
      rcases ih hw with h' | h' | h' | h'
      · exact .inl h'
      · rw [h] at h'; cases h'
      · exact .inr (.inr (.inl h'))
      · exact .inr (.inr (.inr h'))
    case front r t h _ =>
      have ho := hm.mpr (.inl h)
      rcases ih hw with h' | h' | h' | h'
      · exact .inl h'
      · rw [h] at h'; cases h'
      · rw [ho] at h'; cases h'
      · rw [ho] at h'; cases h'
    case empty h hq =>
      have ho := hm.mpr (.inl h)
      rcases ih hw with h' | h' | h' | h'
      · rw [queue_funge hnat] at hq; exact absurd hq h'.2
      · rw [h] at h'; cases h'
      · rw [ho] at h'; cases h'
      · rw [ho] at h'; cases h'
    case lock h ho =>
      rcases ih hw with h' | h' | h' | h'
      · exact .inl h'
      · rw [h] at h'; cases h'
      · rw [ho] at h'; cases h'
      · rw [ho] at h'; cases h'
    case relock r h ho =>
      rcases ih hw with h' | h' | h' | h'
      · exact .inl h'
      · rw [h] at h'; cases h'
      · rw [ho] at h'; cases h'
      · rw [ho] at h'; cases h'
    case requeue r h _ ha =>
      have ho := hm.mpr (.inr (.inr ⟨r, h⟩))
      rcases ih hw with h' | h' | h' | h'
      · exact .inl ⟨h'.1, by simp⟩
      · rw [h] at h'; cases h'
      · rw [ho] at h'; cases h'
      · rw [ho] at h'; cases h'
    case reap r h _ ha => exact .inr (.inl rfl)
    case notify h => simp [notifyAll] at hw; split at hw <;> simp_all
    case popThread r h hn' => rw [hnat] at hn'; cases hn'
    case joined r h hn' _ => rw [hnat] at hn'; cases hn'
    case acquired h _ =>
      rcases ih hw with h' | h' | h' | h'
      · exact .inl h'
      · rw [h] at h'; cases h'
      · exact .inr (.inr (.inl h'))
      · exact .inr (.inr (.inr h'))
    case sleep h _ =>
      rcases ih hw with h' | h' | h' | h'
      · exact .inl h'
      · rw [h] at h'; cases h'
      · exact .inr (.inr (.inl h'))
      · exact .inr (.inr (.inr h'))
    case ticked r h _ =>
      rcases ih hw with h' | h' | h' | h'
      · exact .inl h'
      · rw [h] at h'; cases h'
      · exact .inr (.inr (.inl h'))
      · exact .inr (.inr (.inr h'))
    case killStop ho => exact .inr (.inr (.inl rfl))
    case killRelease ho => exact .inr (.inr (.inr rfl))
    case killNotify ho => simp [notifyAll] at hw; split at hw <;> simp_all
    case addPush r ho _ _ =>
      rcases ih hw with h' | h' | h' | h'
      · exact .inl ⟨h'.1, by simp⟩
      · have := hm.mpr (.inr (.inl h')); rw [ho] at this; cases this
      · rw [ho] at h'; cases h'
      · rw [ho] at h'; cases h'
    case waitSleep j hj ho hr =>
      refine .inl ?_
      simp only [isRunning, hnat, Bool.and_eq_true] at hr
      exact ⟨hr.1, by simpa using hr.2⟩
    case waitCall j hj =>
      simp only [] at hw; split at hw
      · cases hw
      · exact ih hw
    case spurious j hj =>
      simp only [] at hw; split at hw
      · cases hw
      · exact ih hw
    case waitLock j hj ho =>
      simp only [] at hw; split at hw
      · cases hw
      · rcases ih hw with h' | h' | h' | h'
        · exact .inl h'
        · have := hm.mpr (.inr (.inl h')); rw [ho] at this; cases this
        · rw [ho] at h'; cases h'
        · rw [ho] at h'; cases h'
    case waitReturn j hj ho hr =>
      simp only [] at hw; split at hw
      · cases hw
      · rcases ih hw with h' | h' | h' | h'
        · exact .inl h'
        · have := hm.mpr (.inr (.inl h')); rw [ho] at this; cases this
        · rw [ho] at h'; cases h'
        · rw [ho] at h'; cases h'
    case stops r => exact ih hw
    all_goals
      rename_i ho
      rcases ih hw with h' | h' | h' | h'
      · exact .inl h'
      · have := hm.mpr (.inr (.inl h')); rw [ho] at this; cases this
      · rw [ho] at h'; cases h'
      · rw [ho] at h'; cases h'

theorem isRunning_funge {s : Sync} (h : s.native = false) : s.isRunning = true ↔ s.running = true ∧ s.runners ≠ [] := by
  simp [isRunning, h]

/-- With interpreted threads, in every interleaving: whenever the mutex is free, a thread sleeps in `wait` only if the universe is running, so no notification is ever lost. -/
theorem C41_no_lost_notification {s : Sync} (h : Reachable false s) (hf : s.owner = .free) {k : Nat} (hw : s.wait k = .asleep) : s.isRunning = true := by
  rw [isRunning_funge (reachable_native h)]
  rcases asleep_running h hw with h' | h' | h' | h'
  · exact h'
  · have := (reachable_inv h).mine.mpr (.inr (.inl h')); rw [hf] at this; cases this
  · rw [hf] at h'; cases h'
  · rw [hf] at h'; cases h'

/-- In both modes `wait` returns only when the universe is not running. -/
theorem C41_returns_only_then {a : Actor} {s s' : Sync} {k : Nat} (h : Step a s s') (h1 : s.wait k ≠ .returned) (h2 : s'.wait k = .returned) :
    s.isRunning = false ∧ s'.isRunning = false := by
  cases h
  case waitReturn j hj ho hr => exact ⟨hr, hr⟩
  case notify h => simp only [notifyAll] at h2; split at h2 <;> simp_all
  case killNotify h => simp only [notifyAll] at h2; split at h2 <;> simp_all
  case waitCall j hj => simp only [] at h2; split at h2 <;> simp_all
  case waitLock j hj _ => simp only [] at h2; split at h2 <;> simp_all
  case waitSleep j hj _ _ => simp only [] at h2; split at h2 <;> simp_all
  case spurious j hj => simp only [] at h2; split at h2 <;> simp_all
  all_goals exact absurd h2 h1

/-! ### Fair runs -/

/-- Who holds the mutex. -/
def holder (s : Sync) : Option Actor :=
  match s.owner with
  | .free => none
  | .sched => some .sched
  | .adding | .added | .signalled => some .adder
  | .killing | .killed | .killSignalled | .killNotified => some .killer
  | .waiter k => some (.waiter k)

/-- An endless run in which no thread that can go on is left out for ever: one that holds the mutex takes a step at some time, the scheduler takes infinitely many if infinitely often it can
(so no instruction runs for ever), and one that wants the mutex in `wait` gets it if it is free infinitely often. Nothing is asked of the threads that may add IPs or kill the universe. -/
structure Fair (σ : Nat → Sync) (α : Nat → Actor) : Prop where
  start : Reachable false (σ 0)
  steps : ∀ n, Step (α n) (σ n) (σ (n + 1))
  holder : ∀ n a, (σ n).holder = some a → ∃ m, n ≤ m ∧ α m = a
  sched : (∀ n, ∃ m, n ≤ m ∧ ∃ s', Step .sched (σ m) s') → ∀ n, ∃ m, n ≤ m ∧ α m = .sched
  waiter : ∀ k, (∀ n, ∃ m, n ≤ m ∧ (σ m).wait k = .wants ∧ (σ m).owner = .free) → ∀ n, ∃ m, n ≤ m ∧ α m = .waiter k

theorem first {P : Nat → Prop} {n : Nat} : ∀ {m : Nat}, n ≤ m → P m → ∃ m', n ≤ m' ∧ P m' ∧ ∀ i, n ≤ i → i < m' → ¬ P i := by
  intro m
  induction m using Nat.strongRecOn with
  | _ m ih =>
    intro hm hp
    by_cases h : ∃ i, n ≤ i ∧ i < m ∧ P i
    · obtain ⟨i, h1, h2, h3⟩ := h; exact ih i h2 h1 h3
    · exact ⟨m, hm, hp, fun i h1 h2 h3 => h ⟨i, h1, h2, h3⟩⟩

theorem Fair.reachable {σ : Nat → Sync} {α : Nat → Actor} (h : Fair σ α) : ∀ n, Reachable false (σ n)
  | 0 => h.start
  | n + 1 => (h.reachable n).step ⟨_, h.steps n⟩

/-- How much the holder of the mutex has to do before it lets it go. -/
def toFree (s : Sync) : Nat :=
  match s.owner with
  | .free => 0
  | .sched => match s.sched with | .loop => 1 | .notify => 2 | _ => 3
  | .adding => 3 | .added => 2 | .signalled => 1
  | .killing => 4 | .killed => 3 | .killSignalled => 2 | .killNotified => 1
  | .waiter _ => 1

theorem toFree_holder {a : Actor} {s s' : Sync} (hi : Inv s) (hn : s.native = false) (h : s.holder = some a) (hs : Step a s s') : toFree s' < toFree s := by
  have hm := hi.mine
  have hh := hi.holds
  cases hs
  case waitCall k hk =>
    have : s.owner = .waiter k := by
      unfold holder at h; split at h <;> simp_all
    rw [(hh k).mpr this] at hk; cases hk
  all_goals simp_all [holder, toFree, notifyAll]
  all_goals (try split at h) <;> (try simp_all) <;> (try (cases s.sched <;> simp_all))

theorem toFree_other {a b : Actor} {s s' : Sync} (hi : Inv s) (h : s.holder = some a) (hs : Step b s s') (hab : b ≠ a) :
    s'.holder = some a ∧ toFree s' = toFree s := by
  have hm := hi.mine
  have hh := hi.holds
  cases hs <;> simp_all [holder, toFree] <;> (try split at h) <;> (try simp_all)

theorem Fair.stays {σ : Nat → Sync} {α : Nat → Actor} (h : Fair σ α) {n : Nat} {a : Actor} (ha : (σ n).holder = some a) :
    ∀ d, (∀ i, n ≤ i → i < n + d → α i ≠ a) → (σ (n + d)).holder = some a ∧ toFree (σ (n + d)) = toFree (σ n)
  | 0, _ => ⟨ha, rfl⟩
  | d + 1, hd => by
    obtain ⟨h1, h2⟩ := h.stays ha d (fun i hi hi' => hd i hi (by omega))
    obtain ⟨h3, h4⟩ := toFree_other (reachable_inv (h.reachable _)) h1 (h.steps _) (hd _ (by omega) (by omega))
    exact ⟨h3, h4.trans h2⟩

/-- In a fair run the mutex is free again and again. -/
theorem Fair.free_again {σ : Nat → Sync} {α : Nat → Actor} (h : Fair σ α) : ∀ n, ∃ m, n ≤ m ∧ (σ m).owner = .free := by
  suffices ∀ K n, toFree (σ n) ≤ K → ∃ m, n ≤ m ∧ (σ m).owner = .free from fun n => this _ n (Nat.le_refl _)
  intro K
  induction K with
  | zero =>
    intro n hn
    refine ⟨n, Nat.le_refl n, ?_⟩
    unfold toFree at hn
    split at hn <;> first | assumption | omega | (split at hn <;> omega)
  | succ K ih =>
    intro n hn
    cases ha : (σ n).holder with
    | none =>
      refine ⟨n, Nat.le_refl n, ?_⟩
      unfold Sync.holder at ha
      split at ha <;> first | assumption | cases ha
    | some a =>
      obtain ⟨m, hm, hm'⟩ := h.holder n a ha
      obtain ⟨m, hm, hma, hmf⟩ := first (P := fun i => α i = a) hm hm'
      obtain ⟨d, rfl⟩ : ∃ d, m = n + d := ⟨m - n, by omega⟩
      obtain ⟨h1, h2⟩ := h.stays ha d hmf
      have h3 := h.steps (n + d)
      rw [show α (n + d) = a from hma] at h3
      have h4 := toFree_holder (reachable_inv (h.reachable _)) (reachable_native (h.reachable _)) h1 h3
      obtain ⟨m, hm5, hm6⟩ := ih (n + d + 1) (by omega)
      exact ⟨m, by omega, hm6⟩

/-- In a fair run the scheduler takes infinitely many steps while an IP is there and the universe is not killed. -/
theorem Fair.sched_again {σ : Nat → Sync} {α : Nat → Actor} (h : Fair σ α) {n : Nat} (hq : ∀ m, n ≤ m → (σ m).running = true ∧ (σ m).runners ≠ []) :
    ∀ m, ∃ m', m ≤ m' ∧ α m' = .sched := by
  refine h.sched fun m => ?_
  obtain ⟨m', h1, h2⟩ := h.free_again (n + m)
  refine ⟨m', by omega, ?_⟩
  obtain ⟨h3, h4⟩ := hq m' (by omega)
  rcases C40_never_stuck (h.reachable m') h3 h4 with h5 | h5
  · exact h5
  · exact absurd h2 h5.1

theorem Fair.keeps_place {σ : Nat → Sync} {α : Nat → Actor} (h : Fair σ α) {n r i : Nat} (hq : (σ n).Queued r i) :
    ∀ d, (∀ j, n ≤ j → j < n + d → α j ≠ .sched) → (σ (n + d)).Queued r i ∧ rank (σ (n + d)) i ≤ rank (σ n) i
  | 0, _ => ⟨hq, Nat.le_refl _⟩
  | d + 1, hd => by
    obtain ⟨h1, h2⟩ := h.keeps_place hq d (fun j h1 h2 => hd j h1 (by omega))
    obtain ⟨h3, h4, -⟩ := C40_others_do_not_hinder (h.reachable _) h1 (h.steps _) (hd _ (by omega) (by omega))
    exact ⟨h3, Nat.le_trans h4 h2⟩

theorem Queued.ne_nil {s : Sync} {r i : Nat} (h : s.Queued r i) : s.runners ≠ [] := by
  intro h0; have := h.1; rw [h0] at this; cases this

/-- C40, in full: in every fair run of a universe with interpreted threads that is not killed, every IP that waits in the queue is served in the end. -/
theorem C40_eventually_served {σ : Nat → Sync} {α : Nat → Actor} (h : Fair σ α) (hr : ∀ n, (σ n).running = true) {n r i : Nat}
    (hq : (σ n).Queued r i) : ∃ m, n ≤ m ∧ (σ m).sched = .busy r := by
  suffices ∀ K n i, (σ n).Queued r i → rank (σ n) i < K → ∃ m, n ≤ m ∧ (σ m).sched = .busy r from this _ n i hq (Nat.lt_succ_self _)
  intro K
  induction K with
  | zero => intro n i _ h0; omega
  | succ K ih =>
    intro n i hq hK
    have hex : ∃ m, n ≤ m ∧ α m = .sched := by
      by_cases hs : ∃ m, n ≤ m ∧ α m = .sched
      · exact hs
      · have hno : ∀ m, n ≤ m → (σ m).running = true ∧ (σ m).runners ≠ [] := by
          intro m hm
          obtain ⟨d, rfl⟩ : ∃ d, m = n + d := ⟨m - n, by omega⟩
          exact ⟨hr _, (h.keeps_place hq d (fun j h1 _ h3 => hs ⟨j, h1, h3⟩)).1.ne_nil⟩
        exact h.sched_again hno n
    obtain ⟨m, hm, hm'⟩ := hex
    obtain ⟨m, hm, hma, hmf⟩ := first (P := fun i => α i = .sched) hm hm'
    obtain ⟨d, rfl⟩ : ∃ d, m = n + d := ⟨m - n, by omega⟩
    obtain ⟨h1, h2⟩ := h.keeps_place hq d hmf
    have h3 := h.steps (n + d)
    rw [show α (n + d) = .sched from hma] at h3
    rcases C40_scheduler_gets_nearer (h.reachable _) (hr _) h1 h3 with h4 | ⟨j, h4, h5⟩
    · exact ⟨n + d + 1, by omega, h4⟩
    · obtain ⟨m, h6, h7⟩ := ih (n + d + 1) j h4 (by omega)
      exact ⟨m, by omega, h7⟩

/-! ### All IPs have stopped -/

/-- All IPs of the universe have stopped. -/
def AllDead (s : Sync) : Prop := ∀ r ∈ s.runners, s.alive r = false

/-- A measure of what the scheduler has to do before it has removed all IPs, if they have stopped. -/
def drain (s : Sync) : Nat :=
  let b := if s.sem then 0 else 2
  8 * s.runners.length + match s.sched with
  | .top => 7 + b
  | .acquire => 6 + b
  | .asleep => 5 + b
  | .lock => 4
  | .loop => 3
  | .busy _ => 2
  | .relock _ => 1
  | .remove _ => 0
  | .notify => 4
  | .done => 0

/-- If all IPs have stopped, each step of the scheduler brings their removal nearer. -/
theorem drain_sched {s s' : Sync} (h : Reachable false s) (hr : s.running = true) (hne : s.runners ≠ []) (hd : s.AllDead) (hs : Step .sched s s') :
    s'.AllDead ∧ drain s' < drain s := by
  have hi := reachable_inv h
  have hn := reachable_native h
  cases hs
  case empty h hx => rw [queue_funge hn] at hx; exact absurd hx hne
  case joined x h hn' _ => rw [hn] at hn'; cases hn'
  case popThread x h hn' => rw [hn] at hn'; cases hn'
  case requeue x h _ ha =>
    obtain ⟨t, ht⟩ := hi.front x (.inr (.inr h))
    rw [queue_funge hn] at ht
    rw [hd x (by rw [ht]; exact List.mem_cons_self)] at ha
    cases ha
  case reap x h _ ha =>
    obtain ⟨t, ht⟩ := hi.front x (.inr (.inr h))
    rw [queue_funge hn] at ht
    refine ⟨fun y hy => hd y (List.mem_of_mem_tail hy), ?_⟩
    simp only [drain, h, ht, List.tail_cons, List.length_cons]; omega
  case top h => exact ⟨hd, by simp only [drain, h, hr, if_true]; omega⟩
  case acquired h hs => exact ⟨hd, by simp only [drain, h, hs]; simp⟩
  case sleep h hs => exact ⟨hd, by simp only [drain, h, hs]; simp⟩
  case notify h => exact ⟨hd, by simp only [drain, h, notifyAll]; omega⟩
  all_goals
    rename_i h _
    exact ⟨hd, by simp only [drain, h]; omega⟩

/-- And no step of another thread delays it, unless it adds an IP. -/
theorem drain_other {a : Actor} {s s' : Sync} (h : Reachable false s) (hd : s.AllDead) (hs : Step a s s') (ha : a ≠ .sched)
    (hadd : s'.runners.length ≤ s.runners.length) : s'.AllDead ∧ drain s' ≤ drain s ∧ s'.runners = s.runners := by
  have hi := reachable_inv h
  have hrel : ∀ o, drain { s.release with owner := o } ≤ drain s := by
    intro o
    by_cases hs : s.sched = .asleep
    · have := hi.sleeps hs
      simp only [drain, release, hs, this]; simp
    · simp only [drain, release, hs, if_false]
      cases s.sem <;> cases s.sched <;> simp
  cases hs
  all_goals first
    | exact absurd rfl ha
    | exact ⟨hd, hrel _, rfl⟩
    | exact ⟨hd, Nat.le_refl _, rfl⟩
    | skip
  case addPush x ho hr ht => simp at hadd; omega
  case killStop ho =>
    refine ⟨fun y hy => ?_, Nat.le_refl _, rfl⟩
    simp only at hy ⊢
    rw [if_pos hy]
  case stops x =>
    refine ⟨fun y hy => ?_, Nat.le_refl _, rfl⟩
    simp only
    split
    · rfl
    · exact hd y hy

theorem step_running {a : Actor} {s s' : Sync} (hs : Step a s s') (h : s.running = false) : s'.running = false := by
  cases hs <;> first | exact h | rfl

theorem Fair.killed_stays {σ : Nat → Sync} {α : Nat → Actor} (h : Fair σ α) {n : Nat} (hk : (σ n).running = false) : ∀ d, (σ (n + d)).running = false
  | 0 => hk
  | d + 1 => step_running (h.steps _) (h.killed_stays hk d)

/-- From `n` on no IP is added. -/
def NoneAdded (σ : Nat → Sync) (n : Nat) : Prop := ∀ m, n ≤ m → (σ (m + 1)).runners.length ≤ (σ m).runners.length

theorem nil_stays {σ : Nat → Sync} {n : Nat} (hadd : NoneAdded σ n) {m : Nat} (hm : n ≤ m) (h : (σ m).runners = []) : ∀ d, (σ (m + d)).runners = []
  | 0 => h
  | d + 1 => by
    have h1 := nil_stays hadd hm h d
    have h2 := hadd (m + d) (by omega)
    rw [h1] at h2
    exact List.length_eq_zero_iff.mp (Nat.le_zero.mp h2)

theorem Fair.stays_dead {σ : Nat → Sync} {α : Nat → Actor} (h : Fair σ α) {n : Nat} (hadd : NoneAdded σ n) (hd : (σ n).AllDead) :
    ∀ d, (∀ j, n ≤ j → j < n + d → α j ≠ .sched) → (σ (n + d)).AllDead ∧ drain (σ (n + d)) ≤ drain (σ n) ∧ (σ (n + d)).runners = (σ n).runners
  | 0, _ => ⟨hd, Nat.le_refl _, rfl⟩
  | d + 1, hj => by
    obtain ⟨h1, h2, h3⟩ := h.stays_dead hadd hd d (fun j h1 h2 => hj j h1 (by omega))
    obtain ⟨h4, h5, h6⟩ := drain_other (h.reachable _) h1 (h.steps _) (hj _ (by omega) (by omega)) (hadd _ (by omega))
    exact ⟨h4, Nat.le_trans h5 h2, h6.trans h3⟩

theorem Fair.drained {σ : Nat → Sync} {α : Nat → Actor} (h : Fair σ α) (hr : ∀ n, (σ n).running = true) :
    ∀ K n, NoneAdded σ n → (σ n).AllDead → drain (σ n) < K → ∃ m, n ≤ m ∧ (σ m).runners = [] := by
  intro K
  induction K with
  | zero => intro n _ _ h0; omega
  | succ K ih =>
    intro n hadd hd hK
    by_cases hnil : (σ n).runners = []
    · exact ⟨n, Nat.le_refl n, hnil⟩
    have hex : ∃ m, n ≤ m ∧ α m = .sched := by
      by_cases hs : ∃ m, n ≤ m ∧ α m = .sched
      · exact hs
      · have hno : ∀ m, n ≤ m → (σ m).running = true ∧ (σ m).runners ≠ [] := by
          intro m hm
          obtain ⟨d, rfl⟩ : ∃ d, m = n + d := ⟨m - n, by omega⟩
          refine ⟨hr _, ?_⟩
          rw [(h.stays_dead hadd hd d (fun j h1 _ h3 => hs ⟨j, h1, h3⟩)).2.2]
          exact hnil
        exact h.sched_again hno n
    obtain ⟨m, hm, hm'⟩ := hex
    obtain ⟨m, hm, hma, hmf⟩ := first (P := fun i => α i = .sched) hm hm'
    obtain ⟨d, rfl⟩ : ∃ d, m = n + d := ⟨m - n, by omega⟩
    obtain ⟨h1, h2, h3⟩ := h.stays_dead hadd hd d hmf
    have h4 := h.steps (n + d)
    rw [show α (n + d) = .sched from hma] at h4
    obtain ⟨h5, h6⟩ := drain_sched (h.reachable _) (hr _) (by rw [h3]; exact hnil) h1 h4
    obtain ⟨m, h7, h8⟩ := ih (n + d + 1) (fun m hm => hadd m (by omega)) h5 (by omega)
    exact ⟨m, by omega, h8⟩

/-- A thread that called `wait` and has not come back. -/
def Waits (s : Sync) (k : Nat) : Prop := s.wait k = .wants ∨ s.wait k = .holds ∨ s.wait k = .asleep

/-- While the universe is not running a thread that wants the mutex in `wait` waits for it, and returns when it has it. -/
theorem waits_step {a : Actor} {s s' : Sync} {k : Nat} (hs : Step a s s') (hr : s.isRunning = false) :
    (s.wait k = .wants → a ≠ .waiter k → s'.wait k = .wants) ∧ (s.wait k = .wants → a = .waiter k → s'.wait k = .holds) ∧
    (s.wait k = .holds → a ≠ .waiter k → s'.wait k = .holds) ∧ (s.wait k = .holds → a = .waiter k → s'.wait k = .returned) ∧
    (s.wait k = .asleep → s'.wait k = .asleep ∨ s'.wait k = .wants) := by
  cases hs
  case waitCall j hj => by_cases h : k = j <;> simp_all <;> (try exact Ne.symm h) <;> simp [Ne.symm h]
  case waitLock j hj ho => by_cases h : k = j <;> simp_all <;> (try exact Ne.symm h) <;> simp [Ne.symm h]
  case waitReturn j hj ho _ => by_cases h : k = j <;> simp_all <;> (try exact Ne.symm h) <;> simp [Ne.symm h]
  case spurious j hj => by_cases h : k = j <;> simp_all
  all_goals simp_all [notifyAll, release]

theorem waits_on {a : Actor} {s s' : Sync} {k : Nat} (hs : Step a s s') (h : s.Waits k ∨ s.wait k = .returned) : s'.Waits k ∨ s'.wait k = .returned := by
  cases hs
  case waitCall j hj => by_cases h : k = j <;> simp_all [Waits]
  case waitLock j hj ho => by_cases h : k = j <;> simp_all [Waits]
  case waitSleep j hj ho _ => by_cases h : k = j <;> simp_all [Waits]
  case waitReturn j hj ho _ => by_cases h : k = j <;> simp_all [Waits]
  case spurious j hj => by_cases h : k = j <;> simp_all [Waits]
  case notify h' => simp only [Waits, notifyAll] at *; split <;> simp_all
  case killNotify h' => simp only [Waits, notifyAll] at *; split <;> simp_all
  all_goals exact h

theorem Fair.waits_on {σ : Nat → Sync} {α : Nat → Actor} (h : Fair σ α) {n k : Nat} (hw : (σ n).Waits k) : ∀ d, (σ (n + d)).Waits k ∨ (σ (n + d)).wait k = .returned
  | 0 => .inl hw
  | d + 1 => Sync.waits_on (h.steps _) (h.waits_on hw d)

/-- C41 with interpreted threads: in every fair run, once all IPs have stopped and none is added any more, every thread that is in `wait` returns. -/
theorem C41_wait_returns_partial {σ : Nat → Sync} {α : Nat → Actor} (h : Fair σ α) {n k : Nat} (hadd : NoneAdded σ n) (hd : (σ n).AllDead)
    (hw : (σ n).Waits k) : ∃ m, n ≤ m ∧ (σ m).wait k = .returned := by
  have hover : ∃ N, n ≤ N ∧ ∀ m, N ≤ m → (σ m).isRunning = false := by
    by_cases hk : ∃ m, (σ m).running = false
    · obtain ⟨m, hm⟩ := hk
      refine ⟨n + m, by omega, fun i hi => ?_⟩
      have := h.killed_stays hm (i - m)
      rw [show m + (i - m) = i by omega] at this
      simp [isRunning, this]
    · have hr : ∀ m, (σ m).running = true := fun m => by
        cases hm : (σ m).running
        · exact absurd ⟨m, hm⟩ hk
        · rfl
      obtain ⟨N, hN, hnil⟩ := h.drained hr _ n hadd hd (Nat.lt_succ_self _)
      refine ⟨N, hN, fun m hm => ?_⟩
      have := nil_stays hadd hN hnil (m - N)
      rw [show N + (m - N) = m by omega] at this
      simp [isRunning, reachable_native (h.reachable m), this]
  obtain ⟨N, hN, hover⟩ := hover
  obtain ⟨m, hm, hfree⟩ := h.free_again N
  have hw' := h.waits_on hw (m - n)
  rw [show n + (m - n) = m by omega] at hw'
  rcases Classical.or_iff_not_imp_right.mp hw' |> fun f => Decidable.em ((σ m).wait k = .returned) |>.symm.imp_left f with hw' | hw'
  case inr => exact ⟨m, by omega, hw'⟩
  have hwants : (σ m).wait k = .wants := by
    rcases hw' with h1 | h1 | h1
    · exact h1
    · rw [(reachable_inv (h.reachable m)).holds k, hfree] at h1; cases h1
    · have := C41_no_lost_notification (h.reachable m) hfree h1
      rw [hover m hm] at this; cases this
  have hkeep : ∀ d, (∀ i, m ≤ i → i < m + d → α i ≠ .waiter k) → (σ (m + d)).wait k = .wants := by
    intro d
    induction d with
    | zero => intro _; exact hwants
    | succ d ih =>
      intro hi
      exact (waits_step (h.steps (m + d)) (hover (m + d) (by omega))).1 (ih fun i h1 h2 => hi i h1 (by omega)) (hi (m + d) (by omega) (by omega))
  have hex : ∃ i, m ≤ i ∧ α i = .waiter k := by
    by_cases hs : ∃ i, m ≤ i ∧ α i = .waiter k
    · exact hs
    · refine h.waiter k (fun j => ?_) m
      obtain ⟨i, hi, hi'⟩ := h.free_again (m + j)
      refine ⟨i, by omega, ?_, hi'⟩
      have := hkeep (i - m) (fun j h1 _ h3 => hs ⟨j, h1, h3⟩)
      rwa [show m + (i - m) = i by omega] at this
  obtain ⟨i, hi, hi'⟩ := hex
  obtain ⟨i, hi, hia, hif⟩ := first (P := fun i => α i = .waiter k) hi hi'
  have h1 := hkeep (i - m) (by rw [show m + (i - m) = i by omega]; exact hif)
  rw [show m + (i - m) = i by omega] at h1
  have h2 := (waits_step (h.steps _) (hover i (by omega))).2.1 h1 hia
  have h3 : (σ (i + 1)).holder = some (.waiter k) := by
    rw [Sync.holder, ((reachable_inv (h.reachable (i + 1))).holds k).mp h2]
  obtain ⟨j, hj, hj'⟩ := h.holder _ _ h3
  obtain ⟨j, hj, hja, hjf⟩ := first (P := fun i => α i = .waiter k) hj hj'
  have hkeep' : ∀ d, i + 1 + d ≤ j → (σ (i + 1 + d)).wait k = .holds := by
    intro d
    induction d with
    | zero => intro _; exact h2
    | succ d ih =>
      intro hd
      exact (waits_step (h.steps (i + 1 + d)) (hover (i + 1 + d) (by omega))).2.2.1 (ih (by omega)) (hjf (i + 1 + d) (by omega) (by omega))
  have h4 := hkeep' (j - (i + 1)) (by omega)
  rw [show i + 1 + (j - (i + 1)) = j by omega] at h4
  exact ⟨j + 1, by omega, (waits_step (h.steps _) (hover j (by omega))).2.2.2.1 h4 hja⟩

/-! ### Native threads -/

/-- A state that is reached with native threads: the only IP has stopped and its thread is joined, nobody holds the mutex, the scheduler sleeps, and thread 0 sleeps in `wait`. -/
theorem stranded_reachable : ∃ s, Reachable true s ∧ s.native = true ∧ s.running = true ∧ s.runners = [1] ∧ s.threads = [] ∧ s.alive 1 = false ∧ s.sem = false ∧ s.owner = .free ∧
    s.sched = .asleep ∧ s.wait 0 = .asleep := by
  have h0 := Reachable.start (native := true)
  have h1 := h0.step ⟨_, .addLock _ rfl⟩
  have h2 := h1.step ⟨_, .addPush _ 1 rfl (by simp) (by simp)⟩
  have h3 := h2.step ⟨_, .addRelease _ rfl⟩
  have h4 := h3.step ⟨_, .addUnlock _ rfl⟩
  have h5 := h4.step ⟨_, .waitCall _ 0 rfl⟩
  have h6 := h5.step ⟨_, .waitLock _ 0 rfl rfl⟩
  have h7 := h6.step ⟨_, .waitSleep _ 0 rfl rfl rfl⟩
  have h9 := h7.step ⟨_, .top _ rfl⟩
  have h10 := h9.step ⟨_, .acquired _ rfl rfl⟩
  have h11 := h10.step ⟨_, .lock _ rfl rfl⟩
  have h12 := h11.step ⟨_, .front _ 1 [] rfl rfl⟩
  have h13 := h12.step ⟨_, .stops _ 1⟩
  have h14 := h13.step ⟨_, .joined _ 1 rfl rfl rfl⟩
  have h15 := h14.step ⟨_, .relock _ 1 rfl rfl⟩
  have h16 := h15.step ⟨_, .popThread _ 1 rfl rfl⟩
  have h17 := h16.step ⟨_, .empty _ rfl rfl⟩
  have h18 := h17.step ⟨_, .top _ rfl⟩
  have h19 := h18.step ⟨_, .sleep _ rfl rfl⟩
  exact ⟨_, h19, rfl, rfl, rfl, rfl, rfl, rfl, rfl, rfl, rfl⟩

theorem native_never_notifies {s : Sync} (h : Reachable true s) : s.sched ≠ .notify := by
  induction h with
  | start => simp
  | @step s s' hs hn ih =>
    obtain ⟨a, ha⟩ := hn
    have hnat := reachable_native hs
    cases ha
    case top h => simp only; split <;> simp
    case addRelease ho => simp only [release]; split <;> simp_all
    case killRelease ho => simp only [release]; split <;> simp_all
    all_goals simp_all [notifyAll]

/-- Going on from one state to another, with any steps but those of a thread that kills the universe and wake-ups for no reason. -/
inductive Later : Sync → Sync → Prop
  | refl (s : Sync) : Later s s
  | step {s t u : Sync} {a : Actor} : Later s t → Step a t u → a ≠ .killer → (∀ k, a ≠ .spurious k) → Later s u

/-- C41 does not hold with native threads: nothing notifies those who wait. There is a reachable state in which every IP has stopped and its thread is joined, so that the universe is not running,
and a thread sleeps in `wait`, having found it running; and whatever happens after that, adding more IPs included, it sleeps for ever, unless the universe is killed. -/
theorem C41_false_for_native : ∃ s, Reachable true s ∧ s.isRunning = false ∧ s.threads = [] ∧ s.AllDead ∧ s.owner = .free ∧ s.wait 0 = .asleep ∧
    ∀ t, Later s t → t.wait 0 = .asleep := by
  obtain ⟨s, h, h1, h2, h3, h4, h5, h6, h7, h8, h9⟩ := stranded_reachable
  refine ⟨s, h, by simp [isRunning, h1, h4], h4, ?_, h7, h9, fun t ht => ?_⟩
  · intro r hr; rw [h3] at hr; simp at hr; rw [hr]; exact h5
  · suffices Reachable true t ∧ t.wait 0 = .asleep from this.2
    induction ht with
    | refl => exact ⟨h, h9⟩
    | @step t u a _ hstep hk hs ih =>
      have ih' := ih
      refine ⟨ih'.1.step ⟨_, hstep⟩, ?_⟩
      have hno := native_never_notifies ih'.1
      have hz := ih'.2
      cases hstep
      case notify h' => exact absurd h' hno
      case waitCall j hj => by_cases h : 0 = j <;> simp_all
      case waitLock j hj ho => by_cases h : 0 = j <;> simp_all
      case waitSleep j hj ho _ => by_cases h : 0 = j <;> simp_all
      case waitReturn j hj ho _ => by_cases h : 0 = j <;> simp_all
      case spurious j hj => exact absurd rfl (hs j)
      all_goals first | exact hz | exact absurd rfl hk

/-! ### Such runs exist

An IP is added, thread 0 waits, the IP stops, the scheduler removes it, thread 0 returns, and the scheduler sleeps for ever. -/

/-- Who takes the `n`th step. -/
def lifeActor : Nat → Actor
  | 0 => .adder
  | 1 => .adder
  | 2 => .adder
  | 3 => .adder
  | 4 => .waiter 0
  | 5 => .waiter 0
  | 6 => .waiter 0
  | 7 => .ip 1
  | 8 => .sched
  | 9 => .sched
  | 10 => .sched
  | 11 => .sched
  | 12 => .sched
  | 13 => .sched
  | 14 => .sched
  | 15 => .sched
  | 16 => .sched
  | 17 => .waiter 0
  | 18 => .waiter 0
  | 19 => .sched
  | 20 => .sched
  | _ => .ip 1

/-- What the `n`th step does. -/
def lifeStep : Nat → Sync → Sync
  | 0, s => { s with owner := .adding }
  | 1, s => { s with runners := s.runners ++ [1], threads := if s.native then s.threads ++ [1] else s.threads, alive := fun k => if k = 1 then true else s.alive k, owner := .added }
  | 2, s => { s.release with owner := .signalled }
  | 3, s => { s with owner := .free }
  | 4, s => { s with wait := fun i => if i = 0 then .wants else s.wait i }
  | 5, s => { s with wait := fun i => if i = 0 then .holds else s.wait i, owner := .waiter 0 }
  | 6, s => { s with wait := fun i => if i = 0 then .asleep else s.wait i, owner := .free }
  | 7, s => { s with alive := fun k => if k = 1 then false else s.alive k }
  | 8, s => { s with sched := if s.running then .acquire else .done }
  | 9, s => { s with sem := false, sched := .lock }
  | 10, s => { s with owner := .sched, sched := .loop }
  | 11, s => { s with owner := .free, sched := .busy 1 }
  | 12, s => { s with sched := .relock 1 }
  | 13, s => { s with owner := .sched, sched := .remove 1 }
  | 14, s => { s with runners := s.runners.tail, sched := .notify }
  | 15, s => { s.notifyAll with sched := .loop }
  | 16, s => { s with owner := .free, sched := .top }
  | 17, s => { s with wait := fun i => if i = 0 then .holds else s.wait i, owner := .waiter 0 }
  | 18, s => { s with wait := fun i => if i = 0 then .returned else s.wait i, owner := .free }
  | 19, s => { s with sched := if s.running then .acquire else .done }
  | 20, s => { s with sched := .asleep }
  | _, s => { s with alive := fun k => if k = 1 then false else s.alive k }

/-- The state after `n` steps. -/
def life : Nat → Sync
  | 0 => { native := false }
  | n + 1 => lifeStep n (life n)

theorem life_steps : ∀ n, Step (lifeActor n) (life n) (life (n + 1))
  | 0 => .addLock _ rfl
  | 1 => .addPush _ 1 rfl (by simp [life, lifeStep]) (by simp [life, lifeStep])
  | 2 => .addRelease _ rfl
  | 3 => .addUnlock _ rfl
  | 4 => .waitCall _ 0 rfl
  | 5 => .waitLock _ 0 rfl rfl
  | 6 => .waitSleep _ 0 rfl rfl rfl
  | 7 => .stops _ 1
  | 8 => .top _ rfl
  | 9 => .acquired _ rfl rfl
  | 10 => .lock _ rfl rfl
  | 11 => .front _ 1 [] rfl rfl
  | 12 => .ticked _ 1 rfl rfl
  | 13 => .relock _ 1 rfl rfl
  | 14 => .reap _ 1 rfl rfl rfl
  | 15 => .notify _ rfl
  | 16 => .empty _ rfl rfl
  | 17 => .waitLock _ 0 rfl rfl
  | 18 => .waitReturn _ 0 rfl rfl rfl
  | 19 => .top _ rfl
  | 20 => .sleep _ rfl rfl
  | n + 21 => .stops _ 1

theorem life_end : ∀ n, (life (n + 21)).sched = .asleep ∧ (life (n + 21)).owner = .free ∧ (life (n + 21)).wait = (life 21).wait ∧ (life (n + 21)).runners = [] ∧
    (life (n + 21)).running = true
  | 0 => ⟨rfl, rfl, rfl, rfl, rfl⟩
  | n + 1 => life_end n

theorem life_fair : Fair life lifeActor where
  start := .start
  steps := life_steps
  holder := by
    intro n a h
    rcases Nat.lt_or_ge n 21 with hn | hn
    · refine ⟨n, Nat.le_refl n, ?_⟩
      have hall : ∀ n, n < 21 → (life n).holder = none ∨ (life n).holder = some (lifeActor n) := by decide
      rcases hall n hn with h' | h' <;> rw [h'] at h <;> cases h
      rfl
    · obtain ⟨d, rfl⟩ : ∃ d, n = d + 21 := ⟨n - 21, by omega⟩
      rw [Sync.holder, (life_end d).2.1] at h; cases h
  sched := by
    intro h
    obtain ⟨m, hm, s', hs⟩ := h 21
    obtain ⟨d, rfl⟩ : ∃ d, m = d + 21 := ⟨m - 21, by omega⟩
    have := (life_end d).1
    cases hs <;> simp_all
  waiter := by
    intro k h
    obtain ⟨m, hm, hw, -⟩ := h 21
    obtain ⟨d, rfl⟩ : ∃ d, m = d + 21 := ⟨m - 21, by omega⟩
    rw [(life_end d).2.2.1] at hw
    revert hw
    show (if k = 0 then WaitAt.returned else _) = _ → _
    split
    · intro h; cases h
    · rename_i hk; simp [life, lifeStep, release, notifyAll, hk]

/-- The hypotheses of C40: the IP is in the queue after two steps, and it is served. -/
example : (life 2).Queued 1 0 ∧ (∀ n, (life n).running = true) ∧ ∃ m, 2 ≤ m ∧ (life m).sched = .busy 1 := by
  have hr : ∀ n, (life n).running = true := by
    intro n
    cases hn : (life n).running
    · have := life_fair.killed_stays hn 21
      rw [(life_end n).2.2.2.2] at this; cases this
    · rfl
  have hq : (life 2).Queued 1 0 := ⟨rfl, fun _ x => by simp [Serves, life, lifeStep]⟩
  exact ⟨hq, hr, C40_eventually_served life_fair hr hq⟩

/-- The hypotheses of C41: after eight steps the only IP has stopped and thread 0 sleeps in `wait`; it returns. -/
example : NoneAdded life 8 ∧ (life 8).AllDead ∧ (life 8).runners = [1] ∧ (life 8).wait 0 = .asleep ∧ ∃ m, 8 ≤ m ∧ (life m).wait 0 = .returned := by
  have h1 : NoneAdded life 8 := by
    intro m hm
    rcases Nat.lt_or_ge m 21 with hn | hn
    · have hall : ∀ m, m < 21 → 8 ≤ m → (life (m + 1)).runners.length ≤ (life m).runners.length := by decide
      exact hall m hn hm
    · obtain ⟨d, rfl⟩ : ∃ d, m = d + 21 := ⟨m - 21, by omega⟩
      exact Nat.le_refl _
  have h2 : (life 8).AllDead := by
    intro r hr
    have : (life 8).runners = [1] := rfl
    rw [this] at hr; simp at hr; subst hr; rfl
  exact ⟨h1, h2, rfl, rfl, C41_wait_returns_partial life_fair h1 h2 (.inr (.inr rfl))⟩

end Sync
end Funge
