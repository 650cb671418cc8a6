import Verif.Model.Teardown
import Verif.Props.C40_Wakeup
/-
C109: the end of a universe.
-/
namespace Funge
namespace Life

/-! ### What a step does to the lists -/

/-- What a step of Model/Sync does to the lists, and what it adds and deletes. -/
inductive Effect (a : Sync.Actor) (s s' : Sync) : Prop
  | none : s'.runners = s.runners → s'.threads = s.threads → adds a s s' = [] → reaps a s = [] → reapsThread a s = [] → Effect a s s'
  | add (r : Nat) : s'.runners = s.runners ++ [r] → s'.threads = (if s.native then s.threads ++ [r] else s.threads) → s.owner = .adding → adds a s s' = [r] → reaps a s = [] →
      reapsThread a s = [] → Effect a s s'
  | requeue (r : Nat) : s.sched = .remove r → s'.runners = s.runners.tail ++ [r] → s'.threads = s.threads → s.native = false → adds a s s' = [] → reaps a s = [] → reapsThread a s = [] → Effect a s s'
  | reap (r : Nat) : s.sched = .remove r → s'.runners = s.runners.tail → s'.threads = s.threads → s.native = false → adds a s s' = [] → reaps a s = [r] → reapsThread a s = [] → Effect a s s'
  | pop (r : Nat) : s.sched = .remove r → s'.runners = s.runners → s'.threads = s.threads.tail → s.native = true → adds a s s' = [] → reaps a s = [] → reapsThread a s = [r] → Effect a s s'

theorem effect {a : Sync.Actor} {s s' : Sync} (h : Sync.Step a s s') : Effect a s s' := by
  cases h
  case requeue r hr hn ha => exact .requeue r hr rfl rfl hn (by simp [adds]) (by simp [reaps, hr, ha]) (by simp [reapsThread, hr, hn])
  case reap r hr hn ha => exact .reap r hr rfl rfl hn (by simp [adds]) (by simp [reaps, hr, ha, hn]) (by simp [reapsThread, hr, hn])
  case popThread r hr hn => exact .pop r hr rfl rfl hn (by simp [adds]) (by simp [reaps, hr, hn]) (by simp [reapsThread, hr, hn])
  case addPush r ho h1 h2 => exact .add r rfl rfl ho (by simp [adds]) (by simp [reaps]) (by simp [reapsThread])
  all_goals
    refine .none rfl rfl ?_ ?_ ?_ <;> simp_all [adds, reaps, reapsThread, Sync.release]

/-- The runners that are still there. -/
def left (w : Life) : List Nat :=
  match w.dtor with
  | .runners l => l
  | .done => []
  | _ => w.s.runners

/-- The destructor has the mutex. -/
def Late (w : Life) : Prop := (∃ l, w.dtor = .threads l) ∨ (∃ l, w.dtor = .runners l) ∨ w.dtor = .done

structure LInv (w : Life) : Prop where
  late : w.Late → w.s.sched = .done ∧ w.s.owner = .free
  all : ∀ r, r ∈ w.added ↔ r ∈ w.left ∨ r ∈ w.deleted
  leftNodup : w.left.Nodup
  deletedNodup : w.deleted.Nodup
  apart : ∀ r ∈ w.left, r ∉ w.deleted
  threadsNodup : w.s.threads.Nodup
  threadsAdded : ∀ r ∈ w.s.threads, r ∈ w.added
  joinedAdded : ∀ r ∈ w.joined, r ∈ w.added
  joinedNodup : w.joined.Nodup
  threadsApart : ¬ w.Late → ∀ r ∈ w.s.threads, r ∉ w.joined
  threadsAre : ∀ l, w.dtor = .threads l → l = w.s.threads
  interpreted : w.s.native = false → w.s.threads = []

theorem sync_reachable {native : Bool} {w : Life} (h : Reachable native w) : Sync.Reachable native w.s := by
  induction h with
  | start => exact .start
  | step _ hs ih =>
    cases hs with
    | other a s' _ hs _ => exact .step ih ⟨a, hs⟩
    | kill _ hf => exact .step ih ⟨_, .killLock _ hf⟩
    | _ => exact ih

theorem linv_start (native : Bool) : LInv { s := { native := native } } := by
  constructor <;> simp [left, Late]

theorem left_early {w : Life} (h : ¬ w.Late) : w.left = w.s.runners := by
  unfold left
  split
  · rename_i hd; exact absurd (.inr (.inl ⟨_, hd⟩)) h
  · rename_i hd; exact absurd (.inr (.inr hd)) h
  · rfl

theorem linv_other {w : Life} {a : Sync.Actor} {s' : Sync} (hr : Sync.Inv w.s) (hi : LInv w) (hs : Sync.Step a w.s s') (hf : ∀ r ∈ adds a w.s s', r ∉ w.added)
    (hL : ¬ w.Late) {d : DtorAt} (hd : d = if w.dtor = .killing ∧ s'.owner = .free then .join else w.dtor) :
    LInv { w with s := s', added := adds a w.s s' ++ w.added, deleted := reaps a w.s ++ w.deleted, joined := reapsThread a w.s ++ w.joined, dtor := d } := by
  have hL' : ∀ s x y z, ¬ Late ⟨s, d, x, y, z⟩ := by
    intro s x y z
    rw [hd]
    unfold Late at hL ⊢
    split
    · simp
    · exact hL
  have hl : ∀ s x y z, left ⟨s, d, x, y, z⟩ = s.runners := fun s x y z => left_early (hL' s x y z)
  have hl0 := left_early hL
  have hall := hi.all
  have hln := hi.leftNodup
  have hap := hi.apart
  rw [hl0] at hln hap
  simp only [hl0] at hall
  have hta := hi.threadsApart hL
  have htn := hi.threadsNodup
  have hda := hi.deletedNodup
  have hja := hi.joinedAdded
  have hjn := hi.joinedNodup
  have htd := hi.threadsAdded
  have hnat := Sync.step_native hs
  have hint := hi.interpreted
  have key : (∀ r, r ∈ adds a w.s s' ++ w.added ↔ r ∈ s'.runners ∨ r ∈ reaps a w.s ++ w.deleted) ∧ s'.runners.Nodup ∧ (reaps a w.s ++ w.deleted).Nodup ∧
      (∀ r ∈ s'.runners, r ∉ reaps a w.s ++ w.deleted) ∧ s'.threads.Nodup ∧ (∀ r ∈ s'.threads, r ∈ adds a w.s s' ++ w.added) ∧
      (∀ r ∈ reapsThread a w.s ++ w.joined, r ∈ adds a w.s s' ++ w.added) ∧ (reapsThread a w.s ++ w.joined).Nodup ∧ (∀ r ∈ s'.threads, r ∉ reapsThread a w.s ++ w.joined) ∧
      (s'.native = false → s'.threads = []) := by
    rcases effect hs with ⟨e1, e2, e3, e4, e5⟩ | ⟨r, e1, e2, e6, e3, e4, e5⟩ | ⟨r, e0, e1, e2, e6, e3, e4, e5⟩ | ⟨r, e0, e1, e2, e6, e3, e4, e5⟩ | ⟨r, e0, e1, e2, e6, e3, e4, e5⟩
    · rw [e1, e2, e3, e4, e5, hnat]
      simp only [List.nil_append]
      exact ⟨hall, hln, hda, hap, htn, htd, hja, hjn, hta, hint⟩
    · have hnew : r ∉ w.added := hf r (by rw [e3]; exact List.mem_singleton.2 rfl)
      have h1 : r ∉ w.s.runners := fun h => hnew ((hall r).2 (.inl h))
      have h2 : r ∉ w.deleted := fun h => hnew ((hall r).2 (.inr h))
      have h3 : r ∉ w.s.threads := fun h => hnew (htd r h)
      have h4 : r ∉ w.joined := fun h => hnew (hja r h)
      rw [e1, e2, e3, e4, e5, hnat]
      simp only [List.nil_append]
      refine ⟨fun x => ?_, ?_, hda, fun x hx => ?_, ?_, fun x hx => ?_, fun x hx => List.mem_append_right _ (hja x hx), hjn, fun x hx => ?_, fun h => ?_⟩
      · simp only [List.mem_append, List.mem_singleton, hall x]; exact or_assoc.symm.trans (or_congr_left or_comm)
      · exact List.nodup_append.2 ⟨hln, (by simp), fun x hx y hy e => h1 (by rw [List.mem_singleton] at hy; rw [← hy, ← e]; exact hx)⟩
      · rcases List.mem_append.1 hx with hx | hx
        · exact hap x hx
        · rw [List.mem_singleton] at hx; rw [hx]; exact h2
      · split
        · exact List.nodup_append.2 ⟨htn, (by simp), fun x hx y hy e => h3 (by rw [List.mem_singleton] at hy; rw [← hy, ← e]; exact hx)⟩
        · exact htn
      · split at hx
        · rcases List.mem_append.1 hx with hx | hx
          · exact List.mem_append_right _ (htd x hx)
          · exact List.mem_append_left _ hx
        · exact List.mem_append_right _ (htd x hx)
      · split at hx
        · rcases List.mem_append.1 hx with hx | hx
          · exact hta x hx
          · rw [List.mem_singleton] at hx; rw [hx]; exact h4
        · exact hta x hx
      · rw [h]; exact hint h
    · obtain ⟨t, ht⟩ := hr.front r (.inr (.inr e0))
      rw [Sync.queue_funge e6] at ht
      rw [ht] at hln hall hap e1
      rw [e1, e2, e3, e4, e5, hnat]
      simp only [List.nil_append, List.tail_cons]
      have hp : (t ++ [r]).Perm (r :: t) := List.perm_append_singleton r t
      exact ⟨fun x => by rw [hp.mem_iff]; exact hall x, hp.nodup_iff.2 hln, hda, fun x hx => hap x (hp.mem_iff.1 hx), htn, htd, hja, hjn, hta, hint⟩
    · obtain ⟨t, ht⟩ := hr.front r (.inr (.inr e0))
      rw [Sync.queue_funge e6] at ht
      rw [ht] at hln hall hap e1
      rw [e1, e2, e3, e4, e5, hnat]
      simp only [List.nil_append, List.tail_cons]
      obtain ⟨hrt, hnt⟩ := List.nodup_cons.1 hln
      refine ⟨fun x => ?_, hnt, List.nodup_cons.2 ⟨hap r List.mem_cons_self, hda⟩, fun x hx hm => ?_, htn, htd, hja, hjn, hta, hint⟩
      · rw [hall x, List.mem_cons]
        simp only [List.singleton_append, List.mem_cons]
        constructor
        · rintro ((h | h) | h)
          · exact .inr (.inl h)
          · exact .inl h
          · exact .inr (.inr h)
        · rintro (h | h | h)
          · exact .inl (.inr h)
          · exact .inl (.inl h)
          · exact .inr h
      · rcases List.mem_append.1 hm with hm | hm
        · rw [List.mem_singleton] at hm; rw [hm] at hx; exact hrt hx
        · exact hap x (List.mem_cons_of_mem _ hx) hm
    · obtain ⟨t, ht⟩ := hr.front r (.inr (.inr e0))
      rw [Sync.queue_native e6] at ht
      rw [ht] at htn htd hta e2 hint
      rw [e1, e2, e3, e4, e5, hnat]
      simp only [List.nil_append, List.tail_cons]
      obtain ⟨hrt, hnt⟩ := List.nodup_cons.1 htn
      refine ⟨hall, hln, hda, hap, hnt, fun x hx => htd x (List.mem_cons_of_mem _ hx), fun x hx => ?_, List.nodup_cons.2 ⟨hta r List.mem_cons_self, hjn⟩, fun x hx hm => ?_,
        fun h => by rw [h] at e6; cases e6⟩
      · rcases List.mem_append.1 hx with hx | hx
        · rw [List.mem_singleton] at hx; rw [hx]; exact htd r List.mem_cons_self
        · exact hja x hx
      · rcases List.mem_append.1 hm with hm | hm
        · rw [List.mem_singleton] at hm; rw [hm] at hx; exact hrt hx
        · exact hta x (List.mem_cons_of_mem _ hx) hm
  obtain ⟨k1, k2, k3, k4, k5, k6, k7, k8, k9, k10⟩ := key
  exact ⟨fun h => absurd h (hL' _ _ _ _), by intro r; rw [hl]; exact k1 r, by rw [hl]; exact k2, k3, by rw [hl]; exact k4, k5, k6, k7, k8, fun _ => k9,
    fun l h => absurd (.inl ⟨l, h⟩) (hL' s' [] [] []), k10⟩

theorem linv_step {native : Bool} {w w' : Life} (hr : Reachable native w) (hi : LInv w) (h : Step w w') : LInv w' := by
  have hsi := Sync.reachable_inv (sync_reachable hr)
  cases h with
  | other a s' hp hs hf =>
    by_cases hL : w.Late
    · cases a with
      | ip r =>
        cases hs
        have hk : w.dtor ≠ .killing := by
          intro e; unfold Late at hL; rw [e] at hL; simp at hL
        have e : (if w.dtor = .killing ∧ w.s.owner = .free then DtorAt.join else w.dtor) = w.dtor := if_neg fun h => hk h.1
        have e1 : adds (.ip r) w.s { w.s with alive := fun k => if k = r then false else w.s.alive k } = [] := by simp [adds]
        have e2 : reaps (.ip r) w.s = [] := by simp [reaps]
        have e3 : reapsThread (.ip r) w.s = [] := by simp [reapsThread]
        rw [e1, e2, e3]
        dsimp only [List.nil_append]
        rw [e]
        exact ⟨hi.late, hi.all, hi.leftNodup, hi.deletedNodup, hi.apart, hi.threadsNodup, hi.threadsAdded, hi.joinedAdded, hi.joinedNodup, hi.threadsApart, hi.threadsAre, hi.interpreted⟩
      | _ =>
        exfalso
        unfold Late at hL
        rcases hL with ⟨l, e⟩ | ⟨l, e⟩ | e <;> simp [Permits, e] at hp
    · exact linv_other hsi hi hs hf hL rfl
  | call hd _ =>
    have hL : ¬ w.Late := by unfold Late; rw [hd]; simp
    have hl := left_early hL
    have hl' : left { w with dtor := .kill } = w.s.runners := rfl
    refine ⟨fun h => by simp [Late] at h, ?_, ?_, hi.deletedNodup, ?_, hi.threadsNodup, hi.threadsAdded, hi.joinedAdded, hi.joinedNodup, fun _ => hi.threadsApart hL, fun l h => (by cases h), hi.interpreted⟩
    · rw [hl', ← hl]; exact hi.all
    · rw [hl', ← hl]; exact hi.leftNodup
    · rw [hl', ← hl]; exact hi.apart
  | kill hd _ =>
    have hL : ¬ w.Late := by unfold Late; rw [hd]; simp
    have hl := left_early hL
    have hl' : left { w with s := { w.s with owner := .killing }, dtor := .killing } = w.s.runners := rfl
    refine ⟨fun h => by simp [Late] at h, ?_, ?_, hi.deletedNodup, ?_, hi.threadsNodup, hi.threadsAdded, hi.joinedAdded, hi.joinedNodup, fun _ => hi.threadsApart hL, fun l h => (by cases h), hi.interpreted⟩
    · rw [hl', ← hl]; exact hi.all
    · rw [hl', ← hl]; exact hi.leftNodup
    · rw [hl', ← hl]; exact hi.apart
  | join hd h1 h2 =>
    have hL : ¬ w.Late := by unfold Late; rw [hd]; simp
    have hl := left_early hL
    have hl' : left { w with dtor := .threads w.s.threads } = w.s.runners := rfl
    refine ⟨fun _ => ⟨h1, h2⟩, ?_, ?_, hi.deletedNodup, ?_, hi.threadsNodup, hi.threadsAdded, hi.joinedAdded, hi.joinedNodup, fun h => absurd (.inl ⟨_, rfl⟩) h, fun l h => (by cases h; rfl), hi.interpreted⟩
    · rw [hl', ← hl]; exact hi.all
    · rw [hl', ← hl]; exact hi.leftNodup
    · rw [hl', ← hl]; exact hi.apart
  | joinThread r t hd hj ha =>
    have hL : w.Late := .inl ⟨_, hd⟩
    refine ⟨hi.late, hi.all, hi.leftNodup, hi.deletedNodup, hi.apart, hi.threadsNodup, hi.threadsAdded, fun x hx => ?_, List.nodup_cons.2 ⟨hj, hi.joinedNodup⟩, fun h => absurd hL h, hi.threadsAre, hi.interpreted⟩
    rcases List.mem_cons.1 hx with rfl | hx
    · exact hi.threadsAdded x (by rw [← hi.threadsAre _ hd]; exact List.mem_cons_self)
    · exact hi.joinedAdded x hx
  | noThreads hd =>
    have hL : w.Late := .inl ⟨_, hd⟩
    have hl : w.left = w.s.runners := by unfold left; rw [hd]
    have hl' : left { w with dtor := .runners w.s.runners } = w.s.runners := rfl
    refine ⟨fun _ => hi.late hL, ?_, ?_, hi.deletedNodup, ?_, hi.threadsNodup, hi.threadsAdded, hi.joinedAdded, hi.joinedNodup, fun h => absurd (.inr (.inl ⟨_, rfl⟩)) h, fun l h => (by cases h), hi.interpreted⟩
    · rw [hl', ← hl]; exact hi.all
    · rw [hl', ← hl]; exact hi.leftNodup
    · rw [hl', ← hl]; exact hi.apart
  | deleteRunner r t hd hj =>
    have hL : w.Late := .inr (.inl ⟨_, hd⟩)
    have hl : w.left = r :: t := by unfold left; rw [hd]
    have hl' : left { w with deleted := r :: w.deleted, dtor := .runners t } = t := rfl
    have hall := hi.all
    have hln := hi.leftNodup
    have hap := hi.apart
    rw [hl] at hln hap
    simp only [hl] at hall
    obtain ⟨hrt, hnt⟩ := List.nodup_cons.1 hln
    refine ⟨fun _ => hi.late hL, fun x => ?_, ?_, List.nodup_cons.2 ⟨hj, hi.deletedNodup⟩, ?_, hi.threadsNodup, hi.threadsAdded, hi.joinedAdded, hi.joinedNodup, fun h => absurd (.inr (.inl ⟨_, rfl⟩)) h, fun l h => (by cases h), hi.interpreted⟩
    · rw [hl', hall x, List.mem_cons, List.mem_cons]
      constructor
      · rintro ((h | h) | h)
        · exact .inr (.inl h)
        · exact .inl h
        · exact .inr (.inr h)
      · rintro (h | h | h)
        · exact .inl (.inr h)
        · exact .inl (.inl h)
        · exact .inr h
    · rw [hl']; exact hnt
    · rw [hl']
      intro x hx hm
      rcases List.mem_cons.1 hm with rfl | hm
      · exact hrt hx
      · exact hap x (List.mem_cons_of_mem _ hx) hm
  | finish hd =>
    have hL : w.Late := .inr (.inl ⟨_, hd⟩)
    have hl : w.left = [] := by unfold left; rw [hd]
    have hl' : left { w with dtor := .done } = [] := rfl
    refine ⟨fun _ => hi.late hL, ?_, ?_, hi.deletedNodup, ?_, hi.threadsNodup, hi.threadsAdded, hi.joinedAdded, hi.joinedNodup, fun h => absurd (.inr (.inr rfl)) h, fun l h => (by cases h), hi.interpreted⟩
    · rw [hl', ← hl]; exact hi.all
    · rw [hl', ← hl]; exact hi.leftNodup
    · rw [hl', ← hl]; exact hi.apart

theorem reachable_linv {native : Bool} {w : Life} (h : Reachable native w) : LInv w := by
  induction h with
  | start => exact linv_start native
  | step hr hs ih => exact linv_step hr ih hs

/-! ### C109 -/

/-- **C109** Whatever the interleaving, and with either kind of threads: no IP and no thread is deleted twice, and none is deleted that was not added. -/
theorem C109_once {native : Bool} {w : Life} (h : Reachable native w) : w.deleted.Nodup ∧ w.joined.Nodup ∧ (∀ r ∈ w.deleted, r ∈ w.added) ∧ ∀ r ∈ w.joined, r ∈ w.added :=
  ⟨(reachable_linv h).deletedNodup, (reachable_linv h).joinedNodup, fun r hr => ((reachable_linv h).all r).2 (.inr hr), (reachable_linv h).joinedAdded⟩

/-- **C109** When the destructor is done, every IP that was ever added has been deleted, once. -/
theorem C109_all {native : Bool} {w : Life} (h : Reachable native w) (hd : w.dtor = .done) (r : Nat) : r ∈ w.added → w.deleted.count r = 1 := by
  intro hr
  have hi := reachable_linv h
  have : r ∈ w.deleted := by
    rcases (hi.all r).1 hr with h | h
    · unfold left at h; rw [hd] at h; cases h
    · exact h
  exact Nat.le_antisymm (List.nodup_iff_count.1 hi.deletedNodup r) (List.one_le_count_iff.2 this)

/-- Where nothing can be said about the destructor's loop over threads. -/
theorem defined_or {native : Bool} {w : Life} (h : Reachable native w) (hu : w.Undefined) : native = true ∧ ∃ r t, w.dtor = .threads (r :: t) ∧ r ∈ w.joined := by
  have hi := reachable_linv h
  have hsi := Sync.reachable_inv (sync_reachable h)
  have hn := Sync.reachable_native (sync_reachable h)
  rcases hu with ⟨h0, r, hs, hr⟩ | ⟨h0, r, hs, hr⟩ | ⟨r, t, hd, hr⟩ | ⟨r, t, hd, hr⟩ | ⟨ho, r, hr, hd⟩
  · exfalso
    obtain ⟨t, ht⟩ := hsi.front r hs
    rw [Sync.queue_funge h0] at ht
    have hL : ¬ w.Late := fun hL => by rw [(hi.late hL).1] at hs; simp at hs
    exact hi.apart r (by rw [left_early hL, ht]; exact List.mem_cons_self) hr
  · exfalso
    obtain ⟨t, ht⟩ := hsi.front r hs
    rw [Sync.queue_native h0] at ht
    have hL : ¬ w.Late := fun hL => by rw [(hi.late hL).1] at hs; simp at hs
    exact hi.threadsApart hL r (by rw [ht]; exact List.mem_cons_self) hr
  · refine ⟨?_, r, t, hd, hr⟩
    cases hb : native with
    | true => rfl
    | false =>
      have := hi.threadsAre _ hd
      rw [hi.interpreted (hn.trans hb)] at this
      cases this
  · exfalso
    exact hi.apart r (by unfold left; rw [hd]; exact List.mem_cons_self) hr
  · exfalso
    have hL : ¬ w.Late := fun hL => by rw [(hi.late hL).2] at ho; cases ho
    exact hi.apart r (by rw [left_early hL]; exact hr) hd

/-- **C109** (partial: with interpreted threads) No thread ever uses an IP or a thread that has been deleted: neither the scheduler, nor `killAll`, nor the destructor. -/
theorem C109_defined_partial {w : Life} (h : Reachable false w) : ¬ w.Undefined := fun hu => by cases (defined_or h hu).1

/-- With native threads it is one place only where this happens: the destructor joins a thread that it has joined and deleted before. -/
theorem C109_native_partial {w : Life} (h : Reachable true w) (hu : w.Undefined) : ∃ r t, w.dtor = .threads (r :: t) ∧ r ∈ w.joined := (defined_or h hu).2

/-- And there it happens whenever the destructor finds a thread that has not been joined: whatever is done next, and done by it, is to use that thread again. -/
theorem C109_undefined_for_any_thread {w w' : Life} {r : Nat} {t : List Nat} (hd : w.dtor = .threads (r :: t)) (h : Step w w') : w'.dtor = .threads (r :: t) ∧ (w'.joined ≠ w.joined → w'.Undefined) := by
  cases h with
  | other a s' hp hs hf =>
    have e : (if w.dtor = .killing ∧ s'.owner = .free then DtorAt.join else w.dtor) = w.dtor := if_neg fun h => by rw [hd] at h; cases h.1
    refine ⟨by dsimp only; rw [e, hd], fun hne => ?_⟩
    cases a with
    | ip r => exact absurd (by simp [reapsThread]) hne
    | _ => simp [Permits, hd] at hp
  | joinThread r' t' hd' hj ha =>
    rw [hd] at hd'
    cases hd'
    exact ⟨hd, fun _ => .inr (.inr (.inl ⟨r, t, hd, List.mem_cons_self⟩))⟩
  | call hd' => rw [hd] at hd'; cases hd'
  | kill hd' => rw [hd] at hd'; cases hd'
  | join hd' => rw [hd] at hd'; cases hd'
  | noThreads hd' => rw [hd] at hd'; cases hd'
  | deleteRunner _ _ hd' => rw [hd] at hd'; cases hd'
  | finish hd' => rw [hd] at hd'; cases hd'

/-- The program `q` with native threads, if its thread is quicker than the scheduler's: the IP is added and kills the universe, the thread that waits for the universe returns, the destructor is
called, and only then the scheduler looks at `running`. -/
theorem C109_undefined_for_native : ∃ w, Reachable true w ∧ w.Undefined ∧ w.added = [0] ∧ w.s.wait 0 = .returned := by
  have h := Reachable.start (native := true)
  replace h := h.step (.other _ .adder _ (.inl rfl) (.addLock _ rfl) (by decide))
  replace h := h.step (.other _ .adder _ (.inl rfl) (.addPush _ 0 rfl (by decide) (by decide)) (by decide))
  replace h := h.step (.other _ .adder _ (.inl rfl) (.addRelease _ rfl) (by decide))
  replace h := h.step (.other _ .adder _ (.inl rfl) (.addUnlock _ rfl) (by decide))
  replace h := h.step (.other _ .killer _ (.inl rfl) (.killLock _ rfl) (by decide))
  replace h := h.step (.other _ .killer _ (.inl rfl) (.killStop _ rfl) (by decide))
  replace h := h.step (.other _ .killer _ (.inl rfl) (.killRelease _ rfl) (by decide))
  replace h := h.step (.other _ .killer _ (.inl rfl) (.killNotify _ rfl) (by decide))
  replace h := h.step (.other _ .killer _ (.inl rfl) (.killUnlock _ rfl) (by decide))
  replace h := h.step (.other _ (.waiter 0) _ rfl (.waitCall _ 0 rfl) (by decide))
  replace h := h.step (.other _ (.waiter 0) _ rfl (.waitLock _ 0 rfl rfl) (by decide))
  replace h := h.step (.other _ (.waiter 0) _ rfl (.waitReturn _ 0 rfl rfl rfl) (by decide))
  replace h := h.step (.call _ rfl (by intro k; cases k with | zero => exact .inr rfl | succ k => exact .inl rfl))
  replace h := h.step (.kill _ rfl rfl)
  replace h := h.step (.other _ .killer _ (.inr ⟨.inr (.inl rfl), .inl (by decide)⟩) (.killStop _ rfl) (by decide))
  replace h := h.step (.other _ .killer _ (.inr ⟨.inr (.inl rfl), .inl (by decide)⟩) (.killRelease _ rfl) (by decide))
  replace h := h.step (.other _ .killer _ (.inr ⟨.inr (.inl rfl), .inl (by decide)⟩) (.killNotify _ rfl) (by decide))
  replace h := h.step (.other _ .killer _ (.inr ⟨.inr (.inl rfl), .inl (by decide)⟩) (.killUnlock _ rfl) (by decide))
  replace h := h.step (.other _ .sched _ (.inr (.inr (.inr rfl))) (.top _ rfl) (by decide))
  replace h := h.step (.join _ rfl rfl rfl)
  replace h := h.step (.joinThread _ 0 [] rfl (by decide) rfl)
  exact ⟨_, h, .inr (.inr (.inl ⟨0, [], rfl, by decide⟩)), rfl, rfl⟩

/-! ### Does the destructor come to an end? -/

/-- Some steps. -/
inductive Steps : Life → Life → Prop
  | refl (w) : Steps w w
  | step {w w' w''} : Step w w' → Steps w' w'' → Steps w w''

theorem Steps.trans {a b c : Life} (h : Steps a b) (h' : Steps b c) : Steps a c := by
  induction h with
  | refl => exact h'
  | step s _ ih => exact .step s (ih h')

/-- A thread is in `killAll`; if it has come to it, the universe is not running. -/
def Kills (s : Sync) : Prop := s.owner = .killing ∨ ((s.owner = .killed ∨ s.owner = .killSignalled ∨ s.owner = .killNotified) ∧ s.running = false)

theorem kills_step {a : Sync.Actor} {s s' : Sync} (hi : Sync.Inv s) (h : Kills s) (hs : Sync.Step a s s') : Kills s' ∨ (s'.owner = .free ∧ s'.running = false) := by
  have hm := hi.mine
  unfold Kills at *
  cases hs <;> simp_all [Sync.release, Sync.notifyAll]

/-- A killed universe wakes its scheduler up. -/
def Woken (s : Sync) : Prop := s.running = false → s.sched = .acquire ∨ s.sched = .asleep → s.sem = true ∨ s.owner = .killed

theorem woken_step {a : Sync.Actor} {s s' : Sync} (hi : Sync.Inv s) (h : Woken s) (hs : Sync.Step a s s') : Woken s' := by
  have hm := hi.mine
  unfold Woken at *
  cases hs <;> simp_all [Sync.release, Sync.notifyAll]

structure KInv (w : Life) : Prop where
  woken : Woken w.s
  kills : w.dtor = .killing → Kills w.s
  joins : w.dtor = .join → w.s.running = false

theorem kinv_step {native : Bool} {w w' : Life} (hr : Reachable native w) (hi : KInv w) (h : Step w w') : KInv w' := by
  have hsi := Sync.reachable_inv (sync_reachable hr)
  obtain ⟨h1, h2, h3⟩ := hi
  cases h with
  | other a s' hp hs hf =>
    refine ⟨woken_step hsi h1 hs, fun hd => ?_, fun hd => ?_⟩
    · dsimp only at hd ⊢
      split at hd
      · cases hd
      · rename_i hn
        rcases kills_step hsi (h2 hd) hs with h | h
        · exact h
        · exact absurd ⟨hd, h.1⟩ hn
    · dsimp only at hd ⊢
      split at hd
      · rename_i hn
        rcases kills_step hsi (h2 hn.1) hs with h | h
        · unfold Kills at h; simp [hn.2] at h
        · exact h.2
      · exact Sync.step_running hs (h3 hd)
  | call hd => exact ⟨h1, fun h => (by cases h), fun h => (by cases h)⟩
  | kill hd hf => exact ⟨fun hr hs => (h1 hr hs).imp id fun h => (by rw [hf] at h; cases h), fun _ => .inl rfl, fun h => (by cases h)⟩
  | join => exact ⟨h1, fun h => (by cases h), fun h => (by cases h)⟩
  | joinThread r t hd => exact ⟨h1, h2, h3⟩
  | noThreads => exact ⟨h1, fun h => (by cases h), fun h => (by cases h)⟩
  | deleteRunner => exact ⟨h1, fun h => (by cases h), fun h => (by cases h)⟩
  | finish => exact ⟨h1, fun h => (by cases h), fun h => (by cases h)⟩

theorem reachable_kinv {native : Bool} {w : Life} (h : Reachable native w) : KInv w := by
  induction h with
  | start => exact ⟨fun h => (by cases h), fun h => (by cases h), fun h => (by cases h)⟩
  | step hr hs ih => exact kinv_step hr ih hs

/-- What the scheduler has to do until it ends, if all IPs have stopped. -/
def work (s : Sync) : Nat :=
  match s.sched with
  | .done => 0
  | .top => 1
  | .loop => 5 * s.runners.length + 2
  | .lock => 5 * s.runners.length + 3
  | .acquire => 5 * s.runners.length + 4
  | .asleep => 5 * s.runners.length + 5
  | .notify => 5 * s.runners.length + 3
  | .busy _ => 5 * s.runners.length + 1
  | .relock _ => 5 * s.runners.length
  | .remove _ => 5 * s.runners.length - 1

/-- The destructor waits, all IPs have stopped, and none of them is executing an instruction that has to do with the others. -/
def Quiet (w : Life) : Prop := w.dtor = .join ∧ w.s.native = false ∧ (w.s.owner = .free ∨ w.s.owner = .sched) ∧ ∀ r ∈ w.s.runners, w.s.alive r = false

/-- The scheduler takes a step, and has less to do after it. -/
theorem quiet_step {w : Life} (hr : Reachable false w) (hq : Quiet w) (hd : w.s.sched ≠ .done) : ∃ w', Step w w' ∧ Quiet w' ∧ work w'.s < work w.s := by
  obtain ⟨hj, hn, ho, ha⟩ := hq
  have hsi := Sync.reachable_inv (sync_reachable hr)
  have hk := reachable_kinv hr
  have hrun := hk.joins hj
  have hp : w.Permits .sched := .inr (.inr (.inr hj))
  have hnk : ∀ s' : Sync, (if w.dtor = .killing ∧ s'.owner = .free then DtorAt.join else w.dtor) = .join := fun s' => by
    rw [hj]; rfl
  have go : ∀ s', Sync.Step .sched w.s s' → s'.native = false → (s'.owner = .free ∨ s'.owner = .sched) → (∀ r ∈ s'.runners, s'.alive r = false) → work s' < work w.s →
      ∃ w', Step w w' ∧ Quiet w' ∧ work w'.s < work w.s := fun s' h h1 h2 h3 h4 =>
    ⟨_, .other w .sched s' hp h (by simp [adds]), ⟨hnk s', h1, h2, h3⟩, h4⟩
  have hfree : w.s.sched = .lock ∨ (∃ r, w.s.sched = .relock r) → w.s.owner = .free := fun h => ho.resolve_right fun e => by
    have := hsi.mine.1 e
    rcases h with h | ⟨r, h⟩ <;> rw [h] at this <;> simp at this
  cases hs : w.s.sched with
  | done => exact absurd hs hd
  | top => exact go _ (.top _ hs) hn ho ha (by simp [work, hs, hrun])
  | acquire =>
    have : w.s.sem = true := (hk.woken hrun (.inl hs)).resolve_right fun e => by rw [e] at ho; rcases ho with h | h <;> cases h
    exact go _ (.acquired _ hs this) hn ho ha (by simp [work, hs])
  | asleep =>
    have h1 : w.s.sem = true := (hk.woken hrun (.inr hs)).resolve_right fun e => by rw [e] at ho; rcases ho with h | h <;> cases h
    rw [hsi.sleeps hs] at h1
    cases h1
  | lock => exact go _ (.lock _ hs (hfree (.inl hs))) hn (.inr rfl) ha (by simp [work, hs])
  | loop =>
    cases hl : w.s.runners with
    | nil => exact go _ (.empty _ hs (by rw [Sync.queue_funge hn, hl])) hn (.inl rfl) (by rw [hl]; simp) (by simp [work, hs])
    | cons r t => exact go _ (.front _ r t hs (by rw [Sync.queue_funge hn, hl])) hn (.inl rfl) ha (by simp [work, hs])
  | busy r => exact go _ (.ticked _ r hs hn) hn ho ha (by simp [work, hs])
  | relock r =>
    obtain ⟨t, ht⟩ := hsi.front r (.inr (.inl hs))
    rw [Sync.queue_funge hn] at ht
    exact go _ (.relock _ r hs (hfree (.inr ⟨r, hs⟩))) hn (.inr rfl) ha (by simp [work, hs, ht]; omega)
  | remove r =>
    obtain ⟨t, ht⟩ := hsi.front r (.inr (.inr hs))
    rw [Sync.queue_funge hn] at ht
    exact go _ (.reap _ r hs hn (ha r (by rw [ht]; exact List.mem_cons_self))) hn ho (fun x hx => ha x (List.mem_of_mem_tail hx)) (by simp [work, hs, ht]; omega)
  | notify =>
    exact go _ (.notify _ hs) hn ho ha (by simp [work, hs, Sync.notifyAll])

theorem quiet_join {w : Life} (hr : Reachable false w) (hq : Quiet w) : ∃ w', Steps w w' ∧ Reachable false w' ∧ Quiet w' ∧ w'.s.sched = .done := by
  by_cases hd : w.s.sched = .done
  · exact ⟨w, .refl w, hr, hq, hd⟩
  · obtain ⟨w', h1, h2, h3⟩ := quiet_step hr hq hd
    obtain ⟨w'', h4, h5⟩ := quiet_join (hr.step h1) h2
    exact ⟨w'', .step h1 h4, h5⟩
termination_by work w.s
decreasing_by exact h3

theorem delete_all (l : List Nat) : ∀ {w : Life}, Reachable false w → w.dtor = .runners l → ∃ w', Steps w w' ∧ w'.dtor = .done := by
  induction l with
  | nil => intro w _ hd; exact ⟨_, .step (.finish w hd) (.refl _), rfl⟩
  | cons r t ih =>
    intro w hr hd
    have hs := Step.deleteRunner w r t hd fun h => C109_defined_partial hr (.inr (.inr (.inr (.inl ⟨r, t, hd, h⟩))))
    obtain ⟨w', h1, h2⟩ := ih (hr.step hs) rfl
    exact ⟨w', .step hs h1, h2⟩

/-- **C109** (partial: with interpreted threads, and if no IP is added after the others have been stopped) The destructor comes to its end: nothing the scheduler waits for is missing. -/
theorem C109_ends_partial {w : Life} (hr : Reachable false w) (hq : Quiet w) : ∃ w', Steps w w' ∧ w'.dtor = .done := by
  obtain ⟨v, h1, h2, ⟨hj, hn, ho, ha⟩, hd⟩ := quiet_join hr hq
  have hsi := Sync.reachable_inv (sync_reachable h2)
  have ho : v.s.owner = .free := ho.resolve_right fun e => by
    have := hsi.mine.1 e; rw [hd] at this; simp at this
  have s1 := Step.join v hj hd ho
  have h3 := h2.step s1
  have s2 := Step.noThreads { v with dtor := .threads v.s.threads } (by rw [(reachable_linv h2).interpreted hn])
  obtain ⟨w', h4, h5⟩ := delete_all v.s.runners (h3.step s2) rfl
  exact ⟨w', h1.trans (.step s1 (.step s2 h4)), h5⟩

/-- An IP executes `t` while the universe is killed: its twin is added when the others have been stopped. Here the scheduler comes to it. -/
def exTwin (at' : SchedAt) (o : Owner) : Life where
  s := { native := false, running := false, runners := [1], alive := fun k => if k = 1 then true else if k ∈ [0] then false else if k = 0 then true else false, sem := true, owner := o, sched := at' }
  dtor := .join
  added := [1, 0]
  deleted := [0]

theorem exTwin_reachable : Reachable false (exTwin .loop .sched) := by
  have h := Reachable.start (native := false)
  replace h := h.step (.other _ .adder _ (.inl rfl) (.addLock _ rfl) (by decide))
  replace h := h.step (.other _ .adder _ (.inl rfl) (.addPush _ 0 rfl (by decide) (by decide)) (by decide))
  replace h := h.step (.other _ .adder _ (.inl rfl) (.addRelease _ rfl) (by decide))
  replace h := h.step (.other _ .adder _ (.inl rfl) (.addUnlock _ rfl) (by decide))
  replace h := h.step (.other _ .sched _ (.inl rfl) (.top _ rfl) (by decide))
  replace h := h.step (.other _ .sched _ (.inl rfl) (.acquired _ rfl rfl) (by decide))
  replace h := h.step (.other _ .sched _ (.inl rfl) (.lock _ rfl rfl) (by decide))
  replace h := h.step (.other _ .sched _ (.inl rfl) (.front _ 0 [] rfl rfl) (by decide))
  replace h := h.step (.call _ rfl fun _ => .inl rfl)
  replace h := h.step (.kill _ rfl rfl)
  replace h := h.step (.other _ .killer _ (.inr ⟨.inr (.inl rfl), .inl (by decide)⟩) (.killStop _ rfl) (by decide))
  replace h := h.step (.other _ .killer _ (.inr ⟨.inr (.inl rfl), .inl (by decide)⟩) (.killRelease _ rfl) (by decide))
  replace h := h.step (.other _ .killer _ (.inr ⟨.inr (.inl rfl), .inl (by decide)⟩) (.killNotify _ rfl) (by decide))
  replace h := h.step (.other _ .killer _ (.inr ⟨.inr (.inl rfl), .inl (by decide)⟩) (.killUnlock _ rfl) (by decide))
  replace h := h.step (.other _ .adder _ (.inr ⟨.inr (.inr rfl), .inr (.inl ⟨rfl, 0, rfl⟩)⟩) (.addLock _ rfl) (by decide))
  replace h := h.step (.other _ .adder _ (.inr ⟨.inr (.inr rfl), .inl (by decide)⟩) (.addPush _ 1 rfl (by decide) (by decide)) (by decide))
  replace h := h.step (.other _ .adder _ (.inr ⟨.inr (.inr rfl), .inl (by decide)⟩) (.addRelease _ rfl) (by decide))
  replace h := h.step (.other _ .adder _ (.inr ⟨.inr (.inr rfl), .inl (by decide)⟩) (.addUnlock _ rfl) (by decide))
  replace h := h.step (.other _ .sched _ (.inr (.inr (.inr rfl))) (.ticked _ 0 rfl rfl) (by decide))
  replace h := h.step (.other _ .sched _ (.inr (.inr (.inr rfl))) (.relock _ 0 rfl rfl) (by decide))
  replace h := h.step (.other _ .sched _ (.inr (.inr (.inr rfl))) (.reap _ 0 rfl rfl rfl) (by decide))
  replace h := h.step (.other _ .sched _ (.inr (.inr (.inr rfl))) (.notify _ rfl) (by decide))
  exact h

/-- The scheduler goes on with it. -/
def exOnAndOn (n : Nat) : Life :=
  if n % 4 = 0 then exTwin .loop .sched else if n % 4 = 1 then exTwin (.busy 1) .free else if n % 4 = 2 then exTwin (.relock 1) .free else exTwin (.remove 1) .sched

theorem exOnAndOn_step (n : Nat) : Step (exOnAndOn n) (exOnAndOn (n + 1)) := by
  have h : n % 4 = 0 ∨ n % 4 = 1 ∨ n % 4 = 2 ∨ n % 4 = 3 := by omega
  rcases h with h | h | h | h
  · rw [exOnAndOn, exOnAndOn, h, show (n + 1) % 4 = 1 by omega]
    exact .other (exTwin .loop .sched) .sched _ (.inr (.inr (.inr rfl))) (.front _ 1 [] rfl rfl) (by decide)
  · rw [exOnAndOn, exOnAndOn, h, show (n + 1) % 4 = 2 by omega]
    exact .other (exTwin (.busy 1) .free) .sched _ (.inr (.inr (.inr rfl))) (.ticked _ 1 rfl rfl) (by decide)
  · rw [exOnAndOn, exOnAndOn, h, show (n + 1) % 4 = 3 by omega]
    exact .other (exTwin (.relock 1) .free) .sched _ (.inr (.inr (.inr rfl))) (.relock _ 1 rfl rfl) (by decide)
  · rw [exOnAndOn, exOnAndOn, h, show (n + 1) % 4 = 0 by omega]
    exact .other (exTwin (.remove 1) .sched) .sched _ (.inr (.inr (.inr rfl))) (.requeue _ 1 rfl rfl rfl) (by decide)

/-- The missing case of `C109_ends_partial`: an IP that is added in the very moment in which the universe is killed is never stopped; it runs on, and the destructor waits for ever. -/
theorem C109_diverges_for_a_late_twin : ∃ σ : Nat → Life, Reachable false (σ 0) ∧ (∀ n, Step (σ n) (σ (n + 1))) ∧ ∀ n, (σ n).dtor = .join ∧ (σ n).s.running = false ∧ (σ (4 * n + 1)).s.sched = .busy 1 := by
  refine ⟨exOnAndOn, exTwin_reachable, exOnAndOn_step, fun n => ⟨?_, ?_, ?_⟩⟩
  · unfold exOnAndOn; split
    · rfl
    · split
      · rfl
      · split <;> rfl
  · unfold exOnAndOn; split
    · rfl
    · split
      · rfl
      · split <;> rfl
  · rw [exOnAndOn, show (4 * n + 1) % 4 = 1 by omega]; rfl

/-- A universe with an IP that has stopped, when the destructor waits for its scheduler. -/
example : ∃ w, Reachable false w ∧ Quiet w ∧ w.added = [0] ∧ w.s.runners = [0] ∧ w.deleted = [] := by
  have h := Reachable.start (native := false)
  replace h := h.step (.other _ .adder _ (.inl rfl) (.addLock _ rfl) (by decide))
  replace h := h.step (.other _ .adder _ (.inl rfl) (.addPush _ 0 rfl (by decide) (by decide)) (by decide))
  replace h := h.step (.other _ .adder _ (.inl rfl) (.addRelease _ rfl) (by decide))
  replace h := h.step (.other _ .adder _ (.inl rfl) (.addUnlock _ rfl) (by decide))
  replace h := h.step (.call _ rfl fun _ => .inl rfl)
  replace h := h.step (.kill _ rfl rfl)
  replace h := h.step (.other _ .killer _ (.inr ⟨.inr (.inl rfl), .inl (by decide)⟩) (.killStop _ rfl) (by decide))
  replace h := h.step (.other _ .killer _ (.inr ⟨.inr (.inl rfl), .inl (by decide)⟩) (.killRelease _ rfl) (by decide))
  replace h := h.step (.other _ .killer _ (.inr ⟨.inr (.inl rfl), .inl (by decide)⟩) (.killNotify _ rfl) (by decide))
  replace h := h.step (.other _ .killer _ (.inr ⟨.inr (.inl rfl), .inl (by decide)⟩) (.killUnlock _ rfl) (by decide))
  exact ⟨_, h, ⟨rfl, rfl, .inl rfl, by intro r hr; rw [List.mem_singleton.1 hr]; rfl⟩, rfl, rfl, rfl⟩

end Life
end Funge
