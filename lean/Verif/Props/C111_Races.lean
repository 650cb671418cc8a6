import Verif.Model.Access
/-
C111: shared variables are used by one thread at a time.
-/
namespace Funge
namespace Access

/-- The mutex a variable is protected by. -/
def mutexOf : Shared → Mutex
  | .universes => .multiverse
  | .mode => .stack
  | .values => .stack
  | .ops => .stack
  | _ => .universe

/-- The variable is used with its lock held, locks are taken when they are not held and given back when they are; at the beginning the lock is held or not. -/
def guarded (x : Shared) : Bool → List Ev → Bool
  | h, [] => !h
  | h, .lock m :: t => if m = mutexOf x then !h && guarded x true t else guarded x h t
  | h, .unlock m :: t => if m = mutexOf x then h && guarded x false t else guarded x h t
  | h, .read y :: t => (y ≠ x || h) && guarded x h t
  | h, .write y :: t => (y ≠ x || h) && guarded x h t

/-- From `h` to `h'`. -/
def leads (x : Shared) : Bool → List Ev → Bool → Bool
  | h, [], h' => h == h'
  | h, .lock m :: t, h' => if m = mutexOf x then !h && leads x true t h' else leads x h t h'
  | h, .unlock m :: t, h' => if m = mutexOf x then h && leads x false t h' else leads x h t h'
  | h, .read y :: t, h' => (y ≠ x || h) && leads x h t h'
  | h, .write y :: t, h' => (y ≠ x || h) && leads x h t h'

theorem guarded_leads (x : Shared) (l : List Ev) : ∀ h, guarded x h l = leads x h l false := by
  induction l with
  | nil => intro h; cases h <;> rfl
  | cons e t ih => intro h; cases e <;> simp only [guarded, leads, ih]

theorem leads_append {x : Shared} {b : List Ev} {h'' : Bool} (a : List Ev) : ∀ {h h' : Bool}, leads x h a h' = true → leads x h' b h'' = true → leads x h (a ++ b) h'' = true := by
  induction a with
  | nil => intro h h' h1 h2; rw [leads, beq_iff_eq] at h1; rw [h1]; exact h2
  | cons e t ih =>
    intro h h' h1 h2
    cases e with
    | lock m =>
      simp only [leads, List.cons_append] at h1 ⊢
      split
      · rename_i e; rw [if_pos e, Bool.and_eq_true] at h1; rw [Bool.and_eq_true]; exact ⟨h1.1, ih h1.2 h2⟩
      · rename_i e; rw [if_neg e] at h1; exact ih h1 h2
    | unlock m =>
      simp only [leads, List.cons_append] at h1 ⊢
      split
      · rename_i e; rw [if_pos e, Bool.and_eq_true] at h1; rw [Bool.and_eq_true]; exact ⟨h1.1, ih h1.2 h2⟩
      · rename_i e; rw [if_neg e] at h1; exact ih h1 h2
    | read y => simp only [leads, List.cons_append, Bool.and_eq_true] at h1 ⊢; exact ⟨h1.1, ih h1.2 h2⟩
    | write y => simp only [leads, List.cons_append, Bool.and_eq_true] at h1 ⊢; exact ⟨h1.1, ih h1.2 h2⟩

theorem leads_flatten {x : Shared} {h : Bool} (l : List (List Ev)) (hl : ∀ a ∈ l, leads x h a h = true) : leads x h l.flatten h = true := by
  induction l with
  | nil => simp [leads]
  | cons a t ih =>
    rw [List.flatten_cons]
    exact leads_append a (hl a List.mem_cons_self) (ih fun b hb => hl b (List.mem_cons_of_mem _ hb))

theorem leads_replicate {x : Shared} {h : Bool} {e : Ev} (he : leads x h [e] h = true) (n : Nat) : leads x h (List.replicate n e) h = true := by
  induction n with
  | zero => simp [leads]
  | succ n ih => exact leads_append [e] he ih

theorem leads_isRunning (x : Shared) (native : Bool) : leads x (decide (mutexOf x = .universe)) (isRunning native) (decide (mutexOf x = .universe)) = true := by
  cases x <;> cases native <;> decide

/-- Every function of `Call` uses the lists, the exit code and the table of universes with the lock held. -/
theorem leads_call {native : Bool} {l : List Ev} (h : Call native l) {x : Shared} (hx : x ≠ .running ∧ x ≠ .field) : leads x false l false = true := by
  have hd : ∀ (u : Bool), u = decide (mutexOf x = .universe) → leads x false [.lock .universe] u = true ∧ leads x u [.unlock .universe] false = true ∧
      leads x u [.unlock .universe, .lock .universe] u = true ∧ leads x u [.write .threads] u = true ∧ leads x u [.write .runners] u = true ∧
      leads x u [.read .threads] u = true ∧ leads x u [.read .runners] u = true := by
    intro u e; subst e; cases x <;> first | exact absurd rfl hx.1 | exact absurd rfl hx.2 | decide
  obtain ⟨h1, h2, h3, h4, h5, h6, h7⟩ := hd _ rfl
  have hi := leads_isRunning x native
  generalize decide (mutexOf x = .universe) = u at *
  induction h with
  | add => cases x <;> cases native <;> first | exact absurd rfl hx.1 | exact absurd rfl hx.2 | decide
  | transfer => cases x <;> first | exact absurd rfl hx.1 | exact absurd rfl hx.2 | decide
  | wait k =>
    refine leads_append _ (leads_append _ (leads_append _ h1 (leads_flatten _ fun a ha => ?_)) hi) h2
    rw [List.eq_of_mem_replicate ha]
    exact leads_append _ hi h3
  | kill => cases x <;> first | exact absurd rfl hx.1 | exact absurd rfl hx.2 | decide
  | destroy n m =>
    refine leads_append _ (leads_append _ (leads_append _ (leads_append _ ?_ h1) (leads_replicate h4 n)) (leads_replicate h5 m)) h2
    cases x <;> first | exact absurd rfl hx.1 | exact absurd rfl hx.2 | decide
  | create k =>
    cases x with
    | running => exact absurd rfl hx.1
    | universes => exact leads_append _ (leads_append _ (h' := true) (h := false) (by decide) (leads_replicate (by decide) (k + 1))) (by decide)
    | _ => exact leads_append _ (leads_append _ (h' := false) (h := false) (by decide) (leads_replicate (by decide) (k + 1))) (by decide)
  | pop => cases x <;> first | exact absurd rfl hx.1 | exact absurd rfl hx.2 | decide
  | peek => cases x <;> first | exact absurd rfl hx.1 | exact absurd rfl hx.2 | decide
  | push => cases x <;> first | exact absurd rfl hx.1 | exact absurd rfl hx.2 | decide
  | clear => cases x <;> first | exact absurd rfl hx.1 | exact absurd rfl hx.2 | decide
  | test => cases x <;> first | exact absurd rfl hx.1 | exact absurd rfl hx.2 | decide
  | nothing => rfl
  | «then» _ _ ha hb => exact leads_append _ ha hb
  | round ticks _ ih =>
    refine leads_append _ (leads_append _ h1 (leads_flatten _ fun a ha => ?_)) ?_
    · obtain ⟨t, ht, rfl⟩ := List.mem_map.1 ha
      unfold turn
      split
      · exact leads_append [_] h6 (leads_append [_, _] h3 h4)
      · exact leads_append _ (leads_append [_, _] (leads_append [_] h7 h2) (ih t ht)) (leads_append [_] h1 h5)
    · split
      · exact leads_append [_] h6 h2
      · exact leads_append [_] h7 h2

/-- What is known of the threads at any moment. -/
def Guards (s : Threads) (x : Shared) : Prop := ∀ i h, (h = true ↔ s.owner (mutexOf x) = some i) → guarded x h (s.todo i) = true

theorem upd_same {α β : Type} [DecidableEq α] (f : α → β) (a : α) (b : β) : upd f a b a = b := if_pos rfl

theorem upd_other {α β : Type} [DecidableEq α] (f : α → β) {a c : α} (b : β) (h : c ≠ a) : upd f a b c = f c := if_neg h

theorem guards_step {s s' : Threads} {x : Shared} (hg : Guards s x) (h : Step s s') : Guards s' x := by
  intro j hj hh
  cases h with
  | lock i m t e ho =>
    dsimp only at hh ⊢
    by_cases hm : m = mutexOf x
    · subst hm
      rw [upd_same] at hh
      by_cases hij : j = i
      · subst hij
        obtain rfl : hj = true := hh.2 rfl
        have := hg j false (by rw [ho]; simp)
        rw [e, guarded, if_pos rfl, Bool.and_eq_true] at this
        rw [upd_same]; exact this.2
      · obtain rfl : hj = false := by cases hj with
          | false => rfl
          | true => exact absurd (Option.some.inj (hh.1 rfl)).symm hij
        rw [upd_other _ _ hij]
        exact hg j false (by rw [ho]; simp)
    · rw [upd_other _ _ (fun e => hm e.symm)] at hh
      have := hg j hj hh
      by_cases hij : j = i
      · subst hij
        rw [e, guarded, if_neg hm] at this
        rw [upd_same]; exact this
      · rw [upd_other _ _ hij]; exact this
  | unlock i m t e =>
    dsimp only at hh ⊢
    by_cases hm : m = mutexOf x
    · subst hm
      rw [upd_same] at hh
      obtain rfl : hj = false := by cases hj with
        | false => rfl
        | true => exact absurd (hh.1 rfl) (by simp)
      have ho : s.owner (mutexOf x) = some i := by
        refine Classical.byContradiction fun hn => ?_
        have := hg i false (by simp [hn])
        rw [e, guarded, if_pos rfl] at this
        exact absurd this (by simp)
      by_cases hij : j = i
      · subst hij
        have := hg j true (by simp [ho])
        rw [e, guarded, if_pos rfl, Bool.and_eq_true] at this
        rw [upd_same]; exact this.2
      · rw [upd_other _ _ hij]
        exact hg j false (by rw [ho]; simp; exact fun e => hij e.symm)
    · rw [upd_other _ _ (fun e => hm e.symm)] at hh
      have := hg j hj hh
      by_cases hij : j = i
      · subst hij
        rw [e, guarded, if_neg hm] at this
        rw [upd_same]; exact this
      · rw [upd_other _ _ hij]; exact this
  | read i y t e =>
    have := hg j hj hh
    dsimp only
    by_cases hij : j = i
    · subst hij; rw [e, guarded, Bool.and_eq_true] at this; rw [upd_same]; exact this.2
    · rw [upd_other _ _ hij]; exact this
  | write i y t e =>
    have := hg j hj hh
    dsimp only
    by_cases hij : j = i
    · subst hij; rw [e, guarded, Bool.and_eq_true] at this; rw [upd_same]; exact this.2
    · rw [upd_other _ _ hij]; exact this

theorem guards_steps {s s' : Threads} {x : Shared} (hg : Guards s x) (h : Steps s s') : Guards s' x := by
  induction h with
  | refl => exact hg
  | snoc _ hs ih => exact guards_step ih hs

theorem Guards.owns {s : Threads} {x : Shared} (hg : Guards s x) {i : Nat} (h : guarded x false (s.todo i) = false) : s.owner (mutexOf x) = some i :=
  Classical.byContradiction fun hn => absurd (hg i false (by simp [hn])) (by rw [h]; decide)

theorem guards_race {s : Threads} {x : Shared} (hg : Guards s x) : ¬ Race s x := by
  rintro ⟨i, j, t, t', hij, hi, hj⟩
  have h1 : s.owner (mutexOf x) = some i := hg.owns (by rw [hi, guarded]; simp)
  have h2 : s.owner (mutexOf x) = some j := hg.owns (by rcases hj with hj | hj <;> (rw [hj, guarded]; simp))
  exact hij (Option.some.inj (h1.symm.trans h2))

theorem guards_calls {native : Bool} {s : Threads} (hc : ∀ i, Call native (s.todo i)) (ho : ∀ m, s.owner m = none) {x : Shared} (hx : x ≠ .running ∧ x ≠ .field) : Guards s x := by
  intro i h hh
  obtain rfl : h = false := by cases h with
    | false => rfl
    | true => have := hh.1 rfl; rw [ho] at this; cases this
  rw [guarded_leads]
  exact leads_call (hc i) hx

/-- **C111** (partial: for threads that add IPs, bring them from elsewhere, wait for the universe, kill it, destroy it, create universes, take values from a stack or put them onto it, and its scheduler with IPs that do the same; others see below) Whatever the
interleaving, no two threads ever use the list of IPs, that of threads, the exit code, the table of universes, or the values of a stack at once with one of them changing it. -/
theorem C111_no_race_partial {native : Bool} {s s' : Threads} (hc : ∀ i, Call native (s.todo i)) (ho : ∀ m, s.owner m = none) (h : Steps s s') {x : Shared} (hx : x ≠ .running ∧ x ≠ .field) : ¬ Race s' x :=
  guards_race (guards_steps (guards_calls hc ho hx) h)

/-- **C111** And a lock is only given back by the thread that has it. -/
theorem C111_lock_owner {native : Bool} {s s' : Threads} (hc : ∀ i, Call native (s.todo i)) (ho : ∀ m, s.owner m = none) (h : Steps s s') {i : Nat} {m : Mutex} {t : List Ev} (hi : s'.todo i = .unlock m :: t) :
    s'.owner m = some i := by
  have key : ∀ x : Shared, x ≠ .running ∧ x ≠ .field → mutexOf x = m → s'.owner m = some i := fun x hx hm => by
    rw [← hm]
    refine (guards_steps (guards_calls hc ho hx) h).owns ?_
    rw [hi, guarded, if_pos hm.symm]
    rfl
  cases m with
  | «universe» => exact key .runners (by decide) rfl
  | multiverse => exact key .universes (by decide) rfl
  | stack => exact key .values (by decide) rfl

/-- The threads of a program: the scheduler (0), and another one (1). -/
def exThreads (a b : List Ev) : Threads where
  todo i := if i = 0 then a else if i = 1 then b else []

/-- The scheduler runs an IP that splits, and another thread waits for the universe to end. -/
example : (∀ i, Call false ((exThreads (round false [addRunner false, []]) (wait false 1)).todo i)) ∧ ∀ m, (exThreads (round false [addRunner false, []]) (wait false 1)).owner m = none := by
  refine ⟨fun i => ?_, fun _ => rfl⟩
  show Call false (if i = 0 then _ else if i = 1 then _ else _)
  split
  · exact .round _ fun t ht => by
      rcases List.mem_cons.1 ht with rfl | ht
      · exact .add
      · obtain rfl := List.mem_singleton.1 ht; exact .nothing
  · split
    · exact .wait 1
    · exact .nothing

/-- **C111** is violated whenever the interpreter waits for a program to end: the main thread asks whether the universe is running without the lock, while the scheduler takes an IP off the list. -/
theorem C111_false_for_the_main_thread : ∃ s, Steps (exThreads (round false [[]]) (waitAll false 0)) s ∧ Race s .runners := by
  have h := Steps.refl (exThreads (round false [[]]) (waitAll false 0))
  replace h := h.snoc (.read _ 1 .universes _ rfl)
  replace h := h.snoc (.lock _ 0 .universe _ rfl rfl)
  replace h := h.snoc (.read _ 0 .runners _ rfl)
  replace h := h.snoc (.unlock _ 0 .universe _ rfl)
  replace h := h.snoc (.lock _ 0 .universe _ rfl rfl)
  exact ⟨_, h, 0, 1, _, _, by decide, rfl, .inr rfl⟩

/-- **C111** is violated by `running`: the scheduler tests it without the lock, while another thread kills the universe. -/
theorem C111_false_for_running : ∃ s, Steps (exThreads killAll [.read .running]) s ∧ Race s .running := by
  have h := Steps.refl (exThreads killAll [.read .running])
  replace h := h.snoc (.lock _ 0 .universe _ rfl rfl)
  replace h := h.snoc (.write _ 0 .exitcode _ rfl)
  replace h := h.snoc (.read _ 0 .runners _ rfl)
  exact ⟨_, h, 0, 1, _, _, by decide, rfl, .inr rfl⟩

/-- **C111** is violated by an IP that sets a mode, while an IP comes from another universe (MODE and MVRS). -/
theorem C111_false_for_modes : ∃ s, Steps (exThreads transferRunner (round false [updateMode])) s ∧ Race s .runners := by
  have h := Steps.refl (exThreads transferRunner (round false [updateMode]))
  replace h := h.snoc (.lock _ 1 .universe _ rfl rfl)
  replace h := h.snoc (.read _ 1 .runners _ rfl)
  replace h := h.snoc (.unlock _ 1 .universe _ rfl)
  replace h := h.snoc (.lock _ 0 .universe _ rfl rfl)
  exact ⟨_, h, 0, 1, _, _, by decide, rfl, .inr rfl⟩

/-- **C111** is violated by an IP that asks for the number of universes (N of MVRS), or for one by its name, while another one creates one. -/
theorem C111_false_for_universes : ∃ s, Steps (exThreads (create 0) lookup) s ∧ Race s .universes := by
  have h := Steps.refl (exThreads (create 0) lookup)
  replace h := h.snoc (.lock _ 0 .multiverse _ rfl rfl)
  replace h := h.snoc (.read _ 0 .universes _ rfl)
  exact ⟨_, h, 0, 1, _, _, by decide, rfl, .inr rfl⟩

/-- **C111** is violated by IPs that are native threads: Fungespace has no lock. -/
theorem C111_false_for_fungespace : Race (exThreads put put) .field ∧ Race (exThreads put fetch) .field :=
  ⟨⟨0, 1, _, _, by decide, rfl, .inl rfl⟩, ⟨0, 1, _, _, by decide, rfl, .inr rfl⟩⟩

/-- **C111** is violated by an IP that waits for its stack to change (D of IIPC), while another one puts something onto it (P of IIPC). -/
theorem C111_false_for_age : ∃ s, Steps (exThreads push age) s ∧ Race s .ops := by
  have h := Steps.refl (exThreads push age)
  replace h := h.snoc (.lock _ 0 .stack _ rfl rfl)
  replace h := h.snoc (.read _ 0 .mode _ rfl)
  replace h := h.snoc (.write _ 0 .values _ rfl)
  exact ⟨_, h, 0, 1, _, _, by decide, rfl, .inr rfl⟩

end Access
end Funge
