import Verif.Model.WaitAll
/-
C110: the interpreter ends when every universe has.
-/
namespace Funge
namespace Whole

/-- The universes that are still to be visited in this round. -/
def todo (w : Whole) : List Nat :=
  match w.main with
  | .head => []
  | .visit t => t
  | .wait _ t => t
  | .returned => []

/-- The IPs of a universe do not escape notice: it is still to be visited, or they work for an IP of a universe of which this can be said. -/
inductive Covered (todo : List Nat) (calls : List (Nat × Nat)) : Nat → Prop
  | here {u} : u ∈ todo → Covered todo calls u
  | call {u v} : Covered todo calls u → (u, v) ∈ calls → Covered todo calls v

theorem Covered.nil {calls : List (Nat × Nat)} {u : Nat} (h : Covered [] calls u) : False := by
  induction h with
  | here h => cases h
  | call _ _ ih => exact ih

theorem Covered.mono {t t' : List Nat} {c c' : List (Nat × Nat)} {u : Nat} (ht : ∀ x ∈ t, x ∈ t') (hc : ∀ x ∈ c, x ∈ c') (h : Covered t c u) : Covered t' c' u := by
  induction h with
  | here h => exact .here (ht _ h)
  | call _ h ih => exact .call ih (hc _ h)

/-- What is left out does not matter if it has no IPs. -/
theorem Covered.without {ips : Nat → Nat} {t t' : List Nat} {c c' : List (Nat × Nat)} (hips : ∀ p ∈ c, 0 < ips p.1) (ht : ∀ x ∈ t, 0 < ips x → x ∈ t')
    (hc : ∀ p ∈ c, 0 < ips p.2 → p ∈ c') {u : Nat} (h : Covered t c u) (hu : 0 < ips u) : Covered t' c' u := by
  induction h with
  | here h => exact .here (ht _ h hu)
  | call _ h ih => exact .call (ih (hips _ h)) (hc _ h hu)

structure Inv (w : Whole) : Prop where
  known : ∀ u, 0 < w.ips u → u < w.size
  callers : ∀ p ∈ w.calls, (w.calls.filter (·.1 = p.1)).length ≤ w.ips p.1
  covered : w.main ≠ .head → w.main ≠ .returned → w.running = false → ∀ u, 0 < w.ips u → Covered w.todo w.calls u
  ended : w.main = .returned → ∀ u, w.ips u = 0

theorem Inv.caller {w : Whole} (h : Inv w) {p : Nat × Nat} (hp : p ∈ w.calls) : 0 < w.ips p.1 :=
  Nat.lt_of_lt_of_le (List.length_pos_of_mem (List.mem_filter.2 ⟨hp, by simp⟩)) (h.callers p hp)

theorem Active.pos {w : Whole} {u : Nat} (h : w.Active u) : 0 < w.ips u := Nat.lt_of_le_of_lt (Nat.zero_le _) h

theorem inv_step {a : Act} {w w' : Whole} (hi : Inv w) (hs : Step a w w') (ha : a ≠ .transfer) : Inv w' := by
  cases hs with
  | round _ l hm _ hl =>
    exact ⟨hi.known, hi.callers, fun _ _ _ u hu => .here ((hl u).2 (hi.known u hu)), fun h => (by cases h)⟩
  | test _ u t hm =>
    refine ⟨hi.known, hi.callers, fun _ _ hr x hx => ?_, fun h => (by cases h)⟩
    simp only [Bool.or_eq_false_iff, decide_eq_false_iff_not] at hr
    refine (hi.covered (by rw [hm]; simp) (by rw [hm]; simp) hr.1 x hx).without (fun p hp => hi.caller hp) (fun y hy h0 => ?_) (fun p hp _ => hp) hx
    have : w.todo = u :: t := by rw [todo, hm]
    rw [this] at hy
    rcases List.mem_cons.1 hy with rfl | hy
    · exact absurd h0 hr.2
    · exact hy
  | waited _ u t hm h0 =>
    refine ⟨hi.known, hi.callers, fun _ _ hr x hx => ?_, fun h => (by cases h)⟩
    have := hi.covered (by rw [hm]; simp) (by rw [hm]; simp) hr x hx
    have ht : w.todo = t := by rw [todo, hm]
    rw [ht] at this
    exact this
  | done _ hm =>
    refine ⟨hi.known, hi.callers, fun h1 h2 => ?_, fun h u => ?_⟩
    · dsimp only at h1 h2
      split at h1
      · exact absurd rfl h1
      · rename_i hc; rw [if_neg hc] at h2; exact absurd rfl h2
    · dsimp only at h ⊢
      split at h
      · cases h
      · rename_i hc
        simp only [Bool.or_eq_true, not_or, Bool.not_eq_true] at hc
        refine Nat.eq_zero_of_not_pos fun hu => ?_
        have := hi.covered (by rw [hm]; simp) (by rw [hm]; simp) hc.1 u hu
        have ht : w.todo = [] := by rw [todo, hm]
        rw [ht] at this
        exact this.nil
  | stop _ u hu =>
    have key : ∀ x, 0 < upd w.ips u (w.ips u - 1) x → 0 < w.ips x := fun x hx => by
      unfold upd at hx; split at hx
      · rename_i e; rw [e]; omega
      · exact hx
    refine ⟨fun x hx => hi.known x (key x hx), fun p hp => ?_, fun h1 h2 h3 x hx => hi.covered h1 h2 h3 x (key x hx), fun h x => ?_⟩
    · have := hi.callers p hp
      dsimp only [upd]
      split
      · rename_i e; unfold Active at hu; rw [e] at this ⊢; omega
      · exact this
    · exact Nat.eq_zero_of_not_pos fun hx => by have := hi.ended h x; have := key x hx; omega
  | split _ u hu =>
    have key : ∀ x, 0 < upd w.ips u (w.ips u + 1) x → 0 < w.ips x := fun x hx => by
      unfold upd at hx; split at hx
      · rename_i e; rw [e]; exact hu.pos
      · exact hx
    refine ⟨fun x hx => hi.known x (key x hx), fun p hp => ?_, fun h1 h2 h3 x hx => hi.covered h1 h2 h3 x (key x hx), fun h x => ?_⟩
    · have := hi.callers p hp
      dsimp only [upd]
      split
      · rename_i e; rw [e] at this ⊢; omega
      · exact this
    · exact Nat.eq_zero_of_not_pos fun hx => by have := hi.ended h x; have := key x hx; omega
  | call _ u v hu hv hne =>
    refine ⟨fun x hx => ?_, fun p hp => ?_, fun h1 h2 h3 x hx => ?_, fun h x => ?_⟩
    · dsimp only [upd] at hx; split at hx
      · rename_i e; rw [e]; exact hv
      · exact hi.known x hx
    · dsimp only [upd]
      rw [List.filter_cons]
      have h0 : (w.calls.filter (·.1 = p.1)).length ≤ w.ips p.1 := by
        rcases List.mem_cons.1 hp with rfl | hp
        · exact Nat.le_of_lt hu
        · exact hi.callers p hp
      by_cases e : u = p.1
      · have hvp : p.1 ≠ v := fun e' => hne (by rw [e, e'])
        rw [if_pos (by simpa using e), if_neg hvp, List.length_cons]
        unfold Active at hu
        rw [e] at hu
        exact hu
      · rw [if_neg (by simpa using e)]
        split
        · rename_i e'; rw [e'] at h0 ⊢; omega
        · exact h0
    · have hc : ∀ p ∈ w.calls, p ∈ (u, v) :: w.calls := fun p hp => List.mem_cons_of_mem _ hp
      dsimp only [upd] at hx
      split at hx
      · rename_i e
        rw [e]
        exact .call ((hi.covered h1 h2 h3 u hu.pos).mono (fun _ h => h) hc) List.mem_cons_self
      · exact (hi.covered h1 h2 h3 x hx).mono (fun _ h => h) hc
    · exact absurd (hi.ended h u) (by have := hu.pos; omega)
  | ret _ u v hc hv =>
    refine ⟨hi.known, fun p hp => ?_, fun h1 h2 h3 x hx => ?_, hi.ended⟩
    · exact Nat.le_trans (List.Sublist.length_le (List.Sublist.filter _ List.erase_sublist)) (hi.callers p (List.mem_of_mem_erase hp))
    · exact (hi.covered h1 h2 h3 x hx).without (fun p hp => hi.caller hp) (fun _ h _ => h)
        (fun p hp h0 => (List.mem_erase_of_ne (fun e => by rw [e] at h0; dsimp only at h0; omega)).2 hp) hx
  | create _ u m hu hm =>
    refine ⟨fun x hx => Nat.lt_succ_of_lt (hi.known x hx), hi.callers, fun h1 h2 h3 x hx => ?_, fun h x => ?_⟩
    · dsimp only at h1 h2 h3 hx
      have h0 : w.main ≠ .head ∧ w.main ≠ .returned := by
        rcases hm with rfl | ⟨t, t', e, _⟩ | ⟨y, t, t', e, _⟩
        · exact ⟨h1, h2⟩
        · rw [e]; simp
        · rw [e]; simp
      refine (hi.covered h0.1 h0.2 h3 x hx).mono (fun y hy => ?_) (fun _ h => h)
      unfold todo at hy ⊢
      rcases hm with rfl | ⟨t, t', e, rfl, hp⟩ | ⟨_, t, t', e, rfl, hp⟩
      · exact hy
      · rw [e] at hy; exact hp.mem_iff.2 (List.mem_cons_of_mem _ hy)
      · rw [e] at hy; exact hp.mem_iff.2 (List.mem_cons_of_mem _ hy)
    · dsimp only at h
      rcases hm with rfl | ⟨t, t', e, rfl, hp⟩ | ⟨_, t, t', e, rfl, hp⟩
      · exact hi.ended h x
      · cases h
      · cases h
  | kill _ u hu hc =>
    have key : ∀ x, 0 < upd w.ips u 0 x → 0 < w.ips x := fun x hx => by
      unfold upd at hx; split at hx
      · omega
      · exact hx
    refine ⟨fun x hx => hi.known x (key x hx), fun p hp => ?_, fun h1 h2 h3 x hx => hi.covered h1 h2 h3 x (key x hx), fun h x => ?_⟩
    · have := hi.callers p hp
      dsimp only [upd]
      split
      · rename_i e; exact absurd hp (by have := hc p.2; rw [← e] at this; exact this)
      · exact this
    · exact Nat.eq_zero_of_not_pos fun hx => by have := hi.ended h x; have := key x hx; omega
  | transfer _ u v => exact absurd rfl ha

theorem inv_steps {w w' : Whole} (hi : Inv w) (h : Steps (· ≠ .transfer) w w') : Inv w' := by
  induction h with
  | refl => exact hi
  | snoc _ hs ha ih => exact inv_step ih hs ha

theorem inv_start {w : Whole} (h : w.Start) : Inv w := by
  obtain ⟨h1, h2, h3, h4, h5⟩ := h
  refine ⟨fun u hu => Nat.lt_of_not_le fun hle => ?_, fun p hp => ?_, fun h => absurd h1 h, fun h => ?_⟩
  · rw [h5 u hle] at hu; omega
  · rw [h2] at hp; cases hp
  · rw [h1] at h; cases h

/-- **C110** (partial: as long as no IP goes to another universe, see `C110_false_for_travellers`) When `waitAll` returns, no universe has an IP left: neither those that were there at the beginning nor those
that have been created meanwhile, nor the universes of libraries. -/
theorem C110_all_ended_partial {w w' : Whole} (h0 : w.Start) (h : Steps (· ≠ .transfer) w w') (hm : w'.main = .returned) (u : Nat) : w'.ips u = 0 := (inv_steps (inv_start h0) h).ended hm u

/-- And then it stays like that: nothing in the program can go on. -/
theorem C110_for_good_partial {w w' w'' : Whole} {a : Act} (h0 : w.Start) (h : Steps (· ≠ .transfer) w w') (hm : w'.main = .returned) (hs : Step a w' w'') : False := by
  have hz := C110_all_ended_partial h0 h hm
  have hna : ∀ u, ¬ w'.Active u := fun u hu => by have := hu.pos; rw [hz u] at this; omega
  cases hs with
  | round _ l e => rw [hm] at e; cases e
  | test _ u t e => rw [hm] at e; cases e
  | waited _ u t e => rw [hm] at e; cases e
  | done _ e => rw [hm] at e; cases e
  | stop _ u hu => exact absurd hu (hna u)
  | split _ u hu => exact absurd hu (hna u)
  | call _ u v hu => exact absurd hu (hna u)
  | ret _ u v hc hv => exact absurd (hz u) (by have := (inv_steps (inv_start h0) h).caller hc; dsimp only at this; omega)
  | create _ u m hu => exact absurd hu (hna u)
  | kill _ u hu => exact absurd hu (hna u)
  | transfer _ u v hu => exact absurd hu (hna u)

theorem Steps.trans {p : Act → Prop} {a b c : Whole} (h : Steps p a b) (h' : Steps p b c) : Steps p a c := by
  induction h' with
  | refl => exact h
  | snoc _ hs hp ih => exact .snoc ih hs hp

theorem Steps.mono {p q : Act → Prop} {a b : Whole} (hpq : ∀ x, p x → q x) (h : Steps p a b) : Steps q a b := by
  induction h with
  | refl => exact .refl _
  | snoc _ hs hp ih => exact .snoc ih hs (hpq _ hp)

/-- A round through universes that have ended. -/
theorem round_through {w : Whole} (hz : ∀ u, w.ips u = 0) (t : List Nat) (hm : w.main = .visit t) :
    Steps (· = .main) w { w with count := w.count + t.length, main := .visit [] } := by
  induction t generalizing w with
  | nil =>
    have : ({ w with count := w.count + ([] : List Nat).length, main := .visit [] } : Whole) = w := by cases w; simp_all
    rw [this]; exact .refl _
  | cons u t ih =>
    have h := (Steps.refl (p := (· = .main)) w).snoc (.test _ u t hm) rfl
    have h1 := h.snoc (.waited _ u t rfl (hz u)) rfl
    have e : (w.running || decide (0 < w.ips u)) = w.running := by rw [hz u]; simp
    simp only [e] at h1
    have h2 := ih (w := { w with count := w.count + 1, main := .visit t }) hz rfl
    have := h1.trans h2
    simp only [List.length_cons]
    rw [show w.count + (t.length + 1) = w.count + 1 + t.length by omega]
    exact this

/-- **C110** The interpreter does end: when no universe has an IP left, `waitAll` returns, wherever it is, without anybody's help. -/
theorem C110_returns {w : Whole} (hz : ∀ u, w.ips u = 0) : ∃ w', Steps (· = .main) w w' ∧ w'.main = .returned := by
  have head : ∀ {w : Whole}, (∀ u, w.ips u = 0) → w.main = .head → ∃ w', Steps (· = .main) w w' ∧ w'.main = .returned := fun {w} hz hm => by
    have h := (Steps.refl (p := (· = .main)) w).snoc (.round _ (List.range w.size) hm List.nodup_range (fun u => List.mem_range)) rfl
    have h1 := h.trans (round_through (w := { w with running := false, main := .visit (List.range w.size) }) hz _ rfl)
    refine ⟨_, h1.snoc (.done _ rfl) rfl, ?_⟩
    dsimp only
    rw [if_neg]
    simp
  have visit : ∀ {w : Whole} {t : List Nat}, (∀ u, w.ips u = 0) → w.main = .visit t → ∃ w', Steps (· = .main) w w' ∧ w'.main = .returned := fun {w t} hz hm => by
    have h := (round_through hz t hm).snoc (.done _ rfl) rfl
    by_cases hc : (w.running || decide (w.count + t.length < w.size)) = true
    · dsimp only at h
      rw [if_pos hc] at h
      obtain ⟨w', h', e⟩ := head (w := { w with count := w.count + t.length, main := .head }) hz rfl
      exact ⟨w', h.trans h', e⟩
    · dsimp only at h
      rw [if_neg hc] at h
      exact ⟨_, h, rfl⟩
  cases hm : w.main with
  | head => exact head hz hm
  | visit t => exact visit hz hm
  | wait u t =>
    obtain ⟨w', h', e⟩ := visit (w := { w with count := w.count + 1, main := .visit t }) hz rfl
    exact ⟨w', ((Steps.refl (p := (· = .main)) _).snoc (.waited _ u t hm (hz u)) rfl).trans h', e⟩
  | returned => exact ⟨w, .refl _, hm⟩

/-- Two universes, an IP in the second. -/
def exWhole : Whole where
  size := 2
  ips u := if u = 1 then 1 else 0

/-- The start of a program: one universe, one IP. -/
def exPrime : Whole where
  size := 1
  ips u := if u = 0 then 1 else 0

/-- **C110** is violated by IPs that travel: one that goes from a universe that is still to be visited to one that has been visited is forgotten; the interpreter ends, and it has not.
Here it creates a universe, goes there, and comes back. -/
theorem C110_false_for_travellers : exPrime.Start ∧ ∃ w, Steps (fun _ => True) exPrime w ∧ w.main = .returned ∧ w.ips 0 = 1 ∧ w.Active 0 := by
  refine ⟨⟨rfl, rfl, rfl, by decide, fun u hu => if_neg (by rintro rfl; exact absurd hu (by decide))⟩, ?_⟩
  have h := Steps.refl (p := fun _ => True) exPrime
  replace h := h.snoc (.round _ [0] rfl (by decide) (fun u => by show u ∈ [0] ↔ u < 1; simp)) trivial
  replace h := h.snoc (.test _ 0 [] rfl) trivial
  replace h := h.snoc (.create _ 0 _ (by unfold Active; decide) (.inl rfl)) trivial
  replace h := h.snoc (.transfer _ 0 1 (by unfold Active; decide) (by decide) (by decide)) trivial
  replace h := h.snoc (.waited _ 0 [] rfl rfl) trivial
  replace h := h.snoc (.done _ rfl) trivial
  replace h := h.snoc (.round _ [0, 1] rfl (by decide) (fun u => by show u ∈ [0, 1] ↔ u < 2; simp; omega)) trivial
  replace h := h.snoc (.test _ 0 [1] rfl) trivial
  replace h := h.snoc (.waited _ 0 [1] rfl rfl) trivial
  replace h := h.snoc (.transfer _ 1 0 (by unfold Active; decide) (by decide) (by decide)) trivial
  replace h := h.snoc (.test _ 1 [] rfl) trivial
  replace h := h.snoc (.waited _ 1 [] rfl rfl) trivial
  replace h := h.snoc (.done _ rfl) trivial
  exact ⟨_, h, rfl, rfl, by unfold Active; decide⟩

/-- An IP calls a library, comes back, and stops; `waitAll` sees that there was one, goes round again, and returns. -/
example : ∃ w, Steps (· ≠ .transfer) exWhole w ∧ w.main = .returned := by
  have h := Steps.refl (p := (· ≠ .transfer)) exWhole
  replace h := h.snoc (.round _ [1, 0] rfl (by decide) (fun u => by show u ∈ [1, 0] ↔ u < 2; simp; omega)) (by decide)
  replace h := h.snoc (.test _ 1 [0] rfl) (by decide)
  replace h := h.snoc (.call _ 1 0 (by unfold Active; decide) (by decide) (by decide)) (by decide)
  replace h := h.snoc (.stop _ 0 (by unfold Active; decide)) (by decide)
  replace h := h.snoc (.ret _ 1 0 (by decide) (by decide)) (by decide)
  replace h := h.snoc (.stop _ 1 (by unfold Active; decide)) (by decide)
  replace h := h.snoc (.waited _ 1 [0] rfl (by decide)) (by decide)
  replace h := h.snoc (.test _ 0 [] rfl) (by decide)
  replace h := h.snoc (.waited _ 0 [] rfl (by decide)) (by decide)
  replace h := h.snoc (.done _ rfl) (by decide)
  replace h := h.snoc (.round _ [0, 1] rfl (by decide) (fun u => by show u ∈ [0, 1] ↔ u < 2; simp; omega)) (by decide)
  replace h := h.snoc (.test _ 0 [1] rfl) (by decide)
  replace h := h.snoc (.waited _ 0 [1] rfl (by decide)) (by decide)
  replace h := h.snoc (.test _ 1 [] rfl) (by decide)
  replace h := h.snoc (.waited _ 1 [] rfl (by decide)) (by decide)
  replace h := h.snoc (.done _ rfl) (by decide)
  exact ⟨_, h, rfl⟩

end Whole
end Funge
