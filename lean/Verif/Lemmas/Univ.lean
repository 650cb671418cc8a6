import Verif.Lemmas.EngineRun
/-
Turns of the scheduler, and lifting a relation between states to runs.
-/
namespace Funge
open Exec

/-- The state the front runner of a universe is ticked in. -/
def Univ.front (r : Runner) (rest : List Runner) (g : Glob) : St := ⟨r, rest, g⟩

/-- The universe a tick leaves. -/
def St.univ (s : St) : Univ := ⟨if s.cur.ip.stopped then s.rest else s.rest ++ [s.cur], s.g⟩

theorem turn_nil (g : Glob) : (⟨[], g⟩ : Univ).turn = .ok ⟨[], g⟩ := rfl

theorem turn_stopped {r : Runner} (h : r.ip.stopped = true) (rest : List Runner) (g : Glob) :
    (⟨r :: rest, g⟩ : Univ).turn = .ok ⟨rest, g⟩ := by
  unfold Univ.turn; simp [h]

theorem turn_tick {r : Runner} (h : r.ip.stopped = false) {rest : List Runner} {g : Glob} {s : St}
    (ht : tick ⟨r, rest, g⟩ = .ok ((), s)) : (⟨r :: rest, g⟩ : Univ).turn = .ok s.univ := by
  unfold Univ.turn; simp [h, ht, St.univ]

/-- What a turn can be. -/
theorem turn_cases {u u' : Univ} (h : u.turn = .ok u') :
    (u.runners = [] ∧ u' = u) ∨ ∃ r rest, u.runners = r :: rest ∧
      ((r.ip.stopped = true ∧ u' = ⟨rest, u.g⟩) ∨
       (r.ip.stopped = false ∧ ∃ s, tick ⟨r, rest, u.g⟩ = .ok ((), s) ∧ u' = s.univ)) := by
  obtain ⟨rs, g⟩ := u
  cases rs with
  | nil => cases h; exact .inl ⟨rfl, rfl⟩
  | cons r rest =>
    refine .inr ⟨r, rest, rfl, ?_⟩
    cases hs : r.ip.stopped with
    | true => rw [turn_stopped hs] at h; cases h; exact .inl ⟨rfl, rfl⟩
    | false =>
      refine .inr ⟨rfl, ?_⟩
      unfold Univ.turn at h
      simp only [hs] at h
      cases ht : tick ⟨r, rest, g⟩ with
      | error e => rw [ht] at h; cases h
      | ok p =>
        obtain ⟨⟨⟩, s⟩ := p
        rw [ht] at h
        cases h
        exact ⟨s, rfl, rfl⟩

/-- A reflexive and transitive relation that holds over every turn holds over every run. -/
theorem turns_lift {Q : Univ → Univ → Prop} (refl : ∀ u, Q u u) (trans : ∀ u v w, Q u v → Q v w → Q u w)
    (step : ∀ u u', u.turn = .ok u' → Q u u') (n : Nat) : ∀ u u', u.turns n = .ok u' → Q u u' := by
  induction n with
  | zero => intro u u' h; cases h; exact refl u
  | succ n ih =>
    intro u u' h
    unfold Univ.turns at h
    split at h
    · cases h
    · rename_i v hv
      exact trans _ _ _ (step _ _ hv) (ih _ _ h)

theorem turns_append (m n : Nat) {u v : Univ} (h : u.turns m = .ok v) : u.turns (m + n) = v.turns n := by
  induction m generalizing u with
  | zero => cases h; rw [Nat.zero_add]
  | succ m ih =>
    rw [Nat.succ_add]
    unfold Univ.turns at h
    split at h
    · cases h
    · rename_i w hw
      rw [← ih h]
      conv => lhs; unfold Univ.turns
      rw [hw]

/-- What holds over ticks between what the runners share holds over runs. -/
theorem turns_glob {Q : Glob → Glob → Prop} (refl : ∀ g, Q g g) (trans : ∀ a b c, Q a b → Q b c → Q a c)
    (step : Keeps (fun s s' => Q s.g s'.g) tick) {n : Nat} {u u' : Univ} (h : u.turns n = .ok u') : Q u.g u'.g := by
  refine turns_lift (Q := fun u u' => Q u.g u'.g) (fun _ => refl _) (fun _ _ _ => trans _ _ _) ?_ n u u' h
  intro u u' h
  rcases turn_cases h with ⟨_, rfl⟩ | ⟨r, rest, _, ⟨_, rfl⟩ | ⟨_, s, hs, rfl⟩⟩
  · exact refl _
  · exact refl _
  · exact step _ _ _ hs

end Funge
