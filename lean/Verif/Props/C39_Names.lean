import Verif.Model.Multiverse
/-
C39: a new universe gets a fresh name.
-/
namespace Funge

/-- A name is taken by a universe of the table. -/
def Multiverse.Taken (m : Multiverse) (n : List Char) : Prop := ∃ u, m.find n = some u

theorem contains_iff (m : Multiverse) (n : List Char) : m.contains n = true ↔ m.Taken n := by
  simp [Multiverse.contains, Multiverse.Taken, Option.isSome_iff_exists]

theorem lookup_filter_ne {n k : List Char} (h : k ≠ n) : (l : List (List Char × Nat)) →
    (l.filter (·.1 != n)).lookup k = l.lookup k
  | [] => rfl
  | (a, b) :: t => by
    by_cases ha : a = n
    · subst ha
      simp [List.lookup_cons, lookup_filter_ne h t, beq_eq_false_iff_ne.mpr h]
    · simp only [List.filter_cons, bne_iff_ne, ne_eq, ha, not_false_eq_true, if_true, List.lookup_cons, lookup_filter_ne h t]

theorem find_set (m : Multiverse) (n k : List Char) (u : Nat) : (m.set n u).find k = if k = n then some u else m.find k := by
  by_cases h : k = n
  · subst h; simp [Multiverse.set, Multiverse.find]
  · simp only [Multiverse.set, Multiverse.find, List.lookup_cons, beq_eq_false_iff_ne.mpr h, if_neg h]
    exact lookup_filter_ne h _

theorem pickName_fresh {m : Multiverse} {name r : List Char} : (fuel : Nat) → (cur : List Char) → m.pickName name fuel cur = .ok r → ¬ m.Taken r
  | 0, _, h => by cases h
  | fuel + 1, cur, h => by
    rw [Multiverse.pickName] at h
    by_cases hc : m.contains cur = true
    · rw [if_pos hc] at h; exact pickName_fresh fuel _ h
    · rw [if_neg hc] at h; injection h with h; subst h
      exact fun ht => hc ((contains_iff m cur).mpr ht)

/-- Whenever a universe is created: its name was free, it is found under it, every other universe is found where it was, and the first universe ever
created stays the one whose exit code counts. -/
theorem C39_fresh {m m' : Multiverse} {fuel : Nat} {name n : List Char} {u : Nat} (h : m.create fuel name u = .ok (n, m')) :
    ¬ m.Taken n ∧ (∀ k, m'.find k = if k = n then some u else m.find k) ∧ m'.prime = some (m.prime.getD u) := by
  unfold Multiverse.create at h
  split at h
  · cases h
  · rename_i r hr
    injection h with h; injection h with h1 h2; subst h1 h2
    refine ⟨pickName_fresh fuel name hr, fun k => find_set m _ k u, ?_⟩
    show (match m.prime with | none => some u | some p => some p) = _
    cases m.prime <;> rfl

example : ∃ m', Multiverse.create { universes := [("a".toList, 0)], prime := some 0 } 5 "a".toList 1 = .ok ("a.1".toList, m') := ⟨_, rfl⟩

/-- A universe is created, under the name asked for or that name with `.1`, if one of the two is free, whatever other names are taken. What is missing: that
creation always ends (`C39_false_third_of_a_name`). -/
theorem C39_terminates_partial (m : Multiverse) (name : List Char) (u : Nat) (h : ¬ m.Taken name ∨ ¬ m.Taken (name ++ ".1".toList)) :
    ∃ n m', (∀ fuel ≥ 2, m.create fuel name u = .ok (n, m')) ∧ n = (if m.contains name then name ++ ".1".toList else name) := by
  by_cases hc : m.contains name = true
  · have h2 : ¬ m.contains (name ++ ".1".toList) = true := fun h' =>
      h.elim (fun h => h ((contains_iff m name).mp hc)) (fun h => h ((contains_iff m _).mp h'))
    refine ⟨name ++ ".1".toList, { m.set (name ++ ".1".toList) u with prime := match m.prime with | none => some u | some p => some p },
      fun fuel hf => ?_, by rw [if_pos hc]⟩
    obtain ⟨k, rfl⟩ : ∃ k, fuel = k + 2 := ⟨fuel - 2, by omega⟩
    rw [Multiverse.create, Multiverse.pickName, if_pos hc, Multiverse.pickName, show '.' :: (toString (1 : Nat)).toList = ".1".toList by decide, if_neg h2]; rfl
  · refine ⟨name, { m.set name u with prime := match m.prime with | none => some u | some p => some p }, fun fuel hf => ?_, by rw [if_neg hc]⟩
    obtain ⟨k, rfl⟩ : ∃ k, fuel = k + 2 := ⟨fuel - 2, by omega⟩
    rw [Multiverse.create, Multiverse.pickName, if_neg hc]; rfl

example : ¬ ({ universes := [("a".toList, 0), ("b.1".toList, 1)] } : Multiverse).Taken ("a".toList ++ ".1".toList) := by
  rw [← contains_iff]; decide

theorem pickName_stuck {m : Multiverse} {name : List Char} (h2 : m.Taken (name ++ ".1".toList)) : (fuel : Nat) → (cur : List Char) → m.Taken cur →
    m.pickName name fuel cur = .error .fuel
  | 0, _, _ => rfl
  | fuel + 1, cur, hc => by
    rw [Multiverse.pickName, if_pos ((contains_iff m cur).mpr hc), show '.' :: (toString (1 : Nat)).toList = ".1".toList by decide]
    exact pickName_stuck h2 fuel _ h2

/-- The property fails as soon as both names are taken: the search tries the same name for ever. -/
theorem C39_false_when_taken (m : Multiverse) (name : List Char) (u : Nat) (h1 : m.Taken name) (h2 : m.Taken (name ++ ".1".toList)) (fuel : Nat) :
    m.create fuel name u = .error .fuel := by
  rw [Multiverse.create, pickName_stuck h2 fuel name h1]

/-- So three universes of one name cannot be created: starting with any table in which neither name is taken, two creations succeed and the third never
ends. -/
theorem C39_false_third_of_a_name (m : Multiverse) (name : List Char) (u v w : Nat) (h1 : ¬ m.Taken name) (h2 : ¬ m.Taken (name ++ ".1".toList)) :
    ∃ m1 m2, m.create 2 name u = .ok (name, m1) ∧ m1.create 2 name v = .ok (name ++ ".1".toList, m2) ∧
      ∀ fuel, m2.create fuel name w = .error .fuel := by
  have hne : name ++ ".1".toList ≠ name := by
    intro h; have := congrArg List.length h; simp at this
  obtain ⟨n, m1, hm1, hn⟩ := C39_terminates_partial m name u (.inl h1)
  rw [if_neg (fun h => h1 ((contains_iff m name).mp h))] at hn; subst hn
  obtain ⟨-, hf1, -⟩ := C39_fresh (hm1 2 (by omega))
  have t1 : m1.Taken n := ⟨u, by rw [hf1, if_pos rfl]⟩
  have t2 : ¬ m1.Taken (n ++ ".1".toList) := by
    rintro ⟨x, hx⟩; rw [hf1, if_neg hne] at hx; exact h2 ⟨x, hx⟩
  obtain ⟨n2, m2, hm2, hn2⟩ := C39_terminates_partial m1 n v (.inr t2)
  rw [if_pos ((contains_iff m1 n).mpr t1)] at hn2; subst hn2
  obtain ⟨-, hf2, -⟩ := C39_fresh (hm2 2 (by omega))
  refine ⟨m1, m2, hm1 2 (by omega), hm2 2 (by omega), fun fuel => C39_false_when_taken m2 n w ?_ ?_ fuel⟩
  · exact ⟨u, by rw [hf2, if_neg hne.symm, hf1, if_pos rfl]⟩
  · exact ⟨v, by rw [hf2, if_pos rfl]⟩

example : ¬ ({} : Multiverse).Taken "lib.fl".toList := by rintro ⟨x, hx⟩; cases hx

end Funge
