import Verif.Lemmas.Exec
/-
What the semantics table of a runner holds after binding instructions.
-/
namespace Funge

theorem pushSem_sems (r : Runner) (i : Int) (m : Sem) (c : Int) :
    (r.pushSem i m).sems c = if c = i then m :: r.sems i else r.sems c := rfl

/-- The meanings a list of bindings gives to `c`, latest first. -/
def meanings (l : List (Int × Sem)) (c : Int) : List Sem := ((l.filter fun p => p.1 == c).map (·.2)).reverse

theorem pushSems_sems (l : List (Int × Sem)) (r : Runner) (c : Int) :
    (r.pushSems l).sems c = meanings l c ++ r.sems c := by
  unfold Runner.pushSems meanings
  induction l generalizing r with
  | nil => rfl
  | cons p t ih =>
    rw [List.foldl_cons, ih, pushSem_sems, List.filter_cons]
    by_cases h : c = p.1
    · subst h; simp
    · have : (p.1 == c) = false := by simpa using fun hh => h hh.symm
      simp [h, this]

/-- Everything of a runner but its table and its fingerprints. -/
structure SameButSems (r r' : Runner) : Prop where
  id : r'.id = r.id
  ss : r'.ss = r.ss
  ip : r'.ip = r.ip
  parent : r'.parent = r.parent
  strats : r'.strats = r.strats
  inString : r'.inString = r.inString
  strEnd : r'.strEnd = r.strEnd
  strPrev : r'.strPrev = r.strPrev

theorem SameButSems.refl (r : Runner) : SameButSems r r := ⟨rfl, rfl, rfl, rfl, rfl, rfl, rfl, rfl⟩
theorem SameButSems.trans {a b c : Runner} (h : SameButSems a b) (h' : SameButSems b c) : SameButSems a c :=
  ⟨h'.1.trans h.1, h'.2.trans h.2, h'.3.trans h.3, h'.4.trans h.4, h'.5.trans h.5, h'.6.trans h.6, h'.7.trans h.7, h'.8.trans h.8⟩

theorem same_handler (r : Runner) (h : Handler) : SameButSems r { r with handler := h } := ⟨rfl, rfl, rfl, rfl, rfl, rfl, rfl, rfl⟩
theorem same_regs (r : Runner) (h : Handler) (l : List (Bool × Int)) : SameButSems r { r with handler := h, regs := l } :=
  ⟨rfl, rfl, rfl, rfl, rfl, rfl, rfl, rfl⟩
theorem same_loaded (r : Runner) (a l : List Nat) : SameButSems r { r with available := a, loaded := l } :=
  ⟨rfl, rfl, rfl, rfl, rfl, rfl, rfl, rfl⟩

theorem pushSem_same (r : Runner) (i : Int) (m : Sem) : SameButSems r (r.pushSem i m) := ⟨rfl, rfl, rfl, rfl, rfl, rfl, rfl, rfl⟩

theorem pushSems_eq (l : List (Int × Sem)) (r : Runner) : r.pushSems l = { r with sems := (r.pushSems l).sems } := by
  unfold Runner.pushSems
  induction l generalizing r with
  | nil => rfl
  | cons p t ih => rw [List.foldl_cons, ih]; rfl

theorem pushSems_handler (l : List (Int × Sem)) (r : Runner) : (r.pushSems l).handler = r.handler := by
  rw [pushSems_eq]

theorem pushSems_same (l : List (Int × Sem)) (r : Runner) : SameButSems r (r.pushSems l) := by
  rw [pushSems_eq]; exact ⟨rfl, rfl, rfl, rfl, rfl, rfl, rfl, rfl⟩

/-- The instructions of a fingerprint are letters. -/
theorem insts_letters (f : Fp) : ∀ c ∈ f.insts, 65 ≤ c ∧ c ≤ 90 := by cases f <;> decide

/-- What `activate` binds. -/
def Fp.bindings : Fp → List (Int × Sem)
  | .DBUG => []
  | .FISH => Fp.FISH.insts.map fun c => (c, ⟨.fing .FISH c, c == 85 || c == 79⟩)
  | f => f.insts.map fun c => (c, ⟨.fing f c, false⟩)

theorem activate_eq (f : Fp) (r : Runner) : f.activate r = r.pushSems f.bindings := by cases f <;> rfl

theorem meanings_nil {l : List (Int × Sem)} {c : Int} (h : ∀ p ∈ l, p.1 ≠ c) : meanings l c = [] := by
  unfold meanings
  rw [List.filter_eq_nil_iff.2]
  · rfl
  · intro p hp; simpa using h p hp

theorem bindings_insts (f : Fp) : ∀ p ∈ f.bindings, p.1 ∈ f.insts := by
  cases f <;> decide

theorem loadFp_sems_other {r r' : Runner} {id : Nat} (h : r.loadFp id = some r') {c : Int} (hc : ¬ (65 ≤ c ∧ c ≤ 90)) :
    r'.sems c = r.sems c := by
  unfold Runner.loadFp at h
  split at h
  · cases h
  · rename_i f hf
    rw [← Option.some.inj h, activate_eq, pushSems_sems, meanings_nil]
    · rfl
    · intro p hp he
      exact hc (he ▸ insts_letters f _ (bindings_insts f p hp))

theorem loadFp_same {r r' : Runner} {id : Nat} (h : r.loadFp id = some r') : SameButSems r r' := by
  unfold Runner.loadFp at h
  split at h
  · cases h
  · rename_i f hf
    rw [← Option.some.inj h, activate_eq]
    exact SameButSems.trans (same_loaded r _ _) (pushSems_same _ _)

theorem loadFp_handler {r r' : Runner} {id : Nat} (h : r.loadFp id = some r') : r'.handler = r.handler := by
  unfold Runner.loadFp at h
  split at h
  · cases h
  · rw [← Option.some.inj h, activate_eq, pushSems_eq]

theorem loadFps_sems_other (l : List Nat) (r : Runner) {c : Int} (hc : ¬ (65 ≤ c ∧ c ≤ 90)) :
    (r.loadFps l).sems c = r.sems c := by
  unfold Runner.loadFps
  induction l generalizing r with
  | nil => rfl
  | cons id t ih =>
    rw [List.foldl_cons, ih]
    cases h : r.loadFp id with
    | none => rfl
    | some r' => exact loadFp_sems_other h hc

theorem loadFps_same (l : List Nat) (r : Runner) : SameButSems r (r.loadFps l) := by
  unfold Runner.loadFps
  induction l generalizing r with
  | nil => exact .refl _
  | cons id t ih =>
    rw [List.foldl_cons]
    refine .trans ?_ (ih _)
    cases h : r.loadFp id with
    | none => exact .refl _
    | some r' => exact loadFp_same h

theorem loadFps_handler (l : List Nat) (r : Runner) : (r.loadFps l).handler = r.handler := by
  unfold Runner.loadFps
  induction l generalizing r with
  | nil => rfl
  | cons id t ih =>
    rw [List.foldl_cons, ih]
    cases h : r.loadFp id with
    | none => rfl
    | some r' => exact loadFp_handler h

theorem init_same (fps : List Nat) (r : Runner) (st : Strat) : SameButSems r (st.init fps r) := by
  cases st <;> unfold Strat.init <;> dsimp only
  case une98 => exact (loadFps_same _ _).trans (pushSems_same _ _)
  case starfish =>
    exact .trans ((pushSems_same _ _).trans (pushSems_same semsStarfish _)) (same_regs _ _ _)
  case une93 => exact .trans (pushSems_same semsUne93 r) (same_handler _ _)
  case fish => exact .trans (pushSems_same semsFish r) (same_regs _ _ _)
  all_goals exact pushSems_same _ _

theorem inits_same (fps : List Nat) (l : List Strat) (r : Runner) : SameButSems r (l.foldl (Strat.init fps) r) := by
  induction l generalizing r with
  | nil => exact .refl _
  | cons st t ih => exact .trans (init_same fps r st) (ih _)

/-- The bindings a strategy makes itself, apart from fingerprints. -/
def Strat.table : Strat → List (Int × Sem)
  | .une93 => semsUne93
  | .une98 => semsUne98
  | .be93 => semsBe93
  | .be98 => semsBe98
  | .tre98 => semsTre98
  | .fish => semsFish
  | .starfish => semsFish ++ semsStarfish

theorem meanings_append (l m : List (Int × Sem)) (c : Int) : meanings (l ++ m) c = meanings m c ++ meanings l c := by
  simp [meanings]

theorem init_sems_other (fps : List Nat) (r : Runner) (st : Strat) {c : Int} (hc : ¬ (65 ≤ c ∧ c ≤ 90)) :
    (st.init fps r).sems c = meanings st.table c ++ r.sems c := by
  cases st <;> unfold Strat.init Strat.table <;> dsimp only
  case une98 => rw [pushSems_sems, loadFps_sems_other _ _ hc]
  case starfish => rw [pushSems_sems, pushSems_sems, meanings_append]; simp
  all_goals rw [pushSems_sems]

theorem inits_sems_other (fps : List Nat) (l : List Strat) (r : Runner) {c : Int} (hc : ¬ (65 ≤ c ∧ c ≤ 90)) :
    (l.foldl (Strat.init fps) r).sems c = meanings (l.flatMap Strat.table) c ++ r.sems c := by
  induction l generalizing r with
  | nil => rfl
  | cons st t ih => rw [List.foldl_cons, ih, init_sems_other fps r st hc, List.flatMap_cons, meanings_append]; simp

theorem notifyDelta_sems (r : Runner) : (notifyDelta r).sems = r.sems := by
  unfold notifyDelta; dsimp only; split <;> rfl
theorem notifyDelta_handler (r : Runner) : (notifyDelta r).handler = r.handler := by
  unfold notifyDelta; dsimp only; split <;> rfl
theorem notifyDelta_inString (r : Runner) : (notifyDelta r).inString = r.inString := by
  unfold notifyDelta; dsimp only; split <;> rfl
theorem notifyDelta_ip (r : Runner) : (notifyDelta r).ip = r.ip := by
  unfold notifyDelta; dsimp only; split <;> rfl
theorem notifyDelta_ss (r : Runner) : (notifyDelta r).ss = r.ss := by
  unfold notifyDelta; dsimp only; split <;> rfl
theorem notifyDelta_id (r : Runner) : (notifyDelta r).id = r.id := by
  unfold notifyDelta; dsimp only; split <;> rfl

theorem newRunner_sems_other (cfg : Cfg) (id : Nat) (pos delta : Vec) {c : Int} (hc : ¬ (65 ≤ c ∧ c ≤ 90)) :
    (newRunner cfg id pos delta).sems c = meanings ((strategiesFor cfg).flatMap Strat.table) c := by
  unfold newRunner
  dsimp only
  rw [notifyDelta_sems]
  dsimp only
  rw [inits_sems_other cfg.fingerprints _ _ hc]
  simp

end Funge
