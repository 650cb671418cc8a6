import Verif.Props.C29_Threads
/-
C37 (MODE), C52 (REFC), C61 (characters that are not letters keep their meaning).
-/
namespace Funge
open Exec

/-! ### C37 -/

/-- Every stack of every IP is in the mode the universe is in. -/
def St.Obey (s : St) : Prop := ∀ r ∈ s.cur :: s.rest, ∀ st ∈ r.ss.stacks, st.mode = s.g.cfg.mode

theorem setMode_self {r : Runner} {m : Nat} (h : ∀ st ∈ r.ss.stacks, st.mode = m) : { r with ss := r.ss.setMode m } = r := by
  have : r.ss.setMode m = r.ss := by
    unfold StackStack.setMode
    have : r.ss.stacks.map (·.setMode m) = r.ss.stacks := by
      conv => rhs; rw [← List.map_id r.ss.stacks]
      exact List.map_congr_left fun st hst => by
        rw [← h st hst]; rfl
    rw [this]
  rw [this]

theorem setMode_setMode (ss : StackStack) (m n : Nat) : (ss.setMode m).setMode n = ss.setMode n := by
  unfold StackStack.setMode; simp [Stack.setMode, Function.comp_def]

/-- The runner with its stacks in mode `m`. -/
def Runner.moded (m : Nat) (r : Runner) : Runner := { r with ss := r.ss.setMode m }

/-- The state with the mode word `m` put everywhere. -/
def St.moded (s : St) (m : Nat) : St :=
  { s with
    cur := s.cur.moded m
    rest := s.rest.map (Runner.moded m)
    g := { s.g with cfg := { s.g.cfg with mode := m } } }

theorem modeToggle_run (m : Nat) (s : St) : modeToggle m s = .ok (.none, s.moded (s.g.cfg.mode ^^^ m)) := rfl

theorem runner_moded_moded (r : Runner) (m n : Nat) : (r.moded m).moded n = r.moded n := by
  unfold Runner.moded; dsimp only; rw [setMode_setMode]

theorem moded_moded (s : St) (m n : Nat) : (s.moded m).moded n = s.moded n := by
  unfold St.moded
  dsimp only
  rw [runner_moded_moded, List.map_map]
  have : Runner.moded n ∘ Runner.moded m = Runner.moded n := funext fun r => runner_moded_moded r m n
  rw [this]

theorem moded_self {s : St} (h : s.Obey) : s.moded s.g.cfg.mode = s := by
  unfold St.moded
  rw [show s.cur.moded s.g.cfg.mode = s.cur from setMode_self (h s.cur List.mem_cons_self)]
  have : s.rest.map (Runner.moded s.g.cfg.mode) = s.rest := by
    conv => rhs; rw [← List.map_id s.rest]
    exact List.map_congr_left fun r hr => setMode_self (h r (List.mem_cons_of_mem _ hr))
  rw [this]

/-- **C37** Executing an instruction of MODE twice restores the mode word, whatever it was, and, if all stacks obeyed it, restores everything. -/
theorem C37_twice (m : Nat) (s : St) : ∃ s1 s2, modeToggle m s = .ok (.none, s1) ∧ modeToggle m s1 = .ok (.none, s2) ∧
    s2.g.cfg.mode = s.g.cfg.mode ∧ s2.cur.contents = s.cur.contents ∧ s2.rest.map (·.contents) = s.rest.map (·.contents) ∧ (s.Obey → s2 = s) := by
  have hx : s.g.cfg.mode ^^^ m ^^^ m = s.g.cfg.mode := by rw [Nat.xor_assoc, Nat.xor_self, Nat.xor_zero]
  have h2 : modeToggle m (s.moded (s.g.cfg.mode ^^^ m)) = .ok (.none, s.moded s.g.cfg.mode) := by
    rw [modeToggle_run, moded_moded]
    show Except.ok (Err.none, s.moded (s.g.cfg.mode ^^^ m ^^^ m)) = _
    rw [hx]
  refine ⟨_, _, rfl, h2, rfl, setMode_contents _ _, ?_, moded_self⟩
  show (s.rest.map _).map _ = _
  rw [List.map_map]
  exact List.map_congr_left fun r _ => setMode_contents r _

/-- **C37** Right after an instruction of MODE every stack of every IP is in the new mode. -/
theorem C37_applies_to_all (m : Nat) (s s' : St) {e : Err} (h : modeToggle m s = .ok (e, s')) :
    s'.g.cfg.mode = s.g.cfg.mode ^^^ m ∧ s'.Obey := by
  rw [modeToggle_run] at h
  cases h
  refine ⟨rfl, ?_⟩
  have key : ∀ r : Runner, ∀ n, ∀ st ∈ (r.ss.setMode n).stacks, st.mode = n := by
    intro r n st hst
    obtain ⟨x, _, rfl⟩ := List.mem_map.1 hst
    rfl
  intro r hr
  rcases List.mem_cons.1 hr with rfl | hr
  · exact key _ _
  · obtain ⟨r', _, rfl⟩ := List.mem_map.1 hr
    exact key _ _

/-- Every stack of every IP is in the mode of the universe or in normal mode. -/
def St.Nearly (s : St) : Prop := ∀ r ∈ s.cur :: s.rest, ∀ st ∈ r.ss.stacks, st.mode = s.g.cfg.mode ∨ st.mode = 0

def KeepsNearly (s s' : St) : Prop := s.Nearly → s'.Nearly

theorem KeepsNearly.ss {s s' : St} (hm : s'.g.cfg.mode = s.g.cfg.mode) (hr : s'.rest = s.rest)
    (h : ∀ st ∈ s'.cur.ss.stacks, st.mode = 0 ∨ ∃ st' ∈ s.cur.ss.stacks, st'.mode = st.mode) : KeepsNearly s s' := by
  intro hs r hx
  rcases List.mem_cons.1 hx with rfl | hx
  · intro st hst
    rcases h st hst with h0 | ⟨st', h1, h2⟩
    · exact .inr h0
    · rw [hm, ← h2]; exact hs s.cur List.mem_cons_self st' h1
  · rw [hr] at hx
    rw [hm]
    exact hs r (List.mem_cons_of_mem _ hx)

theorem KeepsNearly.same {s s' : St} (hm : s'.g.cfg.mode = s.g.cfg.mode) (hr : s'.rest.map (·.ss) = s.rest.map (·.ss)) (h : s'.cur.ss = s.cur.ss) :
    KeepsNearly s s' := by
  intro hs r hx
  rcases List.mem_cons.1 hx with rfl | hx
  · rw [h, hm]; exact hs s.cur List.mem_cons_self
  · have : r.ss ∈ s.rest.map (·.ss) := hr ▸ List.mem_map.2 ⟨r, hx, rfl⟩
    obtain ⟨r', h1, h2⟩ := List.mem_map.1 this
    rw [hm, ← h2]
    exact hs r' (List.mem_cons_of_mem _ h1)

theorem mem_setAt {ss : StackStack} {x : Nat} {st st' a : Stack} (h : ss.at' x = .ok st) (hm : st'.mode = st.mode) (ha : a ∈ (ss.setAt x st').stacks) :
    ∃ b ∈ ss.stacks, b.mode = a.mode := by
  rcases List.mem_or_eq_of_mem_set ha with ha | rfl
  · exact ⟨a, ha, rfl⟩
  · unfold StackStack.at' at h
    split at h
    · rename_i b hb
      cases h
      exact ⟨_, List.mem_of_getElem? hb, hm.symm⟩
    · cases h

theorem engine_nearly : Engine KeepsNearly where
  refl _ := id
  trans _ _ _ h h' k := h' (h k)
  stack _ _ _ _ h hm := .ss rfl rfl fun _ ha => .inr (mem_setAt h hm ha)
  ssPush _ := .ss rfl rfl fun a ha => by
    rcases List.mem_cons.1 ha with rfl | ha
    · exact .inl rfl
    · exact .inr ⟨a, ha, rfl⟩
  ssPop s ss h := .ss rfl rfl fun a ha => .inr ⟨a, by
    unfold StackStack.pop at h
    split at h
    · cases h
    · rename_i x t hx
      cases h
      rw [hx]
      exact List.mem_cons_of_mem _ ha, rfl⟩
  ssInsert s n ss h := .ss rfl rfl fun a ha => by
    unfold StackStack.insert at h
    split at h
    · cases h
      rcases List.mem_append.1 ha with ha | ha
      · exact .inr ⟨a, List.mem_of_mem_take ha, rfl⟩
      · rcases List.mem_cons.1 ha with rfl | ha
        · exact .inl rfl
        · exact .inr ⟨a, List.mem_of_mem_drop ha, rfl⟩
    · cases h
  ssRemove s n ss h := .ss rfl rfl fun a ha => .inr ⟨a, by
    unfold StackStack.remove at h
    split at h
    · cases h; exact List.mem_of_mem_eraseIdx ha
    · exact absurd h nofun, rfl⟩
  ssInc s := .ss rfl rfl fun a ha => .inr ⟨a, by
    unfold StackStack.increment at ha; dsimp only at ha; split at ha <;> exact ha, rfl⟩
  ssDec s := .ss rfl rfl fun a ha => .inr ⟨a, by
    unfold StackStack.decrement at ha; dsimp only at ha; split at ha <;> exact ha, rfl⟩
  ip _ _ _ := .same rfl rfl rfl
  stop _ := .same rfl rfl rfl
  core _ _ h := .same rfl rfl h.ss
  sems _ _ _ _ _ := .same rfl rfl rfl
  load _ _ _ _ h := .same rfl rfl (loadFp_same h).ss
  glob _ _ _ _ _ := .same rfl rfl rfl
  ref _ _ _ _ := .same rfl rfl rfl
  out _ _ := .same rfl rfl rfl
  system _ _ _ := .same rfl rfl rfl
  openRead _ _ _ := .same rfl rfl rfl
  openWrite _ _ _ := .same rfl rfl rfl
  writeFile _ _ _ _ := .same rfl rfl rfl
  put _ _ _ := .same rfl rfl rfl
  parse _ _ _ _ _ := .same rfl rfl rfl
  dims _ _ _ := .same rfl rfl rfl
  clone s r _ h := fun hs x hx => by
    rcases List.mem_cons.1 hx with rfl | hx
    · exact hs s.cur List.mem_cons_self
    · rcases List.mem_append.1 hx with hx | hx
      · exact hs x (List.mem_cons_of_mem _ hx)
      · cases List.mem_singleton.1 hx
        exact fun st hst => .inl ((clone_spec h).2.2.2.2.2 st hst)
  kill _ _ := .same rfl (by simp) rfl
  mode s m := fun _ x hx => by
    have key : ∀ r : Runner, ∀ st ∈ (r.ss.setMode m).stacks, st.mode = m := by
      intro r st hst
      obtain ⟨x, _, rfl⟩ := List.mem_map.1 hst
      rfl
    intro st hst
    rcases List.mem_cons.1 hx with rfl | hx
    · exact .inl (key _ _ hst)
    · obtain ⟨r', _, rfl⟩ := List.mem_map.1 hx
      exact .inl (key _ _ hst)

theorem others_nearly : Others KeepsNearly := by
  intro s a b r st st' hr h hm hs x hx
  have key : ∀ y ∈ s.cur :: (a ++ r :: b), ∀ st ∈ y.ss.stacks, st.mode = s.g.cfg.mode ∨ st.mode = 0 := hr ▸ hs
  rcases List.mem_cons.1 hx with rfl | hx
  · exact key s.cur List.mem_cons_self
  · rcases List.mem_append.1 hx with hx | hx
    · exact key x (List.mem_cons_of_mem _ (List.mem_append_left _ hx))
    · rcases List.mem_cons.1 hx with rfl | hx
      · intro q hq
        obtain ⟨p, hp, hpm⟩ := mem_setAt h hm hq
        rw [← hpm]
        exact key r (List.mem_cons_of_mem _ (List.mem_append_right _ List.mem_cons_self)) p hp
      · exact key x (List.mem_cons_of_mem _ (List.mem_append_right _ (List.mem_cons_of_mem _ hx)))

/-- **C37** Over every run: if every stack obeys the mode of the universe or is in normal mode, that stays so. Partial: stacks created while a mode is on are in
normal mode (`C37_false_for_new_stacks`), instead of obeying. -/
theorem C37_obeys_partial {n : Nat} {u u' : Univ} (h : u.turns n = .ok u')
    (h0 : ∀ r ∈ u.runners, ∀ st ∈ r.ss.stacks, st.mode = u.g.cfg.mode ∨ st.mode = 0) :
    ∀ r ∈ u'.runners, ∀ st ∈ r.ss.stacks, st.mode = u'.g.cfg.mode ∨ st.mode = 0 := by
  refine turns_lift (Q := fun u u' => (∀ r ∈ u.runners, ∀ st ∈ r.ss.stacks, st.mode = u.g.cfg.mode ∨ st.mode = 0) →
    ∀ r ∈ u'.runners, ∀ st ∈ r.ss.stacks, st.mode = u'.g.cfg.mode ∨ st.mode = 0) (fun _ => id) (fun _ _ _ h h' k => h' (h k)) ?_ n u u' h h0
  intro u u' h b
  rcases turn_cases h with ⟨_, rfl⟩ | ⟨r, rest, hr, ⟨_, rfl⟩ | ⟨hns, s, hs, rfl⟩⟩
  · exact b
  · exact fun x hx => b x (hr ▸ List.mem_cons_of_mem _ hx)
  · have hk := keeps_tick engine_nearly others_nearly ⟨fun _ _ => .same rfl rfl rfl, fun _ _ => .same rfl rfl rfl, fun _ _ => .same rfl rfl rfl⟩ _ _ _ hs
    have hb : St.Nearly ⟨r, rest, u.g⟩ := fun x hx => b x (hr ▸ hx)
    have := hk hb
    clear hk hb hs h
    intro x hx
    unfold St.univ at hx
    dsimp only at hx
    split at hx
    · exact this x (List.mem_cons_of_mem _ hx)
    · rcases List.mem_append.1 hx with hx | hx
      · exact this x (List.mem_cons_of_mem _ hx)
      · cases List.mem_singleton.1 hx; exact this _ List.mem_cons_self

/-- The programs `Q12.` and `Q0{12.` with MODE loaded. -/
def exQueue (cells : List Int) : St := machineWith { dims := 2, standard := 98, fingerprints := [0x4D4F4445] } [cells, [64]]

/-- **C37** is false for stacks created while a mode is on: in queue mode `12.` prints 1, but on a stack made by `{` it prints 2. -/
theorem C37_false_for_new_stacks :
    effAfter (exQueue [81, 49, 50, 46]) 4 = some [.out [49, 32]] ∧ effAfter (exQueue [81, 48, 123, 49, 50, 46]) 6 = some [.out [50, 32]] := by
  decide +kernel

/-- The hypotheses of `C37_obeys_partial` hold of a program that loads MODE, and a MODE instruction is reached. -/
example : ∀ r ∈ [(exQueue [81]).cur], ∀ st ∈ r.ss.stacks, st.mode = (exQueue [81]).g.cfg.mode ∨ st.mode = 0 := by decide +kernel

/-! ### C52 -/

/-- The references and the vectors they stand for. -/
def Glob.deref (g : Glob) (r : Int) : Option Vec := refcFind g.refc r

def Refs (g g' : Glob) : Prop := ∀ r v, g.deref r = some v → g'.deref r = some v

theorem Refs.same {g g' : Glob} (h : g'.refc = g.refc) : Refs g g' := fun r v hr => by unfold Glob.deref at hr ⊢; rw [h]; exact hr

theorem engine_refs : Engine fun s s' => Refs s.g s'.g where
  refl _ := .same rfl
  trans _ _ _ h h' := fun r v k => h' r v (h r v k)
  stack _ _ _ _ _ _ := .same rfl
  ssPush _ := .same rfl
  ssPop _ _ _ := .same rfl
  ssInsert _ _ _ _ := .same rfl
  ssRemove _ _ _ _ := .same rfl
  ssInc _ := .same rfl
  ssDec _ := .same rfl
  ip _ _ _ := .same rfl
  stop _ := .same rfl
  core _ _ _ := .same rfl
  sems _ _ _ _ _ := .same rfl
  load _ _ _ _ _ := .same rfl
  glob _ _ _ _ _ := .same rfl
  ref s r v h := fun r' v' h' => by
    unfold Glob.deref at h' ⊢
    dsimp only
    unfold refcFind
    split
    · rename_i e; subst e; rw [h] at h'; cases h'
    · exact h'
  out _ _ := .same rfl
  system _ _ _ := .same rfl
  openRead _ _ _ := .same rfl
  openWrite _ _ _ := .same rfl
  writeFile _ _ _ _ := .same rfl
  put _ _ _ := .same rfl
  parse _ _ _ _ _ := .same rfl
  dims _ _ _ := .same rfl
  clone _ _ _ _ := .same rfl
  kill _ _ := .same rfl
  mode _ _ := .same rfl

/-- **C52** No run changes what a reference stands for. -/
theorem C52_forever {n : Nat} {u u' : Univ} (h : u.turns n = .ok u') {r : Int} {v : Vec} (hr : u.g.deref r = some v) : u'.g.deref r = some v :=
  turns_glob (Q := Refs) (fun _ => .same rfl) (fun _ _ _ h h' r v k => h' r v (h r v k))
    (keeps_tick engine_refs (fun _ _ _ _ _ _ _ _ _ => .same rfl) ⟨fun _ _ => .same rfl, fun _ _ => .same rfl, fun _ _ => .same rfl⟩) h r v hr

theorem refcFresh_run (n : Nat) : ∀ {s s' : St} {r : Int}, refcFresh n s = .ok (r, s') →
    s.g.deref r = none ∧ ∃ a, s' = s.setG { s.g with asked := a } := by
  induction n with
  | zero => intro s s' r hr; cases hr
  | succ n ih =>
    intro s s' r hr
    unfold refcFresh at hr
    rw [bind_ok (rfl : ask s = .ok (s.g.orc s.g.asked, s.setG { s.g with asked := s.g.asked + 1 }))] at hr
    change (_ >>= _ : Exec Int) _ = _ at hr
    rw [bind_ok (get_run _)] at hr
    have key : ∀ o, refcFind s.g.refc (s.g.orc s.g.asked % 2147483648) = o →
        (match o with | none => pure (s.g.orc s.g.asked % 2147483648) | some _ => refcFresh n : Exec Int)
          (s.setG { s.g with asked := s.g.asked + 1 }) = .ok (r, s') → s.g.deref r = none ∧ ∃ a, s' = s.setG { s.g with asked := a } := by
      intro o ho h
      cases o with
      | none => cases h; exact ⟨ho, s.g.asked + 1, rfl⟩
      | some v =>
        obtain ⟨h1, a, h2⟩ := ih (s := s.setG { s.g with asked := s.g.asked + 1 }) h
        exact ⟨h1, a, h2⟩
    exact key _ rfl hr

/-- **C52** `R` replaces the vector on top of the stack by a number that stood for nothing before (so it is different from every reference made so far) and now
stands for that vector; every other reference stands for what it did. -/
theorem C52_reference {s s' : St} {e : Err} (h : s.Lifo) (hr : refcRef s = .ok (e, s')) :
    ∃ r v, e = .none ∧ s'.items = r :: s.items.drop s.g.cfg.dims ∧ s.g.deref r = none ∧ s'.g.deref r = some v ∧
      (∀ i, v.get i = vecOf s.items s.g.cfg.dims i) ∧ ∀ r', r' ≠ r → s'.g.deref r' = s.g.deref r' := by
  rw [← setItems_self h] at hr
  obtain ⟨v, hv, hg, _⟩ := popVector_run h s.items s.top.ops
  rw [refcRef, bind_ok hv, bind_ok (getFuel_run _)] at hr
  change seq _ _ _ = _ at hr
  unfold seq at hr
  split at hr
  · rename_i r s1 h1
    obtain ⟨hfresh, a, rfl⟩ := refcFresh_run _ h1
    have h' : (s.setG { s.g with asked := a, refc := (r, v) :: s.g.refc }).Lifo := h
    change (_ >>= _ : Exec Err) _ = _ at hr
    rw [bind_ok (rfl : modG (fun g => { g with refc := (r, v) :: g.refc }) _ = .ok ((),
      (s.setG { s.g with asked := a, refc := (r, v) :: s.g.refc }).setItems (s.items.drop s.g.cfg.dims) _))] at hr
    rw [bind_ok (pushTop_run h' _ _ _)] at hr
    cases hr
    refine ⟨r, v, rfl, ?_, hfresh, ?_, fun i => congrFun hg i, ?_⟩
    · exact items_setItems h' _ _
    · show refcFind ((r, v) :: s.g.refc) r = _
      unfold refcFind; rw [if_pos rfl]
    · intro r' hne
      show refcFind ((r, v) :: s.g.refc) r' = _
      conv => lhs; unfold refcFind
      rw [if_neg (Ne.symm hne)]; rfl
  · cases hr

/-- **C52** `D` with a reference on top of the stack replaces it by the vector it stands for. -/
theorem C52_dereference {s : St} (h : s.Lifo) {r : Int} {l : List Int} {v : Vec} (hi : s.items = r :: l) (hv : s.g.deref r = some v) :
    ∃ s', refcDeref s = .ok (.none, s') ∧ s.Leaves s' (((List.range s.g.cfg.dims).map v.get).reverse ++ l) := by
  refine ⟨_, ?_, s.top.ops + 1 + s.g.cfg.dims, rfl⟩
  apply run_items h
  rw [refcDeref, bind_ok (popTop_run h _ _)]
  show (Exec.get >>= _) _ = _
  rw [bind_ok (get_run _), hi]
  have : refcFind (s.setItems (r :: l).tail (s.top.ops + 1)).g.refc ((r :: l).headD 0) = some v := hv
  rw [this]
  show (pushVector v >>= _) _ = _
  rw [bind_ok (pushVector_run h v _ _)]
  rfl

theorem range_vecOf {c l : List Int} {v : Nat → Int} (h : ∀ i, v i = vecOf (c ++ l) c.length i) : ((List.range c.length).map v).reverse = c := by
  apply List.ext_getElem
  · simp
  · intro i h1 h2
    simp only [List.getElem_reverse, List.getElem_map, List.getElem_range, List.length_map, List.length_range]
    rw [h, vecOf, if_pos (by omega), show c.length - 1 - (c.length - 1 - i) = i by omega, List.getD_eq_getElem?_getD,
      List.getElem?_append_left h2, List.getElem?_eq_getElem h2]
    rfl

/-- **C52** Altogether: make a reference with `R` from the vector with coordinates `c` (last coordinate on top), continue with any run of any number of IPs; then `D`
with this reference on top of the stack of any IP puts the vector `c` in its place. -/
theorem C52_always {s s' t : St} {e : Err} {u u' : Univ} {n : Nat} {c l m : List Int} {r : Int} (h : s.Lifo) (hs : s.items = c ++ l)
    (hc : c.length = s.g.cfg.dims) (hr : refcRef s = .ok (e, s')) (hri : s'.items.head? = some r) (hu : u.g = s'.g) (hrun : u.turns n = .ok u')
    (ht : t.g = u'.g) (hd : t.g.cfg.dims = s.g.cfg.dims) (hl : t.Lifo) (hi : t.items = r :: m) :
    ∃ t', refcDeref t = .ok (.none, t') ∧ t.Leaves t' (c ++ m) := by
  obtain ⟨r', v, _, h1, _, h2, h3, _⟩ := C52_reference h hr
  rw [h1] at hri
  cases hri
  have h4 := C52_forever hrun (r := r) (v := v) (by rw [hu]; exact h2)
  obtain ⟨t', h5, h6⟩ := C52_dereference hl hi (by rw [ht]; exact h4)
  refine ⟨t', h5, ?_⟩
  rw [hd, ← hc] at h6
  rw [hs, ← hc] at h3
  rwa [range_vecOf h3] at h6

/-- `R` executed on the vector (3, 4): the reference it makes. -/
def exRef : Option (List Int) :=
  match refcRef ((machine [82]).setItems [4, 3, 9] 3) with
  | .ok (_, s') => some s'.items
  | .error _ => none
/-- The hypotheses of `C52_reference`: here the random number is 0. -/
example : exRef = some [0, 9] ∧ ((machine [82]).setItems [4, 3, 9] 3).Lifo := by decide +kernel

/-! ### C61 -/

/-- This IP understands the characters that are not letters as its strategies define them. -/
def Runner.Std (S : List Strat) (r : Runner) : Prop :=
  r.strats = S ∧ ∀ c, ¬ isLetter c → r.sems c = meanings (S.flatMap Strat.table) c

def KeepsStd (S : List Strat) (s s' : St) : Prop := (∀ r ∈ s.cur :: s.rest, r.Std S) → ∀ r ∈ s'.cur :: s'.rest, r.Std S

theorem KeepsStd.same {S : List Strat} {s s' : St} (h1 : s'.cur.strats = s.cur.strats) (h2 : ∀ c, ¬ isLetter c → s'.cur.sems c = s.cur.sems c)
    (h3 : s'.rest.map (fun r => (r.strats, r.sems)) = s.rest.map (fun r => (r.strats, r.sems))) : KeepsStd S s s' := by
  intro h r hr
  rcases List.mem_cons.1 hr with rfl | hr
  · have := h _ List.mem_cons_self
    exact ⟨h1.trans this.1, fun c hc => (h2 c hc).trans (this.2 c hc)⟩
  · have : (r.strats, r.sems) ∈ s.rest.map (fun r => (r.strats, r.sems)) := h3 ▸ List.mem_map.2 ⟨r, hr, rfl⟩
    obtain ⟨r', h4, h5⟩ := List.mem_map.1 this
    have h6 := h _ (List.mem_cons_of_mem _ h4)
    have h7 : r'.strats = r.strats := congrArg Prod.fst h5
    have h8 : r'.sems = r.sems := congrArg Prod.snd h5
    exact ⟨h7 ▸ h6.1, fun c hc => h8 ▸ h6.2 c hc⟩

theorem clone_std {S : List Strat} (hS : ∀ st ∈ S, st ≠ .starfish) {p r : Runner} {g : Glob} {id : Nat} (hp : p.Std S) (h : p.clone g id = .ok r) :
    r.Std S := by
  have hm : p.strats.map Strat.cloned = S := by
    rw [hp.1]
    conv => rhs; rw [← List.map_id S]
    refine List.map_congr_left fun st hst => ?_
    have := hS st hst
    cases st <;> first | rfl | exact absurd rfl this
  unfold Runner.clone at h
  dsimp only at h
  split at h
  · cases h
  · cases h
    refine ⟨?_, fun c hc => ?_⟩
    · dsimp only; rw [(inits_same p.loaded _ _).strats]; exact hm
    · dsimp only
      rw [inits_sems_other p.loaded _ _ hc, hm]; simp

theorem engine_std {S : List Strat} (hS : ∀ st ∈ S, st ≠ .starfish) : Engine (KeepsStd S) where
  refl _ := id
  trans _ _ _ h h' k := h' (h k)
  stack _ _ _ _ _ _ := .same rfl (fun _ _ => rfl) rfl
  ssPush _ := .same rfl (fun _ _ => rfl) rfl
  ssPop _ _ _ := .same rfl (fun _ _ => rfl) rfl
  ssInsert _ _ _ _ := .same rfl (fun _ _ => rfl) rfl
  ssRemove _ _ _ _ := .same rfl (fun _ _ => rfl) rfl
  ssInc _ := .same rfl (fun _ _ => rfl) rfl
  ssDec _ := .same rfl (fun _ _ => rfl) rfl
  ip _ _ _ := .same rfl (fun _ _ => rfl) rfl
  stop _ := .same rfl (fun _ _ => rfl) rfl
  core _ _ h := .same h.strats (fun c _ => congrFun h.sems c) rfl
  sems _ _ _ _ h := .same rfl (fun c hc => h.others c hc) rfl
  load _ _ _ _ h := .same (loadFp_same h).strats (fun _ hc => loadFp_sems_other h hc) rfl
  glob _ _ _ _ _ := .same rfl (fun _ _ => rfl) rfl
  ref _ _ _ _ := .same rfl (fun _ _ => rfl) rfl
  out _ _ := .same rfl (fun _ _ => rfl) rfl
  system _ _ _ := .same rfl (fun _ _ => rfl) rfl
  openRead _ _ _ := .same rfl (fun _ _ => rfl) rfl
  openWrite _ _ _ := .same rfl (fun _ _ => rfl) rfl
  writeFile _ _ _ _ := .same rfl (fun _ _ => rfl) rfl
  put _ _ _ := .same rfl (fun _ _ => rfl) rfl
  parse _ _ _ _ _ := .same rfl (fun _ _ => rfl) rfl
  dims _ _ _ := .same rfl (fun _ _ => rfl) rfl
  clone s r _ h := fun hs x hx => by
    rcases List.mem_cons.1 hx with rfl | hx
    · exact hs _ List.mem_cons_self
    · rcases List.mem_append.1 hx with hx | hx
      · exact hs x (List.mem_cons_of_mem _ hx)
      · cases List.mem_singleton.1 hx
        exact clone_std hS (hs _ List.mem_cons_self) h
  kill _ _ := .same rfl (fun _ _ => rfl) (by simp)
  mode _ _ := .same rfl (fun _ _ => rfl) (by simp)

/-- **C61** Whatever a program does, the characters that are not upper-case letters keep the meaning the chosen standard gives them, for every IP that ever exists in
the run (`S` are the strategies of that standard, here any without *><>). -/
theorem C61_nonletters {S : List Strat} (hS : ∀ st ∈ S, st ≠ .starfish) {n : Nat} {u u' : Univ} (h : u.turns n = .ok u')
    (h0 : ∀ r ∈ u.runners, r.strats = S ∧ ∀ c, ¬ isLetter c → r.sems c = meanings (S.flatMap Strat.table) c) :
    ∀ r ∈ u'.runners, r.strats = S ∧ ∀ c, ¬ isLetter c → r.sems c = meanings (S.flatMap Strat.table) c := by
  refine turns_lift (Q := fun u u' => (∀ r ∈ u.runners, r.Std S) → ∀ r ∈ u'.runners, r.Std S) (fun _ => id) (fun _ _ _ h h' k => h' (h k)) ?_ n u u' h h0
  intro u u' h b
  rcases turn_cases h with ⟨_, rfl⟩ | ⟨r, rest, hr, ⟨_, rfl⟩ | ⟨hns, s, hs, rfl⟩⟩
  · exact b
  · exact fun x hx => b x (hr ▸ List.mem_cons_of_mem _ hx)
  · have hk := keeps_tick (engine_std hS) (fun _ _ _ _ _ _ hr _ _ => .same rfl (fun _ _ => rfl) (by simp [hr]))
      ⟨fun _ _ => .same rfl (fun _ _ => rfl) rfl, fun _ _ => .same rfl (fun _ _ => rfl) rfl, fun _ _ => .same rfl (fun _ _ => rfl) rfl⟩ _ _ _ hs
    have := hk fun x hx => b x (hr ▸ hx)
    clear hk hs h
    intro x hx
    unfold St.univ at hx
    dsimp only at hx
    split at hx
    · exact this x (List.mem_cons_of_mem _ hx)
    · rcases List.mem_append.1 hx with hx | hx
      · exact this x (List.mem_cons_of_mem _ hx)
      · cases List.mem_singleton.1 hx; exact this _ List.mem_cons_self

/-- **C61** From the start of a Befunge-98 program with any fingerprints: in every run, for every IP, `@` ends it, `q` ends the program, `(` loads and `)` unloads
fingerprints, space is skipped, and so on for each character of `semsUne93`, `semsUne98`, `semsBe93`, `semsBe98`. -/
theorem C61_befunge98 {g : Glob} (hd : g.cfg.dims = 2) (hs : g.cfg.standard = 98) {n : Nat} {u' : Univ} {pos delta : Vec}
    (h : Univ.turns n ⟨[newRunner g.cfg g.nextId pos delta], g⟩ = .ok u') {r : Runner} (hr : r ∈ u'.runners) {c : Int} (hc : ¬ isLetter c) :
    r.sems c = meanings (semsUne93 ++ semsUne98 ++ semsBe93 ++ semsBe98) c := by
  have hst : strategiesFor g.cfg = [.une93, .une98, .be93, .be98] := by
    unfold strategiesFor; rw [hd, hs]; rfl
  have := C61_nonletters (S := [.une93, .une98, .be93, .be98]) (by decide) h ?_ r hr
  · rw [this.2 c hc]
    simp [Strat.table]
  · intro x hx
    cases List.mem_singleton.1 hx
    refine ⟨?_, fun c hc => ?_⟩
    · unfold newRunner
      dsimp only
      rw [(notifyDelta_core _).strats]
      dsimp only
      rw [(inits_same g.cfg.fingerprints _ _).strats]
      exact hst
    · rw [newRunner_sems_other _ _ _ _ hc, hst]

/-- For instance these. -/
example : (meanings (semsUne93 ++ semsUne98 ++ semsBe93 ++ semsBe98) 64).head? = some ⟨.stop, false⟩ ∧
    (meanings (semsUne93 ++ semsUne98 ++ semsBe93 ++ semsBe98) 113).head? = some ⟨.quit, false⟩ ∧
    (meanings (semsUne93 ++ semsUne98 ++ semsBe93 ++ semsBe98) 40).head? = some ⟨.load, false⟩ := by decide

end Funge
