import Verif.Lemmas.Univ
import Verif.Lemmas.Tick
import Verif.Props.C35_Unknown
/-
C30 (turns), C31 (`@` and `q`), C38 (identities).
-/
namespace Funge
open Exec

/-! ### Specification -/

/-- The identities of the IPs of a universe, in the order they will take their turns. -/
def Univ.ids (u : Univ) : List Nat := u.runners.map (·.id)

/-- Who takes the next `n` turns. -/
def Univ.order : Nat → Univ → List Nat
  | 0, _ => []
  | n + 1, u => u.ids.take 1 ++ (match u.turn with | .error _ => [] | .ok u' => Univ.order n u')

/-- `FungeUniverse::isRunning` (/repo/src/FungeUniverse.cpp:171-177) with interpreted threads. -/
def Univ.isRunning (u : Univ) : Bool := u.g.running && !u.runners.isEmpty

/-! ### Who there is after a tick -/

/-- Nobody but new IPs appears behind the others, with consecutive fresh identities; nobody disappears and nobody changes identity. -/
def Population (s s' : St) : Prop :=
  s'.cur.id = s.cur.id ∧ ∃ k, s'.g.nextId = s.g.nextId + k ∧ s'.rest.map (·.id) = s.rest.map (·.id) ++ List.range' s.g.nextId k

theorem Population.same {s s' : St} (h1 : s'.cur.id = s.cur.id) (h2 : s'.g.nextId = s.g.nextId) (h3 : s'.rest.map (·.id) = s.rest.map (·.id)) :
    Population s s' := ⟨h1, 0, h2, by rw [h3]; simp⟩

theorem loadFp_id {r r' : Runner} {id : Nat} (h : r.loadFp id = some r') : r'.id = r.id := (loadFp_same h).id

theorem clone_id {p r : Runner} {g : Glob} {id : Nat} (h : p.clone g id = .ok r) : r.id = id := by
  unfold Runner.clone at h
  dsimp only at h
  split at h
  · cases h
  · cases h
    exact (inits_same p.loaded _ _).id

theorem engine_population : Engine Population where
  refl _ := .same rfl rfl rfl
  trans s t u := by
    rintro ⟨h1, k, h2, h3⟩ ⟨l1, m, l2, l3⟩
    refine ⟨l1.trans h1, k + m, by omega, ?_⟩
    rw [l3, h3, h2, List.append_assoc, ← List.range'_append_1]
  stack _ _ _ _ _ _ := .same rfl rfl rfl
  ssPush _ := .same rfl rfl rfl
  ssPop _ _ _ := .same rfl rfl rfl
  ssInsert _ _ _ _ := .same rfl rfl rfl
  ssRemove _ _ _ _ := .same rfl rfl rfl
  ssInc _ := .same rfl rfl rfl
  ssDec _ := .same rfl rfl rfl
  ip _ _ _ := .same rfl rfl rfl
  stop _ := .same rfl rfl rfl
  core _ _ h := .same h.id rfl rfl
  sems _ _ _ _ _ := .same rfl rfl rfl
  load _ _ _ _ h := .same (loadFp_id h) rfl rfl
  glob _ _ _ _ _ := .same rfl rfl rfl
  ref _ _ _ _ := .same rfl rfl rfl
  out _ _ := .same rfl rfl rfl
  system _ _ _ := .same rfl rfl rfl
  openRead _ _ _ := .same rfl rfl rfl
  openWrite _ _ _ := .same rfl rfl rfl
  writeFile _ _ _ _ := .same rfl rfl rfl
  put _ _ _ := .same rfl rfl rfl
  parse _ _ _ _ _ := .same rfl rfl rfl
  dims _ _ _ := .same rfl rfl rfl
  clone s r _ h := ⟨rfl, 1, rfl, by simp [clone_id h]⟩
  kill _ _ := .same rfl rfl (by simp)
  mode _ _ := .same rfl rfl (by simp)

theorem others_population : Others Population := fun _ _ _ _ _ _ hr _ _ => .same rfl rfl (by simp [hr])
theorem dirs_population : Dirs Population := ⟨fun _ _ => .same rfl rfl rfl, fun _ _ => .same rfl rfl rfl, fun _ _ => .same rfl rfl rfl⟩

/-- What a turn does to the queue: the front goes to the back behind the IPs it created, or disappears. -/
theorem turn_ids {u u' : Univ} (h : u.turn = .ok u') {i : Nat} {l : List Nat} (hi : u.ids = i :: l) :
    ∃ (k : Nat) (alive : Bool), u'.g.nextId = u.g.nextId + k ∧ u'.ids = l ++ (List.range' u.g.nextId k ++ if alive then [i] else []) := by
  rcases turn_cases h with ⟨hr, rfl⟩ | ⟨r, rest, hr, ⟨_, rfl⟩ | ⟨_, s, hs, rfl⟩⟩
  · unfold Univ.ids at hi; rw [hr] at hi; cases hi
  · unfold Univ.ids at hi ⊢
    rw [hr] at hi
    cases hi
    exact ⟨0, false, rfl, by simp⟩
  · unfold Univ.ids at hi ⊢
    rw [hr] at hi
    cases hi
    obtain ⟨h1, k, h2, h3⟩ := keeps_tick engine_population others_population dirs_population _ _ _ hs
    refine ⟨k, !s.cur.ip.stopped, h2, ?_⟩
    dsimp only at h1 h3
    unfold St.univ
    dsimp only
    cases s.cur.ip.stopped <;> simp [h1, h3]

theorem order_succ {u u' : Univ} (h : u.turn = .ok u') (n : Nat) : u.order (n + 1) = u.ids.take 1 ++ u'.order n := by
  rw [Univ.order, h]

theorem turns_succ {u u' : Univ} {n : Nat} (h : u.turns (n + 1) = .ok u') : ∃ v, u.turn = .ok v ∧ v.turns n = .ok u' := by
  unfold Univ.turns at h
  split at h
  · cases h
  · rename_i v hv; exact ⟨v, hv, h⟩

/-! ### C30 -/

/-- What is left of an IP's place in the queue after its turn: the IPs it created (`kids`) and itself if alive. -/
def afterTurn (p : Nat × List Nat × Bool) : List Nat := p.2.1 ++ if p.2.2 then [p.1] else []

/-- Processing the first part `a` of a queue. -/
theorem round {a : List Nat} : ∀ {u u' : Univ} {b : List Nat}, u.ids = a ++ b → u.turns a.length = .ok u' →
    u.order a.length = a ∧ ∃ gs : List (Nat × List Nat × Bool), gs.map (·.1) = a ∧ u'.ids = b ++ gs.flatMap afterTurn ∧
      u.g.nextId ≤ u'.g.nextId ∧ gs.flatMap (·.2.1) = List.range' u.g.nextId (u'.g.nextId - u.g.nextId) := by
  induction a with
  | nil =>
    intro u u' b hi h
    cases h
    exact ⟨rfl, [], rfl, by simpa using hi, Nat.le_refl _, by simp⟩
  | cons i a ih =>
    intro u u' b hi h
    obtain ⟨v, hv, hvs⟩ := turns_succ h
    obtain ⟨k, alive, hk, hids⟩ := turn_ids hv hi
    have hids : v.ids = a ++ (b ++ (List.range' u.g.nextId k ++ if alive then [i] else [])) := hids.trans (List.append_assoc _ _ _)
    obtain ⟨ho, gs, h1, h2, h3, h4⟩ := ih hids hvs
    refine ⟨?_, (i, List.range' u.g.nextId k, alive) :: gs, by simp [h1], ?_, by omega, ?_⟩
    · rw [List.length_cons, order_succ hv, ho, hi]; rfl
    · rw [h2, List.flatMap_cons]; simp [afterTurn]
    · rw [List.flatMap_cons, h4, hk, List.range'_append_1]
      congr 1; omega

/-- **C30** A round. In a universe with any number of IPs, the next turns are taken by each of them exactly once in order; afterwards every IP that
was alive is in the same order as before, each preceded by the IPs it created in this round (`gs` gives for each IP its new IPs and whether it survives), so that a
new IP has its first turn before the next turn of its parent. Partial: the turns have to end, which they need not (`C30_false_on_blank_path`). -/
theorem C30_round_partial {u u' : Univ} (h : u.turns u.runners.length = .ok u') :
    u.order u.runners.length = u.ids ∧ ∃ gs : List (Nat × List Nat × Bool), gs.map (·.1) = u.ids ∧
      u'.ids = gs.flatMap (fun p => p.2.1 ++ if p.2.2 then [p.1] else []) ∧
      gs.flatMap (·.2.1) = List.range' u.g.nextId (u'.g.nextId - u.g.nextId) := by
  have hl : u.runners.length = u.ids.length := (List.length_map _).symm
  rw [hl] at h ⊢
  obtain ⟨ho, gs, h1, h2, _, h4⟩ := round (b := []) (List.append_nil _).symm h
  exact ⟨ho, gs, h1, h2, h4⟩

/-- **C30** Between two turns of an IP: if it survives its turn, the following turns are taken by all the others in order (`l`), then by the IPs it has
just created, and then it is its turn again. -/
theorem C30_between_partial {u v w : Univ} {i : Nat} {l : List Nat} (hi : u.ids = i :: l) (h : u.turn = .ok v) (halive : i ∈ v.ids) (hnew : i < u.g.nextId)
    (hnd : i ∉ l) (hw : v.turns (l.length + (v.g.nextId - u.g.nextId)) = .ok w) :
    v.order (l.length + (v.g.nextId - u.g.nextId)) = l ++ List.range' u.g.nextId (v.g.nextId - u.g.nextId) ∧ w.ids.head? = some i := by
  obtain ⟨k, alive, hk, hids⟩ := turn_ids h hi
  have hal : alive = true := by
    cases alive with
    | true => rfl
    | false =>
      rw [hids] at halive
      simp [hnd] at halive
      omega
  subst hal
  have hkk : v.g.nextId - u.g.nextId = k := by omega
  rw [hkk] at hw ⊢
  have hids' : v.ids = (l ++ List.range' u.g.nextId k) ++ [i] := by rw [hids]; simp
  have hlen : l.length + k = (l ++ List.range' u.g.nextId k).length := by simp
  rw [hlen] at hw ⊢
  obtain ⟨ho, gs, h1, h2, _⟩ := round hids' hw
  exact ⟨ho, by rw [h2]; rfl⟩

/-! ### C38 -/

/-- Distinct identities, all given out before. -/
def Univ.Distinct (u : Univ) : Prop := u.ids.Nodup ∧ ∀ i ∈ u.ids, i < u.g.nextId

theorem distinct_turn {u u' : Univ} (h : u.turn = .ok u') :
    u.g.nextId ≤ u'.g.nextId ∧ (∀ i ∈ u'.ids, i ∈ u.ids ∨ u.g.nextId ≤ i) ∧ (u.Distinct → u'.Distinct) := by
  cases hu : u.ids with
  | nil =>
    rcases turn_cases h with ⟨hr, rfl⟩ | ⟨r, rest, hr, _⟩
    · exact ⟨Nat.le_refl _, fun i hi => .inl (hu ▸ hi), id⟩
    · unfold Univ.ids at hu; rw [hr] at hu; cases hu
  | cons i l =>
    obtain ⟨k, alive, hk, hids⟩ := turn_ids h hu
    refine ⟨by omega, ?_, ?_⟩
    · intro j hj
      rw [hids] at hj
      rcases List.mem_append.1 hj with hj | hj
      · exact .inl (List.mem_cons_of_mem _ hj)
      · rcases List.mem_append.1 hj with hj | hj
        · exact .inr (List.mem_range'_1.1 hj).1
        · cases alive with
          | true => cases List.mem_singleton.1 hj; exact .inl List.mem_cons_self
          | false => cases hj
    · rintro ⟨hn, hlt⟩
      rw [hu] at hn hlt
      have hn' := List.nodup_cons.1 hn
      have h1 : ∀ (q : List Nat), q = [] ∨ q = [i] → (l ++ (List.range' u.g.nextId k ++ q)).Nodup := by
        intro q hq
        have hl : ∀ j ∈ l, j < u.g.nextId := fun j hj => hlt j (List.mem_cons_of_mem _ hj)
        have hi : i < u.g.nextId := hlt i List.mem_cons_self
        have hr := List.nodup_range' (s := u.g.nextId) (n := k) (step := 1)
        rw [List.nodup_append]
        refine ⟨hn'.2, ?_, ?_⟩
        · rw [List.nodup_append]
          refine ⟨hr, ?_, ?_⟩
          · rcases hq with rfl | rfl <;> simp
          · intro a ha b hb
            have := (List.mem_range'_1.1 ha).1
            rcases hq with rfl | rfl
            · cases hb
            · have := List.mem_singleton.1 hb; omega
        · intro a ha b hb
          have := hl a ha
          rcases List.mem_append.1 hb with hb | hb
          · have := (List.mem_range'_1.1 hb).1; omega
          · rcases hq with rfl | rfl
            · cases hb
            · have := List.mem_singleton.1 hb
              intro e
              exact hn'.1 (this ▸ e ▸ ha)
      constructor
      · rw [hids]; exact h1 _ (by cases alive <;> simp)
      · intro j hj
        rw [hids] at hj
        rcases List.mem_append.1 hj with hj | hj
        · have := hlt j (List.mem_cons_of_mem _ hj); omega
        · rcases List.mem_append.1 hj with hj | hj
          · have := (List.mem_range'_1.1 hj).2; omega
          · cases alive with
            | true =>
              have : j = i := by simpa using hj
              have := hlt i List.mem_cons_self; omega
            | false => cases hj

theorem distinct_turns {n : Nat} {u u' : Univ} (h : u.turns n = .ok u') :
    u.g.nextId ≤ u'.g.nextId ∧ (∀ i ∈ u'.ids, i ∈ u.ids ∨ u.g.nextId ≤ i) ∧ (u.Distinct → u'.Distinct) :=
  turns_lift (Q := fun u u' => u.g.nextId ≤ u'.g.nextId ∧ (∀ i ∈ u'.ids, i ∈ u.ids ∨ u.g.nextId ≤ i) ∧ (u.Distinct → u'.Distinct))
    (fun _ => ⟨Nat.le_refl _, fun _ h => .inl h, id⟩)
    (fun _ _ _ h h' => ⟨Nat.le_trans h.1 h'.1, fun i hi => by
      rcases h'.2.1 i hi with hi | hi
      · exact h.2.1 i hi
      · exact .inr (Nat.le_trans h.1 hi), fun d => h'.2.2 (h.2.2 d)⟩)
    (fun _ _ h => distinct_turn h) n u u' h

/-- **C38** In a run from IPs with distinct identities below the counter (such as one fresh IP), the identities stay distinct, at every moment. -/
theorem C38_distinct {n : Nat} {u u' : Univ} (h : u.turns n = .ok u') (hd : u.ids.Nodup) (hlt : ∀ i ∈ u.ids, i < u.g.nextId) :
    u'.ids.Nodup ∧ ∀ i ∈ u'.ids, i < u'.g.nextId :=
  (distinct_turns h).2.2 ⟨hd, hlt⟩

/-- **C38** Identities are never reused: once an identity that was given out is not in the universe any more, it never is again. -/
theorem C38_never_reused {n : Nat} {u u' : Univ} (h : u.turns n = .ok u') {i : Nat} (hlt : i < u.g.nextId) (hi : i ∉ u.ids) : i ∉ u'.ids := by
  intro h'
  rcases (distinct_turns h).2.1 i h' with h1 | h1
  · exact hi h1
  · omega

/-- **C38** An IP keeps its identity: during its turn, and during the turns of others. -/
theorem C38_kept {r : Runner} {rest : List Runner} {g : Glob} {s : St} (h : tick ⟨r, rest, g⟩ = .ok ((), s)) :
    s.cur.id = r.id ∧ ∃ new, s.rest.map (·.id) = rest.map (·.id) ++ new := by
  obtain ⟨h1, k, _, h3⟩ := keeps_tick engine_population others_population dirs_population _ _ _ h
  exact ⟨h1, _, h3⟩

/-! ### C31 -/

/-- Every IP of the universe has stopped. -/
def St.AllStopped (s : St) : Prop := s.cur.ip.stopped = true ∧ ∀ r ∈ s.rest, r.ip.stopped = true

/-- A stopped IP stays stopped; a universe that is not running keeps all its IPs stopped. -/
def Dying (s s' : St) : Prop :=
  (s.cur.ip.stopped = true → s'.cur.ip.stopped = true) ∧ (s.g.running = false → s'.g.running = false) ∧
    ((s.g.running = false → s.AllStopped) → s'.g.running = false → s'.AllStopped)

theorem Dying.same {s s' : St} (h1 : s'.cur.ip.stopped = s.cur.ip.stopped) (h2 : s'.g.running = s.g.running)
    (h3 : s'.rest.map (·.ip) = s.rest.map (·.ip)) : Dying s s' := by
  refine ⟨fun h => h1.trans h, fun h => h2.trans h, fun h h' => ⟨h1.trans (h (h2.symm.trans h')).1, ?_⟩⟩
  intro r hr
  have : r.ip ∈ s.rest.map (·.ip) := h3 ▸ List.mem_map.2 ⟨r, hr, rfl⟩
  obtain ⟨r', hr', e⟩ := List.mem_map.1 this
  rw [← e]
  exact (h (h2.symm.trans h')).2 r' hr'

theorem clone_stopped {p r : Runner} {g : Glob} {id : Nat} (h : p.clone g id = .ok r) : r.ip.stopped = p.ip.stopped := by
  unfold Runner.clone at h
  dsimp only at h
  split at h
  · cases h
  · rename_i ip hip
    cases h
    have h1 := next_stopped hip
    dsimp only
    rw [h1]
    show (List.foldl (Strat.init p.loaded) _ _).ip.stopped = _
    rw [(inits_same p.loaded _ _).ip]

theorem engine_dying : Engine Dying where
  refl _ := .same rfl rfl rfl
  trans _ _ _ h h' := ⟨fun k => h'.1 (h.1 k), fun k => h'.2.1 (h.2.1 k), fun k => h'.2.2 (h.2.2 k)⟩
  stack _ _ _ _ _ _ := .same rfl rfl rfl
  ssPush _ := .same rfl rfl rfl
  ssPop _ _ _ := .same rfl rfl rfl
  ssInsert _ _ _ _ := .same rfl rfl rfl
  ssRemove _ _ _ _ := .same rfl rfl rfl
  ssInc _ := .same rfl rfl rfl
  ssDec _ := .same rfl rfl rfl
  ip _ _ h := .same h rfl rfl
  stop _ := ⟨fun _ => rfl, fun h => h, fun h h' => ⟨rfl, (h h').2⟩⟩
  core _ _ h := .same (by rw [h.ip]) rfl rfl
  sems _ _ _ _ _ := .same rfl rfl rfl
  load _ _ _ _ h := .same (by rw [(loadFp_same h).ip]) rfl rfl
  glob _ _ _ _ _ := .same rfl rfl rfl
  ref _ _ _ _ := .same rfl rfl rfl
  out _ _ := .same rfl rfl rfl
  system _ _ _ := .same rfl rfl rfl
  openRead _ _ _ := .same rfl rfl rfl
  openWrite _ _ _ := .same rfl rfl rfl
  writeFile _ _ _ _ := .same rfl rfl rfl
  put _ _ _ := .same rfl rfl rfl
  parse _ _ _ _ _ := .same rfl rfl rfl
  dims _ _ _ := .same rfl rfl rfl
  clone s r _ h := ⟨id, id, fun k k' => ⟨(k k').1, fun x hx => by
    rcases List.mem_append.1 hx with hx | hx
    · exact (k k').2 x hx
    · cases List.mem_singleton.1 hx; rw [clone_stopped h]; exact (k k').1⟩⟩
  kill _ _ := ⟨fun _ => rfl, fun _ => rfl, fun _ _ => ⟨rfl, fun x hx => by
    obtain ⟨r, _, rfl⟩ := List.mem_map.1 hx
    rfl⟩⟩
  mode _ _ := .same rfl rfl (by simp)

theorem keeps_dying : Keeps Dying tick :=
  keeps_tick engine_dying (fun _ _ _ _ _ _ hr _ _ => .same rfl rfl (by simp [hr]))
    ⟨fun _ _ => .same rfl rfl rfl, fun _ _ => .same rfl rfl rfl, fun _ _ => .same rfl rfl rfl⟩

/-- Ticking at an instruction which, executed, gives `s1`, where it has stopped. -/
theorem tick_stopped {s s1 : St} (hf : 0 < s.g.fuel) (h : execute s.g.fuel (s.g.field.get s.cur.ip.pos) s = .ok (.none, s1))
    (hs : s1.cur.ip.stopped = true) : tick s = .ok ((), s1) := by
  have := tick_none hf h (ip' := s1.cur.ip) (by unfold IP.next; rw [hs]; rfl)
  exact this

theorem execute_op {s : St} {op : Op} {b : Bool} (hf : 0 < s.g.fuel) (hstr : s.cur.inString = false) (c : Int)
    (hsem : s.cur.getSem c = some ⟨op, b⟩) (hm : hasMode s.g.cfg.mode modeDive = false ∨ b = true) :
    execute s.g.fuel c s = runOp (execute (s.g.fuel - 1)) op s := by
  obtain ⟨k, hk⟩ : ∃ k, s.g.fuel = k + 1 := ⟨s.g.fuel - 1, by omega⟩
  rw [hk]
  unfold execute execNormal
  rw [hstr, hsem]
  rcases hm with hm | hm <;> simp [hm]

/-- **C31** `@`: the turn of an IP that is at an `@` removes this IP and does nothing else at all: the other IPs, Fungespace, output, … are the same. -/
theorem C31_stop {r : Runner} {rest : List Runner} {g : Glob} {b : Bool} (hf : 0 < g.fuel) (hstr : r.inString = false)
    (hsem : r.getSem (g.field.get r.ip.pos) = some ⟨.stop, b⟩) (hm : hasMode g.cfg.mode modeDive = false ∨ b = true) :
    Univ.turn ⟨r :: rest, g⟩ = .ok ⟨rest, g⟩ := by
  cases hs : r.ip.stopped with
  | true => exact turn_stopped hs _ _
  | false =>
    refine turn_tick (s := ⟨{ r with ip := r.ip.stop }, rest, g⟩) hs ?_
    refine tick_stopped hf ?_ rfl
    rw [execute_op (s := ⟨r, rest, g⟩) hf hstr _ hsem hm]
    rfl

/-- **C31** … and the IP never executes anything again: its identity never returns. -/
theorem C31_stop_for_good {r : Runner} {rest : List Runner} {g : Glob} {b : Bool} {n : Nat} {u' : Univ} (hf : 0 < g.fuel) (hstr : r.inString = false)
    (hsem : r.getSem (g.field.get r.ip.pos) = some ⟨.stop, b⟩) (hm : hasMode g.cfg.mode modeDive = false ∨ b = true)
    (hid : r.id < g.nextId) (hnd : r.id ∉ rest.map (·.id)) (h : Univ.turns (n + 1) ⟨r :: rest, g⟩ = .ok u') : r.id ∉ u'.ids := by
  obtain ⟨v, hv, hvs⟩ := turns_succ h
  rw [C31_stop hf hstr hsem hm] at hv
  cases hv
  exact C38_never_reused hvs hid hnd

/-- Stopped IPs only leave the queue. -/
theorem turns_stopped {l : List Runner} (h : ∀ r ∈ l, r.ip.stopped = true) (g : Glob) (n : Nat) :
    Univ.turns n ⟨l, g⟩ = .ok ⟨l.drop n, g⟩ := by
  induction n generalizing l with
  | zero => rfl
  | succ n ih =>
    cases l with
    | nil =>
      unfold Univ.turns
      rw [turn_nil]
      exact (ih h).trans (by simp)
    | cons r l =>
      unfold Univ.turns
      rw [turn_stopped (h r List.mem_cons_self)]
      exact ih fun x hx => h x (List.mem_cons_of_mem _ hx)

/-- All IPs stopped with the given exit code. -/
def St.killed (s : St) (c : Int) : St :=
  { s with
    cur := { s.cur with ip := s.cur.ip.stop }
    rest := s.rest.map fun r => { r with ip := r.ip.stop }
    g := { s.g with exitcode := c, running := false } }

theorem killAll_run (c : Int) (s : St) : killAll c s = .ok ((), s.killed c) := rfl

theorem iQuit_run {s : St} (hl : s.Lifo) : ∃ n, iQuit s = .ok (.none, (s.setItems s.items.tail n).killed (toInt (s.items.headD 0))) := by
  refine ⟨s.top.ops + 1, ?_⟩
  apply run_items hl
  rw [iQuit, bind_ok (popTop_run hl _ _), bind_ok (killAll_run _ _)]
  rfl

/-- **C31** `q`: the turn of an IP at a `q` sets the exit code to the popped value as an `int`, and the universe is not running any more; after it,
in every continuation, no IP executes anything: IPs only leave. The values `l` are those on top of the stack. Partial: `k` can execute `q` more than once
(`C31_false_under_k`), and the exit code is not the popped value if that does not fit an `int` (`C31_false_beyond_int`). -/
theorem C31_quit_partial {s : St} {b : Bool} (hl : s.Lifo) (hf : 0 < s.g.fuel) (hstr : s.cur.inString = false) (hrun : s.cur.ip.stopped = false)
    (hsem : s.cur.getSem (s.g.field.get s.cur.ip.pos) = some ⟨.quit, b⟩) (hm : hasMode s.g.cfg.mode modeDive = false ∨ b = true) :
    ∃ u', Univ.turn ⟨s.cur :: s.rest, s.g⟩ = .ok u' ∧ u'.g = { s.g with exitcode := toInt (s.items.headD 0), running := false } ∧
      u'.isRunning = false ∧ (toInt (s.items.headD 0) = s.items.headD 0 → u'.g.exitcode = s.items.headD 0) ∧
      ∀ n, Univ.turns n u' = .ok ⟨u'.runners.drop n, u'.g⟩ := by
  have hop : ∃ s1, execute s.g.fuel (s.g.field.get s.cur.ip.pos) s = .ok (.none, s1) ∧ s1.cur.ip.stopped = true ∧
      s1.rest = s.rest.map (fun r => { r with ip := r.ip.stop }) ∧
      s1.g = { s.g with exitcode := toInt (s.items.headD 0), running := false } := by
    rw [execute_op hf hstr _ hsem hm]
    obtain ⟨n, hn⟩ := iQuit_run hl
    exact ⟨_, hn, rfl, rfl, rfl⟩
  obtain ⟨s1, h1, h2, h3, h4⟩ := hop
  refine ⟨⟨s1.rest, s1.g⟩, ?_, h4, ?_, ?_, ?_⟩
  · have := turn_tick (g := s.g) (rest := s.rest) (r := s.cur) hrun (tick_stopped hf h1 h2)
    rw [this]
    unfold St.univ
    rw [h2]; rfl
  · unfold Univ.isRunning; rw [h4]; rfl
  · intro h; rw [h4]; exact h
  · intro n
    refine turns_stopped ?_ _ n
    intro x hx
    rw [h3] at hx
    obtain ⟨r, _, rfl⟩ := List.mem_map.1 hx
    rfl

/-- **C31** A universe stops running only when no IP will execute anything any more: over every run from a running universe, when `isRunning` says no, all that
can still happen is that stopped IPs leave the queue. -/
theorem C31_not_running {n : Nat} {u u' : Univ} (h : u.turns n = .ok u') (hrun : u.g.running = true) (hn : u'.isRunning = false) (m : Nat) :
    Univ.turns m u' = .ok ⟨u'.runners.drop m, u'.g⟩ := by
  have key := turns_lift (Q := fun u u' => (u.g.running = false → ∀ r ∈ u.runners, r.ip.stopped = true) →
      (u'.g.running = false → ∀ r ∈ u'.runners, r.ip.stopped = true)) (fun _ => id) (fun _ _ _ h h' k => h' (h k)) ?_ n u u' h
    (fun k => by rw [hrun] at k; cases k)
  · refine turns_stopped ?_ _ m
    unfold Univ.isRunning at hn
    cases hr : u'.g.running with
    | false => exact key hr
    | true =>
      rw [hr] at hn
      have : u'.runners = [] := by simpa using hn
      rw [this]
      exact fun r hr => absurd hr List.not_mem_nil
  · intro u u' h b
    rcases turn_cases h with ⟨_, rfl⟩ | ⟨r, rest, hr, ⟨_, rfl⟩ | ⟨hns, s, hs, rfl⟩⟩
    · exact b
    · exact fun k x hx => b k x (hr ▸ List.mem_cons_of_mem _ hx)
    · intro k x hx
      have hk := keeps_dying _ _ _ hs
      have hb : u.g.running = false → St.AllStopped ⟨r, rest, u.g⟩ := fun k =>
        ⟨b k r (hr ▸ List.mem_cons_self), fun x hx => b k x (hr ▸ List.mem_cons_of_mem _ hx)⟩
      have := hk.2.2 hb k
      clear hk hb hs h
      unfold St.univ at hx
      dsimp only at hx
      split at hx
      · exact this.2 x hx
      · rcases List.mem_append.1 hx with hx | hx
        · exact this.2 x hx
        · cases List.mem_singleton.1 hx; exact this.1

/-- **C31** Conversely, a universe that has an IP and whose `running` flag has not been cleared is running. -/
theorem C31_running {u : Univ} : u.isRunning = true ↔ u.g.running = true ∧ u.ids ≠ [] := by
  unfold Univ.isRunning Univ.ids
  cases u.g.running <;> cases u.runners <;> simp

/-! ### Examples and counterexamples -/

/-- The identities of the queue, the exit code and whether the universe is running after `n` turns. -/
def queueAfter (s : St) (n : Nat) : Option (List Nat × Int × Bool) :=
  match Univ.turns n ⟨s.cur :: s.rest, s.g⟩ with
  | .ok u => some (u.ids, u.g.exitcode, u.isRunning)
  | .error _ => none

/-- The program `#@t1q` (the twin wraps around to the `@` at the end of the line) with identity 0 given out. -/
def exTwin : St := let s := machine [116, 49, 49, 113, 64]; { s with g := { s.g with nextId := 1 } }

example : queueAfter exTwin 0 = some ([0], 0, true) := by decide +kernel
example : queueAfter exTwin 1 = some ([1, 0], 0, true) := by decide +kernel
/-- The twin has executed its `@`: it is gone, the other one is still there. -/
example : queueAfter exTwin 2 = some ([0], 0, true) := by decide +kernel
example : queueAfter exTwin 5 = some ([], 1, false) := by decide +kernel
/-- The hypotheses of `C30_round_partial`, `C30_between_partial`, `C38_distinct`. -/
example : (⟨[exTwin.cur], exTwin.g⟩ : Univ).ids = [0] ∧ exTwin.g.nextId = 1 := by decide +kernel
/-- The hypotheses of `C31_stop` and `C31_quit_partial`. -/
example : (machine [64]).cur.getSem 64 = some ⟨.stop, false⟩ ∧ (machine [113]).cur.getSem 113 = some ⟨.quit, false⟩ ∧
    (machine [64]).cur.inString = false := by decide +kernel
example : (machine [113]).Lifo := by decide +kernel

/-- A program whose first line is blank: the IP is at a space, and a step along its delta, wrapping around, brings it back to the same space. Another IP is waiting. -/
def exBlank : St := { machineWith { dims := 2, standard := 98 } [[32], [64]] with rest := [newRunner {} 1 (Vec.ofList [0, 1]) (Vec.ofList [1, 0])] }

/-- `exBlank` with any amount of fuel. -/
def exBlankFor (n : Nat) : St := { exBlank with g := { exBlank.g with fuel := n } }

theorem blank_loop (n k : Nat) : tickLoop k (exBlankFor n) = .error .fuel := by
  induction k with
  | zero => rfl
  | succ k ih =>
    cases n with
    | zero => rfl
    | succ n =>
      have hc : exBlank.g.field.get exBlank.cur.ip.pos = 32 := by decide +kernel
      have hsem : exBlank.cur.getSem 32 = some ⟨.skip, false⟩ := by decide +kernel
      have hstr : exBlank.cur.inString = false := by decide +kernel
      have hm : hasMode exBlank.g.cfg.mode modeDive = false := by decide +kernel
      have hip : exBlank.cur.ip.next exBlank.g.cfg.dims exBlank.g.cfg.topo exBlank.g.field = .ok exBlank.cur.ip := by
        have h : (match exBlank.cur.ip.next exBlank.g.cfg.dims exBlank.g.cfg.topo exBlank.g.field with
            | .ok ip => ip | .error _ => {}) = exBlank.cur.ip := by decide +kernel
        obtain ⟨ip', hip'⟩ := IP.C15_always_terminates exBlank.g.cfg.dims exBlank.g.cfg.topo exBlank.g.field exBlank.cur.ip
        rw [hip'] at h
        rw [hip', ← h]
      have hx : execute (n + 1) (exBlank.g.field.get exBlank.cur.ip.pos) (exBlankFor (n + 1)) = .ok (.skip, exBlankFor (n + 1)) := by
        rw [hc]
        exact execute_op (s := exBlankFor (n + 1)) (Nat.succ_pos n) hstr 32 hsem (.inl hm)
      have := tickLoop_skip (s := exBlankFor (n + 1)) (k := k) hx hip
      rw [this]
      exact ih

/-- **C30** is false of an IP whose path is blank: its turn never ends (whatever the fuel `n`), so that the IP behind it never has a turn. -/
theorem C30_false_on_blank_path (n : Nat) : exBlank.rest.length = 1 ∧
    Univ.turn ⟨exBlank.cur :: exBlank.rest, { exBlank.g with fuel := n }⟩ = .error .fuel := by
  have hs : exBlank.cur.ip.stopped = false := by decide +kernel
  have ht : tick (exBlankFor n) = .error .fuel := by
    rw [tick, bind_ok (getFuel_run _)]
    exact blank_loop n _
  refine ⟨rfl, ?_⟩
  unfold Univ.turn
  simp only [hs]
  change (match tick (exBlankFor n) with | .error e => _ | .ok (_, s) => _) = _
  rw [ht]

/-- **C31** is false under `k`: `372kq`, with 3 and then 7 on the stack, executes `q` twice: after the first, with exit code 7, another instruction is executed, and
the exit code is 3. -/
theorem C31_false_under_k : queueAfter (machine [51, 55, 50, 107, 113]) 4 = some ([], 3, false) := by decide +kernel

/-- **C31** is false for values beyond `int`: with 2^32 + 5 on the stack, `q` gives exit code 5. -/
theorem C31_false_beyond_int : queueAfter ((machine [113]).setItems [4294967301] 1) 1 = some ([], 5, false) := by decide +kernel

end Funge
