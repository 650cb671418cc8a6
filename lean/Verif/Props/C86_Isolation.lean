import Verif.Props.C29_Threads
/-
C86: an IP's course is its own.
-/
namespace Funge
open Exec

/-! ### Specification -/

/-- An IP without its stacks and without whether it has been stopped: place, delta, storage offset, identity, meanings of instructions, loaded fingerprints,
string mode, and what fingerprints keep for it. -/
def Runner.course (r : Runner) : Runner := { r with ss := {}, ip := { r.ip with stopped := false } }

/-- `r'` goes on like `r`, unless it was stopped. -/
def GoesOn (r r' : Runner) : Prop := r'.course = r.course ∧ (r.ip.stopped = true → r'.ip.stopped = true)

/-- Each IP of the second list goes on like the one of the first at the same place; there may be new ones behind. -/
def GoOn : List Runner → List Runner → Prop
  | [], _ => True
  | _ :: _, [] => False
  | r :: l, r' :: l' => GoesOn r r' ∧ GoOn l l'

theorem GoesOn.refl (r : Runner) : GoesOn r r := ⟨rfl, id⟩
theorem GoesOn.trans {a b c : Runner} (h : GoesOn a b) (h' : GoesOn b c) : GoesOn a c := ⟨h'.1.trans h.1, fun x => h'.2 (h.2 x)⟩

theorem GoOn.refl : ∀ l, GoOn l l
  | [] => trivial
  | r :: l => ⟨.refl r, GoOn.refl l⟩

theorem GoOn.trans : ∀ {a b c : List Runner}, GoOn a b → GoOn b c → GoOn a c
  | [], _, _, _, _ => trivial
  | _ :: _, [], _, h, _ => h.elim
  | _ :: _, _ :: _, [], _, h => h.elim
  | _ :: _, _ :: _, _ :: _, h, h' => ⟨h.1.trans h'.1, GoOn.trans h.2 h'.2⟩

theorem GoOn.append : ∀ l new, GoOn l (l ++ new)
  | [], _ => trivial
  | r :: l, new => ⟨.refl r, GoOn.append l new⟩

theorem GoOn.map {f : Runner → Runner} (h : ∀ r, GoesOn r (f r)) : ∀ l, GoOn l (l.map f)
  | [] => trivial
  | r :: l => ⟨h r, GoOn.map h l⟩

theorem GoOn.one {r r' : Runner} (h : GoesOn r r') (b : List Runner) : ∀ a, GoOn (a ++ r :: b) (a ++ r' :: b)
  | [] => ⟨h, GoOn.refl b⟩
  | x :: a => ⟨.refl x, GoOn.one h b a⟩

theorem GoOn.tail {l l' : List Runner} {x : List Runner} (h : GoOn l l') : GoOn l (l' ++ x) := h.trans (GoOn.append _ _)

/-! ### Proof -/

/-- The relation the machinery is used with. -/
def CoursesKept (s s' : St) : Prop := GoOn s.rest s'.rest

theorem CoursesKept.same {s s' : St} (h : s'.rest = s.rest) : CoursesKept s s' := by unfold CoursesKept; rw [h]; exact GoOn.refl _

theorem engine_courses : Engine CoursesKept where
  refl _ := .same rfl
  trans _ _ _ h h' := GoOn.trans h h'
  stack _ _ _ _ _ _ := .same rfl
  ssPush _ := .same rfl
  ssPop _ _ _ := .same rfl
  ssInsert _ _ _ _ := .same rfl
  ssRemove _ _ _ _ := .same rfl
  ssInc _ := .same rfl
  ssDec _ := .same rfl
  ip _ _ _ := .same rfl
  stop _ := .same rfl
  core _ _ _ := .same rfl
  sems _ _ _ _ _ := .same rfl
  load _ _ _ _ _ := .same rfl
  glob _ _ _ _ _ := .same rfl
  ref _ _ _ _ := .same rfl
  out _ _ := .same rfl
  system _ _ _ := .same rfl
  openRead _ _ _ := .same rfl
  openWrite _ _ _ := .same rfl
  writeFile _ _ _ _ := .same rfl
  put _ _ _ := .same rfl
  parse _ _ _ _ _ := .same rfl
  dims _ _ _ := .same rfl
  clone _ _ _ _ := GoOn.append _ _
  kill _ _ := by refine GoOn.map (fun r => ?_) _; exact ⟨rfl, fun _ => rfl⟩
  mode _ _ := by refine GoOn.map (fun r => ?_) _; exact ⟨rfl, id⟩

theorem others_courses : Others CoursesKept := by
  intro s a b r st st' hr _ _
  unfold CoursesKept
  rw [hr]
  refine GoOn.one ?_ b a
  exact ⟨rfl, id⟩

theorem dirs_courses : Dirs CoursesKept := ⟨fun _ _ => .same rfl, fun _ _ => .same rfl, fun _ _ => .same rfl⟩

/-- **C86** Whatever an IP executes in its turn, the other IPs stay where they are, keep their delta, storage offset, identity, loaded fingerprints, string mode and
the meanings they know; at most they are stopped. New ones come behind them. -/
theorem C86_turn {r : Runner} {rest : List Runner} {g : Glob} {s : St} (h : tick ⟨r, rest, g⟩ = .ok ((), s)) : GoOn rest s.rest :=
  keeps_tick engine_courses others_courses dirs_courses _ _ _ h

/-- What is at one place of the queue is one place further to the front after a turn. -/
theorem turn_goOn {u u' : Univ} {r : Runner} {rest : List Runner} (hr : u.runners = r :: rest) (h : u.turn = .ok u') : GoOn rest u'.runners := by
  rcases turn_cases h with ⟨h0, _⟩ | ⟨r1, rest1, h1, h2⟩
  · rw [hr] at h0; cases h0
  · rw [hr] at h1
    cases h1
    rcases h2 with ⟨_, rfl⟩ | ⟨_, s, hs, rfl⟩
    · exact GoOn.refl _
    · unfold St.univ
      dsimp only
      split
      · exact C86_turn hs
      · exact (C86_turn hs).tail

/-- **C86** When its turn comes, an IP goes on from where it was: until then whatever the IPs before it in the queue do has no influence on its course. -/
theorem C86_until_its_turn {u u' : Univ} {a b : List Runner} {r : Runner} (hr : u.runners = a ++ r :: b) (h : u.turns a.length = .ok u') :
    ∃ r' t, u'.runners = r' :: t ∧ GoesOn r r' := by
  suffices H : ∀ (a : List Runner) (u : Univ) (c : List Runner), GoOn (a ++ r :: c) u.runners → u.turns a.length = .ok u' → ∃ r' t, u'.runners = r' :: t ∧ GoesOn r r' from
    H a u b (by rw [hr]; exact GoOn.refl _) h
  clear hr h
  intro a
  induction a with
  | nil =>
    intro u c hg h
    cases h
    cases hu : u'.runners with
    | nil => rw [hu] at hg; exact hg.elim
    | cons r' t => rw [hu] at hg; exact ⟨r', t, rfl, hg.1⟩
  | cons x a ih =>
    intro u c hg h
    rw [List.length_cons] at h
    unfold Univ.turns at h
    split at h
    · cases h
    · rename_i v hv
      cases hu : u.runners with
      | nil => rw [hu] at hg; exact hg.elim
      | cons y t =>
        rw [hu] at hg
        exact ih v c (GoOn.trans hg.2 (turn_goOn hu hv)) h

/-! ### Examples -/

/-- Two IPs on the row `>1q`, the second at the `1`. -/
def exTwoIPs : Univ :=
  let s := machine [62, 49, 113]
  ⟨[s.cur, { s.cur with id := 1, ip := { s.cur.ip with pos := Vec.ofList [1, 0], delta := Vec.ofList [0, 1] } }], s.g⟩

/-- The first turn moves the first IP; the second one, whose turn comes then, is where it was and still goes down. -/
example : (exTwoIPs.runners.length = 2) ∧ (match exTwoIPs.turns 1 with
    | .ok u => u.runners.map fun r => (r.id, r.ip.pos.get 0, r.ip.delta.get 0, r.ip.delta.get 1)
    | .error _ => []) = [(1, 1, 0, 1), (0, 1, 1, 0)] := by decide +kernel

end Funge
