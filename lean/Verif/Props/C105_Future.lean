import Verif.Lemmas.TwistRun
import Verif.Lemmas.Krfl
import Verif.Model.Launch
import Verif.Props.C30_Schedule
/-
C105: what a program has done so far depends only on what it has read and been told so far; it cannot see the future. Nor can it see what it has written, and
the bound on loops of the model is not part of its behaviour.
-/
namespace Funge
open Exec

/-! ### Specification -/

/-- The same universe in another world: with other input to read, and other answers (random numbers, times, the results of commands; contents of files; whether
directories could be changed) to the questions it will ask. -/
def Univ.elsewhere (u : Univ) (inp : List Int) (orc : Nat → Int) (files : Nat → Option (List Int)) (dirs : Nat → Bool) : Univ :=
  { u with g := { u.g with inp := inp, orc := orc, files := files, dirs := dirs } }

/-- The same universe, but something had been written, said or executed before. -/
def Univ.afterwards (u : Univ) (before : List Eff) : Univ := { u with g := { u.g with eff := before ++ u.g.eff } }

/-- The same universe with a larger bound on loops. -/
def Univ.bounded (u : Univ) (extra : Nat) : Univ := { u with g := { u.g with fuel := u.g.fuel + extra } }

/-! ### The answers are what they are -/

def SameWorld (g g' : Glob) : Prop := g'.orc = g.orc ∧ g'.files = g.files ∧ g'.dirs = g.dirs

theorem engine_world : Engine fun s s' => SameWorld s.g s'.g where
  refl _ := ⟨rfl, rfl, rfl⟩
  trans _ _ _ := fun ⟨a, b, c⟩ ⟨d, e, f⟩ => ⟨d.trans a, e.trans b, f.trans c⟩
  stack _ _ _ _ _ _ := ⟨rfl, rfl, rfl⟩
  ssPush _ := ⟨rfl, rfl, rfl⟩
  ssPop _ _ _ := ⟨rfl, rfl, rfl⟩
  ssInsert _ _ _ _ := ⟨rfl, rfl, rfl⟩
  ssRemove _ _ _ _ := ⟨rfl, rfl, rfl⟩
  ssInc _ := ⟨rfl, rfl, rfl⟩
  ssDec _ := ⟨rfl, rfl, rfl⟩
  ip _ _ _ := ⟨rfl, rfl, rfl⟩
  stop _ := ⟨rfl, rfl, rfl⟩
  core _ _ _ := ⟨rfl, rfl, rfl⟩
  sems _ _ _ _ _ := ⟨rfl, rfl, rfl⟩
  load _ _ _ _ _ := ⟨rfl, rfl, rfl⟩
  glob _ _ _ _ _ := ⟨rfl, rfl, rfl⟩
  ref _ _ _ _ := ⟨rfl, rfl, rfl⟩
  out _ _ := ⟨rfl, rfl, rfl⟩
  system _ _ _ := ⟨rfl, rfl, rfl⟩
  openRead _ _ _ := ⟨rfl, rfl, rfl⟩
  openWrite _ _ _ := ⟨rfl, rfl, rfl⟩
  writeFile _ _ _ _ := ⟨rfl, rfl, rfl⟩
  put _ _ _ := ⟨rfl, rfl, rfl⟩
  parse _ _ _ _ _ := ⟨rfl, rfl, rfl⟩
  dims _ _ _ := ⟨rfl, rfl, rfl⟩
  clone _ _ _ _ := ⟨rfl, rfl, rfl⟩
  kill _ _ := ⟨rfl, rfl, rfl⟩
  mode _ _ := ⟨rfl, rfl, rfl⟩

theorem others_world : Others fun s s' => SameWorld s.g s'.g := fun _ _ _ _ _ _ _ _ _ => ⟨rfl, rfl, rfl⟩
theorem dirs_world : Dirs fun s s' => SameWorld s.g s'.g := ⟨fun _ _ => ⟨rfl, rfl, rfl⟩, fun _ _ => ⟨rfl, rfl, rfl⟩, fun _ _ => ⟨rfl, rfl, rfl⟩⟩

theorem turns_world {u v : Univ} {k : Nat} (h : u.turns k = .ok v) : SameWorld u.g v.g :=
  turns_glob (fun _ => ⟨rfl, rfl, rfl⟩) (fun _ _ _ ⟨a, b, c⟩ ⟨d, e, f⟩ => ⟨d.trans a, e.trans b, f.trans c⟩) (keeps_tick engine_world others_world dirs_world) h

/-! ### The future -/

theorem answers_same {α : Type} {n : Nat} {f f' : Nat → α} (h : ∀ a < n, f' a = f a) : (fun a => if decide (a < n) = true then f a else f' a) = f' := by
  funext a
  by_cases ha : a < n
  · rw [if_pos (decide_eq_true ha), h a ha]
  · rw [if_neg (by simpa using ha)]

/-- Two runs that only differ in what is still to come. -/
theorem turns_elsewhere {u v : Univ} {k cut : Nat} {later : List Int} {orc : Nat → Int} {files : Nat → Option (List Int)} {dirs : Nat → Bool}
    (h : u.turns k = .ok v) (hin : cut = 0 ∧ later = [] ∨ cut < v.g.inp.length)
    (ho : ∀ a < v.g.asked, orc a = u.g.orc a) (hf : ∀ a < v.g.asked, files a = u.g.files a) (hd : ∀ a < v.g.asked, dirs a = u.g.dirs a) :
    (u.elsewhere (u.g.inp.take (u.g.inp.length - cut) ++ later) orc files dirs).turns k =
      .ok (v.elsewhere (v.g.inp.take (v.g.inp.length - cut) ++ later) orc files dirs) := by
  have hw := turns_world h
  let T : Twist := { cut := cut, later := later, past := fun a => decide (a < v.g.asked), orc := orc, files := files, dirs := dirs, before := [], extra := 0 }
  have hT := (turns_twist (T := T) h ⟨hin, fun a ha => decide_eq_true ha⟩).2
  have e1 : T.univ u = u.elsewhere (u.g.inp.take (u.g.inp.length - cut) ++ later) orc files dirs := by
    show (⟨u.runners, T.glob u.g⟩ : Univ) = ⟨u.runners, _⟩
    have : T.glob u.g = { u.g with inp := u.g.inp.take (u.g.inp.length - cut) ++ later, orc := orc, files := files, dirs := dirs } := by
      unfold Twist.glob
      simp only [T, answers_same ho, answers_same hf, answers_same hd, List.nil_append, Nat.add_zero]
    rw [this]
  have e2 : T.univ v = v.elsewhere (v.g.inp.take (v.g.inp.length - cut) ++ later) orc files dirs := by
    show (⟨v.runners, T.glob v.g⟩ : Univ) = ⟨v.runners, _⟩
    have : T.glob v.g = { v.g with inp := v.g.inp.take (v.g.inp.length - cut) ++ later, orc := orc, files := files, dirs := dirs } := by
      unfold Twist.glob
      simp only [T, hw.1, hw.2.1, hw.2.2, answers_same ho, answers_same hf, answers_same hd, List.nil_append, Nat.add_zero]
    rw [this]
  rw [e1, e2] at hT
  exact hT

theorem elsewhere_self (u : Univ) : u.elsewhere u.g.inp u.g.orc u.g.files u.g.dirs = u := rfl

/-- **A program cannot see the future.** Let a universe, of whatever programs in whatever state, make `k` turns with `common ++ rest` to be read, and leave some of `common`
unread. Then with any other `rest'` instead of `rest`, and any other answers to the questions it has not asked, it makes the same `k` turns: every IP, every cell, every
table and everything written is the same, and what is left to be read differs only in `rest'`. -/
theorem C105_causal {u v : Univ} {k : Nat} {common rest rest' : List Int} {orc : Nat → Int} {files : Nat → Option (List Int)} {dirs : Nat → Bool}
    (h : u.turns k = .ok v) (hu : u.g.inp = common ++ rest) (hleft : rest.length < v.g.inp.length)
    (ho : ∀ a < v.g.asked, orc a = u.g.orc a) (hf : ∀ a < v.g.asked, files a = u.g.files a) (hd : ∀ a < v.g.asked, dirs a = u.g.dirs a) :
    ∃ left, left ≠ [] ∧ v.g.inp = left ++ rest ∧
      (u.elsewhere (common ++ rest') orc files dirs).turns k = .ok (v.elsewhere (left ++ rest') orc files dirs) := by
  have hc : u.g.inp.take (u.g.inp.length - rest.length) = common := by
    rw [hu, List.length_append, Nat.add_sub_cancel, List.take_left']
    rfl
  have h1 := turns_elsewhere (later := rest) (orc := u.g.orc) (files := u.g.files) (dirs := u.g.dirs) h (.inr hleft) (fun _ _ => rfl) (fun _ _ => rfl) (fun _ _ => rfl)
  have h2 := turns_elsewhere (later := rest') h (.inr hleft) ho hf hd
  rw [hc] at h1 h2
  rw [← hu, elsewhere_self, h] at h1
  refine ⟨v.g.inp.take (v.g.inp.length - rest.length), fun hn => ?_, ?_, h2⟩
  · have := congrArg List.length hn
    rw [List.length_take, List.length_nil] at this
    omega
  · have h3 : v = v.elsewhere (v.g.inp.take (v.g.inp.length - rest.length) ++ rest) u.g.orc u.g.files u.g.dirs := Except.ok.inj h1
    exact congrArg (fun w : Univ => w.g.inp) h3

/-- With the same input, nothing need be left of it. -/
theorem C105_answers {u v : Univ} {k : Nat} {orc : Nat → Int} {files : Nat → Option (List Int)} {dirs : Nat → Bool} (h : u.turns k = .ok v)
    (ho : ∀ a < v.g.asked, orc a = u.g.orc a) (hf : ∀ a < v.g.asked, files a = u.g.files a) (hd : ∀ a < v.g.asked, dirs a = u.g.dirs a) :
    (u.elsewhere u.g.inp orc files dirs).turns k = .ok (v.elsewhere v.g.inp orc files dirs) := by
  have := turns_elsewhere (cut := 0) (later := []) h (.inl ⟨rfl, rfl⟩) ho hf hd
  simpa only [Nat.sub_zero, List.take_length, List.append_nil] using this

/-- **What a program has written before it reads on is the same for every continuation of the input.** For every program text, dialect and command line: if after `k` turns something
of `common` is unread, then whatever the program has written, executed, opened and asked by then, it also has with any other input that begins with `common`. -/
theorem C105_program {g : Glob} {charCells : Bool} {text common rest rest' : List Int} {k : Nat} {v : Univ}
    (h : (launch { g with inp := common ++ rest } charCells text).turns k = .ok v) (hleft : rest.length < v.g.inp.length) :
    ∃ w, (launch { g with inp := common ++ rest' } charCells text).turns k = .ok w ∧
      w.g.eff = v.g.eff ∧ w.runners = v.runners ∧ w.g.field = v.g.field ∧ w.g.exitcode = v.g.exitcode ∧ w.g.running = v.g.running := by
  obtain ⟨left, _, _, h'⟩ := C105_causal (rest' := rest') h rfl hleft (fun _ _ => rfl) (fun _ _ => rfl) (fun _ _ => rfl)
  exact ⟨_, h', rfl, rfl, rfl, rfl, rfl⟩

/-- **Two runs that have been told the same are the same**: the function that gives every state of a run its successor has no other argument. -/
theorem C105_deterministic {g : Glob} {charCells : Bool} {text : List Int} {k : Nat} {v : Univ} {orc : Nat → Int} {files : Nat → Option (List Int)} {dirs : Nat → Bool}
    (h : (launch g charCells text).turns k = .ok v)
    (ho : ∀ a < v.g.asked, orc a = g.orc a) (hf : ∀ a < v.g.asked, files a = g.files a) (hd : ∀ a < v.g.asked, dirs a = g.dirs a) :
    ∃ w, (launch { g with orc := orc, files := files, dirs := dirs } charCells text).turns k = .ok w ∧
      w.g.eff = v.g.eff ∧ w.runners = v.runners ∧ w.g.field = v.g.field ∧ w.g.exitcode = v.g.exitcode ∧ w.g.running = v.g.running :=
  ⟨_, C105_answers h ho hf hd, rfl, rfl, rfl, rfl, rfl⟩

/-! ### The past, and the bound -/

/-- Nothing is different but the past and the bound. -/
def pastTwist (before : List Eff) (extra : Nat) : Twist :=
  { cut := 0, later := [], past := fun _ => true, orc := fun _ => 0, files := fun _ => none, dirs := fun _ => false, before := before, extra := extra }

theorem pastTwist_free (before : List Eff) (extra : Nat) : (pastTwist before extra).Free := ⟨⟨rfl, rfl⟩, fun _ => rfl⟩

theorem pastTwist_univ (before : List Eff) (extra : Nat) (u : Univ) : (pastTwist before extra).univ u = (u.afterwards before).bounded extra := by
  unfold Twist.univ Twist.glob pastTwist Univ.afterwards Univ.bounded
  simp only [Nat.sub_zero, List.take_length, List.append_nil, if_true]

/-- **A program cannot see what it has written.** Whatever had been written before, it goes on in the same way, and what it writes comes behind; where it would go wrong,
it goes wrong in the same way. -/
theorem C105_past {u : Univ} {k : Nat} (before : List Eff) :
    (∀ v, u.turns k = .ok v → (u.afterwards before).turns k = .ok (v.afterwards before)) ∧
    (∀ e, e ≠ .fuel → u.turns k = .error e → (u.afterwards before).turns k = .error e) := by
  have hu : ∀ u : Univ, (pastTwist before 0).univ u = u.afterwards before := fun u => (pastTwist_univ before 0 u).trans rfl
  refine ⟨fun v h => ?_, fun e he h => ?_⟩
  · have := (turns_twist (T := pastTwist before 0) h ⟨.inl ⟨rfl, rfl⟩, fun _ _ => rfl⟩).2
    rwa [hu, hu] at this
  · have := turns_twist_error (pastTwist_free before 0) he h
    rwa [hu] at this

/-- **The bound on loops is not part of the behaviour**: with any larger bound the run is the same, and so is whatever goes wrong, unless it was the bound. -/
theorem C105_bound {u : Univ} {k : Nat} (extra : Nat) :
    (∀ v, u.turns k = .ok v → (u.bounded extra).turns k = .ok (v.bounded extra)) ∧
    (∀ e, e ≠ .fuel → u.turns k = .error e → (u.bounded extra).turns k = .error e) := by
  have hu : ∀ u : Univ, (pastTwist [] extra).univ u = u.bounded extra := fun u => (pastTwist_univ [] extra u).trans rfl
  refine ⟨fun v h => ?_, fun e he h => ?_⟩
  · have := (turns_twist (T := pastTwist [] extra) h ⟨.inl ⟨rfl, rfl⟩, fun _ _ => rfl⟩).2
    rwa [hu, hu] at this
  · have := turns_twist_error (pastTwist_free [] extra) he h
    rwa [hu] at this

/-! ### Examples -/

/-- The program `~,&.?@` with something to read. -/
def exAsk (inp : List Int) : Univ := launch { cfg := { dims := 2, standard := 98, strings := .sgml }, flt := exFloat, fuel := 100, inp := inp } false [126, 44, 38, 46, 63, 64]

theorem ran_ok {α β : Type} {x : Except Fault α} {f : α → β} {b : β} (h : x.map f = .ok b) : ∃ v, x = .ok v ∧ f v = b := by
  cases x with
  | error e => cases h
  | ok v => exact ⟨v, rfl, Except.ok.inj h⟩

/-- After three turns, `A` was printed and 42 was read; ` x` is left of `A42 x`, more than the last character. -/
theorem exAsk_ran : ∃ v, (exAsk ([65, 52, 50, 32] ++ [120])).turns 3 = .ok v ∧ (v.g.inp, v.g.eff, v.g.asked) = ([32, 120], [.out [65]], 0) :=
  ran_ok (f := fun v : Univ => (v.g.inp, v.g.eff, v.g.asked)) (by krfl)

/-- So with `A42 ` and anything else behind it, `A` was printed by then. -/
example (rest : List Int) : ∃ w, (exAsk ([65, 52, 50, 32] ++ rest)).turns 3 = .ok w ∧ w.g.eff = [.out [65]] := by
  obtain ⟨v, h, hv⟩ := exAsk_ran
  obtain ⟨h1, h2⟩ := Prod.mk.inj hv
  obtain ⟨w, hw, he, _⟩ := C105_program (g := { cfg := { dims := 2, standard := 98, strings := .sgml }, flt := exFloat, fuel := 100 }) (charCells := false)
    (text := [126, 44, 38, 46, 63, 64]) (common := [65, 52, 50, 32]) (rest := [120]) (rest' := rest) h (by rw [h1]; decide)
  exact ⟨w, hw, he.trans (Prod.mk.inj h2).1⟩

/-- And with any other answers, any past and any larger bound. -/
example (orc : Nat → Int) (files : Nat → Option (List Int)) (dirs : Nat → Bool) (before : List Eff) (extra : Nat) :
    ∃ w, ((((exAsk [65, 52, 50, 32, 120]).elsewhere [65, 52, 50, 32, 120] orc files dirs).afterwards before).bounded extra).turns 3 = .ok w ∧ w.g.eff = before ++ [.out [65]] := by
  obtain ⟨v, h, hv⟩ := exAsk_ran
  obtain ⟨h1, h2⟩ := Prod.mk.inj hv
  obtain ⟨h2, h3⟩ := Prod.mk.inj h2
  have h' := C105_answers (orc := orc) (files := files) (dirs := dirs) h (fun a ha => by rw [h3] at ha; cases ha) (fun a ha => by rw [h3] at ha; cases ha) (fun a ha => by rw [h3] at ha; cases ha)
  exact ⟨_, (C105_bound extra).1 _ ((C105_past before).1 _ h'), congrArg (before ++ ·) h2⟩

/-- That something of the common beginning must be left is necessary: a number ends where something else begins. -/
example : ((exAsk [65, 52]).turns 4).map (fun v => v.g.eff) = .ok [.out [65], .out [0]] ∧
    ((exAsk ([65, 52] ++ [50, 32])).turns 4).map (fun v => v.g.eff) = .ok [.out [65], .out [52, 50, 32]] := ⟨by krfl, by krfl⟩

/-- And so is that the answers are those given so far: `?` asks one question. -/
example : ((exAsk [65, 52, 50, 32]).turns 5).map (fun v => (v.g.asked, v.runners.map (·.ip.delta.get 0))) = .ok (1, [1]) ∧
    (((exAsk [65, 52, 50, 32]).elsewhere [65, 52, 50, 32] (fun _ => 1) (fun _ => none) fun _ => false).turns 5).map (fun v => (v.g.asked, v.runners.map (·.ip.delta.get 0))) =
      .ok (1, [-1]) := ⟨by krfl, by krfl⟩

end Funge
