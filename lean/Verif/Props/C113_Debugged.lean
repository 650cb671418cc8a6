import Verif.Model.Debugged
import Verif.Model.Launch
import Verif.Props.C98_Changes
import Verif.Props.C105_Future
import Verif.Lemmas.Krfl
/-!
C113: a program that is only looked at with the debugger does what it does without it.
-/
namespace Funge
open Exec

/-! ### Specification -/

/-- The same state with another input still to be read. -/
def St.hear (s : St) (l : List Int) : St := { s with g := { s.g with inp := l } }

/-- The same universe with another input still to be read. -/
def Univ.hear (u : Univ) (l : List Int) : Univ := { u with g := { u.g with inp := l } }

/-- The instruction at the IP does the same whatever there is to read: it does not read. -/
def Deaf (s : St) : Prop := ∀ l, execHere (s.hear l) = (execHere s).map fun p => (p.1, p.2.hear l)

/-- The states in which a tick without the debugger comes to execute an instruction; there are several if instructions take no time. -/
inductive DuringTick : St → St → Prop
  | here (s : St) : DuringTick s s
  | next {s s' s'' : St} (h : oneRound s = .ok (.skip, s')) (t : DuringTick s' s'') : DuringTick s s''

/-- The states in which a universe without the debugger comes to execute an instruction. -/
def Univ.PassesThrough (u : Univ) (s : St) : Prop :=
  ∃ k v r rest, u.turns k = .ok v ∧ v.runners = r :: rest ∧ r.ip.stopped = false ∧ DuringTick ⟨r, rest, v.g⟩ s

/-- What can be typed at the prompt: with the code as it is, the input of the program. -/
def Debug.lines (g : Glob) (d : Debug) : List (List Int) := if d.shared then inputLines g.inp else d.typed

/-- A line that neither ends the program nor sets a position or a delta: it looks, or steps, or runs on, or sets breakpoints, or means nothing. -/
def Looks (l : List Int) : Prop := ¬Defunge.Typed l ["quit", "q", "setdelta", "setpos"]

/-! ### What the prompt leaves alone -/

section Prompt
open Defunge
attribute [local irreducible] lit

theorem setHome_alive (w : World) (u : Home) : (w.setHome u).alive = w.alive := rfl

theorem turnTo_same (w : World) (n : List Int) : (turnTo w n).alive = w.alive ∧ (turnTo w n).killed = w.killed := by
  unfold turnTo
  split
  · exact ⟨rfl, rfl⟩
  · split
    · exact ⟨rfl, rfl⟩
    · split <;> exact ⟨rfl, rfl⟩

theorem call_same {w w' : World} {fuel : Nat} {c : Int} {is : IStream} {fn : Func} {v : Verdict} (hq : fn ≠ .quit) (hd : fn ≠ .setdelta) (hp : fn ≠ .setpos)
    (h : call fuel c w is fn = .ok (v, w')) : w'.alive = w.alive ∧ w'.killed = w.killed := by
  have said : ∀ {a b : World}, (∃ t, b = a.say t) → b.alive = a.alive ∧ b.killed = a.killed := by rintro _ _ ⟨t, rfl⟩; exact ⟨rfl, rfl⟩
  have res : ∀ {s : DState}, resume s w = .ok (v, w') → w'.alive = w.alive ∧ w'.killed = w.killed := by
    intro s h
    unfold resume at h
    split at h
    · cases h; exact ⟨rfl, rfl⟩
    · obtain ⟨u, _, h⟩ := ok_bind h
      obtain ⟨r, _, h⟩ := ok_bind h
      cases h; exact ⟨rfl, rfl⟩
  have shw : ∀ {f : Seen → Except Fault World}, (∀ r a, f r = .ok a → a.alive = w.alive ∧ a.killed = w.killed) → showing f w = .ok (v, w') →
      w'.alive = w.alive ∧ w'.killed = w.killed := by
    intro f hf h
    unfold showing at h
    split at h
    · cases h; exact ⟨rfl, rfl⟩
    · obtain ⟨r, _, h⟩ := ok_bind h
      obtain ⟨a, ha, h⟩ := ok_bind h
      cases h; exact hf r _ ha
  have add : ∀ {b : Bool}, addPoint fuel c b w is = .ok (v, w') → w'.alive = w.alive ∧ w'.killed = w.killed := by
    intro b h
    unfold addPoint at h
    obtain ⟨u, _, h⟩ := ok_bind h
    obtain ⟨p, _, h⟩ := ok_bind h
    obtain ⟨x, y⟩ := p
    cases b <;> (cases h; exact ⟨rfl, rfl⟩)
  cases fn with
  | run => exact res h
  | quit => exact absurd rfl hq
  | step => exact res h
  | setdelta => exact absurd rfl hd
  | setpos => exact absurd rfl hp
  | peek =>
    have h : peek w is = .ok (v, w') := h
    unfold peek at h
    split at h
    · cases h; exact ⟨rfl, rfl⟩
    · obtain ⟨r, _, h⟩ := ok_bind h
      dsimp only at h
      split at h
      · cases h; exact ⟨rfl, rfl⟩
      · obtain ⟨st, _, h⟩ := ok_bind h
        cases h; exact ⟨rfl, rfl⟩
  | delta => exact shw (fun r a ha => by cases ha; exact ⟨rfl, rfl⟩) h
  | storage => exact shw (fun r a ha => by cases ha; exact ⟨rfl, rfl⟩) h
  | position => exact shw (fun r a ha => said (printIP_said ha)) h
  | thread =>
    have h : thread w is = .ok (v, w') := h
    unfold thread at h
    obtain ⟨u, _, h⟩ := ok_bind h
    obtain ⟨tid, _, h⟩ := ok_bind h
    dsimp only at h
    revert h
    cases u.threads.find? (·.id == (size is tid).1) with
    | some t =>
      intro h
      obtain ⟨w2, h2, h⟩ := ok_bind h
      cases h
      exact said (a := { w with runner := t.runner }) (threadLines_said (tid := (size is tid).1) _ h2)
    | none =>
      intro h
      obtain ⟨w2, h2, h⟩ := ok_bind h
      cases h
      exact said (threadLines_said _ h2)
  | backtrace =>
    have h : backtrace w = .ok (v, w') := h
    unfold backtrace at h
    split at h
    · cases h; exact ⟨rfl, rfl⟩
    · obtain ⟨u, _, h⟩ := ok_bind h
      obtain ⟨r, _, h⟩ := ok_bind h
      obtain ⟨q, _, h⟩ := ok_bind h
      dsimp only at h
      split at h <;> (cases h; exact ⟨rfl, rfl⟩)
  | get =>
    have h : Defunge.get fuel c w is = .ok (v, w') := h
    unfold Defunge.get at h
    obtain ⟨u, _, h⟩ := ok_bind h
    obtain ⟨ip, _, h⟩ := ok_bind h
    obtain ⟨p, _, h⟩ := ok_bind h
    obtain ⟨v1, is1⟩ := p
    obtain ⟨p, _, h⟩ := ok_bind h
    obtain ⟨v2, is2⟩ := p
    obtain ⟨p, _, h⟩ := ok_bind h
    obtain ⟨v3, is3⟩ := p
    obtain ⟨w2, h2, h⟩ := ok_bind h
    cases h
    exact said (printField_said h2)
  | list =>
    have h : list fuel c w is = .ok (v, w') := h
    unfold list at h
    split at h
    · cases h; exact ⟨rfl, rfl⟩
    · obtain ⟨u, _, h⟩ := ok_bind h
      obtain ⟨r, _, h⟩ := ok_bind h
      obtain ⟨f, _, h⟩ := ok_bind h
      obtain ⟨p, _, h⟩ := ok_bind h
      obtain ⟨v1, is1⟩ := p
      obtain ⟨p, _, h⟩ := ok_bind h
      obtain ⟨v2, is2⟩ := p
      obtain ⟨w2, h2, h⟩ := ok_bind h
      cases h
      exact said (printField_said h2)
  | brk => exact add h
  | watch => exact add h
  | read =>
    have h : Defunge.read fuel c w is = .ok (v, w') := h
    unfold Defunge.read at h
    obtain ⟨u, _, h⟩ := ok_bind h
    obtain ⟨p, _, h⟩ := ok_bind h
    obtain ⟨v1, is1⟩ := p
    cases h; exact ⟨rfl, rfl⟩
  | «universe» =>
    have h : «universe» w is = .ok (v, w') := h
    unfold «universe» at h
    dsimp only at h
    cases h
    split
    · exact turnTo_same w _
    · exact ⟨rfl, rfl⟩

theorem line_same {w w' : World} {fuel : Nat} {c : Int} {l : List Int} {v : Verdict} (hl : Looks l) (h : line fuel c w l = .ok (v, w')) :
    w'.alive = w.alive ∧ w'.killed = w.killed := by
  unfold line at h
  dsimp only at h
  split at h
  · cases h; exact ⟨rfl, rfl⟩
  · rename_i p hp
    have hm := List.mem_of_find?_eq_some hp
    have hc : lit p.1 = (word ⟨l, false⟩).1 := by simpa using List.find?_some hp
    have hn : p.2 ≠ .quit ∧ p.2 ≠ .setdelta ∧ p.2 ≠ .setpos := by
      have : p.1 ∉ ["quit", "q", "setdelta", "setpos"] := fun hin => hl (by
        unfold Typed
        rw [← hc]
        exact List.mem_map_of_mem hin)
      have key : ∀ q ∈ cmdMap, q.1 ∉ ["quit", "q", "setdelta", "setpos"] → q.2 ≠ .quit ∧ q.2 ≠ .setdelta ∧ q.2 ≠ .setpos := by decide +kernel
      exact key p hm this
    split at h
    · rename_i w1 h1
      cases h
      exact call_same (w := w.say _) (w' := w1) hn.1 hn.2.1 hn.2.2 h1
    · exact call_same (w := w.say _) hn.1 hn.2.1 hn.2.2 h

theorem lines_same {fuel : Nat} {c : Int} : ∀ (l : List (List Int)) {w w' : World} {rest : List (List Int)}, (∀ x ∈ l, Looks x) → lines fuel c w l = .ok (w', rest) →
    w'.alive = w.alive ∧ w'.killed = w.killed ∧ ∃ k, k ≤ l.length ∧ rest = l.drop k
  | [], _, _, _, _, h => nomatch h
  | x :: t, w, w', rest, hl, h => by
    unfold lines at h
    split at h
    · rename_i w1 h1
      cases h
      have := line_same (hl x (by simp)) h1
      exact ⟨this.1, this.2, 1, by simp, rfl⟩
    · rename_i v w1 _ h1
      have a := line_same (hl x (by simp)) h1
      obtain ⟨b1, b2, k, hk, b3⟩ := lines_same t (fun y hy => hl y (by simp [hy])) h
      exact ⟨b1.trans a.1, b2.trans a.2, k + 1, by simpa using hk, b3⟩
    · exact nomatch h

theorem debug_same {w w' : World} {fuel : Nat} {c : Int} {dbg : List Int} {run : Nat} {l rest : List (List Int)} (hl : ∀ x ∈ l, Looks x)
    (h : debug fuel c w dbg run l = .ok (w', rest)) : w'.alive = w.alive ∧ w'.killed = w.killed ∧ ∃ k, k ≤ l.length ∧ rest = l.drop k := by
  have go : ∀ {w1 : World}, w1.alive = w.alive → w1.killed = w.killed → (do
        let r ← w1.deref w1.runner
        let w ← printIP w1 r
        lines fuel c w l) = .ok (w', rest) → w'.alive = w.alive ∧ w'.killed = w.killed ∧ ∃ k, k ≤ l.length ∧ rest = l.drop k := by
    intro w1 ha hk h
    obtain ⟨r, _, h⟩ := ok_bind h
    obtain ⟨w2, h2, h⟩ := ok_bind h
    obtain ⟨t, rfl⟩ := printIP_said h2
    obtain ⟨b1, b2, b3⟩ := lines_same l hl h
    exact ⟨b1.trans ha, b2.trans hk, b3⟩
  have key : ∀ {st : DState} {w1 : World}, w1.alive = w.alive → w1.killed = w.killed →
      (match st with
        | .run => (pure (w1, l) : Except Fault _)
        | _ => do
          let r ← w1.deref w1.runner
          let w ← printIP w1 r
          lines fuel c w l) = .ok (w', rest) → w'.alive = w.alive ∧ w'.killed = w.killed ∧ ∃ k, k ≤ l.length ∧ rest = l.drop k := by
    intro st w1 ha hk h
    cases st with
    | run => cases h; exact ⟨ha, hk, 0, by simp, rfl⟩
    | start => exact go ha hk h
    | step => exact go ha hk h
    | brk => exact go ha hk h
    | ended => exact go ha hk h
  unfold debug at h
  dsimp only at h
  obtain ⟨u, hu, h⟩ := ok_bind h
  revert h
  cases u.threads.find? (·.id == u.last) with
  | some t => exact fun h => key (st := t.state) (w1 := { w with dbg := dbg, runner := some run }) rfl rfl h
  | none => exact fun h => key (st := .start) (w1 := World.setHome { w with dbg := dbg, runner := some run } _) rfl rfl h

end Prompt

/-! ### Lines of the input -/

theorem inputLines_tail : ∀ l : List Int, inputLines ((l.dropWhile (· != 10)).drop 1) = (inputLines l).drop 1
  | [] => rfl
  | c :: t => by
    by_cases hc : c = 10
    · subst hc; simp [inputLines]
    · have h1 : (c :: t).dropWhile (· != 10) = t.dropWhile (· != 10) := by
        rw [List.dropWhile_cons]
        exact if_pos (bne_iff_ne.mpr hc)
      rw [h1, inputLines_tail t]
      show _ = ((if c = 10 then [] :: inputLines t else match inputLines t with
        | [] => [[c]]
        | l :: r => (c :: l) :: r) : List (List Int)).drop 1
      rw [if_neg hc]
      cases inputLines t <;> rfl

theorem inputLines_after : ∀ (k : Nat) (l : List Int), inputLines (afterLines k l) = (inputLines l).drop k
  | 0, _ => rfl
  | k + 1, l => by
    show inputLines (afterLines k _) = _
    rw [inputLines_after k, inputLines_tail, List.drop_drop]
    congr 1
    omega

/-! ### A session leaves the program alone -/

theorem moved_self (name : List Int) (l : List Runner) (m : List Defunge.Seen) : Debug.moved l (l.map (Debug.seen name) ++ m) = l := by
  induction l with
  | nil => cases m <;> rfl
  | cons r t ih =>
    show ({ r with ip := r.ip } : Runner) :: Debug.moved t (t.map (Debug.seen name) ++ m) = r :: t
    rw [ih]

theorem St.hear_self (s : St) : s.hear s.g.inp = s := rfl

theorem kept_fields (d : Debug) (n : Nat) (w : Defunge.World) :
    (Debug.kept d n w).shared = d.shared ∧ (Debug.kept d n w).on = d.on ∧ (Debug.kept d n w).name = d.name ∧ (Debug.kept d n w).typed = d.typed := by
  unfold Debug.kept
  split <;> exact ⟨rfl, rfl, rfl, rfl⟩

/-- What the two runs have in common: the state up to what is left to read, which is the same too if the prompt has its own input. -/
structure Alike (s s' : St) (d : Debug) : Prop where
  state : s' = s.hear s'.g.inp
  input : d.shared = false → s' = s
  lines : ∀ x ∈ d.lines s'.g, Looks x

theorem Alike.trans {s s' s'' : St} {d d' : Debug} (hd : d.shared = d'.shared) (a : Alike s s' d) (b : Alike s' s'' d') : Alike s s'' d' :=
  ⟨by rw [b.state, a.state]; rfl, fun h => (b.input h).trans (a.input (hd.trans h)), b.lines⟩

theorem session_alike {s s' : St} {d d' : Debug} {run : Nat} (hl : ∀ x ∈ d.lines s.g, Looks x) (h : Debug.session s d run = .ok (s', d')) :
    Alike s s' d' ∧ d'.shared = d.shared := by
  unfold Debug.session at h
  dsimp only at h
  split at h
  · exact nomatch h
  · rename_i w rest hw
    obtain ⟨ha, hk, k, hk', hr⟩ := debug_same hl hw
    obtain ⟨k1, k2, k3, k4⟩ := kept_fields d (s.rest.length + 1) w
    have hb : Debug.back s w = s := by
      unfold Debug.back
      have hm : Debug.moved (s.cur :: s.rest) w.alive = s.cur :: s.rest := by
        rw [ha]
        exact moved_self d.name (s.cur :: s.rest) d.away
      have hk0 : w.killed = false := hk
      rw [hm, hk0]
      rfl
    rw [hb] at h
    by_cases hs : d.shared = true
    · rw [if_pos hs] at h
      obtain ⟨rfl, rfl⟩ := Prod.mk.inj (Except.ok.inj h)
      refine ⟨⟨rfl, fun hn => absurd (hn.symm.trans (k1.trans hs)) (by simp), ?_⟩, k1⟩
      intro x hx
      unfold Debug.lines at hx
      rw [k1, if_pos hs] at hx
      have hx : x ∈ inputLines (afterLines _ s.g.inp) := hx
      rw [inputLines_after] at hx
      exact hl x (by unfold Debug.lines; rw [if_pos hs]; exact List.mem_of_mem_drop hx)
    · rw [if_neg hs] at h
      obtain ⟨rfl, rfl⟩ := Prod.mk.inj (Except.ok.inj h)
      refine ⟨⟨rfl, fun _ => rfl, ?_⟩, k1⟩
      intro x hx
      unfold Debug.lines at hx
      have : (if (Debug.kept d (s.rest.length + 1) w).shared = true then inputLines s.g.inp else rest) = rest := by rw [k1, if_neg hs]
      have hx : x ∈ rest := this ▸ hx
      rw [hr] at hx
      have := List.mem_of_mem_drop hx
      exact hl x (by unfold Debug.lines; exact this)

theorem Alike.refl {s : St} {d : Debug} (hl : ∀ x ∈ d.lines s.g, Looks x) : Alike s s d := ⟨rfl, fun _ => rfl, hl⟩

theorem lines_congr {d d' : Debug} (h : d'.shared = d.shared) (ht : d'.typed = d.typed) (g : Glob) : d'.lines g = d.lines g := by
  unfold Debug.lines; rw [h, ht]

theorem arrive_fields (s : St) (d : Debug) : (Debug.arrive s d).shared = d.shared ∧ (Debug.arrive s d).typed = d.typed ∧ (Debug.arrive s d).name = d.name := by
  unfold Debug.arrive
  dsimp only
  split <;> split <;> exact ⟨rfl, rfl, rfl⟩

theorem tick_alike {s s' : St} {d d' : Debug} (hl : ∀ x ∈ d.lines s.g, Looks x) (h : Debug.tick s d = .ok (s', d')) : Alike s s' d' ∧ d'.shared = d.shared := by
  unfold Debug.tick at h
  split at h
  · obtain ⟨f1, f2, _⟩ := arrive_fields s d
    obtain ⟨a, b⟩ := session_alike (by rw [lines_congr f1 f2]; exact hl) h
    exact ⟨a, b.trans f1⟩
  · cases h; exact ⟨.refl hl, rfl⟩

theorem trap_alike {s s' : St} {d d' : Debug} (hl : ∀ x ∈ d.lines s.g, Looks x) (h : Debug.trap s d = .ok (s', d')) : Alike s s' d' ∧ d'.shared = d.shared := by
  unfold Debug.trap at h
  split at h
  · exact session_alike (d := { (d.intro.say _) with threads := _ }) hl h
  · cases h; exact ⟨.refl hl, rfl⟩

theorem write_alike {s s' : St} {d d' : Debug} {p : Vec} {a b : Int} (hl : ∀ x ∈ d.lines s.g, Looks x) (h : Debug.write s d p a b = .ok (s', d')) :
    Alike s s' d' ∧ d'.shared = d.shared := by
  unfold Debug.write at h
  split at h
  · dsimp only at h
    split at h
    · exact nomatch h
    · refine session_alike (d := Debug.say (Debug.intro { d with threads := _ }) _) ?_ h
      exact hl
  · cases h; exact ⟨.refl hl, rfl⟩

theorem writes_alike : ∀ (l : List (Vec × Int × Int)) {s s' : St} {d d' : Debug}, (∀ x ∈ d.lines s.g, Looks x) → Debug.writes s d l = .ok (s', d') →
    Alike s s' d' ∧ d'.shared = d.shared
  | [], _, _, _, _, hl, h => by cases h; exact ⟨.refl hl, rfl⟩
  | (p, a, b) :: t, s, s', d, d', hl, h => by
    unfold Debug.writes at h
    split at h
    · exact nomatch h
    · rename_i s1 d1 h1
      obtain ⟨a1, e1⟩ := write_alike hl h1
      obtain ⟨a2, e2⟩ := writes_alike t a1.lines h
      exact ⟨a1.trans e2.symm a2, e2.trans e1⟩

/-! ### The error handlers and the step do not read -/

/-- Does the same whatever there is to read. -/
def DeafTo {α : Type} (m : Exec α) : Prop := ∀ s l, m (s.hear l) = (m s).map fun p => (p.1, p.2.hear l)

theorem deaf_pure {α : Type} (a : α) : DeafTo (pure a : Exec α) := fun _ _ => rfl

theorem deaf_bind {α β : Type} {m : Exec α} {f : α → Exec β} (hm : DeafTo m) (hf : ∀ a, DeafTo (f a)) : DeafTo (m >>= f) := by
  intro s l
  show (match m (s.hear l) with
    | .ok (a, s') => f a s'
    | .error e => .error e) = Except.map _ (match m s with
    | .ok (a, s') => f a s'
    | .error e => .error e)
  rw [hm s l]
  cases m s with
  | error e => rfl
  | ok p => exact hf p.1 p.2 l

theorem deaf_next : DeafTo ipNext := by
  intro s l
  unfold ipNext
  show (match s.cur.ip.next s.g.cfg.dims s.g.cfg.topo s.g.field with
    | .error e => _
    | .ok ip => _) = _
  cases s.cur.ip.next s.g.cfg.dims s.g.cfg.topo s.g.field <;> rfl

theorem deaf_handle (e : Err) : DeafTo (handle e) := by
  intro s l
  show (match s.cur.handler with
    | .funge => (do onIP IP.reflect; ipNext; pure e : Exec Err)
    | .fish => (do
      let dive ← isMode modeDive
      if e = Err.unimp ∧ dive then pure Err.none
      else do
        killAll 1
        pure e : Exec Err)
    | .null => (do ipNext; pure e : Exec Err)) (s.hear l) = Except.map _ ((match s.cur.handler with
    | .funge => (do onIP IP.reflect; ipNext; pure e : Exec Err)
    | .fish => (do
      let dive ← isMode modeDive
      if e = Err.unimp ∧ dive then pure Err.none
      else do
        killAll 1
        pure e : Exec Err)
    | .null => (do ipNext; pure e : Exec Err)) s)
  cases s.cur.handler with
  | funge => exact deaf_bind (fun _ _ => rfl) (fun _ => deaf_bind deaf_next fun _ => deaf_pure e) s l
  | fish =>
    refine deaf_bind (m := isMode modeDive) (fun _ _ => rfl) (fun b => ?_) s l
    by_cases hb : e = .unimp ∧ b = true
    · simp only [if_pos hb]; exact deaf_pure _
    · simp only [if_neg hb]; exact deaf_bind (fun _ _ => rfl) fun _ => deaf_pure e
  | null => exact deaf_bind deaf_next (fun _ => deaf_pure e) s l

theorem deaf_after (e : Err) : DeafTo (afterExec e) := by
  unfold afterExec
  cases e <;> first | exact deaf_pure _ | exact deaf_handle _

theorem deaf_goOn (e : Err) : DeafTo (goOn e) := by
  unfold goOn
  by_cases h : e = .none ∨ e = .skip
  · rw [if_pos h]; exact deaf_bind deaf_next fun _ => deaf_pure e
  · rw [if_neg h]; exact deaf_pure _

/-! ### Rounds, ticks, turns -/

theorem tickLoop_round (n : Nat) (s : St) : tickLoop (n + 1) s =
    match oneRound s with
    | .error e => .error e
    | .ok (e, s') => if e = .skip then tickLoop n s' else .ok ((), s') := by
  have l0 : tickLoop (n + 1) s = (execHere >>= fun e => afterExec e >>= fun e => (do
      if e = .none ∨ e = .skip then ipNext else pure ()
      if e = .skip then tickLoop n else pure ())) s := by
    rw [tickLoop, bind_ok (ipGet_run s), bind_ok (getFuel_run s)]
    rfl
  rw [l0]
  unfold oneRound
  cases h1 : execHere s with
  | error x => rw [bind_error h1, bind_error h1]
  | ok p =>
    obtain ⟨e, s1⟩ := p
    rw [bind_ok h1, bind_ok h1]
    cases h2 : afterExec e s1 with
    | error x => rw [bind_error h2, bind_error h2]
    | ok p =>
      obtain ⟨e', s2⟩ := p
      rw [bind_ok h2, bind_ok h2]
      unfold goOn
      by_cases hn : e' = .none ∨ e' = .skip
      · simp only [if_pos hn]
        cases h3 : ipNext s2 with
        | error x => rw [bind_error h3, bind_error h3]
        | ok p =>
          rw [bind_ok h3, bind_ok h3]
          by_cases hk : e' = .skip
          · simp only [if_pos hk]; subst hk; rfl
          · simp only [if_neg hk, pure, ret]
      · simp only [if_neg hn]
        have hk : ¬ e' = .skip := fun h => hn (.inr h)
        simp only [if_neg hk, pure, ret]

/-- A part of a round, executed in two states that are alike. -/
theorem part_alike {α : Type} {m : Exec α} {s0 s s' : St} {d : Debug} {a : α} (hs : Alike s0 s d)
    (hm : d.shared = true → ∀ l, m (s0.hear l) = (m s0).map fun p => (p.1, p.2.hear l)) (h : m s = .ok (a, s')) :
    ∃ t, m s0 = .ok (a, t) ∧ Alike t s' d := by
  by_cases hd : d.shared = true
  · rw [hs.state, hm hd] at h
    obtain ⟨p, hp, e⟩ := ran_ok h
    obtain ⟨rfl, rfl⟩ := Prod.mk.inj e
    refine ⟨p.2, hp, rfl, fun hn => absurd (hd.symm.trans hn) (by simp), fun x hx => hs.lines x ?_⟩
    unfold Debug.lines at hx ⊢
    rw [if_pos hd] at hx ⊢
    exact hx
  · have hf : d.shared = false := by simpa using hd
    have := hs.input hf
    subst this
    refine ⟨s', h, rfl, fun _ => rfl, fun x hx => hs.lines x ?_⟩
    unfold Debug.lines at hx ⊢
    rw [if_neg hd] at hx ⊢
    exact hx

theorem round_alike {ws : St → St → List (Vec × Int × Int)} {s0 s s' : St} {d d' : Debug} {e : Err} (hs : Alike s0 s d) (hd : d.shared = true → Deaf s0)
    (h : Debug.round ws s d = .ok (e, s', d')) : ∃ t, oneRound s0 = .ok (e, t) ∧ Alike t s' d' ∧ d'.shared = d.shared := by
  unfold Debug.round at h
  split at h
  · exact nomatch h
  rename_i s1 d1 h1
  obtain ⟨a1, e1⟩ := tick_alike hs.lines h1
  have a1 := hs.trans e1.symm a1
  split at h
  · exact nomatch h
  rename_i x2 s2 h2
  obtain ⟨t2, g2, a2⟩ := part_alike (m := execHere) a1 (fun hh => hd (e1.symm.trans hh)) h2
  split at h
  · exact nomatch h
  rename_i s3 d3 h3
  obtain ⟨a3, e3⟩ := writes_alike _ a2.lines h3
  have a3 := a2.trans e3.symm a3
  split at h
  · exact nomatch h
  rename_i s4 d4 h4
  have hx : Alike s3 s4 d4 ∧ d4.shared = d3.shared := by
    split at h4
    · exact trap_alike a3.lines h4
    · cases h4; exact ⟨.refl a3.lines, rfl⟩
  have a4 := a3.trans hx.2.symm hx.1
  split at h
  · exact nomatch h
  rename_i x5 s5 h5
  obtain ⟨t5, g5, a5⟩ := part_alike (m := afterExec x2) a4 (fun _ => deaf_after x2 t2) h5
  split at h
  · exact nomatch h
  rename_i x6 s6 h6
  obtain ⟨t6, g6, a6⟩ := part_alike (m := goOn x5) a5 (fun _ => deaf_goOn x5 t5) h6
  cases h
  refine ⟨t6, ?_, a6, hx.2.trans (e3.trans e1)⟩
  unfold oneRound
  rw [bind_ok g2, bind_ok g5]
  exact g6

theorem tickLoop_alike {ws : St → St → List (Vec × Int × Int)} : ∀ (n : Nat) {s0 s s' : St} {d d' : Debug}, Alike s0 s d →
    (d.shared = true → ∀ t, DuringTick s0 t → Deaf t) → Debug.tickLoop ws n s d = .ok (s', d') →
    ∃ t, tickLoop n s0 = .ok ((), t) ∧ Alike t s' d' ∧ d'.shared = d.shared
  | 0, _, _, _, _, _, _, _, h => nomatch h
  | n + 1, s0, s, s', d, d', hs, hd, h => by
    unfold Debug.tickLoop at h
    split at h
    · exact nomatch h
    rename_i e s1 d1 h1
    obtain ⟨t1, g1, a1, e1⟩ := round_alike hs (fun hh => hd hh _ (.here _)) h1
    rw [tickLoop_round, g1]
    dsimp only
    split at h
    · rename_i he
      subst he
      obtain ⟨t, g, a, e⟩ := tickLoop_alike n a1 (fun hh t ht => hd (e1.symm.trans hh) t (.next g1 ht)) h
      exact ⟨t, by rw [if_pos rfl]; exact g, a, e.trans e1⟩
    · rename_i he
      cases h
      exact ⟨t1, by rw [if_neg he], a1, e1⟩

/-- The same for universes. -/
structure AlikeU (u u' : Univ) (d : Debug) : Prop where
  state : u' = u.hear u'.g.inp
  input : d.shared = false → u' = u
  lines : ∀ x ∈ d.lines u'.g, Looks x

theorem PassesThrough.later {u v : Univ} {s : St} (h : u.turn = .ok v) (p : v.PassesThrough s) : u.PassesThrough s := by
  obtain ⟨k, w, r, rest, hw, h1, h2, h3⟩ := p
  refine ⟨k + 1, w, r, rest, ?_, h1, h2, h3⟩
  unfold Univ.turns
  rw [h]
  exact hw

theorem turn_alike {ws : St → St → List (Vec × Int × Int)} {u0 u u' : Univ} {d d' : Debug} (hs : AlikeU u0 u d) (hd : d.shared = true → ∀ t, u0.PassesThrough t → Deaf t)
    (h : Debug.turn ws u d = .ok (u', d')) : ∃ v, u0.turn = .ok v ∧ AlikeU v u' d' ∧ d'.shared = d.shared := by
  obtain ⟨rs, g⟩ := u
  obtain ⟨rs0, g0⟩ := u0
  have hr : rs = rs0 := congrArg Univ.runners hs.state
  subst hr
  have hg : g = { g0 with inp := g.inp } := congrArg Univ.g hs.state
  unfold Debug.turn at h
  unfold Univ.turn
  dsimp only at h ⊢
  cases rs with
  | nil =>
    cases h
    exact ⟨_, rfl, hs, rfl⟩
  | cons r rest =>
    dsimp only at h ⊢
    have a0 : Alike ⟨r, rest, g0⟩ ⟨r, rest, g⟩ d := ⟨by
      show (⟨r, rest, g⟩ : St) = ⟨r, rest, { g0 with inp := g.inp }⟩
      rw [← hg], fun hf => by
      have := congrArg Univ.g (hs.input hf)
      dsimp only at this
      rw [this], hs.lines⟩
    have fin : ∀ {t s' : St} {d1 : Debug}, Alike t s' d1 → (.ok (if s'.cur.ip.stopped then (⟨s'.rest, s'.g⟩, d1.endThread s'.cur.id) else (⟨s'.rest ++ [s'.cur], s'.g⟩, d1)) : Except Fault (Univ × Debug)) = .ok (u', d') →
        AlikeU ⟨if t.cur.ip.stopped then t.rest else t.rest ++ [t.cur], t.g⟩ u' d' ∧ d'.shared = d1.shared := by
      intro t s' d1 a h
      have hc : s'.cur = t.cur := by rw [a.state]; rfl
      have hrest : s'.rest = t.rest := by rw [a.state]; rfl
      have hgg : s'.g = { t.g with inp := s'.g.inp } := congrArg St.g a.state
      have hin : d1.shared = false → s'.g = t.g := fun hf => congrArg St.g (a.input hf)
      rw [hc, hrest] at h
      by_cases hst : t.cur.ip.stopped = true
      · simp only [if_pos hst] at h ⊢
        cases h
        refine ⟨⟨?_, fun hf => ?_, fun x hx => a.lines x hx⟩, rfl⟩
        · show (⟨t.rest, s'.g⟩ : Univ) = ⟨t.rest, { t.g with inp := s'.g.inp }⟩
          rw [← hgg]
        · rw [hin hf]
      · simp only [if_neg hst] at h ⊢
        cases h
        refine ⟨⟨?_, fun hf => ?_, fun x hx => a.lines x hx⟩, rfl⟩
        · show (⟨t.rest ++ [t.cur], s'.g⟩ : Univ) = ⟨t.rest ++ [t.cur], { t.g with inp := s'.g.inp }⟩
          rw [← hgg]
        · rw [hin hf]
    by_cases hst : r.ip.stopped = true
    · simp only [if_pos hst] at h ⊢
      obtain ⟨a, e⟩ := fin a0 (by simpa only [if_pos hst] using h)
      refine ⟨_, rfl, ?_, e⟩
      simpa only [if_pos hst] using a
    · simp only [if_neg hst] at h ⊢
      split at h
      · exact nomatch h
      · rename_i s1 d1 h1
        have hf : g.fuel = g0.fuel := by rw [hg]
        rw [hf] at h1
        obtain ⟨t, gt, a, e⟩ := tickLoop_alike g0.fuel a0 (fun hh t ht => hd hh t ⟨0, _, r, rest, rfl, rfl, by simpa using hst, ht⟩) h1
        obtain ⟨b, e'⟩ := fin a h
        have ht : tick ⟨r, rest, g0⟩ = .ok ((), t) := gt
        rw [ht]
        exact ⟨_, rfl, b, e'.trans e⟩

theorem turns_alike {ws : St → St → List (Vec × Int × Int)} : ∀ (k : Nat) {u0 u u' : Univ} {d d' : Debug}, AlikeU u0 u d →
    (d.shared = true → ∀ t, u0.PassesThrough t → Deaf t) → Debug.turns ws k u d = .ok (u', d') →
    ∃ v, u0.turns k = .ok v ∧ AlikeU v u' d' ∧ d'.shared = d.shared
  | 0, u0, u, u', d, d', hs, _, h => by cases h; exact ⟨u0, rfl, hs, rfl⟩
  | k + 1, u0, u, u', d, d', hs, hd, h => by
    unfold Debug.turns at h
    split at h
    · exact nomatch h
    rename_i u1 d1 h1
    obtain ⟨v1, g1, a1, e1⟩ := turn_alike hs hd h1
    obtain ⟨v, g, a, e⟩ := turns_alike k a1 (fun hh t ht => hd (e1.symm.trans hh) t (PassesThrough.later g1 ht)) h
    refine ⟨v, ?_, a, e.trans e1⟩
    unfold Univ.turns
    rw [g1]
    exact g

/-- **C113** (partial: see `C113_false_shared_input`, `C113_diverges_without_input`, `C113_undefined_after_an_end`). A universe of whatever programs in whatever state runs under the
debugger, for `k` turns of the scheduler, and what is typed only looks: there is no `quit`, `setdelta` or `setpos`. The program does not read. Then without the debugger the `k` turns
lead to the same universe: the same IPs with the same stacks in the same order, the same cells, the same things written, files opened, questions asked. Only of the input there is
less left, for the prompt took its lines from it. `ws` are the cells that instructions write, which may be watched. -/
theorem C113_transparent_partial {ws : St → St → List (Vec × Int × Int)} {u u' : Univ} {d d' : Debug} {k : Nat} (hshared : d.shared = true)
    (hl : ∀ x ∈ inputLines u.g.inp, Looks x) (hd : ∀ s, u.PassesThrough s → Deaf s) (h : Debug.turns ws k u d = .ok (u', d')) :
    ∃ v, u.turns k = .ok v ∧ u' = v.hear u'.g.inp := by
  obtain ⟨v, g, a, _⟩ := turns_alike k (u0 := u) ⟨rfl, fun _ => rfl, by unfold Debug.lines; rw [if_pos hshared]; exact hl⟩ (fun _ => hd) h
  exact ⟨v, g, a.state⟩

/-- If the prompt had an input of its own, the same would hold for every program, whether it reads or not, and nothing at all would be different. -/
theorem C113_own_input {ws : St → St → List (Vec × Int × Int)} {u u' : Univ} {d d' : Debug} {k : Nat} (hown : d.shared = false) (hl : ∀ x ∈ d.typed, Looks x)
    (h : Debug.turns ws k u d = .ok (u', d')) : u.turns k = .ok u' := by
  obtain ⟨v, g, a, e⟩ := turns_alike k (u0 := u) ⟨rfl, fun _ => rfl, by unfold Debug.lines; rw [if_neg (by rw [hown]; decide)]; exact hl⟩
    (fun hs => absurd (hown.symm.trans hs) (by decide)) h
  rw [g, a.input (e.trans hown)]

/-! ### Without debug mode -/

theorem writes_off {d : Debug} (h : d.on = false) (s : St) : ∀ l, Debug.writes s d l = .ok (s, d)
  | [] => rfl
  | (p, a, b) :: t => by
    unfold Debug.writes
    have : Debug.write s d p a b = .ok (s, d) := by
      unfold Debug.write
      rw [h]; rfl
    rw [this]
    exact writes_off h s t

theorem round_off {ws : St → St → List (Vec × Int × Int)} {d : Debug} (h : d.on = false) (s : St) : Debug.round ws s d = (oneRound s).map fun p => (p.1, p.2, d) := by
  have h1 : ∀ s, Debug.tick s d = .ok (s, d) := fun s => by unfold Debug.tick; rw [h]; rfl
  have h2 : ∀ s, Debug.trap s d = .ok (s, d) := fun s => by unfold Debug.trap; rw [h]; rfl
  unfold Debug.round oneRound
  rw [h1]
  dsimp only
  cases e1 : execHere s with
  | error x => rw [bind_error e1]; rfl
  | ok p =>
    obtain ⟨e, s1⟩ := p
    rw [bind_ok e1]
    dsimp only
    rw [writes_off h]
    dsimp only
    rw [h2, ite_self]
    dsimp only
    cases e2 : afterExec e s1 with
    | error x => rw [bind_error e2]; rfl
    | ok p =>
      obtain ⟨e', s2⟩ := p
      rw [bind_ok e2]
      dsimp only
      cases goOn e' s2 <;> rfl

theorem tickLoop_off {ws : St → St → List (Vec × Int × Int)} {d : Debug} (h : d.on = false) : ∀ (n : Nat) (s : St), Debug.tickLoop ws n s d = (tickLoop n s).map fun p => (p.2, d)
  | 0, _ => rfl
  | n + 1, s => by
    unfold Debug.tickLoop
    rw [tickLoop_round, round_off h]
    cases oneRound s with
    | error e => rfl
    | ok p =>
      obtain ⟨e, s1⟩ := p
      show (if e = .skip then Debug.tickLoop ws n s1 d else .ok (s1, d)) = Except.map _ (if e = .skip then tickLoop n s1 else .ok ((), s1))
      split
      · exact tickLoop_off h n s1
      · rfl

/-- Without debug mode the debugger is not there: it shows nothing, reads nothing, and changes nothing. -/
theorem C113_off {ws : St → St → List (Vec × Int × Int)} : ∀ (k : Nat) {u : Univ} {d : Debug}, d.on = false →
    (Debug.turns ws k u d).map Prod.fst = u.turns k ∧ ∀ u' d', Debug.turns ws k u d = .ok (u', d') → d'.shown = d.shown ∧ d'.typed = d.typed
  | 0, _, _, _ => ⟨rfl, fun _ _ h => by cases h; exact ⟨rfl, rfl⟩⟩
  | k + 1, u, d, h => by
    have h1 : Debug.turn ws u d = u.turn.map (fun v => (v, d)) ∨ ∃ i, Debug.turn ws u d = u.turn.map fun v => (v, d.endThread i) := by
      unfold Debug.turn Univ.turn
      cases u.runners with
      | nil => exact .inl rfl
      | cons r rest =>
        dsimp only
        have fin : ∀ (x : Except Fault (Unit × St)), let y : Except Fault (St × Debug) := x.map fun p => (p.2, d)
            (match y with
              | .error e => .error e
              | .ok (s, d) => .ok (if s.cur.ip.stopped then ((⟨s.rest, s.g⟩ : Univ), d.endThread s.cur.id) else (⟨s.rest ++ [s.cur], s.g⟩, d)) : Except Fault (Univ × Debug)) =
              Except.map (fun v => (v, d)) (match x with
                | .error e => .error e
                | .ok (_, s) => .ok ⟨if s.cur.ip.stopped then s.rest else s.rest ++ [s.cur], s.g⟩) ∨
            ∃ i, (match y with
              | .error e => .error e
              | .ok (s, d) => .ok (if s.cur.ip.stopped then ((⟨s.rest, s.g⟩ : Univ), d.endThread s.cur.id) else (⟨s.rest ++ [s.cur], s.g⟩, d)) : Except Fault (Univ × Debug)) =
              Except.map (fun v => (v, d.endThread i)) (match x with
                | .error e => .error e
                | .ok (_, s) => .ok ⟨if s.cur.ip.stopped then s.rest else s.rest ++ [s.cur], s.g⟩) := by
          intro x
          cases x with
          | error e => exact .inl rfl
          | ok p =>
            obtain ⟨_, s⟩ := p
            by_cases hst : s.cur.ip.stopped = true
            · refine .inr ⟨s.cur.id, ?_⟩
              simp only [Except.map, if_pos hst]
            · refine .inl ?_
              simp only [Except.map, if_neg hst]
        by_cases hst : r.ip.stopped = true
        · simp only [if_pos hst]
          have := fin (.ok ((), ⟨r, rest, u.g⟩))
          simpa only [Except.map, if_pos hst] using this
        · simp only [if_neg hst]
          rw [tickLoop_off h]
          exact fin (tick ⟨r, rest, u.g⟩)
    have key : ∀ d1 : Debug, d1.on = false → d1.shown = d.shown → d1.typed = d.typed → Debug.turn ws u d = u.turn.map (fun v => (v, d1)) →
        (Debug.turns ws (k + 1) u d).map Prod.fst = u.turns (k + 1) ∧ ∀ u' d', Debug.turns ws (k + 1) u d = .ok (u', d') → d'.shown = d.shown ∧ d'.typed = d.typed := by
      intro d1 ho hs ht ht1
      unfold Debug.turns Univ.turns
      rw [ht1]
      cases u.turn with
      | error e => exact ⟨rfl, fun _ _ h => nomatch h⟩
      | ok v =>
        obtain ⟨a, b⟩ := C113_off k (ws := ws) (u := v) (d := d1) ho
        exact ⟨a, fun u' d' h => ⟨(b u' d' h).1.trans hs, (b u' d' h).2.trans ht⟩⟩
    rcases h1 with h1 | ⟨i, h1⟩
    · exact key d h rfl rfl h1
    · exact key (d.endThread i) h rfl rfl h1

/-! ### Running on -/

section Prompt
open Defunge
attribute [local irreducible] lit

theorem home_head (u : Home) (t : List Home) (a : List Seen) (dbg : List Int) (r : Option Nat) (k : Bool) (o : List Int) : (⟨u :: t, a, dbg, r, k, o⟩ : World).home u.name = .ok u := by
  unfold World.home
  simp

theorem deref_head (l : List Home) (q : Seen) (a : List Seen) (dbg : List Int) (r : Option Nat) (k : Bool) (o : List Int) : (⟨l, q :: a, dbg, r, k, o⟩ : World).deref (some q.id) = .ok q := by
  unfold World.deref
  simp

/-- `r` at the prompt. -/
theorem lines_run {fuel : Nat} {c : Int} {u : Home} {t : List Home} {q : Seen} {a : List Seen} {k : Bool} {o : List Int} (l : List (List Int)) :
    ∃ w', lines fuel c ⟨u :: t, q :: a, u.name, some q.id, k, o⟩ (lit "r" :: l) = .ok (w', l) := by
  have e : (cmdMap.find? fun p => lit p.1 == lit "r").map Prod.snd = some Func.run ∧ lit "r" ≠ [] ∧ ∀ x ∈ lit "r", IStream.isSpace x = false := by
    rw [show lit "r" = [114] by krfl]; exact ⟨by krfl, by decide, by decide⟩
  unfold lines
  rw [bare e.1 e.2.1 e.2.2]
  have hc : ∃ w', call fuel c (World.say ⟨u :: t, q :: a, u.name, some q.id, k, o⟩ promptText) ⟨[], false⟩ .run = .ok (.brk, w') := by
    rw [call]
    unfold resume
    rw [if_neg (by exact Bool.false_ne_true)]
    unfold World.say
    rw [home_head, bind_ok_except, deref_head, bind_ok_except]
    exact ⟨_, rfl⟩
  obtain ⟨w', hc⟩ := hc
  rw [hc]
  exact ⟨w', rfl⟩

theorem debug_run {fuel : Nat} {c : Int} {u : Home} {t : List Home} {q : Seen} {a : List Seen} {g : List Int} {r : Option Nat} {k : Bool} {o : List Int} (hq : q.uni = u.name) (n : Nat) :
    ∃ w' m, n ≤ m ∧ debug fuel c ⟨u :: t, q :: a, g, r, k, o⟩ u.name q.id (List.replicate (n + 1) (lit "r")) = .ok (w', List.replicate m (lit "r")) := by
  have go : ∀ (u' : Home) (t' : List Home), u'.name = u.name → ∃ w', (do
        let r ← World.deref ⟨u' :: t', q :: a, u.name, some q.id, k, o⟩ (some q.id)
        let w ← printIP ⟨u' :: t', q :: a, u.name, some q.id, k, o⟩ r
        lines fuel c w (List.replicate (n + 1) (lit "r"))) = .ok (w', List.replicate n (lit "r")) := by
    intro u' t' hu
    rw [deref_head, bind_ok_except]
    have hp : ∃ t, printIP ⟨u' :: t', q :: a, u.name, some q.id, k, o⟩ q = .ok (World.say ⟨u' :: t', q :: a, u.name, some q.id, k, o⟩ t) := by
      unfold printIP
      rw [deref_head, bind_ok_except, hq, ← hu, home_head, bind_ok_except]
      exact ⟨_, rfl⟩
    obtain ⟨x, hp⟩ := hp
    rw [hp, bind_ok_except, ← hu]
    exact lines_run (List.replicate n (lit "r"))
  unfold debug
  dsimp only
  rw [home_head, bind_ok_except]
  cases hf : u.threads.find? (·.id == u.last) with
  | some e =>
    cases hs : e.state with
    | run => simp only [hs]; exact ⟨_, n + 1, by omega, rfl⟩
    | start => simp only [hs]; obtain ⟨w', h⟩ := go u t rfl; exact ⟨w', n, by omega, h⟩
    | step => simp only [hs]; obtain ⟨w', h⟩ := go u t rfl; exact ⟨w', n, by omega, h⟩
    | brk => simp only [hs]; obtain ⟨w', h⟩ := go u t rfl; exact ⟨w', n, by omega, h⟩
    | ended => simp only [hs]; obtain ⟨w', h⟩ := go u t rfl; exact ⟨w', n, by omega, h⟩
  | none =>
    have hm : ∃ t', World.setHome ⟨u :: t, q :: a, u.name, some q.id, k, o⟩ { u with threads := setState u.threads u.last .start } =
        ⟨{ u with threads := setState u.threads u.last .start } :: t', q :: a, u.name, some q.id, k, o⟩ := by
      unfold World.setHome
      simp
    obtain ⟨t', hm⟩ := hm
    dsimp only
    rw [hm]
    obtain ⟨w', h⟩ := go { u with threads := setState u.threads u.last .start } t' rfl
    exact ⟨w', n, by omega, h⟩

end Prompt

/-- Nothing but `r`, for `run`, is typed, and that at least `n` times. -/
structure Running (d : Debug) (n : Nat) : Prop where
  own : d.shared = false
  typed : ∃ m, n ≤ m ∧ d.typed = List.replicate m (Defunge.lit "r")

theorem looks_run : Looks (Defunge.lit "r") := by
  unfold Looks Defunge.Typed
  decide +kernel

theorem session_run {s : St} {d : Debug} {n : Nat} (h : Running d (n + 1)) : ∃ d', Debug.session s d s.cur.id = .ok (s, d') ∧ Running d' n := by
  obtain ⟨m, hm, ht⟩ := h.typed
  obtain ⟨m, rfl⟩ : ∃ j, m = j + 1 := ⟨m - 1, by omega⟩
  obtain ⟨w', j, hj, hw⟩ := debug_run (fuel := s.g.fuel) (c := d.junk) (u := (Debug.world s d).unis.head (by simp [Debug.world])) (t := d.others) (q := Debug.seen d.name s.cur)
    (a := s.rest.map (Debug.seen d.name) ++ d.away) (g := d.name) (r := none) (k := false) (o := d.shown) rfl m
  have hs : Debug.session s d s.cur.id = .ok (Debug.back s w', { (Debug.kept d (s.rest.length + 1) w') with typed := List.replicate j (Defunge.lit "r") }) := by
    unfold Debug.session
    rw [h.own, ht]
    dsimp only
    have hw : Defunge.debug s.g.fuel d.junk (Debug.world s d) d.name s.cur.id (List.replicate (m + 1) (Defunge.lit "r")) = .ok (w', List.replicate j (Defunge.lit "r")) := hw
    simp only [if_neg Bool.false_ne_true, hw]
  have hk := kept_fields d (s.rest.length + 1) w'
  obtain ⟨a, _⟩ := session_alike (s := s) (d := d) (by
    unfold Debug.lines
    rw [h.own, if_neg Bool.false_ne_true, ht]
    intro x hx
    rw [(List.mem_replicate.mp hx).2]
    exact looks_run) hs
  rw [a.input (hk.1.trans h.own)] at hs
  exact ⟨_, hs, hk.1.trans h.own, j, by omega, rfl⟩

theorem Running.less {d : Debug} {n m : Nat} (h : Running d n) (hm : m ≤ n) : Running d m := by
  obtain ⟨j, hj, e⟩ := h.typed
  exact ⟨h.own, j, by omega, e⟩

theorem tick_run {s : St} {d : Debug} {n : Nat} (h : Running d (n + 1)) : ∃ d', Debug.tick s d = .ok (s, d') ∧ Running d' n := by
  unfold Debug.tick
  split
  · obtain ⟨f1, f2, _⟩ := arrive_fields s d
    obtain ⟨m, hm, e⟩ := h.typed
    exact session_run ⟨f1.trans h.own, m, hm, f2.trans e⟩
  · exact ⟨d, rfl, h.less (by omega)⟩

theorem trap_run {s : St} {d : Debug} {n : Nat} (h : Running d (n + 1)) : ∃ d', Debug.trap s d = .ok (s, d') ∧ Running d' n := by
  unfold Debug.trap
  split
  · exact session_run ⟨h.own, h.typed⟩
  · exact ⟨d, rfl, h.less (by omega)⟩

/-- No instruction writes to a cell that is watched. -/
def unwatched : St → St → List (Vec × Int × Int) := fun _ _ => []

theorem round_run {s s' : St} {d : Debug} {n : Nat} {e : Err} (h : Running d (n + 2)) (hr : oneRound s = .ok (e, s')) :
    ∃ d', Debug.round unwatched s d = .ok (e, s', d') ∧ Running d' n := by
  unfold oneRound at hr
  obtain ⟨e1, s1, h1, hr⟩ := bind_inv hr
  obtain ⟨e2, s2, h2, h3⟩ := bind_inv hr
  obtain ⟨d1, g1, r1⟩ := tick_run (s := s) h
  unfold Debug.round
  rw [g1]
  dsimp only
  rw [h1]
  dsimp only [unwatched, Debug.writes]
  split
  · rename_i f hf
    split at hf
    · obtain ⟨d2, g2, r2⟩ := trap_run (s := s1) r1
      rw [g2] at hf
      exact nomatch hf
    · exact nomatch hf
  · rename_i s3 d3 hf
    have hx : s3 = s1 ∧ Running d3 n := by
      split at hf
      · obtain ⟨d2, g2, r2⟩ := trap_run (s := s1) r1
        rw [g2] at hf
        cases hf
        exact ⟨rfl, r2⟩
      · cases hf
        exact ⟨rfl, r1.less (by omega)⟩
    obtain ⟨rfl, r3⟩ := hx
    rw [h2]
    dsimp only
    rw [h3]
    exact ⟨d3, rfl, r3⟩

theorem tickLoop_run : ∀ (k : Nat) {s s' : St} {d : Debug} {n : Nat}, Running d (n + 2 * k) → tickLoop k s = .ok ((), s') →
    ∃ d', Debug.tickLoop unwatched k s d = .ok (s', d') ∧ Running d' n
  | 0, _, _, _, _, _, h => nomatch h
  | k + 1, s, s', d, n, hr, h => by
    rw [tickLoop_round] at h
    split at h
    · exact nomatch h
    rename_i e s1 h1
    obtain ⟨d1, g1, r1⟩ := round_run (n := n + 2 * k) hr h1
    unfold Debug.tickLoop
    rw [g1]
    dsimp only
    split at h
    · rename_i he
      rw [if_pos he]
      exact tickLoop_run k r1 h
    · rename_i he
      rw [if_neg he]
      cases h
      exact ⟨d1, rfl, r1.less (by omega)⟩

theorem turn_run {u v : Univ} {d : Debug} {n : Nat} (hr : Running d (n + 2 * u.g.fuel)) (h : u.turn = .ok v) :
    ∃ d', Debug.turn unwatched u d = .ok (v, d') ∧ Running d' n := by
  unfold Univ.turn at h
  unfold Debug.turn
  split at h
  · rename_i hn
    rw [hn]
    cases h
    exact ⟨d, rfl, hr.less (by omega)⟩
  · rename_i r rest hn
    rw [hn]
    dsimp only
    by_cases hst : r.ip.stopped = true
    · simp only [if_pos hst] at h ⊢
      cases h
      exact ⟨_, rfl, hr.own, (hr.less (by omega : n ≤ _)).typed⟩
    · simp only [if_neg hst] at h ⊢
      split at h
      · exact nomatch h
      · rename_i x s1 h1
        obtain ⟨d1, g1, r1⟩ := tickLoop_run u.g.fuel hr (show tickLoop u.g.fuel ⟨r, rest, u.g⟩ = .ok ((), s1) from h1)
        rw [g1]
        cases h
        dsimp only
        by_cases hc : s1.cur.ip.stopped = true
        · simp only [if_pos hc]
          exact ⟨_, rfl, r1.own, r1.typed⟩
        · simp only [if_neg hc]
          exact ⟨_, rfl, r1⟩

/-- **A program can be run to the end under the debugger.** Whatever it does in `k` turns without the debugger, it also does under it if `r` (`run`) is typed often enough: at the start, whenever
a new IP appears, at errors and at breakpoints set by the program. (With an input of its own for the prompt, and if no cell is written that the program watches.) -/
theorem C113_runs : ∀ (k : Nat) {u v : Univ}, u.turns k = .ok v →
    ∃ N, ∀ d : Debug, d.shared = false → ∀ n ≥ N, d.typed = List.replicate n (Defunge.lit "r") → ∃ d', Debug.turns unwatched k u d = .ok (v, d') := by
  have key : ∀ (k : Nat) {u v : Univ}, u.turns k = .ok v → ∃ N, ∀ d : Debug, Running d N → ∃ d', Debug.turns unwatched k u d = .ok (v, d') := by
    intro k
    induction k with
    | zero => intro u v h; cases h; exact ⟨0, fun d _ => ⟨d, rfl⟩⟩
    | succ k ih =>
      intro u v h
      unfold Univ.turns at h
      split at h
      · exact nomatch h
      · rename_i u1 h1
        obtain ⟨N, hN⟩ := ih h
        refine ⟨N + 2 * u.g.fuel, fun d hd => ?_⟩
        obtain ⟨d1, g1, r1⟩ := turn_run hd h1
        unfold Debug.turns
        rw [g1]
        exact hN d1 r1
  intro k u v h
  obtain ⟨N, hN⟩ := key k h
  exact ⟨N, fun d hs n hn ht => hN d ⟨hs, n, hn, ht⟩⟩

/-! ### Where the debugger is not transparent -/

section Prompt
open Defunge
attribute [local irreducible] lit

/-- Without a line to read, the prompt asks for ever. -/
theorem debug_asks {fuel : Nat} {c : Int} {u : Home} {t : List Home} {q : Seen} {a : List Seen} {g : List Int} {r : Option Nat} {k : Bool} {o : List Int} (hq : q.uni = u.name)
    {e : Entry} (hf : u.threads.find? (·.id == u.last) = some e) (he : e.state ≠ .run) : debug fuel c ⟨u :: t, q :: a, g, r, k, o⟩ u.name q.id [] = .error .fuel := by
  have go : (do
        let r ← World.deref ⟨u :: t, q :: a, u.name, some q.id, k, o⟩ (some q.id)
        let w ← printIP ⟨u :: t, q :: a, u.name, some q.id, k, o⟩ r
        lines fuel c w []) = .error .fuel := by
    rw [deref_head, bind_ok_except]
    have hp : ∃ x, printIP ⟨u :: t, q :: a, u.name, some q.id, k, o⟩ q = .ok (World.say ⟨u :: t, q :: a, u.name, some q.id, k, o⟩ x) := by
      unfold printIP
      rw [deref_head, bind_ok_except, hq, home_head, bind_ok_except]
      exact ⟨_, rfl⟩
    obtain ⟨x, hp⟩ := hp
    rw [hp, bind_ok_except]
    rfl
  unfold debug
  dsimp only
  rw [home_head, bind_ok_except, hf]
  dsimp only
  cases hs : e.state with
  | run => exact absurd hs he
  | start => exact go
  | step => exact go
  | brk => exact go
  | ended => exact go

end Prompt

/-- The first IP under the debugger waits for a command. -/
theorem arrive_first (s : St) {d : Debug} (h : d.threads = []) :
    ∃ e, (Debug.arrive s d).threads.find? (·.id == (Debug.arrive s d).last) = some e ∧ e.state ≠ .run := by
  by_cases hc : setContains (Debug.points s.g.breakpoints d.breaks) s.cur.ip.pos = true
  · refine ⟨⟨s.cur.id, some s.cur.id, pushBack [] s.cur.ip.pos, .brk⟩, ?_, fun h => nomatch h⟩
    simp [Debug.arrive, Debug.intro, Debug.say, h, Debug.insert, Debug.onEntry, hc, Defunge.setState]
  · refine ⟨⟨s.cur.id, some s.cur.id, pushBack [] s.cur.ip.pos, .start⟩, ?_, fun h => nomatch h⟩
    simp [Debug.arrive, Debug.intro, Debug.say, h, Debug.insert, Debug.onEntry, hc]

/-- **Without input, no program runs under the debugger**: of whatever program, the first instruction is not executed. The prompt does not notice the end of the input, and asks for ever. -/
theorem C113_diverges_without_input (ws : St → St → List (Vec × Int × Int)) {u : Univ} {d : Debug} {r : Runner} {rest : List Runner} (hr : u.runners = r :: rest)
    (hs : r.ip.stopped = false) (hon : d.on = true) (hshared : d.shared = true) (hfirst : d.threads = []) (hin : u.g.inp = []) (k : Nat) :
    Debug.turns ws (k + 1) u d = .error .fuel := by
  have h1 : Debug.tick ⟨r, rest, u.g⟩ d = .error .fuel := by
    unfold Debug.tick
    rw [if_pos hon]
    obtain ⟨e, he, hne⟩ := arrive_first ⟨r, rest, u.g⟩ hfirst
    obtain ⟨f1, f2, f3⟩ := arrive_fields ⟨r, rest, u.g⟩ d
    generalize Debug.arrive ⟨r, rest, u.g⟩ d = d1 at he f1 f2 f3
    unfold Debug.session
    have hl : (if d1.shared = true then inputLines (St.mk r rest u.g).g.inp else d1.typed) = [] := by
      rw [if_pos (f1.trans hshared)]
      show inputLines u.g.inp = []
      rw [hin]; rfl
    simp only [hl]
    have := debug_asks (fuel := u.g.fuel) (c := d1.junk) (u := (Debug.world ⟨r, rest, u.g⟩ d1).unis.head (by simp [Debug.world])) (t := d1.others) (q := Debug.seen d1.name r)
      (a := rest.map (Debug.seen d1.name) ++ d1.away) (g := d1.name) (r := none) (k := false) (o := d1.shown) rfl (e := e) he hne
    have this : Defunge.debug u.g.fuel d1.junk (Debug.world ⟨r, rest, u.g⟩ d1) d1.name r.id [] = .error .fuel := this
    rw [this]
  have h2 : ∀ n, Debug.tickLoop ws n ⟨r, rest, u.g⟩ d = .error .fuel := by
    intro n
    cases n with
    | zero => rfl
    | succ n =>
      unfold Debug.tickLoop Debug.round
      rw [h1]
  unfold Debug.turns Debug.turn
  rw [hr]
  dsimp only
  rw [if_neg (by rw [hs]; decide), h2]

/-! ### Examples -/

/-- A program in Befunge-98, with what there is to read. -/
def exDebugged (text inp : String) : Univ :=
  launch { cfg := { dims := 2, standard := 98, strings := .sgml, concurrent := true }, flt := exFloat, fuel := 30, inp := Defunge.lit inp } false (Defunge.lit text)

/-- **The prompt takes the input of the program, and the program that of the prompt.** `~,@` prints the first character it reads. With the lines `r` and `A` it prints `r`; under the debugger it
prints `A`, for the prompt has read the first line. Nothing typed does more than let the program run. -/
theorem C113_false_shared_input : (∀ x ∈ inputLines (Defunge.lit "r\nA"), Looks x) ∧
    ((exDebugged "~,@" "r\nA").turns 3).map (fun v => v.g.eff) = .ok [.out [114]] ∧
    (Debug.turns unwatched 3 (exDebugged "~,@" "r\nA") {}).map (fun v => v.1.g.eff) = .ok [.out [65]] := by
  refine ⟨?_, by krfl, by krfl⟩
  unfold Looks Defunge.Typed
  decide +kernel

/-- **Looking at a program after an IP has ended is undefined**: `t` makes a second IP, which goes the other way and ends at `@`. Its runner has been deleted, but not the pointer to it, and `l`
follows the pointer. Without the debugger the program is fine. -/
theorem C113_undefined_after_an_end : (∀ x ∈ inputLines (Defunge.lit "s\ns\ns\ns\nl\n"), Looks x) ∧
    ((exDebugged "tzz@" "s\ns\ns\ns\nl\n").turns 5).map (fun v => v.runners.length) = .ok 0 ∧
    (Debug.turns unwatched 5 (exDebugged "tzz@" "s\ns\ns\ns\nl\n") {}).map (fun _ => ()) = .error .dangling := by
  refine ⟨?_, by krfl, by krfl⟩
  unfold Looks Defunge.Typed
  decide +kernel

/-- The prompt at work: two steps, a look at the stack, a breakpoint, then on. -/
theorem exDebugged_ran : ∃ v, Debug.turns unwatched 4 (exDebugged "7:.@" "s\ns\np\nbp (3)\nr\nr\n") {} = .ok v ∧
    (v.1.g.eff, v.1.runners.length, v.1.g.inp, v.2.breaks.length) = ([.out [55, 32]], 0, [], 1) := ran_ok (f := fun v : Univ × Debug => (v.1.g.eff, v.1.runners.length, v.1.g.inp, v.2.breaks.length)) (by krfl)

/-- Where the program is after `k` turns. -/
def exAfter (inp : String) (k : Nat) : Univ :=
  match (exDebugged "7:.@" inp).turns k with
  | .ok v => v
  | .error _ => exDebugged "7:.@" inp

theorem exAfter_eq (inp : String) : (exDebugged "7:.@" inp).turns 0 = .ok (exAfter inp 0) ∧ (exDebugged "7:.@" inp).turns 1 = .ok (exAfter inp 1) ∧
    (exDebugged "7:.@" inp).turns 2 = .ok (exAfter inp 2) ∧ (exDebugged "7:.@" inp).turns 3 = .ok (exAfter inp 3) ∧ (exDebugged "7:.@" inp).turns 4 = .ok (exAfter inp 4) :=
  ⟨by krfl, by krfl, by krfl, by krfl, by krfl⟩

/-- The state in which the first IP will execute an instruction. -/
def Univ.atFront (v : Univ) : St :=
  match v.runners with
  | r :: rest => ⟨r, rest, v.g⟩
  | [] => ⟨{}, [], v.g⟩

theorem exAfter_deaf (inp : String) : Deaf (exAfter inp 0).atFront ∧ Deaf (exAfter inp 1).atFront ∧ Deaf (exAfter inp 2).atFront ∧ Deaf (exAfter inp 3).atFront :=
  ⟨fun l => by krfl, fun l => by krfl, fun l => by krfl, fun l => by krfl⟩

theorem exAfter_one (inp : String) : (oneRound (exAfter inp 0).atFront).map Prod.fst = .ok .none ∧ (oneRound (exAfter inp 1).atFront).map Prod.fst = .ok .none ∧
    (oneRound (exAfter inp 2).atFront).map Prod.fst = .ok .none ∧ (oneRound (exAfter inp 3).atFront).map Prod.fst = .ok .none :=
  ⟨by krfl, by krfl, by krfl, by krfl⟩

theorem exAfter_done (inp : String) : (exAfter inp 4).runners = [] := by krfl

theorem turns_empty {u : Univ} (h : u.runners = []) : ∀ k, u.turns k = .ok u
  | 0 => rfl
  | k + 1 => by
    have : u.turn = .ok u := by unfold Univ.turn; rw [h]
    unfold Univ.turns
    rw [this]
    exact turns_empty h k

theorem turns_later {u v : Univ} : ∀ (j k : Nat), u.turns j = .ok v → u.turns (j + k) = v.turns k
  | 0, k, h => by cases h; rw [Nat.zero_add]
  | j + 1, k, h => by
    rw [Nat.succ_add, Univ.turns]
    rw [Univ.turns] at h
    split at h
    · exact nomatch h
    · rename_i u1 h1
      exact turns_later j k h

theorem DuringTick.only {s t : St} (h : (oneRound s).map Prod.fst = .ok .none) (ht : DuringTick s t) : t = s := by
  cases ht with
  | here => rfl
  | next h1 _ => rw [h1] at h; exact nomatch (Except.ok.inj h)

/-- The program does not read, whatever there is to read. -/
theorem exDebugged_deaf (inp : String) (s : St) (hs : (exDebugged "7:.@" inp).PassesThrough s) : Deaf s := by
  obtain ⟨k, v, r, rest, hv, hr, _, hw⟩ := hs
  obtain ⟨e0, e1, e2, e3, e4⟩ := exAfter_eq inp
  obtain ⟨d0, d1, d2, d3⟩ := exAfter_deaf inp
  obtain ⟨o0, o1, o2, o3⟩ := exAfter_one inp
  have key : ∀ {w : Univ}, v = w → (oneRound w.atFront).map Prod.fst = .ok .none → Deaf w.atFront → Deaf s := by
    rintro w rfl ho hd
    have hf : v.atFront = ⟨r, rest, v.g⟩ := by unfold Univ.atFront; rw [hr]
    rw [hf] at ho hd
    rw [DuringTick.only ho hw]
    exact hd
  match k, hv with
  | 0, hv => exact key (Except.ok.inj (hv.symm.trans e0)) o0 d0
  | 1, hv => exact key (Except.ok.inj (hv.symm.trans e1)) o1 d1
  | 2, hv => exact key (Except.ok.inj (hv.symm.trans e2)) o2 d2
  | 3, hv => exact key (Except.ok.inj (hv.symm.trans e3)) o3 d3
  | k + 4, hv =>
    rw [Nat.add_comm, turns_later 4 k e4, turns_empty (exAfter_done inp)] at hv
    rw [← Except.ok.inj hv, exAfter_done] at hr
    exact nomatch hr

/-- So the session above, with the input of the program as that of the prompt, did not change what the program does. -/
example : ∃ v, (exDebugged "7:.@" "s\ns\np\nbp (3)\nr\nr\n").turns 4 = .ok v ∧ v.g.eff = [.out [55, 32]] ∧ v.runners.length = 0 := by
  obtain ⟨⟨u', d'⟩, h, hv⟩ := exDebugged_ran
  obtain ⟨v, hk, e⟩ := C113_transparent_partial rfl (by unfold Looks Defunge.Typed; decide +kernel) (exDebugged_deaf _) h
  simp only [Prod.mk.injEq] at hv
  refine ⟨v, hk, ?_, ?_⟩
  · rw [← hv.1, e]; rfl
  · rw [← hv.2.1, e]; rfl

/-- With an input of its own for the prompt, also a program that reads could be debugged. -/
example : (Debug.turns unwatched 3 (exDebugged "~,@" "A") { shared := false, typed := [Defunge.lit "s", Defunge.lit "p", Defunge.lit "r"] }).map (fun v => v.1.g.eff) =
      .ok [.out [65]] ∧ ((exDebugged "~,@" "A").turns 3).map (fun v => v.g.eff) = .ok [.out [65]] := by
  have h : ∃ v, Debug.turns unwatched 3 (exDebugged "~,@" "A") { shared := false, typed := [Defunge.lit "s", Defunge.lit "p", Defunge.lit "r"] } = .ok v ∧ v.1.g.eff = [.out [65]] :=
    ran_ok (f := fun v : Univ × Debug => v.1.g.eff) (by krfl)
  obtain ⟨⟨u', d'⟩, h, hv⟩ := h
  have := C113_own_input rfl (by unfold Looks Defunge.Typed; decide +kernel) h
  rw [h, this]
  exact ⟨congrArg Except.ok hv, congrArg Except.ok hv⟩

/-- Enough lines of `r` bring `7:.@` to its end. -/
example : ∃ N, ∀ n ≥ N, ∃ d', Debug.turns unwatched 4 (exDebugged "7:.@" "") { shared := false, typed := List.replicate n (Defunge.lit "r") } = .ok (exAfter "" 4, d') := by
  obtain ⟨N, h⟩ := C113_runs 4 (exAfter_eq "").2.2.2.2
  exact ⟨N, fun n hn => h _ rfl n hn rfl⟩

/-- Without any line it does not begin. -/
example (k : Nat) : Debug.turns unwatched (k + 1) (exDebugged "7:.@" "") {} = .error .fuel :=
  C113_diverges_without_input _ (r := newRunner _ 0 _ _) (rest := []) rfl rfl rfl rfl rfl rfl k

/-- Without debug mode it runs. -/
example : (Debug.turns unwatched 4 (exDebugged "7:.@" "") { on := false }).map Prod.fst = .ok (exAfter "" 4) :=
  (C113_off 4 rfl).1.trans (exAfter_eq "").2.2.2.2

end Funge
