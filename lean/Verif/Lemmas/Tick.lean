import Verif.Lemmas.Path
import Verif.Lemmas.Sems
/-!
Ticks: what one tick does, given what the instruction does; string mode.
-/
namespace Funge
open Exec IP

/-- `n` ticks of a lone runner. -/
def ticks : Nat → Exec Unit
  | 0 => pure ()
  | n + 1 => do
    tick
    ticks n

theorem tickLoop_none {s s1 : St} {k : Nat} {ip' : IP} (h : execute s.g.fuel (s.g.field.get s.cur.ip.pos) s = .ok (.none, s1))
    (hip : s1.cur.ip.next s1.g.cfg.dims s1.g.cfg.topo s1.g.field = .ok ip') : tickLoop (k + 1) s = .ok ((), s1.setIP ip') := by
  rw [tickLoop, bind_ok (ipGet_run s), bind_ok (getFuel_run s), bind_ok h]
  show (ipNext >>= _) s1 = _
  rw [bind_ok (ipNext_run hip)]; rfl

theorem tickLoop_skip {s s1 : St} {k : Nat} {ip' : IP} (h : execute s.g.fuel (s.g.field.get s.cur.ip.pos) s = .ok (.skip, s1))
    (hip : s1.cur.ip.next s1.g.cfg.dims s1.g.cfg.topo s1.g.field = .ok ip') : tickLoop (k + 1) s = tickLoop k (s1.setIP ip') := by
  rw [tickLoop, bind_ok (ipGet_run s), bind_ok (getFuel_run s), bind_ok h]
  show (ipNext >>= _) s1 = _
  rw [bind_ok (ipNext_run hip)]; rfl

theorem tick_none {s s1 : St} {ip' : IP} (hf : 0 < s.g.fuel) (h : execute s.g.fuel (s.g.field.get s.cur.ip.pos) s = .ok (.none, s1))
    (hip : s1.cur.ip.next s1.g.cfg.dims s1.g.cfg.topo s1.g.field = .ok ip') : tick s = .ok ((), s1.setIP ip') := by
  obtain ⟨k, hk⟩ : ∃ k, s.g.fuel = k + 1 := ⟨s.g.fuel - 1, by omega⟩
  rw [tick, bind_ok (getFuel_run s)]
  have := tickLoop_none (k := k) h hip
  rw [hk]; exact this

/-- The same state, in or out of string mode, with the given terminator and previous character. -/
def St.setStr (s : St) (on : Bool) (q p : Int) : St := { s with cur := { s.cur with inString := on, strEnd := q, strPrev := p } }

@[simp] theorem setStr_g (s : St) (a b c) : (s.setStr a b c).g = s.g := rfl
@[simp] theorem setStr_ip (s : St) (a b c) : (s.setStr a b c).cur.ip = s.cur.ip := rfl
@[simp] theorem setStr_strats (s : St) (a b c) : (s.setStr a b c).cur.strats = s.cur.strats := rfl
theorem lifo_setStr {s : St} (h : s.Lifo) (a b c) : (s.setStr a b c).Lifo := h

/-- The runner's first strategy is one of the Funge strategies, which push a value as it is. -/
def St.PushesInts (s : St) : Prop := ∃ st t, s.cur.strats = st :: t ∧ st ≠ .fish ∧ st ≠ .starfish

theorem runnerPush_run {s : St} (h : s.PushesInts) (v : Int) : runnerPush v s = pushTop v s := by
  obtain ⟨st, t, h1, h2, h3⟩ := h
  unfold runnerPush
  rw [h1]
  cases st <;> first | rfl | contradiction

/-- The state at step `i` of a text: IP `ip`, values `l` on the top stack. -/
def St.inText (s : St) (q p : Int) (ip : IP) (l : List Int) (n : Nat) : St := ((s.setStr true q p).setIP ip).setItems l n

theorem inText_ip (s : St) (q p ip l n) : (s.inText q p ip l n).cur.ip = ip := rfl
theorem inText_g (s : St) (q p ip l n) : (s.inText q p ip l n).g = s.g := rfl

theorem inText_push {s : St} (h : s.Lifo) (hp : s.PushesInts) (q p ip l n) (v : Int) :
    runnerPush v (s.inText q p ip l n) = .ok ((), s.inText q p ip (v :: l) (n + 1)) := by
  rw [runnerPush_run (s := s.inText q p ip l n) hp]
  exact pushTop_run (s := (s.setStr true q p).setIP ip) h l n v

/-- At the terminator. -/
theorem execString_end {s : St} (q p ip l n) :
    execString q (s.inText q p ip l n) = .ok (.none, ((s.setStr false q 0).setIP ip).setItems l n) := by
  rw [execString, bind_ok (get_run _)]
  show (if q = q then _ else _ : Exec Err) _ = _
  rw [if_pos rfl]; rfl

theorem execute_inText {s : St} (q p ip l n) {f : Nat} (hf : 0 < f) (c : Int) :
    execute f c (s.inText q p ip l n) = execString c (s.inText q p ip l n) := by
  obtain ⟨k, rfl⟩ : ∃ k, f = k + 1 := ⟨f - 1, by omega⟩
  rfl

theorem execString_multispace {s : St} (h : s.Lifo) (hp : s.PushesInts) (hst : s.g.cfg.strings = .multispace) (q p ip l n) {c : Int}
    (hc : c ≠ q) : execString c (s.inText q p ip l n) = .ok (.none, s.inText q p ip (c :: l) (n + 1)) := by
  rw [execString, bind_ok (get_run _)]
  show (if c = q then _ else _ : Exec Err) _ = _
  rw [if_neg hc]
  show (match s.g.cfg.strings with
    | .multispace => _
    | .sgml => _
    | .c => _ : Exec Err) _ = _
  rw [hst]
  show (runnerPush c >>= _) _ = _
  rw [bind_ok (inText_push h hp q p ip l n c)]; rfl

theorem isSpace_run {x : Int} (h : 0 ≤ x ∧ x ≤ 255) (s : St) : isSpace x s = .ok (isSpaceByte x, s) := by
  have hi : toInt x = x := by unfold toInt; rw [Int.bmod_def]; split <;> omega
  unfold isSpace
  rw [hi, if_pos (by omega)]; rfl

theorem execString_sgml {s : St} (h : s.Lifo) (hp : s.PushesInts) (hst : s.g.cfg.strings = .sgml) (q p ip l n) {c : Int}
    (hc : c ≠ q) (hr : 0 ≤ c ∧ c ≤ 255) (hpr : 0 ≤ p ∧ p ≤ 255) :
    execString c (s.inText q p ip l n) = if isSpaceByte c && isSpaceByte p then .ok (.skip, s.inText q p ip l n)
      else .ok (.none, s.inText q c ip (c :: l) (n + 1)) := by
  rw [execString, bind_ok (get_run _)]
  show (if c = q then _ else _ : Exec Err) _ = _
  rw [if_neg hc]
  show (match s.g.cfg.strings with
    | .multispace => _
    | .sgml => _
    | .c => _ : Exec Err) _ = _
  rw [hst]
  show execSGML c _ = _
  rw [execSGML, bind_ok (isSpace_run hr _), bind_ok (get_run _)]
  have h2 : (if isSpaceByte c then isSpace (s.inText q p ip l n).cur.strPrev else pure false : Exec Bool) (s.inText q p ip l n) =
      .ok (isSpaceByte c && isSpaceByte p, s.inText q p ip l n) := by
    cases isSpaceByte c with
    | false => rfl
    | true => exact isSpace_run hpr _
  rw [bind_ok h2]
  cases isSpaceByte c && isSpaceByte p with
  | true => rfl
  | false =>
    show (runnerPush c >>= _) _ = _
    rw [bind_ok (inText_push h hp q p ip l n c)]; rfl

theorem execString_c_plain {s : St} (h : s.Lifo) (hp : s.PushesInts) (hst : s.g.cfg.strings = .c) (q p ip l n) {c : Int}
    (hc : c ≠ q) (hb : c ≠ 92) : execString c (s.inText q p ip l n) = .ok (.none, s.inText q p ip (c :: l) (n + 1)) := by
  rw [execString, bind_ok (get_run _)]
  show (if c = q then _ else _ : Exec Err) _ = _
  rw [if_neg hc]
  show (match s.g.cfg.strings with
    | .multispace => _
    | .sgml => _
    | .c => _ : Exec Err) _ = _
  rw [hst]
  show execC c _ = _
  rw [execC, if_neg hb]
  show (runnerPush c >>= _) _ = _
  rw [bind_ok (inText_push h hp q p ip l n c)]; rfl

theorem execString_c_escape {s : St} (h : s.Lifo) (hp : s.PushesInts) (hst : s.g.cfg.strings = .c) (q p ip l n) {ip' : IP}
    (hq : q ≠ 92) (hip : ip.next s.g.cfg.dims s.g.cfg.topo s.g.field = .ok ip') :
    execString 92 (s.inText q p ip l n) = .ok (.none, s.inText q p ip' (escapeCode (s.g.field.get ip'.pos) :: l) (n + 1)) := by
  rw [execString, bind_ok (get_run _)]
  show (if 92 = q then _ else _ : Exec Err) _ = _
  rw [if_neg (Ne.symm hq)]
  show (match s.g.cfg.strings with
    | .multispace => _
    | .sgml => _
    | .c => _ : Exec Err) _ = _
  rw [hst]
  show execC 92 _ = _
  rw [execC, if_pos rfl]
  show (ipNext >>= _) _ = _
  rw [bind_ok (ipNext_run (s := s.inText q p ip l n) hip), bind_ok (ipGet_run _)]
  have h2 : (s.inText q p ip l n).setIP ip' = s.inText q p ip' l n := rfl
  rw [h2, inText_ip, inText_g, bind_ok (inText_push h hp q p ip' l n _)]; rfl

/-- A Befunge-98 program of the given rows, its IP just created by `createRunner`. For examples. -/
def machineWith (cfg : Cfg) (rows : List (List Int)) : St :=
  { cur := newRunner cfg 0 (Vec.ofList [0, 0]) (Vec.ofList [1, 0])
    g := { flt := exFloat
           cfg := cfg
           fuel := 100
           field := rows.zipIdx.foldl (fun f r => r.1.zipIdx.foldl (fun f p => f.put (Vec.ofList [p.2, r.2]) p.1) f) (Field.new 2 false) } }

/-- A Befunge-98 program of one row. For examples. -/
def machine (cells : List Int) : St := machineWith { dims := 2, standard := 98 } [cells, [64]]

/-- The stack after `n` ticks. -/
def stackAfter (s : St) (n : Nat) : Option (List Int) :=
  match ticks n s with
  | .ok (_, s') => some s'.items
  | .error _ => none

end Funge
