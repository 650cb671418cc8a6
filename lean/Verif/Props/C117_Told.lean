import Verif.Lemmas.EvenRun
import Verif.Lemmas.Prog
import Verif.Props.C87_Space
/-
C117: what a user allows or forbids makes no difference to a program that does not ask for it.
-/
namespace Funge
open Exec

/-! ### C117 -/

/-- What `k` does before it executes anything: the character it will execute, and how often. -/
def iterStart : Exec (Int × Int) := do
  let v ← ipPos
  ipNext
  let c ← ipGet
  let n ← getFuel
  let c ← iterSearch n (toChar c)
  onIP (·.setPos v)
  let x ← popTop
  pure (c, toInt x)

/-- Executing the character `i` in the state `s` executes the instruction `op`: it is what the IP understands by `i`, or `i` is `k` and `op` is executed in one of its rounds.
(`n` bounds how deep `k`s are nested, as in `execute`.) -/
inductive Executes : Nat → Int → St → Op → Prop
  | itself {n : Nat} {i : Int} {s : St} {sem : Sem} : s.cur.inString = false → s.cur.getSem i = some sem → Executes (n + 1) i s sem.op
  | round {n : Nat} {i : Int} {s s1 s2 : St} {sem : Sem} {c k : Int} {j : Nat} {op : Op} : s.cur.inString = false → s.cur.getSem i = some sem → sem.op = .iterate →
      iterStart s = .ok ((c, k), s1) → j < k.toNat → iterRun (execute n) c j s1 = .ok ((), s2) → Executes n c s2 op → Executes (n + 1) i s op

/-- The instruction `op` is executed in the tick of the current IP of `s`: at the cell it is at, or at one it comes to over cells that take no time. -/
inductive InTick : St → Op → Prop
  | here {s : St} {op : Op} : Executes s.g.fuel (s.g.field.get s.cur.ip.pos) s op → InTick s op
  | later {s t t' : St} {op : Op} : (execute s.g.fuel (s.g.field.get s.cur.ip.pos) >>= afterExec) s = .ok (.skip, t) → ipNext t = .ok ((), t') → InTick t' op → InTick s op

/-- The universe with these. -/
def Switches.univ (W : Switches) (u : Univ) : Univ := ⟨u.runners, W.glob u.g⟩

namespace Tell

variable {W W' : Switches}

/-- `m` does the same with both, in `s`. -/
def EvenAt {α : Type} (W W' : Switches) (m : Exec α) (s : St) : Prop :=
  (∃ e, m (W.st s) = .error e ∧ m (W'.st s) = .error e) ∨ ∃ a t, m (W.st s) = .ok (a, W.st t) ∧ m (W'.st s) = .ok (a, W'.st t)

theorem at_bind {α β : Type} {m : Exec α} {f : α → Exec β} {s : St} (hm : EvenAt W W' m s)
    (hf : ∀ a t, m (W.st s) = .ok (a, W.st t) → EvenAt W W' (f a) t) : EvenAt W W' (m >>= f) s := by
  rcases hm with ⟨e, h1, h2⟩ | ⟨a, t, h1, h2⟩
  · exact .inl ⟨e, bind_error h1, bind_error h2⟩
  · rcases hf a t h1 with ⟨e, h3, h4⟩ | ⟨b, t2, h3, h4⟩
    · exact .inl ⟨e, (bind_ok h1).trans h3, (bind_ok h2).trans h4⟩
    · exact .inr ⟨b, t2, (bind_ok h1).trans h3, (bind_ok h2).trans h4⟩

theorem even_iterStart : Even W W' iterStart := by unfold iterStart; evenly

theorem bind_in {α β γ : Type} (m : Exec α) (f : α → Exec β) (g : β → Exec γ) : (m >>= f) >>= g = m >>= fun a => f a >>= g := by
  funext s
  show seq (seq m f) g s = seq m (fun a => seq (f a) g) s
  unfold seq
  cases m s <;> rfl

theorem iterate_start (exec : Int → Exec Err) : iIterate exec = iterStart >>= fun p => iterRun exec p.1 p.2.toNat >>= fun _ =>
    (if p.2 = 0 then ipNext else pure ()) >>= fun _ => pure Err.none := by
  have he : ∀ {α β : Type} (m : Exec α) {f f' : α → Exec β}, (∀ a, f a = f' a) → (m >>= f) = (m >>= f') := fun m _ _ h => by rw [funext h]
  unfold iIterate iterStart
  rw [bind_in]
  refine he _ fun v => ?_
  rw [bind_in]
  refine he _ fun _ => ?_
  rw [bind_in]
  refine he _ fun _ => ?_
  rw [bind_in]
  refine he _ fun _ => ?_
  rw [bind_in]
  refine he _ fun _ => ?_
  rw [bind_in]
  refine he _ fun _ => ?_
  rw [bind_in]
  refine he _ fun x => ?_
  show (iterRun exec _ (toInt x).toNat >>= _) = (iterRun exec _ (toInt x).toNat >>= _)
  refine he _ fun _ => ?_
  show (if toInt x = 0 then _ else _) = ((if toInt x = 0 then ipNext else pure ()) >>= fun _ => pure Err.none)
  split <;> rfl

theorem at_iterRun {exec : Int → Exec Err} {P : St → Op → Prop} {c : Int} (hexec : ∀ s, (∀ op, P (W.st s) op → op.Same W W') → EvenAt W W' (exec c) s) (m : Nat) :
    ∀ s, (∀ j s2, j < m → iterRun exec c j (W.st s) = .ok ((), s2) → ∀ op, P s2 op → op.Same W W') → EvenAt W W' (iterRun exec c m) s := by
  induction m with
  | zero => exact fun s _ => even_pure () s
  | succ m ih =>
    intro s h
    refine at_bind (hexec s fun op => h 0 _ (by omega) rfl op) fun e t he => ih t fun j s2 hj h2 => h (j + 1) s2 (by omega) ?_
    exact (bind_ok he).trans h2

theorem at_execute (n : Nat) : ∀ (i : Int) (s : St), (∀ op, Executes n i (W.st s) op → op.Same W W') → EvenAt W W' (execute n i) s := by
  induction n with
  | zero => exact fun i s _ => even_fault _ s
  | succ n ih =>
    intro i s h
    unfold EvenAt
    rw [execute]
    dsimp only
    cases hstr : s.cur.inString with
    | true =>
      rw [if_pos (show (W.st s).cur.inString = true from hstr), if_pos (show (W'.st s).cur.inString = true from hstr)]
      exact even_execString i s
    | false =>
      rw [if_neg (show ¬ (W.st s).cur.inString = true by rw [show (W.st s).cur.inString = false from hstr]; decide),
        if_neg (show ¬ (W'.st s).cur.inString = true by rw [show (W'.st s).cur.inString = false from hstr]; decide)]
      cases hg : s.cur.getSem i with
      | none =>
        have : ∀ V : Switches, execNormal (execute n) i (V.st s) = .ok (Err.unimp, V.st s) := fun V => by
          unfold execNormal
          rw [show (V.st s).cur.getSem i = none from hg]
        rw [this, this]
        exact even_pure Err.unimp s
      | some sem =>
        have : ∀ V : Switches, execNormal (execute n) i (V.st s) = (if (hasMode s.g.cfg.mode modeDive && !sem.movement) = true then pure Err.skip else runOp (execute n) sem.op) (V.st s) := fun V => by
          unfold execNormal
          rw [show (V.st s).cur.getSem i = some sem from hg]
          show (if (hasMode s.g.cfg.mode modeDive && !sem.movement) = true then _ else _) = _
          split <;> rfl
        rw [this, this]
        split
        · exact even_pure Err.skip s
        · by_cases hi : sem.op = .iterate
          · rw [hi]
            show EvenAt W W' (iIterate (execute n)) s
            rw [iterate_start]
            refine at_bind (even_iterStart s) fun p t hp => at_bind (at_iterRun (P := Executes n p.1) (fun s h => ih p.1 s h) _ t fun j s2 hj h2 op ho => ?_)
              fun _ t' _ => at_bind ?_ fun _ _ _ => even_pure _ _
            · exact h op (.round hstr hg hi hp hj h2 ho)
            · split
              · exact even_ipNext _
              · exact even_pure _ _
          · exact even_runOp hi (h sem.op (.itself hstr hg)) s

theorem tickLoop_tail (k : Nat) (s : St) : tickLoop (k + 1) s = ((execute s.g.fuel (s.g.field.get s.cur.ip.pos) >>= afterExec) >>= fun e =>
    (if e = .none ∨ e = .skip then ipNext else pure ()) >>= fun _ => if e = .skip then tickLoop k else pure ()) s := by
  rw [tickLoop, bind_ok (ipGet_run s), bind_ok (getFuel_run s), bind_in]
  have : ∀ {m : Exec Err} {f f' : Err → Exec Unit}, (∀ e, f e = f' e) → (m >>= f) s = (m >>= f') s := fun h => by rw [funext h]
  refine this fun e => ?_
  congr 1
  funext e'
  cases e' <;> rfl

theorem at_tickLoop (k : Nat) : ∀ s, (∀ op, InTick (W.st s) op → op.Same W W') → EvenAt W W' (tickLoop k) s := by
  induction k with
  | zero => exact fun s _ => even_fault _ s
  | succ k ih =>
    intro s h
    unfold EvenAt
    rw [tickLoop_tail, tickLoop_tail]
    show EvenAt W W' ((execute s.g.fuel (s.g.field.get s.cur.ip.pos) >>= afterExec) >>= fun e =>
      (if e = .none ∨ e = .skip then ipNext else pure ()) >>= fun _ => if e = .skip then tickLoop k else pure ()) s
    refine at_bind (at_bind (at_execute _ _ s fun op ho => h op (.here ho)) fun e t _ => even_afterExec e t) fun e t he => ?_
    cases e with
    | skip => exact at_bind (even_ipNext t) fun _ t' ht => ih t' fun op ho => h op (.later he ht ho)
    | none => exact at_bind (even_ipNext t) fun _ t' ht => even_pure () t'
    | _ => exact at_bind (even_pure () t) fun _ t' ht => even_pure () t'

theorem at_tick {s : St} (h : ∀ op, InTick (W.st s) op → op.Same W W') : EvenAt W W' tick s := at_tickLoop s.g.fuel s h

end Tell

/-- **C117.** Two runs of a universe that differ only in what the user says do the same, as long as no IP executes an instruction that looks at something in which they differ: after
`k` turns both have failed in the same way, or have come to the same universe but for what the user says. -/
theorem C117_does_the_same (W W' : Switches) (k : Nat) : ∀ {u : Univ}, (∀ j v r rest, j < k → (W.univ u).turns j = .ok v → v.runners = r :: rest → r.ip.stopped = false →
      ∀ op, InTick ⟨r, rest, v.g⟩ op → op.Same W W') →
    (∃ e, (W.univ u).turns k = .error e ∧ (W'.univ u).turns k = .error e) ∨ ∃ v, (W.univ u).turns k = .ok (W.univ v) ∧ (W'.univ u).turns k = .ok (W'.univ v) := by
  induction k with
  | zero => exact fun {u} _ => .inr ⟨u, rfl, rfl⟩
  | succ k ih =>
    intro u h
    have next : ∀ {v}, (W.univ u).turn = .ok (W.univ v) → (W'.univ u).turn = .ok (W'.univ v) →
        (∃ e, (W.univ u).turns (k + 1) = .error e ∧ (W'.univ u).turns (k + 1) = .error e) ∨
          ∃ v, (W.univ u).turns (k + 1) = .ok (W.univ v) ∧ (W'.univ u).turns (k + 1) = .ok (W'.univ v) := by
      intro v h1 h2
      rw [turns_cons h1, turns_cons h2]
      exact ih fun j w r rest hj hw => h (j + 1) w r rest (by omega) ((turns_cons h1 j).trans hw)
    have wrong : ∀ {e}, (W.univ u).turn = .error e → (W'.univ u).turn = .error e →
        (∃ e, (W.univ u).turns (k + 1) = .error e ∧ (W'.univ u).turns (k + 1) = .error e) ∨
          ∃ v, (W.univ u).turns (k + 1) = .ok (W.univ v) ∧ (W'.univ u).turns (k + 1) = .ok (W'.univ v) := by
      intro e h1 h2
      refine .inl ⟨e, ?_, ?_⟩
      · rw [Univ.turns, h1]
      · rw [Univ.turns, h2]
    cases hr : u.runners with
    | nil =>
      have : ∀ V : Switches, (V.univ u).turn = .ok (V.univ u) := fun V => by
        unfold Univ.turn
        rw [show (V.univ u).runners = [] from hr]
      exact next (this W) (this W')
    | cons r rest =>
      cases hs : r.ip.stopped with
      | true =>
        have : ∀ V : Switches, (V.univ u).turn = .ok (V.univ ⟨rest, u.g⟩) := fun V => by
          unfold Univ.turn
          rw [show (V.univ u).runners = r :: rest from hr]
          dsimp only
          rw [if_pos hs]
          dsimp only
          rw [if_pos hs]
          rfl
        exact next (this W) (this W')
      | false =>
        have key : ∀ V : Switches, (V.univ u).turn = (match tick (V.st ⟨r, rest, u.g⟩) with
            | .error e => .error e
            | .ok (_, s) => .ok ⟨if s.cur.ip.stopped then s.rest else s.rest ++ [s.cur], s.g⟩) := fun V => by
          unfold Univ.turn
          rw [show (V.univ u).runners = r :: rest from hr]
          dsimp only
          rw [if_neg (by rw [hs]; decide)]
          rfl
        have h0 := h 0 (W.univ u) r rest (by omega) rfl hr hs
        rcases Tell.at_tick (W := W) (W' := W') (s := ⟨r, rest, u.g⟩) h0 with ⟨e, e1, e2⟩ | ⟨_, t, e1, e2⟩
        · exact wrong (by rw [key, e1]) (by rw [key, e2])
        · exact next (v := ⟨if t.cur.ip.stopped then t.rest else t.rest ++ [t.cur], t.g⟩) (by rw [key, e1]; rfl) (by rw [key, e2]; rfl)

/-- **C117.** So a program does the same whatever it is told and allowed, as long as it does not ask. -/
theorem C117_program (W W' : Switches) (g : Glob) (cc : Bool) (text : List Int) (k : Nat)
    (h : ∀ j v r rest, j < k → (launch (W.glob g) cc text).turns j = .ok v → v.runners = r :: rest → r.ip.stopped = false → ∀ op, InTick ⟨r, rest, v.g⟩ op → op.Same W W') :
    (∃ e, (launch (W.glob g) cc text).turns k = .error e ∧ (launch (W'.glob g) cc text).turns k = .error e) ∨
    ∃ v, (launch (W.glob g) cc text).turns k = .ok (W.univ v) ∧ (launch (W'.glob g) cc text).turns k = .ok (W'.univ v) :=
  C117_does_the_same W W' k (u := launch g cc text) h


/-! ### Programs that can be seen not to ask -/

namespace Tell

theorem still_start {s s1 : St} {c k : Int} (hs : s.Safe87) (h : iterStart s = .ok ((c, k), s1)) : Still s s1 ∧ Met s1.g.field c := by
  unfold iterStart at h
  rw [bind_ok (ipPos_run _)] at h
  obtain ⟨_, s2, h1, h⟩ := bind_inv h
  have k1 := keeps_ipNext engine_still _ _ _ h1
  have q1 := k1.safe hs
  rw [bind_ok (ipGet_run _)] at h
  obtain ⟨_, s3, h2, h⟩ := bind_inv h
  have k2 := keeps_getFuel engine_still _ _ _ h2
  have q2 := k2.safe q1
  obtain ⟨c', s4, h3, h⟩ := bind_inv h
  have k3 := keeps_iterSearch engine_still _ _ _ _ _ h3
  have q3 := k3.safe q2
  have m3 : Met s4.g.field c' := iterSearch_met _ _ h3 q2 (k2.met q1 ⟨_, .inr rfl⟩)
  obtain ⟨_, s5, h4, h⟩ := bind_inv h
  have k4 := keeps_onIP engine_still (·.setPos s.cur.ip.pos) (fun _ => rfl) _ _ _ h4
  have q4 := k4.safe q3
  obtain ⟨x, s6, h5, h⟩ := bind_inv h
  have k5 := keeps_popTop engine_still _ _ _ h5
  cases h
  have T := engine_still.trans
  exact ⟨T _ _ _ k1 (T _ _ _ k2 (T _ _ _ k3 (T _ _ _ k4 k5))), k5.met q4 (k4.met q3 m3)⟩

/-- An IP that cannot change the space executes what it understands of what is in the space. -/
theorem executes_met {n : Nat} {i : Int} {s : St} {op : Op} (h : Executes n i s op) : s.Safe87 → Met s.g.field i →
    ∃ c sem, Met s.g.field c ∧ s.cur.getSem c = some sem ∧ sem.op = op := by
  induction h with
  | itself _ h2 => exact fun _ hi => ⟨_, _, hi, h2, rfl⟩
  | @round n i s s1 s2 sem c k j op h1 h2 h3 h4 h5 h6 h7 ih =>
    intro hs hi
    obtain ⟨k1, m1⟩ := still_start hs h4
    have q1 := k1.safe hs
    have k2 := iterRun_still (fun _ _ _ a b h => execute_still _ a b h) _ q1 m1 h6
    obtain ⟨c', sem', m2, g2, e2⟩ := ih (k2.safe q1) (k2.met q1 m1)
    have k3 := (engine_still.trans _ _ _ k1 k2) hs.1
    refine ⟨c', sem', by rw [← k3.2.1]; exact m2, ?_, e2⟩
    rw [← g2]
    unfold Runner.getSem
    rw [show s2.cur.sems = s.cur.sems from congrArg (fun x => x.1) k3.2.2.2.1]

theorem inTick_met {s : St} {op : Op} (h : InTick s op) : s.Safe87 → ∃ c sem, Met s.g.field c ∧ s.cur.getSem c = some sem ∧ sem.op = op := by
  induction h with
  | here h => exact fun hs => executes_met h hs ⟨_, .inl rfl⟩
  | @later s t t' op h1 h2 h3 ih =>
    intro hs
    obtain ⟨e, s1, e1, e2⟩ := bind_inv h1
    have k1 := execute_still _ hs ⟨_, .inl rfl⟩ e1
    have k2 := keeps_afterExec engine_still _ _ _ _ e2
    have k3 := keeps_ipNext engine_still _ _ _ h2
    have T := engine_still.trans
    have k := T _ _ _ k1 (T _ _ _ k2 k3)
    obtain ⟨c', sem', m2, g2, e3⟩ := ih (k.safe hs)
    have k4 := k hs.1
    refine ⟨c', sem', by rw [← k4.2.1]; exact m2, ?_, e3⟩
    rw [← g2]
    unfold Runner.getSem
    rw [show t'.cur.sems = s.cur.sems from congrArg (fun x => x.1) k4.2.2.2.1]

/-- What C87 says of the space, of the IPs too. -/
theorem turns_minds (n : Nat) {u u' : Univ} (hm : hasMode u.g.cfg.mode modeSwitch = false) (hr : ∀ r ∈ u.runners, r.Harmless u.g.field)
    (ht : u.g.cfg.concurrent = false ∨ ∀ r ∈ u.runners, r.AsStarted) (h : u.turns n = .ok u') :
    (hasMode u'.g.cfg.mode modeSwitch = false ∧ (u'.g.cfg.concurrent = false ∨ ∀ r ∈ u'.runners, r.AsStarted)) ∧ u'.g.field = u.g.field ∧
      ∀ q ∈ u'.runners, ∃ p ∈ u.runners, q.mind = p.mind := by
  induction n generalizing u with
  | zero => cases h; exact ⟨⟨hm, ht⟩, rfl, fun q hq => ⟨q, hq, rfl⟩⟩
  | succ n ih =>
    unfold Univ.turns at h
    split at h
    · cases h
    · rename_i u1 h1
      rcases turn_cases h1 with ⟨_, rfl⟩ | ⟨r, rest, hu, ⟨_, rfl⟩ | ⟨_, s, hs, rfl⟩⟩
      · exact ih hm hr ht h
      · have hrest : ∀ q ∈ rest, q ∈ u.runners := fun q hq => by rw [hu]; exact List.mem_cons_of_mem _ hq
        obtain ⟨a, b, c⟩ := ih (u := ⟨rest, u.g⟩) hm (fun q hq => hr q (hrest q hq)) (ht.imp id fun ht q hq => ht q (hrest q hq)) h
        exact ⟨a, b, fun q hq => by obtain ⟨p, hp, e⟩ := c q hq; exact ⟨p, hrest p hp, e⟩⟩
      · have hmem : r ∈ u.runners := by rw [hu]; exact List.mem_cons_self
        have hrest : ∀ q ∈ rest, q ∈ u.runners := fun q hq => by rw [hu]; exact List.mem_cons_of_mem _ hq
        have hsafe : St.Safe87 ⟨r, rest, u.g⟩ := ⟨⟨hm, ht.imp id fun ht => ht r hmem⟩, hr r hmem⟩
        obtain ⟨a1, a2, a3, a4, a5⟩ : St.Calm s ∧ _ := by
          unfold tick at hs
          obtain ⟨_, s2, h2, hs⟩ := bind_inv hs
          have k2 := keeps_getFuel engine_still _ _ _ h2
          exact engine_still.trans _ _ _ k2 (tickLoop_still _ (k2.safe hsafe) hs) hsafe.1
        have key : ∀ q ∈ s.univ.runners, ∃ p ∈ u.runners, q.mind = p.mind := by
          intro q hq
          have hq' : q ∈ s.rest ∨ q = s.cur := by
            unfold St.univ at hq
            dsimp only at hq
            split at hq
            · exact .inl hq
            · exact (List.mem_append.1 hq).imp id List.mem_singleton.1
          rcases hq' with hq | rfl
          · rcases a5 q hq with ⟨p, hp, e⟩ | e
            · exact ⟨p, hrest p hp, e⟩
            · exact ⟨r, hmem, e⟩
          · exact ⟨r, hmem, a4⟩
        have hf : s.univ.g.field = u.g.field := a2
        obtain ⟨a, b, c⟩ := ih (u := s.univ) a1.1 (fun q hq => by
          obtain ⟨p, hp, e⟩ := key q hq
          rw [hf]
          exact (hr p hp).congr e) (ht.imp (fun ht => a3.trans ht) fun ht q hq => by
          obtain ⟨p, hp, e⟩ := key q hq
          exact (ht p hp).congr e) h
        exact ⟨a, b.trans hf, fun q hq => by
          obtain ⟨p, hp, e⟩ := c q hq
          obtain ⟨p', hp', e'⟩ := key p hp
          exact ⟨p', hp', e.trans e'⟩⟩

end Tell

/-- **C117.** A program of any standard but *><> whose IP, as it is at the start, understands nothing in the space as an instruction that looks at what differs (nor as one that changes
the space or the meanings of instructions) does the same with both for ever. -/
theorem C117_by_its_text (W W' : Switches) {g : Glob} (hst : g.cfg.standard ≠ -2) (hm : hasMode g.cfg.mode modeSwitch = false) (cc : Bool) (text : List Int)
    (h : ∀ c, Met (Field.load g.cfg.dims cc text) c → ∀ sem, (newRunner g.cfg g.nextId (Vec.ofList [0]) (Vec.ofList [1])).getSem c = some sem →
      ¬ sem.op.stores ∧ ¬ sem.op.changesTable ∧ sem.op.Same W W') (k : Nat) :
    (∃ e, (launch (W.glob g) cc text).turns k = .error e ∧ (launch (W'.glob g) cc text).turns k = .error e) ∨
    ∃ v, (launch (W.glob g) cc text).turns k = .ok (W.univ v) ∧ (launch (W'.glob g) cc text).turns k = .ok (W'.univ v) := by
  refine C117_program W W' g cc text k fun j v r rest _ hv hr _ op ho => ?_
  have hall : ∀ q ∈ (launch (W.glob g) cc text).runners, q = newRunner g.cfg g.nextId (Vec.ofList [0]) (Vec.ofList [1]) := fun q hq => List.mem_singleton.1 hq
  have hharm : ∀ q ∈ (launch (W.glob g) cc text).runners, q.Harmless (launch (W.glob g) cc text).g.field := fun q hq c hc sem hs => by
    rw [hall q hq] at hs
    exact ⟨(h c hc sem hs).1, (h c hc sem hs).2.1⟩
  obtain ⟨⟨h1, h2⟩, h3, h4⟩ := Tell.turns_minds j (u := launch (W.glob g) cc text) hm hharm
    (.inr fun q hq => by rw [hall q hq]; exact newRunner_asStarted hst _ _ _) hv
  have hmem : r ∈ v.runners := by rw [hr]; exact List.mem_cons_self
  obtain ⟨p, hp, e⟩ := h4 r hmem
  obtain ⟨c, sem, m, gs, rfl⟩ := Tell.inTick_met ho ⟨⟨h1, h2.imp id fun h2 => h2 r hmem⟩, by
    show r.Harmless v.g.field
    rw [h3]; exact (hharm p hp).congr e⟩
  refine (h c ?_ sem ?_).2.2
  · have m' : Met v.g.field c := m
    rw [h3] at m'
    exact m'
  · rw [← hall p hp, ← gs]
    unfold Runner.getSem
    rw [show p.sems = r.sems from (congrArg (fun x => x.1) e).symm]

/-- `(`, `)`, `=`, `h`, `i`, `l`, `o`, `p`, `s`, `t` and `y`. -/
def askers : List Int := [40, 41, 61, 104, 105, 108, 111, 112, 115, 116, 121]

namespace Tell

/-- Instructions that may look. -/
def asks : Op → Bool
  | .high | .low | .thread | .fileIn | .fileOut | .sFile | .execute | .load | .unload | .sysInfo | .fing _ _ => true
  | _ => false

theorem same_quiet (W W' : Switches) {op : Op} (h : asks op = false) : op.Same W W' := by
  unfold Op.Same
  split <;> first | trivial | cases h

theorem newRunner_quiet {cfg : Cfg} (h : cfg.standard ≠ -2) (id : Nat) (pos delta : Vec) {c : Int} (hc : c ∉ askers) (hl : cfg.fingerprints = [] ∨ ¬ (65 ≤ c ∧ c ≤ 90))
    {sem : Sem} (hs : (newRunner cfg id pos delta).getSem c = some sem) : asks sem.op = false := by
  have key : ∀ (S : List Strat) (r : Runner), (∀ st ∈ S, st ≠ .starfish) → (∀ m ∈ r.sems c, asks m.op = false) →
      ∀ m ∈ (S.foldl (Strat.init cfg.fingerprints) r).sems c, asks m.op = false := by
    intro S
    induction S with
    | nil => intro r _ h; exact h
    | cons st t ih =>
      intro r hS hr
      refine ih _ (fun x hx => hS x (List.mem_cons_of_mem _ hx)) ?_
      have hpush : ∀ (l : List (Int × Sem)) (r : Runner), (∀ p ∈ l, p.1 ∈ askers ∨ asks p.2.op = false) →
          (∀ m ∈ r.sems c, asks m.op = false) → ∀ m ∈ (r.pushSems l).sems c, asks m.op = false := by
        intro l r h1 h2 m hm
        rw [pushSems_sems] at hm
        rcases List.mem_append.1 hm with hm | hm
        · exact (h1 (c, m) (mem_meanings_of hm)).resolve_left hc
        · exact h2 m hm
      have hload : ∀ m ∈ (r.loadFps cfg.fingerprints).sems c, asks m.op = false := by
        rcases hl with hl | hl
        · rw [hl]; exact hr
        · rw [loadFps_sems_other _ _ hl]; exact hr
      have hst := hS st List.mem_cons_self
      cases st
      case starfish => exact absurd rfl hst
      case une98 => exact hpush semsUne98 _ (by decide) hload
      case une93 => exact hpush semsUne93 r (by decide) hr
      case be93 => exact hpush semsBe93 r (by decide) hr
      case be98 => exact hpush semsBe98 r (by decide) hr
      case tre98 => exact hpush semsTre98 r (by decide) hr
      case fish => exact hpush semsFish r (by decide) hr
  refine key (strategiesFor cfg) { id := id, strats := strategiesFor cfg } ?_ (fun m hm => absurd hm (by simp)) sem ?_
  · unfold strategiesFor
    repeat' split
    all_goals first | contradiction | (intro st hst; rintro rfl; simp at hst)
  · have : (newRunner cfg id pos delta).sems = ((strategiesFor cfg).foldl (Strat.init cfg.fingerprints) ({ id := id, strats := strategiesFor cfg } : Runner)).sems := by
      unfold newRunner
      dsimp only
      rw [notifyDelta_sems]
    unfold Runner.getSem at hs
    rw [this] at hs
    exact List.mem_of_mem_head? hs

end Tell

/-- **C117.** In particular a program without `(`, `)`, `=`, `h`, `i`, `l`, `o`, `p`, `s`, `t` and `y` (and without capital letters, if it starts with fingerprints loaded) does the same
whatever its name, its arguments and its environment are, and whatever it may do. -/
theorem C117_by_its_letters (W W' : Switches) {g : Glob} (hst : g.cfg.standard ≠ -2) (hm : hasMode g.cfg.mode modeSwitch = false) (cc : Bool) (text : List Int)
    (h : ∀ c, Met (Field.load g.cfg.dims cc text) c → c ∉ askers ∧ (g.cfg.fingerprints = [] ∨ ¬ (65 ≤ c ∧ c ≤ 90))) (k : Nat) :
    (∃ e, (launch (W.glob g) cc text).turns k = .error e ∧ (launch (W'.glob g) cc text).turns k = .error e) ∨
    ∃ v, (launch (W.glob g) cc text).turns k = .ok (W.univ v) ∧ (launch (W'.glob g) cc text).turns k = .ok (W'.univ v) := by
  refine C117_by_its_text W W' hst hm cc text (fun c hc sem hs => ?_) k
  obtain ⟨h1, h2⟩ := h c hc
  have hsub : c ∉ storers := fun hx => h1 ((by decide : ∀ x ∈ storers, x ∈ askers) c hx)
  obtain ⟨a, b⟩ := newRunner_harmless hst _ _ _ hsub h2 hs
  exact ⟨a, b, Tell.same_quiet W W' (Tell.newRunner_quiet hst _ _ _ h1 h2 hs)⟩

/-! ### Examples -/

/-- Everything is allowed. -/
def exFree : Switches := ⟨[], [], [], true, true, true, true, false⟩
/-- Nothing is; and the program has a name and an argument. -/
def exBound : Switches := ⟨[97], [[97], [98]], [[65, 61, 66]], false, false, false, false, true⟩

def exTold : Glob := { cfg := { dims := 2, standard := 98 }, flt := exFloat, fuel := 200, inp := [55, 32] }

/-- `&:12+*.7k1,@`: reads, computes, prints, repeats. -/
def exDeafText : List Int := [38, 58, 49, 50, 43, 42, 46, 55, 107, 49, 44, 64]

theorem exDeafText_met : ∀ c, Met (Field.load exTold.cfg.dims false exDeafText) c → c ∉ askers ∧ (exTold.cfg.fingerprints = [] ∨ ¬ (65 ≤ c ∧ c ≤ 90)) := by
  have all : ∀ c ∈ (Field.load exTold.cfg.dims false exDeafText).cells.map (·.2), c ∉ askers ∧ toChar c ∉ askers := by decide +kernel
  intro c ⟨v, hv⟩
  refine ⟨?_, .inl rfl⟩
  rcases get_stored (f := Field.load exTold.cfg.dims false exDeafText) (by decide +kernel) v with h | h
  · rw [h] at hv; rcases hv with rfl | rfl <;> decide
  · rcases hv with rfl | rfl
    · exact (all _ h).1
    · exact (all _ h).2

example (k : Nat) : (∃ e, (launch (exFree.glob exTold) false exDeafText).turns k = .error e ∧ (launch (exBound.glob exTold) false exDeafText).turns k = .error e) ∨
    ∃ v, (launch (exFree.glob exTold) false exDeafText).turns k = .ok (exFree.univ v) ∧ (launch (exBound.glob exTold) false exDeafText).turns k = .ok (exBound.univ v) :=
  C117_by_its_letters exFree exBound (by decide) (by decide) false exDeafText exDeafText_met k

/-- What it prints, under whatever. -/
def toldPrints (W : Switches) (text : List Int) : Option (List Int × Nat) :=
  match (launch (W.glob exTold) false text).turns 40 with
  | .ok ⟨l, g⟩ => some (g.eff.flatMap fun e => match e with | .out l => l | _ => [], l.length)
  | .error _ => none

example : toldPrints exFree exDeafText = some ([50, 49, 32, 1], 0) ∧ toldPrints exBound exDeafText = some ([50, 49, 32, 1], 0) := by decide +kernel

/-- `@t`: that `t` is there does not matter if it is not executed. -/
example (k : Nat) : (∃ e, (launch (exFree.glob exTold) false [64, 116]).turns k = .error e ∧ (launch (exBound.glob exTold) false [64, 116]).turns k = .error e) ∨
    ∃ v, (launch (exFree.glob exTold) false [64, 116]).turns k = .ok (exFree.univ v) ∧ (launch (exBound.glob exTold) false [64, 116]).turns k = .ok (exBound.univ v) := by
  refine C117_program exFree exBound exTold false [64, 116] k fun j v r rest _ hv hr _ op ho => ?_
  have h1 : ∃ g, (launch (exFree.glob exTold) false [64, 116]).turns 1 = .ok ⟨[], g⟩ := by
    have h : ((launch (exFree.glob exTold) false [64, 116]).turns 1).toOption.map (·.runners.length) = some 0 := by decide +kernel
    cases hw : (launch (exFree.glob exTold) false [64, 116]).turns 1 with
    | error e => rw [hw] at h; cases h
    | ok w =>
      rw [hw] at h
      obtain ⟨l, g⟩ := w
      cases l with
      | nil => exact ⟨g, rfl⟩
      | cons _ _ => cases h
  cases j with
  | zero =>
    obtain rfl : launch (exFree.glob exTold) false [64, 116] = v := Except.ok.inj hv
    cases hr
    have hg : ∀ sem, (launch (exFree.glob exTold) false [64, 116]).runners.head?.bind (·.getSem 64) = some sem → sem.op = .stop := by
      intro sem hs
      have : (launch (exFree.glob exTold) false [64, 116]).runners.head?.bind (·.getSem 64) = some ⟨.stop, false⟩ := by krfl
      rw [this] at hs
      cases hs
      rfl
    have hcell : (launch (exFree.glob exTold) false [64, 116]).g.field.get (newRunner (exFree.glob exTold).cfg (exFree.glob exTold).nextId (Vec.ofList [0]) (Vec.ofList [1])).ip.pos = 64 := by decide +kernel
    cases ho with
    | here h =>
      rw [show (_ : Int) = 64 from hcell] at h
      cases h with
      | itself _ h2 => rw [hg _ h2]; trivial
      | round _ h2 h3 => rw [hg _ h2] at h3; cases h3
    | later h =>
      have h0 : ((execute 200 64 >>= afterExec) ⟨newRunner (exFree.glob exTold).cfg (exFree.glob exTold).nextId (Vec.ofList [0]) (Vec.ofList [1]), [],
        (launch (exFree.glob exTold) false [64, 116]).g⟩).toOption.map (·.1) = some .none := by decide +kernel
      rw [show (_ : Int) = 64 from hcell] at h
      rw [show (execute 200 64 >>= afterExec) _ = _ from h] at h0
      cases h0
  | succ j =>
    obtain ⟨g, h1⟩ := h1
    have : (launch (exFree.glob exTold) false [64, 116]).turns (j + 1) = .ok ⟨[], g⟩ := by
      rw [Nat.add_comm, turns_append 1 j h1, turns_over]
    rw [this] at hv
    cases hv
    cases hr

/-- If it is executed, it does: the one prints, the other turns back and prints nothing. -/
example : toldPrints exFree [116, 49, 46, 64] = some ([49, 32], 0) ∧ toldPrints exBound [116, 49, 46, 64] = some ([], 0) ∧ ¬ Op.Same exFree exBound .thread := by
  refine ⟨?_, ?_, ?_⟩
  · decide +kernel
  · decide +kernel
  · unfold Op.Same; decide

end Funge
