import Verif.Model.Mvrs
import Verif.Lemmas.EngineRun
/-
What turns of several universes can do at all: `MEngine R` lists the elementary changes; a relation closed under them holds between the states before and after
every turn of every universe.
-/
namespace Funge
open Exec MExec

/-- A relation that holds between the states of the multiverse before and after. -/
def MKeeps {α : Type} (R : Multi → Multi → Prop) (m : MExec α) : Prop := ∀ w a w', m w = .ok (a, w') → R w w'

/-- The multiverse after the IP has gone to the universe `u`. -/
def Multi.landed (w : Multi) (u : Uni) : Multi where
  st := {
    cur := { w.st.cur with
      ss := w.st.cur.ss.setMode u.cfg.mode
      home := if w.st.cur.home.getD w.name = u.cfg.name then none else some (w.st.cur.home.getD w.name) }
    rest := u.runners
    g := w.st.g.enter u }
  others := w.st.uni w.st.rest :: w.others.filter (·.cfg.name != u.cfg.name)

/-- The multiverse with one more universe. -/
def Multi.grown (w : Multi) (cfg : Cfg) : Multi := { w with others := w.others ++ [{ field := Field.new cfg.dims false, cfg := cfg }] }

/-- The multiverse with another field in the present universe. -/
def Multi.sown (w : Multi) (f : Field) : Multi := { w with st := { w.st with g := { w.st.g with field := f } } }

/-- What MVRS adds to the elementary changes. -/
structure Travels (R : Multi → Multi → Prop) : Prop where
  create : ∀ w cfg, w.taken cfg.name = false → R w (w.grown cfg)
  transfer : ∀ w name u, w.name ≠ name → w.find name = some u → R w (w.landed u)
  afar : ∀ w name (f : Field → Field), R w (w.change name fun u => { u with field := f u.field })

/-- A relation between states of the multiverse that contains every elementary change; `L` is what it says of changes within one universe. -/
structure MEngine (L : St → St → Prop) (R : Multi → Multi → Prop) : Prop where
  refl : ∀ w, R w w
  trans : ∀ u v w, R u v → R v w → R u w
  engine : Engine L
  touch : Others L
  dirs : Dirs L
  local' : ∀ s s' o, L s s' → R ⟨s, o⟩ ⟨s', o⟩
  field : ∀ w f, R w (w.sown f)
  home : ∀ w name (f : Field → Field), w.st.cur.home = some name → R w (w.change name fun u => { u with field := f u.field })
  travels : ∀ w i sem c, w.st.cur.getSem i = some sem → sem.op = .fing .MVRS c → Travels R ∨ ∀ w', R w w'

variable {L : St → St → Prop} {R : Multi → Multi → Prop}

theorem mbind_inv {α β : Type} {m : MExec α} {f : α → MExec β} {w w' : Multi} {b : β} (h : (m >>= f) w = .ok (b, w')) :
    ∃ a v, m w = .ok (a, v) ∧ f a v = .ok (b, w') := by
  change MExec.seq m f w = _ at h
  unfold MExec.seq at h
  split at h
  · exact ⟨_, _, by assumption, h⟩
  · cases h

theorem mkeeps_pure (E : MEngine L R) {α : Type} (a : α) : MKeeps R (pure a : MExec α) := by
  intro w b w' h; cases h; exact E.refl w

theorem mkeeps_bind (E : MEngine L R) {α β : Type} {m : MExec α} {f : α → MExec β} (hm : MKeeps R m) (hf : ∀ a, MKeeps R (f a)) : MKeeps R (m >>= f) := by
  intro w b w' h
  obtain ⟨a, v, h1, h2⟩ := mbind_inv h
  exact E.trans _ _ _ (hm _ _ _ h1) (hf _ _ _ _ h2)

theorem mkeeps_fault {α : Type} (e : Fault) : MKeeps R (MExec.fault e : MExec α) := by intro w b w' h; cases h

theorem mkeeps_here (E : MEngine L R) {α : Type} {m : Exec α} (h : Keeps L m) : MKeeps R (here m) := by
  intro w a w' e
  unfold here at e
  split at e
  · rename_i b s hs
    cases e
    exact E.local' _ _ _ (h _ _ _ hs)
  · cases e

theorem mkeeps_setField (E : MEngine L R) (f : Field → Field) : MKeeps R (mvSetField f) := by
  intro w a w' h; cases h; exact E.field w _

theorem mkeeps_copy (E : MEngine L R) (f : Field → Field) : MKeeps R (do mvSetField f; pure Err.none : MExec Err) :=
  mkeeps_bind E (mkeeps_setField E f) fun _ => mkeeps_pure E _

theorem mkeeps_range (E : MEngine L R) (v : Vec) : MKeeps R (mvRange v) := mkeeps_here E <| keeps_rangeOf E.engine.toEngineB.base _ _

theorem mkeeps_find (E : MEngine L R) {name : List Int} {same : MExec Err} {other : Uni → MExec Err} (h1 : MKeeps R same)
    (h2 : ∀ w u a w', w.name ≠ name → w.find name = some u → other u w = .ok (a, w') → R w w') : MKeeps R (mvFind name same other) := by
  intro w a w' h
  unfold mvFind at h
  split at h
  · exact h1 _ _ _ h
  · rename_i hn
    split at h
    · cases h; exact E.refl w
    · rename_i u hu
      exact h2 _ _ _ _ (by simpa using hn) hu h

theorem pickName_free {w : Multi} {name : List Int} {n : Nat} : ∀ {cur new : List Int}, w.pickName name n cur = .ok new → w.taken new = false := by
  induction n with
  | zero => intro cur new h; cases h
  | succ n ih =>
    intro cur new h
    unfold Multi.pickName at h
    split at h
    · exact ih h
    · rename_i ht
      cases h
      simpa using ht

theorem mkeeps_create (T : Travels R) (cfg : Cfg) : MKeeps R (mvCreate cfg) := by
  intro w a w' h
  unfold mvCreate at h
  split at h
  · cases h
  · rename_i name hn
    cases h
    exact T.create w { cfg with name := name } (pickName_free hn)

theorem mkeeps_popTop (E : MEngine L R) : MKeeps R (here popTop) := mkeeps_here E <| keeps_popTop E.engine.toEngineB.base
theorem mkeeps_popVector (E : MEngine L R) : MKeeps R (here popVector) := mkeeps_here E <| keeps_popVector E.engine.toEngineB.base
theorem mkeeps_popVector3 (E : MEngine L R) : MKeeps R (here popVector3) :=
  mkeeps_here E <| keeps_popVectorLoop E.engine.toEngineB.base (keeps_popTop E.engine.toEngineB.base) _ _
theorem mkeeps_popString (E : MEngine L R) : MKeeps R (here popString) := mkeeps_here E <| keeps_popString E.engine.toEngineB.base
theorem mkeeps_getCfg (E : MEngine L R) : MKeeps R (here getCfg) := mkeeps_here E <| keeps_getCfg E.engine.toEngineB.base
theorem mkeeps_push (E : MEngine L R) (v : Int) : MKeeps R (here (do pushTop v; pure Err.none)) :=
  mkeeps_here E <| keeps_bind E.engine.toEngineB.base (keeps_pushTop E.engine.toEngineB.base _) fun _ => keeps_pure E.engine.toEngineB.base _

theorem mkeeps_bang (E : MEngine L R) (T : Travels R) : MKeeps R mvrsBang := by
  unfold mvrsBang
  refine mkeeps_bind E (mkeeps_popTop E) fun dim => mkeeps_bind E (mkeeps_popTop E) fun lng => mkeeps_bind E (mkeeps_popTop E) fun flgs =>
    mkeeps_bind E (mkeeps_popString E) fun name => mkeeps_bind E (mkeeps_getCfg E) fun cfg => ?_
  dsimp only
  split
  · exact mkeeps_pure E _
  · split
    · exact mkeeps_bind E (mkeeps_create T _) fun _ => mkeeps_pure E _
    · exact mkeeps_bind E (mkeeps_create T _) fun _ => mkeeps_pure E _
    · exact mkeeps_bind E (mkeeps_create T _) fun _ => mkeeps_pure E _
    · exact mkeeps_pure E _

theorem mkeeps_count (E : MEngine L R) : MKeeps R mvrsCount := fun w a w' h => mkeeps_push E _ w a w' h

theorem mkeeps_from (E : MEngine L R) : MKeeps R mvrsFrom := by
  unfold mvrsFrom
  refine mkeeps_bind E (mkeeps_popVector E) fun size => mkeeps_bind E (mkeeps_popVector3 E) fun src => mkeeps_bind E (mkeeps_popVector E) fun dest =>
    mkeeps_bind E (mkeeps_popString E) fun name => mkeeps_find E ?_ fun w u a w' _ _ h => ?_
  · exact mkeeps_bind E (mkeeps_range E _) fun l => mkeeps_copy E _
  · exact (mkeeps_bind E (mkeeps_range E _) fun l => mkeeps_copy E _) _ _ _ h

theorem mkeeps_put (E : MEngine L R) (T : Travels R) : MKeeps R mvrsPut := by
  unfold mvrsPut
  refine mkeeps_bind E (mkeeps_popVector E) fun size => mkeeps_bind E (mkeeps_popVector E) fun src => mkeeps_bind E (mkeeps_popVector3 E) fun dest =>
    mkeeps_bind E (mkeeps_popString E) fun name => mkeeps_find E ?_ fun w u a w' _ _ h => ?_
  · exact mkeeps_bind E (mkeeps_range E _) fun l => mkeeps_copy E _
  · obtain ⟨l, v, h1, h2⟩ := mbind_inv h
    cases h2
    exact E.trans _ _ _ (mkeeps_range E _ _ _ _ h1) (T.afar v _ fun f => mvCopy src dest v.st.g.field l f)

theorem mkeeps_go (E : MEngine L R) (pos delta : Vec) : MKeeps R (do here (onIP (·.setPos pos)); here (setDelta delta); pure Err.none : MExec Err) :=
  mkeeps_bind E (mkeeps_here E (keeps_onIP E.engine.toEngineB.base _ fun _ => rfl)) fun _ =>
    mkeeps_bind E (mkeeps_here E (keeps_setDelta E.engine.toEngineB.base _)) fun _ => mkeeps_pure E _

theorem mkeeps_goto (E : MEngine L R) (T : Travels R) : MKeeps R mvrsGoto := by
  unfold mvrsGoto
  refine mkeeps_bind E (mkeeps_popVector3 E) fun delta => mkeeps_bind E (mkeeps_popVector3 E) fun pos => mkeeps_bind E (mkeeps_popString E) fun name => ?_
  refine mkeeps_find E (mkeeps_go E _ _) fun w u a w' hn hu h => ?_
  obtain ⟨_, v, h1, h2⟩ := mbind_inv h
  cases h1
  exact E.trans _ _ _ (T.transfer w name u hn hu) (mkeeps_go E _ _ _ _ _ h2)

theorem mkeeps_jump (E : MEngine L R) (T : Travels R) : MKeeps R mvrsJump := by
  unfold mvrsJump
  refine mkeeps_bind E (mkeeps_popString E) fun name => mkeeps_find E (mkeeps_pure E _) fun w u a w' hn hu h => ?_
  obtain ⟨_, v, h1, h2⟩ := mbind_inv h
  cases h1
  cases h2
  exact T.transfer w name u hn hu

theorem mkeeps_mvrs (E : MEngine L R) (T : Travels R) (c : Int) : MKeeps R (mvrs c) := by
  unfold mvrs
  split
  · exact mkeeps_bang E T
  · exact mkeeps_count E
  · exact mkeeps_from E
  · exact mkeeps_goto E T
  · exact mkeeps_jump E T
  · refine mkeeps_here E ?_
    have B := E.engine.toEngineB.base
    unfold mvrsName
    keep B
  · exact mkeeps_put E T
  · exact mkeeps_pure E _

theorem mkeeps_get (E : MEngine L R) : MKeeps R mvGet := by
  unfold mvGet
  refine mkeeps_bind E (mkeeps_here E ?_) fun st => mkeeps_bind E (mkeeps_popVector E) fun v => fun w a w' h => ?_
  · have B := E.engine.toEngineB.base
    keep B
  · split at h
    · cases h
    · exact mkeeps_push E _ _ _ _ h

theorem mkeeps_mvPut (E : MEngine L R) : MKeeps R mvPut := by
  unfold mvPut
  refine mkeeps_bind E (mkeeps_here E ?_) fun st => mkeeps_bind E (mkeeps_popVector E) fun v => mkeeps_bind E (mkeeps_popTop E) fun x => fun w a w' h => ?_
  · have B := E.engine.toEngineB.base
    keep B
  · split at h
    · exact mkeeps_copy E _ _ _ _ h
    · rename_i n hh
      cases h
      exact E.home w n (fun f => f.put (v.add st) x) hh

theorem mkeeps_mvHere (E : MEngine L R) : MKeeps R mvHere := by
  intro w a w' h
  unfold mvHere at h
  split at h
  · cases h
  · cases h; exact E.refl w

theorem mkeeps_mvIterRun (E : MEngine L R) {exec : Int → MExec Err} (h : ∀ c, MKeeps R (exec c)) (c : Int) (n : Nat) : MKeeps R (mvIterRun exec c n) := by
  induction n with
  | zero => exact mkeeps_pure E _
  | succ n ih => exact mkeeps_bind E (h c) fun _ => ih

theorem mkeeps_mvIterate (E : MEngine L R) {exec : Int → MExec Err} (h : ∀ c, MKeeps R (exec c)) : MKeeps R (mvIterate exec) := by
  have B := E.engine.toEngineB.base
  unfold mvIterate
  refine mkeeps_bind E (mkeeps_here E (by keep B)) fun v => mkeeps_bind E (mkeeps_here E (keeps_ipNext B)) fun _ => mkeeps_bind E (mkeeps_mvHere E) fun c =>
    mkeeps_bind E (mkeeps_here E (by keep B)) fun n => mkeeps_bind E (mkeeps_here E (keeps_iterSearch B _ _)) fun c =>
    mkeeps_bind E (mkeeps_here E (by keep B)) fun _ => mkeeps_bind E (mkeeps_popTop E) fun x => mkeeps_bind E (mkeeps_mvIterRun E h _ _) fun _ =>
    mkeeps_bind E (mkeeps_here E (by keep B)) fun _ => mkeeps_pure E _

theorem mkeeps_mvAtHome (E : MEngine L R) {m : Exec Err} (hm : Keeps L m) : MKeeps R (mvAtHome m) := by
  intro w a w' h
  unfold mvAtHome at h
  split at h
  · exact mkeeps_here E hm _ _ _ h
  · rename_i n hn
    split at h
    · cases h
    · rename_i u hu
      split at h
      · cases h
      · rename_i e s he
        cases h
        have h1 := E.home w n (fun _ => s.g.field) hn
        have h2 := E.field (w.change n fun v => { v with field := s.g.field }) u.field
        have h3 := E.local' _ _ (w.change n fun v => { v with field := s.g.field }).others (hm _ _ _ he)
        have h4 := E.field ⟨s, (w.change n fun v => { v with field := s.g.field }).others⟩ w.st.g.field
        exact E.trans _ _ _ h1 (E.trans _ _ _ h2 (E.trans _ _ _ h3 h4))

theorem mkeeps_executeIn (E : MEngine L R) (n : Nat) : ∀ i : Int, MKeeps R (mexecuteIn n i) := by
  induction n with
  | zero => exact fun i => mkeeps_fault _
  | succ n ih =>
    intro i w a w' h
    unfold mexecuteIn at h
    split at h
    · exact mkeeps_here E (keeps_execString E.engine.toEngineB.base i) _ _ _ h
    · split at h
      · cases h; exact E.refl w
      · rename_i sem hs
        split at h
        · cases h; exact E.refl w
        · unfold mrunOp at h
          split at h
          · rename_i c ho
            rcases E.travels w i sem c hs ho with T | hall
            · exact mkeeps_mvrs E T _ _ _ _ h
            · exact hall w'
          · exact mkeeps_get E _ _ _ h
          · exact mkeeps_mvPut E _ _ _ h
          · exact mkeeps_mvIterate E ih _ _ _ h
          · split at h
            · cases h
            · have K := fun op => keeps_runOp E.engine.toEngineB
                (fun j => keeps_execute E.engine (fits_of E.touch E.dirs) (w.st.g.fuel - 1) j) op (fun _ => E.touch) (fun _ => E.dirs) fun _ => E.engine.toTables
              split at h
              · exact mkeeps_mvAtHome E (K _) _ _ _ h
              · exact mkeeps_here E (K _) _ _ _ h

theorem mkeeps_execute (E : MEngine L R) (i : Int) : MKeeps R (mexecute i) := fun w _ _ h => mkeeps_executeIn E w.st.g.fuel i _ _ _ h

theorem mkeeps_tick (E : MEngine L R) : MKeeps R mtick := by
  have loop : ∀ n, MKeeps R (mtickLoop n) := by
    intro n
    induction n with
    | zero => exact mkeeps_fault _
    | succ n ih =>
      unfold mtickLoop
      refine mkeeps_bind E (mkeeps_here E (keeps_ipGet E.engine.toEngineB.base)) fun i => mkeeps_bind E (mkeeps_execute E i) fun e =>
        mkeeps_bind E (mkeeps_here E (keeps_afterExec E.engine.toEngineB.base e)) fun e => ?_
      dsimp only
      have step : MKeeps R (if e = .skip then mtickLoop n else pure () : MExec Unit) := by
        split
        · exact ih
        · exact mkeeps_pure E _
      split
      · exact mkeeps_bind E (mkeeps_here E (keeps_ipNext E.engine.toEngineB.base)) fun _ => step
      · exact step
  intro w a w' h
  exact loop _ _ _ _ h

/-- What a turn of a universe is: nothing, or a universe leaves the list with its first runner, which executes or has stopped, and the universe that runner is in then comes back. -/
theorem World.turn_cases {w w' : World} {name : List Int} (h : w.turn name = .ok w') :
    w' = w ∨ ∃ u r rest m, w.unis.find? (·.cfg.name == name) = some u ∧ u.runners = r :: rest ∧
      ((r.ip.stopped = true ∧ m = ⟨⟨r, rest, w.proc.enter u⟩, w.unis.filter (·.cfg.name != name)⟩) ∨
        ∃ a, mtick ⟨⟨r, rest, w.proc.enter u⟩, w.unis.filter (·.cfg.name != name)⟩ = .ok (a, m)) ∧
      w' = ⟨m.st.uni (if m.st.cur.ip.stopped then m.st.rest else m.st.rest ++ [m.st.cur]) :: m.others, m.st.g⟩ := by
  unfold World.turn at h
  split at h
  · cases h; exact .inl rfl
  · rename_i u hu
    split at h
    · cases h; exact .inl rfl
    · rename_i r rest hr
      dsimp only at h
      split at h
      · cases h
      · rename_i a m hm
        cases h
        refine .inr ⟨u, r, rest, m, hu, hr, ?_, rfl⟩
        split at hm
        · rename_i hs
          cases hm
          exact .inl ⟨hs, rfl⟩
        · exact .inr ⟨a, hm⟩

theorem World.turns_lift {Q : World → World → Prop} (refl : ∀ w, Q w w) (trans : ∀ u v w, Q u v → Q v w → Q u w)
    (turn : ∀ w w' name, w.turn name = .ok w' → Q w w') {l : List (List Int)} : ∀ {w w' : World}, w.turns l = .ok w' → Q w w' := by
  induction l with
  | nil => intro w w' h; cases h; exact refl w
  | cons n t ih =>
    intro w w' h
    unfold World.turns at h
    split at h
    · cases h
    · rename_i v hv
      exact trans _ _ _ (turn _ _ _ hv) (ih h)

end Funge
