import Verif.Lemmas.EngineRun
/-
Two runs side by side. `T.st s` is the state `s` with other input to come, other answers to the questions not yet asked, something written before, and a larger
bound on loops. `Comm T m` says that `m` does the same in `T.st s` as in `s`, provided it leaves some of the input of `s` unread and asks no question
answered otherwise.
-/
namespace Funge
open Exec

/-- What is different in the second run. -/
structure Twist where
  /-- how much of the input is replaced -/
  cut : Nat
  /-- by what -/
  later : List Int
  /-- which answers stay as they are -/
  past : Nat → Bool
  orc : Nat → Int
  files : Nat → Option (List Int)
  dirs : Nat → Bool
  /-- effects before the effects -/
  before : List Eff
  /-- by how much the bound on loops is larger -/
  extra : Nat

namespace Twist
variable (T : Twist)

/-- What is shared, in the second run. -/
def glob (g : Glob) : Glob :=
  { g with
    inp := g.inp.take (g.inp.length - T.cut) ++ T.later
    orc := fun a => if T.past a then g.orc a else T.orc a
    files := fun a => if T.past a then g.files a else T.files a
    dirs := fun a => if T.past a then g.dirs a else T.dirs a
    eff := T.before ++ g.eff
    fuel := g.fuel + T.extra }

/-- The state in the second run. -/
def st (s : St) : St := ⟨s.cur, s.rest, T.glob s.g⟩

/-- Up to here the runs cannot be told apart: there is input left, and no question was asked that is answered otherwise. -/
def Good (s : St) : Prop := (T.cut = 0 ∧ T.later = [] ∨ T.cut < s.g.inp.length) ∧ ∀ a < s.g.asked, T.past a = true

/-- Nothing a program may ask for is different. -/
def Free : Prop := (T.cut = 0 ∧ T.later = []) ∧ ∀ a, T.past a = true

variable {T}
theorem Free.good (h : T.Free) (s : St) : T.Good s := ⟨.inl h.1, fun a _ => h.2 a⟩

variable (T)
theorem st_cur (s : St) : (T.st s).cur = s.cur := rfl
theorem st_rest (s : St) : (T.st s).rest = s.rest := rfl
theorem st_field (s : St) : (T.st s).g.field = s.g.field := rfl
theorem st_cfg (s : St) : (T.st s).g.cfg = s.g.cfg := rfl
theorem st_refc (s : St) : (T.st s).g.refc = s.g.refc := rfl
theorem st_flt (s : St) : (T.st s).g.flt = s.g.flt := rfl
theorem st_nextId (s : St) : (T.st s).g.nextId = s.g.nextId := rfl
end Twist

variable {T : Twist}

/-- `m'` does in the second run what `m` does in the first. -/
def Comm₂ {α : Type} (T : Twist) (m m' : Exec α) : Prop := ∀ s,
  (∀ a t, m s = .ok (a, t) → T.Good t → T.Good s ∧ m' (T.st s) = .ok (a, T.st t)) ∧
  (T.Free → ∀ e, m s = .error e → e ≠ .fuel → m' (T.st s) = .error e)

/-- `m` does the same in both runs. -/
def Comm {α : Type} (T : Twist) (m : Exec α) : Prop := Comm₂ T m m

theorem Comm.two {α : Type} {m : Exec α} (h : Comm T m) : Comm₂ T m m := h

theorem comm₂_bind {α β : Type} {m m' : Exec α} {f f' : α → Exec β} (hm : Comm₂ T m m') (hf : ∀ a, Comm₂ T (f a) (f' a)) :
    Comm₂ T (m >>= f) (m' >>= f') := by
  intro s
  obtain ⟨h1, h2⟩ := hm s
  refine ⟨fun b u h hu => ?_, fun hF e h he => ?_⟩
  · change seq m f s = _ at h
    change _ ∧ seq m' f' _ = _
    unfold seq at h ⊢
    split at h
    · rename_i a t ht
      obtain ⟨ht', h3⟩ := (hf a t).1 _ _ h hu
      obtain ⟨hs', h4⟩ := h1 _ _ ht ht'
      refine ⟨hs', ?_⟩
      rw [h4]
      exact h3
    · cases h
  · change seq m f s = _ at h
    change seq m' f' _ = _
    unfold seq at h ⊢
    split at h
    · rename_i a t ht
      rw [(h1 _ _ ht (hF.good t)).2]
      exact (hf a t).2 hF _ h he
    · rename_i e' h3
      cases h
      rw [h2 hF _ h3 he]

theorem comm_bind {α β : Type} {m : Exec α} {f : α → Exec β} (hm : Comm T m) (hf : ∀ a, Comm T (f a)) : Comm T (m >>= f) :=
  comm₂_bind hm hf

theorem comm_pure {α : Type} (a : α) : Comm T (pure a : Exec α) := fun s =>
  ⟨fun b t h ht => by cases h; exact ⟨ht, rfl⟩, fun _ e h => by cases h⟩

theorem comm₂_fuel {α : Type} {m : Exec α} : Comm₂ T (fault .fuel : Exec α) m := fun s =>
  ⟨fun b t h ht => (by cases h), fun _ e h he => by cases h; exact absurd rfl he⟩

theorem comm_fault {α : Type} (e : Fault) : Comm T (fault e : Exec α) := fun s =>
  ⟨fun b t h ht => (by cases h), fun _ e' h _ => by cases h; rfl⟩

theorem comm_lift {α : Type} (x : Except Fault α) : Comm T (lift x) := by
  cases x with
  | ok a => exact comm_pure a
  | error e => exact comm_fault e

/-- Looking at the state. -/
theorem comm_getbind {α : Type} {f : St → Exec α} (h : ∀ s, Comm₂ T (f s) (f (T.st s))) : Comm T (Exec.get >>= f) := fun s => h s s

/-- Looking at the bound. -/
theorem comm_getFuel {α : Type} {f : Nat → Exec α} (h : ∀ n n', n ≤ n' → Comm₂ T (f n) (f n')) : Comm T (getFuel >>= f) :=
  fun s => h s.g.fuel (s.g.fuel + T.extra) (Nat.le_add_right ..) s

/-- Changes that have nothing to do with what is different. -/
theorem comm_modify (f : St → St) (h : ∀ s, f (T.st s) = T.st (f s)) (hi : ∀ s, (f s).g.inp = s.g.inp) (ha : ∀ s, (f s).g.asked = s.g.asked) :
    Comm T (modify f) := fun s => by
  refine ⟨fun b t h' ht => ?_, fun _ e h' => by cases h'⟩
  cases h'
  refine ⟨?_, ?_⟩
  · unfold Twist.Good at ht ⊢
    rwa [hi, ha] at ht
  · show Except.ok ((), f (T.st s)) = _
    rw [h]

theorem comm_modCur (f : Runner → Runner) : Comm T (modCur f) := comm_modify _ (fun _ => rfl) (fun _ => rfl) fun _ => rfl
theorem comm_modG (f : Glob → Glob) (h : ∀ g, f (T.glob g) = T.glob (f g)) (hi : ∀ g, (f g).inp = g.inp) (ha : ∀ g, (f g).asked = g.asked) :
    Comm T (modG f) :=
  comm_modify _ (fun s => by show (⟨_, _, f (T.glob s.g)⟩ : St) = _; rw [h]; rfl) (fun _ => hi _) fun _ => ha _
theorem comm_onIP (f : IP → IP) : Comm T (onIP f) := comm_modCur _
theorem comm_emit (e : Eff) : Comm T (emit e) := by
  refine comm_modG _ (fun g => ?_) (fun _ => rfl) fun _ => rfl
  unfold Twist.glob
  rw [List.append_assoc]
theorem comm_fieldPut (v i) : Comm T (fieldPut v i) := comm_modG _ (fun _ => rfl) (fun _ => rfl) fun _ => rfl
theorem comm_ipPut (i) : Comm T (ipPut i) := comm_modify _ (fun _ => rfl) (fun _ => rfl) fun _ => rfl
theorem comm_killAll (c) : Comm T (killAll c) := comm_modify _ (fun _ => rfl) (fun _ => rfl) fun _ => rfl
theorem comm_setModeWord (c) : Comm T (setModeWord c) := comm_modify _ (fun _ => rfl) (fun _ => rfl) fun _ => rfl
theorem comm_universeSetMode (m) : Comm T (universeSetMode m) := fun s => comm_setModeWord (s.g.cfg.mode ||| m) s
theorem comm_universeClearMode (m) : Comm T (universeClearMode m) := fun s => comm_setModeWord (s.g.cfg.mode &&& (0xFFFFFFFF ^^^ m)) s
theorem comm_universeToggleMode (m) : Comm T (universeToggleMode m) := fun s => comm_setModeWord (s.g.cfg.mode ^^^ m) s
theorem comm_modG_if (c : Glob → Prop) [∀ g, Decidable (c g)] (f : Glob → Glob) (hc : ∀ g, c (T.glob g) ↔ c g) (h : ∀ g, f (T.glob g) = T.glob (f g))
    (hi : ∀ g, (f g).inp = g.inp) (ha : ∀ g, (f g).asked = g.asked) : Comm T (modG fun g => if c g then f g else g) := by
  refine comm_modG _ (fun g => ?_) (fun g => ?_) fun g => ?_
  · simp only [hc]; split
    · exact h g
    · rfl
  · split
    · exact hi g
    · rfl
  · split
    · exact ha g
    · rfl
theorem comm_growDims (n) : Comm T (growDims n) :=
  comm_modG_if (fun g => g.cfg.dims < n) (fun g => { g with cfg := { g.cfg with dims := n } }) (fun _ => Iff.rfl) (fun _ => rfl) (fun _ => rfl) fun _ => rfl
theorem comm_addBreakpoint (v : Vec) : Comm T (addBreakpoint v) :=
  comm_modG_if (fun _ => v.size > 0) (fun g => { g with breakpoints := setInsert g.breakpoints v }) (fun _ => Iff.rfl) (fun _ => rfl) (fun _ => rfl) fun _ => rfl
theorem comm_addWatchpoint (v : Vec) : Comm T (addWatchpoint v) :=
  comm_modG_if (fun _ => v.size > 0) (fun g => { g with watchpoints := setInsert g.watchpoints v }) (fun _ => Iff.rfl) (fun _ => rfl) (fun _ => rfl) fun _ => rfl

/-- Reading something that is not different. -/
theorem comm_look {α : Type} (f : St → α) (h : ∀ s, f (T.st s) = f s) : Comm T (fun s => .ok (f s, s) : Exec α) := fun s =>
  ⟨fun a t h' ht => by cases h'; exact ⟨ht, by show Except.ok (f (T.st s), _) = _; rw [h]⟩, fun _ e h' => by cases h'⟩
theorem comm_getDims : Comm T getDims := comm_look _ fun _ => rfl
theorem comm_getCfg : Comm T getCfg := comm_look _ fun _ => rfl
theorem comm_getFlt : Comm T getFlt := comm_look _ fun _ => rfl
theorem comm_getLng : Comm T getLng := comm_look _ fun _ => rfl
theorem comm_isMode (m) : Comm T (isMode m) := comm_look _ fun _ => rfl
theorem comm_numStacks : Comm T numStacks := comm_look _ fun _ => rfl
theorem comm_ipPos : Comm T ipPos := comm_look _ fun _ => rfl
theorem comm_ipDelta : Comm T ipDelta := comm_look _ fun _ => rfl
theorem comm_ipStorage : Comm T ipStorage := comm_look _ fun _ => rfl
theorem comm_ipGet : Comm T ipGet := comm_look _ fun _ => rfl
theorem comm_fieldGet (v) : Comm T (fieldGet v) := comm_look _ fun _ => rfl
theorem comm_subrTarget (v) : Comm T (subrTarget v) := comm_look _ fun _ => rfl

/-- A program that changes nothing that is different, and does not look at it. -/
theorem comm_of {α : Type} {m : Exec α} (h : ∀ s, (∃ a t, m s = .ok (a, t) ∧ m (T.st s) = .ok (a, T.st t) ∧ t.g.inp = s.g.inp ∧ t.g.asked = s.g.asked) ∨
    ∃ e, m s = .error e ∧ m (T.st s) = .error e) : Comm T m := fun s => by
  rcases h s with ⟨a, t, h1, h2, h3, h4⟩ | ⟨e, h1, h2⟩
  · refine ⟨fun b u h ht => ?_, fun _ e h => ?_⟩
    · rw [h1] at h
      cases h
      refine ⟨?_, h2⟩
      unfold Twist.Good at ht ⊢
      rwa [h3, h4] at ht
    · rw [h1] at h; cases h
  · refine ⟨fun b u h ht => ?_, fun _ e h _ => ?_⟩
    · rw [h1] at h; cases h
    · rw [h1] at h; cases h; exact h2

theorem comm_onStack {α : Type} (x) (f : Stack → α × Stack) : Comm T (onStack x f) := comm_of fun s => by
  unfold onStack
  simp only [T.st_cur]
  cases s.cur.ss.at' x with
  | error e => exact .inr ⟨e, rfl, rfl⟩
  | ok st => exact .inl ⟨_, _, rfl, rfl, rfl, rfl⟩
theorem comm_onTop {α : Type} (f : Stack → α × Stack) : Comm T (onTop f) := fun s => comm_onStack s.cur.ss.select f s
theorem comm_onSecond {α : Type} (f : Stack → α × Stack) : Comm T (onSecond f) := fun s => comm_onStack (s.cur.ss.select + 1) f s
theorem comm_popTop : Comm T popTop := comm_onTop _
theorem comm_popSecond : Comm T popSecond := comm_onSecond _
theorem comm_pushTop (v) : Comm T (pushTop v) := comm_onTop _
theorem comm_pushSecond (v) : Comm T (pushSecond v) := comm_onSecond _
theorem comm_sizeTop : Comm T sizeTop := comm_onTop _
theorem comm_sizeSecond : Comm T sizeSecond := comm_onSecond _
theorem comm_getTop (n) : Comm T (getTop n) := comm_onTop _
theorem comm_clearTop : Comm T clearTop := comm_onTop _
theorem comm_sizeAt (i) : Comm T (sizeAt i) := comm_onStack _ _
theorem comm_onStacks (f : StackStack → Except Fault StackStack) : Comm T (onStacks f) := comm_of fun s => by
  unfold onStacks
  simp only [T.st_cur]
  cases f s.cur.ss with
  | error e => exact .inr ⟨e, rfl, rfl⟩
  | ok st => exact .inl ⟨_, _, rfl, rfl, rfl, rfl⟩
theorem comm_siSelect (f) : Comm T (siSelect f) := fun s =>
  ⟨fun b t h ht => by cases h; exact ⟨ht, rfl⟩, fun _ e h => by cases h⟩
theorem comm_ipNext : Comm T ipNext := comm_of fun s => by
  unfold ipNext
  simp only [T.st_cur, T.st_cfg, T.st_field]
  cases s.cur.ip.next s.g.cfg.dims s.g.cfg.topo s.g.field with
  | error e => exact .inr ⟨e, rfl, rfl⟩
  | ok st => exact .inl ⟨_, _, rfl, rfl, rfl, rfl⟩
theorem comm_cloneCur : Comm T cloneCur := comm_of fun s => by
  have h : s.cur.clone (T.st s).g s.g.nextId = s.cur.clone s.g s.g.nextId := rfl
  unfold cloneCur
  simp only [T.st_cur, T.st_nextId, h]
  cases s.cur.clone s.g s.g.nextId with
  | error e => exact .inr ⟨e, rfl, rfl⟩
  | ok st => exact .inl ⟨_, _, rfl, rfl, rfl, rfl⟩
theorem comm_setDelta (v) : Comm T (setDelta v) := comm_bind (comm_isMode _) fun _ => comm_modCur _
theorem comm_runnerPush (n) : Comm T (runnerPush n) := fun s => by
  unfold runnerPush
  simp only [T.st_cur, T.st_flt]
  split
  · exact comm_pure () s
  all_goals exact comm_pushTop _ s
theorem comm_enterString (q) : Comm T (enterString q) := comm_modCur _

/-- Asking a question. -/
theorem comm_asking {α : Type} (f : Glob → Nat → α) (h : ∀ g a, T.past a = true → f (T.glob g) a = f g a) :
    Comm T (fun s => .ok (f s.g s.g.asked, { s with g := { s.g with asked := s.g.asked + 1 } }) : Exec α) := fun s => by
  refine ⟨fun b t h' ht => ?_, fun _ e h' => by cases h'⟩
  cases h'
  refine ⟨⟨ht.1, fun a ha => ht.2 a (Nat.lt_succ_of_lt ha)⟩, ?_⟩
  show Except.ok (f (T.glob s.g) s.g.asked, _) = _
  rw [h _ _ (ht.2 _ (Nat.lt_succ_self _))]
  rfl
theorem comm_ask : Comm T ask := comm_asking Glob.orc fun g a h => by show (if T.past a then _ else _) = _; rw [if_pos h]
theorem comm_askFile : Comm T askFile := comm_asking Glob.files fun g a h => by show (if T.past a then _ else _) = _; rw [if_pos h]
theorem comm_askDir : Comm T askDir := comm_asking Glob.dirs fun g a h => by show (if T.past a then _ else _) = _; rw [if_pos h]

/-- Taking something from the input. -/
def taking {α : Type} (f : List Int → Except Fault (α × List Int)) : Exec α := fun s =>
  match f s.g.inp with
  | .error e => .error e
  | .ok (a, r) => .ok (a, { s with g := { s.g with inp := r } })

theorem Twist.inp_same (h : T.cut = 0 ∧ T.later = []) (l : List Int) : l.take (l.length - T.cut) ++ T.later = l := by
  rw [h.1, h.2, List.append_nil, Nat.sub_zero, List.take_length]

/-- Taking something that ends before the input does. -/
theorem comm_taking {α : Type} (f : List Int → Except Fault (α × List Int))
    (h : ∀ l q a r, f (l ++ q) = .ok (a, r) → q.length < r.length → ∃ r', r = r' ++ q ∧ r' ≠ [] ∧ l ≠ [] ∧ ∀ e, f (l ++ e) = .ok (a, r' ++ e)) :
    Comm T (taking f) := fun s => by
  unfold taking
  refine ⟨fun b t h' ht => ?_, fun hF e h' _ => ?_⟩
  · split at h'
    · cases h'
    · rename_i a r hr
      cases h'
      show _ ∧ (match f (s.g.inp.take (s.g.inp.length - T.cut) ++ T.later) with | .error e => _ | .ok (a, r) => _) = _
      by_cases hT : T.cut = 0 ∧ T.later = []
      · refine ⟨⟨.inl hT, ht.2⟩, ?_⟩
        rw [T.inp_same hT, hr]
        unfold Twist.st Twist.glob
        simp only [T.inp_same hT]
      · have hr' : T.cut < r.length := ht.1.resolve_left hT
        -- the input is at least as long as what is left of it
        have hlen : T.cut < s.g.inp.length := by
          refine Nat.lt_of_not_le fun hle => ?_
          obtain ⟨r', hr1, _, hl, _⟩ := h [] s.g.inp b r hr (by omega)
          exact hl rfl
        have hsplit := List.take_append_drop (s.g.inp.length - T.cut) s.g.inp
        have hq : (s.g.inp.drop (s.g.inp.length - T.cut)).length = T.cut := by rw [List.length_drop]; omega
        obtain ⟨r', rfl, h2, h1, h3⟩ := h _ _ b r (hsplit.symm ▸ hr) (by omega)
        refine ⟨⟨.inr hlen, ht.2⟩, ?_⟩
        rw [h3]
        have : (r' ++ s.g.inp.drop (s.g.inp.length - T.cut)).take ((r' ++ s.g.inp.drop (s.g.inp.length - T.cut)).length - T.cut) = r' := by
          rw [List.length_append, hq, Nat.add_sub_cancel, List.take_left']
          rfl
        unfold Twist.st Twist.glob
        simp only [this]
  · have : (T.st s).g.inp = s.g.inp := T.inp_same hF.1 _
    rw [this]
    split at h'
    · exact h'
    · cases h'

/-- One character. -/
def takeChar : List Int → Except Fault (Option Int × List Int)
  | [] => .ok (none, [])
  | c :: t => .ok (some c, t)

theorem getChar_taking : getChar = taking takeChar := by
  funext s
  unfold getChar taking
  cases hi : s.g.inp with
  | cons c t => rfl
  | nil =>
    show Except.ok (_, s) = Except.ok (_, _)
    rw [← hi]

theorem comm_getChar : Comm T getChar := by
  rw [getChar_taking]
  refine comm_taking _ fun l q a r hl hr => ?_
  cases l with
  | nil =>
    rw [List.nil_append] at hl
    cases q with
    | nil => cases hl; exact absurd hr (Nat.lt_irrefl _)
    | cons c t => cases hl; exact absurd hr (by simp)
  | cons c t =>
    cases hl
    change q.length < (t ++ q).length at hr
    exact ⟨t, rfl, fun h => by subst h; simp at hr, by simp, fun e => rfl⟩

/-- The words of `dropWhile` and `takeWhile` when something is left. -/
theorem dropWhile_append_of {p : Int → Bool} {l : List Int} (h : l.dropWhile p ≠ []) (e : List Int) : (l ++ e).dropWhile p = l.dropWhile p ++ e := by
  induction l with
  | nil => exact absurd rfl h
  | cons c t ih =>
    rw [List.cons_append, List.dropWhile_cons, List.dropWhile_cons]
    rw [List.dropWhile_cons] at h
    split
    · rename_i hc; rw [if_pos hc] at h; exact ih h
    · rfl

theorem takeWhile_append_of {p : Int → Bool} {l : List Int} (h : l.dropWhile p ≠ []) (e : List Int) : (l ++ e).takeWhile p = l.takeWhile p := by
  induction l with
  | nil => exact absurd rfl h
  | cons c t ih =>
    rw [List.cons_append, List.takeWhile_cons, List.takeWhile_cons]
    rw [List.dropWhile_cons] at h
    split
    · rename_i hc; rw [if_pos hc] at h; rw [ih h]
    · rfl

theorem length_dropWhile_le (p : Int → Bool) (l : List Int) : (l.dropWhile p).length ≤ l.length := (List.dropWhile_sublist p).length_le

theorem dropWhile_ne_of {p : Int → Bool} {l q : List Int} (h : q.length < ((l ++ q).dropWhile p).length) : l.dropWhile p ≠ [] := by
  intro hl
  have : (l ++ q).dropWhile p = q.dropWhile p := by
    induction l with
    | nil => rfl
    | cons c t ih =>
      rw [List.dropWhile_cons] at hl
      split at hl
      · rename_i hc
        rw [List.cons_append, List.dropWhile_cons, if_pos hc]
        refine ih ?_ hl
        rwa [List.cons_append, List.dropWhile_cons, if_pos hc] at h
      · cases hl
  rw [this] at h
  exact absurd h (Nat.not_lt.mpr (length_dropWhile_le p q))

/-- A line. -/
def takeLine (l : List Int) : Except Fault (List Int × List Int) := .ok (l.takeWhile (· ≠ 10), (l.dropWhile (· ≠ 10)).drop 1)

theorem strnInput_taking : strnInput = (taking takeLine >>= fun l => pushStr (l.map toChar) >>= fun _ => pure .none) := rfl

theorem comm_takeLine : Comm T (taking takeLine) := by
  refine comm_taking _ fun l q a r hl hr => ?_
  unfold takeLine at hl
  cases hl
  have h : l.dropWhile (· ≠ 10) ≠ [] := dropWhile_ne_of (q := q) (by rw [List.length_drop] at hr; omega)
  have h1 : 1 ≤ (l.dropWhile (· ≠ 10)).length := List.length_pos_iff.mpr h
  rw [dropWhile_append_of h, List.drop_append_of_le_length h1] at hr ⊢
  refine ⟨_, rfl, fun h' => ?_, fun hl => h (by rw [hl]; rfl), fun e => ?_⟩
  · rw [h'] at hr; exact absurd hr (Nat.lt_irrefl _)
  · unfold takeLine
    rw [takeWhile_append_of h, takeWhile_append_of h, dropWhile_append_of h, List.drop_append_of_le_length h1]

/-- A word. -/
def takeWord (l : List Int) : Except Fault (List Int × List Int) := .ok (readWord l)

theorem readNum_taking (base : Nat) : readNum base = (taking takeWord >>= fun w =>
    if base ≤ 1 then pure (w.length : Int) else if base ≤ 32 then lift (readDigits base w) else pure 0) := rfl

theorem comm_takeWord : Comm T (taking takeWord) := by
  refine comm_taking _ fun l q a r hl hr => ?_
  unfold takeWord readWord at hl
  cases hl
  have h : l.dropWhile isSpaceByte ≠ [] := dropWhile_ne_of (q := q) (by have := length_dropWhile_le (fun c => !isSpaceByte c) ((l ++ q).dropWhile isSpaceByte); omega)
  rw [dropWhile_append_of h] at hr ⊢
  have h2 := dropWhile_ne_of hr
  rw [dropWhile_append_of h2] at hr ⊢
  refine ⟨_, rfl, h2, fun hl => h (by rw [hl]; rfl), fun e => ?_⟩
  unfold takeWord readWord
  dsimp only
  rw [dropWhile_append_of h, dropWhile_append_of h2, takeWhile_append_of h2, takeWhile_append_of h2]

/-- A number. -/
def takeNum (l : List Int) : Except Fault (Option Int × List Int) :=
  match numDigits 0 (l.dropWhile fun c => c < 48 ∨ c > 57) with
  | .error e => .error e
  | .ok none => .ok (none, [])
  | .ok (some (n, r)) => .ok (some n, r)

theorem iNumIn_taking : iNumIn = (taking takeNum >>= fun q => match q with
    | none => pure Err.unspec
    | some n => do pushTop n; pure Err.none) := by
  funext s
  unfold iNumIn
  rw [bind_ok (get_run s)]
  show _ = seq _ _ s
  unfold seq taking takeNum
  cases hn : numDigits 0 (s.g.inp.dropWhile fun c => c < 48 ∨ c > 57) with
  | error e => rfl
  | ok q =>
    cases q with
    | none => rfl
    | some p => rfl

theorem numDigits_shorter {l : List Int} : ∀ {n m : Int} {r : List Int}, numDigits n l = .ok (some (m, r)) → r.length ≤ l.length := by
  induction l with
  | nil => intro n m r h; cases h
  | cons c t ih =>
    intro n m r h
    unfold numDigits at h
    split at h
    · split at h
      · cases h
      · exact Nat.le_succ_of_le (ih h)
    · cases h; exact Nat.le_refl _

theorem numDigits_append {l q : List Int} : ∀ {n m : Int} {r : List Int}, numDigits n (l ++ q) = .ok (some (m, r)) → q.length < r.length →
    ∃ r', r = r' ++ q ∧ r' ≠ [] ∧ l ≠ [] ∧ ∀ e, numDigits n (l ++ e) = .ok (some (m, r' ++ e)) := by
  induction l with
  | nil => intro n m r h hr; exact absurd hr (Nat.not_lt.mpr (numDigits_shorter h))
  | cons c t ih =>
    intro n m r h hr
    rw [List.cons_append] at h
    unfold numDigits at h
    split at h
    · rename_i hc
      split at h
      · cases h
      · rename_i x hx
        obtain ⟨r', h0, h1, _, h2⟩ := ih h hr
        refine ⟨r', h0, h1, by simp, fun e => ?_⟩
        rw [List.cons_append]
        unfold numDigits
        rw [if_pos hc, hx]
        exact h2 e
    · rename_i hc
      cases h
      refine ⟨c :: t, rfl, by simp, by simp, fun e => ?_⟩
      rw [List.cons_append]
      unfold numDigits
      rw [if_neg hc]

theorem comm_takeNum : Comm T (taking takeNum) := by
  refine comm_taking _ fun l q a r hl hr => ?_
  unfold takeNum at hl
  split at hl
  · cases hl
  · cases hl; exact absurd hr (Nat.not_lt_zero _)
  · rename_i n r' hn
    cases hl
    have h : l.dropWhile (fun c => c < 48 ∨ c > 57) ≠ [] := dropWhile_ne_of (q := q) (Nat.lt_of_lt_of_le hr (numDigits_shorter hn))
    rw [dropWhile_append_of h] at hn
    obtain ⟨r'', h0, h1, _, h2⟩ := numDigits_append hn hr
    refine ⟨r'', h0, h1, fun hl => h (by rw [hl]; rfl), fun e => ?_⟩
    unfold takeNum
    rw [dropWhile_append_of h, h2]

theorem onRunnerTop_cur {α : Type} {id : Int} (f : Stack → α × Stack) {s : St} (h : (s.cur.id : Int) = id) :
    onRunnerTop id f s = (onTop f >>= fun a => pure (some a)) s := by
  unfold onRunnerTop
  rw [if_pos h]
  show _ = seq _ _ s
  unfold seq
  cases onTop f s <;> rfl

/-- The others. -/
def onOthers {α : Type} (id : Int) (f : Stack → α × Stack) : Exec (Option α) := fun s =>
  match onListTop id f s.rest with
  | none => .ok (none, s)
  | some (.error e) => .error e
  | some (.ok (a, rest)) => .ok (some a, { s with rest := rest })

theorem onRunnerTop_others {α : Type} {id : Int} (f : Stack → α × Stack) {s : St} (h : (s.cur.id : Int) ≠ id) : onRunnerTop id f s = onOthers id f s := by
  unfold onRunnerTop
  rw [if_neg h]
  rfl

theorem comm_onOthers {α : Type} (id : Int) (f : Stack → α × Stack) : Comm T (onOthers id f) := comm_of fun s => by
  unfold onOthers
  simp only [T.st_rest]
  split
  · exact .inl ⟨_, _, rfl, rfl, rfl, rfl⟩
  · exact .inr ⟨_, rfl, rfl⟩
  · exact .inl ⟨_, _, rfl, rfl, rfl, rfl⟩

theorem comm_onRunnerTop {α : Type} (id : Int) (f : Stack → α × Stack) : Comm T (onRunnerTop id f) := fun s => by
  by_cases hid : (s.cur.id : Int) = id
  · rw [onRunnerTop_cur f hid, onRunnerTop_cur (s := T.st s) f hid]
    exact comm_bind (comm_onTop f) (fun a => comm_pure _) s
  · rw [onRunnerTop_others f hid, onRunnerTop_others (s := T.st s) f hid]
    exact comm_onOthers id f s

end Funge
