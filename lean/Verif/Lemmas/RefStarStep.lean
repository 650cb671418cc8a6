import Verif.Lemmas.RefStar
/-!
Ticks and turns of the interpreter and steps of the reference machine for *><>.
-/
namespace Funge
open Exec Field Ref

namespace Angler
open FishStar (starred Finny meanings_fish mem_meanings meanings_star)

section
variable {R : Rules} {g : Glob} {f : Nat} {s t : St} {clock : List Int}

theorem swims_finny {b : Fish} (H : Swims R g f t b) : Finny t := by
  have h1 : t.cur.sems = meanings semsFish := funext H.sems
  obtain ⟨⟨F, a, n, bn, rg, o, rfl, -⟩, -⟩ := H
  exact ⟨by krfl, h1, by krfl, by krfl, by krfl, by krfl⟩

theorem swims_mode {b : Fish} (H : Swims R g f t b) : t.g.cfg.mode = 0 := by
  obtain ⟨⟨F, a, n, bn, rg, o, rfl, -⟩, -⟩ := H
  krfl

theorem swims_delta {b : Fish} (H : Swims R g f t b) : t.cur.ip.delta = Vec.ofList [b.dx, b.dy] := by
  obtain ⟨⟨F, a, n, bn, rg, o, rfl, -⟩, -⟩ := H
  krfl

theorem swims_orc {b : Fish} (H : Swims R g f t b) : t.g.orc = g.orc := by
  obtain ⟨⟨F, a, n, bn, rg, o, rfl, -⟩, -⟩ := H
  krfl

/-- What a cell does under ><>. -/
theorem fish_exec {b : Fish} (hst : g.cfg.strings = .multispace) (H : Swims R g f s b) (hne : b.acts g.flt R ≠ []) (m : Nat) (hm : f = m + 1) :
    ∃ e s1, execute f (b.cell b.x b.y) s = .ok (e, s1) ∧
      ((e = .none ∧ ∃ c ∈ b.acts g.flt R, Swims R g f s1 c) ∨ (e = .skip ∧ s1 = s ∧ b ∈ b.acts g.flt R) ∨
       (e = .none ∧ s1 = s.setIP s.cur.ip.stop ∧ { b with over := true } ∈ b.acts g.flt R) ∨
       ((e = .unimp ∨ e = .unspec) ∧ ∃ c : Fish, c.die ∈ b.acts g.flt R ∧ Sinks g s1 c)) := by
  obtain ⟨i1, i2, i3⟩ := H.inString
  have hex : execute f (b.cell b.x b.y) s = if b.quote then execString (b.cell b.x b.y) s else execNormal (execute m) (b.cell b.x b.y) s := by
    subst hm
    rw [← i1]
    rfl
  rw [hex]
  cases hq : b.quote with
  | true =>
    have ha : b.acts g.flt R = (if b.cell b.x b.y = b.mark then [{ b with quote := false }] else [b.on (g.flt.ofInt (b.cell b.x b.y) :: b.stack)]) := by
      unfold Fish.acts
      rw [hq]; rfl
    rw [ha]
    simp only [if_true]
    generalize b.cell b.x b.y = c at *
    by_cases hc : c = b.mark
    · rw [if_pos hc]
      have h1 : execString c s = .ok (.none, { s with cur := { s.cur with strPrev := 0, inString := false } }) := by
        rw [execString, bind_ok (get_run s), i2, if_pos hc]; rfl
      refine ⟨_, _, h1, .inl ⟨rfl, _, List.mem_singleton.mpr rfl, ?_⟩⟩
      obtain ⟨⟨F, a, n, bn, rg, o, rfl, q1, q2, q3, q4⟩, q5, q6, q7, q8⟩ := H
      exact ⟨⟨F, a, n, bn, rg, o, by krfl, shown_of q1 rfl rfl rfl rfl rfl, q2, q3, q4⟩, q5, q6, q7, q8⟩
    · rw [if_neg hc]
      obtain ⟨s1, h1, H1⟩ := H.push (g.flt.ofInt c)
      refine ⟨_, s1, ?_, .inl ⟨rfl, _, List.mem_singleton.mpr rfl, H1⟩⟩
      rw [execString, bind_ok (get_run s), i2, if_neg hc, i3, hst]
      show (Funge.runnerPush c >>= _) s = _
      rw [bind_ok ((H.runnerPush c).trans h1)]; rfl
  | false =>
    simp only [Bool.false_eq_true, if_false]
    have ha : b.acts g.flt R = (match swims.lookup (b.cell b.x b.y) with
      | Option.none => [b.die]
      | some w => b.perform g.flt R w) := by
      unfold Fish.acts
      rw [hq]; rfl
    cases hw : swims.lookup (b.cell b.x b.y) with
    | none =>
      rw [hw] at ha
      refine ⟨.unimp, s, ?_, .inr (.inr (.inr ⟨.inl rfl, b, by rw [ha]; exact List.mem_singleton.mpr rfl, H.sinks⟩))⟩
      unfold execNormal
      rw [H.foreign hw]
    | some w =>
      have ha : b.acts g.flt R = b.perform g.flt R w := by rw [ha, hw]
      have hx : execNormal (execute m) (b.cell b.x b.y) s = runOp (execute m) (fishOp w) s := by
        obtain ⟨mv, hs⟩ := H.known hw
        unfold execNormal
        rw [hs]
        simp only [H.sinks.noDive, Bool.false_and, Bool.false_eq_true, if_false]
      rw [hx, ha]
      by_cases w1 : w = .blank
      · subst w1
        exact ⟨.skip, s, rfl, .inr (.inl ⟨rfl, rfl, List.mem_singleton.mpr rfl⟩)⟩
      by_cases w2 : w = .stop
      · subst w2
        exact ⟨.none, s.setIP s.cur.ip.stop, rfl, .inr (.inr (.inl ⟨rfl, rfl, List.mem_singleton.mpr (by rw [hq])⟩))⟩
      rw [ha] at hne
      obtain ⟨e, s1, h1, h2⟩ := swims_perform H (execute m) hw w1 w2 hne
      refine ⟨e, s1, h1, ?_⟩
      rcases h2 with ⟨h, c, hc, H1⟩ | ⟨h, c, hc, H1⟩
      · exact .inl ⟨h, c, hc, H1⟩
      · exact .inr (.inr (.inr ⟨.inr h, c, hc, H1⟩))

/-! Under water. -/

/-- The same state, under water. -/
def sunk (s : St) : St :=
  ⟨{ s.cur with ss := s.cur.ss.setMode modeDive }, s.rest, { s.g with cfg := { s.g.cfg with mode := modeDive } }⟩

/-- Under water or not. -/
def veil (d : Bool) (s : St) : St := if d then sunk s else s

/-- `m` does the same under water. -/
def Dives {α : Type} (m : Exec α) : Prop := ∀ s d, s.g.cfg.mode = 0 → ∃ a t, m s = .ok (a, t) ∧ m (veil d s) = .ok (a, veil d t) ∧ t.g.cfg.mode = 0

theorem dives_bind {α β : Type} {m : Exec α} {f : α → Exec β} (hm : Dives m) (hf : ∀ a, Dives (f a)) : Dives (m >>= f) := by
  intro s d h
  obtain ⟨a, t, h1, h2, h3⟩ := hm s d h
  obtain ⟨b, t', h4, h5, h6⟩ := hf a t d h3
  exact ⟨b, t', (bind_ok h1).trans h4, (bind_ok h2).trans h5, h6⟩
theorem dives_pure {α : Type} (a : α) : Dives (pure a : Exec α) := fun s _ h => ⟨a, s, rfl, rfl, h⟩
theorem dives_ipDelta : Dives ipDelta := fun s d h => ⟨s.cur.ip.delta, s, rfl, by cases d <;> rfl, h⟩
theorem dives_setDelta (v) : Dives (setDelta v) := by
  intro s d h
  refine ⟨(), _, rfl, ?_, h⟩
  cases d with
  | false => rfl
  | true =>
    show Except.ok ((), { sunk s with cur := notifyDelta { (sunk s).cur with ip := s.cur.ip.setDelta (hasMode modeDive modeHover) v } }) =
      Except.ok ((), sunk { s with cur := notifyDelta { s.cur with ip := s.cur.ip.setDelta (hasMode s.g.cfg.mode modeHover) v } })
    rw [h, show hasMode modeDive modeHover = hasMode 0 modeHover from by decide]
    have : ∀ r : Runner, notifyDelta { r with ss := r.ss.setMode modeDive } = { notifyDelta r with ss := (notifyDelta r).ss.setMode modeDive } := by
      intro r
      unfold notifyDelta
      dsimp only
      split <;> rfl
    have := this { s.cur with ip := s.cur.ip.setDelta (hasMode 0 modeHover) v }
    unfold sunk
    dsimp only at this ⊢
    rw [this]

theorem dives_op (exec : Int → Exec Err) {w : Swim} (h : w.moves = true) : Dives (runOp exec (fishOp w)) := by
  have go : ∀ v, Dives (iGo v) := fun v => dives_bind (dives_setDelta v) fun _ => dives_pure _
  cases w
  case go dx dy =>
    have : fishOp (.go dx dy) ∈ [Op.fRight, .fLeft, .fDown, .fUp] := by unfold fishOp; split <;> simp_all
    simp only [List.mem_cons, List.not_mem_nil, or_false] at this
    rcases this with h | h | h | h <;> rw [h] <;> exact go _
  case backslash => exact dives_bind dives_ipDelta fun _ => dives_bind (dives_setDelta _) fun _ => dives_pure _
  case slash => exact dives_bind dives_ipDelta fun _ => dives_bind (dives_setDelta _) fun _ => dives_pure _
  case bar => exact dives_bind dives_ipDelta fun _ => dives_bind (dives_setDelta _) fun _ => dives_pure _
  case dash => exact dives_bind dives_ipDelta fun _ => dives_bind (dives_setDelta _) fun _ => dives_pure _
  case hash => exact dives_bind dives_ipDelta fun _ => dives_bind (dives_setDelta _) fun _ => dives_pure _
  all_goals cases h

/-! The machine and the interpreter. -/

/-- The interpreter's state shows the machine's. -/
structure Sails (R : Rules) (g : Glob) (f : Nat) (s : St) (b : Star) : Prop where
  st : ∃ t, Swims R g f t b.toFish ∧ s = veil b.deep (hooked (Vec.ofList [b.cast, 0], b.hook) t)
  mind : b.dx ≠ 0 ∧ b.dy = 0 → b.cast = b.dx
  dry : b.deep = true → b.quote = false

/-- The direction in mind is that of the machine. -/
theorem turned_follow {b : Star} {c : Fish} (H : Swims R g f t c) : turned (Vec.ofList [b.cast, 0], b.hook) t = (Vec.ofList [(b.follow c).cast, 0], b.hook) := by
  unfold turned Star.follow
  rw [swims_delta H]
  simp only [Vec.get_ofList]
  show (if c.dx ≠ 0 ∧ c.dy = 0 then _ else _, _) = _
  split
  · rename_i h
    rw [h.2]
  · rfl

theorem follow_mind (b : Star) (c : Fish) : (b.follow c).dx ≠ 0 ∧ (b.follow c).dy = 0 → (b.follow c).cast = (b.follow c).dx := fun h => if_pos h

theorem follow_same {b : Star} {c : Fish} (h : b.dx ≠ 0 ∧ b.dy = 0 → b.cast = b.dx) (hx : c.dx = b.dx) (hy : c.dy = b.dy) : (b.follow c).cast = b.cast := by
  show (if c.dx ≠ 0 ∧ c.dy = 0 then c.dx else b.cast) = _
  rw [hx, hy]
  split
  · rename_i h1; exact (h h1).symm
  · rfl

/-- A word that is not for it leaves the direction as it is. -/
theorem perform_dir {fl : FloatOps} {b c : Fish} {w : Swim} (hw : w.veers = false) (h : c ∈ b.perform fl R w) : c.dx = b.dx ∧ c.dy = b.dy := by
  have two : ∀ {k : Int → Int → List Int → List Fish} {c : Fish}, (∀ x y l, ∀ c ∈ k x y l, c.dx = b.dx ∧ c.dy = b.dy) → c ∈ b.two k → c.dx = b.dx ∧ c.dy = b.dy := by
    intro k c hk hc
    unfold Fish.two at hc
    split at hc
    · exact hk _ _ _ _ hc
    · cases List.mem_singleton.mp hc; exact ⟨rfl, rfl⟩
  have one : ∀ {k : Int → List Int → List Fish} {c : Fish}, (∀ x l, ∀ c ∈ k x l, c.dx = b.dx ∧ c.dy = b.dy) → c ∈ b.one k → c.dx = b.dx ∧ c.dy = b.dy := by
    intro k c hk hc
    unfold Fish.one at hc
    split at hc
    · exact hk _ _ _ hc
    · cases List.mem_singleton.mp hc; exact ⟨rfl, rfl⟩
  have single : ∀ {d c : Fish}, c ∈ [d] → d.dx = b.dx → d.dy = b.dy → c.dx = b.dx ∧ c.dy = b.dy := by
    intro d c hc h1 h2
    cases List.mem_singleton.mp hc; exact ⟨h1, h2⟩
  have none : ∀ {c : Fish}, c ∈ ([] : List Fish) → c.dx = b.dx ∧ c.dy = b.dy := fun h => nomatch h
  cases w
  case go => cases hw
  case backslash => cases hw
  case slash => cases hw
  case bar => cases hw
  case dash => cases hw
  case hash => cases hw
  case random => cases hw
  case put =>
    unfold Fish.perform at h
    dsimp only at h
    split at h
    · split at h
      · obtain ⟨d, hd, rfl⟩ := List.mem_map.mp h
        obtain ⟨e, -⟩ := store_same hd
        rw [e]
        exact ⟨rfl, rfl⟩
      · exact none h
    · exact single h rfl rfl
  all_goals
    unfold Fish.perform at h
    dsimp only at h
    first
      | exact single h rfl rfl
      | exact two (fun x y l c hc => by
          repeat' split at hc
          all_goals first
            | exact single hc rfl rfl
            | exact none hc) h
      | exact one (fun x l c hc => by
          repeat' split at hc
          all_goals first
            | exact single hc rfl rfl
            | exact none hc) h
      | (repeat' split at h
         all_goals first
           | exact single h rfl rfl
           | exact none h
           | exact one (fun x l c hc => by
               repeat' split at hc
               all_goals first
                 | exact single hc rfl rfl
                 | exact none hc) h)

theorem follow_self {b : Star} (h : b.dx ≠ 0 ∧ b.dy = 0 → b.cast = b.dx) : b.follow b.toFish = b := by
  have := follow_same (c := b.toFish) h rfl rfl
  obtain ⟨c, k, u, d⟩ := b
  unfold Star.follow at this ⊢
  dsimp only at this ⊢
  rw [this]

/-- What a cell can do. -/
inductive Does (R : Rules) (g : Glob) (f : Nat) (clock : List Int) (s : St) (b : Star) : Err → St → Prop
  | one {s1 : St} {c : Star} : c ∈ b.acts g.flt R clock → Sails R g f s1 c → Does R g f clock s b .none s1
  | idle : b ∈ b.acts g.flt R clock → Does R g f clock s b .skip s
  | stops {s1 : St} {c : Star} {ip : IP} : c ∈ b.acts g.flt R clock → c.over = true → s1.cur.ip = ip.stop → Drowned g s1 c.toBef → Does R g f clock s b .none s1
  | unknown : b ∈ b.acts g.flt R clock → b.deep = true → Does R g f clock s b .unimp s
  | dies {s1 : St} {e : Err} {c : Fish} : e = .unimp ∨ e = .unspec → b.follow c.die ∈ b.acts g.flt R clock → Sinks g s1 c → Does R g f clock s b e s1

theorem sinks_hooked {c : Fish} {k : Vec × Bool} (h : Sinks g t c) : Sinks g (hooked k t) c := ⟨h.rest, h.handler, h.noDive, h.inp, h.out⟩

/-- A letter that is none of the added ones. -/
theorem starWords_none {c : Int} (h : starWords.lookup c = none) : meanings semsStarfish c = [] := by
  refine meanings_nil fun p hp => ?_
  have all : ∀ p ∈ semsStarfish, ∃ q ∈ starWords, q.1 = p.1 := by decide +kernel
  obtain ⟨q, hq, he⟩ := all p hp
  rw [← he]
  have : ∀ {l : List (Int × StarWord)}, l.lookup c = none → ∀ p ∈ l, p.1 ≠ c := by
    intro l
    induction l with
    | nil => intro _ p hp; cases hp
    | cons p t ih =>
      intro h
      rw [List.lookup_cons] at h
      split at h
      · cases h
      · rename_i hc
        intro q hq
        rcases List.mem_cons.mp hq with rfl | hq
        · intro he; simp [he] at hc
        · exact ih h q hq
  exact this h q hq

theorem lookup_some {c : Int} {w : StarWord} {l : List (Int × StarWord)} (h : l.lookup c = some w) : (c, w) ∈ l := by
  induction l with
  | nil => cases h
  | cons p t ih =>
    rw [List.lookup_cons] at h
    split at h
    · rename_i hc
      have : c = p.1 := by simpa using hc
      subst this; cases h; exact List.mem_cons_self
    · exact List.mem_cons_of_mem _ (ih h)

theorem starWords_some {c : Int} {w : StarWord} (h : starWords.lookup c = some w) : (c, w) ∈ starWords := lookup_some h

theorem getSem_hooked (k : Vec × Bool) (t : St) (c : Int) : (hooked k t).cur.getSem c = (meanings semsStarfish c ++ meanings semsFish c).head? := rfl

/-- A cell that is part of a string, or has none of the added letters. -/
theorem does_fish {b : Star} (hst : g.cfg.strings = .multispace) (Ht : Swims R g f t b.toFish) (mind : b.dx ≠ 0 ∧ b.dy = 0 → b.cast = b.dx) (hd : b.deep = false)
    (hl : b.quote = true ∨ starWords.lookup (b.cell b.x b.y) = none) (hne : b.acts g.flt R clock ≠ []) (m : Nat) (hm : f = m + 1) :
    ∃ e s1, execute f (b.cell b.x b.y) (hooked (Vec.ofList [b.cast, 0], b.hook) t) = .ok (e, s1) ∧ Does R g f clock (hooked (Vec.ofList [b.cast, 0], b.hook) t) b e s1 := by
  have ha : b.acts g.flt R clock = (b.toFish.acts g.flt R).map b.follow := by
    unfold Star.acts
    cases hq : b.quote with
    | true => rfl
    | false =>
      rcases hl with hl | hl
      · rw [hq] at hl; cases hl
      · simp only [hd, Bool.false_eq_true, if_false]
        rw [hl]
  have hne' : b.toFish.acts g.flt R ≠ [] := fun h => hne (by rw [ha, h]; rfl)
  have mem : ∀ {c}, c ∈ b.toFish.acts g.flt R → b.follow c ∈ b.acts g.flt R clock := fun h => by
    rw [ha]; exact List.mem_map_of_mem h
  have hfin := swims_finny Ht
  obtain ⟨e, t1, h1, h2⟩ := fish_exec hst Ht hne' m hm
  -- what *><> does
  have key : ∃ c', execute f (b.cell b.x b.y) (hooked (Vec.ofList [b.cast, 0], b.hook) t) = .ok (e, hooked c' t1) ∧
      ((c' = (Vec.ofList [b.cast, 0], b.hook) ∧ ∀ c ∈ b.toFish.acts g.flt R, c.dx = b.dx ∧ c.dy = b.dy) ∨ c' = turned (Vec.ofList [b.cast, 0], b.hook) t1) := by
    obtain ⟨i1, -, -⟩ := Ht.inString
    generalize hk : (Vec.ofList [b.cast, 0], b.hook) = k
    have x1 : execute f (b.cell b.x b.y) t = if b.quote then execString (b.cell b.x b.y) t else execNormal (execute m) (b.cell b.x b.y) t := by
      subst hm; rw [← i1]; rfl
    have x2 : execute f (b.cell b.x b.y) (hooked k t) = if b.quote then execString (b.cell b.x b.y) (hooked k t) else execNormal (execute m) (b.cell b.x b.y) (hooked k t) := by
      subst hm; rw [← i1]; rfl
    cases hq : b.quote with
    | true =>
      rw [hq] at x1 x2
      simp only [if_true] at x1 x2
      rw [x1] at h1
      rcases same_execString (b.cell b.x b.y) t k hfin with ⟨e', y1, y2⟩ | ⟨e', t', y1, y2, -⟩
      · rw [h1] at y1; cases y1
      · rw [h1] at y1; cases y1
        refine ⟨k, x2.trans y2, .inl ⟨rfl, fun c hc => ?_⟩⟩
        unfold Fish.acts at hc
        rw [hq] at hc
        simp only [if_true] at hc
        split at hc <;> (cases List.mem_singleton.mp hc; exact ⟨rfl, rfl⟩)
    | false =>
      rw [hq] at x1 x2
      simp only [Bool.false_eq_true, if_false] at x1 x2
      have hsl : starWords.lookup (b.cell b.x b.y) = none := by
        rcases hl with h | h
        · rw [hq] at h; cases h
        · exact h
      have hg : (hooked k t).cur.getSem (b.cell b.x b.y) = t.cur.getSem (b.cell b.x b.y) := by
        rw [getSem_hooked, starWords_none hsl]
        unfold Runner.getSem
        rw [Ht.sems]; rfl
      have hfa : b.toFish.acts g.flt R = (match swims.lookup (b.cell b.x b.y) with
          | Option.none => [b.toFish.die]
          | some w => b.toFish.perform g.flt R w) := by
        unfold Fish.acts
        rw [hq]; rfl
      rw [x1] at h1
      rw [x2]
      unfold execNormal at h1 ⊢
      rw [hg]
      cases hw : swims.lookup (b.cell b.x b.y) with
      | none =>
        rw [Ht.foreign hw] at h1 ⊢
        cases h1
        refine ⟨k, rfl, .inl ⟨rfl, fun c hc => ?_⟩⟩
        rw [hfa, hw] at hc
        cases List.mem_singleton.mp hc; exact ⟨rfl, rfl⟩
      | some w =>
        obtain ⟨mv, hs⟩ := Ht.known hw
        rw [hs] at h1 ⊢
        have hm1 : hasMode t.g.cfg.mode modeDive = false := hfin.dive
        have hm2 : hasMode (hooked k t).g.cfg.mode modeDive = false := hfin.dive
        simp only [hm1, hm2, Bool.false_and, Bool.false_eq_true, if_false] at h1 ⊢
        cases hv : w.veers with
        | false =>
          rcases same_op (execute m) hv t k hfin with ⟨e', y1, y2⟩ | ⟨e', t', y1, y2, -⟩
          · rw [h1] at y1; cases y1
          · rw [h1] at y1; cases y1
            refine ⟨k, y2, .inl ⟨rfl, fun c hc => ?_⟩⟩
            rw [hfa, hw] at hc
            exact perform_dir hv hc
        | true =>
          rcases steers_op (execute m) hv t k hfin with ⟨e', y1, y2⟩ | ⟨e', t', y1, y2, -⟩
          · rw [h1] at y1; cases y1
          · rw [h1] at y1; cases y1
            exact ⟨_, y2, .inr rfl⟩
  obtain ⟨c', h3, h4⟩ := key
  have same : ∀ {c : Fish}, c ∈ b.toFish.acts g.flt R → Swims R g f t1 c → c' = (Vec.ofList [(b.follow c).cast, 0], b.hook) := by
    intro c hc H
    rcases h4 with ⟨rfl, h4⟩ | rfl
    · rw [follow_same mind (h4 c hc).1 (h4 c hc).2]
    · exact turned_follow H
  refine ⟨e, hooked c' t1, h3, ?_⟩
  rcases h2 with ⟨rfl, c, hc, H1⟩ | ⟨rfl, rfl, hc⟩ | ⟨rfl, rfl, hc⟩ | ⟨he, c, hc, H1⟩
  · refine .one (mem hc) ⟨⟨t1, H1, ?_⟩, follow_mind b c, fun h => ?_⟩
    · rw [same hc H1]
      show _ = veil b.deep _
      rw [hd]; rfl
    · have : b.deep = true := h
      rw [hd] at this; cases this
  · have := same hc Ht
    rw [follow_self mind] at this
    rw [this]
    have h5 := mem hc
    rw [follow_self mind] at h5
    exact .idle h5
  · obtain ⟨r1, r2, r3, r4, r5⟩ := Ht.rest
    refine .stops (mem hc) rfl rfl ⟨rfl, r1, r3, ?_, r5⟩
    show t.g.exitcode = b.code.getD _
    rw [Ht.code]; exact r4
  · exact .dies he (mem hc) (sinks_hooked H1)

/-! The added letters. -/

/-- The instructions of the added letters. -/
def starOp : Int × StarWord → Op × Bool
  | (_, .fisherman) => (.sFisherman, true)
  | (_, .dive) => (.sDive, true)
  | (_, .rise) => (.sRise, true)
  | (_, .sleep) => (.sSleep, false)
  | (c, .clock) => (if c = 104 then .sHour else if c = 109 then .sMinute else .sSecond, false)
  | (c, .other) => (if c = 67 then .sCall else if c = 82 then .sReturn else if c = 73 then .sIncrement else if c = 68 then .sDecrement else .sFile, false)

theorem getSem_star {c : Int} {w : StarWord} (h : starWords.lookup c = some w) (k : Vec × Bool) (t : St) : (hooked k t).cur.getSem c = some ⟨(starOp (c, w)).1, (starOp (c, w)).2⟩ := by
  have all : ∀ p ∈ starWords, ((meanings semsStarfish p.1 ++ meanings semsFish p.1).head?).map (fun x => (x.op, x.movement)) = some (starOp p) := by decide +kernel
  have := all _ (starWords_some h)
  rw [getSem_hooked]
  dsimp only at this
  cases hm : (meanings semsStarfish c ++ meanings semsFish c).head? with
  | none => rw [hm] at this; cases this
  | some x =>
    rw [hm] at this
    obtain ⟨o, m⟩ := x
    have := Option.some.inj this
    rw [← this]

theorem setMode_setMode (ss : StackStack) (m n : Nat) : (ss.setMode m).setMode n = ss.setMode n := by
  unfold StackStack.setMode
  simp only [List.map_map]
  rfl

theorem swims_setMode {b : Fish} (H : Swims R g f t b) : t.cur.ss.setMode 0 = t.cur.ss := by
  obtain ⟨⟨F, a, n, bn, rg, o, rfl, -⟩, -⟩ := H
  show (⟨0, ⟨0, b.stack, n⟩ :: (bn.map fun p => (⟨0, p.1, p.2⟩ : Stack)).map (·.setMode 0)⟩ : StackStack) = ⟨0, ⟨0, b.stack, n⟩ :: bn.map fun p => (⟨0, p.1, p.2⟩ : Stack)⟩
  rw [List.map_map]
  rfl

/-- Diving. -/
theorem dive_run {b : Fish} (H : Swims R g f t b) (k : Vec × Bool) (d : Bool) : siDive (veil d (hooked k t)) = .ok (.none, sunk (hooked k t)) := by
  have hr := H.rest.1
  have hm := swims_mode H
  cases d with
  | false =>
    show Except.ok (Err.none, (⟨{ (hooked k t).cur with ss := t.cur.ss.setMode (t.g.cfg.mode ||| modeDive) }, t.rest.map _, { (hooked k t).g with cfg := { (hooked k t).g.cfg with mode := t.g.cfg.mode ||| modeDive } }⟩ : St)) = _
    rw [hm, hr]
    unfold sunk
    show _ = Except.ok (Err.none, (⟨_, t.rest, _⟩ : St))
    rw [hr]
    rfl
  | true =>
    show Except.ok (Err.none, (⟨{ (hooked k t).cur with ss := (t.cur.ss.setMode modeDive).setMode (modeDive ||| modeDive) }, t.rest.map _, { (hooked k t).g with cfg := { (hooked k t).g.cfg with mode := modeDive ||| modeDive } }⟩ : St)) = _
    rw [hr, setMode_setMode]
    unfold sunk
    show _ = Except.ok (Err.none, (⟨_, t.rest, _⟩ : St))
    rw [hr]
    rfl

/-- Rising. -/
theorem rise_run {b : Fish} (H : Swims R g f t b) (k : Vec × Bool) (d : Bool) : siRise (veil d (hooked k t)) = .ok (.none, hooked k t) := by
  have hr := H.rest.1
  have hm := swims_mode H
  have hs := swims_setMode H
  have e : ∀ (ss : StackStack) (m : Nat), ss = t.cur.ss → m = t.g.cfg.mode → (⟨{ (hooked k t).cur with ss := ss }, [], { (hooked k t).g with cfg := { (hooked k t).g.cfg with mode := m } }⟩ : St) = hooked k t := by
    intro ss m h1 h2
    subst h1 h2
    unfold hooked
    rw [hr]
    rfl
  cases d with
  | false =>
    show Except.ok (Err.none, (⟨{ (hooked k t).cur with ss := t.cur.ss.setMode (t.g.cfg.mode &&& (0xFFFFFFFF ^^^ modeDive)) }, t.rest.map _, { (hooked k t).g with cfg := { (hooked k t).g.cfg with mode := t.g.cfg.mode &&& (0xFFFFFFFF ^^^ modeDive) } }⟩ : St)) = _
    rw [hr, List.map_nil, e]
    · rw [hm]; exact hs
    · rw [hm]; rfl
  | true =>
    show Except.ok (Err.none, (⟨{ (hooked k t).cur with ss := (t.cur.ss.setMode modeDive).setMode (modeDive &&& (0xFFFFFFFF ^^^ modeDive)) }, t.rest.map _, { (hooked k t).g with cfg := { (hooked k t).g.cfg with mode := modeDive &&& (0xFFFFFFFF ^^^ modeDive) } }⟩ : St)) = _
    rw [hr, List.map_nil, e]
    · rw [setMode_setMode]; exact hs
    · rw [hm]; rfl

/-- The fisherman. -/
theorem fisherman_run {b : Star} (H : Swims R g f t b.toFish) (d : Bool) : ∃ t1,
    siFisherman (veil d (hooked (Vec.ofList [b.cast, 0], b.hook) t)) = .ok (.none, veil d (if b.dy = 0 then hooked (Vec.ofList [b.cast, 0], !b.hook) t1 else hooked (Vec.ofList [b.cast, 0], b.hook) t1)) ∧
    Swims R g f t1 { b.toFish with dx := if b.dy = 0 then 0 else b.cast, dy := if b.dy = 0 then (if b.hook then 1 else -1) else 0 } := by
  have hfin := swims_finny H
  -- a change of direction
  have turn : ∀ dx dy, ∃ t1, setDelta (Vec.ofList [dx, dy]) (veil d (hooked (Vec.ofList [b.cast, 0], b.hook) t)) =
      .ok ((), veil d (hooked (if dx ≠ 0 ∧ dy = 0 then Vec.ofList [dx, dy] else Vec.ofList [b.cast, 0], b.hook) t1)) ∧ Swims R g f t1 { b.toFish with dx := dx, dy := dy } := by
    intro dx dy
    obtain ⟨t1, h1, H1⟩ := H.setDelta dx dy
    rcases steers_setDelta (Vec.ofList [dx, dy]) t (Vec.ofList [b.cast, 0], b.hook) hfin with ⟨e, y1, -⟩ | ⟨_, t2, y1, y2, -⟩
    · rw [h1] at y1; cases y1
    · rw [h1] at y1; cases y1
      obtain ⟨_, t3, z1, z2, -⟩ := dives_setDelta (Vec.ofList [dx, dy]) (hooked (Vec.ofList [b.cast, 0], b.hook) t) d (show t.g.cfg.mode = 0 from swims_mode H)
      rw [y2] at z1; cases z1
      refine ⟨t1, ?_, H1⟩
      rw [z2]
      unfold turned
      rw [swims_delta H1]
      simp only [Vec.get_ofList]
      rfl
  have hdel : ipDelta (veil d (hooked (Vec.ofList [b.cast, 0], b.hook) t)) = .ok (Vec.ofList [b.dx, b.dy], veil d (hooked (Vec.ofList [b.cast, 0], b.hook) t)) := by
    rw [← swims_delta H]
    cases d <;> rfl
  have hup : (veil d (hooked (Vec.ofList [b.cast, 0], b.hook) t)).cur.starUp = b.hook := by cases d <;> rfl
  have hca : (veil d (hooked (Vec.ofList [b.cast, 0], b.hook) t)).cur.starCache = Vec.ofList [b.cast, 0] := by cases d <;> rfl
  have hg1 : (Vec.ofList [b.dx, b.dy]).get 1 = b.dy := by simp [Vec.get_ofList]
  have hmod : ∀ (t1 : St) (k : Vec) (u u' : Bool), modCur (fun r => { r with starUp := u' }) (veil d (hooked (k, u) t1)) = .ok ((), veil d (hooked (k, u') t1)) := by
    intro t1 k u u'; cases d <;> rfl
  rw [siFisherman, bind_ok hdel, bind_ok (get_run _), hup, hca, hg1]
  by_cases h0 : b.dy = 0
  · simp only [if_pos h0]
    cases hh : b.hook with
    | true =>
      obtain ⟨t1, h1, H1⟩ := turn 0 1
      rw [hh, if_neg (by simp)] at h1
      refine ⟨t1, ?_, H1⟩
      simp only [if_true]
      rw [bind_ok h1, bind_ok (hmod _ _ _ _)]
      rfl
    | false =>
      obtain ⟨t1, h1, H1⟩ := turn 0 (-1)
      rw [hh, if_neg (by simp)] at h1
      refine ⟨t1, ?_, H1⟩
      simp only [Bool.false_eq_true, if_false]
      rw [bind_ok h1, bind_ok (hmod _ _ _ _)]
      rfl
  · simp only [if_neg h0]
    obtain ⟨t1, h1, H1⟩ := turn b.cast 0
    refine ⟨t1, ?_, H1⟩
    have : (if b.cast ≠ 0 ∧ (0 : Int) = 0 then Vec.ofList [b.cast, 0] else Vec.ofList [b.cast, 0]) = Vec.ofList [b.cast, 0] := by split <;> rfl
    rw [this] at h1
    rw [bind_ok h1]
    rfl

/-- A movement of ><>, under water or not. -/
theorem moves_run {b : Star} (H : Swims R g f t b.toFish) (ex : Int → Exec Err) {c : Int} {w : Swim} (hw : swims.lookup c = some w) (hv : w.moves = true) (d : Bool) :
    ∃ t1, ∃ e ∈ b.toFish.perform g.flt R w, runOp ex (fishOp w) (veil d (hooked (Vec.ofList [b.cast, 0], b.hook) t)) =
      .ok (.none, veil d (hooked (Vec.ofList [(b.follow e).cast, 0], b.hook) t1)) ∧ Swims R g f t1 e ∧ e.quote = b.quote := by
  have hfin := swims_finny H
  have hne : b.toFish.perform g.flt R w ≠ [] := by cases w <;> first | exact List.cons_ne_nil _ _ | (cases hv; done)
  have hq : ∀ e ∈ b.toFish.perform g.flt R w, e.quote = b.quote ∧ ∀ c : Fish, e ≠ c.die := by
    intro e he
    have ho := H.over
    cases w <;> first | (cases hv; done) | (cases List.mem_singleton.mp he; refine ⟨rfl, fun c hc => ?_⟩; have := congrArg (fun x : Fish => x.over) hc; exact absurd (ho.symm.trans this) (by simp [Fish.die]))
  have hvv : w.veers = true := by unfold Swim.veers; rw [hv]; rfl
  obtain ⟨e, t1, h1, h2⟩ := swims_perform H ex hw (by rintro rfl; cases hv) (by rintro rfl; cases hv) hne
  rcases h2 with ⟨rfl, c', hc, H1⟩ | ⟨rfl, c', hc, H1⟩
  · rcases steers_op ex hvv t (Vec.ofList [b.cast, 0], b.hook) hfin with ⟨e', y1, -⟩ | ⟨e', t', y1, y2, -⟩
    · rw [h1] at y1; cases y1
    · rw [h1] at y1; cases y1
      obtain ⟨_, t3, z1, z2, -⟩ := dives_op ex hv (hooked (Vec.ofList [b.cast, 0], b.hook) t) d (show t.g.cfg.mode = 0 from swims_mode H)
      rw [y2] at z1; cases z1
      refine ⟨t1, c', hc, ?_, H1, (hq c' hc).1⟩
      rw [z2, turned_follow H1]
  · exact absurd rfl ((hq _ hc).2 c')

/-- What any cell does. -/
theorem sails_exec {b : Star} (hst : g.cfg.strings = .multispace) (hck : ∀ n, g.orc n ∈ clock) (H : Sails R g f s b) (hne : b.acts g.flt R clock ≠ []) (m : Nat) (hm : f = m + 1) :
    ∃ e s1, execute f (b.cell b.x b.y) s = .ok (e, s1) ∧ Does R g f clock s b e s1 := by
  obtain ⟨⟨t, Ht, rfl⟩, mind, dry⟩ := H
  cases hq : b.quote with
  | true =>
    have hd : b.deep = false := by
      cases h : b.deep with
      | false => rfl
      | true => rw [dry h] at hq; cases hq
    rw [hd]
    exact does_fish hst Ht mind hd (.inl hq) hne m hm
  | false =>
    cases hl : starWords.lookup (b.cell b.x b.y) with
    | none =>
      cases hd : b.deep with
      | false => exact does_fish hst Ht mind hd (.inr hl) hne m hm
      | true =>
        have ha : b.acts g.flt R clock = (match swims.lookup (b.cell b.x b.y) with
            | some w => if w.moves then (b.toFish.perform g.flt R w).map b.follow else [b]
            | none => [b]) := by
          unfold Star.acts
          simp only [hq, hd, Bool.false_eq_true, if_false, if_true]
          rw [hl]
          rfl
        generalize hk : (Vec.ofList [b.cast, 0], b.hook) = k
        have hg : (hooked k t).cur.getSem (b.cell b.x b.y) = t.cur.getSem (b.cell b.x b.y) := by
          rw [getSem_hooked, starWords_none hl]
          unfold Runner.getSem
          rw [Ht.sems]; rfl
        have x2 : execute f (b.cell b.x b.y) (sunk (hooked k t)) = (match t.cur.getSem (b.cell b.x b.y) with
            | none => .ok (.unimp, sunk (hooked k t))
            | some sem => if !sem.movement then .ok (.skip, sunk (hooked k t)) else runOp (execute m) sem.op (sunk (hooked k t))) := by
          subst hm
          rw [← hg]
          have : execute (m + 1) (b.cell b.x b.y) (sunk (hooked k t)) = if t.cur.inString then execString (b.cell b.x b.y) (sunk (hooked k t)) else execNormal (execute m) (b.cell b.x b.y) (sunk (hooked k t)) := rfl
          rw [this, Ht.inString.1, hq]
          show execNormal (execute m) (b.cell b.x b.y) (sunk (hooked k t)) = _
          unfold execNormal
          show (match (hooked k t).cur.getSem (b.cell b.x b.y) with
            | none => _
            | some sem => if hasMode modeDive modeDive && !sem.movement then _ else _) = _
          rw [show hasMode modeDive modeDive = true from by decide]
          rfl
        show ∃ e s1, execute f (b.cell b.x b.y) (sunk (hooked k t)) = .ok (e, s1) ∧ Does R g f clock (sunk (hooked k t)) b e s1
        rw [x2]
        cases hw : swims.lookup (b.cell b.x b.y) with
        | none =>
          rw [Ht.foreign hw]
          rw [hw] at ha
          exact ⟨_, _, rfl, .unknown (by rw [ha]; exact List.mem_singleton.mpr rfl) hd⟩
        | some w =>
          rw [hw] at ha
          dsimp only at ha
          have hmv : ∃ mv, t.cur.getSem (b.cell b.x b.y) = some ⟨fishOp w, mv⟩ ∧ mv = w.moves := by
            obtain ⟨mv, hs⟩ := Ht.known hw
            refine ⟨mv, hs, ?_⟩
            have all : ∀ p ∈ swims, ((meanings semsFish p.1).head?).map (·.movement) = some p.2.moves := by decide +kernel
            have := all _ (fish_lookup hw)
            unfold Runner.getSem at hs
            rw [Ht.sems] at hs
            rw [hs] at this
            exact Option.some.inj this
          obtain ⟨mv, hs, rfl⟩ := hmv
          rw [hs]
          cases hv : w.moves with
          | false =>
            rw [hv] at ha
            exact ⟨_, _, rfl, .idle (by rw [ha]; exact List.mem_singleton.mpr rfl)⟩
          | true =>
            rw [hv] at ha
            obtain ⟨t1, c, hc, h1, H1, hcq⟩ := moves_run Ht (execute m) hw hv true
            rw [hk] at h1
            refine ⟨_, _, h1, .one (c := b.follow c) (by rw [ha]; exact List.mem_map_of_mem hc) ⟨⟨t1, H1, ?_⟩, follow_mind b c, fun _ => hcq.trans hq⟩⟩
            show _ = veil b.deep _
            rw [hd]; rfl
    | some w =>
      have ha : b.acts g.flt R clock = if b.deep then (if w = .fisherman ∨ w = .dive ∨ w = .rise then b.perform g.flt clock w else [b]) else b.perform g.flt clock w := by
        unfold Star.acts
        simp only [hq, Bool.false_eq_true, if_false]
        rw [hl]
      generalize hk : (Vec.ofList [b.cast, 0], b.hook) = k
      have x2 : execute f (b.cell b.x b.y) (veil b.deep (hooked k t)) = (if b.deep && !(starOp (b.cell b.x b.y, w)).2 then .ok (.skip, veil b.deep (hooked k t))
          else runOp (execute m) (starOp (b.cell b.x b.y, w)).1 (veil b.deep (hooked k t))) := by
        subst hm
        have : execute (m + 1) (b.cell b.x b.y) (veil b.deep (hooked k t)) = if t.cur.inString then execString (b.cell b.x b.y) (veil b.deep (hooked k t)) else execNormal (execute m) (b.cell b.x b.y) (veil b.deep (hooked k t)) := by
          cases b.deep <;> rfl
        rw [this, Ht.inString.1, hq]
        simp only [Bool.false_eq_true, if_false]
        unfold execNormal
        have e1 : (veil b.deep (hooked k t)).cur.getSem (b.cell b.x b.y) = (hooked k t).cur.getSem (b.cell b.x b.y) := by cases b.deep <;> rfl
        have e2 : hasMode (veil b.deep (hooked k t)).g.cfg.mode modeDive = b.deep := by
          cases b.deep with
          | false => show hasMode t.g.cfg.mode modeDive = false
                     rw [swims_mode Ht]; rfl
          | true => show hasMode modeDive modeDive = true
                    decide
        rw [e1, e2, getSem_star hl]
      rw [x2]
      have hfin := swims_finny Ht
      cases w with
      | fisherman =>
        have hp : b.acts g.flt R clock = b.perform g.flt clock .fisherman := by rw [ha]; split <;> simp
        obtain ⟨t1, h1, H1⟩ := fisherman_run Ht b.deep
        rw [hk] at h1
        refine ⟨.none, _, (show _ = _ by simp [starOp]; exact h1), .one (c := if b.dy = 0 then { b with dx := 0, dy := if b.hook then 1 else -1, hook := !b.hook } else { b with dx := b.cast, dy := 0 }) (by rw [hp]; exact List.mem_singleton.mpr rfl) ?_⟩
        by_cases h0 : b.dy = 0
        · simp only [if_pos h0] at H1 ⊢
          exact ⟨⟨t1, H1, rfl⟩, fun h => absurd rfl h.1, dry⟩
        · simp only [if_neg h0] at H1 ⊢
          exact ⟨⟨t1, H1, by rw [← hk]⟩, fun _ => rfl, dry⟩
      | dive =>
        have hp : b.acts g.flt R clock = [{ b with deep := true }] := by rw [ha]; split <;> simp [Star.perform]
        exact ⟨.none, _, (show _ = _ by simp [starOp]; exact dive_run Ht k b.deep), .one (c := { b with deep := true }) (by rw [hp]; exact List.mem_singleton.mpr rfl)
          ⟨⟨t, Ht, by rw [← hk]; rfl⟩, mind, fun _ => hq⟩⟩
      | rise =>
        have hp : b.acts g.flt R clock = [{ b with deep := false }] := by rw [ha]; split <;> simp [Star.perform]
        exact ⟨.none, _, (show _ = _ by simp [starOp]; exact rise_run Ht k b.deep), .one (c := { b with deep := false }) (by rw [hp]; exact List.mem_singleton.mpr rfl)
          ⟨⟨t, Ht, by rw [← hk]; rfl⟩, mind, fun h => nomatch h⟩⟩
      | sleep =>
        cases hd : b.deep with
        | true =>
          rw [hd] at ha
          exact ⟨_, _, rfl, .idle (by rw [ha]; simp)⟩
        | false =>
          rw [hd] at ha
          have ha : b.acts g.flt R clock = (b.toFish.one fun _ l => [b.toFish.on l]).map b.follow := ha
          show ∃ e s1, siSleep (hooked k t) = .ok (e, s1) ∧ Does R g f clock (hooked k t) b e s1
          cases hs : b.stack with
          | nil =>
            have h1 : siSleep t = .ok (.unspec, t) := Ht.lacks (by rw [hs]; decide) _
            rcases same_siSleep t k hfin with ⟨e', y1, -⟩ | ⟨e', t', y1, y2, -⟩
            · rw [h1] at y1; cases y1
            · rw [h1] at y1; cases y1
              refine ⟨_, _, y2, .dies (.inr rfl) (c := b.toFish) ?_ (sinks_hooked Ht.sinks)⟩
              rw [ha]
              unfold Fish.one
              rw [hs]
              exact List.mem_singleton.mpr rfl
          | cons x l =>
            obtain ⟨t1, h1, H1⟩ := Ht.pop hs
            have h2 : siSleep t = .ok (.none, t1) := by
              rw [siSleep, Ht.check (by rw [hs]; simp), bind_ok h1]; rfl
            rcases same_siSleep t k hfin with ⟨e', y1, -⟩ | ⟨e', t', y1, y2, -⟩
            · rw [h2] at y1; cases y1
            · rw [h2] at y1; cases y1
              refine ⟨_, _, y2, .one (c := b.follow (b.toFish.on l)) ?_ ⟨⟨t1, H1, ?_⟩, follow_mind _ _, fun _ => hq⟩⟩
              · rw [ha]
                unfold Fish.one
                rw [hs]
                exact List.mem_singleton.mpr rfl
              · rw [follow_same (c := b.toFish.on l) mind rfl rfl]
                show _ = veil b.deep _
                rw [hd, ← hk]; rfl
      | clock =>
        cases hd : b.deep with
        | true =>
          rw [hd] at ha
          exact ⟨_, _, rfl, .idle (by rw [ha]; simp)⟩
        | false =>
          rw [hd] at ha
          have ha : b.acts g.flt R clock = clock.map fun t => b.follow (b.toFish.on (g.flt.ofInt t :: b.stack)) := ha
          have hop : ∀ x, runOp (execute m) (starOp (b.cell b.x b.y, .clock)).1 x = siTime x := by
            intro x
            show runOp (execute m) (if _ then _ else if _ then _ else _) x = _
            split
            · rfl
            · split <;> rfl
          show ∃ e s1, runOp (execute m) (starOp (b.cell b.x b.y, .clock)).1 (hooked k t) = .ok (e, s1) ∧ Does R g f clock (hooked k t) b e s1
          rw [hop]
          have Ha := Ht.asked (t.g.asked + 1)
          obtain ⟨t1, h1, H1⟩ := Ha.fishPush (t.g.orc t.g.asked)
          have h2 : siTime t = .ok (.none, t1) := by
            have : ask t = .ok (t.g.orc t.g.asked, t.setG { t.g with asked := t.g.asked + 1 }) := rfl
            rw [siTime, bind_ok this, Ha.selected, bind_ok h1]; rfl
          rcases same_siTime t k hfin with ⟨e', y1, -⟩ | ⟨e', t', y1, y2, -⟩
          · rw [h2] at y1; cases y1
          · rw [h2] at y1; cases y1
            refine ⟨_, _, y2, .one (c := b.follow (b.toFish.on (g.flt.ofInt (t.g.orc t.g.asked) :: b.stack))) ?_ ⟨⟨t1, H1, ?_⟩, follow_mind _ _, fun _ => hq⟩⟩
            · rw [ha]
              refine List.mem_map.mpr ⟨t.g.orc t.g.asked, ?_, rfl⟩
              rw [swims_orc Ht]
              exact hck _
            · rw [follow_same (c := b.toFish.on (g.flt.ofInt (t.g.orc t.g.asked) :: b.stack)) mind rfl rfl]
              show _ = veil b.deep _
              rw [hd, ← hk]; rfl
      | other =>
        cases hd : b.deep with
        | true =>
          rw [hd] at ha
          exact ⟨_, _, rfl, .idle (by rw [ha]; simp)⟩
        | false =>
          rw [hd] at ha
          exact absurd ha hne

/-! Ticks and turns. -/

open Ref.Star (Step Steps Idle)

variable {b : Star} {fl : FloatOps}

theorem Sails.over (H : Sails R g f s b) : b.over = false := by
  obtain ⟨⟨t, Ht, -⟩, -⟩ := H
  exact Ht.over

theorem Sails.code (H : Sails R g f s b) : b.code = none := by
  obtain ⟨⟨t, Ht, -⟩, -⟩ := H
  exact Ht.code

theorem Sails.fuel (H : Sails R g f s b) : s.g.fuel = f := by
  obtain ⟨⟨t, Ht, rfl⟩, -⟩ := H
  rw [← Ht.fuel]
  cases b.deep <;> rfl

theorem Sails.cell (H : Sails R g f s b) : s.g.field.get s.cur.ip.pos = b.cell b.x b.y := by
  obtain ⟨⟨t, Ht, rfl⟩, -⟩ := H
  have := Ht.ipGet
  rw [ipGet_run] at this
  rw [← (Prod.mk.inj (Except.ok.inj this)).1]
  cases b.deep <;> rfl

theorem Sails.rest (H : Sails R g f s b) : s.rest = [] ∧ s.cur.ip.stopped = false ∧ s.g.inp = b.inp ∧ s.g.exitcode = g.exitcode ∧
    ∃ o : List (List Int), s.g.eff = g.eff ++ o.map Eff.out ∧ o.flatten = b.out := by
  obtain ⟨⟨t, Ht, rfl⟩, -⟩ := H
  have := Ht.rest
  cases b.deep <;> exact this

/-- The fish moves on. -/
theorem Sails.move (H : Sails R g f s b) : ∃ ip', s.cur.ip.next s.g.cfg.dims s.g.cfg.topo s.g.field = .ok ip' ∧ Sails R g f (s.setIP ip') b.swim := by
  obtain ⟨⟨t, Ht, rfl⟩, mind, dry⟩ := H
  obtain ⟨ip', h1, H1⟩ := Ht.move
  refine ⟨ip', ?_, ⟨t.setIP ip', H1, ?_⟩, mind, dry⟩
  · rw [← h1]
    cases b.deep <;> rfl
  · show _ = veil b.deep _
    cases b.deep <;> rfl

theorem idle_steps {n : Nat} {b c : Star} (h : Idle fl R clock n b c) : Steps fl R clock n b c := by
  induction h with
  | zero => exact .zero _
  | snoc _ h2 _ ih => exact .snoc ih h2

theorem idle_prefix {n j : Nat} {b c : Star} (h : Idle fl R clock n b c) (hj : j ≤ n) : ∃ d, Idle fl R clock j b d := by
  induction h with
  | zero => obtain rfl : j = 0 := by omega
            exact ⟨_, .zero _⟩
  | @snoc m b c d h1 h2 h3 ih =>
    by_cases e : j = m + 1
    · subst e; exact ⟨_, .snoc h1 h2 h3⟩
    · exact ih (by omega)

theorem steps_trans {m n : Nat} {b c d : Star} (h1 : Steps fl R clock m b c) (h2 : Steps fl R clock n c d) : Steps fl R clock (m + n) b d := by
  induction h2 with
  | zero => exact h1
  | snoc _ hs ih => exact .snoc (ih h1) hs

theorem idle_trans {m n : Nat} {b c d : Star} (h1 : Idle fl R clock m b c) (h2 : Idle fl R clock n c d) : Idle fl R clock (m + n) b d := by
  induction h2 with
  | zero => exact h1
  | snoc _ hs hd ih => exact .snoc (ih h1) hs hd

theorem within_steps {n : Nat} {b c : Star} (h : Star.Within fl R clock b) (hs : Steps fl R clock n b c) : Star.Within fl R clock c :=
  fun m d hd => h (n + m) d (steps_trans hs hd)

/-- One iteration of the loop of a tick. -/
theorem star_step (hst : g.cfg.strings = .multispace) (hck : ∀ n, g.orc n ∈ clock) (H : Sails R g f s b) (hne : b.acts g.flt R clock ≠ []) (hf : 0 < f) (k : Nat) :
    (∃ s' c, tickLoop (k + 1) s = .ok ((), s') ∧ Step g.flt R clock b c ∧ Sails R g f s' c) ∨
    (∃ s' c, tickLoop (k + 1) s = tickLoop k s' ∧ Idle g.flt R clock 1 b c ∧ Sails R g f s' c) ∨
    (∃ s' c, tickLoop (k + 1) s = .ok ((), s') ∧ Step g.flt R clock b c ∧ c.over = true ∧ Drowned g s' c.toBef) := by
  have step : ∀ {c : Star}, c ∈ b.acts g.flt R clock → c.over = false → Step g.flt R clock b c.swim := fun {c} hc ho =>
    ⟨H.over, c, hc, by rw [if_neg (by rw [ho]; decide)]⟩
  have last : ∀ {c : Star}, c ∈ b.acts g.flt R clock → c.over = true → Step g.flt R clock b c := fun {c} hc ho =>
    ⟨H.over, c, hc, by rw [if_pos ho]⟩
  obtain ⟨m, hm⟩ : ∃ m, f = m + 1 := ⟨f - 1, by omega⟩
  obtain ⟨e, s1, h1, h2⟩ := sails_exec hst hck H hne m hm
  have h1 : execute s.g.fuel (s.g.field.get s.cur.ip.pos) s = .ok (e, s1) := by rw [H.fuel, H.cell]; exact h1
  cases h2 with
  | one hc H1 =>
    obtain ⟨ip', h3, H2⟩ := H1.move
    exact .inl ⟨_, _, tickLoop_none h1 h3, step hc H1.over, H2⟩
  | idle hc =>
    obtain ⟨ip', h3, H2⟩ := H.move
    exact .inr (.inl ⟨_, _, tickLoop_skip h1 h3, .snoc (.zero _) (step hc H.over) rfl, H2⟩)
  | @stops _ c ip hc ho hi hd =>
    refine .inr (.inr ⟨_, c, tickLoop_none (ip' := ip.stop) h1 (by rw [hi]; exact stop_next _ _ _ _), last hc ho, ho, ⟨rfl, hd.rest, hd.inp, hd.code, hd.out⟩⟩)
  | unknown hc hd =>
    obtain ⟨ip', h3, H2⟩ := H.move
    refine .inl ⟨_, _, ?_, step hc H.over, H2⟩
    have h4 : afterExec .unimp s = .ok (.none, s) := by
      show handle .unimp s = _
      obtain ⟨⟨t, Ht, rfl⟩, -⟩ := H
      rw [hd]
      have hh : (veil true (hooked (Vec.ofList [b.cast, 0], b.hook) t)).cur.handler = .fish := (swims_finny Ht).handler
      rw [handle, bind_ok (get_run _), hh]
      have hmd : isMode modeDive (veil true (hooked (Vec.ofList [b.cast, 0], b.hook) t)) = .ok (true, veil true (hooked (Vec.ofList [b.cast, 0], b.hook) t)) := by
        show Except.ok (hasMode modeDive modeDive, _) = _
        rw [show hasMode modeDive modeDive = true from by decide]
      exact (bind_ok hmd).trans rfl
    rw [FishStar.tickLoop_tail, bind_ok h1, bind_ok h4]
    simp only [true_or, if_true]
    rw [bind_ok (ipNext_run h3)]
    rfl
  | dies he hc hs =>
    obtain ⟨s', h3, h4⟩ := tickLoop_dies he h1 hs k
    exact .inr (.inr ⟨s', _, h3, last hc rfl, rfl, h4⟩)

/-- The loop of a tick. -/
theorem tickLoop_star (hst : g.cfg.strings = .multispace) (hck : ∀ n, g.orc n ∈ clock) (hf : 0 < f) (k : Nat) :
    ∀ {s : St} {b b0 : Star} {j : Nat}, Sails R g f s b → Star.Within g.flt R clock b → Idle g.flt R clock j b0 b → f ≤ j + k →
    (∃ s' c n, tickLoop k s = .ok ((), s') ∧ Steps g.flt R clock (n + 1) b0 c ∧ (Sails R g f s' c ∨ c.over = true ∧ Drowned g s' c.toBef)) ∨
    (tickLoop k s = .error .fuel ∧ ∃ n c d, Steps g.flt R clock n b0 c ∧ Idle g.flt R clock f c d) := by
  induction k with
  | zero =>
    intro s b b0 j H hw hi hj
    obtain ⟨d, hd⟩ := idle_prefix hi (show f ≤ j by omega)
    exact .inr ⟨rfl, 0, b0, d, .zero _, hd⟩
  | succ k ih =>
    intro s b b0 j H hw hi hj
    rcases star_step hst hck H (hw 0 b (.zero _) H.over) hf k with ⟨s', c, h1, h2, h3⟩ | ⟨s', c, h1, h2, h3⟩ | ⟨s', c, h1, h2, h3, h4⟩
    · exact .inl ⟨s', c, j, h1, .snoc (idle_steps hi) h2, .inl h3⟩
    · rw [h1]
      exact ih h3 (within_steps hw (idle_steps h2)) (idle_trans hi h2) (by omega)
    · exact .inl ⟨s', c, j, h1, .snoc (idle_steps hi) h2, .inr ⟨h3, h4⟩⟩

theorem tick_star (hst : g.cfg.strings = .multispace) (hck : ∀ n, g.orc n ∈ clock) (hf : 0 < f) (H : Sails R g f s b) (hw : Star.Within g.flt R clock b) :
    (∃ s' c n, tick s = .ok ((), s') ∧ Steps g.flt R clock (n + 1) b c ∧ (Sails R g f s' c ∨ c.over = true ∧ Drowned g s' c.toBef)) ∨
    (tick s = .error .fuel ∧ ∃ n c d, Steps g.flt R clock n b c ∧ Idle g.flt R clock f c d) := by
  have h := tickLoop_star hst hck hf f H hw (.zero _) (by omega)
  unfold tick
  rw [bind_ok (getFuel_run s), H.fuel]
  exact h

/-- Some turns. -/
theorem turns_star (hst : g.cfg.strings = .multispace) (hck : ∀ n, g.orc n ∈ clock) (hf : 0 < f) (k : Nat) :
    ∀ {s : St} {b : Star}, Sails R g f s b → Star.Within g.flt R clock b →
    (∃ s' c n, s.alone.turns k = .ok s'.alone ∧ Steps g.flt R clock n b c ∧ k ≤ n ∧ Sails R g f s' c) ∨
    (∃ s' c n, s.alone.turns k = .ok ⟨[], s'.g⟩ ∧ Steps g.flt R clock n b c ∧ c.over = true ∧ Drowned g s' c.toBef) ∨
    (s.alone.turns k = .error .fuel ∧ ∃ n c d, Steps g.flt R clock n b c ∧ Idle g.flt R clock f c d) := by
  induction k with
  | zero => exact fun {s b} H hw => .inl ⟨s, b, 0, rfl, .zero _, Nat.le_refl 0, H⟩
  | succ k ih =>
    intro s b H hw
    obtain ⟨r1, r2, -⟩ := H.rest
    rcases tick_star hst hck hf H hw with ⟨s', c, n, h1, h2, h3 | ⟨h3, h4⟩⟩ | ⟨h1, h2⟩
    · obtain ⟨q1, q2, -⟩ := h3.rest
      have ht := turns_cons (turn_alone r1 r2 h1 q2 q1) k
      rw [ht]
      rcases ih h3 (within_steps hw h2) with ⟨s2, d, m, e1, e2, e3, e4⟩ | ⟨s2, d, m, e1, e2, e3⟩ | ⟨e1, m, d, e, e2, e3⟩
      · exact .inl ⟨s2, d, n + 1 + m, e1, steps_trans h2 e2, by omega, e4⟩
      · exact .inr (.inl ⟨s2, d, n + 1 + m, e1, steps_trans h2 e2, e3⟩)
      · exact .inr (.inr ⟨e1, n + 1 + m, d, e, steps_trans h2 e2, e3⟩)
    · have ht := turns_cons (turn_last r1 r2 h1 h4.stopped h4.rest) k
      rw [ht, turns_over]
      exact .inr (.inl ⟨s', c, n + 1, rfl, h2, h3, h4⟩)
    · exact .inr (.inr ⟨turns_wrong r1 r2 h1 k, h2⟩)

end
end Angler
end Funge
